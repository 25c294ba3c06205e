# Formal model of dstucrypt/dstu-engine: design

The code in /repo is C. It is read as text, never built or run. The model is
a set of total, computable Lean 4 functions under `lean/Verif/Model`, one per C
function, each with a comment citing the file and lines it models. The
specifications the properties refer to are in `lean/Verif/Spec` and do not use
the model. Helper lemmas are in `lean/Verif/Lemmas`. Property theorems are in
`lean/Verif/Props`, with an `example` beside each showing that its hypotheses
are met by a concrete case.

## Conventions

* `byte` is `BitVec 8`, `word32` is `BitVec 32`, byte buffers are `List (BitVec 8)`.
* A function that mutates through a pointer returns the new value.
* A C loop is a structural recursion or a fold. A loop without a static bound
  (signing, key generation) takes the list of random draws as its fuel.
* An external call (OpenSSL, libc, iconv) is a parameter or an explicitly
  modelled stand-in; its assumed behaviour is listed under "Trusted base".
* Undefined behaviour (out-of-bounds access, use after free, signed overflow,
  null dereference) is a distinct outcome of the model, never a default value.
* `BIGNUM` is `Nat`. In the value models allocations succeed. Failures are the
  subject of separate models, `Model/FailLib`, `FailEngine`, `FailKeylib`: they
  follow the C code call by call, with every outcome of a call and every branch
  on data taken from an oracle, and keep only which objects are allocated
  (`Model/Res`). A theorem about all oracles covers every combination of
  failures. A call whose result the code does not check, although it goes on to
  depend on it, is marked `weak`. Theorems that hold only when those calls
  succeed say so by the one hypothesis `Never .weak w`; witnesses show what
  happens otherwise.
* Where the code does not have a property, the negation is proved with a concrete
  witness (suffix `_refuted`), and the part that holds is proved with the suffix
  `_partial`, with the missing part named in its comment.

## Plan per property

| property | model | how it is proved |
|---|---|---|
| C01 | `gostcrypt`, `gostdecrypt` on 32 explicit rounds | each round is an involution; rewriting; no computation |
| C02 | tables built by `kboxinit`, `f` | spec on nibble functions; table lookup lemma, bit extensionality |
| C03, C04 | `gost_key*`, `magma_key`, `*_get_key` | `(k - m) + m = k` in `BitVec 32`, byte split/join lemmas |
| C05 | `gost_enc/dec` recursion on block count | induction |
| C06, C07, C09, C10 | `dstu_cipher_do_cipher` on lists with `num`, `buf`, `iv` | refinement to a byte-at-a-time CFB spec; invariant `buf = E(iv)` at boundaries; induction over updates |
| C08 | the same function over a byte memory with two pointers | simulation with the list version, `in = out` or disjoint |
| C11, C12 | `dstu_cipher_init`, `dstu_cipher_ctrl` | key-then-IV proved; IV-then-key and "S-box persists over re-init" refuted by witness; the exact output in the refuted cases from the byte machine of C06 |
| C13, C14 | `set/get_asn1_parameters` on byte lists | round trip by list computation; rejection by cases |
| C15 | `unpack_sbox`, `pack_sbox`, `dstu_get_sbox` | nibble lemmas |
| C16 | `mac_block`, `gost_mac`, `get_mac` | spec by blocks; bit-length truncation refuted (the code has `1 < rembits`), whole-byte tags proved |
| C17-C19, C22 | `hash_step`, `hash_block`, `finish_hash` | spec with 256-bit words; streaming invariant; induction over updates; `len < 2^60` guard, refuted without |
| C20, C21 | `dstu_md_*` over a heap of contexts with an explicit pointer to the cipher context | separation invariant by induction over operations |
| C23, C24, C26-C30 | `dstu_do_sign/verify`, `dstu_pkey_sign/verify`, DER octet strings | abstract group with order; instance on Mathlib's Weierstrass curve group over a binary field |
| C25 | `dstu_pkey_sign` buffer protocol | case analysis |
| C31, C32 | `bn_trace`, `dstu_point_compress/expand` over a finite field of characteristic 2 with polynomial-basis encoding | trace algebra; existence of the field operations shown on an executable carry-less arithmetic model |
| C33 | the ten table entries | irreducibility by Rabin's criterion with kernel arithmetic; on-curve by kernel computation; primality of the orders from elliptic curve certificates; cyclic subgroup by counting abscissae |
| C34-C37 | `group_from_*`, `asn1_from_key`, `key_from_asn1` | case analysis and round trip |
| C38, C39 | `param_cmp`, `param_copy` | case analysis; refuted on explicit default / stale S-box, partial proved |
| C40, C41 | `priv_*`, `pub_*` | round trip from C31, C35, C36, C47 |
| C42, C43 | `dstu_generate_key`, `dstu_pkey_*` | induction over draws and operations |
| C44, C46 | `dstu_rbg_*` with explicit lock and seeding outcomes | spec stream; induction; cleanup refuted |
| C45 | threads as small-step programs over the shared generator with a lock | invariant over all schedules |
| C47 | `bn_encode`, `reverse_bytes` | induction |
| C48-C50 | engine registration, error strings as state machines with a heap of methods | invariant; double finish refuted |
| C51, C52 | `KeyStore*` over a heap of reference counted objects | induction over operations |
| C53, C54 | `parsePKCS12` over bag trees with arbitrary decryption outcomes | mutual induction; dangling pointer refuted |
| C55-C60 | `parseJKS`, `fromKeyProtector`, `toUTF16BE` over a bounded buffer, SHA-1 and X.509 as parameters | writer spec, round trip; out-of-bounds read, trusted entry and unknown algorithm refuted by witness |
| C61, C62 | `decryptKey6`, `pkdf` | from C05; MAC independence refutes C62 |
| C63, C64, C66 | `getPrivateKeyNum`, `keysFromPKCS8`, `makePoly` | induction, case analysis |
| C65 | `read*_bio` loops over a list of read outcomes; `readPKCS12`, `readJKS`, `readKey6` over a file with a position | induction; read error after data refuted |
| C67 | `dstu_pkey_verify` on raw and wrapped signatures | DER octet string decoder; refuted for raw signatures beginning like an octet string |
| C68 | `dstu_pkey_ctrl_str` | equality with the binary control; refuted for the zero S-box |
| C69 | `KeyHeap` over all histories | counting invariant of allocated cells |
| C70 | table of all `DSTUerr` call sites | decision over the whole table |
| C71 | `fromKeyProtector` with an undecodable key | refuted by witness |
| C72 | `decryptKey6` with its uninitialised bytes as a parameter | independence of the parameter; refuted otherwise |
| C73 | `cryptopro_key_meshing`, `acpkm_magma_key_meshing` | induction over the list of masks |
| C74 | `param_cmp`, `pub_cmp` as called by `EVP_PKEY_cmp` | from C38, C40, C41 |
| C75, C76 | `FailLib`: failure paths of dstulib | resource triples `Safe`, `Reports` over all oracles, by induction over loops |
| C77, C78 | `FailEngine`: failure paths of the engine | the same |
| C79, C80 | `dstu_asn1_pkey_ctrl`, sequence of digest and signature calls of `EVP_DigestSign` | composition of C17-C19 with C23 and C29 |
| C81, C82 | `FailKeylib`: failure paths of keylib | resource triples with a relation between result and allocated objects (`Runs`), induction over safes, bags, entries |
| C83, C84 | order of calls of CMS, PKCS#7 and PBES2 over `dstu_cipher_init`, `get/set_asn1_parameters`, updates | C06, C07, C13 and independence of the stored key stream block; short content and other S-boxes refuted, with the exact output for all pieces and S-boxes |
| C85 | `EVP_PKEY_copy_parameters` over the methods the engine sets | case analysis and C38; refuted for targets without parameters |
| C86 | the four lookup callbacks, one shared access at a time, any number of threads and any schedule | invariants over schedules; a measure for termination; refuted for first lookups |
| C87 | `ERR_DSTU_error`, one shared access at a time, any number of threads and other libraries | invariants over schedules, on top of C50; refuted for the first errors |
| C88 | generation, both encoders and decoders, digest-sign and digest-verify, on the ten curves | composition of C40, C41, C42, C74, C80; refuted for abscissa 1 on two curves |
| C89 | `dstu_asn1_pub_decode`, `dstu_point_expand`, `dstu_do_verify` on the ten curves | point halving and Lagrange's theorem on the group of doubles; refuted for zeros and for a = 0 |
| C90 | the ten groups | counting points through the doubles; refuted: 1 is recorded |
| C91 | `default_sbox` against a table of rows | decision over all 8 x 16 entries, then C06, C17 |
| C92 | cleanup functions; `key6Frame`, `privDecodeBuffer`, `rbgInitFrame`: what dead memory holds | case analysis; refuted for the password-derived key and the imported private key |
| C93 | `dstu_asn1_pkey_bits` | case analysis, C90 for the bounds on the order |
| C94 | the eight `gost_subst_block` constants; `init_gost_hash_ctx`, `start_hash`, `hash_block`, `finish_hash` on the library context | decision over all entries of all tables; induction over pieces and messages |
| C95 | `EVP_CIPHER_CTX` objects as a heap (Model/CipherEvp), every operation of the interface | simulation: each context stands for a stream (key, S-box, IV, direction, ciphertext so far); induction over the history |
| C96 | the templates of `dstulib/asn1.c` as data, the interpreter of templates as a stand-in | for every template with distinct tags: mutual induction over templates, both directions; then the DER layout as a relation, shown to hold of exactly one byte string |
| C97 | the templates of the key library as data | from the theorems on templates (C96) and on containers (C61, C64) |
| C98 | the three printing functions; OpenSSL's `do_EC_KEY_print` as a stand-in giving a list of items | case analysis; C40, C42 for imported and generated keys |
| C99 | signing, verifying and the size function on key objects with possibly missing parts and arbitrary parameters; OpenSSL's arithmetic as arbitrary functions | case analysis, induction over the random numbers; refinement to the model of C23 on valid parameters |
| C100 | OpenSSL's PrivateKeyInfo and SubjectPublicKeyInfo around the ASN.1 method, at byte level | case analysis along the decoder; specification as relations between values and byte strings; C40, C41, C96, C99 |
| C101 | PKCS#8 attributes and X509_SIG at byte level; keysFromPKCS8, Key-6 and JKS import on them | decoders shown equivalent to relational specifications by induction over SET OF; composed with C55, C64, C97, C100 |
| C103 | the interpreter of templates with all of BER | mutual induction over templates as for C96, with an inductive relation for strings in pieces; all byte strings |
| C104 | `group_from_asn1`, `key_from_asn1`, `makeECGROUPFromSpec` against a description of the curve without functions of the model (`Spec/CurveDesc`) | C32's characterisation of expansion over any irreducible polynomial of odd degree; counting of exponents; composition with C100 |
| C105 | the conversion of `size_t` to `int` in `hash_to_field`, `dstu_do_verify`, `reverse_bytes_copy` and in the calls with a PKCS#12 password (`Model/Lengths`) | reduction to the functions on lists of bytes; arithmetic of the wrapped length |
| C106 | `dstu_asn1_priv_decode`, `dstu_do_sign`, `dstu_do_verify`, the encoders (`Model/Key`, `Model/Sign`) | the prime order of the base point (C33); signing depends on the number modulo the order; witnesses on every built-in curve |
| C107 | `dstu_pkey_verify`, `dstu_do_verify` (`Model/Sign`) | false for every accepted signature: the key `-Q - 2 s r⁻¹ G` also accepts it; at most eight keys of the subgroup, by counting points with one value of `r` |
| C108 | `dstu_pkey_verify`, `dstu_do_verify`, `hash_to_field` (`Model/Sign`) | false for every accepted signature: a digest that differs in a lost bit of the product, and `2 d r - s` in place of `s`; at most four field elements and eight numbers, by counting |
| C109 | `dstu_do_sign`, `dstu_pkey_verify` (`Model/Sign`) | the nonce `s - d r` modulo the order; the prime order of the base point (C33) |
| C110 | `BN_rand_range` of OpenSSL 1.1.1 as a stand-in, drawing from `dstu_rbg_bytes` (`Model/Draws`) | induction over the rounds and draws; counting residues for uniformity |
| C111 | sequences of calls of the generator with added entropy (`Model/Rbg`) | induction over the calls; refuted once seeded |
| C112 | draws of copies of a state, signatures with them (`Model/Draws`, `Model/Sign`) | induction over the draws; the equation of the signature for the key; refuted for copies |
| C113 | key generation at any moment in the life of a process (`Model/Draws`) | counting the states of the generator; refuted |
| C114 | the state of the generator after requests, generation and signing | an explicit inverse of the step of the generator; refuted |
| C115 | the stream of the generator as iterates of one map of 64-bit states | the map is injective (cipher and exclusive or are), so orbits are cycles of at most 2^64 states |
| C116 | the header of Java key stores for both byte orders, the reading of parameters for every size of `long`, the bits of the generator for both byte orders (`Model/Portable`) | case analysis of the header; integers that fit are unchanged; refuted from C37's witness; induction over the bits |
| C117 | the cipher, the digest and the generator with the conditions they test and the table entries they read (`Model/Steps`), proved to compute what the models without steps compute | relation between two runs, by induction over pieces, blocks and rounds; refuted by computing the key from the entries |
| C118 | the threads of `Model/RbgThreads`, infinite schedules; a copy of the process runs one thread only | every step lowers a count of the steps left, some thread can always go on (C45), so a fair schedule brings the count to zero; refuted in the child by an invariant |
| C119 | `gost_mac`, `gost_mac_iv` of `Model/Gost89` as functions of the message | rounds can be undone, so the chain of blocks is injective in each block; refuted by pairs of messages for every key |
| C120 | digest contexts of `Model/Md` after any histories; the list of steps of the standard for a message is in `Spec/HashCollision` | the length block gives equal lengths, then induction over the two chains of steps |
| C121 | HMAC and PBKDF2 of OpenSSL as sequences of calls to the digest method of `Model/Md` (`Model/Hmac`); RFC 2104 and RFC 8018 in `Spec/Hmac` | simulation of each call by what the contexts stand for (C17), then induction over pieces, messages, rounds and blocks |
| C122 | `digestVerify` of `Model/Message` for sets of messages | C108 bounds the field elements, the digest is recovered from its field element, then C120; pigeonhole |
| C123 | the cipher and signatures of messages with any S-box | the highest bits go through additions and exclusive ors unchanged, by induction over rounds and blocks; constant rows make every round independent of the key |
| C124 | decryption of changed and cut ciphertexts | inside a block the byte machine passes changes through, and after a whole block it depends on that block only |
| C125 | `SignFaults`: signing and verifying with values, every call failing as an oracle says | call by call, against the model without failures |
| C126 | `KeyFaults`: key generation, compression and expansion with values, every call failing as an oracle says | the same |
| C127 | `ImportFaults`: built-in and custom groups, parameters, private and public keys with values, every call failing as an oracle says | the same |
| C128 | `ExportFaults`: search for the identifier, parameters, private and public keys with values, every call failing as an oracle says | the same, and the round trips of C35, C36, C40, C41 |
| C129 | `ReadFaults`: number, curve and key from attributes, and the keys of a PKCS#8 structure, with values, every call failing as an oracle says | the same; steps of the two failing runs; a kernel check of a point on the curve of degree 163 with the other coefficient |
| C130 | `StoreFaults`: reading and import of PKCS#12 files with values and memory, every call of OpenSSL failing as an oracle says | induction over bags and safes: a successful run is the run without failures, then C53; steps of the failing run |
| C131 | `PassFaults`: conversion of the password of a JKS store and the import that uses it, with values, the calls of the conversion failing as an oracle says | induction over the rounds of the conversion, against the model without failures; steps of the failing run for all passwords of ASCII characters |
| C102 | `dstu_md_init` reading the key object in a byte memory | words and tables in memory related to the digest of C17; refutation by evaluating two S-boxes in the kernel |

No property is considered inexpressible in a model.

## Trusted base

### Logic

* The kernel of Lean 4.33.0, and the definitions of Mathlib where they occur in
  statements (finite fields, Weierstrass curves and their point group,
  multisets). No axiom of our own, no `sorry`, no `native_decide`, no
  `bv_decide`. `decide +kernel` is used for closed finite computations, which
  the kernel evaluates itself.

Lean reports (`#print axioms`) for the 598 property theorems:

* no axiom at all (2): `C48_list`, `C79_signer_info`.
* `[propext]` (15): `C49_reuse_refuted`, `C49_double_free_refuted`, `C49_name_refuted`, `C86_same_refuted`, `C86_failure_refuted`, `C74_types`, `C85_types`, `C85_empty_refuted`, `C66_refused_alike_refuted`, `C54_pkcs12_refused_partial`, `C54_pkcs12_dangling_refuted`, `C98_no_secret_partial`, `C98_missing_refuted`, `C93_bits`, `C130_read_refuted`.
* `[propext, Quot.sound]` (48): `C47_reverse_copy_involution`, `C09_no_write`, `C11_key_then_iv`, `C11_full_refuted`, `C11_iv_then_key_partial`, `C12_restart_refuted`, `C12_reject`, `C12_persist_refuted`, `C91_bytes`, `C110_in_range`, `C48_known`, `C48_loaded`, `C48_unknown_partial`, `C48_zero_refuted`, `C49_lifetime_partial`, `C86_found_partial`, `C86_ready_partial`, `C86_alone`, `C92_digest_partial`, `C92_generator_partial`, `C92_seed_partial`, `C87_returns`, `C87_first_refuted`, `C21_ctrl_result`, `C57_short_refuted`, `C54_key6_other_type`, `C62_mac_ignored`, `C52_overwrite_refuted`, `C66_described`, `C16_length_refuted`, `C79_default_digest`, `C79_others_refused`, `C94_permutations`, `C94_no_memory`, `C116_numbers_partial`, `C98_curve_refuted`, `C44_split`, `C111_handed_on`, `C111_pool_refuted`, `C111_pool_left_alone`, `C118_child_refuted`, `C111_added_entropy_refuted`, `C112_copies_refuted`, `C99_missing`, `C99_missing_number`, `C99_size`, `C117_generator_partial`, `C130_dangling_refuted`.
* `[propext, Classical.choice, Quot.sound]` (533): all property theorems not listed here.

### Reading of the code

The model is written by hand from the C text; nothing is extracted
mechanically. Each definition cites file and lines. The table at the end lists
all functions. The machine is taken to be LP64 and little-endian (`int` has 32
bits, `long` 64), which matters for `ASN1_INTEGER_get` (C37), the counter of
the hash (C22), the time in the seed of the generator (C44) and the integers of
Java key stores. C116 says what changes on other machines when files and parameters
are read.

The reading is compared with recorded behaviour of the code in `Props/Vectors.lean` and `Props/VectorsHash.lean`: the kernel
evaluates the model on the repository's own test vectors and gets the recorded results. These are tests, not properties:

* the three digests and the six encryptions and decryptions of tests/test.cpp;
* the three signatures of tests/dstu.cpp (curves of degrees 163, 257 and 431, recorded private keys and nonces), byte by byte;
* the two recorded signatures of tests/test.cpp are accepted for the keys in public1.pem and public2.pem, and the compressed points in
  these files are those of the two private keys in tests/Key-6.dat.

Outside the committed files, the model's reader of Key-6.dat was evaluated with `#eval` (10000 digests are too many for the kernel): with the
password of the test it gives the PKCS#8 structure whose two private keys are those used above.

### Behaviour assumed of libraries

These are the assumptions on code outside the repository. They are parameters
of the theorems or definitions marked as stand-ins, each with a comment.

* `BIGNUM`: exact arithmetic on natural numbers; `BN_rand_range(n)` gives a
  number below `n`; `BN_hex2bn` reads hexadecimal; after one failure of
  `BN_CTX_get` all later ones in the same context fail.
* Elliptic curves: `EC_POINT_*` is the group law of Mathlib's
  `WeierstrassCurve.Affine.Point` over the binary field, `EC_GROUP_cmp` compares
  field, coefficients, base point, order and cofactor, setting affine
  coordinates fails for points that are not on the curve,
  `EC_GROUP_set_generator` checks the size of the order, `EC_KEY_set_group`
  copies, `BN_GF2m_mod_solve_quad_arr` is the contract `QuadSolver` (C32).
* ASN.1: the decoder of octet strings (`OctetDecoder`) and of parameters
  (`ParamCodec`) inverts the encoder and ignores what follows; C96 proves this
  contract of the templates, run by the stand-in of `Model/Asn1`.
  `PKCS8_pkey_set0` and `X509_PUBKEY_set0_param` take ownership only on success.
* Object identifiers: `ObjTable`, distinct non-zero numbers.
* `EVP`: `EVP_PKEY_assign` and `EVP_PKEY_set_type` release the old key;
  `EVP_PKEY_cmp` compares types, then parameters, then public keys;
  `EVP_DigestSign` and `EVP_DigestVerify` call the methods in the order written
  in `Model/Message`.
* Engines: `ENGINE_get_*` hand out what the callbacks give, a reference count
  calls `finish` when it drops to zero; error strings are kept in one table by
  packed code, library numbers are below 256.
* Threads: `CRYPTO_THREAD_run_once` runs its argument once before any caller
  returns, `CRYPTO_THREAD_write_lock` excludes other holders.
* Containers: the PKCS#12, PKCS#8, X.509 decoders, decryption and SHA-1 are
  arbitrary functions (`P12Lib`, `P8Env`, `JksLib`, `Key6Lib`). `iconv` follows
  its POSIX contract, `BIO_read_ex` gives any chunks and then an end or an
  error, `BIO` functions fail on NULL.
* C library: `memcpy`, `memset`, `memcmp` on disjoint buffers; `OPENSSL_malloc(0)`
  gives NULL.

### What is not modelled

* Secrecy, and timing beyond C117 (which conditions are tested and which table
  entries are read in the cipher, the digest and the generator; the arithmetic
  of signatures is OpenSSL's). Erasing of memory is C92, which follows
  the buffers of the code and not copies a compiler may leave.
* The layout of the text written by the print functions (the items shown are in C98); their failure paths are in `FailEngine`.
* OpenSSL's interpreter of ASN.1 templates is a stand-in: `Model/Asn1` reads
  DER with any length octets, `Model/Ber` all of BER for the templates of the
  repository (C103), and `Model/KeyDer`, `Model/KeyFile` all of BER for the
  structures of OpenSSL around keys (C100, C101). Contents of values of ASN.1
  types that the code does not look at are judged by an arbitrary function.
* Data and failures are in separate models: a theorem about values assumes that
  allocations succeed, and one about failures does not see the values, except
  where the values decide what is leaked (`P8Shape`, `EntryShape`), and for
  signing, verifying, generating keys, compressing and expanding points, which
  `SignFaults` and `KeyFaults` model with both (C125, C126).
* `BN_rand_range` is a stand-in for that of OpenSSL 1.1.1 (`Model/Draws`); where
  theorems speak of draws as a list, they are arbitrary numbers below the order
  or failures (C110 shows that the engine's generator gives such draws).
* Command line tests, build scripts and generated documentation.

## Defects found

Each is a theorem ending in `_refuted`; MANIFEST.json and the comment at the
theorem tell which part of the property remains.

| property | defect |
|---|---|
| C11 | initialisation with the IV first and the key later leaves a stale feedback block |
| C12 | changing the S-box keeps the position in the block; a later key restores the default S-box |
| C16 | MAC length in bits not divisible by 8 is truncated wrongly; length bound |
| C22 | bit counter overflows at 2^60 bytes |
| C26, C27 | a digest whose low bits are zero maps to 0; signing it never returns |
| C28 | second encodings and trailing bytes of signatures are accepted |
| C31, C36, C40, C41 | the point with x = 1 and trace y = 0 of the degree-163 curve cannot be compressed |
| C37 | degrees are taken modulo 2^32 |
| C38, C74 | an explicit default S-box is taken for different parameters; comparison without public key dereferences NULL |
| C39, C69, C77 | copying parameters keeps or leaks the old S-box |
| C46 | generator used after cleanup uses a freed lock |
| C47, C68 | encoding of the number zero reports failure |
| C48, C49 | lookup of identifier 0 reports success; methods used after finish |
| C52 | a place of a store set twice leaks |
| C54 | failed import leaves a dangling store pointer |
| C56, C57 | Java key stores: reads outside the input |
| C58, C59, C71 | trusted certificates refused; keys of unknown algorithms dropped; NULL store released |
| C60 | empty password refused |
| C62, C72 | Key-6: MAC not checked; uninitialised bytes decoded |
| C64, C81 | a negative exponent makes NULL be dereferenced |
| C65 | read errors after data are taken for the end |
| C67 | raw signatures that look like octet strings are misread |
| C75-C78, C81, C82 | unchecked allocations and ignored outcomes, listed at the theorems |
| C55 | stores with the empty password refused |
| C66 | the key library accepts pentanomials the engine refuses |
| C83 | opening an enveloped message: the S-box of the sender ignored; short content decrypted without the key |
| C84 | password based encryption: short data encrypted without the key |
| C85 | parameters cannot be copied to a key without parameters |
| C86, C87 | races of threads in the lookup of methods and the first error |
| C88 | key pairs whose public half cannot be exported |
| C89 | points outside the subgroup accepted as public keys |
| C90 | cofactor recorded as 1 |
| C92 | keys left in memory after use |
| C98 | printing always fails before the curve; key objects without a key; overlong private keys |
| C102 | the digest takes the object of any key for a DSTU key |
| C105 | lengths from 2^31 on are taken modulo 2^32; so are lengths of signatures, where memory that was never written is then read |
| C106 | imported private keys of 0, and from the order on, accepted; the public key at infinity accepts forgeries |
| C107, C108 | a second public key, a second digest and a second `s` for every accepted signature |
| C111 | added entropy ignored once seeded |
| C112 | parent and child draw the same nonces after `fork`, which reveals the private key |
| C113 | at most 2^64 private keys in the life of a process; on the curve of degree 431 some are never generated |
| C114 | the generator can be run backwards from its memory |
| C115 | the random stream has a period of at most 2^64 bytes |
| C116 | Java key stores cannot be imported on big-endian machines, and the generator there takes another bit of each block than the standard says |
| C117 | the substitution tables are indexed by sums of data and key, so the caches show the key; the random mask of the key is added back before the table is read and hides nothing |
| C118 | the lock of the generator is not released in the child when another thread had it at the fork: every later request for random bytes in the child, and so every signature and key generation, waits for ever |
| C119 | a MAC of 64 bits can be used to make forgeries, zero bytes at the end are not protected, and the MAC of the empty message does not depend on the key |
| C122 | where the field is smaller than the digest, messages are exchangeable without a collision of the digest |
| C123 | S-boxes with constant rows are accepted, with which the ciphertext does not depend on the key; the S-box of zeros in key parameters makes two fixed messages exchangeable |
| C124 | encrypted data is not authenticated: a change of the ciphertext is an exact change of the data, and a cut goes unnoticed |
| C125 | a digest of zeros and a failing `BN_one`, which is not checked: signing never returns |
| C126 | the second trace of an expansion is not checked: one failing call gives the opposite point; a failed generation leaves a key with a new private and an old public part |
| C127 | for the same reason one failing call imports the opposite public key, with success reported, on every built-in curve |
| C128 | one failing call makes a built-in curve be exported by its explicit description, and another one makes a private key be exported without parameters, with success reported |
| C129 | one failing call makes the second key of a PKCS#8 structure disappear, and another one makes it a key on another curve (shown for the curve of degree 163 of the standard), with success reported |
| C130 | when a call fails while a good PKCS#12 file is read, `*ks` refers to a store that was freed; a failing read counts as the end of the file |
| C131 | the result of `BIO_write` is ignored when a password is converted: when the second one fails, half of the password is dropped, and a JKS file is accepted with a wrong password whose first half is the right one |

## Coverage of the code

Functions of the three libraries, with the modules under `lean/Verif/Model`
that model them.

| file | function (line) | model modules |
|---|---|---|
| dstulib/compress.c | `bn_trace` (14) | `Compress`, `FailLib`, `KeyFaults` |
| dstulib/compress.c | `dstu_point_compress` (44) | `Compress`, `FailLib`, `KeyFaults` |
| dstulib/compress.c | `dstu_point_expand` (115) | `Compress`, `FailLib`, `KeyFaults` |
| dstulib/gost/gost89.c | `kboxinit` (255) | `Gost89` |
| dstulib/gost/gost89.c | `f` (269) | `Gost89`, `Steps` |
| dstulib/gost/gost89.c | `gostcrypt` (278) | `Gost89`, `Steps` |
| dstulib/gost/gost89.c | `gostdecrypt` (332) | `Gost89`, `Steps` |
| dstulib/gost/gost89.c | `gost_enc` (386) | `Gost89` |
| dstulib/gost/gost89.c | `gost_dec` (397) | `Gost89` |
| dstulib/gost/gost89.c | `gost_enc_cfb` (408) | `CipherMem`, `Gost89`, `Steps` |
| dstulib/gost/gost89.c | `gost_dec_cfb` (426) | `CipherMem`, `Gost89`, `Steps` |
| dstulib/gost/gost89.c | `gost_enc_with_key` (444) | `Gost89`, `Steps` |
| dstulib/gost/gost89.c | `gost_key_impl` (451) | `Gost89` |
| dstulib/gost/gost89.c | `gost_key` (462) | `Gost89` |
| dstulib/gost/gost89.c | `gost_key_nomask` (469) | `Gost89` |
| dstulib/gost/gost89.c | `magma_key` (476) | `Gost89` |
| dstulib/gost/gost89.c | `gost_get_key` (488) | `Gost89` |
| dstulib/gost/gost89.c | `magma_get_key` (500) | `Gost89` |
| dstulib/gost/gost89.c | `gost_init` (512) | `Gost89` |
| dstulib/gost/gost89.c | `gost_destroy` (521) | `Gost89` |
| dstulib/gost/gost89.c | `mac_block` (532) | `Gost89` |
| dstulib/gost/gost89.c | `get_mac` (574) | `Gost89` |
| dstulib/gost/gost89.c | `gost_mac` (590) | `Gost89` |
| dstulib/gost/gost89.c | `gost_mac_iv` (613) | `Gost89` |
| dstulib/gost/gost89.c | `cryptopro_key_meshing` (638) | `Gost89` |
| dstulib/gost/gost89.c | `acpkm_magma_key_meshing` (656) | `Gost89` |
| dstulib/gost/gosthash.c | `swap_bytes` (32) | `Hash` |
| dstulib/gost/gosthash.c | `circle_xor8` (42) | `Hash` |
| dstulib/gost/gosthash.c | `transform_3` (53) | `Hash` |
| dstulib/gost/gosthash.c | `add_blocks` (64) | `Hash` |
| dstulib/gost/gosthash.c | `xor_blocks` (77) | inlined in `Hash.hash_step` as exclusive or of lists |
| dstulib/gost/gosthash.c | `hash_step` (89) | `Hash`, `Steps` |
| dstulib/gost/gosthash.c | `init_gost_hash_ctx` (153) | `HashLib` |
| dstulib/gost/gosthash.c | `done_gost_hash_ctx` (171) | `HashLib` |
| dstulib/gost/gosthash.c | `start_hash` (183) | `Hash`, `HashLib` |
| dstulib/gost/gosthash.c | `hash_block` (199) | `Hash`, `HashLib`, `Steps` |
| dstulib/gost/gosthash.c | `finish_hash` (240) | `Hash`, `HashLib`, `Steps` |
| dstulib/key.c | `DSTU_KEY_new` (19) | `FailLib`, `Key` |
| dstulib/key.c | `DSTU_KEY_set` (37) | `FailLib`, `KeyHeap` |
| dstulib/key.c | `DSTU_KEY_free` (54) | `FailLib`, `KeyHeap` |
| dstulib/key.c | `asn1_from_key` (66) | `ExportFaults`, `FailLib`, `Key` |
| dstulib/key.c | `group_from_asn1` (221) | `FailLib`, `ImportFaults`, `Key`, `Portable` |
| dstulib/key.c | `key_from_asn1` (374) | `FailLib`, `ImportFaults`, `Key`, `KeyHeap`, `Portable` |
| dstulib/key.c | `DSTU_KEY_CTX_new` (440) | `FailLib`, `KeyHeap` |
| dstulib/key.c | `DSTU_KEY_CTX_set` (451) | `FailLib`, `KeyHeap` |
| dstulib/key.c | `DSTU_KEY_CTX_copy` (468) | `FailLib`, `KeyHeap` |
| dstulib/key.c | `DSTU_KEY_CTX_free` (500) | `FailLib`, `KeyHeap` |
| dstulib/params.c | `curve_nid_from_group` (284) | `Curves`, `ExportFaults`, `FailLib` |
| dstulib/params.c | `dstu_get_sbox` (314) | `Sbox` |
| dstulib/params.c | `unpack_sbox` (335) | `MdKey`, `Sbox` |
| dstulib/params.c | `pack_sbox` (366) | `Sbox` |
| dstulib/params.c | `group_from_named_curve` (394) | `Curves`, `FailLib`, `ImportFaults` |
| dstulib/params.c | `group_from_nid` (477) | `Curves`, `FailLib`, `ImportFaults` |
| dstulib/params.c | `dstu_generate_key` (490) | `Draws`, `Ec`, `FailLib`, `KeyFaults`, `KeyHeap` |
| dstulib/params.c | `dstu_add_public_key` (537) | `Ec`, `FailLib`, `Key`, `KeyFaults` |
| dstulib/params.c | `reverse_bytes` (569) | `Bn` |
| dstulib/params.c | `reverse_bytes_copy` (583) | `Bn`, `Lengths` |
| dstulib/params.c | `copy_sbox` (593) | `FailLib`, `KeyHeap` |
| dstulib/params.c | `is_default_sbox` (603) | `Sbox` |
| dstulib/params.c | `bn_encode` (608) | `Bn` |
| engine/ameth.c | `dstu_asn1_param_decode` (28) | `FailEngine`, `ImportFaults`, `Key`, `Portable` |
| engine/ameth.c | `dstu_asn1_param_encode` (68) | `ExportFaults`, `FailEngine`, `Key` |
| engine/ameth.c | `dstu_asn1_param_copy` (91) | `FailEngine`, `KeyHeap` |
| engine/ameth.c | `dstu_asn1_param_cmp` (134) | `Key`, `KeyHeap` |
| engine/ameth.c | `dstu_asn1_param_print` (160) | `FailEngine`, `Print` |
| engine/ameth.c | `dstu_asn1_priv_decode` (182) | `Erase`, `FailEngine`, `ImportFaults`, `Key`, `KeyDer` |
| engine/ameth.c | `dstu_asn1_priv_encode` (275) | `ExportFaults`, `FailEngine`, `Key`, `KeyDer` |
| engine/ameth.c | `dstu_asn1_pkey_bits` (358) | `Key` |
| engine/ameth.c | `dstu_asn1_pkey_size` (369) | `FailEngine`, `Sign`, `SignAny`, `SignFaults` |
| engine/ameth.c | `dstu_asn1_pkey_free` (386) | `KeyHeap` |
| engine/ameth.c | `dstu_asn1_pub_encode` (519) | `ExportFaults`, `FailEngine`, `Key`, `KeyDer` |
| engine/ameth.c | `dstu_asn1_pub_cmp` (631) | `Key` |
| engine/ameth.c | `dstu_asn1_pkey_ctrl` (649) | `Message` |
| engine/ameth.c | `dstu_asn1_priv_print` (691) | `FailEngine`, `Print` |
| engine/ameth.c | `dstu_asn1_pub_print` (709) | `FailEngine`, `Print` |
| engine/ameth.c | `dstu_asn1_meth_new` (727) | `Engine` |
| engine/ameth.c | `dstu_asn1_meth_free` (752) | not modelled: not called (OpenSSL releases these methods) |
| engine/cipher.c | `dstu_cipher_init` (26) | `Cipher`, `Steps` |
| engine/cipher.c | `dstu_cipher_do_cipher` (50) | `Cipher`, `CipherMem`, `Steps` |
| engine/cipher.c | `dstu_cipher_cleanup` (145) | `CipherEvp` |
| engine/cipher.c | `dstu_cipher_ctrl` (151) | `Cipher` |
| engine/cipher.c | `dstu_cipher_set_asn1_parameters` (176) | `Cipher` |
| engine/cipher.c | `dstu_cipher_get_asn1_parameters` (209) | `Cipher` |
| engine/cipher.c | `dstu_cipher_new` (231) | `Engine` |
| engine/cipher.c | `dstu_cipher_free` (252) | `Engine` (release of the method in `dstu_engine_finish`) |
| engine/dstu.c | `dstu_md_get` (42) | `Engine` |
| engine/dstu.c | `dstu_cipher_get` (49) | `Engine` |
| engine/dstu.c | `dstu_pkey_meth_get` (56) | `Engine` |
| engine/dstu.c | `dstu_asn1_meth_get` (72) | `Engine` |
| engine/dstu.c | `dstu_engine_init` (88) | `Engine` |
| engine/dstu.c | `dstu_engine_finish` (94) | `Engine` |
| engine/dstu.c | `dstu_digests` (105) | `Engine` |
| engine/dstu.c | `dstu_ciphers` (128) | `Engine` |
| engine/dstu.c | `dstu_pkey_meths` (151) | `Engine` |
| engine/dstu.c | `dstu_asn1_meths` (168) | `Engine` |
| engine/dstu.c | `dstu_bind` (185) | `Engine` |
| engine/err.c | `ERR_load_DSTU_strings` (112) | `Err` |
| engine/err.c | `ERR_unload_DSTU_strings` (130) | `Err` |
| engine/err.c | `ERR_DSTU_error` (144) | `Err` |
| engine/md.c | `dstu_md_init` (25) | `Md`, `MdKey`, `Steps` |
| engine/md.c | `dstu_md_update` (41) | `Md`, `Steps` |
| engine/md.c | `dstu_md_final` (46) | `Md`, `Steps` |
| engine/md.c | `dstu_md_copy` (51) | `Md` |
| engine/md.c | `dstu_md_cleanup` (63) | `Md` |
| engine/md.c | `dstu_md_ctrl` (71) | `Md` |
| engine/md.c | `dstu_digest_new` (89) | `Engine` |
| engine/md.c | `dstu_digest_free` (111) | `Engine` (release of the method in `dstu_engine_finish`) |
| engine/pmeth.c | `dstu_pkey_init` (27) | `FailEngine`, `KeyHeap` |
| engine/pmeth.c | `dstu_pkey_init_le` (42) | `KeyHeap` |
| engine/pmeth.c | `dstu_pkey_init_be` (52) | `KeyHeap` |
| engine/pmeth.c | `dstu_pkey_cleanup` (62) | `FailEngine`, `KeyHeap` |
| engine/pmeth.c | `dstu_pkey_keygen` (74) | `FailEngine`, `KeyFaults`, `KeyHeap` |
| engine/pmeth.c | `dstu_pkey_ctrl` (126) | `FailEngine`, `KeyHeap` |
| engine/pmeth.c | `dstu_pkey_ctrl_str` (178) | `FailEngine`, `KeyHeap` |
| engine/pmeth.c | `dstu_pkey_sign` (228) | `FailEngine`, `Lengths`, `Sign`, `SignAny`, `SignFaults` |
| engine/pmeth.c | `dstu_pkey_verify` (316) | `FailEngine`, `Lengths`, `Sign`, `SignAny`, `SignFaults` |
| engine/pmeth.c | `dstu_pkey_meth_new` (416) | `Engine` |
| engine/pmeth.c | `dstu_pkey_meth_free` (445) | not modelled: not called (OpenSSL releases these methods) |
| engine/rbg.c | `do_rand_lock_init` (26) | `Rbg`, `RbgThreads` (outcome of `run_once`) |
| engine/rbg.c | `dstu_lock` (31) | `Rbg` |
| engine/rbg.c | `dstu_unlock` (38) | `Rbg` |
| engine/rbg.c | `dstu_rbg_add` (44) | `RbgPool` |
| engine/rbg.c | `dstu_rbg_seed` (49) | `RbgPool` |
| engine/rbg.c | `dstu_rbg_init` (54) | `Erase`, `Portable`, `Rbg`, `Steps` |
| engine/rbg.c | `dstu_rbg_get_bit` (80) | `Portable`, `Rbg`, `Steps` |
| engine/rbg.c | `dstu_rbg_status_nolock` (95) | `Rbg`, `RbgPool` |
| engine/rbg.c | `dstu_rbg_status` (113) | `Rbg` |
| engine/rbg.c | `dstu_rbg_bytes` (124) | `Rbg` |
| engine/rbg.c | `dstu_rbg_cleanup` (152) | `Rbg` |
| engine/sign.c | `bn_truncate_bits` (15) | `Sign` |
| engine/sign.c | `hash_to_field` (27) | `FailEngine`, `Lengths`, `Sign`, `SignFaults` |
| engine/sign.c | `field_to_bn` (51) | `Sign` |
| engine/sign.c | `dstu_do_sign` (56) | `Draws`, `FailEngine`, `Sign`, `SignAny`, `SignFaults` |
| engine/sign.c | `dstu_do_verify` (163) | `FailEngine`, `Lengths`, `Sign`, `SignAny`, `SignFaults` |
| keylib/jks.c | `ptrAt` (26) | `Jks` |
| keylib/jks.c | `copyAt` (31) | `Jks` |
| keylib/jks.c | `read16` (36) | `Jks`, `Portable` |
| keylib/jks.c | `read32` (43) | `Jks`, `Portable` |
| keylib/jks.c | `toUTF16BE` (50) | `FailKeylib`, `PassFaults`, `Utf16` |
| keylib/jks.c | `twoHash` (119) | `FailKeylib`, `Jks` |
| keylib/jks.c | `whiteHash` (131) | `FailKeylib`, `Jks` |
| keylib/jks.c | `parseCert` (144) | `FailKeylib`, `Jks` |
| keylib/jks.c | `fromKeyProtector` (168) | `FailKeylib`, `Jks` |
| keylib/jks.c | `fromPBES1` (234) | `Jks` |
| keylib/jks.c | `decryptKey` (246) | `FailKeylib`, `Jks`, `PassFaults` |
| keylib/jks.c | `parseKey` (304) | `FailKeylib`, `Jks` |
| keylib/jks.c | `parseEntry` (325) | `FailKeylib`, `Jks` |
| keylib/jks.c | `parseJKS` (338) | `FailKeylib`, `Jks`, `PassFaults`, `Portable` |
| keylib/jks.c | `readJKS` (398) | `FailKeylib` |
| keylib/jks.c | `readJKS_bio` (409) | `FailKeylib`, `Key6` |
| keylib/key6.c | `hash` (20) | `Key6` |
| keylib/key6.c | `pkdf` (34) | `Key6` |
| keylib/key6.c | `decryptKey6` (42) | `Erase`, `FailKeylib`, `Key6` |
| keylib/key6.c | `parseKey6` (68) | `FailKeylib`, `Key6` |
| keylib/key6.c | `readKey6` (106) | `FailKeylib` |
| keylib/key6.c | `readKey6_bio` (117) | `FailKeylib`, `Key6` |
| keylib/keystore.c | `KeyStoreNew` (16) | `FailKeylib`, `KeyStore` |
| keylib/keystore.c | `KeyStoreAppend` (47) | `FailKeylib`, `KeyStore` |
| keylib/keystore.c | `KeyStoreFree` (72) | `FailKeylib`, `KeyStore` |
| keylib/keystore.c | `KeyStoreKeyNum` (90) | `KeyStore` |
| keylib/keystore.c | `KeyStoreCertNum` (95) | `KeyStore` |
| keylib/keystore.c | `KeyStoreSetKey` (100) | `FailKeylib`, `KeyStore` |
| keylib/keystore.c | `KeyStoreSetCert` (105) | `FailKeylib`, `KeyStore` |
| keylib/keystore.c | `KeyStoreGetKey` (110) | `KeyStore` |
| keylib/keystore.c | `KeyStoreGetCert` (117) | `KeyStore` |
| keylib/pkcs12.c | `countKeysCertsInBag` (16) | `Pkcs12` |
| keylib/pkcs12.c | `countKeysCertsInBags` (35) | `Pkcs12` |
| keylib/pkcs12.c | `countKeysCerts` (46) | `FailKeylib`, `Pkcs12`, `StoreFaults` |
| keylib/pkcs12.c | `fromBag` (80) | `FailKeylib`, `Pkcs12`, `StoreFaults` |
| keylib/pkcs12.c | `fromBags` (121) | `FailKeylib`, `Pkcs12`, `StoreFaults` |
| keylib/pkcs12.c | `fromSafes` (132) | `FailKeylib`, `Pkcs12`, `StoreFaults` |
| keylib/pkcs12.c | `parsePKCS12` (166) | `FailKeylib`, `Lengths`, `Pkcs12`, `StoreFaults` |
| keylib/pkcs12.c | `readPKCS12` (217) | `FailKeylib`, `StoreFaults` |
| keylib/pkcs12.c | `readPKCS12_bio` (228) | `FailKeylib`, `Key6`, `StoreFaults` |
| keylib/utils.c | `getPrivateKeyNum` (26) | `FailKeylib`, `KeyUtils`, `ReadFaults` |
| keylib/utils.c | `makePoly` (72) | `FailKeylib`, `KeyUtils` |
| keylib/utils.c | `makePoint` (98) | `FailKeylib`, `KeyUtils`, `ReadFaults` |
| keylib/utils.c | `makeECGROUPFromSpec` (110) | `FailKeylib`, `KeyUtils`, `ReadFaults` |
| keylib/utils.c | `makeECGROUP` (148) | `FailKeylib`, `KeyUtils`, `ReadFaults` |
| keylib/utils.c | `makePKey` (173) | `FailKeylib`, `KeyUtils`, `ReadFaults` |
| keylib/utils.c | `pkeyFromAttributes` (228) | `FailKeylib`, `KeyUtils`, `ReadFaults` |
| keylib/utils.c | `keysFromPKCS8` (265) | `FailKeylib`, `KeyUtils`, `ReadFaults` |
