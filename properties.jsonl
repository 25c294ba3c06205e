{"id": "C01", "title": "Block decryption inverts block encryption", "statement": "For every 256-bit key, every substitution table and every 8-byte block, decrypting the encryption of the block gives the block back, and encrypting its decryption gives it back too, whichever way the key was loaded.", "quantifier": "all keys, all random masks, all 8x16 nibble tables, all 2^64 blocks", "why_tests_cant": "2^256 keys times 2^64 blocks times all S-boxes; tests try a handful.", "anchors": ["dstulib/gost/gost89.c:gostcrypt", "dstulib/gost/gost89.c:gostdecrypt"]}
{"id": "C02", "title": "Block encryption is GOST 28147-89", "statement": "The table-driven block encryption equals the textbook 32-round Feistel network: eight 4-bit substitutions, rotation by 11, subkeys K1..K8 three times ascending and once descending.", "quantifier": "all keys, masks, nibble S-boxes, blocks", "why_tests_cant": "Equality of two functions over 2^320 inputs; vectors only sample it.", "anchors": ["dstulib/gost/gost89.c:kboxinit", "dstulib/gost/gost89.c:f", "dstulib/gost/gost89.c:gostcrypt"]}
{"id": "C03", "title": "Key masking is unobservable", "statement": "Whatever random mask the key loader draws (including when the random generator fails and leaves old bytes), every ciphertext, plaintext and MAC equals the one obtained with an all-zero mask.", "quantifier": "all keys, all mask values, all blocks", "why_tests_cant": "The mask is drawn at random each time; a test sees one draw.", "anchors": ["dstulib/gost/gost89.c:gost_key", "dstulib/gost/gost89.c:gost_key_nomask", "dstulib/gost/gost89.c:gost_key_impl"]}
{"id": "C04", "title": "A loaded key can be read back", "statement": "Reading the key out of a context returns exactly the 32 bytes loaded, in the GOST byte order and in the Magma byte order, for every mask; the Magma loader is the GOST loader applied to each 4-byte group reversed.", "quantifier": "all 32-byte keys, all masks", "why_tests_cant": "2^256 keys x 2^256 masks.", "anchors": ["dstulib/gost/gost89.c:gost_get_key", "dstulib/gost/gost89.c:magma_key", "dstulib/gost/gost89.c:magma_get_key"]}
{"id": "C05", "title": "ECB of several blocks is blockwise and invertible", "statement": "Encrypting n blocks in ECB mode encrypts each block separately in order and touches nothing else; decrypting n blocks undoes it, for every n.", "quantifier": "all block counts, keys, data", "why_tests_cant": "Unbounded length.", "anchors": ["dstulib/gost/gost89.c:gost_enc", "dstulib/gost/gost89.c:gost_dec"]}
{"id": "C06", "title": "CFB encryption is independent of how the data is split into updates", "statement": "Feeding a message to the cipher in any sequence of non-empty updates, cut anywhere, produces exactly the standard 64-bit CFB ciphertext of the whole message.", "quantifier": "all messages, all splittings into updates, all keys/IVs/S-boxes", "why_tests_cant": "Number of splittings is exponential in the message length and lengths are unbounded.", "anchors": ["engine/cipher.c:dstu_cipher_do_cipher", "dstulib/gost/gost89.c:gost_enc_cfb"]}
{"id": "C07", "title": "CFB decryption inverts CFB encryption", "statement": "A receiver who initialises with the same key and IV and feeds the ciphertext with any splitting of its own recovers the plaintext byte for byte.", "quantifier": "all messages, all pairs of splittings", "why_tests_cant": "Two independent unbounded splittings.", "anchors": ["engine/cipher.c:dstu_cipher_do_cipher", "dstulib/gost/gost89.c:gost_enc_cfb", "dstulib/gost/gost89.c:gost_dec_cfb"]}
{"id": "C08", "title": "In-place operation equals out-of-place operation", "statement": "When the output buffer is the input buffer, the bytes produced and the context state are the same as with disjoint buffers, and no memory outside the output range changes.", "quantifier": "all memories, buffer positions, lengths, context states, both directions", "why_tests_cant": "Aliasing times all lengths times all context positions.", "anchors": ["engine/cipher.c:dstu_cipher_do_cipher", "dstulib/gost/gost89.c:gost_enc_cfb", "dstulib/gost/gost89.c:gost_dec_cfb"]}
{"id": "C09", "title": "Cipher update return value", "statement": "An update with n>0 bytes returns n and writes n bytes; the final call with no data returns 0; a call with exactly one of pointer and length absent returns -1; in the last two cases the context and the output are untouched.", "quantifier": "all context states and lengths", "why_tests_cant": "All lengths and states.", "anchors": ["engine/cipher.c:dstu_cipher_do_cipher"]}
{"id": "C10", "title": "CFB decryption resynchronises", "statement": "If the ciphertexts given to two decryptors with equal keys agree from some point on, then their plaintexts agree from 8 bytes after the next block boundary on, whatever came before (different IVs, corrupted bytes).", "quantifier": "all pairs of ciphertexts with a common tail, all IVs", "why_tests_cant": "All corruptions.", "anchors": ["engine/cipher.c:dstu_cipher_do_cipher", "dstulib/gost/gost89.c:gost_dec_cfb"]}
{"id": "C11", "title": "Setting key and IV in separate init calls", "statement": "Initialising a cipher context with the key and the IV in two calls, in either order, is equivalent to initialising it with both at once.", "quantifier": "all keys, IVs, following updates", "why_tests_cant": "Depends on the length of the next update: only short first updates expose a difference.", "anchors": ["engine/cipher.c:dstu_cipher_init"]}
{"id": "C12", "title": "A custom S-box set on a cipher context is the one used", "statement": "After the custom S-box control succeeds, the context encrypts from the original IV as a fresh context with that S-box would, whatever had been processed before; the control fails and changes nothing if the length is not 64 or the pointer is null; the S-box stays in force until changed by another control.", "quantifier": "all S-boxes, all histories of the context", "why_tests_cant": "Histories are unbounded.", "anchors": ["engine/cipher.c:dstu_cipher_ctrl", "engine/cipher.c:dstu_cipher_init"]}
{"id": "C13", "title": "Cipher algorithm parameters round trip", "statement": "Parameters exported from a cipher context and imported into another context carrying the same key make the two produce the same key stream: the IV and the S-box survive, for every S-box.", "quantifier": "all contexts reachable through init/ctrl, all S-boxes, all IVs", "why_tests_cant": "2^256 S-boxes x 2^64 IVs.", "anchors": ["engine/cipher.c:dstu_cipher_set_asn1_parameters", "engine/cipher.c:dstu_cipher_get_asn1_parameters"]}
{"id": "C14", "title": "Malformed cipher parameters are rejected without effect", "statement": "Importing a parameter value that is not a SEQUENCE whose contents are an 8-byte OCTET STRING followed by a 64-byte OCTET STRING returns -1 and leaves the context unchanged.", "quantifier": "all ASN.1 values handed to the import callback", "why_tests_cant": "All byte strings.", "anchors": ["engine/cipher.c:dstu_cipher_get_asn1_parameters"]}
{"id": "C15", "title": "S-box packing round trips", "statement": "Unpacking a 64-byte S-box and packing it again is the identity; packing then unpacking is the identity on nibble tables; extracting the S-box from an initialised cipher context returns the S-box it was initialised with.", "quantifier": "all 64-byte S-boxes", "why_tests_cant": "16^128 S-boxes.", "anchors": ["dstulib/params.c:unpack_sbox", "dstulib/params.c:pack_sbox", "dstulib/params.c:dstu_get_sbox"]}
{"id": "C16", "title": "MAC is the GOST 28147 imitovstavka of the zero padded message", "statement": "The MAC of a message is the standard 16-round chaining over the zero-padded 8-byte blocks (with a second zero block for one-block messages), truncated to the requested number of bits.", "quantifier": "all messages, keys, lengths in bits 0..64", "why_tests_cant": "All lengths of message and tag.", "anchors": ["dstulib/gost/gost89.c:mac_block", "dstulib/gost/gost89.c:get_mac", "dstulib/gost/gost89.c:gost_mac", "dstulib/gost/gost89.c:gost_mac_iv"]}
{"id": "C17", "title": "Hash equals GOST 34.311-95", "statement": "Digest of any message of fewer than 2^60 bytes, through any sequence of updates, after any history of operations on any number of contexts, is the value given by the published definition: step function chi, zero start vector, 256-bit length block, 256-bit checksum block. No operation the interface allows has undefined behaviour.", "quantifier": "all messages below 2^60 bytes (see C22), all S-boxes, all histories", "why_tests_cant": "All messages.", "anchors": ["dstulib/gost/gosthash.c:hash_step", "dstulib/gost/gosthash.c:hash_block", "dstulib/gost/gosthash.c:finish_hash"]}
{"id": "C18", "title": "Hash is independent of how the data is split", "statement": "Any way of cutting a message into updates (including empty ones) yields the same digest as a single update.", "quantifier": "all messages, all splittings", "why_tests_cant": "Exponentially many splittings, unbounded lengths.", "anchors": ["dstulib/gost/gosthash.c:hash_block", "engine/md.c:dstu_md_update"]}
{"id": "C19", "title": "Finishing a hash does not disturb the context", "statement": "Finalising twice gives the same digest, and a context that has been finalised and is then fed more data gives the digest of the whole concatenation.", "quantifier": "all messages and all interleavings of update and final", "why_tests_cant": "All histories.", "anchors": ["dstulib/gost/gosthash.c:finish_hash", "engine/md.c:dstu_md_final"]}
{"id": "C20", "title": "Copied hash contexts are independent", "statement": "After copying a digest context, any sequence of update, final, S-box change or cleanup on either copy leaves the other's digest unchanged.", "quantifier": "all states and all interleavings of operations on the two copies", "why_tests_cant": "All interleavings.", "anchors": ["engine/md.c:dstu_md_copy", "engine/md.c:dstu_md_cleanup"]}
{"id": "C21", "title": "Digest S-box selection", "statement": "A digest initialised with a DSTU key carrying an S-box uses it, with a DSTU key without one or without a key the default S-box (keys of other algorithms: C102); the S-box control accepts exactly 64-byte values, a refused control changes nothing, and the last S-box accepted before any data is fed is the one used for the message.", "quantifier": "all DSTU keys and S-boxes, all histories, all sequences of controls", "why_tests_cant": "All S-boxes.", "anchors": ["engine/md.c:dstu_md_init", "engine/md.c:dstu_md_ctrl"]}
{"id": "C22", "title": "Hash length counter never overflows", "statement": "The length block contains the exact message length in bits for every message that can be fed.", "quantifier": "all message lengths", "why_tests_cant": "Needs 2^60 bytes of input.", "anchors": ["dstulib/gost/gosthash.c:finish_hash", "dstulib/gost/gosthash.c:hash_block"]}
{"id": "C23", "title": "Every produced signature verifies", "statement": "For every curve, private key, digest and sequence of random numbers, if signing succeeds then verifying the result with the matching public key and the same digest succeeds; in both byte orders and through the DER wrapping.", "quantifier": "all curves, keys, digests, nonces", "why_tests_cant": "2^256 keys, digests and nonces.", "anchors": ["engine/sign.c:dstu_do_sign", "engine/sign.c:dstu_do_verify", "engine/pmeth.c:dstu_pkey_sign", "engine/pmeth.c:dstu_pkey_verify"]}
{"id": "C24", "title": "Verification rejects out-of-range values", "statement": "A signature whose r or s is zero or not below the group order, whose length is odd, or which is shorter than two field-size halves, is rejected for every key and digest.", "quantifier": "all byte strings", "why_tests_cant": "All byte strings.", "anchors": ["engine/sign.c:dstu_do_verify", "engine/pmeth.c:dstu_pkey_verify"]}
{"id": "C25", "title": "Signature buffer protocol", "statement": "With no buffer, signing reports exactly the size later written; with a buffer that is too small it fails, reports the needed size and writes nothing; on success it writes exactly that size and the size equals the key's advertised maximum.", "quantifier": "all keys, buffer sizes, digests", "why_tests_cant": "All sizes.", "anchors": ["engine/pmeth.c:dstu_pkey_sign", "engine/ameth.c:dstu_asn1_pkey_size"]}
{"id": "C26", "title": "Signing terminates", "statement": "For every digest and key, signing returns after finitely many draws provided the random generator eventually supplies a nonce with non-degenerate result; r and s are in 1..n-1.", "quantifier": "all digests, all random sequences", "why_tests_cant": "Non-termination is invisible to a test that does not hit the digest.", "anchors": ["engine/sign.c:dstu_do_sign", "engine/sign.c:hash_to_field"]}
{"id": "C27", "title": "Digest to field element conversion", "statement": "The digest is read as a little-endian integer and its low m bits are used (m the field degree), a zero value being replaced by one, as DSTU 4145 requires.", "quantifier": "all digests, all field degrees", "why_tests_cant": "All digests.", "anchors": ["engine/sign.c:hash_to_field", "engine/sign.c:bn_truncate_bits"]}
{"id": "C28", "title": "Signature encodings are unique", "statement": "For a given key and digest, two different byte strings are never both accepted for the same pair (r,s).", "quantifier": "all byte strings", "why_tests_cant": "All byte strings.", "anchors": ["engine/pmeth.c:dstu_pkey_verify", "engine/sign.c:dstu_do_verify"]}
{"id": "C29", "title": "Verification accepts exactly the DSTU 4145 equation", "statement": "Verification returns success iff 0<r,s<n and r equals the truncation of h times the x coordinate of sG+rQ; it depends only on (r,s), the digest's field element and the public key.", "quantifier": "all keys, digests and signatures", "why_tests_cant": "All inputs.", "anchors": ["engine/sign.c:dstu_do_verify"]}
{"id": "C30", "title": "Little-endian and big-endian keys give byte-reversed signatures", "statement": "With the same key, digest and nonces, the little-endian type's raw signature is the exact byte reversal of the big-endian type's, and each verifies under its own type.", "quantifier": "all keys, digests, nonces", "why_tests_cant": "All inputs.", "anchors": ["engine/pmeth.c:dstu_pkey_sign", "engine/pmeth.c:dstu_pkey_verify", "dstulib/params.c:reverse_bytes"]}
{"id": "C31", "title": "Point compression round trips", "statement": "Compressing any point of the signature subgroup and expanding the result gives the point back. More generally, for any finite point of the curve, this happens exactly when its abscissa is 0, or has the trace of the coefficient a and the compressed form is not zero.", "quantifier": "all binary fields of odd degree, all curves, all points", "why_tests_cant": "All points of all curves.", "anchors": ["dstulib/compress.c:dstu_point_compress", "dstulib/compress.c:dstu_point_expand", "dstulib/compress.c:bn_trace"]}
{"id": "C32", "title": "Point expansion yields exactly the point a string stands for", "statement": "Expansion of any byte string either fails or yields a point that satisfies the curve equation, with coordinates below 2^m; inputs whose value is 2^m or more, or shorter than the field size, are rejected. It succeeds exactly on the strings that stand for a point in the sense of DSTU 4145, and yields that point; a point has one encoding of each length, and that of the field size is the one compression makes.", "quantifier": "all byte strings, all points", "why_tests_cant": "All byte strings.", "anchors": ["dstulib/compress.c:dstu_point_expand"]}
{"id": "C33", "title": "The built-in curve table is sound", "statement": "For each of the ten named curves, the field polynomial is irreducible, the base point lies on the curve, its order value is a prime number and is the order of the base point, the points annihilated by it are exactly the multiples of the base point, it divides no 2^(mk)-1 for k up to 32 (so discrete logarithms cannot be moved to a small extension field), and the curve degrees and identifiers are pairwise distinct.", "quantifier": "the ten table entries; irreducibility, primality and group order quantify over all factorisations and points", "why_tests_cant": "Tests never check irreducibility, primality or the order.", "anchors": ["dstulib/params.c:dstu_curves"]}
{"id": "C34", "title": "Named curve lookup is consistent", "statement": "Building a group from a curve identifier and then asking for its identifier gives the same identifier; unknown identifiers give no group; a group is given an identifier only if all its parameters equal the table's.", "quantifier": "all identifiers, all groups", "why_tests_cant": "All groups.", "anchors": ["dstulib/params.c:group_from_nid", "dstulib/params.c:curve_nid_from_group", "dstulib/params.c:group_from_named_curve"]}
{"id": "C35", "title": "Key parameters on a named curve round trip", "statement": "Encoding the parameters of a key on a built-in curve and decoding them gives the same curve and the same effective S-box.", "quantifier": "ten curves, all S-boxes or none", "why_tests_cant": "All S-boxes.", "anchors": ["dstulib/key.c:asn1_from_key", "dstulib/key.c:key_from_asn1"]}
{"id": "C36", "title": "Key parameters on a custom curve round trip", "statement": "Encoding then decoding the parameters of a key on any non-built-in curve over a trinomial or pentanomial field gives the same field, coefficients, order and base point, in either byte order.", "quantifier": "all custom groups with a in {0,1}", "why_tests_cant": "All groups.", "anchors": ["dstulib/key.c:asn1_from_key", "dstulib/key.c:group_from_asn1"]}
{"id": "C37", "title": "Malformed key parameters are rejected", "statement": "Parameters with a non-positive degree or exponent, a curve coefficient a outside {0,1}, an S-box whose length is not 64 or a base point that does not decompress are rejected and yield no key.", "quantifier": "all parameter structures", "why_tests_cant": "All structures.", "anchors": ["dstulib/key.c:group_from_asn1", "dstulib/key.c:key_from_asn1"]}
{"id": "C38", "title": "Parameter comparison is an equivalence matching the effective parameters", "statement": "Parameter comparison is reflexive, symmetric and transitive, and two keys compare equal iff they have the same curve and the same effective S-box.", "quantifier": "all pairs of keys", "why_tests_cant": "All pairs.", "anchors": ["engine/ameth.c:dstu_asn1_param_cmp"]}
{"id": "C39", "title": "Parameter copy makes parameters equal", "statement": "After a successful parameter copy, comparing the parameters of destination and source reports equality, and the source is unchanged and shares no memory with the destination.", "quantifier": "all pairs of keys", "why_tests_cant": "All pairs.", "anchors": ["engine/ameth.c:dstu_asn1_param_copy"]}
{"id": "C40", "title": "Private key encoding round trips", "statement": "Encoding a private key to PKCS#8 and decoding it gives the same private scalar, the same parameters and the matching public key.", "quantifier": "all private scalars, curves, S-boxes, both byte orders", "why_tests_cant": "All scalars.", "anchors": ["engine/ameth.c:dstu_asn1_priv_encode", "engine/ameth.c:dstu_asn1_priv_decode"]}
{"id": "C41", "title": "Public key encoding round trips", "statement": "Encoding a public key and decoding it gives the same point and parameters, in both byte orders.", "quantifier": "all public keys, both byte orders", "why_tests_cant": "All points.", "anchors": ["engine/ameth.c:dstu_asn1_pub_encode", "engine/ameth.c:dstu_asn1_pub_decode"]}
{"id": "C42", "title": "Key pairs are consistent", "statement": "Every key pair generated or imported satisfies Q = -dG; generated scalars lie in 1..n-1. On the built-in curves a generated public key is never the point at infinity, lies in the subgroup of the base point, and determines the private key.", "quantifier": "all random sequences, all imported scalars", "why_tests_cant": "All random outcomes.", "anchors": ["dstulib/params.c:dstu_generate_key", "dstulib/params.c:dstu_add_public_key"]}
{"id": "C43", "title": "Key generation contexts are isolated and honour controls", "statement": "Curve and S-box controls determine the parameters of every key generated afterwards; a copied context is independent of its source; rejected controls change nothing.", "quantifier": "all sequences of controls, copies and key generations", "why_tests_cant": "All histories.", "anchors": ["engine/pmeth.c:dstu_pkey_ctrl", "engine/pmeth.c:dstu_pkey_ctrl_str", "engine/pmeth.c:dstu_pkey_keygen", "engine/pmeth.c:dstu_pkey_copy"]}
{"id": "C44", "title": "Random generator produces one continuous stream", "statement": "Requests for k and then l bytes return the same bytes as one request for k+l; the stream is the DSTU 4145 generator of the seed, bits packed least significant first.", "quantifier": "all seeds, all request sequences", "why_tests_cant": "All request sequences.", "anchors": ["engine/rbg.c:dstu_rbg_bytes", "engine/rbg.c:dstu_rbg_get_bit"]}
{"id": "C45", "title": "Concurrent random requests never share output", "statement": "Under any interleaving of threads requesting bytes, each request receives a contiguous private segment of the one stream and no bit is given to two requests.", "quantifier": "all schedules, all numbers of threads and requests", "why_tests_cant": "Schedules cannot be enumerated by tests.", "anchors": ["engine/rbg.c:dstu_rbg_bytes", "engine/rbg.c:dstu_lock", "engine/rbg.c:dstu_unlock"]}
{"id": "C46", "title": "Random generator fails safely and survives cleanup", "statement": "If seeding fails the request reports failure; after cleanup the generator can be used again.", "quantifier": "all histories of seed, bytes, status, cleanup with arbitrary seeding failures", "why_tests_cant": "All histories.", "anchors": ["engine/rbg.c:dstu_rbg_bytes", "engine/rbg.c:dstu_rbg_cleanup", "engine/rbg.c:dstu_rbg_status_nolock"]}
{"id": "C47", "title": "Fixed-width integer encoding round trips", "statement": "Encoding a number into a fixed number of bytes and reading it back gives the number, exactly when it fits; byte reversal is an involution.", "quantifier": "all numbers and widths", "why_tests_cant": "All numbers.", "anchors": ["dstulib/params.c:bn_encode", "dstulib/params.c:reverse_bytes", "dstulib/params.c:reverse_bytes_copy"]}
{"id": "C48", "title": "Engine algorithm lookup", "statement": "Asking the engine for its list of algorithms and then for each one returns a method of that identifier; any other identifier yields failure and no method; repeated lookups return the same method. Loading the engine reports success exactly if every part was registered, and the digest and the cipher are then found by name too, as the same methods; initialising it succeeds.", "quantifier": "all identifiers and lookup histories", "why_tests_cant": "All histories.", "anchors": ["engine/dstu.c:dstu_digests", "engine/dstu.c:dstu_ciphers", "engine/dstu.c:dstu_pkey_meths", "engine/dstu.c:dstu_asn1_meths"]}
{"id": "C49", "title": "Engine can be finished and reused", "statement": "Any sequence of initialise, lookup and finish never frees a method twice and never returns a freed method.", "quantifier": "all histories", "why_tests_cant": "All histories.", "anchors": ["engine/dstu.c:dstu_engine_finish", "engine/dstu.c:dstu_engine_init"]}
{"id": "C50", "title": "Error string registration is idempotent", "statement": "Loading the error strings any number of times registers them once, unloading removes them once, and load after unload registers them again.", "quantifier": "all sequences of load, unload and raise", "why_tests_cant": "All histories.", "anchors": ["engine/err.c:ERR_load_DSTU_strings", "engine/err.c:ERR_unload_DSTU_strings", "engine/err.c:ERR_DSTU_error"]}
{"id": "C51", "title": "Key store access is bounded and ordered", "statement": "A store created for k keys and c certificates reports those counts, returns null for every index outside, and returns what was stored at every index inside; appending adds the other store's objects after the existing ones in order.", "quantifier": "all sizes, indices, sequences of operations", "why_tests_cant": "All sizes.", "anchors": ["keylib/keystore.c:KeyStoreGetKey", "keylib/keystore.c:KeyStoreAppend", "keylib/keystore.c:KeyStoreNew"]}
{"id": "C52", "title": "Key store ownership", "statement": "Through any sequence of create, set, append and free, every key or certificate handed to a store is freed exactly once, when the store that finally holds it is freed, and never while some store still refers to it.", "quantifier": "all operation sequences", "why_tests_cant": "All histories.", "anchors": ["keylib/keystore.c:KeyStoreAppend", "keylib/keystore.c:KeyStoreFree"]}
{"id": "C53", "title": "PKCS#12 import is complete, ordered and in bounds", "statement": "On success the store holds exactly the keys and the certificates of all bags, at every nesting depth, in document order, with no null entries, and no write falls outside the store.", "quantifier": "all bag trees, passwords, decryption outcomes", "why_tests_cant": "Unbounded nesting.", "anchors": ["keylib/pkcs12.c:parsePKCS12", "keylib/pkcs12.c:countKeysCertsInBags", "keylib/pkcs12.c:fromBags"]}
{"id": "C54", "title": "Failed import leaves the caller with no store", "statement": "When PKCS#12 or JKS import reports failure the caller's store pointer does not refer to freed memory.", "quantifier": "all inputs", "why_tests_cant": "All failing inputs.", "anchors": ["keylib/pkcs12.c:parsePKCS12", "keylib/jks.c:parseJKS"]}
{"id": "C55", "title": "JKS import reads what a JKS writer wrote", "statement": "For every well formed JKS file with private key entries, import with the right password yields the certificates and keys of all entries in order, and import with any data or password failing the keyed digest is refused.", "quantifier": "all sequences of entries, all chain lengths", "why_tests_cant": "Unbounded.", "anchors": ["keylib/jks.c:parseJKS", "keylib/jks.c:parseEntry", "keylib/jks.c:parseKey", "keylib/jks.c:parseCert"]}
{"id": "C56", "title": "JKS import stays inside its input", "statement": "Importing any byte string as JKS never reads outside the given buffer.", "quantifier": "all byte strings", "why_tests_cant": "All byte strings.", "anchors": ["keylib/jks.c:parseJKS", "keylib/jks.c:parseKey", "keylib/jks.c:parseCert", "keylib/jks.c:read32"]}
{"id": "C57", "title": "JKS key protector round trips", "statement": "Decrypting a key protected with a password by the Sun key protector gives the key back; any change that breaks its SHA-1 check is refused.", "quantifier": "all keys of any length, all passwords, all salts", "why_tests_cant": "All lengths.", "anchors": ["keylib/jks.c:fromKeyProtector"]}
{"id": "C58", "title": "JKS trusted certificate entries are imported", "statement": "A well formed JKS file containing a trusted certificate entry is imported and yields that certificate.", "quantifier": "all well formed files with such entries", "why_tests_cant": "All files.", "anchors": ["keylib/jks.c:parseEntry"]}
{"id": "C59", "title": "JKS never drops a key silently", "statement": "If JKS import succeeds then every private key entry of the file contributed at least one key.", "quantifier": "all files", "why_tests_cant": "All files.", "anchors": ["keylib/jks.c:decryptKey"]}
{"id": "C60", "title": "Password conversion to UTF-16", "statement": "The password is converted completely to UTF-16BE irrespective of the intermediate buffer sizes, and the conversion terminates.", "quantifier": "all passwords", "why_tests_cant": "All lengths.", "anchors": ["keylib/jks.c:toUTF16BE"]}
{"id": "C61", "title": "Key-6 container decryption", "statement": "A container encrypted with a password yields, with the same password, exactly the encrypted data followed by unspecified padding; the derived key is the 10000-fold hash of the password.", "quantifier": "all contents and passwords", "why_tests_cant": "All contents.", "anchors": ["keylib/key6.c:decryptKey6", "keylib/key6.c:pkdf"]}
{"id": "C62", "title": "Key-6 integrity check", "statement": "A Key-6 container whose MAC does not match its contents is refused.", "quantifier": "all containers", "why_tests_cant": "All containers.", "anchors": ["keylib/key6.c:parseKey6", "keylib/key6.c:decryptKey6"]}
{"id": "C63", "title": "Private key bit string conversion", "statement": "The private number read from a bit string is the integer whose i-th least significant bit is the i-th bit of the string.", "quantifier": "all bit strings", "why_tests_cant": "All lengths.", "anchors": ["keylib/utils.c:getPrivateKeyNum"]}
{"id": "C64", "title": "PKCS#8 import yields one or two complete keys", "statement": "Import of a decrypted PKCS#8 structure yields the main key first and, iff the attributes describe a complete second key, that key second; otherwise exactly one key, or failure with no store.", "quantifier": "all structures and attribute lists", "why_tests_cant": "All attribute lists.", "anchors": ["keylib/utils.c:keysFromPKCS8", "keylib/utils.c:pkeyFromAttributes"]}
{"id": "C65", "title": "Container readers are independent of read chunking", "statement": "The bytes parsed from a stream are the concatenation of all chunks up to end of file, whatever the chunk sizes; a read error makes the import fail. An import from a file takes what stands between the position of the stream and the end of the file, and leaves the stream open at its end.", "quantifier": "all chunk sequences with and without errors, and all files and positions in them", "why_tests_cant": "All chunkings.", "anchors": ["keylib/pkcs12.c:readPKCS12_bio", "keylib/jks.c:readJKS_bio", "keylib/key6.c:readKey6_bio", "keylib/pkcs12.c:readPKCS12", "keylib/jks.c:readJKS", "keylib/key6.c:readKey6"]}
{"id": "C66", "title": "Both parameter parsers agree on the field polynomial", "statement": "The engine's and the key library's readers of a trinomial or pentanomial field description build the same polynomial, although they list the middle exponents in opposite order.", "quantifier": "all exponent triples", "why_tests_cant": "All triples.", "anchors": ["dstulib/key.c:group_from_asn1", "keylib/utils.c:makePoly"]}
{"id": "C67", "title": "Raw and DER-wrapped signatures are judged alike", "statement": "The verification method accepts a raw signature (two fixed-size halves, not wrapped in an octet string) iff it accepts the same bytes wrapped in a DER octet string.", "quantifier": "all raw signatures, keys, digests", "why_tests_cant": "Only about one raw signature in 128 starts with a byte that looks like a DER tag.", "anchors": ["engine/pmeth.c:dstu_pkey_verify"]}
{"id": "C68", "title": "String controls are the binary controls", "statement": "Setting an S-box by the string of its 128 hexadecimal digits, or a curve by its name, gives the same answers and the same generated keys as setting it by its 64 bytes, or by the group.", "quantifier": "all S-boxes, all built-in curves, all histories of context and key calls around the control", "why_tests_cant": "2^512 S-boxes, each with many spellings; the all-zero S-box is the one input that behaves differently.", "anchors": ["engine/pmeth.c:dstu_pkey_ctrl_str", "engine/pmeth.c:dstu_pkey_ctrl", "dstulib/asn1.c:bn_encode"]}
{"id": "C69", "title": "Keys and contexts release their memory", "statement": "After any history of initialising, controlling, copying and cleaning up contexts and of generating, copying the parameters of and freeing keys, once every context is cleaned up and every key is freed, nothing the engine allocated is left; nothing is freed twice or used after it was freed on the way.", "quantifier": "all histories of context and key calls the interface allows", "why_tests_cant": "Unbounded histories with aliasing.", "anchors": ["engine/pmeth.c:dstu_pkey_cleanup", "engine/ameth.c:dstu_asn1_pkey_free", "engine/ameth.c:dstu_asn1_param_copy", "dstulib/key.c:DSTU_KEY_free"]}
{"id": "C70", "title": "Errors raised by the engine are described", "statement": "While the error strings are registered, every error the engine raises is displayed with the library name dstu, the name of the engine's function and a reason text of the engine or of OpenSSL.", "quantifier": "all error reports in the sources, all histories of loading and unloading, all other libraries", "why_tests_cant": "the library number is allocated at run time and depends on the history of the whole process; tests see one number", "anchors": ["engine/err.c:ERR_DSTU_error", "engine/err.c:DSTU_str_functs", "engine/err.c:DSTU_str_reasons", "engine/err.h:DSTUerr"]}
{"id": "C71", "title": "JKS import of an undecodable key reports failure", "statement": "If a private key of a JKS file can be decrypted but does not contain a key the library can decode, import reports failure, without undefined behaviour.", "quantifier": "all files, all passwords, all decrypted contents", "why_tests_cant": "All files and all contents of a key.", "anchors": ["keylib/jks.c:fromKeyProtector", "keylib/utils.c:keysFromPKCS8"]}
{"id": "C72", "title": "Key-6 import is determined by the file and the password", "statement": "Whether a Key-6 container is imported, and the keys that are found, depend only on the file and the password, not on uninitialised memory or random numbers.", "quantifier": "all files, passwords, contents of uninitialised memory and random masks", "why_tests_cant": "Contents of uninitialised memory cannot be enumerated; a test sees one of them.", "anchors": ["keylib/key6.c:decryptKey6", "keylib/key6.c:hash"]}
{"id": "C73", "title": "Key meshing follows the standards", "statement": "After any number of CryptoPro key meshings of a cipher context, the key that is read back, the IV and every further encryption and decryption are those RFC 4357 prescribes for the original key and S-box; after any number of ACPKM meshings of a context with a Magma key, the key and every further encryption are those of RFC 8645. The random masks make no difference.", "quantifier": "all keys, IVs, S-boxes, numbers of meshings, blocks and random masks", "why_tests_cant": "2^256 keys, 2^512 S-boxes and any number of steps.", "anchors": ["dstulib/gost/gost89.c:cryptopro_key_meshing", "dstulib/gost/gost89.c:acpkm_magma_key_meshing", "dstulib/gost/gost89.c:CryptoProKeyMeshingKey", "dstulib/gost/gost89.c:ACPKM_D_const"]}
{"id": "C74", "title": "Comparison of keys", "statement": "EVP_PKEY_cmp of two keys of this engine answers 1 if they have the same type, curve, effective S-box and public point and 0 if they have the same type and differ in one of the others, without undefined behaviour; in particular a public key or key pair that was encoded and decoded compares equal to the original.", "quantifier": "all curves, S-boxes, public points and key types", "why_tests_cant": "All curves, S-boxes and points.", "anchors": ["engine/ameth.c:dstu_asn1_param_cmp", "engine/ameth.c:dstu_asn1_pub_cmp", "engine/ameth.c:dstu_asn1_pub_decode", "engine/ameth.c:dstu_asn1_priv_decode"]}
{"id": "C75", "title": "Running out of memory in parameter, key and point functions neither leaks nor crashes", "statement": "Whatever combination of allocations and library calls fails inside making a built-in group, looking a group up, generating a key pair, deriving a public key, making, copying, changing and freeing keys and parameter contexts, compressing and expanding points, and encoding and decoding key parameters: no NULL pointer is used, nothing is released twice or used after release, and when the function returns the only new objects are those it returns.", "quantifier": "every combination of successes and failures of every allocation and library call, every outcome of the branches on data, every number of rounds of the loops", "why_tests_cant": "each run exercises one combination of failures; there are exponentially many and they cannot be provoked one by one through the API", "anchors": ["dstulib/params.c: group_from_named_curve, curve_nid_from_group, group_from_nid, dstu_generate_key, dstu_add_public_key, copy_sbox", "dstulib/compress.c: bn_trace, dstu_point_compress, dstu_point_expand", "dstulib/key.c: DSTU_KEY_new, DSTU_KEY_set, DSTU_KEY_free, asn1_from_key, group_from_asn1, key_from_asn1, DSTU_KEY_CTX_new, DSTU_KEY_CTX_set, DSTU_KEY_CTX_copy, DSTU_KEY_CTX_free"]}
{"id": "C76", "title": "Success is only reported when every step succeeded", "statement": "When making a group, generating a key pair, deriving a public key, copying a parameter context, compressing or expanding a point reports success, none of the calls it made has failed; in particular a failure inside never turns into a wrong result reported as success.", "quantifier": "every combination of failures; for the wrong point, every curve with a in {0,1} over a field of odd degree and every point of the group", "why_tests_cant": "a forgotten check shows only when exactly that call fails, and then only by a wrong result", "anchors": ["dstulib/params.c: group_from_named_curve, dstu_generate_key, dstu_add_public_key", "dstulib/compress.c: bn_trace, dstu_point_compress, dstu_point_expand", "dstulib/key.c: DSTU_KEY_CTX_copy"]}
{"id": "C77", "title": "Engine operations neither leak nor corrupt memory when an allocation or library call fails", "statement": "While a signature is made or verified, a key is generated, a context is created, copied, configured or released, or a key or its parameters are decoded, encoded, copied or printed through the engine, any allocation or library call may fail: whatever fails, at the end nothing is allocated beyond what belongs to the result and to the objects of the caller, nothing is released twice, no released or NULL object is used, and nothing is written beyond a buffer.", "quantifier": "all combinations of failing and succeeding calls, all branches taken on data, all numbers of rounds", "why_tests_cant": "The combinations of failure points are unbounded, and tests practically never make an allocation inside OpenSSL fail.", "anchors": ["engine/sign.c:dstu_do_sign", "engine/sign.c:dstu_do_verify", "engine/ameth.c:dstu_asn1_priv_decode", "engine/ameth.c:dstu_asn1_pub_decode", "engine/ameth.c:dstu_asn1_priv_encode", "engine/ameth.c:dstu_asn1_pub_encode", "engine/ameth.c:dstu_asn1_param_copy", "engine/pmeth.c:dstu_pkey_keygen", "engine/pmeth.c:dstu_pkey_sign", "engine/pmeth.c:dstu_pkey_verify", "engine/pmeth.c:dstu_pkey_ctrl_str"]}
{"id": "C78", "title": "Engine operations report success only when nothing failed", "statement": "When making or verifying a signature, generating a key, configuring or copying a context, or encoding a key through the engine is reported as successful, no allocation or library call made on the way has failed.", "quantifier": "all combinations of failing and succeeding calls, all branches taken on data, all numbers of rounds", "why_tests_cant": "The combinations of failure points are unbounded, and tests practically never make an allocation inside OpenSSL fail.", "anchors": ["engine/sign.c:hash_to_field", "engine/sign.c:dstu_do_sign", "engine/sign.c:dstu_do_verify", "engine/ameth.c:dstu_asn1_priv_encode", "engine/ameth.c:dstu_asn1_pkey_size", "engine/pmeth.c:dstu_pkey_keygen", "engine/pmeth.c:dstu_pkey_sign", "engine/pmeth.c:dstu_pkey_verify", "engine/pmeth.c:dstu_pkey_ctrl"]}
{"id": "C79", "title": "Digest and algorithm identifiers of signed messages", "statement": "Asked which digest to use with a DSTU 4145 key, the engine names the DSTU hash and marks it as mandatory, for every key; a signing or verification context accepts exactly this digest and refuses every other. When a PKCS#7 or CMS message is signed with a key, the signer info names the DSTU hash as digest algorithm and the key's own type as signature algorithm, and nothing else about it changes; requests of other kinds are refused and change nothing.", "quantifier": "for all keys, context states, digests, requests and previous contents of the signer info", "why_tests_cant": "A test tries a few digests and message types; the claim is about every request and every digest that may be offered.", "anchors": ["engine/ameth.c:dstu_asn1_pkey_ctrl", "engine/pmeth.c:dstu_pkey_ctrl"]}
{"id": "C80", "title": "Signing and verifying whole messages", "statement": "A message given in any parts, signed with a private key, is accepted by verification with the matching public key, however the message is split there and whichever other digests are being computed meanwhile, provided the two keys have the same S-box (an absent one counts as the default one). Verification of a message accepts a signature exactly when its two numbers satisfy the equation of DSTU 4145 for the hash of the message by GOST 34.311-95 with the S-box of the key.", "quantifier": "for all curves, keys, S-boxes, messages shorter than 2^60 bytes, ways to split them, histories of other digests, random numbers and signatures", "why_tests_cant": "Tests sign a few messages with a few keys; the claim composes the digest (over all splits and interleavings) with the signature (over all curves and nonces).", "anchors": ["engine/pmeth.c:dstu_pkey_sign", "engine/pmeth.c:dstu_pkey_verify", "engine/pmeth.c:dstu_pkey_ctrl", "engine/md.c:dstu_md_init", "engine/md.c:dstu_md_final", "dstulib/compress.c", "gosthash/gosthash.c"]}
{"id": "C81", "title": "Imports of key files do not crash or leak when something fails", "statement": "Whatever allocation or library call fails while a PKCS#12, Key-6 or Java key store is parsed, from memory or from a file, the parser does not dereference NULL or released memory, releases nothing twice, and leaves allocated exactly the store it returns with the keys and certificates in it; freeing a store releases everything in it.", "quantifier": "every combination of failing allocations, library calls and data-dependent branches; any number and nesting of safes, bags, entries, attributes; any number of read rounds and buffer enlargements", "why_tests_cant": "Failure injection covers single failures of a few runs; the claim ranges over every combination of failures for files of every shape.", "anchors": ["keylib/keystore.c:KeyStoreNew,KeyStoreAppend,KeyStoreFree", "keylib/utils.c:keysFromPKCS8,pkeyFromAttributes,makePKey,makeECGROUP", "keylib/pkcs12.c:parsePKCS12,readPKCS12,readPKCS12_bio", "keylib/key6.c:parseKey6,decryptKey6", "keylib/jks.c:parseJKS,toUTF16BE,decryptKey,fromKeyProtector,parseCert"]}
{"id": "C82", "title": "Imports of key files succeed only when nothing failed", "statement": "When a parser of PKCS#12, Key-6 or Java key stores reports success, no allocation and no library call failed on the way, so that the store is not missing keys for lack of memory.", "quantifier": "every combination of failing allocations, library calls and data-dependent branches; files of every shape", "why_tests_cant": "A test sees the failures it injects; a silently ignored failure on another path is not excluded.", "anchors": ["keylib/pkcs12.c:parsePKCS12,fromSafes,fromBag", "keylib/utils.c:keysFromPKCS8,pkeyFromAttributes", "keylib/jks.c:toUTF16BE,parseJKS"]}
{"id": "C83", "title": "Enveloped messages are recovered from their stored parameters", "statement": "Content encrypted with the cipher through CMS or PKCS#7 is GOST 28147-89 in CFB mode under the IV and S-box stored in the message; the receiver, who loads the stored parameters and then the content key, recovers the content of every message made with the S-box its parameters name.", "quantifier": "every content key, IV, S-box, content and way of cutting it into pieces on either side", "why_tests_cant": "Tests run a few messages of one length with the default S-box; whether the receiver depends on the piece sizes, the S-box or the key ranges over all of them.", "anchors": ["engine/cipher.c:dstu_cipher_init", "engine/cipher.c:dstu_cipher_set_asn1_parameters", "engine/cipher.c:dstu_cipher_get_asn1_parameters", "engine/cipher.c:dstu_cipher_do_cipher"]}
{"id": "C84", "title": "Password based encryption round-trips and protects the data", "statement": "Data encrypted with the cipher under PBES2 is recovered with the same derived key, and the ciphertext is GOST 28147-89 in CFB mode under the derived key and the IV and S-box in the parameters.", "quantifier": "every derived key, IV and non-empty data", "why_tests_cant": "The claim is about every length and key; tests use one length.", "anchors": ["engine/cipher.c:dstu_cipher_init", "engine/cipher.c:dstu_cipher_ctrl", "engine/cipher.c:dstu_cipher_set_asn1_parameters", "engine/cipher.c:dstu_cipher_get_asn1_parameters"]}
{"id": "C85", "title": "Copying parameters between EVP keys", "statement": "EVP_PKEY_copy_parameters(to, from) succeeds exactly when `to` is new, or has the type of `from` and either no parameters or those of `from`; after success `to` has the type, the curve and the S-box of `from`, and a target that had parameters is not changed.", "quantifier": "all pairs of keys of the two types, with and without key data, curve and S-box, and all targets, new or already typed", "why_tests_cant": "The target state, curve and S-box range over unbounded sets; tests use one target and one curve.", "anchors": ["engine/ameth.c: dstu_asn1_meth_new", "engine/ameth.c: dstu_asn1_param_copy", "engine/ameth.c: dstu_asn1_param_cmp"]}
{"id": "C86", "title": "Lookups of the engine's methods by many threads", "statement": "Whatever lookups of digests, ciphers and key methods any number of threads make, and however they are interleaved, every lookup returns after a bounded number of steps of its own thread and gives the method of the kind and identifier asked for; all threads are given the same one, and it is freed when the engine is destroyed.", "quantifier": "all numbers of threads, all sequences of lookups per thread, all interleavings, all outcomes of the allocations, after any single-threaded use of the engine", "why_tests_cant": "The interleavings of unboundedly many threads cannot be enumerated, and the races need a switch between a test and an assignment.", "anchors": ["engine/dstu.c: dstu_digests", "engine/dstu.c: dstu_ciphers", "engine/dstu.c: dstu_pkey_meths", "engine/dstu.c: dstu_asn1_meths", "engine/dstu.c: dstu_destroy"]}
{"id": "C87", "title": "Errors raised by many threads", "statement": "Whatever errors any number of threads raise through the engine, and however they are interleaved with each other and with other libraries, each thread finds its own errors in its queue in the order it raised them, all errors carry the engine's one library number, and they are displayed with the engine's strings.", "quantifier": "all numbers of threads, all sequences of errors per thread, all interleavings of the threads and of other libraries, after any history of loads, unloads and errors", "why_tests_cant": "The interleavings of unboundedly many threads cannot be enumerated, and the race needs a switch between a test and an assignment.", "anchors": ["engine/err.c: ERR_DSTU_error", "engine/err.c: ERR_load_DSTU_strings"]}
{"id": "C88", "title": "A generated key pair survives export and import and still works", "statement": "On each built-in curve, for every generated key pair of either type and every S-box: the private and the public half can be exported; each import, into any key object, succeeds; the halves have the curve, S-box and public point of the pair and are equal for the comparison function; and every message, in any parts, signed with the imported private half is accepted with the imported public half.", "quantifier": "ten curves, two key types, all random sequences, S-boxes, messages and splittings, nonces, previous contents of the key objects, digest histories", "why_tests_cant": "Tests follow a few stored keys; the failing keys are two points in 2^162.", "anchors": ["dstulib/params.c:dstu_generate_key", "engine/ameth.c:dstu_asn1_priv_encode", "engine/ameth.c:dstu_asn1_priv_decode", "engine/ameth.c:dstu_asn1_pub_encode", "engine/ameth.c:dstu_asn1_pub_decode", "engine/pmeth.c:dstu_pkey_sign", "engine/pmeth.c:dstu_pkey_verify"]}
{"id": "C89", "title": "An imported public key has a private key", "statement": "Every public key that is imported on a built-in curve, whatever its encoding, lies in the subgroup of the base point, so that there is a private key for it.", "quantifier": "ten curves, two key types, all encodings", "why_tests_cant": "All encodings; the accepted points outside the subgroup are never tried.", "anchors": ["engine/ameth.c:dstu_asn1_pub_decode", "dstulib/compress.c:dstu_point_expand", "engine/sign.c:dstu_do_verify"]}
{"id": "C90", "title": "The recorded cofactor is the cofactor of the curve", "statement": "For each built-in curve, the cofactor recorded with the group times the order of the base point is the number of points of the curve.", "quantifier": "ten curves; all points", "why_tests_cant": "The number of points cannot be counted.", "anchors": ["dstulib/params.c:group_from_named_curve"]}
{"id": "C91", "title": "The default S-box is DKE No. 1", "statement": "Where no S-box is configured (digest, cipher, keys without an S-box, Key-6 containers, the random generator), the substitution used is the table DKE No. 1 of DSTU 4145 and GOST 34.311, whose rows are permutations; the default bytes are the only encoding of that table.", "quantifier": "all messages, keys, initialisation vectors, cuts and histories", "why_tests_cant": "Known answers cover a few inputs; entries of a substitution table that these do not touch may be wrong.", "anchors": ["dstulib/gost89.c:default_sbox", "engine/md.c:dstu_md_init", "engine/cipher.c:dstu_cipher_init", "engine/rbg.c:dstu_rbg_init", "keylib/key6.c:decryptKey6"]}
{"id": "C92", "title": "Secrets are erased", "statement": "When a digest context or the generator is cleaned up, nothing of its inputs or its key remains in it; functions that hold seeds, password-derived keys or private keys in temporary memory overwrite it before giving it up.", "quantifier": "all histories, seeds, passwords and keys", "why_tests_cant": "Memory that was given up is not observable through the API, and all histories must be covered.", "anchors": ["engine/md.c:dstu_md_cleanup", "engine/rbg.c:dstu_rbg_cleanup", "engine/rbg.c:dstu_rbg_init", "keylib/key6.c:decryptKey6", "engine/ameth.c:dstu_asn1_priv_decode"]}
{"id": "C93", "title": "A key reports the size of its curve", "statement": "The number of bits of a key is the degree of the field of its curve, and 0 without a curve; on the built-in curves it is the number the curve is named after, the order has at most that many bits and at most two fewer, private keys fit in it and encoded public keys have exactly the bytes for it.", "quantifier": "all keys, the ten built-in curves", "why_tests_cant": "All keys and curves.", "anchors": ["engine/ameth.c:dstu_asn1_pkey_bits", "engine/ameth.c:dstu_asn1_pub_encode"]}
{"id": "C94", "title": "Exported substitution blocks and the library hash", "statement": "Each exported substitution block is the published table, whose rows are permutations; with it the block functions are GOST 28147-89 with that table and the hash functions of the library, used without the engine on any number of messages in any pieces, give the GOST R 34.11-94 hash with that table. Without a block, the table of the examples of the standard is used. Without memory, initialisation fails cleanly.", "quantifier": "all eight blocks, keys, masks, data blocks, messages, cuts", "why_tests_cant": "A wrong table entry shows only on inputs that reach it; all messages and cuts.", "anchors": ["dstulib/gost/gost89.c:GostR3411_94_TestParamSet", "dstulib/gost/gost89.c:Gost28147_TC26ParamSetZ", "dstulib/gost/gosthash.c:init_gost_hash_ctx", "dstulib/gost/gosthash.c:hash_block", "dstulib/gost/gosthash.c:finish_hash"]}
{"id": "C95", "title": "Cipher contexts after any history", "statement": "Whatever is done with any number of cipher contexts (creation, initialisation with or without direction, key or IV, updates, final calls, S-box control, loading and storing of parameters, copying, resetting), as long as each is used as the interface allows, nothing is undefined and each context behaves as the CFB stream of its own key, S-box, IV and direction: the outputs are those of the message since its start, the stored parameters are its IV and S-box, an empty update is refused without effect, and nothing done with one context shows in another, also for copies made in the middle of a message.", "quantifier": "all histories of operations on any number of contexts, all data, cuts, keys, IVs, S-boxes, masks", "why_tests_cant": "Unbounded histories and interleavings over unboundedly many contexts.", "anchors": ["engine/cipher.c:dstu_cipher_init", "engine/cipher.c:dstu_cipher_do_cipher", "engine/cipher.c:dstu_cipher_ctrl", "engine/cipher.c:dstu_cipher_set_asn1_parameters", "engine/cipher.c:dstu_cipher_get_asn1_parameters", "engine/cipher.c:dstu_cipher_new"]}
{"id": "C96", "title": "Encoded parameters are the DER structures of the standard", "statement": "The bytes written for algorithm parameters, named or in full, with or without S-box, are the DER encoding of the ASN.1 structures of DSTU 4145, and no other bytes are; reading them gives the parameters back and stops exactly where they end, so that encodings of different parameters never agree; a byte string is read as parameters exactly if it starts with an encoding of them, with lengths in any definite form, and can then be written again, in no more bytes, and is read as the same parameters. The parameters the cipher writes by hand are those of its ASN.1 template.", "quantifier": "all parameters (all integers, strings, identifiers; encodings below 2^28 bytes), all input bytes, all trailing bytes; byte strings with lengths in a definite form, tags in the short form and strings in one piece (C103 adds the rest of BER)", "why_tests_cant": "All values and all byte strings; sizes cross several boundaries of the encoding of lengths and integers.", "anchors": ["dstulib/asn1.c:DSTU_AlgorithmParameters", "dstulib/asn1.c:DSTU_CurveSpec", "dstulib/asn1.c:DSTU_CustomCurveSpec", "dstulib/asn1.c:DSTU_BinaryField", "dstulib/asn1.c:DSTU_Polynomial", "dstulib/asn1.c:DSTU_Pentanomial", "dstulib/asn1.c:DSTU_Gost28147Parameters", "engine/cipher.c:dstu_cipher_set_asn1_parameters"]}
{"id": "C97", "title": "Key-6 files and curve attributes are read as the DER structures they are", "statement": "The DER encoding of a Key-6 container, whatever follows it, is imported as that container: the keys are looked for in the message decrypted with the password. Only such files are accepted: every accepted file can be replaced by the DER encoding of a container with the right identifier, which is not longer and imports the same; a file that does not start with the encoding of a container with this identifier is refused and changes nothing. The DER encoding of a curve in the attributes of a private key is read as that curve, and nothing else is; it together with the number in the other attribute gives the second key.", "quantifier": "all passwords, messages, MACs, ways to split the ciphertext, all files (below 2^28 bytes), all curves, all attribute lists; files with lengths in a definite form, tags in the short form and strings in one piece (C103 adds the rest of BER)", "why_tests_cant": "All byte strings as files; all passwords and messages.", "anchors": ["keylib/iit_asn1.c:IITStore", "keylib/iit_asn1.c:IITHeader", "keylib/iit_asn1.c:IITParams", "keylib/attrcurvespec_asn1.c:DSTU_AttrCurveSpec", "keylib/key6.c:parseKey6", "keylib/utils.c:makeECGROUP"]}
{"id": "C98", "title": "Printing keys", "statement": "Printing the parameters or the public half of a key writes nothing that depends on the private key; printing a key pair shows its private key and its public point in full, so that different keys are never shown alike; printing succeeds for every key that can be imported or generated and shows its curve, and is defined for every key object.", "quantifier": "all keys, curves, S-boxes, key types; all imported and generated keys", "why_tests_cant": "Independence of the private key relates all pairs of keys; success must hold for every key and curve.", "anchors": ["engine/ameth.c: dstu_asn1_param_print, dstu_asn1_priv_print, dstu_asn1_pub_print"]}
{"id": "C99", "title": "Signing and verifying with any key object", "statement": "Signing and verifying are defined for every key object, whatever parts of it are missing and whatever its curve parameters are, as they may come from an imported certificate. If the key, its parameters or the number or point that is needed is missing, the call is refused and nothing is written. Signing never writes more than the advertised size or than there is room for, and nothing when it is refused. Verification accepts exactly if the signature holds two numbers between 1 and the order that satisfy the verification equation. On valid parameters a signature made with a key object is accepted by every key object with the matching public point.", "quantifier": "all key objects, valid or not; all curve parameters; all behaviours of the curve arithmetic; all digests, signatures, buffer sizes and random numbers", "why_tests_cant": "The parameters of an imported key are chosen by whoever made the certificate; safety must hold for all of them, including those on which the arithmetic gives meaningless results.", "anchors": ["engine/pmeth.c: dstu_pkey_sign, dstu_pkey_verify", "engine/sign.c: dstu_do_sign, dstu_do_verify", "engine/ameth.c: dstu_asn1_pkey_size"]}
{"id": "C100", "title": "Key files, byte for byte", "statement": "The file of a private key (PKCS#8 PrivateKeyInfo) is the DER encoding of version 0, the identifier of the key's type, its parameters and its number, the file of a public key (X.509 SubjectPublicKeyInfo) that of the identifier, the parameters and the compressed point, and there is no other. A byte string is read as a key exactly if it starts with such a structure, in any form BER allows (lengths may be indefinite, tags long, strings in pieces), whose version may be any number, with attributes or without, and whose identifier is one of the two, whose parameters describe a curve and S-box, and whose contents are a number or stand for a point; the key read is the one described. Every key with a file is read back from it, whatever follows; two private keys with the same file are the same; a file that was cut off is refused, and a file of one kind is never read as the other kind. The two halves of a generated key pair, written to files and read from them, match, and what is signed with one is accepted with the other.", "quantifier": "all keys of both types on all encodable curves; all byte strings as files; all bytes after a file; all prefixes", "why_tests_cant": "Files come from elsewhere: acceptance must be characterised for every byte string, and the round trip must hold for every curve, S-box and number.", "anchors": ["engine/ameth.c: dstu_asn1_priv_decode, dstu_asn1_priv_encode, dstu_asn1_pub_decode, dstu_asn1_pub_encode, dstu_asn1_param_decode, dstu_asn1_param_encode", "dstulib/asn1.c: DSTU_AlgorithmParameters"]}
{"id": "C101", "title": "Key files in containers, from the bytes to the key store", "statement": "A byte string that starts with a PKCS#8 file of a private key of one of the two types, in any form BER allows and with any attributes, is imported as a new key store that holds exactly that key, and after it the second key if the attributes describe one: the last attribute for curves holds a curve and the last one for keys a bit or octet string, whose first bit is the lowest of the number. Any other byte string is refused and nothing changes. A private key that was exported, encrypted under a password into a Key-6 container, or protected under a password in an entry of a Java key store next to any number of other entries, is imported from the bytes of the container as exactly the key that was exported, whatever follows.", "quantifier": "all byte strings; all keys with a file on all encodable curves; all attributes; all passwords, salts, fillings and numbers of entries; all previous histories of key stores", "why_tests_cant": "The chain from the bytes of a container to the key in the store runs through five decoders; it must hold for every key, password and attribute list, and refusal for every other byte string.", "anchors": ["keylib/utils.c: keysFromPKCS8, pkeyFromAttributes, getPrivateKeyNum, makeECGROUP", "keylib/key6.c: parseKey6", "keylib/jks.c: parseJKS, decryptKey, fromKeyProtector", "engine/ameth.c: dstu_asn1_priv_decode, dstu_asn1_priv_encode", "keylib/attrcurvespec_asn1.c", "keylib/iit_asn1.c"]}
{"id": "C102", "title": "Digests started for a key of any algorithm", "statement": "Starting the DSTU digest for signing or verifying with a key uses the S-box of the key exactly when the key is a DSTU key that has one; with a key of any other algorithm the digest is the one with the default S-box and reads nothing else of the key.", "quantifier": "all key objects and all contents of the memory around them, all digest contexts after any history, all messages shorter than 2^60 bytes", "why_tests_cant": "The result depends on the memory layout of key objects of algorithms the engine does not know and on the addresses of one run.", "anchors": ["engine/md.c:dstu_md_init", "dstulib/key.h:DSTU_KEY"]}
{"id": "C103", "title": "What is read in BER", "statement": "Algorithm parameters, cipher parameters, signatures, Key-6 files and curve attributes are read in any form BER allows: a byte string is read as one of them exactly if it starts with a BER encoding of it, in which lengths may be indefinite, tag numbers may be in the long form and octet strings may be in pieces nested at most five deep, and the rest is left; nothing else is read. Everything read in definite form is read as the same; what is written in DER is read back; parameters that were read can be written in DER and are then read as the same. A signature in any of these forms is judged like the same signature in DER, and bytes that do not start with an encoding of an octet string are judged as a raw signature.", "quantifier": "all byte strings (below 2^26 bytes where they are written again), all parameters, curves, signatures, keys and digests, all trailing bytes", "why_tests_cant": "The forms are unboundedly many: every length, nesting and splitting; acceptance must be characterised for every byte string.", "anchors": ["dstulib/asn1.c:DSTU_AlgorithmParameters", "dstulib/asn1.c:DSTU_Gost28147Parameters", "keylib/iit_asn1.c:IITStore", "keylib/attrcurvespec_asn1.c:DSTU_AttrCurveSpec", "engine/pmeth.c:dstu_pkey_verify", "keylib/key6.c:parseKey6"]}
{"id": "C104", "title": "Which curves are read, and as what", "statement": "The description of a curve in the parameters of a key (exponents of the field polynomial, coefficients, order, compressed base point) is read exactly if there is a curve with that field, those coefficients, that order and the base point the given number stands for, and the description is within fixed limits: three or five different exponents, positive ones apart from the last, a equal to 0 or 1, a base point not shorter than the field, a positive order of at most two bits more than the degree, and in little-endian order a coefficient b that is not empty. The curve read is that curve, and no description stands for two. The key library reads the same from curve attributes, in big-endian order, without the demand for positive exponents and without looking at the sign of a; another coefficient a is read too, modulo the field polynomial, if the base point is given as zeros, and then only. Parameters are read as a key exactly if they stand for a built-in curve or a described one, and for an S-box of 64 bytes or none; a file is read as a private or public key exactly if it starts with a structure whose parameters do and whose contents are a number or stand for a point of that curve.", "quantifier": "all descriptions whose exponents fit into a C int and whose polynomial is irreducible of odd degree (the fields of DSTU 4145); both byte orders; all parameters and byte strings with such descriptions or any identifier", "why_tests_cant": "Acceptance is claimed exactly, for unboundedly many fields, coefficients, orders and encoded base points; that nothing else is read and that what is read is the described curve are statements about all of them.", "anchors": ["dstulib/key.c:group_from_asn1", "dstulib/key.c:key_from_asn1", "keylib/utils.c:makeECGROUPFromSpec", "dstulib/compress.c:dstu_point_expand", "engine/ameth.c:dstu_asn1_priv_decode", "engine/ameth.c:dstu_asn1_pub_decode"]}
{"id": "C105", "title": "Digests, passwords and signatures of any length are used whole", "statement": "Signing, verification and PKCS#12 import behave according to all the bytes of the digest, signature or password they are given, whatever its length, and to nothing else: a signature for one digest is not accepted for a longer one with another field element, a file is not opened by a longer password than its own, and a longer signature is not accepted because a shorter one is, nor because of what memory held before.", "quantifier": "all digests, signatures and passwords of any length a size_t can express, all keys, files and previous contents of memory", "why_tests_cant": "The lengths at which a size stops fitting into an int are out of reach of tests, and the claim is about all lengths and contents.", "anchors": ["engine/sign.c:hash_to_field", "engine/sign.c:dstu_do_sign", "engine/sign.c:dstu_do_verify", "engine/pmeth.c:dstu_pkey_sign", "engine/pmeth.c:dstu_pkey_verify", "dstulib/params.c:reverse_bytes_copy", "keylib/pkcs12.c:parsePKCS12"]}
{"id": "C106", "title": "An imported private key is a private key of its curve", "statement": "Every private key that is imported on a built-in curve holds a number between 1 and the order, without the order itself, so that its public point is not the point at infinity and no one can sign without the number.", "quantifier": "all private key structures, both key types, all ten built-in curves, all digests and random numbers", "why_tests_cant": "It is a claim about every number that a file may hold, of any length; tests import well-formed keys.", "anchors": ["engine/ameth.c:dstu_asn1_priv_decode", "dstulib/params.c:dstu_add_public_key", "engine/sign.c:dstu_do_sign", "engine/sign.c:dstu_do_verify", "keylib/utils.c:makePKey"]}
{"id": "C107", "title": "A signature identifies its signer", "statement": "If a signature is accepted for a digest under a public key, it is accepted for that digest under no other public key of the same curve.", "quantifier": "all ten built-in curves, all signatures in both byte orders, all digests, all public keys", "why_tests_cant": "It compares one signature with every other key of the curve; tests try a few wrong keys.", "anchors": ["engine/sign.c:dstu_do_verify", "engine/pmeth.c:dstu_pkey_verify"]}
{"id": "C108", "title": "A signature is for one digest, and a digest has one s for each r", "statement": "A signature that is accepted under a key for a digest is accepted under this key for no digest that stands for another field element; and of the signatures with the same r, only one number s is accepted for this digest.", "quantifier": "all ten built-in curves, all keys, all signatures in both byte orders, all digests of any length", "why_tests_cant": "It compares one signature with every other digest and every other number s.", "anchors": ["engine/sign.c:dstu_do_verify", "engine/sign.c:hash_to_field", "engine/sign.c:field_to_bn", "engine/pmeth.c:dstu_pkey_verify"]}
{"id": "C109", "title": "The accepted signatures are the owner's signatures", "statement": "For a private key and its public key on a built-in curve, a signature is accepted for a digest exactly if there is a random number between 1 and the order with which signing the digest gives the same r and s; this number is unique, so different random numbers give different signatures.", "quantifier": "all ten built-in curves, all key pairs, all signatures in both byte orders, all digests", "why_tests_cant": "It ranges over every signature and every random number of the signer.", "anchors": ["engine/sign.c:dstu_do_sign", "engine/sign.c:dstu_do_verify", "engine/pmeth.c:dstu_pkey_verify"]}
{"id": "C110", "title": "Random numbers for keys and nonces are in range, uniform and from the stream in order", "statement": "With the generator of the engine, every number drawn for a private key or a signature is below the order; all numbers below the order are equally frequent among the blocks of bytes they are made of; and each number is made of the first usable block of the one stream, of 99 that are tried, directly after the blocks used before. So every key pair generated is valid and every signature made is accepted.", "quantifier": "all orders, all states of the generator, any number of draws, all seeds; all curves, keys and digests", "why_tests_cant": "It ranges over all seeds and states of the generator, and equal frequency is a count over 2^160 and more blocks.", "anchors": ["engine/rbg.c:dstu_rbg_bytes", "engine/sign.c:dstu_do_sign", "dstulib/params.c:dstu_generate_key"]}
{"id": "C111", "title": "Entropy added by the application reaches the random bytes", "statement": "Entropy that the application adds (RAND_add, RAND_seed) changes the bytes handed out afterwards.", "quantifier": "all states of the generator, all sequences of calls with and without added entropy, all answers of the rest of the system", "why_tests_cant": "It compares all histories of calls that differ only in the entropy added.", "anchors": ["engine/rbg.c:dstu_rbg_seed", "engine/rbg.c:dstu_rbg_status_nolock", "engine/rbg.c:dstu_rbg_bytes"]}
{"id": "C112", "title": "No random number serves two signatures", "statement": "Two signatures, made one after the other in a process or in two copies of a process (parent and child after fork), never use the same part of the random stream; in particular the private key cannot be computed from them.", "quantifier": "all states of the generator, all keys, all pairs of digests, any number of draws, all answers of the rest of the system after the copy", "why_tests_cant": "It concerns every moment at which a process may be copied and every pair of signatures after it.", "anchors": ["engine/rbg.c:dstu_rbg_bytes", "engine/rbg.c:dstu_rbg_status_nolock", "engine/sign.c:dstu_do_sign"]}
{"id": "C113", "title": "Every private key can be generated", "statement": "No private key between 1 and the order is excluded from key generation: by the seed of a process during its whole life, or altogether.", "quantifier": "all ten built-in curves, all seeds and times, all histories of calls before the generation", "why_tests_cant": "It ranges over all private keys, all seeds and all histories; what is never generated cannot be observed.", "anchors": ["engine/rbg.c:dstu_rbg_init", "engine/rbg.c:dstu_rbg_get_bit", "engine/rbg.c:dstu_rbg_bytes", "dstulib/params.c:dstu_generate_key"]}
{"id": "C114", "title": "Earlier random bytes cannot be computed from memory", "statement": "Whoever reads the memory of the generator after a request cannot compute the bytes handed out before, and so not a private key just generated or the private key of a signature just made.", "quantifier": "all states of the generator, all requests, all keys and signatures", "why_tests_cant": "It denies a computation for all states; a test cannot try all computations, and the refutation is an inverse for every state.", "anchors": ["engine/rbg.c:dstu_rbg_get_bit", "engine/rbg.c:dstu_rbg_bytes", "engine/rbg.c:dstu_rbg_cleanup"]}
{"id": "C115", "title": "The random stream does not repeat itself", "statement": "However long a process runs, the bytes it is given do not begin again from an earlier place of the stream, and no number for a signature or key is drawn again because of it.", "quantifier": "all seeds and times, all positions in the stream, all orders", "why_tests_cant": "The period is far beyond what a test can draw, and the claim is about every seed.", "anchors": ["engine/rbg.c:dstu_rbg_get_bit", "engine/rbg.c:dstu_rbg_bytes", "engine/rbg.c:dstu_rbg_init"]}
{"id": "C116", "title": "Files, parameters and the generator work alike on every machine", "statement": "A key file or an encoding of key parameters that is accepted on one machine is accepted on every other, with the same result, whatever the byte order of the machine and the size of its long; and the random bit generator is that of the standard on each.", "quantifier": "all files, passwords, encodings and seeds; both byte orders; every size of long of at least 32 bits", "why_tests_cant": "Tests run on one machine; the claim compares all machines on all inputs.", "anchors": ["keylib/jks.c:parseJKS", "keylib/jks.c:read32", "keylib/jks.c:read16", "dstulib/key.c:group_from_asn1", "engine/ameth.c:dstu_asn1_param_decode", "engine/rbg.c:dstu_rbg_get_bit", "engine/rbg.c:dstu_rbg_init"]}
{"id": "C117", "title": "The running time and the caches do not show keys", "statement": "While data are encrypted, decrypted or hashed and while random bits are drawn, the conditions that are tested and the table entries that are read depend only on the direction and on the lengths of the pieces, not on keys, initialisation vectors, data, seeds or earlier history.", "quantifier": "all keys, masks, initialisation vectors, S-boxes, seeds, dates, messages and ways of cutting them; contexts with any history", "why_tests_cant": "Tests compare outputs; the claim compares the steps of every pair of runs on inputs of the same lengths.", "anchors": ["dstulib/gost/gost89.c:f", "dstulib/gost/gost89.c:gostcrypt", "engine/cipher.c:dstu_cipher_init", "engine/cipher.c:dstu_cipher_do_cipher", "dstulib/gost/gosthash.c:hash_block", "dstulib/gost/gosthash.c:finish_hash", "engine/rbg.c:dstu_rbg_init", "engine/rbg.c:dstu_rbg_get_bit"]}
{"id": "C118", "title": "Every request for random bytes returns", "statement": "Whatever the other threads do and whatever the rest of the system answers, every request for random bytes or for the status returns in the end if the scheduler picks every thread again and again; also in a copy of the process (the child after fork).", "quantifier": "all numbers of threads, all requests, all infinite schedules that pick every thread again and again, all answers of the rest of the system, all moments of a fork", "why_tests_cant": "A test sees finitely many schedules and cannot tell a long wait from an endless one.", "anchors": ["engine/rbg.c:dstu_lock", "engine/rbg.c:dstu_unlock", "engine/rbg.c:dstu_rbg_bytes", "engine/rbg.c:dstu_rbg_status"]}
{"id": "C119", "title": "A MAC vouches for one message", "statement": "Different messages have different MACs, no MAC is known without the key, and a message with its MAC does not give the MAC of another message to somebody without the key.", "quantifier": "all keys and S-boxes, all initial values, all messages, all sizes of the MAC", "why_tests_cant": "It ranges over all pairs of messages and all keys; a test cannot show that no second message has the same MAC, nor that a forgery works for every key.", "anchors": ["dstulib/gost/gost89.c:gost_mac", "dstulib/gost/gost89.c:gost_mac_iv", "dstulib/gost/gost89.c:mac_block", "dstulib/gost/gost89.c:get_mac"]}
{"id": "C120", "title": "A digest vouches for one message", "statement": "Two different messages of fewer than 2^60 bytes have different digests unless two of the steps made for them are a collision of the step function of GOST 34.311-95: padding, length and the way the data is cut into pieces give no other way to the same digest.", "quantifier": "all pairs of messages, all S-boxes, all histories of any number of contexts", "why_tests_cant": "It ranges over all pairs of messages.", "anchors": ["dstulib/gost/gosthash.c:hash_block", "dstulib/gost/gosthash.c:finish_hash", "dstulib/gost/gosthash.c:hash_step", "engine/md.c:dstu_md_update", "engine/md.c:dstu_md_final"]}
{"id": "C121", "title": "HMAC and keys made of passwords are those of the standards", "statement": "HMAC with the digest of the engine is RFC 2104 with GOST 34.311-95 and blocks of 32 bytes, for any number of messages in any pieces under one key; PBKDF2 with it is RFC 8018; and password based encryption uses the key so made.", "quantifier": "all keys, messages, pieces, passwords, salts, numbers of iterations and key lengths, all histories of other digest contexts", "why_tests_cant": "All inputs, and all histories of the contexts that are copied, finished and used again.", "anchors": ["engine/md.c:dstu_digest_new", "engine/md.c:dstu_md_copy", "engine/md.c:dstu_md_cleanup", "engine/md.c:dstu_md_init", "engine/md.c:dstu_md_final", "engine/dstu.c:dstu_bind", "engine/cipher.c:dstu_cipher_ctrl"]}
{"id": "C122", "title": "A signature of a message vouches for the message", "statement": "When one signature is accepted under one key for two different messages, their digests collide: the signature of a message cannot serve for another one unless the hash function is broken.", "quantifier": "all built-in curves, keys, byte orders, S-boxes, signatures, messages, ways to give them in pieces, and histories of other digest contexts", "why_tests_cant": "All signatures and all sets of messages; forgeries are rare among random inputs.", "anchors": ["engine/sign.c:dstu_do_verify", "engine/sign.c:hash_to_field", "engine/pmeth.c:dstu_pkey_verify", "engine/md.c:dstu_md_final", "dstulib/gost/gosthash.c:finish_hash"]}
{"id": "C123", "title": "Keys matter, whatever S-box was accepted", "statement": "With every S-box that a cipher context or a key accepts, the ciphertext depends on the key and a signature on the message; and the ciphertext under one key does not tell the ciphertext under another.", "quantifier": "all keys, IVs, messages, pieces, S-boxes of 64 bytes, masks; all curves and signatures", "why_tests_cant": "All keys and all S-boxes; relations between keys do not show up in vectors.", "anchors": ["engine/cipher.c:dstu_cipher_ctrl", "engine/cipher.c:dstu_cipher_do_cipher", "dstulib/gost/gost89.c:gostcrypt", "engine/ameth.c:dstu_asn1_param_decode", "engine/md.c:dstu_md_init"]}
{"id": "C124", "title": "Changes of encrypted data are noticed", "statement": "If a ciphertext was changed or cut on its way, decryption does not deliver changed data as if it were the data that was sent.", "quantifier": "all keys, IVs, S-boxes, messages, changes, cuts, and divisions into pieces", "why_tests_cant": "All changes of all messages; tests decrypt what was encrypted.", "anchors": ["engine/cipher.c:dstu_cipher_do_cipher", "engine/cipher.c:dstu_cipher_init"]}
{"id": "C125", "title": "Failures never make a wrong signature or a wrong verdict", "statement": "Whatever calls fail while a signature is made or checked, for lack of memory or otherwise: a signature that is made is the one made when nothing fails, and verifies; a signature that is accepted is accepted when nothing fails; and the functions return.", "quantifier": "all keys, digests (that of zeros too), signatures, draws of the generator, and sets of failing calls", "why_tests_cant": "Every combination of failures with every digest and signature.", "anchors": ["engine/sign.c:dstu_do_sign", "engine/sign.c:dstu_do_verify", "engine/sign.c:hash_to_field", "engine/pmeth.c:dstu_pkey_sign", "engine/pmeth.c:dstu_pkey_verify"]}
{"id": "C126", "title": "Failures never make a wrong key", "statement": "Whatever calls fail while a key is generated, or a point compressed or expanded, for lack of memory or otherwise: a key pair that is handed out belongs together and makes signatures that verify; the bytes of a compressed point are those written when nothing fails; an expanded point is the one that was compressed.", "quantifier": "all groups, keys, points, draws of the generator, and sets of failing calls", "why_tests_cant": "Every combination of failures with every key and point.", "anchors": ["dstulib/params.c:dstu_generate_key", "dstulib/params.c:dstu_add_public_key", "dstulib/compress.c:dstu_point_compress", "dstulib/compress.c:dstu_point_expand", "dstulib/compress.c:bn_trace", "engine/pmeth.c:dstu_pkey_keygen"]}
{"id": "C127", "title": "Failures never change an imported key", "statement": "Whatever calls fail while a key is imported, for lack of memory or otherwise: if the import reports success, curve, S-box, private key and public key are those imported when nothing fails.", "quantifier": "all encoded parameters, private keys and public keys, decoders, and sets of failing calls", "why_tests_cant": "Every combination of failures with every key.", "anchors": ["dstulib/params.c:group_from_named_curve", "dstulib/params.c:group_from_nid", "dstulib/key.c:group_from_asn1", "dstulib/key.c:key_from_asn1", "engine/ameth.c:dstu_asn1_param_decode", "engine/ameth.c:dstu_asn1_priv_decode", "engine/ameth.c:dstu_asn1_pub_decode"]}
{"id": "C128", "title": "Failures never change an exported key", "statement": "Whatever calls fail while a key is exported, for lack of memory or otherwise: if the export reports success, what was exported is what is exported when nothing fails, and importing it gives the same key.", "quantifier": "all keys on built-in and other curves, both key types, S-boxes, and sets of failing calls", "why_tests_cant": "Every combination of failures with every key.", "anchors": ["dstulib/params.c:curve_nid_from_group", "dstulib/key.c:asn1_from_key", "engine/ameth.c:dstu_asn1_param_encode", "engine/ameth.c:dstu_asn1_priv_encode", "engine/ameth.c:dstu_asn1_pub_encode"]}
{"id": "C129", "title": "Failures never change the keys of a key file", "statement": "Whatever calls fail while the keys of a PKCS#8 structure are read, for lack of memory or otherwise: if success is reported, the keys are those that are read when nothing fails.", "quantifier": "all structures, attributes, curve descriptions and sets of failing calls", "why_tests_cant": "Every combination of failures with every key file.", "anchors": ["keylib/utils.c:keysFromPKCS8", "keylib/utils.c:pkeyFromAttributes", "keylib/utils.c:makePKey", "keylib/utils.c:makeECGROUPFromSpec", "keylib/utils.c:makeECGROUP", "keylib/utils.c:getPrivateKeyNum"]}
{"id": "C130", "title": "Failures never change what is imported from a PKCS#12 file", "statement": "Whatever calls fail while a PKCS#12 file is read and imported, for lack of memory or otherwise: if success is reported, the new store holds exactly the keys and certificates of the file, in their order, and everything else is as it was; if not, the caller is not given a store.", "quantifier": "all files, passwords, libraries, reachable memories and sets of failing calls", "why_tests_cant": "Every combination of failures with every file.", "anchors": ["keylib/pkcs12.c:parsePKCS12", "keylib/pkcs12.c:fromSafes", "keylib/pkcs12.c:fromBag", "keylib/pkcs12.c:countKeysCerts", "keylib/pkcs12.c:readPKCS12", "keylib/pkcs12.c:readPKCS12_bio"]}
{"id": "C131", "title": "A failing call never changes the password of a JKS file", "statement": "Whatever calls fail while a password of a JKS file or of a key in it is converted, for lack of memory or otherwise: exactly the given password is used, or the import fails. In particular a wrong password is not accepted because a call failed.", "quantifier": "all passwords, files, libraries, memories and sets of failing calls", "why_tests_cant": "Every combination of failures with every password.", "anchors": ["keylib/jks.c:toUTF16BE", "keylib/jks.c:parseJKS", "keylib/jks.c:decryptKey"]}
