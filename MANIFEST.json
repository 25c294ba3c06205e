{
 "claims": [
  {
   "property": "C01",
   "status": "proved",
   "theorems": [
    "Dstu.Props.C01_block_inverse",
    "Dstu.Props.C01_block_injective"
   ],
   "note": ""
  },
  {
   "property": "C02",
   "status": "proved",
   "theorems": [
    "Dstu.Props.C02_block_is_gost28147",
    "Dstu.Props.C02_block_is_gost28147_packed",
    "Dstu.Props.C02_default"
   ],
   "note": ""
  },
  {
   "property": "C03",
   "status": "proved",
   "theorems": [
    "Dstu.Props.C03_mask_unobservable"
   ],
   "note": ""
  },
  {
   "property": "C04",
   "status": "proved",
   "theorems": [
    "Dstu.Props.C04_key_readback"
   ],
   "note": ""
  },
  {
   "property": "C05",
   "status": "proved",
   "theorems": [
    "Dstu.Props.C05_ecb",
    "Dstu.Props.C05_ecb_bounds"
   ],
   "note": ""
  },
  {
   "property": "C06",
   "status": "proved",
   "theorems": [
    "Dstu.Props.C06_cfb_encrypt",
    "Dstu.Props.C06_any_sbox"
   ],
   "note": "C06_any_sbox covers substitution boxes installed by the control."
  },
  {
   "property": "C07",
   "status": "proved",
   "theorems": [
    "Dstu.Props.C07_cfb_decrypt",
    "Dstu.Props.C07_any_sbox"
   ],
   "note": "C07_any_sbox covers substitution boxes installed by the control."
  },
  {
   "property": "C08",
   "status": "proved",
   "theorems": [
    "Dstu.Props.C08_overlap",
    "Dstu.Props.C08_in_place",
    "Dstu.Props.C08_reachable"
   ],
   "note": "For any output position that does not start strictly inside the input; C08_overlap states the exact condition."
  },
  {
   "property": "C09",
   "status": "proved",
   "theorems": [
    "Dstu.Props.C09_return_value",
    "Dstu.Props.C09_no_write"
   ],
   "note": ""
  },
  {
   "property": "C10",
   "status": "proved",
   "theorems": [
    "Dstu.Props.C10_resync"
   ],
   "note": ""
  },
  {
   "property": "C11",
   "status": "partial",
   "theorems": [
    "Dstu.Props.C11_key_then_iv",
    "Dstu.Props.C11_full_refuted",
    "Dstu.Props.C11_iv_then_key_partial",
    "Dstu.Props.C11_iv_then_key_exact"
   ],
   "note": "Key first, then IV is proved (C11_key_then_iv). IV first, then key is refuted (C11_full_refuted): loading the key leaves the stale feedback buffer. C11_iv_then_key_partial gives the case in which it works, C11_iv_then_key_exact the output for all sequences of updates: the first key stream block is that of the old key exactly if the first update is shorter than 8 bytes."
  },
  {
   "property": "C12",
   "status": "partial",
   "theorems": [
    "Dstu.Props.C12_restart_refuted",
    "Dstu.Props.C12_restart_partial",
    "Dstu.Props.C12_reject",
    "Dstu.Props.C12_persist_refuted",
    "Dstu.Props.C12_restart_exact"
   ],
   "note": "C12_restart_full and C12_persist_full are refuted by concrete runs: the control does not clear the position inside the block, and a later key change restores the default S-box. C12_restart_partial proves the restart at block boundaries, C12_restart_exact gives the output after any number of bytes, C12_reject the refusal."
  },
  {
   "property": "C13",
   "status": "proved",
   "theorems": [
    "Dstu.Props.C13_params_roundtrip"
   ],
   "note": ""
  },
  {
   "property": "C14",
   "status": "proved",
   "theorems": [
    "Dstu.Props.C14_malformed_rejected",
    "Dstu.Props.C14_header_unchecked"
   ],
   "note": "C14_header_unchecked records that the outer header bytes are not looked at beyond what the ASN.1 library already checked."
  },
  {
   "property": "C15",
   "status": "proved",
   "theorems": [
    "Dstu.Props.C15_sbox_roundtrip",
    "Dstu.Props.C15_sbox_injective"
   ],
   "note": ""
  },
  {
   "property": "C16",
   "status": "partial",
   "theorems": [
    "Dstu.Props.C16_mac_partial",
    "Dstu.Props.C16_get_mac_bits",
    "Dstu.Props.C16_other_lengths_partial",
    "Dstu.Props.C16_bits_refuted",
    "Dstu.Props.C16_length_refuted"
   ],
   "note": "The MAC chaining, padding and one-block rule are proved for every message whose length is below the wrap-around bound and every bit count the code masks correctly; C16_bits_refuted and C16_length_refuted exhibit inputs on which the code deviates from the full statement. C16_other_lengths_partial says what is returned for every other number of bits."
  },
  {
   "property": "C17",
   "status": "proved",
   "theorems": [
    "Dstu.Props.C17_any_history",
    "Dstu.Props.C17_defined",
    "Dstu.Props.C17_digest"
   ],
   "note": ""
  },
  {
   "property": "C18",
   "status": "proved",
   "theorems": [
    "Dstu.Props.C18_split_independent"
   ],
   "note": ""
  },
  {
   "property": "C19",
   "status": "proved",
   "theorems": [
    "Dstu.Props.C19_final_harmless"
   ],
   "note": ""
  },
  {
   "property": "C20",
   "status": "proved",
   "theorems": [
    "Dstu.Props.C20_independent",
    "Dstu.Props.C20_copy_equal"
   ],
   "note": ""
  },
  {
   "property": "C21",
   "status": "proved",
   "theorems": [
    "Dstu.Props.C21_key_sbox",
    "Dstu.Props.C21_ctrl_result",
    "Dstu.Props.C21_ctrl_sbox"
   ],
   "note": ""
  },
  {
   "property": "C22",
   "status": "partial",
   "theorems": [
    "Dstu.Props.C22_full_refuted",
    "Dstu.Props.C22_length_partial"
   ],
   "note": "Refuted in full: at 2^60 bytes the signed bit counter overflows (C22_full_refuted). C22_length_partial: exact for every shorter message."
  },
  {
   "property": "C23",
   "status": "proved",
   "theorems": [
    "Dstu.Props.C23_raw_signature_verifies",
    "Dstu.Props.C23_signature_verifies"
   ],
   "note": "For every valid curve (Mathlib point group), both key types, through DER; raw form too. External contracts: EC arithmetic is the group law, BN_rand_range yields numbers below the order, d2i inverts i2d."
  },
  {
   "property": "C24",
   "status": "proved",
   "theorems": [
    "Dstu.Props.C24_out_of_range_rejected"
   ],
   "note": "r, s defined as big-endian halves of the octet string content (or of the raw input)."
  },
  {
   "property": "C25",
   "status": "proved",
   "theorems": [
    "Dstu.Props.C25_size_query",
    "Dstu.Props.C25_too_small",
    "Dstu.Props.C25_written_size"
   ],
   "note": "All three clauses, for every key, buffer size, digest and draw sequence."
  },
  {
   "property": "C26",
   "status": "proved",
   "theorems": [
    "Dstu.Props.C26_half_usable",
    "Dstu.Props.C26_rarely_waits",
    "Dstu.Props.C26_first_usable_nonce",
    "Dstu.Props.C26_returns",
    "Dstu.Props.C26_range",
    "Dstu.Props.C26_unusable_digest_never_returns",
    "Dstu.Props.C26_empty_digest_fails"
   ],
   "note": "Usable digests: first non-degenerate nonce is used, signing returns, r and s in 1..n-1. For the remaining digests no nonce is non-degenerate: C26_unusable_digest_never_returns shows that signing then never returns; empty digests are refused. On the built-in curves at least about half of the nonces can be used for every key and usable digest (C26_half_usable), so all but ((n+7)/2)^k of the n^k sequences of k draws give a result (C26_rarely_waits)."
  },
  {
   "property": "C27",
   "status": "partial",
   "theorems": [
    "Dstu.Props.C27_digest_conversion_partial",
    "Dstu.Props.C27_digest_conversion_refuted",
    "Dstu.Props.C27_valid_signature_rejected"
   ],
   "note": "Refuted in general: the zero test precedes the truncation, so a digest whose low m bits are zero gives 0 instead of 1 (all curves of degree below the digest size). Proved for all other nonempty digests and all degrees."
  },
  {
   "property": "C28",
   "status": "partial",
   "theorems": [
    "Dstu.Props.C28_unique_encoding_refuted",
    "Dstu.Props.C28_trailing_bytes_refuted",
    "Dstu.Props.C28_unique_body_partial"
   ],
   "note": "Refuted: every accepted signature has a second accepted encoding (zero-padded halves), and trailing bytes are ignored. Proved: the encoding is unique among bodies of equal length."
  },
  {
   "property": "C29",
   "status": "proved",
   "theorems": [
    "Dstu.Props.C29_verify_iff_equation",
    "Dstu.Props.C29_depends_only"
   ],
   "note": "Exact characterisation by the standard equation; digests with low m bits zero (C27) are excluded on the right hand side explicitly."
  },
  {
   "property": "C30",
   "status": "proved",
   "theorems": [
    "Dstu.Props.C30_byte_reversed",
    "Dstu.Props.C30_verify_reversed"
   ],
   "note": ""
  },
  {
   "property": "C31",
   "status": "partial",
   "theorems": [
    "Dstu.Props.C31_builtin",
    "Dstu.Props.C31_builtin_refuted",
    "Dstu.Props.C31_round_trip_partial",
    "Dstu.Props.C31_round_trip_refuted",
    "Dstu.Props.C31_round_trip_iff"
   ],
   "note": "The full claim is false. C31_builtin proves it with no exception on eight of the ten built-in curves; C31_builtin_refuted exhibits, on each of the other two (degrees 163 and 367), a point of the subgroup that cannot be compressed (x = 1). C31_round_trip_partial covers every curve with a in {0, 1} over a field of odd degree and every point but that one."
  },
  {
   "property": "C32",
   "status": "proved",
   "theorems": [
    "Dstu.Props.C32_expand_sound",
    "Dstu.Props.C32_expand_rejects",
    "Dstu.Props.C32_other_coefficient",
    "Dstu.Props.C32_expand_iff",
    "Dstu.Props.C32_unique",
    "Dstu.Props.C32_canonical"
   ],
   "note": "C32_expand_iff: expansion succeeds exactly on strings of sufficient length whose value stands for a point (Spec/PointForm), for a in {0, 1} over any field of odd degree, whatever b, order and base point are; C32_unique, C32_canonical. The quadratic solver is the external contract QuadSolver. C32_other_coefficient: with any other a exactly strings of zeros are expanded, to the point with abscissa 0."
  },
  {
   "property": "C33",
   "status": "proved",
   "theorems": [
    "Dstu.Props.C33_curve_table_sound",
    "Dstu.Props.C33_degrees_identifiers_distinct",
    "Dstu.Props.C33_order_prime",
    "Dstu.Props.C33_no_small_embedding",
    "Dstu.Props.C33_subgroup"
   ],
   "note": "The primality of the ten orders is proved from elliptic curve certificates checked in the kernel (Lemmas/Ecpp, Lemmas/OrderPrime)."
  },
  {
   "property": "C34",
   "status": "proved",
   "theorems": [
    "Dstu.Props.C34_identifier_round_trip",
    "Dstu.Props.C34_unknown_identifier",
    "Dstu.Props.C34_identified_iff_equal",
    "Dstu.Props.C34_otherwise_undefined"
   ],
   "note": "The numeric identifiers are OpenSSL constants; the model only assumes they are ten different non-zero numbers."
  },
  {
   "property": "C35",
   "status": "proved",
   "theorems": [
    "Dstu.Props.C35_named_round_trip"
   ],
   "note": "DER encoding of the parameter structure is the contract ParamCodec (decode of encode, trailing bytes ignored), instantiated by a concrete DER codec in Lemmas/Asn1."
  },
  {
   "property": "C36",
   "status": "partial",
   "theorems": [
    "Dstu.Props.C36_custom_round_trip_partial",
    "Dstu.Props.C36_custom_round_trip_refuted"
   ],
   "note": "Proved for every DSTU 4145 curve whose base point is not the exceptional point (x = 1, trace y = 0); refuted for that point by C36_custom_round_trip_refuted."
  },
  {
   "property": "C37",
   "status": "partial",
   "theorems": [
    "Dstu.Props.C37_malformed_rejected_partial",
    "Dstu.Props.C37_failure_changes_nothing",
    "Dstu.Props.C37_accepted_sound",
    "Dstu.Props.C37_malformed_refuted"
   ],
   "note": "Proved when the integers fit a C int; refuted outside: a degree of 163 - 2^32 is accepted because ASN1_INTEGER_get returns a long that is stored in an int. Failure leaves the key unchanged; whatever is accepted is a group with the decoded parameters."
  },
  {
   "property": "C38",
   "status": "partial",
   "theorems": [
    "Dstu.Props.C38_equivalence",
    "Dstu.Props.C38_exactly",
    "Dstu.Props.C38_effective_partial",
    "Dstu.Props.C38_effective_refuted"
   ],
   "note": "Equivalence proved in full; agreement with the effective S-box refuted when one key holds an explicit copy of the default S-box, proved otherwise. C38_exactly is the exact rule for all keys with a curve."
  },
  {
   "property": "C39",
   "status": "partial",
   "theorems": [
    "Dstu.Props.C39_param_copy_partial",
    "Dstu.Props.C39_param_copy_refuted"
   ],
   "note": "Proved for every history the interface allows when the destination has no S-box or the source has one. Refuted when the destination has an S-box and the source has none: the stale S-box is kept. Copying to itself is not allowed by the interface. OpenSSL 1.1.1 never reaches this callback through EVP_PKEY_copy_parameters because param_missing is not set."
  },
  {
   "property": "C40",
   "status": "partial",
   "theorems": [
    "Dstu.Props.C40_private_round_trip_partial",
    "Dstu.Props.C40_private_round_trip_refuted",
    "Dstu.Props.C40_builtin_round_trip"
   ],
   "note": "Proved without exception on the built-in curves and for every custom curve that can be encoded (C36); refuted for custom curves with the exceptional base point. d = 0 is not a private key."
  },
  {
   "property": "C41",
   "status": "partial",
   "theorems": [
    "Dstu.Props.C41_builtin",
    "Dstu.Props.C41_builtin_refuted",
    "Dstu.Props.C41_public_round_trip_partial",
    "Dstu.Props.C41_public_round_trip_refuted"
   ],
   "note": "The full claim is false. C41_builtin proves it with no exception on eight of the ten built-in curves; C41_builtin_refuted gives, on each of the other two (degrees 163 and 367), a point of the subgroup with which no key can be encoded. C41_public_round_trip_partial covers every encodable curve and every point but that one."
  },
  {
   "property": "C42",
   "status": "proved",
   "theorems": [
    "Dstu.Props.C42_generated",
    "Dstu.Props.C42_generation_succeeds",
    "Dstu.Props.C42_imported",
    "Dstu.Props.C42_generated_builtin"
   ],
   "note": "That random numbers are below n is assumed here and proved in C110 for the generator of the engine."
  },
  {
   "property": "C43",
   "status": "proved",
   "theorems": [
    "Dstu.Props.C43_contexts_are_values",
    "Dstu.Props.C43_controls_determine_keys",
    "Dstu.Props.C43_rejected_changes_nothing",
    "Dstu.Props.C43_rejected_string_changes_nothing"
   ],
   "note": "Refinement: the memory model of contexts and keys behaves as a store of values, for all call sequences the interface allows."
  },
  {
   "property": "C44",
   "status": "proved",
   "theorems": [
    "Dstu.Props.C44_one_stream",
    "Dstu.Props.C44_split",
    "Dstu.Props.C44_pool"
   ],
   "note": "Any sequence of seed, bytes and status calls from the loading of the library; cleanup is C46. Little-endian machine; counts that are not negative (negative_count_overflows shows what happens otherwise). C44_pool: the same with any generator of OpenSSL and any entropy added."
  },
  {
   "property": "C45",
   "status": "proved",
   "theorems": [
    "Dstu.Props.C45_private_segments",
    "Dstu.Props.C45_requests",
    "Dstu.Props.C45_no_race",
    "Dstu.Props.C45_no_deadlock"
   ],
   "note": "Small-step interleaving of any number of threads, one shared access per step. Assumes that the lock can be created and OpenSSL run_once and write_lock contracts."
  },
  {
   "property": "C46",
   "status": "partial",
   "theorems": [
    "Dstu.Props.C46_fails_safely_partial",
    "Dstu.Props.C46_status",
    "Dstu.Props.C46_reuse_refuted",
    "Dstu.Props.C46_pool_not_ready"
   ],
   "note": "Success is reported iff a seed was obtained, in every history. Reuse after cleanup is refuted: the freed lock is used (C46_reuse_refuted)."
  },
  {
   "property": "C47",
   "status": "partial",
   "theorems": [
    "Dstu.Props.C47_encode_round_trip_partial",
    "Dstu.Props.C47_written_iff_fits",
    "Dstu.Props.C47_zero_refuted",
    "Dstu.Props.C47_reverse_involution",
    "Dstu.Props.C47_reverse_copy_involution"
   ],
   "note": "bn_encode returns 0 (failure) for zero although it writes the bytes: refuted for 0, proved for all other numbers; reversal proved."
  },
  {
   "property": "C48",
   "status": "partial",
   "theorems": [
    "Dstu.Props.C48_list",
    "Dstu.Props.C48_known",
    "Dstu.Props.C48_loaded",
    "Dstu.Props.C48_unknown_partial",
    "Dstu.Props.C48_zero_refuted"
   ],
   "note": "lists, known identifiers, repeated lookups and unknown identifiers proved; identifier 0 for digests and ciphers refuted (C48_zero_refuted): the callback returns -1, which OpenSSL takes for success"
  },
  {
   "property": "C49",
   "status": "partial",
   "theorems": [
    "Dstu.Props.C49_lifetime_partial",
    "Dstu.Props.C49_reuse_refuted",
    "Dstu.Props.C49_double_free_refuted",
    "Dstu.Props.C49_name_refuted"
   ],
   "note": "proved for histories with one finish and no use of digests or ciphers after it; reuse after finish refuted: freed method handed out, double free, dangling name"
  },
  {
   "property": "C50",
   "status": "proved",
   "theorems": [
    "Dstu.Props.C50_registered_once"
   ],
   "note": "OpenSSL 1.1.1 error registry modelled; other libraries interleave"
  },
  {
   "property": "C51",
   "status": "proved",
   "theorems": [
    "Dstu.Props.C51_store_contents",
    "Dstu.Props.C51_no_store"
   ],
   "note": "All operation sequences, store sizes and indices; stores are lists in the specification (Spec/KeyStore.lean). The setters do not check the index, so the caller must (Allowed)."
  },
  {
   "property": "C52",
   "status": "partial",
   "theorems": [
    "Dstu.Props.C52_owned_partial",
    "Dstu.Props.C52_freed_by_its_store",
    "Dstu.Props.C52_held_is_live",
    "Dstu.Props.C52_nothing_left_partial",
    "Dstu.Props.C52_overwrite_refuted"
   ],
   "note": "Refuted for a place that is set twice: the first object leaks. Proved for all callers that set only empty places (live iff held at exactly one place; nothing left when all stores are freed) and, for all callers, that what is held is live and that an object is freed exactly when the store holding it is freed."
  },
  {
   "property": "C53",
   "status": "proved",
   "theorems": [
    "Dstu.Props.C53_import"
   ],
   "note": "All files, passwords, bag trees of any depth and any initial memory; OpenSSL's decoders and decryption are arbitrary functions (so deterministic: the two passes see the same bags)."
  },
  {
   "property": "C54",
   "status": "partial",
   "theorems": [
    "Dstu.Props.C54_jks_partial",
    "Dstu.Props.C54_jks_dangling_refuted",
    "Dstu.Props.C54_jks_exactly",
    "Dstu.Props.C54_key6",
    "Dstu.Props.C54_key6_other_type",
    "Dstu.Props.C54_pkcs12_partial",
    "Dstu.Props.C54_pkcs12_refused_partial",
    "Dstu.Props.C54_pkcs12_dangling_refuted"
   ],
   "note": "Refuted for both containers: a failure after the store was created leaves *ks referring to the freed store. Proved: a failed import changes nothing that existed and leaves nothing allocated, and failures found before the store is created leave *ks alone. C54_jks_exactly says exactly when a failed JKS import leaves *ks dangling."
  },
  {
   "property": "C55",
   "status": "partial",
   "theorems": [
    "Dstu.Props.C55_import_partial",
    "Dstu.Props.C55_digest_checked_partial",
    "Dstu.Props.C55_wrong_digest_refused",
    "Dstu.Props.C55_empty_password_refuted",
    "Dstu.Props.C55_accepted_partial",
    "Dstu.Props.C55_exactly"
   ],
   "note": "C55_exactly: with SHA-1 and the DER decoders as parameters, data is imported if and only if it begins with a key store of version 2 (magic number, readable entries, keyed digest for the password) and the password is not empty. The property as stated is refuted for the empty password, which is always refused. Data on which the parser reads outside its input is characterised by C56_exactly."
  },
  {
   "property": "C56",
   "status": "partial",
   "theorems": [
    "Dstu.Props.C56_inside_partial",
    "Dstu.Props.C56_short_refuted",
    "Dstu.Props.C56_truncated_refuted",
    "Dstu.Props.C56_foreign_partial",
    "Dstu.Props.C56_exactly"
   ],
   "note": "Refuted: data shorter than 12 bytes, and a file that ends before its digest, are read outside their bounds. C56_exactly says for which data, passwords and decoders the parser leaves its input or breaks off with undefined behaviour, as an equivalence; all other data is safe."
  },
  {
   "property": "C57",
   "status": "partial",
   "theorems": [
    "Dstu.Props.C57_protector_partial",
    "Dstu.Props.C57_roundtrip",
    "Dstu.Props.C57_wrong_check_refused",
    "Dstu.Props.C57_short_refuted",
    "Dstu.Props.C57_import_refused_partial"
   ],
   "note": "Proved for all protected data of at least 40 bytes: decryption yields a key exactly if the data is this key protected with the password; a file with a key that is not protected with the given password is refused, at any position after readable entries, and nothing is left allocated. Refuted for shorter data, on which the size computation wraps around."
  },
  {
   "property": "C58",
   "status": "partial",
   "theorems": [
    "Dstu.Props.C58_trusted_refuted"
   ],
   "note": "Refuted for every file with a trusted certificate after any number of readable key entries: the alias is taken for a certificate type and the upper half of the time for a length, so that the file is refused unless the bytes found there happen to decode. Nothing of it is proved, except that the refusal leaves nothing allocated."
  },
  {
   "property": "C59",
   "status": "partial",
   "theorems": [
    "Dstu.Props.C59_no_key_dropped_partial",
    "Dstu.Props.C59_unknown_refuted",
    "Dstu.Props.C59_any_data_partial"
   ],
   "note": "Refuted for keys of unknown algorithms: the import succeeds without them. Proved for any data on which the import succeeds, if the key entries have one of the two known algorithms: at least as many keys as key entries."
  },
  {
   "property": "C60",
   "status": "partial",
   "theorems": [
    "Dstu.Props.C60_converted_partial",
    "Dstu.Props.C60_invalid_refused",
    "Dstu.Props.C60_empty_refuted"
   ],
   "note": "Proved for every non-empty password (list of Unicode scalars, Lean Char): the loop ends, without undefined behaviour, and yields the whole text in UTF-16BE; bytes that are not UTF-8 are refused. Refuted for the empty password, which is refused although its conversion is the empty string. iconv is modelled by its POSIX contract."
  },
  {
   "property": "C61",
   "status": "proved",
   "theorems": [
    "Dstu.Props.C61_contents",
    "Dstu.Props.C61_import"
   ],
   "note": "For passwords shorter than 2^60 bytes; the decoder of the outer structure is a parameter, the inner PKCS#8 decoder is one that ignores what follows the structure. Allocation succeeds."
  },
  {
   "property": "C62",
   "status": "partial",
   "theorems": [
    "Dstu.Props.C62_mac_ignored",
    "Dstu.Props.C62_integrity_refuted"
   ],
   "note": "Refuted: the MAC is never looked at (C62_mac_ignored, C62_integrity_refuted)."
  },
  {
   "property": "C63",
   "status": "proved",
   "theorems": [
    "Dstu.Props.C63_number",
    "Dstu.Props.C63_no_number"
   ],
   "note": "Number read from the first octet or bit string, of any length; bit i of the number is the i-th bit of the string (spec bitAt). Unused-bit counts of ASN.1 bit strings are not looked at by the code."
  },
  {
   "property": "C64",
   "status": "partial",
   "theorems": [
    "Dstu.Props.C64_undefined_iff",
    "Dstu.Props.C64_keys_partial",
    "Dstu.Props.C64_failure",
    "Dstu.Props.C64_negative_exponent_refuted"
   ],
   "note": "Proved for all structures and attribute lists except those whose curve has a negative exponent: new store holding the main key and, iff the attributes describe a complete second key (last attribute of each kind, first string, first decodable curve), that key; failure leaves pointer and memory as they were. C64_undefined_iff: exactly the exception is undefined behaviour, because makePoly returns NULL, which is dereferenced (C64_negative_exponent_refuted). Decoders and EVP_PKCS82PKEY are parameters here; C101 has them at byte level. C104 tells what curve is made."
  },
  {
   "property": "C65",
   "status": "partial",
   "theorems": [
    "Dstu.Props.C65_concatenation",
    "Dstu.Props.C65_nothing_read",
    "Dstu.Props.C65_chunking",
    "Dstu.Props.C65_end_ignored",
    "Dstu.Props.C65_error_refuted"
   ],
   "note": "Proved for streams that end properly, for streams that fail at once, and for files from their current position (C65_file, C65_file_nothing). Refuted for errors after the first bytes: they are taken for the end of the file (C65_error_refuted, C65_end_ignored)."
  },
  {
   "property": "C66",
   "status": "proved",
   "theorems": [
    "Dstu.Props.C66_same_polynomial",
    "Dstu.Props.C66_described",
    "Dstu.Props.C66_same_curve",
    "Dstu.Props.C66_refused_alike_refuted"
   ],
   "note": "Whenever the engine builds a polynomial (or a whole big-endian curve) the key library builds the same; for sane descriptions it has exactly the described exponents. Extra theorem C66_refused_alike_refuted: descriptions refused by the engine are not all refused by the key library."
  },
  {
   "property": "C67",
   "status": "partial",
   "theorems": [
    "Dstu.Props.C67_raw_like_wrapped_partial",
    "Dstu.Props.C67_body_judged_partial",
    "Dstu.Props.C67_raw_like_wrapped_refuted"
   ],
   "note": "Refuted: raw signatures starting like an octet string are misread; proved for first bytes other than 04, 24, 1f and 3f, and by C103_raw_signatures for all raw signatures that do not start with an encoding of an octet string. C67_body_judged_partial describes the verdict for all signatures."
  },
  {
   "property": "C68",
   "status": "partial",
   "theorems": [
    "Dstu.Props.C68_string_sbox_partial",
    "Dstu.Props.C68_string_curve",
    "Dstu.Props.C68_string_sbox_refuted"
   ],
   "note": "Curves and all S-boxes except the one of zeros only, which the string control refuses (C68_string_sbox_refuted)."
  },
  {
   "property": "C69",
   "status": "partial",
   "theorems": [
    "Dstu.Props.C69_memory_released_partial",
    "Dstu.Props.C69_memory_released_refuted"
   ],
   "note": "No leak when parameters are only copied to keys without an S-box; copying over an S-box leaks it (C69_memory_released_refuted). Absence of use after free and double free is C43_contexts_are_values, because such uses end the model run."
  },
  {
   "property": "C70",
   "status": "proved",
   "theorems": [
    "Dstu.Props.C70_errors_described"
   ],
   "note": "all DSTUerr call sites listed"
  },
  {
   "property": "C71",
   "status": "partial",
   "theorems": [
    "Dstu.Props.C71_undecodable_refuted"
   ],
   "note": "Refuted for every file with such a key, at any position after readable entries: the program frees a null store. Nothing of it is proved."
  },
  {
   "property": "C72",
   "status": "partial",
   "theorems": [
    "Dstu.Props.C72_determined_partial",
    "Dstu.Props.C72_uninitialised_refuted"
   ],
   "note": "Proved when the decrypted message starts with a complete structure. Refuted otherwise: 8 uninitialised bytes after the message are given to the decoder and can become part of the key."
  },
  {
   "property": "C73",
   "status": "proved",
   "theorems": [
    "Dstu.Props.C73_cryptopro",
    "Dstu.Props.C73_acpkm"
   ],
   "note": "By induction on the list of masks; the context is any context initialised with an S-box and a key."
  },
  {
   "property": "C74",
   "status": "partial",
   "theorems": [
    "Dstu.Props.C74_compare_partial",
    "Dstu.Props.C74_exactly",
    "Dstu.Props.C74_types",
    "Dstu.Props.C74_decoded_public_partial",
    "Dstu.Props.C74_decoded_private_partial",
    "Dstu.Props.C74_missing_public_refuted"
   ],
   "note": "Proved for keys with a public point and without an explicit copy of the default S-box; refuted for keys without a public point (undefined behaviour) and, by C38_effective_refuted, for explicit copies of the default S-box. C74_exactly is the exact rule for all keys with a curve and a public point."
  },
  {
   "property": "C75",
   "status": "partial",
   "theorems": [
    "Dstu.Props.C75_builtin_group",
    "Dstu.Props.C75_builtin_group_by_nid",
    "Dstu.Props.C75_search",
    "Dstu.Props.C75_key_pair",
    "Dstu.Props.C75_public_key",
    "Dstu.Props.C75_new_key",
    "Dstu.Props.C75_free_key",
    "Dstu.Props.C75_set_key",
    "Dstu.Props.C75_copy_context",
    "Dstu.Props.C75_set_context",
    "Dstu.Props.C75_free_context",
    "Dstu.Props.C75_compress_partial",
    "Dstu.Props.C75_expand_partial",
    "Dstu.Props.C75_decode_group_partial",
    "Dstu.Props.C75_decode_key_partial",
    "Dstu.Props.C75_encode_partial",
    "Dstu.Props.C75_points_refuted",
    "Dstu.Props.C75_encode_refuted"
   ],
   "note": "Proved for all failures for built-in groups, key pairs, keys and contexts. For points, the decoding and the encoding of parameters it holds when none of the calls of the kind weak fails, i.e. those whose outcome the code does not check: BN_CTX_get in bn_trace, DSTU_AlgorithmParameters_new and BN_CTX_new in asn1_from_key; every other call may fail. C75_points_refuted and C75_encode_refuted show that NULL is dereferenced when these fail. The model keeps of the data only which objects are held; branches on data are arbitrary."
  },
  {
   "property": "C76",
   "status": "partial",
   "theorems": [
    "Dstu.Props.C76_builtin_group",
    "Dstu.Props.C76_key_pair",
    "Dstu.Props.C76_public_key",
    "Dstu.Props.C76_copy_context",
    "Dstu.Props.C76_compress",
    "Dstu.Props.C76_expand_refuted",
    "Dstu.Props.C76_wrong_point_refuted"
   ],
   "note": "Proved except for dstu_point_expand, which does not check the result of its second bn_trace: C76_expand_refuted gives a run, and C76_wrong_point_refuted shows that the opposite point is then returned with success."
  },
  {
   "property": "C77",
   "status": "partial",
   "theorems": [
    "Dstu.Props.C77_sign_raw",
    "Dstu.Props.C77_verify_raw",
    "Dstu.Props.C77_verify",
    "Dstu.Props.C77_generate",
    "Dstu.Props.C77_context",
    "Dstu.Props.C77_context_copy",
    "Dstu.Props.C77_context_free",
    "Dstu.Props.C77_control",
    "Dstu.Props.C77_size",
    "Dstu.Props.C77_decode_partial",
    "Dstu.Props.C77_encode_partial",
    "Dstu.Props.C77_encode_private_partial",
    "Dstu.Props.C77_sign_partial",
    "Dstu.Props.C77_copy_partial",
    "Dstu.Props.C77_sign_refuted",
    "Dstu.Props.C77_encode_private_refuted",
    "Dstu.Props.C77_copy_refuted",
    "Dstu.Props.C77_print_refuted",
    "Dstu.Props.C77_decode_refuted"
   ],
   "note": "Holds for raw signing and verification, EVP verification, key generation, contexts and their parameters. For decoding, encoding and EVP signing it holds when no call of the kind weak fails (those whose outcome is not checked or after whose failure something is lost); every other call may fail. Refuted for EVP signing into a short buffer when the size query runs out of memory (overrun), encoding a key without private part (leak without any failure), copying parameters over a key with an S-box (leak without any failure), printing (leak, NULL), decoding when BN_CTX_get fails in a trace (NULL)."
  },
  {
   "property": "C78",
   "status": "partial",
   "theorems": [
    "Dstu.Props.C78_sign_raw_partial",
    "Dstu.Props.C78_verify_raw_partial",
    "Dstu.Props.C78_generate",
    "Dstu.Props.C78_control",
    "Dstu.Props.C78_context_copy",
    "Dstu.Props.C78_size_refuted",
    "Dstu.Props.C78_encode_private_refuted",
    "Dstu.Props.C78_verify_refuted"
   ],
   "note": "Holds for key generation, contexts and their parameters, and for raw signing and verification unless the hash is zero (the model of C78 has no values; for all hashes see C125_sign and C125_verify). Refuted for the size query of EVP signing, private key encoding without memory for the parameters, and EVP verification when the signature cannot be decoded for lack of memory."
  },
  {
   "property": "C79",
   "status": "proved",
   "theorems": [
    "Dstu.Props.C79_default_digest",
    "Dstu.Props.C79_signer_info",
    "Dstu.Props.C79_others_refused"
   ],
   "note": "OpenSSL's X509_ALGOR_set0 and OBJ_nid2obj are taken to succeed."
  },
  {
   "property": "C80",
   "status": "proved",
   "theorems": [
    "Dstu.Props.C80_message_round_trip",
    "Dstu.Props.C80_message_verify_iff"
   ],
   "note": "Composes C17-C19 (digest) with C23, C29 (signature). Of OpenSSL's EVP_DigestSign/EVP_DigestVerify only the order of the calls is modelled. A hash whose low bits (as many as the degree of the field) are zero although it is not zero is excluded in the equivalence: the code refuses it, see C27."
  },
  {
   "property": "C81",
   "status": "partial",
   "theorems": [
    "Dstu.Props.C81_free_store",
    "Dstu.Props.C81_pkcs12_partial",
    "Dstu.Props.C81_pkcs8_partial",
    "Dstu.Props.C81_key6_partial",
    "Dstu.Props.C81_pkcs8_calls_partial",
    "Dstu.Props.C81_key6_calls_partial",
    "Dstu.Props.C81_jks_partial",
    "Dstu.Props.C81_read_file",
    "Dstu.Props.C81_memory_refuted",
    "Dstu.Props.C81_public_refuted",
    "Dstu.Props.C81_second_key_refuted",
    "Dstu.Props.C81_exponent_refuted",
    "Dstu.Props.C81_jks_password_refuted",
    "Dstu.Props.C81_jks_key_refuted",
    "Dstu.Props.C81_pkcs8_each_refuted",
    "Dstu.Props.C81_key6_each_refuted",
    "Dstu.Props.C81_pkcs12_each_refuted",
    "Dstu.Props.C81_jks_each_refuted"
   ],
   "note": "Free: proved without condition. The rest is proved when no call of the kind weak fails (those whose outcome is not checked or after whose failure something is lost), every other call being free to fail: PKCS#12 without further condition; PKCS#8/Key-6 when the second key is well formed, and, if only its number is missing, with losses only when one key is returned; JKS for decodable keys when a store is returned. Refuted: NULL dereference without memory; second key lost when its public key cannot be computed; curve leaked when the number of the second key is missing; NULL dereference for a negative exponent; password leaked when a JKS entry fails; NULL dereference for a decrypted key that is no PKCS#8. For four files every call of the kind weak is tried alone: each one crashes, leaks or goes unnoticed (C81_*_each_refuted), so none is exempted without reason."
  },
  {
   "property": "C82",
   "status": "partial",
   "theorems": [
    "Dstu.Props.C82_pkcs12",
    "Dstu.Props.C82_pkcs8_refuted",
    "Dstu.Props.C82_jks_refuted",
    "Dstu.Props.C82_jks_each_refuted"
   ],
   "note": "Proved for PKCS#12 (memory, BIO and file). Refuted for PKCS#8/Key-6 (second key silently dropped) and JKS (BIO_write outcome ignored). In a Java key store each of the four writes to the converted passwords may fail unnoticed (C82_jks_each_refuted)."
  },
  {
   "property": "C83",
   "status": "partial",
   "theorems": [
    "Dstu.Props.C83_open_exact",
    "Dstu.Props.C83_open_tail_partial",
    "Dstu.Props.C83_seal",
    "Dstu.Props.C83_open_partial",
    "Dstu.Props.C83_roundtrip_partial",
    "Dstu.Props.C83_sbox_ignored_refuted",
    "Dstu.Props.C83_short_refuted",
    "Dstu.Props.C83_open_refuted"
   ],
   "note": "Sending proved for CMS and PKCS#7. Receiving proved for the default S-box when the first piece has at least 8 bytes, and for any cut from the ninth byte on (C83_open_tail_partial). C83_open_exact gives the output for all S-boxes and all pieces: the S-box of the parameters is overwritten by the later key load, and with a first piece of fewer than 8 bytes the first block is decrypted with the key of zero bytes."
  },
  {
   "property": "C84",
   "status": "partial",
   "theorems": [
    "Dstu.Props.C84_roundtrip",
    "Dstu.Props.C84_standard_partial",
    "Dstu.Props.C84_short_refuted",
    "Dstu.Props.C84_standard_refuted"
   ],
   "note": "Round trip proved for all data in one piece; equality with the standard proved from 8 bytes on. Refuted for shorter data, which is encrypted independently of the password; C83_open_exact gives the output in all cases."
  },
  {
   "property": "C85",
   "status": "partial",
   "theorems": [
    "Dstu.Props.C85_copied",
    "Dstu.Props.C85_accepts_partial",
    "Dstu.Props.C85_types",
    "Dstu.Props.C85_empty_refuted"
   ],
   "note": "Proved for all keys: success implies equal type, curve and S-box; targets with a curve are accepted iff the parameters are equal and are never changed; targets of another type are refused. Refuted for targets without parameters: the engine gives OpenSSL no function that says parameters are missing, so the copying function of the engine is never called and the copy fails for every source."
  },
  {
   "property": "C86",
   "status": "partial",
   "theorems": [
    "Dstu.Props.C86_found_partial",
    "Dstu.Props.C86_ready_partial",
    "Dstu.Props.C86_returns",
    "Dstu.Props.C86_alone",
    "Dstu.Props.C86_same_refuted",
    "Dstu.Props.C86_failure_refuted"
   ],
   "note": "Proved for all threads, lookups and interleavings: while creations succeed every lookup gives a live method of the right kind (C86_found_partial); when everything looked up was prepared (looked up before, or digest/cipher of a bound engine) every lookup agrees with the single-threaded one and nothing changes, even if creations would fail (C86_ready_partial); every lookup returns within five steps of its own thread (C86_returns); one thread alone behaves as the sequential model (C86_alone). Refuted by the code: two threads that look up a key method first are given different methods and one leaks (C86_same_refuted); a thread is given NULL because another thread's failed creation overwrote the variable (C86_failure_refuted)."
  },
  {
   "property": "C87",
   "status": "partial",
   "theorems": [
    "Dstu.Props.C87_registered_partial",
    "Dstu.Props.C87_number_partial",
    "Dstu.Props.C87_returns",
    "Dstu.Props.C87_first_refuted"
   ],
   "note": "Proved for all threads, errors and interleavings: when the strings are registered before the threads start all errors carry one number, in order, and the strings stay registered (C87_registered_partial); in every case each error carries a number OpenSSL gave to the engine and to no other library (C87_number_partial); raising never waits (C87_returns). Refuted by the code for errors raised before any number was asked for: two threads use two numbers and one error has no strings (C87_first_refuted)."
  },
  {
   "property": "C88",
   "status": "partial",
   "theorems": [
    "Dstu.Props.C88_life_partial",
    "Dstu.Props.C88_life_refuted",
    "Dstu.Props.C88_engine_partial"
   ],
   "note": "Proved for every generated key except those with public abscissa 1 on the curves of degrees 163 and 367; C88_life_refuted shows that such keys exist there and cannot be exported. C88_life_partial assumes that random numbers are below n; C88_engine_partial assumes nothing about them, as they are drawn from the generator of the engine."
  },
  {
   "property": "C89",
   "status": "partial",
   "theorems": [
    "Dstu.Props.C89_import_subgroup_partial",
    "Dstu.Props.C89_import_coset_partial",
    "Dstu.Props.C89_zero_refuted",
    "Dstu.Props.C89_coset_refuted",
    "Dstu.Props.C89_zero_forgery",
    "Dstu.Props.C89_zero_forgery_occurs"
   ],
   "note": "Proved on the eight curves with a = 1 for every encoding other than of zeros. C89_import_coset_partial says what holds on all ten. Refuted: the encoding of zeros is accepted on every curve and stands for the point of order 2 (C89_zero_refuted), under which anyone can sign (C89_zero_forgery); on the two curves with a = 0, for each key pair the sum of the public key and the point of order 2 is accepted too, or its opposite (C89_coset_refuted)."
  },
  {
   "property": "C90",
   "status": "partial",
   "theorems": [
    "Dstu.Props.C90_points_partial",
    "Dstu.Props.C90_cofactor_refuted"
   ],
   "note": "The number of points is proved for each curve; the recorded cofactor is 1 on all ten, so the property fails on each (C90_cofactor_refuted)."
  },
  {
   "property": "C91",
   "status": "proved",
   "theorems": [
    "Dstu.Props.C91_bytes",
    "Dstu.Props.C91_permutations",
    "Dstu.Props.C91_digest",
    "Dstu.Props.C91_cipher",
    "Dstu.Props.C91_key"
   ],
   "note": "The table is written out in Spec/Dke1 row by row; the specification of the generator (C20) and of Key-6 (C61) uses it as well."
  },
  {
   "property": "C92",
   "status": "partial",
   "theorems": [
    "Dstu.Props.C92_digest_partial",
    "Dstu.Props.C92_generator_partial",
    "Dstu.Props.C92_seed_partial",
    "Dstu.Props.C92_password_key_refuted",
    "Dstu.Props.C92_private_key_refuted"
   ],
   "note": "Digest contexts, the generator and its seed are erased. False for the key made of the password of a Key-6 container, which stays on the dead stack (C92_password_key_refuted), and for the bytes of an imported private key, which are freed without being overwritten (C92_private_key_refuted)."
  },
  {
   "property": "C93",
   "status": "proved",
   "theorems": [
    "Dstu.Props.C93_bits",
    "Dstu.Props.C93_named",
    "Dstu.Props.C93_private",
    "Dstu.Props.C93_public"
   ],
   "note": ""
  },
  {
   "property": "C94",
   "status": "proved",
   "theorems": [
    "Dstu.Props.C94_block",
    "Dstu.Props.C94_permutations",
    "Dstu.Props.C94_hash",
    "Dstu.Props.C94_hash_published",
    "Dstu.Props.C94_hash_null",
    "Dstu.Props.C94_no_memory"
   ],
   "note": "Spec/ParamSets lists the tables row by row; known answers of GOST R 34.12-2015 and GOST R 34.11-94 are evaluated on the specification by the kernel. On the empty message the code hashes one zero block, as the text of the standard (RFC 5831, stage 3) has it; values published by some other implementations hash none."
  },
  {
   "property": "C95",
   "status": "proved",
   "theorems": [
    "Dstu.Props.C95_contexts",
    "Dstu.Props.C95_interleaved",
    "Dstu.Props.C95_independent"
   ],
   "note": "The specification (Spec/CipherSessions) claims no output after the key or the S-box was changed in the middle of a message without a new IV (see C11 and C12 for what the code does then); being defined and staying independent is claimed there too. The EVP layer is a stand-in for OpenSSL 1.1.1."
  },
  {
   "property": "C96",
   "status": "proved",
   "theorems": [
    "Dstu.Props.C96_layout",
    "Dstu.Props.C96_round_trip",
    "Dstu.Props.C96_unambiguous",
    "Dstu.Props.C96_reencode",
    "Dstu.Props.C96_cipher",
    "Dstu.Props.C96_contract",
    "Dstu.Props.C96_accepts",
    "Dstu.Props.C96_cipher_accepts"
   ],
   "note": "The interpreter of templates is a stand-in for OpenSSL; forms of BER other than long lengths are outside it and are the subject of C103. C96_contract shows that the codecs assumed elsewhere (ParamCodec, OctetDecoder) are met by the templates. C96_accepts is an equivalence for all byte strings."
  },
  {
   "property": "C97",
   "status": "proved",
   "theorems": [
    "Dstu.Props.C97_key6_accepts",
    "Dstu.Props.C97_key6_any_file",
    "Dstu.Props.C97_attr_accepts",
    "Dstu.Props.C97_key6_layout",
    "Dstu.Props.C97_key6_file",
    "Dstu.Props.C97_key6_only",
    "Dstu.Props.C97_key6_refused",
    "Dstu.Props.C97_attr",
    "Dstu.Props.C97_second_key"
   ],
   "note": "The interpreter of templates is the stand-in for OpenSSL of C96. C97_attr_accepts is an equivalence for all byte strings."
  },
  {
   "property": "C98",
   "status": "partial",
   "theorems": [
    "Dstu.Props.C98_no_secret_partial",
    "Dstu.Props.C98_private_partial",
    "Dstu.Props.C98_public_partial",
    "Dstu.Props.C98_generated_partial",
    "Dstu.Props.C98_curve_refuted",
    "Dstu.Props.C98_missing_refuted",
    "Dstu.Props.C98_long_private_refuted"
   ],
   "note": "Independence of the private key and the items shown are proved. False: with OpenSSL 1.1.0 and later every call fails before the curve is shown, because the groups carry no name (C98_curve_refuted); a key object without a key is dereferenced (C98_missing_refuted); an imported private key longer than the order is not shown at all (C98_long_private_refuted). The printing functions of OpenSSL are a stand-in; the layout of the text is not modelled."
  },
  {
   "property": "C99",
   "status": "proved",
   "theorems": [
    "Dstu.Props.C99_missing",
    "Dstu.Props.C99_missing_number",
    "Dstu.Props.C99_sign_safe",
    "Dstu.Props.C99_verify_iff",
    "Dstu.Props.C99_valid",
    "Dstu.Props.C99_round_trip",
    "Dstu.Props.C99_size"
   ],
   "note": "Every key object, with any group, valid or not; OpenSSL's point and field multiplication are arbitrary functions, assumed correct only on valid parameters in C99_valid and C99_round_trip. The random numbers are assumed to be below the order, as BN_rand_range promises. Failing allocations are in C77."
  },
  {
   "property": "C100",
   "status": "partial",
   "theorems": [
    "Dstu.Props.C100_private_layout",
    "Dstu.Props.C100_public_layout",
    "Dstu.Props.C100_private_accepts",
    "Dstu.Props.C100_public_accepts",
    "Dstu.Props.C100_private_round_trip_partial",
    "Dstu.Props.C100_public_round_trip_partial",
    "Dstu.Props.C100_private_distinct",
    "Dstu.Props.C100_public_distinct_partial",
    "Dstu.Props.C100_not_confused",
    "Dstu.Props.C100_truncated",
    "Dstu.Props.C100_round_trip_refuted",
    "Dstu.Props.C100_life_partial"
   ],
   "note": "The structures around the keys are OpenSSL's; their decoding is modelled for all of BER (Model/KeyDer, on Model/Ber). Which contents values of types the code does not look at may have is an arbitrary function. Missing, as in C40, C41 and C88: keys whose base point or public point is the exceptional one have no file (C100_round_trip_refuted). Numbers of private keys up to 2^20 bytes."
  },
  {
   "property": "C101",
   "status": "partial",
   "theorems": [
    "Dstu.Props.C101_attributes",
    "Dstu.Props.C101_keys_partial",
    "Dstu.Props.C101_undefined_iff",
    "Dstu.Props.C101_refused",
    "Dstu.Props.C101_exported_partial",
    "Dstu.Props.C101_key6_partial",
    "Dstu.Props.C101_key6_round_trip_partial",
    "Dstu.Props.C101_encrypted",
    "Dstu.Props.C101_jks_partial",
    "Dstu.Props.C101_two_keys",
    "Dstu.Props.C101_crash_refuted"
   ],
   "note": "Decoders of OpenSSL for all of BER as in C100; the contents of values of types the code does not look at are judged by an arbitrary function. Missing: attributes whose curve for a second key has a negative exponent: exactly these are undefined behaviour (C101_undefined_iff; C101_crash_refuted: every key has such a file); empty passwords and trusted certificates in Java key stores (C55, C58 refutations); keys that have no file (C100_round_trip_refuted). SHA-1 and X.509 certificates are OpenSSL's and arbitrary."
  },
  {
   "property": "C102",
   "status": "partial",
   "theorems": [
    "Dstu.Props.C102_dstu_key",
    "Dstu.Props.C102_other_key_partial",
    "Dstu.Props.C102_other_table",
    "Dstu.Props.C102_refuted",
    "Dstu.Props.C102_crash_refuted"
   ],
   "note": "The key object is read in a byte memory. Missing: objects of other algorithms whose second word is not null: their memory is taken for the S-box (C102_other_table), so the digest changes with the addresses of a run (C102_refuted) and can crash (C102_crash_refuted). Which algorithms of OpenSSL let the digest be started for their keys is outside the model."
  },
  {
   "property": "C103",
   "status": "proved",
   "theorems": [
    "Dstu.Props.C103_accepts",
    "Dstu.Props.C103_cipher_accepts",
    "Dstu.Props.C103_key6_accepts",
    "Dstu.Props.C103_key6_any_file",
    "Dstu.Props.C103_attr_accepts",
    "Dstu.Props.C103_octets_accepts",
    "Dstu.Props.C103_extends",
    "Dstu.Props.C103_round_trip",
    "Dstu.Props.C103_reencode",
    "Dstu.Props.C103_contract",
    "Dstu.Props.C103_signature_forms",
    "Dstu.Props.C103_raw_signatures"
   ],
   "note": "The interpreter of templates with all of BER that OpenSSL 1.1.1 reads, as a stand-in for it, over the templates of the repository. C103_contract shows that it meets what the theorems about keys and signatures assume of decoders."
  },
  {
   "property": "C104",
   "status": "proved",
   "theorems": [
    "Dstu.Props.C104_engine",
    "Dstu.Props.C104_library",
    "Dstu.Props.C104_library_any",
    "Dstu.Props.C104_library_sign",
    "Dstu.Props.C104_unique",
    "Dstu.Props.C104_parameters",
    "Dstu.Props.C104_private_key",
    "Dstu.Props.C104_public_key",
    "Dstu.Props.C104_second_key",
    "Dstu.Props.C104_second_key_any"
   ],
   "note": "Spec/CurveDesc states the described curve without the functions of the model. Fields of even degree and reducible polynomials are outside DSTU 4145; for them C37_accepted_sound tells what an accepted curve is. C104_library_any covers every coefficient a in the key library (only a string of zeros is expanded on curves whose a is neither 0 nor 1: C32_other_coefficient). C104_library_sign: the key library reads a = -1 as 1, which the engine refuses. OpenSSL's solver of quadratic equations is the contract QuadSolver."
  },
  {
   "property": "C105",
   "status": "partial",
   "theorems": [
    "Dstu.Props.C105_sign_partial",
    "Dstu.Props.C105_verify_partial",
    "Dstu.Props.C105_digest_refuted",
    "Dstu.Props.C105_forgery_refuted",
    "Dstu.Props.C105_negative_refuted",
    "Dstu.Props.C105_password_partial",
    "Dstu.Props.C105_password_refuted",
    "Dstu.Props.C105_wrong_password_refuted",
    "Dstu.Props.C105_signature_partial",
    "Dstu.Props.C105_signature_refuted",
    "Dstu.Props.C105_uninitialised_refuted"
   ],
   "note": "Proved for digests, signatures and passwords of less than 2^31 bytes, whatever lies behind them in memory and whatever fresh memory holds. Beyond, the property fails: the size becomes an int, so 2^32 more bytes make no difference (C105_digest_refuted, C105_forgery_refuted, C105_password_refuted, C105_wrong_password_refuted), and digests of 2^31 to 2^32 bytes cannot be used at all (C105_negative_refuted). A signature with 2^32 more bytes after each half is accepted as the shorter one (C105_signature_refuted); for little-endian keys a signature of 2^33 more bytes is accepted or refused according to what fresh memory held (C105_uninitialised_refuted)."
  },
  {
   "property": "C106",
   "status": "partial",
   "theorems": [
    "Dstu.Props.C106_public_partial",
    "Dstu.Props.C106_signs_partial",
    "Dstu.Props.C106_zero_refuted",
    "Dstu.Props.C106_large_refuted",
    "Dstu.Props.C106_zero_forgery",
    "Dstu.Props.C106_zero_nonce",
    "Dstu.Props.C106_zero_export"
   ],
   "note": "Refuted: 0 and every number from the order on are accepted (C106_zero_refuted, C106_large_refuted); with a multiple of the order the public point is the one at infinity, for which everyone can sign (C106_zero_forgery) and whose holder shows the random number in each signature (C106_zero_nonce). Proved: any other number has the public point of exactly one number in range, its remainder, and signs exactly as that does (C106_public_partial, C106_signs_partial); the number 0 and the point at infinity cannot be exported (C106_zero_export)."
  },
  {
   "property": "C107",
   "status": "partial",
   "theorems": [
    "Dstu.Props.C107_signer_refuted",
    "Dstu.Props.C107_signer_partial"
   ],
   "note": "Holds as: at most eight public keys of the base-point subgroup accept a given signature and digest.  False as stated: for every accepted signature on every built-in curve a second public key, computed from public values, accepts it too."
  },
  {
   "property": "C108",
   "status": "partial",
   "theorems": [
    "Dstu.Props.C108_digest_refuted",
    "Dstu.Props.C108_digest_partial",
    "Dstu.Props.C108_unique_refuted",
    "Dstu.Props.C108_unique_partial"
   ],
   "note": "Holds as: a signature is accepted under a key for at most four field elements, and for a given digest and r at most eight numbers s are accepted.  False as stated: for every accepted signature there is a digest of another field element that it is accepted for, and the owner of the key can replace s by 2dr - s."
  },
  {
   "property": "C109",
   "status": "proved",
   "theorems": [
    "Dstu.Props.C109_accepted_iff_signable"
   ],
   "note": "Every accepted signature is one the owner of the private key produces with exactly one nonce, and every such signature is accepted."
  },
  {
   "property": "C110",
   "status": "proved",
   "theorems": [
    "Dstu.Props.C110_in_range",
    "Dstu.Props.C110_key_pair",
    "Dstu.Props.C110_signature",
    "Dstu.Props.C110_from_stream",
    "Dstu.Props.C110_uniform"
   ],
   "note": "BN_rand_range is a stand-in for OpenSSL 1.1.1. Uniform: if the bytes are uniform, so are the numbers; nothing is claimed about the randomness of the cipher. Discharges the assumption of C23, C42 and C88 that random numbers are below the order."
  },
  {
   "property": "C111",
   "status": "partial",
   "theorems": [
    "Dstu.Props.C111_handed_on",
    "Dstu.Props.C111_pool_partial",
    "Dstu.Props.C111_pool_refuted",
    "Dstu.Props.C111_pool_left_alone",
    "Dstu.Props.C111_added_entropy_refuted",
    "Dstu.Props.C111_first_partial"
   ],
   "note": "False: once seeded, the generator ignores added entropy and everything else that happens in the system (C111_added_entropy_refuted, for all histories; C111_pool_refuted with OpenSSL's generator and the bytes added). Proved: entropy is handed on to OpenSSL's generator whole and in order, and its answer to the caller (C111_handed_on); before the first request, what OpenSSL's generator makes of all entropy is what seeds this one (C111_pool_partial)."
  },
  {
   "property": "C112",
   "status": "partial",
   "theorems": [
    "Dstu.Props.C112_copies_refuted",
    "Dstu.Props.C112_key_revealed_refuted",
    "Dstu.Props.C112_disjoint_partial",
    "Dstu.Props.C112_threads_partial"
   ],
   "note": "False for copies of a process: they draw the same numbers for ever (C112_copies_refuted), and two signatures of different digests made with the same draws give away the private key (C112_key_revealed_refuted). Proved: within one process the draws use disjoint parts of the stream, in order, and so do the draws of any number of threads, however interleaved (C112_threads_partial)."
  },
  {
   "property": "C113",
   "status": "partial",
   "theorems": [
    "Dstu.Props.C113_at_most",
    "Dstu.Props.C113_at_most_ever",
    "Dstu.Props.C113_process_refuted",
    "Dstu.Props.C113_never_refuted",
    "Dstu.Props.C113_first_block_partial"
   ],
   "note": "False: for a given seed at most 2^64 private keys in the whole life of a process, so on each built-in curve some key is never generated (C113_process_refuted); on the curve of degree 431 some key is never generated at all (C113_never_refuted), as there are at most 2^384. Proved: if the first block makes the number d, the key pair generated first has the private key d."
  },
  {
   "property": "C114",
   "status": "partial",
   "theorems": [
    "Dstu.Props.C114_memory_refuted",
    "Dstu.Props.C114_private_key_refuted",
    "Dstu.Props.C114_signature_refuted",
    "Dstu.Props.C114_cleanup_partial"
   ],
   "note": "False: the state can be run backwards with what the memory holds (C114_memory_refuted), which gives a private key just generated and the private key of a signature just made. Proved: cleanup leaves the generator in the same state whatever happened before."
  },
  {
   "property": "C115",
   "status": "partial",
   "theorems": [
    "Dstu.Props.C115_repeats_refuted",
    "Dstu.Props.C115_nonce_refuted",
    "Dstu.Props.C115_states_partial"
   ],
   "note": "False: the stream is purely periodic with a period of at most 2^64 bytes, for every seed (C115_repeats_refuted, C115_nonce_refuted). Proved: within a period no state repeats."
  },
  {
   "property": "C116",
   "status": "partial",
   "theorems": [
    "Dstu.Props.C116_numbers_partial",
    "Dstu.Props.C116_jks_refuted",
    "Dstu.Props.C116_parameters_partial",
    "Dstu.Props.C116_small_long_partial",
    "Dstu.Props.C116_parameters_refuted",
    "Dstu.Props.C116_generator_partial",
    "Dstu.Props.C116_generator_little",
    "Dstu.Props.C116_generator_refuted"
   ],
   "note": "False for Java key stores: every file that is imported on a little-endian machine is refused on a big-endian one, because magic number and version are compared in the byte order of the machine (C116_jks_refuted). False for parameters with integers that do not fit an int: some are accepted with a long of 64 bits and refused with one of 32 (C116_parameters_refuted). Proved: the numbers inside entries are read alike; parameters whose integers fit are read alike; what is accepted with a long of 32 bits is accepted with more. The generator is that of the standard on little-endian machines (C116_generator_little); on big-endian ones it has the same blocks but takes another bit of each (C116_generator_partial, C116_generator_refuted)."
  },
  {
   "property": "C117",
   "status": "partial",
   "theorems": [
    "Dstu.Props.C117_cipher_partial",
    "Dstu.Props.C117_digest_partial",
    "Dstu.Props.C117_generator_partial",
    "Dstu.Props.C117_key_refuted",
    "Dstu.Props.C117_lines_refuted",
    "Dstu.Props.C117_generator_refuted"
   ],
   "note": "True for the conditions and the sequence of tables: two runs on pieces of the same lengths succeed and test the same (C117_cipher_partial, C117_digest_partial, C117_generator_partial). False for the table entries: the entries that are read when a key is set and the first block is computed determine the whole key by one fixed calculation, whatever the random mask (C117_key_refuted); even with 16 entries in one cache line any two keys differ for some initialisation vector (C117_lines_refuted); and the entries read while the generator is seeded and gives its first bit determine the seed (C117_generator_refuted)."
  },
  {
   "property": "C118",
   "status": "partial",
   "theorems": [
    "Dstu.Props.C118_returns",
    "Dstu.Props.C118_child_refuted",
    "Dstu.Props.C118_child_partial"
   ],
   "note": "True within a process, for any number of threads under every fair schedule (C118_returns). False in a copy of the process made while another thread has the lock: no request of the child ever returns (C118_child_refuted). True in the child if nobody had the lock, with a bound on the number of steps (C118_child_partial)."
  },
  {
   "property": "C119",
   "status": "partial",
   "theorems": [
    "Dstu.Props.C119_change_partial",
    "Dstu.Props.C119_padding_refuted",
    "Dstu.Props.C119_one_block_refuted",
    "Dstu.Props.C119_empty_refuted",
    "Dstu.Props.C119_extension_refuted",
    "Dstu.Props.C119_iv_refuted"
   ],
   "note": "True: changing one block changes the MAC of 64 bits (C119_change_partial). False in general, for every key: zero bytes at the end of an incomplete block and a block of zeros after a single block do not change the MAC (C119_padding_refuted, C119_one_block_refuted); the MAC of the empty message is zero (C119_empty_refuted); a message of whole blocks and its MAC of 64 bits give a longer message for each MAC known (C119_extension_refuted); the initial value is not protected (C119_iv_refuted)."
  },
  {
   "property": "C120",
   "status": "proved",
   "theorems": [
    "Dstu.Props.C120_collision",
    "Dstu.Props.C120_password"
   ],
   "note": "C120_collision, after any histories; C120_password for the keys of Key-6 containers. A pair of messages with the same digest, for the S-box of zeros, meets the hypotheses."
  },
  {
   "property": "C121",
   "status": "partial",
   "theorems": [
    "Dstu.Props.C121_hmac",
    "Dstu.Props.C121_pbkdf2",
    "Dstu.Props.C121_encrypt_partial"
   ],
   "note": "HMAC and PBKDF2 are proved for all inputs (C121_hmac, C121_pbkdf2); the functions of OpenSSL are modelled by their calls to the digest method. From the password to the ciphertext: proved for data of at least 8 bytes (C121_encrypt_partial); shorter data is encrypted independently of the password (C84_short_refuted)."
  },
  {
   "property": "C122",
   "status": "partial",
   "theorems": [
    "Dstu.Props.C122_any_way",
    "Dstu.Props.C122_message_partial",
    "Dstu.Props.C122_collision_partial",
    "Dstu.Props.C122_short_refuted"
   ],
   "note": "Of any six messages for which one signature is accepted, two have digests that agree in the bits used on the curve (C122_message_partial), and on curves of degree 257 and more two are a collision of the digest and of its step function (C122_collision_partial). How the message is given does not matter (C122_any_way). Missing: two instead of six messages, because a signature is accepted for up to four field elements (C108_digest_refuted). On smaller fields messages are exchangeable without a collision of the whole digest (C122_short_refuted)."
  },
  {
   "property": "C123",
   "status": "partial",
   "theorems": [
    "Dstu.Props.C123_related_refuted",
    "Dstu.Props.C123_sbox_refuted",
    "Dstu.Props.C123_message_refuted",
    "Dstu.Props.C123_default_partial"
   ],
   "note": "False: S-boxes with constant rows are accepted, and then the ciphertext is the same under all keys (C123_sbox_refuted); key parameters with the S-box of zeros are accepted, and under them two fixed messages are exchangeable for every key and signature (C123_message_refuted); and with every S-box the ciphertext under a key and IV gives the one under the key and IV with the highest bit of each word changed (C123_related_refuted, a property of the standard). Shown: with the default S-box there are keys with different ciphertexts (C123_default_partial)."
  },
  {
   "property": "C124",
   "status": "partial",
   "theorems": [
    "Dstu.Props.C124_change_refuted",
    "Dstu.Props.C124_cut_refuted",
    "Dstu.Props.C124_differs_partial"
   ],
   "note": "False: a change of one block of the ciphertext changes the same bits of the data, nothing before and nothing after the next block, and everything succeeds (C124_change_refuted); a cut ciphertext gives the cut data (C124_cut_refuted). A property of the mode; the engine has no authenticated mode. Shown: different ciphertexts give different data, so what vouches for the data notices the change (C124_differs_partial)."
  },
  {
   "property": "C125",
   "status": "partial",
   "theorems": [
    "Dstu.Props.C125_sign",
    "Dstu.Props.C125_verify",
    "Dstu.Props.C125_evp_sign",
    "Dstu.Props.C125_evp_room",
    "Dstu.Props.C125_evp_verify",
    "Dstu.Props.C125_evp_unfailed",
    "Dstu.Props.C125_evp_raw",
    "Dstu.Props.C125_endless_refuted",
    "Dstu.Props.C125_nothing_fails",
    "Dstu.Props.C125_verify_nothing_fails",
    "Dstu.Props.C125_evp_nothing_fails",
    "Dstu.Props.C125_evp_sign_nothing_fails",
    "Dstu.Props.C125_made_verifies"
   ],
   "note": "Values and failures in one model. Shown for raw signatures (C125_sign, C125_verify: success also means that no call failed), for EVP signing (C125_evp_sign; C125_evp_room: with no failure there was room) and for EVP verification of bytes that do not start as an octet string (C125_evp_raw), or with no failure (C125_evp_unfailed). When an octet string cannot be decoded for lack of memory, EVP verification judges the undecoded bytes as a raw signature (C125_evp_verify, second case). Refuted: for a digest of zeros, when the one unchecked BN_one fails, signing never returns (C125_endless_refuted). With no failures the model agrees with that of C23 (C125_nothing_fails and the like)."
  },
  {
   "property": "C126",
   "status": "partial",
   "theorems": [
    "Dstu.Props.C126_compress",
    "Dstu.Props.C126_expand_partial",
    "Dstu.Props.C126_generate",
    "Dstu.Props.C126_evp_generate",
    "Dstu.Props.C126_usable",
    "Dstu.Props.C126_half_refuted",
    "Dstu.Props.C126_nothing_fails",
    "Dstu.Props.C126_compress_nothing_fails",
    "Dstu.Props.C126_expand_nothing_fails",
    "Dstu.Props.C126_expand_refuted"
   ],
   "note": "Values and failures in one model. Shown for generation (C126_generate, C126_evp_generate, C126_usable: success also means that no call failed) and compression (C126_compress). Refuted for expansion: the second trace is not checked, and one failing call gives the opposite point with success reported (C126_expand_refuted); nothing worse happens (C126_expand_partial). A failed generation can leave a key object with the new private and the old public key (C126_half_refuted); the engine releases such keys. With no failures the model agrees with that of C31 and the like (C126_nothing_fails, C126_compress_nothing_fails, C126_expand_nothing_fails)."
  },
  {
   "property": "C127",
   "status": "partial",
   "theorems": [
    "Dstu.Props.C127_named",
    "Dstu.Props.C127_custom_partial",
    "Dstu.Props.C127_params",
    "Dstu.Props.C127_private",
    "Dstu.Props.C127_public_partial",
    "Dstu.Props.C127_params_nothing_fails",
    "Dstu.Props.C127_private_nothing_fails",
    "Dstu.Props.C127_public_nothing_fails",
    "Dstu.Props.C127_public_refuted",
    "Dstu.Props.C127_private_kept"
   ],
   "note": "Values and failures in one model. Shown for parameters and private keys on built-in curves: success also means that no call failed (C127_named, including the unchecked BN_one, whose failure the check of the base point catches; C127_params, C127_private, C127_private_kept). On curves given by their parameters at most one failure goes unnoticed, in the expansion of the base point (C127_custom_partial). Refuted for public keys: on every built-in curve one failing call imports the opposite key with success (C127_public_refuted); nothing worse happens there (C127_public_partial). With no failures the model agrees with that of C35 to C41 (C127_params_nothing_fails and the like)."
  },
  {
   "property": "C128",
   "status": "partial",
   "theorems": [
    "Dstu.Props.C128_params",
    "Dstu.Props.C128_private_partial",
    "Dstu.Props.C128_public",
    "Dstu.Props.C128_params_nothing_fails",
    "Dstu.Props.C128_private_nothing_fails",
    "Dstu.Props.C128_public_nothing_fails",
    "Dstu.Props.C128_params_refuted",
    "Dstu.Props.C128_private_refuted"
   ],
   "note": "Values and failures in one model. Shown: whatever fails, exported parameters and public keys are imported as the same group, effective S-box and point (C128_params, C128_public), and private keys too, if they have parameters (C128_private_partial). Refuted: for every built-in curve one failing call makes the export succeed with the explicit description of the curve instead of its identifier (C128_params_refuted), and for every private key one failing call makes the export succeed without parameters, so that the key cannot be imported (C128_private_refuted). With no failures the model agrees with that of C35 to C41 (C128_params_nothing_fails and the like)."
  },
  {
   "property": "C129",
   "status": "partial",
   "theorems": [
    "Dstu.Props.C129_keys",
    "Dstu.Props.C129_second_partial",
    "Dstu.Props.C129_nothing_fails",
    "Dstu.Props.C129_lost_refuted",
    "Dstu.Props.C129_curve_refuted",
    "Dstu.Props.C129_curve_163",
    "Dstu.Props.C129_standard_refuted"
   ],
   "note": "Values and failures in one model. Shown: the first key is always the right one, and the second one is, if nothing failed (C129_keys); whatever fails, a second key has the right number, the field, coefficient b and order of a curve of the attribute, and the public key that belongs to it (C129_second_partial). Refuted: for every structure with two keys one failing call makes the second disappear, with success reported (C129_lost_refuted); if the description with 0 for the coefficient a describes a curve, one failing call makes the second key one on that curve, with success reported (C129_curve_refuted), and this is so for the curve of degree 163 of the standard (C129_curve_163, C129_standard_refuted). With no failures both keys are read (C129_nothing_fails)."
  },
  {
   "property": "C130",
   "status": "partial",
   "theorems": [
    "Dstu.Props.C130_pkcs12",
    "Dstu.Props.C130_nothing_fails",
    "Dstu.Props.C130_failed_partial",
    "Dstu.Props.C130_read_partial",
    "Dstu.Props.C130_read_refuted",
    "Dstu.Props.C130_dangling_refuted"
   ],
   "note": "Values, memory and failures in one model. Shown: if success is reported, no call failed and the new store holds exactly the contents of the file in their order, with everything else as it was (C130_pkcs12); whatever fails, the import is free of undefined behaviour and touches nothing that existed before, and a failed one leaves no object and no store behind (C130_failed_partial); with no failures the result is that of C53 and C54 for every file (C130_nothing_fails). Reading from files: the same, if no read failed or the decoder refuses what ends before the file does (C130_read_partial); otherwise a failing read counts as the end of the file, and the part before it is imported with success reported (C130_read_refuted). Refuted: the second half; a failing call while a good file is read leaves the caller with a store that was freed (C130_dangling_refuted). Missing: the calls of KeyStoreNew, whose failure dereferences NULL (C81), succeed here."
  },
  {
   "property": "C131",
   "status": "partial",
   "theorems": [
    "Dstu.Props.C131_converted_partial",
    "Dstu.Props.C131_no_failure",
    "Dstu.Props.C131_nothing_fails",
    "Dstu.Props.C131_half_refuted",
    "Dstu.Props.C131_wrong_password_refuted",
    "Dstu.Props.C131_key_no_failure",
    "Dstu.Props.C131_key_nothing_fails",
    "Dstu.Props.C131_key_password_refuted"
   ],
   "note": "Values and failures in one model. Shown: whatever fails, what comes out of a conversion that is reported as done is the password in UTF-16BE with parts missing at most, and with nothing missing if no call failed (C131_converted_partial); if success is reported and no call failed, the file is accepted with the given password (C131_no_failure); with no failures the result is that of the model of C55 to C59, for every file and password (C131_nothing_fails). Refuted: when the second write fails, half of a password of ASCII characters is missing, with success reported (C131_half_refuted); so every file that is accepted with a password is accepted with that password followed by as many other characters, when one call fails (C131_wrong_password_refuted). For passwords of keys the same is shown and refuted (C131_key_no_failure, C131_key_nothing_fails, C131_key_password_refuted). Missing: other calls made while a file is read do not fail here."
  }
 ]
}