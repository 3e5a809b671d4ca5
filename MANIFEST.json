{
 "claims": [
  {
   "property": "C01",
   "status": "proved",
   "theorems": [
    "Noise.C01_nonces_strictly_increase",
    "Noise.C01_no_nonce_reuse"
   ],
   "note": ""
  },
  {
   "property": "C02",
   "status": "proved",
   "theorems": [
    "Noise.C02_reserved_nonce_never_used",
    "Noise.C02_exhaustion_is_permanent"
   ],
   "note": ""
  },
  {
   "property": "C03",
   "status": "proved",
   "theorems": [
    "Noise.C03_set_nonce_forward_only"
   ],
   "note": ""
  },
  {
   "property": "C04",
   "status": "proved",
   "theorems": [
    "Noise.C04_failed_decrypt_has_no_effect"
   ],
   "note": ""
  },
  {
   "property": "C05",
   "status": "proved",
   "theorems": [
    "Noise.C05_channel_delivers_in_order"
   ],
   "note": ""
  },
  {
   "property": "C06",
   "status": "proved",
   "theorems": [
    "Noise.C06_encrypt_respects_capacity",
    "Noise.C06_decrypt_respects_capacity",
    "Noise.C06_history_defined"
   ],
   "note": ""
  },
  {
   "property": "C07",
   "status": "proved",
   "theorems": [
    "Noise.C07_unkeyed_is_identity"
   ],
   "note": ""
  },
  {
   "property": "C08",
   "status": "proved",
   "theorems": [
    "Noise.C08_new",
    "Noise.C08_new_by_id",
    "Noise.C08_new_by_name",
    "Noise.C08_mix_key",
    "Noise.C08_mix_hash",
    "Noise.C08_encrypt_and_hash",
    "Noise.C08_decrypt_and_hash",
    "Noise.C08_mac_length",
    "Noise.C08_split"
   ],
   "note": ""
  },
  {
   "property": "C09",
   "status": "proved",
   "theorems": [
    "Noise.C09_failed_decrypt_inert",
    "Noise.C09_failed_encrypt_inert"
   ],
   "note": ""
  },
  {
   "property": "C10",
   "status": "proved",
   "theorems": [
    "Noise.C10_split_is_final",
    "Noise.C10_split_consumes",
    "Noise.C10_at_most_one_split"
   ],
   "note": ""
  },
  {
   "property": "C11",
   "status": "proved",
   "theorems": [
    "Noise.C11_lifecycle",
    "Noise.C11_wrong_state_inert",
    "Noise.C11_failed_is_stuck",
    "Noise.C11_complete_is_terminal"
   ],
   "note": ""
  },
  {
   "property": "C12",
   "status": "proved",
   "theorems": [
    "Noise.HS.C12_handshake_agreement",
    "Noise.C12_curve25519_agreement",
    "Noise.C12_curves_agreement",
    "Noise.C12_newhope_agreement"
   ],
   "note": "For every object history before start, every pattern (fallback patterns are C19), keys, prologue, PSK, randomness and payloads. Hypotheses on the primitives: key pairs agree (commuting scalar multiplication for curves, successful reconciliation for New Hope), decryption inverts encryption; instances in CurveFns.good, CurveFns.goodGen, NewHopeFns.goodGen. C12_curve25519_agreement applies it to the models of the reference back ends (Curve25519 64-bit; ChaChaPoly, AESGCM; BLAKE2s, BLAKE2b, SHA256, SHA512) with no hypothesis about a cryptographic function. C12_curves_agreement does the same for Curve25519 and Curve448, also as hybrid algorithm, provided no generated Curve448 key has the null public key (C63_null_public_key). C12_newhope_agreement does it for New Hope as hybrid algorithm, provided the noise is small enough (C69); seeds_small shows that it is for concrete random bytes."
  },
  {
   "property": "C13",
   "status": "proved",
   "theorems": [
    "Noise.HS.C13_start",
    "Noise.HS.C13_write",
    "Noise.HS.C13_read",
    "Noise.HS.C13_split"
   ],
   "note": "Refinement to the specification's Initialize/WriteMessage/ReadMessage/Split (HandshakeSpec.lean)."
  },
  {
   "property": "C14",
   "status": "proved",
   "theorems": [
    "Noise.HS.C14_transcript_binding",
    "Noise.HS.session_transcript"
   ],
   "note": "Every pattern that can be started directly (not the fallback patterns). The alternatives are collisions between inputs that were actually hashed, and digests that are the text of a protocol name."
  },
  {
   "property": "C15",
   "status": "proved",
   "theorems": [
    "Noise.C15_start",
    "Noise.C15_queries"
   ],
   "note": ""
  },
  {
   "property": "C16",
   "status": "proved",
   "theorems": [
    "Noise.C16_creation_defined",
    "Noise.C16_handshake_memory_safe"
   ],
   "note": ""
  },
  {
   "property": "C17",
   "status": "partial",
   "theorems": [
    "Noise.C17_tables_are_the_specification",
    "Noise.C17_tables_well_formed",
    "Noise.C17_no_key_sent_twice",
    "Noise.C17_keys_available",
    "Noise.C17_encrypt_rule_partial",
    "Noise.C17_encrypt_rule_fails",
    "Noise.C17_responder_flags_mirror"
   ],
   "note": "Token/flag agreement, no key sent twice, key availability, alternation and mirrored flags are proved for the whole table. The encryption rule is false for five +hfs patterns (C17_encrypt_rule_fails) and proved for all others (C17_encrypt_rule_partial)."
  },
  {
   "property": "C18",
   "status": "partial",
   "theorems": [
    "Noise.HS.C18_null_ephemeral_partial",
    "Noise.HS.C18_null_hybrid_partial",
    "Noise.C18_ephemeral_first",
    "Noise.C18_fails_for_newhope",
    "Noise.C18_fallback_keeps_null_key"
   ],
   "note": "Holds for the curve back ends; false for New Hope (witness proved). A refused null key stays in the object and fallback then goes on with it (witness proved)."
  },
  {
   "property": "C19",
   "status": "proved",
   "theorems": [
    "Noise.HS.C19_fallback_agreement",
    "Noise.HS.C19_fallback_after_first_message",
    "Noise.HS.C19_permitted",
    "Noise.HS.C19_fallback_state",
    "Noise.HS.C19_at_most_once",
    "Noise.C19_codes"
   ],
   "note": "For every DH back end satisfying the laws, every pattern that can fall back, both fallback patterns. Fixed ephemerals (test-only API) are not set. With the hybrid extension the responder must have got the initiator's f key, otherwise fallback is refused (C19_permitted)."
  },
  {
   "property": "C20",
   "status": "partial",
   "theorems": [
    "Noise.C20_fallback_not_started_directly_partial",
    "Noise.C20_fails_for_hfs"
   ],
   "note": "Proved for every fallback pattern except XXfallback+hfs, for which the property is false: C20_fails_for_hfs exhibits a direct start of XXfallback+hfs that succeeds."
  },
  {
   "property": "C21",
   "status": "partial",
   "theorems": [
    "Noise.HS.C21_written_partial",
    "Noise.HS.C21_read_partial",
    "Noise.C21_fails"
   ],
   "note": "The property is false of the code (C21_fails); the partial theorems bound the payload part of a message."
  },
  {
   "property": "C22",
   "status": "proved",
   "theorems": [
    "Noise.C22_handshake_hash",
    "Noise.C22_hash_is_final"
   ],
   "note": ""
  },
  {
   "property": "C23",
   "status": "proved",
   "theorems": [
    "Noise.C23_uninitialised_memory",
    "Noise.C23_block_is_mixed"
   ],
   "note": "For every backend setup, every way of creating the object (by id or name), every pair of histories that differ only in uninitialised memory (Diffie-Hellman result blocks, protocol name buffers, fresh hash context): same codes, buffers, split results and same final object apart from the symmetric state. An example history shows that the chaining key itself does depend on such memory."
  },
  {
   "property": "C24",
   "status": "proved",
   "theorems": [
    "Noise.C24_keypair_consistent",
    "Noise.C24_no_undefined_behaviour",
    "Noise.C24_failed_keypair_setter",
    "Noise.C24_public_key_setter",
    "Noise.C24_getters"
   ],
   "note": ""
  },
  {
   "property": "C25",
   "status": "proved",
   "theorems": [
    "Noise.C25_calculate_requires",
    "Noise.C25_null_public_key",
    "Noise.C25_curve_agreement",
    "Noise.C25_newhope_agreement",
    "Noise.C25_curve25519_agreement",
    "Noise.C25_curve448_agreement"
   ],
   "note": "C25_curve_agreement takes commuting scalar multiplication as a hypothesis; C25_curve25519_agreement and C25_curve448_agreement are unconditional for the 64-bit code."
  },
  {
   "property": "C26",
   "status": "proved",
   "theorems": [
    "Noise.C26_keypair_consistent",
    "Noise.C26_set_keypair_iff",
    "Noise.C26_key_required",
    "Noise.C26_sign_verify",
    "Noise.C26_verify_exact",
    "Noise.C26_new",
    "Noise.C26_setters",
    "Noise.C26_getters",
    "Noise.C26_signature_length",
    "Noise.C26_ed25519",
    "Noise.C26_ed25519_verify"
   ],
   "note": "The Ed25519 functions are a parameter of the model of signstate.c; C26_ed25519 and C26_ed25519_verify are for the model of the code of crypto/ed25519 and have no hypothesis about it."
  },
  {
   "property": "C27",
   "status": "proved",
   "theorems": [
    "Noise.C27_id_to_name_to_id",
    "Noise.C27_id_to_name_succeeds"
   ],
   "note": ""
  },
  {
   "property": "C28",
   "status": "proved",
   "theorems": [
    "Noise.C28_name_to_id_to_name",
    "Noise.C28_names_unique",
    "Noise.C28_rejected_is_zero",
    "Noise.C28_accepts_exactly_protocol_names"
   ],
   "note": ""
  },
  {
   "property": "C29",
   "status": "proved",
   "theorems": [
    "Noise.C29_formatting_stays_inside"
   ],
   "note": ""
  },
  {
   "property": "C30",
   "status": "proved",
   "theorems": [
    "Noise.C30_id_name_id",
    "Noise.C30_name_id_name",
    "Noise.C30_registered_exactly",
    "Noise.C30_names_injective",
    "Noise.C30_documented",
    "Noise.C30_documented_all",
    "Noise.C30_categories"
   ],
   "note": ""
  },
  {
   "property": "C31",
   "status": "proved",
   "theorems": [
    "Noise.C31_hmac",
    "Noise.C31_hkdf",
    "Noise.C31_pbkdf2",
    "Noise.C31_pbkdf2_length"
   ],
   "note": ""
  },
  {
   "property": "C32",
   "status": "proved",
   "theorems": [
    "Noise.Sha256.C32_sha256",
    "Noise.Sha256.C32_sha256_lawful",
    "Noise.Sha512.C32_sha512",
    "Noise.Sha512.C32_sha512_lawful",
    "Noise.Blake2s.C32_blake2s",
    "Noise.Blake2s.C32_blake2s_lawful",
    "Noise.Blake2s.C32_blake2s_vector",
    "Noise.Blake2b.C32_blake2b",
    "Noise.Blake2b.C32_blake2b_lawful"
   ],
   "note": "Models of sha256.c, sha512.c, blake2s.c (scalar and vector variants), blake2b.c and the four back ends; specifications Fips180 and Rfc7693 with test vectors. The digest equals the standard for every chunking, below 2^61 bytes (SHA-2: the code counts bits in 64 bits) and 2^64 bytes (BLAKE2b); any length for BLAKE2s. The Lawful theorems give the contract the protocol layer uses, with the counter modulo 2^64 beyond these lengths. Little endian host for BLAKE2b (see C54)."
  },
  {
   "property": "C33",
   "status": "proved",
   "theorems": [
    "Noise.ChaCha.C33_chacha20",
    "Noise.ChaCha.VWords.C33_vectors",
    "Noise.ChaChaPoly.C33_encrypt",
    "Noise.ChaChaPoly.C33_decrypt",
    "Noise.ChaChaPoly.C33_accepts",
    "Noise.ChaChaPoly.C33_history",
    "Noise.ChaChaPoly.C33_lawful",
    "Noise.ChaChaPoly.C33_backend"
   ],
   "note": "scalar and vector ChaCha20, RFC 7539 AEAD with the Noise nonce for messages below 2^32 bytes, histories of calls on one object, and the laws assumed of a cipher back end"
  },
  {
   "property": "C34",
   "status": "proved",
   "theorems": [
    "Noise.Poly1305.C34_poly1305",
    "Noise.Poly1305.C34_auth",
    "Noise.Poly1305.C34_value"
   ],
   "note": "64-bit variant (poly1305-donna-64.h), any chunking, any initial memory; exactness of every 64- and 128-bit operation is part of the equality"
  },
  {
   "property": "C35",
   "status": "proved",
   "theorems": [
    "Noise.AesGcm.C35_encrypt",
    "Noise.AesGcm.C35_decrypt",
    "Noise.AesGcm.C35_accepts",
    "Noise.AesGcm.C35_counters_distinct",
    "Noise.AesGcm.C35_history",
    "Noise.AesGcm.C35_lawful",
    "Noise.AesGcm.C35_backend"
   ],
   "note": "GCM of SP 800-38D over an arbitrary block cipher with 16-byte output; for messages up to 16*65534 bytes, which covers every Noise message. All call histories on one object; back end is lawful."
  },
  {
   "property": "C36",
   "status": "proved",
   "theorems": [
    "Noise.Ghash.C36_ghash_of",
    "Noise.Ghash.C36_ghash64",
    "Noise.Ghash.C36_ghash32",
    "Noise.Ghash.C36_reset_keeps_key",
    "Noise.GhashField.ghash_eval",
    "Noise.GhashField.C36_evaluation"
   ],
   "note": "GHASH of SP 800-38D for every key, data and chunking, for the 64-bit and the 32-bit code and both byte orders; C36_evaluation and ghash_eval state it as evaluation of a polynomial in GF(2)[x] modulo g = x^128+x^7+x^2+x+1. That g is irreducible is not needed and not proved."
  },
  {
   "property": "C37",
   "status": "proved",
   "theorems": [
    "Noise.C37_is_equal_correct",
    "Noise.C37_is_zero_correct",
    "Noise.C37_clean_correct"
   ],
   "note": ""
  },
  {
   "property": "C38",
   "status": "proved",
   "theorems": [
    "Noise.C38_format_fingerprint",
    "Noise.C38_fingerprint_injective"
   ],
   "note": ""
  },
  {
   "property": "C39",
   "status": "proved",
   "theorems": [
    "Noise.Rand.C39_pad"
   ],
   "note": "Every payload, length and mode, for any state between two calls; the object must be large enough for both lengths, as the documentation demands."
  },
  {
   "property": "C40",
   "status": "partial",
   "theorems": [
    "Noise.Rand.C40_partial",
    "Noise.Rand.C40_small",
    "Noise.Rand.C40_fails",
    "Noise.Rand.C40_no_reuse",
    "Noise.Rand.C40_key_hidden",
    "Noise.Rand.C40_simple",
    "Noise.Rand.C40_starting_key",
    "Noise.Rand.C40_null"
   ],
   "note": "The documented bound of 1600000 bytes between reseeds is false (C40_fails): a reseed inside a call for more than 1600000 bytes does not count the block that follows. Proved: everything else for all histories, with the bound 1600064 (C40_partial), and with 1600000 when no single call asks for more than that (C40_small). Keys are told apart by their number in the sequence; that two keys drawn from the stream never coincide by chance is not claimed. Variant without libsodium."
  },
  {
   "property": "C41",
   "status": "proved",
   "theorems": [
    "Noise.PB.C41_uint64",
    "Noise.PB.C41_uint32",
    "Noise.PB.C41_int64",
    "Noise.PB.C41_int32",
    "Noise.PB.C41_bool",
    "Noise.PB.C41_sint64",
    "Noise.PB.C41_sint32"
   ],
   "note": "Every value of every integer type written with a tag in range is read back, at any position and whatever follows; the bytes are those of the independent encoding Wire.field."
  },
  {
   "property": "C42",
   "status": "proved",
   "theorems": [
    "Noise.PB.C42_fixed32",
    "Noise.PB.C42_fixed64",
    "Noise.PB.C42_sfixed32",
    "Noise.PB.C42_sfixed64",
    "Noise.PB.C42_float",
    "Noise.PB.C42_double",
    "Noise.PB.C42_bytes",
    "Noise.PB.C42_alloc_bytes",
    "Noise.PB.C42_string",
    "Noise.PB.C42_alloc_string",
    "Noise.PB.C42_zero_on_error"
   ],
   "note": "Fixed-width, floating (as bit patterns), byte string and string fields round trip; a failing read gives zero/empty."
  },
  {
   "property": "C43",
   "status": "proved",
   "theorems": [
    "Noise.PB.C43_call_safe",
    "Noise.PB.C43_reader_safe",
    "Noise.PB.C43_errors_final",
    "Noise.PB.C43_empty_memory"
   ],
   "note": "Any sequence of reads on any bytes stays within the input, terminates, and no read succeeds after an error."
  },
  {
   "property": "C44",
   "status": "proved",
   "theorems": [
    "Noise.PB.C44_safe",
    "Noise.PB.C44_start_safe",
    "Noise.PB.C44_measure",
    "Noise.PB.C44_shift"
   ],
   "note": ""
  },
  {
   "property": "C45",
   "status": "partial",
   "theorems": [
    "Noise.PB.C45_utf8_exact",
    "Noise.PB.C45_utf8_partial",
    "Noise.PB.C45_utf8_short_partial",
    "Noise.PB.C45_fails"
   ],
   "note": "The code accepts exactly the strings described by Utf8.Accepted; it differs from well-formed UTF-8 because the pointer is not moved past the continuation bytes of three- and four-byte sequences. C45_fails is the counterexample; C45_utf8_partial and C45_utf8_short_partial give the parts that hold."
  },
  {
   "property": "C46",
   "status": "partial",
   "theorems": [
    "Noise.PB.C46_fails",
    "Noise.PB.C46_size_fails",
    "Noise.PB.C46_tag_partial",
    "Noise.PB.C46_size_partial",
    "Noise.PB.C46_size_zero_partial",
    "Noise.PB.C46_nothing",
    "Noise.PB.C46_tag_zero"
   ],
   "note": "False in the code: a multi-byte varint counts its first byte twice when peeking (C46_fails, C46_size_fails). Proved for tags up to 15 and sizes below 128, i.e. when the peeked varints take one byte; the rest is refuted."
  },
  {
   "property": "C47",
   "status": "proved",
   "theorems": [
    "Noise.PB.C47_write_element",
    "Noise.PB.C47_read_element",
    "Noise.PB.C47_skip",
    "Noise.PB.C47_write_tree",
    "Noise.PB.C47_read_tree",
    "Noise.PB.C47_skip_tree"
   ],
   "note": "Trees of fields and elements of any depth are written as the independent encoding says, read back as the same tree, and skipped field by field."
  },
  {
   "property": "C48",
   "status": "proved",
   "theorems": [
    "Noise.DynArray.C48_add",
    "Noise.DynArray.C48_insert",
    "Noise.DynArray.C48_run",
    "Noise.BlockArray.C48_add_block",
    "Noise.BlockArray.C48_add_string",
    "Noise.BlockArray.C48_add_bytes"
   ],
   "note": "Every sequence of adds and inserts with any allocation failures; capacity at least count; arrays of blocks likewise."
  },
  {
   "property": "C49",
   "status": "partial",
   "theorems": [
    "Noise.PB.C49_fails",
    "Noise.PB.C49_accepted",
    "Noise.PB.C49_negative_tag_partial"
   ],
   "note": "False in the code: without an earlier error a negative tag is accepted (C49_fails, C49_accepted). What holds is the rejection after an error."
  },
  {
   "property": "C50",
   "status": "proved",
   "theorems": [
    "Noise.Cert.C50_certificate",
    "Noise.Cert.C50_chain",
    "Noise.Cert.C50_private_key",
    "Noise.Cert.C50_encrypted_private_key",
    "Noise.Cert.C50_subject",
    "Noise.Cert.C50_public_key_info",
    "Noise.Cert.C50_private_key_info",
    "Noise.Cert.C50_meta_info",
    "Noise.Cert.C50_signature",
    "Noise.Cert.C50_extra_signed_info",
    "Noise.Cert.C50_write_chain",
    "Noise.Cert.C50_write_certificate",
    "Noise.Cert.C50_write_private_key",
    "Noise.Cert.C50_write_encrypted_private_key"
   ],
   "note": "ten object types; end to end from output buffer to input buffer; NULL array items are left out by the format; allocations succeed while reading; writing succeeds if and only if the strings pass the UTF-8 check of the library and the message fits"
  },
  {
   "property": "C51",
   "status": "proved",
   "theorems": [
    "Noise.Loader.C51_names",
    "Noise.Loader.C51_algorithms",
    "Noise.Loader.C51_load_exact",
    "Noise.Loader.C51_roundtrip",
    "Noise.Loader.C51_rejected",
    "Noise.Loader.C51_mac_failure",
    "Noise.Loader.C51_no_plaintext",
    "Noise.Loader.C51_save_iff",
    "Noise.Loader.C51_file",
    "Noise.Loader.C51_file_iff"
   ],
   "note": "over any cipher and hash back end that meet the laws, and the eight names of the library with the modelled back ends; NULL array items are left out by the format; allocations succeed while loading. That a wrong passphrase gives another derived key is a property of PBKDF2 and not claimed."
  },
  {
   "property": "C52",
   "status": "partial",
   "theorems": [
    "Noise.Loader.C52_partial",
    "Noise.Loader.C52_hangs_iff",
    "Noise.Loader.C52_fails",
    "Noise.Loader.C52_fails_file"
   ],
   "note": "False as stated: a key whose encoding with the MAC is longer than 65535 bytes makes the loop endless (C52_fails, C52_fails_file). C52_hangs_iff says exactly when saving does not return; C52_partial is what holds."
  },
  {
   "property": "C53",
   "status": "proved",
   "theorems": [
    "Noise.C53_strerror_known",
    "Noise.C53_strerror_unknown",
    "Noise.C53_strerror_empty",
    "Noise.C53_texts_distinct",
    "Noise.C53_unknown_text_distinct"
   ],
   "note": ""
  },
  {
   "property": "C54",
   "status": "partial",
   "theorems": [
    "Noise.Blake2b.C54_fails",
    "Noise.Blake2b.C54_tail",
    "Noise.Blake2b.C54_partial"
   ],
   "note": "False as stated: on big endian hosts the conversion loops advance by 4 bytes for 8-byte words (C54_fails), and only 36 bytes of the digest are written (C54_tail). Proved for little endian hosts (C54_partial)."
  },
  {
   "property": "C55",
   "status": "proved",
   "theorems": [
    "Noise.Aes.C55_keySetup_length",
    "Noise.Aes.C55_keySetup",
    "Noise.Aes.C55_aes256",
    "Noise.Aes.C55_aesgcm",
    "Noise.Aes.C55_lawful"
   ],
   "note": "256-bit encryption only; other key lengths and decryption are unused by the library and not modelled. FULL_UNROLL is not defined, as in the build."
  },
  {
   "property": "C56",
   "status": "partial",
   "theorems": [
    "Noise.Loader.C56_certificate_buffer",
    "Noise.Loader.C56_chain_buffer_partial",
    "Noise.Loader.C56_certificate_file_partial",
    "Noise.Loader.C56_chain_file_partial",
    "Noise.Loader.C56_save_iff",
    "Noise.Loader.C56_fails",
    "Noise.Loader.C56_empty_chain"
   ],
   "note": "False for empty objects: an empty chain or certificate is saved as an empty file, which cannot be loaded (C56_fails); the message of an empty chain is loaded from a buffer as a chain of one empty certificate (C56_empty_chain). Proved for all others; allocations succeed while loading."
  },
  {
   "property": "C57",
   "status": "partial",
   "theorems": [
    "Noise.HS.C57_dh_roles",
    "Noise.HS.C57_partial",
    "Noise.HS.C57_fails",
    "Noise.C57_fixed"
   ],
   "note": "Proved for all regular patterns (C57_partial). False for objects created directly for a fallback pattern (C57_fails): both parties then give their own keys the role of the responder, because the flags are mirrored before the test. C57_dh_roles is the exact description."
  },
  {
   "property": "C58",
   "status": "partial",
   "theorems": [
    "Noise.Cert.C58_partial",
    "Noise.Cert.C58_fails"
   ],
   "note": "Proved for all ten objects, all inputs and all allocation outcomes with finitely many failures: no undefined behaviour, inside the input, bounded number of rounds. False if allocations go on failing: C58_fails exhibits an input on which reading a chain never ends."
  },
  {
   "property": "C59",
   "status": "partial",
   "theorems": [
    "Noise.Cert.C59_partial",
    "Noise.Cert.C59_fails"
   ],
   "note": "Proved for the four objects without nested objects. False for the others: C59_fails exhibits a chain and a private key that are read with success but without an item, or with a NULL item."
  },
  {
   "property": "C60",
   "status": "proved",
   "theorems": [
    "Noise.Curve25519.C60_donna_is_x25519"
   ],
   "note": "The specification is a transcription of RFC 7748, section 5, over ZMod (2^255-19). The 64-bit variant is modelled, with 128-bit arithmetic modulo 2^128."
  },
  {
   "property": "C61",
   "status": "proved",
   "theorems": [
    "Noise.Curve25519.C61_donna_multiplies",
    "Noise.Curve25519.C61_donna_commutes",
    "Noise.Curve25519.C61_public_key_nonzero"
   ],
   "note": "Points are those of Mathlib's group of the Weierstrass curve y^2 = x^3 + 486662 x^2 + x over any extension field of ZMod (2^255-19) that contains the y-coordinate, so curve and twist are both covered. Public keys are the multiple of the base point 9."
  },
  {
   "property": "C62",
   "status": "proved",
   "theorems": [
    "Noise.Curve448.C62_x86_64_is_x448",
    "Noise.Curve448.C62_ref64_is_x448"
   ],
   "note": "Specification in Rfc7748X448.lean (ladder of RFC 7748, section 5, over ZMod (2^448-2^224-1)). Inline assembly is written as the 128-bit operations it computes; arch_32 and the ARM variants are not modelled."
  },
  {
   "property": "C63",
   "status": "proved",
   "theorems": [
    "Noise.Curve448.C63_multiplies",
    "Noise.Curve448.C63_commutes",
    "Noise.Curve448.C63_null_public_key"
   ],
   "note": "The curve over any field containing GF(2^448-2^224-1), so the twist is included; primality of 2^448-2^224-1 by a Pratt certificate."
  },
  {
   "property": "C64",
   "status": "proved",
   "theorems": [
    "Noise.Ed25519.C64_basepoint_is_x25519",
    "Noise.Ed25519.C64_basepoint_is_donna"
   ],
   "note": "64-bit portable field code; the x86-64 inline assembly (ed25519-donna-64bit-x86.h) is not modelled."
  },
  {
   "property": "C65",
   "status": "proved",
   "theorems": [
    "Noise.Ed25519.C65_publickey"
   ],
   "note": "The specification is Rfc8032.lean with SHA-512 of Fips180.lean. The second vector of the RFC is checked in the kernel in Ed25519Vector.lean."
  },
  {
   "property": "C66",
   "status": "proved",
   "theorems": [
    "Noise.Ed25519.C66_sign"
   ],
   "note": "The public key is an argument of the function and need not belong to the private key. Messages below 2^60 bytes, because SHA-512 of the code counts bits in 64 bits."
  },
  {
   "property": "C67",
   "status": "proved",
   "theorems": [
    "Noise.Ed25519.C67_accepts",
    "Noise.Ed25519.C67_rfc",
    "Noise.Ed25519.C67_own",
    "Noise.Ed25519.C67_lawful"
   ],
   "note": "64-bit portable version. Points outside of the group generated by the base point are multiplied by the hash modulo the order L, as C67_accepts says; RFC 8032 uses the hash itself."
  },
  {
   "property": "C68",
   "status": "partial",
   "theorems": [
    "Noise.Ed25519.C68_fails_malleable",
    "Noise.Ed25519.C68_fails_noncanonical",
    "Noise.Ed25519.C68_rfc_partial"
   ],
   "note": "False of the code: from any accepted signature with S + L < 2^253 another one is made by adding L to S, and two keys that are not canonical are used. C68_rfc_partial: with a canonical key of a point of order L and S below L, what is accepted is accepted by RFC 8032. Missing there: keys of points with a component of small order."
  },
  {
   "property": "C69",
   "status": "proved",
   "theorems": [
    "Noise.NewHope.C69_agreement",
    "Noise.NewHope.C69_real",
    "Noise.NewHope.C69_api",
    "Noise.NewHope.getnoise_ok",
    "Noise.NewHope.noise_le",
    "Noise.NewHope.seeds_small"
   ],
   "note": "C69_agreement and C69_api hold for arbitrary hash functions and uniform polynomials; C69_real instantiates those of the code (C70, C71), where poly_uniform is taken to return. seeds_small exhibits seeds with small noise."
  },
  {
   "property": "C70",
   "status": "proved",
   "theorems": [
    "Noise.Keccak.C70_sha3",
    "Noise.Keccak.C70_shake",
    "Noise.Keccak.C70_sha3_length",
    "Noise.Keccak.permute_ok"
   ],
   "note": ""
  },
  {
   "property": "C71",
   "status": "proved",
   "theorems": [
    "Noise.NewHope.C71_uniform",
    "Noise.NewHope.C71_returns",
    "Noise.NewHope.discard_ok",
    "Noise.NewHope.batcher_sorts",
    "Noise.NewHope.seed_returns"
   ],
   "note": "The loop is modelled with a bound on the number of iterations that the theorems quantify over. Nothing is said about the distribution of the coefficients."
  },
  {
   "property": "C72",
   "status": "proved",
   "theorems": [
    "Noise.NewHope.C72_chacha",
    "Noise.NewHope.C72_noise"
   ],
   "note": ""
  },
  {
   "property": "C73",
   "status": "partial",
   "theorems": [
    "Noise.C73_curve_partial",
    "Noise.C73_fails_peer_ignored",
    "Noise.C73_fails_role",
    "Noise.C73_fails_object_changed"
   ],
   "note": "Holds for the curves. False for New Hope, with three counterexamples: a responder that has generated ignores the public key passed, a change of role makes the call return the first 32 bytes of the secret polynomial, and the const object's public key is written."
  },
  {
   "property": "C74",
   "status": "partial",
   "theorems": [
    "Noise.C74_curve_partial",
    "Noise.C74_fails",
    "Noise.C74_fails_seed"
   ],
   "note": "Holds for the curves. False for New Hope: the secret polynomial stays in the object, and after a change of role also half of the seed."
  },
  {
   "property": "C75",
   "status": "proved",
   "theorems": [
    "Noise.PB.C75_value",
    "Noise.PB.C75_refused"
   ],
   "note": ""
  },
  {
   "property": "C76",
   "status": "partial",
   "theorems": [
    "Noise.C76_encrypt",
    "Noise.C76_decrypt_partial",
    "Noise.C76_fails"
   ],
   "note": "Holds for encryption. Decryption hashes size bytes before the capacity is checked."
  },
  {
   "property": "C77",
   "status": "partial",
   "theorems": [
    "Noise.C77_one_way_partial",
    "Noise.C77_fails"
   ],
   "note": "Holds for N, X and K. False for Xnoidh, which is numbered among the interactive patterns."
  },
  {
   "property": "C78",
   "status": "partial",
   "theorems": [
    "Noise.C78_partial",
    "Noise.C78_fails"
   ],
   "note": "Holds without hybrid keys (C19_fallback_agreement then gives the whole handshake); with them f is mixed in although XXfallback has no such pre-message."
  },
  {
   "property": "C79",
   "status": "proved",
   "theorems": [
    "Noise.Poly1305W.C79_poly1305",
    "Noise.Poly1305W.C79_auth",
    "Noise.Poly1305W.C79_same"
   ],
   "note": "poly1305-donna-32.h with unsigned long of 32 bits; every 32- and 64-bit operation wraps in the model and is shown exact"
  },
  {
   "property": "C80",
   "status": "proved",
   "theorems": [
    "Noise.Echo.C80_server_understands",
    "Noise.Echo.C80_every_id_has_a_name",
    "Noise.Echo.C80_injective",
    "Noise.Echo.C80_accepts",
    "Noise.Echo.C80_refused"
   ],
   "note": "echo-common.c, with names.c as in C28"
  },
  {
   "property": "C81",
   "status": "partial",
   "theorems": [
    "Noise.Echo.C81_private",
    "Noise.Echo.C81_public_partial",
    "Noise.Echo.C81_public_safe",
    "Noise.Echo.C81_fails_space",
    "Noise.Echo.C81_public_refuses"
   ],
   "note": "false as stated: white space between the digits counts as the digit before it (C81_fails_space); holds without white space before the padding, or with one such character at the end"
  },
  {
   "property": "C82",
   "status": "proved",
   "theorems": [
    "Noise.Echo.C82_recv",
    "Noise.Echo.C82_recv_safe",
    "Noise.Echo.C82_send",
    "Noise.Echo.C82_sequence",
    "Noise.Echo.C82_fails_empty",
    "Noise.Echo.C82_send_result",
    "Noise.Echo.C82_recv_exact"
   ],
   "note": "the operating system is a list of results of recv and send; a packet without contents is reported like a lost connection (C82_fails_empty)"
  },
  {
   "property": "C83",
   "status": "proved",
   "theorems": [
    "Noise.Echo.C83_server",
    "Noise.Echo.C83_server_safe",
    "Noise.Echo.C83_server_rejects",
    "Noise.Echo.C83_server_send_fails",
    "Noise.Echo.C83_client_rejects",
    "Noise.Echo.C83_echo",
    "Noise.Echo.C83_session",
    "Noise.Echo.C83_fails_unterminated"
   ],
   "note": "For complete lines (no zero byte, a line feed at the end and nowhere else, short enough for the buffer). `C83_echo` starts with the same ciphers on both sides; `C83_session` starts before the handshake, with C12 for Curve25519 and the reference ciphers and hashes. The loops which carry the handshake messages over the connection are not modelled. `C83_fails_unterminated`: with padding, a line without line feed is always printed with some of the random padding."
  },
  {
   "property": "C84",
   "status": "proved",
   "theorems": [
    "Noise.Echo.C84_runs",
    "Noise.Echo.C84_server_safe",
    "Noise.Echo.C84_client_safe",
    "Noise.Echo.C84_rejected",
    "Noise.Echo.C84_send_fails",
    "Noise.Echo.C84_not_started",
    "Noise.Echo.C84_waits"
   ],
   "note": "C84_runs is for Curve25519 and the reference ciphers and hashes; the other theorems are for every setup. The operating system's send and recv are modelled by lists of results; options, keys, connecting and printing of messages are left out."
  },
  {
   "property": "C85",
   "status": "proved",
   "theorems": [
    "Noise.C85_by_name",
    "Noise.C85_codes",
    "Noise.C85_fails_dangling",
    "Noise.C85_server_fails",
    "Noise.C85_server_mixed",
    "Noise.C85_server_goes_on"
   ],
   "note": "C85_fails_dangling and C85_server_fails are the witnesses of the defect; C85_server_mixed shows it for every identifier that asks for a hybrid algorithm with a pattern that has none, or the other way round. The memory for the parts of the object is always found; only that of the object itself may be missing."
  }
 ]
}