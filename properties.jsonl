{"id": "C01", "title": "A CipherState never uses the same nonce twice for encryption under one key", "statement": "After noise_cipherstate_init_key, in any sequence of noise_cipherstate_encrypt[_with_ad], decrypt[_with_ad], set_nonce and query calls on that CipherState without another init_key, the nonces handed to the cipher for encryption are strictly increasing, so no two encryptions use the same (key, nonce) pair, and the nonces of successfully decrypted messages are strictly increasing and disjoint from all the others.", "quantifier": "every key, every finite history of API calls with arbitrary buffers, associated data and nonce arguments, including calls that fail", "why_tests_cant": "a test observes a handful of calls; nonce reuse is a property of every history, including ones that mix failures and set_nonce", "anchors": ["src/protocol/cipherstate.c: noise_cipherstate_encrypt_with_ad, noise_cipherstate_decrypt_with_ad, noise_cipherstate_set_nonce, noise_cipherstate_init_key"]}
{"id": "C02", "title": "The reserved nonce 2^64-1 is never used and exhaustion is an error", "statement": "No call ever encrypts or decrypts under nonce 2^64-1: once the nonce counter reaches 2^64-1 every encrypt and decrypt on a keyed CipherState returns an error, leaves the buffer unchanged and the counter stays at 2^64-1 (it never wraps to 0) until a new key is set.", "quantifier": "every reachable CipherState, every buffer and every continuation", "why_tests_cant": "reaching the counter limit by running is infeasible, and the claim quantifies over all later calls", "anchors": ["src/protocol/cipherstate.c: noise_cipherstate_encrypt_with_ad, noise_cipherstate_decrypt_with_ad, noise_cipherstate_set_nonce"]}
{"id": "C03", "title": "noise_cipherstate_set_nonce can only move forward", "statement": "noise_cipherstate_set_nonce succeeds only if a key is set and the requested nonce is at least the current one, in which case the next operation uses exactly that nonce; otherwise it returns an error and nothing changes.", "quantifier": "every reachable state and every 64-bit argument", "why_tests_cant": "64-bit argument space and all histories", "anchors": ["src/protocol/cipherstate.c: noise_cipherstate_set_nonce"]}
{"id": "C04", "title": "A failed decryption has no effect", "statement": "If noise_cipherstate_decrypt_with_ad returns any error, the CipherState (key, nonce) is unchanged, the buffer's size and its contents are unchanged, so an attacker injecting garbage cannot desynchronise a session; a subsequent genuine packet still decrypts.", "quantifier": "every state, every buffer contents and associated data, both reference ciphers", "why_tests_cant": "requires all forged inputs", "anchors": ["src/protocol/cipherstate.c: noise_cipherstate_decrypt_with_ad", "src/backend/ref/cipher-chachapoly.c: noise_chachapoly_decrypt", "src/backend/ref/cipher-aesgcm.c: noise_aesgcm_decrypt"]}
{"id": "C05", "title": "Transport channel delivers exactly the sent prefix", "statement": "Two CipherStates keyed with the same key at the same nonce: if one side encrypts any sequence of messages and the other receives those ciphertexts in order, with any number of rejected (failing) packets interleaved, then every genuine packet decrypts to the original plaintext and associated data, in order, and the two nonces stay equal.", "quantifier": "every key, every sequence of messages and associated data of any length, every interleaving of rejected packets", "why_tests_cant": "unbounded sequences and interleavings", "anchors": ["src/protocol/cipherstate.c: noise_cipherstate_encrypt_with_ad, noise_cipherstate_decrypt_with_ad"]}
{"id": "C06", "title": "Encryption and decryption respect buffer capacity and the 65535 limit", "statement": "noise_cipherstate_encrypt_with_ad succeeds only if the result (plaintext length plus MAC length when keyed) fits in both max_size and 65535 and then sets size to exactly that; decrypt succeeds only with size between MAC length and 65535 and reduces size by exactly the MAC length; no byte outside the buffer's max_size bytes is ever written and after any call size <= max_size if it was before.", "quantifier": "every state, buffer and size/max_size combination", "why_tests_cant": "all size combinations including size_t extremes", "anchors": ["src/protocol/cipherstate.c: noise_cipherstate_encrypt_with_ad, noise_cipherstate_decrypt_with_ad", "include/noise/protocol/buffer.h"]}
{"id": "C07", "title": "An unkeyed CipherState is the identity", "statement": "Before any key is set, encrypt and decrypt succeed exactly when size <= max_size and size <= 65535, leave the buffer byte-for-byte unchanged and do not consume nonces.", "quantifier": "every unkeyed state and buffer", "why_tests_cant": "all buffers", "anchors": ["src/protocol/cipherstate.c: noise_cipherstate_encrypt_with_ad, noise_cipherstate_decrypt_with_ad"]}
{"id": "C08", "title": "SymmetricState operations compute the Noise specification's values", "statement": "Creating a SymmetricState, mix_key, mix_hash, encrypt_and_hash, decrypt_and_hash and split compute exactly InitializeSymmetric, MixKey, MixHash, EncryptAndHash, DecryptAndHash and Split of the Noise specification (handshake hash, chaining key, cipher key, nonce and output bytes), for every cipher/hash pair including 64-byte hashes truncated to 32-byte keys.", "quantifier": "every protocol name, input and sequence of operations", "why_tests_cant": "unbounded inputs and sequences", "anchors": ["src/protocol/symmetricstate.c: noise_symmetricstate_new, noise_symmetricstate_mix_key, noise_symmetricstate_mix_hash, noise_symmetricstate_encrypt_and_hash, noise_symmetricstate_decrypt_and_hash, noise_symmetricstate_split"]}
{"id": "C09", "title": "A failed decrypt_and_hash does not disturb the symmetric state", "statement": "If noise_symmetricstate_decrypt_and_hash returns an error, the handshake hash, chaining key, cipher key and nonce are unchanged and the buffer is unchanged.", "quantifier": "every state and ciphertext", "why_tests_cant": "all forged inputs", "anchors": ["src/protocol/symmetricstate.c: noise_symmetricstate_decrypt_and_hash"]}
{"id": "C10", "title": "Split is final", "statement": "After a successful noise_symmetricstate_split every mix_key, mix_hash, encrypt_and_hash, decrypt_and_hash and split on the object fails with INVALID_STATE and changes nothing, and its MAC length is 0; in every history at most one split succeeds.", "quantifier": "every history of calls", "why_tests_cant": "all histories", "anchors": ["src/protocol/symmetricstate.c: noise_symmetricstate_split"]}
{"id": "C11", "title": "Handshake action life-cycle", "statement": "For every sequence of HandshakeState API calls: messages can be written only when the action is WRITE_MESSAGE and read only when it is READ_MESSAGE, calls in the wrong state return INVALID_STATE and change nothing; a failed read or write moves to FAILED, from which no message can be read or written and no split performed unless a fallback is started; split succeeds only when the action is SPLIT, moves to COMPLETE, and COMPLETE is terminal.", "quantifier": "every pattern, role and finite sequence of API calls with arbitrary arguments", "why_tests_cant": "all call sequences", "anchors": ["src/protocol/handshakestate.c: noise_handshakestate_start, noise_handshakestate_write_message, noise_handshakestate_read_message, noise_handshakestate_split, noise_handshakestate_get_action, noise_handshakestate_fallback_to"]}
{"id": "C12", "title": "Handshake agreement", "statement": "For every supported handshake pattern other than the fallback ones (those are reached as in C19), with or without PSK prefix and hybrid, if initiator and responder are created for the same protocol with the same prologue and PSK and correct knowledge of each other's pre-shared public keys, and both start, and the messages are exchanged unmodified with buffers large enough, then every write and read succeeds, every payload is delivered intact, both sides reach SPLIT after the same message, their handshake hashes are equal, and after split the initiator's send cipher equals the responder's receive cipher and vice versa.", "quantifier": "every pattern, key pair, prologue, PSK, random ephemeral and payload", "why_tests_cant": "unbounded payloads/keys; 40 patterns x PSK x cipher x hash x DH", "anchors": ["src/protocol/handshakestate.c: noise_handshakestate_write, noise_handshakestate_read, noise_handshakestate_start, noise_handshakestate_split", "src/protocol/patterns.c: noise_pattern_lookup"]}
{"id": "C13", "title": "Handshake messages conform to the Noise specification", "statement": "The bytes produced by noise_handshakestate_write_message and the acceptance and payload of noise_handshakestate_read_message are those prescribed by the Noise specification's WriteMessage/ReadMessage for the tokens of the current message, and the symmetric state after the message is the specification's.", "quantifier": "every token sequence, key material, payload and incoming message", "why_tests_cant": "unbounded inputs", "anchors": ["src/protocol/handshakestate.c: noise_handshakestate_write, noise_handshakestate_read"]}
{"id": "C14", "title": "Transcript binding", "statement": "If two parties complete a handshake with the same handshake hash, then they were created for the same protocol, hashed the same sequence of items (prologue, pre-shared key contribution, pre-message keys, every message chunk) and saw exactly the same messages, unless two different inputs actually fed to the hash function by the two parties collide or one of the digests they computed is the text of a protocol name.", "quantifier": "every pair of executions", "why_tests_cant": "all pairs of executions and all adversarial modifications", "anchors": ["src/protocol/symmetricstate.c: noise_symmetricstate_mix_hash, noise_symmetricstate_encrypt_and_hash, noise_symmetricstate_decrypt_and_hash", "src/protocol/handshakestate.c: noise_handshakestate_start"]}
{"id": "C15", "title": "start refuses missing keys", "statement": "noise_handshakestate_start succeeds only when every item the pattern needs before the first message is present (local static key pair, remote static public key, PSK, prologue requirement when resuming a fallback), and otherwise returns the specific *_REQUIRED error and leaves the state unstarted.", "quantifier": "every pattern, role and set of provided keys", "why_tests_cant": "all combinations of pattern, role and provided items", "anchors": ["src/protocol/handshakestate.c: noise_handshakestate_start, noise_handshakestate_needs_local_keypair, noise_handshakestate_needs_remote_public_key, noise_handshakestate_needs_pre_shared_key"]}
{"id": "C16", "title": "The handshake layer never dereferences a missing key object or writes outside the message buffer", "statement": "No sequence of HandshakeState API calls, for any pattern, role, fallback and peer messages, dereferences a key object that does not exist, reads past the incoming message, or writes past the caller's buffer.", "quantifier": "every call sequence, every message bytes", "why_tests_cant": "memory safety over all histories", "anchors": ["src/protocol/handshakestate.c: noise_handshake_mix_dh, noise_handshakestate_write, noise_handshakestate_read, noise_handshakestate_start"]}
{"id": "C17", "title": "Pattern tables are valid", "statement": "Each of the built-in handshake patterns satisfies the Noise validity rules: a party sends each of e, s, f at most once (and not one already in a pre-message), a DH token is only used when both keys it needs have been sent or are pre-shared, every static-key DH by a sender is accompanied by an ephemeral DH before encrypting, every message alternates direction, and the flags agree with the tokens; the flags seen by the responder are the mirror of the initiator's.", "quantifier": "every pattern in the library's table (the whole finite table) and, for the derived facts, every reachable handshake", "why_tests_cant": "checks of individual patterns by running do not establish the rule for the table", "anchors": ["src/protocol/patterns.c: noise_pattern_lookup, noise_pattern_reverse_flags"]}
{"id": "C18", "title": "Null ephemeral keys from the peer are rejected", "statement": "If the ephemeral (or hybrid ephemeral) public key in an incoming handshake message is all zero bytes, noise_handshakestate_read_message returns INVALID_PUBLIC_KEY and the handshake is FAILED, in every pattern that transmits one.", "quantifier": "every state, every message", "why_tests_cant": "all messages and states", "anchors": ["src/protocol/handshakestate.c: noise_handshakestate_read"]}
{"id": "C19", "title": "Fallback reaches agreement", "statement": "When a responder cannot process the initiator's first message and both sides call noise_handshakestate_fallback, the XXfallback handshake that follows completes with equal handshake hashes and matching transport keys; fallback is permitted only when the sides actually have the initiator's ephemeral key, and roles are exchanged exactly once on each side.", "quantifier": "every first-message failure, keys, prologues, payloads", "why_tests_cant": "all failure points and keys", "anchors": ["src/protocol/handshakestate.c: noise_handshakestate_fallback, noise_handshakestate_fallback_to, noise_handshakestate_start"]}
{"id": "C20", "title": "A fallback pattern cannot be started directly", "statement": "noise_handshakestate_start returns NOT_APPLICABLE for a HandshakeState created directly for a fallback pattern (XXfallback, XXfallback+hfs), because its ephemeral pre-message does not exist.", "quantifier": "every state created for a fallback pattern", "why_tests_cant": "all configurations", "anchors": ["src/protocol/handshakestate.c: noise_handshakestate_start"]}
{"id": "C21", "title": "Handshake messages never exceed 65535 bytes", "statement": "Every message successfully produced by noise_handshakestate_write_message is at most 65535 bytes long and every message accepted by noise_handshakestate_read_message is too.", "quantifier": "every payload and buffer size", "why_tests_cant": "all payload sizes", "anchors": ["src/protocol/handshakestate.c: noise_handshakestate_write_message, noise_handshakestate_read_message"]}
{"id": "C22", "title": "Handshake hash retrieval", "statement": "noise_handshakestate_get_handshake_hash succeeds exactly when the handshake has reached SPLIT or COMPLETE and returns the handshake hash truncated or zero-padded to the requested length; the value is the same before and after split and equal on both sides of an agreeing handshake.", "quantifier": "every state and requested length", "why_tests_cant": "all lengths and states", "anchors": ["src/protocol/handshakestate.c: noise_handshakestate_get_handshake_hash"]}
{"id": "C23", "title": "Observable results never depend on uninitialised memory", "statement": "Return codes, output buffers and every later observable effect of the handshake API are independent of the contents of uninitialised stack memory, although a failing Diffie-Hellman still mixes such memory into the chaining key.", "quantifier": "every two contents of the uninitialised memory and every history", "why_tests_cant": "cannot be observed deterministically by tests", "anchors": ["src/protocol/handshakestate.c: noise_handshake_mix_dh", "src/protocol/dhstate.c: noise_dhstate_calculate"]}
{"id": "C24", "title": "DHState key consistency", "statement": "After any sequence of DHState calls, if noise_dhstate_has_keypair holds for a Curve25519/Curve448 object then its public key is the one derived from its private key; if any setter fails the object holds no key afterwards (or is unchanged when the arguments were rejected up front); noise_dhstate_has_public_key/is_null_public_key report the stored state.", "quantifier": "every history of calls and every byte strings", "why_tests_cant": "all histories", "anchors": ["src/protocol/dhstate.c: noise_dhstate_set_keypair, noise_dhstate_set_keypair_private, noise_dhstate_set_public_key, noise_dhstate_generate_keypair, noise_dhstate_clear_key, noise_dhstate_copy"]}
{"id": "C25", "title": "Diffie-Hellman calculation contract", "statement": "noise_dhstate_calculate succeeds only with a key pair on the private side, same algorithm, and shared_key_len equal to the algorithm's; with a null public key (where the algorithm allows one) it succeeds and yields the all-zero shared secret; otherwise both sides of a Curve25519/Curve448 exchange compute the same secret, and for New Hope both sides do whenever the two reconciliation functions agree.", "quantifier": "every pair of DHStates and every key", "why_tests_cant": "all key values", "anchors": ["src/protocol/dhstate.c: noise_dhstate_calculate", "src/backend/ref/dh-curve25519.c"]}
{"id": "C26", "title": "SignState key consistency", "statement": "A SignState only signs when it holds a key pair whose public key was derived from its private key, refuses to verify without a public key, and setting an inconsistent key pair is refused and changes nothing; a signature made with a key pair verifies under its public key, and verification accepts exactly what the algorithm accepts.", "quantifier": "every history of calls", "why_tests_cant": "all histories", "anchors": ["src/protocol/signstate.c: noise_signstate_set_keypair, noise_signstate_sign, noise_signstate_verify"]}
{"id": "C27", "title": "Protocol id to name and back", "statement": "For every NoiseProtocolId for which noise_protocol_id_to_name succeeds, noise_protocol_name_to_id on the resulting string returns the same id; it succeeds for every id built from registered algorithm identifiers provided the buffer can hold the name and terminator.", "quantifier": "every protocol id structure and buffer length", "why_tests_cant": "combinatorial id space and all buffer lengths", "anchors": ["src/protocol/names.c: noise_protocol_id_to_name, noise_protocol_name_to_id"]}
{"id": "C28", "title": "Protocol name to id and back", "statement": "For every string accepted by noise_protocol_name_to_id, noise_protocol_id_to_name of the result reproduces exactly that string, so no two different names are accepted for the same protocol; every rejected string leaves an all-zero id.", "quantifier": "every byte string", "why_tests_cant": "all strings", "anchors": ["src/protocol/names.c: noise_protocol_name_to_id, noise_protocol_id_to_name"]}
{"id": "C29", "title": "Name formatting never overflows", "statement": "noise_protocol_id_to_name never writes outside the caller's buffer of len bytes, always NUL-terminates within it on success, and on error leaves an empty or cleared string.", "quantifier": "every id, every len", "why_tests_cant": "all lengths", "anchors": ["src/protocol/names.c: noise_format_field, noise_protocol_id_to_name"]}
{"id": "C30", "title": "Algorithm identifiers and names are in bijection within a category", "statement": "noise_name_to_id and noise_id_to_name are mutually inverse on the registered names and identifiers of every category; unknown names map to 0 and unknown ids to NULL.", "quantifier": "every category, string and id", "why_tests_cant": "all strings and ids", "anchors": ["src/protocol/names.c: noise_name_to_id, noise_id_to_name"]}
{"id": "C31", "title": "HMAC, HKDF and PBKDF2 equal their RFC definitions", "statement": "noise_hashstate_hkdf and noise_hashstate_pbkdf2 (and the HMAC beneath) compute exactly RFC 2104 HMAC, the Noise/RFC 5869 HKDF and RFC 8018 PBKDF2 over the selected hash for every key length (including longer than the block), data, output lengths and iteration count, with the documented length limits.", "quantifier": "every key, data, salt, length and iteration count", "why_tests_cant": "unbounded inputs; iteration counts too large to run", "anchors": ["src/protocol/hashstate.c: noise_hashstate_hmac, noise_hashstate_hkdf, noise_hashstate_pbkdf2"]}
{"id": "C32", "title": "Hashing is independent of chunking", "statement": "For SHA-256, SHA-512, BLAKE2s and BLAKE2b, reset, any sequence of noise_hashstate_update calls and finalize yields the standard's one-shot digest of the concatenation.", "quantifier": "every message and every way of splitting it into chunks", "why_tests_cant": "all messages and chunkings", "anchors": ["src/crypto/sha2/sha256.c: sha256_update, sha256_finish", "src/crypto/sha2/sha512.c", "src/crypto/blake2/blake2s.c", "src/crypto/blake2/blake2b.c", "src/backend/ref/hash-sha256.c"]}
{"id": "C33", "title": "ChaChaPoly backend implements the RFC 7539 AEAD", "statement": "The reference ChaChaPoly cipher computes the RFC 7539 construction (one-time Poly1305 key from block 0, ChaCha20 keystream from block 1, padding and lengths) with the Noise nonce encoding, decrypt inverts encrypt, and decrypt accepts exactly the messages whose 16-byte tag is the correct one.", "quantifier": "every key, nonce, associated data, plaintext", "why_tests_cant": "unbounded inputs", "anchors": ["src/backend/ref/cipher-chachapoly.c", "src/crypto/chacha/chacha.c"]}
{"id": "C34", "title": "Poly1305 arithmetic is exact", "statement": "The 44-bit-limb Poly1305 computes ((sum of clamped-r-multiplied blocks) mod 2^130-5 + s) mod 2^128 for every key and message in any chunking, with no intermediate overflow.", "quantifier": "every key and message", "why_tests_cant": "rare carry cases defeat testing", "anchors": ["src/crypto/donna/poly1305-donna-64.h", "src/crypto/donna/poly1305-donna.c"]}
{"id": "C35", "title": "AES-GCM backend implements GCM", "statement": "The reference AESGCM cipher computes GCM as in NIST SP 800-38D over its block cipher with the Noise 96-bit nonce for all lengths allowed by Noise (its 16-bit counter never wraps), decrypt inverts encrypt and accepts only the correct tag.", "quantifier": "every key, nonce, associated data, plaintext up to the maximum", "why_tests_cant": "unbounded inputs; counter wrap boundary", "anchors": ["src/backend/ref/cipher-aesgcm.c", "src/crypto/ghash/ghash.c"]}
{"id": "C36", "title": "GHASH multiplication is multiplication in GF(2^128)", "statement": "GHASH computes the polynomial evaluation in GF(2^128) as defined in SP 800-38D for every key and data in any chunking.", "quantifier": "every key, data and chunking", "why_tests_cant": "all inputs", "anchors": ["src/crypto/ghash/ghash.c"]}
{"id": "C37", "title": "Constant-time comparison helpers are correct", "statement": "noise_is_equal returns 1 exactly when the two byte strings are equal and noise_is_zero returns 1 exactly when all bytes are zero, for every length.", "quantifier": "every pair of byte strings", "why_tests_cant": "all strings", "anchors": ["src/protocol/util.c: noise_is_equal, noise_is_zero"]}
{"id": "C38", "title": "Fingerprint formatting", "statement": "noise_format_fingerprint writes a NUL-terminated lower-case hex fingerprint of the SHA-256 of the key with ':' separators entirely inside the caller's buffer, or fails with INVALID_LENGTH writing only an empty string; distinct digests give distinct fingerprints of the same type.", "quantifier": "every digest, type and buffer length", "why_tests_cant": "all digests and lengths", "anchors": ["src/protocol/util.c: noise_format_fingerprint"]}
{"id": "C39", "title": "Padding preserves the payload", "statement": "noise_randstate_pad leaves the first orig_len bytes and everything after padded_len untouched, fills exactly the bytes between them with zeros or with the generator's output without leaving the buffer, changes nothing when padded_len is not larger, and without a state reports it and zeroes the padding region.", "quantifier": "every payload, length and mode", "why_tests_cant": "all lengths", "anchors": ["src/protocol/randstate.c: noise_randstate_pad"]}
{"id": "C40", "title": "Random generator never reuses key stream and rekeys", "statement": "noise_randstate_generate fills exactly the requested bytes; the (key, block counter) pairs used for output bytes never repeat between reseeds; the key in memory after a call was produced by a block that was never output; and no more than the documented 1600000 bytes are produced without reseeding.", "quantifier": "every sequence of generate/reseed calls of any sizes", "why_tests_cant": "state after unbounded output", "anchors": ["src/protocol/randstate.c: noise_randstate_generate, noise_randstate_rekey, noise_randstate_reseed"]}
{"id": "C41", "title": "Varint round-trip", "statement": "Every unsigned 64-bit value written with noise_protobuf_write_uint64/uint32/sint/int/enum/bool under any tag is read back as the same value by the matching read call, consuming exactly the bytes written.", "quantifier": "every value, every tag, every surrounding data", "why_tests_cant": "2^64 values", "anchors": ["src/protobufs/protobufs.c: noise_protobuf_write_varint, noise_protobuf_read_varint"]}
{"id": "C42", "title": "Fixed-width, float, bytes and string fields round-trip", "statement": "Fixed32/64, sfixed, float/double bit patterns, byte strings and valid strings written under a tag are read back unchanged, with size limits enforced and no partial result on error.", "quantifier": "every value and length", "why_tests_cant": "all values", "anchors": ["src/protobufs/protobufs.c: noise_protobuf_write_bytes, noise_protobuf_read_bytes, noise_protobuf_write_string, noise_protobuf_read_string"]}
{"id": "C43", "title": "Protobuf reader safety", "statement": "For every input buffer and every sequence of read calls the position never exceeds the size and never decreases, no byte outside the buffer is read, every loop terminates, and after the first error every later call fails with an error and does not move the position.", "quantifier": "every byte string and every sequence of calls", "why_tests_cant": "all malformed inputs", "anchors": ["src/protobufs/protobufs.c: noise_protobuf_read_varint, noise_protobuf_read_space, noise_protobuf_read_skip, noise_protobuf_read_start_element"]}
{"id": "C44", "title": "Protobuf writer safety and measuring", "statement": "For every sequence of write calls no byte outside the buffer is written; a sequence run in measuring mode (no buffer) computes exactly the number of bytes the same sequence writes into a real buffer, and the real sequence succeeds if and only if the buffer is at least that large.", "quantifier": "every sequence of write calls and buffer size", "why_tests_cant": "all sequences", "anchors": ["src/protobufs/protobufs.c: noise_protobuf_reserve_space, noise_protobuf_prepare_measure, noise_protobuf_finish_measure"]}
{"id": "C45", "title": "UTF-8 validation of strings", "statement": "Strings are accepted exactly when they are well-formed UTF-8 without NUL (no overlong forms, surrogates, or values above 10FFFF).", "quantifier": "every byte string", "why_tests_cant": "all strings", "anchors": ["src/protobufs/protobufs.c: noise_protobuf_is_utf8"]}
{"id": "C46", "title": "Peeking agrees with reading", "statement": "noise_protobuf_peek_tag and noise_protobuf_peek_size report the tag and payload size that the next read will see, without moving the position.", "quantifier": "every buffer", "why_tests_cant": "all buffers", "anchors": ["src/protobufs/protobufs.c: noise_protobuf_peek_tag, noise_protobuf_peek_size, noise_protobuf_peek_varint"]}
{"id": "C47", "title": "Nested elements and skipping", "statement": "Reading an element written with start/end element yields exactly its contents and ends at its end; skipping a field moves past exactly that field, so unknown fields never corrupt following ones.", "quantifier": "every nesting and contents", "why_tests_cant": "unbounded nesting", "anchors": ["src/protobufs/protobufs.c: noise_protobuf_write_start_element, noise_protobuf_read_start_element, noise_protobuf_read_skip"]}
{"id": "C48", "title": "Dynamic arrays behave like lists", "statement": "noise_protobuf_add_to_array/insert_into_array behave as append/insert on the list of elements with count equal to its length, capacity at least count, and an allocation failure leaves the contents unchanged.", "quantifier": "every sequence of operations and allocation failures", "why_tests_cant": "all sequences", "anchors": ["src/protobufs/protobufs.c: noise_protobuf_add_to_array, noise_protobuf_insert_into_array"]}
{"id": "C49", "title": "Negative tags are rejected when reading", "statement": "Reading with a negative expected tag is always an error.", "quantifier": "every buffer", "why_tests_cant": "all buffers", "anchors": ["src/protobufs/protobufs.c: noise_protobuf_read_tag"]}
{"id": "C50", "title": "Certificates and key files survive a write/read cycle", "statement": "Every certificate, certificate chain, private key or encrypted private key object that is written successfully is read back as an equal object (up to empty fields that the format omits).", "quantifier": "every object tree", "why_tests_cant": "unbounded object trees", "anchors": ["src/keys/certificate.c: Noise_Certificate_write, Noise_Certificate_read, Noise_PrivateKey_write, Noise_PrivateKey_read"]}
{"id": "C51", "title": "Encrypted private key round-trip", "statement": "A private key saved with a passphrase and protection name loads back to the same key with the same passphrase; a different derived key is rejected by the MAC; the plaintext never remains in the output buffer on error.", "quantifier": "every key object, passphrase, salt", "why_tests_cant": "all inputs", "anchors": ["src/keys/loader.c: noise_save_private_key_to_buffer, noise_load_private_key_from_buffer"]}
{"id": "C52", "title": "Saving a private key terminates", "statement": "noise_save_private_key_to_buffer returns for every private key and passphrase.", "quantifier": "every private key object", "why_tests_cant": "non-termination is not testable", "anchors": ["src/keys/loader.c: noise_save_private_key_to_buffer"]}
{"id": "C53", "title": "Error strings fit", "statement": "noise_strerror never writes outside the caller's buffer, always NUL-terminates within it, and for every known error code leaves the documented text of that code (truncated to the buffer), distinct codes having distinct texts; unknown codes get a text that is not any known one.", "quantifier": "every code and length", "why_tests_cant": "all codes and lengths", "anchors": ["src/protocol/errors.c: noise_strerror"]}
{"id": "C54", "title": "BLAKE2b is the same function on every host", "statement": "BLAKE2b_reset, BLAKE2b_update and BLAKE2b_finish yield the digest of RFC 7693 whatever the byte order of the host for which the byte-order branches were compiled.", "quantifier": "every message below 2^64 bytes, little and big endian hosts", "why_tests_cant": "tests run on little endian hosts only; all messages", "anchors": ["src/crypto/blake2/blake2b.c: blake2b_transform, BLAKE2b_finish", "src/crypto/blake2/blake2-endian.h"]}
{"id": "C55", "title": "The AES code is AES-256", "statement": "The key schedule and the table-driven block encryption used by the reference AESGCM cipher compute AES-256 as in FIPS 197 for every 256-bit key and every block, the schedule fits the array of 60 words, and with GHASH in place the whole back end is AES-256-GCM for every Noise message.", "quantifier": "every key, block, nonce, associated data and message up to the maximum", "why_tests_cant": "2^256 keys; a wrong entry in one of 1280 table words is hit by few vectors", "anchors": ["src/crypto/aes/rijndael-alg-fst.c", "src/backend/ref/cipher-aesgcm.c"]}
{"id": "C56", "title": "Saved certificates and chains can be loaded", "statement": "A certificate or certificate chain that was saved without an error, to a buffer or to a file, is loaded without an error: a certificate as itself and as a chain of one, a chain as itself and as its first certificate.", "quantifier": "every certificate, every chain, every state of the file", "why_tests_cant": "all objects; the library accepts each format in the other's place", "anchors": ["src/keys/loader.c: noise_save_certificate_to_file, noise_save_certificate_chain_to_file, noise_load_certificate_from_file, noise_load_certificate_chain_from_file, noise_load_certificate_from_buffer, noise_load_certificate_chain_from_buffer"]}
{"id": "C57", "title": "Both parties agree on the DH role of every key", "statement": "In a freshly created HandshakeState the DH objects for local keys and those for remote keys have opposite roles (noise_dhstate_get_role), and the local objects of one party have the role that the corresponding remote objects of the other party have, for every pattern.", "quantifier": "every protocol, both roles", "why_tests_cant": "matters only for role dependent back ends (New Hope); all patterns", "anchors": ["src/protocol/handshakestate.c: noise_handshakestate_new", "src/protocol/dhstate.c: noise_dhstate_set_role, noise_dhstate_get_role"]}
{"id": "C58", "title": "Parsing certificates and key files terminates safely", "statement": "Reading any sequence of bytes as a certificate, certificate chain, private key, encrypted private key or any object nested in them terminates, never accesses memory outside the input, and gives an object exactly when it returns success, whichever allocations fail.", "quantifier": "all byte strings and all outcomes of memory allocation", "why_tests_cant": "fuzzing covers finitely many inputs and never exhausts the memory at every point", "anchors": ["src/keys/certificate.c: Noise_CertificateChain_read", "src/keys/certificate.c: Noise_PrivateKey_read", "src/protobufs/protobufs.c: noise_protobuf_read_at_end_element"]}
{"id": "C59", "title": "Lack of memory is reported when certificates and keys are read", "statement": "If a read function for a certificate or key object returns success although some allocations failed, the object is the one that would have been read with enough memory.", "quantifier": "all byte strings and all outcomes of memory allocation", "why_tests_cant": "allocation failures are not injected by tests", "anchors": ["src/keys/certificate.c: Noise_CertificateChain_read", "src/protobufs/protobufs.c: noise_protobuf_add_to_array"]}
{"id": "C60", "title": "The Curve25519 code computes X25519", "statement": "For every 32-byte secret and every 32-byte public value, curve25519_donna in its 64-bit variant writes exactly the 32 bytes that the function X25519 of RFC 7748 gives, for non-canonical and low-order public values as well.", "quantifier": "all 2^512 pairs of inputs", "why_tests_cant": "limb overflow and incomplete reduction happen for a vanishing fraction of inputs", "anchors": ["src/crypto/donna/curve25519-donna-c64.c: curve25519_donna", "src/crypto/donna/curve25519-donna-c64.c: fmonty", "src/crypto/donna/curve25519-donna-c64.c: fcontract"]}
{"id": "C61", "title": "The Curve25519 code multiplies points, so shared secrets agree", "statement": "For every 32-byte secret and every public value that is the u-coordinate of a point of Curve25519 or of its twist, curve25519_donna writes the u-coordinate of the clamped multiple of that point (zero for the neutral element). Two secrets applied one after the other to any public value give the same result in either order, and no secret gives an all-zero public key.", "quantifier": "all secrets and all public values", "why_tests_cant": "agreement on all pairs of keys is a statement about the group law, not about samples", "anchors": ["src/crypto/donna/curve25519-donna-c64.c: curve25519_donna", "src/backend/ref/dh-curve25519.c: noise_curve25519_calculate"]}
{"id": "C62", "title": "The Curve448 code computes X448", "statement": "For every 56-byte private key and every 56-byte public value, curve448_eval with the 64-bit field code (both the reference and the x86-64 version) passes its assertions, writes exactly the 56 bytes that the function X448 of RFC 7748 gives, and returns 1 if and only if the public value, read little-endian, is below 2^448 - 2^224 - 1.", "quantifier": "all 2^896 pairs of inputs, two field implementations", "why_tests_cant": "limb overflow and incomplete reduction happen for a vanishing fraction of inputs", "anchors": ["src/crypto/curve448/curve448.c: curve448_eval", "src/crypto/goldilocks/src/p448/arch_x86_64/p448.c: p448_mul", "src/crypto/goldilocks/src/p448/arch_ref64/p448.c: p448_mul", "src/crypto/goldilocks/src/p448/arch_ref64/p448.c: p448_strong_reduce"]}
{"id": "C63", "title": "The Curve448 code multiplies points, so shared secrets agree", "statement": "For every 56-byte private key and every public value that is the u-coordinate of a point of Curve448 or of its twist, curve448_eval writes the u-coordinate of the clamped multiple of that point (zero for the neutral element). Two private keys applied one after the other to any public value give the same result in either order. Unlike for Curve25519, there is a private key (four times the order of the base point) whose public key is all zero, and the code generates or accepts it without an error.", "quantifier": "all private keys and all public values", "why_tests_cant": "agreement on all pairs of keys is a statement about the group law, not about samples; the exceptional key is one of 2^446", "anchors": ["src/crypto/curve448/curve448.c: curve448_eval", "src/backend/ref/dh-curve448.c: noise_curve448_calculate", "src/backend/ref/dh-curve448.c: noise_curve448_generate_keypair"]}
{"id": "C64", "title": "The code for Curve25519 public keys computes X25519 of the base point", "statement": "For every 32-byte private key, curved25519_scalarmult_basepoint (Edwards arithmetic with a table of 256 precomputed points and signed 4-bit digits) writes exactly the 32 bytes that the function X25519 of RFC 7748 gives for the private key and the base point 9; they equal the output of curve25519_donna for the same arguments.", "quantifier": "all 2^256 private keys, all 256 entries of the table", "why_tests_cant": "a wrong table entry or a lost carry affects few keys; agreement of two unrelated algorithms on all inputs needs the group law", "anchors": ["src/crypto/ed25519/ed25519.c: curved25519_scalarmult_basepoint", "src/crypto/ed25519/ed25519-donna-impl-base.h: ge25519_scalarmult_base_niels", "src/crypto/ed25519/modm-donna-64bit.h: contract256_window4_modm", "src/backend/ref/dh-curve25519.c: noise_curve25519_generate_keypair"]}
{"id": "C65", "title": "Ed25519 public keys are those of RFC 8032", "statement": "For every 32-byte private key and whatever the stack contains, ed25519_publickey has no undefined behaviour and writes exactly the 32 bytes that key generation of RFC 8032, section 5.1.5, gives: the encoding of the multiple of the base point by the pruned hash of the key.", "quantifier": "all 2^256 private keys, all contents of the hash context", "why_tests_cant": "reduction of the scalar modulo the group order is only right because of the order of the base point; carries in the Barrett reduction are lost for few inputs", "anchors": ["src/crypto/ed25519/ed25519.c: ed25519_publickey", "src/crypto/ed25519/modm-donna-64bit.h: expand256_modm", "src/crypto/ed25519/ed25519-donna-impl-base.h: ge25519_pack"]}
{"id": "C66", "title": "Ed25519 signatures are those of RFC 8032", "statement": "For every message, every 32-byte private key and every 32-byte string given as public key, ed25519_sign has no undefined behaviour and writes exactly the 64 bytes of section 5.1.6 of RFC 8032: R and S = (r + k s) mod L.", "quantifier": "all messages below 2^60 bytes, all private and public keys", "why_tests_cant": "the multiplication modulo L works on five limbs with a truncated Barrett quotient; wrong results would show for a vanishing fraction of scalars", "anchors": ["src/crypto/ed25519/ed25519.c: ed25519_sign", "src/crypto/ed25519/modm-donna-64bit.h: mul256_modm, add256_modm, contract256_modm", "src/backend/ref/sign-ed25519.c: noise_ed25519_sign"]}
{"id": "C67", "title": "Ed25519 verification accepts exactly the signatures that satisfy the group equation", "statement": "For every message, every 32-byte public key and every 64-byte signature (R, S), ed25519_sign_open has no undefined behaviour and accepts exactly when the three top bits of S are zero, the key without regard to canonicity is the y-coordinate of a point A of the curve, and R is the encoding of [S]B - [h mod L]A with h the hash of R, the key and the message. Signatures made by ed25519_sign with the key of ed25519_publickey are accepted, as is every signature that RFC 8032 accepts for the key of a point in the group of the base point.", "quantifier": "all messages below 2^60 bytes, all keys, all signatures", "why_tests_cant": "a wrong sliding window, table entry or square root affects few scalars or keys; that nothing else is accepted cannot be tested", "anchors": ["src/crypto/ed25519/ed25519.c: ed25519_sign_open", "src/crypto/ed25519/ed25519-donna-impl-base.h: ge25519_unpack_negative_vartime, ge25519_double_scalarmult_vartime", "src/crypto/ed25519/modm-donna-64bit.h: contract256_slidingwindow_modm", "src/backend/ref/sign-ed25519.c: noise_ed25519_verify"]}
{"id": "C68", "title": "Ed25519 verification rejects what RFC 8032 rejects", "statement": "Whatever signature ed25519_sign_open accepts for a message and a public key is accepted by the verification of RFC 8032, section 5.1.7; in particular keys that are not canonical encodings and values of S not below the group order are refused.", "quantifier": "all messages, keys and signatures", "why_tests_cant": "signatures outside of the standard are not made by any signer, so that no test vector contains them", "anchors": ["src/crypto/ed25519/ed25519.c: ed25519_sign_open", "src/crypto/ed25519/ed25519-donna-impl-base.h: ge25519_unpack_negative_vartime"]}
{"id": "C69", "title": "New Hope: both parties compute the same secret when the noise is small", "statement": "For every 64 random bytes of the initiator and every 32 random bytes of the responder, let d be the integer polynomial e s' - s e' + e'' modulo X^1024 + 1, made from the five noise polynomials that ChaCha20 yields for the two noise seeds (each coefficient is the number of ones among 16 bits less that among 16 others). If for each of the 256 key bits the absolute values of the four coefficients of d add up to at most 9214 (of 12289), newhope_shareda applied to the responder's message gives the secret that newhope_sharedb gave to the responder. The same holds for the secrets which noise_dhstate_calculate gives after noise_dhstate_generate_dependent_keypair and noise_dhstate_set_public_key on both sides.", "quantifier": "all random bytes for which the noise is small; every SHA3-256 and every uniform polynomial", "why_tests_cant": "a failure depends on the noise; a wrong reduction, table entry, encoding or reconciliation constant may only show for rare coefficients (values next to a multiple of q or to a boundary of the decoding cells)", "anchors": ["src/crypto/newhope/newhope.c: newhope_keygen, newhope_sharedb, newhope_shareda", "src/crypto/newhope/poly.c", "src/crypto/newhope/ntt.c", "src/crypto/newhope/reduce.c", "src/crypto/newhope/error_correction.c", "src/crypto/newhope/precomp.c", "src/crypto/newhope/crypto_stream_chacha20.c", "src/backend/ref/dh-newhope.c"]}
{"id": "C70", "title": "The hash functions of New Hope are those of FIPS 202", "statement": "For every message sha3256 computes SHA3-256, and shake128_absorb followed by shake128_squeezeblocks for n blocks computes the first 168 n bytes of SHAKE128, as FIPS 202 defines them on bit strings (state array, step mappings θ, ρ, π, χ, ι with the generated offsets and round constants, pad10*1, sponge).", "quantifier": "all messages, all numbers of blocks", "why_tests_cant": "the test vectors have messages of one length each; a wrong rotation or constant that cancels for them, or a wrong padding for lengths next to a multiple of the rate, would not show", "anchors": ["src/crypto/newhope/fips202.c: KeccakF1600_StatePermute, keccak_absorb, keccak_squeezeblocks, shake128_absorb, shake128_squeezeblocks, sha3256"]}
{"id": "C71", "title": "New Hope's uniform polynomial consists of accepted words of the SHAKE128 stream", "statement": "poly_uniform reads the SHAKE128 output for the 32-byte seed in parts of 1344 little-endian 16-bit words, seen as 84 rows of 16 columns. It returns at the first part in which every column has at least 64 words below 5 q = 61445, and never at another. Each coefficient of the result is below 5 q and is a word of that part, those at places congruent to c modulo 16 being different words of column c: the sorting network batcher84 moves the words from 5 q on behind the others for all 2^84 distributions of them.", "quantifier": "all seeds, all numbers of iterations", "why_tests_cant": "that a network of 904 comparisons sorts is a statement about 2^84 inputs; seeds for which a part is refused are too rare to be found", "anchors": ["src/crypto/newhope/poly.c: discardtopoly, poly_uniform", "src/crypto/newhope/batcher.c: batcher84"]}
{"id": "C72", "title": "New Hope's noise is the centred binomial of the ChaCha20 stream", "statement": "crypto_stream_chacha20 gives the ChaCha20 key stream of RFC 7539 from counter 0 on, for the nonce preceded by four zero bytes, for every length up to 2^38 bytes. Coefficient i of poly_getnoise is, modulo q, the number of ones in bytes 4 i and 4 i + 1 of the stream for the nonce byte less the number of ones in bytes 4 i + 2 and 4 i + 3; it is stored as that number plus q.", "quantifier": "all seeds, nonces, lengths and coefficients", "why_tests_cant": "an error in a carry of the counter or in the bit counting shows in few positions only", "anchors": ["src/crypto/newhope/crypto_stream_chacha20.c: crypto_stream_chacha20", "src/crypto/newhope/poly.c: poly_getnoise"]}
{"id": "C73", "title": "The shared key depends on the private key and the public key passed, and nothing is changed", "statement": "noise_dhstate_calculate, called with an object that has a key pair and one that has a public key, writes the shared key that the algorithm assigns to that private key and that public key, or zeros for the null public key, and leaves both objects unchanged.", "quantifier": "all key pairs, all public keys, all functions of the algorithm, all previous contents of the shared key", "why_tests_cant": "whether earlier calls influence the result is a statement about all object states", "anchors": ["src/protocol/dhstate.c: noise_dhstate_calculate", "src/backend/ref/dh-curve25519.c: noise_curve25519_calculate", "src/backend/ref/dh-curve448.c: noise_curve448_calculate", "src/backend/ref/dh-newhope.c: noise_newhope_calculate"]}
{"id": "C74", "title": "Clearing the key of a DH object erases the keys", "statement": "After noise_dhstate_clear_key no byte of the object depends on the keys it held.", "quantifier": "all object states", "why_tests_cant": "memory contents after the call are not visible through the API", "anchors": ["src/protocol/dhstate.c: noise_dhstate_clear_key", "src/backend/ref/dh-newhope.c"]}
{"id": "C75", "title": "Integer fields are read as the numbers they encode", "statement": "If the input at the current position is a field with the given tag, wire type 0 and a number in at most ten bytes, then noise_protobuf_read_uint64, _int64, _uint32, _int32 and _bool return no error and the number converted to the type as in C (modulo 2^64 or 2^32), and consume exactly the field. Otherwise (other tag or type, more than ten bytes, end of the input) they return INVALID_FORMAT and 0.", "quantifier": "all inputs, positions and tags from 1 to 2^31 - 1", "why_tests_cant": "encodings that are not minimal or exceed the type are rarely tested", "anchors": ["src/protobufs/protobufs.c: noise_protobuf_read_varint", "src/protobufs/protobufs.c: noise_protobuf_read_integer, noise_protobuf_read_uint64, noise_protobuf_read_bool"]}
{"id": "C76", "title": "The symmetric state refuses buffers whose size exceeds their capacity", "statement": "noise_symmetricstate_encrypt_and_hash and noise_symmetricstate_decrypt_and_hash read nothing behind the max_size bytes of the buffer: if size exceeds max_size they return INVALID_LENGTH.", "quantifier": "all states, all buffers", "why_tests_cant": "reading behind a buffer usually goes unnoticed", "anchors": ["src/protocol/symmetricstate.c: noise_symmetricstate_encrypt_and_hash, noise_symmetricstate_decrypt_and_hash"]}
{"id": "C77", "title": "A fallback is refused in one-way handshakes", "statement": "noise_handshakestate_fallback_to returns NOT_APPLICABLE and changes nothing if the pattern of the handshake has a single message.", "quantifier": "all states of such handshakes", "why_tests_cant": "needs a failed message in a particular pattern", "anchors": ["src/protocol/handshakestate.c: noise_handshakestate_fallback_to", "include/noise/protocol/constants.h: NOISE_PATTERN_X_NOIDH"]}
{"id": "C78", "title": "After a fallback exactly the pre-messages of the new pattern are mixed in", "statement": "noise_handshakestate_start after a fallback hashes the prologue, the pre-shared key and the pre-message keys of the new pattern, and nothing else of the first handshake.", "quantifier": "all first handshakes, all messages", "why_tests_cant": "both parties make the same mistake, so that they agree with each other", "anchors": ["src/protocol/handshakestate.c: noise_handshakestate_start, lines 844-877"]}
{"id": "C79", "title": "Poly1305 on 32-bit machines", "statement": "When built for a machine without 128-bit integers, Poly1305 with limbs of 26 bits computes the tag of RFC 7539 for every key and message in any chunking, whatever the memory of the context holds at first, without an access outside the buffer and without losing a carry; its tags are those of the 64-bit build.", "quantifier": "every key, message, division of the message and initial memory", "why_tests_cant": "the 32-bit build is not what is tested on a 64-bit machine, and carries are lost only for rare values", "anchors": ["src/crypto/donna/poly1305-donna-32.h:16-218", "src/crypto/donna/poly1305-donna.c:26-69"]}
{"id": "C80", "title": "The echo programs agree on the protocol", "statement": "The identifier which the echo client computes from a protocol name makes the server choose exactly the protocol of this name; every identifier the server accepts belongs to exactly one protocol name; the client accepts exactly the names with one of the 24 two-way patterns without fallback and noidh.", "quantifier": "every name and every five bytes received", "why_tests_cant": "a wrong or ambiguous table entry shows only for that combination of the 4608 protocols", "anchors": ["examples/echo/echo-server/echo-common.c:63-209", "examples/echo/echo-server/echo-common.h:33-77"]}
{"id": "C81", "title": "The echo programs load the keys in the files", "statement": "Loading a private key succeeds exactly for files of the length asked for and yields the contents; loading a public key from its base64 encoding, with white space ignored, yields the key; no file makes either function write outside the memory for the key.", "quantifier": "every file, every length", "why_tests_cant": "malformed files are unbounded; memory errors need not be visible", "anchors": ["examples/echo/echo-server/echo-common.c:212-315"]}
{"id": "C82", "title": "Echo packets arrive as they were sent", "statement": "However the network divides and delays the bytes and however often calls are interrupted, packets with contents which have been sent with success are received whole, in order, each by one call; no connection, with any errors or contents, makes the receiver write outside its buffer, and a result other than zero means a whole packet; what has been sent is always a beginning of the packet.", "quantifier": "every connection, division into pieces, sequence of packets and buffer", "why_tests_cant": "the division of the stream is up to the network", "anchors": ["examples/echo/echo-server/echo-common.c:601-688"]}
{"id": "C83", "title": "The echo server echoes and the client prints what was typed", "statement": "After a handshake which has left both sides with the same two keys and counters: whatever complete lines are typed into the echo client, with padding or without, and however the network divides the bytes in both directions, the client prints exactly these lines in order and both programs end with success; with padding all packets have the same length. Whatever arrives at the server, it stays inside its buffer, and it sends nothing but packets with plaintexts that it has accepted, in order; a packet that is not accepted, or a connection that fails, ends the program with a failure, and the client prints nothing for it.", "quantifier": "every lawful cipher, list of lines, division into pieces, random data, and for the server every connection", "why_tests_cant": "the division of the stream, the contents of hostile packets and the random padding are unbounded", "anchors": ["examples/echo/echo-server/echo-server.c:378-413", "examples/echo/echo-client/echo-client.c:395-464"]}
{"id": "C84", "title": "The echo programs work from the first handshake message to the exit", "statement": "Two echo programs whose handshake objects are set up consistently for the same protocol and have started, with Curve25519: there are two streams of bytes such that, however the network divides and delays them, the server that receives the one sends the other and the client that receives the other sends the one; both exit with 0 and the client prints exactly the lines that are typed. Whatever arrives and whatever is typed, both programs run without undefined behaviour; they exit with 0, and the client prints an answer, only if the handshake was completed. A handshake message that is rejected or cannot be sent, a connection that ends during the handshake, or a handshake that was not started ends both programs with 1.", "quantifier": "every pattern without fallback, reference cipher and hash, key, random data, list of lines and division into pieces; for the safety of the programs every connection, input and reachable handshake object", "why_tests_cant": "the streams, their division and the random data are unbounded, and a hostile peer can send anything", "anchors": ["examples/echo/echo-server/echo-server.c:320-413", "examples/echo/echo-client/echo-client.c:324-464"]}
{"id": "C85", "title": "A failed creation of a handshake object can leave the caller with a freed pointer", "statement": "When noise_handshakestate_new_by_name returns, *state points to an object exactly if the result is success. It is null when the name is not accepted or there is no memory, but when the object was allocated and the creation fails afterwards, *state keeps a pointer to freed memory. This happens with names of known algorithms (a hybrid algorithm with a pattern that has none), and a client of the echo server reaches it with the five bytes that it sends first, whenever they are accepted and ask for a hybrid algorithm with a pattern that has none or the other way round: the server then frees the object a second time.", "quantifier": "all names, roles, algorithms and outcomes of the allocation; an explicit name and an explicit echo identifier for the failure", "why_tests_cant": "A test that only looks at the return code does not see the pointer, and the second free often goes unnoticed without a memory checker.", "anchors": ["src/protocol/handshakestate.c:102-231", "src/protocol/handshakestate.c:256-278", "src/protocol/handshakestate.c:302-324", "src/protocol/handshakestate.c:336-366", "examples/echo/echo-server/echo-server.c:287-302", "examples/echo/echo-server/echo-server.c:373-375"]}
