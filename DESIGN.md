# Formal model of noise-c in Lean 4: design

Source under study: `/repo` (rweather/noise-c at the pinned commit). The model is
in `lean/Verif/`. Nothing in `/repo` is executed; the C text is translated by hand,
function by function, and every definition cites the file and lines it models.

## Conventions

* Bytes are `UInt8`, byte strings `List UInt8`, 32/64-bit words `UInt32`/`UInt64`
  (wrap-around arithmetic is that of C unsigned types). `size_t` is modelled by `Nat`;
  where a subtraction or a cast could wrap in C, the model makes the wrap explicit
  or the comment says why it cannot happen.
* C `int` return codes are the inductive type `Err` with `Err.code` giving the
  numeric value of the header.
* Undefined behaviour (NULL dereference, out-of-bounds access) is a distinct outcome
  `Out.ub`; theorems show it is unreachable, or exhibit a reachable case.
* Argument NULL checks at the top of API functions return `INVALID_PARAM` before
  anything is touched; unless said otherwise the model starts after these checks,
  with non-NULL arguments.  NULL *fields* (absent key objects, a cipher that is gone
  after split) are modelled with `Option`.
* Primitive algorithms appear at the protocol layers as a *backend* structure
  (function pointers in C) with laws stated as a `Lawful...` structure; separate
  modules model the reference backends and prove that they satisfy the laws.

## Plan per property

| id | modelled | how proved |
|----|----------|-----------|
| C01-C07 | `cipherstate.c` entirely, as a transition system over calls with a log of backend invocations | invariants by induction over histories; round trip |
| C08-C10 | `symmetricstate.c` | refinement to a separate transcription of the Noise spec's SymmetricState; terminality by cases, histories by induction |
| C11, C15, C16, C18, C20-C23 | `handshakestate.c` with UB outcome, all API calls | invariants over call histories; pattern-table facts by evaluation of the complete finite table lifted through the invariant |
| C12, C13, C19 | two handshake states and the Noise spec's message processing | simulation relation preserved token by token (induction over token lists) |
| C14 | transcript of hash inputs | backwards induction on the chain of hashes, producing an explicit collision otherwise |
| C17 | `patterns.c` tables | whole-table evaluation against an independent validity checker, plus lemma that the checker implies the rule |
| C24-C26 | `dhstate.c`, `signstate.c`, reference DH back ends | invariants over call histories |
| C27-C30 | `names.c` | round trips over all ids / all strings; parser inversion |
| C31 | `hashstate.c` | refinement to RFC definitions |
| C32 | `sha256.c`, `sha512.c`, `blake2s.c`, `blake2b.c` and the backends | buffer invariant under arbitrary chunking, refinement to padding + fold of the compression function |
| C33-C36 | `cipher-chachapoly.c`, `chacha.c`, `poly1305-donna-64.h`, `cipher-aesgcm.c`, `ghash.c` | refinement to RFC/NIST definitions, limb arithmetic with bounds |
| C37, C38 | `util.c` | direct |
| C39, C40 | `randstate.c` | invariants over call histories |
| C41-C49 | `protobufs.c` | round trips, invariants, refinement to a wire-format spec; negations with witnesses where the code is wrong |
| C50 | `certificate.c` | round trip by structural induction on the object tree |
| C58, C59 | `certificate.c` with an allocation oracle | measure on input and failed allocations; divergence and loss by witnesses |
| C51, C52, C56 | `loader.c` | round trip; divergence theorem for oversized keys |
| C53 | `errors.c` | direct |
| C60 | `curve25519-donna-c64.c` | limb bounds; refinement to RFC 7748, section 5, over ZMod (2^255-19) |
| C61 | as C60 | differential addition on the Montgomery curve inside Mathlib's Weierstrass group; curve and twist in a quadratic extension; primality of 2^255-19 and of the group order by Pratt certificates |
| C62 | `curve448.c`, `p448` for 64-bit machines | limb bounds; refinement to RFC 7748, section 5, over ZMod (2^448-2^224-1) |
| C63 | as C62 | as C61 with the ladder stated for any Montgomery curve (`LadderGroup`); the null key by evaluation in the kernel |
| C64-C68 | `crypto/ed25519` for 64-bit machines | limb bounds; points as elements of Mathlib's Weierstrass group through the birational map (complete addition law); Barrett reduction modulo L; refinement to RFC 8032, section 5.1 |
| C69 | `crypto/newhope` | word arithmetic over ZMod 12289; the levels of the transform as sums over one more index bit, hence evaluation at the roots of X^1024 + 1; multiplication modulo X^1024 + 1; distance argument for the reconciliation |
| C70 | `fips202.c` | bit-level state array of FIPS 202 against the unrolled rounds, lane by lane; sponge by induction over blocks |
| C71 | `batcher.c`, `poly_uniform` | comparisons as maps of bit vectors; each merge of the network checked for all numbers of ones in its two sorted blocks |
| C72 | `crypto_stream_chacha20.c`, `poly_getnoise` | refinement to RFC 7539; bitwise counting |
| C73, C74 | `dhstate.c`, `dh-curve*.c`, `dh-newhope.c` | unfolding of the calls under the object invariants; counterexamples for New Hope |
| C75 | `protobufs.c` readers | from the decoding lemma of C45 ff., both for fields and for anything else |
| C76-C78 | `symmetricstate.c`, `handshakestate.c` | corollaries of C06 and C19; counterexamples by short runs |
| C79 | `poly1305-donna-32.h` | as C34, with five limbs of 26 bits |
| C80-C82 | `echo-common.c` | tables by evaluation; induction over the file and over the results of `recv` and `send` |
| C83 | data loops of `echo-server.c` and `echo-client.c` | induction over the lines, with C39 and C82 |
| C84 | handshake loops of `echo-server.c` and `echo-client.c` | induction over the messages with C13, then C83; the safety of the library calls for any connection |
| C85 | creation of a HandshakeState and its use in `echo-server.c` | cases; evaluation of the witnesses |
| C57 | `handshakestate.c` | from the invariant established by creation and the pattern table |

Properties found false of the code are recorded in the section "Defects" below
with a theorem exhibiting the counterexample and a `_partial` theorem for what holds.

## Trusted base

Lean's kernel; the axioms `propext`, `Classical.choice`, `Quot.sound` (checked with
`#print axioms`); the hand translation from C to Lean.  No axioms are added.

### Modelled files

Each row is a hand translation; the definitions cite the lines.

| file | module | remarks |
|------|--------|---------|
| `protocol/cipherstate.c` | Cipher | all calls |
| `protocol/hashstate.c` | Hash | reset/update/finalize, one-shot, HKDF, PBKDF2 |
| `protocol/symmetricstate.c` | Symmetric | all calls |
| `protocol/handshakestate.c` | Handshake, HandshakeFallback | all calls |
| `protocol/patterns.c` | Patterns | all tables |
| `protocol/names.c` | Names | all calls |
| `protocol/dhstate.c` | DH | all calls |
| `protocol/signstate.c` | Sign | all calls |
| `protocol/randstate.c` | Rand | all calls; the entropy source is a parameter |
| `protocol/errors.c`, `protocol/util.c` | Util | all calls |
| `protobufs/protobufs.c` | Protobuf | readers, writers, measuring, arrays |
| `keys/certificate.c` | Cert | read and write of every object; allocation outcomes are a parameter |
| `keys/loader.c` | Loader, LoaderFile | files are byte strings with a seek flag |
| `backend/ref/*` | with the primitives below | all |
| `crypto/sha2`, `crypto/blake2` | Sha256, Sha512, Blake2s, Blake2b | complete; BLAKE2 in both byte orders |
| `crypto/chacha/chacha.c`, `crypto/donna/poly1305-donna.c` with `-64.h` | ChaCha, Poly1305 | 64-bit multiplication variant |
| `crypto/donna/poly1305-donna.c` with `-32.h` | Poly1305W | `unsigned long` of 32 bits; not connected to `cipher-chachapoly.c` |
| `crypto/aes/rijndael-alg-fst.c`, `crypto/ghash/ghash.c` | Aes, AesTables, Ghash | encryption direction (the only one used); all four GHASH builds |
| `crypto/donna/curve25519-donna-c64.c` | Curve25519 | complete |
| `crypto/curve448/curve448.c`, `crypto/goldilocks/src/p448/arch_{ref64,x86_64}` | Curve448 | complete as far as `curve448_eval` uses it; inline assembly is written as the 128-bit operations it computes |
| `crypto/ed25519/*` | Ed25519, Ed25519Tables | 64-bit portable version; table entries are given as numbers of 255 bits |
| `crypto/newhope/{newhope,poly,ntt,reduce,error_correction,precomp,crypto_stream_chacha20}.c` | NewHope, NewHopeTables | the hash and the uniform polynomial are parameters, given by the next row |
| `crypto/newhope/{fips202,batcher}.c`, `discardtopoly`, `poly_uniform` | Keccak, NewHopeUniform | the loop of `poly_uniform` has a bound |
| `examples/echo/echo-server/echo-common.c` | Echo | protocol identifiers, keys, packets; not connecting, accepting and printing |
| `examples/echo/echo-server/echo-server.c`, `examples/echo/echo-client/echo-client.c` | EchoLoop, EchoHandshake | from after `noise_handshakestate_start` to the exit; HandshakeNew: the creation of the object in the server and its release when that fails; `fgets` without input errors; not the options, the choice of the protocol and the loading of keys |

### Not modelled

* `NewHopeFns`, `EdFns` and `CurveFns.eval` are parameters of the models of the callers.
  `dh-curve25519.c` derives public keys with `curved25519_scalarmult_basepoint` of
  `crypto/ed25519`; the model in DH takes the value of the Montgomery ladder at the base point 9, which
  `C64_basepoint_is_donna` proves equal.
* Of `crypto/ed25519`: the 32-bit and SSE2 versions, the inline assembly for x86-64
  (`ed25519-donna-64bit-x86.h`), batch verification and random numbers.
* The rest of `crypto/goldilocks` (`arch_32`, the ARM versions, Ed448 signatures, which noise-c does not use).
* `crypto/donna/curve25519-donna.c` (32 bits) and `poly1305-donna-{8,16}.h`.
* The libsodium and OpenSSL back ends, `rand_os.c`, `rand_sodium.c`, `internal.c` (aligned memory, `memset`).
* Programs: `tools/`, `tests/`, and `examples/` except for what C80-C83 are about.

### Simplifications that hold everywhere

* Memory is a value, not an address space: two arguments of one call never overlap unless the API says so.
* Timing, memory clearing (except where a theorem says so) and concurrency are outside the model.
* `malloc` succeeds except where an allocation oracle is modelled (C58, C59, `split`, object creation).
* The SSE2 and other compiler-specific code paths are not modelled, nor are unaligned word accesses (assumed to work).

### Validation against test vectors

The model is executable. Outside `/verif`, all 496 non-hybrid Curve25519 vectors and all 696 vectors with Curve448
and all 200 with New Hope (hybrid ones included) of `/repo/tests/vector` were run through it
(created by name, keys set through the interface, messages and transport messages compared byte for byte). One of them is
repeated in the kernel in `HandshakeVector.lean`. This is evidence for the translation, not part of any proof.

## Defects

"Proved" names the theorem that exhibits the behaviour in the model; the others were found by
reading and are not (yet) backed by a theorem.

1. `noise_protobuf_peek_varint` re-reads the first byte of multi-byte varints. Proved: `C46_fails`.
2. `noise_protobuf_is_utf8` rejects valid strings where a 3/4-byte character is not last. Proved: `C45_fails`.
3. `noise_protobuf_read_tag`: negative tags succeed (inverted test). Proved: `C49_fails`.
4. `noise_protobuf_read_varint` silently drops high bits of an over-long tenth byte. Proved: `C75_value` (numbers are
   reduced modulo 2^64; 2^64 itself is read as 0).
5. `noise_handshakestate_start` does not refuse XXfallback+hfs. A directly created
   XXfallback+hfs initiator then computes `ee` with an unset remote ephemeral (all zero) and
   sends its static key under a key that any observer can compute. Proved: `C20_fails_for_hfs`.
6. Handshake messages are not limited to 65535 bytes in total. Proved: `C21_fails`.
7. `noise_save_private_key_to_buffer` never returns for a private key of 65520 bytes or more. Proved: `C52_fails`, `C52_fails_file`.
8. `noise_randstate_generate` may exceed the documented reseed limit by a block. Proved: `C40_fails`.
9. `noise_handshake_mix_dh` mixes uninitialised memory when the calculation fails early. Proved: `C23_block_is_mixed`.
10. `BLAKE2b` big-endian load path advances by 4 instead of 8 bytes. Proved: `C54_fails`.
11. `noise_symmetricstate_decrypt_and_hash` hashes `buffer->size` bytes before it is checked
    that `size <= max_size`. Proved: `C76_fails`.
12. NewHope: `calculate` as responder overwrites the public key of the (const) private object;
    `set_role` on an object that has a key keeps the key type, so that `calculate` then returns part of the
    secret polynomial as the shared key; a responder that has generated ignores the public key passed;
    `clear_key` leaves the secret polynomial. Proved: `C73_fails_object_changed`, `C73_fails_role`,
    `C73_fails_peer_ignored`, `C74_fails`, `C74_fails_seed`.
13. Patterns NKhfs, XKhfs, KKhfs, IKhfs and IKnoidh+hfs break the Noise rule that a sender must
    mix in a DH with its own fresh ephemeral before encrypting under a key that depends on its
    static key: the responder encrypts `f` first. Replaying the first message makes the responder
    reuse a (key, nonce) pair. Proved: `C17_encrypt_rule_fails`.
14. `noise_handshakestate_new` leaves `*state` dangling when a DH object cannot be created or the hybrid
    algorithm does not fit the pattern. Proved: `C85_fails_dangling`.
15. NewHope sets `nulls_allowed = 0` and its `validate_public_key` accepts everything, so an
    all-zero NewHope public key (`f`, or `e` when NewHope is the main DH) is not rejected. Proved:
    `C18_fails_for_newhope`.
16. A null ephemeral key is refused but stays in the handshake object; `noise_handshakestate_fallback`
    is then allowed and the XXfallback handshake goes on with the null key. Proved:
    `C18_fallback_keeps_null_key`.
17. An empty certificate chain is saved as an empty file, which the loader refuses. Proved: `C56_fails`.
18. A file in which one cannot seek is cut after 65535 bytes without an error. Proved: `C56_truncated`.
19. In a HandshakeState created directly for a fallback pattern both parties give their own DH
    objects the role of the responder, as the pattern flags are mirrored for the responder before
    the flag is tested. Proved: `C57_fails`.
20. A party using the hybrid extension that falls back to plain XXfallback also mixes the
    initiator's `f` key into the pre-messages, which the Noise specification of XXfallback does not
    have. Both parties do the same, so the handshake completes (`C19_fallback_agreement`, where the
    pattern is `fbPattern`). Proved: `C78_fails`.
21. X_noidh (0x5020) is numbered among the interactive patterns, so its responder may fall back
    although no answer can be sent to a one-way initiator, whose own fallback is refused. Proved: `C77_fails`.
22. The failure to allocate a nested object is not recorded in the protobuf, so the reading loop of
    the enclosing object tries again without consuming input; if memory stays exhausted it never
    ends. Proved: `C58_fails`.
23. `if (err != NOISE_ERROR_NONE && pbuf->error != NOISE_ERROR_NONE) pbuf->error = err` after `noise_protobuf_add_to_array` has
    the test the wrong way round: an item that cannot be added is lost and success is reported; an
    item that cannot be allocated becomes a NULL item. Proved: `C59_fails`.
24. (Observation.) One clamped Curve448 private key, four times the order of the base point, has the all-zero public key. It is
    generated and set without an error; a peer then refuses the ephemeral key. The chance is about 2^-445. Proved:
    `C63_null_public_key`.
25. `ed25519_sign_open` accepts values of S from the group order up to 2^253, so that anyone can make a second signature from
    a first. RFC 8032, section 5.1.7, requires S below the order. Proved: `C68_fails_malleable`.
26. `ge25519_unpack_negative_vartime` does not reduce or refuse a y-coordinate of 2^255-19 or more, nor the sign bit 1 with
    x = 0. Proved: `C68_fails_noncanonical`.
27. `echo_load_public_key` does not skip the white space it lets pass: the previous digit is counted again. Proved:
    `C81_fails_space`.
28. `echo_recv` reports a packet without contents like a lost connection. Proved: `C82_fails_empty`.
29. With padding, the echo client prints a line without line feed together with random padding. Proved: `C83_fails_unterminated`.
30. Because of 14, a client can make the echo server free its handshake object twice, with an identifier that
    has a hybrid algorithm and a pattern without one, or the other way round. Proved: `C85_server_mixed`. C84 begins after this point.
