# Formal model of uoscore-uedhoc in Lean 4

The code in `/repo` is read as text and modelled function by function in Lean 4
(core Lean; Mathlib modules are imported by the P-256 files only).  Nothing here runs the C code; the tie between
model and code is the `file:lines` citation carried by every definition.

## Layout

* `lean/Verif/Model/*`  – the model (computable, total, structural recursion only)
* `lean/Verif/Spec/*`   – small independent specifications (RFC-style definitions)
* `lean/Verif/Lemmas/*` – helper lemmas
* `lean/Verif/Props/*`  – the property theorems (one file per group), with
  non-vacuity `example`s and counterexample witnesses beside them
* `properties.jsonl`, `MANIFEST.json`, `seeded/LOG.jsonl`

## Modelling conventions

* A C function returning `enum err` becomes a function into `R α`:
  `ok a | err e | ub`.  `ub` is a *distinct* outcome that stands for undefined behaviour or
  an access outside the object (out-of-bounds read/write, NULL dereference, use of
  indeterminate bytes).  A theorem never gets `ok` out of `ub`.
* Functions that mutate the security context are `World → R α × World`: the state is
  returned on the error paths too, because the C code does not roll back.
* `byte_array` = `List UInt8`; a buffer with a capacity is a capacity number next to the
  bytes written.  NULL and "length 0" are identified (the C code does the same via
  `_memcpy_s`/`BYTE_ARRAY_NEW`), except where a NULL dereference can happen (modelled as `ub`).
* Fixed-width arithmetic is modelled with explicit `% 256`, `% 65536`, `% 2^32`, `% 2^64`
  wherever the C code can wrap (option deltas, lengths, `dest_size`, PIV length, ...).
* Build-time macros are fields of a `Cfg` structure; theorems quantify over it.
* Crypto primitives (AEAD, HMAC/HKDF-extract, hash, ECDH, signatures) are parameters
  (structure fields) with explicitly stated laws; zcbor is modelled as the canonical
  (definite-length, shortest form) encoder because every build file in the repo that
  compiles zcbor sets `-DZCBOR_CANONICAL` (test/CMakeLists.txt:42, samples/*).

## What is modelled, module by module

| model file | C source | remarks |
|---|---|---|
| `Model/Base` | `memcpy_s.c`, `byte_array.c`, error codes, `TRY` | `R`, checked copies |
| `Model/Coap`, `Model/Option` | `oscore_coap.c`, `option.c` | parser, serialiser, reorder, option classes, Uri-Path, Echo cache |
| `Model/Replay` | `replay_protection.c` | any window size ≥ 1 (the build uses 32; the C loop counters are `uint8_t`, so the model speaks for the code up to 255 entries) |
| `Model/PivThreads` | `oscore_cose.c`/`security_context.c` `ssn2piv` with its static array, as byte-level steps of several threads | sequentially consistent interleavings of byte accesses |
| `Model/PivNonce`, `Model/Cbor` | `oscore_cose.c`, `nonce.c`, `aad.c`, `oscore_hkdf_info.c`, `src/cbor/oscore_*` | |
| `Model/Crypto` | the wrapper API of `crypto_wrapper.c`; HKDF loops of both builds | AEAD/HMAC are parameters |
| `Model/Context` | `security_context.c` | `oscore_context_init`, key derivation |
| `Model/KeyUpdate` | `prk_out_update` and `hkdf_expand` of both builds on spans of the caller's memory | overlapping arguments (C94) |
| `Model/InPlace` | `coap2oscore`, `oscore2coap`, `coap_serialize` on the caller's memory, with pointers for token and options | input and output buffer may overlap (C95); `memcpy` with equal source and destination leaves the bytes |
| `Model/TinyWrap` | the TINYCRYPT branches of `aead`, `sign`, `verify`, `hkdf_extract`, `hkdf_expand`, `hash` | the argument checks TinyCrypt documents and the bytes it reads; its bodies are functions (C96) |
| `Model/CtxMem` | `struct context` and `oscore_context_init` with their pointers; programs with several contexts | memory objects and references; justifies the by-value model of a context (C78, C79) |
| `Model/Interactions` | `oscore_interactions.c` | 3-entry table (size a parameter) |
| `Model/Protect`, `Model/Unprotect` | `coap2oscore.c`, `oscore2coap.c`, `nvm.c` | with `World` = context, NVM, log of AEAD calls |
| `Model/Device` | reboots, crash points, failing NVM writes around the API | ghost counters only for statements |
| `Model/EdhocBase`, `EdhocCbor` | `suites.c`, `edhoc_method_type.c`, `bstr_/int_encode_decode.c`, `hkdf_info.c`, `th.c`, `src/cbor/edhoc_*` | |
| `Model/EdhocAuth` | `signature_or_mac_msg.c`, `retrieve_cred.c`, `prk.c`, `edhoc_cose.c`, C509 part of `cert.c` | |
| `Model/EdhocMsg`, `EdhocRun`, `EdhocOut` | `initiator.c`, `responder.c`, `ciphertext.c`, `plaintext_*.c`, `edhoc_exporter.c` | whole runs over a network and EAD callback given as queues; `EdhocOut`: the same runs with the caller's output arrays |
| `Model/P256` | `crypto_p256.c` (32-bit limb arithmetic) | every intermediate word with its width |
| `Model/PsaP256`, `TinyP256`, `KeyGen` | P-256/X25519 parts of `crypto_wrapper.c` for both builds | PSA / uECC / compact25519 library calls are parameters |
| `Model/PsaStore` | all of `crypto_wrapper.c` in the MBEDTLS build as sequences of PSA calls (error macros, `goto cleanup`, key store) | the PSA library is a set of functions plus an adversary deciding which calls fail; the mock code is not modelled |
| `Model/PsaThreads` | the same functions interrupted after every PSA call, and interleavings of any number of them with each other and with PSA calls of the application | a PSA call is atomic (MBEDTLS_THREADING_C); between two calls a function touches only its own stack and the caller's buffers |
| `Model/Faults` | histories of coap2oscore and oscore2coap with a crypto library of its own at every call; the AEAD of the wrapper as such a library, from any state of the PSA store | a call makes at most one AEAD call; HMAC and hash, used only by `oscore_context_init`, do not fail here (their failures: C65) |
| `Model/EdhocFaults` | a crypto library for EDHOC that may fail at any arguments | no failures of HKDF and hash (per function: C65) |
| `Model/Asn1` | `cert.c` built without MBEDTLS | byte-level parser, over-reads are `ub` |
| `Model/MbedX509` | `cert.c` built with MBEDTLS | on top of the fields the mbedTLS parser stores; `traverse_sequence_of` at byte level |
| `Model/Zcbor`, `ZcborGen` | all of `src/cbor/*.c`, call by call, over a state machine of zcbor (cursor, element counter, backup stack) | zcbor's sources are not in the repository: the state machine is its documented behaviour, version differences are parameters; C70 shows that `Model/EdhocCbor` and the CBOR parts of the other models agree with it |
| `Model/Vla`, `Model/EdhocVla` | the OSCORE and the EDHOC functions that differ in the VLA build (`byte_array.h:93-105`) | arrays of zero elements are taken as GCC and Clang define them |
| `Model/Loops` | the loops bounded by configuration values or the caller's lists, with their fixed-width counters | one function at a time; the other models use list recursion, C83 connects the two |
| `Model/Sample` | `samples/linux_edhoc_oscore` (how keys and IDs go from EDHOC to OSCORE) | |

Not modelled: `print_util.c`; the bodies of mbedTLS, tinycrypt, compact25519, PSA and zcbor;
the body of `mbedtls_x509_crt_parse_der` (its result - "parse succeeded with these fields" - is a parameter); the socket code of the samples; C stack depth; timing.

Assumptions about external code, each an explicit parameter or hypothesis in the theorem that uses it:
AEAD decrypts what it encrypts (and ciphertext = plaintext length + tag); sign/verify agree; DH commutes
(these two are proved of the standards' own algorithms in C73);
zcbor encodes canonically and decodes what the CDDL admits (`Model/EdhocCbor`; that the generated code does so is
C70, given the library's calls as modelled in `Model/Zcbor`); zcbor buffers are checked; application callbacks (`tx`, `rx`, `ead_process`,
`nvm_*`) return an error or write within the capacity they get.  Uninitialised memory is a universally
quantified byte string.  The security context keeps pointers into the caller's `oscore_init_params` buffers
(master secret, salt, ID context, sender ID); the model outside `Model/CtxMem` copies them. C78/C79 show when this
is right: the sender ID and ID Context buffers are left unchanged while the context lives, and no `struct context` is copied.  `NULL_ARRAY`/`EMPTY_ARRAY` are globals nobody writes.

No theorem assumes that the AEAD rejects a packet under every nonce and associated data (with 8-byte tags some combination always passes). Assumptions about forgeries concern only the values a receiver in the given state checks the packet with: `Spec/Checked.lean` derives them from RFC 8613 (nonce from kid and Partial IV, or the cached one; AAD of the request), and `Lemmas/CheckedLemmas.lean` proves that `oscore2coap` uses exactly these. `Rejected C c inp` is the failure of that one check, `Authentic C c inp pt` its success. Likewise for EDHOC: collisions, forged signatures and AEAD forgeries are pinned to the strings of the runs in question.

## Properties: what is modelled and how it is proved

A property that is *false of the code* is stated, refuted by a `_false…` theorem about the model (a concrete
run, or a general class of inputs), and proved in the largest part found to hold (`_partial`).

| id | model | proof | outcome |
|----|-------|-------|---|
| C01–C03 | replay window: W sorted numbers + zero flag | refinement to the set of accepted numbers, induction over histories | proved |
| C04 | `oscore2coap` on full `World` | `_partial` over all later histories | false for PIV ≥ 2 bytes (only the first byte is recorded; `C04_false_general` for every context and history); false for unanswered requests replayed with the outer code of a response |
| C05 | notification number | induction over histories | false if the outer Observe is stripped |
| C06 | Echo state machine | invariant over histories | false: Echo buffer matches before any challenge was sent; a request relabelled as a response is delivered without Echo |
| C07, C08, C13, C24 | `oscore2coap`/`coap2oscore` | decision logic by case analysis | proved |
| C09 | SSN | induction over histories | proved |
| C10 | `create_nonce` | injectivity | proved; IDs > 7 bytes are `ub` |
| C11 | log of AEAD calls | `_partial`: messages with own PIV, lock-step histories | false (one request nonce per context; `C11_false_general` for every context) |
| C12 | NVM + reboot histories with crash points and failing writes | invariant of device lives | false after two failed writes / early SYNC |
| C14 | `ssn2piv`, `piv2ssn` | arithmetic | proved |
| C15, C16, C32 | CoAP codec with buffers | round trip by induction | wrap-around and out-of-bounds witnesses |
| C17, C18, C20, C21 | option split, packet generation, reorder | induction over option lists; exchange sort analysed exactly | C18 false for duplicate outer options |
| C19 | OSCORE option codec | case analysis | proved |
| C22, C23 | client and server worlds composed, AEAD with correctness law | composition of the codec lemmas | false: > 10 inner options, dropped payload, interleaving |
| C25, C28, C38, C46, C47 | CBOR encoders | injectivity via prefix-free heads | proved (C47 up to an explicit collision) |
| C26 | AAD buffer of 30 bytes | exact characterisation | false: Sender ID + PIV ≤ 7 bytes |
| C27 | `oscore_context_init` | equality of derived keys | proved |
| C29, C30 | interaction table | invariant by induction over operations | proved |
| C31 | empty ACK | exact | false for small output buffers |
| C33 | Uri-Path reassembly | list induction | NUL one past the buffer |
| C34 | NVM write policy | induction | proved |
| C35 | suite / method tables | case analysis over all values | initiator's own method unchecked |
| C36 | suite check | exact characterisation | false |
| C37 | `hkdf_expand` loops | loop invariant = RFC 5869 | both builds fail at the upper end of the length range |
| C39 | honest EDHOC run of both parties | composition of totality, codec, DH and signature laws | false with EAD_2/3, and when message_3 is longer than message_2 |
| C40 | EDHOC message codecs | prefix-free decoding | false for raw EAD |
| C41 | MAC comparison | exact acceptance condition | false: compared over the received length |
| C42, C43, C50 | EDHOC authentication logic | case analysis | proved |
| C44 | abort behaviour of both runs | effect analysis of the run | false: initiator ignores an error of message_3 |
| C45 | connection identifiers | codec analysis | C_I false for negative one-byte ints |
| C48 | copy primitives | arithmetic | proved |
| C49 | C509 certificate / CA lookup | case analysis | prefix match |
| C51, C52 | `crypto_p256.c` at limb level | loop invariants, refinement to `ZMod p`, Pratt certificate for p | proved |
| C53 | PSA branch of P-256 ECDH | Mathlib's elliptic curve group | uncompressed static key never works |
| C54 | X25519 key generation | dependence on the seed | MBEDTLS: uninitialised array |
| C55 | X.509 parser without MBEDTLS | byte-level model against a DER spec | over-reads and overflow before authentication |
| C56 | TINYCRYPT branch of P-256 | curve arithmetic, no 2-torsion | no curve check |
| C57 | EDHOC composed with OSCORE | composition of C39, C22, C23 | C_R = C_I not prevented |
| C58 | Echo cache | induction over histories | capacity shrinks for good |
| C59 | X.509 checks with MBEDTLS | byte-level traversal against a DER signature spec; refinement of the abstract check of C49 | short r/s misread, no-CN NULL dereference, other hashes leave junk |
| C60 | Same exported key, same session | invert both runs; KDF info, TH_4, TH_3, TH_2 are injective up to collisions between listed inputs of the two runs (initInputs, respInputs); the zcbor decoders ignore what follows an accepted item | `C60_same_key_same_transcript`, `C60_same_key_same_session`, `C60_tampering_splits_keys` |
| C61 | What oscore2coap delivers was given to the peer's coap2oscore | provenance of every AEAD call in a sender history (run_provenance), the parser applied to the plaintext, merge lemmas (order of inner options kept by the exchange sort for any outer part), AAD injectivity | partial + counterexample |
| C62 | Every successful EDHOC run computes RFC 9528's keys, MACs and ciphertexts | model: msg1Gen, msg2Process, msg3OnlyGen, msg2Gen, msg3Process, msg4Gen/Process; specification: Session in Spec/EdhocSpec.lean; by inversion of a successful run | C62_initiator_partial, C62_responder_partial, C62_false_cr (Props/EdhocSchedule.lean) |
| C63 | EDHOC accepts exactly the messages of RFC 9528's grammar | model: the zcbor decoders (Model/EdhocCbor.lean), msg1Parse, msg2Parse, plaintext2Split, plaintext3Split; specification: Spec/EdhocGrammar.lean over Spec/CborWf.lean; by inversion of each decoder | C63_message_1, C63_responder, C63_message_2, C63_plaintext_2, C63_plaintext_3, C63_plaintext_refused, C63_message_1_canonical, C63_false_* (Props/EdhocWire.lean) |
| C64 | A conversation never gets stuck while there are sequence numbers | model: Protect, Unprotect, Interactions, Context; invariant over both contexts (mirrored keys, equal tables that hold the outstanding exchanges, windows and notification numbers below the peer's sequence number, equal nonces while an exchange is open), induction over the conversation | C64_partial, C64_edhoc_partial, C64_false_lost, C64_false_port (Props/Conversation.lean) |
| C65 | The crypto wrapper fails closed and leaves no keys in the key store | model: PsaStore (PSA library as functions, key store, adversarial failures; every wrapper function as a sequence of PSA calls); bracket calculus: key on top of the store, kept by every step, destroyed on every exit; refinement of the abstract primitives | C65_fail_closed, C65_no_leak, C65_history, C65_history_leak, C65_refines, C65_keygen_fresh, C65_false_* (Props/PsaStore.lean) |
| C66 | The OSCORE calls never touch memory outside their objects | Independent notion of a complete packet (`Spec.Framed`, `Spec.OscoreFields`: RFC 7252 §3.1, RFC 8613 §6.1). `ub` is propagated through both calls; every source of `ub` is excluded by one condition, and each condition has a witness showing it is needed. Conditions only mention the call's arguments, the fixed identity of the context and the plaintext of a packet the AEAD accepts, so they extend to histories by induction. | C66_unprotect_safe_partial, C66_outsider_partial, C66_protect_safe_partial, C66_history_partial, C66_outsiders_history_partial; false in general: C66_false_response_kid, C66_false_length, C66_false_scratch, C66_false_no_piv |
| C67 | OSCORE packets are those of RFC 8613 and those of other implementations are understood | Spec/Rfc8613.lean defines RFC 8613 protection from abstract messages (option numbers and values), independent of the code. The library's packet is shown equal to it through the effect lemmas; receiving is shown by running the model on the RFC packet with a lawful AEAD. Whole exchanges compose both. | C67_request, C67_response_partial, C67_notification, C67_receive_request_partial, C67_receive_response_partial, C67_receive_notification_partial, C67_serve_partial, C67_ask_partial; false in general: C67_false_no_kid, C67_false_first_notification |
| C68 | EDHOC runs never touch memory outside their objects | The model returns the outcome ub wherever the C code would read or write outside an object or use an uninitialised value; Spec/EdhocSafeSpec.lean says which decrypted plaintexts are readable, using only the message grammar of C63 and the RFC's key schedule. No-ub is shown call by call and composed for whole runs in Props/EdhocSafe.lean. | C68_message_1, C68_responder_message_1_partial, C68_initiator_message_2_partial, C68_responder_message_3_partial, C68_initiator_message_4, C68_responder_message_4_partial, C68_exporter, C68_initiator_partial, C68_responder_partial; false in general: C68_false_short_gx, C68_false_method, C68_false_plaintext, C68_false_c509, C68_false_message_4 |
| C69 | The assumptions about the primitives hold of the standardised ones | Spec/Fips.lean defines the primitives by recursion on lists; Lemmas/FipsLemmas.lean shows lengths and that CCM's counter-mode stream and tag are inverted exactly by decryption, for any block cipher with 16-byte blocks. | C69_ccm_exact, C69_lawful, C69_total; realCrypto_aeadTotal discharges the hypothesis of C26, C64; C69_edhoc_lawful: the laws assumed of EDHOC's primitives for X25519, Ed25519, P-256 ECDH and ECDSA written out in Spec/Curves.lean |
| C70 | The generated CBOR code implements the grammar | Each primitive call is compared with a function on byte strings (succeeds with the same rest / fails and gives its backups back); the generated functions are then composed call by call, counting backups and elements (Lemmas/ZcborLemmas, ZcborMsgs, ZcborEnc). The decoders and encoders used by the EDHOC and OSCORE models are shown equal to them. | C70_decode_*, C70_encode_*, C70_model_*, C70_message_1_roundtrip; C70_false_unrestored, C70_false_leak |
| C71 | EDHOC: what a run leaves in the caller's output buffers | Model/EdhocOut.lean repeats the runs with the caller's arrays as state that survives errors; C71_refines_* show that results and callback calls are those of Model/EdhocRun, so C41, C42, C62 apply to the runs named in C71_prk_*. | C71_prk_initiator, C71_prk_responder, C71_prk_plain, C71_buffers_initiator, C71_buffers_responder_partial, C71_refines_*; C71_false_pk_before_verification, C71_false_cx_before_verification, C71_false_pk_length, C71_false_pk_static_dh |
| C72 | Calls for different security contexts do not influence each other | Model/PivThreads.lean has ssn2piv statement by statement over the static array; invariant per thread (bytes written so far / copied so far are those of its number), by induction on the schedule; rank for termination. | C72_sequential, C72_threads_partial; C72_false_piv, C72_false_nonce_reuse |
| C73 | Honest parties with standard keys always reach the same session | Spec/Curves.lean computes with natural numbers; Lemmas/P256Jac, P256Std show the Jacobian formulas compute Mathlib's group law on the P-256 curve (all exceptional cases); X25519Ladder: the Montgomery ladder is multiplication in the group of Curve25519, by the invariant that the two ladder points differ by the input point; Ed25519Group/Add/Std: the Edwards addition is complete and is carried to that group by the map of RFC 7748, encoding and decoding are inverse; orders by evaluation in the kernel and Pratt certificates. Then C39/C57/C64 are instantiated. | C73_psa, C73_p256, C73_dh, C73_sign, C73_nonce, C73_partial, C73_message_4_partial, C73_conversation_partial |
| C74 | Every response belongs to a request that is still open, and open requests stay open | Induction over the history: every record of the table stems from a call that handled its request and every call since kept it (record_open), and an unrelated call keeps it (run_keeps); with C22/C23's lemmas on both endpoints at once this gives delivery of notifications. | C74_protected_for_open, C74_delivered_for_open, C74_sent_stays_open, C74_received_stays_open, C74_replaced, C74_notification_delivered; C74_false_put_replaces_get, C74_false_directions, C74_false_small_buffer, C74_false_reordered |
| C75 | A completed EDHOC run whose peer signs has a partner | The signed string is decoded (CBOR is prefix free) to ID_CRED, TH, CRED followed by EAD and the MAC; the MAC to the key, the label (2 or 6, so the roles are separated), C_R; TH_2 and TH_3 to message_1, G_Y and the plaintext; unforgeability is the hypothesis that the string for which the received signature was verified was signed in one of the sessions, and what the sessions sign is proved complete by a congruence in the signing function. | C75_initiator, C75_responder, C75_responder_signs, C75_initiator_signs |
| C76 | Two parties with restarts over a network that loses messages and injects forgeries | The protocol is a transition system on two parties (pending exchanges, Echo phase, challenge); simulation: an invariant relates it to the two devices (tables, window and notification number below the peer's number and below what the peer's non-volatile memory guarantees after a restart), preserved by each event by the one-message theorems request_received, response_recovered, protect_succeeds_echo. | C76_partial, C76_recovery; C76_false_nonce |
| C77 | EDHOC key confirmation: a completed run with message_4 has a partner, for all methods | The AEAD's associated data binds TH_4 (TH_3), its key and IV bind PRK_4e3m (PRK_3e2m) up to a collision of the derived keys; then the transcript hashes as in C60. What sessions encrypt is proved complete by a congruence in the AEAD (C77_*_encrypts). | C77_initiator, C77_initiator_session, C77_responder; C77_responder_encrypts, C77_initiator_encrypts |
| C78 | A context does not depend on the memory its parameters were passed in | Model/CtxMem.lean: memory objects, references (struct byte_array), the struct with its pointers, initialisation statement by statement, programs with several contexts. Ownership invariant; the view of an owned object depends only on its own buffers and two caller objects. | C78_init, C78_partial; C78_false_sender_id, C78_false_id_context, C78_false_copy |
| C79 | Contexts do not disturb each other | Ownership invariant over all programs; a step of another context leaves the world of k unchanged, a step of k is the step of the single-context model; induction over the history. | C79_contexts, C79_nonces, C79_fresh; C79_false_nvm |
| C80 | Nothing unauthenticated reaches the callbacks | Case analysis of the runs over every outcome of every step (init_trace, resp_trace); what an accepted message proves (authentic2/3/4); the core of C75 for runs that fail later (init_partner, resp_partner). | C80_initiator, C80_responder, C80_initiator_partner, C80_responder_partner |
| C81 | A call whose output did not fit can be repeated | M.bind_state (serialisation is the last step and touches no state); effects of a failing call + Tracks of the conversation invariant; C04 and C05 for the lost messages. | C81_state_protect, C81_state_unprotect, C81_send_partial, C81_false_response, C81_false_request, C81_false_notification, C81_false_received |
| C82 | The build with variable length arrays behaves as the default build | A copy of the functions that use BYTE_ARRAY_NEW with a message-dependent size; a simulation relation (same state, same result up to the one error code) preserved by every bind. | C82_unprotect, C82_protect_partial, C82_history_partial, C82_carriable_partial, C82_edhoc_initiator, C82_edhoc_responder, C82_edhoc_exporter, C82_false_general, C82_false |
| C83 | Every loop ends | A for loop with a counter modulo 2^W and fuel; one lemma for ends (an invariant P that every iteration preserves) and one for never ends. | C83_window_partial, C83_interactions, C83_bytes, C83_credentials_partial, C83_false_reinit, C83_false_valid, C83_false_ca |
| C84 | EDHOC error messages end the session and are reported on both sides | Prefix-freeness of the CBOR items at the beginning of an error message against those of the expected message; the run by the step lemmas of C44 and C80. | C84_message_1, C84_message_2, C84_message_3, C84_message_4, C84_false_responder, C84_false_initiator, C84_false_sent, C84_false_received |
| C85 | Output buffers of a known size always suffice | Byte counts of option lists as sums over numbers; leaving options out and inserting numbers in order never costs more (induction), so the merged list takes at most the sum; then the calls are split into a part that does not see the buffer and coap_serialize. | C85_receive, C85_send, C85_send_64, C85_exact_send, C85_exact_receive, ex_C85_tight |
| C86 | Proxies do not disturb protected exchanges | A sorted option list is determined by its proxy options and the rest; so the packet that arrives is the RFC 8613 packet for the same message in the new wrapping, with the same plaintext; then C67. | C86_end_to_end, C86_no_proxy, C86_request_partial, C86_response_partial, C86_notification_partial, C86_exchange_partial |
| C87 | EDHOC: identities travel only encrypted | The values message_3 and message_2 are encrypted with are functions of the part the parties share (equality of two computations); traces of the runs from C80. | C87_initiator, C87_responder |
| C88 | A device with several contexts: the right one takes the packet, the others stay as they are | RFC 8613 specification of the messages (C67), a packet that is not authentic changes nothing (C08) and leads to an error (C66); induction over the list. | C88_request, C88_response, C88_notification, C88_unknown, C88_others_unchanged, C88_error_code |
| C89 | EDHOC: a run makes a bounded number of calls with bounded messages | Composition of bounds over the monadic steps; sizes from the encoders' capacity checks. | C89_initiator, C89_responder, C89_answers |
| C90 | Injective agreement: every request executed was asked for, and no request is executed twice | C61 gives a call for every delivery, with the sequence number the client had; C04 gives that two deliveries have different numbers; hence the calls differ. | C90_partial, C90_false, C90_example |
| C91 | EDHOC: every completed session has a partner session of its own | C75 and C77 give a partner for each run; the partner's received message fixes the ephemeral key (message_2) or message_1 (injectivity of its encoding), so two runs with different keys have different partners. | C91_responder, C91_initiator, C91_responder_partner, C91_initiator_partner, C91_responder_count, C91_responder_all_methods, C91_initiator_all_methods, C91_reuse_needed |
| C92 | What an observer of the network can tell from a whole history of calls | A call changes the part of the context without request table and Echo cache as a function of open data and of how the call ends; induction over the two histories. | C92_partial, C92_ideal_partial, C92_false_outcome |
| C93 | Differently configured builds understand each other | The end-to-end lemmas of C22 and C23 with separate configurations for sender and receiver; the invariant of C64 with two tables that agree on the outstanding requests instead of equal ones. | C93_conversation_partial, C93_edhoc_partial, C93_request_partial, C93_response_partial, C93_mirrored, C93_same_packet, C93_same_build, C93_false_large |
| C94 | Key updates give fresh keys and keep the parties together | A model of hkdf_expand on spans of one memory, for both crypto libraries, shown equal to the value-level HKDF; histories of updates as folds; distinctness by induction from the last update, each step by the injectivity of the CBOR info structure. | C94_in_place, C94_in_place_tinycrypt_partial, C94_false_in_place, C94_false_in_place_builds, C94_chain_rfc, C94_chain_ok, C94_agree, C94_epochs, C94_runs, C94_conversation_partial |
| C95 | The caller's buffers | A second model of the two calls on one memory, with pointers for the token and the option values, where coap_serialize reads and writes in the order of the code; proved equal to the value-level calls. The key steps: a parsed value lies behind header and token in the input buffer, and the options are read into a local buffer before anything is written behind the token. | C95_protect, C95_unprotect, C95_protect_writes, C95_unprotect_writes, C95_history, C95_history_results, C95_false_shifted, C95_false_retry_in_place |
| C96 | The crypto library does not matter | A model of the TINYCRYPT branches with the argument checks and reads of TinyCrypt. OSCORE for two libraries step by step (relational combinators on the state monad), with the invariant that keys are 16 and the nonce 13 bytes; the limit on the plaintext comes from the buffer checks of the code. EDHOC for two libraries: functions without AEAD and `verify` are equal, the others related up to the code of a refused signature; keys of 16 and nonces of 13 bytes from HKDF, lengths from the buffer checks. | C96_aead_encrypt, C96_aead_decrypt, C96_short_ciphertext, C96_sign_verify, C96_hkdf, C96_keys, C96_init_sizes, C96_oscore_history, C96_tinycrypt_is_aes_ccm, C96_tinycrypt_and_mbedtls, C96_edhoc_initiator, C96_edhoc_responder, C96_edhoc_tinycrypt, C96_edhoc_tinycrypt_sign_verify, C96_false_verify_error, C96_false_short_key, C96_false_large_message |
| C97 | Only the peer authenticated by EDHOC is heard | Endpoints are EDHOC runs (either role, any network) followed by contextInit on oscoreParams and any history. Log entries of an endpoint carry its sender key; equal keys mean equal PRK_out, ID context and ID, or a collision; equal PRK_out means equal message_1 and G_Y for all four combinations of roles (the chain of transcript hashes); equal message_1 means equal G_X. So the encrypting endpoint is unique, and C90 and C61 apply to its log. | C97_one_other_end, C97_requests_partial, C97_messages_partial, C97_identity, C97_example, C97_false_reflection |
| C98 | The crypto functions can be used by several threads at once | The functions as resumptions (next PSA call and continuation); uninterrupted they are the functions of C65 (C98_alone). A rely-guarantee predicate by recursion on the program: it owns at most one key, changes the store only by adding, using or destroying that key. World invariant: the store is a permutation of the application's keys and the keys owned by the calls. | C98_results, C98_no_interference, C98_keys, C98_no_leak, C98_finishes, C98_calls, C98_alone |
| C99 | OSCORE survives a crypto library that fails now and then | Every call of a history comes with its own crypto library. A relation 'does the same or returns the library error in a state with B', closed under bind, lifted through oscore2coap and coap2oscore; the invariants of C04, C09 and C11 hold for every step under any library. The wrapper: the clean-up lemmas of C65. | C99_receive, C99_receive_again, C99_receive_history, C99_send, C99_send_again, C99_ssn_increasing, C99_nonce, C99_no_replay_partial, C99_library, C99_library_safe |
| C100 | EDHOC over a crypto library that fails now and then | A relation 'the same or the library error' on results, closed under bind, proved function by function from the primitives up to msg2_gen, msg2_process, msg3_process and message 4, then for the two run functions. | C100_responder, C100_responder_ok, C100_initiator_partial, C100_initiator_ok, C100_false_initiator |

Nothing on the list is inexpressible; timing side channels, concurrency between threads that
share one context, and the real cryptographic strength of the primitives are outside the model.

## Trusted base

* Lean 4.33.0 kernel; the only axioms any theorem depends on are `propext`, `Classical.choice` and
  `Quot.sound` (`AXIOMS.md` lists them per theorem, produced with `#print axioms`).  No axioms added, no
  compiled evaluation: concrete witnesses use `decide +kernel`, i.e. kernel reduction.
* Fidelity of the reading of the C source (cited per definition).
* The behaviour of zcbor, mbedTLS/tinycrypt/compact25519/PSA as stated in the parameters' laws (above).
* `Spec/Fips.lean` instantiates the OSCORE primitives with executable HMAC-SHA-256 and AES-CCM; C69 proves the
  laws assumed of them, so the hypotheses about OSCORE's primitives are met by the standard algorithms, not
  only by toy ones.  `Spec/Curves.lean` does the same for the asymmetric primitives; C73 proves that with them the two
  sides of an exchange agree and that signatures verify, against Mathlib's elliptic curve group law.
* Model validation (tests, not proofs): `Props/Vectors.lean` evaluates the model with those primitives in the
  kernel on the vectors of /repo/test_vectors/oscore_test_vectors.c (RFC 8613, appendix C) and compares every
  packet byte for byte with what the repository's own integration tests expect.  A misreading of the code that
  changes a byte of an ordinary exchange would show there.  `Props/EdhocVectors.lean` does the same for EDHOC with
  `Spec/Curves.lean`: the trace of RFC 9529 (message_1 to message_4 and the exported keys) is reproduced byte for
  byte by both roles, and the inputs of the repository's v15/v16 vectors run through both roles (their expected
  messages belong to an older draft).
* Mutation tests of the model are recorded in `seeded/LOG.jsonl`.
