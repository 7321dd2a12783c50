#!/usr/bin/env python3
"""Regenerates MANIFEST.json: collects `theorem Cnn_*` from lean/Verif/Props and joins it with STATUS below."""
import re, json, glob, collections
STATUS = {
"C01":("proved","all histories, all window sizes >= 1 (the loops end for sizes up to 255 only: C83)"),
"C02":("proved","exact characterisation after every history; window size arbitrary >= 1 (the loops end for sizes up to 255 only: C83)"),
"C03":("proved","re-initialisation at any n, all later histories (the loop ends for window sizes up to 255 only: C83)"),
"C04":("partial","False of the code for PIVs of two or more bytes (oscore2coap.c:420 records only the first byte): witness C04_false, and C04_false_general/C04_false_above: for every context and history, a delivered request with a number >= 256 is delivered as often as it arrives. Also false for any PIV when the outer code is changed to a response code while the request is unanswered: the packet is then delivered again without a replay check (C04_false_relabelled). Proved over all later histories for one-byte PIVs and the Echo re-sync case."),
"C05":("partial","False when a notification's outer Observe option is stripped (C05_false); proved otherwise over all histories."),
"C06":("partial","C06_false: an Echo value cached without having been sent is accepted; C06_false_relabelled: a recorded request is delivered without any Echo when its outer code is changed to a response code; proved parts: the decision table and the necessity of the cached value."),
"C07":("proved",""),
"C08":("proved","includes every error before the AEAD call as well; failure means failure of the one check RFC 8613 prescribes for the packet in this state (Spec/Checked.lean)"),
"C09":("proved","all histories of calls, successful or failed"),
"C10":("proved","IDs up to 7 bytes; for longer IDs the code reads out of bounds (C10_nonce_oob)"),
"C11":("partial","False of the code (one cached request nonce per context): two witnesses, and C11_false_general: any two consecutive responses without own PIV share key and nonce, in every context. Proved for messages with a new PIV and for lock-step histories."),
"C12":("partial","False when two NVM writes fail or SYNC is reached early by a junk Echo (witnesses); proved for device lives with arbitrary crash points otherwise."),
"C13":("proved",""),
"C14":("proved",""),
"C15":("partial","False for wrapping deltas, lengths and option counts (witnesses); round trip proved for every message whose option extents are below these limits."),
"C16":("partial","False of the code: five out-of-bounds witnesses; the parts that do hold are proved."),
"C17":("proved",""),
"C18":("partial","C18_split_merge_partial proved; false when an outer option number also occurs inside (C18_false_duplicate_outer)"),
"C19":("proved","reserved flag bits are ignored by the code (C19_reserved_bits_ignored)"),
"C20":("proved",""),
"C21":("proved",""),
"C22":("partial","False for messages with more than ten inner options and for inner option lists longer than announced (witnesses); proved for all others."),
"C23":("partial","False for interleaved exchanges (global request nonce, witness); proved for lock-step exchanges."),
"C24":("proved",""),
"C25":("proved","the only algorithm the library accepts is 10; binding to it is part of the encoding"),
"C26":("partial","False of the code: Sender ID and PIV together may have at most 7 bytes (buffer of 30 bytes for the Enc_structure), so 7-byte IDs never work; proved: the exact limit, and that IDs of up to 4 bytes always work."),
"C27":("proved",""),
"C28":("proved",""),
"C29":("proved",""),
"C30":("proved",""),
"C31":("partial","Proved for outputs with sufficient capacity; with a smaller buffer the code overruns it (C31_false_small_buffer)."),
"C32":("partial","False of the code (header and payload marker are written unchecked: witnesses); proved for the rest."),
"C33":("partial","Proved except when the path fits exactly: the terminating NUL is then written out of bounds (C33_false_exact_fit)."),
"C34":("proved",""),
"C37":("partial","MBEDTLS build: proved for all L <= 255*32 and for all L with L+31 < 2^32; false for the 31 largest 32-bit lengths (C37_false_wrap). TINYCRYPT build: false for 255 blocks (C37_false_tinycrypt), proved up to 254."),
"C35":("partial","Proved for the responder (method and suite) and the initiator's suite. False of the code for the initiator's own method: an undefined value runs as method 0 (C35_false_initiator_method)."),
"C36":("partial","False of the code (C36_false): any element of the peer's list that the responder supports is enough. Proved: what the check does establish."),
"C38":("proved",""),
"C39":("partial","Proved for every consistent configuration without EAD_2/EAD_3 and with message_3 not longer than message_2. False of the code otherwise: C39_false_ead, C39_false_method_1. With message_4: proved without EAD_4 (C39_message_4_partial); with any non-empty EAD_4 the initiator always fails (C39_false_ead_4)."),
"C40":("partial","Proved for messages 1 to 4 and their plaintexts, C_I up to cIStored (see C45) and EAD_2..4 when the application passes an encoded byte string. False of the code for raw EAD_2/EAD_3 (C40_false_ead) and for an absent EAD_1 with EAD_SIZE > 0 (C40_false_absent_ead_1)."),
"C44":("partial","Proved for the responder in full and for the initiator except while message_3 is created; there the error is ignored and message_2 is sent back (C44_false, C44_false_run)."),
"C45":("partial","C_R: proved. C_I: proved except for the one-byte encodings of negative integers, for which it is false of the code (C45_false_C_I)."),
"C41":("partial","False of the code (C41_false, C41_false_run): the MAC is compared over the received length, so a truncated or empty MAC is accepted. Proved: the exact acceptance condition and the claim for full-length MACs."),
"C42":("proved","signature soundness itself is the verify callback"),
"C43":("proved",""),
"C46":("proved",""),
"C47":("proved","up to a SHA-256 collision between the two given inputs (HashClash names them)"),
"C49":("partial","False of the code (C49_false): the CA subject is only compared over a prefix. Proved: signature check with a configured CA key before any use."),
"C50":("proved","the code always uses an empty context"),
"C51":("proved","limb-level model; primality of p proved by a Pratt certificate"),
"C52":("proved",""),
"C53":("partial","Proved: only valid points reach the library, agreement of x-only ECDH (given that the PSA library implements scalar multiplication). False: a static DH key stored in the uncompressed format is turned into 33 bytes that the MBEDTLS decompression always refuses (C53_false)."),
"C54":("partial","Proved for TINYCRYPT. False for MBEDTLS: the key pair is made from an uninitialised array and does not depend on the seed (C54_false)."),
"C55":("partial","Proved: well-formed certificates with full-size signature values are handled exactly (C55_wellformed_partial), acceptance needs the single configured CA key to verify a part of the certificate (C55_accepted_partial), the signed part is a SEQUENCE and the key and signature values are contents of BIT STRING and INTEGER elements (C55_fields_partial), several credentials refuse everything. False of the code: buffer overflow and over-read before any signature check, short signature integers not padded, the key may lie outside the signed part, over-long key reported but not copied (C55_false_*)."),
"C56":("partial","Proved: decompression of valid values, agreement, generated keys fit their buffer (C56_keygen_fits), interoperability with MBEDTLS devices (given the library computes field arithmetic and scalar multiplication). False of the code: values off the curve are not refused (C56_false_invalid), short values are over-read (C56_false_short), a stored uncompressed static key is used shifted by one byte (C56_false_compressed)."),
"C57":("partial","Proved for both roles, under the conditions of C39, C22 and C23 (C57_partial). False: C_R = C_I is not prevented, and then both parties send with the same key and ID (C57_false_run)."),
"C58":("partial","bounded and cached as sent; false in general: the buffer capacity shrinks to the last cached length, so a longer challenge can never be sent again (C58_false_shrinks)"),
"C59":("partial","Proved given what the mbedTLS parser reports: well-formed certificates with full-size signature integers, absence of out-of-bounds accesses when names are present, and agreement with the model used for C49. False of the code: short r or s (C59_false_short), issuer without common name dereferences NULL (C59_false_no_cn), hashes other than 32 bytes leave uninitialised bytes in the signature (C59_false_hash)."),
"C60":("proved","The alternative in the conclusion is a collision of the hash or HMAC between strings the two runs really use (initInputs, respInputs list them), not the mere existence of a collision, which is true of every hash. C_I is the responder's stored form (C45 records that negative one-byte integers are stored differently)."),
"C61":("partial","False for options: an unprotected Uri-Path (any class-E option) inserted by an attacker is delivered next to the authenticated ones (C61_false_injected_option; RFC 8613 \u00a78.2 step 1 says to discard it). Proved: code, payload, sequence number, request binding, and every option number the outer part does not use; with only OSCORE/Observe outside, all options."),
"C62":("partial","proved for both roles and all methods, with and without message_4, over the RFC's key schedule as a separate specification (Spec/EdhocSpec.lean, Session). Missing because false: MAC_2 for an empty C_R or a one-byte C_R of -1..-24 is not the RFC's (C62_false_cr), for a one-byte C_R of 0..23 the three bytes behind it must be zero; with static DH a prefix of the MAC is accepted (C41). Received messages are related to their fields by the decoders (their grammar: C63)."),
"C63":("partial","proved as an equivalence for message_1 and message_2 and in both directions for the plaintexts (completeness: for the usable identifiers). Missing because false: bytes behind a message are ignored (C63_false_trailing), cipher suites are taken modulo 256 (C63_false_suite), a byte-string ID_CRED_x is read as an integer (C63_false_bstr_kid)."),
"C64":("partial","proved for lock-step conversations of carriable messages. Missing because false: lost responses occupy the interaction table for ever (C64_false_lost), some legal requests cannot be protected (C64_false_port), interleaved exchanges break (C23_false_interleaved), long IDs (C26)."),
"C65":("proved","proved for the configuration MBEDTLS + COMPACT25519 (the default). Shown false outside it: without COMPACT25519 X25519 key generation reports ok with nothing generated (C65_false_no_compact); decryption into a longer buffer leaves stale bytes (C65_false_stale); hash does not initialise the library (C65_false_hash_init)."),
"C66":("partial","The full property is false: a complete response with a Partial IV and an 8-byte KID for an outstanding token makes create_nonce write before its buffer, before authentication (C66_false_response_kid, for every build, crypto and context); a legal 256-byte option is over-read (C66_false_length); a confidential option ending exactly at the scratch buffer's end lets the next header be written behind it (C66_false_scratch); an authenticated request without Partial IV dereferences NULL (C66_false_no_piv); plus the known C16, C22, C32, C33 witnesses. Proved for every state, crypto answer and history when packets are complete, response KIDs have at most 7 bytes, IDs have at most 7 bytes, output buffers hold maxCoapOptions+13 bytes, authenticated plaintexts have at most 10 complete options and paths do not fill the URI buffer exactly."),
"C67":("partial","Sending conforms for every request (C67_request) and every notification (C67_notification), and for responses when the request is the last one the context processed (single nonce per context). Receiving conforms for every request (non-minimal Partial IVs, kid contexts), for responses with the request nonce and for responses with own Partial IV that repeat the kid. The full property is false: a legal response or notification with Partial IV and without kid is rejected because the nonce is built with the packet's empty kid (C67_false_no_kid), and a first notification with the nonce of the request is always rejected (C67_false_first_notification); interleaved requests: C23_false_interleaved; kid+piv longer than 7 bytes: C26."),
"C68":("partial","Proved for every message_2/message_3 whose (unauthenticated) plaintext identifies the credential by integer kid, x5chain or x5t, has a MAC not longer than the suite's or an EdDSA signature of 64 bytes, and every message_1 with a G_X of 32 bytes, for own keys of full length for every method; message_4 reception without condition. The full property is false: short G_X before any authentication (C68_false_short_gx, for every responder), a static DH method chosen by the initiator against a responder without such a key (C68_false_method), identifiers the CDDL allows but the code leaves uninitialised and a one-byte signature (C68_false_plaintext, C68_false_c509), and the buffer of message_4 with 16-byte tags (C68_false_message_4)."),
"C69":("proved","SHA-256, HMAC, AES-128 and CCM are written out executably from FIPS 180-4, 198-1, 197 and RFC 3610 in Spec/Fips.lean. The same file instantiated in the model reproduces, inside the kernel, the OSCORE packets of /repo/test_vectors (Props/Vectors.lean): those are tests of the model."),
"C70":("proved","All 24 generated files are transcribed call by call (Model/ZcborGen.lean) over a state machine of zcbor (Model/Zcbor.lean); zcbor itself is not in the repository, so that state machine is an assumption, with the version-dependent parts as parameters. Shown: without the restore the claim that nothing else is decoded is false (C70_false_unrestored: the alternatives of int/bstr are tried without going back; C70_false_leak: a refused huge map shifts the beginning of ID_CRED). Encoders assume ZCBOR_CANONICAL."),
"C71":("partial","Proved for prk_out in full, and for all arrays after ok (key array: if large enough). The last clause is false of the code: initiator_pk is exported before the signature is verified, c_i_bytes and c_r_bytes are written as soon as they are parsed (C71_false_pk_before_verification, C71_false_cx_before_verification). A key array that is too small gets a length beyond its buffer and the run returns ok (C71_false_pk_length); with static DH the exported key is empty (C71_false_pk_static_dh)."),
"C72":("partial","Proved for calls one after another (any leftover) and for concurrent calls when no other thread writes to the static array meanwhile. False in general: the static array of ssn2piv is shared by all threads and contexts; C72_false_piv, C72_false_nonce_reuse."),
"C73":("partial","Proved: the P-256 agreement of the code (decompression, PSA) computes the standard function for all 32-byte values, both sides agree for every two key pairs of either curve, every Ed25519 and every ECDSA signature verifies, so the hypotheses of C39, C53, C57 and C64 about the primitives hold. Partial only because C39/C45/C64 are: EAD_2, EAD_3, long message_3 and a negative one-byte C_I are false of the code."),
"C74":("proved","The rules are the code's. Witnesses show where they surprise: a PUT makes the answer to an outstanding GET for the same path undeliverable, a request of the peer does the same to an own request, a response that does not fit the buffer is lost for good, and the notification number is per context, not per observation as in RFC 8613 7.4.1."),
"C75":("proved","For peers that authenticate with static DH the property is false of the code (C41_false_run: an empty MAC is accepted); C77 has the version with message_4. Unforgeability is assumed only of the received signature for the string checked; collisions only between strings the runs use. CRED and EAD are bound only as one string, as in RFC 9528."),
"C76":("partial","False for a response without a Partial IV after the nonce was overwritten by a lost message (C76_false_nonce) and for places of the interaction table taken by lost messages (C64_false_lost); proved for all other histories (Link.same, Link.stale track these two). Messages are not reordered or duplicated (C04, C23), IDs have at most 4 bytes (C26), writes to non-volatile memory succeed (C12)."),
"C77":("proved","With static DH an initiator built without MESSAGE_4 has no such guarantee (C41: an empty MAC_2 is accepted); with MESSAGE_4 message_4 gives it. The hypothesis is about the one received ciphertext with the associated data of the run."),
"C78":("partial","Holds for master secret, master salt and recipient ID (C78_partial, on top of C78_init: the function does what the value-level model does). False for the sender ID (C78_false_sender_id: the peer then refuses every message; sender_id_buf exists but is not used), for the ID Context (C78_false_id_context: sequence numbers are stored under another key, nonce reuse after a restart) and for a copied struct context (C78_false_copy: its pointers lead into the original; nonce reuse)."),
"C79":("proved","The last condition is needed: the storage key does not contain the master secret, so two contexts with the same identifiers and different secrets overwrite each other's number, and a restart reuses key and nonce (C79_false_nvm). With fresh master secrets no condition on identifiers is needed (C79_fresh). Threads: C72."),
"C80":("proved","EAD_1 is handed over unauthenticated, as in RFC 9528. For static Diffie-Hellman keys 'verified' means a prefix of the MAC (C41), and the second message of the initiator can be an echo of message_2 (C44); both are visible in the statement. CRED and EAD are adjacent in the signed string, so the equality is of CRED followed by EAD."),
"C81":("partial","State is committed before the output is written (C81_state_protect, C81_state_unprotect: the state left behind does not depend on the buffer). Requests and notifications can be sent again, and so can any message that was not encrypted by the failed call. A response that ends an exchange cannot be sent again, and a received request, notification or response that did not fit is lost for good (C81_false_response, C81_false_request, C81_false_notification, C81_false_received)."),
"C82":("partial","Receiving: unconditional. Sending: all messages except those with a payload whose confidential options need the whole announced length (public options between confidential ones make the inner deltas longer than announced); for every one of those that the default build protects, the VLA build writes the payload marker and the payload behind its array (C82_false_general, C82_false). Messages that the peer can recover (condition of C22/C23) are none of them (C82_carriable_partial). EDHOC: unconditional for arrays below 4 GiB (C82_edhoc_initiator, C82_edhoc_responder, C82_edhoc_exporter)."),
"C83":("partial","False of the code for replay windows of 256 and more numbers (uint8_t counters: re-initialisation never ends, nor does the check of a late number, C83_false_reinit, C83_false_valid) and for more than 65535 credentials without a matching CA (uint16_t counter, C83_false_ca); hkdf_expand with tinycrypt and 255 blocks is C37_false_tinycrypt. Proved for all other sizes, with equality to the models used by the other properties. The loops are treated one function at a time."),
"C84":("partial","Receiving: proved for messages 1 to 4. Reporting is false of the code: no run ever sends an error message (C84_false_responder, C84_false_initiator), error_message_sent is returned with nothing sent (C84_false_sent), error_message_received is never returned for an error message but for a ciphertext shorter than its tag (C84_false_received), and err_msg is never written (no line of initiator.c or responder.c assigns it; not in the model)."),
"C85":("proved","C85_send is about the bytes of the caller's buffer; the internal scratch buffers (MAX_COAP_OPTIONS_LEN, E_OPTIONS_BUFF_MAX_LEN, OSCORE_MAX_PLAINTEXT_LEN) can still reject a message (C10, C16)."),
"C86":("partial","Restricted like C67, on which it rests: the message in its new wrapping has to fit the library's limits, and a response without Observe has to answer the last request the context processed. A proxy that adds options other than those four goes beyond Forwarded: such options are delivered although RFC 8613 wants them discarded (C61_false_injected_option). Changes of the outer Observe or of the outer code by a proxy are not covered."),
"C87":("proved","Lengths of the encrypted parts are visible, as in RFC 9528. An initiator whose message_3 cannot be made sends message_2 back instead (C44_false): that does not depend on the identity either. That keys and keystream are those of RFC 9528 is C62; that message_3 is only sent to a responder whose message_2 was accepted is C80."),
"C88":("proved","The loop itself is the application's (RFC 8613, 8.2 step 2); the library has none. It must go on after every error, not only after oscore_kid_recipient_id_mismatch (C88_error_code: a context without sequence numbers answers oscore_ssn_overflow to every packet). The receiving context is subject to the conditions of C67; the kid context is not used to choose, so contexts with the same Recipient ID are told apart by authentication."),
"C89":("proved","That message_3 is bounded by message_2 is why some honest runs fail (C39_false_method_1, C44_false)."),
"C90":("partial","Proved for requests with sequence numbers below 256 (one-byte Partial IV). Missing, because false: from 256 on only the first byte of the Partial IV is recorded, and a packet that arrives twice is executed twice (C90_false); a request packet relabelled as a response is delivered as often as the attacker likes while the request is unanswered (C04_false_relabelled), and is not counted among the requests here. What 'exactly that request' means is DeliveredAs of C61 (outer class U options and unauthenticated class E options come from the packet)."),
"C91":("proved","Freshness of the ephemeral keys is the caller's part (C91_reuse_needed: with the same y a recorded message_1 and message_3 complete again). For an initiator whose responder uses static DH the pairing needs MESSAGE_4 and a message_3 that really went out (prkOut is reported, see C44). What the partner has in common with the run beyond message_1 and the ephemeral keys is C75 and C77."),
"C92":("partial","False of the code for the last sentence (C92_false_outcome): whether a request is sent depends on its encrypted Uri-Path and on those before, because the table of outstanding requests is searched by path and has three places. C92_partial and C92_ideal_partial therefore assume that corresponding calls end in the same way (ok; the Echo challenge; refused without effect), and say everything else."),
"C93":("partial","The last sentence is false of the code (C93_false_large): a client with large buffers protects a request that a server with small ones refuses, and there is no way to tell the client. Everything else is proved for messages that fit both builds (FitsBoth), with the restrictions of C22, C23 and C64: C93_conversation_partial, C93_edhoc_partial, C93_request_partial, C93_response_partial; C93_mirrored, C93_same_packet and C93_same_build are complete."),
"C94":("partial","False of the TINYCRYPT build when a key longer than 32 bytes is updated in place (C94_false_in_place, C94_false_in_place_builds): hkdf_expand sets the HMAC key again for every block, from memory that the previous block has overwritten, so the key differs from RFC 9528 and from what an MBEDTLS peer computes; up to 32 bytes or without overlap it holds (C94_in_place_tinycrypt_partial). MBEDTLS: C94_in_place, complete. C94_chain_rfc, C94_chain_ok, C94_agree, C94_epochs and C94_runs are complete; C94_conversation_partial has the restrictions of C39, C57 and C93."),
"C95":("partial","False of buffers that overlap in another way (C95_false_shifted: the call returns ok and the server accepts a request for another Uri-Host) and of repeating a call in place that was refused (C95_false_retry_in_place: the code byte has been overwritten, a GET is sent as POST). C95_protect, C95_unprotect, C95_history, C95_history_results: complete for the same buffer and for buffers apart. C95_protect_writes, C95_unprotect_writes: all placements. memcpy with equal source and destination is taken to leave the bytes as they are."),
"C96":("partial","False of ES256 verification: a bad signature is an error of the library call instead of the result \"not verified\" (C96_false_verify_error); keys and signatures shorter than 64 bytes are read beyond their end (C96_false_short_key). False of single aead calls on messages of 65528 to 65535 bytes, which are encrypted but not decrypted (C96_false_large_message); OSCORE does not reach this. Complete for OSCORE: C96_keys, C96_init_sizes, C96_oscore_history, C96_tinycrypt_is_aes_ccm, C96_tinycrypt_and_mbedtls. For EDHOC: whole runs of initiator and responder for two libraries that agree on what EDHOC asks of them (C96_edhoc_initiator, C96_edhoc_responder, and TinyCrypt as an instance), up to the code of a refused signature or certificate; assumed there: the same key agreement and certificate fields (C53, C55, C56 and C59 are about those), message sizes below 64 KiB. The history theorem takes buffers for fewer than 65527 plaintext bytes (the default is 1024) and packets below 4 GiB. The documented argument checks of TinyCrypt are modelled, its bodies are not."),
"C97":("partial","False when C_I = C_R, which the library does not exclude: a device then delivers its own request when it is sent back to it (C97_false_reflection). Each request at most once holds for sequence numbers below 256 only, outer options of a protected class may be added, and a request packet relabelled as a response is not counted among the requests (C90, C61, C04). Complete otherwise: C97_one_other_end, C97_identity. Assumed: the AEAD is not forged for the packets that arrive, ephemeral keys are not repeated, and no collision among the strings the runs really hash and the OSCORE keys they really derive."),
"C98":("proved","MBEDTLS configuration with COMPACT25519. Assumed: a call of the PSA API is atomic (MBEDTLS_THREADING_C), key identifiers are unique, and the caller's buffers are as large as the functions expect (Call.Sized). Left over when psa_destroy_key fails: at most one key per failed call (C98_keys). C98_no_interference asks for psa_crypto_init to have succeeded before."),
"C99":("partial","Partial where C04, C11 and C81 are: replay protection for one-byte PIVs or the completed Echo exchange (C99_no_replay_partial), nonces of encryptions under an own Partial IV, and a message sent again under the hypotheses of C81_send_partial. C99_library shows that the wrapper over a PSA library with failing calls meets the assumption (MBEDTLS configuration)."),
"C100":("partial","Complete for the responder (C100_responder, C100_responder_ok). False of the initiator: msg3_gen ignores the error of msg3_only_gen, so when signing or encrypting message_3 fails it sends message_2 back and returns ok without a PRK_out (C100_false_initiator); it is the only exception (C100_initiator_partial), and a run that wrote PRK_out is that of a working library (C100_initiator_ok). A library is a function that may fail on any set of arguments; failures of HKDF and hash are not covered here (C65 has them per function)."),
"C48":("proved",""),
}
import os
root=os.path.dirname(os.path.dirname(os.path.abspath(__file__)))
exec(open(os.path.join(root,"tools","status_more.py")).read()) if os.path.exists(os.path.join(root,"tools","status_more.py")) else None
ths=collections.defaultdict(list)
for f in sorted(glob.glob(root+"/lean/Verif/Props/*.lean")):
    st=[]
    for l in open(f):
        m=re.match(r"(namespace|section)\s*(\S*)",l)
        if m: st.append((m.group(1),m.group(2)))
        if re.match(r"mutual\b",l): st.append(("mutual",""))
        if re.match(r"end\b",l) and st: st.pop()
        m=re.match(r"theorem ((C\d\d\d?)_\w+)",l)
        if m: ths[m.group(2)].append(".".join([n for k,n in st if k=="namespace"]+[m.group(1)]))
claims=[]
for l in open(root+"/properties.jsonl"):
    d=json.loads(l)["id"] if l.strip() else None
    if not d: continue
    if d in STATUS and ths[d]:
        claims.append({"property":d,"status":STATUS[d][0],"theorems":ths[d],"note":STATUS[d][1]})
    else: print("no claim",d,d in STATUS,ths[d])
json.dump({"claims":claims},open(root+"/MANIFEST.json","w"),indent=1)
