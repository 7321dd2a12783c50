{"id": "C01", "title": "A sequence number is never accepted twice by the server replay window", "statement": "Starting from an initialised replay window, whatever sequence of sequence numbers is checked and recorded, a number that the window accepted once is rejected on every later check.", "quantifier": "all finite histories of sequence numbers presented to the window (any 64-bit values, any order, any length), starting from init or from a re-synchronisation", "why_tests_cant": "The window state after n operations depends on the whole history; tests only sample a few orders.", "anchors": ["src/oscore/replay_protection.c: server_replay_window_init, server_is_sequence_number_valid, server_replay_window_update"]}
{"id": "C02", "title": "The replay window accepts exactly the fresh numbers that are not too old", "statement": "After any history the window accepts a number n (n>0) iff n was not accepted before and n is larger than the 32nd largest accepted number (numbers newer than every accepted one are always accepted); number 0 is accepted iff it was not accepted before and fewer than 32 non-zero numbers have been accepted.", "quantifier": "all finite histories and all next numbers", "why_tests_cant": "Needs exactness (no lost messages, no replays) for every reachable window content.", "anchors": ["src/oscore/replay_protection.c", "inc/oscore/replay_protection.h"]}
{"id": "C03", "title": "After an Echo re-synchronisation at n every number up to n is rejected and every larger one is fresh", "statement": "Re-initialising the replay window with the current number n makes every number <= n rejected from then on (for ever, whatever follows) and every number > n that has not been seen accepted until it is recorded or falls behind the window.", "quantifier": "all n, all following histories", "why_tests_cant": "Unbounded histories after re-initialisation, including n < 32 where the subtraction saturates.", "anchors": ["src/oscore/replay_protection.c: server_replay_window_reinit"]}
{"id": "C04", "title": "A server never delivers the same OSCORE request twice", "statement": "If oscore2coap returns ok for a request packet while the context is synchronised, then calling oscore2coap later with the same packet, after any other traffic on that context, does not return ok.", "quantifier": "all contexts, all packets, all histories of calls between the first and the second delivery", "why_tests_cant": "A replay may come at any later time and with any sequence number size; the unit tests only replay single-byte PIVs.", "anchors": ["src/oscore/oscore2coap.c: oscore2coap", "src/oscore/replay_protection.c"]}
{"id": "C05", "title": "Notifications are accepted in strictly increasing order only", "statement": "The PIVs of the observe notifications that oscore2coap delivers on one client context are strictly increasing; a notification whose PIV is not larger than the last delivered one is rejected with oscore_replay_notification_protection_error.", "quantifier": "all sequences of incoming packets on a context", "why_tests_cant": "Histories are unbounded.", "anchors": ["src/oscore/oscore2coap.c: oscore2coap", "src/oscore/replay_protection.c: replay_protection_check_notification, notification_number_update"]}
{"id": "C06", "title": "After a reboot no request is delivered until the Echo challenge is answered", "statement": "A context restored from an earlier session (fresh_master_secret_salt = false) returns ok for a request only after a response carrying an Echo value was protected with it and a request with exactly that Echo value was received; the first authentic request yields first_request_after_reboot, later ones without the value yield echo_validation_failed.", "quantifier": "all interleavings of oscore2coap / coap2oscore calls after the reboot", "why_tests_cant": "State machine over arbitrary call sequences.", "anchors": ["src/oscore/oscore2coap.c: oscore2coap", "src/oscore/coap2oscore.c: coap2oscore", "src/oscore/option.c: cache_echo_val, echo_val_is_fresh"]}
{"id": "C07", "title": "Requests for another recipient ID are rejected without side effects", "statement": "A request whose KID differs from the context's Recipient ID is rejected with oscore_kid_recipient_id_mismatch and leaves the context unchanged.", "quantifier": "all contexts, all packets", "why_tests_cant": "Universal over contexts and inputs.", "anchors": ["src/oscore/oscore2coap.c: oscore2coap"]}
{"id": "C08", "title": "A packet that fails authentication changes nothing", "statement": "If AEAD verification of an incoming packet fails, oscore2coap returns an error and the replay window, the notification counter, the sender sequence number, the Echo state, the request/response nonce cache and the interaction table are exactly as before.", "quantifier": "all contexts, all attacker-chosen packets", "why_tests_cant": "The adversary chooses the packet; needs all inputs.", "anchors": ["src/oscore/oscore2coap.c: decrypt_wrapper, oscore2coap"]}
{"id": "C09", "title": "Every PIV put on the wire by a context is new", "statement": "Within one session the PIVs of the messages that coap2oscore protects with a PIV are strictly increasing, hence pairwise different, whatever calls (successful or failed) are interleaved.", "quantifier": "all sequences of coap2oscore/oscore2coap calls on a context, including calls that fail", "why_tests_cant": "Unbounded call sequences with failures in between.", "anchors": ["src/oscore/coap2oscore.c: generate_new_ssn, encrypt_wrapper"]}
{"id": "C10", "title": "The AEAD nonce is an injective function of (ID, PIV)", "statement": "For a fixed Common IV two messages get the same nonce only if both the ID of the PIV generator and the PIV value are equal (IDs up to 7 bytes, PIVs in their minimal encoding).", "quantifier": "all IDs of at most 7 bytes, all PIVs of at most 5 bytes, all Common IVs", "why_tests_cant": "Injectivity over a 2^96 domain.", "anchors": ["src/oscore/nonce.c: create_nonce"]}
{"id": "C11", "title": "No nonce is used for two different encryptions under the same Sender Key", "statement": "In any history of calls on one context, two different calls of coap2oscore that produce a ciphertext never use the same nonce with the same Sender Key.", "quantifier": "all histories of coap2oscore/oscore2coap calls on a context", "why_tests_cant": "AEAD security collapses at the first collision; only a proof covers all interleavings.", "anchors": ["src/oscore/coap2oscore.c: encrypt_wrapper", "src/oscore/oscore2coap.c: decrypt_wrapper", "inc/oscore/security_context.h: req_resp_context"]}
{"id": "C12", "title": "Sender sequence numbers are never reused across reboots and crashes", "statement": "With NVM support and fresh_master_secret_salt=false, the SSNs used for messages sent in all sessions of a device are pairwise different, wherever the device crashes.", "quantifier": "all histories of sessions, sends, crash points and NVM write results", "why_tests_cant": "Crash points and failure patterns are unbounded.", "anchors": ["src/oscore/nvm.c: ssn_init, ssn_store_in_nvm", "src/oscore/coap2oscore.c: generate_new_ssn"]}
{"id": "C13", "title": "An exhausted context stops", "statement": "Once the sender sequence number has reached the overflow value 0x7FFFFF every call of coap2oscore and oscore2coap returns oscore_ssn_overflow, nothing is encrypted or decrypted and the context does not change; the SSN can never grow beyond that value.", "quantifier": "all contexts and inputs; all histories", "why_tests_cant": "The state is only reached after 8 million messages.", "anchors": ["src/oscore/security_context.c: check_context_freshness", "src/oscore/coap2oscore.c", "src/oscore/oscore2coap.c"]}
{"id": "C14", "title": "PIV encoding is minimal and invertible", "statement": "Every sequence number up to 2^40-1 is encoded as the shortest big-endian string of 1 to 5 bytes, decoding returns the same number, larger numbers and longer strings are rejected; distinct numbers have distinct encodings.", "quantifier": "all 64-bit numbers, all byte strings", "why_tests_cant": "2^40 values.", "anchors": ["src/oscore/security_context.c: ssn2piv, piv2ssn"]}
{"id": "C15", "title": "CoAP messages survive serialisation and parsing", "statement": "coap_deserialize(coap_serialize(m)) = m for every CoAP message m the library can represent and whose buffers suffice (header, token, options in order, payload).", "quantifier": "all CoAP messages", "why_tests_cant": "Unbounded domain of messages and option lengths/deltas.", "anchors": ["src/oscore/oscore_coap.c: coap_serialize, coap_deserialize, options_serialize, options_deserialize"]}
{"id": "C16", "title": "Parsing untrusted CoAP bytes never reads or writes out of bounds", "statement": "coap_deserialize, the inner-plaintext parser and the OSCORE-option parser stay inside the input buffer and the option tables for every input.", "quantifier": "all byte strings", "why_tests_cant": "Attacker-chosen input.", "anchors": ["src/oscore/oscore_coap.c: coap_deserialize, options_deserialize", "src/oscore/option.c", "src/oscore/oscore2coap.c: oscore_option_parser"]}
{"id": "C17", "title": "Confidential options and the payload never appear in clear", "statement": "Every option of the input message other than Uri-Host, Uri-Port, OSCORE, EDHOC, Proxy-Uri, Proxy-Scheme (and the Observe option, which is duplicated) is only placed in the plaintext to be encrypted, never in the outer message; the payload of the outer message is exactly the ciphertext.", "quantifier": "all CoAP messages accepted by coap2oscore", "why_tests_cant": "All option sets.", "anchors": ["src/oscore/coap2oscore.c: inner_outer_option_split, oscore_pkg_generate", "src/oscore/option.c: is_class_e"]}
{"id": "C18", "title": "Splitting and re-merging loses no option", "statement": "Merging the outer options and the decrypted inner options yields exactly the original options (Observe excepted), as a list sorted by option number with correct deltas; the OSCORE option and the outer Observe option are dropped.", "quantifier": "all option lists with non-decreasing option numbers", "why_tests_cant": "All option multisets and orders.", "anchors": ["src/oscore/coap2oscore.c: inner_outer_option_split", "src/oscore/oscore2coap.c: options_reorder"]}
{"id": "C19", "title": "The OSCORE option is parsed as it was generated", "statement": "Parsing the OSCORE option value generated for (PIV, KID, KID context) returns exactly these values, and values of any other shape (reserved PIV lengths 6 and 7) are rejected.", "quantifier": "all PIVs up to 5 bytes, KIDs and KID contexts within the buffers", "why_tests_cant": "All combinations of lengths.", "anchors": ["src/oscore/coap2oscore.c: oscore_option_generate", "src/oscore/oscore2coap.c: oscore_option_parser"]}
{"id": "C20", "title": "The outer code does not reveal the method or the response code", "statement": "The code of a protected message depends only on whether the message is a request or a response and whether it has an Observe option (POST/FETCH or 2.04/2.05).", "quantifier": "all input messages", "why_tests_cant": "All 256 codes times all option lists.", "anchors": ["src/oscore/coap2oscore.c: oscore_pkg_generate"]}
{"id": "C21", "title": "Version, type, message ID and token are carried over unchanged", "statement": "coap2oscore and oscore2coap keep version, type, token length, message ID and token of the message they transform.", "quantifier": "all messages on which the call returns ok", "why_tests_cant": "All messages.", "anchors": ["src/oscore/coap2oscore.c: oscore_pkg_generate", "src/oscore/oscore2coap.c: o_coap_pkg_generate"]}
{"id": "C22", "title": "A protected request is recovered exactly by the peer", "statement": "If the client's coap2oscore returns ok for a request m, the server's oscore2coap (mirrored context, synchronised, number not seen) returns ok and the output is the CoAP message m.", "quantifier": "all requests m, all mirrored contexts, all keys", "why_tests_cant": "End-to-end correctness for every message.", "anchors": ["src/oscore/coap2oscore.c: coap2oscore", "src/oscore/oscore2coap.c: oscore2coap"]}
{"id": "C23", "title": "A protected response is recovered exactly by the client and is bound to its request", "statement": "If the server's coap2oscore protects a response for a token with an outstanding request, the client's oscore2coap returns that response; the AAD used on both sides is the one of that request.", "quantifier": "all responses, all mirrored contexts", "why_tests_cant": "End-to-end correctness for every message.", "anchors": ["src/oscore/coap2oscore.c", "src/oscore/oscore2coap.c", "src/oscore/oscore_interactions.c"]}
{"id": "C24", "title": "Plain CoAP packets are recognised and passed by", "statement": "oscore2coap returns not_oscore_pkt for every well-formed CoAP packet without an OSCORE option and leaves the context unchanged.", "quantifier": "all CoAP packets without OSCORE option, all contexts below the SSN limit", "why_tests_cant": "All packets.", "anchors": ["src/oscore/oscore2coap.c: oscore_option_parser, oscore2coap"]}
{"id": "C25", "title": "The additional authenticated data binds algorithm, KID and PIV of the request", "statement": "The AAD passed to the AEAD is an injective function of (algorithm, request KID, request PIV) and equals the RFC 8613 encoding.", "quantifier": "all KIDs and PIVs that fit the buffers", "why_tests_cant": "Injectivity over all byte strings.", "anchors": ["src/oscore/aad.c: create_aad", "src/oscore/oscore_cose.c: create_enc_structure"]}
{"id": "C26", "title": "Every ID length allowed by the API works with every PIV", "statement": "For each Sender ID of at most 7 bytes and each sequence number below the overflow value, messages can be protected.", "quantifier": "all IDs of length 0..7, all sequence numbers", "why_tests_cant": "The failing combination is only reached after many messages.", "anchors": ["inc/oscore.h", "inc/oscore/aad.h: MAX_AAD_LEN", "src/oscore/oscore_cose.c"]}
{"id": "C27", "title": "Mirrored parameters give mirrored contexts", "statement": "If two parties initialise contexts with the same master secret, master salt and ID context and with sender and recipient IDs swapped, then the Sender Key of one is the Recipient Key of the other and the Common IVs are equal.", "quantifier": "all initialisation parameters accepted by oscore_context_init", "why_tests_cant": "All parameters.", "anchors": ["src/oscore/security_context.c: oscore_context_init, derive"]}
{"id": "C28", "title": "Keys and IV are derived from distinct HKDF inputs", "statement": "The HKDF info strings used for the Sender Key, the Recipient Key and the Common IV are an injective function of (ID, ID context, type); in particular they differ between sender and recipient when the IDs differ.", "quantifier": "all IDs and ID contexts that fit the buffer", "why_tests_cant": "Injectivity over all byte strings.", "anchors": ["src/oscore/oscore_hkdf_info.c: oscore_create_hkdf_info", "src/oscore/security_context.c: derive"]}
{"id": "C29", "title": "The interaction table is a bounded map from tokens to requests", "statement": "At any time at most OSCORE_INTERACTIONS_COUNT requests are outstanding, no two outstanding requests have the same token or the same (URI path, request type); looking a token up returns what was stored last for it until it is removed or replaced; a full table is reported with oscore_max_interactions and left unchanged.", "quantifier": "all sequences of set/get/remove operations", "why_tests_cant": "Histories unbounded.", "anchors": ["src/oscore/oscore_interactions.c"]}
{"id": "C30", "title": "A response is only accepted or produced for an outstanding request", "statement": "coap2oscore and oscore2coap return oscore_interaction_not_found for responses whose token matches no outstanding request; a successful response (non-notification) consumes the request, so a second response with the same token is rejected.", "quantifier": "all histories of calls", "why_tests_cant": "Histories unbounded.", "anchors": ["src/oscore/oscore_interactions.c: oscore_interactions_read_wrapper, oscore_interactions_update_wrapper", "src/oscore/coap2oscore.c", "src/oscore/oscore2coap.c"]}
{"id": "C31", "title": "Empty acknowledgements pass through unprotected", "statement": "coap2oscore copies an empty ACK (type ACK, code 0.00) byte for byte to the output and changes nothing in the context.", "quantifier": "all empty ACK packets, all contexts below the SSN limit", "why_tests_cant": "All packets.", "anchors": ["src/oscore/coap2oscore.c: coap2oscore"]}
{"id": "C32", "title": "Outputs never exceed the caller's buffer", "statement": "coap2oscore and oscore2coap never write more bytes than the caller announced in the output length, they return buffer_to_small instead.", "quantifier": "all inputs and output buffer sizes", "why_tests_cant": "All sizes.", "anchors": ["src/oscore/oscore_coap.c: coap_serialize, options_serialize"]}
{"id": "C33", "title": "The recorded URI path is the joined Uri-Path options", "statement": "The URI path used to identify an interaction is the concatenation of the Uri-Path option values separated by '/', '/' when there is none, or buffer_to_small when it does not fit.", "quantifier": "all option lists", "why_tests_cant": "All option lists, boundary lengths.", "anchors": ["src/oscore/option.c: uri_path_create"]}
{"id": "C34", "title": "The NVM is written only every K messages", "statement": "In a synchronised session the SSN is written to NVM only when it is a multiple of the store interval (10), and at any time the value in NVM is at most one interval behind the SSN unless writes failed.", "quantifier": "all histories of sends", "why_tests_cant": "Histories unbounded.", "anchors": ["src/oscore/nvm.c: ssn_store_in_nvm"]}
{"id": "C35", "title": "EDHOC: only the defined cipher suites and methods are accepted", "statement": "get_suite succeeds exactly for suites 0..3 with the parameters of RFC 9528, and the static-DH roles returned for a method are those of methods 0..3; every other value is rejected with an error.", "quantifier": "all suite labels and method numbers", "why_tests_cant": "Complete tables.", "anchors": ["src/edhoc/suites.c: get_suite", "src/edhoc/edhoc_method_type.c: authentication_type_get"]}
{"id": "C36", "title": "EDHOC: the responder only proceeds with a suite it supports", "statement": "The responder generates message_2 only if the suite selected in message_1 is in its own list of supported suites.", "quantifier": "all message_1 inputs, all lists of supported suites", "why_tests_cant": "All lists.", "anchors": ["src/edhoc/responder.c: selected_suite_is_supported, msg2_gen"]}
{"id": "C37", "title": "EDHOC: HKDF-Expand is RFC 5869 for every output length", "statement": "hkdf_expand returns the first L bytes of T(1)|T(2)|... for every PRK, info and L <= 255*32 and hkdf_failed for larger L.", "quantifier": "all keys, infos and lengths", "why_tests_cant": "All lengths.", "anchors": ["src/common/crypto_wrapper.c: hkdf_expand"]}
{"id": "C38", "title": "EDHOC: keys for different purposes are derived from different KDF inputs", "statement": "The info string passed to HKDF-Expand is an injective function of (label, context, length), so keys derived with different labels, contexts or lengths never share an HKDF input.", "quantifier": "all labels, contexts and lengths that can be encoded", "why_tests_cant": "Injectivity over all byte strings.", "anchors": ["src/edhoc/hkdf_info.c: create_hkdf_info", "src/edhoc/okm.c: edhoc_kdf"]}
{"id": "C39", "title": "EDHOC: an honest run ends with the same key on both sides", "statement": "If both parties run the protocol honestly with matching credentials and the network delivers messages unchanged, then initiator and responder both return ok with the same PRK_out, same TH_4 and each other's connection identifiers.", "quantifier": "all methods, suites, keys, identifiers and EAD that the encoders accept", "why_tests_cant": "All parameter combinations.", "anchors": ["src/edhoc/initiator.c", "src/edhoc/responder.c", "src/edhoc/prk.c", "src/edhoc/th.c"]}
{"id": "C40", "title": "EDHOC: messages and plaintexts decode to what was encoded", "statement": "Parsing message_1, message_2, message_3 and the plaintexts 2, 3 and 4 returns the fields that the peer encoded.", "quantifier": "all field values that fit the buffers", "why_tests_cant": "All field values.", "anchors": ["src/edhoc/plaintext_encode.c", "src/edhoc/plaintext_decode.c", "src/edhoc/ciphertext.c", "src/cbor/*.c"]}
{"id": "C41", "title": "EDHOC: static-DH authentication accepts only the full correct MAC", "statement": "With static DH authentication, the received Signature_or_MAC field is accepted iff it equals the locally computed MAC (same length and bytes).", "quantifier": "all received fields", "why_tests_cant": "Adversary-chosen field.", "anchors": ["src/edhoc/signature_or_mac_msg.c: signature_or_mac"]}
{"id": "C42", "title": "EDHOC: signature authentication requires a valid signature over the transcript", "statement": "With signature authentication the peer is accepted only if the signature verification primitive accepted the received signature under the credential's public key over the Sig_structure containing TH, CRED, ID_CRED, EAD and MAC.", "quantifier": "all received messages", "why_tests_cant": "Adversary-chosen messages.", "anchors": ["src/edhoc/signature_or_mac_msg.c", "src/edhoc/initiator.c: msg2_process", "src/edhoc/responder.c: msg3_process"]}
{"id": "C43", "title": "EDHOC: a credential is used only if its identifier matches exactly", "statement": "retrieve_cred returns a stored credential only if its ID_CRED equals the received one byte for byte (first match), otherwise credential_not_found.", "quantifier": "all credential stores and identifiers", "why_tests_cant": "All stores.", "anchors": ["src/edhoc/retrieve_cred.c"]}
{"id": "C44", "title": "EDHOC: an error in any step aborts the run", "statement": "If generating or processing a message fails, edhoc_initiator_run / edhoc_responder_run return that error and send nothing afterwards.", "quantifier": "all failure points", "why_tests_cant": "All failure points.", "anchors": ["src/edhoc/initiator.c: msg3_gen, edhoc_initiator_run_extended", "src/edhoc/responder.c: edhoc_responder_run_extended"]}
{"id": "C45", "title": "EDHOC: both parties use the same bytes for the connection identifiers", "statement": "The connection identifier that one party configures is represented by the same byte string at the other party after the exchange.", "quantifier": "all C_I and C_R values", "why_tests_cant": "All identifiers.", "anchors": ["src/edhoc/responder.c: msg1_parse", "src/edhoc/plaintext_decode.c: plaintext2_split"]}
{"id": "C46", "title": "CBOR byte strings and integers round-trip", "statement": "decode_bstr(encode_bstr(x)) = x for every x; encode_int/decode_int round-trip on the one-byte range and reject other lengths.", "quantifier": "all byte strings, all 32-bit integers", "why_tests_cant": "All values.", "anchors": ["src/edhoc/bstr_encode_decode.c", "src/edhoc/int_encode_decode.c"]}
{"id": "C47", "title": "EDHOC: transcript hashes bind all their inputs", "statement": "The input of TH_2 determines G_Y and H(message_1); the input of TH_3/TH_4 determines the previous hash, the plaintext and the credential as one string with unambiguous prefix; two equal TH_2 (TH_3, TH_4) of different data exhibit a collision of the hash between exactly the two encoded inputs.", "quantifier": "all inputs", "why_tests_cant": "Injectivity.", "anchors": ["src/edhoc/th.c", "src/cbor/edhoc_encode_th2.c"]}
{"id": "C48", "title": "Copy primitives are safe and exact", "statement": "_memcpy_s, byte_array_cpy, byte_array_append write at most the destination length, copy exactly the source when they return ok and report buffer_to_small otherwise; array_equals decides equality of contents.", "quantifier": "all buffers", "why_tests_cant": "All lengths.", "anchors": ["src/common/memcpy_s.c", "src/common/byte_array.c"]}
{"id": "C49", "title": "EDHOC: certificates are accepted only under a configured CA", "statement": "A certificate received by value is used only if its issuer equals the subject of a configured CA (or the single configured CA key) and the signature verification with that CA key succeeded.", "quantifier": "all certificates and CA configurations", "why_tests_cant": "Adversary-chosen certificates.", "anchors": ["src/edhoc/cert.c: ca_pk_get, cert_c509_verify", "src/edhoc/retrieve_cred.c: verify_cert2cred"]}
{"id": "C50", "title": "EDHOC: exported keys depend on label, context and length", "statement": "edhoc_exporter output is KDF(PRK_exporter, label, context, length); master secret and master salt use different labels, and both parties of an agreed session export equal values.", "quantifier": "all PRK_out, labels, contexts", "why_tests_cant": "All inputs.", "anchors": ["src/edhoc/edhoc_exporter.c", "src/edhoc/okm.c", "src/edhoc/prk.c"]}
{"id": "C51", "title": "P-256 point decompression is exact", "statement": "Decompressing a 32-byte x-coordinate succeeds if and only if it is the x-coordinate of a point of P-256, and then yields 04 || x || y for a point on the curve; anything else is refused, and the result does not depend on uninitialised memory.", "quantifier": "all 32-byte inputs, all input lengths and buffer sizes, all contents of stack memory", "why_tests_cant": "2^256 inputs; a carry bug affects a vanishing fraction of them.", "anchors": ["src/common/crypto_p256.c:crypto_p256_uncompress_point"]}
{"id": "C52", "title": "P-256 field arithmetic has no carry or reduction bug", "statement": "Modular addition, subtraction and Montgomery multiplication give the exact reduced result for every valid modulus and all reduced operands; conversion to and from the Montgomery domain are inverse; both variants of the 32x32 multiply-add agree.", "quantifier": "all moduli and all operands", "why_tests_cant": "The operand space is 2^512.", "anchors": ["src/common/crypto_p256.c:m256_mul", "src/common/crypto_p256.c:m256_add", "src/common/crypto_p256.c:m256_sub", "src/common/crypto_p256.c:u32_muladd64"]}
{"id": "C53", "title": "P-256 key agreement: only valid points, both sides agree", "statement": "With MBEDTLS, a peer's public value is used only as a point of the curve with that x-coordinate, invalid values are refused, and two parties exchanging x-coordinates of generated keys get the same secret; a stored static DH key can be used in either format the API accepts.", "quantifier": "all key pairs, all received values", "why_tests_cant": "Invalid-curve values and sign ambiguity range over all field elements.", "anchors": ["src/common/crypto_wrapper.c:shared_secret_derive", "src/common/crypto_wrapper.c:ephemeral_dh_key_gen", "src/edhoc/retrieve_cred.c:get_local_cred"]}
{"id": "C54", "title": "An ephemeral X25519 key pair is derived from the caller's seed", "statement": "The key pair returned is the one derived from the hash of the seed passed by the caller, whatever memory contains.", "quantifier": "all seeds and all memory contents", "why_tests_cant": "Dependence on uninitialised memory is invisible to a test that gets lucky (or unlucky) memory.", "anchors": ["src/common/crypto_wrapper.c:ephemeral_dh_key_gen"]}
{"id": "C55", "title": "X.509 certificates without MBEDTLS: in bounds, and only the certified key", "statement": "When the library is built without MBEDTLS, processing a received X.509 certificate never reads or writes outside the certificate and the caller's buffers; a certificate is accepted only if a single CA key is configured and that key verifies the certificate's signed part; and the key handed to the protocol is the subject key inside that signed part. Every well-formed certificate signed by the CA is accepted.", "quantifier": "all byte strings received as a certificate, all CA key configurations, all signature primitives, all contents of uninitialised buffers", "why_tests_cant": "The certificate is attacker-controlled and of any length; a handful of example certificates does not show that no malformed one makes the parser leave its buffers or pick a key outside the signed part.", "anchors": ["src/edhoc/cert.c: cert_x509_verify", "src/edhoc/cert.c: mbedtls_asn1_get_len", "src/edhoc/cert.c: ca_pk_get", "src/common/crypto_wrapper.c: verify"]}
{"id": "C56", "title": "P-256 key agreement without MBEDTLS: agreement, and only with points of the curve", "statement": "Built with TINYCRYPT, two parties that generate ephemeral P-256 keys and exchange only x-coordinates derive the same secret (also with a peer built with MBEDTLS), namely the x-coordinate of the product of both scalars and the generator; a public value that is not the 32-byte x-coordinate of a curve point is refused; a peer's static key in any of the stored formats is used as that key.", "quantifier": "all key pairs, all byte strings received as public value, all secret keys", "why_tests_cant": "Agreement must hold for every pair of scalars and both signs of each point, and refusal for every one of the about 2^255 values off the curve.", "anchors": ["src/common/crypto_wrapper.c: uECC_vli_add", "src/common/crypto_wrapper.c: mod_sqrt_default", "src/common/crypto_wrapper.c: uECC_decompress", "src/common/crypto_wrapper.c: shared_secret_derive", "src/common/crypto_wrapper.c: ephemeral_dh_key_gen"]}
{"id": "C57", "title": "From EDHOC to protected messages", "statement": "After an honest EDHOC run, setting up OSCORE with the exported master secret and salt, C_R as the initiator's and C_I as the responder's sender ID, gives both parties contexts that understand each other: the first request of either party is delivered unchanged by the other, and so is its response. The two parties never send with the same key and ID.", "quantifier": "all consistently configured pairs of parties, all key material, all connection identifiers of at most 8 bytes, all ID contexts, all CoAP requests and responses", "why_tests_cant": "It composes two protocols and must hold for every key, identifier and message; sample programs run a few fixed vectors.", "anchors": ["src/edhoc/initiator.c: edhoc_initiator_run", "src/edhoc/responder.c: edhoc_responder_run", "src/edhoc/edhoc_exporter.c", "src/oscore/security_context.c: oscore_context_init", "src/oscore/coap2oscore.c: coap2oscore", "src/oscore/oscore2coap.c: oscore2coap", "samples/linux_edhoc_oscore"]}
{"id": "C58", "title": "Every challenge can be sent and is remembered as sent", "statement": "A server that must verify a client's freshness can send, at any time, a challenge with an Echo value of up to 12 bytes; the value remembered for comparing the client's answer is exactly the one sent, and the memory kept for it never exceeds 12 bytes.", "quantifier": "all configurations, all histories of calls on the context, all challenges", "why_tests_cant": "The room for the value is a field of the context that every challenge modifies, so the claim is about all sequences of challenges and requests.", "anchors": ["src/oscore/option.c: cache_echo_val", "src/oscore/coap2oscore.c: coap2oscore", "inc/oscore/security_context.h: ECHO_OPT_VALUE_LEN"]}
{"id": "C59", "title": "X.509 certificates with MBEDTLS: in bounds, and genuine certificates accepted", "statement": "Built with MBEDTLS, processing a received X.509 certificate never reads or writes outside the certificate and the caller's buffers; a genuine ECDSA/SHA-256 certificate of a configured CA is accepted, with exactly its subject key; and the bytes checked as signature are the certificate's.", "quantifier": "all byte strings received as a certificate, all results of the X.509 parser, all CA configurations, all signature values, all contents of uninitialised buffers", "why_tests_cant": "The certificate is attacker-controlled; and signature values whose DER encoding is shorter than 32 bytes occur once in some hundred signatures, so example certificates miss them.", "anchors": ["src/edhoc/cert.c: cert_x509_verify", "src/edhoc/cert.c: deser_sign_cb", "src/edhoc/cert.c: find_pk_cb", "src/edhoc/cert.c: ca_pk_get"]}
{"id": "C60", "title": "Same exported key, same session", "statement": "Whatever the network does, if an initiator and a responder both finish and export the same PRK_out (of at least 32 bytes), then the responder received exactly the message_1 the initiator sent, the initiator received the responder's G_Y, both hold the same C_R and (as stored) C_I, the credentials looked up belong to the peers' ID_CREDs, and TH_4 and PRK_4e3m agree; changing any of message_1 or G_Y in transit therefore makes the exported keys differ. The only escape is a collision of the hash or of HMAC between the strings these two runs feed to them.", "quantifier": "all configurations, all cryptographic primitives of the right sizes, all contexts and credential lists, all messages delivered to either party (the network is adversarial)", "why_tests_cant": "The two runs see arbitrary, different messages; tests only see relayed ones.", "anchors": ["src/edhoc/initiator.c: edhoc_initiator_run_extended", "src/edhoc/responder.c: edhoc_responder_run_extended", "src/edhoc/th.c", "src/edhoc/hkdf_info.c", "src/cbor/edhoc_decode_plaintext2.c", "src/cbor/edhoc_decode_plaintext3.c"]}
{"id": "C61", "title": "What oscore2coap delivers was given to the peer's coap2oscore", "statement": "If oscore2coap returns ok for a packet whose ciphertext the peer made (AEAD unforgeability), then the peer was given, in one call of coap2oscore, a message with exactly the delivered code, payload and protected options; a delivered request carries the sequence number the peer used for that message, a delivered response answers the request the receiver has outstanding under its token. Nothing in the delivered message other than the outer header and class-U options comes from the network.", "quantifier": "all histories of the sender (including failed calls), all receiver contexts, all attacker-made packets", "why_tests_cant": "An attacker's packets and the sender's history are unbounded; tests use packets from honest senders.", "anchors": ["src/oscore/oscore2coap.c: oscore2coap, decrypt_wrapper, options_reorder, o_coap_pkg_generate", "src/oscore/coap2oscore.c: coap2oscore, encrypt_wrapper, plaintext_setup", "src/oscore/option.c: oscore_decrypted_payload_parser"]}
{"id": "C62", "title": "Every successful EDHOC run computes RFC 9528's keys, MACs and ciphertexts", "statement": "Every edhoc_initiator_run that returns ok and writes PRK_out, and every edhoc_responder_run that returns ok, did exactly what RFC 9528 prescribes: message_1 is the RFC's encoding of the caller's parameters; TH_2, PRK_2e, PRK_3e2m, TH_3, PRK_4e3m, TH_4 and PRK_out are those of the RFC's key schedule over the messages on the wire, the ECDH secret and the static-DH secrets the method asks for; plaintext_2 and ciphertext_2 differ by KEYSTREAM_2; message_3 (and message_4) are AEAD encryptions under K_3/IV_3 (K_4/IV_4) with the RFC's associated data; Signature_or_MAC_2 and _3 are made and checked over the RFC's MAC_2 and MAC_3 and Sig_structure.", "quantifier": "all configurations, methods, cipher suites, parameters, credentials, networks and received messages, PRK_out lengths up to 8160 bytes", "why_tests_cant": "test vectors fix a handful of transcripts; a deviation in one field for one method, suite or identifier only shows against another implementation", "anchors": ["src/edhoc/initiator.c: msg1_gen, msg2_process, msg3_only_gen, msg3_gen, msg4_process", "src/edhoc/responder.c: msg2_gen, msg3_process, msg4_gen", "src/edhoc/prk.c: prk_derive", "src/edhoc/signature_or_mac_msg.c: mac, signature_or_mac", "src/edhoc/ciphertext.c: ciphertext_gen, ciphertext_decrypt_split", "src/edhoc/hkdf_info.c: create_hkdf_info", "src/edhoc/th.c: th2_calculate, th34_calculate"]}
{"id": "C63", "title": "EDHOC accepts exactly the messages of RFC 9528's grammar", "statement": "message_1 is accepted by edhoc_responder_run's parser if and only if it is a message_1 of the CDDL of RFC 9528 (METHOD 0 to 3, SUITES_I an int or an array of 2 to 10 ints, G_X of at most 32 bytes, C_I an int or byte string, optional EAD_1) whose fields fit the configured buffers, and the fields used afterwards are those of the message; message_2 if and only if it is one byte string of G_Y (32 bytes) and CIPHERTEXT_2; PLAINTEXT_2 and PLAINTEXT_3 are accepted only if they are in the grammar and then give the fields of the plaintext. Anything else is refused, and the responder sends nothing. With canonical decoding, no field has a second encoding.", "quantifier": "all byte strings received, all configurations (buffer sizes, canonical decoding on or off)", "why_tests_cant": "the set of malformed messages is infinite; fuzzing finds crashes, not a decoder that accepts one wrong encoding or refuses a right one", "anchors": ["src/cbor/edhoc_decode_message_1.c", "src/cbor/edhoc_decode_message_2.c", "src/cbor/edhoc_decode_plaintext2.c", "src/cbor/edhoc_decode_plaintext3.c", "src/cbor/edhoc_decode_bstr_type.c", "externals/zcbor/src/zcbor_decode.c", "src/edhoc/responder.c: msg1_parse", "src/edhoc/plaintext.c: plaintext_split", "cddl/edhoc_message_1.cddl"]}
{"id": "C64", "title": "A conversation never gets stuck while there are sequence numbers", "statement": "Two parties initialise contexts from mirrored parameters and talk: requests, responses, registrations, cancellations and notifications, from either side, in any order that CoAP allows (a token is not in use twice, a response answers an outstanding request, no more than OSCORE_INTERACTIONS_COUNT requests are outstanding), each message delivered before the next is sent. Then every call of coap2oscore and oscore2coap succeeds and every message arrives, for as many messages as there are sequence numbers. The same holds over the contexts of an honest EDHOC run.", "quantifier": "all crypto satisfying the AEAD law and accepting every input, all mirrored parameters with IDs of at most 4 bytes, all conversations (any length up to 2^23-1, any messages the library can carry)", "why_tests_cant": "a conversation is an unbounded history over two coupled states (sequence numbers, replay windows, interaction tables, nonces); a test runs a few messages", "anchors": ["src/oscore/coap2oscore.c: coap2oscore", "src/oscore/oscore2coap.c: oscore2coap", "src/oscore/oscore_interactions.c", "src/oscore/security_context.c: oscore_context_init"]}
{"id": "C65", "title": "The crypto wrapper fails closed and leaves no keys in the key store", "statement": "In the MBEDTLS configuration (with COMPACT25519): whichever calls into the PSA library fail, a function of crypto_wrapper.h that returns ok has computed exactly the value it promises (AEAD output and tag, HKDF per RFC 5869, a 64 byte signature, verified = true only for a verified signature, the shared secret with the decompressed point, a fresh key pair, SHA-256); every key it put into the PSA key store is gone when it returns, on success and on every error path, unless psa_destroy_key itself failed (then at most one key per failure), so any history of calls needs only one free slot; there is no undefined behaviour when the caller's buffers have the promised sizes; and when no PSA call fails spontaneously the functions are input for input the primitives that the models of OSCORE and EDHOC are parameterised with.", "quantifier": "all libraries with the size laws, all failure patterns of the library (any set of calls), all arguments, all histories of calls of any length", "why_tests_cant": "the error paths of the wrapper need failures of the crypto library at arbitrary points; a leaked slot shows only after dozens of failing calls", "anchors": ["src/common/crypto_wrapper.c: TRY_EXPECT_PSA, aead, sign, verify, hkdf_extract, hkdf_expand, hkdf_sha_256, shared_secret_derive, ephemeral_dh_key_gen, hash", "inc/common/crypto_wrapper.h"]}
{"id": "C66", "title": "The OSCORE calls never touch memory outside their objects", "statement": "For every context, every content of its replay window, Echo state, interaction table and nonce cache, every crypto library answer and every NVM answer, coap2oscore and oscore2coap never read or write outside the packet, the caller's buffers or their own buffers, never dereference NULL and never use indeterminate bytes; in particular a network attacker without the keys cannot cause it with any packet.", "quantifier": "every configuration, context, crypto primitive, packet, buffer size and every history of calls", "why_tests_cant": "A buffer overrun needs one particular combination of packet bytes, lengths and state; sanitizers only see the inputs that are tried, while an attacker chooses among all of them.", "anchors": ["src/oscore/oscore2coap.c: oscore2coap, decrypt_wrapper, oscore_option_parser", "src/oscore/coap2oscore.c: coap2oscore, plaintext_setup", "src/oscore/nonce.c: create_nonce", "src/oscore/oscore_coap.c: options_deserialize, options_serialize, coap_serialize", "src/oscore/option.c: uri_path_create, oscore_decrypted_payload_parser"]}
{"id": "C67", "title": "OSCORE packets are those of RFC 8613 and those of other implementations are understood", "statement": "The packet coap2oscore writes for a CoAP message is, byte for byte, the packet RFC 8613 defines for that message, security context and Partial IV (outer code, class U/E/I options, OSCORE option, nonce, AAD, plaintext); and oscore2coap returns the original message for every packet another conforming implementation makes for it: requests with any Partial IV encoding and kid context, responses with the request's nonce, responses and notifications with a Partial IV of their own, with or without kid.", "quantifier": "every context, lawful crypto, message within the library limits, Partial IV, kid context and history state", "why_tests_cant": "Interoperability is a statement about all messages and all legal encodings of other implementations; test vectors cover six packets.", "anchors": ["src/oscore/coap2oscore.c: coap2oscore, oscore_pkg_generate, oscore_option_generate", "src/oscore/oscore2coap.c: oscore2coap, decrypt_wrapper", "src/oscore/nonce.c: create_nonce", "src/oscore/aad.c: create_aad", "src/oscore/option.c: option_to_option_class"]}
{"id": "C68", "title": "EDHOC runs never touch memory outside their objects", "statement": "Whatever bytes an attacker delivers as EDHOC messages and whatever the transport and EAD callbacks answer, edhoc_initiator_run_extended and edhoc_responder_run_extended end with ok or an error code: they never read or write outside the caller's buffers, their own arrays, the keys and the received fields, and never use an uninitialised identifier.", "quantifier": "every build configuration, own context, credential store, sequence of delivered messages and callback results", "why_tests_cant": "Memory safety on hostile input is a statement about all inputs; fuzzing samples them and needs the peer keys to get behind the decryption of message_3.", "anchors": ["src/edhoc/initiator.c: edhoc_initiator_run_extended, msg2_process, msg3_only_gen", "src/edhoc/responder.c: edhoc_responder_run_extended, msg2_gen, msg3_process", "src/edhoc/plaintext.c: plaintext_split", "src/edhoc/ciphertext.c: ciphertext_gen", "src/common/crypto_wrapper.c: sign, verify, shared_secret_derive", "src/edhoc/retrieve_cred.c: retrieve_cred"]}
{"id": "C69", "title": "The assumptions about the primitives hold of the standardised ones", "statement": "Everything the other properties assume of the configured cryptographic functions holds of the ones the library is configured with: HMAC-SHA-256 and SHA-256 always return 32 bytes; AES-CCM decryption of a packet succeeds with plaintext p exactly when the packet is the encryption of p under the same key, nonce, associated data and tag length; and encryption never fails for the sizes OSCORE and EDHOC use.", "quantifier": "all keys, nonces, associated data, plaintexts and ciphertexts of any length", "why_tests_cant": "Test vectors exercise a handful of inputs; an AEAD whose decryption disagrees with its encryption on some length or whose laws conflict would make every theorem that assumes them empty.", "anchors": ["src/common/crypto_wrapper.c: aead, hkdf_extract, hkdf_expand, hash", "test_vectors/oscore_test_vectors.c", "test/oscore_tests/oscore_tests.c"]}
{"id": "C70", "title": "The generated CBOR code implements the grammar", "statement": "The generated CBOR functions (cbor_decode_*, cbor_encode_*), run on zcbor's cursor, element counter and bounded stack of backups, implement the CDDL: whatever the library does to its state when a value is refused, every input of the grammar is decoded to its fields, and every encoder writes exactly the deterministic encoding of its arguments if that fits the buffer, and reports failure otherwise; and with a library that restores its state on refusal, nothing outside the grammar is decoded.", "quantifier": "all byte strings, all field values, all buffer sizes, and all library behaviours on refused values", "why_tests_cant": "The decoders backtrack through unions, optional map entries and bounded loops over a shared cursor; a missing restore or one backup too few shows only on particular malformed or deeply nested inputs.", "anchors": ["src/cbor/*.c", "inc/cbor/*.h", "cddl_models/*.cddl"]}
{"id": "C71", "title": "EDHOC: what a run leaves in the caller's output buffers", "statement": "Whatever edhoc_initiator_run(_extended) and edhoc_responder_run(_extended) return, prk_out is either untouched or holds the session key of a run whose received messages authenticate the peer; after a run that returned ok c_r_bytes, c_i_bytes, prk_out and initiator_pk hold what the run used, each with its length; and a run that failed leaves the output arrays as they were.", "quantifier": "all messages, all failures of the callbacks at any call, all contents and sizes of the output arrays", "why_tests_cant": "The outputs are written in the middle of the runs; which of them are written when a later step or callback fails depends on the schedule of failures, and an attacker chooses the messages.", "anchors": ["src/edhoc/initiator.c edhoc_initiator_run_extended, edhoc_initiator_run", "src/edhoc/responder.c edhoc_responder_run_extended, edhoc_responder_run, msg3_process, msg1_parse", "src/edhoc/plaintext_decode.c plaintext2_split"]}
{"id": "C72", "title": "Calls for different security contexts do not influence each other", "statement": "coap2oscore for one security context puts the Partial IV of its own sequence number on the wire, whatever calls for other security contexts happened before or happen at the same time in other threads.", "quantifier": "all sequence numbers, all leftovers of earlier calls, any number of threads and every interleaving of their steps", "why_tests_cant": "Depends on the interleaving of threads inside a library function; the unit tests are single-threaded and each context is tested alone.", "anchors": ["src/oscore/security_context.c ssn2piv (static tmp_piv)"]}
{"id": "C73", "title": "Honest parties with standard keys always reach the same session", "statement": "Two honest, consistently configured parties whose keys are key pairs as the standards define them (X25519 / Ed25519, or P-256 ECDH / ES256) complete edhoc_initiator_run and edhoc_responder_run with the same PRK_out, derive mirrored OSCORE contexts, and deliver every request and response over them. Nothing beyond the standards has to be assumed of the crypto libraries.", "quantifier": "all secret keys (and hence all key pairs), all four methods, all suites, all messages signed, every consistent configuration, every sequence of protected messages", "why_tests_cant": "Needs commutation of scalar multiplication and soundness of the signature equations for every key, including exceptional points (points at infinity, equal and opposite points in additions, both square roots on decompression).", "anchors": ["src/edhoc/initiator.c edhoc_initiator_run", "src/edhoc/responder.c edhoc_responder_run", "src/common/crypto_wrapper.c shared_secret_derive, sign, verify, ephemeral_dh_key_gen", "src/common/crypto_p256.c"]}
{"id": "C74", "title": "Every response belongs to a request that is still open, and open requests stay open", "statement": "coap2oscore protects a response or notification, and oscore2coap delivers one, only if an earlier call on the context handled a request with that token which no later call finished or replaced; it is bound to the KID and PIV of that request. A request that was sent or delivered stays open through every later history until a response (other than a notification) with its token authenticates or is protected, or a request for the same path and of the same kind (observation or not), of either direction, takes its place. So a notification the server protects reaches the client with its contents whatever else happened on both sides since the registration, provided its number is newer than the last one accepted.", "quantifier": "all histories of coap2oscore and oscore2coap calls of both endpoints, with any packets (forged, replayed, malformed) and any failures, between the request and the response", "why_tests_cant": "The set of open exchanges depends on the whole history of both endpoints; tests exercise a handful of schedules.", "anchors": ["src/oscore/oscore_interactions.c oscore_interactions_set_record, oscore_interactions_get_record, oscore_interactions_remove_record, oscore_interactions_read_wrapper, oscore_interactions_update_wrapper", "src/oscore/coap2oscore.c coap2oscore, encrypt_wrapper", "src/oscore/oscore2coap.c oscore2coap, decrypt_wrapper"]}
{"id": "C75", "title": "A completed EDHOC run whose peer signs has a partner", "statement": "If edhoc_initiator_run returns ok and the responder authenticates by a signature, and the received signature is not a forgery under the key found for the received ID_CRED_R (if it verifies for the checked string, that string was signed in some edhoc run), then some responder run received exactly the message_1 this initiator sent, used the G_Y, C_R and ID_CRED_R this initiator received and the same CRED_R followed by EAD_2, and computed the same G_XY. If edhoc_responder_run returns ok and the initiator authenticates by a signature, then likewise some initiator run sent exactly the message_1 received, received this responder's G_Y and C_R, accepted message_2 with the same TH_3 and PRK_3e2m, and used the ID_CRED_I and CRED_I followed by EAD_3 this responder has. A party's own signature, or a signature made in the other role with the same key, never passes for the peer's.", "quantifier": "all networks (any adversarial messages), all sets of concurrent initiator and responder runs of all parties (also with one key in both roles), all contexts, configurations and credentials; up to a collision of the hash or the HMAC between the strings the two runs feed to them, and assuming the one received signature is not a forgery", "why_tests_cant": "The claim is about all sessions of all parties and all adversaries; tests run one pair.", "anchors": ["src/edhoc/initiator.c edhoc_initiator_run, msg2_process, msg3_only_gen", "src/edhoc/responder.c edhoc_responder_run, msg2_gen, msg3_process", "src/edhoc/signature_or_mac_msg.c signature_or_mac, mac, signature_struct_gen", "src/edhoc/th.c th2_calculate, th34_calculate"]}
{"id": "C76", "title": "Two parties with restarts over a network that loses messages and injects forgeries", "statement": "Two parties with mirrored parameters exchange messages with coap2oscore and oscore2coap; any message may be lost, forged packets may arrive at any time, and either party may lose power and call oscore_context_init again, any number of times, keeping its keys and the number in non-volatile memory. At every point each party does what RFC 8613 Appendix B.1 prescribes: forgeries are rejected and change nothing, the first request after a restart is refused with first_request_after_reboot, requests without the Echo value of the last challenge are refused with echo_validation_failed, the first one with it and all later ones are delivered exactly, and so are responses and notifications. Lost messages and restarts never lock a party out: after any history a restarted server serves the client again within three messages.", "quantifier": "all histories of sends, losses, forgeries and restarts of both parties, of any length up to the end of the sequence numbers, all messages, keys and configurations", "why_tests_cant": "The state after a restart depends on everything sent before it, on what was lost and on where the last write to non-volatile memory was; tests try a few histories.", "anchors": ["src/oscore/oscore2coap.c oscore2coap", "src/oscore/coap2oscore.c coap2oscore, generate_new_ssn", "src/oscore/security_context.c oscore_context_init", "src/oscore/nvm.c ssn_init, ssn_store_in_nvm", "src/oscore/replay_protection.c server_is_sequence_number_valid, server_replay_window_update"]}
{"id": "C77", "title": "EDHOC key confirmation: a completed run with message_4 has a partner, for all methods", "statement": "If the library is built with MESSAGE_4 and edhoc_initiator_run returns ok, and the ciphertext of the received message_4 is not a forgery under K_4 and IV_4, then some responder run received exactly the message_1 this initiator sent, used the G_Y this initiator received, and has the same TH_4, PRK_4e3m and PRK_out, and the same C_R, C_I and looked-up credentials. If edhoc_responder_run returns ok and the ciphertext of the received message_3 is not a forgery under K_3 and IV_3, then some initiator run sent exactly the message_1 received, received this responder's G_Y, accepted message_2 with the same TH_3 and PRK_3e2m, and made exactly the plaintext_3 read here. Both hold for all authentication methods, also for static DH.", "quantifier": "all networks, all sets of initiator and responder runs of all parties, all contexts, methods, configurations and credentials; up to a collision between the hash inputs or AEAD keys that the runs really use", "why_tests_cant": "The partner is one of arbitrarily many concurrent runs and the network is adversarial; tests run one honest pair.", "anchors": ["src/edhoc/initiator.c msg4_process, edhoc_initiator_run_extended", "src/edhoc/responder.c msg3_process, msg4_gen, edhoc_responder_run_extended", "src/edhoc/ciphertext.c ciphertext_gen, ciphertext_decrypt_split"]}
{"id": "C78", "title": "A context does not depend on the memory its parameters were passed in", "statement": "After oscore_context_init has returned, the caller may overwrite or free the buffers that held the parameters, and may move the context: every later coap2oscore/oscore2coap call behaves as with the parameter values at the time of the initialisation.", "quantifier": "all parameters, all memory contents, all later histories of initialisations, calls, writes to the caller's own objects", "why_tests_cant": "What a later call reads depends on which fields are pointers and on every write in between; tests keep the parameters in static arrays.", "anchors": ["src/oscore/security_context.c oscore_context_init, derive", "inc/oscore/security_context.h struct context", "inc/oscore.h struct oscore_init_params", "src/oscore/coap2oscore.c encrypt_wrapper, generate_new_ssn"]}
{"id": "C79", "title": "Contexts do not disturb each other", "statement": "A program may use any number of OSCORE contexts, interleaving initialisations and calls in any order: the calls on one context return what they would return if it were the only one, and leave its state, its stored sequence number and its nonces as if it were alone, provided every context lies in its own struct, the buffers of its sender ID and ID Context stay, and non-fresh contexts have different (sender ID, recipient ID, ID Context).", "quantifier": "all programs with any number of contexts, all interleavings and histories, all packets, all memory contents", "why_tests_cant": "Interleavings of arbitrarily many contexts cannot be enumerated; the interesting interference is through shared memory and the shared storage cell.", "anchors": ["src/oscore/security_context.c oscore_context_init", "src/oscore/coap2oscore.c coap2oscore, generate_new_ssn", "src/oscore/oscore2coap.c oscore2coap", "src/oscore/nvm.c ssn_store_in_nvm, ssn_init", "inc/oscore/nvm.h struct nvm_key_t"]}
{"id": "C80", "title": "Nothing unauthenticated reaches the callbacks", "statement": "In every run of edhoc_initiator_run and edhoc_responder_run, whatever it returns and whatever rx, tx and ead_process answer: tx and ead_process are called at most twice, in the order of the protocol; the initiator hands EAD_2 to ead_process and sends a second message only after a message_2 was received whose signature (or MAC) was verified over that EAD_2; the responder hands EAD_3 to ead_process and sends message_4 only after a message_3 with a valid tag was received whose signature (or MAC) was verified over that EAD_3; EAD_4 comes from a message_4 with a valid tag. If the peer signs and the signature is not a forgery, the value given to ead_process is the EAD with which a session of the peer's key answered exactly this session.", "quantifier": "all contexts and credentials, all received bytes, all answers of the callbacks (also failing ones), all results of the run, all methods and suites", "why_tests_cant": "A test sees the callbacks of a few runs; the property is about every run that fails at any point, and about every message an attacker can send.", "anchors": ["src/edhoc/initiator.c edhoc_initiator_run_extended, msg2_process, msg3_gen, msg4_process", "src/edhoc/responder.c edhoc_responder_run_extended, msg2_gen, msg3_process", "src/edhoc/signature_or_mac_msg.c signature_or_mac", "inc/edhoc.h ead_process"]}
{"id": "C81", "title": "A call whose output did not fit can be repeated", "statement": "coap2oscore and oscore2coap report buffer_to_small when the output buffer is too small (and coap2oscore an error when the sequence number cannot be stored). The caller may repeat the call with the same message and a larger buffer (or working storage) and gets what the first call should have given.", "quantifier": "all messages, buffer sizes, results of nvm_write_ssn, security contexts and histories before and between the two calls", "why_tests_cant": "Which state a failing call leaves behind, and whether the second call succeeds from it, depends on the history, on the table of exchanges and on where the first call stopped; tests check that a small buffer is refused.", "anchors": ["src/oscore/coap2oscore.c coap2oscore, encrypt_wrapper", "src/oscore/oscore2coap.c oscore2coap", "src/common/memcpy_s.c", "src/oscore/oscore_interactions.c"]}
{"id": "C82", "title": "The build with variable length arrays behaves as the default build", "statement": "Compiled with VLA defined, coap2oscore and oscore2coap return the same bytes and leave the same security context, the same stored sequence number and the same AEAD calls behind as the default build, for every call and after every history of calls; edhoc_initiator_run and edhoc_responder_run send the same messages, call the callbacks with the same data and give the same results; only a message too large for a local buffer is refused with vla_insufficient_size in place of buffer_to_small.", "quantifier": "all configurations, contexts, messages, output buffer sizes, results of nvm_write_ssn and histories of calls; all EDHOC parameters, credentials and networks", "why_tests_cant": "The two builds differ in where memory ends, for every message length; tests run one build with a few messages.", "anchors": ["inc/common/byte_array.h BYTE_ARRAY_NEW", "src/oscore/coap2oscore.c coap2oscore, plaintext_setup", "src/oscore/oscore2coap.c oscore2coap", "src/oscore/oscore_coap.c coap_serialize", "src/oscore/oscore_cose.c", "src/edhoc/initiator.c", "src/edhoc/responder.c", "src/edhoc/ciphertext.c", "src/edhoc/signature_or_mac_msg.c"]}
{"id": "C83", "title": "Every loop ends", "statement": "For every replay window, table of interactions, byte string and list of credentials, and every number, token, path, issuer and identifier searched for, the library's loops end, with the result the other properties are about: no message and no configuration makes a call hang.", "quantifier": "all window sizes and contents, interaction tables, byte strings, credential lists and search keys", "why_tests_cant": "A loop whose bound does not fit its counter runs for ever only for sizes that tests do not configure; no test observes that something never ends.", "anchors": ["src/oscore/replay_protection.c", "src/oscore/oscore_interactions.c", "src/common/byte_array.c array_equals", "src/edhoc/ciphertext.c xor_arrays", "src/edhoc/cert.c ca_pk_get", "src/edhoc/retrieve_cred.c get_local_cred"]}
{"id": "C84", "title": "EDHOC error messages end the session and are reported on both sides", "statement": "If the peer answers with an EDHOC error message (RFC 9528, 6) in place of message_1, message_2, message_3 or message_4, the run ends with an error, sends nothing more, hands no further EAD to the application and never counts the message as the expected one; the caller learns that an error message arrived (error_message_received, err_msg). If a run refuses a message of the peer, the peer is sent an error message, and error_message_sent is returned only then.", "quantifier": "all configurations, contexts, credentials, error messages with any code and any information, and all answers of the callbacks", "why_tests_cant": "Error messages have any content and may arrive at any point; a test sends one or two.", "anchors": ["src/edhoc/initiator.c edhoc_initiator_run_extended", "src/edhoc/responder.c edhoc_responder_run_extended, msg2_gen (line 184)", "src/edhoc/ciphertext.c:148", "inc/edhoc.h err_msg", "inc/common/oscore_edhoc_error.h"]}
{"id": "C85", "title": "Output buffers of a known size always suffice", "statement": "An application that hands oscore2coap an output buffer at least as large as the received packet (even ten bytes less) never loses a message for lack of room: the result and the context are those of a call with any larger buffer, and what is delivered is at least ten bytes shorter than what was received. For coap2oscore it is enough to allow, on top of the packet, 35 bytes plus three for every option that stays outside plus the value of Observe (64 in all for ordinary packets); the 35 are needed. In both directions the smallest buffer that works is exactly as long as the result.", "quantifier": "all configurations, contexts, packets of less than 65536 bytes (well formed or not, options in any order, with wrapped deltas) and buffer sizes, for every cipher whose ciphertexts are 8 bytes longer than the plaintexts", "why_tests_cant": "The size of the result depends on how the deltas of merged, sorted and filtered options are coded; tests try a few packets.", "anchors": ["src/oscore/oscore2coap.c oscore2coap, o_coap_pkg_generate, options_reorder", "src/oscore/coap2oscore.c coap2oscore, oscore_pkg_generate, inner_outer_option_split", "src/oscore/oscore_coap.c coap_serialize, options_serialize"]}
{"id": "C86", "title": "Proxies do not disturb protected exchanges", "statement": "CoAP proxies on the path may give an OSCORE message a new type, message ID and token and may consume, change or add Uri-Host, Uri-Port, Proxy-Uri and Proxy-Scheme. Whatever they do of that, oscore2coap at the other end delivers the code, the payload and all other options of the message that was protected, unchanged and in order, with the token and proxy options of the packet that arrived; a request is remembered under the token it arrived with; and the answer protected for that token is delivered at the client if it comes back with the token of the request.", "quantifier": "all configurations, lawful ciphers, pairs of contexts with matching keys, requests, responses and notifications that the library can process, and all packets a proxy may make of them (any number of proxies)", "why_tests_cant": "The property ranges over everything proxies may do to the options, tokens and message IDs of a packet in both directions.", "anchors": ["src/oscore/oscore2coap.c oscore2coap, o_coap_pkg_generate, options_reorder", "src/oscore/coap2oscore.c coap2oscore, inner_outer_option_split", "src/oscore/oscore_interactions.c oscore_interactions_update_wrapper, oscore_interactions_read_wrapper"]}
{"id": "C87", "title": "EDHOC: identities travel only encrypted", "statement": "Everything that tells who a party is - credential identifier, credential, long-term keys, signature or MAC, EAD_3 (initiator) and also C_R, EAD_2, EAD_4 (responder) - appears on the network only inside ciphertexts: initiators that differ only in these send, in the same situation, the same message_1 and then at most one more byte string, an AEAD ciphertext under one key and nonce that do not depend on them; responders that differ only in these send at most G_Y followed by a plaintext XORed with one keystream for its length, and an AEAD ciphertext of EAD_4. This holds in every run, also against a peer that is not authenticated and for runs that fail.", "quantifier": "all configurations, crypto functions, parties, credential lists, received messages, transport and callback failures", "why_tests_cant": "It compares runs of all possible identities on all inputs; a test sees a few messages and cannot tell that nothing else depends on the identity.", "anchors": ["src/edhoc/initiator.c msg1_gen, msg3_only_gen, msg3_gen", "src/edhoc/responder.c msg2_gen, msg2_encode, msg4_gen", "src/edhoc/ciphertext.c ciphertext_gen, ciphertext_encrypt, key_gen"]}
{"id": "C88", "title": "A device with several contexts: the right one takes the packet, the others stay as they are", "statement": "An application that holds any number of security contexts can call oscore2coap with one after the other until one returns ok: whatever their order, a conforming request is delivered by the context whose Recipient ID is its kid, a response or notification by the context that sent the request, even if other contexts wait for a response to the same token; all other contexts are unchanged; a request for an unknown ID is refused by all; and whatever bytes arrive, a context in which they do not authenticate is unchanged and only an authentic packet is delivered.", "quantifier": "all lists of contexts and their states, all carriable messages and peers following RFC 8613, all received bytes, all crypto functions", "why_tests_cant": "It ranges over all lists of contexts in all states and all packets.", "anchors": ["src/oscore/oscore2coap.c oscore2coap, decrypt_wrapper", "src/oscore/oscore_interactions.c"]}
{"id": "C89", "title": "EDHOC: a run makes a bounded number of calls with bounded messages", "statement": "Whatever is received and however the callbacks answer, edhoc_initiator_run takes at most one message from rx (two with MESSAGE_4), gives at most two to tx and calls ead_process at most once (twice); edhoc_responder_run takes at most two messages, sends at most one (two) and calls ead_process at most twice; each answer of rx is used once and in order; no message given to tx is longer than MSG_MAX_SIZE, message_3 is not longer than the received message_2 and message_4 not longer than the received message_3.", "quantifier": "all configurations, crypto functions, parties, credentials, received bytes and callback results", "why_tests_cant": "It ranges over all inputs and all failures of callbacks; a test sees a few runs.", "anchors": ["src/edhoc/initiator.c edhoc_initiator_run_extended", "src/edhoc/responder.c edhoc_responder_run_extended"]}
{"id": "C90", "title": "Injective agreement: every request executed was asked for, and no request is executed twice", "statement": "Client and server share a security context; the network may lose, repeat, delay, reorder, change and invent packets. As long as nobody forges a ciphertext, the requests the server's application gets can be attributed to calls in which the client's application passed exactly that request to coap2oscore, no call being used for two deliveries.", "quantifier": "all histories of calls on both sides, all packets in all orders, all configurations and keys", "why_tests_cant": "It ranges over all interleavings of sending and receiving and all interference by the network.", "anchors": ["src/oscore/oscore2coap.c oscore2coap", "src/oscore/coap2oscore.c coap2oscore", "src/oscore/replay_protection.c"]}
{"id": "C91", "title": "EDHOC: every completed session has a partner session of its own", "statement": "A party runs any number of EDHOC sessions, also at the same time, each with a fresh ephemeral key, over a network that repeats, mixes and invents messages. As long as nobody forges a signature (or, for the static-DH methods, a ciphertext) and no hash collision is met, the completed runs can be paired with sessions the peers' keys really took part in, with the same message_1 and ephemeral keys, no peer session being paired with two runs. In particular recorded messages never complete a second session.", "quantifier": "all lists of runs of edhoc_initiator_run and edhoc_responder_run, all configurations, contexts, methods and received messages, all crypto functions", "why_tests_cant": "It ranges over all numbers of parallel sessions and all interference by the network.", "anchors": ["src/edhoc/initiator.c edhoc_initiator_run", "src/edhoc/responder.c edhoc_responder_run"]}
{"id": "C92", "title": "What an observer of the network can tell from a whole history of calls", "statement": "Take two histories of calls on OSCORE contexts that look the same from outside: the messages to protect have the same version, type, message ID, token, class (request or response) and public options, the received packets differ at most in their ciphertexts. Codes, encrypted options and payloads, sent and received, may all be different. If the calls end in the same way, the two histories put the same packets on the network, apart from the ciphertexts, and these come from AEAD calls with the same key and the same nonces; with an AEAD whose ciphertexts tell nothing but their length, the traffic is the same. Whether calls succeed does not depend on the confidential parts either.", "quantifier": "all pairs of histories (any number of coap2oscore and oscore2coap calls), all contexts, configurations and AEADs", "why_tests_cant": "It compares all pairs of executions; a test sees single executions.", "anchors": ["src/oscore/coap2oscore.c coap2oscore", "src/oscore/oscore2coap.c oscore2coap", "src/oscore/oscore_interactions.c"]}
{"id": "C93", "title": "Differently configured builds understand each other", "statement": "Two devices need not be built with the same configuration: the sizes of the buffers for plaintext, options and paths, the number of outstanding interactions, the replay window and the use of non-volatile storage are compile-time parameters of each. From mirrored parameters both derive mirrored contexts; a message that fits both builds, protected by one, is delivered unchanged by the other, in conversations of any length, with requests, responses, observations and notifications from both sides, and also over contexts made with EDHOC; the configuration of the sender does not show in its packets. A message that the sender protects is delivered by every receiver.", "quantifier": "all pairs of configurations, all conversations whose messages fit both, all contexts, keys and lawful AEADs", "why_tests_cant": "The test suite is built once, with one configuration; every pair of builds and every conversation is out of reach.", "anchors": ["inc/oscore.h", "src/oscore/coap2oscore.c coap2oscore", "src/oscore/oscore2coap.c oscore2coap", "src/oscore/oscore_interactions.c"]}
{"id": "C94", "title": "Key updates give fresh keys and keep the parties together", "statement": "prk_out_update replaces the session key PRK_out by EDHOC_KDF(PRK_out, 11, context, length) of RFC 9528, of what the three arguments held before the call, wherever they are in the caller's memory, also when the new key is written over the old one; nothing else in memory changes. Two parties that apply the same updates to the same PRK_out hold the same key, whatever their builds, can set OSCORE up again from it and then deliver each other's messages. Different histories (another session, other contexts, another order or number of updates) end with different keys, unless two inputs of the HMAC that the parties really used collide.", "quantifier": "all keys, contexts, lengths, positions of the arguments in memory, all histories of updates of any length, all pairs of completed EDHOC runs, all conversations afterwards", "why_tests_cant": "The tests call prk_out_update once per test vector into a separate buffer; overlapping arguments, chains of updates and comparisons between all histories are not reachable by examples.", "anchors": ["src/edhoc/edhoc_exporter.c prk_out_update", "src/edhoc/okm.c edhoc_kdf", "src/common/crypto_wrapper.c hkdf_expand", "inc/edhoc.h"]}
{"id": "C95", "title": "The caller's buffers", "statement": "coap2oscore and oscore2coap write to the output buffer only, also when they fail. The output buffer may be the input buffer itself or any buffer that does not overlap it: the result, the message and the effects on the context and the storage are those of a call with separate buffers, for every history of calls on one memory.", "quantifier": "all contexts, messages, memories, positions and sizes of the input and output buffer, all crypto functions, all histories of calls with the application writing anything in between", "why_tests_cant": "The tests use separate arrays for input and output. A call in place reads the token and the outer options from memory that the header of the result is being written to; whether that is safe depends on the order of all reads and writes for every message layout.", "anchors": ["src/oscore/coap2oscore.c coap2oscore", "src/oscore/oscore2coap.c oscore2coap", "src/oscore/oscore_coap.c coap_serialize coap_deserialize", "src/common/memcpy_s.c", "inc/oscore.h"]}
{"id": "C96", "title": "The crypto library does not matter", "statement": "In the TINYCRYPT build aead, sign, verify, hash and HKDF give what the algorithms define, and success only for genuine input, as in the MBEDTLS build. OSCORE behaves the same in both builds: from the same parameters the same keys, and from the same context the same packet or error at every call of every history, so that a TINYCRYPT device and an MBEDTLS device can talk to each other. EDHOC too: initiator and responder send the same messages and end with the same results, whichever library or replacement of the wrapper's functions they use.", "quantifier": "all libraries that compute the same AES-CCM and HMAC-SHA-256, all parameters, contexts, messages, keys, nonces and histories of calls; all EDHOC configurations, parameters, credentials and networks", "why_tests_cant": "The tests are built with one library at a time. That the argument checks and limits of the two libraries never make a difference needs the sizes of everything OSCORE ever hands to them, over all histories.", "anchors": ["src/common/crypto_wrapper.c aead sign verify hkdf_extract hkdf_expand hash", "inc/common/crypto_wrapper.h", "src/oscore/security_context.c derive", "src/oscore/coap2oscore.c", "src/oscore/oscore2coap.c", "src/edhoc/initiator.c", "src/edhoc/responder.c", "src/edhoc/ciphertext.c", "src/edhoc/retrieve_cred.c"]}
{"id": "C97", "title": "Only the peer authenticated by EDHOC is heard", "statement": "Many devices run EDHOC over a network that belongs to an attacker and set up OSCORE contexts from the results as the samples do. Whatever one end of such an association hands to its application from oscore2coap was passed to coap2oscore by the application at the other end of the same EDHOC run: the device with the opposite role, the same PRK_out, the same message_1 and the same G_Y, whose identity is the one the responder reported. There is only one such end; messages of other associations, of the same device or others, are never delivered, and each request at most once.", "quantifier": "all numbers of devices, EDHOC runs and contexts, all received messages in both protocols, all histories of calls, all authentication methods", "why_tests_cant": "It is a property of arbitrarily many interleaved associations under every behaviour of the network; tests run one association with honest messages.", "anchors": ["src/edhoc/initiator.c edhoc_initiator_run", "src/edhoc/responder.c edhoc_responder_run", "src/edhoc/exporter.c edhoc_exporter prk_out2exporter", "src/oscore/security_context.c oscore_context_init", "src/oscore/coap2oscore.c coap2oscore", "src/oscore/oscore2coap.c oscore2coap", "samples/linux_edhoc_oscore/initiator_client/src/main.cpp", "samples/linux_edhoc_oscore/responder_server/src/main.cpp"]}
{"id": "C98", "title": "The crypto functions can be used by several threads at once", "statement": "When several threads call the functions of crypto_wrapper.h at the same time, on a PSA library whose calls are atomic, and the application keeps keys of its own in the same key store, every call that succeeds hands back the result for its own arguments, no call fails because of another one while a key slot is free, the keys of the application are not touched, every call returns after a bounded number of its own steps, and when all have returned no key is left in the store if every psa_destroy_key succeeded.", "quantifier": "all numbers of threads and calls, all arguments, every interleaving of their PSA calls with each other and with the application's, all spontaneous failures, every allocation of key identifiers", "why_tests_cant": "It depends on the interleaving of the library calls inside the functions; the unit tests call one function at a time.", "anchors": ["src/common/crypto_wrapper.c aead", "src/common/crypto_wrapper.c sign", "src/common/crypto_wrapper.c verify", "src/common/crypto_wrapper.c hkdf_extract", "src/common/crypto_wrapper.c hkdf_expand", "src/common/crypto_wrapper.c hkdf_sha_256", "src/common/crypto_wrapper.c shared_secret_derive", "src/common/crypto_wrapper.c ephemeral_dh_key_gen", "src/common/crypto_wrapper.c hash", "src/common/crypto_wrapper.c TRY_EXPECT_PSA"]}
{"id": "C99", "title": "OSCORE survives a crypto library that fails now and then", "statement": "When a call of the AEAD of the crypto library fails (no memory, no free key slot, a driver error) during coap2oscore or oscore2coap, the call either has the result it has with a working library or returns an error. oscore2coap then leaves the context as it was, so the packet can be handed to it again; coap2oscore has encrypted nothing and used up at most one sequence number, and the message can be sent again. Over any history, with failures at any calls, the sequence numbers of encryptions increase, no two of them under own numbers share a nonce, and no delivered request is delivered again.", "quantifier": "all contexts, packets, buffer sizes, histories of calls, and any behaviour of the library at every call", "why_tests_cant": "The failure can hit any call of any history; the unit tests run with a library that works.", "anchors": ["src/oscore/coap2oscore.c coap2oscore", "src/oscore/oscore2coap.c oscore2coap", "src/oscore/oscore_cose.c oscore_cose_encrypt", "src/oscore/oscore_cose.c oscore_cose_decrypt", "src/common/crypto_wrapper.c aead"]}
{"id": "C100", "title": "EDHOC over a crypto library that fails now and then", "statement": "When a call of the crypto library fails during edhoc_initiator_run or edhoc_responder_run (AEAD, Diffie-Hellman, signature, verification, parsing of a certificate), the function returns an error; a run that returns success has sent the messages and delivered the keys it would have with a working library.", "quantifier": "all contexts, credentials, received messages and results of the callbacks, and every set of failing library calls", "why_tests_cant": "The failure can hit any of the library calls of a run, with any messages; the unit tests run with a library that works.", "anchors": ["src/edhoc/initiator.c edhoc_initiator_run_extended", "src/edhoc/initiator.c msg3_gen", "src/edhoc/responder.c edhoc_responder_run_extended", "src/edhoc/cert.c cert_x509_verify", "src/edhoc/signature_or_mac_msg.c signature_or_mac", "src/common/crypto_wrapper.c aead", "src/common/crypto_wrapper.c sign", "src/common/crypto_wrapper.c verify", "src/common/crypto_wrapper.c shared_secret_derive"]}
