{
 "claims": [
  {
   "property": "C01",
   "status": "proved",
   "theorems": [
    "Verif.C01_never_twice"
   ],
   "note": "all histories, all window sizes >= 1 (the loops end for sizes up to 255 only: C83)"
  },
  {
   "property": "C02",
   "status": "proved",
   "theorems": [
    "Verif.C02_window_exact"
   ],
   "note": "exact characterisation after every history; window size arbitrary >= 1 (the loops end for sizes up to 255 only: C83)"
  },
  {
   "property": "C03",
   "status": "proved",
   "theorems": [
    "Verif.C03_reinit_exact",
    "Verif.C03_old_rejected",
    "Verif.C03_new_accepted"
   ],
   "note": "re-initialisation at any n, all later histories (the loop ends for window sizes up to 255 only: C83)"
  },
  {
   "property": "C04",
   "status": "partial",
   "theorems": [
    "Verif.C04_no_replay_partial",
    "Verif.C04_false",
    "Verif.C04_false_relabelled",
    "Verif.C04_false_above",
    "Verif.C04_false_general"
   ],
   "note": "False of the code for PIVs of two or more bytes (oscore2coap.c:420 records only the first byte): witness C04_false, and C04_false_general/C04_false_above: for every context and history, a delivered request with a number >= 256 is delivered as often as it arrives. Also false for any PIV when the outer code is changed to a response code while the request is unanswered: the packet is then delivered again without a replay check (C04_false_relabelled). Proved over all later histories for one-byte PIVs and the Echo re-sync case."
  },
  {
   "property": "C05",
   "status": "partial",
   "theorems": [
    "Verif.C05_increasing_partial",
    "Verif.C05_old_rejected",
    "Verif.C05_false"
   ],
   "note": "False when a notification's outer Observe option is stripped (C05_false); proved otherwise over all histories."
  },
  {
   "property": "C06",
   "status": "partial",
   "theorems": [
    "Verif.C06_echo_required_partial",
    "Verif.C06_decisions",
    "Verif.C06_false",
    "Verif.C06_false_relabelled"
   ],
   "note": "C06_false: an Echo value cached without having been sent is accepted; C06_false_relabelled: a recorded request is delivered without any Echo when its outer code is changed to a response code; proved parts: the decision table and the necessity of the cached value."
  },
  {
   "property": "C07",
   "status": "proved",
   "theorems": [
    "Verif.C07_wrong_kid"
   ],
   "note": ""
  },
  {
   "property": "C08",
   "status": "proved",
   "theorems": [
    "Verif.C08_authentic_or_unchanged",
    "Verif.C08_forgery_changes_nothing"
   ],
   "note": "includes every error before the AEAD call as well; failure means failure of the one check RFC 8613 prescribes for the packet in this state (Spec/Checked.lean)"
  },
  {
   "property": "C09",
   "status": "proved",
   "theorems": [
    "Verif.C09_piv_increasing",
    "Verif.C09_ssn_increasing"
   ],
   "note": "all histories of calls, successful or failed"
  },
  {
   "property": "C10",
   "status": "proved",
   "theorems": [
    "Verif.C10_nonce_injective",
    "Verif.C10_nonce_injective_minimal",
    "Verif.C10_nonce_defined",
    "Verif.C10_nonce_oob"
   ],
   "note": "IDs up to 7 bytes; for longer IDs the code reads out of bounds (C10_nonce_oob)"
  },
  {
   "property": "C11",
   "status": "partial",
   "theorems": [
    "Verif.C11_false_general",
    "Verif.C11_new_piv_partial",
    "Verif.C11_lockstep_partial",
    "Verif.C11_lockstep_new_partial",
    "Verif.C11_false_two_requests",
    "Verif.C11_false_notification"
   ],
   "note": "False of the code (one cached request nonce per context): two witnesses, and C11_false_general: any two consecutive responses without own PIV share key and nonce, in every context. Proved for messages with a new PIV and for lock-step histories."
  },
  {
   "property": "C12",
   "status": "partial",
   "theorems": [
    "Verif.C12_ssn_unique_partial",
    "Verif.C12_restart_above_partial",
    "Verif.C12_challenge_writes",
    "Verif.C12_false_two_failed_writes",
    "Verif.C12_false_early_sync"
   ],
   "note": "False when two NVM writes fail or SYNC is reached early by a junk Echo (witnesses); proved for device lives with arbitrary crash points otherwise."
  },
  {
   "property": "C13",
   "status": "proved",
   "theorems": [
    "Verif.C13_exhausted_stops",
    "Verif.C13_ssn_bounded",
    "Verif.C13_for_ever"
   ],
   "note": ""
  },
  {
   "property": "C14",
   "status": "proved",
   "theorems": [
    "Verif.C14_ssn2piv",
    "Verif.C14_rejects",
    "Verif.C14_injective"
   ],
   "note": ""
  },
  {
   "property": "C15",
   "status": "partial",
   "theorems": [
    "Verif.C15_serialize_rfc7252",
    "Verif.C15_roundtrip_partial",
    "Verif.C15_false_delta",
    "Verif.C15_false_length",
    "Verif.C15_false_count"
   ],
   "note": "False for wrapping deltas, lengths and option counts (witnesses); round trip proved for every message whose option extents are below these limits."
  },
  {
   "property": "C16",
   "status": "partial",
   "theorems": [
    "Verif.C16_reported_inside_partial",
    "Verif.C16_header_safe",
    "Verif.C16_false_ext",
    "Verif.C16_false_value",
    "Verif.C16_false_inner",
    "Verif.C16_oscore_option_inside_partial",
    "Verif.C16_false_kid",
    "Verif.C16_false_piv"
   ],
   "note": "False of the code: five out-of-bounds witnesses; the parts that do hold are proved."
  },
  {
   "property": "C17",
   "status": "proved",
   "theorems": [
    "Verif.C17_outer_options",
    "Verif.C17_only_ciphertext_differs"
   ],
   "note": ""
  },
  {
   "property": "C18",
   "status": "partial",
   "theorems": [
    "Verif.C18_merge",
    "Verif.C18_split_merge_partial",
    "Verif.C18_split_merge_request",
    "Verif.C18_false_duplicate_outer"
   ],
   "note": "C18_split_merge_partial proved; false when an outer option number also occurs inside (C18_false_duplicate_outer)"
  },
  {
   "property": "C19",
   "status": "proved",
   "theorems": [
    "Verif.C19_generate_rfc8613",
    "Verif.C19_parse",
    "Verif.C19_roundtrip",
    "Verif.C19_reserved_rejected",
    "Verif.C19_reserved_bits_ignored"
   ],
   "note": "reserved flag bits are ignored by the code (C19_reserved_bits_ignored)"
  },
  {
   "property": "C20",
   "status": "proved",
   "theorems": [
    "Verif.C20_outer_code"
   ],
   "note": ""
  },
  {
   "property": "C21",
   "status": "proved",
   "theorems": [
    "Verif.C21_protect",
    "Verif.C21_unprotect"
   ],
   "note": ""
  },
  {
   "property": "C22",
   "status": "partial",
   "theorems": [
    "Verif.C22_request_partial",
    "Verif.C22_false_payload_lost",
    "Verif.C22_false_eleven_options"
   ],
   "note": "False for messages with more than ten inner options and for inner option lists longer than announced (witnesses); proved for all others."
  },
  {
   "property": "C23",
   "status": "partial",
   "theorems": [
    "Verif.C23_response_partial",
    "Verif.C23_bound_to_request",
    "Verif.C23_exchange_partial",
    "Verif.C23_false_interleaved"
   ],
   "note": "False for interleaved exchanges (global request nonce, witness); proved for lock-step exchanges."
  },
  {
   "property": "C24",
   "status": "proved",
   "theorems": [
    "Verif.C24_plain_coap"
   ],
   "note": ""
  },
  {
   "property": "C25",
   "status": "proved",
   "theorems": [
    "Verif.C25_injective",
    "Verif.C25_request_sent",
    "Verif.C25_request_received"
   ],
   "note": "the only algorithm the library accepts is 10; binding to it is part of the encoding"
  },
  {
   "property": "C26",
   "status": "partial",
   "theorems": [
    "Verif.C26_aad_iff",
    "Verif.C26_false",
    "Verif.C26_false_seven_bytes",
    "Verif.C26_short_ids_partial"
   ],
   "note": "False of the code: Sender ID and PIV together may have at most 7 bytes (buffer of 30 bytes for the Enc_structure), so 7-byte IDs never work; proved: the exact limit, and that IDs of up to 4 bytes always work."
  },
  {
   "property": "C27",
   "status": "proved",
   "theorems": [
    "Verif.C27_mirrored",
    "Verif.C27_mirrored_init"
   ],
   "note": ""
  },
  {
   "property": "C28",
   "status": "proved",
   "theorems": [
    "Verif.C28_info_rfc8613",
    "Verif.C28_info_injective",
    "Verif.C28_keys",
    "Verif.C28_keys_separated"
   ],
   "note": ""
  },
  {
   "property": "C29",
   "status": "proved",
   "theorems": [
    "Verif.C29_get",
    "Verif.C29_set",
    "Verif.C29_full",
    "Verif.C29_duplicate_token",
    "Verif.C29_remove",
    "Verif.C29_history"
   ],
   "note": ""
  },
  {
   "property": "C30",
   "status": "proved",
   "theorems": [
    "Verif.C30_protect",
    "Verif.C30_unprotect",
    "Verif.C30_unprotect_error",
    "Verif.C30_protect_consumes",
    "Verif.C30_unprotect_consumes"
   ],
   "note": ""
  },
  {
   "property": "C31",
   "status": "partial",
   "theorems": [
    "Verif.C31_empty_ack_partial",
    "Verif.C31_false_small_buffer"
   ],
   "note": "Proved for outputs with sufficient capacity; with a smaller buffer the code overruns it (C31_false_small_buffer)."
  },
  {
   "property": "C32",
   "status": "partial",
   "theorems": [
    "Verif.C32_serialize_fits_partial",
    "Verif.C32_false_header",
    "Verif.C32_false_marker",
    "Verif.C32_protect_fits_partial",
    "Verif.C32_unprotect_fits_partial"
   ],
   "note": "False of the code (header and payload marker are written unchecked: witnesses); proved for the rest."
  },
  {
   "property": "C33",
   "status": "partial",
   "theorems": [
    "Verif.C33_uri_path_partial",
    "Verif.C33_false_exact_fit"
   ],
   "note": "Proved except when the path fits exactly: the terminating NUL is then written out of bounds (C33_false_exact_fit)."
  },
  {
   "property": "C34",
   "status": "proved",
   "theorems": [
    "Verif.C34_write_only_multiple",
    "Verif.C34_fresh_never_writes",
    "Verif.C34_nvm_distance"
   ],
   "note": ""
  },
  {
   "property": "C35",
   "status": "partial",
   "theorems": [
    "Verif.Edhoc.C35_suites",
    "Verif.Edhoc.C35_methods",
    "Verif.Edhoc.C35_responder_method_partial",
    "Verif.Edhoc.C35_initiator_suite",
    "Verif.Edhoc.C35_responder_suite",
    "Verif.Edhoc.C35_false_initiator_method",
    "Verif.Edhoc.C35_false_witness"
   ],
   "note": "Proved for the responder (method and suite) and the initiator's suite. False of the code for the initiator's own method: an undefined value runs as method 0 (C35_false_initiator_method)."
  },
  {
   "property": "C36",
   "status": "partial",
   "theorems": [
    "Verif.Edhoc.C36_false",
    "Verif.Edhoc.C36_false_witness",
    "Verif.Edhoc.C36_partial"
   ],
   "note": "False of the code (C36_false): any element of the peer's list that the responder supports is enough. Proved: what the check does establish."
  },
  {
   "property": "C37",
   "status": "partial",
   "theorems": [
    "Verif.C37_expand_rfc5869",
    "Verif.C37_length",
    "Verif.C37_too_long",
    "Verif.C37_false_wrap",
    "Verif.C37_expand_tinycrypt_partial",
    "Verif.C37_false_tinycrypt",
    "Verif.C37_hkdf"
   ],
   "note": "MBEDTLS build: proved for all L <= 255*32 and for all L with L+31 < 2^32; false for the 31 largest 32-bit lengths (C37_false_wrap). TINYCRYPT build: false for 255 blocks (C37_false_tinycrypt), proved up to 254."
  },
  {
   "property": "C38",
   "status": "proved",
   "theorems": [
    "Verif.Edhoc.C38_info_rfc9528",
    "Verif.Edhoc.C38_injective",
    "Verif.Edhoc.C38_kdf_rfc9528",
    "Verif.Edhoc.C38_labels_distinct"
   ],
   "note": ""
  },
  {
   "property": "C39",
   "status": "partial",
   "theorems": [
    "Verif.Edhoc.C39_partial",
    "Verif.Edhoc.C39_message_4_partial",
    "Verif.Edhoc.C39_false_ead_4",
    "Verif.Edhoc.C39_false_method_1",
    "Verif.Edhoc.C39_false_ead"
   ],
   "note": "Proved for every consistent configuration without EAD_2/EAD_3 and with message_3 not longer than message_2. False of the code otherwise: C39_false_ead, C39_false_method_1. With message_4: proved without EAD_4 (C39_message_4_partial); with any non-empty EAD_4 the initiator always fails (C39_false_ead_4)."
  },
  {
   "property": "C40",
   "status": "partial",
   "theorems": [
    "Verif.Edhoc.C40_message_1_rfc9528",
    "Verif.Edhoc.C40_message_1",
    "Verif.Edhoc.C40_ciphertext_2",
    "Verif.Edhoc.C40_ciphertext_34",
    "Verif.Edhoc.C40_message_2_outer",
    "Verif.Edhoc.C40_message_2_partial",
    "Verif.Edhoc.C40_message_3_partial",
    "Verif.Edhoc.C40_message_4",
    "Verif.Edhoc.C40_false_ead",
    "Verif.Edhoc.C40_false_absent_ead_1",
    "Verif.Edhoc.C40_message_1_method_range"
   ],
   "note": "Proved for messages 1 to 4 and their plaintexts, C_I up to cIStored (see C45) and EAD_2..4 when the application passes an encoded byte string. False of the code for raw EAD_2/EAD_3 (C40_false_ead) and for an absent EAD_1 with EAD_SIZE > 0 (C40_false_absent_ead_1)."
  },
  {
   "property": "C41",
   "status": "partial",
   "theorems": [
    "Verif.Edhoc.C41_accepted_iff",
    "Verif.Edhoc.C41_false",
    "Verif.Edhoc.C41_partial",
    "Verif.Edhoc.C41_false_run"
   ],
   "note": "False of the code (C41_false, C41_false_run): the MAC is compared over the received length, so a truncated or empty MAC is accepted. Proved: the exact acceptance condition and the claim for full-length MACs."
  },
  {
   "property": "C42",
   "status": "proved",
   "theorems": [
    "Verif.Edhoc.C42_verify",
    "Verif.Edhoc.C42_rejects",
    "Verif.Edhoc.C42_initiator",
    "Verif.Edhoc.C42_responder"
   ],
   "note": "signature soundness itself is the verify callback"
  },
  {
   "property": "C43",
   "status": "proved",
   "theorems": [
    "Verif.Edhoc.C43_not_found",
    "Verif.Edhoc.C43_found",
    "Verif.Edhoc.C43_complete"
   ],
   "note": ""
  },
  {
   "property": "C44",
   "status": "partial",
   "theorems": [
    "Verif.Edhoc.C44_responder",
    "Verif.Edhoc.C44_initiator_partial",
    "Verif.Edhoc.C44_false",
    "Verif.Edhoc.C44_false_run"
   ],
   "note": "Proved for the responder in full and for the initiator except while message_3 is created; there the error is ignored and message_2 is sent back (C44_false, C44_false_run)."
  },
  {
   "property": "C45",
   "status": "partial",
   "theorems": [
    "Verif.Edhoc.C45_C_I_partial",
    "Verif.Edhoc.C45_false_C_I",
    "Verif.Edhoc.C45_C_R"
   ],
   "note": "C_R: proved. C_I: proved except for the one-byte encodings of negative integers, for which it is false of the code (C45_false_C_I)."
  },
  {
   "property": "C46",
   "status": "proved",
   "theorems": [
    "Verif.Edhoc.C46_bstr",
    "Verif.Edhoc.C46_bstr_total",
    "Verif.Edhoc.C46_bstr_bounded",
    "Verif.Edhoc.C46_int"
   ],
   "note": ""
  },
  {
   "property": "C47",
   "status": "proved",
   "theorems": [
    "Verif.Edhoc.C47_th2_rfc9528",
    "Verif.Edhoc.C47_th2_binds",
    "Verif.Edhoc.C47_th34_rfc9528",
    "Verif.Edhoc.C47_th34_binds",
    "Verif.Edhoc.C47_boundary_not_bound"
   ],
   "note": "up to a SHA-256 collision between the two given inputs (HashClash names them)"
  },
  {
   "property": "C48",
   "status": "proved",
   "theorems": [
    "Verif.C48_memcpy",
    "Verif.C48_cpy",
    "Verif.C48_append",
    "Verif.C48_arrayEquals"
   ],
   "note": ""
  },
  {
   "property": "C49",
   "status": "partial",
   "theorems": [
    "Verif.Edhoc.C49_partial",
    "Verif.Edhoc.C49_unverified_refused",
    "Verif.Edhoc.C49_false"
   ],
   "note": "False of the code (C49_false): the CA subject is only compared over a prefix. Proved: signature check with a configured CA key before any use."
  },
  {
   "property": "C50",
   "status": "proved",
   "theorems": [
    "Verif.Edhoc.C50_exporter",
    "Verif.Edhoc.C50_prk_exporter",
    "Verif.Edhoc.C50_update",
    "Verif.Edhoc.C50_labels_separated",
    "Verif.Edhoc.C50_same_export",
    "Verif.Edhoc.C50_total"
   ],
   "note": "the code always uses an empty context"
  },
  {
   "property": "C51",
   "status": "proved",
   "theorems": [
    "Verif.P256.C51_uncompress",
    "Verif.P256.C51_refused",
    "Verif.P256.C51_no_stack_junk",
    "Verif.P256.C51_up_to_sign"
   ],
   "note": "limb-level model; primality of p proved by a Pratt certificate"
  },
  {
   "property": "C52",
   "status": "proved",
   "theorems": [
    "Verif.P256.C52_muladd64",
    "Verif.P256.C52_constants",
    "Verif.P256.C52_modular",
    "Verif.P256.C52_roundtrip"
   ],
   "note": ""
  },
  {
   "property": "C53",
   "status": "partial",
   "theorems": [
    "Verif.P256.C53_invalid_refused",
    "Verif.P256.C53_valid_point",
    "Verif.P256.C53_agreement_partial",
    "Verif.Edhoc.C53_edhoc_ephemeral",
    "Verif.Edhoc.C53_edhoc_invalid",
    "Verif.Edhoc.C53_false",
    "Verif.Edhoc.C53_false_initiator"
   ],
   "note": "Proved: only valid points reach the library, agreement of x-only ECDH (given that the PSA library implements scalar multiplication). False: a static DH key stored in the uncompressed format is turned into 33 bytes that the MBEDTLS decompression always refuses (C53_false)."
  },
  {
   "property": "C54",
   "status": "partial",
   "theorems": [
    "Verif.KeyGen.C54_tinycrypt_partial",
    "Verif.KeyGen.C54_false",
    "Verif.KeyGen.C54_mbedtls",
    "Verif.KeyGen.C54_keyspace"
   ],
   "note": "Proved for TINYCRYPT. False for MBEDTLS: the key pair is made from an uninitialised array and does not depend on the seed (C54_false)."
  },
  {
   "property": "C55",
   "status": "partial",
   "theorems": [
    "Verif.Asn1.C55_wellformed_partial",
    "Verif.Asn1.C55_false_short_integer",
    "Verif.Asn1.C55_accepted_partial",
    "Verif.Asn1.C55_several_refused",
    "Verif.Asn1.C55_false_stack_overflow",
    "Verif.Asn1.C55_false_overread",
    "Verif.Asn1.C55_false_key_outside",
    "Verif.Asn1.C55_false_key_length",
    "Verif.Asn1.C55_buffers_partial",
    "Verif.Asn1.C55_fields_partial"
   ],
   "note": "Proved: well-formed certificates with full-size signature values are handled exactly (C55_wellformed_partial), acceptance needs the single configured CA key to verify a part of the certificate (C55_accepted_partial), the signed part is a SEQUENCE and the key and signature values are contents of BIT STRING and INTEGER elements (C55_fields_partial), several credentials refuse everything. False of the code: buffer overflow and over-read before any signature check, short signature integers not padded, the key may lie outside the signed part, over-long key reported but not copied (C55_false_*)."
  },
  {
   "property": "C56",
   "status": "partial",
   "theorems": [
    "Verif.TinyP256.C56_vli_add",
    "Verif.TinyP256.C56_decompress_partial",
    "Verif.TinyP256.C56_false_invalid",
    "Verif.TinyP256.C56_agreement_partial",
    "Verif.TinyP256.C56_interop_partial",
    "Verif.TinyP256.C56_keygen_fits",
    "Verif.TinyP256.C56_false_short",
    "Verif.TinyP256.C56_false_compressed"
   ],
   "note": "Proved: decompression of valid values, agreement, generated keys fit their buffer (C56_keygen_fits), interoperability with MBEDTLS devices (given the library computes field arithmetic and scalar multiplication). False of the code: values off the curve are not refused (C56_false_invalid), short values are over-read (C56_false_short), a stored uncompressed static key is used shifted by one byte (C56_false_compressed)."
  },
  {
   "property": "C57",
   "status": "partial",
   "theorems": [
    "Verif.Edhoc.C57_partial",
    "Verif.Edhoc.C57_message_4_partial",
    "Verif.Edhoc.C57_false_same_ids",
    "Verif.Edhoc.C57_false_run"
   ],
   "note": "Proved for both roles, under the conditions of C39, C22 and C23 (C57_partial). False: C_R = C_I is not prevented, and then both parties send with the same key and ID (C57_false_run)."
  },
  {
   "property": "C58",
   "status": "partial",
   "theorems": [
    "Verif.C58_bounded_partial",
    "Verif.C58_cached",
    "Verif.C58_false_shrinks"
   ],
   "note": "bounded and cached as sent; false in general: the buffer capacity shrinks to the last cached length, so a longer challenge can never be sent again (C58_false_shrinks)"
  },
  {
   "property": "C59",
   "status": "partial",
   "theorems": [
    "Verif.MbedX509.C59_ca_found",
    "Verif.MbedX509.C59_wellformed_partial",
    "Verif.MbedX509.C59_false_short",
    "Verif.MbedX509.C59_false_no_cn",
    "Verif.MbedX509.C59_false_hash",
    "Verif.MbedX509.C59_in_bounds_partial",
    "Verif.MbedX509.C59_refines",
    "Verif.MbedX509.C59_signature_buffer"
   ],
   "note": "Proved given what the mbedTLS parser reports: well-formed certificates with full-size signature integers, absence of out-of-bounds accesses when names are present, and agreement with the model used for C49. False of the code: short r or s (C59_false_short), issuer without common name dereferences NULL (C59_false_no_cn), hashes other than 32 bytes leave uninitialised bytes in the signature (C59_false_hash)."
  },
  {
   "property": "C60",
   "status": "proved",
   "theorems": [
    "Verif.Edhoc.C60_same_key_same_transcript",
    "Verif.Edhoc.C60_same_key_same_session",
    "Verif.Edhoc.C60_tampering_splits_keys"
   ],
   "note": "The alternative in the conclusion is a collision of the hash or HMAC between strings the two runs really use (initInputs, respInputs list them), not the mere existence of a collision, which is true of every hash. C_I is the responder's stored form (C45 records that negative one-byte integers are stored differently)."
  },
  {
   "property": "C61",
   "status": "partial",
   "theorems": [
    "Verif.C61_request_was_sent_partial",
    "Verif.C61_response_was_sent_partial",
    "Verif.C61_false_injected_option"
   ],
   "note": "False for options: an unprotected Uri-Path (any class-E option) inserted by an attacker is delivered next to the authenticated ones (C61_false_injected_option; RFC 8613 \u00a78.2 step 1 says to discard it). Proved: code, payload, sequence number, request binding, and every option number the outer part does not use; with only OSCORE/Observe outside, all options."
  },
  {
   "property": "C62",
   "status": "partial",
   "theorems": [
    "Verif.Edhoc.C62_initiator_partial",
    "Verif.Edhoc.C62_responder_partial",
    "Verif.Edhoc.C62_false_cr"
   ],
   "note": "proved for both roles and all methods, with and without message_4, over the RFC's key schedule as a separate specification (Spec/EdhocSpec.lean, Session). Missing because false: MAC_2 for an empty C_R or a one-byte C_R of -1..-24 is not the RFC's (C62_false_cr), for a one-byte C_R of 0..23 the three bytes behind it must be zero; with static DH a prefix of the MAC is accepted (C41). Received messages are related to their fields by the decoders (their grammar: C63)."
  },
  {
   "property": "C63",
   "status": "partial",
   "theorems": [
    "Verif.Edhoc.C63_message_1",
    "Verif.Edhoc.C63_responder",
    "Verif.Edhoc.C63_message_2",
    "Verif.Edhoc.C63_plaintext_2",
    "Verif.Edhoc.C63_plaintext_3",
    "Verif.Edhoc.C63_plaintext_2_complete",
    "Verif.Edhoc.C63_plaintext_3_complete",
    "Verif.Edhoc.C63_plaintext_refused",
    "Verif.Edhoc.C63_message_1_canonical",
    "Verif.Edhoc.C63_false_trailing",
    "Verif.Edhoc.C63_false_suite",
    "Verif.Edhoc.C63_false_bstr_kid"
   ],
   "note": "proved as an equivalence for message_1 and message_2 and in both directions for the plaintexts (completeness: for the usable identifiers). Missing because false: bytes behind a message are ignored (C63_false_trailing), cipher suites are taken modulo 256 (C63_false_suite), a byte-string ID_CRED_x is read as an integer (C63_false_bstr_kid)."
  },
  {
   "property": "C64",
   "status": "partial",
   "theorems": [
    "Verif.C64_partial",
    "Verif.C64_edhoc_partial",
    "Verif.C64_edhoc_message_4_partial",
    "Verif.C64_false_lost",
    "Verif.C64_false_port"
   ],
   "note": "proved for lock-step conversations of carriable messages. Missing because false: lost responses occupy the interaction table for ever (C64_false_lost), some legal requests cannot be protected (C64_false_port), interleaved exchanges break (C23_false_interleaved), long IDs (C26)."
  },
  {
   "property": "C65",
   "status": "proved",
   "theorems": [
    "Verif.Psa.C65_fail_closed",
    "Verif.Psa.C65_no_leak",
    "Verif.Psa.C65_history",
    "Verif.Psa.C65_history_leak",
    "Verif.Psa.C65_refines",
    "Verif.Psa.C65_keygen_succeeds",
    "Verif.Psa.C65_keygen_fresh",
    "Verif.Psa.C65_false_no_compact",
    "Verif.Psa.C65_false_stale",
    "Verif.Psa.C65_false_hash_init"
   ],
   "note": "proved for the configuration MBEDTLS + COMPACT25519 (the default). Shown false outside it: without COMPACT25519 X25519 key generation reports ok with nothing generated (C65_false_no_compact); decryption into a longer buffer leaves stale bytes (C65_false_stale); hash does not initialise the library (C65_false_hash_init)."
  },
  {
   "property": "C66",
   "status": "partial",
   "theorems": [
    "Verif.C66_unprotect_safe_partial",
    "Verif.C66_outsider_partial",
    "Verif.C66_protect_safe_partial",
    "Verif.C66_history_partial",
    "Verif.C66_outsiders_history_partial",
    "Verif.C66_false_response_kid",
    "Verif.C66_false_length",
    "Verif.C66_false_scratch",
    "Verif.C66_false_no_piv"
   ],
   "note": "The full property is false: a complete response with a Partial IV and an 8-byte KID for an outstanding token makes create_nonce write before its buffer, before authentication (C66_false_response_kid, for every build, crypto and context); a legal 256-byte option is over-read (C66_false_length); a confidential option ending exactly at the scratch buffer's end lets the next header be written behind it (C66_false_scratch); an authenticated request without Partial IV dereferences NULL (C66_false_no_piv); plus the known C16, C22, C32, C33 witnesses. Proved for every state, crypto answer and history when packets are complete, response KIDs have at most 7 bytes, IDs have at most 7 bytes, output buffers hold maxCoapOptions+13 bytes, authenticated plaintexts have at most 10 complete options and paths do not fill the URI buffer exactly."
  },
  {
   "property": "C67",
   "status": "partial",
   "theorems": [
    "Verif.C67_request",
    "Verif.C67_response_partial",
    "Verif.C67_notification",
    "Verif.C67_receive_request_partial",
    "Verif.C67_receive_response_partial",
    "Verif.C67_receive_notification_partial",
    "Verif.C67_serve_partial",
    "Verif.C67_ask_partial",
    "Verif.C67_false_first_notification",
    "Verif.C67_false_no_kid"
   ],
   "note": "Sending conforms for every request (C67_request) and every notification (C67_notification), and for responses when the request is the last one the context processed (single nonce per context). Receiving conforms for every request (non-minimal Partial IVs, kid contexts), for responses with the request nonce and for responses with own Partial IV that repeat the kid. The full property is false: a legal response or notification with Partial IV and without kid is rejected because the nonce is built with the packet's empty kid (C67_false_no_kid), and a first notification with the nonce of the request is always rejected (C67_false_first_notification); interleaved requests: C23_false_interleaved; kid+piv longer than 7 bytes: C26."
  },
  {
   "property": "C68",
   "status": "partial",
   "theorems": [
    "Verif.Edhoc.C68_message_1",
    "Verif.Edhoc.C68_responder_message_1_partial",
    "Verif.Edhoc.C68_initiator_message_2_partial",
    "Verif.Edhoc.C68_responder_message_3_partial",
    "Verif.Edhoc.C68_initiator_message_4",
    "Verif.Edhoc.C68_responder_message_4_partial",
    "Verif.Edhoc.C68_exporter",
    "Verif.Edhoc.C68_initiator_partial",
    "Verif.Edhoc.C68_responder_partial",
    "Verif.Edhoc.C68_false_short_gx",
    "Verif.Edhoc.C68_false_method",
    "Verif.Edhoc.C68_false_plaintext",
    "Verif.Edhoc.C68_false_c509",
    "Verif.Edhoc.C68_false_message_4"
   ],
   "note": "Proved for every message_2/message_3 whose (unauthenticated) plaintext identifies the credential by integer kid, x5chain or x5t, has a MAC not longer than the suite's or an EdDSA signature of 64 bytes, and every message_1 with a G_X of 32 bytes, for own keys of full length for every method; message_4 reception without condition. The full property is false: short G_X before any authentication (C68_false_short_gx, for every responder), a static DH method chosen by the initiator against a responder without such a key (C68_false_method), identifiers the CDDL allows but the code leaves uninitialised and a one-byte signature (C68_false_plaintext, C68_false_c509), and the buffer of message_4 with 16-byte tags (C68_false_message_4)."
  },
  {
   "property": "C69",
   "status": "proved",
   "theorems": [
    "Verif.C69_ccm_exact",
    "Verif.C69_lawful",
    "Verif.C69_total",
    "Verif.Edhoc.C69_edhoc_lawful"
   ],
   "note": "SHA-256, HMAC, AES-128 and CCM are written out executably from FIPS 180-4, 198-1, 197 and RFC 3610 in Spec/Fips.lean. The same file instantiated in the model reproduces, inside the kernel, the OSCORE packets of /repo/test_vectors (Props/Vectors.lean): those are tests of the model."
  },
  {
   "property": "C70",
   "status": "proved",
   "theorems": [
    "Verif.Zcbor.C70_decode_message_1",
    "Verif.Zcbor.C70_decode_plaintext_2",
    "Verif.Zcbor.C70_decode_plaintext_3",
    "Verif.Zcbor.C70_decode_id_cred",
    "Verif.Zcbor.C70_decode_cert",
    "Verif.Zcbor.C70_decode_bstr",
    "Verif.Zcbor.C70_decode_int",
    "Verif.Zcbor.C70_decode_complete",
    "Verif.Zcbor.C70_model_decoders",
    "Verif.Zcbor.C70_encode_message_1",
    "Verif.Zcbor.C70_encode_message_1_suites",
    "Verif.Zcbor.C70_encode_id_cred",
    "Verif.Zcbor.C70_encode_sequences",
    "Verif.Zcbor.C70_encode_cose",
    "Verif.Zcbor.C70_encode_oscore",
    "Verif.Zcbor.C70_encode_unused",
    "Verif.Zcbor.C70_message_1_roundtrip",
    "Verif.Zcbor.C70_model_oscore",
    "Verif.Zcbor.C70_model_edhoc",
    "Verif.Zcbor.C70_model_th2_sig",
    "Verif.Zcbor.C70_model_message_1",
    "Verif.Zcbor.C70_false_unrestored",
    "Verif.Zcbor.C70_false_leak"
   ],
   "note": "All 24 generated files are transcribed call by call (Model/ZcborGen.lean) over a state machine of zcbor (Model/Zcbor.lean); zcbor itself is not in the repository, so that state machine is an assumption, with the version-dependent parts as parameters. Shown: without the restore the claim that nothing else is decoded is false (C70_false_unrestored: the alternatives of int/bstr are tried without going back; C70_false_leak: a refused huge map shifts the beginning of ID_CRED). Encoders assume ZCBOR_CANONICAL."
  },
  {
   "property": "C71",
   "status": "partial",
   "theorems": [
    "Verif.Edhoc.C71_refines_responder",
    "Verif.Edhoc.C71_refines_initiator",
    "Verif.Edhoc.C71_prk_responder",
    "Verif.Edhoc.C71_buffers_responder_partial",
    "Verif.Edhoc.C71_prk_initiator",
    "Verif.Edhoc.C71_buffers_initiator",
    "Verif.Edhoc.C71_prk_plain",
    "Verif.Edhoc.C71_false_pk_before_verification",
    "Verif.Edhoc.C71_false_cx_before_verification",
    "Verif.Edhoc.C71_false_pk_length",
    "Verif.Edhoc.C71_false_pk_static_dh"
   ],
   "note": "Proved for prk_out in full, and for all arrays after ok (key array: if large enough). The last clause is false of the code: initiator_pk is exported before the signature is verified, c_i_bytes and c_r_bytes are written as soon as they are parsed (C71_false_pk_before_verification, C71_false_cx_before_verification). A key array that is too small gets a length beyond its buffer and the run returns ok (C71_false_pk_length); with static DH the exported key is empty (C71_false_pk_static_dh)."
  },
  {
   "property": "C72",
   "status": "partial",
   "theorems": [
    "Verif.C72_sequential",
    "Verif.C72_threads_partial",
    "Verif.C72_false_piv",
    "Verif.C72_false_nonce_reuse"
   ],
   "note": "Proved for calls one after another (any leftover) and for concurrent calls when no other thread writes to the static array meanwhile. False in general: the static array of ssn2piv is shared by all threads and contexts; C72_false_piv, C72_false_nonce_reuse."
  },
  {
   "property": "C73",
   "status": "partial",
   "theorems": [
    "Verif.Edhoc.C73_psa",
    "Verif.Edhoc.C73_p256",
    "Verif.Edhoc.C73_dh",
    "Verif.Edhoc.C73_sign",
    "Verif.Edhoc.C73_nonce",
    "Verif.Edhoc.C73_partial",
    "Verif.Edhoc.C73_message_4_partial",
    "Verif.Edhoc.C73_conversation_partial",
    "Verif.Edhoc.C73_conversation_message_4_partial"
   ],
   "note": "Proved: the P-256 agreement of the code (decompression, PSA) computes the standard function for all 32-byte values, both sides agree for every two key pairs of either curve, every Ed25519 and every ECDSA signature verifies, so the hypotheses of C39, C53, C57 and C64 about the primitives hold. Partial only because C39/C45/C64 are: EAD_2, EAD_3, long message_3 and a negative one-byte C_I are false of the code."
  },
  {
   "property": "C74",
   "status": "proved",
   "theorems": [
    "Verif.C74_protected_for_open",
    "Verif.C74_delivered_for_open",
    "Verif.C74_sent_stays_open",
    "Verif.C74_received_stays_open",
    "Verif.C74_replaced",
    "Verif.C74_notification_delivered",
    "Verif.C74_false_put_replaces_get",
    "Verif.C74_false_directions",
    "Verif.C74_false_small_buffer",
    "Verif.C74_false_reordered"
   ],
   "note": "The rules are the code's. Witnesses show where they surprise: a PUT makes the answer to an outstanding GET for the same path undeliverable, a request of the peer does the same to an own request, a response that does not fit the buffer is lost for good, and the notification number is per context, not per observation as in RFC 8613 7.4.1."
  },
  {
   "property": "C75",
   "status": "proved",
   "theorems": [
    "Verif.Edhoc.C75_initiator",
    "Verif.Edhoc.C75_responder",
    "Verif.Edhoc.C75_responder_signs",
    "Verif.Edhoc.C75_initiator_signs"
   ],
   "note": "For peers that authenticate with static DH the property is false of the code (C41_false_run: an empty MAC is accepted); C77 has the version with message_4. Unforgeability is assumed only of the received signature for the string checked; collisions only between strings the runs use. CRED and EAD are bound only as one string, as in RFC 9528."
  },
  {
   "property": "C76",
   "status": "partial",
   "theorems": [
    "Verif.C76_partial",
    "Verif.C76_recovery",
    "Verif.C76_false_nonce"
   ],
   "note": "False for a response without a Partial IV after the nonce was overwritten by a lost message (C76_false_nonce) and for places of the interaction table taken by lost messages (C64_false_lost); proved for all other histories (Link.same, Link.stale track these two). Messages are not reordered or duplicated (C04, C23), IDs have at most 4 bytes (C26), writes to non-volatile memory succeed (C12)."
  },
  {
   "property": "C77",
   "status": "proved",
   "theorems": [
    "Verif.Edhoc.C77_initiator",
    "Verif.Edhoc.C77_initiator_session",
    "Verif.Edhoc.C77_responder",
    "Verif.Edhoc.C77_responder_encrypts",
    "Verif.Edhoc.C77_initiator_encrypts"
   ],
   "note": "With static DH an initiator built without MESSAGE_4 has no such guarantee (C41: an empty MAC_2 is accepted); with MESSAGE_4 message_4 gives it. The hypothesis is about the one received ciphertext with the associated data of the run."
  },
  {
   "property": "C78",
   "status": "partial",
   "theorems": [
    "Verif.Own.C78_init",
    "Verif.Own.C78_partial",
    "Verif.Own.C78_false_sender_id",
    "Verif.Own.C78_false_id_context",
    "Verif.Own.C78_false_copy"
   ],
   "note": "Holds for master secret, master salt and recipient ID (C78_partial, on top of C78_init: the function does what the value-level model does). False for the sender ID (C78_false_sender_id: the peer then refuses every message; sender_id_buf exists but is not used), for the ID Context (C78_false_id_context: sequence numbers are stored under another key, nonce reuse after a restart) and for a copied struct context (C78_false_copy: its pointers lead into the original; nonce reuse)."
  },
  {
   "property": "C79",
   "status": "proved",
   "theorems": [
    "Verif.Own.C79_contexts",
    "Verif.Own.C79_nonces",
    "Verif.Own.C79_fresh",
    "Verif.Own.C79_false_nvm"
   ],
   "note": "The last condition is needed: the storage key does not contain the master secret, so two contexts with the same identifiers and different secrets overwrite each other's number, and a restart reuses key and nonce (C79_false_nvm). With fresh master secrets no condition on identifiers is needed (C79_fresh). Threads: C72."
  },
  {
   "property": "C80",
   "status": "proved",
   "theorems": [
    "Verif.Edhoc.C80_initiator",
    "Verif.Edhoc.C80_responder",
    "Verif.Edhoc.C80_initiator_partner",
    "Verif.Edhoc.C80_responder_partner"
   ],
   "note": "EAD_1 is handed over unauthenticated, as in RFC 9528. For static Diffie-Hellman keys 'verified' means a prefix of the MAC (C41), and the second message of the initiator can be an echo of message_2 (C44); both are visible in the statement. CRED and EAD are adjacent in the signed string, so the equality is of CRED followed by EAD."
  },
  {
   "property": "C81",
   "status": "partial",
   "theorems": [
    "Verif.C81_state_protect",
    "Verif.C81_state_unprotect",
    "Verif.C81_send_partial",
    "Verif.C81_false_response",
    "Verif.C81_false_request",
    "Verif.C81_false_notification",
    "Verif.C81_false_received"
   ],
   "note": "State is committed before the output is written (C81_state_protect, C81_state_unprotect: the state left behind does not depend on the buffer). Requests and notifications can be sent again, and so can any message that was not encrypted by the failed call. A response that ends an exchange cannot be sent again, and a received request, notification or response that did not fit is lost for good (C81_false_response, C81_false_request, C81_false_notification, C81_false_received)."
  },
  {
   "property": "C82",
   "status": "partial",
   "theorems": [
    "Verif.Edhoc.VlaBuild.C82_edhoc_initiator",
    "Verif.Edhoc.VlaBuild.C82_edhoc_responder",
    "Verif.Edhoc.VlaBuild.C82_edhoc_exporter",
    "Verif.Vla.C82_unprotect",
    "Verif.Vla.C82_protect_partial",
    "Verif.Vla.C82_history_partial",
    "Verif.Vla.C82_carriable_partial",
    "Verif.Vla.C82_false_general",
    "Verif.Vla.C82_false"
   ],
   "note": "Receiving: unconditional. Sending: all messages except those with a payload whose confidential options need the whole announced length (public options between confidential ones make the inner deltas longer than announced); for every one of those that the default build protects, the VLA build writes the payload marker and the payload behind its array (C82_false_general, C82_false). Messages that the peer can recover (condition of C22/C23) are none of them (C82_carriable_partial). EDHOC: unconditional for arrays below 4 GiB (C82_edhoc_initiator, C82_edhoc_responder, C82_edhoc_exporter)."
  },
  {
   "property": "C83",
   "status": "partial",
   "theorems": [
    "Verif.Loops.C83_window_partial",
    "Verif.Loops.C83_false_reinit",
    "Verif.Loops.C83_false_valid",
    "Verif.Loops.C83_interactions",
    "Verif.Loops.C83_bytes",
    "Verif.Loops.C83_credentials_partial",
    "Verif.Loops.C83_false_ca"
   ],
   "note": "False of the code for replay windows of 256 and more numbers (uint8_t counters: re-initialisation never ends, nor does the check of a late number, C83_false_reinit, C83_false_valid) and for more than 65535 credentials without a matching CA (uint16_t counter, C83_false_ca); hkdf_expand with tinycrypt and 255 blocks is C37_false_tinycrypt. Proved for all other sizes, with equality to the models used by the other properties. The loops are treated one function at a time."
  },
  {
   "property": "C84",
   "status": "partial",
   "theorems": [
    "Verif.Edhoc.C84_message_2",
    "Verif.Edhoc.C84_message_3",
    "Verif.Edhoc.C84_message_4",
    "Verif.Edhoc.C84_message_1",
    "Verif.Edhoc.C84_false_responder",
    "Verif.Edhoc.C84_false_initiator",
    "Verif.Edhoc.C84_false_sent",
    "Verif.Edhoc.C84_false_received"
   ],
   "note": "Receiving: proved for messages 1 to 4. Reporting is false of the code: no run ever sends an error message (C84_false_responder, C84_false_initiator), error_message_sent is returned with nothing sent (C84_false_sent), error_message_received is never returned for an error message but for a ciphertext shorter than its tag (C84_false_received), and err_msg is never written (no line of initiator.c or responder.c assigns it; not in the model)."
  },
  {
   "property": "C85",
   "status": "proved",
   "theorems": [
    "Verif.C85_receive",
    "Verif.C85_send",
    "Verif.C85_send_64",
    "Verif.C85_exact_send",
    "Verif.C85_exact_receive"
   ],
   "note": "C85_send is about the bytes of the caller's buffer; the internal scratch buffers (MAX_COAP_OPTIONS_LEN, E_OPTIONS_BUFF_MAX_LEN, OSCORE_MAX_PLAINTEXT_LEN) can still reject a message (C10, C16)."
  },
  {
   "property": "C86",
   "status": "partial",
   "theorems": [
    "Verif.C86_end_to_end",
    "Verif.C86_no_proxy",
    "Verif.C86_request_partial",
    "Verif.C86_response_partial",
    "Verif.C86_notification_partial",
    "Verif.C86_exchange_partial"
   ],
   "note": "Restricted like C67, on which it rests: the message in its new wrapping has to fit the library's limits, and a response without Observe has to answer the last request the context processed. A proxy that adds options other than those four goes beyond Forwarded: such options are delivered although RFC 8613 wants them discarded (C61_false_injected_option). Changes of the outer Observe or of the outer code by a proxy are not covered."
  },
  {
   "property": "C87",
   "status": "proved",
   "theorems": [
    "Verif.Edhoc.C87_initiator",
    "Verif.Edhoc.C87_responder"
   ],
   "note": "Lengths of the encrypted parts are visible, as in RFC 9528. An initiator whose message_3 cannot be made sends message_2 back instead (C44_false): that does not depend on the identity either. That keys and keystream are those of RFC 9528 is C62; that message_3 is only sent to a responder whose message_2 was accepted is C80."
  },
  {
   "property": "C88",
   "status": "proved",
   "theorems": [
    "Verif.C88_request",
    "Verif.C88_response",
    "Verif.C88_notification",
    "Verif.C88_unknown",
    "Verif.C88_others_unchanged",
    "Verif.C88_error_code"
   ],
   "note": "The loop itself is the application's (RFC 8613, 8.2 step 2); the library has none. It must go on after every error, not only after oscore_kid_recipient_id_mismatch (C88_error_code: a context without sequence numbers answers oscore_ssn_overflow to every packet). The receiving context is subject to the conditions of C67; the kid context is not used to choose, so contexts with the same Recipient ID are told apart by authentication."
  },
  {
   "property": "C89",
   "status": "proved",
   "theorems": [
    "Verif.Edhoc.C89_initiator",
    "Verif.Edhoc.C89_responder",
    "Verif.Edhoc.C89_answers"
   ],
   "note": "That message_3 is bounded by message_2 is why some honest runs fail (C39_false_method_1, C44_false)."
  },
  {
   "property": "C90",
   "status": "partial",
   "theorems": [
    "Verif.C90_partial",
    "Verif.C90_example",
    "Verif.C90_false"
   ],
   "note": "Proved for requests with sequence numbers below 256 (one-byte Partial IV). Missing, because false: from 256 on only the first byte of the Partial IV is recorded, and a packet that arrives twice is executed twice (C90_false); a request packet relabelled as a response is delivered as often as the attacker likes while the request is unanswered (C04_false_relabelled), and is not counted among the requests here. What 'exactly that request' means is DeliveredAs of C61 (outer class U options and unauthenticated class E options come from the packet)."
  },
  {
   "property": "C91",
   "status": "proved",
   "theorems": [
    "Verif.Edhoc.C91_responder_partner",
    "Verif.Edhoc.C91_initiator_partner",
    "Verif.Edhoc.C91_responder",
    "Verif.Edhoc.C91_initiator",
    "Verif.Edhoc.C91_responder_count",
    "Verif.Edhoc.C91_reuse_needed",
    "Verif.Edhoc.C91_responder_all_methods",
    "Verif.Edhoc.C91_initiator_all_methods"
   ],
   "note": "Freshness of the ephemeral keys is the caller's part (C91_reuse_needed: with the same y a recorded message_1 and message_3 complete again). For an initiator whose responder uses static DH the pairing needs MESSAGE_4 and a message_3 that really went out (prkOut is reported, see C44). What the partner has in common with the run beyond message_1 and the ephemeral keys is C75 and C77."
  },
  {
   "property": "C92",
   "status": "partial",
   "theorems": [
    "Verif.C92_partial",
    "Verif.C92_ideal_partial",
    "Verif.C92_false_outcome"
   ],
   "note": "False of the code for the last sentence (C92_false_outcome): whether a request is sent depends on its encrypted Uri-Path and on those before, because the table of outstanding requests is searched by path and has three places. C92_partial and C92_ideal_partial therefore assume that corresponding calls end in the same way (ok; the Echo challenge; refused without effect), and say everything else."
  },
  {
   "property": "C93",
   "status": "partial",
   "theorems": [
    "Verif.C93_request_partial",
    "Verif.C93_response_partial",
    "Verif.C93_same_packet",
    "Verif.C93_mirrored",
    "Verif.C93_conversation_partial",
    "Verif.C93_edhoc_partial",
    "Verif.C93_same_build",
    "Verif.C93_false_large"
   ],
   "note": "The last sentence is false of the code (C93_false_large): a client with large buffers protects a request that a server with small ones refuses, and there is no way to tell the client. Everything else is proved for messages that fit both builds (FitsBoth), with the restrictions of C22, C23 and C64: C93_conversation_partial, C93_edhoc_partial, C93_request_partial, C93_response_partial; C93_mirrored, C93_same_packet and C93_same_build are complete."
  },
  {
   "property": "C94",
   "status": "partial",
   "theorems": [
    "Verif.Edhoc.C94_in_place",
    "Verif.Edhoc.C94_in_place_tinycrypt_partial",
    "Verif.Edhoc.C94_false_in_place",
    "Verif.Edhoc.C94_false_in_place_builds",
    "Verif.Edhoc.C94_chain_rfc",
    "Verif.Edhoc.C94_chain_ok",
    "Verif.Edhoc.C94_agree",
    "Verif.Edhoc.C94_epochs",
    "Verif.Edhoc.C94_runs",
    "Verif.Edhoc.C94_conversation_partial",
    "Verif.Edhoc.C94_conversation_message_4_partial"
   ],
   "note": "False of the TINYCRYPT build when a key longer than 32 bytes is updated in place (C94_false_in_place, C94_false_in_place_builds): hkdf_expand sets the HMAC key again for every block, from memory that the previous block has overwritten, so the key differs from RFC 9528 and from what an MBEDTLS peer computes; up to 32 bytes or without overlap it holds (C94_in_place_tinycrypt_partial). MBEDTLS: C94_in_place, complete. C94_chain_rfc, C94_chain_ok, C94_agree, C94_epochs and C94_runs are complete; C94_conversation_partial has the restrictions of C39, C57 and C93."
  },
  {
   "property": "C95",
   "status": "partial",
   "theorems": [
    "Verif.InPlace.C95_protect",
    "Verif.InPlace.C95_unprotect",
    "Verif.InPlace.C95_protect_writes",
    "Verif.InPlace.C95_unprotect_writes",
    "Verif.InPlace.C95_history",
    "Verif.InPlace.C95_history_results",
    "Verif.InPlace.C95_false_shifted",
    "Verif.InPlace.C95_false_retry_in_place"
   ],
   "note": "False of buffers that overlap in another way (C95_false_shifted: the call returns ok and the server accepts a request for another Uri-Host) and of repeating a call in place that was refused (C95_false_retry_in_place: the code byte has been overwritten, a GET is sent as POST). C95_protect, C95_unprotect, C95_history, C95_history_results: complete for the same buffer and for buffers apart. C95_protect_writes, C95_unprotect_writes: all placements. memcpy with equal source and destination is taken to leave the bytes as they are."
  },
  {
   "property": "C96",
   "status": "partial",
   "theorems": [
    "Verif.Edhoc.LibSwap.C96_edhoc_initiator",
    "Verif.Edhoc.LibSwap.C96_edhoc_responder",
    "Verif.Edhoc.LibSwap.C96_edhoc_tinycrypt",
    "Verif.Edhoc.LibSwap.C96_edhoc_tinycrypt_sign_verify",
    "Verif.Tiny.C96_aead_encrypt",
    "Verif.Tiny.C96_aead_decrypt",
    "Verif.Tiny.C96_short_ciphertext",
    "Verif.Tiny.C96_sign_verify",
    "Verif.Tiny.C96_oscore_history",
    "Verif.Tiny.C96_tinycrypt_is_aes_ccm",
    "Verif.Tiny.C96_tinycrypt_and_mbedtls",
    "Verif.Tiny.C96_hkdf",
    "Verif.Tiny.C96_keys",
    "Verif.Tiny.C96_init_sizes",
    "Verif.Tiny.C96_false_verify_error",
    "Verif.Tiny.C96_false_short_key",
    "Verif.Tiny.C96_false_large_message"
   ],
   "note": "False of ES256 verification: a bad signature is an error of the library call instead of the result \"not verified\" (C96_false_verify_error); keys and signatures shorter than 64 bytes are read beyond their end (C96_false_short_key). False of single aead calls on messages of 65528 to 65535 bytes, which are encrypted but not decrypted (C96_false_large_message); OSCORE does not reach this. Complete for OSCORE: C96_keys, C96_init_sizes, C96_oscore_history, C96_tinycrypt_is_aes_ccm, C96_tinycrypt_and_mbedtls. For EDHOC: whole runs of initiator and responder for two libraries that agree on what EDHOC asks of them (C96_edhoc_initiator, C96_edhoc_responder, and TinyCrypt as an instance), up to the code of a refused signature or certificate; assumed there: the same key agreement and certificate fields (C53, C55, C56 and C59 are about those), message sizes below 64 KiB. The history theorem takes buffers for fewer than 65527 plaintext bytes (the default is 1024) and packets below 4 GiB. The documented argument checks of TinyCrypt are modelled, its bodies are not."
  },
  {
   "property": "C97",
   "status": "partial",
   "theorems": [
    "Verif.Edhoc.C97_one_other_end",
    "Verif.Edhoc.C97_requests_partial",
    "Verif.Edhoc.C97_messages_partial",
    "Verif.Edhoc.C97_identity",
    "Verif.Edhoc.C97_example",
    "Verif.Edhoc.C97_false_reflection"
   ],
   "note": "False when C_I = C_R, which the library does not exclude: a device then delivers its own request when it is sent back to it (C97_false_reflection). Each request at most once holds for sequence numbers below 256 only, outer options of a protected class may be added, and a request packet relabelled as a response is not counted among the requests (C90, C61, C04). Complete otherwise: C97_one_other_end, C97_identity. Assumed: the AEAD is not forged for the packets that arrive, ephemeral keys are not repeated, and no collision among the strings the runs really hash and the OSCORE keys they really derive."
  },
  {
   "property": "C98",
   "status": "proved",
   "theorems": [
    "Verif.Psa.C98_alone",
    "Verif.Psa.C98_inv",
    "Verif.Psa.C98_calls",
    "Verif.Psa.C98_results",
    "Verif.Psa.C98_no_interference",
    "Verif.Psa.C98_keys",
    "Verif.Psa.C98_no_leak",
    "Verif.Psa.C98_finishes"
   ],
   "note": "MBEDTLS configuration with COMPACT25519. Assumed: a call of the PSA API is atomic (MBEDTLS_THREADING_C), key identifiers are unique, and the caller's buffers are as large as the functions expect (Call.Sized). Left over when psa_destroy_key fails: at most one key per failed call (C98_keys). C98_no_interference asks for psa_crypto_init to have succeeded before."
  },
  {
   "property": "C99",
   "status": "partial",
   "theorems": [
    "Verif.C99_receive",
    "Verif.C99_receive_again",
    "Verif.C99_receive_history",
    "Verif.C99_send",
    "Verif.C99_send_again",
    "Verif.C99_ssn_increasing",
    "Verif.C99_nonce",
    "Verif.C99_no_replay_partial",
    "Verif.C99_library",
    "Verif.C99_library_safe"
   ],
   "note": "Partial where C04, C11 and C81 are: replay protection for one-byte PIVs or the completed Echo exchange (C99_no_replay_partial), nonces of encryptions under an own Partial IV, and a message sent again under the hypotheses of C81_send_partial. C99_library shows that the wrapper over a PSA library with failing calls meets the assumption (MBEDTLS configuration)."
  },
  {
   "property": "C100",
   "status": "partial",
   "theorems": [
    "Verif.Edhoc.C100_responder",
    "Verif.Edhoc.C100_responder_ok",
    "Verif.Edhoc.C100_initiator_partial",
    "Verif.Edhoc.C100_initiator_ok",
    "Verif.Edhoc.C100_false_initiator"
   ],
   "note": "Complete for the responder (C100_responder, C100_responder_ok). False of the initiator: msg3_gen ignores the error of msg3_only_gen, so when signing or encrypting message_3 fails it sends message_2 back and returns ok without a PRK_out (C100_false_initiator); it is the only exception (C100_initiator_partial), and a run that wrote PRK_out is that of a working library (C100_initiator_ok). A library is a function that may fail on any set of arguments; failures of HKDF and hash are not covered here (C65 has them per function)."
  }
 ]
}