# Axioms per theorem

Generated by `tools/axioms.py`.

## no axioms

* `Verif.C16_false_kid`
* `Verif.C16_false_piv`
* `Verif.C32_false_marker`
* `Verif.Edhoc.C35_methods`
* `Verif.Edhoc.C36_false`
* `Verif.Edhoc.C38_labels_distinct`
* `Verif.Edhoc.C47_boundary_not_bound`
* `Verif.Edhoc.C68_exporter`
* `Verif.Zcbor.C70_encode_message_1_suites`
* `Verif.Edhoc.VlaBuild.C82_edhoc_exporter`

## propext

* `Verif.C15_false_delta`
* `Verif.C15_false_length`
* `Verif.C15_false_count`
* `Verif.C16_false_ext`
* `Verif.C16_false_value`
* `Verif.C16_false_inner`
* `Verif.C18_false_duplicate_outer`
* `Verif.C28_info_rfc8613`
* `Verif.C32_false_header`
* `Verif.Edhoc.C38_info_rfc9528`
* `Verif.Edhoc.C40_false_ead`
* `Verif.KeyGen.C54_tinycrypt_partial`
* `Verif.KeyGen.C54_false`
* `Verif.KeyGen.C54_mbedtls`
* `Verif.Asn1.C55_false_stack_overflow`
* `Verif.Asn1.C55_false_overread`
* `Verif.Asn1.C55_false_key_outside`
* `Verif.Asn1.C55_false_key_length`
* `Verif.Psa.C65_false_hash_init`
* `Verif.C66_false_length`
* `Verif.C72_false_piv`

## propext, Classical.choice, Quot.sound

* `Verif.C01_never_twice`
* `Verif.C02_window_exact`
* `Verif.C03_reinit_exact`
* `Verif.C03_old_rejected`
* `Verif.C03_new_accepted`
* `Verif.C04_no_replay_partial`
* `Verif.C04_false_above`
* `Verif.C04_false_general`
* `Verif.C05_increasing_partial`
* `Verif.C06_echo_required_partial`
* `Verif.C07_wrong_kid`
* `Verif.C08_authentic_or_unchanged`
* `Verif.C08_forgery_changes_nothing`
* `Verif.C09_piv_increasing`
* `Verif.C09_ssn_increasing`
* `Verif.C10_nonce_injective_minimal`
* `Verif.C11_false_general`
* `Verif.C11_new_piv_partial`
* `Verif.C11_lockstep_partial`
* `Verif.C11_lockstep_new_partial`
* `Verif.C12_ssn_unique_partial`
* `Verif.C12_restart_above_partial`
* `Verif.C12_challenge_writes`
* `Verif.C13_ssn_bounded`
* `Verif.C14_ssn2piv`
* `Verif.C14_injective`
* `Verif.C15_roundtrip_partial`
* `Verif.C17_outer_options`
* `Verif.C17_only_ciphertext_differs`
* `Verif.C18_merge`
* `Verif.C18_split_merge_partial`
* `Verif.C18_split_merge_request`
* `Verif.C20_outer_code`
* `Verif.C21_protect`
* `Verif.C22_request_partial`
* `Verif.C23_response_partial`
* `Verif.C23_bound_to_request`
* `Verif.C23_exchange_partial`
* `Verif.C25_injective`
* `Verif.C25_request_sent`
* `Verif.C25_request_received`
* `Verif.C26_false`
* `Verif.C26_false_seven_bytes`
* `Verif.C26_short_ids_partial`
* `Verif.C28_info_injective`
* `Verif.C28_keys_separated`
* `Verif.C29_get`
* `Verif.C29_set`
* `Verif.C29_full`
* `Verif.C29_duplicate_token`
* `Verif.C29_remove`
* `Verif.C29_history`
* `Verif.C30_protect`
* `Verif.C30_unprotect`
* `Verif.C30_unprotect_error`
* `Verif.C30_protect_consumes`
* `Verif.C30_unprotect_consumes`
* `Verif.C32_protect_fits_partial`
* `Verif.C33_uri_path_partial`
* `Verif.C33_false_exact_fit`
* `Verif.C34_write_only_multiple`
* `Verif.C34_fresh_never_writes`
* `Verif.C34_nvm_distance`
* `Verif.Edhoc.C38_injective`
* `Verif.Edhoc.C39_partial`
* `Verif.Edhoc.C39_message_4_partial`
* `Verif.Edhoc.C39_false_ead_4`
* `Verif.Edhoc.C40_message_1_rfc9528`
* `Verif.Edhoc.C40_message_1`
* `Verif.Edhoc.C40_message_2_outer`
* `Verif.Edhoc.C40_message_2_partial`
* `Verif.Edhoc.C40_message_3_partial`
* `Verif.Edhoc.C40_message_4`
* `Verif.Edhoc.C40_message_1_method_range`
* `Verif.Edhoc.C43_not_found`
* `Verif.Edhoc.C43_found`
* `Verif.Edhoc.C43_complete`
* `Verif.Edhoc.C45_C_I_partial`
* `Verif.Edhoc.C45_false_C_I`
* `Verif.Edhoc.C45_C_R`
* `Verif.Edhoc.C46_bstr`
* `Verif.Edhoc.C46_int`
* `Verif.Edhoc.C47_th2_binds`
* `Verif.Edhoc.C47_th34_binds`
* `Verif.C48_arrayEquals`
* `Verif.Edhoc.C50_labels_separated`
* `Verif.P256.C51_uncompress`
* `Verif.P256.C51_refused`
* `Verif.P256.C51_no_stack_junk`
* `Verif.P256.C51_up_to_sign`
* `Verif.P256.C52_muladd64`
* `Verif.P256.C52_constants`
* `Verif.P256.C52_modular`
* `Verif.P256.C52_roundtrip`
* `Verif.P256.C53_invalid_refused`
* `Verif.P256.C53_valid_point`
* `Verif.P256.C53_agreement_partial`
* `Verif.Edhoc.C53_edhoc_ephemeral`
* `Verif.Edhoc.C53_edhoc_invalid`
* `Verif.Edhoc.C53_false`
* `Verif.Edhoc.C53_false_initiator`
* `Verif.Asn1.C55_fields_partial`
* `Verif.TinyP256.C56_vli_add`
* `Verif.TinyP256.C56_decompress_partial`
* `Verif.TinyP256.C56_false_invalid`
* `Verif.TinyP256.C56_agreement_partial`
* `Verif.TinyP256.C56_interop_partial`
* `Verif.TinyP256.C56_keygen_fits`
* `Verif.Edhoc.C57_partial`
* `Verif.Edhoc.C57_message_4_partial`
* `Verif.Edhoc.C57_false_run`
* `Verif.C58_bounded_partial`
* `Verif.C58_false_shrinks`
* `Verif.MbedX509.C59_ca_found`
* `Verif.MbedX509.C59_wellformed_partial`
* `Verif.MbedX509.C59_false_short`
* `Verif.MbedX509.C59_false_no_cn`
* `Verif.MbedX509.C59_false_hash`
* `Verif.MbedX509.C59_in_bounds_partial`
* `Verif.MbedX509.C59_refines`
* `Verif.Edhoc.C60_same_key_same_transcript`
* `Verif.Edhoc.C60_same_key_same_session`
* `Verif.Edhoc.C60_tampering_splits_keys`
* `Verif.C61_request_was_sent_partial`
* `Verif.C61_response_was_sent_partial`
* `Verif.Edhoc.C62_initiator_partial`
* `Verif.Edhoc.C62_responder_partial`
* `Verif.Edhoc.C62_false_cr`
* `Verif.Edhoc.C63_message_1`
* `Verif.Edhoc.C63_responder`
* `Verif.Edhoc.C63_message_2`
* `Verif.Edhoc.C63_plaintext_2`
* `Verif.Edhoc.C63_plaintext_3`
* `Verif.Edhoc.C63_plaintext_2_complete`
* `Verif.Edhoc.C63_plaintext_3_complete`
* `Verif.Edhoc.C63_plaintext_refused`
* `Verif.Edhoc.C63_message_1_canonical`
* `Verif.Edhoc.C63_false_trailing`
* `Verif.Edhoc.C63_false_suite`
* `Verif.Edhoc.C63_false_bstr_kid`
* `Verif.C64_partial`
* `Verif.C64_edhoc_partial`
* `Verif.C64_edhoc_message_4_partial`
* `Verif.C64_false_lost`
* `Verif.C64_false_port`
* `Verif.Psa.C65_fail_closed`
* `Verif.Psa.C65_no_leak`
* `Verif.Psa.C65_history`
* `Verif.Psa.C65_history_leak`
* `Verif.Psa.C65_refines`
* `Verif.Psa.C65_keygen_succeeds`
* `Verif.Psa.C65_keygen_fresh`
* `Verif.Psa.C65_false_stale`
* `Verif.C66_unprotect_safe_partial`
* `Verif.C66_outsider_partial`
* `Verif.C66_protect_safe_partial`
* `Verif.C66_history_partial`
* `Verif.C66_outsiders_history_partial`
* `Verif.C67_request`
* `Verif.C67_response_partial`
* `Verif.C67_notification`
* `Verif.C67_receive_request_partial`
* `Verif.C67_receive_response_partial`
* `Verif.C67_receive_notification_partial`
* `Verif.C67_serve_partial`
* `Verif.C67_ask_partial`
* `Verif.C67_false_first_notification`
* `Verif.Edhoc.C68_responder_message_1_partial`
* `Verif.Edhoc.C68_initiator_message_2_partial`
* `Verif.Edhoc.C68_responder_message_3_partial`
* `Verif.Edhoc.C68_responder_message_4_partial`
* `Verif.Edhoc.C68_initiator_partial`
* `Verif.Edhoc.C68_responder_partial`
* `Verif.C69_ccm_exact`
* `Verif.C69_lawful`
* `Verif.C69_total`
* `Verif.Edhoc.C69_edhoc_lawful`
* `Verif.Zcbor.C70_decode_message_1`
* `Verif.Zcbor.C70_decode_plaintext_2`
* `Verif.Zcbor.C70_decode_plaintext_3`
* `Verif.Zcbor.C70_decode_id_cred`
* `Verif.Zcbor.C70_decode_cert`
* `Verif.Zcbor.C70_decode_bstr`
* `Verif.Zcbor.C70_decode_int`
* `Verif.Zcbor.C70_decode_complete`
* `Verif.Zcbor.C70_model_decoders`
* `Verif.Zcbor.C70_message_1_roundtrip`
* `Verif.Zcbor.C70_false_unrestored`
* `Verif.Zcbor.C70_false_leak`
* `Verif.C72_sequential`
* `Verif.C72_threads_partial`
* `Verif.Edhoc.C73_psa`
* `Verif.Edhoc.C73_p256`
* `Verif.Edhoc.C73_dh`
* `Verif.Edhoc.C73_sign`
* `Verif.Edhoc.C73_nonce`
* `Verif.Edhoc.C73_partial`
* `Verif.Edhoc.C73_message_4_partial`
* `Verif.Edhoc.C73_conversation_partial`
* `Verif.Edhoc.C73_conversation_message_4_partial`
* `Verif.C74_protected_for_open`
* `Verif.C74_delivered_for_open`
* `Verif.C74_sent_stays_open`
* `Verif.C74_received_stays_open`
* `Verif.C74_replaced`
* `Verif.C74_notification_delivered`
* `Verif.Edhoc.C75_initiator`
* `Verif.Edhoc.C75_responder`
* `Verif.C76_partial`
* `Verif.Edhoc.C77_initiator`
* `Verif.Edhoc.C77_initiator_session`
* `Verif.Edhoc.C77_responder`
* `Verif.Own.C78_partial`
* `Verif.Own.C79_contexts`
* `Verif.Own.C79_nonces`
* `Verif.Own.C79_fresh`
* `Verif.Edhoc.C80_initiator_partner`
* `Verif.Edhoc.C80_responder_partner`
* `Verif.C81_send_partial`
* `Verif.C81_false_response`
* `Verif.C81_false_request`
* `Verif.C81_false_notification`
* `Verif.Vla.C82_carriable_partial`
* `Verif.Loops.C83_window_partial`
* `Verif.Loops.C83_bytes`
* `Verif.Edhoc.C84_message_2`
* `Verif.Edhoc.C84_message_3`
* `Verif.Edhoc.C84_message_4`
* `Verif.Edhoc.C84_message_1`
* `Verif.Edhoc.C84_false_initiator`
* `Verif.Edhoc.C84_false_received`
* `Verif.C85_send`
* `Verif.C85_send_64`
* `Verif.C86_end_to_end`
* `Verif.C86_no_proxy`
* `Verif.C86_request_partial`
* `Verif.C86_response_partial`
* `Verif.C86_notification_partial`
* `Verif.C86_exchange_partial`
* `Verif.Edhoc.C87_initiator`
* `Verif.C88_request`
* `Verif.C88_response`
* `Verif.C88_notification`
* `Verif.C88_unknown`
* `Verif.C88_others_unchanged`
* `Verif.C90_partial`
* `Verif.Edhoc.C91_responder_partner`
* `Verif.Edhoc.C91_initiator_partner`
* `Verif.Edhoc.C91_responder`
* `Verif.Edhoc.C91_initiator`
* `Verif.Edhoc.C91_responder_count`
* `Verif.Edhoc.C91_responder_all_methods`
* `Verif.Edhoc.C91_initiator_all_methods`
* `Verif.C92_partial`
* `Verif.C92_ideal_partial`
* `Verif.C93_request_partial`
* `Verif.C93_response_partial`
* `Verif.C93_same_packet`
* `Verif.C93_conversation_partial`
* `Verif.C93_edhoc_partial`
* `Verif.Edhoc.C94_in_place_tinycrypt_partial`
* `Verif.Edhoc.C94_false_in_place`
* `Verif.Edhoc.C94_epochs`
* `Verif.Edhoc.C94_runs`
* `Verif.Edhoc.C94_conversation_partial`
* `Verif.Edhoc.C94_conversation_message_4_partial`
* `Verif.InPlace.C95_protect`
* `Verif.InPlace.C95_unprotect`
* `Verif.InPlace.C95_history`
* `Verif.InPlace.C95_history_results`
* `Verif.Edhoc.C97_one_other_end`
* `Verif.Edhoc.C97_requests_partial`
* `Verif.Edhoc.C97_messages_partial`
* `Verif.Edhoc.C97_identity`
* `Verif.Edhoc.C97_example`
* `Verif.Psa.C98_inv`
* `Verif.Psa.C98_results`
* `Verif.Psa.C98_no_interference`
* `Verif.Psa.C98_keys`
* `Verif.Psa.C98_no_leak`
* `Verif.Psa.C98_finishes`
* `Verif.C99_send_again`
* `Verif.C99_ssn_increasing`
* `Verif.C99_nonce`
* `Verif.C99_no_replay_partial`
* `Verif.C99_library`
* `Verif.C99_library_safe`

## propext, Quot.sound

* `Verif.C04_false`
* `Verif.C04_false_relabelled`
* `Verif.C05_old_rejected`
* `Verif.C05_false`
* `Verif.C06_decisions`
* `Verif.C06_false`
* `Verif.C06_false_relabelled`
* `Verif.C10_nonce_injective`
* `Verif.C10_nonce_defined`
* `Verif.C10_nonce_oob`
* `Verif.C11_false_two_requests`
* `Verif.C11_false_notification`
* `Verif.C12_false_two_failed_writes`
* `Verif.C12_false_early_sync`
* `Verif.C13_exhausted_stops`
* `Verif.C13_for_ever`
* `Verif.C14_rejects`
* `Verif.C15_serialize_rfc7252`
* `Verif.C16_reported_inside_partial`
* `Verif.C16_header_safe`
* `Verif.C16_oscore_option_inside_partial`
* `Verif.C19_generate_rfc8613`
* `Verif.C19_parse`
* `Verif.C19_roundtrip`
* `Verif.C19_reserved_rejected`
* `Verif.C19_reserved_bits_ignored`
* `Verif.C21_unprotect`
* `Verif.C22_false_payload_lost`
* `Verif.C22_false_eleven_options`
* `Verif.C23_false_interleaved`
* `Verif.C24_plain_coap`
* `Verif.C26_aad_iff`
* `Verif.C27_mirrored`
* `Verif.C27_mirrored_init`
* `Verif.C28_keys`
* `Verif.C31_empty_ack_partial`
* `Verif.C31_false_small_buffer`
* `Verif.C32_serialize_fits_partial`
* `Verif.C32_unprotect_fits_partial`
* `Verif.Edhoc.C35_suites`
* `Verif.Edhoc.C35_responder_method_partial`
* `Verif.Edhoc.C35_initiator_suite`
* `Verif.Edhoc.C35_responder_suite`
* `Verif.Edhoc.C35_false_initiator_method`
* `Verif.Edhoc.C35_false_witness`
* `Verif.Edhoc.C36_false_witness`
* `Verif.Edhoc.C36_partial`
* `Verif.C37_expand_rfc5869`
* `Verif.C37_length`
* `Verif.C37_too_long`
* `Verif.C37_false_wrap`
* `Verif.C37_expand_tinycrypt_partial`
* `Verif.C37_false_tinycrypt`
* `Verif.C37_hkdf`
* `Verif.Edhoc.C38_kdf_rfc9528`
* `Verif.Edhoc.C39_false_method_1`
* `Verif.Edhoc.C39_false_ead`
* `Verif.Edhoc.C40_ciphertext_2`
* `Verif.Edhoc.C40_ciphertext_34`
* `Verif.Edhoc.C40_false_absent_ead_1`
* `Verif.Edhoc.C41_accepted_iff`
* `Verif.Edhoc.C41_false`
* `Verif.Edhoc.C41_partial`
* `Verif.Edhoc.C41_false_run`
* `Verif.Edhoc.C42_verify`
* `Verif.Edhoc.C42_rejects`
* `Verif.Edhoc.C42_initiator`
* `Verif.Edhoc.C42_responder`
* `Verif.Edhoc.C44_responder`
* `Verif.Edhoc.C44_initiator_partial`
* `Verif.Edhoc.C44_false`
* `Verif.Edhoc.C44_false_run`
* `Verif.Edhoc.C46_bstr_total`
* `Verif.Edhoc.C46_bstr_bounded`
* `Verif.Edhoc.C47_th2_rfc9528`
* `Verif.Edhoc.C47_th34_rfc9528`
* `Verif.C48_memcpy`
* `Verif.C48_cpy`
* `Verif.C48_append`
* `Verif.Edhoc.C49_partial`
* `Verif.Edhoc.C49_unverified_refused`
* `Verif.Edhoc.C49_false`
* `Verif.Edhoc.C50_exporter`
* `Verif.Edhoc.C50_prk_exporter`
* `Verif.Edhoc.C50_update`
* `Verif.Edhoc.C50_same_export`
* `Verif.Edhoc.C50_total`
* `Verif.KeyGen.C54_keyspace`
* `Verif.Asn1.C55_wellformed_partial`
* `Verif.Asn1.C55_false_short_integer`
* `Verif.Asn1.C55_accepted_partial`
* `Verif.Asn1.C55_several_refused`
* `Verif.Asn1.C55_buffers_partial`
* `Verif.TinyP256.C56_false_short`
* `Verif.TinyP256.C56_false_compressed`
* `Verif.Edhoc.C57_false_same_ids`
* `Verif.C58_cached`
* `Verif.MbedX509.C59_signature_buffer`
* `Verif.C61_false_injected_option`
* `Verif.Psa.C65_false_no_compact`
* `Verif.C66_false_response_kid`
* `Verif.C66_false_scratch`
* `Verif.C66_false_no_piv`
* `Verif.C67_false_no_kid`
* `Verif.Edhoc.C68_message_1`
* `Verif.Edhoc.C68_initiator_message_4`
* `Verif.Edhoc.C68_false_short_gx`
* `Verif.Edhoc.C68_false_method`
* `Verif.Edhoc.C68_false_plaintext`
* `Verif.Edhoc.C68_false_c509`
* `Verif.Edhoc.C68_false_message_4`
* `Verif.Zcbor.C70_encode_message_1`
* `Verif.Zcbor.C70_encode_id_cred`
* `Verif.Zcbor.C70_encode_sequences`
* `Verif.Zcbor.C70_encode_cose`
* `Verif.Zcbor.C70_encode_oscore`
* `Verif.Zcbor.C70_encode_unused`
* `Verif.Zcbor.C70_model_oscore`
* `Verif.Zcbor.C70_model_edhoc`
* `Verif.Zcbor.C70_model_th2_sig`
* `Verif.Zcbor.C70_model_message_1`
* `Verif.Edhoc.C71_refines_responder`
* `Verif.Edhoc.C71_refines_initiator`
* `Verif.Edhoc.C71_prk_responder`
* `Verif.Edhoc.C71_buffers_responder_partial`
* `Verif.Edhoc.C71_prk_initiator`
* `Verif.Edhoc.C71_buffers_initiator`
* `Verif.Edhoc.C71_prk_plain`
* `Verif.Edhoc.C71_false_pk_before_verification`
* `Verif.Edhoc.C71_false_cx_before_verification`
* `Verif.Edhoc.C71_false_pk_length`
* `Verif.Edhoc.C71_false_pk_static_dh`
* `Verif.C72_false_nonce_reuse`
* `Verif.C74_false_put_replaces_get`
* `Verif.C74_false_directions`
* `Verif.C74_false_small_buffer`
* `Verif.C74_false_reordered`
* `Verif.Edhoc.C75_responder_signs`
* `Verif.Edhoc.C75_initiator_signs`
* `Verif.C76_recovery`
* `Verif.C76_false_nonce`
* `Verif.Edhoc.C77_responder_encrypts`
* `Verif.Edhoc.C77_initiator_encrypts`
* `Verif.Own.C78_init`
* `Verif.Own.C78_false_sender_id`
* `Verif.Own.C78_false_id_context`
* `Verif.Own.C78_false_copy`
* `Verif.Own.C79_false_nvm`
* `Verif.Edhoc.C80_initiator`
* `Verif.Edhoc.C80_responder`
* `Verif.C81_state_protect`
* `Verif.C81_state_unprotect`
* `Verif.C81_false_received`
* `Verif.Edhoc.VlaBuild.C82_edhoc_initiator`
* `Verif.Edhoc.VlaBuild.C82_edhoc_responder`
* `Verif.Vla.C82_unprotect`
* `Verif.Vla.C82_protect_partial`
* `Verif.Vla.C82_history_partial`
* `Verif.Vla.C82_false_general`
* `Verif.Vla.C82_false`
* `Verif.Loops.C83_false_reinit`
* `Verif.Loops.C83_false_valid`
* `Verif.Loops.C83_interactions`
* `Verif.Loops.C83_credentials_partial`
* `Verif.Loops.C83_false_ca`
* `Verif.Edhoc.C84_false_responder`
* `Verif.Edhoc.C84_false_sent`
* `Verif.C85_receive`
* `Verif.C85_exact_send`
* `Verif.C85_exact_receive`
* `Verif.Edhoc.C87_responder`
* `Verif.C88_error_code`
* `Verif.Edhoc.C89_initiator`
* `Verif.Edhoc.C89_responder`
* `Verif.Edhoc.C89_answers`
* `Verif.C90_example`
* `Verif.C90_false`
* `Verif.Edhoc.C91_reuse_needed`
* `Verif.C92_false_outcome`
* `Verif.C93_mirrored`
* `Verif.C93_same_build`
* `Verif.C93_false_large`
* `Verif.Edhoc.C94_in_place`
* `Verif.Edhoc.C94_false_in_place_builds`
* `Verif.Edhoc.C94_chain_rfc`
* `Verif.Edhoc.C94_chain_ok`
* `Verif.Edhoc.C94_agree`
* `Verif.InPlace.C95_protect_writes`
* `Verif.InPlace.C95_unprotect_writes`
* `Verif.InPlace.C95_false_shifted`
* `Verif.InPlace.C95_false_retry_in_place`
* `Verif.Edhoc.LibSwap.C96_edhoc_initiator`
* `Verif.Edhoc.LibSwap.C96_edhoc_responder`
* `Verif.Edhoc.LibSwap.C96_edhoc_tinycrypt`
* `Verif.Edhoc.LibSwap.C96_edhoc_tinycrypt_sign_verify`
* `Verif.Tiny.C96_aead_encrypt`
* `Verif.Tiny.C96_aead_decrypt`
* `Verif.Tiny.C96_short_ciphertext`
* `Verif.Tiny.C96_sign_verify`
* `Verif.Tiny.C96_oscore_history`
* `Verif.Tiny.C96_tinycrypt_is_aes_ccm`
* `Verif.Tiny.C96_tinycrypt_and_mbedtls`
* `Verif.Tiny.C96_hkdf`
* `Verif.Tiny.C96_keys`
* `Verif.Tiny.C96_init_sizes`
* `Verif.Tiny.C96_false_verify_error`
* `Verif.Tiny.C96_false_short_key`
* `Verif.Tiny.C96_false_large_message`
* `Verif.Edhoc.C97_false_reflection`
* `Verif.Psa.C98_alone`
* `Verif.Psa.C98_calls`
* `Verif.C99_receive`
* `Verif.C99_receive_again`
* `Verif.C99_receive_history`
* `Verif.C99_send`
* `Verif.Edhoc.C100_responder`
* `Verif.Edhoc.C100_responder_ok`
* `Verif.Edhoc.C100_initiator_partial`
* `Verif.Edhoc.C100_initiator_ok`
* `Verif.Edhoc.C100_false_initiator`
