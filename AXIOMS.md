# Axioms of every claimed theorem

Printed by Lean's `#print axioms` (all names in namespace `QuicSea`). Only Lean's three standard axioms occur.

## no axioms (4)

`C06_u8_stream`, `C06_u8_slice`, `C42_complete`, `C130_connect`

## propext (13)

`C09_var_bytes_exact`, `C09_cases_exhaustive`, `C09_all_bytes_exact`, `C09_var_bytes_size`, `C09_decode_bytes`, `C26_successor`, `C47_removes_only`, `C69_false`, `C70_others_partial`, `C70_ack`, `C124_mask`, `C124_outcomes`, `C124_only_the_sample`

## Quot.sound (1)

`C47_drops_commute`

## propext, Quot.sound (164)

`C05_false`, `C06_uint_stream`, `C06_uint_slice`, `C06_widths`, `C06_var_u32`, `C11_false`, `C12_false`, `C15_false`, `C17_false`, `C19_false`, `C20_serialize_append`, `C22_long_reversible`, `C22_short_reversible`, `C22_long_bits`, `C22_short_bits`, `C22_type_preserved`, `C22_pn_reversible`, `C22_pn_length_needs_unprotected`, `C22_short_fields_need_unprotected`, `C24_header_total`, `C24_long_dcid_rejected`, `C25_before_protection_removed`, `C26_limit_needed`, `C27_nonce_is_rfc`, `C27_initial_iv_length`, `C41_never`, `C41_false`, `C41_unreadable`, `C41_misread`, `C42_distinct`, `C43_one_connection`, `C44_queue`, `C44_since_created`, `C44_lossless`, `C45_existing`, `C45_new`, `C45_survives`, `C46_own_id`, `C46_ids_distinct`, `C46_history`, `C47_drop_unknown`, `C47_drop_twice`, `C48_false_any`, `C48_never`, `C48_public_never`, `C48_false`, `C54_no_deadlock`, `C54_never_poisoned`, `C54_not_stuck`, `C54_released`, `C55_step`, `C55_history`, `C56_exact`, `C56_exhausted_partial`, `C56_wraps`, `C56_false`, `C60_intact_partial`, `C60_truncated`, `C60_false`, `C60_exact`, `C63_any_frames_built`, `C63_false`, `C64_false`, `C65_false`, `C66_replay_delivered`, `C66_copies_equal_partial`, `C66_false`, `C68_false`, `C69_one_more`, `C69_zero_partial`, `C71_history_independent`, `C71_receivers_agree`, `C73_decode_release`, `C73_run_release`, `C73_differ`, `C75_mask`, `C78_false`, `C79_false`, `C80_any_token_built`, `C80_false`, `C85_datagrams`, `C90_exact`, `C90_undefined`, `C90_uninitialised`, `C90_false`, `C90_calloc_partial`, `C91_short_calls_end`, `C91_taken_forever`, `C96_no_stream`, `C96_never_released`, `C96_release_partial`, `C98_false`, `C98_always_internal`, `C98_frames_partial`, `C98_header_partial`, `C98_packets_partial`, `C98_writers_partial`, `C99_outputs_partial`, `C99_writers_partial`, `C99_datagram_partial`, `C99_accept_prints`, `C99_logging_needs_stdout`, `C99_false`, `C100_false`, `C100_frames_partial`, `C100_socket_partial`, `C101_false_any`, `C101_writable_partial`, `C101_log_poisons`, `C101_others_die`, `C101_decoding_dies`, `C101_accepted_partial`, `C101_deaf`, `C101_any_datagram`, `C101_false`, `C105_parts_partial`, `C105_exact`, `C105_never`, `C105_false`, `C105_mutex_partial`, `C106_shows`, `C106_faithful`, `C106_injective`, `C109_taken_for_one_rtt`, `C110_history`, `C110_same_bytes`, `C110_schedules`, `C110_schedules_init`, `C115_schedules`, `C116_calls_partial`, `C117_mask_bits`, `C119_nothing_heeded`, `C119_false`, `C121_received`, `C121_exact`, `C121_partial`, `C122_refuses`, `C122_panics`, `C127_read_always`, `C128_no_keys`, `C129_next_number`, `C130_false_any`, `C130_false`, `C132_working`, `C132_failing`, `C132_delayed`, `C132_never`, `C133_step`, `C133_poisoned_exact`, `C133_points`, `C133_harmless`, `C133_harmful`, `C133_conn`, `C133_none`, `C136_built`, `C137_serialize_partial`, `C138_stops_partial`, `C138_calm_partial`, `C138_block`, `C139_all`, `C142_headers`, `C142_frame`, `C142_packet_partial`, `C148_written`

## propext, Classical.choice, Quot.sound (558)

`C01_varint_round_trip`, `C02_varint_encode_total`, `C03_varint_encode_minimal`, `C04_varint_decode_conforms`, `C05_exact`, `C05_slice_decode_disagrees`, `C05_slice_decode_agrees_partial`, `C06_uint_round_trip`, `C07_cid_read_write`, `C07_cid_write_read`, `C07_cid_too_big`, `C07_cid_20_bytes`, `C07_cid_of_u64`, `C08_cid_write_panics_iff`, `C10_exact`, `C10_frames_round_trip`, `C11_exact`, `C11_stream_never_round_trips`, `C11_offset_lost`, `C11_last_stream_round_trip_partial`, `C12_exact`, `C12_crypto_takes_offset_too`, `C12_crypto_offset_broken`, `C12_crypto_length_partial`, `C13_frames_total`, `C13_loop`, `C13_stream_error`, `C14_payload_consumed`, `C15_exact`, `C15_types_alias`, `C15_unknown_rejected_partial`, `C15_payload_rejected_partial`, `C16_frame_layout`, `C16_payload_layout`, `C17_parses_rfc_partial`, `C17_parse_sound_partial`, `C17_parse_sound_small_type_partial`, `C17_parser_exact`, `C18_serialize_fails_iff`, `C18_long_cid_panics`, `C19_exact`, `C19_parsed_well_formed_partial`, `C19_reserializable`, `C19_canonical_partial`, `C20_serialize_injective`, `C20_grammar_unambiguous`, `C21_accepts`, `C21_rejects_length`, `C21_only_complete`, `C21_rejects_truncated`, `C23_write_parse`, `C23_parse_write`, `C23_from_stream`, `C23_short`, `C24_long_scid_rejected`, `C24_version_zero_any_length`, `C25_classification`, `C25_has_five_bytes`, `C25_decoded_kind`, `C26_strictly_increasing`, `C26_new_connection`, `C26_spaces_independent`, `C27_nonces_distinct`, `C27_history`, `C28_partial`, `C28_reachable_partial`, `C28_exact`, `C28_exact_all`, `C28_late`, `C28_wrong`, `C28_false`, `C29_partial`, `C29_no_ack_partial`, `C29_too_short`, `C29_decoder_fails`, `C29_exact`, `C29_decoder_exact`, `C29_false`, `C30_matching_keys`, `C30_agreement_kept`, `C30_directions_differ`, `C31_false_any`, `C31_exact`, `C31_envelope`, `C31_round_trip_partial`, `C31_builds`, `C31_false`, `C32_four_bytes_partial`, `C32_short_never_decoded`, `C32_short_rejected`, `C32_exact`, `C32_false`, `C32_false_any`, `C33_handshake_exact`, `C33_zero_rtt_exact`, `C33_one_rtt_exact`, `C33_initial`, `C33_initial_sealed`, `C33_initial_exact`, `C33_rejected`, `C33_handshake`, `C33_zero_rtt`, `C33_one_rtt`, `C33_rejected_handshake`, `C33_rejected_zero_rtt`, `C33_rejected_one_rtt`, `C34_no_keys_error`, `C34_never_decoded`, `C34_never_sent`, `C35_exact_panic_partial`, `C35_terminates`, `C35_no_panic_partial`, `C35_short_length_panics`, `C35_retry_panics`, `C35_trailing_bytes_panic`, `C35_false`, `C35_false_any`, `C35_exact_panic_keys_partial`, `C36_false_any`, `C36_exact`, `C36_false`, `C36_coalesced_partial`, `C36_any_packets`, `C37_initial_length`, `C37_handshake_length`, `C37_self_delimiting`, `C38_version_negotiation`, `C38_rejects`, `C39_label`, `C39_injective`, `C39_expand`, `C39_expand_exact`, `C40_format`, `C40_fails_exactly`, `C40_unique_split`, `C40_injective`, `C41_exact`, `C41_addresses_partial`, `C42_code`, `C43_exact`, `C43_delivers_partial`, `C43_malformed`, `C43_version_negotiation`, `C43_version_negotiation_never_delivered`, `C43_false`, `C44_destination`, `C44_accept`, `C44_history`, `C45_accept`, `C46_reply_routed`, `C47_refused_afterwards`, `C47_not_decoded_afterwards`, `C48_registers_partial`, `C49_exact`, `C49_malformed_panics`, `C49_unknown_panics`, `C49_false`, `C49_known_partial`, `C49_new_initial`, `C50_false_any`, `C50_exact`, `C50_repeat_opens_second`, `C50_false`, `C50_known_id_partial`, `C51_exact`, `C51_leading_zeros`, `C51_false`, `C51_different_values_partial`, `C52_initial`, `C52_handshake`, `C52_number`, `C52_no_source_id`, `C53_round_trip_partial`, `C53_four_bytes_partial`, `C53_short_never_decoded`, `C53_wire_exact`, `C53_false`, `C53_false_any`, `C53_exact`, `C54_exclusive`, `C54_progress`, `C54_someone_runs`, `C56_false_any`, `C56_encoding_determines_partial`, `C56_packets_partial`, `C57_initial`, `C57_initial_any`, `C57_handshake_any`, `C58_sent_to_original`, `C58_same_ids_partial`, `C58_false`, `C58_false_any`, `C58_exact`, `C59_any_version_opens`, `C59_version_zero_partial`, `C59_false`, `C59_false_any`, `C61_any_size_opens`, `C61_tiny_partial`, `C61_false`, `C61_false_any`, `C61_exact`, `C62_opening_lost`, `C62_follow_up_partial`, `C62_false`, `C62_false_any`, `C62_exact`, `C63_false_any`, `C63_any_frames_delivered`, `C63_only_initial_partial`, `C64_false_any`, `C64_exact`, `C64_empty_delivered`, `C64_nonempty_partial`, `C65_false_any`, `C65_any_bits_delivered`, `C65_built_partial`, `C66_false_any`, `C66_copies_delivered`, `C67_exact`, `C67_all_lost`, `C67_none_fails_partial`, `C67_false`, `C68_exact`, `C68_invalid_delivered`, `C68_limits_partial`, `C69_exact`, `C70_new_connection_id`, `C70_simple_partial`, `C70_false`, `C72_four_bytes_partial`, `C72_short_never_decoded`, `C72_exact`, `C72_false`, `C72_false_any`, `C73_decode_debug`, `C73_decode_agree`, `C74_four_bytes_partial`, `C74_short_cut_off`, `C74_takes_the_rest`, `C74_false`, `C74_false_any`, `C74_exact`, `C75_laws`, `C75_keys`, `C75_round_trip`, `C76_initial`, `C76_any_initial`, `C76_any_handshake`, `C77_payload`, `C77_packet`, `C77_datagram`, `C77_loops`, `C78_false_any`, `C78_any_version_delivered`, `C78_never_zero_partial`, `C78_built_partial`, `C79_false_any`, `C79_any_ids_delivered`, `C79_first_partial`, `C79_first_run_partial`, `C80_false_any`, `C80_any_token_delivered`, `C80_no_token_partial`, `C81_own_bytes`, `C81_prefix_free`, `C81_datagrams`, `C81_reachable`, `C82_false_any`, `C82_numbers_are_attempts`, `C82_never_zero`, `C82_false`, `C82_no_gaps_partial`, `C83_false_any`, `C83_exact_size`, `C83_small_packets`, `C83_padded_partial`, `C83_false`, `C84_false_any`, `C84_short_ids_open`, `C84_long_ids_partial`, `C84_false`, `C85_memory`, `C85_connections`, `C86_false_any`, `C86_flood`, `C86_unauthentic_opens`, `C86_false`, `C86_initial_header_partial`, `C87_encoded_anyway`, `C87_every_bad_value`, `C87_false`, `C87_encoding_limit_partial`, `C88_false_any`, `C88_serial_uncrossed`, `C88_crossing`, `C88_false`, `C88_serial_initial`, `C88_drop_race`, `C88_serial_partial`, `C89_false_any`, `C89_exact`, `C89_malleable`, `C89_false`, `C89_bound_partial`, `C91_no_livelock`, `C92_false_any`, `C92_internal_partial`, `C92_public_silent`, `C92_false`, `C93_reencoding`, `C94_shortest`, `C94_frame_shortest`, `C95_short_calls_end`, `C95_accept_goes_on`, `C96_false`, `C96_false_any`, `C97_sent_sealed`, `C97_authentic`, `C97_authentic_plain`, `C97_datagram`, `C97_nothing_sent`, `C97_genuine`, `C98_unknown_type`, `C98_socket_partial`, `C99_success_silent_partial`, `C99_token_printed`, `C99_accept_partial`, `C99_false_any`, `C100_truncated`, `C100_success_partial`, `C100_false_any`, `C101_quiet_partial`, `C102_connections_shown`, `C102_keys_determined`, `C102_connection_exact`, `C102_keys_shown`, `C102_queues_partial`, `C102_locked_partial`, `C102_false`, `C103_log_readable`, `C104_authentic`, `C104_datagram`, `C104_nothing_sent`, `C104_genuine`, `C104_handshake`, `C106_layout`, `C107_false_any`, `C107_exact`, `C107_number_limit_partial`, `C107_exceeded`, `C107_false`, `C108_false_any`, `C108_bit_ignored`, `C108_only_installed_keys`, `C108_bit_readable_partial`, `C108_false`, `C109_false_any`, `C109_never_recognised`, `C109_refused_partial`, `C109_false`, `C111_any_time`, `C111_queue_decodes`, `C111_client`, `C112_initial_unique`, `C112_handshake_unique`, `C112_zerortt_unique`, `C112_onertt_unique`, `C112_kinds`, `C112_sent`, `C112_datagram`, `C112_no_repeat`, `C113_same`, `C113_work`, `C113_counted`, `C113_frames`, `C113_header`, `C113_recv`, `C114_false_any`, `C114_frame`, `C114_frames`, `C114_initial_exact`, `C114_initial_partial`, `C114_handshake_exact`, `C114_long_source_id`, `C114_socket`, `C114_false`, `C115_history`, `C115_decoding`, `C115_results`, `C116_build_exact`, `C116_error_uses_number`, `C116_accept_exact`, `C116_false`, `C116_false_any`, `C117_refusal`, `C117_oracle`, `C117_exact`, `C117_short_partial`, `C117_covered_partial`, `C117_false`, `C117_false_real`, `C117_not_real`, `C117_same_mask`, `C117_some_hold`, `C118_false_any`, `C118_all_delivered`, `C118_exact`, `C118_retry_panics`, `C118_last_partial`, `C118_no_retry_partial`, `C118_false`, `C118_false_retry`, `C119_false_any`, `C119_false_close_any`, `C119_any_ack`, `C119_after_close`, `C119_numbers_partial`, `C119_false_close`, `C120_same`, `C120_work`, `C120_any_outcome`, `C120_frames`, `C121_false_any`, `C121_early`, `C121_reused`, `C121_false`, `C122_seals`, `C122_opens`, `C122_inverse`, `C122_total`, `C123_derived`, `C123_no_panic`, `C123_total`, `C123_initial`, `C125_new`, `C125_new_panics`, `C125_history`, `C125_reachable`, `C125_ids`, `C125_keys_used`, `C126_number`, `C126_number_panics`, `C126_initial`, `C126_handshake`, `C126_outcomes`, `C127_handshake`, `C127_zero_rtt`, `C127_one_rtt`, `C127_initial`, `C127_panics`, `C127_number`, `C128_initial`, `C128_handshake`, `C128_frames_first`, `C128_initial_ends`, `C128_handshake_ends`, `C129_initial_exact`, `C129_handshake_exact`, `C129_nothing_recorded_partial`, `C129_after_acknowledgement`, `C129_after_receipt`, `C129_false_any`, `C129_false`, `C130_accept_exact`, `C130_accept_dies`, `C130_taken_partial`, `C130_only_faults`, `C131_initial_exact`, `C131_handshake_exact`, `C131_initial_partial`, `C131_small_fails`, `C131_false_any`, `C131_false`, `C132_ending_exact`, `C132_ids_exact`, `C132_nothing_registered`, `C132_connections`, `C132_all`, `C133_all`, `C134_long`, `C134_short`, `C134_exact`, `C134_bits`, `C134_bits_short`, `C134_before_mask_partial`, `C134_same_mask_partial`, `C134_false`, `C134_false_real`, `C134_not_real`, `C135_released`, `C135_short_calls_end`, `C135_accept_goes_on`, `C135_poison_kills`, `C135_deaf`, `C135_all`, `C136_all`, `C136_any`, `C136_length`, `C137_packet_partial`, `C137_datagram_partial`, `C137_history_partial`, `C137_lost`, `C137_false_any`, `C137_false`, `C137_false_real`, `C138_new_partial`, `C138_accept`, `C138_false_any`, `C138_false`, `C138_false_real`, `C138_false_accept`, `C140_all`, `C140_directions`, `C141_repeated`, `C141_false_any`, `C141_false`, `C141_apart_partial`, `C141_same`, `C141_false_real`, `C142_frames`, `C142_packets_partial`, `C142_nothing`, `C142_panics`, `C142_false_any`, `C142_false`, `C142_false_real`, `C143_all`, `C143_own`, `C143_peer`, `C144_follow_partial`, `C144_swallowed`, `C144_iff`, `C144_false`, `C145_all`, `C146_none_lost_partial`, `C146_data`, `C146_iff`, `C146_false`, `C147_all`, `C147_received`, `C148_parsed`, `C148_tokens`, `C148_all`, `C148_initial`, `C149_frames`, `C149_initial`, `C149_any_initial`, `C149_any_handshake`, `C149_all`, `C149_fits`, `C150_all`, `C151_streams`, `C151_all`, `C151_beginnings`, `C151_mended`, `C151_exact`, `C151_where`
