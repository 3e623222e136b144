{
 "claims": [
  {
   "property": "C01",
   "status": "proved",
   "theorems": [
    "QuicSea.C01_varint_round_trip"
   ],
   "note": "for every u64 below 2^62 and every suffix stream"
  },
  {
   "property": "C02",
   "status": "proved",
   "theorems": [
    "QuicSea.C02_varint_encode_total"
   ],
   "note": "exact success condition, no panic"
  },
  {
   "property": "C03",
   "status": "proved",
   "theorems": [
    "QuicSea.C03_varint_encode_minimal"
   ],
   "note": "valid encoding and minimal among all valid encodings"
  },
  {
   "property": "C04",
   "status": "proved",
   "theorems": [
    "QuicSea.C04_varint_decode_conforms"
   ],
   "note": "exact characterisation on every stream"
  },
  {
   "property": "C05",
   "status": "partial",
   "theorems": [
    "QuicSea.C05_exact",
    "QuicSea.C05_slice_decode_disagrees",
    "QuicSea.C05_false",
    "QuicSea.C05_slice_decode_agrees_partial"
   ],
   "note": "false of the code for 4- and 8-byte forms: C05_slice_decode_disagrees (universal) and C05_false; the partial theorem covers 1- and 2-byte forms; C05_exact says for which slices the two decoders agree"
  },
  {
   "property": "C06",
   "status": "proved",
   "theorems": [
    "QuicSea.C06_uint_stream",
    "QuicSea.C06_u8_stream",
    "QuicSea.C06_uint_slice",
    "QuicSea.C06_u8_slice",
    "QuicSea.C06_uint_round_trip",
    "QuicSea.C06_widths",
    "QuicSea.C06_var_u32"
   ],
   "note": "all widths, stream and slice"
  },
  {
   "property": "C07",
   "status": "proved",
   "theorems": [
    "QuicSea.C07_cid_read_write",
    "QuicSea.C07_cid_write_read",
    "QuicSea.C07_cid_too_big",
    "QuicSea.C07_cid_20_bytes",
    "QuicSea.C07_cid_of_u64"
   ],
   "note": "all lengths 0..20"
  },
  {
   "property": "C08",
   "status": "proved",
   "theorems": [
    "QuicSea.C08_cid_write_panics_iff"
   ],
   "note": "exact panic condition"
  },
  {
   "property": "C09",
   "status": "proved",
   "theorems": [
    "QuicSea.C09_var_bytes_exact",
    "QuicSea.C09_cases_exhaustive",
    "QuicSea.C09_all_bytes_exact",
    "QuicSea.C09_var_bytes_size",
    "QuicSea.C09_decode_bytes"
   ],
   "note": "all streams including ones yielding errors"
  },
  {
   "property": "C10",
   "status": "proved",
   "theorems": [
    "QuicSea.C10_exact",
    "QuicSea.C10_frames_round_trip"
   ],
   "note": "every list, by induction over the list; C10_exact: no other list of well-formed frames round-trips"
  },
  {
   "property": "C11",
   "status": "partial",
   "theorems": [
    "QuicSea.C11_exact",
    "QuicSea.C11_stream_never_round_trips",
    "QuicSea.C11_offset_lost",
    "QuicSea.C11_false",
    "QuicSea.C11_last_stream_round_trip_partial"
   ],
   "note": "false of the code: C11_stream_never_round_trips, C11_offset_lost (universal), C11_false; the partial theorem covers a last frame without Length at offset 0; C11_exact says which lists of frames are given back"
  },
  {
   "property": "C12",
   "status": "partial",
   "theorems": [
    "QuicSea.C12_exact",
    "QuicSea.C12_crypto_takes_offset_too",
    "QuicSea.C12_crypto_offset_broken",
    "QuicSea.C12_false",
    "QuicSea.C12_crypto_length_partial"
   ],
   "note": "false of the code for offsets other than 0: C12_crypto_takes_offset_too, C12_crypto_offset_broken (universal), C12_false; the partial theorem covers offset 0; C12_exact: offset 0 and no other"
  },
  {
   "property": "C13",
   "status": "proved",
   "theorems": [
    "QuicSea.C13_frames_total",
    "QuicSea.C13_loop",
    "QuicSea.C13_stream_error"
   ],
   "note": "no panic on any stream; the loop equation of the source holds of the total model function"
  },
  {
   "property": "C14",
   "status": "proved",
   "theorems": [
    "QuicSea.C14_payload_consumed"
   ],
   "note": "payload cut into one piece per frame"
  },
  {
   "property": "C15",
   "status": "partial",
   "theorems": [
    "QuicSea.C15_exact",
    "QuicSea.C15_types_alias",
    "QuicSea.C15_false",
    "QuicSea.C15_unknown_rejected_partial",
    "QuicSea.C15_payload_rejected_partial"
   ],
   "note": "false of the code: types act modulo 256 (C15_types_alias, universal; C15_false); the partial theorem covers all types whose value modulo 256 is above 0x1e; C15_exact: those are exactly the types rejected"
  },
  {
   "property": "C16",
   "status": "proved",
   "theorems": [
    "QuicSea.C16_frame_layout",
    "QuicSea.C16_payload_layout"
   ],
   "note": "against the RFC 9000 grammar Spec.FrameWire"
  },
  {
   "property": "C17",
   "status": "partial",
   "theorems": [
    "QuicSea.C17_false",
    "QuicSea.C17_parses_rfc_partial",
    "QuicSea.C17_parse_sound_partial",
    "QuicSea.C17_parse_sound_small_type_partial",
    "QuicSea.C17_parser_exact"
   ],
   "note": "false of the code for STREAM, CRYPTO with offset and types of 256 and more (C17_false); both directions proved for the rest, and C17_parser_exact characterises the parser on every input"
  },
  {
   "property": "C18",
   "status": "proved",
   "theorems": [
    "QuicSea.C18_serialize_fails_iff",
    "QuicSea.C18_long_cid_panics"
   ],
   "note": "exact condition"
  },
  {
   "property": "C19",
   "status": "partial",
   "theorems": [
    "QuicSea.C19_exact",
    "QuicSea.C19_false",
    "QuicSea.C19_parsed_well_formed_partial",
    "QuicSea.C19_reserializable",
    "QuicSea.C19_canonical_partial"
   ],
   "note": "false of the code only for the data length of CRYPTO frames at offsets other than 0 (C19_false); all else, including re-serialization, proved; C19_exact: those are exactly the ill-formed frames that come out"
  },
  {
   "property": "C20",
   "status": "proved",
   "theorems": [
    "QuicSea.C20_serialize_append",
    "QuicSea.C20_serialize_injective",
    "QuicSea.C20_grammar_unambiguous"
   ],
   "note": "composition and injectivity, STREAM included"
  },
  {
   "property": "C21",
   "status": "proved",
   "theorems": [
    "QuicSea.C21_accepts",
    "QuicSea.C21_rejects_length",
    "QuicSea.C21_only_complete",
    "QuicSea.C21_rejects_truncated"
   ],
   "note": "exact acceptance condition"
  },
  {
   "property": "C22",
   "status": "proved",
   "theorems": [
    "QuicSea.C22_long_reversible",
    "QuicSea.C22_short_reversible",
    "QuicSea.C22_long_bits",
    "QuicSea.C22_short_bits",
    "QuicSea.C22_type_preserved",
    "QuicSea.C22_pn_reversible",
    "QuicSea.C22_pn_length_needs_unprotected",
    "QuicSea.C22_short_fields_need_unprotected"
   ],
   "note": "all header bytes, masks and packet numbers"
  },
  {
   "property": "C23",
   "status": "proved",
   "theorems": [
    "QuicSea.C23_write_parse",
    "QuicSea.C23_parse_write",
    "QuicSea.C23_from_stream",
    "QuicSea.C23_short"
   ],
   "note": "write then parse, parse then write, every well-formed header"
  },
  {
   "property": "C24",
   "status": "proved",
   "theorems": [
    "QuicSea.C24_header_total",
    "QuicSea.C24_long_dcid_rejected",
    "QuicSea.C24_long_scid_rejected",
    "QuicSea.C24_version_zero_any_length"
   ],
   "note": "every stream; version 0 exempt as in RFC 8999"
  },
  {
   "property": "C25",
   "status": "proved",
   "theorems": [
    "QuicSea.C25_classification",
    "QuicSea.C25_has_five_bytes",
    "QuicSea.C25_before_protection_removed",
    "QuicSea.C25_decoded_kind"
   ],
   "note": "exact classification and the packet kind of every decoded packet"
  },
  {
   "property": "C26",
   "status": "proved",
   "theorems": [
    "QuicSea.C26_strictly_increasing",
    "QuicSea.C26_new_connection",
    "QuicSea.C26_spaces_independent",
    "QuicSea.C26_successor",
    "QuicSea.C26_limit_needed"
   ],
   "note": "every history from every new connection; spaces independent"
  },
  {
   "property": "C27",
   "status": "proved",
   "theorems": [
    "QuicSea.C27_nonce_is_rfc",
    "QuicSea.C27_nonces_distinct",
    "QuicSea.C27_history",
    "QuicSea.C27_initial_iv_length"
   ],
   "note": "RFC 9001 nonce, injective in the packet number, so unique over any history"
  },
  {
   "property": "C28",
   "status": "partial",
   "theorems": [
    "QuicSea.C28_partial",
    "QuicSea.C28_reachable_partial",
    "QuicSea.C28_exact",
    "QuicSea.C28_exact_all",
    "QuicSea.C28_late",
    "QuicSea.C28_wrong",
    "QuicSea.C28_false"
   ],
   "note": "false of the code once an acknowledgement is recorded: C28_wrong (universal), C28_false; the partial theorems cover every reachable connection (no acknowledgement is ever recorded), C28_exact and C28_exact_all say exactly when the result is right otherwise, C28_late that late packets always get a wrong number"
  },
  {
   "property": "C29",
   "status": "partial",
   "theorems": [
    "QuicSea.C29_partial",
    "QuicSea.C29_no_ack_partial",
    "QuicSea.C29_too_short",
    "QuicSea.C29_decoder_fails",
    "QuicSea.C29_exact",
    "QuicSea.C29_decoder_exact",
    "QuicSea.C29_false"
   ],
   "note": "false of the code: C29_too_short, C29_decoder_fails, C29_false; the partial theorem gives the exact lengths for which it holds; C29_exact and C29_decoder_exact are both directions"
  },
  {
   "property": "C30",
   "status": "proved",
   "theorems": [
    "QuicSea.C30_matching_keys",
    "QuicSea.C30_agreement_kept",
    "QuicSea.C30_directions_differ"
   ],
   "note": "under the stated laws of the HKDF library; every id of 0..20 bytes, every later history"
  },
  {
   "property": "C31",
   "status": "partial",
   "theorems": [
    "QuicSea.C31_false_any",
    "QuicSea.C31_exact",
    "QuicSea.C31_envelope",
    "QuicSea.C31_round_trip_partial",
    "QuicSea.C31_builds",
    "QuicSea.C31_false"
   ],
   "note": "every history, token and direction; false only for frames the frame codec returns wrongly (STREAM, CRYPTO at an offset: C31_false); C31_exact: of well-formed frames exactly the plain ones come back; C31_envelope and C76 cover all frame lists"
  },
  {
   "property": "C32",
   "status": "partial",
   "theorems": [
    "QuicSea.C32_four_bytes_partial",
    "QuicSea.C32_short_never_decoded",
    "QuicSea.C32_short_rejected",
    "QuicSea.C32_exact",
    "QuicSea.C32_false",
    "QuicSea.C32_false_any"
   ],
   "note": "false of the code for 1, 2 and 3 bytes: C32_short_never_decoded, C32_short_rejected (universal), C32_false; the partial theorem covers 4 bytes; C32_exact: four bytes and no other"
  },
  {
   "property": "C33",
   "status": "proved",
   "theorems": [
    "QuicSea.C33_handshake_exact",
    "QuicSea.C33_zero_rtt_exact",
    "QuicSea.C33_one_rtt_exact",
    "QuicSea.C33_initial",
    "QuicSea.C33_initial_sealed",
    "QuicSea.C33_initial_exact",
    "QuicSea.C33_rejected",
    "QuicSea.C33_handshake",
    "QuicSea.C33_zero_rtt",
    "QuicSea.C33_one_rtt",
    "QuicSea.C33_rejected_handshake",
    "QuicSea.C33_rejected_zero_rtt",
    "QuicSea.C33_rejected_one_rtt"
   ],
   "note": "all four protected packet kinds, with rejection of each; Initial against the RFC 9001 keys, and for each kind the accepted packets exactly (C33_initial_exact, C33_handshake_exact, C33_zero_rtt_exact, C33_one_rtt_exact)"
  },
  {
   "property": "C34",
   "status": "proved",
   "theorems": [
    "QuicSea.C34_no_keys_error",
    "QuicSea.C34_never_decoded",
    "QuicSea.C34_never_sent"
   ],
   "note": "every stream, every reachable connection"
  },
  {
   "property": "C35",
   "status": "partial",
   "theorems": [
    "QuicSea.C35_exact_panic_partial",
    "QuicSea.C35_terminates",
    "QuicSea.C35_no_panic_partial",
    "QuicSea.C35_short_length_panics",
    "QuicSea.C35_retry_panics",
    "QuicSea.C35_trailing_bytes_panic",
    "QuicSea.C35_false",
    "QuicSea.C35_false_any",
    "QuicSea.C35_exact_panic_keys_partial"
   ],
   "note": "false of the code: C35_short_length_panics, C35_retry_panics, C35_trailing_bytes_panic (universal), C35_false; the exact set of panicking inputs (on reachable connections, and on connections with any keys in any space: C35_exact_panic_keys_partial) and termination are proved"
  },
  {
   "property": "C36",
   "status": "partial",
   "theorems": [
    "QuicSea.C36_false_any",
    "QuicSea.C36_exact",
    "QuicSea.C36_false",
    "QuicSea.C36_coalesced_partial",
    "QuicSea.C36_any_packets"
   ],
   "note": "any number of packets and history; false only for frames the frame codec returns wrongly (C36_false); C36_exact says for every datagram of such packets what is decoded; C36_any_packets has no condition on frames"
  },
  {
   "property": "C37",
   "status": "proved",
   "theorems": [
    "QuicSea.C37_initial_length",
    "QuicSea.C37_handshake_length",
    "QuicSea.C37_self_delimiting"
   ],
   "note": "every serialized packet; at most one packet starts at any position"
  },
  {
   "property": "C38",
   "status": "proved",
   "theorems": [
    "QuicSea.C38_version_negotiation",
    "QuicSea.C38_rejects"
   ],
   "note": "exact condition, both directions"
  },
  {
   "property": "C39",
   "status": "proved",
   "theorems": [
    "QuicSea.C39_label",
    "QuicSea.C39_injective",
    "QuicSea.C39_expand",
    "QuicSea.C39_expand_exact"
   ],
   "note": "exact condition, RFC 8446 layout, injectivity; C39_expand_exact: hkdf_expand_label returns exactly the expansion of that structure and never panics"
  },
  {
   "property": "C40",
   "status": "proved",
   "theorems": [
    "QuicSea.C40_format",
    "QuicSea.C40_fails_exactly",
    "QuicSea.C40_unique_split",
    "QuicSea.C40_injective"
   ],
   "note": "every parameter and parameter list held in memory (values shorter than 2^63 bytes); the RFC layout of preferred_address is C41"
  },
  {
   "property": "C41",
   "status": "partial",
   "theorems": [
    "QuicSea.C41_never",
    "QuicSea.C41_false",
    "QuicSea.C41_unreadable",
    "QuicSea.C41_misread",
    "QuicSea.C41_exact",
    "QuicSea.C41_addresses_partial"
   ],
   "note": "false of the code for every preferred address: C41_never, C41_unreadable, C41_misread (universal), C41_exact (exactly which addresses a peer can read), C41_false; the partial theorem covers the addresses and ports"
  },
  {
   "property": "C42",
   "status": "proved",
   "theorems": [
    "QuicSea.C42_code",
    "QuicSea.C42_distinct",
    "QuicSea.C42_complete"
   ],
   "note": "every error value; all registered codes reached"
  },
  {
   "property": "C43",
   "status": "partial",
   "theorems": [
    "QuicSea.C43_exact",
    "QuicSea.C43_delivers_partial",
    "QuicSea.C43_one_connection",
    "QuicSea.C43_malformed",
    "QuicSea.C43_version_negotiation",
    "QuicSea.C43_version_negotiation_never_delivered",
    "QuicSea.C43_false"
   ],
   "note": "false of the code for Version Negotiation datagrams, which are always routed to id 0: C43_version_negotiation, C43_version_negotiation_never_delivered (universal), C43_false; every other datagram in the partial theorem; C43_exact: delivered to it, and to no other, exactly if not a Version Negotiation packet or the id has the value 0"
  },
  {
   "property": "C44",
   "status": "proved",
   "theorems": [
    "QuicSea.C44_queue",
    "QuicSea.C44_since_created",
    "QuicSea.C44_destination",
    "QuicSea.C44_lossless",
    "QuicSea.C44_accept",
    "QuicSea.C44_history"
   ],
   "note": "every schedule of any number of threads; order is the order of routing; C44_accept and C44_history: the same of calls one after the other, in terms of the datagrams taken from the network"
  },
  {
   "property": "C45",
   "status": "proved",
   "theorems": [
    "QuicSea.C45_accept",
    "QuicSea.C45_existing",
    "QuicSea.C45_new",
    "QuicSea.C45_survives"
   ],
   "note": "every schedule and every sequence of random ids; C45_accept: also for one caller at a time, where existing connections are kept with their queues extended"
  },
  {
   "property": "C46",
   "status": "proved",
   "theorems": [
    "QuicSea.C46_own_id",
    "QuicSea.C46_reply_routed",
    "QuicSea.C46_ids_distinct",
    "QuicSea.C46_history"
   ],
   "note": "every reachable state, also for one caller at a time"
  },
  {
   "property": "C47",
   "status": "proved",
   "theorems": [
    "QuicSea.C47_removes_only",
    "QuicSea.C47_refused_afterwards",
    "QuicSea.C47_not_decoded_afterwards",
    "QuicSea.C47_drop_unknown",
    "QuicSea.C47_drop_twice",
    "QuicSea.C47_drops_commute"
   ],
   "note": "every table, id and order of drops"
  },
  {
   "property": "C48",
   "status": "partial",
   "theorems": [
    "QuicSea.C48_false_any",
    "QuicSea.C48_never",
    "QuicSea.C48_public_never",
    "QuicSea.C48_registers_partial",
    "QuicSea.C48_false"
   ],
   "note": "false of the code: accept registers the connection and then always reaches todo!(); C48_never, C48_public_never (universal), C48_false; the partial theorem covers the registration"
  },
  {
   "property": "C49",
   "status": "partial",
   "theorems": [
    "QuicSea.C49_exact",
    "QuicSea.C49_malformed_panics",
    "QuicSea.C49_unknown_panics",
    "QuicSea.C49_false",
    "QuicSea.C49_known_partial",
    "QuicSea.C49_new_initial"
   ],
   "note": "false of the code: C49_malformed_panics, C49_unknown_panics (universal), C49_false; the partial theorem covers datagrams for known connections; C49_exact: for all arrivals, a panic exactly if the first datagram that no connection takes does not open one"
  },
  {
   "property": "C50",
   "status": "partial",
   "theorems": [
    "QuicSea.C50_false_any",
    "QuicSea.C50_exact",
    "QuicSea.C50_repeat_opens_second",
    "QuicSea.C50_false",
    "QuicSea.C50_known_id_partial"
   ],
   "note": "false of the code: C50_repeat_opens_second (universal), C50_false; the partial theorem covers ids already in the table; C50_exact: the repetition reaches the connection exactly if the random id equals the value of the original one"
  },
  {
   "property": "C51",
   "status": "partial",
   "theorems": [
    "QuicSea.C51_exact",
    "QuicSea.C51_leading_zeros",
    "QuicSea.C51_false",
    "QuicSea.C51_different_values_partial"
   ],
   "note": "false of the code: ids of different lengths with the same value collide (C51_leading_zeros, C51_false); the partial theorem covers ids of different values; C51_exact: two ids can meet exactly if the longer is the shorter with zero bytes in front"
  },
  {
   "property": "C52",
   "status": "proved",
   "theorems": [
    "QuicSea.C52_initial",
    "QuicSea.C52_handshake",
    "QuicSea.C52_number",
    "QuicSea.C52_no_source_id"
   ],
   "note": "Initial and Handshake, any acknowledgement state; C52_number: the number that the bytes stand for"
  },
  {
   "property": "C53",
   "status": "partial",
   "theorems": [
    "QuicSea.C53_round_trip_partial",
    "QuicSea.C53_four_bytes_partial",
    "QuicSea.C53_short_never_decoded",
    "QuicSea.C53_wire_exact",
    "QuicSea.C53_false",
    "QuicSea.C53_false_any",
    "QuicSea.C53_exact"
   ],
   "note": "false of the code for 1, 2 and 3 bytes: C53_short_never_decoded (universal), C53_false; the partial theorems cover 4 bytes and every packet that can be built before an acknowledgement; C53_exact: of well-formed frames exactly the plain ones come back; C53_wire_exact: of RFC Handshake packets exactly those with four-byte numbers"
  },
  {
   "property": "C54",
   "status": "proved",
   "theorems": [
    "QuicSea.C54_no_deadlock",
    "QuicSea.C54_never_poisoned",
    "QuicSea.C54_exclusive",
    "QuicSea.C54_not_stuck",
    "QuicSea.C54_progress",
    "QuicSea.C54_someone_runs",
    "QuicSea.C54_released"
   ],
   "note": "at the granularity of lock operations; allocation is outside the model; outputs are taken to be writable, see C101 for the others"
  },
  {
   "property": "C55",
   "status": "proved",
   "theorems": [
    "QuicSea.C55_step",
    "QuicSea.C55_history"
   ],
   "note": "every step and every history of socket calls"
  },
  {
   "property": "C56",
   "status": "partial",
   "theorems": [
    "QuicSea.C56_false_any",
    "QuicSea.C56_exact",
    "QuicSea.C56_encoding_determines_partial",
    "QuicSea.C56_packets_partial",
    "QuicSea.C56_exhausted_partial",
    "QuicSea.C56_wraps",
    "QuicSea.C56_false"
   ],
   "note": "false of the code: in release builds the counter wraps (C56_wraps, C56_false); what does hold is in the partial theorems, and C56_exact says exactly when asking for a number is an error"
  },
  {
   "property": "C57",
   "status": "proved",
   "theorems": [
    "QuicSea.C57_initial",
    "QuicSea.C57_initial_any",
    "QuicSea.C57_handshake_any"
   ],
   "note": "Initial packets over every history; Initial and Handshake packet values with any keys; exact condition for serialization"
  },
  {
   "property": "C58",
   "status": "partial",
   "theorems": [
    "QuicSea.C58_sent_to_original",
    "QuicSea.C58_same_ids_partial",
    "QuicSea.C58_false",
    "QuicSea.C58_false_any",
    "QuicSea.C58_exact"
   ],
   "note": "false of the code: packets go to the id the client made up for the server, C58_sent_to_original (universal), C58_false; the partial theorem covers clients whose two ids are equal; C58_exact: exactly those"
  },
  {
   "property": "C59",
   "status": "partial",
   "theorems": [
    "QuicSea.C59_any_version_opens",
    "QuicSea.C59_version_zero_partial",
    "QuicSea.C59_false",
    "QuicSea.C59_false_any"
   ],
   "note": "false of the code for every version: C59_any_version_opens (universal), C59_false; the partial theorem covers version 0"
  },
  {
   "property": "C60",
   "status": "partial",
   "theorems": [
    "QuicSea.C60_intact_partial",
    "QuicSea.C60_truncated",
    "QuicSea.C60_false",
    "QuicSea.C60_exact"
   ],
   "note": "false of the code above 4096 bytes: C60_truncated (universal), C60_false; the partial theorem covers up to 4096; C60_exact: exactly those"
  },
  {
   "property": "C61",
   "status": "partial",
   "theorems": [
    "QuicSea.C61_any_size_opens",
    "QuicSea.C61_tiny_partial",
    "QuicSea.C61_false",
    "QuicSea.C61_false_any",
    "QuicSea.C61_exact"
   ],
   "note": "false of the code: C61_any_size_opens (universal), C61_false; the partial theorem covers datagrams below 7 bytes; C61_exact: a datagram opens a connection exactly if it starts with the header of an Initial packet for an unknown id"
  },
  {
   "property": "C62",
   "status": "partial",
   "theorems": [
    "QuicSea.C62_opening_lost",
    "QuicSea.C62_follow_up_partial",
    "QuicSea.C62_false",
    "QuicSea.C62_false_any",
    "QuicSea.C62_exact"
   ],
   "note": "false of the code: the opening datagram is dropped, C62_opening_lost (universal), C62_false; the partial theorem covers later datagrams, end to end; C62_exact: never in the queue, and decoded by the connection exactly if the random id equals the value of the original one"
  },
  {
   "property": "C63",
   "status": "partial",
   "theorems": [
    "QuicSea.C63_false_any",
    "QuicSea.C63_any_frames_delivered",
    "QuicSea.C63_any_frames_built",
    "QuicSea.C63_only_initial_partial",
    "QuicSea.C63_false"
   ],
   "note": "false of the code: C63_any_frames_delivered, C63_any_frames_built (universal), C63_false; the partial theorem: nothing but Initial packets is delivered frames"
  },
  {
   "property": "C64",
   "status": "partial",
   "theorems": [
    "QuicSea.C64_false_any",
    "QuicSea.C64_exact",
    "QuicSea.C64_empty_delivered",
    "QuicSea.C64_nonempty_partial",
    "QuicSea.C64_false"
   ],
   "note": "false of the code: C64_empty_delivered (universal), C64_false; the partial theorem covers non-empty payloads; C64_exact: exactly those"
  },
  {
   "property": "C65",
   "status": "partial",
   "theorems": [
    "QuicSea.C65_false_any",
    "QuicSea.C65_any_bits_delivered",
    "QuicSea.C65_built_partial",
    "QuicSea.C65_false"
   ],
   "note": "false of the code: C65_any_bits_delivered (universal), C65_false; the partial theorem covers packets built by the code"
  },
  {
   "property": "C66",
   "status": "partial",
   "theorems": [
    "QuicSea.C66_false_any",
    "QuicSea.C66_copies_delivered",
    "QuicSea.C66_replay_delivered",
    "QuicSea.C66_copies_equal_partial",
    "QuicSea.C66_false"
   ],
   "note": "false of the code: C66_copies_delivered, C66_replay_delivered (universal), C66_false; the partial theorem: copies are delivered alike"
  },
  {
   "property": "C67",
   "status": "partial",
   "theorems": [
    "QuicSea.C67_exact",
    "QuicSea.C67_all_lost",
    "QuicSea.C67_none_fails_partial",
    "QuicSea.C67_false"
   ],
   "note": "false of the code: C67_all_lost (universal), C67_false; the partial theorem covers datagrams without such a packet; C67_exact gives the outcome of every stream: delivered iff all its packets decode, otherwise the failure of the first that does not"
  },
  {
   "property": "C68",
   "status": "partial",
   "theorems": [
    "QuicSea.C68_exact",
    "QuicSea.C68_invalid_delivered",
    "QuicSea.C68_limits_partial",
    "QuicSea.C68_false"
   ],
   "note": "false of the code: C68_invalid_delivered (universal), C68_false; C68_exact: which frames are delivered; the partial theorem covers STREAM, CRYPTO and the id length of NEW_CONNECTION_ID"
  },
  {
   "property": "C69",
   "status": "partial",
   "theorems": [
    "QuicSea.C69_one_more",
    "QuicSea.C69_zero_partial",
    "QuicSea.C69_false",
    "QuicSea.C69_exact"
   ],
   "note": "false of the code for every non-zero number: C69_one_more (universal), C69_exact, C69_false; the partial theorem covers zero"
  },
  {
   "property": "C70",
   "status": "partial",
   "theorems": [
    "QuicSea.C70_others_partial",
    "QuicSea.C70_new_connection_id",
    "QuicSea.C70_simple_partial",
    "QuicSea.C70_ack",
    "QuicSea.C70_false"
   ],
   "note": "false of the code for NEW_CONNECTION_ID with ids of 2^64 and more and for ACK: C70_new_connection_id (exact), C70_ack, C70_false; the partial theorem covers the other constructors"
  },
  {
   "property": "C71",
   "status": "proved",
   "theorems": [
    "QuicSea.C71_history_independent",
    "QuicSea.C71_receivers_agree"
   ],
   "note": "every history and every datagram, in both build profiles"
  },
  {
   "property": "C72",
   "status": "partial",
   "theorems": [
    "QuicSea.C72_four_bytes_partial",
    "QuicSea.C72_short_never_decoded",
    "QuicSea.C72_exact",
    "QuicSea.C72_false",
    "QuicSea.C72_false_any"
   ],
   "note": "false of the code for 1, 2 and 3 bytes: C72_short_never_decoded (universal), C72_false; the partial theorem covers 4 bytes; C72_exact: exactly those"
  },
  {
   "property": "C73",
   "status": "proved",
   "theorems": [
    "QuicSea.C73_decode_release",
    "QuicSea.C73_decode_debug",
    "QuicSea.C73_decode_agree",
    "QuicSea.C73_run_release",
    "QuicSea.C73_differ"
   ],
   "note": "any connection and datagram; the converse for datagrams below 2^63 bytes; C73_differ shows the condition is needed"
  },
  {
   "property": "C74",
   "status": "partial",
   "theorems": [
    "QuicSea.C74_four_bytes_partial",
    "QuicSea.C74_short_cut_off",
    "QuicSea.C74_takes_the_rest",
    "QuicSea.C74_false",
    "QuicSea.C74_false_any",
    "QuicSea.C74_exact"
   ],
   "note": "false of the code for 1, 2 and 3 bytes: C74_short_cut_off (universal), C74_false; C74_takes_the_rest; C74_exact for payloads in their shortest encoding; the partial theorem covers 4 bytes"
  },
  {
   "property": "C75",
   "status": "proved",
   "theorems": [
    "QuicSea.C75_laws",
    "QuicSea.C75_keys",
    "QuicSea.C75_mask",
    "QuicSea.C75_round_trip"
   ],
   "note": "algorithms defined in Spec/Sha256.lean and Spec/Gcm.lean; Props/Vectors.lean runs the RFC 9001 tests of the crate on the model with them"
  },
  {
   "property": "C76",
   "status": "proved",
   "theorems": [
    "QuicSea.C76_initial",
    "QuicSea.C76_any_initial",
    "QuicSea.C76_any_handshake"
   ],
   "note": "C76_initial for packets of the crate, C76_any_initial and C76_any_handshake for RFC packets of any maker"
  },
  {
   "property": "C77",
   "status": "proved",
   "theorems": [
    "QuicSea.C77_payload",
    "QuicSea.C77_packet",
    "QuicSea.C77_datagram",
    "QuicSea.C77_loops"
   ],
   "note": "C77_payload, C77_packet, C77_datagram for what is held, C77_loops for the work"
  },
  {
   "property": "C78",
   "status": "partial",
   "theorems": [
    "QuicSea.C78_false_any",
    "QuicSea.C78_any_version_delivered",
    "QuicSea.C78_never_zero_partial",
    "QuicSea.C78_built_partial",
    "QuicSea.C78_false"
   ],
   "note": "false of the code: C78_any_version_delivered (universal), C78_false; the partial theorems cover version 0 and packets built by the code"
  },
  {
   "property": "C79",
   "status": "partial",
   "theorems": [
    "QuicSea.C79_false_any",
    "QuicSea.C79_any_ids_delivered",
    "QuicSea.C79_first_partial",
    "QuicSea.C79_first_run_partial",
    "QuicSea.C79_false"
   ],
   "note": "false of the code: C79_any_ids_delivered (universal), C79_false; the partial theorems cover the first packet of a datagram"
  },
  {
   "property": "C80",
   "status": "partial",
   "theorems": [
    "QuicSea.C80_false_any",
    "QuicSea.C80_any_token_delivered",
    "QuicSea.C80_any_token_built",
    "QuicSea.C80_no_token_partial",
    "QuicSea.C80_false"
   ],
   "note": "false of the code: C80_any_token_delivered and C80_any_token_built (universal), C80_false; the partial theorem covers packets built without a token"
  },
  {
   "property": "C81",
   "status": "proved",
   "theorems": [
    "QuicSea.C81_own_bytes",
    "QuicSea.C81_prefix_free",
    "QuicSea.C81_datagrams",
    "QuicSea.C81_reachable"
   ],
   "note": "C81_own_bytes, C81_prefix_free, C81_datagrams; C81_reachable without assumptions on the connection"
  },
  {
   "property": "C82",
   "status": "partial",
   "theorems": [
    "QuicSea.C82_false_any",
    "QuicSea.C82_numbers_are_attempts",
    "QuicSea.C82_never_zero",
    "QuicSea.C82_false",
    "QuicSea.C82_no_gaps_partial"
   ],
   "note": "false of the code: C82_numbers_are_attempts (exact), C82_never_zero (universal), C82_false; the partial theorem: 1, 2, 3, ... when no operation fails"
  },
  {
   "property": "C83",
   "status": "partial",
   "theorems": [
    "QuicSea.C83_false_any",
    "QuicSea.C83_exact_size",
    "QuicSea.C83_small_packets",
    "QuicSea.C83_padded_partial",
    "QuicSea.C83_false"
   ],
   "note": "false of the code: C83_exact_size (exact), C83_small_packets (universal), C83_false; the partial theorem covers frames of 1171 bytes and more"
  },
  {
   "property": "C84",
   "status": "partial",
   "theorems": [
    "QuicSea.C84_false_any",
    "QuicSea.C84_short_ids_open",
    "QuicSea.C84_long_ids_partial",
    "QuicSea.C84_false"
   ],
   "note": "false of the code: C84_short_ids_open (universal), C84_false; the partial theorem covers the upper limit of 20 bytes"
  },
  {
   "property": "C85",
   "status": "proved",
   "theorems": [
    "QuicSea.C85_memory",
    "QuicSea.C85_connections",
    "QuicSea.C85_datagrams"
   ],
   "note": "C85_memory, C85_connections, C85_datagrams over all schedules"
  },
  {
   "property": "C86",
   "status": "partial",
   "theorems": [
    "QuicSea.C86_false_any",
    "QuicSea.C86_flood",
    "QuicSea.C86_unauthentic_opens",
    "QuicSea.C86_false",
    "QuicSea.C86_initial_header_partial"
   ],
   "note": "false of the code: C86_unauthentic_opens and C86_flood (universal), C86_false; the partial theorem: connections are made only for datagrams with an Initial header"
  },
  {
   "property": "C87",
   "status": "partial",
   "theorems": [
    "QuicSea.C87_encoded_anyway",
    "QuicSea.C87_every_bad_value",
    "QuicSea.C87_false",
    "QuicSea.C87_encoding_limit_partial"
   ],
   "note": "false of the code: C87_encoded_anyway and C87_every_bad_value (universal), C87_false; the partial theorem covers the limit of the encoding"
  },
  {
   "property": "C88",
   "status": "partial",
   "theorems": [
    "QuicSea.C88_false_any",
    "QuicSea.C88_serial_uncrossed",
    "QuicSea.C88_crossing",
    "QuicSea.C88_false",
    "QuicSea.C88_serial_initial",
    "QuicSea.C88_drop_race",
    "QuicSea.C88_serial_partial"
   ],
   "note": "false of the code: C88_crossing (for any two ids two concurrent accepts reach a table that no calls made alone leave, by C88_serial_uncrossed), C88_drop_race (a concurrent drop makes accept panic and lose an Initial packet, which never happens to a call made alone, C88_serial_initial), C88_false; the partial theorem covers all schedules in which no connection is registered under an id another was opened for"
  },
  {
   "property": "C89",
   "status": "partial",
   "theorems": [
    "QuicSea.C89_false_any",
    "QuicSea.C89_exact",
    "QuicSea.C89_malleable",
    "QuicSea.C89_false",
    "QuicSea.C89_bound_partial"
   ],
   "note": "false of the code: C89_malleable (universal: the bytes after a packet number of less than four bytes can be anything), C89_exact (and no others), C89_false; the partial theorem covers four-byte numbers"
  },
  {
   "property": "C90",
   "status": "partial",
   "theorems": [
    "QuicSea.C90_exact",
    "QuicSea.C90_undefined",
    "QuicSea.C90_uninitialised",
    "QuicSea.C90_false",
    "QuicSea.C90_calloc_partial"
   ],
   "note": "false of the code: C90_undefined, C90_uninitialised (universal), C90_false; C90_exact says what the functions do; the partial theorem covers zeroed buffers of types of non-zero size with a zero value"
  },
  {
   "property": "C91",
   "status": "proved",
   "theorems": [
    "QuicSea.C91_no_livelock",
    "QuicSea.C91_short_calls_end",
    "QuicSea.C91_taken_forever"
   ],
   "note": "C91_no_livelock (every infinite execution), C91_short_calls_end (the bound), C91_taken_forever (the exception for taken ids is real)"
  },
  {
   "property": "C92",
   "status": "partial",
   "theorems": [
    "QuicSea.C92_false_any",
    "QuicSea.C92_internal_partial",
    "QuicSea.C92_public_silent",
    "QuicSea.C92_false"
   ],
   "note": "false of the public switch, whose body is empty: C92_public_silent (universal: no history of public calls prints a line of the traffic log; other output is the subject of C99), C92_false; the partial theorem is the whole statement for the internal switch"
  },
  {
   "property": "C93",
   "status": "proved",
   "theorems": [
    "QuicSea.C93_reencoding"
   ],
   "note": "C93_reencoding, no condition on the frames"
  },
  {
   "property": "C94",
   "status": "proved",
   "theorems": [
    "QuicSea.C94_shortest",
    "QuicSea.C94_frame_shortest"
   ],
   "note": "C94_shortest (whole payloads), C94_frame_shortest (single frames)"
  },
  {
   "property": "C95",
   "status": "proved",
   "theorems": [
    "QuicSea.C95_short_calls_end",
    "QuicSea.C95_accept_goes_on"
   ],
   "note": "C95_short_calls_end, C95_accept_goes_on; fairness of the scheduler and of the locks are hypotheses (structure Fair), met by the example execution"
  },
  {
   "property": "C96",
   "status": "partial",
   "theorems": [
    "QuicSea.C96_no_stream",
    "QuicSea.C96_never_released",
    "QuicSea.C96_false",
    "QuicSea.C96_release_partial",
    "QuicSea.C96_false_any"
   ],
   "note": "false: accept and connect never return, so no application ever gets a stream (C96_no_stream) and no connection is ever released (C96_never_released, universal); C96_false; the partial theorem is what holds for an application that has a stream"
  },
  {
   "property": "C97",
   "status": "proved",
   "theorems": [
    "QuicSea.C97_sent_sealed",
    "QuicSea.C97_authentic",
    "QuicSea.C97_authentic_plain",
    "QuicSea.C97_datagram",
    "QuicSea.C97_nothing_sent",
    "QuicSea.C97_genuine"
   ],
   "note": "A reduction: C97_authentic for one packet, C97_authentic_plain when the frame codec does not damage the payload (then the packet itself is returned), C97_datagram for each packet of a datagram, C97_nothing_sent. C97_sent_sealed: each packet sent is protected by such a call of the AEAD. A forgery is an opening with the nonce and associated data that RFC 9001 derives from the bytes received; a packet that was sent is none (C97_genuine). That the AEAD has no forgeries is an assumption about the cipher and the secrecy of its key, not a theorem; the Initial key is derived from the public connection id (C30), so it holds only for parties that have not seen that id. Packets count as sent only with payloads below 2^30 and tokens below 2^28 bytes, far above a datagram."
  },
  {
   "property": "C98",
   "status": "partial",
   "theorems": [
    "QuicSea.C98_false",
    "QuicSea.C98_always_internal",
    "QuicSea.C98_unknown_type",
    "QuicSea.C98_frames_partial",
    "QuicSea.C98_header_partial",
    "QuicSea.C98_packets_partial",
    "QuicSea.C98_writers_partial",
    "QuicSea.C98_socket_partial"
   ],
   "note": "false of the code: every error the program creates is InternalError (C98_always_internal for every payload, C98_unknown_type for the case of RFC 9000 section 12.4, C98_false); proved: an error is one the stream already had, unchanged, or has the code INTERNAL_ERROR, for every reader, writer and socket operation"
  },
  {
   "property": "C99",
   "status": "partial",
   "theorems": [
    "QuicSea.C99_success_silent_partial",
    "QuicSea.C99_outputs_partial",
    "QuicSea.C99_writers_partial",
    "QuicSea.C99_token_printed",
    "QuicSea.C99_accept_partial",
    "QuicSea.C99_datagram_partial",
    "QuicSea.C99_accept_prints",
    "QuicSea.C99_logging_needs_stdout",
    "QuicSea.C99_false",
    "QuicSea.C99_false_any"
   ],
   "note": "false of the code: var_bytes_from_stream prints when bytes are missing and panics if it cannot (C99_token_printed, C99_accept_prints: universal; C99_false); proved: successes are silent, a failure prints at most one line and is otherwise the same, accept with logging off prints only before one panic"
  },
  {
   "property": "C100",
   "status": "partial",
   "theorems": [
    "QuicSea.C100_false",
    "QuicSea.C100_truncated",
    "QuicSea.C100_success_partial",
    "QuicSea.C100_frames_partial",
    "QuicSea.C100_socket_partial",
    "QuicSea.C100_false_any"
   ],
   "note": "false of the code: u64 lengths are truncated to usize, so a narrower machine accepts frames that a 64-bit machine refuses (C100_truncated universal, C100_false with an authentic packet at 32 bits); proved: whatever a 64-bit machine accepts every machine accepts alike, and the socket does not depend on the width"
  },
  {
   "property": "C101",
   "status": "partial",
   "theorems": [
    "QuicSea.C101_false_any",
    "QuicSea.C101_writable_partial",
    "QuicSea.C101_quiet_partial",
    "QuicSea.C101_log_poisons",
    "QuicSea.C101_others_die",
    "QuicSea.C101_decoding_dies",
    "QuicSea.C101_accepted_partial",
    "QuicSea.C101_deaf",
    "QuicSea.C101_any_datagram",
    "QuicSea.C101_false"
   ],
   "note": "false of the code: recv_datagram prints while it holds the mutex of the socket, so that with logging on and standard output not writable any datagram poisons it and nothing is received again (C101_log_poisons, C101_any_datagram, C101_deaf: universal; C101_false); proved: nothing is poisoned while logging is off, with writable outputs the executions are those of C54, C88 and C95, and the datagrams accepted do not depend on the outputs (C101_accepted_partial, C101_decoding_dies)"
  },
  {
   "property": "C102",
   "status": "partial",
   "theorems": [
    "QuicSea.C102_connections_shown",
    "QuicSea.C102_keys_determined",
    "QuicSea.C102_connection_exact",
    "QuicSea.C102_keys_shown",
    "QuicSea.C102_queues_partial",
    "QuicSea.C102_locked_partial",
    "QuicSea.C102_false"
   ],
   "note": "false of the code: Debug is derived for QuicSocket and for everything it contains, so its text contains that of every connection (C102_connections_shown) and determines every key (C102_keys_determined, C102_keys_shown: universal; C102_false); only the cipher suite is left out. In reachable states the only keys are the Initial keys, which follow from the connection id. Proved: queues and logged lines are not shown, and nothing of a table that a thread is changing"
  },
  {
   "property": "C103",
   "status": "proved",
   "theorems": [
    "QuicSea.C103_log_readable"
   ],
   "note": "C103_log_readable; the formatting of derive(Debug) and of the standard library types is modelled in Verif.Model.Debug. println! writes a line at a time, so that lines of several threads do not mix"
  },
  {
   "property": "C104",
   "status": "proved",
   "theorems": [
    "QuicSea.C104_authentic",
    "QuicSea.C104_datagram",
    "QuicSea.C104_nothing_sent",
    "QuicSea.C104_genuine",
    "QuicSea.C104_handshake"
   ],
   "note": "A reduction, as C97, for all four kinds and any RFC sender: C104_authentic for one packet, C104_datagram for each packet of a datagram, C104_nothing_sent, C104_handshake for packets built by the crate (the packet itself is returned, with the frames the parser finds). Forgeries are as in C97; a packet that was sent is none (C104_genuine). That the AEAD has no forgeries is an assumption about the cipher outside the model. With packet numbers shorter than four bytes the bytes can differ (C89), the contents cannot."
  },
  {
   "property": "C105",
   "status": "partial",
   "theorems": [
    "QuicSea.C105_parts_partial",
    "QuicSea.C105_exact",
    "QuicSea.C105_never",
    "QuicSea.C105_false",
    "QuicSea.C105_mutex_partial"
   ],
   "note": "false of the code: C105_never (with every standard library neither socket nor stream is Send or Sync, because of the mpsc::Receiver inside the RwLock), C105_false; C105_exact says which types in the place of the receiver make it true, C105_mutex_partial that a mutex around it would; C105_parts_partial: all other parts are Send and Sync. The rules of the auto traits are those documented by std (trusted)."
  },
  {
   "property": "C106",
   "status": "proved",
   "theorems": [
    "QuicSea.C106_shows",
    "QuicSea.C106_faithful",
    "QuicSea.C106_injective",
    "QuicSea.C106_layout"
   ],
   "note": "C106_shows (the dump shows the file), C106_faithful, C106_injective (and nothing else), C106_layout (the lines of a file that is not empty; an empty file gives one empty line)"
  },
  {
   "property": "C107",
   "status": "partial",
   "theorems": [
    "QuicSea.C107_false_any",
    "QuicSea.C107_exact",
    "QuicSea.C107_number_limit_partial",
    "QuicSea.C107_exceeded",
    "QuicSea.C107_false"
   ],
   "note": "false of the code, which counts no uses of a key: C107_exceeded (every connection protects every number of Initial packets up to 2^32 - 1, all with one key), C107_false; C107_number_limit_partial: at most 2^32 - 1 in histories shorter than 2^64 operations, from the four bytes of an encoded number, and C107_exceeded attains it, so that C107_exact can say which numbers of packets occur: those below 2^32. Initial packets only: the crate installs keys in no other space. Not reached in practice by Initial packets of a normal handshake."
  },
  {
   "property": "C108",
   "status": "partial",
   "theorems": [
    "QuicSea.C108_false_any",
    "QuicSea.C108_bit_ignored",
    "QuicSea.C108_only_installed_keys",
    "QuicSea.C108_bit_readable_partial",
    "QuicSea.C108_false"
   ],
   "note": "false of the code, which never reads the bit: C108_bit_ignored (a packet with the bit set is delivered under the same keys), C108_only_installed_keys (no key update is followed: what is delivered opens under the keys installed), C108_false; C108_bit_readable_partial: the header of a delivered packet tells the bit. Application keys are installed in no reachable state."
  },
  {
   "property": "C109",
   "status": "partial",
   "theorems": [
    "QuicSea.C109_false_any",
    "QuicSea.C109_taken_for_one_rtt",
    "QuicSea.C109_never_recognised",
    "QuicSea.C109_refused_partial",
    "QuicSea.C109_false"
   ],
   "note": "false of the code (FIXME at src/packet.rs:639): C109_taken_for_one_rtt (every reset is taken for a 1-RTT packet), C109_never_recognised, C109_false; C109_refused_partial: in reachable states a reset is refused with an error, without panic or delivery."
  },
  {
   "property": "C110",
   "status": "proved",
   "theorems": [
    "QuicSea.C110_history",
    "QuicSea.C110_same_bytes",
    "QuicSea.C110_schedules",
    "QuicSea.C110_schedules_init"
   ],
   "note": "C110_history (any replacement of addresses commutes with every history), C110_same_bytes (two histories with the same bytes), C110_schedules and C110_schedules_init (the same for every schedule of the concurrent model). The code has no path validation (RFC 9000 section 8.2): the address is stored and never used."
  },
  {
   "property": "C111",
   "status": "proved",
   "theorems": [
    "QuicSea.C111_any_time",
    "QuicSea.C111_queue_decodes",
    "QuicSea.C111_client"
   ],
   "note": "C111_any_time and C111_queue_decodes: every schedule, every datagram. C111_client: an RFC 9000 client whose first Initial was accepted; any losses, repetitions and reordering of its later datagrams, mixed with traffic of others (packet numbers of four bytes and readable payloads, see C32 and C76 for the others; the first datagram itself is lost, see C62)."
  },
  {
   "property": "C112",
   "status": "proved",
   "theorems": [
    "QuicSea.C112_initial_unique",
    "QuicSea.C112_handshake_unique",
    "QuicSea.C112_zerortt_unique",
    "QuicSea.C112_onertt_unique",
    "QuicSea.C112_kinds",
    "QuicSea.C112_sent",
    "QuicSea.C112_datagram",
    "QuicSea.C112_no_repeat"
   ],
   "note": "C112_initial_unique, C112_handshake_unique, C112_zerortt_unique, C112_onertt_unique and C112_kinds on the wire formats of RFC 9000 and 9001 (any number length); C112_sent, C112_datagram and C112_no_repeat for the packets the code builds and serializes. That frames have right length fields is needed (C20)."
  },
  {
   "property": "C113",
   "status": "proved",
   "theorems": [
    "QuicSea.C113_same",
    "QuicSea.C113_work",
    "QuicSea.C113_counted",
    "QuicSea.C113_frames",
    "QuicSea.C113_header",
    "QuicSea.C113_recv"
   ],
   "note": "Model/Work.lean repeats every reader with a count of its steps. C113_same: the counting readers give the results of the readers, so what is counted is the work of the modelled code. C113_work: the bound for datagrams. C113_counted: no byte taken is left out of the count. C113_frames, C113_header, C113_recv: frames, headers, and datagrams from the socket, which has a buffer of 4096 bytes."
  },
  {
   "property": "C114",
   "status": "partial",
   "theorems": [
    "QuicSea.C114_false_any",
    "QuicSea.C114_frame",
    "QuicSea.C114_frames",
    "QuicSea.C114_initial_exact",
    "QuicSea.C114_initial_partial",
    "QuicSea.C114_handshake_exact",
    "QuicSea.C114_long_source_id",
    "QuicSea.C114_socket",
    "QuicSea.C114_false"
   ],
   "note": "false of the code: C114_long_source_id (set_scid takes any length; cut to a byte and above 20 it makes every packet panic), C114_false; C114_initial_exact: how sending ends, for every state and list of frames, in order of the checks (also the last value of the counter in debug builds, see C56); C114_initial_partial: everything else never panics, whatever the sizes; C114_socket: the connections of a socket; C114_handshake_exact: nothing is ever written"
  },
  {
   "property": "C115",
   "status": "proved",
   "theorems": [
    "QuicSea.C115_history",
    "QuicSea.C115_schedules",
    "QuicSea.C115_decoding",
    "QuicSea.C115_results"
   ],
   "note": "C115_history, C115_results (calls one after the other), C115_schedules (any number of threads), C115_decoding. A datagram for nobody still ends accept (C49, C86), so it can delay what is taken from the network, which is why the datagrams taken are compared"
  },
  {
   "property": "C116",
   "status": "partial",
   "theorems": [
    "QuicSea.C116_build_exact",
    "QuicSea.C116_error_uses_number",
    "QuicSea.C116_calls_partial",
    "QuicSea.C116_accept_exact",
    "QuicSea.C116_false",
    "QuicSea.C116_false_any"
   ],
   "note": "The statement is false of this code. Building an Initial or Handshake packet that is an error uses up a packet number, always (C116_error_uses_number, C116_false); C116_build_exact gives the connection after every call (a panic leaves it as it was). Proved: routing and decoding that fail change nothing (C116_calls_partial). accept, which never succeeds, leaves the datagrams it routed with their connections and, if it got that far, the new connection in the table (C116_accept_exact)."
  },
  {
   "property": "C117",
   "status": "partial",
   "theorems": [
    "QuicSea.C117_refusal",
    "QuicSea.C117_oracle",
    "QuicSea.C117_exact",
    "QuicSea.C117_short_partial",
    "QuicSea.C117_covered_partial",
    "QuicSea.C117_mask_bits",
    "QuicSea.C117_false",
    "QuicSea.C117_false_real",
    "QuicSea.C117_not_real",
    "QuicSea.C117_same_mask",
    "QuicSea.C117_some_hold"
   ],
   "note": "The statement is false of this code. A packet with a Length field is cut off at Length less the packet number length, which is known only after header protection is removed: with a Length one to four more than the bytes left the error says whether the packet number is shorter than that (C117_oracle, C117_false), and so gives two bits of the mask (C117_mask_bits). C117_false_real: two servers made through the API, with the algorithms the crate uses, in both profiles; C117_same_mask: with a mask that is the same for all keys the claim holds. C117_refusal gives what is seen, C117_exact says when two sets of keys are not told apart. Proved: packets with a short header (C117_short_partial), and long packets followed by three bytes or more (C117_covered_partial). With the keys a reachable connection has, those of Initial packets, nothing secret is given away."
  },
  {
   "property": "C118",
   "status": "partial",
   "theorems": [
    "QuicSea.C118_false_any",
    "QuicSea.C118_all_delivered",
    "QuicSea.C118_exact",
    "QuicSea.C118_retry_panics",
    "QuicSea.C118_last_partial",
    "QuicSea.C118_no_retry_partial",
    "QuicSea.C118_false",
    "QuicSea.C118_false_retry"
   ],
   "note": "false of the code: C118_all_delivered (any bytes in the form of a Version Negotiation packet, for any connection, also after other packets), C118_retry_panics (every Retry packet panics), both universal; C118_false, C118_false_retry; C118_exact: delivered exactly if the bytes have the form, whatever the connection; proved: at most one Version Negotiation packet per datagram and it is the last, and no Retry packet is ever delivered"
  },
  {
   "property": "C119",
   "status": "partial",
   "theorems": [
    "QuicSea.C119_false_any",
    "QuicSea.C119_false_close_any",
    "QuicSea.C119_nothing_heeded",
    "QuicSea.C119_any_ack",
    "QuicSea.C119_after_close",
    "QuicSea.C119_numbers_partial",
    "QuicSea.C119_false",
    "QuicSea.C119_false_close"
   ],
   "note": "false of the code: nothing received has any effect on what is sent or on what is delivered later, C119_nothing_heeded (universal), C119_any_ack, C119_after_close; C119_false, C119_false_close; the partial theorem: whatever was acknowledged, packet numbers are written in full"
  },
  {
   "property": "C120",
   "status": "proved",
   "theorems": [
    "QuicSea.C120_same",
    "QuicSea.C120_work",
    "QuicSea.C120_any_outcome",
    "QuicSea.C120_frames"
   ],
   "note": "Model/WorkOut.lean repeats every writer with a count of its steps. C120_same: the counting writers give what the writers give. C120_work: the bound for packets that are written, and that no byte written is left out of the count. C120_any_outcome: the bound for every outcome, in terms of the frames. C120_frames: frames alone."
  },
  {
   "property": "C121",
   "status": "partial",
   "theorems": [
    "QuicSea.C121_false_any",
    "QuicSea.C121_received",
    "QuicSea.C121_exact",
    "QuicSea.C121_partial",
    "QuicSea.C121_early",
    "QuicSea.C121_reused",
    "QuicSea.C121_false"
   ],
   "note": "False when calls overlap: C121_early puts a datagram received before the connection existed into its queue, for every id and datagram; C121_reused gives a datagram of a dropped connection to a later one of the same id. C121_exact: a delivered datagram was received while the connection was there if and only if nobody registered the id between receipt and delivery. C121_received: the moment of receipt exists and the thread did nothing else since. C121_partial: the property holds whenever no other thread registers the id in between, so for calls that do not overlap."
  },
  {
   "property": "C122",
   "status": "proved",
   "theorems": [
    "QuicSea.C122_seals",
    "QuicSea.C122_opens",
    "QuicSea.C122_inverse",
    "QuicSea.C122_refuses",
    "QuicSea.C122_total",
    "QuicSea.C122_panics"
   ],
   "note": "C122_seals and C122_opens relate both functions to one relation of the specification (SealedAs), so C122_inverse; C122_refuses: an error without a vector or without associated data; C122_total: every payload below 2^30 bytes is sealed, to 16 bytes more; C122_panics: sealing never panics, opening panics exactly for fewer than 16 bytes. Opening uses the law of the AEAD that open accepts exactly what seal returns."
  },
  {
   "property": "C123",
   "status": "proved",
   "theorems": [
    "QuicSea.C123_derived",
    "QuicSea.C123_no_panic",
    "QuicSea.C123_total",
    "QuicSea.C123_initial"
   ],
   "note": "C123_derived and C123_initial are equivalences with the key derivation of the specification; C123_total: secrets of 32 bytes and more always give keys of the right lengths, and no others; C123_no_panic."
  },
  {
   "property": "C124",
   "status": "proved",
   "theorems": [
    "QuicSea.C124_mask",
    "QuicSea.C124_outcomes",
    "QuicSea.C124_only_the_sample"
   ],
   "note": "C124_mask is an equivalence with the specification; C124_outcomes: the errors, and a panic exactly when the cipher does not take key or sample, which does not happen with keys of 16 bytes; C124_only_the_sample: bytes after the sample make no difference."
  },
  {
   "property": "C125",
   "status": "proved",
   "theorems": [
    "QuicSea.C125_new",
    "QuicSea.C125_new_panics",
    "QuicSea.C125_history",
    "QuicSea.C125_reachable",
    "QuicSea.C125_ids",
    "QuicSea.C125_keys_used"
   ],
   "note": "C125_new is an equivalence (what new returns), C125_new_panics gives the other outcomes; C125_history: the state after every history, field by field; C125_reachable: the reachable connections, exactly; C125_ids: what get_dcid and get_scid return; C125_keys_used: which keys seal, open and mask, in every space."
  },
  {
   "property": "C126",
   "status": "proved",
   "theorems": [
    "QuicSea.C126_number",
    "QuicSea.C126_number_panics",
    "QuicSea.C126_initial",
    "QuicSea.C126_handshake",
    "QuicSea.C126_outcomes"
   ],
   "note": "C126_number, C126_initial and C126_handshake are equivalences (which value is returned); C126_number_panics and C126_outcomes give panics, errors and success for every connection value."
  },
  {
   "property": "C127",
   "status": "proved",
   "theorems": [
    "QuicSea.C127_handshake",
    "QuicSea.C127_zero_rtt",
    "QuicSea.C127_one_rtt",
    "QuicSea.C127_initial",
    "QuicSea.C127_panics",
    "QuicSea.C127_read_always",
    "QuicSea.C127_number"
   ],
   "note": "C127_number: what reconstruct_remote_pn returns and when it panics; C127_initial, C127_handshake, C127_zero_rtt and C127_one_rtt are equivalences (which packets are accepted); C127_panics: which inputs panic; C127_read_always: where a number can always be read. That the number itself is not that of RFC 9000 is C28."
  },
  {
   "property": "C128",
   "status": "proved",
   "theorems": [
    "QuicSea.C128_initial",
    "QuicSea.C128_handshake",
    "QuicSea.C128_frames_first",
    "QuicSea.C128_initial_ends",
    "QuicSea.C128_handshake_ends",
    "QuicSea.C128_no_keys"
   ],
   "note": "C128_initial and C128_handshake are equivalences: which packet values are written, and as which bytes (WrittenLong, MidBytes and HeadBytes name no model function). C128_frames_first, C128_initial_ends, C128_handshake_ends and C128_no_keys: how writing ends for the others, error or panic. The *_ends theorems assume a payload below 2^30 bytes, a token below 2^28 and number bytes below 2^27, so that the AEAD accepts."
  },
  {
   "property": "C129",
   "status": "partial",
   "theorems": [
    "QuicSea.C129_initial_exact",
    "QuicSea.C129_handshake_exact",
    "QuicSea.C129_nothing_recorded_partial",
    "QuicSea.C129_after_acknowledgement",
    "QuicSea.C129_next_number",
    "QuicSea.C129_after_receipt",
    "QuicSea.C129_false_any",
    "QuicSea.C129_false"
   ],
   "note": "False: C129_false (C129_false_any for all algorithms). C129_initial_exact and C129_handshake_exact: with anything recorded on either side the packet arrives if and only if its number takes four bytes and the code reads it back (Arrives). C129_after_acknowledgement: once a number is recorded as acknowledged, none of the next 2^24 packets arrives, since numbers of fewer than four bytes are never decoded. C129_next_number and C129_after_receipt: once x is recorded as received, the next packet does not arrive, for all but 32 of every 2^32 numbers. C129_nothing_recorded_partial: with nothing recorded every packet arrives; this is the part that holds."
  },
  {
   "property": "C130",
   "status": "partial",
   "theorems": [
    "QuicSea.C130_connect",
    "QuicSea.C130_accept_exact",
    "QuicSea.C130_accept_dies",
    "QuicSea.C130_taken_partial",
    "QuicSea.C130_only_faults",
    "QuicSea.C130_false_any",
    "QuicSea.C130_false"
   ],
   "note": "False: C130_false (C130_false_any for all algorithms). C130_connect: connect panics on every socket. C130_accept_exact: how accept ends, on every socket and all inputs, by the specification AcceptEnds; C130_accept_dies: it panics if and only if a datagram arrives that no connection takes and, if this opens a connection, a free id is drawn. C130_only_faults: it never returns a client, and returns an I/O error if and only if this comes before any such datagram. C130_taken_partial, the part that holds: no panic as long as every datagram is taken by a connection."
  },
  {
   "property": "C131",
   "status": "partial",
   "theorems": [
    "QuicSea.C131_initial_exact",
    "QuicSea.C131_handshake_exact",
    "QuicSea.C131_initial_partial",
    "QuicSea.C131_small_fails",
    "QuicSea.C131_false_any",
    "QuicSea.C131_false"
   ],
   "note": "False: C131_false (C131_false_any for all algorithms). C131_small_fails: once a number is acknowledged, frames of two, one or no bytes are an error until the distance to it is 256, 2^16 or 2^24, on every connection. C131_initial_exact and C131_handshake_exact: on any connection with keys, whatever was acknowledged, exactly when frames are sent and when the attempt panics; otherwise it is an error. C131_initial_partial, the part that holds: with nothing acknowledged or at least three bytes of frames the packet is sent. Nothing in the crate records acknowledgements yet (C119)."
  },
  {
   "property": "C132",
   "status": "proved",
   "theorems": [
    "QuicSea.C132_ending_exact",
    "QuicSea.C132_ids_exact",
    "QuicSea.C132_nothing_registered",
    "QuicSea.C132_working",
    "QuicSea.C132_failing",
    "QuicSea.C132_connections",
    "QuicSea.C132_delayed",
    "QuicSea.C132_never",
    "QuicSea.C132_all"
   ],
   "note": "Model/Random: accept and interleaved execution where drawing an id may fail at any time. C132_delayed: for every run with failures there is one without that has the same deeds in the same order and ends in the same table, log and locks, the failed threads being about to draw an id. C132_all: no poisoning, exclusion, ids, progress. C132_ending_exact, C132_ids_exact, C132_connections: exactly how one call ends, which ids are in the table afterwards and what became of the connections. C132_nothing_registered: nothing if the source fails before it offers a free id. C132_working, C132_failing: agreement with accept of Model/Routing."
  },
  {
   "property": "C133",
   "status": "proved",
   "theorems": [
    "QuicSea.C133_step",
    "QuicSea.C133_poisoned_exact",
    "QuicSea.C133_points",
    "QuicSea.C133_all",
    "QuicSea.C133_harmless",
    "QuicSea.C133_harmful",
    "QuicSea.C133_conn",
    "QuicSea.C133_none"
   ],
   "note": "Model/Anywhere: interleaved execution where a thread at a point of a given set may panic. C133_all for the set of all points: exclusion, poisoning exactly, progress, ids, frame. C133_poisoned_exact, C133_step: which locks are poisoned after a run, and after a step, for any set. C133_points: at which points a panic poisons something. C133_harmless, C133_harmful: the two sides of the claim. C133_conn: the lock of a connection is poisoned only with that of the table, after which nobody comes to it. C133_none: the runs of Model/Concurrent are among these."
  },
  {
   "property": "C134",
   "status": "partial",
   "theorems": [
    "QuicSea.C134_long",
    "QuicSea.C134_short",
    "QuicSea.C134_exact",
    "QuicSea.C134_bits",
    "QuicSea.C134_bits_short",
    "QuicSea.C134_before_mask_partial",
    "QuicSea.C134_same_mask_partial",
    "QuicSea.C134_false",
    "QuicSea.C134_false_real",
    "QuicSea.C134_not_real"
   ],
   "note": "The code does not do so. C134_long, C134_short: the work on a packet is a number that does not depend on the keys, and a term in the packet number length they show (short header: that length; with a Length L and a header of A bytes, normally 2L + A less it). C134_exact: hence the works are equal exactly if these terms are. C134_bits, C134_bits_short: so whether they are equal tells whether the two mask bits that hide the length agree. C134_false, C134_not_real, C134_false_real: false, also with the algorithms of the crate and connections made through the API. C134_before_mask_partial, C134_same_mask_partial: where it holds. The work is that counted by Model/Work, not time."
  },
  {
   "property": "C135",
   "status": "proved",
   "theorems": [
    "QuicSea.C135_released",
    "QuicSea.C135_short_calls_end",
    "QuicSea.C135_accept_goes_on",
    "QuicSea.C135_poison_kills",
    "QuicSea.C135_deaf",
    "QuicSea.C135_all"
   ],
   "note": "C135_all: the full statement, for executions of Model/Anywhere. C135_released: nobody keeps a lock other than the socket for ever. C135_short_calls_end, C135_accept_goes_on: C95 for these executions. C135_poison_kills: a thread that comes to a poisoned lock dies. C135_deaf: after the lock of the socket is poisoned."
  },
  {
   "property": "C136",
   "status": "proved",
   "theorems": [
    "QuicSea.C136_built",
    "QuicSea.C136_all",
    "QuicSea.C136_any",
    "QuicSea.C136_length"
   ],
   "note": "C136_all: two worlds with different AEADs that seal two payloads of one length to the same ciphertext: the same bytes, errors, panics and next states. C136_any: for all primitives that obey the laws and any two payloads of one length there are such other primitives, which obey the laws too. C136_built: the packet built does not depend on the frames. C136_length: the order of the lengths of packets is that of the lengths of their payloads."
  },
  {
   "property": "C137",
   "status": "partial",
   "theorems": [
    "QuicSea.C137_serialize_partial",
    "QuicSea.C137_packet_partial",
    "QuicSea.C137_datagram_partial",
    "QuicSea.C137_history_partial",
    "QuicSea.C137_lost",
    "QuicSea.C137_false_any",
    "QuicSea.C137_false",
    "QuicSea.C137_false_real"
   ],
   "note": "C137_false_any: false for all primitives, because of coalesced packets: an Initial packet is lost with a Handshake packet in the same datagram for which there are no keys yet, so whether it is delivered depends on the keys of the Handshake space (C137_lost: in every such datagram). What holds: C137_history_partial (all histories of operations in all spaces, with datagrams whose packets are all of the space or of none), C137_packet_partial (each packet is decoded by its space alone), C137_datagram_partial, C137_serialize_partial. Missing is only what is false: datagrams that mix spaces."
  },
  {
   "property": "C138",
   "status": "partial",
   "theorems": [
    "QuicSea.C138_stops_partial",
    "QuicSea.C138_calm_partial",
    "QuicSea.C138_new_partial",
    "QuicSea.C138_block",
    "QuicSea.C138_accept",
    "QuicSea.C138_false_any",
    "QuicSea.C138_false",
    "QuicSea.C138_false_real",
    "QuicSea.C138_false_accept"
   ],
   "note": "C138_false_any, C138_false_accept: false for all lawful primitives, since hp_mask_aes_128_ecb and accept unwrap: where the block cipher fails every protected packet that would be read or written panics instead (C138_block), where key derivation fails every datagram makes accept panic (C138_accept). What holds: no failure is taken for an answer (C138_stops_partial: connections, their histories, reading, writing), failures other than of the block cipher make neither reading nor writing panic (C138_calm_partial), and Connection::new panics for ids of more than 20 bytes only, whatever fails (C138_new_partial). Missing is only what is false."
  },
  {
   "property": "C139",
   "status": "proved",
   "theorems": [
    "QuicSea.C139_all"
   ],
   "note": "C139_all: for every lawful set of primitives another is built, with an AEAD that exchanges two pairs of nonce and associated data and two payloads, and a block cipher that is turned at one sample, under which the other packet is written with the same bytes (or fails in the same way). RFC 9001 section 5.4 asks for the number to be hidden."
  },
  {
   "property": "C140",
   "status": "proved",
   "theorems": [
    "QuicSea.C140_all",
    "QuicSea.C140_directions"
   ],
   "note": "C140_all: both directions; what a collision is is said of the inputs of the two derivations at the same step (that HKDF has some collision is true of any function with more inputs than outputs, and would make the claim empty). C140_directions: the two directions of one connection."
  },
  {
   "property": "C141",
   "status": "partial",
   "theorems": [
    "QuicSea.C141_repeated",
    "QuicSea.C141_false_any",
    "QuicSea.C141_false",
    "QuicSea.C141_apart_partial",
    "QuicSea.C141_same",
    "QuicSea.C141_false_real"
   ],
   "note": "C141_false_any: false for all lawful primitives, since a client that repeats its first datagram opens a second connection with the same keys (C50), whose numbers begin at 1 again: C141_repeated, for every such datagram, whatever the two connections send first. C141_same: connections of one side for one id share a nonce exactly for equal numbers. What holds: connections for different ids or sides use one key only where key derivations collide (C141_apart_partial). Missing is only what is false. (Initial keys can be derived by everyone; what is lost is that the AEAD is used as it may be.)"
  },
  {
   "property": "C142",
   "status": "partial",
   "theorems": [
    "QuicSea.C142_headers",
    "QuicSea.C142_frame",
    "QuicSea.C142_frames",
    "QuicSea.C142_packets_partial",
    "QuicSea.C142_packet_partial",
    "QuicSea.C142_nothing",
    "QuicSea.C142_panics",
    "QuicSea.C142_false_any",
    "QuicSea.C142_false",
    "QuicSea.C142_false_real"
   ],
   "note": "false for packets (C142_false_any, C142_false_real): an error within a header is a panic, in every state of a connection (C142_panics). Headers, frames and lists of frames report it (C142_headers, C142_frame, C142_frames); packets in every other case (C142_packet_partial, C142_packets_partial); nothing is ever delivered of such a stream (C142_nothing)"
  },
  {
   "property": "C143",
   "status": "proved",
   "theorems": [
    "QuicSea.C143_all",
    "QuicSea.C143_own",
    "QuicSea.C143_peer"
   ],
   "note": "as a reduction to HKDF and the AEAD: C143_all (any two connections), C143_own (reflection), C143_peer (the converse)"
  },
  {
   "property": "C144",
   "status": "partial",
   "theorems": [
    "QuicSea.C144_follow_partial",
    "QuicSea.C144_swallowed",
    "QuicSea.C144_iff",
    "QuicSea.C144_false"
   ],
   "note": "false for STREAM frames with a Length field (C144_false, C144_swallowed); exact: true if and only if the last frame is not a STREAM frame (C144_iff, C144_follow_partial)"
  },
  {
   "property": "C145",
   "status": "proved",
   "theorems": [
    "QuicSea.C145_all"
   ],
   "note": "every payload and every cut; from C144 and C13"
  },
  {
   "property": "C146",
   "status": "partial",
   "theorems": [
    "QuicSea.C146_none_lost_partial",
    "QuicSea.C146_data",
    "QuicSea.C146_iff",
    "QuicSea.C146_false"
   ],
   "note": "false after STREAM frames with a Length field, where the zero bytes become data (C146_data, C146_false); exact: true if and only if the frame before the padding is not a STREAM frame (C146_iff, C146_none_lost_partial)"
  },
  {
   "property": "C147",
   "status": "proved",
   "theorems": [
    "QuicSea.C147_all",
    "QuicSea.C147_received"
   ],
   "note": "C147_all: every connection after any history, every datagram and cut; C147_received: what recv_datagram leaves of a datagram"
  },
  {
   "property": "C148",
   "status": "proved",
   "theorems": [
    "QuicSea.C148_parsed",
    "QuicSea.C148_written",
    "QuicSea.C148_tokens",
    "QuicSea.C148_all",
    "QuicSea.C148_initial"
   ],
   "note": "C148_all: parsed frames, written frames and tokens; C148_initial: the packets delivered, with the opened plaintext in view"
  },
  {
   "property": "C149",
   "status": "proved",
   "theorems": [
    "QuicSea.C149_frames",
    "QuicSea.C149_initial",
    "QuicSea.C149_any_initial",
    "QuicSea.C149_any_handshake",
    "QuicSea.C149_all",
    "QuicSea.C149_fits"
   ],
   "note": "C149_all: frames and Initial packets; C149_fits: whether the receiver gets the packet whole"
  },
  {
   "property": "C150",
   "status": "proved",
   "theorems": [
    "QuicSea.C150_all"
   ],
   "note": "C150_all: every pair of connections, plain frames and token"
  },
  {
   "property": "C151",
   "status": "proved",
   "theorems": [
    "QuicSea.C151_streams",
    "QuicSea.C151_all",
    "QuicSea.C151_beginnings",
    "QuicSea.C151_mended",
    "QuicSea.C151_exact",
    "QuicSea.C151_where"
   ],
   "note": "C151_streams: any stream of items, C151_all: bytes, C151_beginnings: the beginnings of parsed payloads, C151_mended: the converse, C151_exact: both, C151_where: the same by the bytes"
  }
 ]
}