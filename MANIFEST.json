{
 "claims": [
  {
   "property": "C01",
   "status": "proved",
   "theorems": [
    "Dot15d4.Props.C01_getters_decode",
    "Dot15d4.Props.C01_new_iff",
    "Dot15d4.Props.C01_decode_injective"
   ],
   "note": ""
  },
  {
   "property": "C02",
   "status": "partial",
   "theorems": [
    "Dot15d4.Props.C02_enum_setters",
    "Dot15d4.Props.C02_unknown_values",
    "Dot15d4.Props.C02_bool_setters_or_partial",
    "Dot15d4.Props.C02_bool_setters_false"
   ],
   "note": "False of the code for the boolean setters with value false (they only OR): negation proved in C02_bool_setters_false, the true part in C02_bool_setters_or_partial; the enum setters are proved in full."
  },
  {
   "property": "C03",
   "status": "proved",
   "theorems": [
    "Dot15d4.Props.C03_emit_parse",
    "Dot15d4.Props.C03_emit_injective",
    "Dot15d4.Props.C03_unknown_not_preserved"
   ],
   "note": ""
  },
  {
   "property": "C04",
   "status": "proved",
   "theorems": [
    "Dot15d4.Props.C04_pan_presence",
    "Dot15d4.Props.C04_reserved_mode_accepted",
    "Dot15d4.Props.C04_2006_needs_address"
   ],
   "note": ""
  },
  {
   "property": "C05",
   "status": "proved",
   "theorems": [
    "Dot15d4.Props.C05_new_iff",
    "Dot15d4.Props.C05_layout",
    "Dot15d4.Props.C05_reserved_mode_len_panics"
   ],
   "note": ""
  },
  {
   "property": "C06",
   "status": "proved",
   "theorems": [
    "Dot15d4.Props.C06_write",
    "Dot15d4.Props.C06_write_none",
    "Dot15d4.Props.C06_roundtrip",
    "Dot15d4.Props.C06_repr_emit_unimplemented"
   ],
   "note": ""
  },
  {
   "property": "C07",
   "status": "proved",
   "theorems": [
    "Dot15d4.Props.C07_parse_display",
    "Dot15d4.Props.C07_display_injective",
    "Dot15d4.Props.C07_absent",
    "Dot15d4.Props.C07_group_count",
    "Dot15d4.Props.C07_bad_digits_panic",
    "Dot15d4.Props.C07_accepted_texts"
   ],
   "note": ""
  },
  {
   "property": "C08",
   "status": "proved",
   "theorems": [
    "Dot15d4.Props.C08_kinds",
    "Dot15d4.Props.C08_from",
    "Dot15d4.Props.C08_broadcast",
    "Dot15d4.Props.C08_to_short"
   ],
   "note": ""
  },
  {
   "property": "C09",
   "status": "proved",
   "theorems": [
    "Dot15d4.Props.C09_new",
    "Dot15d4.Props.C09_new_total"
   ],
   "note": ""
  },
  {
   "property": "C10",
   "status": "proved",
   "theorems": [
    "Dot15d4.Props.C10_accessors"
   ],
   "note": ""
  },
  {
   "property": "C11",
   "status": "proved",
   "theorems": [
    "Dot15d4.Props.C11_split"
   ],
   "note": ""
  },
  {
   "property": "C12",
   "status": "proved",
   "theorems": [
    "Dot15d4.Props.C12_enhanced_beacon"
   ],
   "note": ""
  },
  {
   "property": "C13",
   "status": "partial",
   "theorems": [
    "Dot15d4.Props.C13_false",
    "Dot15d4.Props.C13_frame_panics",
    "Dot15d4.Props.C13_elements_panic",
    "Dot15d4.Props.C13_accessors_partial",
    "Dot15d4.Props.C13_secured_partial",
    "Dot15d4.Props.C13_exact_partial"
   ],
   "note": "False of the code as stated (EnhancedAck::new checks nothing; accessors panic): C13_false, C13_frame_panics and C13_elements_panic prove it; C13_accessors_partial gives the condition under which the accessors return what those of a data frame do, and C13_exact_partial says for every byte string exactly which accessor panics and what the others return."
  },
  {
   "property": "C14",
   "status": "partial",
   "theorems": [
    "Dot15d4.Props.C14_false",
    "Dot15d4.Props.C14_dispatch_partial",
    "Dot15d4.Props.C14_into"
   ],
   "note": "False of the code as stated (Frame::new panics on every 2003/2006 beacon): C14_false; C14_dispatch_partial characterises Frame::new on every byte string."
  },
  {
   "property": "C15",
   "status": "proved",
   "theorems": [
    "Dot15d4.Props.C15_new_total",
    "Dot15d4.Props.C15_partition",
    "Dot15d4.Props.C15_offset"
   ],
   "note": ""
  },
  {
   "property": "C16",
   "status": "partial",
   "theorems": [
    "Dot15d4.Props.C16_length_then_id",
    "Dot15d4.Props.C16_id_then_length",
    "Dot15d4.Props.C16_false",
    "Dot15d4.Props.C16_fields_partial"
   ],
   "note": "False of the code as stated (the length mask overlaps the lowest bit of the element id): C16_false proves the negation, C16_fields_partial the part that holds (and its exact extent)."
  },
  {
   "property": "C17",
   "status": "partial",
   "theorems": [
    "Dot15d4.Props.C17_fields",
    "Dot15d4.Props.C17_false",
    "Dot15d4.Props.C17_fields_partial",
    "Dot15d4.Props.C17_termination_never_read"
   ],
   "note": "False of the code as stated (group id setter): C17_false proves the negation, C17_fields_partial the part that holds."
  },
  {
   "property": "C18",
   "status": "partial",
   "theorems": [
    "Dot15d4.Props.C18_fields",
    "Dot15d4.Props.C18_stale_type",
    "Dot15d4.Props.C18_false",
    "Dot15d4.Props.C18_fields_partial",
    "Dot15d4.Props.C18_kind"
   ],
   "note": "False of the code as stated: C18_false proves the negation, C18_fields_partial the part that holds."
  },
  {
   "property": "C19",
   "status": "proved",
   "theorems": [
    "Dot15d4.Props.C19_nested_iteration",
    "Dot15d4.Props.C19_nested_only_mlme"
   ],
   "note": ""
  },
  {
   "property": "C20",
   "status": "proved",
   "theorems": [
    "Dot15d4.Props.C20_reader_range",
    "Dot15d4.Props.C20_short",
    "Dot15d4.Props.C20_roundtrip",
    "Dot15d4.Props.C20_out_of_range",
    "Dot15d4.Props.C20_correction_clears_nack"
   ],
   "note": ""
  },
  {
   "property": "C21",
   "status": "proved",
   "theorems": [
    "Dot15d4.Props.C21_read",
    "Dot15d4.Props.C21_roundtrip",
    "Dot15d4.Props.C21_roundtrip_in_range"
   ],
   "note": ""
  },
  {
   "property": "C22",
   "status": "proved",
   "theorems": [
    "Dot15d4.Props.C22_default_emit",
    "Dot15d4.Props.C22_write",
    "Dot15d4.Props.C22_roundtrip",
    "Dot15d4.Props.C22_default",
    "Dot15d4.Props.C22_read_panics_iff"
   ],
   "note": ""
  },
  {
   "property": "C23",
   "status": "partial",
   "theorems": [
    "Dot15d4.Props.C23_reads_encoding_partial",
    "Dot15d4.Props.C23_contents",
    "Dot15d4.Props.C23_false",
    "Dot15d4.Props.C23_no_links_panic",
    "Dot15d4.Props.C23_reads_safe"
   ],
   "note": "False of the code for slotframes without links: C23_false, C23_no_links_panic; C23_reads_encoding_partial covers at least one link per slotframe."
  },
  {
   "property": "C24",
   "status": "partial",
   "theorems": [
    "Dot15d4.Props.C24_layout_partial",
    "Dot15d4.Props.C24_codebase_partial",
    "Dot15d4.Props.C24_csl",
    "Dot15d4.Props.C24_csl_panics",
    "Dot15d4.Props.C24_vendor_oui",
    "Dot15d4.Props.C24_sizes",
    "Dot15d4.Props.C24_gts_direction",
    "Dot15d4.Props.C24_readings",
    "Dot15d4.Props.C24_cfp",
    "Dot15d4.Props.C24_false"
   ],
   "note": "False of the code for fields declared without #[bytes]/#[bits] (Csl, Rit, ...), #[bytes(3)] u32 and declarations not ending at a byte boundary: C24_false and the concrete C24_csl, C24_csl_panics, C24_vendor_oui, C24_sizes; proved for every well-formed declaration and for six of the code base."
  },
  {
   "property": "C25",
   "status": "proved",
   "theorems": [
    "Dot15d4.Props.C25_accepts_iff",
    "Dot15d4.Props.C25_remainder",
    "Dot15d4.Props.C25_append",
    "Dot15d4.Props.C25_unchecked"
   ],
   "note": ""
  },
  {
   "property": "C26",
   "status": "proved",
   "theorems": [
    "Dot15d4.Props.C26_burst"
   ],
   "note": ""
  },
  {
   "property": "C27",
   "status": "proved",
   "theorems": [
    "Dot15d4.Props.C27_linear"
   ],
   "note": ""
  },
  {
   "property": "C28",
   "status": "partial",
   "theorems": [
    "Dot15d4.Props.C28_consistent_partial",
    "Dot15d4.Props.C28_false",
    "Dot15d4.Props.C28_absent_needed",
    "Dot15d4.Props.C28_panics_iff",
    "Dot15d4.Props.C28_accepts_iff"
   ],
   "note": "False of the code for immediate acknowledgments given an address: C28_false; proved for every other history, with exact acceptance (C28_accepts_iff) and panic (C28_panics_iff) conditions."
  },
  {
   "property": "C29",
   "status": "partial",
   "theorems": [
    "Dot15d4.Props.C29_roundtrip_partial",
    "Dot15d4.Props.C29_false",
    "Dot15d4.Props.C29_elements_payload_panics"
   ],
   "note": "False of the code for immediate acknowledgments given an address and a payload (emit panics): C29_false; also when elements are followed by a payload: C29_elements_payload_panics; proved for every other history, with and without information elements."
  },
  {
   "property": "C30",
   "status": "partial",
   "theorems": [
    "Dot15d4.Props.C30_header_element",
    "Dot15d4.Props.C30_nested_element",
    "Dot15d4.Props.C30_payload_element",
    "Dot15d4.Props.C30_emit_partial",
    "Dot15d4.Props.C30_roundtrip_partial",
    "Dot15d4.Props.C30_payload_termination_panics",
    "Dot15d4.Props.C30_header_termination2_unreadable"
   ],
   "note": "False of the code when a frame payload follows: C30_payload_termination_panics, C30_header_termination2_unreadable; proved for single elements and for whole lists without frame payload (emission also for header lists with one)."
  },
  {
   "property": "C31",
   "status": "partial",
   "theorems": [
    "Dot15d4.Props.C31_fuzz_target",
    "Dot15d4.Props.C31_fuzz_corpus",
    "Dot15d4.Props.C31_panics_iff",
    "Dot15d4.Props.C31_outcomes",
    "Dot15d4.Props.C31_parse_returns_partial",
    "Dot15d4.Props.C31_false_timeslot",
    "Dot15d4.Props.C31_false_slotframe",
    "Dot15d4.Props.C31_timeslot_hazard_exact",
    "Dot15d4.Props.C31_slotframe_hazard_panics"
   ],
   "note": "False of the code: C31_false_timeslot, C31_false_slotframe; proved for every accepted frame without the two hazardous kinds of nested element, and C31_panics_iff gives the exact condition for every accepted frame (C31_outcomes the three outcomes, C31_fuzz_target the crashes of the fuzz target frame)."
  },
  {
   "property": "C32",
   "status": "proved",
   "theorems": [
    "Dot15d4.Props.C32_sections",
    "Dot15d4.Props.C32_pending_addresses"
   ],
   "note": ""
  },
  {
   "property": "C33",
   "status": "proved",
   "theorems": [
    "Dot15d4.Props.C33_orders",
    "Dot15d4.Props.C33_read",
    "Dot15d4.Props.C33_direction"
   ],
   "note": ""
  },
  {
   "property": "C34",
   "status": "partial",
   "theorems": [
    "Dot15d4.Props.C34_false",
    "Dot15d4.Props.C34_level_bit",
    "Dot15d4.Props.C34_no_confidentiality",
    "Dot15d4.Props.C34_level4",
    "Dot15d4.Props.C34_levels_partial"
   ],
   "note": "False of the code for confidentiality (never reported): C34_false, C34_no_confidentiality; the rest proved."
  },
  {
   "property": "C35",
   "status": "proved",
   "theorems": [
    "Dot15d4.Sync.C35_at_most_one_guard",
    "Dot15d4.Sync.C35_exclusive_access",
    "Dot15d4.Sync.C35_stable",
    "Dot15d4.Sync.C35_last_write",
    "Dot15d4.Sync.C35_acquire_iff_free"
   ],
   "note": ""
  },
  {
   "property": "C36",
   "status": "proved",
   "theorems": [
    "Dot15d4.Sync.C36_waiters_not_forgotten",
    "Dot15d4.Sync.C36_free_means_woken",
    "Dot15d4.Sync.C36_guard_drop_wakes"
   ],
   "note": ""
  },
  {
   "property": "C37",
   "status": "proved",
   "theorems": [
    "Dot15d4.Sync.C37_memory_safe",
    "Dot15d4.Sync.C37_one_place_buffer",
    "Dot15d4.Sync.C37_received_subsequence",
    "Dot15d4.Sync.C37_nothing_lost_silently"
   ],
   "note": ""
  },
  {
   "property": "C38",
   "status": "proved",
   "theorems": [
    "Dot15d4.Sync.C38_receiver_woken",
    "Dot15d4.Sync.C38_send_wakes_receiver",
    "Dot15d4.Sync.C38_senders_woken",
    "Dot15d4.Sync.C38_false_two_receivers"
   ],
   "note": ""
  },
  {
   "property": "C39",
   "status": "proved",
   "theorems": [
    "Dot15d4.Sync.C39_select",
    "Dot15d4.Sync.C39_either"
   ],
   "note": ""
  },
  {
   "property": "C40",
   "status": "proved",
   "theorems": [
    "Dot15d4.Sync.C40_join",
    "Dot15d4.Sync.C40_join_fused"
   ],
   "note": ""
  },
  {
   "property": "C41",
   "status": "proved",
   "theorems": [
    "Dot15d4.Sync.C41_yield_now"
   ],
   "note": ""
  },
  {
   "property": "C42",
   "status": "proved",
   "theorems": [
    "Dot15d4.Sync.C42_cancelled_iff_abandoned",
    "Dot15d4.Sync.C42_cancel_count",
    "Dot15d4.Sync.C42_after_completion"
   ],
   "note": ""
  },
  {
   "property": "C43",
   "status": "partial",
   "theorems": [
    "Dot15d4.Props.C43_filter_partial",
    "Dot15d4.Props.C43_unknown_kinds",
    "Dot15d4.Props.C43_filter_default",
    "Dot15d4.Props.C43_false"
   ],
   "note": "False of the code as stated (implicit broadcast ignores frames with a source only): C43_false; C43_filter_partial gives the exact filter, C43_filter_default the property for the default configuration."
  },
  {
   "property": "C44",
   "status": "proved",
   "theorems": [
    "Dot15d4.Props.C44_device",
    "Dot15d4.Props.C44_sniffer_acks",
    "Dot15d4.Props.C44_decision",
    "Dot15d4.Props.C44_ack_bytes"
   ],
   "note": ""
  },
  {
   "property": "C45",
   "status": "partial",
   "theorems": [
    "Dot15d4.Props.C45_ack_bit_partial",
    "Dot15d4.Props.C45_invalid",
    "Dot15d4.Props.C45_false",
    "Dot15d4.Props.C45_false_no_destination"
   ],
   "note": "False of the code as stated: the bit is never cleared (C45_false) and is set on frames without destination (C45_false_no_destination); C45_ack_bit_partial gives the exact effect on every frame."
  },
  {
   "property": "C46",
   "status": "proved",
   "theorems": [
    "Dot15d4.Props.C46_transmit_cca",
    "Dot15d4.Props.C46_zero"
   ],
   "note": ""
  },
  {
   "property": "C47",
   "status": "proved",
   "theorems": [
    "Dot15d4.Props.C47_pauses",
    "Dot15d4.Props.C47_bound",
    "Dot15d4.Props.C47_truncated",
    "Dot15d4.Props.C47_shift_panics",
    "Dot15d4.Props.C47_increment_panics"
   ],
   "note": ""
  },
  {
   "property": "C48",
   "status": "proved",
   "theorems": [
    "Dot15d4.Props.C48_device",
    "Dot15d4.Props.C48_package",
    "Dot15d4.Props.C48_zero"
   ],
   "note": ""
  },
  {
   "property": "C49",
   "status": "proved",
   "theorems": [
    "Dot15d4.Props.C49_gets_radio",
    "Dot15d4.Props.C49_woken",
    "Dot15d4.Props.C49_starves"
   ],
   "note": ""
  },
  {
   "property": "C50",
   "status": "proved",
   "theorems": [
    "Dot15d4.Props.C50_overwrite"
   ],
   "note": ""
  },
  {
   "property": "C51",
   "status": "proved",
   "theorems": [
    "Dot15d4.Props.C51_numbers",
    "Dot15d4.Props.C51_distinct",
    "Dot15d4.Props.C51_read",
    "Dot15d4.Props.C51_defaults"
   ],
   "note": ""
  },
  {
   "property": "C52",
   "status": "partial",
   "theorems": [
    "Dot15d4.Props.C52_add_sub",
    "Dot15d4.Props.C52_mul_partial",
    "Dot15d4.Props.C52_mul_false",
    "Dot15d4.Props.C52_div_partial",
    "Dot15d4.Props.C52_div_false",
    "Dot15d4.Props.C52_div_exact",
    "Dot15d4.Props.C52_conversions",
    "Dot15d4.Props.C52_there_and_back"
   ],
   "note": "False of the code for usize operands of 2^63 and more: C52_mul_false, C52_div_false; everything else proved."
  },
  {
   "property": "C53",
   "status": "partial",
   "theorems": [
    "Dot15d4.Props.C53_aborts",
    "Dot15d4.Props.C53_definitions",
    "Dot15d4.Props.C53_defaults",
    "Dot15d4.Props.C53_watched",
    "Dot15d4.Props.C53_documented_name_aborts",
    "Dot15d4.Props.C53_false",
    "Dot15d4.Props.C53_documented_partial"
   ],
   "note": "False of the code for the documented name MAC_MAX_FRAME_RETRIES (C53_false, C53_documented_name_aborts); the exact abort condition and the generated definitions are proved for every environment."
  },
  {
   "property": "C54",
   "status": "partial",
   "theorems": [
    "Dot15d4.Props.C54_exact",
    "Dot15d4.Props.C54_decodable",
    "Dot15d4.Props.C54_hex",
    "Dot15d4.Props.C54_false"
   ],
   "note": "False of the code (C54_false): it panics on everything Frame::new rejects, on text that is not hexadecimal, and on some accepted frames. C54_exact gives the exact condition for every byte string and what is printed, C54_decodable which accepted frames are affected, C54_hex the text argument."
  },
  {
   "property": "C55",
   "status": "proved",
   "theorems": [
    "Dot15d4.Props.C55_odd",
    "Dot15d4.Props.C55_hamming"
   ],
   "note": ""
  },
  {
   "property": "C56",
   "status": "partial",
   "theorems": [
    "Dot15d4.Props.C56_slots_panic",
    "Dot15d4.Props.C56_false",
    "Dot15d4.Props.C56_directions",
    "Dot15d4.Props.C56_slots_partial",
    "Dot15d4.Props.C56_no_slots",
    "Dot15d4.Props.C56_slot_partial"
   ],
   "note": "False of the code: C56_false, C56_slots_panic; proved for a reader over the whole field."
  },
  {
   "property": "C57",
   "status": "proved",
   "theorems": [
    "Dot15d4.Props.C57_generator",
    "Dot15d4.Props.C57_protocol",
    "Dot15d4.Props.C57_exclusive"
   ],
   "note": ""
  },
  {
   "property": "C58",
   "status": "proved",
   "theorems": [
    "Dot15d4.Props.C58_runs_forever",
    "Dot15d4.Props.C58_polled"
   ],
   "note": ""
  },
  {
   "property": "C59",
   "status": "proved",
   "theorems": [
    "Dot15d4.Props.C59_channel",
    "Dot15d4.Props.C59_calls"
   ],
   "note": ""
  },
  {
   "property": "C60",
   "status": "partial",
   "theorems": [
    "Dot15d4.Props.C60_elements",
    "Dot15d4.Props.C60_elements_panics_iff",
    "Dot15d4.Props.C60_termination_panics",
    "Dot15d4.Props.C60_emit_fills_or_panics",
    "Dot15d4.Props.C60_fuzz_target_elements",
    "Dot15d4.Props.C60_security_panics",
    "Dot15d4.Props.C60_elements_flag",
    "Dot15d4.Props.C60_panics_iff",
    "Dot15d4.Props.C60_fuzz_target",
    "Dot15d4.Props.C60_emit_partial",
    "Dot15d4.Props.C60_false",
    "Dot15d4.Props.C60_gaps",
    "Dot15d4.Props.C60_injective"
   ],
   "note": "False of the code: validate accepts frames whose frame control field contradicts their contents (C60_false, C60_gaps); proved for every FrameRepr whose frame control field describes it and whose elements are encodable and not followed by a payload; the exact condition is C60_panics_iff for every FrameRepr without elements and security, and C60_elements_panics_iff with arbitrary elements unless a payload has to be placed behind elements or a security header (C60_fuzz_target, C60_fuzz_target_elements: the crashes of the fuzz target repr); setting the security flag on a frame with payload always makes emission panic, setting the elements flag iff the payload has two octets or more (C60_security_panics, C60_elements_flag); in every case emission fills the buffer or panics (C60_emit_fills_or_panics)."
  },
  {
   "property": "C61",
   "status": "partial",
   "theorems": [
    "Dot15d4.Props.C61_reemit_partial",
    "Dot15d4.Props.C61_written_partial",
    "Dot15d4.Props.C61_false",
    "Dot15d4.Props.C61_elements_corrupted"
   ],
   "note": "False of the code for frames with information elements: C61_false (emit panics), C61_elements_corrupted (a second termination); proved for every accepted frame without them."
  },
  {
   "property": "C62",
   "status": "proved",
   "theorems": [
    "Dot15d4.Props.C62_validate"
   ],
   "note": ""
  },
  {
   "property": "C63",
   "status": "partial",
   "theorems": [
    "Dot15d4.Props.C63_frame_control",
    "Dot15d4.Props.C63_header",
    "Dot15d4.Props.C63_nested",
    "Dot15d4.Props.C63_payload",
    "Dot15d4.Props.C63_accepted_partial",
    "Dot15d4.Props.C63_false",
    "Dot15d4.Props.C63_tsch",
    "Dot15d4.Props.C63_names"
   ],
   "note": "False of the code for standalone truncated elements (C63_false); C63_frame_control, C63_header, C63_nested, C63_payload give the exact text and panic condition for every byte string, C63_accepted_partial the property for elements read from an accepted frame."
  },
  {
   "property": "C64",
   "status": "partial",
   "theorems": [
    "Dot15d4.Props.C64_setters",
    "Dot15d4.Props.C64_new",
    "Dot15d4.Props.C64_default",
    "Dot15d4.Props.C64_roundtrip_partial",
    "Dot15d4.Props.C64_false"
   ],
   "note": "False of the code for guard times of 4242 us and more (C64_false, for all of them); construction and setters proved in full, C64_roundtrip_partial for every smaller guard time."
  },
  {
   "property": "C65",
   "status": "proved",
   "theorems": [
    "Dot15d4.Props.C65_in_time",
    "Dot15d4.Props.C65_exchange",
    "Dot15d4.Props.C65_ack_means_received"
   ],
   "note": ""
  },
  {
   "property": "C66",
   "status": "proved",
   "theorems": [
    "Dot15d4.Props.C66_never_deaf",
    "Dot15d4.Props.C66_no_deadlock"
   ],
   "note": ""
  },
  {
   "property": "C67",
   "status": "partial",
   "theorems": [
    "Dot15d4.Props.C67_parse_iff",
    "Dot15d4.Props.C67_false",
    "Dot15d4.Props.C67_no_loss_partial",
    "Dot15d4.Props.C67_too_many"
   ],
   "note": "False of the code: elements after the sixteenth of a list are silently left out (C67_false); C67_parse_iff gives exactly what is reported of every accepted frame, C67_no_loss_partial that the first sixteen of each list are, C67_too_many that slotframes and links beyond capacity are errors."
  },
  {
   "property": "C68",
   "status": "partial",
   "theorems": [
    "Dot15d4.Props.C68_false",
    "Dot15d4.Props.C68_read_partial",
    "Dot15d4.Props.C68_read_small_partial",
    "Dot15d4.Props.C68_write",
    "Dot15d4.Props.C68_tables",
    "Dot15d4.Props.C68_unknown"
   ],
   "note": "False of the code for reading payload group ids of 8 and more and short nested ids of 0x40 and more (C68_false); C68_read_partial gives what every descriptor is read as, C68_write proves writing for every id."
  },
  {
   "property": "C69",
   "status": "partial",
   "theorems": [
    "Dot15d4.Props.C69_end_to_end_partial"
   ],
   "note": "Proved for every history for which C29 holds; for the others emit does not write the frame (C29_false, C29_elements_payload_panics)."
  },
  {
   "property": "C70",
   "status": "partial",
   "theorems": [
    "Dot15d4.Props.C70_in_order_partial",
    "Dot15d4.Props.C70_false"
   ],
   "note": "False of the code: a frame transmitted again is handed over again, sequence numbers are not remembered (C70_false, a run of two devices); C70_in_order_partial proves order, completeness and once per reception for every execution."
  },
  {
   "property": "C71",
   "status": "partial",
   "theorems": [
    "Dot15d4.Props.C71_same",
    "Dot15d4.Props.C71_false",
    "Dot15d4.Props.C71_unknown_partial",
    "Dot15d4.Props.C71_too_many"
   ],
   "note": "False of the code for payload elements (C71_false); C71_same proves that nothing but errors changes, C71_unknown_partial that unknown header and nested elements panic, C71_too_many that exceeded capacities do."
  },
  {
   "property": "C72",
   "status": "partial",
   "theorems": [
    "Dot15d4.Props.C72_read_partial",
    "Dot15d4.Props.C72_ht2",
    "Dot15d4.Props.C72_payload_misread",
    "Dot15d4.Props.C72_false",
    "Dot15d4.Props.C72_header_length",
    "Dot15d4.Props.C72_nested_partial",
    "Dot15d4.Props.C72_nested_false"
   ],
   "note": "False of the code: C72_false, C72_nested_false; C72_ht2 and C72_payload_misread show it for every frame payload after elements, C72_header_length for odd ids and lengths. C72_read_partial and C72_nested_partial prove it for all lists of the other elements."
  },
  {
   "property": "C73",
   "status": "proved",
   "theorems": [
    "Dot15d4.Props.C73_steps",
    "Dot15d4.Props.C73_time",
    "Dot15d4.Props.C73_defaults"
   ],
   "note": ""
  },
  {
   "property": "C74",
   "status": "proved",
   "theorems": [
    "Dot15d4.Props.C74_duration",
    "Dot15d4.Props.C74_instant",
    "Dot15d4.Props.C74_all",
    "Dot15d4.Props.C74_ties",
    "Dot15d4.Props.C74_elements",
    "Dot15d4.Props.C74_beyond"
   ],
   "note": ""
  },
  {
   "property": "C75",
   "status": "proved",
   "theorems": [
    "Dot15d4.Props.C75_lines",
    "Dot15d4.Props.C75_header"
   ],
   "note": ""
  },
  {
   "property": "C76",
   "status": "partial",
   "theorems": [
    "Dot15d4.Props.C76_channel_partial",
    "Dot15d4.Props.C76_two_senders",
    "Dot15d4.Props.C76_channel_false",
    "Dot15d4.Props.C76_mutex_partial",
    "Dot15d4.Props.C76_mutex_panics_iff",
    "Dot15d4.Props.C76_mutex_false"
   ],
   "note": "Full claim false of the code: C76_channel_false (two tasks in send_async lose a registration, C76_two_senders) and C76_mutex_false (RefCell already borrowed). Proved: the channel with one sending task, to any depth of nesting; the mutex panics exactly if used from inside a waker it calls, and is sequential otherwise."
  },
  {
   "property": "C77",
   "status": "proved",
   "theorems": [
    "Dot15d4.Props.C77_radio",
    "Dot15d4.Props.C77_channel",
    "Dot15d4.Props.C77_answers",
    "Dot15d4.Props.C77_recording"
   ],
   "note": ""
  },
  {
   "property": "C78",
   "status": "partial",
   "theorems": [
    "Dot15d4.Props.C78_received_partial",
    "Dot15d4.Props.C78_false"
   ],
   "note": "False of the code without a condition on sequence numbers: acknowledgements carry no address (C78_false, a network of three devices). C78_received_partial proves it for every history in which no other package with that sequence number is given to a device."
  },
  {
   "property": "C79",
   "status": "proved",
   "theorems": [
    "Dot15d4.Props.C79_no_creation"
   ],
   "note": ""
  },
  {
   "property": "C80",
   "status": "proved",
   "theorems": [
    "Dot15d4.Props.C80_transmissions",
    "Dot15d4.Props.C80_quiet"
   ],
   "note": ""
  },
  {
   "property": "C81",
   "status": "proved",
   "theorems": [
    "Dot15d4.Props.C81_content_mut",
    "Dot15d4.Props.C81_payload_element",
    "Dot15d4.Props.C81_header_element",
    "Dot15d4.Props.C81_nested_element"
   ],
   "note": ""
  },
  {
   "property": "C82",
   "status": "proved",
   "theorems": [
    "Dot15d4.Props.C82_device",
    "Dot15d4.Props.C82_network",
    "Dot15d4.Props.C82_total"
   ],
   "note": ""
  },
  {
   "property": "C83",
   "status": "proved",
   "theorems": [
    "Dot15d4.Props.C83_frames",
    "Dot15d4.Props.C83_never_full",
    "Dot15d4.Props.C83_refuses",
    "Dot15d4.Props.C83_timeslots",
    "Dot15d4.Props.C83_blind",
    "Dot15d4.Props.C83_unknown_mode_crashes",
    "Dot15d4.Props.C83_crashes"
   ],
   "note": ""
  },
  {
   "property": "C84",
   "status": "partial",
   "theorems": [
    "Dot15d4.Sync.C84_account_partial",
    "Dot15d4.Sync.C84_always",
    "Dot15d4.Sync.C84_clean",
    "Dot15d4.Sync.C84_once",
    "Dot15d4.Sync.C84_false"
   ],
   "note": "False of the code: the message in the channel is leaked when the channel is split again or dropped (C84_false). C84_account_partial proves the exact account for every life of a channel (only those messages are missing), C84_clean the full claim for programs that empty the channel first, C84_once that nothing is received or destroyed twice."
  },
  {
   "property": "C85",
   "status": "proved",
   "theorems": [
    "Dot15d4.Props.C85_unchanged_or_rejected",
    "Dot15d4.Props.C85_built",
    "Dot15d4.Props.C85_exists_unique",
    "Dot15d4.Props.C85_four_flips"
   ],
   "note": ""
  },
  {
   "property": "C86",
   "status": "partial",
   "theorems": [
    "Dot15d4.Props.C86_uniform_partial",
    "Dot15d4.Props.C86_sequences",
    "Dot15d4.Props.C86_collision",
    "Dot15d4.Props.C86_pauses",
    "Dot15d4.Props.C86_false"
   ],
   "note": "False of the code for the first attempt, which is not preceded by a backoff (C86_false). C86_uniform_partial, C86_sequences and C86_collision prove the distribution of all other pauses, C86_pauses where they are."
  },
  {
   "property": "C87",
   "status": "partial",
   "theorems": [
    "Dot15d4.Props.C87_exact",
    "Dot15d4.Props.C87_rest_partial",
    "Dot15d4.Props.C87_flags_are_merged",
    "Dot15d4.Props.C87_reuse",
    "Dot15d4.Props.C87_false"
   ],
   "note": "False of the code: flags are only set (C87_false). C87_exact gives the exact condition on the buffer for every built frame, C87_rest_partial the full claim for buffers that start with two zeros, C87_flags_are_merged what is emitted otherwise, C87_reuse when a used buffer is good."
  },
  {
   "property": "C88",
   "status": "partial",
   "theorems": [
    "Dot15d4.Props.C88_appended_partial",
    "Dot15d4.Props.C88_shortened",
    "Dot15d4.Props.C88_header_elements",
    "Dot15d4.Props.C88_payload_elements",
    "Dot15d4.Props.C88_false"
   ],
   "note": "False of the code for frames that end with information elements: they absorb what follows (C88_false). C88_appended_partial and C88_shortened prove the full claim for frames without elements, C88_header_elements and C88_payload_elements what happens otherwise, for all elements that follow."
  },
  {
   "property": "C89",
   "status": "partial",
   "theorems": [
    "Dot15d4.Props.C89_swapped_partial",
    "Dot15d4.Props.C89_descriptors",
    "Dot15d4.Props.C89_payload_missed",
    "Dot15d4.Props.C89_exact",
    "Dot15d4.Props.C89_slot",
    "Dot15d4.Props.C89_false"
   ],
   "note": "False of the code (C89_false). C89_exact gives the exact condition, C89_swapped_partial what is read of every beacon without GTS descriptors, C89_descriptors what is read of every beacon with them."
  },
  {
   "property": "C90",
   "status": "partial",
   "theorems": [
    "Dot15d4.Props.C90_reported",
    "Dot15d4.Props.C90_exact_partial",
    "Dot15d4.Props.C90_false",
    "Dot15d4.Props.C90_beacon",
    "Dot15d4.Props.C90_beacon_right",
    "Dot15d4.Props.C90_beacon_wrong",
    "Dot15d4.Props.C90_ack"
   ],
   "note": "False of the code (C90_false). C90_exact_partial gives the exact condition, C90_reported, C90_beacon and C90_ack what is read for every header."
  },
  {
   "property": "C91",
   "status": "proved",
   "theorems": [
    "Dot15d4.Props.C91_frame",
    "Dot15d4.Props.C91_receiver",
    "Dot15d4.Props.C91_security",
    "Dot15d4.Props.C91_superframe",
    "Dot15d4.Props.C91_gts",
    "Dot15d4.Props.C91_directions",
    "Dot15d4.Props.C91_pending",
    "Dot15d4.Props.C91_beacon",
    "Dot15d4.Props.C91_time_correction",
    "Dot15d4.Props.C91_link_options"
   ],
   "note": ""
  },
  {
   "property": "C92",
   "status": "partial",
   "theorems": [
    "Dot15d4.Props.C92_standard_partial",
    "Dot15d4.Props.C92_differences",
    "Dot15d4.Props.C92_false"
   ],
   "note": "False of the code (C92_false): no wait before the first assessment and one assessment less. C92_standard_partial: with these two changes every transmission is a run of the algorithm; C92_differences: both differences, in every execution."
  },
  {
   "property": "C93",
   "status": "partial",
   "theorems": [
    "Dot15d4.Props.C93_addressed_partial",
    "Dot15d4.Props.C93_sound",
    "Dot15d4.Props.C93_beacons",
    "Dot15d4.Props.C93_unaddressed",
    "Dot15d4.Props.C93_device",
    "Dot15d4.Props.C93_false"
   ],
   "note": "False of the code (C93_false). C93_addressed_partial: exactly the standard for frames with destination that are no beacons, and for frames without addressing fields; C93_beacons and C93_unaddressed: what happens otherwise, exactly; C93_device: whole device."
  },
  {
   "property": "C94",
   "status": "partial",
   "theorems": [
    "Dot15d4.Props.C94_acks_partial",
    "Dot15d4.Props.C94_every",
    "Dot15d4.Props.C94_false"
   ],
   "note": "False of the code (C94_false): version 2 frames get an Imm-Ack. C94_acks_partial and C94_every prove both directions for data frames and commands of versions 0 and 1."
  },
  {
   "property": "C95",
   "status": "partial",
   "theorems": [
    "Dot15d4.Props.C95_layout_partial",
    "Dot15d4.Props.C95_table",
    "Dot15d4.Props.C95_false",
    "Dot15d4.Props.C95_injective",
    "Dot15d4.Props.C95_exact"
   ],
   "note": "False of the code (C95_false): elements followed by a payload make emit panic. C95_exact gives the outcome of emit for every history the builder accepts. C95_layout_partial gives all octets as a function of the calls, C95_table relates the compression bit to the tables, C95_injective: same octets iff same content."
  },
  {
   "property": "C96",
   "status": "proved",
   "theorems": [
    "Dot15d4.Props.C96_constants",
    "Dot15d4.Props.C96_defaults",
    "Dot15d4.Props.C96_rejects",
    "Dot15d4.Props.C96_literals",
    "Dot15d4.Props.C96_receives",
    "Dot15d4.Props.C96_transmits"
   ],
   "note": ""
  },
  {
   "property": "C97",
   "status": "partial",
   "theorems": [
    "Dot15d4.Props.C97_injective_partial",
    "Dot15d4.Props.C97_false",
    "Dot15d4.Props.C97_cut",
    "Dot15d4.Props.C97_cut_differs",
    "Dot15d4.Props.C97_cut_refused",
    "Dot15d4.Props.C97_cut_filter"
   ],
   "note": "False of the code (C97_false): elements after the sixteenth are dropped, so 17 and 16 time corrections are read alike. C97_injective_partial proves it for all frames without information elements; C97_cut, C97_cut_differs, C97_cut_refused and C97_cut_filter say what becomes of every cut of such a frame."
  },
  {
   "property": "C98",
   "status": "partial",
   "theorems": [
    "Dot15d4.Props.C98_behind",
    "Dot15d4.Props.C98_front",
    "Dot15d4.Props.C98_padding",
    "Dot15d4.Props.C98_concatenated",
    "Dot15d4.Props.C98_noticed_partial",
    "Dot15d4.Props.C98_false"
   ],
   "note": "False of the code (C98_false, C98_padding, C98_concatenated). C98_behind and C98_front characterise exactly what goes unnoticed at either end; C98_noticed_partial: up to two octets that are not all zero are always noticed."
  },
  {
   "property": "C99",
   "status": "partial",
   "theorems": [
    "Dot15d4.Props.C99_whole",
    "Dot15d4.Props.C99_exact_partial",
    "Dot15d4.Props.C99_appended",
    "Dot15d4.Props.C99_cut",
    "Dot15d4.Props.C99_panics",
    "Dot15d4.Props.C99_false"
   ],
   "note": "False of the code (C99_false, C99_panics, C99_cut). C99_exact_partial says for exactly which octets the payload is returned, and what it is."
  },
  {
   "property": "C100",
   "status": "proved",
   "theorems": [
    "Dot15d4.Props.C100_bounded",
    "Dot15d4.Props.C100_once"
   ],
   "note": ""
  },
  {
   "property": "C101",
   "status": "proved",
   "theorems": [
    "Dot15d4.Props.C101_sent",
    "Dot15d4.Props.C101_handed",
    "Dot15d4.Props.C101_in_order",
    "Dot15d4.Props.C101_none_skipped"
   ],
   "note": ""
  },
  {
   "property": "C102",
   "status": "partial",
   "theorems": [
    "Dot15d4.Props.C102_handed_partial",
    "Dot15d4.Props.C102_dropped",
    "Dot15d4.Props.C102_delivered",
    "Dot15d4.Props.C102_listener",
    "Dot15d4.Props.C102_false"
   ],
   "note": "False of the code for what arrives while the device waits for an acknowledgement (C102_false). C102_handed_partial proves it for everything the receive task receives, C102_delivered the delivery between two devices, C102_listener the full claim for devices that await no acknowledgement, C102_dropped that all else is dropped."
  }
 ]
}