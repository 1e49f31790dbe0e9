{
 "claims": [
  {
   "property": "C01",
   "status": "proved",
   "theorems": [
    "Gtp.Props.C01_header_roundtrip",
    "Gtp.Props.C01_exact"
   ],
   "note": "The condition on the header is necessary and sufficient."
  },
  {
   "property": "C02",
   "status": "proved",
   "theorems": [
    "Gtp.Props.C02_header_total_precise",
    "Gtp.Props.C02_header_no_panic"
   ],
   "note": ""
  },
  {
   "property": "C03",
   "status": "proved",
   "theorems": [
    "Gtp.Props.C03_header_reencode"
   ],
   "note": ""
  },
  {
   "property": "C04",
   "status": "proved",
   "theorems": [
    "Gtp.Props.C04_tbcd_roundtrip",
    "Gtp.Props.C04_tbcd_layout",
    "Gtp.Props.C04_tbcd_length"
   ],
   "note": ""
  },
  {
   "property": "C05",
   "status": "proved",
   "theorems": [
    "Gtp.Props.C05_plmn_roundtrip",
    "Gtp.Props.C05_plmn_layout"
   ],
   "note": "The repository's own unit vectors for 310/012 ([0x13,0x00,0x21]) disagree with the code and with TS 24.008."
  },
  {
   "property": "C06",
   "status": "partial",
   "theorems": [
    "Gtp.Props.C06_ie_roundtrip_partial",
    "Gtp.Props.C06_exact_partial",
    "Gtp.Props.C06_mm_exact_partial",
    "Gtp.Props.C06_eps_exact_partial",
    "Gtp.Props.C06_eps_bare",
    "Gtp.Props.C06_eps_blank",
    "Gtp.Props.C06_violation"
   ],
   "note": "Proved for all 146 IE types and all values meeting the type's well-formedness condition. The code loses some legal values (violation theorem; DESIGN.md). For IEs that are neither grouped nor MM contexts the well-formedness is also necessary (C06_exact_partial), and so it is for five of the six MM contexts (C06_mm_exact_partial). EPS security contexts survive outside it as well: exactly which, if both capabilities and the equipment identity are present (C06_eps_exact_partial). Missing: the converse for grouped IEs and for EPS contexts without one of the three strings."
  },
  {
   "property": "C07",
   "status": "proved",
   "theorems": [
    "Gtp.Props.C07_ie_length_field"
   ],
   "note": ""
  },
  {
   "property": "C08",
   "status": "partial",
   "theorems": [
    "Gtp.Props.C08_ie_no_panic_partial",
    "Gtp.Props.C08_decoder_no_panic_partial",
    "Gtp.Props.C08_violation_kinds",
    "Gtp.Props.C08_violation_length",
    "Gtp.Props.C08_ie_panic_iff",
    "Gtp.Props.C08_group_panic_iff",
    "Gtp.Props.C08_never_iff",
    "Gtp.Props.C08_panic_iff",
    "Gtp.Props.C08_ie_release_panic_iff",
    "Gtp.Props.C08_group_release_panic_iff",
    "Gtp.Props.C08_release_panic_iff"
   ],
   "note": "The code panics for some kinds and for declared lengths >= 65532; both are proved with witnesses, every kind that is not robust has one. For debug and for release builds the exact condition on the octets, per kind and for sequences."
  },
  {
   "property": "C09",
   "status": "proved",
   "theorems": [
    "Gtp.Props.C09_sequence_roundtrip",
    "Gtp.Props.C09_sequence_append"
   ],
   "note": "For well-formed IEs, the sense of C06 without TraceReference and TwanId."
  },
  {
   "property": "C10",
   "status": "partial",
   "theorems": [
    "Gtp.Props.C10_terminates_debug",
    "Gtp.Props.C10_terminates_release_partial",
    "Gtp.Props.C10_progress",
    "Gtp.Props.C10_violation",
    "Gtp.Props.C10_ie_moves_debug",
    "Gtp.Props.C10_ie_stands_still_iff",
    "Gtp.Props.C10_stands_still_kinds",
    "Gtp.Props.C10_stands_still_kinds_iff",
    "Gtp.Props.C10_diverges_iff"
   ],
   "note": "Debug builds: every buffer. Release builds: an overflowing declared length makes the decoder loop forever (witness); the exact set of buffers on which it does."
  },
  {
   "property": "C11",
   "status": "partial",
   "theorems": [
    "Gtp.Props.C11_declared_length_partial",
    "Gtp.Props.C11_fixed",
    "Gtp.Props.C11_kinds",
    "Gtp.Props.C11_violation",
    "Gtp.Props.C11_types_partial",
    "Gtp.Props.C11_violation_types",
    "Gtp.Props.C11_violation_release"
   ],
   "note": "Exact for each of the 256 types: it holds for the types outside ownPace, and each of the 78 types of ownPace has a witness; release builds wrap lengths from 65532 (witness)."
  },
  {
   "property": "C12",
   "status": "partial",
   "theorems": [
    "Gtp.Props.C12_dispatch_partial",
    "Gtp.Props.C12_violation"
   ],
   "note": "TraceReference and TwanId are not dispatched back (witness)."
  },
  {
   "property": "C13",
   "status": "partial",
   "theorems": [
    "Gtp.Props.C13_unknown_partial",
    "Gtp.Props.C13_violation"
   ],
   "note": "An unknown IE without value is fatal; the type is lost (witness)."
  },
  {
   "property": "C14",
   "status": "partial",
   "theorems": [
    "Gtp.Props.C14_message_roundtrip_partial",
    "Gtp.Props.C14_message_roundtrip_exact_partial",
    "Gtp.Props.C14_violation"
   ],
   "note": "All 83 message types, all values of well-formed IEs. Values that single IEs lose (C06) are excluded; a Modify Bearer Command loses all but the first bearer context (witness)."
  },
  {
   "property": "C15",
   "status": "proved",
   "theorems": [
    "Gtp.Props.C15_message_length"
   ],
   "note": ""
  },
  {
   "property": "C16",
   "status": "partial",
   "theorems": [
    "Gtp.Props.C16_missing_reported_partial",
    "Gtp.Props.C16_missing_rejected_partial",
    "Gtp.Props.C16_present_accepted",
    "Gtp.Props.C16_table",
    "Gtp.Props.C16_violation"
   ],
   "note": "Proved for 78 of 83 types; one type does not check, four name a wrong type in some cases (witnesses)."
  },
  {
   "property": "C17",
   "status": "proved",
   "theorems": [
    "Gtp.Props.C17_wrong_type",
    "Gtp.Props.C17_accepts_own_type"
   ],
   "note": ""
  },
  {
   "property": "C18",
   "status": "partial",
   "theorems": [
    "Gtp.Props.C18_truncated_partial",
    "Gtp.Props.C18_complete_partial",
    "Gtp.Props.C18_violation"
   ],
   "note": "All but Version Not Supported Indication (witness)."
  },
  {
   "property": "C19",
   "status": "proved",
   "theorems": [
    "Gtp.Props.C19_trailing_octets",
    "Gtp.Props.C19_piggyback_partial"
   ],
   "note": ""
  },
  {
   "property": "C20",
   "status": "partial",
   "theorems": [
    "Gtp.Props.C20_first_wins_partial",
    "Gtp.Props.C20_violation_types",
    "Gtp.Props.C20_violation_last",
    "Gtp.Props.C20_violation"
   ],
   "note": "13 message types keep the last IE for one of their fields (table and witness)."
  },
  {
   "property": "C21",
   "status": "proved",
   "theorems": [
    "Gtp.Props.C21_order",
    "Gtp.Props.C21_octets"
   ],
   "note": "All 83 message types; the same message or the same error."
  },
  {
   "property": "C22",
   "status": "partial",
   "theorems": [
    "Gtp.Props.C22_panic_iff_partial",
    "Gtp.Props.C22_panic_iff",
    "Gtp.Props.C22_no_panic_partial",
    "Gtp.Props.C22_terminates_debug",
    "Gtp.Props.C22_violation",
    "Gtp.Props.C22_violation_count",
    "Gtp.Props.C22_release_panic_iff",
    "Gtp.Props.C22_diverges_iff"
   ],
   "note": "Exact conditions for a panic (both builds) and for never ending (release); 80 message types panic on a header without TEID (proved for each)."
  },
  {
   "property": "C23",
   "status": "partial",
   "theorems": [
    "Gtp.Props.C23_message_append_partial",
    "Gtp.Props.C23_violation"
   ],
   "note": "Messages overwrite octets 3 and 4 of a non-empty buffer (witness). For IEs appending is how the model reads buffer.append(&mut buffer_ie)."
  },
  {
   "property": "C24",
   "status": "partial",
   "theorems": [
    "Gtp.Props.C24_grouped_partial",
    "Gtp.Props.C24_violation"
   ],
   "note": "Some members are dropped by the encoder (witness)."
  },
  {
   "property": "C25",
   "status": "partial",
   "theorems": [
    "Gtp.Props.C25_header_roundtrip_partial",
    "Gtp.Props.C25_header_fields",
    "Gtp.Props.C25_violation_iff",
    "Gtp.Props.C25_violation",
    "Gtp.Props.C25_exact",
    "Gtp.Props.C25_unaccounted"
   ],
   "note": "Headers with N-PDU number or extension headers but no sequence number come back with one; exact characterisation."
  },
  {
   "property": "C26",
   "status": "partial",
   "theorems": [
    "Gtp.Props.C26_panic_iff_partial",
    "Gtp.Props.C26_terminates_debug",
    "Gtp.Props.C26_no_panic_partial",
    "Gtp.Props.C26_spins",
    "Gtp.Props.C26_release_iff",
    "Gtp.Props.C26_violation"
   ],
   "note": "Exact set of buffers on which a debug build panics, and on which a release build panics or never ends; witnesses."
  },
  {
   "property": "C27",
   "status": "partial",
   "theorems": [
    "Gtp.Props.C27_header_size_partial",
    "Gtp.Props.C27_exact",
    "Gtp.Props.C27_violation"
   ],
   "note": "For extension headers that fit the wire format; C27_exact gives the necessary and sufficient condition for arbitrary fields, in debug and release builds."
  },
  {
   "property": "C28",
   "status": "proved",
   "theorems": [
    "Gtp.Props.C28_ext_header",
    "Gtp.Props.C28_chain_roundtrip",
    "Gtp.Props.C28_exact"
   ],
   "note": "Includes unknown types and the end of the chain."
  },
  {
   "property": "C29",
   "status": "partial",
   "theorems": [
    "Gtp.Props.C29_gpdu_payload_partial",
    "Gtp.Props.C29_gpdu_roundtrip",
    "Gtp.Props.C29_violation",
    "Gtp.Props.C30_exact_gpdu"
   ],
   "note": "Lengths 1..65527; 0 is rejected and 65528..65535 panics (both proved)."
  },
  {
   "property": "C30",
   "status": "partial",
   "theorems": [
    "Gtp.Props.C30_echo_request_partial",
    "Gtp.Props.C30_end_marker_partial",
    "Gtp.Props.C30_echo_response_partial",
    "Gtp.Props.C30_supported_ext_partial",
    "Gtp.Props.C30_error_indication_partial",
    "Gtp.Props.C30_violation",
    "Gtp.Props.C30_exact_echo_request",
    "Gtp.Props.C30_exact_end_marker",
    "Gtp.Props.C30_exact_echo_response",
    "Gtp.Props.C30_exact_supported_ext",
    "Gtp.Props.C30_exact_error_indication_partial"
   ],
   "note": "Messages whose announced length would be 0, and some type lists, are excluded (witnesses). In debug builds exactly the messages that survive, for extension headers accounted with their octets (Error Indications below 65536 octets)."
  },
  {
   "property": "C31",
   "status": "proved",
   "theorems": [
    "Gtp.Props.C31_length_field",
    "Gtp.Props.C31_nonempty_buffer"
   ],
   "note": "For an empty output buffer; C31_nonempty_buffer shows the corruption of a non-empty one."
  },
  {
   "property": "C32",
   "status": "partial",
   "theorems": [
    "Gtp.Props.C32_gpdu_panic_iff_partial",
    "Gtp.Props.C32_echo_request_panic_iff_partial",
    "Gtp.Props.C32_end_marker_panic_iff_partial",
    "Gtp.Props.C32_echo_response_panic_iff_partial",
    "Gtp.Props.C32_supported_ext_panic_iff_partial",
    "Gtp.Props.C32_error_indication_panic_iff_partial",
    "Gtp.Props.C32_error_indication_calm_partial",
    "Gtp.Props.C32_terminates_debug",
    "Gtp.Props.C32_spins",
    "Gtp.Props.C32_gpdu_release_iff",
    "Gtp.Props.C32_echo_request_release_iff",
    "Gtp.Props.C32_end_marker_release_iff",
    "Gtp.Props.C32_echo_response_release_iff",
    "Gtp.Props.C32_supported_ext_release_iff",
    "Gtp.Props.C32_error_indication_release_iff",
    "Gtp.Props.C32_violation"
   ],
   "note": "For all six types the exact condition for a panic in a debug build, and for a panic and for an endless loop in a release build; witnesses."
  },
  {
   "property": "C33",
   "status": "partial",
   "theorems": [
    "Gtp.Props.C33_truncated_partial",
    "Gtp.Props.C33_violation"
   ],
   "note": "Echo Request, End Marker and Echo Response accept truncated buffers (witness)."
  },
  {
   "property": "C34",
   "status": "proved",
   "theorems": [
    "Gtp.Props.C1.C34_header_roundtrip",
    "Gtp.Props.C1.C34_wire_format",
    "Gtp.Props.C1.C34_injective",
    "Gtp.Props.C1.C34_exact"
   ],
   "note": "Any combination of optional fields."
  },
  {
   "property": "C35",
   "status": "partial",
   "theorems": [
    "Gtp.Props.C1.C35_ie_roundtrip_partial",
    "Gtp.Props.C1.C35_ie_roundtrip_last",
    "Gtp.Props.C1.C35_exact_partial",
    "Gtp.Props.C1.C35_exact_last_partial",
    "Gtp.Props.C1.C35_exact_list",
    "Gtp.Props.C1.C35_violation_swallows",
    "Gtp.Props.C1.C35_violation_msisdn"
   ],
   "note": "All 49 kinds; two kinds swallow what follows, an MSISDN of at most 14 digits is never decoded back (proved). The well-formedness conditions are also necessary: exactly the well-formed values survive (for lists of extension header types another condition, also exact)."
  },
  {
   "property": "C36",
   "status": "partial",
   "theorems": [
    "Gtp.Props.C1.C36_roundtrip_iff",
    "Gtp.Props.C1.C36_message_roundtrip_partial",
    "Gtp.Props.C1.C36_exact",
    "Gtp.Props.C1.C36_rejected",
    "Gtp.Props.C1.C36_violation_order",
    "Gtp.Props.C1.C36_violation",
    "Gtp.Props.C1.C36_echo_request",
    "Gtp.Props.C1.C36_echo_response",
    "Gtp.Props.C1.C36_version_not_supported",
    "Gtp.Props.C1.C36_supported_ext"
   ],
   "note": "All 20 message types; exact condition for the 16 with a loop. Messages with an APN restriction, and two responses with a charging gateway address in front of other elements, are rejected by their own decoder (proved)."
  },
  {
   "property": "C37",
   "status": "proved",
   "theorems": [
    "Gtp.Props.C37_prefix_free",
    "Gtp.Props.C37_injective",
    "Gtp.Props.C37_sequence_injective"
   ],
   "note": ""
  },
  {
   "property": "C38",
   "status": "partial",
   "theorems": [
    "Gtp.Props.C38_type_codes_partial",
    "Gtp.Props.C38_violation",
    "Gtp.Props.C38_violation_decode"
   ],
   "note": "Two pairs of message types share a code (witness)."
  },
  {
   "property": "C39",
   "status": "proved",
   "theorems": [
    "Gtp.Props.C39_message_injective",
    "Gtp.Props.C39_types_separate"
   ],
   "note": "For well-formed messages in the sense of C14."
  },
  {
   "property": "C40",
   "status": "partial",
   "theorems": [
    "Gtp.Props.C1.C40_panic_iff_partial",
    "Gtp.Props.C1.C40_terminates_debug",
    "Gtp.Props.C1.C40_no_panic_partial",
    "Gtp.Props.C1.C40_spins",
    "Gtp.Props.C1.C40_release_iff",
    "Gtp.Props.C1.C40_violation"
   ],
   "note": "Exact set of buffers on which a debug build panics, and on which a release build panics or never ends; witnesses."
  },
  {
   "property": "C41",
   "status": "partial",
   "theorems": [
    "Gtp.Props.C1.C41_header_len_partial",
    "Gtp.Props.C1.C41_exact",
    "Gtp.Props.C1.C41_violation"
   ],
   "note": "For extension headers that fit the wire format (witness); C41_exact gives the necessary and sufficient condition for arbitrary fields, in debug and release builds."
  },
  {
   "property": "C42",
   "status": "proved",
   "theorems": [
    "Gtp.Props.C1.C42_ext_header",
    "Gtp.Props.C1.C42_chain_roundtrip",
    "Gtp.Props.C1.C42_exact"
   ],
   "note": ""
  },
  {
   "property": "C43",
   "status": "partial",
   "theorems": [
    "Gtp.Props.C1.C43_no_panic_partial",
    "Gtp.Props.C1.C43_panics_iff",
    "Gtp.Props.C1.C43_violation"
   ],
   "note": "35 kinds never panic; exact panic condition for the other 14."
  },
  {
   "property": "C44",
   "status": "partial",
   "theorems": [
    "Gtp.Props.C1.C44_length_field",
    "Gtp.Props.C1.C44_len_partial",
    "Gtp.Props.C1.C44_violation"
   ],
   "note": "len() of ApnRestriction is 2 instead of 4."
  },
  {
   "property": "C45",
   "status": "proved",
   "theorems": [
    "Gtp.Props.C1.C45_injective",
    "Gtp.Props.C1.C45_type_octet"
   ],
   "note": ""
  },
  {
   "property": "C46",
   "status": "partial",
   "theorems": [
    "Gtp.Props.C1.C46_inside_partial",
    "Gtp.Props.C1.C46_violation"
   ],
   "note": "Six one-octet kinds account for the declared length without comparing it with the buffer."
  },
  {
   "property": "C47",
   "status": "partial",
   "theorems": [
    "Gtp.Props.C1.C47_accepted_iff",
    "Gtp.Props.C1.C47_elements_unique",
    "Gtp.Props.C1.C47_violation"
   ],
   "note": "Debug builds: every buffer. Release builds: up to 263 octets; beyond, 256 elements of a type wrap the counter (witness)."
  },
  {
   "property": "C48",
   "status": "partial",
   "theorems": [
    "Gtp.Props.C1.C48_mandatory_partial",
    "Gtp.Props.C1.C48_missing",
    "Gtp.Props.C1.C48_violation"
   ],
   "note": "Every mandatory type is checked, but only for one element where two are required (witness)."
  },
  {
   "property": "C49",
   "status": "proved",
   "theorems": [
    "Gtp.Props.C1.C49_ordered",
    "Gtp.Props.C1.C49_rejected"
   ],
   "note": "C49_ordered for every buffer; the error is given behind well-formed elements."
  },
  {
   "property": "C50",
   "status": "partial",
   "theorems": [
    "Gtp.Props.C1.C50_truncated_partial",
    "Gtp.Props.C1.C50_length_error",
    "Gtp.Props.C1.C50_violation",
    "Gtp.Props.C1.C50_simple_partial",
    "Gtp.Props.C1.C50_simple_violation"
   ],
   "note": "Release builds wrap lengths from 65528; three of the four simple messages check less (witnesses)."
  },
  {
   "property": "C51",
   "status": "partial",
   "theorems": [
    "Gtp.Props.C1.C51_length_ignored",
    "Gtp.Props.C1.C51_violation"
   ],
   "note": "Violated: the decoders read to the end of the buffer and use the length only for one comparison; this is what is proved."
  },
  {
   "property": "C52",
   "status": "partial",
   "theorems": [
    "Gtp.Props.C1.C52_panics_iff",
    "Gtp.Props.C1.C52_panic_sources_partial",
    "Gtp.Props.C1.C52_violation",
    "Gtp.Props.C1.C52_violation_unwrap",
    "Gtp.Props.C1.C52_simple_violation",
    "Gtp.Props.C1.C52_version_not_supported"
   ],
   "note": "Exact panic condition for both builds (C52_panics_iff); every message type with a loop has a witness."
  },
  {
   "property": "C53",
   "status": "partial",
   "theorems": [
    "Gtp.Props.C1.C53_terminates_partial",
    "Gtp.Props.C1.C53_diverges_iff",
    "Gtp.Props.C1.C53_simple",
    "Gtp.Props.C1.C53_spins"
   ],
   "note": "Debug builds: every buffer. Release builds: exactly the buffers on which the decoder never ends (C53_diverges_iff), with a witness for every message type with a loop."
  },
  {
   "property": "C54",
   "status": "proved",
   "theorems": [
    "Gtp.Props.C1.C54_type_checked",
    "Gtp.Props.C1.C54_codes"
   ],
   "note": ""
  },
  {
   "property": "C55",
   "status": "partial",
   "theorems": [
    "Gtp.Props.C1.C55_length_field",
    "Gtp.Props.C1.C55_octets",
    "Gtp.Props.C1.C55_violation"
   ],
   "note": "For an empty buffer; a non-empty one is corrupted (proved for every type)."
  },
  {
   "property": "C56",
   "status": "proved",
   "theorems": [
    "Gtp.Props.C1.C56_injective"
   ],
   "note": "For messages that round trip (C36_roundtrip_iff)."
  },
  {
   "property": "C57",
   "status": "proved",
   "theorems": [
    "Gtp.Props.C57_u_ext",
    "Gtp.Props.C57_u_header",
    "Gtp.Props.C57_c_ext",
    "Gtp.Props.C57_c_header",
    "Gtp.Props.C57_v2_header"
   ],
   "note": "Every value, no hypotheses."
  },
  {
   "property": "C58",
   "status": "partial",
   "theorems": [
    "Gtp.Props.C58_v2_defaults_partial",
    "Gtp.Props.C58_v2_violation",
    "Gtp.Props.C58_v2_messages",
    "Gtp.Props.C58_v2_message_defaults",
    "Gtp.Props.C1.C58_c1_defaults",
    "Gtp.Props.C1.C58_c1_message_defaults"
   ],
   "note": "Every kind and message type; the exact tables of those whose decoder rejects their own default (20 and 21 in GTPv2-C, 9 and 5 in GTPv1-C)."
  },
  {
   "property": "C59",
   "status": "partial",
   "theorems": [
    "Gtp.Props.C59_error_names_partial",
    "Gtp.Props.C59_error_kinds",
    "Gtp.Props.C59_violation",
    "Gtp.Props.C59_error_names_false"
   ],
   "note": "Types 86, 115, 169 and those without a decoder of their own may be reported as 0, 83, 168 and 0 (witnesses); exact for all others."
  },
  {
   "property": "C60",
   "status": "proved",
   "theorems": [
    "Gtp.Props.C60_setLength",
    "Gtp.Props.C60_encoding_ignores_length",
    "Gtp.Props.C60_length_octets",
    "Gtp.Props.C60_round_trip"
   ],
   "note": "Every IE; the round trip for every IE that is well-formed once the length is set."
  },
  {
   "property": "C61",
   "status": "partial",
   "theorems": [
    "Gtp.Props.C61_partial",
    "Gtp.Props.C61_one_partial",
    "Gtp.Props.C61_exact_partial",
    "Gtp.Props.C61_stable_partial",
    "Gtp.Props.C61_lengths",
    "Gtp.Props.C61_violation",
    "Gtp.Props.C61_violation_ldn"
   ],
   "note": "Every buffer whose IEs are Good: 116 kinds without condition, 19 kinds with one (MM contexts among them: the optional octet strings that the decoder mishandles when absent must be present), the grouped IEs with their members; trace references and TWAN identifiers are never Good, since they are written with a type octet of another IE. Witnesses show that it fails for 18 kinds otherwise."
  },
  {
   "property": "C62",
   "status": "partial",
   "theorems": [
    "Gtp.Props.C62_relay_partial",
    "Gtp.Props.C62_violation_teid",
    "Gtp.Props.C62_violation_imsi"
   ],
   "note": "Every message type and every byte string that it is decoded from, if the IEs in its fields are Good (C61) and the header has a TEID exactly if the message type has one. Witnesses show that both conditions are needed."
  },
  {
   "property": "C63",
   "status": "proved",
   "theorems": [
    "Gtp.Props.C1.C63_setLength",
    "Gtp.Props.C1.C63_encoding_ignores_length",
    "Gtp.Props.C1.C63_round_trip"
   ],
   "note": "Every kind; the round trip for every element that is well-formed once the length is set."
  },
  {
   "property": "C64",
   "status": "partial",
   "theorems": [
    "Gtp.Props.C1.C64_resend_partial",
    "Gtp.Props.C1.C64_type_partial",
    "Gtp.Props.C1.C64_stable_partial",
    "Gtp.Props.C1.C64_violation"
   ],
   "note": "Every kind and every byte string; 43 kinds without condition, six kinds for the values that are Faithful. Witnesses show that it fails for values of these six kinds."
  },
  {
   "property": "C65",
   "status": "partial",
   "theorems": [
    "Gtp.Props.C1.C65_normed",
    "Gtp.Props.C1.C65_relay_iff",
    "Gtp.Props.C1.C65_rejected",
    "Gtp.Props.C1.C65_relay_partial",
    "Gtp.Props.C1.C65_violation"
   ],
   "note": "Every message type and byte string whose elements are Faithful (C64) and whose extension headers are well-formed: exactly the messages that are written in ascending order without APN restriction arrive. Witnesses show that a Create PDP Context Response, and a message with a longer extension header, are rejected by the next node."
  },
  {
   "property": "C66",
   "status": "partial",
   "theorems": [
    "Gtp.Props.C66_v2_content",
    "Gtp.Props.C66_v2_length_partial",
    "Gtp.Props.C66_v2_length_violation",
    "Gtp.Props.C66_v2_decoded_partial",
    "Gtp.Props.C1.C66_c1_content",
    "Gtp.Props.C1.C66_c1_fields_partial",
    "Gtp.Props.C1.C66_c1_decoded_partial",
    "Gtp.Props.C1.C66_c1_violation"
   ],
   "note": "Every kind; the tables list the contents that are not 0, the defaults with a wrong length field (46 of GTPv2-C, three of GTPv1-C), and the kinds whose default is not decoded to itself."
  },
  {
   "property": "C67",
   "status": "partial",
   "theorems": [
    "Gtp.Props.C67_c_chain",
    "Gtp.Props.C67_c_complete",
    "Gtp.Props.C67_c_sound",
    "Gtp.Props.C67_c_header",
    "Gtp.Props.C67_u_chain",
    "Gtp.Props.C67_u_complete_partial",
    "Gtp.Props.C67_u_sound_partial",
    "Gtp.Props.C67_u_header_partial",
    "Gtp.Props.C67_u_flags",
    "Gtp.Props.C67_u_violation",
    "Gtp.Props.C67_u_overlap",
    "Gtp.Props.C67_release_violation"
   ],
   "note": "Both protocols, every byte string, as an equivalence in debug builds (from buffer to value also in release builds). Missing for GTPv1-U headers with E or PN but without S: they are decoded as if all three flags were set; and in release builds for length octets above 63. Witnesses for both."
  },
  {
   "property": "C68",
   "status": "proved",
   "theorems": [
    "Gtp.Props.C68_v2_header",
    "Gtp.Props.C68_u_header",
    "Gtp.Props.C68_c_header",
    "Gtp.Props.C68_v2_message",
    "Gtp.Props.C68_v2_accepted",
    "Gtp.Props.C68_u_message",
    "Gtp.Props.C68_u_accepted",
    "Gtp.Props.C68_c_message",
    "Gtp.Props.C68_c_accepted",
    "Gtp.Props.C68_disjoint",
    "Gtp.Props.C68_v2_written",
    "Gtp.Props.C68_u_written",
    "Gtp.Props.C68_c_written",
    "Gtp.Props.C68_c_simple_written"
   ],
   "note": "All headers as an equivalence, all message types."
  },
  {
   "property": "C69",
   "status": "partial",
   "theorems": [
    "Gtp.Props.C69_decoded_header",
    "Gtp.Props.C69_header",
    "Gtp.Props.C69_gpdu",
    "Gtp.Props.C69_echo_request_partial",
    "Gtp.Props.C69_end_marker_partial",
    "Gtp.Props.C69_echo_response_partial",
    "Gtp.Props.C69_supported_ext_partial",
    "Gtp.Props.C69_error_indication_partial",
    "Gtp.Props.C69_violation"
   ],
   "note": "For extension headers as long as their types say (witness for the others), and for lengths that the length fields can hold; Echo Request and End Marker without any optional part are rejected (witness)."
  },
  {
   "property": "C70",
   "status": "partial",
   "theorems": [
    "Gtp.Props.C70_instance",
    "Gtp.Props.C70_ignored_partial",
    "Gtp.Props.C70_monitoring",
    "Gtp.Props.C70_accepted",
    "Gtp.Props.C70_violation",
    "Gtp.Props.C70_violation_message"
   ],
   "note": "Changing the octet changes the instance of the decoded IE and nothing else, for every type (Monitoring Event Information keeps flags in the upper half). The spare half is ignored except for the types of wholeOctet: the grouped IEs, nine others and the unknown ones. There it becomes part of the instance, so that a mandatory IE is reported missing."
  },
  {
   "property": "C71",
   "status": "partial",
   "theorems": [
    "Gtp.Props.C71_element_partial",
    "Gtp.Props.C71_sequence_partial",
    "Gtp.Props.C71_violation",
    "Gtp.Props.C71_violation_decoder",
    "Gtp.Props.C71_violation_silent"
   ],
   "note": "Proved for every type except the eleven of openTypes (MM contexts, Target and Source Identification, MDT Configuration, both Presence Reporting Area IEs); each of those variants has a witness. A Target Identification followed by a Recovery is rejected, an MDT Configuration silently takes the type octet of the next IE."
  },
  {
   "property": "C72",
   "status": "partial",
   "theorems": [
    "Gtp.Props.C72_own_partial",
    "Gtp.Props.C72_violation",
    "Gtp.Props.C72_violation_decoder"
   ],
   "note": "Exact for every one of the 256 types: for the types of selfContained the octets behind the declared end have no influence; for every other type there is an IE that is accepted only because of them. Most decoders of fixed-size IEs read their fields without comparing the length field with them."
  },
  {
   "property": "C73",
   "status": "partial",
   "theorems": [
    "Gtp.Props.C1.C73_own_partial",
    "Gtp.Props.C1.C73_append_partial",
    "Gtp.Props.C1.C73_violation",
    "Gtp.Props.C1.C73_violation_rest",
    "Gtp.Props.C1.C73_violation_list"
   ],
   "note": "Exact for each of the 49 kinds: 23 are decoded from their own octets only; of 25 there is an element that is accepted only because of the octets behind it. Private Extension and Extension Header Type List take everything behind them as their value, for every buffer."
  },
  {
   "property": "C74",
   "status": "partial",
   "theorems": [
    "Gtp.Props.C74_octets_partial",
    "Gtp.Props.C74_octets",
    "Gtp.Props.C74_deviates",
    "Gtp.Props.C74_violation",
    "Gtp.Props.Grouped.C74_grouped_partial",
    "Gtp.Props.MmFigure.C74_mm_partial"
   ],
   "note": "Exact: an IE is written as its figure if and only if it is none of these: a time zone other than 0, +53 and -8 quarters (binary instead of swapped decimal digits), a Trace Reference (type 83 instead of 115), an F-TEID without address (both address flags set), a transaction identifier from 7 on, a home eNodeB identity (three octets instead of four), a ULI whose type field is not 86. Grouped IEs: as header and members, at any depth, but for the four fields of C95. MM contexts with a GSM or UMTS key (types 103 to 106) as their figures. No figure for the types 107 and 108, and six kinds whose coding another specification gives."
  },
  {
   "property": "C75",
   "status": "partial",
   "theorems": [
    "Gtp.Props.C1.C75_octets_partial",
    "Gtp.Props.C1.C75_violation"
   ],
   "note": "Exact: an IE is written as its figure if and only if the stored type is the one of the figure (all encoders but that of Recovery write the stored type) and it is neither an IMSI below 15 digits (no filler octets) nor a time zone other than 0, +53 and -8 quarters (binary instead of swapped decimal digits). No figure for Charging Characteristics, whose coding another specification gives."
  },
  {
   "property": "C76",
   "status": "partial",
   "theorems": [
    "Gtp.Props.C76_ignored_partial",
    "Gtp.Props.C76_sequence_partial",
    "Gtp.Props.C76_violation",
    "Gtp.Props.C76_violation_rejected"
   ],
   "note": "Proved for 31 of the 43 types; for the other 12 (PAA, PDN Type, F-Container, UCI, CSG ID, CMI, ARP, SPI, HeNB Information Reporting, CN Operator Selection Entity, Paging and Service Information, UP Function Selection Indication Flags) there is an accepted IE that changes or is rejected with spare bits set. Left out: bits that are spare only for some values of other fields (Flow QoS and Bearer TFT contents, MDT, RAN/NAS Cause, the offending IE of a Cause)."
  },
  {
   "property": "C77",
   "status": "partial",
   "theorems": [
    "Gtp.Props.C1.C77_ignored_partial",
    "Gtp.Props.C1.C77_violation",
    "Gtp.Props.C1.C77_violation_message"
   ],
   "note": "Proved for 9 of the 14 kinds; of the other 5 (Teardown Ind, UCI, SPI, CN Operator Selection Entity, UP Function Selection Indication Flags) there is an accepted IE that changes or is rejected with other spare bits. A Delete PDP Context Request whose Teardown Ind has zero spare bits is rejected."
  },
  {
   "property": "C78",
   "status": "proved",
   "theorems": [
    "Gtp.Props.C78_octets",
    "Gtp.Props.C78_violation"
   ],
   "note": "Exact: with wrong type fields the octets differ (C78_violation is a concrete one)."
  },
  {
   "property": "C79",
   "status": "partial",
   "theorems": [
    "Gtp.Props.C79_accepted_iff_partial",
    "Gtp.Props.C79_sequence",
    "Gtp.Props.C79_version_not_supported",
    "Gtp.Props.C79_identification",
    "Gtp.Props.C79_violation"
   ],
   "note": "81 of the 83 message types exactly; the exact condition of the other two, which accept more, is in C79_version_not_supported and C79_identification."
  },
  {
   "property": "C80",
   "status": "partial",
   "theorems": [
    "Gtp.Props.C80_gpdu",
    "Gtp.Props.C80_echo_request",
    "Gtp.Props.C80_end_marker",
    "Gtp.Props.C80_echo_response",
    "Gtp.Props.C80_supported_ext",
    "Gtp.Props.C80_error_indication",
    "Gtp.Props.C80_private",
    "Gtp.Props.C80_item",
    "Gtp.Props.C80_gpdu_release",
    "Gtp.Props.C80_echo_request_release",
    "Gtp.Props.C80_end_marker_release",
    "Gtp.Props.C80_echo_response_release",
    "Gtp.Props.C80_supported_ext_release",
    "Gtp.Props.C80_error_indication_release",
    "Gtp.Props.C80_private_release",
    "Gtp.Props.C80_item_release",
    "Gtp.Props.C80_violation",
    "Gtp.Props.C80_violation_release"
   ],
   "note": "Exact condition on the octets for each of the six types in debug and in release builds. The conditions of Echo Request, End Marker and Echo Response ask for fewer octets than announced, and those of the notification and the Error Indication use the octets behind the announced end (witnesses)."
  },
  {
   "property": "C81",
   "status": "partial",
   "theorems": [
    "Gtp.Props.C81_exact",
    "Gtp.Props.C81_bound_partial",
    "Gtp.Props.C81_violation",
    "Gtp.Props.C81_violation_message"
   ],
   "note": "The code violates it: the sender decides how deep the calls nest, up to 16382 for one message (witnesses for every depth, also in an Echo Request). The exact condition under which a given amount of stack is not enough, and that a quarter of the length of the buffer always is."
  },
  {
   "property": "C82",
   "status": "proved",
   "theorems": [
    "Gtp.Props.C82_debug",
    "Gtp.Props.C82_linear",
    "Gtp.Props.C82_finite",
    "Gtp.Props.C82_unique"
   ],
   "note": "A quarter of the length in debug builds; in release builds, where lengths wrap, at most one call per octet whenever decoding ends."
  },
  {
   "property": "C83",
   "status": "proved",
   "theorems": [
    "Gtp.Props.C1.C83_private",
    "Gtp.Props.C1.C83_echo_request_accept",
    "Gtp.Props.C1.C83_echo_request_panic",
    "Gtp.Props.C1.C83_echo_response_accept",
    "Gtp.Props.C1.C83_echo_response_panic",
    "Gtp.Props.C1.C83_version_accept",
    "Gtp.Props.C1.C83_version_panic",
    "Gtp.Props.C1.C83_extension_headers_accept",
    "Gtp.Props.C1.C83_extension_headers_panic"
   ],
   "note": "Relative to the decoder of the header, which is the subject of C41. The exact conditions show the deviations: a private extension is read whatever its type octet is and reaches to the end of the buffer; an Echo Request of ten octets with a sequence number is a panic."
  },
  {
   "property": "C84",
   "status": "partial",
   "theorems": [
    "Gtp.Props.C84_code_partial",
    "Gtp.Props.C84_violation",
    "Gtp.Props.C84_violation_receipt",
    "Gtp.Props.C84_distinct"
   ],
   "note": "Holds for 80 of the 83 message types and for no other: Downlink Data Notification has the code of PGW Restart Notification, PGW Restart Notification that of its acknowledgement, Stop Paging Indication that of Resume Notification, and with the right code they are refused."
  },
  {
   "property": "C85",
   "status": "partial",
   "theorems": [
    "Gtp.Props.C85_mandatory_partial",
    "Gtp.Props.C85_violation_relay",
    "Gtp.Props.C85_violation_trace",
    "Gtp.Props.C85_violation_isr",
    "Gtp.Props.C85_violation_identification"
   ],
   "note": "Holds for 79 message types. For the four others the exact condition of acceptance is proved and is another one than that of the standard."
  },
  {
   "property": "C86",
   "status": "partial",
   "theorems": [
    "Gtp.Props.C86_kept_partial",
    "Gtp.Props.C86_violation_nowhere",
    "Gtp.Props.C86_violation_one",
    "Gtp.Props.C86_violation_delete"
   ],
   "note": "Holds for all rows of MsgSpec.lean but 27. For 14 of these it is proved that the IE is never in the result, for 12 that at most one of several is. The tables of the specification are written from memory; a row that is missing there is a row about which nothing is claimed."
  },
  {
   "property": "C87",
   "status": "partial",
   "theorems": [
    "Gtp.Props.C1.C87_code",
    "Gtp.Props.C1.C87_elements",
    "Gtp.Props.C1.C87_kept",
    "Gtp.Props.C1.C87_order",
    "Gtp.Props.C1.C87_accepted_partial"
   ],
   "note": "The last part is partial: it excludes APN Restriction, whose decoder is broken (C36), and elements behind a private extension, which takes all octets up to the end of the buffer."
  },
  {
   "property": "C88",
   "status": "partial",
   "theorems": [
    "Gtp.Props.C88_iterates_partial",
    "Gtp.Props.C88_repeats",
    "Gtp.Props.C88_ends_iff",
    "Gtp.Props.C88_violation"
   ],
   "note": "False for every message with at least one IE: `next` builds the list of IEs anew, so the last IE comes again and again and the loop never ends. Holds exactly for messages without IEs."
  },
  {
   "property": "C89",
   "status": "partial",
   "theorems": [
    "Gtp.Props.C89_type",
    "Gtp.Props.C89_type_partial",
    "Gtp.Props.C89_empty",
    "Gtp.Props.C89_violation"
   ],
   "note": "The type is wrong for Trace Reference (83), TWAN Identifier (168) and the types without a decoder (0), and right for all others. `is_empty` also holds for an IE with the extended type 0."
  },
  {
   "property": "C90",
   "status": "partial",
   "theorems": [
    "Gtp.Props.C90_understood_partial",
    "Gtp.Props.C90_zone",
    "Gtp.Props.C90_fteid",
    "Gtp.Props.C90_transaction",
    "Gtp.Props.C90_trace",
    "Gtp.Props.C90_violation",
    "Gtp.Props.Grouped.C90_grouped",
    "Gtp.Props.Grouped.C90_grouped_partial",
    "Gtp.Props.MmFigure.C90_mm_partial",
    "Gtp.Props.C90_mm_understood_partial",
    "Gtp.Props.MmFigure.C90_mm_violation"
   ],
   "note": "False: home eNodeB identities, time zones other than three, transaction identifiers from 7 on are read as something else, F-TEIDs without address and some presence reporting areas are rejected. Where the encoder agrees with the figure: exactly the values of `IE.WF`. Grouped IEs from whatever their members are read from, in any order, as far as C94 lets them in. MM contexts of the types 103 to 106: exactly the values of `IE.WF` are understood; one without IOV counter (UMTS key) or without equipment identity is rejected. Missing: kinds without a figure in the model (types 107 and 108)."
  },
  {
   "property": "C91",
   "status": "partial",
   "theorems": [
    "Gtp.Props.C1.C91_understood_partial",
    "Gtp.Props.C1.C91_last_partial",
    "Gtp.Props.C1.C91_imsi",
    "Gtp.Props.C1.C91_zone",
    "Gtp.Props.C1.C91_msisdn",
    "Gtp.Props.C1.C91_violation"
   ],
   "note": "False: subscriber numbers of at most 14 digits panic at the end of the buffer, and swallow what follows otherwise; time zones other than three are read as something else. Where the encoder agrees with the figure: exactly the values of `WF`. IMSIs of all lengths are understood. Missing: the two kinds that swallow what follows (at the end of the buffer: the list of extension header types)."
  },
  {
   "property": "C92",
   "status": "partial",
   "theorems": [
    "Gtp.Props.C1.C92_length",
    "Gtp.Props.C1.C92_value",
    "Gtp.Props.C1.C92_list",
    "Gtp.Props.C1.C92_variable",
    "Gtp.Props.C1.C92_violation",
    "Gtp.Props.C92_ext",
    "Gtp.Props.C92_private",
    "Gtp.Props.C92_u_violation"
   ],
   "note": "False: elements of fixed size are read in spite of a length of 0 and called empty then; an IMSI of the digit 0, and GTPv1-U elements and extension headers of value 0, are called empty. For the other GTPv1-C elements empty means a length of 0; for extension headers the exact condition."
  },
  {
   "property": "C93",
   "status": "proved",
   "theorems": [
    "Gtp.Props.C93_v1",
    "Gtp.Props.C93_v2",
    "Gtp.Props.C93_type"
   ],
   "note": "All errors of both protocols."
  },
  {
   "property": "C94",
   "status": "partial",
   "theorems": [
    "Gtp.Props.Grouped.C94_accepted",
    "Gtp.Props.Grouped.C94_kept_partial",
    "Gtp.Props.Grouped.C94_source_partial",
    "Gtp.Props.Grouped.C94_violation_standIn",
    "Gtp.Props.Grouped.C94_violation_lost",
    "Gtp.Props.Grouped.C94_violation_one",
    "Gtp.Props.Grouped.C94_violation",
    "Gtp.Props.Grouped.C94_violation_instance"
   ],
   "note": "Violated: no mandatory member is asked for (except one PC5 QoS flow), a default takes its place; load and overload control and the presence reporting areas of a PDN connection keep one entry of several; a packet flow id in a bearer context, PGW change info and UP security policy in a PDN connection are dropped; seven fields ignore the instance. Exact acceptance is C94_accepted; everything else is kept (C94_kept_partial), and nothing but the members and the named defaults is in the value (C94_source_partial)."
  },
  {
   "property": "C95",
   "status": "partial",
   "theorems": [
    "Gtp.Props.Grouped.C95_partial",
    "Gtp.Props.Grouped.C95_violation",
    "Gtp.Props.Grouped.C95_violation_relay"
   ],
   "note": "Violated by two kinds: BSS container and transaction identifier of a bearer context, PGW change info and UP security policy of a PDN connection are never written. Everything else is, for all values."
  },
  {
   "property": "C96",
   "status": "partial",
   "theorems": [
    "Gtp.Props.Peer.C96_partial"
   ],
   "note": "Missing: what other entries prove to be wrong (three wrong type codes, C84; four message types with other conditions, C85; 27 rows, C86; members of grouped IEs, C94; IEs that are read differently, C90), Version Not Supported Indication, and IEs without a figure in the model (MM contexts)."
  },
  {
   "property": "C97",
   "status": "partial",
   "theorems": [
    "Gtp.Props.C1.C97_partial",
    "Gtp.Props.C1.C97_violation"
   ],
   "note": "Missing: APN Restriction (such a message is rejected, C97_violation), a private extension in front of something else, and time zones (C91_zone)."
  },
  {
   "property": "C98",
   "status": "partial",
   "theorems": [
    "Gtp.Props.Unused.C98_v2_teid",
    "Gtp.Props.Unused.C98_v2_plain",
    "Gtp.Props.Unused.C98_c_spare",
    "Gtp.Props.Unused.C98_c_unused",
    "Gtp.Props.Unused.C98_u_spare",
    "Gtp.Props.Unused.C98_u_unused_partial",
    "Gtp.Props.Unused.C98_u_evaluated",
    "Gtp.Props.Unused.C98_u_violation"
   ],
   "note": "Holds for GTPv2-C and GTPv1-C, and for GTPv1-U headers with a sequence number. Violated for GTPv1-U headers with E or PN but without S: the unused octets become the sequence and the N-PDU number, and octets of the T-PDU may be taken for an extension header."
  },
  {
   "property": "C99",
   "status": "partial",
   "theorems": [
    "Gtp.Props.UPeer.C99_partial",
    "Gtp.Props.UPeer.C99_exact",
    "Gtp.Props.UPeer.C99_violation"
   ],
   "note": "C99_exact is an equivalence for debug builds: understood are exactly the messages with a sequence number or no optional field, a length field that is not 0 (and below 65528 in three messages), extension headers of at most 63 units, no spare bits set in front of a long PDCP PDU number, and 1 to 253 types in a notification. The direction that matters holds in release builds too."
  },
  {
   "property": "C100",
   "status": "partial",
   "theorems": [
    "Gtp.Props.EmptyPart.C100_partial",
    "Gtp.Props.EmptyPart.C100_exact",
    "Gtp.Props.EmptyPart.C100_violation"
   ],
   "note": "An equivalence for each of the 25 parts; for 15 of them it is the claim. The others are violations with their exact condition: the flag of an extended macro identifier, the length of a gNodeB identifier and the NCC of an old security context are forgotten, an extension counts even if it is zero, an unknown target is empty."
  }
 ]
}
