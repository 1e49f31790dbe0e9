"""Writes MANIFEST.json.  Edit CLAIMS below; property theorems live in lean/Verif/Props."""
import json, os

P = "Gtp.Props."
CLAIMS = [
    ("C01", "proved", ["C01_header_roundtrip", "C01_exact"], "The condition on the header is necessary and sufficient."),
    ("C02", "proved", ["C02_header_total_precise", "C02_header_no_panic"], ""),
    ("C03", "proved", ["C03_header_reencode"], ""),
    ("C04", "proved", ["C04_tbcd_roundtrip", "C04_tbcd_layout", "C04_tbcd_length"], ""),
    ("C05", "proved", ["C05_plmn_roundtrip", "C05_plmn_layout"],
     "The repository's own unit vectors for 310/012 ([0x13,0x00,0x21]) disagree with the code and with TS 24.008."),
    ("C06", "partial", ["C06_ie_roundtrip_partial", "C06_exact_partial", "C06_mm_exact_partial", "C06_eps_exact_partial", "C06_eps_bare", "C06_eps_blank", "C06_violation"],
     "Proved for all 146 IE types and all values meeting the type's well-formedness condition. The code loses some legal values (violation theorem; DESIGN.md). For IEs that are neither grouped nor MM contexts the well-formedness is also necessary (C06_exact_partial), and so it is for five of the six MM contexts (C06_mm_exact_partial). EPS security contexts survive outside it as well: exactly which, if both capabilities and the equipment identity are present (C06_eps_exact_partial). Missing: the converse for grouped IEs and for EPS contexts without one of the three strings."),
    ("C07", "proved", ["C07_ie_length_field"], ""),
    ("C08", "partial", ["C08_ie_no_panic_partial", "C08_decoder_no_panic_partial", "C08_violation_kinds", "C08_violation_length",
      "C08_ie_panic_iff", "C08_group_panic_iff", "C08_never_iff", "C08_panic_iff",
      "C08_ie_release_panic_iff", "C08_group_release_panic_iff", "C08_release_panic_iff"],
     "The code panics for some kinds and for declared lengths >= 65532; both are proved with witnesses, every kind that is not robust has one. For debug and for release builds the exact condition on the octets, per kind and for sequences."),
    ("C09", "proved", ["C09_sequence_roundtrip", "C09_sequence_append"], "For well-formed IEs, the sense of C06 without TraceReference and TwanId."),
    ("C10", "partial", ["C10_terminates_debug", "C10_terminates_release_partial", "C10_progress", "C10_violation",
      "C10_ie_moves_debug", "C10_ie_stands_still_iff", "C10_stands_still_kinds", "C10_stands_still_kinds_iff", "C10_diverges_iff"],
     "Debug builds: every buffer. Release builds: an overflowing declared length makes the decoder loop forever (witness); the exact set of buffers on which it does."),
    ("C11", "partial", ["C11_declared_length_partial", "C11_fixed", "C11_kinds", "C11_violation", "C11_types_partial", "C11_violation_types", "C11_violation_release"],
     "Exact for each of the 256 types: it holds for the types outside ownPace, and each of the 78 types of ownPace has a witness; release builds wrap lengths from 65532 (witness)."),
    ("C12", "partial", ["C12_dispatch_partial", "C12_violation"], "TraceReference and TwanId are not dispatched back (witness)."),
    ("C13", "partial", ["C13_unknown_partial", "C13_violation"], "An unknown IE without value is fatal; the type is lost (witness)."),
    ("C14", "partial", ["C14_message_roundtrip_partial", "C14_message_roundtrip_exact_partial", "C14_violation"],
     "All 83 message types, all values of well-formed IEs. Values that single IEs lose (C06) are excluded; a Modify Bearer Command loses all but the first bearer context (witness)."),
    ("C15", "proved", ["C15_message_length"], ""),
    ("C16", "partial", ["C16_missing_reported_partial", "C16_missing_rejected_partial", "C16_present_accepted", "C16_table", "C16_violation"],
     "Proved for 78 of 83 types; one type does not check, four name a wrong type in some cases (witnesses)."),
    ("C17", "proved", ["C17_wrong_type", "C17_accepts_own_type"], ""),
    ("C18", "partial", ["C18_truncated_partial", "C18_complete_partial", "C18_violation"], "All but Version Not Supported Indication (witness)."),
    ("C19", "proved", ["C19_trailing_octets", "C19_piggyback_partial"], ""),
    ("C20", "partial", ["C20_first_wins_partial", "C20_violation_types", "C20_violation_last", "C20_violation"],
     "13 message types keep the last IE for one of their fields (table and witness)."),
    ("C21", "proved", ["C21_order", "C21_octets"], "All 83 message types; the same message or the same error."),
    ("C22", "partial", ["C22_panic_iff_partial", "C22_panic_iff", "C22_no_panic_partial", "C22_terminates_debug", "C22_violation", "C22_violation_count",
      "C22_release_panic_iff", "C22_diverges_iff"],
     "Exact conditions for a panic (both builds) and for never ending (release); 80 message types panic on a header without TEID (proved for each)."),
    ("C23", "partial", ["C23_message_append_partial", "C23_violation"],
     "Messages overwrite octets 3 and 4 of a non-empty buffer (witness). For IEs appending is how the model reads buffer.append(&mut buffer_ie)."),
    ("C24", "partial", ["C24_grouped_partial", "C24_violation"], "Some members are dropped by the encoder (witness)."),
    ("C25", "partial", ["C25_header_roundtrip_partial", "C25_header_fields", "C25_violation_iff", "C25_violation", "C25_exact", "C25_unaccounted"], "Headers with N-PDU number or extension headers but no sequence number come back with one; exact characterisation."),
    ("C26", "partial", ["C26_panic_iff_partial", "C26_terminates_debug", "C26_no_panic_partial", "C26_spins", "C26_release_iff", "C26_violation"], "Exact set of buffers on which a debug build panics, and on which a release build panics or never ends; witnesses."),
    ("C27", "partial", ["C27_header_size_partial", "C27_exact", "C27_violation"], "For extension headers that fit the wire format; C27_exact gives the necessary and sufficient condition for arbitrary fields, in debug and release builds."),
    ("C28", "proved", ["C28_ext_header", "C28_chain_roundtrip", "C28_exact"], "Includes unknown types and the end of the chain."),
    ("C29", "partial", ["C29_gpdu_payload_partial", "C29_gpdu_roundtrip", "C29_violation", "C30_exact_gpdu"], "Lengths 1..65527; 0 is rejected and 65528..65535 panics (both proved)."),
    ("C30", "partial", ["C30_echo_request_partial", "C30_end_marker_partial", "C30_echo_response_partial", "C30_supported_ext_partial", "C30_error_indication_partial", "C30_violation", "C30_exact_echo_request", "C30_exact_end_marker", "C30_exact_echo_response", "C30_exact_supported_ext", "C30_exact_error_indication_partial"], "Messages whose announced length would be 0, and some type lists, are excluded (witnesses). In debug builds exactly the messages that survive, for extension headers accounted with their octets (Error Indications below 65536 octets)."),
    ("C31", "proved", ["C31_length_field", "C31_nonempty_buffer"], "For an empty output buffer; C31_nonempty_buffer shows the corruption of a non-empty one."),
    ("C32", "partial", ["C32_gpdu_panic_iff_partial", "C32_echo_request_panic_iff_partial", "C32_end_marker_panic_iff_partial", "C32_echo_response_panic_iff_partial", "C32_supported_ext_panic_iff_partial", "C32_error_indication_panic_iff_partial", "C32_error_indication_calm_partial", "C32_terminates_debug", "C32_spins", "C32_gpdu_release_iff", "C32_echo_request_release_iff", "C32_end_marker_release_iff", "C32_echo_response_release_iff", "C32_supported_ext_release_iff", "C32_error_indication_release_iff", "C32_violation"], "For all six types the exact condition for a panic in a debug build, and for a panic and for an endless loop in a release build; witnesses."),
    ("C33", "partial", ["C33_truncated_partial", "C33_violation"], "Echo Request, End Marker and Echo Response accept truncated buffers (witness)."),
    ("C34", "proved", ["C1.C34_header_roundtrip", "C1.C34_wire_format", "C1.C34_injective", "C1.C34_exact"], "Any combination of optional fields."),
    ("C35", "partial", ["C1.C35_ie_roundtrip_partial", "C1.C35_ie_roundtrip_last", "C1.C35_exact_partial", "C1.C35_exact_last_partial", "C1.C35_exact_list", "C1.C35_violation_swallows", "C1.C35_violation_msisdn"], "All 49 kinds; two kinds swallow what follows, an MSISDN of at most 14 digits is never decoded back (proved). The well-formedness conditions are also necessary: exactly the well-formed values survive (for lists of extension header types another condition, also exact)."),
    ("C36", "partial", ["C1.C36_roundtrip_iff", "C1.C36_message_roundtrip_partial", "C1.C36_exact", "C1.C36_rejected", "C1.C36_violation_order", "C1.C36_violation", "C1.C36_echo_request", "C1.C36_echo_response", "C1.C36_version_not_supported", "C1.C36_supported_ext"], "All 20 message types; exact condition for the 16 with a loop. Messages with an APN restriction, and two responses with a charging gateway address in front of other elements, are rejected by their own decoder (proved)."),
    ("C37", "proved", ["C37_prefix_free", "C37_injective", "C37_sequence_injective"], ""),
    ("C38", "partial", ["C38_type_codes_partial", "C38_violation", "C38_violation_decode"], "Two pairs of message types share a code (witness)."),
    ("C39", "proved", ["C39_message_injective", "C39_types_separate"], "For well-formed messages in the sense of C14."),
    ("C40", "partial", ["C1.C40_panic_iff_partial", "C1.C40_terminates_debug", "C1.C40_no_panic_partial", "C1.C40_spins", "C1.C40_release_iff", "C1.C40_violation"], "Exact set of buffers on which a debug build panics, and on which a release build panics or never ends; witnesses."),
    ("C41", "partial", ["C1.C41_header_len_partial", "C1.C41_exact", "C1.C41_violation"], "For extension headers that fit the wire format (witness); C41_exact gives the necessary and sufficient condition for arbitrary fields, in debug and release builds."),
    ("C42", "proved", ["C1.C42_ext_header", "C1.C42_chain_roundtrip", "C1.C42_exact"], ""),
    ("C43", "partial", ["C1.C43_no_panic_partial", "C1.C43_panics_iff", "C1.C43_violation"], "35 kinds never panic; exact panic condition for the other 14."),
    ("C44", "partial", ["C1.C44_length_field", "C1.C44_len_partial", "C1.C44_violation"], "len() of ApnRestriction is 2 instead of 4."),
    ("C45", "proved", ["C1.C45_injective", "C1.C45_type_octet"], ""),
    ("C46", "partial", ["C1.C46_inside_partial", "C1.C46_violation"], "Six one-octet kinds account for the declared length without comparing it with the buffer."),
    ("C47", "partial", ["C1.C47_accepted_iff", "C1.C47_elements_unique", "C1.C47_violation"], "Debug builds: every buffer. Release builds: up to 263 octets; beyond, 256 elements of a type wrap the counter (witness)."),
    ("C48", "partial", ["C1.C48_mandatory_partial", "C1.C48_missing", "C1.C48_violation"], "Every mandatory type is checked, but only for one element where two are required (witness)."),
    ("C49", "proved", ["C1.C49_ordered", "C1.C49_rejected"], "C49_ordered for every buffer; the error is given behind well-formed elements."),
    ("C50", "partial", ["C1.C50_truncated_partial", "C1.C50_length_error", "C1.C50_violation", "C1.C50_simple_partial", "C1.C50_simple_violation"], "Release builds wrap lengths from 65528; three of the four simple messages check less (witnesses)."),
    ("C51", "partial", ["C1.C51_length_ignored", "C1.C51_violation"], "Violated: the decoders read to the end of the buffer and use the length only for one comparison; this is what is proved."),
    ("C52", "partial", ["C1.C52_panics_iff", "C1.C52_panic_sources_partial", "C1.C52_violation", "C1.C52_violation_unwrap", "C1.C52_simple_violation", "C1.C52_version_not_supported"], "Exact panic condition for both builds (C52_panics_iff); every message type with a loop has a witness."),
    ("C53", "partial", ["C1.C53_terminates_partial", "C1.C53_diverges_iff", "C1.C53_simple", "C1.C53_spins"], "Debug builds: every buffer. Release builds: exactly the buffers on which the decoder never ends (C53_diverges_iff), with a witness for every message type with a loop."),
    ("C54", "proved", ["C1.C54_type_checked", "C1.C54_codes"], ""),
    ("C55", "partial", ["C1.C55_length_field", "C1.C55_octets", "C1.C55_violation"], "For an empty buffer; a non-empty one is corrupted (proved for every type)."),
    ("C56", "proved", ["C1.C56_injective"], "For messages that round trip (C36_roundtrip_iff)."),
    ("C57", "proved", ["C57_u_ext", "C57_u_header", "C57_c_ext", "C57_c_header", "C57_v2_header"], "Every value, no hypotheses."),
    ("C58", "partial", ["C58_v2_defaults_partial", "C58_v2_violation", "C58_v2_messages", "C58_v2_message_defaults", "C1.C58_c1_defaults", "C1.C58_c1_message_defaults"], "Every kind and message type; the exact tables of those whose decoder rejects their own default (20 and 21 in GTPv2-C, 9 and 5 in GTPv1-C)."),
    ("C59", "partial", ["C59_error_names_partial", "C59_error_kinds", "C59_violation", "C59_error_names_false"], "Types 86, 115, 169 and those without a decoder of their own may be reported as 0, 83, 168 and 0 (witnesses); exact for all others."),
    ("C60", "proved", ["C60_setLength", "C60_encoding_ignores_length", "C60_length_octets", "C60_round_trip"], "Every IE; the round trip for every IE that is well-formed once the length is set."),
    ("C61", "partial", ["C61_partial", "C61_one_partial", "C61_exact_partial", "C61_stable_partial", "C61_lengths", "C61_violation", "C61_violation_ldn"], "Every buffer whose IEs are Good: 116 kinds without condition, 19 kinds with one (MM contexts among them: the optional octet strings that the decoder mishandles when absent must be present), the grouped IEs with their members; trace references and TWAN identifiers are never Good, since they are written with a type octet of another IE. Witnesses show that it fails for 18 kinds otherwise."),
    ("C62", "partial", ["C62_relay_partial", "C62_violation_teid", "C62_violation_imsi"], "Every message type and every byte string that it is decoded from, if the IEs in its fields are Good (C61) and the header has a TEID exactly if the message type has one. Witnesses show that both conditions are needed."),
    ("C63", "proved", ["C1.C63_setLength", "C1.C63_encoding_ignores_length", "C1.C63_round_trip"], "Every kind; the round trip for every element that is well-formed once the length is set."),
    ("C64", "partial", ["C1.C64_resend_partial", "C1.C64_type_partial", "C1.C64_stable_partial", "C1.C64_violation"], "Every kind and every byte string; 43 kinds without condition, six kinds for the values that are Faithful. Witnesses show that it fails for values of these six kinds."),
    ("C65", "partial", ["C1.C65_normed", "C1.C65_relay_iff", "C1.C65_rejected", "C1.C65_relay_partial", "C1.C65_violation"], "Every message type and byte string whose elements are Faithful (C64) and whose extension headers are well-formed: exactly the messages that are written in ascending order without APN restriction arrive. Witnesses show that a Create PDP Context Response, and a message with a longer extension header, are rejected by the next node."),
    ("C66", "partial", ["C66_v2_content", "C66_v2_length_partial", "C66_v2_length_violation", "C66_v2_decoded_partial", "C1.C66_c1_content", "C1.C66_c1_fields_partial", "C1.C66_c1_decoded_partial", "C1.C66_c1_violation"], "Every kind; the tables list the contents that are not 0, the defaults with a wrong length field (46 of GTPv2-C, three of GTPv1-C), and the kinds whose default is not decoded to itself."),
    ("C67", "partial", ["C67_c_chain", "C67_c_complete", "C67_c_sound", "C67_c_header", "C67_u_chain", "C67_u_complete_partial", "C67_u_sound_partial", "C67_u_header_partial", "C67_u_flags", "C67_u_violation", "C67_u_overlap", "C67_release_violation"], "Both protocols, every byte string, as an equivalence in debug builds (from buffer to value also in release builds). Missing for GTPv1-U headers with E or PN but without S: they are decoded as if all three flags were set; and in release builds for length octets above 63. Witnesses for both."),
    ("C68", "proved", ["C68_v2_header", "C68_u_header", "C68_c_header", "C68_v2_message", "C68_v2_accepted", "C68_u_message", "C68_u_accepted", "C68_c_message", "C68_c_accepted", "C68_disjoint", "C68_v2_written", "C68_u_written", "C68_c_written", "C68_c_simple_written"], "All headers as an equivalence, all message types."),
    ("C69", "partial", ["C69_decoded_header", "C69_header", "C69_gpdu", "C69_echo_request_partial", "C69_end_marker_partial", "C69_echo_response_partial", "C69_supported_ext_partial", "C69_error_indication_partial", "C69_violation"], "For extension headers as long as their types say (witness for the others), and for lengths that the length fields can hold; Echo Request and End Marker without any optional part are rejected (witness)."),
    ("C70", "partial", ["C70_instance", "C70_ignored_partial", "C70_monitoring", "C70_accepted", "C70_violation", "C70_violation_message"], "Changing the octet changes the instance of the decoded IE and nothing else, for every type (Monitoring Event Information keeps flags in the upper half). The spare half is ignored except for the types of wholeOctet: the grouped IEs, nine others and the unknown ones. There it becomes part of the instance, so that a mandatory IE is reported missing."),
    ("C71", "partial", ["C71_element_partial", "C71_sequence_partial", "C71_violation", "C71_violation_decoder", "C71_violation_silent"], "Proved for every type except the eleven of openTypes (MM contexts, Target and Source Identification, MDT Configuration, both Presence Reporting Area IEs); each of those variants has a witness. A Target Identification followed by a Recovery is rejected, an MDT Configuration silently takes the type octet of the next IE."),
    ("C72", "partial", ["C72_own_partial", "C72_violation", "C72_violation_decoder"], "Exact for every one of the 256 types: for the types of selfContained the octets behind the declared end have no influence; for every other type there is an IE that is accepted only because of them. Most decoders of fixed-size IEs read their fields without comparing the length field with them."),
    ("C73", "partial", ["C1.C73_own_partial", "C1.C73_append_partial", "C1.C73_violation", "C1.C73_violation_rest", "C1.C73_violation_list"], "Exact for each of the 49 kinds: 23 are decoded from their own octets only; of 25 there is an element that is accepted only because of the octets behind it. Private Extension and Extension Header Type List take everything behind them as their value, for every buffer."),
    ("C74", "partial", ["C74_octets_partial", "C74_octets", "C74_deviates", "C74_violation", "Grouped.C74_grouped_partial", "MmFigure.C74_mm_partial"], "Exact: an IE is written as its figure if and only if it is none of these: a time zone other than 0, +53 and -8 quarters (binary instead of swapped decimal digits), a Trace Reference (type 83 instead of 115), an F-TEID without address (both address flags set), a transaction identifier from 7 on, a home eNodeB identity (three octets instead of four), a ULI whose type field is not 86. Grouped IEs: as header and members, at any depth, but for the four fields of C95. MM contexts with a GSM or UMTS key (types 103 to 106) as their figures. No figure for the types 107 and 108, and six kinds whose coding another specification gives."),
    ("C75", "partial", ["C1.C75_octets_partial", "C1.C75_violation"], "Exact: an IE is written as its figure if and only if the stored type is the one of the figure (all encoders but that of Recovery write the stored type) and it is neither an IMSI below 15 digits (no filler octets) nor a time zone other than 0, +53 and -8 quarters (binary instead of swapped decimal digits). No figure for Charging Characteristics, whose coding another specification gives."),
    ("C76", "partial", ["C76_ignored_partial", "C76_sequence_partial", "C76_violation", "C76_violation_rejected"], "Proved for 31 of the 43 types; for the other 12 (PAA, PDN Type, F-Container, UCI, CSG ID, CMI, ARP, SPI, HeNB Information Reporting, CN Operator Selection Entity, Paging and Service Information, UP Function Selection Indication Flags) there is an accepted IE that changes or is rejected with spare bits set. Left out: bits that are spare only for some values of other fields (Flow QoS and Bearer TFT contents, MDT, RAN/NAS Cause, the offending IE of a Cause)."),
    ("C77", "partial", ["C1.C77_ignored_partial", "C1.C77_violation", "C1.C77_violation_message"], "Proved for 9 of the 14 kinds; of the other 5 (Teardown Ind, UCI, SPI, CN Operator Selection Entity, UP Function Selection Indication Flags) there is an accepted IE that changes or is rejected with other spare bits. A Delete PDP Context Request whose Teardown Ind has zero spare bits is rejected."),
    ("C78", "proved", ["C78_octets", "C78_violation"], "Exact: with wrong type fields the octets differ (C78_violation is a concrete one)."),
    ("C79", "partial", ["C79_accepted_iff_partial", "C79_sequence", "C79_version_not_supported", "C79_identification", "C79_violation"], "81 of the 83 message types exactly; the exact condition of the other two, which accept more, is in C79_version_not_supported and C79_identification."),
    ("C80", "partial", ["C80_gpdu", "C80_echo_request", "C80_end_marker", "C80_echo_response", "C80_supported_ext", "C80_error_indication", "C80_private", "C80_item", "C80_gpdu_release", "C80_echo_request_release", "C80_end_marker_release", "C80_echo_response_release", "C80_supported_ext_release", "C80_error_indication_release", "C80_private_release", "C80_item_release", "C80_violation", "C80_violation_release"], "Exact condition on the octets for each of the six types in debug and in release builds. The conditions of Echo Request, End Marker and Echo Response ask for fewer octets than announced, and those of the notification and the Error Indication use the octets behind the announced end (witnesses)."),
    ("C81", "partial", ["C81_exact", "C81_bound_partial", "C81_violation", "C81_violation_message"], "The code violates it: the sender decides how deep the calls nest, up to 16382 for one message (witnesses for every depth, also in an Echo Request). The exact condition under which a given amount of stack is not enough, and that a quarter of the length of the buffer always is."),
    ("C82", "proved", ["C82_debug", "C82_linear", "C82_finite", "C82_unique"], "A quarter of the length in debug builds; in release builds, where lengths wrap, at most one call per octet whenever decoding ends."),
    ("C83", "proved", ["C1.C83_private", "C1.C83_echo_request_accept", "C1.C83_echo_request_panic", "C1.C83_echo_response_accept", "C1.C83_echo_response_panic", "C1.C83_version_accept", "C1.C83_version_panic", "C1.C83_extension_headers_accept", "C1.C83_extension_headers_panic"], "Relative to the decoder of the header, which is the subject of C41. The exact conditions show the deviations: a private extension is read whatever its type octet is and reaches to the end of the buffer; an Echo Request of ten octets with a sequence number is a panic."),
    ("C84", "partial", ["C84_code_partial", "C84_violation", "C84_violation_receipt", "C84_distinct"], "Holds for 80 of the 83 message types and for no other: Downlink Data Notification has the code of PGW Restart Notification, PGW Restart Notification that of its acknowledgement, Stop Paging Indication that of Resume Notification, and with the right code they are refused."),
    ("C85", "partial", ["C85_mandatory_partial", "C85_violation_relay", "C85_violation_trace", "C85_violation_isr", "C85_violation_identification"], "Holds for 79 message types. For the four others the exact condition of acceptance is proved and is another one than that of the standard."),
    ("C86", "partial", ["C86_kept_partial", "C86_violation_nowhere", "C86_violation_one", "C86_violation_delete"], "Holds for all rows of MsgSpec.lean but 27. For 14 of these it is proved that the IE is never in the result, for 12 that at most one of several is. The tables of the specification are written from memory; a row that is missing there is a row about which nothing is claimed."),
    ("C87", "partial", ["C1.C87_code", "C1.C87_elements", "C1.C87_kept", "C1.C87_order", "C1.C87_accepted_partial"], "The last part is partial: it excludes APN Restriction, whose decoder is broken (C36), and elements behind a private extension, which takes all octets up to the end of the buffer."),
    ("C88", "partial", ["C88_iterates_partial", "C88_repeats", "C88_ends_iff", "C88_violation"], "False for every message with at least one IE: `next` builds the list of IEs anew, so the last IE comes again and again and the loop never ends. Holds exactly for messages without IEs."),
    ("C89", "partial", ["C89_type", "C89_type_partial", "C89_empty", "C89_violation"], "The type is wrong for Trace Reference (83), TWAN Identifier (168) and the types without a decoder (0), and right for all others. `is_empty` also holds for an IE with the extended type 0."),
    ("C90", "partial", ["C90_understood_partial", "C90_zone", "C90_fteid", "C90_transaction", "C90_trace", "C90_violation", "Grouped.C90_grouped", "Grouped.C90_grouped_partial", "MmFigure.C90_mm_partial", "C90_mm_understood_partial", "MmFigure.C90_mm_violation"], "False: home eNodeB identities, time zones other than three, transaction identifiers from 7 on are read as something else, F-TEIDs without address and some presence reporting areas are rejected. Where the encoder agrees with the figure: exactly the values of `IE.WF`. Grouped IEs from whatever their members are read from, in any order, as far as C94 lets them in. MM contexts of the types 103 to 106: exactly the values of `IE.WF` are understood; one without IOV counter (UMTS key) or without equipment identity is rejected. Missing: kinds without a figure in the model (types 107 and 108)."),
    ("C91", "partial", ["C1.C91_understood_partial", "C1.C91_last_partial", "C1.C91_imsi", "C1.C91_zone", "C1.C91_msisdn", "C1.C91_violation"], "False: subscriber numbers of at most 14 digits panic at the end of the buffer, and swallow what follows otherwise; time zones other than three are read as something else. Where the encoder agrees with the figure: exactly the values of `WF`. IMSIs of all lengths are understood. Missing: the two kinds that swallow what follows (at the end of the buffer: the list of extension header types)."),
    ("C92", "partial", ["C1.C92_length", "C1.C92_value", "C1.C92_list", "C1.C92_variable", "C1.C92_violation", "C92_ext", "C92_private", "C92_u_violation"], "False: elements of fixed size are read in spite of a length of 0 and called empty then; an IMSI of the digit 0, and GTPv1-U elements and extension headers of value 0, are called empty. For the other GTPv1-C elements empty means a length of 0; for extension headers the exact condition."),
    ("C93", "proved", ["C93_v1", "C93_v2", "C93_type"], "All errors of both protocols."),
    ("C94", "partial", ["Grouped.C94_accepted", "Grouped.C94_kept_partial", "Grouped.C94_source_partial", "Grouped.C94_violation_standIn", "Grouped.C94_violation_lost", "Grouped.C94_violation_one", "Grouped.C94_violation", "Grouped.C94_violation_instance"], "Violated: no mandatory member is asked for (except one PC5 QoS flow), a default takes its place; load and overload control and the presence reporting areas of a PDN connection keep one entry of several; a packet flow id in a bearer context, PGW change info and UP security policy in a PDN connection are dropped; seven fields ignore the instance. Exact acceptance is C94_accepted; everything else is kept (C94_kept_partial), and nothing but the members and the named defaults is in the value (C94_source_partial)."),
    ("C95", "partial", ["Grouped.C95_partial", "Grouped.C95_violation", "Grouped.C95_violation_relay"], "Violated by two kinds: BSS container and transaction identifier of a bearer context, PGW change info and UP security policy of a PDN connection are never written. Everything else is, for all values."),
    ("C96", "partial", ["Peer.C96_partial"], "Missing: what other entries prove to be wrong (three wrong type codes, C84; four message types with other conditions, C85; 27 rows, C86; members of grouped IEs, C94; IEs that are read differently, C90), Version Not Supported Indication, and IEs without a figure in the model (MM contexts)."),
    ("C97", "partial", ["C1.C97_partial", "C1.C97_violation"], "Missing: APN Restriction (such a message is rejected, C97_violation), a private extension in front of something else, and time zones (C91_zone)."),
    ("C98", "partial", ["Unused.C98_v2_teid", "Unused.C98_v2_plain", "Unused.C98_c_spare", "Unused.C98_c_unused", "Unused.C98_u_spare", "Unused.C98_u_unused_partial", "Unused.C98_u_evaluated", "Unused.C98_u_violation"], "Holds for GTPv2-C and GTPv1-C, and for GTPv1-U headers with a sequence number. Violated for GTPv1-U headers with E or PN but without S: the unused octets become the sequence and the N-PDU number, and octets of the T-PDU may be taken for an extension header."),
    ("C99", "partial", ["UPeer.C99_partial", "UPeer.C99_exact", "UPeer.C99_violation"], "C99_exact is an equivalence for debug builds: understood are exactly the messages with a sequence number or no optional field, a length field that is not 0 (and below 65528 in three messages), extension headers of at most 63 units, no spare bits set in front of a long PDCP PDU number, and 1 to 253 types in a notification. The direction that matters holds in release builds too."),
    ("C100", "partial", ["EmptyPart.C100_partial", "EmptyPart.C100_exact", "EmptyPart.C100_violation"], "An equivalence for each of the 25 parts; for 15 of them it is the claim. The others are violations with their exact condition: the flag of an extended macro identifier, the length of a gNodeB identifier and the NCC of an old security context are forgotten, an extension counts even if it is zero, an unknown target is empty."),
]

out = {"claims": [{"property": p, "status": s, "theorems": [P + t for t in ts], "note": n}
                  for p, s, ts, n in CLAIMS]}
root = os.path.dirname(os.path.dirname(os.path.abspath(__file__)))
with open(os.path.join(root, "MANIFEST.json"), "w") as f:
    json.dump(out, f, indent=1)
    f.write("\n")
