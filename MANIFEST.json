{
 "claims": [
  {
   "property": "C01",
   "status": "proved",
   "theorems": [
    "Verif.Ber.C01_decode_safe",
    "Verif.Ber.C01_tagDecode_safe"
   ],
   "note": ""
  },
  {
   "property": "C02",
   "status": "proved",
   "theorems": [
    "Verif.Ber.C02_accepts",
    "Verif.Ber.C02_refuses",
    "Verif.Ber.C02_roundtrip",
    "Verif.Ber.C02_constructed"
   ],
   "note": "C02_accepts and C02_refuses are the converse: what is decoded is encoded at the front of the buffer, anything else is refused."
  },
  {
   "property": "C03",
   "status": "proved",
   "theorems": [
    "Verif.Ber.C03_iterate_exact",
    "Verif.Ber.C03_iterate_any"
   ],
   "note": ""
  },
  {
   "property": "C04",
   "status": "partial",
   "theorems": [
    "Verif.Ber.C04_exact_partial",
    "Verif.Ber.C04_contents_partial",
    "Verif.Ber.C04_eoc_not_consumed",
    "Verif.Ber.C04_nested_content_lost"
   ],
   "note": "False of the code: EOC is not consumed by iteration and the first nested EOC ends the outer object (witnesses C04_eoc_not_consumed, C04_nested_content_lost). Proved: with definite-form children the value is exactly the children. C04_exact_partial characterises exactly what is accepted and returned in every case."
  },
  {
   "property": "C05",
   "status": "proved",
   "theorems": [
    "Verif.TlvParse.C05_parse_leaves"
   ],
   "note": ""
  },
  {
   "property": "C06",
   "status": "proved",
   "theorems": [
    "Verif.TlvParse.C06_parse_any",
    "Verif.TlvParse.C06_no_internal_error"
   ],
   "note": ""
  },
  {
   "property": "C07",
   "status": "partial",
   "theorems": [
    "Verif.Ber.C07_oid_in_bounds_partial",
    "Verif.Ber.C07_oid_overflow",
    "Verif.Ber.C07_oid_value_partial"
   ],
   "note": "False of the code: more than 10 arcs overflow the result array (C07_oid_overflow). Proved for at most 10 arcs: in bounds and X.690 values."
  },
  {
   "property": "C08",
   "status": "proved",
   "theorems": [
    "Verif.LL.C08_history",
    "Verif.LL.C08_step",
    "Verif.LL.C08_hasDup_iff",
    "Verif.LL.C08_self_append_loses"
   ],
   "note": "Refinement of every operation history; appending a list to itself is excluded from the history and shown to lose data (C08_self_append_loses)."
  },
  {
   "property": "C09",
   "status": "proved",
   "theorems": [
    "Verif.Formats.C09_encode",
    "Verif.Formats.C09_roundtrip"
   ],
   "note": ""
  },
  {
   "property": "C10",
   "status": "partial",
   "theorems": [
    "Verif.Formats.C10_decode_partial",
    "Verif.Formats.C10_wraps"
   ],
   "note": "False of the code for values >= 2^32: the 32-bit accumulator wraps silently (C10_wraps). Proved: exact decode/refusal for values below 2^32."
  },
  {
   "property": "C11",
   "status": "proved",
   "theorems": [
    "Verif.Formats.C11_encode",
    "Verif.Formats.C11_decode",
    "Verif.Formats.C11_encode_decode",
    "Verif.Formats.C11_decode_encode"
   ],
   "note": ""
  },
  {
   "property": "C12",
   "status": "proved",
   "theorems": [
    "Verif.Formats.C12_non_control",
    "Verif.Formats.C12_alnum_space",
    "Verif.Formats.C12_refused",
    "Verif.Formats.C12_sets"
   ],
   "note": ""
  },
  {
   "property": "C13",
   "status": "proved",
   "theorems": [
    "Verif.Formats.C13_hex",
    "Verif.Formats.C13_refused",
    "Verif.Formats.C13_roundtrip"
   ],
   "note": ""
  },
  {
   "property": "C14",
   "status": "proved",
   "theorems": [
    "Verif.Dol.C14_roundtrip",
    "Verif.Dol.C14_any"
   ],
   "note": ""
  },
  {
   "property": "C15",
   "status": "proved",
   "theorems": [
    "Verif.Dol.C15_length",
    "Verif.Dol.C15_length_invalid",
    "Verif.Dol.C15_build_ok",
    "Verif.Dol.C15_too_small",
    "Verif.Dol.C15_build_any"
   ],
   "note": ""
  },
  {
   "property": "C16",
   "status": "proved",
   "theorems": [
    "Verif.Dol.C16_build"
   ],
   "note": ""
  },
  {
   "property": "C17",
   "status": "proved",
   "theorems": [
    "Verif.Emv.C17_gpo_data",
    "Verif.Emv.C17_long_form"
   ],
   "note": "For every PDOL (below 2^24 bytes), terminal data and buffer content."
  },
  {
   "property": "C18",
   "status": "proved",
   "theorems": [
    "Verif.Fields.C18_roundtrip",
    "Verif.Fields.C18_any"
   ],
   "note": ""
  },
  {
   "property": "C19",
   "status": "proved",
   "theorems": [
    "Verif.Fields.C19_accept",
    "Verif.Fields.C19_reject"
   ],
   "note": ""
  },
  {
   "property": "C20",
   "status": "partial",
   "theorems": [
    "Verif.Aid.C20_classify_partial",
    "Verif.Aid.C20_jcb_not_recognised",
    "Verif.Aid.C20_length"
   ],
   "note": "False of the code for JCB (C20_jcb_not_recognised). Proved for every other registered prefix and for unregistered AIDs."
  },
  {
   "property": "C21",
   "status": "proved",
   "theorems": [
    "Verif.Fields.C21_format"
   ],
   "note": ""
  },
  {
   "property": "C22",
   "status": "partial",
   "theorems": [
    "Verif.Apdu.C22_ext_exact_partial",
    "Verif.Apdu.C22_recognise_partial",
    "Verif.Apdu.C22_sound_partial",
    "Verif.Apdu.C22_ext_unrecognised",
    "Verif.Apdu.C22_ext_misclassified"
   ],
   "note": "False of the code for extended length fields (C22_ext_unrecognised, C22_ext_misclassified). Proved for the short cases. C22_ext_exact_partial says exactly which extended commands with data are classified, and as what."
  },
  {
   "property": "C23",
   "status": "proved",
   "theorems": [
    "Verif.Ttl.C23_response_buffer",
    "Verif.Ttl.C23_two_needed"
   ],
   "note": ""
  },
  {
   "property": "C24",
   "status": "partial",
   "theorems": [
    "Verif.Ttl.C24_headers_partial",
    "Verif.Ttl.C24_ack_partial",
    "Verif.Ttl.C24_overread",
    "Verif.Ttl.C24_leak",
    "Verif.Ttl.C24_wrong_ins",
    "Verif.Ttl.C24_data_as_header",
    "Verif.Ttl.C24_follow_up",
    "Verif.Ttl.C24_order_partial",
    "Verif.Ttl.C24_le_sent"
   ],
   "note": "False of the code in TPDU mode: over-read after one data byte (C24_overread), command buffer leak after 61xx + ACK (C24_leak), wrong INS after single-byte requests (C24_wrong_ins), Le sent as data after a single-byte request (C24_le_sent), data re-sent as header on 6Cxx (C24_data_as_header). Proved: APDU mode, commands without data, cards without procedure bytes, the regular ACK exchange, order of data under arbitrary single-byte procedure bytes (C24_order_partial), and that every later command of four or more bytes is a GET RESPONSE/repeat with the Le the card named (C24_follow_up)."
  },
  {
   "property": "C25",
   "status": "proved",
   "theorems": [
    "Verif.Ttl.C25_exchange",
    "Verif.Ttl.C25_ins",
    "Verif.Ttl.C25_plain"
   ],
   "note": ""
  },
  {
   "property": "C26",
   "status": "partial",
   "theorems": [
    "Verif.Ttl.C26_data_partial",
    "Verif.Ttl.C26_bound_partial",
    "Verif.Ttl.C26_ends_partial",
    "Verif.Ttl.C26_terminates_partial",
    "Verif.Ttl.C26_endless"
   ],
   "note": "False of the code: 61xx for ever (C26_endless). Proved: all answers other than 61xx/6Cxx without data are bounded by the sizes of command and response buffer (C26_bound_partial), and so every exchange ends with a card that does not keep sending those (C26_ends_partial)."
  },
  {
   "property": "C27",
   "status": "proved",
   "theorems": [
    "Verif.Ttl.C27_select",
    "Verif.Ttl.C27_read_record",
    "Verif.Ttl.C27_gpo",
    "Verif.Ttl.C27_delivers"
   ],
   "note": ""
  },
  {
   "property": "C28",
   "status": "partial",
   "theorems": [
    "Verif.Tal.C28_order",
    "Verif.Tal.C28_terminates_partial",
    "Verif.Tal.C28_endless"
   ],
   "note": "Order, once each, stop at first failure: proved for every range. Termination proved for ranges ending before 255; false for ranges ending at 255 because the 8-bit counter wraps (C28_endless)."
  },
  {
   "property": "C29",
   "status": "proved",
   "theorems": [
    "Verif.Tal.C29_single_template",
    "Verif.Tal.C29_only_card_fields",
    "Verif.Tal.C29_safe",
    "Verif.Tal.C29_empty_record"
   ],
   "note": "A card answering 9000 with no data makes the code read an uninitialised byte (C29_empty_record); that case is reported as undefined behaviour, not as success."
  },
  {
   "property": "C30",
   "status": "proved",
   "theorems": [
    "Verif.Tal.C30_success",
    "Verif.Tal.C30_failure",
    "Verif.Tal.C30_order",
    "Verif.Tal.C30_complete"
   ],
   "note": "C30_order (prefix property at any time) is for entries not ending at record 255; success and failure theorems are unrestricted."
  },
  {
   "property": "C31",
   "status": "partial",
   "theorems": [
    "Verif.Tal.C31_success",
    "Verif.Tal.C31_format_independent",
    "Verif.Tal.C31_failure_partial",
    "Verif.Tal.C31_dangling_aip"
   ],
   "note": "Success and format independence proved in full. 'On failure no AIP is reported' is false when the response has an AIP and no AFL: the AIP output is left pointing to a freed field (C31_dangling_aip)."
  },
  {
   "property": "C32",
   "status": "partial",
   "theorems": [
    "Verif.Tal.C32_pse_sound",
    "Verif.Tal.C32_pse_complete",
    "Verif.Tal.C32_pse_exact",
    "Verif.Tal.C32_find_partial",
    "Verif.Tal.C32_find_unchecked",
    "Verif.Tal.C32_find_empty_fci"
   ],
   "note": "Directory (PSE): sound, complete and exact for every card. List of AIDs: the code compares only the length of the returned DF name, so it holds only when the card answers with a name that starts with the requested one (C32_find_unchecked is a counterexample); an empty FCI causes an uninitialised read."
  },
  {
   "property": "C33",
   "status": "partial",
   "theorems": [
    "Verif.Tal.C33_file",
    "Verif.Tal.C33_order",
    "Verif.Tal.C33_terminates_partial",
    "Verif.Tal.C33_endless"
   ],
   "note": "Order proved. Termination is false for a card that never reports 'record not found' (C33_endless); proved for all others."
  },
  {
   "property": "C34",
   "status": "partial",
   "theorems": [
    "Verif.LL.C34_sort_partial",
    "Verif.LL.C34_zero_priority_unstable"
   ],
   "note": "Permutation and order proved; stability is false among priority-0 entries after the first (C34_zero_priority_unstable)."
  },
  {
   "property": "C35",
   "status": "proved",
   "theorems": [
    "Verif.LL.C35_history",
    "Verif.LL.C35_remove",
    "Verif.LL.C35_push_after"
   ],
   "note": ""
  },
  {
   "property": "C36",
   "status": "proved",
   "theorems": [
    "Verif.App.C36_supported_iff"
   ],
   "note": ""
  },
  {
   "property": "C37",
   "status": "proved",
   "theorems": [
    "Verif.App.C37_display_name",
    "Verif.App.C37_priority",
    "Verif.App.C37_printable"
   ],
   "note": ""
  },
  {
   "property": "C38",
   "status": "proved",
   "theorems": [
    "Verif.LL.C38_selection_required"
   ],
   "note": ""
  },
  {
   "property": "C39",
   "status": "proved",
   "theorems": [
    "Verif.Emv.C39_select",
    "Verif.Emv.C39_select_proper",
    "Verif.Emv.C39_retries"
   ],
   "note": ""
  },
  {
   "property": "C40",
   "status": "proved",
   "theorems": [
    "Verif.Emv.C40_success",
    "Verif.Emv.C40_failure",
    "Verif.Emv.C40_complete"
   ],
   "note": "Soundness, failure classification with unchanged context, and completeness (AFL entries with last record below 255)."
  },
  {
   "property": "C41",
   "status": "partial",
   "theorems": [
    "Verif.Emv.C41_reset",
    "Verif.Emv.C41_history_partial",
    "Verif.Emv.C41_again",
    "Verif.Emv.C41_again_reachable"
   ],
   "note": "Proved by induction over all call histories, except initiating the same selection again after success: that always reads the freed AID field (C41_again, reachable by C41_again_reachable). Hypothesis: no answer with status 9000/6283 and empty data (those cause uninitialised reads, see C29, C32)."
  },
  {
   "property": "C42",
   "status": "proved",
   "theorems": [
    "Verif.Emv.C42_outcome",
    "Verif.Emv.C42_blocked_iff",
    "Verif.Emv.C42_safe"
   ],
   "note": ""
  },
  {
   "property": "C43",
   "status": "partial",
   "theorems": [
    "Verif.Atr.C43_reports",
    "Verif.Atr.C43_exists",
    "Verif.Atr.C43_inside",
    "Verif.Atr.C43_safe",
    "Verif.Atr.C43_td4_outside"
   ],
   "note": "C43_reports/C43_exists/C43_inside/C43_safe: every read is inside the 33-byte storage and the reported TAi..TDi are those of the chain of Y indicators, for every ATR. Partial because an announced TD4 is reported without checking that it lies inside the ATR (C43_td4_outside is the witness)."
  },
  {
   "property": "C44",
   "status": "partial",
   "theorems": [
    "Verif.Atr.C44_safe_partial",
    "Verif.Atr.C44_unsafe",
    "Verif.Atr.C44_range",
    "Verif.Atr.C44_inside",
    "Verif.Atr.C44_td4",
    "Verif.Atr.C44_status00",
    "Verif.Atr.C44_status80"
   ],
   "note": "C44_unsafe: category byte 00 with fewer than three status bytes reads out of bounds (witness 3B 01 00). C44_safe_partial: no other ATR does. C44_range, C44_status00, C44_status80: what is reported for accepted ATRs without TD4. C44_inside: the reported range is inside the ATR for every ATR. C44_td4: with a TD4 it starts one byte early."
  },
  {
   "property": "C45",
   "status": "partial",
   "theorems": [
    "Verif.Atr.C45_tck_partial",
    "Verif.Atr.C45_corruption_partial",
    "Verif.Atr.C45_td4",
    "Verif.Atr.C45_td4_unchecked",
    "Verif.Atr.C45_td4_refused"
   ],
   "note": "False of the code for ATRs with a TD4: the byte before TCK is taken for it (C45_td4), so an ATR announcing T=1 is accepted without any TCK (C45_td4_unchecked) and a valid one is refused (C45_td4_refused). Proved for all ATRs without TD4."
  },
  {
   "property": "C46",
   "status": "partial",
   "theorems": [
    "Verif.Atr.C46_values",
    "Verif.Atr.C46_t1_partial",
    "Verif.Atr.C46_bwt_wraps",
    "Verif.Atr.C46_last_used"
   ],
   "note": "C46_values: Fi, Di, fmax, guard times and T=0 waiting time for every accepted ATR. C46_t1_partial: T=1 waiting times when no 32-bit wrap occurs and there is only one TB for T=1; C46_bwt_wraps and C46_last_used show both restrictions are needed."
  },
  {
   "property": "C47",
   "status": "proved",
   "theorems": [
    "Verif.Atr.C47_decides",
    "Verif.Atr.C47_emv",
    "Verif.Atr.C47_refused",
    "Verif.Atr.C47_t1",
    "Verif.Atr.C47_tb4_unchecked"
   ],
   "note": "C47_tb4_unchecked is an additional observation: a TB4 for T=1 overrides TB3 but is not checked."
  },
  {
   "property": "C48",
   "status": "proved",
   "theorems": [
    "Verif.CompactTlv.C48_roundtrip",
    "Verif.CompactTlv.C48_any",
    "Verif.CompactTlv.C48_empty"
   ],
   "note": ""
  },
  {
   "property": "C49",
   "status": "partial",
   "theorems": [
    "Verif.StrList.C49_safe",
    "Verif.StrList.C49_exact_partial",
    "Verif.StrList.C49_truncated",
    "Verif.StrList.C49_full_unchanged",
    "Verif.StrList.C49_empty_string_skipped",
    "Verif.StrList.C49_not_terminated",
    "Verif.StrList.C49_iso_safe",
    "Verif.StrList.C49_iso_exact",
    "Verif.StrList.C49_iso_unchanged"
   ],
   "note": "emv_str_list_add does not terminate buffers of fewer than three bytes (C49_not_terminated) and drops an empty string that would fit exactly (C49_empty_string_skipped); everything else in the claim is proved for both builders and all sequences."
  },
  {
   "property": "C50",
   "status": "partial",
   "theorems": [
    "Verif.Str.C50_exact_partial",
    "Verif.Str.C50_overflow",
    "Verif.Str.C50_refused"
   ],
   "note": "False of the code: a valid date or time makes the library write index 7 of a 7 byte local array (C50_overflow, for every valid input). C50_exact_partial proves the claim for the same function with an array of 8 or more bytes; C50_refused covers the error cases of the code as it is."
  },
  {
   "property": "C51",
   "status": "proved",
   "theorems": [
    "Verif.Str.C51_get",
    "Verif.Str.C51_pack",
    "Verif.Str.C51_pack_refused",
    "Verif.Str.C51_string_roundtrip",
    "Verif.Str.C51_field_roundtrip",
    "Verif.Str.C51_pack_empty"
   ],
   "note": ""
  },
  {
   "property": "C52",
   "status": "proved",
   "theorems": [
    "Verif.Str.C52_pack",
    "Verif.Str.C52_number",
    "Verif.Str.C52_roundtrip",
    "Verif.Str.C52_refused",
    "Verif.Str.C52_empty"
   ],
   "note": ""
  },
  {
   "property": "C53",
   "status": "partial",
   "theorems": [
    "Verif.Str.C53_uint_partial",
    "Verif.Str.C53_eleven",
    "Verif.Str.C53_short",
    "Verif.Str.C53_overflow",
    "Verif.Str.C53_amount_partial",
    "Verif.Str.C53_amount_refused",
    "Verif.Str.C53_format_n_partial",
    "Verif.Str.C53_format_n_refused"
   ],
   "note": "False of the code when the digits do not fit: the terminator is written one byte past the end (C53_overflow, exact condition). Proved whenever they fit, and for all values with 11 bytes (C53_eleven)."
  },
  {
   "property": "C54",
   "status": "partial",
   "theorems": [
    "Verif.Str.C54_track2_partial",
    "Verif.Str.C54_enough",
    "Verif.Str.C54_overflow",
    "Verif.Str.C54_refused"
   ],
   "note": "False of the code when the string does not fit: output size is not checked (C54_overflow, exact condition). Proved whenever it fits."
  },
  {
   "property": "C55",
   "status": "proved",
   "theorems": [
    "Verif.Str.C55_validation",
    "Verif.Str.C55_accept_iff"
   ],
   "note": ""
  },
  {
   "property": "C56",
   "status": "partial",
   "theorems": [
    "Verif.Capdu.C56_safe_partial",
    "Verif.Capdu.C56_empty",
    "Verif.Capdu.C56_short_overread",
    "Verif.Capdu.C56_exact"
   ],
   "note": "False for some commands of 1 to 3 bytes: the code compares the size of the output buffer instead of that of the command with 4. C56_exact decides for every command whether it is read past its end."
  },
  {
   "property": "C57",
   "status": "partial",
   "theorems": [
    "Verif.ThirdParty.C57_safe_partial",
    "Verif.ThirdParty.C57_result_partial",
    "Verif.ThirdParty.C57_overread"
   ],
   "note": "Proved for every field and output except fields of exactly five bytes whose unique identifier has its top bit unset; for all of those C57_overread proves the read past the field, so the full claim is false. Also proved: the result is 0 exactly for conforming fields."
  },
  {
   "property": "C58",
   "status": "partial",
   "theorems": [
    "Verif.Iso8859.C58_whole_partial",
    "Verif.Iso8859.C58_truncation_partial",
    "Verif.Iso8859.C58_overflow",
    "Verif.Iso8859.C58_refused",
    "Verif.Iso8859.C58_control"
   ],
   "note": "False of the code: when the output buffer is exactly filled the terminator is written one past its end (C58_overflow). Proved: the whole conversion when it fits, and the exact truncation behaviour otherwise."
  },
  {
   "property": "C59",
   "status": "partial",
   "theorems": [
    "Verif.Pcsc.C59_lookup_partial",
    "Verif.Pcsc.C59_too_small_partial",
    "Verif.Pcsc.C59_misparsed",
    "Verif.Pcsc.C59_absent_overread",
    "Verif.Pcsc.C59_absent_partial",
    "Verif.Pcsc.C59_fallback"
   ],
   "note": "The claim is false of the code: the pointer is advanced before the length used for the remaining size is read. C59_misparsed and C59_absent_overread prove the failure for all other well-formed lists; the theorems give the exact condition under which the lookup works (property first in the list, or value no longer than the first value plus what follows). Missing: safety for malformed lists, which does not hold either."
  },
  {
   "property": "C60",
   "status": "proved",
   "theorems": [
    "Verif.Apdu.C60_partition",
    "Verif.Apdu.C60_values"
   ],
   "note": ""
  },
  {
   "property": "C61",
   "status": "proved",
   "theorems": [
    "Verif.TlvParse.C61_decoded_object"
   ],
   "note": ""
  },
  {
   "property": "C62",
   "status": "proved",
   "theorems": [
    "Verif.TlvParse.C62_parse_accepts",
    "Verif.TlvParse.C62_definite"
   ],
   "note": ""
  },
  {
   "property": "C63",
   "status": "proved",
   "theorems": [
    "Verif.Emv.C63_initiate",
    "Verif.Emv.C63_complete",
    "Verif.Emv.C63_terminal_data"
   ],
   "note": ""
  },
  {
   "property": "C64",
   "status": "partial",
   "theorems": [
    "Verif.Emv.C64_afl_partial",
    "Verif.Emv.C64_planted"
   ],
   "note": "False when the FCI contains a field 94: the planted AFL is read (C64_planted). Proved otherwise."
  },
  {
   "property": "C65",
   "status": "proved",
   "theorems": [
    "Verif.Emv.C65_provenance",
    "Verif.Emv.C65_transaction"
   ],
   "note": ""
  },
  {
   "property": "C66",
   "status": "proved",
   "theorems": [
    "Verif.Atr.C66_accept",
    "Verif.Atr.C66_empty_refused"
   ],
   "note": "Exact acceptance condition for ATRs without TD4. OkHistorical includes the restriction that category 00/80 needs at least one COMPACT-TLV object (C66_empty_refused)."
  },
  {
   "property": "C67",
   "status": "partial",
   "theorems": [
    "Verif.Capdu.C67_without_le",
    "Verif.Capdu.C67_without_data",
    "Verif.Capdu.C67_select_partial",
    "Verif.Capdu.C67_master_file",
    "Verif.Capdu.C67_last_digit_lost"
   ],
   "note": "Proved for every identifier that is printable or shorter than 255 bytes. For 255 byte unprintable identifiers the claim is false: C67_last_digit_lost proves that exactly the last hexadecimal digit is missing. A SELECT without Le has no description at all (C67_without_le). A SELECT without data is described only for the master file (C67_without_data)."
  },
  {
   "property": "C68",
   "status": "proved",
   "theorems": [
    "Verif.Pcsc.C68_any",
    "Verif.Pcsc.C68_control_code",
    "Verif.Pcsc.C68_refused_still_listed"
   ],
   "note": "C68_refused_still_listed records that a list refused because of a wrong entry length keeps counting."
  },
  {
   "property": "C69",
   "status": "partial",
   "theorems": [
    "Verif.Pcsc.C69_type",
    "Verif.Pcsc.C69_atr",
    "Verif.Pcsc.C69_stale_type"
   ],
   "note": "The decision about the card type is proved for all inputs and states; the ATR part is proved for successful connections and disconnections. After a failed connection it is false, C69_stale_type is a witness."
  },
  {
   "property": "C70",
   "status": "partial",
   "theorems": [
    "Verif.Bits.C70_tvr_partial",
    "Verif.Bits.C70_tsi_partial",
    "Verif.Bits.C70_aip_partial",
    "Verif.Bits.C70_auc_partial",
    "Verif.Bits.C70_ctq_partial",
    "Verif.Bits.C70_trmd_partial",
    "Verif.Bits.C70_no_lines",
    "Verif.Bits.C70_no_output"
   ],
   "note": "Proved for every field value and output size, except that with no bit set the output is left as it was and so is not terminated although the result is 0; C70_no_lines is a witness for all six functions."
  },
  {
   "property": "C71",
   "status": "proved",
   "theorems": [
    "Verif.Bits.C71_tvr",
    "Verif.Bits.C71_tsi",
    "Verif.Bits.C71_aip",
    "Verif.Bits.C71_auc",
    "Verif.Bits.C71_ctq",
    "Verif.Bits.C71_trmd",
    "Verif.Bits.C71_term_caps",
    "Verif.Bits.C71_addl_term_caps",
    "Verif.Bits.C71_ttq",
    "Verif.Bits.C71_amex_enh"
   ],
   "note": "Reserved bits which share one line are the stated exceptions; for TTQ and Enhanced Contactless Reader Capabilities nothing is said about reserved bits."
  },
  {
   "property": "C72",
   "status": "proved",
   "theorems": [
    "Verif.Bits.C72_term_caps",
    "Verif.Bits.C72_addl_term_caps",
    "Verif.Bits.C72_ttq",
    "Verif.Bits.C72_amex_enh",
    "Verif.Bits.C72_lines",
    "Verif.Bits.C72_ffi_lines",
    "Verif.Bits.C72_ffi",
    "Verif.Bits.C72_term_type",
    "Verif.Bits.C72_cid",
    "Verif.Bits.C72_no_output"
   ],
   "note": "C72_lines and C72_ffi_lines: at least one line for every value of the capabilities, qualifiers and indicators. The line for absent output capabilities is labelled as input capability in the code; the table follows the code."
  },
  {
   "property": "C73",
   "status": "proved",
   "theorems": [
    "Verif.Lists.C73_list",
    "Verif.Lists.C73_list_refused",
    "Verif.Lists.C73_results"
   ],
   "note": "Every list of 1 to 122 rules and every three byte result; the exact text is stated for outputs that are long enough, otherwise a terminated text is stated (Shows)."
  },
  {
   "property": "C74",
   "status": "proved",
   "theorems": [
    "Verif.Lists.C74_accept",
    "Verif.Lists.C74_refused"
   ],
   "note": "C74_refused covers every input that is not the encoding of 1 to 63 well-formed entries."
  },
  {
   "property": "C75",
   "status": "proved",
   "theorems": [
    "Verif.Lists.C75_accept",
    "Verif.Lists.C75_refused"
   ],
   "note": "For refused input the line of the broken entry may already be in the output (the code checks the length after adding the line)."
  },
  {
   "property": "C76",
   "status": "proved",
   "theorems": [
    "Verif.Lists.C76_currency",
    "Verif.Lists.C76_currency_refused",
    "Verif.Lists.C76_language",
    "Verif.Lists.C76_odd"
   ],
   "note": "The tables are arbitrary functions that give NUL free names. Names are cut at 127 bytes."
  },
  {
   "property": "C77",
   "status": "partial",
   "theorems": [
    "Verif.Iad.C77_iad_partial",
    "Verif.Iad.C77_safe",
    "Verif.Iad.C77_ccd_upper_wrong"
   ],
   "note": "All formats and values except CCD data whose bits for the lower and upper cumulative offline amount limit differ: the code uses one constant for both (C77_ccd_upper_wrong)."
  },
  {
   "property": "C78",
   "status": "partial",
   "theorems": [
    "Verif.Iad.C78_auth_partial",
    "Verif.Iad.C78_safe",
    "Verif.Iad.C78_undescribed",
    "Verif.Iad.C78_csu_typo"
   ],
   "note": "All values except a Card Status Update with offline counter action 01, whose line lacks its first letter (C78_csu_typo). Data of none of the kinds leaves the output untouched with code 0 (C78_undescribed)."
  },
  {
   "property": "C79",
   "status": "proved",
   "theorems": [
    "Verif.Iad.C79_shown",
    "Verif.Iad.C79_empty",
    "Verif.Iad.C79_refused",
    "Verif.Iad.C79_entries"
   ],
   "note": "The table is that of the code; C79_entries shows that its order does not matter."
  },
  {
   "property": "C80",
   "status": "proved",
   "theorems": [
    "Verif.Names.C80_txn_type",
    "Verif.Names.C80_account_type",
    "Verif.Names.C80_pos_entry_mode",
    "Verif.Names.C80_reader_caps",
    "Verif.Names.C80_distinct"
   ],
   "note": ""
  },
  {
   "property": "C81",
   "status": "partial",
   "theorems": [
    "Verif.Names.C81_aid_partial",
    "Verif.Names.C81_jcb",
    "Verif.Names.C81_aid_length",
    "Verif.Names.C81_number",
    "Verif.Names.C81_alpha",
    "Verif.Names.C81_no_output"
   ],
   "note": "JCB is in the register, but an AID with its prefix is not recognised (C81_jcb)."
  },
  {
   "property": "C82",
   "status": "partial",
   "theorems": [
    "Verif.TlvInfo.C82_text",
    "Verif.TlvInfo.C82_digits",
    "Verif.TlvInfo.C82_number_partial",
    "Verif.TlvInfo.C82_number_refused",
    "Verif.TlvInfo.C82_wraps",
    "Verif.TlvInfo.C82_zeros_lost"
   ],
   "note": "Numbers from 2^32 on are shown modulo 2^32 (C82_wraps), zeros in front are lost (C82_zeros_lost)."
  },
  {
   "property": "C83",
   "status": "partial",
   "theorems": [
    "Verif.TlvInfo.C83_declared",
    "Verif.TlvInfo.C83_by_tag",
    "Verif.TlvInfo.C83_distinct",
    "Verif.TlvInfo.C83_unknown",
    "Verif.TlvInfo.C83_templates",
    "Verif.TlvInfo.C83_lists",
    "Verif.TlvInfo.C83_9F66",
    "Verif.TlvInfo.C83_9F6D",
    "Verif.TlvInfo.C83_exclusive",
    "Verif.TlvInfo.C83_9F6E",
    "Verif.TlvInfo.C83_df_name_partial",
    "Verif.TlvInfo.C83_df_name_raw",
    "Verif.TlvInfo.C83_country",
    "Verif.TlvInfo.C83_described",
    "Verif.TlvInfo.C83_undescribed"
   ],
   "note": "Application identifiers of 14 bytes are copied as text (C83_df_name_raw)."
  },
  {
   "property": "C84",
   "status": "partial",
   "theorems": [
    "Verif.TlvInfo.C84_safe_partial",
    "Verif.TlvInfo.C84_undefined"
   ],
   "note": "The exceptions are undefined behaviour, each of them (C84_undefined): the two theorems together decide every case."
  },
  {
   "property": "C85",
   "status": "proved",
   "theorems": [
    "Verif.IsoStr.C85_status",
    "Verif.IsoStr.C85_no_output"
   ],
   "note": "Words and kinds are written out independently of the code, which is compared with them for all 65536 words."
  },
  {
   "property": "C86",
   "status": "partial",
   "theorems": [
    "Verif.IsoStr.C86_life_cycle",
    "Verif.IsoStr.C86_service",
    "Verif.IsoStr.C86_service_lines",
    "Verif.IsoStr.C86_capabilities",
    "Verif.IsoStr.C86_no_capabilities",
    "Verif.IsoStr.C86_no_lines",
    "Verif.IsoStr.C86_lines"
   ],
   "note": "The one byte capabilities 00 are accepted without any output (C86_no_lines); every other value has a line (C86_lines)."
  },
  {
   "property": "C87",
   "status": "partial",
   "theorems": [
    "Verif.AtrStr.C87_ts",
    "Verif.AtrStr.C87_t0",
    "Verif.AtrStr.C87_td",
    "Verif.AtrStr.C87_td4",
    "Verif.AtrStr.C87_td_absent",
    "Verif.AtrStr.C87_t1_partial",
    "Verif.AtrStr.C87_t1_td4"
   ],
   "note": "The category indicator is described for ATRs without a TD4; with one, TD4 is described in its place (C87_t1_td4)."
  },
  {
   "property": "C88",
   "status": "partial",
   "theorems": [
    "Verif.AtrStr.C88_numbers",
    "Verif.AtrStr.C88_ta1",
    "Verif.AtrStr.C88_rate_partial",
    "Verif.AtrStr.C88_rate_wrong",
    "Verif.AtrStr.C88_ta2",
    "Verif.AtrStr.C88_tb1",
    "Verif.AtrStr.C88_tb2",
    "Verif.AtrStr.C88_tc1",
    "Verif.AtrStr.C88_tc2",
    "Verif.AtrStr.C88_ta",
    "Verif.AtrStr.C88_tb",
    "Verif.AtrStr.C88_tc",
    "Verif.AtrStr.C88_own_partial",
    "Verif.AtrStr.C88_shows_last"
   ],
   "note": "Exact texts for every accepted ATR are proved; they differ from what the bytes mean for the bit rate when Di does not divide Fi (C88_rate_wrong), for several sets of one protocol type (C88_shows_last) and when BWT wraps (C46_bwt_wraps)."
  },
  {
   "property": "C89",
   "status": "partial",
   "theorems": [
    "Verif.Print.C89_listing_partial",
    "Verif.Print.C89_definite_partial",
    "Verif.Print.C89_bad_oid",
    "Verif.Print.C89_joint_arc",
    "Verif.PrintSpec.C89_unique"
   ],
   "note": "For documents whose object identifiers can be shown: an undecodable one breaks the line (C89_bad_oid), a first number of several octets is split into wrong numbers (C89_joint_arc)."
  },
  {
   "property": "C90",
   "status": "partial",
   "theorems": [
    "Verif.Print.C90_every_input",
    "Verif.Print.C90_error_partial",
    "Verif.Print.C90_safe_partial",
    "Verif.Print.C90_overflow",
    "Verif.PrintSpec.C90_unique"
   ],
   "note": "Object identifiers of more than ten numbers overflow the decoded array (C90_overflow); excluded from the safety theorem, as are undecodable ones from the exact text."
  },
  {
   "property": "C91",
   "status": "partial",
   "theorems": [
    "Verif.Print.C91_pkcs7_partial",
    "Verif.Print.C91_whole_block",
    "Verif.Print.C91_method2",
    "Verif.Print.C91_not_asked"
   ],
   "note": "Holds for padding shorter than the block; a whole block of padding and ISO 9797-1 method 2 are not recognised or taken for objects (C91_whole_block, C91_method2)."
  },
  {
   "property": "C92",
   "status": "partial",
   "theorems": [
    "Verif.Print.C92_listing_partial",
    "Verif.Print.C92_definite_partial",
    "Verif.Print.C92_error_partial",
    "Verif.Print.C92_safe_partial",
    "Verif.Print.C92_field_list_partial",
    "Verif.Print.C92_undefined"
   ],
   "note": "For fields with a defined description; the others make the listing undefined (C92_undefined with C84_undefined)."
  },
  {
   "property": "C93",
   "status": "partial",
   "theorems": [
    "Verif.Print.C93_dol_partial",
    "Verif.Print.C93_reqs",
    "Verif.Print.C93_tags",
    "Verif.Print.C93_tags_in",
    "Verif.Print.C93_fields_partial",
    "Verif.Print.C93_tag_field",
    "Verif.Print.C93_name",
    "Verif.Print.C93_null",
    "Verif.Print.C93_cut"
   ],
   "note": "Undefined for an entry that asks for 14 bytes of tag 84 (C93_null); an incomplete entry at the end is dropped silently (C93_cut)."
  },
  {
   "property": "C94",
   "status": "partial",
   "theorems": [
    "Verif.PrintCard.C94_interface",
    "Verif.PrintCard.C94_listing_partial",
    "Verif.PrintCard.C94_no_check"
   ],
   "note": "ATRs with TD4 are excluded: their historical bytes are misplaced (C43_td4_outside). False for the check byte: one is listed for every ATR without (C94_no_check)."
  },
  {
   "property": "C95",
   "status": "partial",
   "theorems": [
    "Verif.PrintCard.C95_every",
    "Verif.PrintCard.C95_unique",
    "Verif.PrintCard.C95_history_partial",
    "Verif.PrintCard.C95_safe_partial",
    "Verif.PrintCard.C95_empty_service",
    "Verif.PrintCard.C95_no_lines"
   ],
   "note": "Empty card service data are described by the next byte stored (C95_empty_service); for the capabilities 00 the array is printed although nothing was written to it (C95_no_lines)."
  },
  {
   "property": "C96",
   "status": "partial",
   "theorems": [
    "Verif.PrintCard.C96_response",
    "Verif.PrintCard.C96_status",
    "Verif.PrintCard.C96_command_partial",
    "Verif.PrintCard.C96_application",
    "Verif.PrintCard.C96_delivery",
    "Verif.PrintCard.C96_text",
    "Verif.PrintCard.C96_names",
    "Verif.PrintCard.C96_events",
    "Verif.PrintCard.C96_atr_partial",
    "Verif.PrintCard.C96_data_partial",
    "Verif.PrintCard.C96_command_event"
   ],
   "note": "Commands of C56 are read past their end, exactly (C96_command_partial). TLV events print the listing of C92."
  },
  {
   "property": "C97",
   "status": "partial",
   "theorems": [
    "Verif.Hex.C97_bytes",
    "Verif.Hex.C97_refused",
    "Verif.Hex.C97_safe_partial",
    "Verif.Hex.C97_undefined",
    "Verif.Hex.C97_roundtrip",
    "Verif.Hex.C97_trailing_space",
    "Verif.Hex.C97_cut",
    "Verif.Hex.C97_file",
    "Verif.Hex.C97_argument"
   ],
   "note": "Undefined for every text with a character from 80 on before the first foreign character (C97_undefined). White space after the last digit is refused as an odd number of digits (C97_trailing_space); parse_hex itself cuts silently when its buffer is small (C97_cut), the tool never gives it such a buffer (C97_argument)."
  },
  {
   "property": "C98",
   "status": "partial",
   "theorems": [
    "Verif.Codes.C98_lookup",
    "Verif.Codes.C98_countries_refused",
    "Verif.Codes.C98_currencies_refused",
    "Verif.Codes.C98_languages_refused",
    "Verif.Codes.C98_categories_refused",
    "Verif.Codes.C98_safe_partial",
    "Verif.Codes.C98_empty_path",
    "Verif.Codes.C98_terminated",
    "Verif.Codes.C98_again",
    "Verif.Codes.C98_names",
    "Verif.Codes.C98_tables",
    "Verif.Codes.C98_half"
   ],
   "note": "Exact for documents of the expected form, with what is known after each kind of failure. Undefined for an empty path (C98_empty_path) and for lookups after a second initialisation (C98_again); a country or currency number std::stoul refuses ends the program (C98_terminated). Of a refused document of merchant categories those before the element at fault stay known (C98_half)."
  },
  {
   "property": "C99",
   "status": "partial",
   "theorems": [
    "Verif.Decode.C99_uninitialised",
    "Verif.Decode.C99_truncated",
    "Verif.Decode.C99_term_type_zero",
    "Verif.Decode.C99_cvm_list",
    "Verif.Decode.C99_cvm_list_refused",
    "Verif.Decode.C99_iad_partial",
    "Verif.Decode.C99_mcc",
    "Verif.Decode.C99_third_partial",
    "Verif.Decode.C99_third_overread",
    "Verif.Decode.C99_other_lengths",
    "Verif.Decode.C99_status_word",
    "Verif.Decode.C99_atr_partial",
    "Verif.Decode.C99_data_partial",
    "Verif.Decode.C99_lists_partial",
    "Verif.Decode.C99_length",
    "Verif.Decode.C99_field_partial"
   ],
   "note": "False of the code: a field of flags none of which is set prints an array that was never written (C99_uninitialised); Additional Terminal Capabilities of many bits are cut (C99_truncated), so are long CVM lists and Issuer Application Data; Terminal Type 00 is refused (C99_term_type_zero); Third Party Data of five bytes are read past their end (C99_third_overread). Proved: the exact output for everything else, up to the cases in which the listings themselves are undefined."
  },
  {
   "property": "C100",
   "status": "partial",
   "theorems": [
    "Verif.Decode.C100_country",
    "Verif.Decode.C100_currency",
    "Verif.Decode.C100_language",
    "Verif.Decode.C100_text_partial",
    "Verif.Decode.C100_text_overflow",
    "Verif.Decode.C100_status"
   ],
   "note": "False of the code: text whose UTF-8 fills 2048 bytes exactly writes past the array (C100_text_overflow); the exit status is 0 also when nothing could be decoded (C100_status); text that begins with a control character is shown as an empty line (C100_text_partial). Proved: everything shown for codes, and for text that fits."
  },
  {
   "property": "C101",
   "status": "partial",
   "theorems": [
    "Verif.ThirdParty.C101_text_partial",
    "Verif.ThirdParty.C101_bare",
    "Verif.ThirdParty.C101_conforming_partial"
   ],
   "note": "Except fields of five bytes whose unique identifier has its top bit unset, which are read past their end (C57_overread). Conforming fields are shown by exactly their lines."
  },
  {
   "property": "C102",
   "status": "proved",
   "theorems": [
    "Verif.PcscInit.C102_readers",
    "Verif.PcscInit.C102_failure",
    "Verif.PcscInit.C102_release"
   ],
   "note": "For services that fill in no more than the size they announced and readers that answer within the buffers they are given."
  },
  {
   "property": "C103",
   "status": "partial",
   "theorems": [
    "Verif.PcscInit.C103_requests",
    "Verif.PcscInit.C103_known_partial",
    "Verif.PcscInit.C103_unknown",
    "Verif.PcscInit.C103_layout_partial",
    "Verif.PcscInit.C103_display_partial",
    "Verif.PcscInit.C103_lost",
    "Verif.PcscInit.C103_foreign_handle"
   ],
   "note": "False of the code: a failed request for PIN or display properties keeps the later ones from being asked (C103_lost), and a reader that cannot be connected makes an uninitialised handle be disconnected (C103_foreign_handle). Feature lists with entries of another length are refused but stay listed (C68_refused_still_listed)."
  },
  {
   "property": "C104",
   "status": "partial",
   "theorems": [
    "Verif.PcscInit.C104_wait",
    "Verif.PcscInit.C104_index_lost"
   ],
   "note": "False of the code: when no reader has a card the index becomes SIZE_MAX, which is not PCSC_READER_ANY, and waiting again watches no reader (C104_index_lost). Everything else is proved, for services that report nothing of ignored readers."
  },
  {
   "property": "C105",
   "status": "partial",
   "theorems": [
    "Verif.PcscConn.C105_live_partial",
    "Verif.PcscConn.C105_stale_handle",
    "Verif.PcscConn.C105_exchange",
    "Verif.PcscConn.C105_failed_partial",
    "Verif.PcscConn.C105_connect",
    "Verif.PcscConn.C105_left_connected"
   ],
   "note": "False of the code for services that overwrite the handle when connecting fails (C105_stale_handle), and a card that does not answer the UID request stays connected (C105_left_connected)."
  },
  {
   "property": "C106",
   "status": "partial",
   "theorems": [
    "Verif.ToolReaders.C106_listing",
    "Verif.ToolReaders.C106_reader_partial",
    "Verif.ToolReaders.C106_tool_partial",
    "Verif.ToolReaders.C106_omitted",
    "Verif.ToolReaders.C106_contradiction"
   ],
   "note": "False of the code for property lists the library misreads (C106_omitted, from C59_misparsed) and readers that fail a request for a description they list (C103_lost); a reader without a display can be listed with both \"No LCD\" and \"LCD\" (C106_contradiction). C106_listing gives the exact text for whatever the library knows of each reader; C106_tool_partial goes from the answers of the service to the text."
  },
  {
   "property": "C107",
   "status": "proved",
   "theorems": [
    "Verif.ToolReaders.C107_state",
    "Verif.ToolReaders.C107_unknown"
   ],
   "note": ""
  },
  {
   "property": "C108",
   "status": "partial",
   "theorems": [
    "Verif.ToolArgs.C108_type_digits",
    "Verif.ToolArgs.C108_type",
    "Verif.ToolArgs.C108_type_loose",
    "Verif.ToolArgs.C108_amount",
    "Verif.ToolArgs.C108_amount_other",
    "Verif.ToolArgs.C108_amount_digits",
    "Verif.ToolArgs.C108_amount_loose",
    "Verif.ToolArgs.C108_sources",
    "Verif.ToolArgs.C108_level",
    "Verif.ToolArgs.C108_events_partial",
    "Verif.ToolArgs.C108_all",
    "Verif.ToolArgs.C108_defined",
    "Verif.ToolArgs.C108_last",
    "Verif.ToolArgs.C108_refused"
   ],
   "note": "False of the code and proved so: more than two decimal digits is accepted for the type (C108_type_loose) and more than digits for amounts (C108_amount_loose; C108_type, C108_amount and C108_amount_other state exactly what is accepted); the debug source ALL turns off the events of every source (C108_all; C108_events_partial is for the other names)."
  },
  {
   "property": "C109",
   "status": "proved",
   "theorems": [
    "Verif.ToolTxn.C109_params",
    "Verif.ToolTxn.C109_load",
    "Verif.ToolTxn.C109_supported",
    "Verif.ToolTxn.C109_command_line"
   ],
   "note": ""
  },
  {
   "property": "C110",
   "status": "partial",
   "theorems": [
    "Verif.ToolTxn.C110_once",
    "Verif.ToolTxn.C110_transaction",
    "Verif.ToolTxn.C110_safe_partial",
    "Verif.ToolTxn.C110_success",
    "Verif.ToolTxn.C110_stuck"
   ],
   "note": "False of the code: an answer of success without data makes the kernel read an uninitialised byte (C29_empty_record; the only way to undefined behaviour by C110_transaction), and when the cardholder must choose and standard input has ended the question is asked forever (C110_stuck). C110_transaction states how every run ends."
  },
  {
   "property": "C111",
   "status": "partial",
   "theorems": [
    "Verif.ToolTxn.C111_choice",
    "Verif.ToolTxn.C111_line",
    "Verif.ToolTxn.C111_long",
    "Verif.ToolTxn.C111_question"
   ],
   "note": "False of the code for lines of more than two characters, which are cut into several answers, and numbers followed by other characters or with a sign (C111_long). C111_line is for lines of at most two characters, C111_choice states the choice for every input."
  },
  {
   "property": "C112",
   "status": "proved",
   "theorems": [
    "Verif.ToolTxn.C112_texts"
   ],
   "note": ""
  },
  {
   "property": "C113",
   "status": "partial",
   "theorems": [
    "Verif.Stack.C113_kernel",
    "Verif.Stack.C113_bytes",
    "Verif.Stack.C113_safe_partial",
    "Verif.Stack.C113_success"
   ],
   "note": "False of the code: a command answered with success and without data makes the kernel read an uninitialised byte (C29_empty_record); by C113_bytes this is the only way to undefined behaviour."
  },
  {
   "property": "C114",
   "status": "partial",
   "theorems": [
    "Verif.ToolMain.C114_released",
    "Verif.ToolMain.C114_status",
    "Verif.ToolMain.C114_sent",
    "Verif.ToolMain.C114_commands",
    "Verif.ToolMain.C114_course",
    "Verif.ToolMain.C114_success",
    "Verif.ToolMain.C114_disconnected_partial",
    "Verif.ToolMain.C114_left_connected",
    "Verif.ToolMain.C114_safe_partial"
   ],
   "note": "False of the code: whenever the run gets to know the ATR of a card and does not end with the card deactivated, the card is still connected (C114_left_connected; C114_disconnected_partial is for the other runs), and the status is 0 after every failure at the service, reader or card (C114_status states it exactly). C114_safe_partial does not cover the inputs for which parts are already shown to be unsafe (C44_unsafe, C29_empty_record, property lists other than in C106_reader_partial). C114_course gives the output for readers described as in C106."
  },
  {
   "property": "C115",
   "status": "partial",
   "theorems": [
    "Verif.Viewer.C115_every_input",
    "Verif.Viewer.C115_places",
    "Verif.Viewer.C115_tree_partial",
    "Verif.Viewer.C115_safe_partial"
   ],
   "note": "The ways of reading (C115_every_input, C115_places) are for all data. The tree itself is for data whose fields can be described (C116_undefined, C116_dol_84 show that it fails on others) and below 2^31 bytes."
  },
  {
   "property": "C116",
   "status": "partial",
   "theorems": [
    "Verif.Viewer.C116_texts_partial",
    "Verif.Viewer.C116_undefined",
    "Verif.Viewer.C116_dol_84"
   ],
   "note": "False of the code: fields whose description is undefined (C84), such as an empty Transaction Type, make it read or write outside of arrays (C116_undefined), and a data object list that asks for 14 bytes of tag 84 makes it read from a null pointer (C116_dol_84)."
  },
  {
   "property": "C117",
   "status": "partial",
   "theorems": [
    "Verif.Viewer.C117_pkcs7_partial",
    "Verif.Viewer.C117_not_asked",
    "Verif.Viewer.C117_tree_partial",
    "Verif.Viewer.C117_tree_not_asked_partial",
    "Verif.Viewer.C117_whole_block",
    "Verif.Viewer.C117_method2",
    "Verif.Viewer.C117_fifteen"
   ],
   "note": "False of the code: a whole block of padding is invalid data (C117_whole_block), method 2 is read as fields (C117_method2), and 15 bytes of AES padding are padding here but invalid data in emv-decode (C117_fifteen)."
  },
  {
   "property": "C118",
   "status": "proved",
   "theorems": [
    "Verif.Viewer.C118_history",
    "Verif.Viewer.C118_decoding"
   ],
   "note": ""
  },
  {
   "property": "C119",
   "status": "partial",
   "theorems": [
    "Verif.Viewer.C119_every_text",
    "Verif.Viewer.C119_text_partial",
    "Verif.Viewer.C119_rows_partial",
    "Verif.Viewer.C119_wide"
   ],
   "note": "False of the code: a character above 255 as the first that is no digit is looked up outside of the table of isxdigit (C119_wide). C119_rows_partial is for data whose fields can be described (see C116)."
  },
  {
   "property": "C120",
   "status": "partial",
   "theorems": [
    "Verif.Viewer.C120_one_look",
    "Verif.Viewer.C120_look_partial",
    "Verif.Viewer.C120_white",
    "Verif.Viewer.C120_wide"
   ],
   "note": "False of the code: white space in a line that is not valid to its end is marked like a character that is no digit (C120_white), and characters above 255 are looked up outside of a table (C120_wide)."
  },
  {
   "property": "C121",
   "status": "partial",
   "theorems": [
    "Verif.Viewer.C121_history",
    "Verif.Viewer.C121_characters_partial",
    "Verif.Viewer.C121_tree_partial",
    "Verif.Viewer.C121_timer"
   ],
   "note": "C121_history and C121_timer are for all events. C121_characters_partial is for characters below 256, not white (C120_white, C120_wide) and a selection inside of the data (C122_kept); C121_tree_partial for fields that can be described (C116)."
  },
  {
   "property": "C122",
   "status": "partial",
   "theorems": [
    "Verif.Viewer.C122_press_partial",
    "Verif.Viewer.C122_other",
    "Verif.Viewer.C122_kept",
    "Verif.Viewer.C122_unpressed",
    "Verif.Viewer.C122_kept_marks",
    "Verif.Viewer.C122_stale"
   ],
   "note": "False of the code: what is marked stays marked when the text changes (C122_kept, C122_kept_marks), and an item pressed before the tree is updated marks other bytes (C122_stale)."
  },
  {
   "property": "C123",
   "status": "proved",
   "theorems": [
    "Verif.Viewer.C123_start",
    "Verif.Viewer.C123_lines",
    "Verif.Viewer.C123_starts",
    "Verif.Viewer.C123_round_trip",
    "Verif.Viewer.C123_options"
   ],
   "note": ""
  },
  {
   "property": "C124",
   "status": "partial",
   "theorems": [
    "Verif.Viewer.C124_safe_partial",
    "Verif.Viewer.C124_wide"
   ],
   "note": "False of the code for characters above 255 (C124_wide) and fields whose description is undefined (C116_undefined); C124_safe_partial is for all other texts."
  },
  {
   "property": "C125",
   "status": "proved",
   "theorems": [
    "Verif.DecodeArgs.C125_reading",
    "Verif.DecodeArgs.C125_values",
    "Verif.DecodeArgs.C125_data",
    "Verif.DecodeArgs.C125_code",
    "Verif.DecodeArgs.C125_help",
    "Verif.DecodeArgs.C125_ended",
    "Verif.DecodeArgs.C125_modes",
    "Verif.DecodeArgs.C125_refused",
    "Verif.DecodeArgs.C125_order",
    "Verif.DecodeArgs.C125_nothing",
    "Verif.DecodeArgs.C125_posix"
   ],
   "note": ""
  },
  {
   "property": "C126",
   "status": "proved",
   "theorems": [
    "Verif.DecodeArgs.C126_names",
    "Verif.DecodeArgs.C126_fields",
    "Verif.DecodeArgs.C126_words",
    "Verif.DecodeArgs.C126_pages",
    "Verif.DecodeArgs.C126_status",
    "Verif.DecodeArgs.C126_refused",
    "Verif.DecodeArgs.C126_country",
    "Verif.DecodeArgs.C126_currency",
    "Verif.DecodeArgs.C126_language",
    "Verif.DecodeArgs.C126_mcc"
   ],
   "note": ""
  },
  {
   "property": "C127",
   "status": "partial",
   "theorems": [
    "Verif.DecodeArgs.C127_path",
    "Verif.DecodeArgs.C127_letter",
    "Verif.DecodeArgs.C127_flags",
    "Verif.DecodeArgs.C127_decode_partial",
    "Verif.DecodeArgs.C127_safe_partial"
   ],
   "note": "False of the code: an empty path for the tables (C127_path), inputs with characters outside of ASCII (C127_letter) and flags none of which is set (C127_flags) are undefined; the other exceptions in Benign are those of C92 to C100. C127_safe_partial is for every other command line."
  },
  {
   "property": "C128",
   "status": "partial",
   "theorems": [
    "Verif.ToolWords.C128_reading",
    "Verif.ToolWords.C128_names",
    "Verif.ToolWords.C128_accepted",
    "Verif.ToolWords.C128_other_words",
    "Verif.ToolWords.C128_ending",
    "Verif.ToolWords.C128_cases",
    "Verif.ToolWords.C128_nothing",
    "Verif.ToolWords.C128_paths",
    "Verif.ToolWords.C128_run",
    "Verif.ToolWords.C128_released",
    "Verif.ToolWords.C128_safe_partial",
    "Verif.ToolWords.C128_path",
    "Verif.ToolWords.C128_values",
    "Verif.ToolWords.C128_meaning",
    "Verif.ToolWords.C128_verbose",
    "Verif.ToolWords.C128_texts"
   ],
   "note": "False of the code: an empty path for the tables is undefined (C128_path). C128_safe_partial takes over the conditions of C114_safe_partial, for inputs outside of them parts are shown to be unsafe."
  },
  {
   "property": "C129",
   "status": "partial",
   "theorems": [
    "Verif.Iso8859Alt.C129_pages",
    "Verif.Iso8859Alt.C129_boost",
    "Verif.Iso8859Alt.C129_iconv",
    "Verif.Iso8859Alt.C129_zeroed_partial",
    "Verif.Iso8859Alt.C129_unterminated",
    "Verif.Iso8859Alt.C129_same",
    "Verif.Iso8859Alt.C129_display",
    "Verif.Iso8859Alt.C129_split",
    "Verif.Iso8859Alt.C129_differ"
   ],
   "note": "proved for boost but for texts that do not fit, which are cut inside of a character (C129_split); for iconv the text is only terminated if the array was cleared before and is larger than the text (C129_unterminated, C129_zeroed_partial). Characters a page does not have and control characters are treated differently by the builds (C129_differ). The libraries are modelled from their documentation, the characters of the pages are a parameter."
  },
  {
   "property": "C130",
   "status": "partial",
   "theorems": [
    "Verif.AppAlt.C130_simple",
    "Verif.AppAlt.C130_boost",
    "Verif.AppAlt.C130_whole",
    "Verif.AppAlt.C130_iconv_partial",
    "Verif.AppAlt.C130_thai"
   ],
   "note": "proved for boost for all fields, in bytes; whole characters for names whose characters take at most two bytes (C130_whole). False for names of more than ten Thai letters: the last is cut with boost, and with iconv the name is not terminated (C130_thai)."
  },
  {
   "property": "C131",
   "status": "partial",
   "theorems": [
    "Verif.Own.C131_owned_partial",
    "Verif.Own.C131_released_partial",
    "Verif.Own.C131_retry",
    "Verif.Own.C131_again"
   ],
   "note": "proved for all sequences of calls in which processing of an application is not initiated again after it was initiated (it may be after it failed: C131_retry). False otherwise: the AID was released with the data of the card and is read again (C131_again)."
  },
  {
   "property": "C132",
   "status": "partial",
   "theorems": [
    "Verif.Trace.C132_exchange",
    "Verif.Trace.C132_refused",
    "Verif.Trace.C132_same",
    "Verif.Trace.C132_build_partial",
    "Verif.Trace.C132_announced",
    "Verif.Trace.C132_directory",
    "Verif.Trace.C132_reasons_partial",
    "Verif.Trace.C132_silent",
    "Verif.Trace.C132_selected",
    "Verif.Trace.C132_initiated",
    "Verif.Trace.C132_leak",
    "Verif.Trace.C132_leaks"
   ],
   "note": "proved for all exchanges and calls, except what is false: records of the directory are read without announcement (C132_directory), an application whose AID is longer than 16 bytes is passed over without any event (C132_silent), and one message shows uninitialised memory (C132_leak, C132_leaks). Events of level TRACE are not modelled; those of emv_atr_parse are C133."
  },
  {
   "property": "C133",
   "status": "proved",
   "theorems": [
    "Verif.Trace.Atr.C133_same",
    "Verif.Trace.Atr.C133_refused",
    "Verif.Trace.Atr.C133_reason",
    "Verif.Trace.Atr.C133_true",
    "Verif.Trace.Atr.C133_never"
   ],
   "note": "One of the messages in the code can never be shown (C133_never)."
  },
  {
   "property": "C134",
   "status": "proved",
   "theorems": [
    "Verif.Trace.C134_cause",
    "Verif.Trace.C134_afl",
    "Verif.Trace.C134_select",
    "Verif.Trace.C134_build",
    "Verif.Trace.C134_initiate",
    "Verif.Trace.C134_read",
    "Verif.Trace.C134_verdict",
    "Verif.Trace.C134_candidates"
   ],
   "note": "Arguments that are refused as invalid (result -2 of the terminal application layer) are refused without an event, and the result 14 (offline data authentication impossible) is not a failure; see C135."
  },
  {
   "property": "C135",
   "status": "partial",
   "theorems": [
    "Verif.Trace.C135_file",
    "Verif.Trace.C135_afl_partial",
    "Verif.Trace.C135_undesignated",
    "Verif.Trace.C135_used",
    "Verif.Trace.C135_again"
   ],
   "note": "The code disregards how many records of an entry are for offline data authentication: the result 14 can come from a record that is not designated (C135_undesignated), a record that is not designated is reported as used (C135_used), and after an invalid record the records of the next entry are again reported as used (C135_again). Proved for every AFL and card: which records are read, and exactly what is reported and returned."
  },
  {
   "property": "C136",
   "status": "partial",
   "theorems": [
    "Verif.Trace.C136_exchange",
    "Verif.Trace.C136_errors",
    "Verif.Trace.C136_calls_partial",
    "Verif.Trace.C136_undefined",
    "Verif.Trace.C136_quiet",
    "Verif.Trace.C136_wider"
   ],
   "note": "False of answers with fields whose description is undefined (C84): the answer 9C 00 to a SELECT makes the output undefined with the settings of emv-tool without options (C136_undefined). Proved for the exchange of every command of at least four bytes (all those of the library), for the calls of the kernel at levels below INFO whatever the card answers, and at every level for answers whose fields can be described. Events of level TRACE and of the ATR are not included (for the ATR see C96)."
  },
  {
   "property": "C137",
   "status": "proved",
   "theorems": [
    "Verif.Trace.C137_directory"
   ],
   "note": "The number shown for a record that is in another template is not the tag found but uninitialised memory (C132_leak); the specification leaves it open. A directory whose FCI is only partly encoded is read with the fields before the fault. What makes an entry valid and supported is C32, C36 and C37."
  },
  {
   "property": "C138",
   "status": "proved",
   "theorems": [
    "Verif.Trace.C138_initiated",
    "Verif.Trace.C138_selected",
    "Verif.Trace.C138_read"
   ],
   "note": "The data sent are those of C17 and C63; which records are said to be used for offline data authentication is C135."
  },
  {
   "property": "C139",
   "status": "partial",
   "theorems": [
    "Verif.Debug.C139_time",
    "Verif.Debug.C139_far",
    "Verif.Debug.C139_elapsed",
    "Verif.Debug.C139_order_partial",
    "Verif.Debug.C139_wraps",
    "Verif.Debug.C139_width",
    "Verif.Debug.C139_calls",
    "Verif.Debug.C139_silent"
   ],
   "note": "False of the code: the time is kept in 32 bits of microseconds, so that a later event may have an earlier time (C139_wraps). Proved: the order while no multiple of 2^32 microseconds is between two events, and the time between them if less than 71 minutes."
  },
  {
   "property": "C140",
   "status": "proved",
   "theorems": [
    "Verif.Capdu.C140_iso",
    "Verif.Capdu.C140_name",
    "Verif.Capdu.C140_extended",
    "Verif.Capdu.C140_emv"
   ],
   "note": "C140_iso: every interindustry command except SELECT (for which C67) and extended commands with data (classified wrongly, C22): of these, PUT DATA is described by its name or not at all (C140_extended), other instructions than READ RECORD and SELECT as always (C140_name). The text \"PUT DATA for current EF\" is unreachable in the code."
  },
  {
   "property": "C141",
   "status": "partial",
   "theorems": [
    "Verif.Agree.C141_ber_partial",
    "Verif.Agree.C141_emv_partial",
    "Verif.Agree.C141_oid"
   ],
   "note": "False of the code: fifteen bytes of AES padding are padding in the viewer and invalid data in emv-decode (C117_fifteen, used as a hypothesis here), and an object identifier that cannot be shown breaks the listing of BER data, not the tree (C141_oid). Proved for all other data; those with fields whose description is undefined (C92_undefined, C116_undefined) are excluded for EMV data."
  },
  {
   "property": "C142",
   "status": "proved",
   "theorems": [
    "Verif.Same.C142_description",
    "Verif.Same.C142_listing",
    "Verif.Same.C142_fields",
    "Verif.Same.C142_ber",
    "Verif.Same.C142_viewer",
    "Verif.Same.C142_agree"
   ],
   "note": ""
  },
  {
   "property": "C143",
   "status": "partial",
   "theorems": [
    "Verif.Nest.C143_decode",
    "Verif.Nest.C143_enough_partial",
    "Verif.Nest.C143_marks_partial",
    "Verif.Nest.C143_card",
    "Verif.Nest.C143_parse_exact",
    "Verif.Nest.C143_ber_exact",
    "Verif.Nest.C143_emv_exact",
    "Verif.Nest.C143_tree_exact",
    "Verif.Nest.C143_opened",
    "Verif.Nest.C143_unbounded"
   ],
   "note": "False of the code: well-formed data of six bytes for each frame run out of any number of them (C143_unbounded), unfinished objects of indefinite length take one frame for every two bytes (C143_opened). Proved: what is enough for data of any length (C143_decode, C143_enough_partial, C143_marks_partial), exactly what is needed by well-formed data, and that 130 frames are enough for answers of a card (C143_card)."
  },
  {
   "property": "C144",
   "status": "proved",
   "theorems": [
    "Verif.Work.C144_same",
    "Verif.Work.C144_decode",
    "Verif.Work.C144_linear",
    "Verif.Work.C144_marks",
    "Verif.Work.C144_parse_exact",
    "Verif.Work.C144_ber_exact",
    "Verif.Work.C144_emv_exact",
    "Verif.Work.C144_tree_exact"
   ],
   "note": "Contents of indefinite length are decoded twice (once to find their end), which is why the bound is not one call for each object."
  },
  {
   "property": "C145",
   "status": "proved",
   "theorems": [
    "Verif.Tells.C145_initiate",
    "Verif.Tells.C145_shows",
    "Verif.Tells.C145_transaction",
    "Verif.Tells.C145_tool"
   ],
   "note": "C145_initiate (one application), C145_shows (every difference in a requested field shows), C145_transaction (whole transaction of the tool, by induction over the rounds), C145_tool (options and clock). Answers below 16 MB as in C110; C145_shows and the fields loaded in C145_tool with enough memory."
  },
  {
   "property": "C146",
   "status": "proved",
   "theorems": [
    "Verif.More.C146_object",
    "Verif.More.C146_list",
    "Verif.More.C146_iterate",
    "Verif.More.C146_dol",
    "Verif.More.C146_compact",
    "Verif.More.C146_tree",
    "Verif.More.C146_padding"
   ],
   "note": "Objects, iterators (BER, data object lists, compact TLV), emv_tlv_parse and the viewer's tree. The trees are compared where both can be made (C115, C116 say when); C146_padding is the exception named in the statement."
  },
  {
   "property": "C147",
   "status": "partial",
   "theorems": [
    "Verif.Search.C147_all_partial",
    "Verif.Search.C147_only",
    "Verif.Search.C147_commands",
    "Verif.Search.C147_ends",
    "Verif.Search.C147_endless",
    "Verif.Search.C147_hidden",
    "Verif.Search.C147_unasked",
    "Verif.Search.C147_candidates_partial"
   ],
   "note": "False of the code for cards on which one name begins another: an entry for the whole name misses the application behind one with a longer name (C147_hidden), an entry for the beginning misses those behind the one of exactly that name (C147_unasked). Proved for all other cards (C147_all_partial, C147_candidates_partial), and for all cards: that nothing else is found, that the search ends and the number of commands. A card that does not keep to ISO 7816-4 can be asked without end (C147_endless)."
  },
  {
   "property": "C148",
   "status": "partial",
   "theorems": [
    "Verif.Search.C148_selected_partial",
    "Verif.Search.C148_refused",
    "Verif.Search.C148_same_partial"
   ],
   "note": "Proved for cards on which no name begins another one. False for others: an entry of the list is not found (C147_hidden, C147_unasked) though the directory has it, and a candidate is refused when an application with a longer name comes before it (C148_refused)."
  },
  {
   "property": "C149",
   "status": "proved",
   "theorems": [
    "Verif.Search.C149_directory",
    "Verif.Search.C149_calls",
    "Verif.Search.C149_tool",
    "Verif.Search.C149_card"
   ],
   "note": "Hypotheses are structure Good and the card of C147. That the file control information holds no AFL is needed: the code takes the first one among all ICC data (C64_planted). C149_card needs that no name on the card begins another one (C147_hidden)."
  },
  {
   "property": "C150",
   "status": "proved",
   "theorems": [
    "Verif.Again.C150_calls",
    "Verif.Again.C150_tool",
    "Verif.Again.C150_again",
    "Verif.Again.C150_kept",
    "Verif.Again.C150_order"
   ],
   "note": "session is the application that stops at the first failure; InOrder its order of calls. C150_order shows that the order is needed."
  },
  {
   "property": "C151",
   "status": "proved",
   "theorems": [
    "Verif.Stack.C151_command",
    "Verif.Stack.C151_transaction",
    "Verif.Stack.C151_card",
    "Verif.Stack.C151_directory",
    "Verif.Stack.C151_warning"
   ],
   "note": "APDU mode of the reader; TPDU mode is C152. C151_command leaves out a warning without data, which is C151_warning; the total data of a command is bounded by the 256 bytes of a response APDU."
  },
  {
   "property": "C152",
   "status": "proved",
   "theorems": [
    "Verif.Stack.C152_command",
    "Verif.Stack.C152_transaction"
   ],
   "note": "The card is one that asks for all data at once; for cards that ask byte by byte, or want a command with data repeated by 6Cxx, the code does not follow the protocol (C24_wrong_ins, C24_le_sent, C24_data_as_header). emv-tool itself only uses APDU mode; the transaction in TPDU mode is that of an application making the same calls."
  },
  {
   "property": "C153",
   "status": "proved",
   "theorems": [
    "Verif.Search.C153_others",
    "Verif.Search.C153_once",
    "Verif.Search.C153_none"
   ],
   "note": "6A81 in answer to SELECT ends the transaction (card blocked), as does any other answer to GET PROCESSING OPTIONS than 9000 and 6985 (C110)."
  },
  {
   "property": "C154",
   "status": "proved",
   "theorems": [
    "Verif.Failure.C154_stops",
    "Verif.Failure.C154_kernel",
    "Verif.Failure.C154_reader"
   ],
   "note": "An exchange fails when the command function returns a code other than 0: an error or empty response of the reader, a malformed response or one too long. C154_reader is for errors of the reader, in both modes."
  },
  {
   "property": "C155",
   "status": "partial",
   "theorems": [
    "Verif.Search.C155_directory",
    "Verif.Search.C155_candidates",
    "Verif.Search.C155_members",
    "Verif.Search.C155_search_partial",
    "Verif.Search.C155_repeated"
   ],
   "note": "Directory: proved for all pairs of lists that permit the same AIDs and all cards. Search entry by entry: proved for the order of the entries, on cards on which no name begins another one (C155_search_partial). False for repeated entries, which give each application twice (C155_repeated)."
  },
  {
   "property": "C156",
   "status": "proved",
   "theorems": [
    "Verif.Memory.C156_kernel",
    "Verif.Memory.C156_transaction",
    "Verif.Memory.C156_success"
   ],
   "note": "Allocations while the list is built and an application is selected succeed here; see C158 for those."
  },
  {
   "property": "C157",
   "status": "proved",
   "theorems": [
    "Verif.Blocked.C157_blocked",
    "Verif.Blocked.C157_kernel"
   ],
   "note": "6A81 in answer to SELECT of the next occurrence only ends the search for that AID, as the code says (EMV 4.4 Book 1, 12.3.3)."
  },
  {
   "property": "C158",
   "status": "partial",
   "theorems": [
    "Verif.Scarce.C158_plenty",
    "Verif.Scarce.C158_directory_partial",
    "Verif.Scarce.C158_search_partial",
    "Verif.Scarce.C158_selection_partial",
    "Verif.Scarce.C158_never",
    "Verif.Scarce.C158_lost",
    "Verif.Scarce.C158_passed_over"
   ],
   "note": "The first sentence is false of the code: C158_never (no behaviour of the allocator makes these functions return -1), C158_lost (an application of the directory is missing and the outcome is success), C158_passed_over (the selected application is passed over). That nothing is made up is proved: C158_directory_partial, C158_search_partial, C158_selection_partial. For the search the commands may differ from those with unlimited memory, and only the origin of each candidate is stated."
  }
 ]
}