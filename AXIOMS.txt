Verif.Ber.C01_decode_safe: Classical.choice, Quot.sound, propext
Verif.Ber.C01_tagDecode_safe: Classical.choice, Quot.sound, propext
Verif.Ber.C02_accepts: Quot.sound, propext
Verif.Ber.C02_refuses: Classical.choice, Quot.sound, propext
Verif.Ber.C02_roundtrip: Quot.sound, propext
Verif.Ber.C02_constructed: Classical.choice, Quot.sound, propext
Verif.Ber.C03_iterate_exact: Quot.sound, propext
Verif.Ber.C03_iterate_any: Classical.choice, Quot.sound, propext
Verif.Ber.C04_exact_partial: Classical.choice, Quot.sound, propext
Verif.Ber.C04_contents_partial: Quot.sound, propext
Verif.Ber.C04_eoc_not_consumed: Quot.sound, propext
Verif.Ber.C04_nested_content_lost: Quot.sound, propext
Verif.TlvParse.C05_parse_leaves: Classical.choice, Quot.sound, propext
Verif.TlvParse.C06_parse_any: Classical.choice, Quot.sound, propext
Verif.TlvParse.C06_no_internal_error: Classical.choice, Quot.sound, propext
Verif.Ber.C07_oid_in_bounds_partial: Classical.choice, Quot.sound, propext
Verif.Ber.C07_oid_overflow: Quot.sound, propext
Verif.Ber.C07_oid_value_partial: Classical.choice, Quot.sound, propext
Verif.LL.C08_history: Classical.choice, Quot.sound, propext
Verif.LL.C08_step: Classical.choice, Quot.sound, propext
Verif.LL.C08_hasDup_iff: Classical.choice, Quot.sound, propext
Verif.LL.C08_self_append_loses: Quot.sound, propext
Verif.Formats.C09_encode: Classical.choice, Quot.sound, propext
Verif.Formats.C09_roundtrip: Classical.choice, Quot.sound, propext
Verif.Formats.C10_decode_partial: Classical.choice, Quot.sound, propext
Verif.Formats.C10_wraps: Quot.sound, propext
Verif.Formats.C11_encode: Classical.choice, Quot.sound, propext
Verif.Formats.C11_decode: Classical.choice, Quot.sound, propext
Verif.Formats.C11_encode_decode: Classical.choice, Quot.sound, propext
Verif.Formats.C11_decode_encode: Classical.choice, Quot.sound, propext
Verif.Formats.C12_non_control: Quot.sound, propext
Verif.Formats.C12_alnum_space: Quot.sound, propext
Verif.Formats.C12_refused: propext
Verif.Formats.C12_sets: 
Verif.Formats.C13_hex: Classical.choice, Quot.sound, propext
Verif.Formats.C13_refused: Quot.sound, propext
Verif.Formats.C13_roundtrip: Classical.choice, Quot.sound, propext
Verif.Dol.C14_roundtrip: Quot.sound, propext
Verif.Dol.C14_any: Classical.choice, Quot.sound, propext
Verif.Dol.C15_length: Classical.choice, Quot.sound, propext
Verif.Dol.C15_length_invalid: Classical.choice, Quot.sound, propext
Verif.Dol.C15_build_ok: Classical.choice, Quot.sound, propext
Verif.Dol.C15_too_small: Classical.choice, Quot.sound, propext
Verif.Dol.C15_build_any: Classical.choice, Quot.sound, propext
Verif.Dol.C16_build: Classical.choice, Quot.sound, propext
Verif.Emv.C17_gpo_data: Classical.choice, Quot.sound, propext
Verif.Emv.C17_long_form: 
Verif.Fields.C18_roundtrip: Quot.sound, propext
Verif.Fields.C18_any: Classical.choice, Quot.sound, propext
Verif.Fields.C19_accept: Quot.sound, propext
Verif.Fields.C19_reject: Classical.choice, Quot.sound, propext
Verif.Aid.C20_classify_partial: Quot.sound, propext
Verif.Aid.C20_jcb_not_recognised: Quot.sound, propext
Verif.Aid.C20_length: Classical.choice, Quot.sound, propext
Verif.Fields.C21_format: Classical.choice, Quot.sound, propext
Verif.Apdu.C22_ext_exact_partial: Classical.choice, Quot.sound, propext
Verif.Apdu.C22_recognise_partial: Quot.sound, propext
Verif.Apdu.C22_sound_partial: Classical.choice, Quot.sound, propext
Verif.Apdu.C22_ext_unrecognised: Quot.sound, propext
Verif.Apdu.C22_ext_misclassified: Quot.sound, propext
Verif.Ttl.C23_response_buffer: Classical.choice, Quot.sound, propext
Verif.Ttl.C23_two_needed: Quot.sound, propext
Verif.Ttl.C24_headers_partial: Classical.choice, Quot.sound, propext
Verif.Ttl.C24_ack_partial: Classical.choice, Quot.sound, propext
Verif.Ttl.C24_overread: Quot.sound, propext
Verif.Ttl.C24_leak: Quot.sound, propext
Verif.Ttl.C24_wrong_ins: Quot.sound, propext
Verif.Ttl.C24_data_as_header: Quot.sound, propext
Verif.Ttl.C24_follow_up: Classical.choice, Quot.sound, propext
Verif.Ttl.C24_order_partial: Classical.choice, Quot.sound, propext
Verif.Ttl.C24_le_sent: Quot.sound, propext
Verif.Ttl.C25_exchange: Classical.choice, Quot.sound, propext
Verif.Ttl.C25_ins: Classical.choice, Quot.sound, propext
Verif.Ttl.C25_plain: Quot.sound, propext
Verif.Ttl.C26_data_partial: Classical.choice, Quot.sound, propext
Verif.Ttl.C26_bound_partial: Classical.choice, Quot.sound, propext
Verif.Ttl.C26_ends_partial: Classical.choice, Quot.sound, propext
Verif.Ttl.C26_terminates_partial: Classical.choice, Quot.sound, propext
Verif.Ttl.C26_endless: Quot.sound, propext
Verif.Ttl.C27_select: Classical.choice, Quot.sound, propext
Verif.Ttl.C27_read_record: Classical.choice, Quot.sound, propext
Verif.Ttl.C27_gpo: Classical.choice, Quot.sound, propext
Verif.Ttl.C27_delivers: Classical.choice, Quot.sound, propext
Verif.Tal.C28_order: Classical.choice, Quot.sound, propext
Verif.Tal.C28_terminates_partial: Classical.choice, Quot.sound, propext
Verif.Tal.C28_endless: Classical.choice, Quot.sound, propext
Verif.Tal.C29_single_template: Classical.choice, Quot.sound, propext
Verif.Tal.C29_only_card_fields: Classical.choice, Quot.sound, propext
Verif.Tal.C29_safe: Classical.choice, Quot.sound, propext
Verif.Tal.C29_empty_record: Quot.sound, propext
Verif.Tal.C30_success: Classical.choice, Quot.sound, propext
Verif.Tal.C30_failure: Classical.choice, Quot.sound, propext
Verif.Tal.C30_order: Classical.choice, Quot.sound, propext
Verif.Tal.C30_complete: Classical.choice, Quot.sound, propext
Verif.Tal.C31_success: Classical.choice, Quot.sound, propext
Verif.Tal.C31_format_independent: Classical.choice, Quot.sound, propext
Verif.Tal.C31_failure_partial: Classical.choice, Quot.sound, propext
Verif.Tal.C31_dangling_aip: Quot.sound, propext
Verif.Tal.C32_pse_sound: Classical.choice, Quot.sound, propext
Verif.Tal.C32_pse_complete: Classical.choice, Quot.sound, propext
Verif.Tal.C32_pse_exact: Classical.choice, Quot.sound, propext
Verif.Tal.C32_find_partial: Classical.choice, Quot.sound, propext
Verif.Tal.C32_find_unchecked: Quot.sound, propext
Verif.Tal.C32_find_empty_fci: Quot.sound, propext
Verif.Tal.C33_file: Classical.choice, Quot.sound, propext
Verif.Tal.C33_order: Classical.choice, Quot.sound, propext
Verif.Tal.C33_terminates_partial: Classical.choice, Quot.sound, propext
Verif.Tal.C33_endless: Classical.choice, Quot.sound, propext
Verif.LL.C34_sort_partial: Classical.choice, Quot.sound, propext
Verif.LL.C34_zero_priority_unstable: Classical.choice, Quot.sound, propext
Verif.LL.C35_history: Classical.choice, Quot.sound, propext
Verif.LL.C35_remove: Classical.choice, Quot.sound, propext
Verif.LL.C35_push_after: Classical.choice, Quot.sound, propext
Verif.App.C36_supported_iff: Classical.choice, Quot.sound, propext
Verif.App.C37_display_name: Classical.choice, Quot.sound, propext
Verif.App.C37_priority: Quot.sound, propext
Verif.App.C37_printable: Classical.choice, Quot.sound, propext
Verif.LL.C38_selection_required: Classical.choice, Quot.sound, propext
Verif.Emv.C39_select: Classical.choice, Quot.sound, propext
Verif.Emv.C39_select_proper: Classical.choice, Quot.sound, propext
Verif.Emv.C39_retries: Classical.choice, Quot.sound, propext
Verif.Emv.C40_success: Classical.choice, Quot.sound, propext
Verif.Emv.C40_failure: Classical.choice, Quot.sound, propext
Verif.Emv.C40_complete: Classical.choice, Quot.sound, propext
Verif.Emv.C41_reset: 
Verif.Emv.C41_history_partial: Classical.choice, Quot.sound, propext
Verif.Emv.C41_again: Classical.choice, Quot.sound, propext
Verif.Emv.C41_again_reachable: Quot.sound, propext
Verif.Emv.C42_outcome: Classical.choice, Quot.sound, propext
Verif.Emv.C42_blocked_iff: Classical.choice, Quot.sound, propext
Verif.Emv.C42_safe: Classical.choice, Quot.sound, propext
Verif.Atr.C43_reports: Classical.choice, Quot.sound, propext
Verif.Atr.C43_exists: Classical.choice, Quot.sound, propext
Verif.Atr.C43_inside: Classical.choice, Quot.sound, propext
Verif.Atr.C43_safe: Classical.choice, Quot.sound, propext
Verif.Atr.C43_td4_outside: Quot.sound, propext
Verif.Atr.C44_safe_partial: Classical.choice, Quot.sound, propext
Verif.Atr.C44_unsafe: Quot.sound, propext
Verif.Atr.C44_range: Classical.choice, Quot.sound, propext
Verif.Atr.C44_inside: Classical.choice, Quot.sound, propext
Verif.Atr.C44_td4: Classical.choice, Quot.sound, propext
Verif.Atr.C44_status00: Classical.choice, Quot.sound, propext
Verif.Atr.C44_status80: Classical.choice, Quot.sound, propext
Verif.Atr.C45_tck_partial: Classical.choice, Quot.sound, propext
Verif.Atr.C45_corruption_partial: Classical.choice, Quot.sound, propext
Verif.Atr.C45_td4: Classical.choice, Quot.sound, propext
Verif.Atr.C45_td4_unchecked: Classical.choice, Quot.sound, propext
Verif.Atr.C45_td4_refused: Quot.sound, propext
Verif.Atr.C46_values: Classical.choice, Quot.sound, propext
Verif.Atr.C46_t1_partial: Classical.choice, Quot.sound, propext
Verif.Atr.C46_bwt_wraps: Quot.sound, propext
Verif.Atr.C46_last_used: Quot.sound, propext
Verif.Atr.C47_decides: Classical.choice, Quot.sound, propext
Verif.Atr.C47_emv: Classical.choice, Quot.sound, propext
Verif.Atr.C47_refused: Quot.sound, propext
Verif.Atr.C47_t1: Classical.choice, Quot.sound, propext
Verif.Atr.C47_tb4_unchecked: Quot.sound, propext
Verif.CompactTlv.C48_roundtrip: Quot.sound, propext
Verif.CompactTlv.C48_any: Classical.choice, Quot.sound, propext
Verif.CompactTlv.C48_empty: Quot.sound, propext
Verif.StrList.C49_safe: Quot.sound, propext
Verif.StrList.C49_exact_partial: Quot.sound, propext
Verif.StrList.C49_truncated: Quot.sound, propext
Verif.StrList.C49_full_unchanged: 
Verif.StrList.C49_empty_string_skipped: propext
Verif.StrList.C49_not_terminated: propext
Verif.StrList.C49_iso_safe: Quot.sound, propext
Verif.StrList.C49_iso_exact: Quot.sound, propext
Verif.StrList.C49_iso_unchanged: 
Verif.Str.C50_exact_partial: Classical.choice, Quot.sound, propext
Verif.Str.C50_overflow: Classical.choice, Quot.sound, propext
Verif.Str.C50_refused: Classical.choice, Quot.sound, propext
Verif.Str.C51_get: Classical.choice, Quot.sound, propext
Verif.Str.C51_pack: Quot.sound, propext
Verif.Str.C51_pack_refused: Quot.sound, propext
Verif.Str.C51_string_roundtrip: Classical.choice, Quot.sound, propext
Verif.Str.C51_field_roundtrip: Classical.choice, Quot.sound, propext
Verif.Str.C51_pack_empty: Quot.sound, propext
Verif.Str.C52_pack: Classical.choice, Quot.sound, propext
Verif.Str.C52_number: Classical.choice, Quot.sound, propext
Verif.Str.C52_roundtrip: Classical.choice, Quot.sound, propext
Verif.Str.C52_refused: Classical.choice, Quot.sound, propext
Verif.Str.C52_empty: Quot.sound, propext
Verif.Str.C53_uint_partial: Classical.choice, Quot.sound, propext
Verif.Str.C53_eleven: Classical.choice, Quot.sound, propext
Verif.Str.C53_short: 
Verif.Str.C53_overflow: Classical.choice, Quot.sound, propext
Verif.Str.C53_amount_partial: Classical.choice, Quot.sound, propext
Verif.Str.C53_amount_refused: Classical.choice, Quot.sound, propext
Verif.Str.C53_format_n_partial: Classical.choice, Quot.sound, propext
Verif.Str.C53_format_n_refused: Classical.choice, Quot.sound, propext
Verif.Str.C54_track2_partial: Classical.choice, Quot.sound, propext
Verif.Str.C54_enough: Classical.choice, Quot.sound, propext
Verif.Str.C54_overflow: Classical.choice, Quot.sound, propext
Verif.Str.C54_refused: Quot.sound, propext
Verif.Str.C55_validation: Classical.choice, Quot.sound, propext
Verif.Str.C55_accept_iff: Classical.choice, Quot.sound, propext
Verif.Capdu.C56_safe_partial: Classical.choice, Quot.sound, propext
Verif.Capdu.C56_empty: Quot.sound, propext
Verif.Capdu.C56_short_overread: Quot.sound, propext
Verif.Capdu.C56_exact: Classical.choice, Quot.sound, propext
Verif.ThirdParty.C57_safe_partial: Classical.choice, Quot.sound, propext
Verif.ThirdParty.C57_result_partial: Classical.choice, Quot.sound, propext
Verif.ThirdParty.C57_overread: Classical.choice, Quot.sound, propext
Verif.Iso8859.C58_whole_partial: Quot.sound, propext
Verif.Iso8859.C58_truncation_partial: Quot.sound, propext
Verif.Iso8859.C58_overflow: Quot.sound, propext
Verif.Iso8859.C58_refused: Quot.sound, propext
Verif.Iso8859.C58_control: Quot.sound, propext
Verif.Pcsc.C59_lookup_partial: Quot.sound, propext
Verif.Pcsc.C59_too_small_partial: Quot.sound, propext
Verif.Pcsc.C59_misparsed: Quot.sound, propext
Verif.Pcsc.C59_absent_overread: Quot.sound, propext
Verif.Pcsc.C59_absent_partial: Quot.sound, propext
Verif.Pcsc.C59_fallback: Quot.sound, propext
Verif.Apdu.C60_partition: propext
Verif.Apdu.C60_values: Classical.choice, Quot.sound, propext
Verif.TlvParse.C61_decoded_object: Quot.sound, propext
Verif.TlvParse.C62_parse_accepts: Classical.choice, Quot.sound, propext
Verif.TlvParse.C62_definite: propext
Verif.Emv.C63_initiate: Classical.choice, Quot.sound, propext
Verif.Emv.C63_complete: Classical.choice, Quot.sound, propext
Verif.Emv.C63_terminal_data: Classical.choice, Quot.sound, propext
Verif.Emv.C64_afl_partial: Classical.choice, Quot.sound, propext
Verif.Emv.C64_planted: Quot.sound, propext
Verif.Emv.C65_provenance: Classical.choice, Quot.sound, propext
Verif.Emv.C65_transaction: Classical.choice, Quot.sound, propext
Verif.Atr.C66_accept: Classical.choice, Quot.sound, propext
Verif.Atr.C66_empty_refused: Quot.sound, propext
Verif.Capdu.C67_without_le: Quot.sound, propext
Verif.Capdu.C67_without_data: Classical.choice, Quot.sound, propext
Verif.Capdu.C67_select_partial: Quot.sound, propext
Verif.Capdu.C67_master_file: Quot.sound, propext
Verif.Capdu.C67_last_digit_lost: Quot.sound, propext
Verif.Pcsc.C68_any: Quot.sound, propext
Verif.Pcsc.C68_control_code: Quot.sound, propext
Verif.Pcsc.C68_refused_still_listed: propext
Verif.Pcsc.C69_type: Classical.choice, Quot.sound, propext
Verif.Pcsc.C69_atr: Classical.choice, Quot.sound, propext
Verif.Pcsc.C69_stale_type: Quot.sound, propext
Verif.Bits.C70_tvr_partial: Classical.choice, Quot.sound, propext
Verif.Bits.C70_tsi_partial: Classical.choice, Quot.sound, propext
Verif.Bits.C70_aip_partial: Classical.choice, Quot.sound, propext
Verif.Bits.C70_auc_partial: Classical.choice, Quot.sound, propext
Verif.Bits.C70_ctq_partial: Classical.choice, Quot.sound, propext
Verif.Bits.C70_trmd_partial: Classical.choice, Quot.sound, propext
Verif.Bits.C70_no_lines: Quot.sound, propext
Verif.Bits.C70_no_output: Quot.sound, propext
Verif.Bits.C71_tvr: Classical.choice, Quot.sound, propext
Verif.Bits.C71_tsi: Classical.choice, Quot.sound, propext
Verif.Bits.C71_aip: Classical.choice, Quot.sound, propext
Verif.Bits.C71_auc: Classical.choice, Quot.sound, propext
Verif.Bits.C71_ctq: Classical.choice, Quot.sound, propext
Verif.Bits.C71_trmd: Classical.choice, Quot.sound, propext
Verif.Bits.C71_term_caps: Classical.choice, Quot.sound, propext
Verif.Bits.C71_addl_term_caps: Classical.choice, Quot.sound, propext
Verif.Bits.C71_ttq: Classical.choice, Quot.sound, propext
Verif.Bits.C71_amex_enh: Classical.choice, Quot.sound, propext
Verif.Bits.C72_term_caps: Classical.choice, Quot.sound, propext
Verif.Bits.C72_addl_term_caps: Classical.choice, Quot.sound, propext
Verif.Bits.C72_ttq: Classical.choice, Quot.sound, propext
Verif.Bits.C72_amex_enh: Classical.choice, Quot.sound, propext
Verif.Bits.C72_lines: propext
Verif.Bits.C72_ffi_lines: Quot.sound, propext
Verif.Bits.C72_ffi: Classical.choice, Quot.sound, propext
Verif.Bits.C72_term_type: Classical.choice, Quot.sound, propext
Verif.Bits.C72_cid: Classical.choice, Quot.sound, propext
Verif.Bits.C72_no_output: Quot.sound, propext
Verif.Lists.C73_list: Classical.choice, Quot.sound, propext
Verif.Lists.C73_list_refused: Classical.choice, Quot.sound, propext
Verif.Lists.C73_results: Classical.choice, Quot.sound, propext
Verif.Lists.C74_accept: Classical.choice, Quot.sound, propext
Verif.Lists.C74_refused: Classical.choice, Quot.sound, propext
Verif.Lists.C75_accept: Classical.choice, Quot.sound, propext
Verif.Lists.C75_refused: Classical.choice, Quot.sound, propext
Verif.Lists.C76_currency: Classical.choice, Quot.sound, propext
Verif.Lists.C76_currency_refused: Classical.choice, Quot.sound, propext
Verif.Lists.C76_language: Classical.choice, Quot.sound, propext
Verif.Lists.C76_odd: Quot.sound, propext
Verif.Iad.C77_iad_partial: Classical.choice, Quot.sound, propext
Verif.Iad.C77_safe: Classical.choice, Quot.sound, propext
Verif.Iad.C77_ccd_upper_wrong: Quot.sound, propext
Verif.Iad.C78_auth_partial: Classical.choice, Quot.sound, propext
Verif.Iad.C78_safe: Classical.choice, Quot.sound, propext
Verif.Iad.C78_undescribed: Classical.choice, Quot.sound, propext
Verif.Iad.C78_csu_typo: Quot.sound, propext
Verif.Iad.C79_shown: Classical.choice, Quot.sound, propext
Verif.Iad.C79_empty: propext
Verif.Iad.C79_refused: Classical.choice, Quot.sound, propext
Verif.Iad.C79_entries: 
Verif.Names.C80_txn_type: Quot.sound, propext
Verif.Names.C80_account_type: Quot.sound, propext
Verif.Names.C80_pos_entry_mode: Quot.sound, propext
Verif.Names.C80_reader_caps: Quot.sound, propext
Verif.Names.C80_distinct: 
Verif.Names.C81_aid_partial: Quot.sound, propext
Verif.Names.C81_jcb: Quot.sound, propext
Verif.Names.C81_aid_length: Classical.choice, Quot.sound, propext
Verif.Names.C81_number: Classical.choice, Quot.sound, propext
Verif.Names.C81_alpha: Quot.sound, propext
Verif.Names.C81_no_output: Quot.sound, propext
Verif.TlvInfo.C82_text: Classical.choice, Quot.sound, propext
Verif.TlvInfo.C82_digits: Classical.choice, Quot.sound, propext
Verif.TlvInfo.C82_number_partial: Classical.choice, Quot.sound, propext
Verif.TlvInfo.C82_number_refused: Classical.choice, Quot.sound, propext
Verif.TlvInfo.C82_wraps: Classical.choice, Quot.sound, propext
Verif.TlvInfo.C82_zeros_lost: Classical.choice, Quot.sound, propext
Verif.TlvInfo.C83_declared: Quot.sound, propext
Verif.TlvInfo.C83_by_tag: Quot.sound, propext
Verif.TlvInfo.C83_distinct: Quot.sound, propext
Verif.TlvInfo.C83_unknown: Quot.sound, propext
Verif.TlvInfo.C83_templates: Quot.sound, propext
Verif.TlvInfo.C83_lists: Quot.sound, propext
Verif.TlvInfo.C83_9F66: Quot.sound, propext
Verif.TlvInfo.C83_9F6D: Quot.sound, propext
Verif.TlvInfo.C83_exclusive: Quot.sound, propext
Verif.TlvInfo.C83_9F6E: Quot.sound, propext
Verif.TlvInfo.C83_df_name_partial: Quot.sound, propext
Verif.TlvInfo.C83_df_name_raw: Quot.sound, propext
Verif.TlvInfo.C83_country: Classical.choice, Quot.sound, propext
Verif.TlvInfo.C83_described: Quot.sound, propext
Verif.TlvInfo.C83_undescribed: Quot.sound, propext
Verif.TlvInfo.C84_safe_partial: Classical.choice, Quot.sound, propext
Verif.TlvInfo.C84_undefined: Classical.choice, Quot.sound, propext
Verif.IsoStr.C85_status: Classical.choice, Quot.sound, propext
Verif.IsoStr.C85_no_output: Quot.sound, propext
Verif.IsoStr.C86_life_cycle: Quot.sound, propext
Verif.IsoStr.C86_service: Classical.choice, Quot.sound, propext
Verif.IsoStr.C86_service_lines: propext
Verif.IsoStr.C86_capabilities: Classical.choice, Quot.sound, propext
Verif.IsoStr.C86_no_capabilities: Quot.sound, propext
Verif.IsoStr.C86_no_lines: Quot.sound, propext
Verif.IsoStr.C86_lines: Quot.sound, propext
Verif.AtrStr.C87_ts: Classical.choice, Quot.sound, propext
Verif.AtrStr.C87_t0: Classical.choice, Quot.sound, propext
Verif.AtrStr.C87_td: Classical.choice, Quot.sound, propext
Verif.AtrStr.C87_td4: Classical.choice, Quot.sound, propext
Verif.AtrStr.C87_td_absent: Classical.choice, Quot.sound, propext
Verif.AtrStr.C87_t1_partial: Classical.choice, Quot.sound, propext
Verif.AtrStr.C87_t1_td4: Classical.choice, Quot.sound, propext
Verif.AtrStr.C88_numbers: Quot.sound, propext
Verif.AtrStr.C88_ta1: Classical.choice, Quot.sound, propext
Verif.AtrStr.C88_rate_partial: propext
Verif.AtrStr.C88_rate_wrong: Quot.sound, propext
Verif.AtrStr.C88_ta2: Classical.choice, Quot.sound, propext
Verif.AtrStr.C88_tb1: Classical.choice, Quot.sound, propext
Verif.AtrStr.C88_tb2: Classical.choice, Quot.sound, propext
Verif.AtrStr.C88_tc1: Classical.choice, Quot.sound, propext
Verif.AtrStr.C88_tc2: Classical.choice, Quot.sound, propext
Verif.AtrStr.C88_ta: Classical.choice, Quot.sound, propext
Verif.AtrStr.C88_tb: Classical.choice, Quot.sound, propext
Verif.AtrStr.C88_tc: Classical.choice, Quot.sound, propext
Verif.AtrStr.C88_own_partial: Quot.sound, propext
Verif.AtrStr.C88_shows_last: Quot.sound, propext
Verif.Print.C89_listing_partial: Classical.choice, Quot.sound, propext
Verif.Print.C89_definite_partial: Classical.choice, Quot.sound, propext
Verif.Print.C89_bad_oid: Quot.sound, propext
Verif.Print.C89_joint_arc: Quot.sound, propext
Verif.PrintSpec.C89_unique: Classical.choice, Quot.sound, propext
Verif.Print.C90_every_input: Classical.choice, Quot.sound, propext
Verif.Print.C90_error_partial: Classical.choice, Quot.sound, propext
Verif.Print.C90_safe_partial: Classical.choice, Quot.sound, propext
Verif.Print.C90_overflow: Quot.sound, propext
Verif.PrintSpec.C90_unique: Classical.choice, Quot.sound, propext
Verif.Print.C91_pkcs7_partial: Classical.choice, Quot.sound, propext
Verif.Print.C91_whole_block: Quot.sound, propext
Verif.Print.C91_method2: Quot.sound, propext
Verif.Print.C91_not_asked: Quot.sound, propext
Verif.Print.C92_listing_partial: Classical.choice, Quot.sound, propext
Verif.Print.C92_definite_partial: Classical.choice, Quot.sound, propext
Verif.Print.C92_error_partial: Classical.choice, Quot.sound, propext
Verif.Print.C92_safe_partial: Classical.choice, Quot.sound, propext
Verif.Print.C92_field_list_partial: Classical.choice, Quot.sound, propext
Verif.Print.C92_undefined: Classical.choice, Quot.sound, propext
Verif.Print.C93_dol_partial: Classical.choice, Quot.sound, propext
Verif.Print.C93_reqs: Quot.sound, propext
Verif.Print.C93_tags: Classical.choice, Quot.sound, propext
Verif.Print.C93_tags_in: Quot.sound, propext
Verif.Print.C93_fields_partial: Classical.choice, Quot.sound, propext
Verif.Print.C93_tag_field: Classical.choice, Quot.sound, propext
Verif.Print.C93_name: Quot.sound, propext
Verif.Print.C93_null: Classical.choice, Quot.sound, propext
Verif.Print.C93_cut: Quot.sound, propext
Verif.PrintCard.C94_interface: Classical.choice, Quot.sound, propext
Verif.PrintCard.C94_listing_partial: Classical.choice, Quot.sound, propext
Verif.PrintCard.C94_no_check: Classical.choice, Quot.sound, propext
Verif.PrintCard.C95_every: Classical.choice, Quot.sound, propext
Verif.PrintCard.C95_unique: Quot.sound, propext
Verif.PrintCard.C95_history_partial: Classical.choice, Quot.sound, propext
Verif.PrintCard.C95_safe_partial: Classical.choice, Quot.sound, propext
Verif.PrintCard.C95_empty_service: Quot.sound, propext
Verif.PrintCard.C95_no_lines: Quot.sound, propext
Verif.PrintCard.C96_response: Classical.choice, Quot.sound, propext
Verif.PrintCard.C96_status: Classical.choice, Quot.sound, propext
Verif.PrintCard.C96_command_partial: Classical.choice, Quot.sound, propext
Verif.PrintCard.C96_application: Quot.sound, propext
Verif.PrintCard.C96_delivery: Classical.choice, Quot.sound, propext
Verif.PrintCard.C96_text: Quot.sound, propext
Verif.PrintCard.C96_names: Quot.sound, propext
Verif.PrintCard.C96_events: Classical.choice, Quot.sound, propext
Verif.PrintCard.C96_atr_partial: Classical.choice, Quot.sound, propext
Verif.PrintCard.C96_data_partial: Classical.choice, Quot.sound, propext
Verif.PrintCard.C96_command_event: Quot.sound, propext
Verif.Hex.C97_bytes: Classical.choice, Quot.sound, propext
Verif.Hex.C97_refused: Quot.sound, propext
Verif.Hex.C97_safe_partial: Quot.sound, propext
Verif.Hex.C97_undefined: Classical.choice, Quot.sound, propext
Verif.Hex.C97_roundtrip: Classical.choice, Quot.sound, propext
Verif.Hex.C97_trailing_space: Quot.sound, propext
Verif.Hex.C97_cut: propext
Verif.Hex.C97_file: Quot.sound, propext
Verif.Hex.C97_argument: Classical.choice, Quot.sound, propext
Verif.Codes.C98_lookup: Classical.choice, Quot.sound, propext
Verif.Codes.C98_countries_refused: Classical.choice, Quot.sound, propext
Verif.Codes.C98_currencies_refused: Classical.choice, Quot.sound, propext
Verif.Codes.C98_languages_refused: Classical.choice, Quot.sound, propext
Verif.Codes.C98_categories_refused: Classical.choice, Quot.sound, propext
Verif.Codes.C98_safe_partial: Quot.sound, propext
Verif.Codes.C98_empty_path: propext
Verif.Codes.C98_terminated: Classical.choice, Quot.sound, propext
Verif.Codes.C98_again: Classical.choice, Quot.sound, propext
Verif.Codes.C98_names: Quot.sound, propext
Verif.Codes.C98_tables: Classical.choice, Quot.sound, propext
Verif.Codes.C98_half: propext
Verif.Decode.C99_uninitialised: Classical.choice, Quot.sound, propext
Verif.Decode.C99_truncated: Classical.choice, Quot.sound, propext
Verif.Decode.C99_term_type_zero: Quot.sound, propext
Verif.Decode.C99_cvm_list: Classical.choice, Quot.sound, propext
Verif.Decode.C99_cvm_list_refused: Classical.choice, Quot.sound, propext
Verif.Decode.C99_iad_partial: Classical.choice, Quot.sound, propext
Verif.Decode.C99_mcc: Classical.choice, Quot.sound, propext
Verif.Decode.C99_third_partial: Classical.choice, Quot.sound, propext
Verif.Decode.C99_third_overread: Classical.choice, Quot.sound, propext
Verif.Decode.C99_other_lengths: Quot.sound, propext
Verif.Decode.C99_status_word: Classical.choice, Quot.sound, propext
Verif.Decode.C99_atr_partial: Classical.choice, Quot.sound, propext
Verif.Decode.C99_data_partial: Classical.choice, Quot.sound, propext
Verif.Decode.C99_lists_partial: Classical.choice, Quot.sound, propext
Verif.Decode.C99_length: Quot.sound, propext
Verif.Decode.C99_field_partial: Classical.choice, Quot.sound, propext
Verif.Decode.C100_country: Classical.choice, Quot.sound, propext
Verif.Decode.C100_currency: Classical.choice, Quot.sound, propext
Verif.Decode.C100_language: Quot.sound, propext
Verif.Decode.C100_text_partial: Quot.sound, propext
Verif.Decode.C100_text_overflow: Quot.sound, propext
Verif.Decode.C100_status: Quot.sound, propext
Verif.ThirdParty.C101_text_partial: Classical.choice, Quot.sound, propext
Verif.ThirdParty.C101_bare: Classical.choice, Quot.sound, propext
Verif.ThirdParty.C101_conforming_partial: Classical.choice, Quot.sound, propext
Verif.PcscInit.C102_readers: Classical.choice, Quot.sound, propext
Verif.PcscInit.C102_failure: propext
Verif.PcscInit.C102_release: Classical.choice, Quot.sound, propext
Verif.PcscInit.C103_requests: Classical.choice, Quot.sound, propext
Verif.PcscInit.C103_known_partial: Quot.sound, propext
Verif.PcscInit.C103_unknown: Classical.choice, Quot.sound, propext
Verif.PcscInit.C103_layout_partial: Quot.sound, propext
Verif.PcscInit.C103_display_partial: Quot.sound, propext
Verif.PcscInit.C103_lost: Quot.sound, propext
Verif.PcscInit.C103_foreign_handle: propext
Verif.PcscInit.C104_wait: Classical.choice, Quot.sound, propext
Verif.PcscInit.C104_index_lost: Classical.choice, Quot.sound, propext
Verif.PcscConn.C105_live_partial: Quot.sound, propext
Verif.PcscConn.C105_stale_handle: Quot.sound, propext
Verif.PcscConn.C105_exchange: Quot.sound, propext
Verif.PcscConn.C105_failed_partial: Quot.sound, propext
Verif.PcscConn.C105_connect: Quot.sound, propext
Verif.PcscConn.C105_left_connected: Quot.sound, propext
Verif.ToolReaders.C106_listing: Classical.choice, Quot.sound, propext
Verif.ToolReaders.C106_reader_partial: Classical.choice, Quot.sound, propext
Verif.ToolReaders.C106_tool_partial: Classical.choice, Quot.sound, propext
Verif.ToolReaders.C106_omitted: propext
Verif.ToolReaders.C106_contradiction: Quot.sound, propext
Verif.ToolReaders.C107_state: Quot.sound, propext
Verif.ToolReaders.C107_unknown: Quot.sound, propext
Verif.ToolArgs.C108_type_digits: Classical.choice, Quot.sound, propext
Verif.ToolArgs.C108_type: Classical.choice, Quot.sound, propext
Verif.ToolArgs.C108_type_loose: propext
Verif.ToolArgs.C108_amount: Classical.choice, Quot.sound, propext
Verif.ToolArgs.C108_amount_other: Classical.choice, Quot.sound, propext
Verif.ToolArgs.C108_amount_digits: Classical.choice, Quot.sound, propext
Verif.ToolArgs.C108_amount_loose: propext
Verif.ToolArgs.C108_sources: Classical.choice, Quot.sound, propext
Verif.ToolArgs.C108_level: Classical.choice, Quot.sound, propext
Verif.ToolArgs.C108_events_partial: Classical.choice, Quot.sound, propext
Verif.ToolArgs.C108_all: Classical.choice, Quot.sound, propext
Verif.ToolArgs.C108_defined: Quot.sound, propext
Verif.ToolArgs.C108_last: Classical.choice, Quot.sound, propext
Verif.ToolArgs.C108_refused: propext
Verif.ToolTxn.C109_params: Classical.choice, Quot.sound, propext
Verif.ToolTxn.C109_load: Classical.choice, Quot.sound, propext
Verif.ToolTxn.C109_supported: Classical.choice, Quot.sound, propext
Verif.ToolTxn.C109_command_line: Classical.choice, Quot.sound, propext
Verif.ToolTxn.C110_once: propext
Verif.ToolTxn.C110_transaction: Classical.choice, Quot.sound, propext
Verif.ToolTxn.C110_safe_partial: Classical.choice, Quot.sound, propext
Verif.ToolTxn.C110_success: Classical.choice, Quot.sound, propext
Verif.ToolTxn.C110_stuck: Quot.sound, propext
Verif.ToolTxn.C111_choice: Classical.choice, Quot.sound, propext
Verif.ToolTxn.C111_line: Classical.choice, Quot.sound, propext
Verif.ToolTxn.C111_long: propext
Verif.ToolTxn.C111_question: Quot.sound, propext
Verif.ToolTxn.C112_texts: Classical.choice, Quot.sound, propext
Verif.Stack.C113_kernel: Classical.choice, Quot.sound, propext
Verif.Stack.C113_bytes: Classical.choice, Quot.sound, propext
Verif.Stack.C113_safe_partial: Classical.choice, Quot.sound, propext
Verif.Stack.C113_success: Classical.choice, Quot.sound, propext
Verif.ToolMain.C114_released: Classical.choice, Quot.sound, propext
Verif.ToolMain.C114_status: Classical.choice, Quot.sound, propext
Verif.ToolMain.C114_sent: Classical.choice, Quot.sound, propext
Verif.ToolMain.C114_commands: Classical.choice, Quot.sound, propext
Verif.ToolMain.C114_course: Classical.choice, Quot.sound, propext
Verif.ToolMain.C114_success: Classical.choice, Quot.sound, propext
Verif.ToolMain.C114_disconnected_partial: Classical.choice, Quot.sound, propext
Verif.ToolMain.C114_left_connected: Classical.choice, Quot.sound, propext
Verif.ToolMain.C114_safe_partial: Classical.choice, Quot.sound, propext
Verif.Viewer.C115_every_input: Classical.choice, Quot.sound, propext
Verif.Viewer.C115_places: Classical.choice, Quot.sound, propext
Verif.Viewer.C115_tree_partial: Classical.choice, Quot.sound, propext
Verif.Viewer.C115_safe_partial: Classical.choice, Quot.sound, propext
Verif.Viewer.C116_texts_partial: Classical.choice, Quot.sound, propext
Verif.Viewer.C116_undefined: Classical.choice, Quot.sound, propext
Verif.Viewer.C116_dol_84: Quot.sound, propext
Verif.Viewer.C117_pkcs7_partial: Quot.sound, propext
Verif.Viewer.C117_not_asked: Quot.sound, propext
Verif.Viewer.C117_tree_partial: Classical.choice, Quot.sound, propext
Verif.Viewer.C117_tree_not_asked_partial: Classical.choice, Quot.sound, propext
Verif.Viewer.C117_whole_block: Quot.sound, propext
Verif.Viewer.C117_method2: Quot.sound, propext
Verif.Viewer.C117_fifteen: Quot.sound, propext
Verif.Viewer.C118_history: Quot.sound, propext
Verif.Viewer.C118_decoding: Quot.sound, propext
Verif.Viewer.C119_every_text: Classical.choice, Quot.sound, propext
Verif.Viewer.C119_text_partial: Classical.choice, Quot.sound, propext
Verif.Viewer.C119_rows_partial: Classical.choice, Quot.sound, propext
Verif.Viewer.C119_wide: Classical.choice, Quot.sound, propext
Verif.Viewer.C120_one_look: Classical.choice, Quot.sound, propext
Verif.Viewer.C120_look_partial: Classical.choice, Quot.sound, propext
Verif.Viewer.C120_white: Classical.choice, Quot.sound, propext
Verif.Viewer.C120_wide: Quot.sound, propext
Verif.Viewer.C121_history: Quot.sound, propext
Verif.Viewer.C121_characters_partial: Classical.choice, Quot.sound, propext
Verif.Viewer.C121_tree_partial: Classical.choice, Quot.sound, propext
Verif.Viewer.C121_timer: Quot.sound, propext
Verif.Viewer.C122_press_partial: Classical.choice, Quot.sound, propext
Verif.Viewer.C122_other: Quot.sound, propext
Verif.Viewer.C122_kept: Quot.sound, propext
Verif.Viewer.C122_unpressed: Quot.sound, propext
Verif.Viewer.C122_kept_marks: Quot.sound, propext
Verif.Viewer.C122_stale: Quot.sound, propext
Verif.Viewer.C123_start: Quot.sound, propext
Verif.Viewer.C123_lines: Quot.sound, propext
Verif.Viewer.C123_starts: Quot.sound, propext
Verif.Viewer.C123_round_trip: Quot.sound, propext
Verif.Viewer.C123_options: Quot.sound, propext
Verif.Viewer.C124_safe_partial: Classical.choice, Quot.sound, propext
Verif.Viewer.C124_wide: Classical.choice, Quot.sound, propext
Verif.DecodeArgs.C125_reading: Classical.choice, Quot.sound, propext
Verif.DecodeArgs.C125_values: propext
Verif.DecodeArgs.C125_data: Classical.choice, Quot.sound, propext
Verif.DecodeArgs.C125_code: Classical.choice, Quot.sound, propext
Verif.DecodeArgs.C125_help: Classical.choice, Quot.sound, propext
Verif.DecodeArgs.C125_ended: Classical.choice, Quot.sound, propext
Verif.DecodeArgs.C125_modes: Quot.sound, propext
Verif.DecodeArgs.C125_refused: Classical.choice, Quot.sound, propext
Verif.DecodeArgs.C125_order: Classical.choice, Quot.sound, propext
Verif.DecodeArgs.C125_nothing: Quot.sound, propext
Verif.DecodeArgs.C125_posix: Quot.sound, propext
Verif.DecodeArgs.C126_names: Quot.sound, propext
Verif.DecodeArgs.C126_fields: Classical.choice, Quot.sound, propext
Verif.DecodeArgs.C126_words: Classical.choice, Quot.sound, propext
Verif.DecodeArgs.C126_pages: Classical.choice, Quot.sound, propext
Verif.DecodeArgs.C126_status: Quot.sound, propext
Verif.DecodeArgs.C126_refused: Classical.choice, Quot.sound, propext
Verif.DecodeArgs.C126_country: Classical.choice, Quot.sound, propext
Verif.DecodeArgs.C126_currency: Classical.choice, Quot.sound, propext
Verif.DecodeArgs.C126_language: Classical.choice, Quot.sound, propext
Verif.DecodeArgs.C126_mcc: Classical.choice, Quot.sound, propext
Verif.DecodeArgs.C127_path: Classical.choice, Quot.sound, propext
Verif.DecodeArgs.C127_letter: Classical.choice, Quot.sound, propext
Verif.DecodeArgs.C127_flags: Quot.sound, propext
Verif.DecodeArgs.C127_decode_partial: Classical.choice, Quot.sound, propext
Verif.DecodeArgs.C127_safe_partial: Classical.choice, Quot.sound, propext
Verif.ToolWords.C128_reading: Classical.choice, Quot.sound, propext
Verif.ToolWords.C128_names: propext
Verif.ToolWords.C128_accepted: Classical.choice, Quot.sound, propext
Verif.ToolWords.C128_other_words: Classical.choice, Quot.sound, propext
Verif.ToolWords.C128_ending: Classical.choice, Quot.sound, propext
Verif.ToolWords.C128_cases: Quot.sound, propext
Verif.ToolWords.C128_nothing: Quot.sound, propext
Verif.ToolWords.C128_paths: propext
Verif.ToolWords.C128_run: Classical.choice, Quot.sound, propext
Verif.ToolWords.C128_released: Classical.choice, Quot.sound, propext
Verif.ToolWords.C128_safe_partial: Classical.choice, Quot.sound, propext
Verif.ToolWords.C128_path: Classical.choice, Quot.sound, propext
Verif.ToolWords.C128_values: propext
Verif.ToolWords.C128_meaning: Classical.choice, Quot.sound, propext
Verif.ToolWords.C128_verbose: Classical.choice, Quot.sound, propext
Verif.ToolWords.C128_texts: Classical.choice, Quot.sound, propext
Verif.Iso8859Alt.C129_pages: Classical.choice, Quot.sound, propext
Verif.Iso8859Alt.C129_boost: Classical.choice, Quot.sound, propext
Verif.Iso8859Alt.C129_iconv: Classical.choice, Quot.sound, propext
Verif.Iso8859Alt.C129_zeroed_partial: Classical.choice, Quot.sound, propext
Verif.Iso8859Alt.C129_unterminated: Classical.choice, Quot.sound, propext
Verif.Iso8859Alt.C129_same: Classical.choice, Quot.sound, propext
Verif.Iso8859Alt.C129_display: Classical.choice, Quot.sound, propext
Verif.Iso8859Alt.C129_split: propext
Verif.Iso8859Alt.C129_differ: Quot.sound, propext
Verif.AppAlt.C130_simple: Quot.sound, propext
Verif.AppAlt.C130_boost: Classical.choice, Quot.sound, propext
Verif.AppAlt.C130_whole: Quot.sound, propext
Verif.AppAlt.C130_iconv_partial: Classical.choice, Quot.sound, propext
Verif.AppAlt.C130_thai: Quot.sound, propext
Verif.Own.C131_owned_partial: Classical.choice, Quot.sound, propext
Verif.Own.C131_released_partial: Classical.choice, Quot.sound, propext
Verif.Own.C131_retry: Classical.choice, Quot.sound, propext
Verif.Own.C131_again: propext
Verif.Trace.C132_exchange: Classical.choice, Quot.sound, propext
Verif.Trace.C132_refused: Classical.choice, Quot.sound, propext
Verif.Trace.C132_same: Quot.sound, propext
Verif.Trace.C132_build_partial: Classical.choice, Quot.sound, propext
Verif.Trace.C132_announced: Classical.choice, Quot.sound, propext
Verif.Trace.C132_directory: Quot.sound, propext
Verif.Trace.C132_reasons_partial: Classical.choice, Quot.sound, propext
Verif.Trace.C132_silent: Classical.choice, Quot.sound, propext
Verif.Trace.C132_selected: Quot.sound, propext
Verif.Trace.C132_initiated: Quot.sound, propext
Verif.Trace.C132_leak: Quot.sound, propext
Verif.Trace.C132_leaks: Quot.sound, propext
Verif.Trace.Atr.C133_same: Quot.sound, propext
Verif.Trace.Atr.C133_refused: Quot.sound, propext
Verif.Trace.Atr.C133_reason: Classical.choice, Quot.sound, propext
Verif.Trace.Atr.C133_true: Classical.choice, Quot.sound, propext
Verif.Trace.Atr.C133_never: Classical.choice, Quot.sound, propext
Verif.Trace.C134_cause: Classical.choice, Quot.sound, propext
Verif.Trace.C134_afl: Classical.choice, Quot.sound, propext
Verif.Trace.C134_select: Classical.choice, Quot.sound, propext
Verif.Trace.C134_build: Classical.choice, Quot.sound, propext
Verif.Trace.C134_initiate: Classical.choice, Quot.sound, propext
Verif.Trace.C134_read: Classical.choice, Quot.sound, propext
Verif.Trace.C134_verdict: Classical.choice, Quot.sound, propext
Verif.Trace.C134_candidates: Classical.choice, Quot.sound, propext
Verif.Trace.C135_file: Classical.choice, Quot.sound, propext
Verif.Trace.C135_afl_partial: Classical.choice, Quot.sound, propext
Verif.Trace.C135_undesignated: Quot.sound, propext
Verif.Trace.C135_used: Quot.sound, propext
Verif.Trace.C135_again: Quot.sound, propext
Verif.Trace.C136_exchange: Classical.choice, Quot.sound, propext
Verif.Trace.C136_errors: Classical.choice, Quot.sound, propext
Verif.Trace.C136_calls_partial: Classical.choice, Quot.sound, propext
Verif.Trace.C136_undefined: Classical.choice, Quot.sound, propext
Verif.Trace.C136_quiet: Classical.choice, Quot.sound, propext
Verif.Trace.C136_wider: Classical.choice, Quot.sound, propext
Verif.Trace.C137_directory: Classical.choice, Quot.sound, propext
Verif.Trace.C138_initiated: Classical.choice, Quot.sound, propext
Verif.Trace.C138_selected: Classical.choice, Quot.sound, propext
Verif.Trace.C138_read: Classical.choice, Quot.sound, propext
Verif.Debug.C139_time: Quot.sound, propext
Verif.Debug.C139_far: Quot.sound, propext
Verif.Debug.C139_elapsed: Quot.sound, propext
Verif.Debug.C139_order_partial: Quot.sound, propext
Verif.Debug.C139_wraps: Classical.choice, Quot.sound, propext
Verif.Debug.C139_width: Classical.choice, Quot.sound, propext
Verif.Debug.C139_calls: Classical.choice, Quot.sound, propext
Verif.Debug.C139_silent: propext
Verif.Capdu.C140_iso: Classical.choice, Quot.sound, propext
Verif.Capdu.C140_name: Quot.sound, propext
Verif.Capdu.C140_extended: Quot.sound, propext
Verif.Capdu.C140_emv: Quot.sound, propext
Verif.Agree.C141_ber_partial: Classical.choice, Quot.sound, propext
Verif.Agree.C141_emv_partial: Classical.choice, Quot.sound, propext
Verif.Agree.C141_oid: Quot.sound, propext
Verif.Same.C142_description: Classical.choice, Quot.sound, propext
Verif.Same.C142_listing: Classical.choice, Quot.sound, propext
Verif.Same.C142_fields: Classical.choice, Quot.sound, propext
Verif.Same.C142_ber: Quot.sound, propext
Verif.Same.C142_viewer: Classical.choice, Quot.sound, propext
Verif.Same.C142_agree: Classical.choice, Quot.sound, propext
Verif.Nest.C143_decode: Classical.choice, Quot.sound, propext
Verif.Nest.C143_enough_partial: Classical.choice, Quot.sound, propext
Verif.Nest.C143_marks_partial: Classical.choice, Quot.sound, propext
Verif.Nest.C143_card: Classical.choice, Quot.sound, propext
Verif.Nest.C143_parse_exact: Classical.choice, Quot.sound, propext
Verif.Nest.C143_ber_exact: Classical.choice, Quot.sound, propext
Verif.Nest.C143_emv_exact: Classical.choice, Quot.sound, propext
Verif.Nest.C143_tree_exact: Classical.choice, Quot.sound, propext
Verif.Nest.C143_opened: Quot.sound, propext
Verif.Nest.C143_unbounded: Classical.choice, Quot.sound, propext
Verif.Work.C144_same: Quot.sound, propext
Verif.Work.C144_decode: Classical.choice, Quot.sound, propext
Verif.Work.C144_linear: Classical.choice, Quot.sound, propext
Verif.Work.C144_marks: Classical.choice, Quot.sound, propext
Verif.Work.C144_parse_exact: Classical.choice, Quot.sound, propext
Verif.Work.C144_ber_exact: Classical.choice, Quot.sound, propext
Verif.Work.C144_emv_exact: Classical.choice, Quot.sound, propext
Verif.Work.C144_tree_exact: Classical.choice, Quot.sound, propext
Verif.Tells.C145_initiate: Classical.choice, Quot.sound, propext
Verif.Tells.C145_shows: Classical.choice, Quot.sound, propext
Verif.Tells.C145_transaction: Classical.choice, Quot.sound, propext
Verif.Tells.C145_tool: Classical.choice, Quot.sound, propext
Verif.More.C146_object: Classical.choice, Quot.sound, propext
Verif.More.C146_list: Classical.choice, Quot.sound, propext
Verif.More.C146_iterate: Classical.choice, Quot.sound, propext
Verif.More.C146_dol: Classical.choice, Quot.sound, propext
Verif.More.C146_compact: Classical.choice, Quot.sound, propext
Verif.More.C146_tree: Classical.choice, Quot.sound, propext
Verif.More.C146_padding: Quot.sound, propext
Verif.Search.C147_all_partial: Classical.choice, Quot.sound, propext
Verif.Search.C147_only: Classical.choice, Quot.sound, propext
Verif.Search.C147_commands: Classical.choice, Quot.sound, propext
Verif.Search.C147_ends: Classical.choice, Quot.sound, propext
Verif.Search.C147_endless: Classical.choice, Quot.sound, propext
Verif.Search.C147_hidden: Classical.choice, Quot.sound, propext
Verif.Search.C147_unasked: Classical.choice, Quot.sound, propext
Verif.Search.C147_candidates_partial: Classical.choice, Quot.sound, propext
Verif.Search.C148_selected_partial: Classical.choice, Quot.sound, propext
Verif.Search.C148_refused: Classical.choice, Quot.sound, propext
Verif.Search.C148_same_partial: Classical.choice, Quot.sound, propext
Verif.Search.C149_directory: Classical.choice, Quot.sound, propext
Verif.Search.C149_calls: Classical.choice, Quot.sound, propext
Verif.Search.C149_tool: Classical.choice, Quot.sound, propext
Verif.Search.C149_card: Classical.choice, Quot.sound, propext
Verif.Again.C150_calls: Quot.sound, propext
Verif.Again.C150_tool: Quot.sound, propext
Verif.Again.C150_again: Quot.sound, propext
Verif.Again.C150_kept: Quot.sound, propext
Verif.Again.C150_order: Classical.choice, Quot.sound, propext
Verif.Stack.C151_command: Classical.choice, Quot.sound, propext
Verif.Stack.C151_transaction: Classical.choice, Quot.sound, propext
Verif.Stack.C151_card: Classical.choice, Quot.sound, propext
Verif.Stack.C151_directory: Classical.choice, Quot.sound, propext
Verif.Stack.C151_warning: Classical.choice, Quot.sound, propext
Verif.Stack.C152_command: Classical.choice, Quot.sound, propext
Verif.Stack.C152_transaction: Classical.choice, Quot.sound, propext
Verif.Search.C153_others: Classical.choice, Quot.sound, propext
Verif.Search.C153_once: Quot.sound, propext
Verif.Search.C153_none: Classical.choice, Quot.sound, propext
Verif.Failure.C154_stops: Quot.sound, propext
Verif.Failure.C154_kernel: Quot.sound, propext
Verif.Failure.C154_reader: Classical.choice, Quot.sound, propext
Verif.Search.C155_directory: Classical.choice, Quot.sound, propext
Verif.Search.C155_candidates: Classical.choice, Quot.sound, propext
Verif.Search.C155_members: 
Verif.Search.C155_search_partial: Classical.choice, Quot.sound, propext
Verif.Search.C155_repeated: Classical.choice, Quot.sound, propext
Verif.Memory.C156_kernel: Quot.sound, propext
Verif.Memory.C156_transaction: Quot.sound, propext
Verif.Memory.C156_success: Quot.sound, propext
Verif.Blocked.C157_blocked: Classical.choice, Quot.sound, propext
Verif.Blocked.C157_kernel: Classical.choice, Quot.sound, propext
Verif.Scarce.C158_plenty: Quot.sound, propext
Verif.Scarce.C158_directory_partial: Classical.choice, Quot.sound, propext
Verif.Scarce.C158_search_partial: Quot.sound, propext
Verif.Scarce.C158_selection_partial: Classical.choice, Quot.sound, propext
Verif.Scarce.C158_never: Quot.sound, propext
Verif.Scarce.C158_lost: Quot.sound, propext
Verif.Scarce.C158_passed_over: Quot.sound, propext
