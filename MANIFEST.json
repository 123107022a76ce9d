{
 "claims": [
  {
   "property": "C01",
   "status": "proved",
   "theorems": [
    "Ks.Version.C01_string_roundtrip",
    "Ks.Version.C01_versionToString_releases",
    "Ks.Version.C01_supported_iff",
    "Ks.Version.C01_names_distinct"
   ],
   "note": ""
  },
  {
   "property": "C02",
   "status": "proved",
   "theorems": [
    "Ks.Version.C02_accepts_iff",
    "Ks.Version.C02_rejects"
   ],
   "note": ""
  },
  {
   "property": "C03",
   "status": "proved",
   "theorems": [
    "Ks.Version.C03_default",
    "Ks.Version.C03_first_line",
    "Ks.Version.C03_unreadable"
   ],
   "note": ""
  },
  {
   "property": "C04",
   "status": "partial",
   "theorems": [
    "Ks.Version.C04_int",
    "Ks.Version.C04_name",
    "Ks.Version.C04_decimal",
    "Ks.Version.C04_accepted_name_refused",
    "Ks.Version.C04_name_only_partial",
    "Ks.Version.C04_int_refused"
   ],
   "note": "The clause 'accepted by stringToVersion implies accepted by makeVersion' is false (DEVEL and the long names): C04_accepted_name_refused proves the negation, C04_name_only_partial what holds instead. The other clauses are proved in full."
  },
  {
   "property": "C05",
   "status": "proved",
   "theorems": [
    "Ks.C05_elements_clean",
    "Ks.C05_join_split",
    "Ks.C05_roundtrip"
   ],
   "note": ""
  },
  {
   "property": "C06",
   "status": "proved",
   "theorems": [
    "Ks.C06_true_iff",
    "Ks.C06_false_iff",
    "Ks.C06_case"
   ],
   "note": ""
  },
  {
   "property": "C07",
   "status": "proved",
   "theorems": [
    "Ks.C07_relative",
    "Ks.C07_canonical",
    "Ks.C07_idempotent"
   ],
   "note": ""
  },
  {
   "property": "C08",
   "status": "proved",
   "theorems": [
    "Ks.C08_words",
    "Ks.C08_quote_roundtrip",
    "Ks.C08_plain_word"
   ],
   "note": ""
  },
  {
   "property": "C09",
   "status": "proved",
   "theorems": [
    "Ks.C09_trailing_comment",
    "Ks.C09_only_comment"
   ],
   "note": ""
  },
  {
   "property": "C10",
   "status": "proved",
   "theorems": [
    "Ks.C10_parse_known_error",
    "Ks.C10_parse_args_error",
    "Ks.C10_converters",
    "Ks.C10_table"
   ],
   "note": ""
  },
  {
   "property": "C11",
   "status": "proved",
   "theorems": [
    "Ks.C11_store_last_wins",
    "Ks.C11_append_in_order",
    "Ks.C11_extend_in_order"
   ],
   "note": ""
  },
  {
   "property": "C12",
   "status": "proved",
   "theorems": [
    "Ks.C12_option_order",
    "Ks.C12_distinct_destinations"
   ],
   "note": ""
  },
  {
   "property": "C13",
   "status": "proved",
   "theorems": [
    "Ks.C13_exact",
    "Ks.C13_unique_abbreviation",
    "Ks.C13_ambiguous_rejected",
    "Ks.C13_unknown_rejected",
    "Ks.C13_unknown_with_blank_is_word",
    "Ks.C13_unknown_with_blank_accepted"
   ],
   "note": ""
  },
  {
   "property": "C14",
   "status": "proved",
   "theorems": [
    "Ks.C14_required_given",
    "Ks.C14_required_missing"
   ],
   "note": ""
  },
  {
   "property": "C15",
   "status": "proved",
   "theorems": [
    "Ks.C15_removed_rejected",
    "Ks.C15_removed_prefix_becomes_abbreviation",
    "Ks.C15_alias_survives"
   ],
   "note": ""
  },
  {
   "property": "C16",
   "status": "proved",
   "theorems": [
    "Ks.C16_set_to_obj",
    "Ks.C16_known_keys",
    "Ks.C16_namespace_keys"
   ],
   "note": ""
  },
  {
   "property": "C17",
   "status": "proved",
   "theorems": [
    "Ks.C17_last_mention",
    "Ks.C17_section_lines"
   ],
   "note": ""
  },
  {
   "property": "C18",
   "status": "proved",
   "theorems": [
    "Ks.C18_sorted"
   ],
   "note": ""
  },
  {
   "property": "C19",
   "status": "proved",
   "theorems": [
    "Ks.C19_names_unique",
    "Ks.C19_first_mode_stays",
    "Ks.C19_group_line",
    "Ks.C19_exclusion"
   ],
   "note": ""
  },
  {
   "property": "C20",
   "status": "proved",
   "theorems": [
    "Ks.C20_environment",
    "Ks.C20_environment_batch"
   ],
   "note": ""
  },
  {
   "property": "C21",
   "status": "proved",
   "theorems": [
    "Ks.C21_batch",
    "Ks.C21_both",
    "Ks.C21_order_irrelevant"
   ],
   "note": ""
  },
  {
   "property": "C22",
   "status": "partial",
   "theorems": [
    "Ks.C22_roundtrip_partial",
    "Ks.C22_environment_lost",
    "Ks.C22_group_lost"
   ],
   "note": "False as stated: C22_environment_lost (--default with an environment) and C22_group_lost (a group excluded, then selected) prove the negation. C22_roundtrip_partial proves the round trip, up to the sorting of the group lists, for selections that contain no such contradiction and whose names can be written on a line of their own."
  },
  {
   "property": "C23",
   "status": "proved",
   "theorems": [
    "Ks.C23_same_selection",
    "Ks.C23_idempotent",
    "Ks.C23_empty_iff"
   ],
   "note": ""
  },
  {
   "property": "C24",
   "status": "proved",
   "theorems": [
    "Ks.C24_scripts_verbatim"
   ],
   "note": ""
  },
  {
   "property": "C25",
   "status": "proved",
   "theorems": [
    "Ks.C25_script_attributes",
    "Ks.C25_script_of_section"
   ],
   "note": ""
  },
  {
   "property": "C26",
   "status": "proved",
   "theorems": [
    "Ks.C26_script_roundtrip"
   ],
   "note": ""
  },
  {
   "property": "C27",
   "status": "proved",
   "theorems": [
    "Ks.C27_blank_scripts",
    "Ks.C27_leak"
   ],
   "note": ""
  },
  {
   "property": "C28",
   "status": "proved",
   "theorems": [
    "Ks.C28_dispatch"
   ],
   "note": ""
  },
  {
   "property": "C29",
   "status": "proved",
   "theorems": [
    "Ks.C29_lossless",
    "Ks.C29_lines",
    "Ks.C29_crlf"
   ],
   "note": ""
  },
  {
   "property": "C30",
   "status": "proved",
   "theorems": [
    "Ks.C30_tolerant"
   ],
   "note": ""
  },
  {
   "property": "C31",
   "status": "proved",
   "theorems": [
    "Ks.C31_fatal"
   ],
   "note": ""
  },
  {
   "property": "C32",
   "status": "proved",
   "theorems": [
    "Ks.C32_unclosed_eof",
    "Ks.C32_unclosed_tag",
    "Ks.C32_before_F8"
   ],
   "note": ""
  },
  {
   "property": "C33",
   "status": "proved",
   "theorems": [
    "Ks.C33_line_numbers"
   ],
   "note": ""
  },
  {
   "property": "C34",
   "status": "proved",
   "theorems": [
    "Ks.C34_include_is_paste",
    "Ks.C34_swallowed"
   ],
   "note": ""
  },
  {
   "property": "C35",
   "status": "proved",
   "theorems": [
    "Ks.C35_independent",
    "Ks.C35_independent_file",
    "Ks.C35_include_is_blank",
    "Ks.C35_include_in_script"
   ],
   "note": ""
  },
  {
   "property": "C36",
   "status": "proved",
   "theorems": [
    "Ks.C36_fatal",
    "Ks.C36_skipped"
   ],
   "note": ""
  },
  {
   "property": "C37",
   "status": "proved",
   "theorems": [
    "Ks.C37_rule",
    "Ks.C37_include_resolution",
    "Ks.C37_include_resolution_text"
   ],
   "note": ""
  },
  {
   "property": "C38",
   "status": "proved",
   "theorems": [
    "Ks.C38_cyclic",
    "Ks.C38_swallowed"
   ],
   "note": ""
  },
  {
   "property": "C39",
   "status": "proved",
   "theorems": [
    "Ks.C39_commands",
    "Ks.C39_reset"
   ],
   "note": ""
  },
  {
   "property": "C40",
   "status": "proved",
   "theorems": [
    "Ks.C40_unknown_fatal",
    "Ks.C40_unknown_kept",
    "Ks.C40_no_effect",
    "Ks.C40_kept_for_output"
   ],
   "note": ""
  },
  {
   "property": "C41",
   "status": "partial",
   "theorems": [
    "Ks.C41_merged",
    "Ks.C41_roundtrip_partial",
    "Ks.C41_lines_spread",
    "Ks.C41_sections_merged"
   ],
   "note": "False as stated: C41_lines_spread and C41_sections_merged prove the negation. C41_merged proves exactly what any list of such sections becomes, C41_roundtrip_partial that a single section without lines survives."
  },
  {
   "property": "C42",
   "status": "partial",
   "theorems": [
    "Ks.C42_handlers_escape_partial",
    "Ks.C42_handlers_only_kickstart_errors_partial",
    "Ks.C42_empty_word_escapes",
    "Ks.C42_open_quote_escapes",
    "Ks.C42_lone_dash_escapes",
    "Ks.C42_escapes_partial",
    "Ks.C42_only_kickstart_errors_partial"
   ],
   "note": "False as stated: C42_empty_word_escapes, C42_open_quote_escapes and C42_lone_dash_escapes prove the negation. The _partial theorems prove which exceptions can escape in general, and that only KickstartError (and RecursionError) escapes when every line can be split and has a first word. C42_handlers_* say the same of the handlers of pykickstart, without an assumption on their commands. Loading files is assumed to raise only KickstartErrors."
  },
  {
   "property": "C43",
   "status": "proved",
   "theorems": [
    "Ks.C43_exact",
    "Ks.C43_file",
    "Ks.C43_unchanged",
    "Ks.C43_replaced",
    "Ks.C43_temp",
    "Ks.C43_runs_together"
   ],
   "note": ""
  },
  {
   "property": "C44",
   "status": "proved",
   "theorems": [
    "Ks.C44_first_failure",
    "Ks.C44_kickstart_error",
    "Ks.C44_unreadable_input"
   ],
   "note": ""
  },
  {
   "property": "C45",
   "status": "proved",
   "theorems": [
    "Ks.C45_every_name",
    "Ks.C45_shared",
    "Ks.C45_objects"
   ],
   "note": ""
  },
  {
   "property": "C46",
   "status": "proved",
   "theorems": [
    "Ks.C46_once_in_order",
    "Ks.C46_order_independent"
   ],
   "note": ""
  },
  {
   "property": "C47",
   "status": "proved",
   "theorems": [
    "Ks.C47_unknown",
    "Ks.C47_fresh",
    "Ks.C47_same_place",
    "Ks.C47_alias_stale"
   ],
   "note": ""
  },
  {
   "property": "C48",
   "status": "proved",
   "theorems": [
    "Ks.C48_unknown",
    "Ks.C48_masked",
    "Ks.C48_known",
    "Ks.C48_seen"
   ],
   "note": ""
  },
  {
   "property": "C49",
   "status": "proved",
   "theorems": [
    "Ks.C49_masked",
    "Ks.C49_unknown",
    "Ks.C49_listed",
    "Ks.C49_nothing_written"
   ],
   "note": ""
  },
  {
   "property": "C50",
   "status": "proved",
   "theorems": [
    "Ks.C50_updated",
    "Ks.C50_kept",
    "Ks.C50_names"
   ],
   "note": ""
  },
  {
   "property": "C51",
   "status": "proved",
   "theorems": [
    "Ks.C51_data",
    "Ks.C51_command",
    "Ks.C51_removed"
   ],
   "note": ""
  },
  {
   "property": "C52",
   "status": "proved",
   "theorems": [
    "Ks.C52_layout",
    "Ks.C52_version"
   ],
   "note": ""
  },
  {
   "property": "C53",
   "status": "proved",
   "theorems": [
    "Ks.C53_with_line",
    "Ks.C53_line_identified",
    "Ks.C53_bare",
    "Ks.C53_old_convention"
   ],
   "note": ""
  },
  {
   "property": "C54",
   "status": "proved",
   "theorems": [
    "Ks.C54_file_roundtrip"
   ],
   "note": ""
  },
  {
   "property": "C55",
   "status": "proved",
   "theorems": [
    "Ks.C55_errors",
    "Ks.C55_parse_errors",
    "Ks.C55_raid_raises",
    "Ks.C55_method_raises",
    "Ks.C55_realm_raises",
    "Ks.C55_mount_raises",
    "Ks.C55_nvdimm_raises",
    "Ks.C55_multipath_raises"
   ],
   "note": ""
  },
  {
   "property": "C56",
   "status": "proved",
   "theorems": [
    "Ks.C56_refused",
    "Ks.C56_parse_error",
    "Ks.C56_exclusive",
    "Ks.C56_one_way",
    "Ks.C56_after_reset"
   ],
   "note": ""
  },
  {
   "property": "C57",
   "status": "proved",
   "theorems": [
    "Ks.C57_commute",
    "Ks.C57_reorder",
    "Ks.C57_not_all"
   ],
   "note": ""
  },
  {
   "property": "C58",
   "status": "proved",
   "theorems": [
    "Ks.C58_accepted",
    "Ks.C58_refused",
    "Ks.C58_other",
    "Ks.C58_lines",
    "Ks.C58_multipath"
   ],
   "note": ""
  },
  {
   "property": "C59",
   "status": "proved",
   "theorems": [
    "Ks.C59_deprecated",
    "Ks.C59_removed",
    "Ks.C59_lifecycle",
    "Ks.C59_left_out",
    "Ks.C59_left_out_accepted"
   ],
   "note": ""
  },
  {
   "property": "C60",
   "status": "proved",
   "theorems": [
    "Ks.C60_logvol",
    "Ks.C60_part",
    "Ks.C60_raid",
    "Ks.C60_volgroup",
    "Ks.C60_mount",
    "Ks.C60_nvdimm",
    "Ks.C60_btrfs",
    "Ks.C60_network",
    "Ks.C60_repo",
    "Ks.C60_timesource",
    "Ks.C60_driverdisk",
    "Ks.C60_snapshot",
    "Ks.C60_snapshot_names"
   ],
   "note": ""
  },
  {
   "property": "C61",
   "status": "proved",
   "theorems": [
    "Ks.C61_read_back",
    "Ks.C61_passphrase_lost",
    "Ks.C61_inodes_lost",
    "Ks.C61_gid_lost",
    "Ks.C61_blank_split"
   ],
   "note": ""
  },
  {
   "property": "C62",
   "status": "proved",
   "theorems": [
    "Ks.C62_read_back",
    "Ks.C62_passphrase_lost",
    "Ks.C62_clearpart_lost",
    "Ks.C62_vnc_port_lost",
    "Ks.C62_level_lost",
    "Ks.C62_disabled_lost"
   ],
   "note": ""
  },
  {
   "property": "C63",
   "status": "proved",
   "theorems": [
    "Ks.C63_unread",
    "Ks.C63_text",
    "Ks.C63_refused_is_read"
   ],
   "note": ""
  },
  {
   "property": "C64",
   "status": "proved",
   "theorems": [
    "Ks.C64_rules",
    "Ks.C64_first",
    "Ks.C64_second_line",
    "Ks.C64_refused_line"
   ],
   "note": ""
  },
  {
   "property": "C65",
   "status": "proved",
   "theorems": [
    "Ks.C65_base",
    "Ks.C65_line",
    "Ks.C65_refused"
   ],
   "note": ""
  },
  {
   "property": "C66",
   "status": "proved",
   "theorems": [
    "Ks.C66_text"
   ],
   "note": ""
  },
  {
   "property": "C67",
   "status": "proved",
   "theorems": [
    "Ks.C67_method",
    "Ks.C67_set",
    "Ks.C67_set_none",
    "Ks.C67_set_unknown",
    "Ks.C67_attr",
    "Ks.C67_set_attr"
   ],
   "note": ""
  },
  {
   "property": "C68",
   "status": "proved",
   "theorems": [
    "Ks.C68_valid",
    "Ks.C68_empty",
    "Ks.C68_messages",
    "Ks.C68_count",
    "Ks.C68_status_wraps",
    "Ks.C68_status",
    "Ks.C68_text_only"
   ],
   "note": ""
  },
  {
   "property": "C69",
   "status": "proved",
   "theorems": [
    "Ks.C69_file_text",
    "Ks.C69_file_errors",
    "Ks.C69_url",
    "Ks.C69_to_file",
    "Ks.C69_to_file_fails",
    "Ks.C69_not_utf8_escapes"
   ],
   "note": ""
  },
  {
   "property": "C70",
   "status": "proved",
   "theorems": [
    "Ks.C70_returns_zero",
    "Ks.C70_written",
    "Ks.C70_nothing",
    "Ks.C70_raises",
    "Ks.C70_stands_alone"
   ],
   "note": ""
  },
  {
   "property": "C71",
   "status": "proved",
   "theorems": [
    "Ks.C71_quit",
    "Ks.C71_show",
    "Ks.C71_errors",
    "Ks.C71_clear_loses_sections",
    "Ks.C71_clear",
    "Ks.C71_ends",
    "Ks.C71_crash",
    "Ks.C71_commands"
   ],
   "note": ""
  },
  {
   "property": "C72",
   "status": "proved",
   "theorems": [
    "Ks.C72_dispatch",
    "Ks.C72_differ",
    "Ks.C72_written",
    "Ks.C72_layout",
    "Ks.C72_include",
    "Ks.C72_files",
    "Ks.C72_flatten"
   ],
   "note": ""
  },
  {
   "property": "C73",
   "status": "proved",
   "theorems": [
    "Ks.C73_text_accepted",
    "Ks.C73_empty_name",
    "Ks.C73_rivals"
   ],
   "note": ""
  },
  {
   "property": "C74",
   "status": "proved",
   "theorems": [
    "Ks.C74_list_restored"
   ],
   "note": ""
  },
  {
   "property": "C75",
   "status": "proved",
   "theorems": [
    "Ks.C75_lists",
    "Ks.C75_lists_file",
    "Ks.C75_two_lines",
    "Ks.C75_stable",
    "Ks.C75_file",
    "Ks.C75_lilo",
    "Ks.C75_refused_is_written"
   ],
   "note": ""
  },
  {
   "property": "C76",
   "status": "proved",
   "theorems": [
    "Ks.C76_self_accepted",
    "Ks.C76_stable",
    "Ks.C76_one_line",
    "Ks.C76_file",
    "Ks.C76_two_lines",
    "Ks.C76_refused"
   ],
   "note": ""
  },
  {
   "property": "C77",
   "status": "proved",
   "theorems": [
    "Ks.C77_texts",
    "Ks.C77_stable",
    "Ks.C77_file",
    "Ks.C77_refused"
   ],
   "note": ""
  },
  {
   "property": "C78",
   "status": "proved",
   "theorems": [
    "Ks.C78_restores",
    "Ks.C78_file",
    "Ks.C78_two_words",
    "Ks.C78_old_format",
    "Ks.C78_password",
    "Ks.C78_switch"
   ],
   "note": ""
  },
  {
   "property": "C79",
   "status": "proved",
   "theorems": [
    "Ks.C79_removed",
    "Ks.C79_deprecated",
    "Ks.C79_added",
    "Ks.C79_sorted",
    "Ks.C79_options",
    "Ks.C79_kept",
    "Ks.C79_back",
    "Ks.C79_same",
    "Ks.C79_codes",
    "Ks.C79_first_word",
    "Ks.C79_empty_line",
    "Ks.C79_later_word",
    "Ks.C79_all_options",
    "Ks.C79_states",
    "Ks.C79_case",
    "Ks.C79_back_again",
    "Ks.C79_deprecated_again",
    "Ks.C79_method",
    "Ks.C79_offers_removed"
   ],
   "note": ""
  },
  {
   "property": "C80",
   "status": "proved",
   "theorems": [
    "Ks.C80_restores",
    "Ks.C80_file",
    "Ks.C80_leading_blank"
   ],
   "note": ""
  },
  {
   "property": "C81",
   "status": "proved",
   "theorems": [
    "Ks.C81_auth",
    "Ks.C81_auth_restored",
    "Ks.C81_realm",
    "Ks.C81_cases",
    "Ks.C81_realm_case",
    "Ks.C81_realm_twice"
   ],
   "note": ""
  },
  {
   "property": "C82",
   "status": "proved",
   "theorems": [
    "Ks.C82_word",
    "Ks.C82_modes",
    "Ks.C82_mode_line",
    "Ks.C82_file",
    "Ks.C82_cases",
    "Ks.C82_cmdline",
    "Ks.C82_mode_case"
   ],
   "note": ""
  },
  {
   "property": "C83",
   "status": "proved",
   "theorems": [
    "Ks.C83_restores",
    "Ks.C83_file",
    "Ks.C83_case",
    "Ks.C83_lost"
   ],
   "note": ""
  },
  {
   "property": "C84",
   "status": "proved",
   "theorems": [
    "Ks.C84_restores",
    "Ks.C84_file",
    "Ks.C84_case",
    "Ks.C84_lost"
   ],
   "note": ""
  },
  {
   "property": "C85",
   "status": "proved",
   "theorems": [
    "Ks.C85_restores",
    "Ks.C85_file",
    "Ks.C85_case",
    "Ks.C85_lost"
   ],
   "note": ""
  }
 ]
}