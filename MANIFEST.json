{
 "claims": [
  {
   "property": "C01",
   "status": "proved",
   "theorems": [
    "Ngircd.C01_match_sound",
    "Ngircd.C01_literal_mask"
   ],
   "note": ""
  },
  {
   "property": "C02",
   "status": "partial",
   "theorems": [
    "Ngircd.C02_match_complete_partial",
    "Ngircd.C02_match_iff_partial",
    "Ngircd.C02_violation_trailing_stars",
    "Ngircd.C02_violation_backslash"
   ],
   "note": "complete for masks not ending in ** and without a backslash right behind a wildcard; both exclusions are real violations, proved"
  },
  {
   "property": "C03",
   "status": "partial",
   "theorems": [
    "Ngircd.C03_case_irrelevant",
    "Ngircd.C03_case_insensitive_sound",
    "Ngircd.C03_case_insensitive_complete_partial",
    "Ngircd.C03_mask_list"
   ],
   "note": "case irrelevance, soundness and list semantics are full; completeness inherits the exclusions of C02"
  },
  {
   "property": "C04",
   "status": "partial",
   "theorems": [
    "Ngircd.C04_executed_is_prefix",
    "Ngircd.C04_nothing_lost_partial",
    "Ngircd.C04_fragmentation_irrelevant_partial",
    "Ngircd.C04_progress",
    "Ngircd.C04_violation_wedged",
    "Ngircd.C04_short_lines_keep_open",
    "Ngircd.C04_violation_511"
   ],
   "note": "prefix (nothing spurious/duplicated) is proved for all streams, schedules and handlers; 'nothing lost' is proved for handlers that never report failure while leaving the connection open - for those that do, C04_violation_wedged proves the connection is dead forever; 511-byte lines depend on the packet split (C04_violation_511)"
  },
  {
   "property": "C05",
   "status": "proved",
   "theorems": [
    "Ngircd.C05_executed_lines_bounded",
    "Ngircd.C05_overlong_closes"
   ],
   "note": ""
  },
  {
   "property": "C06",
   "status": "proved",
   "theorems": [
    "Ngircd.C06_line_format",
    "Ngircd.C06_line_bounded"
   ],
   "note": ""
  },
  {
   "property": "C07",
   "status": "proved",
   "theorems": [
    "Ngircd.C07_output_in_order",
    "Ngircd.C07_sent_is_prefix",
    "Ngircd.C07_pending_bounded",
    "Ngircd.C07_accepted_iff_success",
    "Ngircd.C07_refused_only_with_close"
   ],
   "note": ""
  },
  {
   "property": "C08",
   "status": "proved",
   "theorems": [
    "Ngircd.C08_round_trip"
   ],
   "note": ""
  },
  {
   "property": "C09",
   "status": "proved",
   "theorems": [
    "Ngircd.C09_well_formed",
    "Ngircd.C09_refused_iff"
   ],
   "note": ""
  },
  {
   "property": "C10",
   "status": "proved",
   "theorems": [
    "Ngircd.C10_prefix_behind",
    "Ngircd.C10_user_prefix",
    "Ngircd.C10_spoofing_user",
    "Ngircd.C10_spoofing_server",
    "Ngircd.C10_unknown_prefix",
    "Ngircd.C10_accepted"
   ],
   "note": ""
  },
  {
   "property": "C11",
   "status": "proved",
   "theorems": [
    "Ngircd.C11_guarded",
    "Ngircd.C11_unregistered",
    "Ngircd.C11_user",
    "Ngircd.C11_server"
   ],
   "note": ""
  },
  {
   "property": "C12",
   "status": "proved",
   "theorems": [
    "Ngircd.C12_names_unique",
    "Ngircd.C12_violated_by_peer"
   ],
   "note": ""
  },
  {
   "property": "C13",
   "status": "proved",
   "theorems": [
    "Ngircd.C13_hash_irrelevant",
    "Ngircd.C13_lookup",
    "Ngircd.C13_channel_lookup"
   ],
   "note": ""
  },
  {
   "property": "C14",
   "status": "proved",
   "theorems": [
    "Ngircd.C14_nick_check",
    "Ngircd.C14_nicks_valid",
    "Ngircd.C14_bad_nick_refused"
   ],
   "note": ""
  },
  {
   "property": "C15",
   "status": "proved",
   "theorems": [
    "Ngircd.C15_commands",
    "Ngircd.C15_password",
    "Ngircd.C15_cap",
    "Ngircd.C15_ping",
    "Ngircd.C15_ban",
    "Ngircd.C15_ping_answer",
    "Ngircd.C15_cap_end"
   ],
   "note": ""
  },
  {
   "property": "C16",
   "status": "proved",
   "theorems": [
    "Ngircd.C16_members_once",
    "Ngircd.C16_members_exist",
    "Ngircd.C16_departed_on_no_channel",
    "Ngircd.C16_violated_by_peer"
   ],
   "note": ""
  },
  {
   "property": "C17",
   "status": "proved",
   "theorems": [
    "Ngircd.C17_names_unique",
    "Ngircd.C17_no_empty_channels",
    "Ngircd.C17_violated_by_chaninfo"
   ],
   "note": ""
  },
  {
   "property": "C18",
   "status": "proved",
   "theorems": [
    "Ngircd.C18_how",
    "Ngircd.C18_join",
    "Ngircd.C18_maxjoins",
    "Ngircd.C18_admits"
   ],
   "note": ""
  },
  {
   "property": "C19",
   "status": "proved",
   "theorems": [
    "Ngircd.C19_join"
   ],
   "note": ""
  },
  {
   "property": "C20",
   "status": "proved",
   "theorems": [
    "Ngircd.C20_refused"
   ],
   "note": ""
  },
  {
   "property": "C21",
   "status": "proved",
   "theorems": [
    "Ngircd.C21_channel"
   ],
   "note": ""
  },
  {
   "property": "C22",
   "status": "proved",
   "theorems": [
    "Ngircd.C22_lost",
    "Ngircd.C22_quit",
    "Ngircd.C22_nick",
    "Ngircd.C22_remote_quit",
    "Ngircd.C22_remote_nick"
   ],
   "note": ""
  },
  {
   "property": "C23",
   "status": "proved",
   "theorems": [
    "Ngircd.C23_mode",
    "Ngircd.C23_only_mode",
    "Ngircd.C23_join",
    "Ngircd.C23_powerless"
   ],
   "note": ""
  },
  {
   "property": "C24",
   "status": "proved",
   "theorems": [
    "Ngircd.C24_kick",
    "Ngircd.C24_unequal",
    "Ngircd.C24_effect"
   ],
   "note": ""
  },
  {
   "property": "C25",
   "status": "proved",
   "theorems": [
    "Ngircd.C25_modes",
    "Ngircd.C25_mode_command"
   ],
   "note": ""
  },
  {
   "property": "C26",
   "status": "proved",
   "theorems": [
    "Ngircd.C26_only_oper",
    "Ngircd.C26_credentials",
    "Ngircd.C26_effect"
   ],
   "note": ""
  },
  {
   "property": "C27",
   "status": "proved",
   "theorems": [
    "Ngircd.C27_users",
    "Ngircd.C27_remote_users",
    "Ngircd.C27_remote_connect"
   ],
   "note": ""
  },
  {
   "property": "C28",
   "status": "proved",
   "theorems": [
    "Ngircd.C28_count",
    "Ngircd.C28_no_duplicates",
    "Ngircd.C28_violation_long_mask",
    "Ngircd.C28_add",
    "Ngircd.C28_add_nomem",
    "Ngircd.C28_del",
    "Ngircd.C28_del_exact",
    "Ngircd.C28_expire_exact",
    "Ngircd.C28_sublists"
   ],
   "note": "for masks below the 128 byte buffer (guaranteed by Lists_MakeMask); C28_violation_long_mask shows the bound is needed"
  },
  {
   "property": "C29",
   "status": "proved",
   "theorems": [
    "Ngircd.C29_full_mask_kept",
    "Ngircd.C29_normal_form",
    "Ngircd.C29_has_mask_form",
    "Ngircd.C29_idempotent",
    "Ngircd.C29_fits"
   ],
   "note": ""
  },
  {
   "property": "C30",
   "status": "proved",
   "theorems": [
    "Ngircd.C30_check_iff",
    "Ngircd.C30_check_effect",
    "Ngircd.C30_admits_once",
    "Ngircd.C30_consumed"
   ],
   "note": ""
  },
  {
   "property": "C31",
   "status": "proved",
   "theorems": [
    "Ngircd.C31_tokens_unique",
    "Ngircd.C31_token_smallest"
   ],
   "note": ""
  },
  {
   "property": "C32",
   "status": "proved",
   "theorems": [
    "Ngircd.C32_lost_link",
    "Ngircd.C32_lost_connection",
    "Ngircd.C32_no_orphans",
    "Ngircd.C32_squit"
   ],
   "note": ""
  },
  {
   "property": "C33",
   "status": "proved",
   "theorems": [
    "Ngircd.C33_max",
    "Ngircd.C33_max_reached",
    "Ngircd.C33_max_monotone",
    "Ngircd.C33_lusers"
   ],
   "note": ""
  },
  {
   "property": "C34",
   "status": "proved",
   "theorems": [
    "Ngircd.C34_no_fault",
    "Ngircd.C34_refines_bytestring",
    "Ngircd.C34_append_failure",
    "Ngircd.C34_get_in_bounds",
    "Ngircd.C34_temporary_nul",
    "Ngircd.C34_append_leaves_room",
    "Ngircd.C34_temporary_nul_counted_when_full",
    "Ngircd.C34_get_beyond_length"
   ],
   "note": ""
  },
  {
   "property": "C35",
   "status": "proved",
   "theorems": [
    "Ngircd.C35_hash_case",
    "Ngircd.C35_hash_not_constant"
   ],
   "note": ""
  },
  {
   "property": "C36",
   "status": "proved",
   "theorems": [
    "Ngircd.C36_penalty_exact",
    "Ngircd.C36_penalty_never_decreases",
    "Ngircd.C36_penalty_blocks"
   ],
   "note": ""
  },
  {
   "property": "C37",
   "status": "proved",
   "theorems": [
    "Ngircd.C37_accept",
    "Ngircd.C37_others",
    "Ngircd.C37_limits"
   ],
   "note": ""
  },
  {
   "property": "C38",
   "status": "proved",
   "theorems": [
    "Ngircd.C38_tick",
    "Ngircd.C38_data",
    "Ngircd.C38_times",
    "Ngircd.C38_silent"
   ],
   "note": ""
  },
  {
   "property": "C39",
   "status": "proved",
   "theorems": [
    "Ngircd.C39_req",
    "Ngircd.C39_only"
   ],
   "note": ""
  },
  {
   "property": "C40",
   "status": "proved",
   "theorems": [
    "Ngircd.C40_hidden",
    "Ngircd.C40_who",
    "Ngircd.C40_violated_by_who",
    "Ngircd.C40_violated_by_names"
   ],
   "note": ""
  },
  {
   "property": "C41",
   "status": "proved",
   "theorems": [
    "Ngircd.C41_modes_are_sets",
    "Ngircd.C41_add",
    "Ngircd.C41_add_full",
    "Ngircd.C41_del",
    "Ngircd.C41_violated_by_peer"
   ],
   "note": ""
  },
  {
   "property": "C42",
   "status": "proved",
   "theorems": [
    "Ngircd.C42_strlcpy",
    "Ngircd.C42_strlcat",
    "Ngircd.C42_strlcat_always",
    "Ngircd.C42_trim",
    "Ngircd.C42_trim_idempotent",
    "Ngircd.C42_trimLast"
   ],
   "note": ""
  },
  {
   "property": "C43",
   "status": "partial",
   "theorems": [
    "Ngircd.C43_scrub_exact",
    "Ngircd.C43_no_ctcp_partial",
    "Ngircd.C43_only_ctcp",
    "Ngircd.C43_violation_no_colon",
    "Ngircd.C43_violation_colon_in_target"
   ],
   "note": "dropped iff the first colon is followed by a non-ACTION CTCP (exact characterisation); a CTCP without colon, or after an earlier colon, passes: two violation theorems"
  },
  {
   "property": "C44",
   "status": "proved",
   "theorems": [
    "Ngircd.C44_list"
   ],
   "note": ""
  },
  {
   "property": "C45",
   "status": "proved",
   "theorems": [
    "Ngircd.C45_store",
    "Ngircd.C45_lost",
    "Ngircd.C45_quit",
    "Ngircd.C45_nick",
    "Ngircd.C45_remote_quit",
    "Ngircd.C45_whowas"
   ],
   "note": ""
  },
  {
   "property": "C46",
   "status": "proved",
   "theorems": [
    "Ngircd.C46_equal",
    "Ngircd.C46_port",
    "Ngircd.C46_count",
    "Ngircd.C46_limit",
    "Ngircd.C46_text"
   ],
   "note": ""
  },
  {
   "property": "C47",
   "status": "proved",
   "theorems": [
    "Ngircd.C47_part",
    "Ngircd.C47_left",
    "Ngircd.C47_rejoin"
   ],
   "note": ""
  },
  {
   "property": "C48",
   "status": "proved",
   "theorems": [
    "Ngircd.C48_only",
    "Ngircd.C48_topic",
    "Ngircd.C48_effect"
   ],
   "note": ""
  },
  {
   "property": "C49",
   "status": "proved",
   "theorems": [
    "Ngircd.C49_refused",
    "Ngircd.C49_accepted",
    "Ngircd.C49_only",
    "Ngircd.C49_password",
    "Ngircd.C49_violated_by_numeric"
   ],
   "note": ""
  },
  {
   "property": "C50",
   "status": "proved",
   "theorems": [
    "Ngircd.C50_collision",
    "Ngircd.C50_refused"
   ],
   "note": ""
  },
  {
   "property": "C51",
   "status": "proved",
   "theorems": [
    "Ngircd.C51_direct",
    "Ngircd.C51_refused",
    "Ngircd.C51_nobody"
   ],
   "note": ""
  },
  {
   "property": "C52",
   "status": "proved",
   "theorems": [
    "Ngircd.C52_queries"
   ],
   "note": ""
  },
  {
   "property": "C53",
   "status": "proved",
   "theorems": [
    "Ngircd.C53_identity"
   ],
   "note": ""
  },
  {
   "property": "C54",
   "status": "proved",
   "theorems": [
    "Ngircd.C54_kill",
    "Ngircd.C54_refused",
    "Ngircd.C54_unknown"
   ],
   "note": ""
  },
  {
   "property": "C55",
   "status": "proved",
   "theorems": [
    "Ngircd.C55_removal"
   ],
   "note": ""
  },
  {
   "property": "C56",
   "status": "proved",
   "theorems": [
    "Ngircd.C56_leaving"
   ],
   "note": ""
  },
  {
   "property": "C57",
   "status": "proved",
   "theorems": [
    "Ngircd.C57_part",
    "Ngircd.C57_kick",
    "Ngircd.C57_topic",
    "Ngircd.C57_join"
   ],
   "note": ""
  },
  {
   "property": "C58",
   "status": "proved",
   "theorems": [
    "Ngircd.C58_wallops",
    "Ngircd.C58_refused"
   ],
   "note": ""
  },
  {
   "property": "C59",
   "status": "proved",
   "theorems": [
    "Ngircd.C59_away",
    "Ngircd.C59_back"
   ],
   "note": ""
  },
  {
   "property": "C60",
   "status": "proved",
   "theorems": [
    "Ngircd.C60_no_channel",
    "Ngircd.C60_invited",
    "Ngircd.C60_remembered",
    "Ngircd.C60_refused"
   ],
   "note": ""
  },
  {
   "property": "C61",
   "status": "proved",
   "theorems": [
    "Ngircd.C61_flags",
    "Ngircd.C61_list_known",
    "Ngircd.C61_list_full",
    "Ngircd.C61_list_added",
    "Ngircd.C61_list_removed",
    "Ngircd.C61_rank",
    "Ngircd.C61_key",
    "Ngircd.C61_limit"
   ],
   "note": ""
  },
  {
   "property": "C62",
   "status": "proved",
   "theorems": [
    "Ngircd.C62_change",
    "Ngircd.C62_query"
   ],
   "note": ""
  },
  {
   "property": "C63",
   "status": "proved",
   "theorems": [
    "Ngircd.C63_mask",
    "Ngircd.C63_shown",
    "Ngircd.C63_hidden"
   ],
   "note": ""
  },
  {
   "property": "C64",
   "status": "proved",
   "theorems": [
    "Ngircd.C64_query"
   ],
   "note": ""
  },
  {
   "property": "C65",
   "status": "proved",
   "theorems": [
    "Ngircd.C65_refused",
    "Ngircd.C65_accepted"
   ],
   "note": ""
  },
  {
   "property": "C66",
   "status": "proved",
   "theorems": [
    "Ngircd.C66_lost",
    "Ngircd.C66_squit"
   ],
   "note": ""
  },
  {
   "property": "C67",
   "status": "proved",
   "theorems": [
    "Ngircd.C67_user",
    "Ngircd.C67_service",
    "Ngircd.C67_old"
   ],
   "note": ""
  },
  {
   "property": "C68",
   "status": "proved",
   "theorems": [
    "Ngircd.C68_server",
    "Ngircd.C68_taken"
   ],
   "note": ""
  },
  {
   "property": "C69",
   "status": "proved",
   "theorems": [
    "Ngircd.C69_user",
    "Ngircd.C69_nick",
    "Ngircd.C69_cap",
    "Ngircd.C69_pong"
   ],
   "note": ""
  },
  {
   "property": "C70",
   "status": "proved",
   "theorems": [
    "Ngircd.C70_numeric",
    "Ngircd.C70_server"
   ],
   "note": ""
  },
  {
   "property": "C71",
   "status": "proved",
   "theorems": [
    "Ngircd.C71_names",
    "Ngircd.C71_names_all",
    "Ngircd.C71_list",
    "Ngircd.C71_list_limited",
    "Ngircd.C71_list_all"
   ],
   "note": ""
  },
  {
   "property": "C72",
   "status": "proved",
   "theorems": [
    "Ngircd.C72_ison",
    "Ngircd.C72_userhost",
    "Ngircd.C72_local_names",
    "Ngircd.C72_violated_by_percent"
   ],
   "note": ""
  },
  {
   "property": "C73",
   "status": "proved",
   "theorems": [
    "Ngircd.C73_channel",
    "Ngircd.C73_mask",
    "Ngircd.C73_hidden"
   ],
   "note": ""
  },
  {
   "property": "C74",
   "status": "proved",
   "theorems": [
    "Ngircd.C74_whois",
    "Ngircd.C74_secret",
    "Ngircd.C74_host"
   ],
   "note": ""
  },
  {
   "property": "C75",
   "status": "proved",
   "theorems": [
    "Ngircd.C75_passed_on",
    "Ngircd.C75_no_server",
    "Ngircd.C75_links",
    "Ngircd.C75_whois",
    "Ngircd.C75_whowas",
    "Ngircd.C75_trace"
   ],
   "note": ""
  },
  {
   "property": "C76",
   "status": "proved",
   "theorems": [
    "Ngircd.C76_links",
    "Ngircd.C76_servlist",
    "Ngircd.C76_stats",
    "Ngircd.C76_motd",
    "Ngircd.C76_trace",
    "Ngircd.C76_links_violated_by_split"
   ],
   "note": ""
  },
  {
   "property": "C77",
   "status": "proved",
   "theorems": [
    "Ngircd.C77_metadata",
    "Ngircd.C77_refused"
   ],
   "note": ""
  },
  {
   "property": "C78",
   "status": "proved",
   "theorems": [
    "Ngircd.C78_chaninfo",
    "Ngircd.C78_new_channel",
    "Ngircd.C78_refused"
   ],
   "note": ""
  },
  {
   "property": "C79",
   "status": "proved",
   "theorems": [
    "Ngircd.C79_njoin",
    "Ngircd.C79_new_channel",
    "Ngircd.C79_nobody"
   ],
   "note": ""
  },
  {
   "property": "C80",
   "status": "partial",
   "theorems": [
    "Ngircd.C80_requests_partial",
    "Ngircd.C80_lines_partial",
    "Ngircd.C80_events",
    "Ngircd.C80_violated_by_empty_mode",
    "Ngircd.C80_violated_by_pong",
    "Ngircd.C80_violated_by_kline"
   ],
   "note": "all commands of clients that are not servers, and all events; missing: requests of server links, and the requests excluded by Spec.Harmless, which are real defects (empty MODE argument, PONG after a refused login, GLINE/KLINE of an operator matching itself: each proved as a violation here; '%' in names and LINKS after a split are C72_violated_by_percent and C76_links_violated_by_split)"
  },
  {
   "property": "C81",
   "status": "proved",
   "theorems": [
    "Ngircd.C81_set",
    "Ngircd.C81_delete"
   ],
   "note": ""
  },
  {
   "property": "C82",
   "status": "proved",
   "theorems": [
    "Ngircd.C82_check",
    "Ngircd.C82_one_per_group",
    "Ngircd.C82_spacing",
    "Ngircd.C82_reconnect",
    "Ngircd.C82_violated_by_lookup",
    "Ngircd.C82_attempt"
   ],
   "note": "'connected' is what the table of configured servers says; C82_violated_by_lookup proves that the table can forget a link that is up"
  },
  {
   "property": "C83",
   "status": "partial",
   "theorems": [
    "Ngircd.C83_disabled",
    "Ngircd.C83_no_connection_partial",
    "Ngircd.C83_violated_by_lookup"
   ],
   "note": "no further attempt is made: full; 'no connection is opened' excludes a lookup that is running at that moment, where it is false (C83_violated_by_lookup)"
  },
  {
   "property": "C84",
   "status": "proved",
   "theorems": [
    "Ngircd.C84_start",
    "Ngircd.C84_rehash",
    "Ngircd.C84_servers",
    "Ngircd.C84_layout",
    "Ngircd.C84_violated_by_long_comment"
   ],
   "note": ""
  },
  {
   "property": "C85",
   "status": "proved",
   "theorems": [
    "Ngircd.C85_within",
    "Ngircd.C85_name",
    "Ngircd.C85_start",
    "Ngircd.C85_violated_by_server_name",
    "Ngircd.C85_ports"
   ],
   "note": ""
  },
  {
   "property": "C86",
   "status": "partial",
   "theorems": [
    "Ngircd.C86_reader",
    "Ngircd.C86_safe_partial",
    "Ngircd.C86_violated_by_ssl",
    "Ngircd.C86_violated_by_modes"
   ],
   "note": "options and server table: for all files (C86_reader); SSL and channels under the restrictions shown necessary by the two witnesses (C86_violated_by_ssl, C86_violated_by_modes)"
  },
  {
   "property": "C87",
   "status": "proved",
   "theorems": [
    "Ngircd.C87_unknown",
    "Ngircd.C87_unknown_ignored",
    "Ngircd.C87_arguments",
    "Ngircd.C87_forbidden",
    "Ngircd.C87_status",
    "Ngircd.C87_status_nobody",
    "Ngircd.C87_status_here"
   ],
   "note": ""
  },
  {
   "property": "C88",
   "status": "proved",
   "theorems": [
    "Ngircd.C88_ping",
    "Ngircd.C88_ping_link",
    "Ngircd.C88_ping_empty",
    "Ngircd.C88_ping_on",
    "Ngircd.C88_ping_nowhere",
    "Ngircd.C88_pong_on"
   ],
   "note": ""
  },
  {
   "property": "C89",
   "status": "proved",
   "theorems": [
    "Ngircd.C89_oper",
    "Ngircd.C89_oper_again",
    "Ngircd.C89_oper_refused",
    "Ngircd.C89_die",
    "Ngircd.C89_die_silent",
    "Ngircd.C89_rehash",
    "Ngircd.C89_restart",
    "Ngircd.C89_refused"
   ],
   "note": ""
  },
  {
   "property": "C90",
   "status": "proved",
   "theorems": [
    "Ngircd.C90_mode",
    "Ngircd.C90_nobody",
    "Ngircd.C90_limit"
   ],
   "note": ""
  },
  {
   "property": "C91",
   "status": "proved",
   "theorems": [
    "Ngircd.C91_own_name",
    "Ngircd.C91_rehash",
    "Ngircd.C91_rehash_new",
    "Ngircd.C91_start",
    "Ngircd.C91_violated_by_modes"
   ],
   "note": ""
  },
  {
   "property": "C92",
   "status": "proved",
   "theorems": [
    "Ngircd.C92_host",
    "Ngircd.C92_user",
    "Ngircd.C92_no_memory",
    "Ngircd.C92_addresses",
    "Ngircd.C92_no_address",
    "Ngircd.C92_violated_by_newline"
   ],
   "note": ""
  },
  {
   "property": "C93",
   "status": "proved",
   "theorems": [
    "Ngircd.C93_watches",
    "Ngircd.C93_safe",
    "Ngircd.C93_epoll",
    "Ngircd.C93_select",
    "Ngircd.C93_violated_by_reuse"
   ],
   "note": ""
  },
  {
   "property": "C94",
   "status": "partial",
   "theorems": [
    "Ngircd.C94_charconv",
    "Ngircd.C94_line",
    "Ngircd.C94_plain",
    "Ngircd.C94_inverse",
    "Ngircd.C94_handles_partial",
    "Ngircd.C94_violated_by_growth",
    "Ngircd.C94_violated_by_long_line",
    "Ngircd.C94_violated_by_close"
   ],
   "note": "the encoding of each connection and the conversion of lines that fit: full; 'no handle is lost' excludes closing a converting connection (C94_violated_by_close); 'no conversion writes outside its buffer' is false: C94_violated_by_growth, C94_violated_by_long_line"
  },
  {
   "property": "C95",
   "status": "partial",
   "theorems": [
    "Ngircd.C95_message_partial",
    "Ngircd.C95_violated_by_two_targets"
   ],
   "note": "excludes messages of a converting sender to several targets of which an earlier one has a converting receiver, where it is false (C95_violated_by_two_targets), and texts that do not fit after conversion"
  },
  {
   "property": "C96",
   "status": "partial",
   "theorems": [
    "Ngircd.C96_uid",
    "Ngircd.C96_gid_partial",
    "Ngircd.C96_unprivileged",
    "Ngircd.C96_chroot",
    "Ngircd.C96_chroot_daemon",
    "Ngircd.C96_violated_by_group",
    "Ngircd.C96_violated_by_namespace",
    "Ngircd.C96_violated_by_setuid_file",
    "Ngircd.C96_violated_by_relative_chroot"
   ],
   "note": "excludes a ServerGID that is unset or equal to the present group (C96_violated_by_group), IDs that are not valid (C96_violated_by_namespace), set-user-ID files (C96_violated_by_setuid_file), a relative ChrootDir in the foreground (C96_violated_by_relative_chroot)"
  },
  {
   "property": "C97",
   "status": "partial",
   "theorems": [
    "Ngircd.C97_mask",
    "Ngircd.C97_settles",
    "Ngircd.C97_rehash",
    "Ngircd.C97_asked",
    "Ngircd.C97_quit",
    "Ngircd.C97_goes_on",
    "Ngircd.C97_debug",
    "Ngircd.C97_dump",
    "Ngircd.C97_violated_by_block",
    "Ngircd.C97_violated_by_full_pipe"
   ],
   "note": "excludes more SIGHUP and SIGUSR2 between two settled states than the pipe has room for, where a signal is lost (C97_violated_by_full_pipe); the comment of Signal_Handler that signals are blocked until they are handled is false (C97_violated_by_block)"
  },
  {
   "property": "C98",
   "status": "partial",
   "theorems": [
    "Ngircd.C98_sender",
    "Ngircd.C98_receiver_partial",
    "Ngircd.C98_link_partial",
    "Ngircd.C98_violated_by_split_crlf",
    "Ngircd.C98_violated_by_stall",
    "Ngircd.C98_violated_by_write_buffer"
   ],
   "note": "excludes: a read that ends between the CR and the LF of the line that enables the compression (C98_violated_by_split_crlf: the link is closed), and the command limit reached at that line (C98_violated_by_stall: what was read behind it is not handled until the peer sends more; when it fills the compressed buffer the next read closes the link). Reads come when Conn_Handler asks for input (fewer than COMMAND_LEN bytes buffered), at least two commands are allowed at a time (the code allows servers ten). The write buffer of a compressed link has no limit (C98_violated_by_write_buffer)."
  },
  {
   "property": "C99",
   "status": "partial",
   "theorems": [
    "Ngircd.C99_stream",
    "Ngircd.C99_retry",
    "Ngircd.C99_watched",
    "Ngircd.C99_input_partial",
    "Ngircd.C99_output_partial",
    "Ngircd.C99_violated_by_long_record",
    "Ngircd.C99_violated_by_want_read",
    "Ngircd.C99_violated_by_full_buffer",
    "Ngircd.C99_violated_by_moved_buffer"
   ],
   "note": "order, completeness and watching: full. Progress is proved under conditions, because the claim fails otherwise: C99_violated_by_long_record (the rest of a record of more than READBUFFER_LEN bytes is not read until the peer sends more, SSL_pending is not used), C99_violated_by_want_read (after a read without text nothing is written until the peer sends more), C99_violated_by_full_buffer (a blocked write with a full read buffer closes the connection), C99_violated_by_moved_buffer (realloc() moves the buffer of a blocked write, SSL_MODE_ACCEPT_MOVING_WRITE_BUFFER is not set: closed). The TLS library is modelled by its documented interface; handshake and renegotiation are not modelled."
  },
  {
   "property": "C100",
   "status": "partial",
   "theorems": [
    "Ngircd.C100_bound",
    "Ngircd.C100_output_partial",
    "Ngircd.C100_violated_by_precision",
    "Ngircd.C100_violated_by_digits",
    "Ngircd.C100_violated_by_zeros",
    "Ngircd.C100_violated_by_zero_flag",
    "Ngircd.C100_violated_by_zero"
   ],
   "note": "the bounds of the buffer: for every format and all arguments (C100_bound). The output: for all formats of literal characters and conversions, except (Spec.Piece.Plain) a string cut by a precision smaller than the width (C100_violated_by_precision), numbers of 20 and more digits (C100_violated_by_digits: the first digit is lost), the flag 0 together with the flag - or a precision (C100_violated_by_zeros, C100_violated_by_zero_flag), and the number 0 with precision 0 (C100_violated_by_zero): every exclusion is a real deviation. Not modelled: floating point, %p, %n, *, overflow of int."
  },
  {
   "property": "C101",
   "status": "partial",
   "theorems": [
    "Ngircd.C101_file",
    "Ngircd.C101_bytes",
    "Ngircd.C101_topic_partial",
    "Ngircd.C101_intro_partial",
    "Ngircd.C101_commands",
    "Ngircd.C101_violated_by_last"
   ],
   "note": "full, except that lines have to follow the text of the last article: otherwise its text is followed by the message that there is no help for it (C101_violated_by_last; doc/Commands.txt of the distribution ends that way). Lines longer than 511 bytes are cut by fgets. Model/Help is separate from the server model, which has no help text."
  }
 ]
}