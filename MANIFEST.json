{
 "claims": [
  {
   "property": "C01",
   "status": "proved",
   "theorems": [
    "C01_decodeBytes_never_panics",
    "C01_decode_never_panics"
   ],
   "note": ""
  },
  {
   "property": "C02",
   "status": "proved",
   "theorems": [
    "C02_decode_encode"
   ],
   "note": ""
  },
  {
   "property": "C03",
   "status": "proved",
   "theorems": [
    "C03_wire_layout"
   ],
   "note": ""
  },
  {
   "property": "C04",
   "status": "proved",
   "theorems": [
    "C04_length_field",
    "C04_nothing_emitted_iff"
   ],
   "note": ""
  },
  {
   "property": "C05",
   "status": "proved",
   "theorems": [
    "C05_stream",
    "C05_stream_unique"
   ],
   "note": ""
  },
  {
   "property": "C06",
   "status": "proved",
   "theorems": [
    "C06_bad_length_rejected",
    "C06_consumes_declared_length",
    "C06_truncated_rejected"
   ],
   "note": ""
  },
  {
   "property": "C07",
   "status": "proved",
   "theorems": [
    "C07_accepted_if",
    "C07_accepted_only_if"
   ],
   "note": ""
  },
  {
   "property": "C08",
   "status": "proved",
   "theorems": [
    "C08_equals_iff",
    "C08_hash_key_identifies"
   ],
   "note": ""
  },
  {
   "property": "C09",
   "status": "proved",
   "theorems": [
    "C09_computeDiff_exact",
    "C09_computeDiff_order"
   ],
   "note": ""
  },
  {
   "property": "C10",
   "status": "proved",
   "theorems": [
    "C10_apply_computed_diff",
    "C10_apply_computed_diff_order",
    "C10_withdrawn_prev_false"
   ],
   "note": "Proved for prev lists flagged announce, which every served set is (C13). For arbitrary flags the statement is false: C10_withdrawn_prev_false."
  },
  {
   "property": "C11",
   "status": "proved",
   "theorems": [
    "C11_addData"
   ],
   "note": ""
  },
  {
   "property": "C12",
   "status": "proved",
   "theorems": [
    "C12_serial_counts",
    "C12_serial_step"
   ],
   "note": ""
  },
  {
   "property": "C13",
   "status": "proved",
   "theorems": [
    "C13_full_set_announced"
   ],
   "note": ""
  },
  {
   "property": "C14",
   "status": "partial",
   "theorems": [
    "C14_incremental_false",
    "C14_keep_one_partial",
    "C14_last_change_partial",
    "C14_two_behind_false"
   ],
   "note": "False as stated, for every retention limit: C14_incremental_false, C14_two_behind_false (AddSDsDiff leaves one slot of the history empty and ApplyDiff drops withdrawals). Proved for the last change and for KeepDifference = 1."
  },
  {
   "property": "C15",
   "status": "proved",
   "theorems": [
    "C15_distance_is_changes_false",
    "C15_served_change_set"
   ],
   "note": "The exact change set served at each distance is proved; it is not d changes: C15_distance_is_changes_false."
  },
  {
   "property": "C16",
   "status": "proved",
   "theorems": [
    "C16_incremental_answer",
    "C16_program",
    "C16_unknown_serials"
   ],
   "note": ""
  },
  {
   "property": "C17",
   "status": "partial",
   "theorems": [
    "C17_duplicate_announcement_false",
    "C17_last_change_partial"
   ],
   "note": "False as stated: C17_duplicate_announcement_false. Proved for the last change."
  },
  {
   "property": "C18",
   "status": "proved",
   "theorems": [
    "C18_up_to_date"
   ],
   "note": ""
  },
  {
   "property": "C19",
   "status": "proved",
   "theorems": [
    "C19_serial_distinguishes"
   ],
   "note": ""
  },
  {
   "property": "C20",
   "status": "proved",
   "theorems": [
    "C20_no_data"
   ],
   "note": ""
  },
  {
   "property": "C21",
   "status": "proved",
   "theorems": [
    "C21_session_mismatch"
   ],
   "note": ""
  },
  {
   "property": "C22",
   "status": "proved",
   "theorems": [
    "C22_full_sync"
   ],
   "note": ""
  },
  {
   "property": "C23",
   "status": "proved",
   "theorems": [
    "C23_every_vrp",
    "C23_versions_and_router_keys"
   ],
   "note": ""
  },
  {
   "property": "C24",
   "status": "partial",
   "theorems": [
    "C24_ssh_false",
    "C24_tcp_tls_partial"
   ],
   "note": "False on SSH: C24_ssh_false. Proved on TCP and TLS."
  },
  {
   "property": "C25",
   "status": "proved",
   "theorems": [
    "C25_no_duplicates"
   ],
   "note": ""
  },
  {
   "property": "C26",
   "status": "proved",
   "theorems": [
    "C26_order_irrelevant"
   ],
   "note": ""
  },
  {
   "property": "C27",
   "status": "proved",
   "theorems": [
    "C27_end_to_end"
   ],
   "note": ""
  },
  {
   "property": "C28",
   "status": "partial",
   "theorems": [
    "C28_no_update_between_partial",
    "C28_race_consequence_false",
    "C28_race_false"
   ],
   "note": "False under a concurrent update: C28_race_false, with the consequence for the router in C28_race_consequence_false. Proved when no update falls between the two reads."
  },
  {
   "property": "C29",
   "status": "proved",
   "theorems": [
    "C29_accept_version",
    "C29_accepted",
    "C29_pinned",
    "C29_reject_version"
   ],
   "note": ""
  },
  {
   "property": "C30",
   "status": "partial",
   "theorems": [
    "C30_partial",
    "C30_served_after_error_false"
   ],
   "note": "False for packets of an unacceptable version, which are refused and then answered: C30_served_after_error_false. Proved for all other packets and for later packets."
  },
  {
   "property": "C31",
   "status": "partial",
   "theorems": [
    "C31_accounting_partial",
    "C31_clients_exact",
    "C31_closed_by_server_false",
    "C31_double_disconnect_false",
    "C31_one_disconnect_partial",
    "C31_ssh_false",
    "C31_tidy_partial"
   ],
   "note": "False for SSH, for packets that disconnect twice and for clients dropped by the server: C31_double_disconnect_false, C31_ssh_false, C31_closed_by_server_false. Proved for TCP runs in which each client disconnects once, and for all runs what the counter is: clients, plus SSH connects less SSH closes, less superfluous disconnects."
  },
  {
   "property": "C32",
   "status": "partial",
   "theorems": [
    "C32_miscount_false",
    "C32_overshoot_partial",
    "C32_prompt_partial",
    "C32_race_false"
   ],
   "note": "False: C32_race_false, C32_miscount_false. Proved when accepting waits for the previous connection to be counted and the counter is exact; for all runs the limit is overshot by at most the superfluous disconnects and the connections accepted while others were not yet counted."
  },
  {
   "property": "C33",
   "status": "proved",
   "theorems": [
    "C33_history_grows",
    "C33_in_order",
    "C33_reader_order"
   ],
   "note": ""
  },
  {
   "property": "C34",
   "status": "partial",
   "theorems": [
    "C34_room_partial",
    "C34_stall_false"
   ],
   "note": "False: C34_stall_false. Proved while every channel has room."
  },
  {
   "property": "C35",
   "status": "partial",
   "theorems": [
    "C35_clean_partial",
    "C35_idle_partial",
    "C35_reader_leak_false",
    "C35_sender_leak_false",
    "C35_two_leaks_partial"
   ],
   "note": "False: C35_sender_leak_false, C35_reader_leak_false. Proved that these are the only two ways, and termination when neither can arise."
  },
  {
   "property": "C36",
   "status": "partial",
   "theorems": [
    "C36_aligned_partial",
    "C36_merged_false",
    "C36_reads_partial",
    "C36_split_false"
   ],
   "note": "False: C36_merged_false, C36_split_false. Proved for reads that hold exactly one PDU each, and for any reads what is acted upon: the PDU at the beginning of each read, up to the first read that begins with none."
  },
  {
   "property": "C37",
   "status": "partial",
   "theorems": [
    "C37_notify_partial",
    "C37_notify_version0_false",
    "C37_requests_never_panic"
   ],
   "note": "Request handling: proved in full. Notifications: false for protocol version 0 (C37_notify_version0_false), proved from version 1."
  },
  {
   "property": "C38",
   "status": "partial",
   "theorems": [
    "C38_all_partial",
    "C38_exact_partial",
    "C38_general",
    "C38_malformed_false",
    "C38_partition"
   ],
   "note": "Exact for VRPs whose prefix and ASN parse; the split itself holds for all inputs. False for VRPs that do not parse (witness); C38_general says exactly what happens to those too."
  },
  {
   "property": "C39",
   "status": "partial",
   "theorems": [
    "C39_asn_partial",
    "C39_removes_all_false"
   ],
   "note": "False: a malformed prefix without ASN removes every VRP (proved for any list); with an ASN it acts as an ASN filter."
  },
  {
   "property": "C40",
   "status": "partial",
   "theorems": [
    "C40_asn_filter",
    "C40_exact_partial",
    "C40_order_false",
    "C40_partition",
    "C40_undecodable"
   ],
   "note": "Exact for keys whose SKI decodes; false for others (the outcome depends on the order of the filters, witness); C40_undecodable says exactly which of those are removed."
  },
  {
   "property": "C41",
   "status": "partial",
   "theorems": [
    "C41_assertion_partial",
    "C41_keys",
    "C41_length_false",
    "C41_list",
    "C41_parsers_false",
    "C41_refused"
   ],
   "note": "Holds for maximum lengths below 256 and prefixes netip accepts; false otherwise (280 becomes 24; /08 accepted here, refused later)."
  },
  {
   "property": "C42",
   "status": "partial",
   "theorems": [
    "C42_empty",
    "C42_idempotent",
    "C42_keys_order_partial",
    "C42_order",
    "C42_shape"
   ],
   "note": "Shape, idempotence and order independence hold for VRPs; for router keys order independence needs decodable SKIs (C40_order_false)."
  },
  {
   "property": "C43",
   "status": "partial",
   "theorems": [
    "C43_lengths",
    "C43_range_false",
    "C43_valid_partial"
   ],
   "note": "Holds for files whose numeric ASNs are 32-bit numbers; false otherwise: the number is converted, not refused (witness). Lengths and expiry hold for all files."
  },
  {
   "property": "C44",
   "status": "proved",
   "theorems": [
    "C44_exactly_once",
    "C44_nodup"
   ],
   "note": "For every outcome of sort.Slice that is sorted (assumption Sorter.Ok, shown satisfiable)."
  },
  {
   "property": "C45",
   "status": "proved",
   "theorems": [
    "C45_subprefix_first"
   ],
   "note": "For every outcome of sort.Slice that is sorted."
  },
  {
   "property": "C46",
   "status": "partial",
   "theorems": [
    "C46_first_partial",
    "C46_order_partial",
    "C46_update_false"
   ],
   "note": "False after updates (witness: a new sub-prefix is sent after the covering prefix). Holds for the first data and after an empty set; for every update the order is given: what stays keeps its place, what is new follows in the order of processing."
  },
  {
   "property": "C47",
   "status": "partial",
   "theorems": [
    "C47_apart_false",
    "C47_same_length_partial"
   ],
   "note": "False for different maximum lengths (witness, for every sort outcome); holds for equal maximum lengths."
  },
  {
   "property": "C48",
   "status": "proved",
   "theorems": [
    "C48_keys",
    "C48_list"
   ],
   "note": ""
  },
  {
   "property": "C49",
   "status": "partial",
   "theorems": [
    "C49_delivered",
    "C49_expiry_false",
    "C49_file",
    "C49_last_good",
    "C49_only_expired_partial",
    "C49_refresh_partial",
    "C49_slurm"
   ],
   "note": "Fetching: exact, also in which attempts deliver a file (C49_delivered). The loaded file and SLURM configuration are always the last readable ones (hash injective). A whole refresh that finds nothing new may still withdraw expired entries (C49_expiry_false)."
  },
  {
   "property": "C50",
   "status": "proved",
   "theorems": [
    "C50_source",
    "C50_stale"
   ],
   "note": "For every reached state and clock; what a refresh starts to serve comes from a fresh file."
  },
  {
   "property": "C51",
   "status": "partial",
   "theorems": [
    "C51_early_false",
    "C51_exact_partial",
    "C51_expired_false",
    "C51_generated_false",
    "C51_new_stale_partial",
    "C51_unchanged_false"
   ],
   "note": "False: an unchanged stale file is served forever, even its expired entries; also with only 'generated'; also dropped too early. Proved exactly when a refresh withdraws everything: one of the files is new and the exported file has a text build time more than 24 hours ago."
  },
  {
   "property": "C52",
   "status": "partial",
   "theorems": [
    "C52_duplicate_key_false",
    "C52_reload_partial",
    "C52_served_partial"
   ],
   "note": "False with repeated router keys (only counts are compared). Proved for all runs with good files, whatever the clock does, and exactly for a refresh that finds nothing new: nothing changes if the counts agree, otherwise exactly the records asked for are served."
  },
  {
   "property": "C53",
   "status": "partial",
   "theorems": [
    "C53_missing_false",
    "C53_served_partial",
    "C53_start_partial"
   ],
   "note": "False for a file without roas. Partial: all reached states otherwise."
  },
  {
   "property": "C54",
   "status": "partial",
   "theorems": [
    "C54_complete_partial",
    "C54_cut_off_false"
   ],
   "note": "False: after a download that was cut off the version is never fetched again. Partial: histories without cut-off downloads."
  },
  {
   "property": "C55",
   "status": "proved",
   "theorems": [
    "C55_date",
    "C55_disabled",
    "C55_empty_tag_false",
    "C55_other_files",
    "C55_suppressed",
    "C55_tag"
   ],
   "note": "All histories; an empty tag is remembered and sent (C55_empty_tag_false)."
  },
  {
   "property": "C56",
   "status": "partial",
   "theorems": [
    "C56_never_false"
   ],
   "note": "False in every reached state: the metrics are never set."
  },
  {
   "property": "C57",
   "status": "partial",
   "theorems": [
    "C57_accepted",
    "C57_coalesce",
    "C57_progress_partial",
    "C57_refused"
   ],
   "note": "Acceptance, refusal and coalescing in full; that the loop moves at all fails with a fetch that never ends (C84)."
  },
  {
   "property": "C58",
   "status": "proved",
   "theorems": [
    "C58_exact"
   ],
   "note": "Exact, including the rule for the environment variable."
  },
  {
   "property": "C59",
   "status": "proved",
   "theorems": [
    "C59_every_listed",
    "C59_exact",
    "C59_only_listed"
   ],
   "note": "Base64 and the field structure of keys modelled; prefix comparison is shown to identify the key."
  },
  {
   "property": "C60",
   "status": "proved",
   "theorems": [
    "C60_disjoint",
    "C60_exact",
    "C60_self"
   ],
   "note": "Exact membership of Diff, disjointness and Diff(a,a) empty."
  },
  {
   "property": "C61",
   "status": "partial",
   "theorems": [
    "C61_client_partial",
    "C61_count_file",
    "C61_count_unchanged",
    "C61_history",
    "C61_identical_false",
    "C61_shared"
   ],
   "note": "History semantics and counts proved for every list of snapshots; False through the client: a 200 answer with an identical tag is no sighting, so last-seen is not refreshed (C61_identical_false)."
  },
  {
   "property": "C62",
   "status": "partial",
   "theorems": [
    "C62_clock_false",
    "C62_monotone",
    "C62_report"
   ],
   "note": "Proved for countUnmatched, and for the published values as long as the clock does not advance between the two readings by as much as the thresholds differ; False without that, as the clock is read once per threshold (C62_clock_false)."
  },
  {
   "property": "C63",
   "status": "partial",
   "theorems": [
    "C63_shared",
    "C63_view_false",
    "C63_view_partial"
   ],
   "note": "Proved for valid prefixes and flags 0/1; False otherwise: all invalid prefixes print alike and share an entry, and flags other than 1 withdraw."
  },
  {
   "property": "C64",
   "status": "partial",
   "theorems": [
    "C64_exact_false",
    "C64_exact_partial",
    "C64_union_partial"
   ],
   "note": "False: the view is never cleared, so after a reconnect it is the union of old and new; proved: exactly that union, and equality when the new set contains the old one or the view was empty."
  },
  {
   "property": "C65",
   "status": "partial",
   "theorems": [
    "C65_connect_partial",
    "C65_never_false",
    "C65_stuck_false"
   ],
   "note": "False: within a session no Reset Query is ever sent, a Cache Reset leads to the same Serial Query again and again; proved: every new session starts with a Reset Query."
  },
  {
   "property": "C66",
   "status": "partial",
   "theorems": [
    "C66_flags_false",
    "C66_settings_partial"
   ],
   "note": "False: the flags are parsed and never reach the clients; proved what the settings would do."
  },
  {
   "property": "C67",
   "status": "partial",
   "theorems": [
    "C67_key_false",
    "C67_key_partial",
    "C67_same_source_partial",
    "C67_vrp"
   ],
   "note": "Proved for VRPs and for keys with lower-case SKIs; False for upper-case SKIs in the JSON file."
  },
  {
   "property": "C68",
   "status": "proved",
   "theorems": [
    "C68_cut_off",
    "C68_dump",
    "C68_end_to_end",
    "C68_partial_file_false",
    "C68_withdrawal_false"
   ],
   "note": "Exact file for every well-framed answer, also end to end with the server model; nothing is written when the stream is cut off. Outside the statement: an answer interrupted by an Error Report or a Serial Notify is written as if complete, and with -serial withdrawals are written like announcements (C68_partial_file_false, C68_withdrawal_false)."
  },
  {
   "property": "C69",
   "status": "proved",
   "theorems": [
    "C69_never_up",
    "C69_sent",
    "C69_version"
   ],
   "note": "Version after any PDU sequence in closed form, and versions sent."
  },
  {
   "property": "C70",
   "status": "partial",
   "theorems": [
    "C70_maxconn_false",
    "C70_nodelay_false",
    "C70_others_partial"
   ],
   "note": "False for -maxconn and -enable.nodelay: C70_maxconn_false, C70_nodelay_false. Proved for -enforce.version and -disable.bgpsec."
  },
  {
   "property": "C71",
   "status": "partial",
   "theorems": [
    "C71_dropped_false",
    "C71_invalid_false",
    "C71_listed_partial"
   ],
   "note": "Everything served is listed; the export also lists what is not served."
  },
  {
   "property": "C72",
   "status": "proved",
   "theorems": [
    "C72_number",
    "C72_other",
    "C72_out_of_range",
    "C72_text"
   ],
   "note": "Also shows what happens out of range."
  },
  {
   "property": "C73",
   "status": "partial",
   "theorems": [
    "C73_idle_sender_partial",
    "C73_report_lost_false"
   ],
   "note": "False: C73_report_lost_false. Proved when the send loop is idle."
  },
  {
   "property": "C74",
   "status": "partial",
   "theorems": [
    "C74_supported_partial",
    "C74_unsupported_false"
   ],
   "note": "False for unsupported values: C74_unsupported_false. Proved for 0 and 1."
  },
  {
   "property": "C75",
   "status": "partial",
   "theorems": [
    "C75_configured_partial",
    "C75_modulo_partial",
    "C75_unchecked_false"
   ],
   "note": "False: values are not checked (C75_unchecked_false). Proved that 32 bit values are announced as configured, and any values modulo 2^32, with the default in place of 0."
  },
  {
   "property": "C76",
   "status": "partial",
   "theorems": [
    "C76_default_route_false",
    "C76_others_partial"
   ],
   "note": "False: default routes are never served; every other entry is."
  },
  {
   "property": "C77",
   "status": "partial",
   "theorems": [
    "C77_canonical_partial",
    "C77_host_bits_false"
   ],
   "note": "False: host bits are kept (witness); holds if the file has none."
  },
  {
   "property": "C78",
   "status": "partial",
   "theorems": [
    "C78_once_partial",
    "C78_times_partial",
    "C78_twice_false"
   ],
   "note": "False: router keys are not deduplicated (witness). Proved exactly how often each record is handed over: a VRP once, a router key as often as the file has usable entries for it."
  },
  {
   "property": "C79",
   "status": "proved",
   "theorems": [
    "C79_order"
   ],
   "note": ""
  },
  {
   "property": "C80",
   "status": "partial",
   "theorems": [
    "C80_announced_partial",
    "C80_dropped_false",
    "C80_only_changes"
   ],
   "note": "False when everything is dropped; otherwise each change announces exactly the new serial."
  },
  {
   "property": "C81",
   "status": "partial",
   "theorems": [
    "C81_dropped_false",
    "C81_entries",
    "C81_gauges_partial",
    "C81_keys_false"
   ],
   "note": "False after dropping and for repeated router keys; otherwise exact in every reached state. The unfiltered gauges and the gauge of keys count entries of the exported lists in every reached state (C81_entries)."
  },
  {
   "property": "C82",
   "status": "partial",
   "theorems": [
    "C82_kept_partial",
    "C82_never_again_false",
    "C82_open_false"
   ],
   "note": "False: fail-open at the start, never retried without slurm.refresh. Partial: kept once loaded."
  },
  {
   "property": "C83",
   "status": "partial",
   "theorems": [
    "C83_locked_partial",
    "C83_no_race_partial",
    "C83_race_false"
   ],
   "note": "A race is reachable; absent with the check under the lock, or with one of the two files not fetched by HTTP."
  },
  {
   "property": "C84",
   "status": "partial",
   "theorems": [
    "C84_hang_false",
    "C84_returns_partial"
   ],
   "note": "False: the HTTP client has no overall time limit. Proved for fetches that end."
  },
  {
   "property": "C85",
   "status": "partial",
   "theorems": [
    "C85_delay",
    "C85_exact_partial",
    "C85_positive_partial",
    "C85_short_false",
    "C85_zero_false"
   ],
   "note": "False for 0, negative and overflowing values; proved for 1 to 9223372036, and exactly: the loop starts iff the interval in nanoseconds modulo 2^64 is a positive signed number. C85_short_false: 18446744074 seconds make it refresh every 0.29 seconds."
  },
  {
   "property": "C86",
   "status": "partial",
   "theorems": [
    "C86_later_partial",
    "C86_start_false"
   ],
   "note": "False before the loop is entered; proved afterwards."
  },
  {
   "property": "C87",
   "status": "proved",
   "theorems": [
    "C87_disabled",
    "C87_none",
    "C87_possession"
   ],
   "note": ""
  },
  {
   "property": "C88",
   "status": "partial",
   "theorems": [
    "C88_blank_false",
    "C88_no_keys",
    "C88_set_partial"
   ],
   "note": "False: the empty password is accepted. Proved when a password is set; keys fail closed."
  },
  {
   "property": "C89",
   "status": "partial",
   "theorems": [
    "C89_key_any_user_false",
    "C89_password_user_partial"
   ],
   "note": "False for keys, whose callback ignores the user; proved for passwords."
  },
  {
   "property": "C90",
   "status": "partial",
   "theorems": [
    "C90_interrupted_false",
    "C90_tag_partial"
   ],
   "note": "False: the tag is recorded before the file is decoded; proved for URL sources with an honest server when every 200 answer decodes."
  },
  {
   "property": "C91",
   "status": "partial",
   "theorems": [
    "C91_first_seen_false",
    "C91_kept_partial"
   ],
   "note": "False: a second announcement (after a reconnect) resets first-seen; proved as long as no other PDU about the record arrives."
  },
  {
   "property": "C92",
   "status": "partial",
   "theorems": [
    "C92_error_partial",
    "C92_lost_false"
   ],
   "note": "False: a lost or failed connection ends the program for both sources; proved for sessions that end with an Error Report."
  },
  {
   "property": "C93",
   "status": "partial",
   "theorems": [
    "C93_file_partial",
    "C93_rtr_partial",
    "C93_total_false"
   ],
   "note": "False for file sources, whose total includes records in the grace period; proved: exact sum for file sources, exact total for RTR sources."
  },
  {
   "property": "C94",
   "status": "proved",
   "theorems": [
    "C94_grace",
    "C94_round_trip",
    "C94_set"
   ],
   "note": "Sortedness, contents, grace period and round trip."
  },
  {
   "property": "C95",
   "status": "partial",
   "theorems": [
    "C95_meaning",
    "C95_rtr_false"
   ],
   "note": "Exact for file sources; False for RTR sources (C95_rtr_false)."
  },
  {
   "property": "C96",
   "status": "partial",
   "theorems": [
    "C96_primary_partial",
    "C96_secondary_false"
   ],
   "note": "False for the secondary source: the method password ignores the environment, the method key overwrites the flag; proved for the primary."
  },
  {
   "property": "C97",
   "status": "partial",
   "theorems": [
    "C97_independent_partial",
    "C97_same_url_false",
    "C97_shared"
   ],
   "note": "False with the same URL in both sources (shared tags); proved for different URLs."
  },
  {
   "property": "C98",
   "status": "proved",
   "theorems": [
    "C98_validation"
   ],
   "note": "For every certificate verdict and fingerprint."
  },
  {
   "property": "C99",
   "status": "partial",
   "theorems": [
    "C99_early_notify_false",
    "C99_negotiated_partial"
   ],
   "note": "False: a version-1 server sends version-0 notifications to routers that have not yet asked, which downgrades the client for good; proved once the connection has negotiated."
  },
  {
   "property": "C100",
   "status": "partial",
   "theorems": [
    "C100_checktime_false",
    "C100_reload_partial"
   ],
   "note": "Proved for the lists of the file; False with the build-time check, on by default, as the dump has no build time."
  },
  {
   "property": "C101",
   "status": "proved",
   "theorems": [
    "C101_assertion",
    "C101_exact",
    "C101_filter",
    "C101_printed",
    "C101_unambiguous",
    "C101_v4_one"
   ],
   "note": "Both parsers accept exactly the texts of an independent grammar; unambiguous, single IPv4 spelling, printed prefixes read back."
  },
  {
   "property": "C102",
   "status": "proved",
   "theorems": [
    "C102_exact",
    "C102_spelling",
    "C102_unambiguous"
   ],
   "note": "Decoding accepts exactly pairs of hexadecimal digits in either case."
  },
  {
   "property": "C103",
   "status": "partial",
   "theorems": [
    "C103_characters",
    "C103_read",
    "C103_refused",
    "C103_trailing_false",
    "C103_unambiguous",
    "C103_utf8_false"
   ],
   "note": "exact for all bytes; false in that trailing data and invalid UTF-8 inside strings are accepted"
  },
  {
   "property": "C104",
   "status": "proved",
   "theorems": [
    "C104_cut",
    "C104_slurm_cut"
   ],
   "note": "for every byte string and every cut"
  },
  {
   "property": "C105",
   "status": "partial",
   "theorems": [
    "C105_exact",
    "C105_exact_partial",
    "C105_fraction_false",
    "C105_null",
    "C105_repeated_false",
    "C105_short"
   ],
   "note": "C105_exact characterises all files, with repeated names and any exponents; the claim in English is exact for files without repeated names, and false with them and for fractional AS numbers; of repeated lists, a last null takes all away"
  },
  {
   "property": "C106",
   "status": "partial",
   "theorems": [
    "C106_empty_key_false",
    "C106_keys_partial",
    "C106_type_false",
    "C106_vrps_partial"
   ],
   "note": "exact end to end for loading files without repeated names; false: a value of the wrong type loses the whole file, an empty key entry is served"
  },
  {
   "property": "C107",
   "status": "partial",
   "theorems": [
    "C107_exact",
    "C107_exact_partial",
    "C107_lenient_false",
    "C107_unpadded_false"
   ],
   "note": "C107_exact characterises all files, with repeated names; the claim in English is exact for files without repeated names; false: unpadded base64 of RFC 8416 refused, deviations accepted"
  },
  {
   "property": "C108",
   "status": "partial",
   "theorems": [
    "C108_counts_false",
    "C108_generated_false",
    "C108_reload_partial",
    "C108_second_partial",
    "C108_states_partial"
   ],
   "note": "The JSON text, what it states, reading it back and a second server are proved for all reachable states; AS numbers given as numbers must be in range for the text statement. False as stated: generated is left out (so the second server may refuse the file), the number of router keys and the serial are always zero (theorems _false), and the build time is that of the file with which the served records changed last (C174_quiet_false)."
  },
  {
   "property": "C109",
   "status": "partial",
   "theorems": [
    "C109_keycount_false",
    "C109_reload_partial",
    "C109_states_partial"
   ],
   "note": "Text, metadata and records are proved for every well-framed answer with records that a cache file can state. False as stated: the number of router keys is always zero; and a server that checks build times refuses the file (C100)."
  },
  {
   "property": "C110",
   "status": "proved",
   "theorems": [
    "C110_gauge",
    "C110_progress",
    "C110_quiet"
   ],
   "note": "three goroutines, any interleaving, any division of an update into steps"
  },
  {
   "property": "C111",
   "status": "partial",
   "theorems": [
    "C111_rtr_partial",
    "C111_stays_false",
    "C111_stays_partial"
   ],
   "note": "false: reading a new file hides entries of the published difference; proved: nothing else of it changes, and nothing at all with RTR sources"
  },
  {
   "property": "C112",
   "status": "proved",
   "theorems": [
    "C112_page",
    "C112_quiet"
   ],
   "note": "the entries are read at one moment; a nil key is written as an empty one"
  },
  {
   "property": "C113",
   "status": "partial",
   "theorems": [
    "C113_fetched_partial",
    "C113_never_false",
    "C113_seen_partial"
   ],
   "note": "false before the first fetch: the zero time overflows; proved for fetched sources"
  },
  {
   "property": "C114",
   "status": "partial",
   "theorems": [
    "C114_behind_false",
    "C114_exact_partial",
    "C114_never_heals",
    "C114_race_false",
    "C114_start_over_partial",
    "C114_two_polls_partial"
   ],
   "note": "Exact for routers that keep up (at most one change behind, or beyond the retention limit; data never emptied; no change in the middle of an answer), and for every router that starts over. False otherwise (two witnesses); a record lost that way never comes back while it is served."
  },
  {
   "property": "C115",
   "status": "partial",
   "theorems": [
    "C115_any_router_partial",
    "C115_any_run_partial",
    "C115_any_served_partial",
    "C115_exceptions",
    "C115_files_to_router_partial",
    "C115_filter_false",
    "C115_router_partial",
    "C115_run_partial",
    "C115_run_router_partial",
    "C115_served_partial"
   ],
   "note": "Proved: what two files ask for record by record with no hypotheses (C115_exceptions); for all texts that can be decoded, with repeated names, long exponents, missing fields and fractional AS numbers, what the texts say is determined and exactly what it asks for is served (C115_any_served_partial, C115_any_run_partial) and held by a router that starts over (C115_any_router_partial); for ordinary files this is what the members of the texts ask for (C115_served_partial, C115_run_partial, C115_files_to_router_partial). False of SLURM files with filters that cannot be read (C115_filter_false). Missing: router keys that fit no PDU, runs with files that are stale or have no roas (C50, C51), and changes in the middle of an answer (C28, C114)."
  },
  {
   "property": "C116",
   "status": "partial",
   "theorems": [
    "C116_data",
    "C116_first_false",
    "C116_in_order",
    "C116_no_panic",
    "C116_old_silent",
    "C116_one_off",
    "C116_pair_false",
    "C116_polls",
    "C116_queries",
    "C116_reconnects",
    "C116_sender_ends_false",
    "C116_sender_ends_partial",
    "C116_ticker_ends_false",
    "C116_ticker_ends_partial"
   ],
   "note": "No double close, no deadlock between sessions, sequential data, order, one Reset Query per session, silence of old sessions and one-off mode are proved for every schedule. False: the Reset Query need not come first, a Serial Query may pair a new session with an old serial, sendLoop and continuousRTR may outlive their session; when they do end is proved."
  },
  {
   "property": "C117",
   "status": "partial",
   "theorems": [
    "C117_extra",
    "C117_extra_names",
    "C117_keys",
    "C117_names",
    "C117_quiet_false",
    "C117_reconnect_false",
    "C117_session",
    "C117_sessions",
    "C117_vrps"
   ],
   "note": "Exact in both directions: names listed only in the file (C117_vrps, C117_keys) and only over RTR (C117_extra: keys served with an identifier that the file writes in upper case; C117_extra_names for all files), for the first session and a Reset Query answered in version 1, and in names after any sessions (C117_sessions). The claim that a correct server keeps rtrmon quiet is false (C117_quiet_false), and more so after a reconnect (C117_reconnect_false)."
  },
  {
   "property": "C118",
   "status": "partial",
   "theorems": [
    "C118_moves_partial",
    "C118_ssh_false",
    "C118_turn"
   ],
   "note": "On every listener a connection is decided after 2n+3 moves of the loop (C118_turn), and the loop can move on TCP and TLS, and on SSH if every handshake ends (C118_moves_partial). C118_ssh_false: on SSH the handshake runs in the accept loop without a deadline; one silent client keeps everybody out for good."
  },
  {
   "property": "C119",
   "status": "partial",
   "theorems": [
    "C119_asked_partial",
    "C119_close",
    "C119_env_false",
    "C119_granted",
    "C119_lives",
    "C119_one_at_a_time",
    "C119_start"
   ],
   "note": "Sessions start only as asked, granted requests are served, sessions do not overlap, close is last and once: for all runs. C119_asked_partial: the request must be the first on its channel; C119_env_false: any other request before it (RFC 4254 env, pty-req) ends the connection without a session."
  },
  {
   "property": "C120",
   "status": "partial",
   "theorems": [
    "C120_answer_partial",
    "C120_count",
    "C120_keepalive_false",
    "C120_session_false"
   ],
   "note": "C120_count: no reply without request, none lost; C120_answer_partial: answered while the goroutine is at its select. C120_session_false, C120_keepalive_false: during a session nothing is answered, so keepalives with WantReply time out."
  },
  {
   "property": "C121",
   "status": "partial",
   "theorems": [
    "C121_locked_partial",
    "C121_mixed_false",
    "C121_slot_false",
    "C121_ssh_false"
   ],
   "note": "C121_locked_partial: for goroutines that take clientlock. C121_ssh_false, C121_mixed_false, C121_slot_false: the SSH goroutine counts without the lock; an update is lost, with one slot the server refuses everybody from then on."
  },
  {
   "property": "C122",
   "status": "proved",
   "theorems": [
    "C122_completes",
    "C122_fixed",
    "C122_norace",
    "C122_snapshot",
    "C122_store"
   ],
   "note": "Records, keys and slices as cells of a heap, updates and answers as goroutines whose single accesses interleave; proved for all interleavings."
  },
  {
   "property": "C123",
   "status": "partial",
   "theorems": [
    "C123_data_partial",
    "C123_diff_false"
   ],
   "note": "Proved for AddData. False for AddSDsDiff, which keeps the slice and the records it is given."
  },
  {
   "property": "C124",
   "status": "partial",
   "theorems": [
    "C124_enforced",
    "C124_negotiated_partial",
    "C124_once",
    "C124_race_false"
   ],
   "note": "At most one Serial Notify per connection is mislabelled (C124_once), none once the version is negotiated with no notification under way (C124_negotiated_partial), none with -enforce.version (C124_enforced). False: C124_race_false."
  },
  {
   "property": "C125",
   "status": "partial",
   "theorems": [
    "C125_interrupted_false",
    "C125_rest_partial"
   ],
   "note": "False: C125_interrupted_false. Proved: without the notifications the channel has exactly the answers of the sequential read loop (C125_rest_partial)."
  },
  {
   "property": "C126",
   "status": "partial",
   "theorems": [
    "C126_each",
    "C126_overtaken_false",
    "C126_settled",
    "C126_told"
   ],
   "note": "C126_told, C126_settled, C126_each: for all interleavings, with changes that are announced. C126_overtaken_false: the Serial Notify may come before the outdated answer."
  },
  {
   "property": "C127",
   "status": "proved",
   "theorems": [
    "C127_loaded"
   ],
   "note": "C127_loaded: the state with slices of arrays refines the state with lists as values, for all capacities."
  },
  {
   "property": "C128",
   "status": "partial",
   "theorems": [
    "C128_kept_partial",
    "C128_overwritten_false"
   ],
   "note": "Proved (C128_kept_partial) if all SLURM files without filters assert the same, in particular for a SLURM file that does not change; refuted otherwise (C128_overwritten_false): append overwrites the exported list."
  },
  {
   "property": "C129",
   "status": "partial",
   "theorems": [
    "C129_exact",
    "C129_lenient_false",
    "C129_refused_false",
    "C129_rfc3339_partial",
    "C129_served"
   ],
   "note": "Exact for the dialect of Go (C129_exact); times of RFC 3339 in capitals without leap seconds are read (C129_rfc3339_partial); refuted: other texts are read too, lower case and leap seconds are refused."
  },
  {
   "property": "C130",
   "status": "partial",
   "theorems": [
    "C130_merged_false",
    "C130_names",
    "C130_reads_partial"
   ],
   "note": "Proved by reads (C130_reads_partial); refuted for two PDUs in one read (C130_merged_false)."
  },
  {
   "property": "C131",
   "status": "partial",
   "theorems": [
    "C131_counter",
    "C131_double_disconnect_false",
    "C131_tidy_partial"
   ],
   "note": "Proved if clients are disconnected once (C131_tidy_partial), also with SSH; refuted for double disconnects. C131_counter: the counter of C31 is the sum of the gauges and the open SSH connections."
  },
  {
   "property": "C132",
   "status": "partial",
   "theorems": [
    "C132_change_partial",
    "C132_dropped_false",
    "C132_same_records_false"
   ],
   "note": "Proved for refreshes that change what is served (C132_change_partial); refuted for files that change nothing and after a drop."
  },
  {
   "property": "C133",
   "status": "proved",
   "theorems": [
    "C133_due",
    "C133_short_false"
   ],
   "note": "For all intervals from one second to 292 years; C133_short_false notes that before the first load an interval below 30 seconds is not kept."
  },
  {
   "property": "C134",
   "status": "proved",
   "theorems": [
    "C134_first",
    "C134_rate"
   ],
   "note": ""
  },
  {
   "property": "C135",
   "status": "partial",
   "theorems": [
    "C135_expiry_partial",
    "C135_late_false"
   ],
   "note": "For runs in which the files loaded have roas, no router key twice and are not too old; then the bound holds for VRPs and router keys. C135_late_false: the entry is indeed served after its expiry."
  },
  {
   "property": "C136",
   "status": "partial",
   "theorems": [
    "C136_http_false",
    "C136_routers_partial"
   ],
   "note": "Routers: proved for every run (C136_routers_partial). False of the HTTP server, which may answer before the first load, with an export of no payloads in which roas is null (C136_http_false)."
  },
  {
   "property": "C137",
   "status": "partial",
   "theorems": [
    "C137_early_partial",
    "C137_good_partial",
    "C137_late_false",
    "C137_port_false",
    "C137_status"
   ],
   "note": "Good settings always lead to everything being served, in at most 13 steps; stray arguments, no address and a bad export path end the program before anything is served. A certificate or host key that does not load, an address in use, a bad refresh interval and a bad metrics path are found only after routers could connect over TCP (C137_late_false, C137_port_false)."
  },
  {
   "property": "C138",
   "status": "partial",
   "theorems": [
    "C138_answers",
    "C138_blank_false",
    "C138_hosts",
    "C138_monitor",
    "C138_monitor_partial",
    "C138_panics_false",
    "C138_registered",
    "C138_requests_partial",
    "C138_simple",
    "C138_slash_false",
    "C138_wildcards_false"
   ],
   "note": "Which settings of the paths work is exact for both programs, and paths that work are answered by their own handlers, also those that begin with a host (C138_hosts). For the multiplexer of Go 1.23 as a whole: paths without blanks, braces and percent signs that begin with a slash are answered with their own handlers, for every method, host and form with escapes, and nothing else is but what lies below a directory (C138_requests_partial, C138_monitor_partial). False of the others: two equal paths, a path without its slash or with a blank make the programs panic (C138_panics_false, C138_blank_false); with a slash before its name rtrmon's difference is found in every directory but not on its path (C138_slash_false); braces and methods stand for other requests (C138_wildcards_false)."
  },
  {
   "property": "C139",
   "status": "proved",
   "theorems": [
    "C139_answer",
    "C139_truth"
   ],
   "note": "For the running program; whether a refresh that waits starts depends on the servers of the files (C84)."
  },
  {
   "property": "C140",
   "status": "partial",
   "theorems": [
    "C140_quiet_partial",
    "C140_same_url_false",
    "C140_series_partial"
   ],
   "note": "With the same URL for both sources the two vrp_diff series of a threshold are one, which shows the second count (C140_same_url_false); the same holds for the count of the grace period, whose only label is the URL. Everything else is proved for every setting."
  },
  {
   "property": "C141",
   "status": "partial",
   "theorems": [
    "C141_edges_false",
    "C141_phases",
    "C141_state_partial"
   ],
   "note": "At the edges it is false (C141_edges_false): no series before the first Reset Query, 1 between the dropping of a session and the end of ClientDisconnected, and a cache that closes the connection ends the program (C92), so the 0 is hardly ever seen. Otherwise proved for every run."
  },
  {
   "property": "C142",
   "status": "partial",
   "theorems": [
    "C142_deadlock_false",
    "C142_exact_partial",
    "C142_forever_false"
   ],
   "note": "False: a channel that is full when its sender returns stops the goroutine, and with it all refreshes, for ever (C142_deadlock_false, C142_forever_false). Proved exactly: in every other reachable state it can get on by steps of that client's sender alone."
  },
  {
   "property": "C143",
   "status": "partial",
   "theorems": [
    "C143_behind_false",
    "C143_keeps_partial",
    "C143_race_false"
   ],
   "note": "Proved for routers that keep up (at most one change behind, or beyond the retention limit; no change in the middle of an answer; data never emptied) and updates without repeated records. False otherwise: C143_behind_false, C143_race_false."
  },
  {
   "property": "C144",
   "status": "partial",
   "theorems": [
    "C144_exact_partial",
    "C144_frozen_false",
    "C144_stuck_false"
   ],
   "note": "False: a router that asks for 256 records and closes its connection can stop refreshing for ever (C144_stuck_false, C144_frozen_false). Proved exactly when refreshing can go on."
  },
  {
   "property": "C145",
   "status": "partial",
   "theorems": [
    "C145_age_partial",
    "C145_drop",
    "C145_far_false"
   ],
   "note": "Exact for all texts and for generated times below the year 292 billion; false beyond (C145_far_false): such a file is too old."
  },
  {
   "property": "C146",
   "status": "partial",
   "theorems": [
    "C146_alone_partial",
    "C146_lost_false",
    "C146_mixed_false",
    "C146_router_false"
   ],
   "note": "False: the lock is given up between the three parts of an update, so an update can be lost (C146_lost_false), with withdrawals that no router hears of (C146_router_false), or a set served that nobody asked for (C146_mixed_false). Proved for calls that do not overlap, as in stayrtr, where only the updating goroutine calls AddData."
  },
  {
   "property": "C147",
   "status": "partial",
   "theorems": [
    "C147_connected_false",
    "C147_count_false",
    "C147_count_ssh_false",
    "C147_exact",
    "C147_hash_false",
    "C147_lastts_false",
    "C147_safe_partial",
    "C147_version_false"
   ],
   "note": "No race on the served data, diffs, serial, list of clients, export, loaded files and the time of the last change; the racy fields are exactly five: the number of connections, the version and the connected flag of a client, the time of the last refresh, and the hash of the cache file (C147_exact)."
  },
  {
   "property": "C148",
   "status": "partial",
   "theorems": [
    "C148_channels_false",
    "C148_client_false",
    "C148_exact",
    "C148_safe_partial",
    "C148_serial_false",
    "C148_serial_page_false",
    "C148_session_false",
    "C148_visible_false"
   ],
   "note": "No race on the maps, the time of the last update, the intervals and the published difference; the racy fields are exactly those of MonRacy: serial, session id, channels, session version and state of an RTR source, and the records of a file (C148_exact)."
  },
  {
   "property": "C149",
   "status": "partial",
   "theorems": [
    "C149_any",
    "C149_contract_false",
    "C149_exchanged",
    "C149_follows",
    "C149_no_panic",
    "C149_process",
    "C149_sorted",
    "C149_stable_false",
    "C149_strict",
    "C149_thresholds"
   ],
   "note": "Proved for the algorithm of Go 1.23 as written down in the model; every theorem on the cache file holds of it (goSorter_ok). The comparison is not the strict order that is required (C149_contract_false), and VRPs that differ in their AS only do not keep their order (C149_stable_false): both without harm, by the rest."
  },
  {
   "property": "C150",
   "status": "partial",
   "theorems": [
    "C150_chance",
    "C150_forgotten",
    "C150_mistaken_false",
    "C150_other_serial_partial",
    "C150_other_session_partial",
    "C150_restart_false"
   ],
   "note": "False as stated (C150_mistaken_false, C150_restart_false): if the new session id and serial number happen to be those of the router, it keeps what it held for ever; exactly one of the 65536 draws gives the router's session id (C150_chance; that rand.Intn draws evenly, and from a random seed as of Go 1.20, is not modelled). Proved otherwise: another session (C150_forgotten, C150_other_session_partial) or a serial number the server cannot answer for (C150_other_serial_partial). The store must hold data and not change during the two questions; the router flushes on the error report as RFC 8210, 5.1 asks."
  },
  {
   "property": "C151",
   "status": "partial",
   "theorems": [
    "C151_hidden_false",
    "C151_listed",
    "C151_names",
    "C151_records_partial"
   ],
   "note": "For all files the list is exact in names (C151_names), and whatever is listed is a record of the first file that the second does not have (C151_listed). Nothing is missing if key identifiers have no dashes and slashes (C151_records_partial); with them it is false (C151_hidden_false): a router key entry whose identifier is the text of a prefix hides a VRP."
  },
  {
   "property": "C152",
   "status": "partial",
   "theorems": [
    "C152_answered_false",
    "C152_fatal_false",
    "C152_ignored_partial",
    "C152_unacceptable"
   ],
   "note": "False in both respects: an Error Report of another version is answered by an Error Report, and a fatal one does not end the session. Otherwise nothing is sent: exactly what happens is proved for every Error Report (lib/server.go:719-742)."
  },
  {
   "property": "C153",
   "status": "partial",
   "theorems": [
    "C153_accepted_false",
    "C153_causes_partial",
    "C153_reported_partial",
    "C153_silent_false"
   ],
   "note": "Bytes that cannot be decoded cost the connection without an Error Report (lib/server.go:779-785), and PDUs that only a cache may send are ignored. Proved: the Error Reports are exactly those of the three other causes, each with its code."
  },
  {
   "property": "C154",
   "status": "partial",
   "theorems": [
    "C154_copy_false",
    "C154_empty_partial"
   ],
   "note": "False: no Error Report of the server holds a copy of the PDU, whatever the cause. That is right for code 2 only."
  },
  {
   "property": "C155",
   "status": "partial",
   "theorems": [
    "C155_keys_false",
    "C155_told_false",
    "C155_version_partial"
   ],
   "note": "False: without -enforce.version the report has version 0 even if the server has version 1, since the version of a fresh connection is 0 (lib/server.go:639-649, 719-729); a router that comes back with it gets no router keys. With -enforce.version the report has the version of the server."
  },
  {
   "property": "C156",
   "status": "partial",
   "theorems": [
    "C156_apart_partial",
    "C156_asked_false",
    "C156_close_false",
    "C156_counted",
    "C156_rate_partial"
   ],
   "note": "False: triggers and signals refresh at once, and after a slow refresh the next tick follows at once. Proved: no more Serial Notifies than minutes since the start, but for those that were asked for; and a minute apart if the first load failed and nobody asks."
  },
  {
   "property": "C157",
   "status": "proved",
   "theorems": [
    "C157_accepted",
    "C157_names",
    "C157_read",
    "C157_refused",
    "C157_unique",
    "C157_values"
   ],
   "note": "For every set of flags (the tables of the three programs have no name twice): C157_read, C157_accepted, C157_unique, C157_refused, C157_names; the texts that switches, numbers and texts take: C157_values."
  },
  {
   "property": "C158",
   "status": "partial",
   "theorems": [
    "C158_decimal_partial",
    "C158_duration",
    "C158_fraction",
    "C158_fraction_false",
    "C158_literals",
    "C158_nearly_partial",
    "C158_texts",
    "C158_timer_false",
    "C158_zero_false"
   ],
   "note": "False for numbers with a leading zero, none of which (of two digits or more) is read as written: C158_zero_false; -rtr.expire 07200 announces 3712 s: C158_timer_false; and for fractions with many digits, which may lose a nanosecond: C158_fraction_false. Exactly the integer literals of Go are read as numbers (C158_literals), numerals without superfluous zeros as decimal numbers: C158_decimal_partial; durations of a number and a unit are exact: C158_duration. Exactly the texts of parts are read as durations (C158_texts), exactly if no fraction has more digits than make whole nanoseconds (C158_fraction), and otherwise to within 1.03 ns for each part, with the floating point arithmetic of package time (C158_nearly_partial)."
  },
  {
   "property": "C159",
   "status": "partial",
   "theorems": [
    "C159_known_partial",
    "C159_unknown_false"
   ],
   "note": "False: every other name is accepted and means that nothing is logged, C159_unknown_false. The eight names stand for their levels: C159_known_partial."
  },
  {
   "property": "C160",
   "status": "partial",
   "theorems": [
    "C160_query_false",
    "C160_query_partial",
    "C160_version"
   ],
   "note": "False: serial and session are cut off to 32 and 16 bits and a negative version means 0, C160_query_false. Exact for values that fit: C160_query_partial; a version above 1 is refused: C160_version."
  },
  {
   "property": "C161",
   "status": "partial",
   "theorems": [
    "C161_idle_false",
    "C161_refresh_false",
    "C161_rtrdump_partial",
    "C161_rtrmon_partial",
    "C161_stayrtr_partial"
   ],
   "note": "False of ten flags, C161_idle_false: -maxconn and -enable.nodelay of stayrtr, -oneoff, -primary/secondary.tls.validate, .ssh.validate, .ssh.validate.key of rtrmon, -refresh of rtrdump. Exact: C161_stayrtr_partial, C161_rtrmon_partial, C161_rtrdump_partial."
  },
  {
   "property": "C162",
   "status": "partial",
   "theorems": [
    "C162_dump_false",
    "C162_ipv4_partial",
    "C162_ipv6_partial",
    "C162_refused_false",
    "C162_text_false"
   ],
   "note": "Every prefix PDU of the right size is decoded exactly as it says, and its prefix is a valid one exactly if its length is possible. It is not refused otherwise (C162_refused_false): rtrdump writes it to its file as \"invalid Prefix\", which stayrtr does not read (C162_text_false, C162_dump_false). Missing: nothing more holds of the code."
  },
  {
   "property": "C163",
   "status": "partial",
   "theorems": [
    "C163_from_partial",
    "C163_key_false",
    "C163_line",
    "C163_pdu_partial",
    "C163_read",
    "C163_shown",
    "C163_terminal_false",
    "C163_terminal_partial"
   ],
   "note": "proved of log files: every entry is one line, logs that are equal come from the same calls, the entries tell PDUs apart. False of Router Keys and of prefixes with impossible lengths (one text for all), and on terminals, where a server can write entries of its own through Error Reports."
  },
  {
   "property": "C164",
   "status": "proved",
   "theorems": [
    "C164_off",
    "C164_same"
   ],
   "note": ""
  },
  {
   "property": "C165",
   "status": "partial",
   "theorems": [
    "C165_addresses_partial",
    "C165_first_false",
    "C165_integration_false",
    "C165_rtrdump_partial",
    "C165_rtrmon_partial",
    "C165_ssh_partial",
    "C165_tls_false",
    "C165_up_partial"
   ],
   "note": "False of three lines: the integration test uses -verify, which does not exist, and is refused with status 2 (C165_integration_false); -tls.bind with the port of the default -bind (C165_tls_false); the first TLS line has no certificate (C165_first_false). The others come up: C165_up_partial, C165_addresses_partial, C165_ssh_partial, C165_rtrmon_partial, C165_rtrdump_partial."
  },
  {
   "property": "C166",
   "status": "partial",
   "theorems": [
    "C166_instance_partial",
    "C166_schema_false",
    "C166_schema_partial",
    "C166_slurm_false",
    "C166_slurm_partial"
   ],
   "note": "False: the SLURM sample has commas after last members and is no JSON (C166_slurm_false); the schema has no build time and is refused by the check that is on by default (C166_schema_false). Without the commas, and without the check: C166_slurm_partial, C166_instance_partial, C166_schema_partial."
  },
  {
   "property": "C167",
   "status": "proved",
   "theorems": [
    "C167_dump",
    "C167_files",
    "C167_rtrdump",
    "C167_rtrmon",
    "C167_startup",
    "C167_stayrtr"
   ],
   "note": ""
  },
  {
   "property": "C168",
   "status": "proved",
   "theorems": [
    "C168_texts",
    "C168_wire"
   ],
   "note": "Texts of the three codes that are sent; a zero byte ends each text on the wire. Copies of the PDUs: C154."
  },
  {
   "property": "C169",
   "status": "partial",
   "theorems": [
    "C169_clients_partial",
    "C169_fetch_partial",
    "C169_path_false",
    "C169_registered",
    "C169_routers",
    "C169_rtrmon_partial",
    "C169_server_partial",
    "C169_source_false",
    "C169_values"
   ],
   "note": "False for a cache file whose name is not UTF-8 (stayrtr with metrics) and a source whose name is not UTF-8 (rtrmon): the first recording panics. Proved for all other names; nothing that a router sends matters."
  },
  {
   "property": "C170",
   "status": "partial",
   "theorems": [
    "C170_directory_false",
    "C170_links_partial",
    "C170_names_false"
   ],
   "note": "For paths without blanks, braces, percent signs, '?', '#', dot segments and empty segments (and no colon in the first segment of the name of the difference), on '/' and every other page at the top level, through the multiplexer of Go 1.23; the link to the metrics on every page. False in directories and for names with a colon, a question mark or a slash before them (C170_directory_false, C170_names_false)."
  },
  {
   "property": "C171",
   "status": "partial",
   "theorems": [
    "C171_expire_false",
    "C171_kept",
    "C171_polls_partial",
    "C171_refresh_false",
    "C171_sessions_partial",
    "C171_shown",
    "C171_zero_false"
   ],
   "note": "The intervals of End of Data are only shown (C171_shown): the cache is polled at the interval of the command line though it asked for a longer one (C171_refresh_false), and data are kept past the Expire Interval (C171_expire_false; C171_kept says that nothing but a PDU changes them). Proved for every positive interval of the command line: at most one Serial Query and one session per interval, and one more, in any stretch of any run. An interval that is not positive is accepted and makes the cache be asked without limit (C171_zero_false)."
  },
  {
   "property": "C172",
   "status": "partial",
   "theorems": [
    "C172_goroutines_false",
    "C172_monitor_false",
    "C172_queues_partial",
    "C172_store_partial",
    "C172_twice_false",
    "C172_unlimited_false"
   ],
   "note": "Proved of the store for lists without repetition (what C78 says of VRPs): N records, k change sets of at most N*(k+1) records; and of the channels. With repeated router keys more than N records are served (C172_twice_false), a store with KeepDifference 0 would grow for ever (C172_unlimited_false; stayrtr has 3), goroutines of routers that have gone away can remain in any number (C172_goroutines_false, by C35), and rtrmon keeps the records of all sessions (C172_monitor_false, by C64)."
  },
  {
   "property": "C173",
   "status": "partial",
   "theorems": [
    "C173_address_false",
    "C173_address_partial",
    "C173_keys",
    "C173_metrics",
    "C173_page"
   ],
   "note": "The URL of the metrics is wrong if the program listens on a single address (C173_address_false): the page shows it after [host]. All else proved for all settings without NUL, which the command line cannot contain."
  },
  {
   "property": "C174",
   "status": "partial",
   "theorems": [
    "C174_dropped_false",
    "C174_expiry_false",
    "C174_follows_partial",
    "C174_only",
    "C174_quiet_false"
   ],
   "note": "That nothing else is ever served holds for all runs (C174_only). That all serve the same is proved for entries without expiry times and exports that are new and not too old for the server (C174_follows_partial). False otherwise: the export is replaced only when the served set changes, so it keeps the old build time (C174_quiet_false: a server behind it refuses it after a day) and old expiry times (C174_expiry_false: a server behind it withdraws what the first one serves), and it stays when everything is dropped (C174_dropped_false)."
  },
  {
   "property": "C175",
   "status": "partial",
   "theorems": [
    "C175_again",
    "C175_asserted_false",
    "C175_behind_partial",
    "C175_merged_partial",
    "C175_records",
    "C175_twice_partial"
   ],
   "note": "The records a file with local exceptions asks for: all inputs (C175_records). Servers behind each other: entries without expiry times and exports that are not too old (C174 says why). With different SLURM files the second server's filters also remove what the first asserts (C175_asserted_false); otherwise both together are as on one server (C175_merged_partial)."
  },
  {
   "property": "C176",
   "status": "partial",
   "theorems": [
    "C176_empty_false",
    "C176_rounds_partial",
    "C176_router_partial",
    "C176_settle_partial",
    "C176_time_partial"
   ],
   "note": "Proved for exports with at least one entry, entries without expiry times, exports not too old for the servers that check build times, clocks that do not go back, and different hashes of different files. False for an empty export: C176_empty_false; for build times and expiry times see the C174 theorems ending in _false."
  },
  {
   "property": "C177",
   "status": "proved",
   "theorems": [
    "C177_cache",
    "C177_repo",
    "C177_test"
   ],
   "note": ""
  },
  {
   "property": "C178",
   "status": "partial",
   "theorems": [
    "C178_filters_partial",
    "C178_order_false",
    "C178_rounds_partial",
    "C178_router_partial",
    "C178_settle_partial",
    "C178_time_partial"
   ],
   "note": "Proved, as C176, for exports with at least one entry on the way, entries without expiry times, exports not too old for the servers that check build times, clocks that do not go back, and different hashes of different files. That the order of servers with assertions counts is C178_order_false."
  },
  {
   "property": "C179",
   "status": "partial",
   "theorems": [
    "C179_dropped_false",
    "C179_exceptions_partial",
    "C179_expired_false",
    "C179_servers_partial",
    "C179_session_partial",
    "C179_settled_partial",
    "C179_unserved_false"
   ],
   "note": "Servers that serve something (C179_dropped_false: a server that has dropped everything still exports it), exports without expiry times (C179_expired_false) and without entries that rtrmon reads but stayrtr does not serve (C179_unserved_false: an export keeps an unusable entry of an older file)."
  },
  {
   "property": "C180",
   "status": "partial",
   "theorems": [
    "C180_exceptions_partial",
    "C180_gap_false",
    "C180_moves_partial",
    "C180_no_gap_partial",
    "C180_settled_partial"
   ],
   "note": "After asking twice, and for a server that serves something. C180_gap_false: unless the session happens to be the same, the router holds nothing after asking once, since the server refuses the session and closes the connection (RFC 8210, section 5.1: the router flushes its data)."
  }
 ]
}