{
"C10": [
"proved",
"Proved for prev lists flagged announce, which every served set is (C13). For arbitrary flags the statement is false: C10_withdrawn_prev_false."
],
"C100": [
"partial",
"Proved for the lists of the file; False with the build-time check, on by default, as the dump has no build time."
],
"C101": [
"proved",
"Both parsers accept exactly the texts of an independent grammar; unambiguous, single IPv4 spelling, printed prefixes read back."
],
"C102": [
"proved",
"Decoding accepts exactly pairs of hexadecimal digits in either case."
],
"C103": [
"partial",
"exact for all bytes; false in that trailing data and invalid UTF-8 inside strings are accepted"
],
"C104": [
"proved",
"for every byte string and every cut"
],
"C105": [
"partial",
"C105_exact characterises all files, with repeated names and any exponents; the claim in English is exact for files without repeated names, and false with them and for fractional AS numbers; of repeated lists, a last null takes all away"
],
"C106": [
"partial",
"exact end to end for loading files without repeated names; false: a value of the wrong type loses the whole file, an empty key entry is served"
],
"C107": [
"partial",
"C107_exact characterises all files, with repeated names; the claim in English is exact for files without repeated names; false: unpadded base64 of RFC 8416 refused, deviations accepted"
],
"C108": [
"partial",
"The JSON text, what it states, reading it back and a second server are proved for all reachable states; AS numbers given as numbers must be in range for the text statement. False as stated: generated is left out (so the second server may refuse the file), the number of router keys and the serial are always zero (theorems _false), and the build time is that of the file with which the served records changed last (C174_quiet_false)."
],
"C109": [
"partial",
"Text, metadata and records are proved for every well-framed answer with records that a cache file can state. False as stated: the number of router keys is always zero; and a server that checks build times refuses the file (C100)."
],
"C110": [
"proved",
"three goroutines, any interleaving, any division of an update into steps"
],
"C111": [
"partial",
"false: reading a new file hides entries of the published difference; proved: nothing else of it changes, and nothing at all with RTR sources"
],
"C112": [
"proved",
"the entries are read at one moment; a nil key is written as an empty one"
],
"C113": [
"partial",
"false before the first fetch: the zero time overflows; proved for fetched sources"
],
"C114": [
"partial",
"Exact for routers that keep up (at most one change behind, or beyond the retention limit; data never emptied; no change in the middle of an answer), and for every router that starts over. False otherwise (two witnesses); a record lost that way never comes back while it is served."
],
"C115": [
"partial",
"Proved: what two files ask for record by record with no hypotheses (C115_exceptions); for all texts that can be decoded, with repeated names, long exponents, missing fields and fractional AS numbers, what the texts say is determined and exactly what it asks for is served (C115_any_served_partial, C115_any_run_partial) and held by a router that starts over (C115_any_router_partial); for ordinary files this is what the members of the texts ask for (C115_served_partial, C115_run_partial, C115_files_to_router_partial). False of SLURM files with filters that cannot be read (C115_filter_false). Missing: router keys that fit no PDU, runs with files that are stale or have no roas (C50, C51), and changes in the middle of an answer (C28, C114)."
],
"C116": [
"partial",
"No double close, no deadlock between sessions, sequential data, order, one Reset Query per session, silence of old sessions and one-off mode are proved for every schedule. False: the Reset Query need not come first, a Serial Query may pair a new session with an old serial, sendLoop and continuousRTR may outlive their session; when they do end is proved."
],
"C117": [
"partial",
"Exact in both directions: names listed only in the file (C117_vrps, C117_keys) and only over RTR (C117_extra: keys served with an identifier that the file writes in upper case; C117_extra_names for all files), for the first session and a Reset Query answered in version 1, and in names after any sessions (C117_sessions). The claim that a correct server keeps rtrmon quiet is false (C117_quiet_false), and more so after a reconnect (C117_reconnect_false)."
],
"C118": [
"partial",
"On every listener a connection is decided after 2n+3 moves of the loop (C118_turn), and the loop can move on TCP and TLS, and on SSH if every handshake ends (C118_moves_partial). C118_ssh_false: on SSH the handshake runs in the accept loop without a deadline; one silent client keeps everybody out for good."
],
"C119": [
"partial",
"Sessions start only as asked, granted requests are served, sessions do not overlap, close is last and once: for all runs. C119_asked_partial: the request must be the first on its channel; C119_env_false: any other request before it (RFC 4254 env, pty-req) ends the connection without a session."
],
"C120": [
"partial",
"C120_count: no reply without request, none lost; C120_answer_partial: answered while the goroutine is at its select. C120_session_false, C120_keepalive_false: during a session nothing is answered, so keepalives with WantReply time out."
],
"C121": [
"partial",
"C121_locked_partial: for goroutines that take clientlock. C121_ssh_false, C121_mixed_false, C121_slot_false: the SSH goroutine counts without the lock; an update is lost, with one slot the server refuses everybody from then on."
],
"C122": [
"proved",
"Records, keys and slices as cells of a heap, updates and answers as goroutines whose single accesses interleave; proved for all interleavings."
],
"C123": [
"partial",
"Proved for AddData. False for AddSDsDiff, which keeps the slice and the records it is given."
],
"C124": [
"partial",
"At most one Serial Notify per connection is mislabelled (C124_once), none once the version is negotiated with no notification under way (C124_negotiated_partial), none with -enforce.version (C124_enforced). False: C124_race_false."
],
"C125": [
"partial",
"False: C125_interrupted_false. Proved: without the notifications the channel has exactly the answers of the sequential read loop (C125_rest_partial)."
],
"C126": [
"partial",
"C126_told, C126_settled, C126_each: for all interleavings, with changes that are announced. C126_overtaken_false: the Serial Notify may come before the outdated answer."
],
"C127": [
"proved",
"C127_loaded: the state with slices of arrays refines the state with lists as values, for all capacities."
],
"C128": [
"partial",
"Proved (C128_kept_partial) if all SLURM files without filters assert the same, in particular for a SLURM file that does not change; refuted otherwise (C128_overwritten_false): append overwrites the exported list."
],
"C129": [
"partial",
"Exact for the dialect of Go (C129_exact); times of RFC 3339 in capitals without leap seconds are read (C129_rfc3339_partial); refuted: other texts are read too, lower case and leap seconds are refused."
],
"C130": [
"partial",
"Proved by reads (C130_reads_partial); refuted for two PDUs in one read (C130_merged_false)."
],
"C131": [
"partial",
"Proved if clients are disconnected once (C131_tidy_partial), also with SSH; refuted for double disconnects. C131_counter: the counter of C31 is the sum of the gauges and the open SSH connections."
],
"C132": [
"partial",
"Proved for refreshes that change what is served (C132_change_partial); refuted for files that change nothing and after a drop."
],
"C133": [
"proved",
"For all intervals from one second to 292 years; C133_short_false notes that before the first load an interval below 30 seconds is not kept."
],
"C134": [
"proved",
""
],
"C135": [
"partial",
"For runs in which the files loaded have roas, no router key twice and are not too old; then the bound holds for VRPs and router keys. C135_late_false: the entry is indeed served after its expiry."
],
"C136": [
"partial",
"Routers: proved for every run (C136_routers_partial). False of the HTTP server, which may answer before the first load, with an export of no payloads in which roas is null (C136_http_false)."
],
"C137": [
"partial",
"Good settings always lead to everything being served, in at most 13 steps; stray arguments, no address and a bad export path end the program before anything is served. A certificate or host key that does not load, an address in use, a bad refresh interval and a bad metrics path are found only after routers could connect over TCP (C137_late_false, C137_port_false)."
],
"C138": [
"partial",
"Which settings of the paths work is exact for both programs, and paths that work are answered by their own handlers, also those that begin with a host (C138_hosts). For the multiplexer of Go 1.23 as a whole: paths without blanks, braces and percent signs that begin with a slash are answered with their own handlers, for every method, host and form with escapes, and nothing else is but what lies below a directory (C138_requests_partial, C138_monitor_partial). False of the others: two equal paths, a path without its slash or with a blank make the programs panic (C138_panics_false, C138_blank_false); with a slash before its name rtrmon's difference is found in every directory but not on its path (C138_slash_false); braces and methods stand for other requests (C138_wildcards_false)."
],
"C139": [
"proved",
"For the running program; whether a refresh that waits starts depends on the servers of the files (C84)."
],
"C14": [
"partial",
"False as stated, for every retention limit: C14_incremental_false, C14_two_behind_false (AddSDsDiff leaves one slot of the history empty and ApplyDiff drops withdrawals). Proved for the last change and for KeepDifference = 1."
],
"C140": [
"partial",
"With the same URL for both sources the two vrp_diff series of a threshold are one, which shows the second count (C140_same_url_false); the same holds for the count of the grace period, whose only label is the URL. Everything else is proved for every setting."
],
"C141": [
"partial",
"At the edges it is false (C141_edges_false): no series before the first Reset Query, 1 between the dropping of a session and the end of ClientDisconnected, and a cache that closes the connection ends the program (C92), so the 0 is hardly ever seen. Otherwise proved for every run."
],
"C142": [
"partial",
"False: a channel that is full when its sender returns stops the goroutine, and with it all refreshes, for ever (C142_deadlock_false, C142_forever_false). Proved exactly: in every other reachable state it can get on by steps of that client's sender alone."
],
"C143": [
"partial",
"Proved for routers that keep up (at most one change behind, or beyond the retention limit; no change in the middle of an answer; data never emptied) and updates without repeated records. False otherwise: C143_behind_false, C143_race_false."
],
"C144": [
"partial",
"False: a router that asks for 256 records and closes its connection can stop refreshing for ever (C144_stuck_false, C144_frozen_false). Proved exactly when refreshing can go on."
],
"C145": [
"partial",
"Exact for all texts and for generated times below the year 292 billion; false beyond (C145_far_false): such a file is too old."
],
"C146": [
"partial",
"False: the lock is given up between the three parts of an update, so an update can be lost (C146_lost_false), with withdrawals that no router hears of (C146_router_false), or a set served that nobody asked for (C146_mixed_false). Proved for calls that do not overlap, as in stayrtr, where only the updating goroutine calls AddData."
],
"C147": [
"partial",
"No race on the served data, diffs, serial, list of clients, export, loaded files and the time of the last change; the racy fields are exactly five: the number of connections, the version and the connected flag of a client, the time of the last refresh, and the hash of the cache file (C147_exact)."
],
"C148": [
"partial",
"No race on the maps, the time of the last update, the intervals and the published difference; the racy fields are exactly those of MonRacy: serial, session id, channels, session version and state of an RTR source, and the records of a file (C148_exact)."
],
"C149": [
"partial",
"Proved for the algorithm of Go 1.23 as written down in the model; every theorem on the cache file holds of it (goSorter_ok). The comparison is not the strict order that is required (C149_contract_false), and VRPs that differ in their AS only do not keep their order (C149_stable_false): both without harm, by the rest."
],
"C15": [
"proved",
"The exact change set served at each distance is proved; it is not d changes: C15_distance_is_changes_false."
],
"C150": [
"partial",
"False as stated (C150_mistaken_false, C150_restart_false): if the new session id and serial number happen to be those of the router, it keeps what it held for ever; exactly one of the 65536 draws gives the router's session id (C150_chance; that rand.Intn draws evenly, and from a random seed as of Go 1.20, is not modelled). Proved otherwise: another session (C150_forgotten, C150_other_session_partial) or a serial number the server cannot answer for (C150_other_serial_partial). The store must hold data and not change during the two questions; the router flushes on the error report as RFC 8210, 5.1 asks."
],
"C151": [
"partial",
"For all files the list is exact in names (C151_names), and whatever is listed is a record of the first file that the second does not have (C151_listed). Nothing is missing if key identifiers have no dashes and slashes (C151_records_partial); with them it is false (C151_hidden_false): a router key entry whose identifier is the text of a prefix hides a VRP."
],
"C152": [
"partial",
"False in both respects: an Error Report of another version is answered by an Error Report, and a fatal one does not end the session. Otherwise nothing is sent: exactly what happens is proved for every Error Report (lib/server.go:719-742)."
],
"C153": [
"partial",
"Bytes that cannot be decoded cost the connection without an Error Report (lib/server.go:779-785), and PDUs that only a cache may send are ignored. Proved: the Error Reports are exactly those of the three other causes, each with its code."
],
"C154": [
"partial",
"False: no Error Report of the server holds a copy of the PDU, whatever the cause. That is right for code 2 only."
],
"C155": [
"partial",
"False: without -enforce.version the report has version 0 even if the server has version 1, since the version of a fresh connection is 0 (lib/server.go:639-649, 719-729); a router that comes back with it gets no router keys. With -enforce.version the report has the version of the server."
],
"C156": [
"partial",
"False: triggers and signals refresh at once, and after a slow refresh the next tick follows at once. Proved: no more Serial Notifies than minutes since the start, but for those that were asked for; and a minute apart if the first load failed and nobody asks."
],
"C157": [
"proved",
"For every set of flags (the tables of the three programs have no name twice): C157_read, C157_accepted, C157_unique, C157_refused, C157_names; the texts that switches, numbers and texts take: C157_values."
],
"C158": [
"partial",
"False for numbers with a leading zero, none of which (of two digits or more) is read as written: C158_zero_false; -rtr.expire 07200 announces 3712 s: C158_timer_false; and for fractions with many digits, which may lose a nanosecond: C158_fraction_false. Exactly the integer literals of Go are read as numbers (C158_literals), numerals without superfluous zeros as decimal numbers: C158_decimal_partial; durations of a number and a unit are exact: C158_duration. Exactly the texts of parts are read as durations (C158_texts), exactly if no fraction has more digits than make whole nanoseconds (C158_fraction), and otherwise to within 1.03 ns for each part, with the floating point arithmetic of package time (C158_nearly_partial)."
],
"C159": [
"partial",
"False: every other name is accepted and means that nothing is logged, C159_unknown_false. The eight names stand for their levels: C159_known_partial."
],
"C160": [
"partial",
"False: serial and session are cut off to 32 and 16 bits and a negative version means 0, C160_query_false. Exact for values that fit: C160_query_partial; a version above 1 is refused: C160_version."
],
"C161": [
"partial",
"False of ten flags, C161_idle_false: -maxconn and -enable.nodelay of stayrtr, -oneoff, -primary/secondary.tls.validate, .ssh.validate, .ssh.validate.key of rtrmon, -refresh of rtrdump. Exact: C161_stayrtr_partial, C161_rtrmon_partial, C161_rtrdump_partial."
],
"C162": [
"partial",
"Every prefix PDU of the right size is decoded exactly as it says, and its prefix is a valid one exactly if its length is possible. It is not refused otherwise (C162_refused_false): rtrdump writes it to its file as \"invalid Prefix\", which stayrtr does not read (C162_text_false, C162_dump_false). Missing: nothing more holds of the code."
],
"C163": [
"partial",
"proved of log files: every entry is one line, logs that are equal come from the same calls, the entries tell PDUs apart. False of Router Keys and of prefixes with impossible lengths (one text for all), and on terminals, where a server can write entries of its own through Error Reports."
],
"C164": [
"proved",
""
],
"C165": [
"partial",
"False of three lines: the integration test uses -verify, which does not exist, and is refused with status 2 (C165_integration_false); -tls.bind with the port of the default -bind (C165_tls_false); the first TLS line has no certificate (C165_first_false). The others come up: C165_up_partial, C165_addresses_partial, C165_ssh_partial, C165_rtrmon_partial, C165_rtrdump_partial."
],
"C166": [
"partial",
"False: the SLURM sample has commas after last members and is no JSON (C166_slurm_false); the schema has no build time and is refused by the check that is on by default (C166_schema_false). Without the commas, and without the check: C166_slurm_partial, C166_instance_partial, C166_schema_partial."
],
"C167": [
"proved",
""
],
"C168": [
"proved",
"Texts of the three codes that are sent; a zero byte ends each text on the wire. Copies of the PDUs: C154."
],
"C169": [
"partial",
"False for a cache file whose name is not UTF-8 (stayrtr with metrics) and a source whose name is not UTF-8 (rtrmon): the first recording panics. Proved for all other names; nothing that a router sends matters."
],
"C17": [
"partial",
"False as stated: C17_duplicate_announcement_false. Proved for the last change."
],
"C170": [
"partial",
"For paths without blanks, braces, percent signs, '?', '#', dot segments and empty segments (and no colon in the first segment of the name of the difference), on '/' and every other page at the top level, through the multiplexer of Go 1.23; the link to the metrics on every page. False in directories and for names with a colon, a question mark or a slash before them (C170_directory_false, C170_names_false)."
],
"C171": [
"partial",
"The intervals of End of Data are only shown (C171_shown): the cache is polled at the interval of the command line though it asked for a longer one (C171_refresh_false), and data are kept past the Expire Interval (C171_expire_false; C171_kept says that nothing but a PDU changes them). Proved for every positive interval of the command line: at most one Serial Query and one session per interval, and one more, in any stretch of any run. An interval that is not positive is accepted and makes the cache be asked without limit (C171_zero_false)."
],
"C172": [
"partial",
"Proved of the store for lists without repetition (what C78 says of VRPs): N records, k change sets of at most N*(k+1) records; and of the channels. With repeated router keys more than N records are served (C172_twice_false), a store with KeepDifference 0 would grow for ever (C172_unlimited_false; stayrtr has 3), goroutines of routers that have gone away can remain in any number (C172_goroutines_false, by C35), and rtrmon keeps the records of all sessions (C172_monitor_false, by C64)."
],
"C173": [
"partial",
"The URL of the metrics is wrong if the program listens on a single address (C173_address_false): the page shows it after [host]. All else proved for all settings without NUL, which the command line cannot contain."
],
"C174": [
"partial",
"That nothing else is ever served holds for all runs (C174_only). That all serve the same is proved for entries without expiry times and exports that are new and not too old for the server (C174_follows_partial). False otherwise: the export is replaced only when the served set changes, so it keeps the old build time (C174_quiet_false: a server behind it refuses it after a day) and old expiry times (C174_expiry_false: a server behind it withdraws what the first one serves), and it stays when everything is dropped (C174_dropped_false)."
],
"C175": [
"partial",
"The records a file with local exceptions asks for: all inputs (C175_records). Servers behind each other: entries without expiry times and exports that are not too old (C174 says why). With different SLURM files the second server's filters also remove what the first asserts (C175_asserted_false); otherwise both together are as on one server (C175_merged_partial)."
],
"C176": [
"partial",
"Proved for exports with at least one entry, entries without expiry times, exports not too old for the servers that check build times, clocks that do not go back, and different hashes of different files. False for an empty export: C176_empty_false; for build times and expiry times see the C174 theorems ending in _false."
],
"C177": [
"proved",
""
],
"C178": [
"partial",
"Proved, as C176, for exports with at least one entry on the way, entries without expiry times, exports not too old for the servers that check build times, clocks that do not go back, and different hashes of different files. That the order of servers with assertions counts is C178_order_false."
],
"C179": [
"partial",
"Servers that serve something (C179_dropped_false: a server that has dropped everything still exports it), exports without expiry times (C179_expired_false) and without entries that rtrmon reads but stayrtr does not serve (C179_unserved_false: an export keeps an unusable entry of an older file)."
],
"C180": [
"partial",
"After asking twice, and for a server that serves something. C180_gap_false: unless the session happens to be the same, the router holds nothing after asking once, since the server refuses the session and closes the connection (RFC 8210, section 5.1: the router flushes its data)."
],
"C24": [
"partial",
"False on SSH: C24_ssh_false. Proved on TCP and TLS."
],
"C28": [
"partial",
"False under a concurrent update: C28_race_false, with the consequence for the router in C28_race_consequence_false. Proved when no update falls between the two reads."
],
"C30": [
"partial",
"False for packets of an unacceptable version, which are refused and then answered: C30_served_after_error_false. Proved for all other packets and for later packets."
],
"C31": [
"partial",
"False for SSH, for packets that disconnect twice and for clients dropped by the server: C31_double_disconnect_false, C31_ssh_false, C31_closed_by_server_false. Proved for TCP runs in which each client disconnects once, and for all runs what the counter is: clients, plus SSH connects less SSH closes, less superfluous disconnects."
],
"C32": [
"partial",
"False: C32_race_false, C32_miscount_false. Proved when accepting waits for the previous connection to be counted and the counter is exact; for all runs the limit is overshot by at most the superfluous disconnects and the connections accepted while others were not yet counted."
],
"C34": [
"partial",
"False: C34_stall_false. Proved while every channel has room."
],
"C35": [
"partial",
"False: C35_sender_leak_false, C35_reader_leak_false. Proved that these are the only two ways, and termination when neither can arise."
],
"C36": [
"partial",
"False: C36_merged_false, C36_split_false. Proved for reads that hold exactly one PDU each, and for any reads what is acted upon: the PDU at the beginning of each read, up to the first read that begins with none."
],
"C37": [
"partial",
"Request handling: proved in full. Notifications: false for protocol version 0 (C37_notify_version0_false), proved from version 1."
],
"C38": [
"partial",
"Exact for VRPs whose prefix and ASN parse; the split itself holds for all inputs. False for VRPs that do not parse (witness); C38_general says exactly what happens to those too."
],
"C39": [
"partial",
"False: a malformed prefix without ASN removes every VRP (proved for any list); with an ASN it acts as an ASN filter."
],
"C40": [
"partial",
"Exact for keys whose SKI decodes; false for others (the outcome depends on the order of the filters, witness); C40_undecodable says exactly which of those are removed."
],
"C41": [
"partial",
"Holds for maximum lengths below 256 and prefixes netip accepts; false otherwise (280 becomes 24; /08 accepted here, refused later)."
],
"C42": [
"partial",
"Shape, idempotence and order independence hold for VRPs; for router keys order independence needs decodable SKIs (C40_order_false)."
],
"C43": [
"partial",
"Holds for files whose numeric ASNs are 32-bit numbers; false otherwise: the number is converted, not refused (witness). Lengths and expiry hold for all files."
],
"C44": [
"proved",
"For every outcome of sort.Slice that is sorted (assumption Sorter.Ok, shown satisfiable)."
],
"C45": [
"proved",
"For every outcome of sort.Slice that is sorted."
],
"C46": [
"partial",
"False after updates (witness: a new sub-prefix is sent after the covering prefix). Holds for the first data and after an empty set; for every update the order is given: what stays keeps its place, what is new follows in the order of processing."
],
"C47": [
"partial",
"False for different maximum lengths (witness, for every sort outcome); holds for equal maximum lengths."
],
"C48": [
"proved",
""
],
"C49": [
"partial",
"Fetching: exact, also in which attempts deliver a file (C49_delivered). The loaded file and SLURM configuration are always the last readable ones (hash injective). A whole refresh that finds nothing new may still withdraw expired entries (C49_expiry_false)."
],
"C50": [
"proved",
"For every reached state and clock; what a refresh starts to serve comes from a fresh file."
],
"C51": [
"partial",
"False: an unchanged stale file is served forever, even its expired entries; also with only 'generated'; also dropped too early. Proved exactly when a refresh withdraws everything: one of the files is new and the exported file has a text build time more than 24 hours ago."
],
"C52": [
"partial",
"False with repeated router keys (only counts are compared). Proved for all runs with good files, whatever the clock does, and exactly for a refresh that finds nothing new: nothing changes if the counts agree, otherwise exactly the records asked for are served."
],
"C53": [
"partial",
"False for a file without roas. Partial: all reached states otherwise."
],
"C54": [
"partial",
"False: after a download that was cut off the version is never fetched again. Partial: histories without cut-off downloads."
],
"C55": [
"proved",
"All histories; an empty tag is remembered and sent (C55_empty_tag_false)."
],
"C56": [
"partial",
"False in every reached state: the metrics are never set."
],
"C57": [
"partial",
"Acceptance, refusal and coalescing in full; that the loop moves at all fails with a fetch that never ends (C84)."
],
"C58": [
"proved",
"Exact, including the rule for the environment variable."
],
"C59": [
"proved",
"Base64 and the field structure of keys modelled; prefix comparison is shown to identify the key."
],
"C60": [
"proved",
"Exact membership of Diff, disjointness and Diff(a,a) empty."
],
"C61": [
"partial",
"History semantics and counts proved for every list of snapshots; False through the client: a 200 answer with an identical tag is no sighting, so last-seen is not refreshed (C61_identical_false)."
],
"C62": [
"partial",
"Proved for countUnmatched, and for the published values as long as the clock does not advance between the two readings by as much as the thresholds differ; False without that, as the clock is read once per threshold (C62_clock_false)."
],
"C63": [
"partial",
"Proved for valid prefixes and flags 0/1; False otherwise: all invalid prefixes print alike and share an entry, and flags other than 1 withdraw."
],
"C64": [
"partial",
"False: the view is never cleared, so after a reconnect it is the union of old and new; proved: exactly that union, and equality when the new set contains the old one or the view was empty."
],
"C65": [
"partial",
"False: within a session no Reset Query is ever sent, a Cache Reset leads to the same Serial Query again and again; proved: every new session starts with a Reset Query."
],
"C66": [
"partial",
"False: the flags are parsed and never reach the clients; proved what the settings would do."
],
"C67": [
"partial",
"Proved for VRPs and for keys with lower-case SKIs; False for upper-case SKIs in the JSON file."
],
"C68": [
"proved",
"Exact file for every well-framed answer, also end to end with the server model; nothing is written when the stream is cut off. Outside the statement: an answer interrupted by an Error Report or a Serial Notify is written as if complete, and with -serial withdrawals are written like announcements (C68_partial_file_false, C68_withdrawal_false)."
],
"C69": [
"proved",
"Version after any PDU sequence in closed form, and versions sent."
],
"C70": [
"partial",
"False for -maxconn and -enable.nodelay: C70_maxconn_false, C70_nodelay_false. Proved for -enforce.version and -disable.bgpsec."
],
"C71": [
"partial",
"Everything served is listed; the export also lists what is not served."
],
"C72": [
"proved",
"Also shows what happens out of range."
],
"C73": [
"partial",
"False: C73_report_lost_false. Proved when the send loop is idle."
],
"C74": [
"partial",
"False for unsupported values: C74_unsupported_false. Proved for 0 and 1."
],
"C75": [
"partial",
"False: values are not checked (C75_unchecked_false). Proved that 32 bit values are announced as configured, and any values modulo 2^32, with the default in place of 0."
],
"C76": [
"partial",
"False: default routes are never served; every other entry is."
],
"C77": [
"partial",
"False: host bits are kept (witness); holds if the file has none."
],
"C78": [
"partial",
"False: router keys are not deduplicated (witness). Proved exactly how often each record is handed over: a VRP once, a router key as often as the file has usable entries for it."
],
"C79": [
"proved",
""
],
"C80": [
"partial",
"False when everything is dropped; otherwise each change announces exactly the new serial."
],
"C81": [
"partial",
"False after dropping and for repeated router keys; otherwise exact in every reached state. The unfiltered gauges and the gauge of keys count entries of the exported lists in every reached state (C81_entries)."
],
"C82": [
"partial",
"False: fail-open at the start, never retried without slurm.refresh. Partial: kept once loaded."
],
"C83": [
"partial",
"A race is reachable; absent with the check under the lock, or with one of the two files not fetched by HTTP."
],
"C84": [
"partial",
"False: the HTTP client has no overall time limit. Proved for fetches that end."
],
"C85": [
"partial",
"False for 0, negative and overflowing values; proved for 1 to 9223372036, and exactly: the loop starts iff the interval in nanoseconds modulo 2^64 is a positive signed number. C85_short_false: 18446744074 seconds make it refresh every 0.29 seconds."
],
"C86": [
"partial",
"False before the loop is entered; proved afterwards."
],
"C87": [
"proved",
""
],
"C88": [
"partial",
"False: the empty password is accepted. Proved when a password is set; keys fail closed."
],
"C89": [
"partial",
"False for keys, whose callback ignores the user; proved for passwords."
],
"C90": [
"partial",
"False: the tag is recorded before the file is decoded; proved for URL sources with an honest server when every 200 answer decodes."
],
"C91": [
"partial",
"False: a second announcement (after a reconnect) resets first-seen; proved as long as no other PDU about the record arrives."
],
"C92": [
"partial",
"False: a lost or failed connection ends the program for both sources; proved for sessions that end with an Error Report."
],
"C93": [
"partial",
"False for file sources, whose total includes records in the grace period; proved: exact sum for file sources, exact total for RTR sources."
],
"C94": [
"proved",
"Sortedness, contents, grace period and round trip."
],
"C95": [
"partial",
"Exact for file sources; False for RTR sources (C95_rtr_false)."
],
"C96": [
"partial",
"False for the secondary source: the method password ignores the environment, the method key overwrites the flag; proved for the primary."
],
"C97": [
"partial",
"False with the same URL in both sources (shared tags); proved for different URLs."
],
"C98": [
"proved",
"For every certificate verdict and fingerprint."
],
"C99": [
"partial",
"False: a version-1 server sends version-0 notifications to routers that have not yet asked, which downgrades the client for good; proved once the connection has negotiated."
]
}