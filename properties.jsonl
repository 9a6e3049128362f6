{"id": "C01", "title": "Decoding untrusted bytes never crashes", "statement": "For any byte stream offered by a peer, Decode returns a PDU or an error; it never panics on an out-of-range slice or index, including for Error Report PDUs with hostile inner lengths.", "quantifier": "every finite byte sequence", "why_tests_cant": "the input space is unbounded and the dangerous cases are arithmetic corners (uint32 wrap-around in inner lengths)", "anchors": ["lib/structs.go:Decode", "lib/structs.go:DecodeBytes"]}
{"id": "C02", "title": "Every PDU that is encoded decodes back to itself", "statement": "For every PDU of every type whose fields are representable on the wire, decoding its bytes gives the same PDU (for Error Report: the message with the terminating NUL that the encoder adds) and consumes exactly those bytes.", "quantifier": "every PDU value of the ten types, every field value, every following byte sequence", "why_tests_cant": "fields range over 2^32 values, arbitrary byte strings and prefixes", "anchors": ["lib/structs.go:Write", "lib/structs.go:Decode"]}
{"id": "C03", "title": "Wire layout follows RFC 6810/8210", "statement": "Each PDU is encoded with the version, type, session/flags/error word, length and body fields at exactly the offsets, widths and byte order the RFCs fix.", "quantifier": "every PDU value", "why_tests_cant": "a round-trip test cannot see two mirrored mistakes; a fixed vector covers one value", "anchors": ["lib/structs.go:Write"]}
{"id": "C04", "title": "The length field equals the number of bytes emitted", "statement": "For every PDU that is emitted, bytes 4..7 (big endian) equal the number of bytes emitted (as long as that fits 32 bits); a Router Key with a subject key identifier that is not 20 bytes emits nothing at all.", "quantifier": "every PDU value", "why_tests_cant": "quantifies over arbitrary-length payloads", "anchors": ["lib/structs.go:Write"]}
{"id": "C05", "title": "A stream of PDUs is parsed back as the same sequence", "statement": "Concatenating the encodings of any sequence of well-formed PDUs and reading the stream with Decode repeatedly yields exactly that sequence and then end of input.", "quantifier": "every finite sequence of well-formed PDUs", "why_tests_cant": "sequences are unbounded; framing errors appear only at PDU boundaries", "anchors": ["lib/structs.go:Decode", "lib/client.go:StartRW"]}
{"id": "C06", "title": "Decoding is length-bounded and exact", "statement": "A declared length below 8 or above 262168 is rejected after the 8 header bytes without reading or allocating a body; otherwise a successful decode consumes exactly the declared number of bytes.", "quantifier": "every byte stream", "why_tests_cant": "needs all declared lengths and all stream lengths", "anchors": ["lib/structs.go:Decode", "lib/structs.go:messageMaxSize"]}
{"id": "C07", "title": "Type dispatch is exact", "statement": "Decode yields a PDU only for the ten known type codes with the body length of that type; any other type code or body length is an error, and the returned PDU reports the version and type of the header.", "quantifier": "every byte stream", "why_tests_cant": "256 types times all lengths", "anchors": ["lib/structs.go:Decode", "lib/structs.go:GetType", "lib/structs.go:GetVersion"]}
{"id": "C08", "title": "Record identity: hash key equality is record equality", "statement": "Two sendable records have the same hash key exactly when they are the same kind of record with the same prefix, max length and ASN (VRP), or the same ASN, SKI and public key (router key); a VRP never collides with a router key. Flags do not matter.", "quantifier": "every pair of records with valid prefixes", "why_tests_cant": "a collision is a property of all pairs, tests only sample", "anchors": ["lib/server.go:HashKey", "lib/server.go:Equals"]}
{"id": "C09", "title": "ComputeDiff is the exact set difference", "statement": "ComputeDiff(new, prev) returns as added exactly the records of new not in prev (flagged announce), as removed exactly the records of prev not in new (flagged withdraw), and as unchanged (when asked) exactly the common ones.", "quantifier": "every pair of record lists, in any order, with duplicates", "why_tests_cant": "unbounded lists, orders and multiplicities", "anchors": ["lib/server.go:ComputeDiff"]}
{"id": "C10", "title": "Applying a computed diff gives the new set", "statement": "ApplyDiff(added ++ removed, prev) for the diff between a served set prev (all flagged announce) and new contains exactly the records of new, all flagged announce.", "quantifier": "every pair of record lists, the first one all announcements", "why_tests_cant": "unbounded", "anchors": ["lib/server.go:ApplyDiff", "lib/server.go:ComputeDiff"]}
{"id": "C11", "title": "AddData installs exactly the given set and reports change truthfully", "statement": "After AddData(new) the served set equals new as a set of records; it returns true exactly when the served set changed, and when it returns false serial, data and history are untouched.", "quantifier": "every server state reachable by AddData, every new list", "why_tests_cant": "state space is unbounded", "anchors": ["lib/server.go:AddData", "lib/server.go:AddSDsDiff", "lib/server.go:GetCurrentSDs"]}
{"id": "C12", "title": "Serial number advances by one per change", "statement": "The serial starts at 0; each effective AddData on a non-empty store advances it by exactly 1 modulo 2^32; a no-op never changes it; a change of content of a non-empty store never keeps the serial.", "quantifier": "every history of AddData calls", "why_tests_cant": "histories are unbounded and wrap-around needs 2^32 steps", "anchors": ["lib/server.go:generateSerial", "lib/server.go:AddSDsDiff"]}
{"id": "C13", "title": "Everything served by a full sync is an announcement", "statement": "In every state reachable by AddData every record of the full set carries the announce flag, so a Reset Query answer contains no withdrawals.", "quantifier": "every history of AddData calls", "why_tests_cant": "unbounded histories", "anchors": ["lib/server.go:AddData", "lib/server.go:ApplyDiff", "lib/server.go:SendSDs"]}
{"id": "C14", "title": "An incremental answer brings the client to the current set", "statement": "If a client holds the data the server served at serial n and a Serial Query for n is answered with an incremental update, then applying that update to the client's data gives exactly the server's current data.", "quantifier": "every history of AddData calls between the two points, every retained serial", "why_tests_cant": "needs all histories and all distances; the shipped tests never query more than one version back", "anchors": ["lib/server.go:getSDsSerialDiff", "lib/server.go:AddSDsDiff", "lib/server.go:RequestNewVersion"]}
{"id": "C15", "title": "Which change set is served at each distance", "statement": "For each distance d between the client's serial and the current one, the records served are the net effect of a definite number of most recent changes (the specification says d of them).", "quantifier": "every history, every distance, every retention limit", "why_tests_cant": "unbounded histories and distances", "anchors": ["lib/server.go:AddSDsDiff", "lib/server.go:getSDsSerialDiff"]}
{"id": "C16", "title": "Unknown serials are refused with a Cache Reset", "statement": "A serial newer than the current one, or older than what is retained, is never answered with data; at most KeepDifference incremental versions are retained when that limit is positive.", "quantifier": "every history, every queried serial, every positive limit", "why_tests_cant": "2^32 serials times all histories", "anchors": ["lib/server.go:getSDsSerialDiff", "lib/server.go:AddSDsDiff"]}
{"id": "C17", "title": "Incremental updates are free of duplicate announcements and unknown withdrawals", "statement": "An incremental answer never announces a record the client already holds and never withdraws one it does not hold (RFC 8210 errors 7 and 6).", "quantifier": "every history, every retained serial", "why_tests_cant": "needs all histories", "anchors": ["lib/server.go:ApplyDiff", "lib/server.go:getSDsSerialDiff"]}
{"id": "C18", "title": "A client that is up to date gets an empty update", "statement": "A Serial Query with the right session and the current serial of a non-empty store is answered by Cache Response, no data PDUs, End of Data with that serial.", "quantifier": "every reachable store", "why_tests_cant": "unbounded states", "anchors": ["lib/server.go:RequestNewVersion", "lib/server.go:getSDsSerialDiff"]}
{"id": "C19", "title": "A change of content is visible as a change of serial", "statement": "Whenever the served set at two moments of a server's life differs, and both were non-empty, the serials differ (up to wrap-around), so that a client can tell it is out of date.", "quantifier": "every history of AddData calls, including emptying the store", "why_tests_cant": "needs histories that empty and refill the store", "anchors": ["lib/server.go:generateSerial"]}
{"id": "C20", "title": "An empty store is reported as No Data", "statement": "While the store is empty, Reset Queries and Serial Queries with the right session are answered by exactly one Error Report with code 2 and never by data.", "quantifier": "every reachable empty store, every query", "why_tests_cant": "all states", "anchors": ["lib/server.go:RequestCache", "lib/server.go:RequestNewVersion", "lib/server.go:getCurrentSerial"]}
{"id": "C21", "title": "A session mismatch never leaks an update", "statement": "A Serial Query with a session id other than the server's for that version is answered by exactly one Error Report (code 0) and the connection is dropped; no data is sent.", "quantifier": "every session id, serial and store", "why_tests_cant": "2^16 x 2^32 queries", "anchors": ["lib/server.go:RequestNewVersion"]}
{"id": "C22", "title": "Full-sync answers are well framed", "statement": "A Reset Query on a non-empty store is answered by Cache Response(session), then the data PDUs in store order, then End of Data with the same session, the current serial and the configured intervals; nothing else.", "quantifier": "every store, every client", "why_tests_cant": "all stores", "anchors": ["lib/server.go:RequestCache", "lib/server.go:SendSDs"]}
{"id": "C23", "title": "Version-0 clients never receive Router Keys and every PDU carries the client's version", "statement": "All PDUs sent in answer to a query carry the version negotiated for the connection; on version 0, or when router keys are disabled for the connection, no Router Key PDU is sent, while every VRP is.", "quantifier": "every store, every connection state", "why_tests_cant": "all stores", "anchors": ["lib/server.go:SendData", "lib/server.go:SendPDU"]}
{"id": "C24", "title": "Disabling BGPsec applies to every transport", "statement": "When the server is configured with DisableBGPSec, no client, on TCP, TLS or SSH, is sent Router Key PDUs.", "quantifier": "every transport and store", "why_tests_cant": "needs each transport's accept path", "anchors": ["lib/server.go:acceptClientTCP", "lib/server.go:acceptClientSSH", "lib/server.go:DisableBGPsec"]}
{"id": "C25", "title": "No duplicates in a full sync", "statement": "If every list given to AddData is duplicate free then the served list is duplicate free, in every reachable state.", "quantifier": "every history of duplicate-free AddData calls", "why_tests_cant": "unbounded histories", "anchors": ["lib/server.go:ApplyDiff", "lib/server.go:AddData"]}
{"id": "C26", "title": "Order and multiplicity of the input do not matter", "statement": "AddData with a permuted or duplicated list of the same records leads to the same served set, the same serial and the same return value.", "quantifier": "every state and every pair of set-equal lists", "why_tests_cant": "all permutations", "anchors": ["lib/server.go:AddData"]}
{"id": "C27", "title": "End to end: what a client receives is what the server stores", "statement": "The bytes the server emits for a Reset Query, parsed by this library's client, give exactly the stored VRPs (and, on version 1, the stored router keys).", "quantifier": "every store of encodable records", "why_tests_cant": "all stores, all record values", "anchors": ["lib/server.go:SendSDs", "lib/structs.go:Decode", "cmd/rtrdump/rtrdump.go:HandlePDU"]}
{"id": "C28", "title": "End of Data labels the data it closes", "statement": "The serial in End of Data is the serial of the data set that was sent, under every interleaving of the request handler with updates.", "quantifier": "every interleaving of one handler with any number of updates", "why_tests_cant": "a race between two separately locked reads", "anchors": ["lib/server.go:RequestCache", "lib/server.go:RequestNewVersion", "lib/server.go:GetCurrentSerial", "lib/server.go:GetCurrentSDs"]}
{"id": "C29", "title": "Protocol version is pinned after negotiation", "statement": "The first PDU with a supported version fixes the connection's version (capped by the server's); any later PDU with another version, or a first PDU with an unsupported one, gets Error Report code 4 and the connection is dropped.", "quantifier": "every sequence of received PDUs", "why_tests_cant": "unbounded sequences", "anchors": ["lib/server.go:checkVersion", "lib/server.go:HandlePDU"]}
{"id": "C30", "title": "Nothing is served after the connection was dropped", "statement": "Once the server has decided to drop a connection, no request of that client is processed and nothing further is queued for it.", "quantifier": "every packet and state", "why_tests_cant": "depends on control flow after the error branch", "anchors": ["lib/server.go:Start", "lib/server.go:checkVersion", "lib/server.go:Disconnect"]}
{"id": "C31", "title": "The connection counter equals the number of connections", "statement": "After any history of connects and disconnects the counter used for the connection limit equals the number of clients currently connected and is never negative.", "quantifier": "every history of connection events", "why_tests_cant": "unbounded histories", "anchors": ["lib/server.go:ClientConnected", "lib/server.go:ClientDisconnected", "lib/server.go:Disconnect", "lib/server.go:SetMaxConnections"]}
{"id": "C32", "title": "The connection limit holds", "statement": "With a positive MaxConn the number of simultaneously connected clients never exceeds it.", "quantifier": "every interleaving of accepts and client starts", "why_tests_cant": "a race between accept loop and client goroutine", "anchors": ["lib/server.go:loopTCP", "lib/server.go:acceptClientTCP", "lib/server.go:ClientConnected", "cmd/stayrtr/stayrtr.go:run"]}
{"id": "C33", "title": "Outgoing PDUs are delivered in order", "statement": "What is written to a client's connection is always a prefix of what was queued for it, in order, without loss or duplication, under every schedule of producers and the send loop.", "quantifier": "every schedule", "why_tests_cant": "all interleavings", "anchors": ["lib/server.go:sendLoop", "lib/server.go:SendRawPDU"]}
{"id": "C34", "title": "A stalled client cannot stall the others", "statement": "A client that stops reading does not prevent updates and notifications from reaching other clients.", "quantifier": "every schedule in which one client never drains", "why_tests_cant": "needs a full 256-element queue and a blocked writer", "anchors": ["lib/server.go:NotifyClientsLatest", "lib/server.go:SendRawPDU"]}
{"id": "C35", "title": "A client goroutine always terminates after a disconnect", "statement": "After a connection was dropped the goroutines serving it finish.", "quantifier": "every schedule and store size", "why_tests_cant": "needs > 256 queued PDUs after a version error", "anchors": ["lib/server.go:Start", "lib/server.go:sendLoop", "lib/server.go:Disconnect"]}
{"id": "C36", "title": "Requests are recognised independently of TCP segmentation", "statement": "The PDUs the server acts on are those in the client's byte stream, however the network splits or merges it into reads.", "quantifier": "every byte stream and every way of cutting it", "why_tests_cant": "all segmentations", "anchors": ["lib/server.go:Start", "lib/structs.go:DecodeBytes"]}
{"id": "C37", "title": "Session lookup never crashes the server", "statement": "For every client version the session id lookup is in range, in request handling and in notifications, under every interleaving.", "quantifier": "every client version, schedule and configured base version", "why_tests_cant": "needs a notification between two statements of another goroutine", "anchors": ["lib/server.go:GetSessionId", "lib/server.go:NotifyClientsLatest", "lib/server.go:NewServer"]}
{"id": "C38", "title": "SLURM prefix filters remove exactly the covered VRPs", "statement": "FilterOnVRPs splits the input into kept and removed, preserving order, losing and inventing nothing; a VRP is removed exactly when some filter matches it: the filter's prefix (if given) covers the VRP's prefix and the filter's ASN (if given) equals the VRP's ASN.", "quantifier": "every VRP list and filter list", "why_tests_cant": "all prefixes, filters", "anchors": ["prefixfile/slurm.go:FilterOnVRPs"]}
{"id": "C39", "title": "A malformed SLURM filter prefix removes nothing", "statement": "A prefix filter whose prefix string cannot be parsed does not match VRPs by accident.", "quantifier": "every malformed filter", "why_tests_cant": "depends on the error path of the parser", "anchors": ["prefixfile/slurm.go:FilterOnVRPs", "prefixfile/slurm.go:GetPrefix"]}
{"id": "C40", "title": "SLURM BGPsec filters remove exactly the matching keys", "statement": "FilterOnBRKs removes a key exactly when some filter with an ASN and/or SKI matches all its given fields; a filter with neither matches nothing; the result does not depend on the order of the filters.", "quantifier": "every key list and filter list, including undecodable SKIs", "why_tests_cant": "the decoded SKI is cached across filters", "anchors": ["prefixfile/slurm.go:FilterOnBRKs"]}
{"id": "C41", "title": "SLURM assertions are added faithfully", "statement": "Each prefix assertion with a parsable prefix becomes exactly one VRP with its ASN and prefix and the max length max(maxPrefixLength, prefix length); each BGPsec assertion becomes one router key.", "quantifier": "every assertion list", "why_tests_cant": "integer conversion to uint8", "anchors": ["prefixfile/slurm.go:AssertVRPs", "prefixfile/slurm.go:AssertBRKs"]}
{"id": "C42", "title": "SLURM output is filters then assertions", "statement": "FilterAssert returns the kept input in order followed by the assertions; assertions are never filtered; filtering is idempotent and independent of the order of the filters.", "quantifier": "every input and config", "why_tests_cant": "all inputs", "anchors": ["prefixfile/slurm.go:FilterAssert"]}
{"id": "C43", "title": "Only valid, unexpired VRPs are served", "statement": "Every VRP that processing lets through has a parsable prefix of length at least 1, prefix length <= max length <= address width, an ASN in range taken from the input, and is not expired.", "quantifier": "every JSON list and clock value", "why_tests_cant": "all inputs", "anchors": ["cmd/stayrtr/stayrtr.go:processData", "cmd/stayrtr/stayrtr.go:isValidPrefixLength", "prefixfile/prefixfile.go:GetASN2"]}
{"id": "C44", "title": "Every valid, unexpired VRP is served", "statement": "Every JSON entry satisfying those conditions appears in the output, exactly once.", "quantifier": "every JSON list", "why_tests_cant": "all inputs, all duplicates", "anchors": ["cmd/stayrtr/stayrtr.go:processData"]}
{"id": "C45", "title": "More specific prefixes are sent before covering ones", "statement": "In the processed list a VRP for a sub-prefix precedes every VRP for a prefix that covers it, whatever the order of the input.", "quantifier": "every JSON list, every unstable sort outcome", "why_tests_cant": "sort.Slice with a non-strict comparator", "anchors": ["cmd/stayrtr/stayrtr.go:processData"]}
{"id": "C46", "title": "The race-minimising order reaches the wire", "statement": "In the answer to a Reset Query sub-prefixes precede covering prefixes, also after updates.", "quantifier": "every history of updates", "why_tests_cant": "needs at least two updates", "anchors": ["lib/server.go:ApplyDiff", "cmd/stayrtr/stayrtr.go:processData"]}
{"id": "C47", "title": "VRPs for one prefix are contiguous", "statement": "All VRPs for the same prefix are adjacent in the processed list (RFC 8210bis section 11, break before make).", "quantifier": "every JSON list", "why_tests_cant": "all inputs", "anchors": ["cmd/stayrtr/stayrtr.go:processData"]}
{"id": "C48", "title": "Router keys are carried through unchanged", "statement": "Every unexpired router key with a decodable SKI is carried through with its ASN, key and decoded SKI, and no other key is.", "quantifier": "every key list and clock", "why_tests_cant": "all inputs", "anchors": ["cmd/stayrtr/stayrtr.go:processData"]}
{"id": "C49", "title": "A failed refresh never disturbs what is served", "statement": "If fetching or decoding the cache file fails, or the file is unchanged, the loaded file, the SLURM configuration and the served set stay as they were.", "quantifier": "every state, every failure", "why_tests_cant": "all failure points", "anchors": ["cmd/stayrtr/stayrtr.go:updateFile", "cmd/stayrtr/stayrtr.go:updateSlurm"]}
{"id": "C50", "title": "A stale cache file is never loaded", "statement": "With checktime on, data whose build time is missing or more than 24 hours old never changes the served set to that data.", "quantifier": "every file and clock", "why_tests_cant": "all clocks", "anchors": ["cmd/stayrtr/stayrtr.go:updateFromNewState", "cmd/stayrtr/stayrtr.go:reloadFromCurrentState"]}
{"id": "C51", "title": "Stale data is withdrawn after 24 hours", "statement": "With checktime on, once the loaded file is more than 24 hours old the next refresh stops serving it.", "quantifier": "every history of refreshes", "why_tests_cant": "needs a day of simulated time and a source that stops changing", "anchors": ["cmd/stayrtr/stayrtr.go:routineUpdate", "cmd/stayrtr/stayrtr.go:reloadFromCurrentState"]}
{"id": "C52", "title": "Expired VRPs are withdrawn at the next refresh", "statement": "After each successful refresh the served set is exactly the processed form of the loaded file at that time; in particular VRPs that expired since are gone even if the file did not change.", "quantifier": "every loaded file, every later clock", "why_tests_cant": "the code only compares counts", "anchors": ["cmd/stayrtr/stayrtr.go:reloadFromCurrentState"]}
{"id": "C53", "title": "After a successful update the served set is the processed file", "statement": "When a new cache file (or SLURM file) is accepted, the served set afterwards is exactly process(SLURM(file)).", "quantifier": "every state, file, SLURM config", "why_tests_cant": "all states", "anchors": ["cmd/stayrtr/stayrtr.go:updateFromNewState", "cmd/stayrtr/stayrtr.go:applyUpdateFromNewState"]}
{"id": "C54", "title": "A fetched version is eventually loaded", "statement": "If the source keeps offering a version that was not yet loaded, later successful requests deliver it, even when an earlier download was cut off.", "quantifier": "every history of requests with failures", "why_tests_cant": "needs a body failure after headers", "anchors": ["utils/utils.go:FetchFile"]}
{"id": "C55", "title": "Conditional requests only suppress known versions", "statement": "The fetcher sends the ETag and date of the last version it saw, forgets them on HTTP errors, and without caching enabled never suppresses a download.", "quantifier": "every history of responses", "why_tests_cant": "all histories", "anchors": ["utils/utils.go:FetchFile"]}
{"id": "C56", "title": "Refresh metrics are recorded", "statement": "Each successful HTTP refresh updates the last-refresh gauge and the status code counter.", "quantifier": "every response", "why_tests_cant": "depends on the returned tuple of every path", "anchors": ["utils/utils.go:FetchFile", "cmd/stayrtr/stayrtr.go:updateFile"]}
{"id": "C57", "title": "Update triggers coalesce and none accepted is lost", "statement": "At most one triggered update is pending; a trigger answered with success is followed by a refresh that starts after it; a refused trigger means one was already pending.", "quantifier": "every interleaving of triggers and refreshes", "why_tests_cant": "all schedules", "anchors": ["cmd/stayrtr/stayrtr.go:TriggerUpdate", "cmd/stayrtr/stayrtr.go:routineUpdate"]}
{"id": "C58", "title": "SSH password authentication is exact", "statement": "With password authentication the callback accepts exactly the configured user with exactly the configured password.", "quantifier": "every user and password", "why_tests_cant": "all strings", "anchors": ["cmd/stayrtr/stayrtr.go:run"]}
{"id": "C59", "title": "SSH key authentication admits only listed keys", "statement": "With key authentication (no bypass) a key is accepted exactly when some line of the authorized file starts with its type and encoding, and then the key encoded on that line is that key.", "quantifier": "every key and file", "why_tests_cant": "prefix comparison of base64 text over all keys", "anchors": ["cmd/stayrtr/stayrtr.go:run"]}
{"id": "C60", "title": "rtrmon: the diff is exact and one-sided", "statement": "Diff(a,b) is exactly the entries visible in a and not visible in b; the two one-sided diffs are disjoint and a source never differs from itself.", "quantifier": "every pair of maps", "why_tests_cant": "all maps", "anchors": ["cmd/rtrmon/rtrmon.go:Diff"]}
{"id": "C61", "title": "rtrmon: grace period bookkeeping", "statement": "After an update every listed VRP is visible with last-seen now, first-seen is kept while it stays visible, vanished entries stay (invisible) as long as their last sighting is within the grace period and are dropped afterwards, and the reported count is the number of invisible entries.", "quantifier": "every map, file and clock", "why_tests_cant": "all maps and times", "anchors": ["cmd/rtrmon/rtrmon.go:BuildNewVrpMap", "cmd/rtrmon/rtrmon.go:UpdateCurrentVrpMap"]}
{"id": "C62", "title": "rtrmon: unmatched counts are monotone in the threshold", "statement": "The vrp_diff metric never increases when the visibility threshold grows.", "quantifier": "every pair of maps, thresholds", "why_tests_cant": "all maps", "anchors": ["cmd/rtrmon/rtrmon.go:countUnmatched"]}
{"id": "C63", "title": "rtrmon: the RTR view equals replaying the PDUs", "statement": "After any sequence of data PDUs the RTR view contains exactly the records whose last PDU was an announcement, and End of Data publishes exactly that view.", "quantifier": "every PDU sequence", "why_tests_cant": "unbounded sequences", "anchors": ["cmd/rtrmon/rtrmon.go:HandlePDU"]}
{"id": "C64", "title": "rtrmon: after a reconnect the view equals the server's set", "statement": "After the session is re-established and a full sync completed, the published set is the server's current set.", "quantifier": "every pair of sessions", "why_tests_cant": "needs two sessions with a withdrawal in between", "anchors": ["cmd/rtrmon/rtrmon.go:HandlePDU", "cmd/rtrmon/rtrmon.go:Start"]}
{"id": "C65", "title": "rtrmon: a Cache Reset leads to resynchronisation", "statement": "After the server answers Cache Reset, the monitor requests a full sync.", "quantifier": "every session history", "why_tests_cant": "needs a server that lost history", "anchors": ["cmd/rtrmon/rtrmon.go:HandlePDU", "cmd/rtrmon/rtrmon.go:continuousRTR"]}
{"id": "C66", "title": "rtrmon: transport validation flags take effect", "statement": "With tls.validate (resp. ssh.validate) on, server certificates (resp. host keys) are verified.", "quantifier": "every flag setting", "why_tests_cant": "a wiring property of main", "anchors": ["cmd/rtrmon/rtrmon.go:main", "cmd/rtrmon/rtrmon.go:Start"]}
{"id": "C67", "title": "rtrmon: the same record from JSON and RTR is the same entry", "statement": "A record read from a JSON file and the same record received over RTR get the same map key, so identical sources have an empty diff.", "quantifier": "every record", "why_tests_cant": "all encodings of the SKI", "anchors": ["cmd/rtrmon/rtrmon.go:BuildNewVrpMap", "cmd/rtrmon/rtrmon.go:HandlePDU"]}
{"id": "C68", "title": "rtrdump writes what the server announced", "statement": "For a well-formed Reset Query answer the dump lists exactly the prefixes and router keys received, in order, with session and serial from End of Data.", "quantifier": "every PDU sequence", "why_tests_cant": "unbounded sequences", "anchors": ["cmd/rtrdump/rtrdump.go:HandlePDU", "lib/client.go:StartRW"]}
{"id": "C69", "title": "The client session only ever downgrades", "statement": "The client's protocol version never increases; it becomes 0 exactly when a version-1 session receives a version-0 PDU.", "quantifier": "every PDU sequence", "why_tests_cant": "unbounded sequences", "anchors": ["lib/client.go:StartRW"]}
{"id": "C70", "title": "Command line limits are wired to the server", "statement": "The values of -maxconn and -enable.nodelay reach the server.", "quantifier": "every flag value", "why_tests_cant": "a wiring property of run", "anchors": ["cmd/stayrtr/stayrtr.go:run", "lib/server.go:NewServer"]}
{"id": "C71", "title": "The HTTP export reflects what is served", "statement": "The JSON served on the export path lists the records that are served over RTR.", "quantifier": "every state", "why_tests_cant": "all inputs with invalid or expired entries", "anchors": ["cmd/stayrtr/stayrtr.go:exporter", "cmd/stayrtr/stayrtr.go:applyUpdateFromNewState"]}
{"id": "C72", "title": "ASN parsing is exact", "statement": "A textual ASN is accepted exactly if, after dropping leading a/A/s/S letters, it is a non-empty decimal numeral below 2^32, and its value is that number; numeric ASNs in range are taken as they are.", "quantifier": "every string and number", "why_tests_cant": "all strings", "anchors": ["prefixfile/prefixfile.go:GetASN2"]}
{"id": "C73", "title": "An Error Report reaches the router before the connection is closed", "statement": "A PDU queued before a disconnect is written to the connection (unless writing fails) before it is closed.", "quantifier": "every interleaving of the reader and the send loop", "why_tests_cant": "the loss needs a particular schedule", "anchors": ["lib/server.go:sendLoop", "lib/server.go:Disconnect"]}
{"id": "C74", "title": "The server speaks the protocol version given on the command line", "statement": "For every value of -protocol the server either runs that version or refuses to start.", "quantifier": "every flag value", "why_tests_cant": "all integers", "anchors": ["cmd/stayrtr/stayrtr.go:protoverToLib", "lib/server.go:NewServer"]}
{"id": "C75", "title": "The announced intervals are the configured ones and valid", "statement": "The refresh, retry and expire intervals in every End of Data are the configured ones and lie in the ranges of RFC 8210 section 6.", "quantifier": "every flag value", "why_tests_cant": "all integers", "anchors": ["cmd/stayrtr/stayrtr.go:run", "lib/server.go:NewServer"]}
{"id": "C76", "title": "Every prefix length is served", "statement": "An unexpired entry with a readable prefix and ASN and a maximum length between prefix length and address width is served, whatever the prefix length, the default route included.", "quantifier": "every cache file", "why_tests_cant": "the excluded case is one length of 33 and 129", "anchors": ["cmd/stayrtr/stayrtr.go:isValidPrefixLength", "cmd/stayrtr/stayrtr.go:processData"]}
{"id": "C77", "title": "Served prefixes are canonical", "statement": "No served prefix has host bits set, so two served VRPs that cover the same addresses with the same maximum length and ASN are the same record.", "quantifier": "every cache file", "why_tests_cant": "all spellings of all prefixes", "anchors": ["prefixfile/prefixfile.go:GetPrefix2", "cmd/stayrtr/stayrtr.go:processData"]}
{"id": "C78", "title": "No record is handed over twice", "statement": "The list handed to AddData has no record twice, neither VRPs nor router keys.", "quantifier": "every cache file", "why_tests_cant": "all multiplicities", "anchors": ["cmd/stayrtr/stayrtr.go:processData", "cmd/stayrtr/stayrtr.go:applyUpdateFromNewState"]}
{"id": "C79", "title": "The order of the cache file does not matter", "statement": "Two files with the same entries in any order and multiplicity give the same VRPs and the same router keys.", "quantifier": "every pair of files, every sort outcome", "why_tests_cant": "all permutations", "anchors": ["cmd/stayrtr/stayrtr.go:processData"]}
{"id": "C80", "title": "Every change of the served set is announced", "statement": "With notifications on, each refresh that changes the served set sends one Serial Notify with the new serial to the connected routers, and none is sent without a change.", "quantifier": "every state and refresh", "why_tests_cant": "all histories, including dropping everything", "anchors": ["cmd/stayrtr/stayrtr.go:applyUpdateFromNewState", "cmd/stayrtr/stayrtr.go:routineUpdate"]}
{"id": "C81", "title": "The gauges describe what is served", "statement": "With metrics on, the gauges for VRPs, router keys and the serial agree at all times with the served set and the current serial.", "quantifier": "every reachable state", "why_tests_cant": "all histories", "anchors": ["cmd/stayrtr/stayrtr.go:applyUpdateFromNewState", "cmd/stayrtr/stayrtr.go:UpdateMetrics"]}
{"id": "C82", "title": "Local exceptions are never skipped", "statement": "When a SLURM file is configured, nothing is served to which the local exceptions were not applied.", "quantifier": "every state, every failure of fetching", "why_tests_cant": "needs failures at the start of the program", "anchors": ["cmd/stayrtr/stayrtr.go:updateSlurm", "cmd/stayrtr/stayrtr.go:run"]}
{"id": "C83", "title": "The fetcher's maps are never accessed concurrently with a write", "statement": "The two fetches of a refresh run concurrently and share the maps of entity tags and dates; no access to them coincides with a write (which would end the program).", "quantifier": "every interleaving of two fetches", "why_tests_cant": "depends on the schedule", "anchors": ["utils/utils.go:FetchFile", "cmd/stayrtr/stayrtr.go:routineUpdate"]}
{"id": "C84", "title": "A source that does not answer does not stop refreshing", "statement": "Whatever the servers of the two files do, the update loop gets to start another refresh.", "quantifier": "every behaviour of the servers", "why_tests_cant": "needs an answer that never comes", "anchors": ["utils/utils.go:FetchFile", "cmd/stayrtr/stayrtr.go:routineUpdate"]}
{"id": "C85", "title": "Every accepted refresh interval works", "statement": "Every value accepted for -refresh lets the update loop start.", "quantifier": "every 64-bit value", "why_tests_cant": "2^64 values, multiplication overflows", "anchors": ["cmd/stayrtr/stayrtr.go:routineUpdate", "cmd/stayrtr/stayrtr.go:run"]}
{"id": "C86", "title": "SIGHUP causes a refresh", "statement": "At every moment a SIGHUP is followed by a refresh that starts after it, and it never ends the program.", "quantifier": "every moment", "why_tests_cant": "timing", "anchors": ["cmd/stayrtr/stayrtr.go:routineUpdate", "cmd/stayrtr/stayrtr.go:run"]}
{"id": "C87", "title": "SSH clients are admitted without authentication only if none is configured", "statement": "The SSH method none is admitted exactly if neither passwords nor keys are enabled; a method that is not enabled admits nobody; a key without proof of possession admits nobody.", "quantifier": "every flag setting, user, password and key", "why_tests_cant": "all strings and settings", "anchors": ["cmd/stayrtr/stayrtr.go:run"]}
{"id": "C88", "title": "Enabling password authentication without a password admits nobody", "statement": "If password authentication is enabled and neither the flag nor the environment sets a password, no password login succeeds; without any authorized key no key login succeeds.", "quantifier": "every flag setting", "why_tests_cant": "a missing secret that fails open", "anchors": ["cmd/stayrtr/stayrtr.go:run"]}
{"id": "C89", "title": "Only the configured SSH user is admitted", "statement": "With either method only the user given by -ssh.auth.user is admitted.", "quantifier": "every user", "why_tests_cant": "all strings", "anchors": ["cmd/stayrtr/stayrtr.go:run"]}
{"id": "C90", "title": "rtrmon: 'not modified' refers to the file shown", "statement": "When the server of a file answers that the file has not been modified, the file it means is the one whose records the monitor shows.", "quantifier": "every history of fetches and server behaviours", "why_tests_cant": "needs a failure between recording the tag and using the file", "anchors": ["cmd/rtrmon/rtrmon.go:Start", "utils/utils.go:FetchFile"]}
{"id": "C91", "title": "rtrmon: first-seen is kept over RTR", "statement": "A record that the server keeps announcing keeps the time it was first seen, also when it is announced again.", "quantifier": "every PDU sequence and clock", "why_tests_cant": "all histories", "anchors": ["cmd/rtrmon/rtrmon.go:HandlePDU"]}
{"id": "C92", "title": "rtrmon survives a lost connection", "statement": "When an established RTR connection is lost the monitor goes on and connects again.", "quantifier": "every way a connection can end", "why_tests_cant": "needs failures at particular moments", "anchors": ["cmd/rtrmon/rtrmon.go:continuousRTR", "cmd/rtrmon/rtrmon.go:ClientDisconnected", "lib/client.go:StartRW"]}
{"id": "C93", "title": "rtrmon: the total gauge counts the visible records", "statement": "The rpki_vrps gauge of type total is the number of records visible in the source.", "quantifier": "every source state", "why_tests_cant": "all states", "anchors": ["cmd/rtrmon/rtrmon.go:Start", "cmd/rtrmon/rtrmon.go:HandlePDU"]}
{"id": "C94", "title": "rtrmon: thresholds", "statement": "After parsing, the visibility thresholds are sorted, not empty, and are exactly the numbers given; the grace period is at least the highest; printing and parsing again gives the same thresholds.", "quantifier": "every flag value", "why_tests_cant": "all strings", "anchors": ["cmd/rtrmon/rtrmon.go:Set", "cmd/rtrmon/rtrmon.go:String", "cmd/rtrmon/rtrmon.go:main"]}
{"id": "C95", "title": "rtrmon: what vrp_diff counts", "statement": "The vrp_diff metric for a threshold is the number of records that one source has listed without interruption for at least that long and that the other does not list and has not listed during that time.", "quantifier": "every pair of source histories", "why_tests_cant": "all histories and clocks", "anchors": ["cmd/rtrmon/rtrmon.go:countUnmatched", "cmd/rtrmon/rtrmon.go:BuildNewVrpMap", "cmd/rtrmon/rtrmon.go:Compare"]}
{"id": "C96", "title": "rtrmon: each source gets its own SSH password", "statement": "The SSH password of each source is its flag, or else its environment variable.", "quantifier": "every flag and environment setting", "why_tests_cant": "all settings", "anchors": ["cmd/rtrmon/rtrmon.go:main"]}
{"id": "C97", "title": "rtrmon: the two sources are independent", "statement": "What one source shows does not depend on the fetches of the other.", "quantifier": "every pair of sources and fetch histories", "why_tests_cant": "needs both sources to share a URL", "anchors": ["cmd/rtrmon/rtrmon.go:main", "utils/utils.go:FetchFile"]}
{"id": "C98", "title": "rtrdump: transport validation flags take effect", "statement": "With -tls.validate only verified certificates are accepted, with -ssh.validate only the host key given in -ssh.validate.key; with a flag off, whatever the server presents is accepted.", "quantifier": "every flag setting, certificate and key", "why_tests_cant": "all settings", "anchors": ["cmd/rtrdump/rtrdump.go:main"]}
{"id": "C99", "title": "A client negotiates the highest common version", "statement": "A version-1 client and a server that offers version 1 end up speaking version 1.", "quantifier": "every exchange", "why_tests_cant": "needs a notification before the first query", "anchors": ["lib/client.go:StartRW", "lib/server.go:Notify", "lib/server.go:checkVersion"]}
{"id": "C100", "title": "A dump can be served again", "statement": "A server that loads the file written by rtrdump serves exactly the records of the dump.", "quantifier": "every set of records a cache file can state", "why_tests_cant": "all records; printing and parsing must be inverse", "anchors": ["cmd/rtrdump/rtrdump.go:HandlePDU", "cmd/stayrtr/stayrtr.go:processData", "cmd/stayrtr/stayrtr.go:updateFile"]}
{"id": "C101", "title": "Prefix texts are read exactly", "statement": "The prefix field of a cache entry, SLURM filter or SLURM assertion is accepted as prefix p exactly if it is a text of p: an IPv4 dotted quad or an RFC 4291 IPv6 address (any case, :: for at least one zero group, a dotted quad at the end allowed), a slash, and a length within the width of the address. No text stands for two prefixes, IPv4 prefixes have a single text, and the printed form of every valid prefix reads back. Only the parser used for assertions allows superfluous zeros in the length.", "quantifier": "for all texts and all prefixes", "why_tests_cant": "Tests try some spellings; texts are unbounded and the two parsers differ on rare ones.", "anchors": ["prefixfile/prefixfile.go:GetPrefix2", "prefixfile/slurm.go:GetPrefix", "prefixfile/slurm.go:GetMaxLen", "prefixfile/slurm.go:AssertVRPs"]}
{"id": "C102", "title": "Key identifiers are read exactly", "statement": "The SKI of a router key is decoded without error to the bytes b exactly if it consists of two hexadecimal digits per byte, in either case; no text stands for two identifiers; in lower case the text is the one printed for b.", "quantifier": "for all texts and all byte strings", "why_tests_cant": "Tests decode a few identifiers of the right length.", "anchors": ["cmd/stayrtr/stayrtr.go:processData", "prefixfile/slurm.go:FilterOnBRKs"]}
{"id": "C103", "title": "A file is read as its first JSON text", "statement": "The bytes of a file stand for one text (their UTF-8, and U+FFFD for each byte at which no character begins); the file is read as a value (other than a bare number) exactly if that text begins, after white space, with a JSON text of RFC 8259 for the value, nested at most 10000 deep; no text begins with two values; a file that does not begin with a JSON text is refused, also as a SLURM file; a file with something else behind the JSON text, or that is not UTF-8, is refused.", "quantifier": "for all byte strings and all values", "why_tests_cant": "Tests read a handful of well-formed files; escapes, surrogates, numbers and nesting combine without limit.", "anchors": ["cmd/stayrtr/stayrtr.go:decodeJSON", "prefixfile/slurm.go:DecodeJSONSlurm", "cmd/rtrmon/rtrmon.go:decodeJSON"]}
{"id": "C104", "title": "A file cut off is not loaded as another", "statement": "If a cache file or a SLURM file is cut off anywhere (a transfer that ends early, a file being written), what is left is refused or loads exactly as the whole file does; never a part of the records.", "quantifier": "for all files and all lengths", "why_tests_cant": "A test cuts a file at one place, and not inside a multi-byte character.", "anchors": ["cmd/stayrtr/stayrtr.go:decodeJSON", "prefixfile/slurm.go:DecodeJSONSlurm", "cmd/stayrtr/stayrtr.go:updateFile"]}
{"id": "C105", "title": "A cache file is decoded exactly", "statement": "A cache file is loaded exactly if it begins with null or with an object whose members of the known names (up to case) have values of the right type and range, other members being ignored; what is loaded is, field by field and entry by entry, what the members say, absent ones saying nothing.", "quantifier": "for all files", "why_tests_cant": "The values of every field, their absence, nulls, repetitions and number formats cannot be tried in all combinations.", "anchors": ["cmd/stayrtr/stayrtr.go:decodeJSON", "prefixfile/prefixfile.go:RPKIList", "prefixfile/prefixfile.go:VRPJson", "prefixfile/prefixfile.go:BgpSecKeyJson", "prefixfile/prefixfile.go:MetaData"]}
{"id": "C106", "title": "A malformed entry costs only itself", "statement": "Exactly the VRPs and router keys are processed that some entry of the file states, with all their parts given and valid; an entry that states none is ignored, and no entry affects whether another is processed.", "quantifier": "for all files, all times and all records", "why_tests_cant": "Tests try one malformed entry at a time.", "anchors": ["cmd/stayrtr/stayrtr.go:decodeJSON", "cmd/stayrtr/stayrtr.go:processData", "prefixfile/prefixfile.go:GetPrefix2", "prefixfile/prefixfile.go:GetASN2"]}
{"id": "C107", "title": "A SLURM file is decoded exactly, as RFC 8416 says", "statement": "A SLURM file is loaded exactly if it begins with null or with an object whose members of the known names (up to case) have values of the right type and range, and what is loaded is what they say; key identifiers in the base64 without padding of RFC 8416 are read; deviations from RFC 8416 (another version, unknown or missing members) are errors.", "quantifier": "for all files and all key identifiers", "why_tests_cant": "The tests only read files in the dialect that the decoder happens to accept.", "anchors": ["prefixfile/slurm.go:DecodeJSONSlurm", "prefixfile/slurm.go:SlurmConfig", "prefixfile/slurm.go:SlurmBGPsecFilter", "prefixfile/slurm.go:SlurmBGPsecAssertion"]}
{"id": "C108", "title": "The export is a faithful cache file", "statement": "The answer of the exporter is one JSON text in UTF-8, with no name twice in an object; it states exactly the records that are being served, with their number, the number of router keys, the serial and the build time of the file; and a second server that is started with it serves the same records.", "quantifier": "for all states that a server can reach, all files and all exceptions", "why_tests_cant": "A test compares one export with one file; it cannot cover every text that has to be escaped, every AS number format, and every state.", "anchors": ["cmd/stayrtr/stayrtr.go:exporter", "cmd/stayrtr/stayrtr.go:applyUpdateFromNewState", "prefixfile/prefixfile.go:RPKIList", "cmd/stayrtr/stayrtr.go:decodeJSON"]}
{"id": "C109", "title": "A dump states exactly the answer", "statement": "After a complete answer rtrdump writes one JSON text in UTF-8 with no name twice in an object, which gives session, serial, and the numbers of prefixes and router keys, and states exactly the records of the answer; a server that loads it serves exactly these.", "quantifier": "for all answers and all records", "why_tests_cant": "There is no test of rtrdump.", "anchors": ["cmd/rtrdump/rtrdump.go:main", "cmd/rtrdump/rtrdump.go:HandlePDU", "prefixfile/prefixfile.go:RPKIList", "cmd/stayrtr/stayrtr.go:decodeJSON"]}
{"id": "C110", "title": "rtrmon: no update is missed", "statement": "Whenever both sources have handed over their last update and the comparator waits, the published difference, the metadata and the gauges are those of comparing what the two sources show at that moment; and a source that has an update to hand over never waits in vain.", "quantifier": "for all interleavings of the two sources and the comparator, and for all ways of dividing an update into steps", "why_tests_cant": "Tests call Diff on two maps; the goroutines and the channel between them are not run at all.", "anchors": ["cmd/rtrmon/rtrmon.go:Compare", "cmd/rtrmon/rtrmon.go:GetData", "cmd/rtrmon/rtrmon.go:Diff", "cmd/rtrmon/rtrmon.go:Start"]}
{"id": "C111", "title": "rtrmon: a published difference stays as it was compared", "statement": "Between two comparisons the published difference does not change.", "quantifier": "for all interleavings", "why_tests_cant": "A test that looks at the page once cannot see it change.", "anchors": ["cmd/rtrmon/rtrmon.go:BuildNewVrpMap", "cmd/rtrmon/rtrmon.go:Compare", "cmd/rtrmon/rtrmon.go:ServeDiff", "cmd/rtrmon/rtrmon.go:UpdateCurrentVrpMap"]}
{"id": "C112", "title": "rtrmon: the page states the difference", "statement": "The page is one JSON text in UTF-8 with no name twice in an object; it has the metadata of the sources and every entry of the two differences once and in full, and when nothing is going on these are exactly the records visible in one source and not in the other.", "quantifier": "for all states, all orders in which a map may be read, and all texts", "why_tests_cant": "There is no test of the page; the order of a Go map is random.", "anchors": ["cmd/rtrmon/rtrmon.go:ServeDiff", "cmd/rtrmon/rtrmon.go:VRPArray", "cmd/rtrmon/rtrmon.go:diffExport", "cmd/rtrmon/rtrmon.go:VRPJsonSimple"]}
{"id": "C113", "title": "rtrmon: the time of the last fetch", "statement": "The published time of the last fetch of a source is the time of its last update, and no time at all for a source that has not been fetched yet.", "quantifier": "for all runs", "why_tests_cant": "Tests do not run the comparator before the first fetch.", "anchors": ["cmd/rtrmon/rtrmon.go:GetData", "cmd/rtrmon/rtrmon.go:diffMetadata", "cmd/rtrmon/rtrmon.go:Compare"]}
{"id": "C114", "title": "A router that keeps in contact holds what is served", "statement": "Whatever happens (new data, lost connections in the middle of an answer, new data in the middle of an answer): once a router that behaves as RFC 8210 says has got an End of Data and the data has not changed since, it holds exactly the served records that its connection carries.", "quantifier": "for all servers, retention limits, transports, versions, and all sequences of updates, polls and lost connections of any length", "why_tests_cant": "Needs long histories, connections cut at a given PDU, and an update between two reads of the store that are microseconds apart.", "anchors": ["lib/structs.go:RequestNewVersion", "lib/structs.go:RequestCache", "lib/structs.go:getSDsSerialDiff", "lib/structs.go:AddSDsDiff", "lib/structs.go:AddData", "lib/structs.go:SendSDs", "lib/structs.go:passSimpleHandler"]}
{"id": "C115", "title": "A router gets what the files on disk ask for", "statement": "After the cache file and the SLURM file are loaded, a router that sends a Reset Query holds, once the bytes of the answer are read, exactly the records that the texts of the two files ask for: every entry of roas and bgpsec_keys that states a record, is not expired and is matched by no filter, and every record asserted; of these the ones its protocol version carries.", "quantifier": "for all texts of the two files, clocks, servers, connections, protocol versions and routers that start over, after a first load or any refresh", "why_tests_cant": "The statement goes through every stage (bytes, JSON, SLURM, validation, store, PDUs, bytes, router); a test checks the files it has.", "anchors": ["cmd/stayrtr/stayrtr.go:updateFile", "cmd/stayrtr/stayrtr.go:updateSlurm", "cmd/stayrtr/stayrtr.go:updateFromNewState", "cmd/stayrtr/stayrtr.go:processData", "prefixfile/slurm.go:FilterAssert", "prefixfile/slurm.go:FilterOnVRPs", "prefixfile/slurm.go:AssertVRPs", "lib/structs.go:RequestCache", "lib/structs.go:SendSDs"]}
{"id": "C116", "title": "rtrmon: its goroutines work together", "statement": "In every interleaving of the goroutines of an RTR source, over all its sessions: no channel is closed twice, the end of a session does not block the next one, the data are those of a sequential reading of the same PDUs, the queries reach the server in order, every session begins with its one Reset Query, a Serial Query names a session and a serial that belong together, nothing is sent on an old session, and the goroutines of a session end with it.", "quantifier": "for all interleavings, numbers of sessions, PDUs received, failures of writes, and firings of the timers", "why_tests_cant": "A schedule decides; the race windows are a few instructions wide, and a leaked goroutine is not observed.", "anchors": ["lib/client.go:sendLoop", "lib/client.go:Disconnect", "lib/client.go:StartRW", "lib/client.go:SendPDU", "lib/client.go:SendRawPDU", "cmd/rtrmon/rtrmon.go:continuousRTR", "cmd/rtrmon/rtrmon.go:ClientConnected", "cmd/rtrmon/rtrmon.go:ClientDisconnected", "cmd/rtrmon/rtrmon.go:Start"]}
{"id": "C117", "title": "rtrmon: a file against the server that serves it", "statement": "If one source is a cache file and the other an RTR session with a stayrtr that serves this file, then rtrmon lists exactly the entries that stayrtr has to leave out, and nothing while every entry is servable: a VRP is listed iff its prefix has length 0, its maxLength is out of range, or every entry for it has expired; nothing is listed on the side of the server only.", "quantifier": "for all files, update histories, grace periods, sessions and reading times", "why_tests_cant": "The tests of rtrmon compare hand-made maps; the filters of the server and the names of the monitor are never put together.", "anchors": ["cmd/rtrmon/rtrmon.go:Diff", "cmd/rtrmon/rtrmon.go:BuildNewVrpMap", "cmd/rtrmon/rtrmon.go:HandlePDU", "cmd/stayrtr/stayrtr.go:processData", "lib/client.go:StartRW"]}
{"id": "C118", "title": "A connection that does not finish its handshake keeps nobody out", "statement": "Every connection that reaches the listener is served or closed after a bounded number of moves of the accept loop, and the accept loop can always move, whatever other clients do with their connections.", "quantifier": "for all sequences of arrivals, accepts, errors and handshakes, and all positions in the queue", "why_tests_cant": "The tests call the callbacks with well-behaved connections; a client that opens a TCP connection and says nothing is not among them.", "anchors": ["lib/server.go:loopTCP", "lib/server.go:acceptClientTCP", "lib/server.go:acceptClientSSH"]}
{"id": "C119", "title": "SSH: a session is what the client asked for", "statement": "On an SSH connection an RTR session is started exactly when the client asks for the subsystem rpki-rtr on an accepted channel of type session; a granted request is served; sessions do not overlap; the connection is closed once and nothing follows; other requests do not keep the client from its session.", "quantifier": "for all sequences of channels, requests and ends of the client, and all schedules of the goroutine", "why_tests_cant": "There is no test of the SSH goroutine.", "anchors": ["lib/server.go:acceptClientSSH"]}
{"id": "C120", "title": "SSH: requests that want a reply get one", "statement": "Each global request of an SSH client that wants a reply (such as its keepalives) is answered, exactly once, also while a session runs.", "quantifier": "for all sequences of channels, requests and sessions of the client", "why_tests_cant": "There is no test of the SSH goroutine; keepalives come after minutes.", "anchors": ["lib/server.go:acceptClientSSH"]}
{"id": "C121", "title": "No update of the connection counter is lost", "statement": "Whatever goroutines count connections at the same time, the counter is the sum of their changes.", "quantifier": "for all sets of goroutines and all interleavings of their reads and writes", "why_tests_cant": "The window is one instruction wide.", "anchors": ["lib/server.go:ClientConnected", "lib/server.go:ClientDisconnected", "lib/server.go:acceptClientSSH", "lib/server.go:loopTCP"]}
{"id": "C122", "title": "Answers are snapshots, without locks", "statement": "What a router is sent is what the store held when its query was taken, as a value, whatever updates run at the same time; no two goroutines touch a record, a key or a slice at the same time with one of them writing; the memory of the store always has the value that a sequence of updates on values gives; and an answer that has begun can be completed.", "quantifier": "for all sequences of updates, all numbers of routers and queries, and all interleavings of single reads, writes and allocations", "why_tests_cant": "The tests use one goroutine; a race shows only under the right schedule, and the records are shared by pointers.", "anchors": ["lib/server.go:AddData", "lib/server.go:AddSDsDiff", "lib/server.go:ComputeDiff", "lib/server.go:ApplyDiff", "lib/server.go:GetCurrentSDs", "lib/server.go:GetSDsSerialDiff", "lib/server.go:SendSDs", "lib/server.go:Copy"]}
{"id": "C123", "title": "The store is the server's own", "statement": "The server keeps no reference to the records it is given: once AddData or AddSDsDiff has returned, whatever the caller does to its records, keys and slices, the store has the same value.", "quantifier": "for all well-formed memories, all stores and data in them, and all later changes of the memory that was in use before the call", "why_tests_cant": "The tests pass fresh records and never change them afterwards.", "anchors": ["lib/server.go:AddData", "lib/server.go:AddSDsDiff", "lib/server.go:ComputeDiff", "lib/server.go:Copy"]}
{"id": "C124", "title": "A Serial Notify carries the session id of its version", "statement": "The session id of every Serial Notify is the one of the protocol version that the Serial Notify is sent in, however the update that sends it interleaves with the queries of the router.", "quantifier": "for all configurations, all sequences of PDUs and notifications, and all interleavings of the two goroutines", "why_tests_cant": "The tests call NotifyClientsLatest with no query under way.", "anchors": ["lib/server.go:NotifyClientsLatest", "lib/server.go:Notify", "lib/server.go:SendPDU", "lib/server.go:checkVersion", "lib/server.go:HandlePDU"]}
{"id": "C125", "title": "An answer is not interrupted", "statement": "The PDUs of an answer, from Cache Response to End of Data, stand on the connection one after the other, with nothing in between, and answers are those of the read loop alone.", "quantifier": "for all configurations, all sequences of PDUs, stores and notifications, and all interleavings of the two goroutines", "why_tests_cant": "The window is the time an answer takes, which is short with the data of the tests.", "anchors": ["lib/server.go:NotifyClientsLatest", "lib/server.go:Notify", "lib/server.go:SendPDU", "lib/server.go:SendSDs", "lib/server.go:Start"]}
{"id": "C126", "title": "No router misses an update", "statement": "Once an update is through, every connected router that was last answered with an older serial has been sent, after it asked, a Serial Notify with the current serial; a router that stays connected gets one Serial Notify per announced update, in order.", "quantifier": "for all servers, stores, updates and PDUs, any number of routers that come and go, and all interleavings of their goroutines with the updating one", "why_tests_cant": "The cases that matter are a router that connects, asks or is answered while NotifyClientsLatest runs.", "anchors": ["lib/server.go:NotifyClientsLatest", "lib/server.go:GetClientList", "lib/server.go:ClientConnected", "lib/server.go:ClientDisconnected", "lib/server.go:Notify", "lib/server.go:RequestCache", "lib/server.go:RequestNewVersion", "cmd/stayrtr/stayrtr.go:applyUpdateFromNewState"]}
{"id": "C127", "title": "The loaded file is not modified", "statement": "Applying local exceptions, which appends to slices that are in use, never changes the loaded lists; everything that is served, announced and measured is as if lists were values.", "quantifier": "every history of refreshes, any spare capacity of every array", "why_tests_cant": "append writes in place or not depending on capacities chosen by the allocator and the JSON decoder", "anchors": ["prefixfile/slurm.go:FilterAssert", "prefixfile/slurm.go:FilterOnVRPs", "cmd/stayrtr/stayrtr.go:updateFromNewState", "cmd/stayrtr/stayrtr.go:reloadFromCurrentState"]}
{"id": "C128", "title": "An export stays what it was", "statement": "The lists behind an export do not change after it was made: a response is the lists exported when it was asked for, though it is written without holding the lock.", "quantifier": "every history of refreshes, any spare capacity of every array, every time the arrays are read", "why_tests_cant": "the overwritten entry shows only for some capacities and some successions of SLURM files", "anchors": ["cmd/stayrtr/stayrtr.go:exporter", "cmd/stayrtr/stayrtr.go:applyUpdateFromNewState", "prefixfile/slurm.go:FilterAssert"]}
{"id": "C129", "title": "Build times are read as RFC 3339", "statement": "The text of a build time is read exactly if it is a time of RFC 3339, and as the instant that it denotes in the calendar.", "quantifier": "every text", "why_tests_cant": "the space of texts is unbounded, and so are years, fractions and offsets", "anchors": ["prefixfile/prefixfile.go:GetBuildTime", "cmd/stayrtr/stayrtr.go:updateFromNewState", "cmd/stayrtr/stayrtr.go:reloadFromCurrentState"]}
{"id": "C130", "title": "Received PDUs are counted", "statement": "The counter rtr_pdus counts every PDU received on a connection, under the name of its type, and nothing else.", "quantifier": "every sequence of reads on a connection", "why_tests_cant": "how TCP cuts PDUs into reads is not under the control of a test", "anchors": ["cmd/stayrtr/stayrtr.go:HandlePDU", "lib/structs.go:TypeToString", "lib/server.go:Start", "lib/server.go:HandlePDU"]}
{"id": "C131", "title": "Connected clients are gauged", "statement": "For every local address the gauge rtr_clients is the number of clients connected to it.", "quantifier": "every sequence of connections, ends of connections, and changes of the limit", "why_tests_cant": "the gauge goes wrong only where a disconnect happens twice", "anchors": ["cmd/stayrtr/stayrtr.go:ClientConnected", "cmd/stayrtr/stayrtr.go:ClientDisconnected", "lib/server.go:ClientConnected", "lib/server.go:ClientDisconnected", "lib/server.go:SetMaxConnections"]}
{"id": "C132", "title": "The time of the last change is reported", "statement": "The gauge rpki_change is the time at which the loaded file was found to have changed.", "quantifier": "every history of refreshes", "why_tests_cant": "needs histories in which a file changes without changing what is served", "anchors": ["cmd/stayrtr/stayrtr.go:UpdateMetrics", "cmd/stayrtr/stayrtr.go:applyUpdateFromNewState", "cmd/stayrtr/stayrtr.go:updateFile"]}
{"id": "C133", "title": "Refreshes are not further apart than the refresh interval", "statement": "Whatever triggers, signals and failures came before, when a refresh ends the next one is due at most the refresh interval later, or 30 seconds as long as no cache file has been loaded.", "quantifier": "every run of the refresh loop: all intervals that work, all times, all triggers, all outcomes of fetches", "why_tests_cant": "needs all interleavings of a timer that is reset in four places with triggers and failures", "anchors": ["cmd/stayrtr/stayrtr.go:routineUpdate", "cmd/stayrtr/stayrtr.go:updateDelay"]}
{"id": "C134", "title": "The timer starts at most one refresh per interval", "statement": "In any time since the refresh loop was entered its timer starts at most as many refreshes as refresh intervals have passed (of 30 seconds, if that is shorter and the first load failed), also if refreshes take long.", "quantifier": "every run of the refresh loop: all intervals that work, all durations of refreshes", "why_tests_cant": "needs long runs with refreshes of all durations", "anchors": ["cmd/stayrtr/stayrtr.go:routineUpdate", "cmd/stayrtr/stayrtr.go:updateDelay"]}
{"id": "C135", "title": "Expired entries are withdrawn in time", "statement": "A record is served at a time only if the loaded file has an entry for it that had not expired one refresh interval, plus the time of two refreshes and of waking the loop, before.", "quantifier": "every run of the refresh loop with its clock", "why_tests_cant": "needs real time to pass between expiry, refreshes and requests", "anchors": ["cmd/stayrtr/stayrtr.go:routineUpdate", "cmd/stayrtr/stayrtr.go:processData", "cmd/stayrtr/stayrtr.go:reloadFromCurrentState"]}
{"id": "C136", "title": "Nothing is served before the first load", "statement": "Until the fetches of the first load have come back, no router can connect and no export is answered.", "quantifier": "every schedule of the goroutines of the start, every setting", "why_tests_cant": "the order of goroutines and the time of a fetch are not under the control of a test", "anchors": ["cmd/stayrtr/stayrtr.go:run", "cmd/stayrtr/stayrtr.go:serveHTTP", "cmd/stayrtr/stayrtr.go:exporter"]}
{"id": "C137", "title": "Mistakes in the settings are found before anything is served", "statement": "Settings without mistakes lead, in every schedule, to everything configured being served; settings with a mistake end the program before a router can connect.", "quantifier": "every setting and every schedule of the goroutines of the start", "why_tests_cant": "needs every order of the goroutines and failing system calls", "anchors": ["cmd/stayrtr/stayrtr.go:run", "cmd/stayrtr/stayrtr.go:serveHTTP"]}
{"id": "C138", "title": "Every HTTP path is answered by its own handler", "statement": "With every setting of the paths, the export, the update endpoint and the metrics (in rtrmon: the difference, the metrics and the index) are each answered on their own path.", "quantifier": "every setting of the paths, every request", "why_tests_cant": "all strings, and panics in a goroutine", "anchors": ["cmd/stayrtr/stayrtr.go:run", "cmd/stayrtr/stayrtr.go:serveHTTP", "cmd/rtrmon/rtrmon.go:main"]}
{"id": "C139", "title": "The update endpoint tells the truth", "statement": "Status 200 is answered exactly if the request was taken, and a refresh then starts after the answer; status 500 means that an earlier request was still waiting, and a refresh starts after this answer, too.", "quantifier": "every interleaving of requests, signals and refreshes", "why_tests_cant": "all schedules", "anchors": ["cmd/stayrtr/stayrtr.go:updateNow", "cmd/stayrtr/stayrtr.go:TriggerUpdate", "cmd/stayrtr/stayrtr.go:routineUpdate"]}
{"id": "C140", "title": "The metrics of rtrmon describe the last comparison", "statement": "Every series of the primary and the secondary source (total, diff, serial, session, vrp_diff for each threshold, update) shows what the last comparison found for that source; there is none before the first comparison; when nothing is going on they describe what the sources show now.", "quantifier": "every run of the two sources and the comparator, every setting of URLs and thresholds", "why_tests_cant": "all interleavings; settings with equal URLs share series", "anchors": ["cmd/rtrmon/rtrmon.go:Compare", "cmd/rtrmon/rtrmon.go:countUnmatched", "cmd/rtrmon/rtrmon.go:GetData"]}
{"id": "C141", "title": "rtr_state tells whether there is a session", "statement": "rtr_state is 1 exactly while the monitor has a session with the cache, and 0 otherwise.", "quantifier": "every schedule of the goroutines of an RTR source", "why_tests_cant": "all interleavings, connections that fail at any time", "anchors": ["cmd/rtrmon/rtrmon.go:ClientConnected", "cmd/rtrmon/rtrmon.go:ClientDisconnected", "lib/client.go:StartRW", "lib/client.go:Disconnect"]}
{"id": "C142", "title": "No client can stop the notifications for ever", "statement": "From every state in which a notification is waiting to be put into a client's channel, the notifying goroutine can still get on: a client, whatever it does, holds up the other clients and the refreshes at most for a time.", "quantifier": "every interleaving of the notifying goroutine with the readers and senders of any number of clients", "why_tests_cant": "all interleavings; the loss occurs only when a connection is dropped with a full channel", "anchors": ["lib/server.go:SendPDU", "lib/server.go:sendLoop", "lib/server.go:NotifyClientsLatest", "lib/server.go:Disconnect"]}
{"id": "C143", "title": "A router has no cause to complain", "statement": "No answer announces a record that the router holds or withdraws one that it does not hold, at the point of the answer where it comes (RFC 8210 errors 7 and 6), over the whole life of a router with any number of updates, queries and connections.", "quantifier": "every run of updates, queries of both kinds and lost connections", "why_tests_cant": "all histories and all interleavings", "anchors": ["lib/server.go:RequestCache", "lib/server.go:RequestNewVersion", "lib/server.go:GetSDsSerialDiff", "lib/server.go:AddSDsDiff"]}
{"id": "C144", "title": "No client can stop the refreshes", "statement": "Whatever the clients do, as long as the program runs another refresh can start: the update loop, which notifies the clients itself, always gets through.", "quantifier": "every interleaving of the update loop, the notifications and the goroutines of any number of connections", "why_tests_cant": "all interleavings, without bound on time", "anchors": ["cmd/stayrtr/stayrtr.go:routineUpdate", "cmd/stayrtr/stayrtr.go:applyUpdateFromNewState", "lib/server.go:NotifyClientsLatest", "lib/server.go:SendRawPDU", "lib/server.go:sendLoop"]}
{"id": "C145", "title": "The age of a file is computed without overflow", "statement": "The check of the age of a file and the decision to drop old data, computed with the 64-bit times of Go, come out as with exact times, for every build time a file can state.", "quantifier": "every build time of 64 bits or RFC 3339 text, every time of the clock", "why_tests_cant": "the overflow lies at a handful of values out of 2^64", "anchors": ["cmd/stayrtr/stayrtr.go:updateFromNewState", "cmd/stayrtr/stayrtr.go:reloadFromCurrentState", "cmd/stayrtr/stayrtr.go:routineUpdate", "prefixfile/prefixfile.go:GetBuildTime"]}
{"id": "C146", "title": "Concurrent updates of the store take effect one after the other", "statement": "Whatever goroutines call AddData at the same time, the store (records, serial, retained changes) is afterwards what the calls make of it one after the other.", "quantifier": "every interleaving of any number of goroutines that call AddData any number of times", "why_tests_cant": "all interleavings of the three locked sections of an update", "anchors": ["lib/server.go:AddData", "lib/server.go:AddSDsDiff", "lib/server.go:ApplyDiff"]}
{"id": "C147", "title": "stayrtr has no data races", "statement": "No two goroutines of stayrtr access a field at the same time, one of them writing it: of the server (data, diffs, serial, list and number of clients), of a client, and of the refreshing (loaded files, hashes, times, export).", "quantifier": "every field, any number of clients, accept loops and HTTP requests, every interleaving, every order in which the goroutines do what they do", "why_tests_cant": "the race detector sees only the accesses of the schedules that a test happens to run", "anchors": ["lib/server.go:AddSDsDiff", "lib/server.go:NotifyClientsLatest", "lib/server.go:Start", "lib/server.go:Disconnect", "lib/server.go:loopTCP", "lib/server.go:acceptClientSSH", "cmd/stayrtr/stayrtr.go:updateFile", "cmd/stayrtr/stayrtr.go:updateSlurm", "cmd/stayrtr/stayrtr.go:exporter"]}
{"id": "C148", "title": "rtrmon has no data races", "statement": "No two goroutines of rtrmon access a field at the same time, one of them writing it: of a source (maps, serial, session, times, channels), of its sessions, of the published difference, and of the records.", "quantifier": "every field, both kinds of source on both sides, any number of sessions and HTTP requests, every interleaving", "why_tests_cant": "the race detector sees only the accesses of the schedules that a test happens to run", "anchors": ["cmd/rtrmon/rtrmon.go:HandlePDU", "cmd/rtrmon/rtrmon.go:GetData", "cmd/rtrmon/rtrmon.go:continuousRTR", "cmd/rtrmon/rtrmon.go:BuildNewVrpMap", "cmd/rtrmon/rtrmon.go:Compare", "cmd/rtrmon/rtrmon.go:ServeDiff"]}
{"id": "C149", "title": "The VRPs are sorted although the comparison is no strict order", "statement": "sort.Slice is given the strict order that its documentation requires; it indexes the slice only within its bounds, ends, loses and repeats no VRP, and leaves the VRPs of every file in the order in which they are to be sent (longer prefixes, then greater maximum lengths, then IPv4 and lower addresses first), VRPs equal in it as they were.", "quantifier": "every list of VRPs of any length, every generator of pseudo-random numbers, every comparison function", "why_tests_cant": "the comparison says of equal elements that each is less than the other; which of the algorithms within the sort meets them depends on length, order and repetitions of the file", "anchors": ["cmd/stayrtr/stayrtr.go:processData", "cmd/rtrmon/rtrmon.go:Set"]}
{"id": "C150", "title": "A restart of the server is noticed", "statement": "A router that got its data from a server which was started again since, or from another server, holds exactly what the running server serves after it has asked twice, whatever it held before, whatever its serial number was.", "quantifier": "every configuration, session id, connection and version that the server accepts; every history of the store; every state of the router", "why_tests_cant": "Session ids are drawn at random at each start, and serial numbers always start from 0: that two servers in turn have the same session id happens once in 65536 restarts, and then any serial number and any data may meet.", "anchors": ["lib/server.go:17-19", "lib/server.go:88-122", "lib/server.go:172-217", "lib/server.go:291-293"]}
{"id": "C151", "title": "rtrmon: two files are compared record by record", "statement": "With a file on both sides, the first list of /diff.json has exactly the records (VRPs, and router keys by identifier, AS number and key) that the first file has and the second has not.", "quantifier": "every pair of files, every history of files before them, every grace period", "why_tests_cant": "Records are kept in one map under names made by joining texts with dashes: two different records with one name need texts that no test file has.", "anchors": ["cmd/rtrmon/rtrmon.go:370-442", "cmd/rtrmon/rtrmon.go:691-701"]}
{"id": "C152", "title": "Error Reports of routers are not answered and end the session", "statement": "RFC 8210, 5.11 and 12: an Error Report PDU that a router sends is never answered by an Error Report, and one with a fatal code (any but 2) ends the session.", "quantifier": "every server, connection, store and Error Report", "why_tests_cant": "the handler has no case for Error Reports; what happens depends on the version of the PDU and of the connection", "anchors": ["lib/server.go:checkVersion", "lib/server.go:passSimpleHandler", "lib/server.go:Start"]}
{"id": "C153", "title": "What the server cannot serve is reported", "statement": "RFC 8210, 5.11 and 12: every PDU that cannot be decoded or that is neither a query nor an Error Report is answered by an Error Report (codes 0, 3, 5); Error Reports have no other causes than these, another version (4), another session (0) and missing data (2), and each has the code of its cause.", "quantifier": "every server, connection, pair of stores and bytes", "why_tests_cant": "all byte strings, in all states of a connection", "anchors": ["lib/server.go:Start", "lib/server.go:passSimpleHandler", "lib/server.go:checkVersion", "lib/server.go:RequestCache", "lib/server.go:RequestNewVersion"]}
{"id": "C154", "title": "An Error Report holds the PDU that caused it", "statement": "RFC 8210, 5.11: an Error Report that is about the content of a received PDU holds a copy of that PDU; one about missing data holds none.", "quantifier": "every server, connection, pair of stores and packet", "why_tests_cant": "a test would have to provoke every Error Report on every kind of connection", "anchors": ["lib/server.go:SendCorruptData", "lib/server.go:SendWrongVersionError", "lib/server.go:SendNoDataError"]}
{"id": "C155", "title": "A router with a newer version is told the version of the server", "statement": "RFC 8210, 7: if the first PDU of a router has a version that the server does not have, the Error Report (code 4) has the highest version of the server in its header, so that the router can come back with it.", "quantifier": "every configuration, transport and first PDU", "why_tests_cant": "all versions from 2 to 255 against all configurations; the consequence shows only at the next connection", "anchors": ["lib/server.go:checkVersion", "lib/server.go:SendPDU", "lib/server.go:acceptClientTCP", "lib/server.go:acceptClientSSH"]}
{"id": "C156", "title": "Serial Notifies are at least a minute apart", "statement": "RFC 8210, 5.2: with a refresh interval of a minute or more, Serial Notifies are sent at most once per minute.", "quantifier": "every run of the refresh loop: refreshes of any duration, changes, failures, triggers and signals at any time", "why_tests_cant": "durations of refreshes and times of triggers are unbounded; the timer of Go ticks on while a refresh runs", "anchors": ["cmd/stayrtr/stayrtr.go:routineUpdate", "cmd/stayrtr/stayrtr.go:updateDelay", "lib/server.go:NotifyClientsLatest"]}
{"id": "C157", "title": "No argument of a command line is ignored", "statement": "A program that goes on has read every argument as (part of) a setting of one of its flags, in the only way there is, and every flag has the value last given for it or its default; every other command line ends the program with status 2, or 0 if it asks for help or the version.", "quantifier": "every command line and every set of flags", "why_tests_cant": "all lists of texts; a misspelt flag must never be skipped", "anchors": ["cmd/stayrtr/stayrtr.go:run", "cmd/rtrmon/rtrmon.go:main", "cmd/rtrdump/rtrdump.go:main"]}
{"id": "C158", "title": "Numbers and durations of a command line are read as they are written", "statement": "A flag that takes a number reads decimal digits as that number, a flag that takes a duration reads a number and a unit as that many units; what does not fit is refused.", "quantifier": "every text", "why_tests_cant": "all digit strings; a leading zero changes the base silently", "anchors": ["cmd/stayrtr/stayrtr.go:RefreshRTR", "cmd/stayrtr/stayrtr.go:ExpireRTR", "cmd/rtrmon/rtrmon.go:GracePeriod", "cmd/rtrdump/rtrdump.go:Serial"]}
{"id": "C159", "title": "An unknown log level is refused", "statement": "-loglevel accepts the names of the levels in any case and refuses every other text.", "quantifier": "every text", "why_tests_cant": "the error of ParseLevel is dropped, and nothing is logged about it at the level that results", "anchors": ["cmd/stayrtr/stayrtr.go:run", "cmd/rtrmon/rtrmon.go:main", "cmd/rtrdump/rtrdump.go:main"]}
{"id": "C160", "title": "rtrdump asks for what is on its command line", "statement": "The query that rtrdump sends has the version, the session and the serial of the command line; values that a query cannot hold are refused.", "quantifier": "every value of the flags and every input from the server", "why_tests_cant": "all integers; conversions cut values off", "anchors": ["cmd/rtrdump/rtrdump.go:main", "cmd/rtrdump/rtrdump.go:ClientConnected"]}
{"id": "C161", "title": "A flag that is accepted has an effect", "statement": "Every flag changes what its program does for some value of it.", "quantifier": "every command line and every input", "why_tests_cant": "shows only if a program is compared with itself on every other command line", "anchors": ["cmd/rtrdump/rtrdump.go:RefreshInterval", "cmd/rtrmon/rtrmon.go:OneOff", "cmd/stayrtr/stayrtr.go:MaxConn"]}
{"id": "C162", "title": "Prefix PDUs with impossible lengths are refused", "statement": "An IPv4 or IPv6 Prefix PDU whose length exceeds its maximum length, or whose maximum length exceeds the bits of an address, is refused by the decoder and gets into no output of a client (RFC 8210, 5.6, 5.7).", "quantifier": "every byte string that begins with a complete prefix PDU", "why_tests_cant": "all 256 x 256 pairs of lengths, with every address and every continuation of the stream", "anchors": ["lib/structs.go:DecodeBytes", "cmd/rtrdump/rtrdump.go:HandlePDU", "cmd/rtrmon/rtrmon.go:HandlePDU"]}
{"id": "C163", "title": "A log entry is one line that nobody can forge, and names the PDU that was received", "statement": "Each entry about a received PDU is one line of printable characters; what was logged, with times and levels, can be read back from the log, so that no text in an Error Report can pass for an entry of its own; and PDUs with the same entry are the same PDU, of the same connection state or source.", "quantifier": "every PDU, every sequence of log entries with arbitrary byte strings as messages, every set of printable characters; log files and terminals", "why_tests_cant": "the texts of Error Reports are arbitrary bytes from the peer; reading back is a statement about all pairs of logs", "anchors": ["lib/structs.go:String", "lib/server.go:Start", "cmd/rtrmon/rtrmon.go:HandlePDU", "cmd/rtrdump/rtrdump.go:HandlePDU"]}
{"id": "C164", "title": "Watching the server does not change it", "statement": "With and without metrics (-metrics.addr) and with and without notifications (-notifications) the same is fetched, loaded, served and exported; without them no gauge is set and no serial number announced.", "quantifier": "all settings, all sequences of refreshes with all outcomes of the fetches and all times", "why_tests_cant": "compares all runs of two programs", "anchors": ["cmd/stayrtr/stayrtr.go:applyUpdateFromNewState", "cmd/stayrtr/stayrtr.go:run", "cmd/stayrtr/stayrtr.go:UpdateMetrics"]}
{"id": "C165", "title": "The documented command lines do what the documentation says", "statement": "Each command line of the README, of the images and of the integration tests is accepted; with its files at hand stayrtr comes up in every schedule and serves at the addresses and with the authentication that the text beside it says; rtrmon and rtrdump connect to the servers named and write the files named.", "quantifier": "every schedule of the goroutines, every content of the files, every environment in which an address can be listened on once", "why_tests_cant": "the interleavings of startup with all outcomes of listening and of reading files", "anchors": ["cmd/stayrtr/stayrtr.go:main", "cmd/stayrtr/stayrtr.go:run", "cmd/rtrmon/rtrmon.go:main", "cmd/rtrdump/rtrdump.go:main"]}
{"id": "C166", "title": "The sample files of the documentation work", "statement": "The SLURM file of the README is loaded and does to every cache file what its comments say: everything inside 10.0.0.0/8, all of AS65001, and AS65002 inside 192.168.0.0/24 is removed, 2001:db8::/32-48 AS65001 is added, nothing else changes; a cache file that follows the schema of the README is served.", "quantifier": "every cache file, every time, every state of the server", "why_tests_cant": "all cache files and all prefixes of both families; the file is never loaded in tests", "anchors": ["prefixfile/slurm.go:DecodeJSONSlurm", "prefixfile/slurm.go:FilterAssert", "cmd/stayrtr/stayrtr.go:updateSlurm", "cmd/stayrtr/stayrtr.go:updateFromNewState"]}
{"id": "C167", "title": "Every setting is that of its own flag, or the documented default", "statement": "What stayrtr, rtrmon and rtrdump work with is, setting by setting, read from the last text given for the flag of that setting, or is the documented default; blank passwords and keys come from the environment variable named in the text of the flag. (Flags that nothing reads are C161, the password of the secondary source is C96.)", "quantifier": "every command line that is accepted, every environment", "why_tests_cant": "all texts of all flags in all orders and repetitions", "anchors": ["cmd/stayrtr/stayrtr.go:main", "cmd/stayrtr/stayrtr.go:run", "cmd/rtrmon/rtrmon.go:main", "cmd/rtrdump/rtrdump.go:main"]}
{"id": "C168", "title": "An Error Report says what is wrong", "statement": "The text of every Error Report that the server sends is the one that belongs to its code, in UTF-8, and the report is on the wire byte by byte as RFC 8210, 5.11 draws it, with the version of the connection.", "quantifier": "every server, connection, store and packet", "why_tests_cant": "all packets in all states of a connection", "anchors": ["lib/server.go:SendNoDataError", "lib/server.go:SendCorruptData", "lib/server.go:SendWrongVersionError", "lib/structs.go:Write"]}
{"id": "C169", "title": "Recording a metric does not end the program", "statement": "All metrics of stayrtr and rtrmon are registered under allowed and different names, and no load, connection, PDU or comparison ends the program when it is recorded; each series has the labels it is declared with, with the values that belong to them.", "quantifier": "every refresh with every outcome, every PDU, every address, every pair of sources and all thresholds", "why_tests_cant": "registering and labelling fail with a panic at run time, only for the values that occur", "anchors": ["cmd/stayrtr/stayrtr.go:initMetrics", "cmd/stayrtr/stayrtr.go:UpdateMetrics", "cmd/stayrtr/stayrtr.go:HandlePDU", "cmd/rtrmon/rtrmon.go:init", "cmd/rtrmon/rtrmon.go:Compare"]}
{"id": "C170", "title": "The links of rtrmon's index page lead to what they name", "statement": "Whoever follows one of the two links to the program on rtrmon's index page asks the program for the metrics or for the difference and is answered with it, with every setting of the two paths and on every page that shows the index.", "quantifier": "all values of -file and -metrics.path, all pages, all hosts", "why_tests_cant": "No test requests the index page; its links depend on two flags, two escapings of html/template, and the rules by which browsers resolve references.", "anchors": ["cmd/rtrmon/rtrmon.go:ServeIndex", "cmd/rtrmon/index.html.tmpl:10-11", "cmd/rtrmon/rtrmon.go:main"]}
{"id": "C171", "title": "rtrmon: a cache is asked as often as it said", "statement": "rtrmon waits the Refresh Interval of the last End of Data between its queries, and does not keep data beyond the Expire Interval (RFC 8210, 6). In no case does it ask more often than the interval on its command line says, nor connect more often, and it shows the intervals that the cache gave.", "quantifier": "all runs of the goroutines of a source, all times, all PDUs of the cache, all intervals on the command line", "why_tests_cant": "The times of the queries depend on timers, on the cache and on three goroutines; no test waits for them.", "anchors": ["cmd/rtrmon/rtrmon.go:continuousRTR", "cmd/rtrmon/rtrmon.go:Start", "cmd/rtrmon/rtrmon.go:HandlePDU", "cmd/rtrmon/rtrmon.go:GetData"]}
{"id": "C172", "title": "Neither program grows with its age", "statement": "What stayrtr and rtrmon keep in memory is bounded by the sizes of the lists they last loaded and the number of peers connected, however long they run: the served set, the change sets kept, the channels, the goroutines, and the map of a source.", "quantifier": "all histories of loads, all runs of all connections, all sessions of a source", "why_tests_cant": "A test runs for seconds; growth shows after weeks.", "anchors": ["lib/structs.go:AddSDsDiff", "lib/structs.go:AddData", "lib/structs.go:sendLoop", "cmd/rtrmon/rtrmon.go:HandlePDU"]}
{"id": "C173", "title": "rtrmon's index page shows its settings and describes the program", "statement": "Whatever the settings, a browser sees the tags of the template and no others on rtrmon's index page; the name of the difference, the address and the path of the metrics are shown as they were set, the URL shown for the metrics is that of the metrics, the names listed for the difference are those of every difference served, and the metrics listed are registered.", "quantifier": "all settings of the three flags, all differences that can be served", "why_tests_cant": "A test opens the page with the default settings and does not compare its text with the program.", "anchors": ["cmd/rtrmon/rtrmon.go:ServeIndex", "cmd/rtrmon/rtrmon.go:ServeDiff"]}
{"id": "C174", "title": "Servers behind a server serve what it serves", "statement": "In any tree of servers in which each but the first loads the export of another one, as the README recommends: once each has loaded the export of the one before, all serve what the first one serves; and at no time, whatever is delayed, lost or restarted, does one of them serve anything else than an export of the first one asked for.", "quantifier": "all trees of servers, all runs, all files of the first server, all delays and failures", "why_tests_cant": "Tests run one server; stale times in an export show when the records stay the same for hours.", "anchors": ["cmd/stayrtr/stayrtr.go:exporter", "cmd/stayrtr/stayrtr.go:applyUpdateFromNewState", "cmd/stayrtr/stayrtr.go:updateFile", "cmd/stayrtr/stayrtr.go:routineUpdate"]}
{"id": "C175", "title": "Local exceptions act on records, once or on several servers", "statement": "Whatever the file and the SLURM configuration: a record is asked for exactly if the file asks for it and no filter matches it, or if it is asserted. Servers behind each other with the same SLURM file serve the same; with different ones they serve what one server with both would serve.", "quantifier": "all files, SLURM configurations, times and records; all reachable servers, and all servers that load their export", "why_tests_cant": "Tests have a few filters and entries on one server; this compares sets of records for every combination, and two servers.", "anchors": ["prefixfile/slurm.go:FilterAssert", "cmd/stayrtr/stayrtr.go:updateFromNewState", "cmd/stayrtr/stayrtr.go:exporter", "cmd/stayrtr/stayrtr.go:updateFile"]}
{"id": "C176", "title": "Servers behind a server settle", "statement": "Whatever happened before: once the first server's export stays as it is, every server behind it, directly or through others, serves what that export asks for after the servers between them have loaded once in order, or after as many rounds of loading as there are servers on the way; if each of these loads at least once in any span of some length, that is after as many spans; further loads and failures in between do no harm; and a router of such a server that starts over then holds that.", "quantifier": "all trees of servers, all runs before, all orders of loads and failures after", "why_tests_cant": "Tests run one server; whether a tree of servers comes to rest depends on the order of loads, the hash of the last file and what was exported before.", "anchors": ["cmd/stayrtr/stayrtr.go:exporter", "cmd/stayrtr/stayrtr.go:updateFile", "cmd/stayrtr/stayrtr.go:applyUpdateFromNewState", "cmd/stayrtr/stayrtr.go:routineUpdate"]}
{"id": "C177", "title": "The files in the repository mean what they say", "statement": "The two files of local exceptions in the repository are loaded, and do to every cache file, at any time, exactly what their fields and comments say, router keys included; the small cache file is served by every server exactly as its two entries, expiry times and build time say, and changes nothing when loaded later than a day after its build time.", "quantifier": "every cache file, every time; every server state and load for the cache file", "why_tests_cant": "The tests look at a few decoded fields of the files; what they do to an arbitrary cache file, and at any other time, is unbounded.", "anchors": ["prefixfile/slurm.go:DecodeJSONSlurm", "prefixfile/slurm.go:FilterAssert", "cmd/stayrtr/stayrtr.go:updateFromNewState", "cmd/stayrtr/stayrtr.go:processData"]}
{"id": "C178", "title": "Servers with local exceptions behind a server settle", "statement": "Whatever happened before: once the first server's export and the local exceptions of all servers stay as they are, every server behind it serves what that export asks for with the local exceptions of the servers on the way applied in the order of the way, after these have loaded once in order, or after as many rounds or spans of time; a router of that server that starts over then holds it; with filters only, that is what no filter on the way matches, in whatever order; with assertions the order counts.", "quantifier": "all trees of servers, all local exceptions, all runs before, all orders of loads and failures after", "why_tests_cant": "Tests run one server with one file of exceptions; the outcome of several depends on what is loaded in which order and on what the others had before.", "anchors": ["cmd/stayrtr/stayrtr.go:updateSlurm", "prefixfile/slurm.go:FilterAssert", "cmd/stayrtr/stayrtr.go:exporter", "cmd/stayrtr/stayrtr.go:updateFile", "cmd/stayrtr/stayrtr.go:routineUpdate"]}
{"id": "C179", "title": "rtrmon shows exactly in which records two servers differ", "statement": "With the exports of two servers, or the export of one and an RTR session with the other, as its sources, rtrmon lists exactly the records that one of them serves and the other does not; of servers that have settled behind the same server it lists what comes through the local exceptions on the way to one and not to the other, and nothing when there are none.", "quantifier": "all pairs of servers after any files, local exceptions and failures, every history of the sources before, every grace period", "why_tests_cant": "What a server exports is what it last changed to and not what it serves, and rtrmon reads it by other rules than stayrtr; tests compare two files.", "anchors": ["cmd/stayrtr/stayrtr.go:exporter", "cmd/rtrmon/rtrmon.go:370-442", "cmd/rtrmon/rtrmon.go:691-701", "cmd/rtrmon/rtrmon.go:503-560"]}
{"id": "C180", "title": "A router that moves between servers that serve the same keeps its records", "statement": "A router that holds what a server serves, got from another one of the same content with whatever session and serial number, still holds exactly that after it has asked this server, with no gap, also if its session number happens to be that of this server; so between all servers that have settled behind a server.", "quantifier": "all sessions, serial numbers and histories of both servers, all trees of servers, all versions", "why_tests_cant": "Sessions are drawn at random: the case of equal ones comes up once in 65536 moves, and then the answer is a difference made for another history.", "anchors": ["lib/server.go:RequestNewVersion", "lib/server.go:GetSDsSerialDiff", "lib/server.go:GetSessionId", "cmd/stayrtr/stayrtr.go:exporter"]}
