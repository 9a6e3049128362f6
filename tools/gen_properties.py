#!/usr/bin/env python3
"""Writes /verif/properties.jsonl from the table below (one tuple per property)."""
import json, os
P = []
def p(id, title, statement, quantifier, why, anchors):
    P.append(dict(id=id, title=title, statement=statement, quantifier=quantifier, why_tests_cant=why, anchors=anchors))

S = "lib/structs.go"; V = "lib/server.go"; CL = "lib/client.go"; SL = "prefixfile/slurm.go"; PF = "prefixfile/prefixfile.go"
ST = "cmd/stayrtr/stayrtr.go"; MON = "cmd/rtrmon/rtrmon.go"; DMP = "cmd/rtrdump/rtrdump.go"; UT = "utils/utils.go"

p("C01", "Decoding untrusted bytes never crashes",
  "For any byte stream offered by a peer, Decode returns a PDU or an error; it never panics on an out-of-range slice or index, including for Error Report PDUs with hostile inner lengths.",
  "every finite byte sequence", "the input space is unbounded and the dangerous cases are arithmetic corners (uint32 wrap-around in inner lengths)",
  [f"{S}:Decode", f"{S}:DecodeBytes"])
p("C02", "Every PDU that is encoded decodes back to itself",
  "For every PDU of every type whose fields are representable on the wire, decoding its bytes gives the same PDU (for Error Report: the message with the terminating NUL that the encoder adds) and consumes exactly those bytes.",
  "every PDU value of the ten types, every field value, every following byte sequence", "fields range over 2^32 values, arbitrary byte strings and prefixes",
  [f"{S}:Write", f"{S}:Decode"])
p("C03", "Wire layout follows RFC 6810/8210",
  "Each PDU is encoded with the version, type, session/flags/error word, length and body fields at exactly the offsets, widths and byte order the RFCs fix.",
  "every PDU value", "a round-trip test cannot see two mirrored mistakes; a fixed vector covers one value",
  [f"{S}:Write"])
p("C04", "The length field equals the number of bytes emitted",
  "For every PDU that is emitted, bytes 4..7 (big endian) equal the number of bytes emitted (as long as that fits 32 bits); a Router Key with a subject key identifier that is not 20 bytes emits nothing at all.",
  "every PDU value", "quantifies over arbitrary-length payloads", [f"{S}:Write"])
p("C05", "A stream of PDUs is parsed back as the same sequence",
  "Concatenating the encodings of any sequence of well-formed PDUs and reading the stream with Decode repeatedly yields exactly that sequence and then end of input.",
  "every finite sequence of well-formed PDUs", "sequences are unbounded; framing errors appear only at PDU boundaries", [f"{S}:Decode", f"{CL}:StartRW"])
p("C06", "Decoding is length-bounded and exact",
  "A declared length below 8 or above 262168 is rejected after the 8 header bytes without reading or allocating a body; otherwise a successful decode consumes exactly the declared number of bytes.",
  "every byte stream", "needs all declared lengths and all stream lengths", [f"{S}:Decode", f"{S}:messageMaxSize"])
p("C07", "Type dispatch is exact",
  "Decode yields a PDU only for the ten known type codes with the body length of that type; any other type code or body length is an error, and the returned PDU reports the version and type of the header.",
  "every byte stream", "256 types times all lengths", [f"{S}:Decode", f"{S}:GetType", f"{S}:GetVersion"])
p("C08", "Record identity: hash key equality is record equality",
  "Two sendable records have the same hash key exactly when they are the same kind of record with the same prefix, max length and ASN (VRP), or the same ASN, SKI and public key (router key); a VRP never collides with a router key. Flags do not matter.",
  "every pair of records with valid prefixes", "a collision is a property of all pairs, tests only sample", [f"{V}:HashKey", f"{V}:Equals"])
p("C09", "ComputeDiff is the exact set difference",
  "ComputeDiff(new, prev) returns as added exactly the records of new not in prev (flagged announce), as removed exactly the records of prev not in new (flagged withdraw), and as unchanged (when asked) exactly the common ones.",
  "every pair of record lists, in any order, with duplicates", "unbounded lists, orders and multiplicities", [f"{V}:ComputeDiff"])
p("C10", "Applying a computed diff gives the new set",
  "ApplyDiff(added ++ removed, prev) for the diff between a served set prev (all flagged announce) and new contains exactly the records of new, all flagged announce.",
  "every pair of record lists, the first one all announcements", "unbounded", [f"{V}:ApplyDiff", f"{V}:ComputeDiff"])
p("C11", "AddData installs exactly the given set and reports change truthfully",
  "After AddData(new) the served set equals new as a set of records; it returns true exactly when the served set changed, and when it returns false serial, data and history are untouched.",
  "every server state reachable by AddData, every new list", "state space is unbounded", [f"{V}:AddData", f"{V}:AddSDsDiff", f"{V}:GetCurrentSDs"])
p("C12", "Serial number advances by one per change",
  "The serial starts at 0; each effective AddData on a non-empty store advances it by exactly 1 modulo 2^32; a no-op never changes it; a change of content of a non-empty store never keeps the serial.",
  "every history of AddData calls", "histories are unbounded and wrap-around needs 2^32 steps", [f"{V}:generateSerial", f"{V}:AddSDsDiff"])
p("C13", "Everything served by a full sync is an announcement",
  "In every state reachable by AddData every record of the full set carries the announce flag, so a Reset Query answer contains no withdrawals.",
  "every history of AddData calls", "unbounded histories", [f"{V}:AddData", f"{V}:ApplyDiff", f"{V}:SendSDs"])
p("C14", "An incremental answer brings the client to the current set",
  "If a client holds the data the server served at serial n and a Serial Query for n is answered with an incremental update, then applying that update to the client's data gives exactly the server's current data.",
  "every history of AddData calls between the two points, every retained serial", "needs all histories and all distances; the shipped tests never query more than one version back", [f"{V}:getSDsSerialDiff", f"{V}:AddSDsDiff", f"{V}:RequestNewVersion"])
p("C15", "Which change set is served at each distance",
  "For each distance d between the client's serial and the current one, the records served are the net effect of a definite number of most recent changes (the specification says d of them).",
  "every history, every distance, every retention limit", "unbounded histories and distances", [f"{V}:AddSDsDiff", f"{V}:getSDsSerialDiff"])
p("C16", "Unknown serials are refused with a Cache Reset",
  "A serial newer than the current one, or older than what is retained, is never answered with data; at most KeepDifference incremental versions are retained when that limit is positive.",
  "every history, every queried serial, every positive limit", "2^32 serials times all histories", [f"{V}:getSDsSerialDiff", f"{V}:AddSDsDiff"])
p("C17", "Incremental updates are free of duplicate announcements and unknown withdrawals",
  "An incremental answer never announces a record the client already holds and never withdraws one it does not hold (RFC 8210 errors 7 and 6).",
  "every history, every retained serial", "needs all histories", [f"{V}:ApplyDiff", f"{V}:getSDsSerialDiff"])
p("C18", "A client that is up to date gets an empty update",
  "A Serial Query with the right session and the current serial of a non-empty store is answered by Cache Response, no data PDUs, End of Data with that serial.",
  "every reachable store", "unbounded states", [f"{V}:RequestNewVersion", f"{V}:getSDsSerialDiff"])
p("C19", "A change of content is visible as a change of serial",
  "Whenever the served set at two moments of a server's life differs, and both were non-empty, the serials differ (up to wrap-around), so that a client can tell it is out of date.",
  "every history of AddData calls, including emptying the store", "needs histories that empty and refill the store", [f"{V}:generateSerial"])
p("C20", "An empty store is reported as No Data",
  "While the store is empty, Reset Queries and Serial Queries with the right session are answered by exactly one Error Report with code 2 and never by data.",
  "every reachable empty store, every query", "all states", [f"{V}:RequestCache", f"{V}:RequestNewVersion", f"{V}:getCurrentSerial"])
p("C21", "A session mismatch never leaks an update",
  "A Serial Query with a session id other than the server's for that version is answered by exactly one Error Report (code 0) and the connection is dropped; no data is sent.",
  "every session id, serial and store", "2^16 x 2^32 queries", [f"{V}:RequestNewVersion"])
p("C22", "Full-sync answers are well framed",
  "A Reset Query on a non-empty store is answered by Cache Response(session), then the data PDUs in store order, then End of Data with the same session, the current serial and the configured intervals; nothing else.",
  "every store, every client", "all stores", [f"{V}:RequestCache", f"{V}:SendSDs"])
p("C23", "Version-0 clients never receive Router Keys and every PDU carries the client's version",
  "All PDUs sent in answer to a query carry the version negotiated for the connection; on version 0, or when router keys are disabled for the connection, no Router Key PDU is sent, while every VRP is.",
  "every store, every connection state", "all stores", [f"{V}:SendData", f"{V}:SendPDU"])
p("C24", "Disabling BGPsec applies to every transport",
  "When the server is configured with DisableBGPSec, no client, on TCP, TLS or SSH, is sent Router Key PDUs.",
  "every transport and store", "needs each transport's accept path", [f"{V}:acceptClientTCP", f"{V}:acceptClientSSH", f"{V}:DisableBGPsec"])
p("C25", "No duplicates in a full sync",
  "If every list given to AddData is duplicate free then the served list is duplicate free, in every reachable state.",
  "every history of duplicate-free AddData calls", "unbounded histories", [f"{V}:ApplyDiff", f"{V}:AddData"])
p("C26", "Order and multiplicity of the input do not matter",
  "AddData with a permuted or duplicated list of the same records leads to the same served set, the same serial and the same return value.",
  "every state and every pair of set-equal lists", "all permutations", [f"{V}:AddData"])
p("C27", "End to end: what a client receives is what the server stores",
  "The bytes the server emits for a Reset Query, parsed by this library's client, give exactly the stored VRPs (and, on version 1, the stored router keys).",
  "every store of encodable records", "all stores, all record values", [f"{V}:SendSDs", f"{S}:Decode", f"{DMP}:HandlePDU"])
p("C28", "End of Data labels the data it closes",
  "The serial in End of Data is the serial of the data set that was sent, under every interleaving of the request handler with updates.",
  "every interleaving of one handler with any number of updates", "a race between two separately locked reads", [f"{V}:RequestCache", f"{V}:RequestNewVersion", f"{V}:GetCurrentSerial", f"{V}:GetCurrentSDs"])
p("C29", "Protocol version is pinned after negotiation",
  "The first PDU with a supported version fixes the connection's version (capped by the server's); any later PDU with another version, or a first PDU with an unsupported one, gets Error Report code 4 and the connection is dropped.",
  "every sequence of received PDUs", "unbounded sequences", [f"{V}:checkVersion", f"{V}:HandlePDU"])
p("C30", "Nothing is served after the connection was dropped",
  "Once the server has decided to drop a connection, no request of that client is processed and nothing further is queued for it.",
  "every packet and state", "depends on control flow after the error branch", [f"{V}:Start", f"{V}:checkVersion", f"{V}:Disconnect"])
p("C31", "The connection counter equals the number of connections",
  "After any history of connects and disconnects the counter used for the connection limit equals the number of clients currently connected and is never negative.",
  "every history of connection events", "unbounded histories", [f"{V}:ClientConnected", f"{V}:ClientDisconnected", f"{V}:Disconnect", f"{V}:SetMaxConnections"])
p("C32", "The connection limit holds",
  "With a positive MaxConn the number of simultaneously connected clients never exceeds it.",
  "every interleaving of accepts and client starts", "a race between accept loop and client goroutine", [f"{V}:loopTCP", f"{V}:acceptClientTCP", f"{V}:ClientConnected", f"{ST}:run"])
p("C33", "Outgoing PDUs are delivered in order",
  "What is written to a client's connection is always a prefix of what was queued for it, in order, without loss or duplication, under every schedule of producers and the send loop.",
  "every schedule", "all interleavings", [f"{V}:sendLoop", f"{V}:SendRawPDU"])
p("C34", "A stalled client cannot stall the others",
  "A client that stops reading does not prevent updates and notifications from reaching other clients.",
  "every schedule in which one client never drains", "needs a full 256-element queue and a blocked writer", [f"{V}:NotifyClientsLatest", f"{V}:SendRawPDU"])
p("C35", "A client goroutine always terminates after a disconnect",
  "After a connection was dropped the goroutines serving it finish.",
  "every schedule and store size", "needs > 256 queued PDUs after a version error", [f"{V}:Start", f"{V}:sendLoop", f"{V}:Disconnect"])
p("C36", "Requests are recognised independently of TCP segmentation",
  "The PDUs the server acts on are those in the client's byte stream, however the network splits or merges it into reads.",
  "every byte stream and every way of cutting it", "all segmentations", [f"{V}:Start", f"{S}:DecodeBytes"])
p("C37", "Session lookup never crashes the server",
  "For every client version the session id lookup is in range, in request handling and in notifications, under every interleaving.",
  "every client version, schedule and configured base version", "needs a notification between two statements of another goroutine", [f"{V}:GetSessionId", f"{V}:NotifyClientsLatest", f"{V}:NewServer"])
p("C38", "SLURM prefix filters remove exactly the covered VRPs",
  "FilterOnVRPs splits the input into kept and removed, preserving order, losing and inventing nothing; a VRP is removed exactly when some filter matches it: the filter's prefix (if given) covers the VRP's prefix and the filter's ASN (if given) equals the VRP's ASN.",
  "every VRP list and filter list", "all prefixes, filters", [f"{SL}:FilterOnVRPs"])
p("C39", "A malformed SLURM filter prefix removes nothing",
  "A prefix filter whose prefix string cannot be parsed does not match VRPs by accident.",
  "every malformed filter", "depends on the error path of the parser", [f"{SL}:FilterOnVRPs", f"{SL}:GetPrefix"])
p("C40", "SLURM BGPsec filters remove exactly the matching keys",
  "FilterOnBRKs removes a key exactly when some filter with an ASN and/or SKI matches all its given fields; a filter with neither matches nothing; the result does not depend on the order of the filters.",
  "every key list and filter list, including undecodable SKIs", "the decoded SKI is cached across filters", [f"{SL}:FilterOnBRKs"])
p("C41", "SLURM assertions are added faithfully",
  "Each prefix assertion with a parsable prefix becomes exactly one VRP with its ASN and prefix and the max length max(maxPrefixLength, prefix length); each BGPsec assertion becomes one router key.",
  "every assertion list", "integer conversion to uint8", [f"{SL}:AssertVRPs", f"{SL}:AssertBRKs"])
p("C42", "SLURM output is filters then assertions",
  "FilterAssert returns the kept input in order followed by the assertions; assertions are never filtered; filtering is idempotent and independent of the order of the filters.",
  "every input and config", "all inputs", [f"{SL}:FilterAssert"])
p("C43", "Only valid, unexpired VRPs are served",
  "Every VRP that processing lets through has a parsable prefix of length at least 1, prefix length <= max length <= address width, an ASN in range taken from the input, and is not expired.",
  "every JSON list and clock value", "all inputs", [f"{ST}:processData", f"{ST}:isValidPrefixLength", f"{PF}:GetASN2"])
p("C44", "Every valid, unexpired VRP is served",
  "Every JSON entry satisfying those conditions appears in the output, exactly once.",
  "every JSON list", "all inputs, all duplicates", [f"{ST}:processData"])
p("C45", "More specific prefixes are sent before covering ones",
  "In the processed list a VRP for a sub-prefix precedes every VRP for a prefix that covers it, whatever the order of the input.",
  "every JSON list, every unstable sort outcome", "sort.Slice with a non-strict comparator", [f"{ST}:processData"])
p("C46", "The race-minimising order reaches the wire",
  "In the answer to a Reset Query sub-prefixes precede covering prefixes, also after updates.",
  "every history of updates", "needs at least two updates", [f"{V}:ApplyDiff", f"{ST}:processData"])
p("C47", "VRPs for one prefix are contiguous",
  "All VRPs for the same prefix are adjacent in the processed list (RFC 8210bis section 11, break before make).",
  "every JSON list", "all inputs", [f"{ST}:processData"])
p("C48", "Router keys are carried through unchanged",
  "Every unexpired router key with a decodable SKI is carried through with its ASN, key and decoded SKI, and no other key is.",
  "every key list and clock", "all inputs", [f"{ST}:processData"])
p("C49", "A failed refresh never disturbs what is served",
  "If fetching or decoding the cache file fails, or the file is unchanged, the loaded file, the SLURM configuration and the served set stay as they were.",
  "every state, every failure", "all failure points", [f"{ST}:updateFile", f"{ST}:updateSlurm"])
p("C50", "A stale cache file is never loaded",
  "With checktime on, data whose build time is missing or more than 24 hours old never changes the served set to that data.",
  "every file and clock", "all clocks", [f"{ST}:updateFromNewState", f"{ST}:reloadFromCurrentState"])
p("C51", "Stale data is withdrawn after 24 hours",
  "With checktime on, once the loaded file is more than 24 hours old the next refresh stops serving it.",
  "every history of refreshes", "needs a day of simulated time and a source that stops changing", [f"{ST}:routineUpdate", f"{ST}:reloadFromCurrentState"])
p("C52", "Expired VRPs are withdrawn at the next refresh",
  "After each successful refresh the served set is exactly the processed form of the loaded file at that time; in particular VRPs that expired since are gone even if the file did not change.",
  "every loaded file, every later clock", "the code only compares counts", [f"{ST}:reloadFromCurrentState"])
p("C53", "After a successful update the served set is the processed file",
  "When a new cache file (or SLURM file) is accepted, the served set afterwards is exactly process(SLURM(file)).",
  "every state, file, SLURM config", "all states", [f"{ST}:updateFromNewState", f"{ST}:applyUpdateFromNewState"])
p("C54", "A fetched version is eventually loaded",
  "If the source keeps offering a version that was not yet loaded, later successful requests deliver it, even when an earlier download was cut off.",
  "every history of requests with failures", "needs a body failure after headers", [f"{UT}:FetchFile"])
p("C55", "Conditional requests only suppress known versions",
  "The fetcher sends the ETag and date of the last version it saw, forgets them on HTTP errors, and without caching enabled never suppresses a download.",
  "every history of responses", "all histories", [f"{UT}:FetchFile"])
p("C56", "Refresh metrics are recorded",
  "Each successful HTTP refresh updates the last-refresh gauge and the status code counter.",
  "every response", "depends on the returned tuple of every path", [f"{UT}:FetchFile", f"{ST}:updateFile"])
p("C57", "Update triggers coalesce and none accepted is lost",
  "At most one triggered update is pending; a trigger answered with success is followed by a refresh that starts after it; a refused trigger means one was already pending.",
  "every interleaving of triggers and refreshes", "all schedules", [f"{ST}:TriggerUpdate", f"{ST}:routineUpdate"])
p("C58", "SSH password authentication is exact",
  "With password authentication the callback accepts exactly the configured user with exactly the configured password.",
  "every user and password", "all strings", [f"{ST}:run"])
p("C59", "SSH key authentication admits only listed keys",
  "With key authentication (no bypass) a key is accepted exactly when some line of the authorized file starts with its type and encoding, and then the key encoded on that line is that key.",
  "every key and file", "prefix comparison of base64 text over all keys", [f"{ST}:run"])
p("C60", "rtrmon: the diff is exact and one-sided",
  "Diff(a,b) is exactly the entries visible in a and not visible in b; the two one-sided diffs are disjoint and a source never differs from itself.",
  "every pair of maps", "all maps", [f"{MON}:Diff"])
p("C61", "rtrmon: grace period bookkeeping",
  "After an update every listed VRP is visible with last-seen now, first-seen is kept while it stays visible, vanished entries stay (invisible) as long as their last sighting is within the grace period and are dropped afterwards, and the reported count is the number of invisible entries.",
  "every map, file and clock", "all maps and times", [f"{MON}:BuildNewVrpMap", f"{MON}:UpdateCurrentVrpMap"])
p("C62", "rtrmon: unmatched counts are monotone in the threshold",
  "The vrp_diff metric never increases when the visibility threshold grows.",
  "every pair of maps, thresholds", "all maps", [f"{MON}:countUnmatched"])
p("C63", "rtrmon: the RTR view equals replaying the PDUs",
  "After any sequence of data PDUs the RTR view contains exactly the records whose last PDU was an announcement, and End of Data publishes exactly that view.",
  "every PDU sequence", "unbounded sequences", [f"{MON}:HandlePDU"])
p("C64", "rtrmon: after a reconnect the view equals the server's set",
  "After the session is re-established and a full sync completed, the published set is the server's current set.",
  "every pair of sessions", "needs two sessions with a withdrawal in between", [f"{MON}:HandlePDU", f"{MON}:Start"])
p("C65", "rtrmon: a Cache Reset leads to resynchronisation",
  "After the server answers Cache Reset, the monitor requests a full sync.",
  "every session history", "needs a server that lost history", [f"{MON}:HandlePDU", f"{MON}:continuousRTR"])
p("C66", "rtrmon: transport validation flags take effect",
  "With tls.validate (resp. ssh.validate) on, server certificates (resp. host keys) are verified.",
  "every flag setting", "a wiring property of main", [f"{MON}:main", f"{MON}:Start"])
p("C67", "rtrmon: the same record from JSON and RTR is the same entry",
  "A record read from a JSON file and the same record received over RTR get the same map key, so identical sources have an empty diff.",
  "every record", "all encodings of the SKI", [f"{MON}:BuildNewVrpMap", f"{MON}:HandlePDU"])
p("C68", "rtrdump writes what the server announced",
  "For a well-formed Reset Query answer the dump lists exactly the prefixes and router keys received, in order, with session and serial from End of Data.",
  "every PDU sequence", "unbounded sequences", [f"{DMP}:HandlePDU", f"{CL}:StartRW"])
p("C69", "The client session only ever downgrades",
  "The client's protocol version never increases; it becomes 0 exactly when a version-1 session receives a version-0 PDU.",
  "every PDU sequence", "unbounded sequences", [f"{CL}:StartRW"])
p("C70", "Command line limits are wired to the server",
  "The values of -maxconn and -enable.nodelay reach the server.",
  "every flag value", "a wiring property of run", [f"{ST}:run", f"{V}:NewServer"])
p("C71", "The HTTP export reflects what is served",
  "The JSON served on the export path lists the records that are served over RTR.",
  "every state", "all inputs with invalid or expired entries", [f"{ST}:exporter", f"{ST}:applyUpdateFromNewState"])
p("C72", "ASN parsing is exact",
  "A textual ASN is accepted exactly if, after dropping leading a/A/s/S letters, it is a non-empty decimal numeral below 2^32, and its value is that number; numeric ASNs in range are taken as they are.",
  "every string and number", "all strings", [f"{PF}:GetASN2"])
p("C73", "An Error Report reaches the router before the connection is closed",
  "A PDU queued before a disconnect is written to the connection (unless writing fails) before it is closed.",
  "every interleaving of the reader and the send loop", "the loss needs a particular schedule", [f"{V}:sendLoop", f"{V}:Disconnect"])
p("C74", "The server speaks the protocol version given on the command line",
  "For every value of -protocol the server either runs that version or refuses to start.",
  "every flag value", "all integers", [f"{ST}:protoverToLib", f"{V}:NewServer"])
p("C75", "The announced intervals are the configured ones and valid",
  "The refresh, retry and expire intervals in every End of Data are the configured ones and lie in the ranges of RFC 8210 section 6.",
  "every flag value", "all integers", [f"{ST}:run", f"{V}:NewServer"])
p("C76", "Every prefix length is served",
  "An unexpired entry with a readable prefix and ASN and a maximum length between prefix length and address width is served, whatever the prefix length, the default route included.",
  "every cache file", "the excluded case is one length of 33 and 129", [f"{ST}:isValidPrefixLength", f"{ST}:processData"])
p("C77", "Served prefixes are canonical",
  "No served prefix has host bits set, so two served VRPs that cover the same addresses with the same maximum length and ASN are the same record.",
  "every cache file", "all spellings of all prefixes", [f"{PF}:GetPrefix2", f"{ST}:processData"])
p("C78", "No record is handed over twice",
  "The list handed to AddData has no record twice, neither VRPs nor router keys.",
  "every cache file", "all multiplicities", [f"{ST}:processData", f"{ST}:applyUpdateFromNewState"])
p("C79", "The order of the cache file does not matter",
  "Two files with the same entries in any order and multiplicity give the same VRPs and the same router keys.",
  "every pair of files, every sort outcome", "all permutations", [f"{ST}:processData"])
p("C80", "Every change of the served set is announced",
  "With notifications on, each refresh that changes the served set sends one Serial Notify with the new serial to the connected routers, and none is sent without a change.",
  "every state and refresh", "all histories, including dropping everything", [f"{ST}:applyUpdateFromNewState", f"{ST}:routineUpdate"])
p("C81", "The gauges describe what is served",
  "With metrics on, the gauges for VRPs, router keys and the serial agree at all times with the served set and the current serial.",
  "every reachable state", "all histories", [f"{ST}:applyUpdateFromNewState", f"{ST}:UpdateMetrics"])
p("C82", "Local exceptions are never skipped",
  "When a SLURM file is configured, nothing is served to which the local exceptions were not applied.",
  "every state, every failure of fetching", "needs failures at the start of the program", [f"{ST}:updateSlurm", f"{ST}:run"])

p("C83", "The fetcher's maps are never accessed concurrently with a write",
  "The two fetches of a refresh run concurrently and share the maps of entity tags and dates; no access to them coincides with a write (which would end the program).",
  "every interleaving of two fetches", "depends on the schedule", [f"{UT}:FetchFile", f"{ST}:routineUpdate"])
p("C84", "A source that does not answer does not stop refreshing",
  "Whatever the servers of the two files do, the update loop gets to start another refresh.",
  "every behaviour of the servers", "needs an answer that never comes", [f"{UT}:FetchFile", f"{ST}:routineUpdate"])
p("C85", "Every accepted refresh interval works",
  "Every value accepted for -refresh lets the update loop start.",
  "every 64-bit value", "2^64 values, multiplication overflows", [f"{ST}:routineUpdate", f"{ST}:run"])
p("C86", "SIGHUP causes a refresh",
  "At every moment a SIGHUP is followed by a refresh that starts after it, and it never ends the program.",
  "every moment", "timing", [f"{ST}:routineUpdate", f"{ST}:run"])
p("C87", "SSH clients are admitted without authentication only if none is configured",
  "The SSH method none is admitted exactly if neither passwords nor keys are enabled; a method that is not enabled admits nobody; a key without proof of possession admits nobody.",
  "every flag setting, user, password and key", "all strings and settings", [f"{ST}:run"])
p("C88", "Enabling password authentication without a password admits nobody",
  "If password authentication is enabled and neither the flag nor the environment sets a password, no password login succeeds; without any authorized key no key login succeeds.",
  "every flag setting", "a missing secret that fails open", [f"{ST}:run"])
p("C89", "Only the configured SSH user is admitted",
  "With either method only the user given by -ssh.auth.user is admitted.",
  "every user", "all strings", [f"{ST}:run"])

p("C90", "rtrmon: 'not modified' refers to the file shown",
  "When the server of a file answers that the file has not been modified, the file it means is the one whose records the monitor shows.",
  "every history of fetches and server behaviours", "needs a failure between recording the tag and using the file", [f"{MON}:Start", f"{UT}:FetchFile"])
p("C91", "rtrmon: first-seen is kept over RTR",
  "A record that the server keeps announcing keeps the time it was first seen, also when it is announced again.",
  "every PDU sequence and clock", "all histories", [f"{MON}:HandlePDU"])
p("C92", "rtrmon survives a lost connection",
  "When an established RTR connection is lost the monitor goes on and connects again.",
  "every way a connection can end", "needs failures at particular moments", [f"{MON}:continuousRTR", f"{MON}:ClientDisconnected", f"{CL}:StartRW"])
p("C93", "rtrmon: the total gauge counts the visible records",
  "The rpki_vrps gauge of type total is the number of records visible in the source.",
  "every source state", "all states", [f"{MON}:Start", f"{MON}:HandlePDU"])
p("C94", "rtrmon: thresholds",
  "After parsing, the visibility thresholds are sorted, not empty, and are exactly the numbers given; the grace period is at least the highest; printing and parsing again gives the same thresholds.",
  "every flag value", "all strings", [f"{MON}:Set", f"{MON}:String", f"{MON}:main"])
p("C95", "rtrmon: what vrp_diff counts",
  "The vrp_diff metric for a threshold is the number of records that one source has listed without interruption for at least that long and that the other does not list and has not listed during that time.",
  "every pair of source histories", "all histories and clocks", [f"{MON}:countUnmatched", f"{MON}:BuildNewVrpMap", f"{MON}:Compare"])
p("C96", "rtrmon: each source gets its own SSH password",
  "The SSH password of each source is its flag, or else its environment variable.",
  "every flag and environment setting", "all settings", [f"{MON}:main"])
p("C97", "rtrmon: the two sources are independent",
  "What one source shows does not depend on the fetches of the other.",
  "every pair of sources and fetch histories", "needs both sources to share a URL", [f"{MON}:main", f"{UT}:FetchFile"])
p("C98", "rtrdump: transport validation flags take effect",
  "With -tls.validate only verified certificates are accepted, with -ssh.validate only the host key given in -ssh.validate.key; with a flag off, whatever the server presents is accepted.",
  "every flag setting, certificate and key", "all settings", [f"{DMP}:main"])
p("C99", "A client negotiates the highest common version",
  "A version-1 client and a server that offers version 1 end up speaking version 1.",
  "every exchange", "needs a notification before the first query", [f"{CL}:StartRW", f"{V}:Notify", f"{V}:checkVersion"])
p("C100", "A dump can be served again",
  "A server that loads the file written by rtrdump serves exactly the records of the dump.",
  "every set of records a cache file can state", "all records; printing and parsing must be inverse", [f"{DMP}:HandlePDU", f"{ST}:processData", f"{ST}:updateFile"])

p("C101", "Prefix texts are read exactly",
  "The prefix field of a cache entry, SLURM filter or SLURM assertion is accepted as prefix p exactly if it is a text of p: an IPv4 dotted quad or an RFC 4291 IPv6 address (any case, :: for at least one zero group, a dotted quad at the end allowed), a slash, and a length within the width of the address. No text stands for two prefixes, IPv4 prefixes have a single text, and the printed form of every valid prefix reads back. Only the parser used for assertions allows superfluous zeros in the length.",
  "for all texts and all prefixes",
  "Tests try some spellings; texts are unbounded and the two parsers differ on rare ones.",
  [PF + ":GetPrefix2", SL + ":GetPrefix", SL + ":GetMaxLen", SL + ":AssertVRPs"])

p("C102", "Key identifiers are read exactly",
  "The SKI of a router key is decoded without error to the bytes b exactly if it consists of two hexadecimal digits per byte, in either case; no text stands for two identifiers; in lower case the text is the one printed for b.",
  "for all texts and all byte strings",
  "Tests decode a few identifiers of the right length.",
  [ST + ":processData", SL + ":FilterOnBRKs"])
p("C103", "A file is read as its first JSON text",
  "The bytes of a file stand for one text (their UTF-8, and U+FFFD for each byte at which no character begins); the file is read as a value (other than a bare number) exactly if that text begins, after white space, with a JSON text of RFC 8259 for the value, nested at most 10000 deep; no text begins with two values; a file that does not begin with a JSON text is refused, also as a SLURM file; a file with something else behind the JSON text, or that is not UTF-8, is refused.",
  "for all byte strings and all values",
  "Tests read a handful of well-formed files; escapes, surrogates, numbers and nesting combine without limit.",
  [ST + ":decodeJSON", SL + ":DecodeJSONSlurm", MON + ":decodeJSON"])

p("C104", "A file cut off is not loaded as another",
  "If a cache file or a SLURM file is cut off anywhere (a transfer that ends early, a file being written), what is left is refused or loads exactly as the whole file does; never a part of the records.",
  "for all files and all lengths",
  "A test cuts a file at one place, and not inside a multi-byte character.",
  [ST + ":decodeJSON", SL + ":DecodeJSONSlurm", ST + ":updateFile"])

p("C105", "A cache file is decoded exactly",
  "A cache file is loaded exactly if it begins with null or with an object whose members of the known names (up to case) have values of the right type and range, other members being ignored; what is loaded is, field by field and entry by entry, what the members say, absent ones saying nothing.",
  "for all files",
  "The values of every field, their absence, nulls, repetitions and number formats cannot be tried in all combinations.",
  [ST + ":decodeJSON", PF + ":RPKIList", PF + ":VRPJson", PF + ":BgpSecKeyJson", PF + ":MetaData"])

p("C106", "A malformed entry costs only itself",
  "Exactly the VRPs and router keys are processed that some entry of the file states, with all their parts given and valid; an entry that states none is ignored, and no entry affects whether another is processed.",
  "for all files, all times and all records",
  "Tests try one malformed entry at a time.",
  [ST + ":decodeJSON", ST + ":processData", PF + ":GetPrefix2", PF + ":GetASN2"])

p("C107", "A SLURM file is decoded exactly, as RFC 8416 says",
  "A SLURM file is loaded exactly if it begins with null or with an object whose members of the known names (up to case) have values of the right type and range, and what is loaded is what they say; key identifiers in the base64 without padding of RFC 8416 are read; deviations from RFC 8416 (another version, unknown or missing members) are errors.",
  "for all files and all key identifiers",
  "The tests only read files in the dialect that the decoder happens to accept.",
  [SL + ":DecodeJSONSlurm", SL + ":SlurmConfig", SL + ":SlurmBGPsecFilter", SL + ":SlurmBGPsecAssertion"])


p("C108", "The export is a faithful cache file",
  "The answer of the exporter is one JSON text in UTF-8, with no name twice in an object; it states exactly the records that are being served, with their number, the number of router keys, the serial and the build time of the file; and a second server that is started with it serves the same records.",
  "for all states that a server can reach, all files and all exceptions",
  "A test compares one export with one file; it cannot cover every text that has to be escaped, every AS number format, and every state.",
  [ST + ":exporter", ST + ":applyUpdateFromNewState", PF + ":RPKIList", ST + ":decodeJSON"])

p("C109", "A dump states exactly the answer",
  "After a complete answer rtrdump writes one JSON text in UTF-8 with no name twice in an object, which gives session, serial, and the numbers of prefixes and router keys, and states exactly the records of the answer; a server that loads it serves exactly these.",
  "for all answers and all records",
  "There is no test of rtrdump.",
  [DMP + ":main", DMP + ":HandlePDU", PF + ":RPKIList", ST + ":decodeJSON"])


p("C110", "rtrmon: no update is missed",
  "Whenever both sources have handed over their last update and the comparator waits, the published difference, the metadata and the gauges are those of comparing what the two sources show at that moment; and a source that has an update to hand over never waits in vain.",
  "for all interleavings of the two sources and the comparator, and for all ways of dividing an update into steps",
  "Tests call Diff on two maps; the goroutines and the channel between them are not run at all.",
  [MON + ":Compare", MON + ":GetData", MON + ":Diff", MON + ":Start"])

p("C111", "rtrmon: a published difference stays as it was compared",
  "Between two comparisons the published difference does not change.",
  "for all interleavings",
  "A test that looks at the page once cannot see it change.",
  [MON + ":BuildNewVrpMap", MON + ":Compare", MON + ":ServeDiff", MON + ":UpdateCurrentVrpMap"])

p("C112", "rtrmon: the page states the difference",
  "The page is one JSON text in UTF-8 with no name twice in an object; it has the metadata of the sources and every entry of the two differences once and in full, and when nothing is going on these are exactly the records visible in one source and not in the other.",
  "for all states, all orders in which a map may be read, and all texts",
  "There is no test of the page; the order of a Go map is random.",
  [MON + ":ServeDiff", MON + ":VRPArray", MON + ":diffExport", MON + ":VRPJsonSimple"])

p("C113", "rtrmon: the time of the last fetch",
  "The published time of the last fetch of a source is the time of its last update, and no time at all for a source that has not been fetched yet.",
  "for all runs",
  "Tests do not run the comparator before the first fetch.",
  [MON + ":GetData", MON + ":diffMetadata", MON + ":Compare"])


p("C114", "A router that keeps in contact holds what is served",
  "Whatever happens (new data, lost connections in the middle of an answer, new data in the middle of an answer): once a router that behaves as RFC 8210 says has got an End of Data and the data has not changed since, it holds exactly the served records that its connection carries.",
  "for all servers, retention limits, transports, versions, and all sequences of updates, polls and lost connections of any length",
  "Needs long histories, connections cut at a given PDU, and an update between two reads of the store that are microseconds apart.",
  [S + ":RequestNewVersion", S + ":RequestCache", S + ":getSDsSerialDiff", S + ":AddSDsDiff", S + ":AddData", S + ":SendSDs", S + ":passSimpleHandler"])

p("C115", "A router gets what the files on disk ask for",
  "After the cache file and the SLURM file are loaded, a router that sends a Reset Query holds, once the bytes of the answer are read, exactly the records that the texts of the two files ask for: every entry of roas and bgpsec_keys that states a record, is not expired and is matched by no filter, and every record asserted; of these the ones its protocol version carries.",
  "for all texts of the two files, clocks, servers, connections, protocol versions and routers that start over, after a first load or any refresh",
  "The statement goes through every stage (bytes, JSON, SLURM, validation, store, PDUs, bytes, router); a test checks the files it has.",
  [ST + ":updateFile", ST + ":updateSlurm", ST + ":updateFromNewState", ST + ":processData", SL + ":FilterAssert", SL + ":FilterOnVRPs", SL + ":AssertVRPs", S + ":RequestCache", S + ":SendSDs"])

p("C116", "rtrmon: its goroutines work together",
  "In every interleaving of the goroutines of an RTR source, over all its sessions: no channel is closed twice, the end of a session does not block the next one, the data are those of a sequential reading of the same PDUs, the queries reach the server in order, every session begins with its one Reset Query, a Serial Query names a session and a serial that belong together, nothing is sent on an old session, and the goroutines of a session end with it.",
  "for all interleavings, numbers of sessions, PDUs received, failures of writes, and firings of the timers",
  "A schedule decides; the race windows are a few instructions wide, and a leaked goroutine is not observed.",
  [CL + ":sendLoop", CL + ":Disconnect", CL + ":StartRW", CL + ":SendPDU", CL + ":SendRawPDU", MON + ":continuousRTR", MON + ":ClientConnected", MON + ":ClientDisconnected", MON + ":Start"])

p("C117", "rtrmon: a file against the server that serves it",
  "If one source is a cache file and the other an RTR session with a stayrtr that serves this file, then rtrmon lists exactly the entries that stayrtr has to leave out, and nothing while every entry is servable: a VRP is listed iff its prefix has length 0, its maxLength is out of range, or every entry for it has expired; nothing is listed on the side of the server only.",
  "for all files, update histories, grace periods, sessions and reading times",
  "The tests of rtrmon compare hand-made maps; the filters of the server and the names of the monitor are never put together.",
  [MON + ":Diff", MON + ":BuildNewVrpMap", MON + ":HandlePDU", ST + ":processData", CL + ":StartRW"])

p("C118", "A connection that does not finish its handshake keeps nobody out",
  "Every connection that reaches the listener is served or closed after a bounded number of moves of the accept loop, and the accept loop can always move, whatever other clients do with their connections.",
  "for all sequences of arrivals, accepts, errors and handshakes, and all positions in the queue",
  "The tests call the callbacks with well-behaved connections; a client that opens a TCP connection and says nothing is not among them.",
  [V + ":loopTCP", V + ":acceptClientTCP", V + ":acceptClientSSH"])

p("C119", "SSH: a session is what the client asked for",
  "On an SSH connection an RTR session is started exactly when the client asks for the subsystem rpki-rtr on an accepted channel of type session; a granted request is served; sessions do not overlap; the connection is closed once and nothing follows; other requests do not keep the client from its session.",
  "for all sequences of channels, requests and ends of the client, and all schedules of the goroutine",
  "There is no test of the SSH goroutine.",
  [V + ":acceptClientSSH"])

p("C120", "SSH: requests that want a reply get one",
  "Each global request of an SSH client that wants a reply (such as its keepalives) is answered, exactly once, also while a session runs.",
  "for all sequences of channels, requests and sessions of the client",
  "There is no test of the SSH goroutine; keepalives come after minutes.",
  [V + ":acceptClientSSH"])

p("C121", "No update of the connection counter is lost",
  "Whatever goroutines count connections at the same time, the counter is the sum of their changes.",
  "for all sets of goroutines and all interleavings of their reads and writes",
  "The window is one instruction wide.",
  [V + ":ClientConnected", V + ":ClientDisconnected", V + ":acceptClientSSH", V + ":loopTCP"])

p("C122", "Answers are snapshots, without locks",
  "What a router is sent is what the store held when its query was taken, as a value, whatever updates run at the same time; no two goroutines touch a record, a key or a slice at the same time with one of them writing; the memory of the store always has the value that a sequence of updates on values gives; and an answer that has begun can be completed.",
  "for all sequences of updates, all numbers of routers and queries, and all interleavings of single reads, writes and allocations",
  "The tests use one goroutine; a race shows only under the right schedule, and the records are shared by pointers.",
  [V + ":AddData", V + ":AddSDsDiff", V + ":ComputeDiff", V + ":ApplyDiff", V + ":GetCurrentSDs", V + ":GetSDsSerialDiff", V + ":SendSDs", V + ":Copy"])

p("C123", "The store is the server's own",
  "The server keeps no reference to the records it is given: once AddData or AddSDsDiff has returned, whatever the caller does to its records, keys and slices, the store has the same value.",
  "for all well-formed memories, all stores and data in them, and all later changes of the memory that was in use before the call",
  "The tests pass fresh records and never change them afterwards.",
  [V + ":AddData", V + ":AddSDsDiff", V + ":ComputeDiff", V + ":Copy"])

p("C124", "A Serial Notify carries the session id of its version",
  "The session id of every Serial Notify is the one of the protocol version that the Serial Notify is sent in, however the update that sends it interleaves with the queries of the router.",
  "for all configurations, all sequences of PDUs and notifications, and all interleavings of the two goroutines",
  "The tests call NotifyClientsLatest with no query under way.",
  [V + ":NotifyClientsLatest", V + ":Notify", V + ":SendPDU", V + ":checkVersion", V + ":HandlePDU"])

p("C125", "An answer is not interrupted",
  "The PDUs of an answer, from Cache Response to End of Data, stand on the connection one after the other, with nothing in between, and answers are those of the read loop alone.",
  "for all configurations, all sequences of PDUs, stores and notifications, and all interleavings of the two goroutines",
  "The window is the time an answer takes, which is short with the data of the tests.",
  [V + ":NotifyClientsLatest", V + ":Notify", V + ":SendPDU", V + ":SendSDs", V + ":Start"])

p("C126", "No router misses an update",
  "Once an update is through, every connected router that was last answered with an older serial has been sent, after it asked, a Serial Notify with the current serial; a router that stays connected gets one Serial Notify per announced update, in order.",
  "for all servers, stores, updates and PDUs, any number of routers that come and go, and all interleavings of their goroutines with the updating one",
  "The cases that matter are a router that connects, asks or is answered while NotifyClientsLatest runs.",
  [V + ":NotifyClientsLatest", V + ":GetClientList", V + ":ClientConnected", V + ":ClientDisconnected", V + ":Notify", V + ":RequestCache", V + ":RequestNewVersion", ST + ":applyUpdateFromNewState"])

p("C127", "The loaded file is not modified",
  "Applying local exceptions, which appends to slices that are in use, never changes the loaded lists; everything that is served, announced and measured is as if lists were values.",
  "every history of refreshes, any spare capacity of every array",
  "append writes in place or not depending on capacities chosen by the allocator and the JSON decoder",
  [f"{SL}:FilterAssert", f"{SL}:FilterOnVRPs", f"{ST}:updateFromNewState", f"{ST}:reloadFromCurrentState"])
p("C128", "An export stays what it was",
  "The lists behind an export do not change after it was made: a response is the lists exported when it was asked for, though it is written without holding the lock.",
  "every history of refreshes, any spare capacity of every array, every time the arrays are read",
  "the overwritten entry shows only for some capacities and some successions of SLURM files",
  [f"{ST}:exporter", f"{ST}:applyUpdateFromNewState", f"{SL}:FilterAssert"])

p("C129", "Build times are read as RFC 3339",
  "The text of a build time is read exactly if it is a time of RFC 3339, and as the instant that it denotes in the calendar.",
  "every text",
  "the space of texts is unbounded, and so are years, fractions and offsets",
  [f"{PF}:GetBuildTime", f"{ST}:updateFromNewState", f"{ST}:reloadFromCurrentState"])

p("C130", "Received PDUs are counted",
  "The counter rtr_pdus counts every PDU received on a connection, under the name of its type, and nothing else.",
  "every sequence of reads on a connection",
  "how TCP cuts PDUs into reads is not under the control of a test",
  [f"{ST}:HandlePDU", f"{S}:TypeToString", f"{V}:Start", f"{V}:HandlePDU"])
p("C131", "Connected clients are gauged",
  "For every local address the gauge rtr_clients is the number of clients connected to it.",
  "every sequence of connections, ends of connections, and changes of the limit",
  "the gauge goes wrong only where a disconnect happens twice",
  [f"{ST}:ClientConnected", f"{ST}:ClientDisconnected", f"{V}:ClientConnected", f"{V}:ClientDisconnected", f"{V}:SetMaxConnections"])
p("C132", "The time of the last change is reported",
  "The gauge rpki_change is the time at which the loaded file was found to have changed.",
  "every history of refreshes",
  "needs histories in which a file changes without changing what is served",
  [f"{ST}:UpdateMetrics", f"{ST}:applyUpdateFromNewState", f"{ST}:updateFile"])

p("C133", "Refreshes are not further apart than the refresh interval",
  "Whatever triggers, signals and failures came before, when a refresh ends the next one is due at most the refresh interval later, or 30 seconds as long as no cache file has been loaded.",
  "every run of the refresh loop: all intervals that work, all times, all triggers, all outcomes of fetches",
  "needs all interleavings of a timer that is reset in four places with triggers and failures",
  [f"{ST}:routineUpdate", f"{ST}:updateDelay"])

p("C134", "The timer starts at most one refresh per interval",
  "In any time since the refresh loop was entered its timer starts at most as many refreshes as refresh intervals have passed (of 30 seconds, if that is shorter and the first load failed), also if refreshes take long.",
  "every run of the refresh loop: all intervals that work, all durations of refreshes",
  "needs long runs with refreshes of all durations",
  [f"{ST}:routineUpdate", f"{ST}:updateDelay"])

p("C135", "Expired entries are withdrawn in time",
  "A record is served at a time only if the loaded file has an entry for it that had not expired one refresh interval, plus the time of two refreshes and of waking the loop, before.",
  "every run of the refresh loop with its clock",
  "needs real time to pass between expiry, refreshes and requests",
  [f"{ST}:routineUpdate", f"{ST}:processData", f"{ST}:reloadFromCurrentState"])

p("C136", "Nothing is served before the first load",
  "Until the fetches of the first load have come back, no router can connect and no export is answered.",
  "every schedule of the goroutines of the start, every setting",
  "the order of goroutines and the time of a fetch are not under the control of a test",
  [f"{ST}:run", f"{ST}:serveHTTP", f"{ST}:exporter"])
p("C137", "Mistakes in the settings are found before anything is served",
  "Settings without mistakes lead, in every schedule, to everything configured being served; settings with a mistake end the program before a router can connect.",
  "every setting and every schedule of the goroutines of the start",
  "needs every order of the goroutines and failing system calls",
  [f"{ST}:run", f"{ST}:serveHTTP"])
p("C138", "Every HTTP path is answered by its own handler",
  "With every setting of the paths, the export, the update endpoint and the metrics (in rtrmon: the difference, the metrics and the index) are each answered on their own path.",
  "every setting of the paths, every request",
  "all strings, and panics in a goroutine",
  [f"{ST}:run", f"{ST}:serveHTTP", f"{MON}:main"])
p("C139", "The update endpoint tells the truth",
  "Status 200 is answered exactly if the request was taken, and a refresh then starts after the answer; status 500 means that an earlier request was still waiting, and a refresh starts after this answer, too.",
  "every interleaving of requests, signals and refreshes",
  "all schedules",
  [f"{ST}:updateNow", f"{ST}:TriggerUpdate", f"{ST}:routineUpdate"])

p("C140", "The metrics of rtrmon describe the last comparison",
  "Every series of the primary and the secondary source (total, diff, serial, session, vrp_diff for each threshold, update) shows what the last comparison found for that source; there is none before the first comparison; when nothing is going on they describe what the sources show now.",
  "every run of the two sources and the comparator, every setting of URLs and thresholds",
  "all interleavings; settings with equal URLs share series",
  [f"{MON}:Compare", f"{MON}:countUnmatched", f"{MON}:GetData"])
p("C141", "rtr_state tells whether there is a session",
  "rtr_state is 1 exactly while the monitor has a session with the cache, and 0 otherwise.",
  "every schedule of the goroutines of an RTR source",
  "all interleavings, connections that fail at any time",
  [f"{MON}:ClientConnected", f"{MON}:ClientDisconnected", f"{CL}:StartRW", f"{CL}:Disconnect"])

p("C142", "No client can stop the notifications for ever",
  "From every state in which a notification is waiting to be put into a client's channel, the notifying goroutine can still get on: a client, whatever it does, holds up the other clients and the refreshes at most for a time.",
  "every interleaving of the notifying goroutine with the readers and senders of any number of clients",
  "all interleavings; the loss occurs only when a connection is dropped with a full channel",
  [f"{V}:SendPDU", f"{V}:sendLoop", f"{V}:NotifyClientsLatest", f"{V}:Disconnect"])

p("C143", "A router has no cause to complain",
  "No answer announces a record that the router holds or withdraws one that it does not hold, at the point of the answer where it comes (RFC 8210 errors 7 and 6), over the whole life of a router with any number of updates, queries and connections.",
  "every run of updates, queries of both kinds and lost connections",
  "all histories and all interleavings",
  [f"{V}:RequestCache", f"{V}:RequestNewVersion", f"{V}:GetSDsSerialDiff", f"{V}:AddSDsDiff"])

p("C144", "No client can stop the refreshes",
  "Whatever the clients do, as long as the program runs another refresh can start: the update loop, which notifies the clients itself, always gets through.",
  "every interleaving of the update loop, the notifications and the goroutines of any number of connections",
  "all interleavings, without bound on time",
  [f"{ST}:routineUpdate", f"{ST}:applyUpdateFromNewState", f"{V}:NotifyClientsLatest", f"{V}:SendRawPDU", f"{V}:sendLoop"])

p("C145", "The age of a file is computed without overflow",
  "The check of the age of a file and the decision to drop old data, computed with the 64-bit times of Go, come out as with exact times, for every build time a file can state.",
  "every build time of 64 bits or RFC 3339 text, every time of the clock",
  "the overflow lies at a handful of values out of 2^64",
  [f"{ST}:updateFromNewState", f"{ST}:reloadFromCurrentState", f"{ST}:routineUpdate", f"{PF}:GetBuildTime"])

p("C146", "Concurrent updates of the store take effect one after the other",
  "Whatever goroutines call AddData at the same time, the store (records, serial, retained changes) is afterwards what the calls make of it one after the other.",
  "every interleaving of any number of goroutines that call AddData any number of times",
  "all interleavings of the three locked sections of an update",
  [f"{V}:AddData", f"{V}:AddSDsDiff", f"{V}:ApplyDiff"])

p("C147", "stayrtr has no data races",
  "No two goroutines of stayrtr access a field at the same time, one of them writing it: of the server (data, diffs, serial, list and number of clients), of a client, and of the refreshing (loaded files, hashes, times, export).",
  "every field, any number of clients, accept loops and HTTP requests, every interleaving, every order in which the goroutines do what they do",
  "the race detector sees only the accesses of the schedules that a test happens to run",
  [f"{V}:AddSDsDiff", f"{V}:NotifyClientsLatest", f"{V}:Start", f"{V}:Disconnect", f"{V}:loopTCP", f"{V}:acceptClientSSH", f"{ST}:updateFile", f"{ST}:updateSlurm", f"{ST}:exporter"])
p("C148", "rtrmon has no data races",
  "No two goroutines of rtrmon access a field at the same time, one of them writing it: of a source (maps, serial, session, times, channels), of its sessions, of the published difference, and of the records.",
  "every field, both kinds of source on both sides, any number of sessions and HTTP requests, every interleaving",
  "the race detector sees only the accesses of the schedules that a test happens to run",
  [f"{MON}:HandlePDU", f"{MON}:GetData", f"{MON}:continuousRTR", f"{MON}:BuildNewVrpMap", f"{MON}:Compare", f"{MON}:ServeDiff"])

p("C149", "The VRPs are sorted although the comparison is no strict order",
  "sort.Slice is given the strict order that its documentation requires; it indexes the slice only within its bounds, ends, loses and repeats no VRP, and leaves the VRPs of every file in the order in which they are to be sent (longer prefixes, then greater maximum lengths, then IPv4 and lower addresses first), VRPs equal in it as they were.",
  "every list of VRPs of any length, every generator of pseudo-random numbers, every comparison function",
  "the comparison says of equal elements that each is less than the other; which of the algorithms within the sort meets them depends on length, order and repetitions of the file",
  [f"{ST}:processData", f"{MON}:Set"])

p("C150", "A restart of the server is noticed",
  "A router that got its data from a server which was started again since, or from another server, holds exactly what the running server serves after it has asked twice, whatever it held before, whatever its serial number was.",
  "every configuration, session id, connection and version that the server accepts; every history of the store; every state of the router",
  "Session ids are drawn at random at each start, and serial numbers always start from 0: that two servers in turn have the same session id happens once in 65536 restarts, and then any serial number and any data may meet.",
  [V + ":17-19", V + ":88-122", V + ":172-217", V + ":291-293"])

p("C151", "rtrmon: two files are compared record by record",
  "With a file on both sides, the first list of /diff.json has exactly the records (VRPs, and router keys by identifier, AS number and key) that the first file has and the second has not.",
  "every pair of files, every history of files before them, every grace period",
  "Records are kept in one map under names made by joining texts with dashes: two different records with one name need texts that no test file has.",
  [MON + ":370-442", MON + ":691-701"])

p("C152", "Error Reports of routers are not answered and end the session",
  "RFC 8210, 5.11 and 12: an Error Report PDU that a router sends is never answered by an Error Report, and one with a fatal code (any but 2) ends the session.",
  "every server, connection, store and Error Report",
  "the handler has no case for Error Reports; what happens depends on the version of the PDU and of the connection",
  [f"{V}:checkVersion", f"{V}:passSimpleHandler", f"{V}:Start"])
p("C153", "What the server cannot serve is reported",
  "RFC 8210, 5.11 and 12: every PDU that cannot be decoded or that is neither a query nor an Error Report is answered by an Error Report (codes 0, 3, 5); Error Reports have no other causes than these, another version (4), another session (0) and missing data (2), and each has the code of its cause.",
  "every server, connection, pair of stores and bytes",
  "all byte strings, in all states of a connection",
  [f"{V}:Start", f"{V}:passSimpleHandler", f"{V}:checkVersion", f"{V}:RequestCache", f"{V}:RequestNewVersion"])
p("C154", "An Error Report holds the PDU that caused it",
  "RFC 8210, 5.11: an Error Report that is about the content of a received PDU holds a copy of that PDU; one about missing data holds none.",
  "every server, connection, pair of stores and packet",
  "a test would have to provoke every Error Report on every kind of connection",
  [f"{V}:SendCorruptData", f"{V}:SendWrongVersionError", f"{V}:SendNoDataError"])
p("C155", "A router with a newer version is told the version of the server",
  "RFC 8210, 7: if the first PDU of a router has a version that the server does not have, the Error Report (code 4) has the highest version of the server in its header, so that the router can come back with it.",
  "every configuration, transport and first PDU",
  "all versions from 2 to 255 against all configurations; the consequence shows only at the next connection",
  [f"{V}:checkVersion", f"{V}:SendPDU", f"{V}:acceptClientTCP", f"{V}:acceptClientSSH"])
p("C156", "Serial Notifies are at least a minute apart",
  "RFC 8210, 5.2: with a refresh interval of a minute or more, Serial Notifies are sent at most once per minute.",
  "every run of the refresh loop: refreshes of any duration, changes, failures, triggers and signals at any time",
  "durations of refreshes and times of triggers are unbounded; the timer of Go ticks on while a refresh runs",
  [f"{ST}:routineUpdate", f"{ST}:updateDelay", f"{V}:NotifyClientsLatest"])

p("C157", "No argument of a command line is ignored",
  "A program that goes on has read every argument as (part of) a setting of one of its flags, in the only way there is, and every flag has the value last given for it or its default; every other command line ends the program with status 2, or 0 if it asks for help or the version.",
  "every command line and every set of flags",
  "all lists of texts; a misspelt flag must never be skipped",
  [f"{ST}:run", f"{MON}:main", f"{DMP}:main"])
p("C158", "Numbers and durations of a command line are read as they are written",
  "A flag that takes a number reads decimal digits as that number, a flag that takes a duration reads a number and a unit as that many units; what does not fit is refused.",
  "every text",
  "all digit strings; a leading zero changes the base silently",
  [f"{ST}:RefreshRTR", f"{ST}:ExpireRTR", f"{MON}:GracePeriod", f"{DMP}:Serial"])
p("C159", "An unknown log level is refused",
  "-loglevel accepts the names of the levels in any case and refuses every other text.",
  "every text",
  "the error of ParseLevel is dropped, and nothing is logged about it at the level that results",
  [f"{ST}:run", f"{MON}:main", f"{DMP}:main"])
p("C160", "rtrdump asks for what is on its command line",
  "The query that rtrdump sends has the version, the session and the serial of the command line; values that a query cannot hold are refused.",
  "every value of the flags and every input from the server",
  "all integers; conversions cut values off",
  [f"{DMP}:main", f"{DMP}:ClientConnected"])
p("C161", "A flag that is accepted has an effect",
  "Every flag changes what its program does for some value of it.",
  "every command line and every input",
  "shows only if a program is compared with itself on every other command line",
  [f"{DMP}:RefreshInterval", f"{MON}:OneOff", f"{ST}:MaxConn"])

p("C162", "Prefix PDUs with impossible lengths are refused",
  "An IPv4 or IPv6 Prefix PDU whose length exceeds its maximum length, or whose maximum length exceeds the bits of an address, is refused by the decoder and gets into no output of a client (RFC 8210, 5.6, 5.7).",
  "every byte string that begins with a complete prefix PDU",
  "all 256 x 256 pairs of lengths, with every address and every continuation of the stream",
  [f"{S}:DecodeBytes", f"{DMP}:HandlePDU", f"{MON}:HandlePDU"])

p("C163", "A log entry is one line that nobody can forge, and names the PDU that was received",
  "Each entry about a received PDU is one line of printable characters; what was logged, with times and levels, can be read back from the log, so that no text in an Error Report can pass for an entry of its own; and PDUs with the same entry are the same PDU, of the same connection state or source.",
  "every PDU, every sequence of log entries with arbitrary byte strings as messages, every set of printable characters; log files and terminals",
  "the texts of Error Reports are arbitrary bytes from the peer; reading back is a statement about all pairs of logs",
  [f"{S}:String", f"{V}:Start", f"{MON}:HandlePDU", f"{DMP}:HandlePDU"])

p("C164", "Watching the server does not change it",
  "With and without metrics (-metrics.addr) and with and without notifications (-notifications) the same is fetched, loaded, served and exported; without them no gauge is set and no serial number announced.",
  "all settings, all sequences of refreshes with all outcomes of the fetches and all times",
  "compares all runs of two programs",
  [f"{ST}:applyUpdateFromNewState", f"{ST}:run", f"{ST}:UpdateMetrics"])

p("C165", "The documented command lines do what the documentation says",
  "Each command line of the README, of the images and of the integration tests is accepted; with its files at hand stayrtr comes up in every schedule and serves at the addresses and with the authentication that the text beside it says; rtrmon and rtrdump connect to the servers named and write the files named.",
  "every schedule of the goroutines, every content of the files, every environment in which an address can be listened on once",
  "the interleavings of startup with all outcomes of listening and of reading files",
  [f"{ST}:main", f"{ST}:run", f"{MON}:main", f"{DMP}:main"])

p("C166", "The sample files of the documentation work",
  "The SLURM file of the README is loaded and does to every cache file what its comments say: everything inside 10.0.0.0/8, all of AS65001, and AS65002 inside 192.168.0.0/24 is removed, 2001:db8::/32-48 AS65001 is added, nothing else changes; a cache file that follows the schema of the README is served.",
  "every cache file, every time, every state of the server",
  "all cache files and all prefixes of both families; the file is never loaded in tests",
  [f"{SL}:DecodeJSONSlurm", f"{SL}:FilterAssert", f"{ST}:updateSlurm", f"{ST}:updateFromNewState"])

p("C167", "Every setting is that of its own flag, or the documented default",
  "What stayrtr, rtrmon and rtrdump work with is, setting by setting, read from the last text given for the flag of that setting, or is the documented default; blank passwords and keys come from the environment variable named in the text of the flag. (Flags that nothing reads are C161, the password of the secondary source is C96.)",
  "every command line that is accepted, every environment",
  "all texts of all flags in all orders and repetitions",
  [f"{ST}:main", f"{ST}:run", f"{MON}:main", f"{DMP}:main"])

p("C168", "An Error Report says what is wrong",
  "The text of every Error Report that the server sends is the one that belongs to its code, in UTF-8, and the report is on the wire byte by byte as RFC 8210, 5.11 draws it, with the version of the connection.",
  "every server, connection, store and packet",
  "all packets in all states of a connection",
  [f"{V}:SendNoDataError", f"{V}:SendCorruptData", f"{V}:SendWrongVersionError", f"{S}:Write"])

p("C169", "Recording a metric does not end the program",
  "All metrics of stayrtr and rtrmon are registered under allowed and different names, and no load, connection, PDU or comparison ends the program when it is recorded; each series has the labels it is declared with, with the values that belong to them.",
  "every refresh with every outcome, every PDU, every address, every pair of sources and all thresholds",
  "registering and labelling fail with a panic at run time, only for the values that occur",
  [f"{ST}:initMetrics", f"{ST}:UpdateMetrics", f"{ST}:HandlePDU", f"{MON}:init", f"{MON}:Compare"])

p("C170", "The links of rtrmon's index page lead to what they name",
  "Whoever follows one of the two links to the program on rtrmon's index page asks the program for the metrics or for the difference and is answered with it, with every setting of the two paths and on every page that shows the index.",
  "all values of -file and -metrics.path, all pages, all hosts",
  "No test requests the index page; its links depend on two flags, two escapings of html/template, and the rules by which browsers resolve references.",
  [f"{MON}:ServeIndex", "cmd/rtrmon/index.html.tmpl:10-11", f"{MON}:main"])

p("C171", "rtrmon: a cache is asked as often as it said",
  "rtrmon waits the Refresh Interval of the last End of Data between its queries, and does not keep data beyond the Expire Interval (RFC 8210, 6). In no case does it ask more often than the interval on its command line says, nor connect more often, and it shows the intervals that the cache gave.",
  "all runs of the goroutines of a source, all times, all PDUs of the cache, all intervals on the command line",
  "The times of the queries depend on timers, on the cache and on three goroutines; no test waits for them.",
  [f"{MON}:continuousRTR", f"{MON}:Start", f"{MON}:HandlePDU", f"{MON}:GetData"])

p("C172", "Neither program grows with its age",
  "What stayrtr and rtrmon keep in memory is bounded by the sizes of the lists they last loaded and the number of peers connected, however long they run: the served set, the change sets kept, the channels, the goroutines, and the map of a source.",
  "all histories of loads, all runs of all connections, all sessions of a source",
  "A test runs for seconds; growth shows after weeks.",
  [f"{S}:AddSDsDiff", f"{S}:AddData", f"{S}:sendLoop", f"{MON}:HandlePDU"])

p("C173", "rtrmon's index page shows its settings and describes the program",
  "Whatever the settings, a browser sees the tags of the template and no others on rtrmon's index page; the name of the difference, the address and the path of the metrics are shown as they were set, the URL shown for the metrics is that of the metrics, the names listed for the difference are those of every difference served, and the metrics listed are registered.",
  "all settings of the three flags, all differences that can be served",
  "A test opens the page with the default settings and does not compare its text with the program.",
  [f"{MON}:ServeIndex", f"{MON}:ServeDiff"])

p("C174", "Servers behind a server serve what it serves",
  "In any tree of servers in which each but the first loads the export of another one, as the README recommends: once each has loaded the export of the one before, all serve what the first one serves; and at no time, whatever is delayed, lost or restarted, does one of them serve anything else than an export of the first one asked for.",
  "all trees of servers, all runs, all files of the first server, all delays and failures",
  "Tests run one server; stale times in an export show when the records stay the same for hours.",
  [f"{ST}:exporter", f"{ST}:applyUpdateFromNewState", f"{ST}:updateFile", f"{ST}:routineUpdate"])

p("C175", "Local exceptions act on records, once or on several servers",
  "Whatever the file and the SLURM configuration: a record is asked for exactly if the file asks for it and no filter matches it, or if it is asserted. Servers behind each other with the same SLURM file serve the same; with different ones they serve what one server with both would serve.",
  "all files, SLURM configurations, times and records; all reachable servers, and all servers that load their export",
  "Tests have a few filters and entries on one server; this compares sets of records for every combination, and two servers.",
  [f"{SL}:FilterAssert", f"{ST}:updateFromNewState", f"{ST}:exporter", f"{ST}:updateFile"])

p("C176", "Servers behind a server settle",
  "Whatever happened before: once the first server's export stays as it is, every server behind it, directly or through others, serves what that export asks for after the servers between them have loaded once in order, or after as many rounds of loading as there are servers on the way; if each of these loads at least once in any span of some length, that is after as many spans; further loads and failures in between do no harm; and a router of such a server that starts over then holds that.",
  "all trees of servers, all runs before, all orders of loads and failures after",
  "Tests run one server; whether a tree of servers comes to rest depends on the order of loads, the hash of the last file and what was exported before.",
  [f"{ST}:exporter", f"{ST}:updateFile", f"{ST}:applyUpdateFromNewState", f"{ST}:routineUpdate"])

p("C177", "The files in the repository mean what they say",
  "The two files of local exceptions in the repository are loaded, and do to every cache file, at any time, exactly what their fields and comments say, router keys included; the small cache file is served by every server exactly as its two entries, expiry times and build time say, and changes nothing when loaded later than a day after its build time.",
  "every cache file, every time; every server state and load for the cache file",
  "The tests look at a few decoded fields of the files; what they do to an arbitrary cache file, and at any other time, is unbounded.",
  ["prefixfile/slurm.go:DecodeJSONSlurm", "prefixfile/slurm.go:FilterAssert", f"{ST}:updateFromNewState", f"{ST}:processData"])

p("C178", "Servers with local exceptions behind a server settle",
  "Whatever happened before: once the first server's export and the local exceptions of all servers stay as they are, every server behind it serves what that export asks for with the local exceptions of the servers on the way applied in the order of the way, after these have loaded once in order, or after as many rounds or spans of time; a router of that server that starts over then holds it; with filters only, that is what no filter on the way matches, in whatever order; with assertions the order counts.",
  "all trees of servers, all local exceptions, all runs before, all orders of loads and failures after",
  "Tests run one server with one file of exceptions; the outcome of several depends on what is loaded in which order and on what the others had before.",
  [f"{ST}:updateSlurm", f"{SL}:FilterAssert", f"{ST}:exporter", f"{ST}:updateFile", f"{ST}:routineUpdate"])

p("C179", "rtrmon shows exactly in which records two servers differ",
  "With the exports of two servers, or the export of one and an RTR session with the other, as its sources, rtrmon lists exactly the records that one of them serves and the other does not; of servers that have settled behind the same server it lists what comes through the local exceptions on the way to one and not to the other, and nothing when there are none.",
  "all pairs of servers after any files, local exceptions and failures, every history of the sources before, every grace period",
  "What a server exports is what it last changed to and not what it serves, and rtrmon reads it by other rules than stayrtr; tests compare two files.",
  [f"{ST}:exporter", MON + ":370-442", MON + ":691-701", MON + ":503-560"])

p("C180", "A router that moves between servers that serve the same keeps its records",
  "A router that holds what a server serves, got from another one of the same content with whatever session and serial number, still holds exactly that after it has asked this server, with no gap, also if its session number happens to be that of this server; so between all servers that have settled behind a server.",
  "all sessions, serial numbers and histories of both servers, all trees of servers, all versions",
  "Sessions are drawn at random: the case of equal ones comes up once in 65536 moves, and then the answer is a difference made for another history.",
  [f"{V}:RequestNewVersion", f"{V}:GetSDsSerialDiff", f"{V}:GetSessionId", f"{ST}:exporter"])

out = os.path.join(os.path.dirname(__file__), "..", "properties.jsonl")
with open(out, "w") as f:
    for x in P: f.write(json.dumps(x) + "\n")
print(len(P))
