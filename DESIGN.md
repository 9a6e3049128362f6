# Formal model of stayrtr

This directory contains a Lean 4 model of `bgp/stayrtr` (Go, pinned in `/repo`) and machine-checked
proofs of the properties in `properties.jsonl`.

## Layout

* `lean/Verif/Model/*.lean`: the model. One definition per Go function; each definition carries a comment
  citing file and lines of `/repo`. Simplifications are named in those comments.
* `lean/Verif/Spec/*.lean`: small independent specifications (what a property means) that do not use the helpers of the model.
* `lean/Verif/Proofs/*.lean`: helper lemmas.
* `lean/Verif/Props/*.lean`: the property theorems (`Cnn_...`), each with a concrete `example`.
* `MANIFEST.json`: property -> theorem names and status.
* `seeded/LOG.jsonl`: log of the mutation tests of the theorems.

Naming: `Cnn_name` is a full proof of (part of) property `Cnn`; `Cnn_name_partial` proves a restricted form;
`Cnn_name_false` proves the negation of the property as stated, by a concrete witness (a defect of the code).

## Trusted base

* The Lean 4.33.0 kernel, and the axioms `propext`, `Classical.choice`, `Quot.sound`. No other axioms, no `sorry`, no `native_decide`, no `bv_decide`.
* The correspondence between the Go code and the model definitions, done by hand, function by function, by reading `/repo` as text. Nothing was built or run.
* The Go run-time and library behaviour that the model writes down, from knowledge of the library, not from its source (which is not in the sandbox):
  slices, maps, channels, mutexes, `encoding/binary`, `encoding/hex`, `encoding/base64` (raw), `net/netip` (`ParsePrefix`, printing, `Contains`, `Masked`),
  `net.ParseCIDR`, `strconv.ParseUint/ParseInt`, `fmt` verbs on these types, `net/http` status and header semantics, `x/crypto/ssh` method dispatch.
  Model definitions for library functions say which function they stand for.
* `sort.Slice` in `processData` gets a comparison that answers true for equal elements (`<=`-like), which its contract excludes. The theorems on the cache file take *any* outcome that is a permutation sorted
  with respect to that comparison (`Sorter.Ok`). `Model/Sort.lean` has the algorithm of Go 1.23 (written down from knowledge of the library), and `goSorter_ok` (C149) shows that it gives such an outcome.
* Ints are 64 bit (`int` in Go on the supported platforms).

## The models

| file | of what | simplifications |
|------|---------|-----------------|
| `Go`, `Netip`, `Text`, `Parse` | Go primitives, `netip` values, printing, parsers | zones left out; only success and value of a parser, not its error text |
| `Pdu` | `lib/structs.go`: `Write`, `Decode`, `DecodeBytes` | a reader is a finite byte string followed by end of file; slices that can go out of range panic explicitly |
| `SD`, `Store` | records, `ComputeDiff`, `ApplyDiff`, the store of `Server` | one updating goroutine, so a locked update is one step; a Go map iterated by the code is a key list; records are values, which `Heap` justifies (C122) |
| `Client` | request handlers, `SendSDs`, `SendData`, the read loop body | effects are a list; each handler takes the two stores of its two lock-protected reads, so an update in between is visible |
| `Goroutines` | reader, `sendLoop`, notifier on a bounded channel | small steps, sequentially consistent memory; `Write` delivers the whole PDU or fails for good |
| `Hub` | accepting, counting, limits, wiring of flags | each event is atomic (`Accept` has the counter as shared memory, C121) |
| `Notify` | the read loop of a connection and `NotifyClientsLatest` as goroutines that share the version of the client and its channel | the channel without limit; `checkVersion` and `HandlePDU` one step each |
| `Broadcast` | the updating goroutine with its notifications, the list of clients and the read loops of all connections | the channels without limit; the session id of a notification is looked up when it is sent (`Notify` has it apart) |
| `Slices` | the lists of `state` and `FilterAssert` as slices of arrays, the exporter reading them without the lock | all slices start at the beginning of their array; the arrays are read between refreshes, not within one |
| `Time` | `time.Parse(time.RFC3339, ..)` of Go 1.23 with its fallback, `Date` | instants only, no locations; the proleptic calendar of years 0 to 9999 |
| `Metrics` | `metricsEvent`: the counter of PDUs, the gauge of clients | the counter as the list of the labels counted; an event of a connection and its gauge in one step |
| `Ticker` | `routineUpdate` with its `time.Ticker` and `updateDelay` | one clock; a trigger or signal may come at any time; the first tick not received is kept, later ones are not |
| `Startup` | `run` up to the loop, `serveHTTP`, the listeners, `http.ServeMux`, `updateNow`, the paths of rtrmon | the first load is one step; whether an address can be used is a function of those taken; paths without braces, blanks and percent signs |
| `MonMetrics` | the gauges of rtrmon with their labels, and `rtr_state` | a function from series to values; only `Compare` and the two callbacks of the session set the modelled gauges; the settings of one comparison are one step |
| `LoopNet` | the update loop and the connections as one machine: a refresh ends only when the clients are notified | which clients are notified, and with what, is arbitrary; a refresh may change the data several times |
| `Clock` | `time.Time` in 64 bits: `Unix`, `Add`, `After`, `Sub`, and the two decisions on the age of a file | wall clocks only; restates package time |
| `Writers` | `AddData` and `AddSDsDiff` as three locked sections, called by any number of goroutines | each section is atomic, as it holds `sdlock`; what other goroutines do to the slices passed in is C123 |
| `Races` | every goroutine of stayrtr and of rtrmon as the pieces of code it runs, each a sequence of lock operations and accesses to shared fields; `sync.RWMutex` and `sync.WaitGroup` | pieces may run in any order and number (more than the code does); objects before they are handed over, fields that never change, channels and metrics are left out; the table of accesses was made by reading the code |
| `Sort` | `sort.Slice`: the pattern-defeating quicksort of Go 1.19 to 1.23 with its insertion sort, heap sort, partitions, attempt to finish at once, choice of pivot | the slice a function of indices with a length, access outside is a panic; the generator of pseudo-random numbers a parameter |
| `Flags` | package `flag`: the grammar of arguments, the values of flags (`strconv.ParseBool`, `ParseInt` with base 0, `time.ParseDuration`, thresholds), the flags of the three programs with their defaults, `ParseLevel` of logrus | texts are characters, not bytes; fractions in durations (floating point) a parameter, which `Frac` fills in |
| `Log` | `String` of the PDUs and of clients, the messages about received PDUs, the text formatter of logrus 1.9.3 in files and on terminals, `strconv.Quote` | the time and the printable characters outside ASCII are parameters; no fields besides time, level and message (the programs use none for these) |
| `Frac` | the `float64` arithmetic of `time.ParseDuration` for fractions: the scale, the quotient, the product and its integer part | numbers that are not negative, as fractions of natural numbers; no bounds on exponents (out of range the integer is 0 both ways) |
| `Setup` | from the parsed flags to the first step of the programs: `run` of stayrtr up to the goroutines, `main` of rtrmon and of rtrdump with the configuration of the two sources, of TLS and of SSH | files, keys and the environment are parameters; configurations of TLS and SSH as the choices that are made, not the libraries |
| `Registry` | declaration and registration of the metrics of both programs, every place where one is recorded, loading and refreshing with what they record | client_golang as: a panic at names that are not allowed or are there twice, at a wrong number or wrong names of labels, at values that are not UTF-8; names in the strict form |
| `Index` | the two links of the index page of rtrmon, with the escaping of html/template | the fixed text of the page left out; names are texts |
| `ServeMux` | `http.ServeMux` of Go 1.23 on bytes: patterns with methods, hosts, wildcards and escapes, conflicts, the search in the tree, clean paths and redirections; the paths of both programs | the tree as a list of patterns; names of wildcards a parameter; CONNECT and the targets of redirections left out |
| `MonTime` | the goroutines of an RTR source of rtrmon (`MonGo`) with the times at which they run, and the two timers they wait for | one clock; timers fire on time or late, never early; all else takes any time |
| `Page` | the whole index page of rtrmon: the template and the escapers chosen for its fields | settings are texts; that `Parse` and `Execute` of the constant template succeed is read off it |
| `Chain` | any number of servers, each but the first loading the export of another; restarts, delays and failed downloads | one refresh is one step; servers behind the first have no local exceptions |
| `Settle` | runs of servers with their clocks and local exceptions, and loads of servers behind a server after its export stopped changing | one refresh is one step; exports are received as they are then, or not at all; the clock of a process does not go back; after the export stopped changing, local exceptions may come with or without a file, but newly read ones without a file only if they are the same and the file is not too old |
| `Heap` | records, keys and slices as memory, the diffs and the store on it, updates and answers as goroutines that interleave | one access at a time, sequentially consistent; `append` in place; the list of diffs, touched only under the lock, is a value |
| `Accept` | the accept loop with its callbacks, the goroutine of an SSH connection, the counter as shared memory | queues without limit; a handshake ends well, badly or never; sequentially consistent memory |
| `Slurm`, `Process` | cache file values, SLURM, `processData` | SLURM and cache values are those after decoding (see `Json`); float64 ASNs through a parameter `WideFloat` for what the conversion of out-of-range values gives |
| `JsonText`, `Json` | `decodeJSON`, `DecodeJSONSlurm`, the encoding of exports and dumps, with the scanner, `unquote`, `Decode` and `Encode` of encoding/json (Go 1.23) and base64 | a decoding error is `none`, whatever was filled in before it; while a file is decoded a slice is its elements and those beyond its length (`Arr`), the zeros after them left out; a `float64` is known by its integer part |
| `Fetch`, `MapRace` | `FetchFile`; two of them at once | the network is an input; RWMutex as exclusion of intervals |
| `Update` | `state`, `updateFile`, `updateSlurm`, `updateFromNewState`, `applyUpdateFromNewState`, exports and gauges | clock, SHA-256, RFC 3339 and the decoders are parameters (`decodeFile` and `decodeSlurmFile` of `Json` are the real decoders, `timeParse` of `Time` the real reading of times); the two fetches of a refresh come one after the other; unbounded time arithmetic (C145 for 64 bits) |
| `Loop` | ticker, SIGHUP and trigger channel of `routineUpdate` | a refresh is one event with a start and an end |
| `Auth` | SSH password and key callbacks, `authorized_keys` comparison | the handshake and the signature check are one predicate |
| `ClientSession`, `Dump`, `Mon` | `lib/client.go`, `rtrdump`, `rtrmon` | entries are values (`MonSys` has them as pointers, and `C61_shared`, `C63_shared`, `C97_shared` justify the values); `GracePeriod.Seconds` is exact; times in whole seconds |
| `MonSys` | `Compare`, `GetData`, `BuildNewVrpMap`, `Diff` with entries as pointers, `ServeDiff` | the page reads its entries at one moment; publishing a comparison is one step; the unused one-off mode and quit channel of the comparator are left out; a nil key is written as an empty one |

## Not modelled

TLS and SSH handshakes, the kernel's TCP, Prometheus itself, log output, `net.ResolveTCPAddr`,
Go memory-model effects of the unsynchronised `connected` booleans (memory is sequentially consistent).

## Plan per property

| id | model | proof plan |
|----|-------|-----------|
| C01 | `Decode` over byte lists, slice operations that can panic | case split on type and lengths; every slice shown in range |
| C02 | `Write` and `Decode` for the ten PDU types | big-endian codec lemmas by induction, then per-type computation |
| C03 | `Write` | offset table as specification, per-type computation |
| C04 | `Write` | length computation |
| C05 | `Decode` iterated | induction on the PDU list using C02 with arbitrary suffix |
| C06 | `Decode` | from the shape of `Decode` |
| C07 | `Decode` | case analysis |
| C08 | `HashKey` as character strings, `netip` printing | injectivity of decimal, hex, dotted quad, RFC 5952 printing; separator arguments |
| C09, C10 | `ComputeDiff`, `ApplyDiff` on lists with key maps | membership characterisations |
| C11, C12, C13, C25, C26 | store state machine (`AddData`) | invariants by induction over histories |
| C14 | same, with a client that holds a snapshot | negation by witness; partial: last change, or history depth one; corrected variant proved in full |
| C15 | retained list as function of the history | induction: closed form of the retained list |
| C16, C17, C18, C19, C20, C21, C22, C23 | `RequestCache`, `RequestNewVersion`, `SendSDs`, `SendData` | computation plus invariants; C17, C19: negation and partial |
| C24 | accept paths per transport | TCP/TLS proved, SSH negation |
| C27 | server answer bytes through client decoder | composition of C02/C05/C22 |
| C28 | handler split at its lock boundaries | negation by interleaving; partial without interleaved update; convergence |
| C29, C30 | per-connection handler | case analysis; C30 negation and partial |
| C31, C32 | connection counting machine | invariant for the well-behaved histories, negation by witness |
| C33, C35 | reader, queue, send loop as a small-step machine | FIFO invariant over all schedules; deadlock witness |
| C34 | many clients with bounded queues and the notifier | negation: blocked state preserved by all steps but the stalled client's |
| C36 | read chunks | negation; partial for one PDU per read |
| C37 | `GetSessionId` with index panic | handler path proved; negation for the race |
| C38-C42 | SLURM filters and assertions | list lemmas; covering specified by address ranges; C39, C40, C41 negation plus partial |
| C43-C48 | `processData` | soundness, completeness, no duplicates, sortedness; C46, C47 negation |
| C49-C53 | refresh state machine | case analysis and invariants; C51, C52 negation plus partial |
| C54-C56 | `FetchFile` with an honest origin server | invariants; C54, C56 negation |
| C57 | trigger channel of capacity one | invariant over all schedules |
| C58, C59 | SSH callbacks, raw base64, SSH wire strings | exactness; prefix-freeness of the key encoding |
| C60-C67 | rtrmon maps and handlers | map lemmas, replay induction; C64-C67 negation plus partial |
| C68 | rtrdump handler over a decoded stream | induction, end-to-end with the server |
| C69 | client loop | induction |
| C70 | `run` wiring | negation |
| C71 | exported list vs served set | negation plus partial |
| C72 | `GetASN2` over character lists | exact characterisation |
| C73-C75 | sender machine, flag wiring | negation; partial where a condition suffices |
| C76-C79 | `processData` | negation by witness for C76-C78; C79 by extensionality of the served sets |
| C80-C82 | refresh machine with notifications, gauges, SLURM | invariants over runs; negation for the drop path |
| C83-C86 | map accesses, update loop | small-step machines |
| C87-C89 | SSH callbacks | exact admission predicate |
| C90-C97 | rtrmon with fetches and sessions | replay of histories; negation by witness |
| C98-C100 | rtrdump, client session, processing a dump | computation; parse/print inverse |
| C101, C102 | texts of prefixes and key identifiers | grammar as inductive predicates (Spec/Text); induction over the scanning loop with the position of `::` |
| C103, C104 | scanner of encoding/json as a state machine over a stack | grammar of RFC 8259 as inductive predicates (Spec/JsonText); completeness by mutual induction over the grammar, soundness by an invariant of the state (what has been read so far) |
| C105-C107 | decoders | per-field specification (Spec/Json), equivalence by composition of exact decoders; for repeated names the history of every place (Spec/JsonRepeat), one lemma per kind of decoder (`Hist`), for lists an invariant over position and history; base64 through bit strings; numbers as rationals, rounded to the nearest `float64` (Spec/Float); end to end with C43, C44, C48 |
| C108, C109 | JSON encoding of export and dump | printer against the grammar of C103, decoding inverts encoding field by field; invariant of reachable states: everything exported came from a file or an exception, so all numbers fit |
| C110-C113 | rtrmon's comparator, shared entries, the page | maps of references into a heap, three goroutines as a transition system with entry by entry scanning; invariant: as long as both sources are idle, the comparison in progress is of the data as it is; the page with the printer of C108 |
| C114 | a router followed through updates, polls and lost connections | a router after RFC 8210 that sends bytes to the modelled server; invariant with the history of the store: position of the router's serial number in it, and what it holds; for lost records: the window that an answer describes never reaches back beyond the last answer |
| C115 | all stages in a row: bytes of the two files, JSON, SLURM, `processData`, store, answer, bytes, router | the text of SLURM files read as RFC 8416 says, entry by entry (`C115_exceptions` without hypotheses on decoded values), then C105-C107, C53, C27 and the router of C114 composed; in `Props/WholeAny.lean` with C105_exact and C107_exact in place of the entry-by-entry reading, for all texts that can be decoded |
| C116 | rtrmon's goroutines as a machine of single channel operations and field accesses over all sessions (Model/MonGo.lean): no panic, no deadlock at `<-c.qrtr`, data as in the sequential model, order, one Reset Query | one invariant over all moves; the rest is refuted by schedules: Reset Query not first, session and serial of different origins, `sendLoop` and `continuousRTR` left behind |
| C117 | the map of a file against the view of a session whose data PDUs carry what the file asks for (`Wanted`, the spec of C53); `C117_session` gets such data from the bytes of the server | both differences as exact sets of names, then by `recName_inj` as exact conditions on the entries; refuted for "quiet" by a file with a default route, an expired VRP and a key in upper case |
| C118 | the accept loop as a machine: queue, the connection in the callback, served, closed (Model/Accept.lean) | bounded turn by a measure on the place in the queue (all transports); the loop can move: TCP and TLS, and SSH if handshakes end; refuted for SSH, where `ssh.NewServerConn` runs in the accept loop without a deadline (lib/server.go:511) |
| C119, C120 | the goroutine of an SSH connection and the three channels of the library (Model/Accept.lean) | one invariant over all events; refuted: any other request before the subsystem request ends the connection (562-565); nothing is answered during a session (560) |
| C121 | `s.connected++` as a read and a write (Model/Accept.lean) | locked goroutines: invariant over interleavings; refuted with the unlocked ones of SSH (517, 569), down to a server that refuses everybody |
| C122, C123 | programs of single accesses to a heap (Model/Heap.lean); a logic of fixed and own cells, stable under what others may do (Proofs/Heap.lean, HeapStore.lean) | invariant over all interleavings (Props/Heap.lean): each goroutine writes only cells of its own; the store refines the model on values; `AddSDsDiff` keeps its argument (refuted) |
| C124, C125 | two goroutines on one client (Model/Notify.lean) | invariants over all interleavings; refuted: the version is read twice (lib/server.go:635, 1016), and nothing keeps a notification out of an answer; what is left without the notifications is the sequential read loop (simulation) |
| C126 | the updating goroutine against all connections (Model/Broadcast.lean), with the store and the request handlers of the other models | invariant: who was answered with an older serial was told, or is in the list still to be notified; exact list of the serials each router is told; refuted: that the notification comes after the outdated answer |
| C127 | the refresh loop with its lists in memory (Model/Slices.lean) | refinement: everything but the exported lists is as with lists as values; the loaded lists stay |
| C128 | the exporter and the arrays behind the exported lists | invariant: what comes after the loaded elements in their array is the one list of assertions; refuted for assertions that change: the export is overwritten |
| C129 | `timeParse` (Model/Time.lean) and a grammar of times with a calendar counted day by day (Spec/Time.lean) | exact for the dialect that Go reads; refuted for RFC 3339 in both directions |
| C130 | the read loop with the labels it counts (Model/Metrics.lean) | by reads: exactly those that begin with a PDU, up to the end of the connection; refuted for merged PDUs |
| C131 | the connections with a gauge for each local address (Model/Metrics.lean) | invariant for single disconnects, SSH included; refuted for double ones; the counter is the sum of the gauges and of open SSH connections |
| C132 | the gauge `change` of `UpdateMetrics` (Model/Update.lean) | for each refresh; refuted for files that change nothing and after a drop |
| C133 | the refresh loop with its ticker and the clock (Model/Ticker.lean) | invariant of all runs: when the loop waits, the tick is due in time |
| C134 | the same, with the number of ticks received | invariant of all runs: the next tick is due no sooner than that many intervals after the start |
| C135 | the same, with what is served (Model/Update.lean) | C133 with C52, for runs with bounds on the time of a refresh and of waking the loop |
| C136 | the start (Model/Startup.lean): one step of the main goroutine, of `serveHTTP` and of each listener at a time | invariant of all runs |
| C137 | the same; what good settings are is said without the model | invariant, and a number of steps that falls with each; runs that fail late are built step by step |
| C138 | `http.ServeMux` as a list of patterns; that of Go 1.23 with the escapes of RFC 3986 | both directions by cases; the longest match by induction over the patterns; the search in the tree by induction over the segments; plain patterns conflict only if they are equal |
| C139 | the answer as a function of the loop's state (Model/Loop.lean) | C57 for the run that continues after the answer |
| C140 | the runs of Model/MonSys.lean with the gauges beside them | invariant: the series are those of the published report; C110 for the quiet states |
| C141 | the runs of Model/MonGo.lean with `rtr_state` beside them | invariant by phase of `Start`'s goroutine; C116 excludes panics |
| C142 | the notifying goroutine over a list of clients, each with reader and sender (Model/Goroutines.lean) | dead states are closed under all steps; from any other state the sender of that client makes room |
| C143 | the router of Spec/Router.lean, which looks at each PDU before it takes it | C15 for the contents of an update, an invariant of the store for repeated records, induction over the PDUs |
| C144 | the machine of `Model/LoopNet.lean`; whether a `start` can come | C142 for one client, induction over the list of those to be notified; a dead client stays dead |
| C145 | instants as integers | values of the 64-bit operations, cases for saturation; C129 for the range of texts |
| C146 | one step per locked section, any number of callers | witnesses for two callers; for calls that do not overlap an invariant that ties the call under way to the store, so that `Model/Store.lean` may take an update as one step |
| C147, C148 | a race is a reachable state in which two goroutines are about to access a field and one to write it | three sound reasons against it (a lock, a single goroutine, the wait group), each an invariant of all interleavings; a schedule for every other field, so that the list of racy fields is exact. For programs with locks such a state is reachable if and only if some execution has two conflicting accesses not ordered by the Go memory model (taken from the literature, not proved here) |
| C149 | sorted with respect to any order that the comparison follows, whatever it says of elements equal in the order | moves within a range or of equal elements anywhere, as the attempt to finish at once leaves its range; what is before and after the range stays before and after it; heap, partition and insertion by their invariants |
| C150 | session mismatch gives an error that the router takes as in RFC 8210, 5.1; an unknown serial number a Cache Reset; then everything is sent | `answered` of the router's proofs for the session that matches, C21 for the one that does not; one of the 65536 draws fits |
| C151 | names of the maps against records of the files | C60 and C61 in names for all files; entries shown are those of records of the newest file; names are injective for identifiers without dashes and slashes |
| C152 | `processRead` for Error Reports | acceptable versions: no effects at all; others: exactly one Error Report of code 4; both RFC rules refuted |
| C153 | causes of Error Reports | `Cause`: three causes, each with its code, in both directions; bytes that cannot be decoded and other PDUs are not reported |
| C154 | copies in Error Reports | from C153: the copy is always empty; right for code 2 only |
| C155 | first PDU of an unknown version | the report has version 0, or the server's if enforced; the router then gets no router keys |
| C156 | `RoutineRun` with a log of notifications | counted by refreshes, these by C134; a minute apart after a failed first load; two close ones without triggers |
| C157 | grammar `Spec.Reads` of command lines | accepted iff readable with readable texts; the reading is unique; last value or default; otherwise status 2; texts of switches and numbers exactly |
| C158 | texts of integers and durations against decimal numerals | integer literals (`Spec.Literal`) exactly; numerals without leading zeros exact; with leading zeros never (two digits or more); number with unit exact; parts with fractions exact if short, else within 1.03 ns for each, by rounding errors of the floating point operations |
| C159 | names of log levels | the eight names; every other name accepted as the level panic |
| C160 | flags of rtrdump to its first query | exact if the values fit; witnesses of values cut off |
| C161 | two command lines that differ in one flag | exact: ten flags change nothing, each other flag something; a table of witnesses for the others, non-interference for the ten |
| C162 | prefix PDUs against RFC 8210, 5.6, 5.7 | exact decoding of every prefix PDU; what the clients make of impossible lengths |
| C163 | logs as files of lines | prefix codes: UTF-8, quoting, values, entries; injectivity of the texts; forged entries on a terminal |
| C164 | two runs with the same fetches and times, equal but for gauges and announced serials | each function of the refresh commutes with replacing gauges, announced serials and the two settings; induction over the refreshes |
| C165 | the lines of the documentation against what is said beside them | parsing is independent of the build; C148 (startup) on the settings that result; listeners with one address |
| C166 | the texts printed in the README | decoding evaluated by the kernel; for all cache files by C115; refused as no JSON, refused without a build time |
| C167 | tables of names and defaults, one relation per setting | by C157: the last text given for a flag; per type of flag one lemma, per setting the entry of the table |
| C168 | table of codes and words, layout of the bytes | along C153: each cause has its report; the three reports by evaluation |
| C169 | texts in UTF-8 (C103), tables of series | validity of texts by induction; the programs with and without recording agree; the panic for names that are not UTF-8 |
| C170 | references and escapes of HTML and URLs (RFC 3986), written apart | reading undoes escaping, byte by byte; segments of an escaped path; the directory, the colon and the question mark as counterexamples |
| C171 | Serial Queries and sessions counted over any stretch of a run; the last End of Data of a list of events | an invariant of the phase of the timer: queries times the interval do not exceed the time passed; the intervals of the cache and an interval that is not positive as counterexamples |
| C172 | lengths of lists, channels and maps | an invariant of the change sets, newest first; leaking goroutines of C35 for any number of connections, and sessions of one record each, as counterexamples |
| C173 | HTML tokens (tags with quoted values, texts with character references); lists with one description per line | reading in pieces: escaped settings leave the reader where it is |
| C174 | the records that a list of entries asks for; histories of all servers | an invariant: every loaded list and every export asks for what an export of the first server asked for; induction on the length of the chain; three concrete chains as counterexamples |
| C175 | `RemovedBy` and `AssertedBy`: what filters and assertions say about a record | C38, C40 and C41 for entries that give a record; set algebra; C71, C53 and C108 for the server behind; two concrete servers as counterexample |
| C176 | the way from the first server to a server; the loads as a list, of which the way is a sublist | an invariant of all servers in all runs (what is served is what was loaded last, and the hash is of it); induction on the loads |
| C177 | the texts of the files; the prefixes, AS numbers and keys they name | decoding evaluated by the kernel; for all cache files by C175, for all servers and times by C50 and C53 |
| C178 | the way through the local exceptions, as a fold over the servers on the way: remove what the filters match, add what is asserted | the invariant of C176 with local exceptions, C175 at each server; filters commute, assertions do not (witness) |
| C179 | the records that one server serves and another does not | names of a file whose entries can all be served are names of the records asked for; C71 says the export asks for what is served; C151 and C117 compare |
| C180 | the records of the router before and after | no answer to any serial number announces what is not served or withdraws what is, so it changes nothing for a router that holds what is served; C150 for other sessions; C176 for settled servers |

## Disagreements between the code and the properties

For every property that the code does not have as stated there is a theorem `Cnn_..._false` with a concrete witness (or for all inputs). The list is made from the
comments of these theorems by `tools/gen_design.py`.

<!-- begin false -->
* `C10_withdrawn_prev_false`: The flag hypothesis of C10 is needed: a withdrawn record in `prev` survives its removal.
* `C14_incremental_false`: The code does not have this property, for any retention limit: emptying and refilling the store loses the withdrawals.
* `C14_two_behind_false`: Even without emptying the store: with the retention limit of 3 that stayrtr configures (cmd/stayrtr/stayrtr.go:757), a router that missed two changes gets an empty update and keeps its old data under the new serial.
* `C15_distance_is_changes_false`: The specification asks for `d` changes at distance `d`; the code does not do that.
* `C17_duplicate_announcement_false`: fails: a record that was withdrawn and announced again is announced to a router that still holds it.
* `C24_ssh_false`: It fails on SSH: a Reset Query on a fresh SSH connection is answered with the Router Keys.
* `C28_race_consequence_false`: What follows for the router: its next query is answered by an update that announces what it already holds.
* `C28_race_false`: The code does not have this property: an update between the reads of serial and data gives new data under the old serial.
* `C30_served_after_error_false`: The code does not have this property: a Reset Query of a wrong version is refused and answered all the same.
* `C31_closed_by_server_false`: Nor if the server disconnects an idle client (`SetMaxConnections`): closing the connection makes the reader's `Read` fail, and it calls `Disconnect` again.
* `C31_double_disconnect_false`: The code does not have this property: one packet of a router can make the server disconnect it twice (a Serial Query of a wrong version and with a wrong session), after which the counter is -1 with no client connected.
* `C31_ssh_false`: Nor for SSH: a connection counts twice, in `acceptClientSSH` and in `ClientConnected`.
* `C32_miscount_false`: Nor without any race, once a client was disconnected twice (C31): after that one client too many is admitted.
* `C32_race_false`: The code does not have this property: a second connection can be accepted before the first is counted.
* `C34_stall_false`: The code does not have this property: one peer that asked for 256 records or more and does not read blocks the notifying goroutine before the second client. That goroutine is the one that performs the updates (cmd/stayrtr/stayrtr.go:430, 539-629).
* `C35_reader_leak_false`: Nor by the other goroutine: a Reset Query of an unacceptable version to a server whose answer has at least 256 PDUs. The reader is told to drop the connection but goes on to send the answer; with `sendLoop` gone it blocks for ever on the full channel.
* `C35_sender_leak_false`: The code does not have this property: the peer goes away while `sendLoop` is between its loop condition and its `select`; the signal on `quit` is lost and `sendLoop` waits for ever, never closing the connection.
* `C36_merged_false`: The code does not have this property: of two requests in one segment the second is lost.
* `C36_split_false`: And a request that arrives in two segments costs the connection.
* `C37_notify_version0_false`: With protocol version 0 it can panic: between `checkVersion` and the downgrade in `HandlePDU` the client is seen with version 1.
* `C38_malformed_false`: A VRP with a prefix that does not parse is removed by a filter for an unrelated prefix; one whose ASN does not parse is removed by a filter for AS 0.
* `C39_removes_all_false`: A filter with a malformed prefix and no ASN removes everything; so does a filter whose prefix is given a length but no address, and the one for a bare address.
* `C40_order_false`: Of a SKI with a bad digit the part before the bad digit is compared, but only by the second filter that looks at it, so the outcome depends on the order of the filters.
* `C41_length_false`: A maximum length of 280 becomes 24: instead of being refused, the assertion authorises other announcements.
* `C41_parsers_false`: An assertion that `net.ParseCIDR` accepts can have a prefix that later stages cannot read: the VRP made of it is dropped later.
* `C43_range_false`: An ASN that is not a 32-bit number does not stop an entry: some other ASN is served for it.
* `C46_update_false`: After an update the order of processing is gone: the new sub-prefix is sent after the covering prefix that was there.
* `C47_apart_false`: VRPs for one prefix with different maximum lengths are separated by VRPs for other prefixes.
* `C49_expiry_false`: A refresh whose fetch fails withdraws an entry that expired.
* `C51_early_false`: Data can also be dropped too early: the exported build time is not renewed when a newer file has the same content. Here the file built at 20 hours is dropped at 25 hours.
* `C51_expired_false`: For instance: after `n` refreshes, 25 hours and more after the build time, the VRP that expired at second 100 is still served.
* `C51_generated_false`: If the exported file has only a `generated` time, a new file that is too old does not lead to dropping either.
* `C51_unchanged_false`: As long as the file does not change, nothing is ever withdrawn once it is older than 24 hours: not the file, and not even its expired entries.
* `C52_duplicate_key_false`: With a router key twice in the file only the numbers of records are compared, and they can agree: the key that expired at second 100 is still served at second 101, and forever.
* `C53_missing_false`: A file without `roas` is accepted, but what is served stays as it was.
* `C54_cut_off_false`: After one download that was cut off, a correct server that keeps offering that version is never asked for it again: every later request is answered 304, and nothing changes any more.
* `C55_empty_tag_false`: If the server sends no `ETag`, the next request carries an empty `If-None-Match` header.
* `C56_never_false`: The last-refresh gauge and the status code counter are never set: `FetchFile` gives them only together with an error.
* `C61_identical_false`: A 200 answer with the ETag of the answer before is no sighting: the record is listed at 100 and at 5000, is gone at 5060, and is dropped at once though it was listed within the grace period of an hour.
* `C62_clock_false`: The clock is read for every threshold. If it advances by 2 seconds between the readings for the thresholds 0 and 1, the count for 1 second is higher than the one for 0 seconds.
* `C63_view_false`: It does not hold for records whose prefix length is too large: they all have the same name. Two different records are announced, one of them is withdrawn, and neither is left. The bytes are decoded as such PDUs.
* `C64_exact_false`: It fails in general: with `-primary.rtr.break`, the server has records 1 and 2 in the first session and only record 1 in the second; the monitor publishes both for ever.
* `C65_never_false`: Nothing else makes the monitor send a Reset Query: whatever is received and however long it waits, without a new session only Serial Queries are sent. So a Cache Reset is never followed up.
* `C65_stuck_false`: A concrete session: the server answers the Serial Query with Cache Reset, and from then on gets the same Serial Query again and again; the published data stay as they are.
* `C66_flags_false`: The flags have no effect: whatever they say, `main` sets up both sources so that every certificate and every host key is accepted.
* `C67_key_false`: It fails for a key identifier in upper case, which stayrtr accepts: the file and what is served from it have different names.
* `C68_partial_file_false`: Answers that are not well framed are written as if they were complete: an Error Report or a Serial Notify (which the server may send at any time, see C99) right after the first data PDU ends the session, and a file with one of the records and serial 0 is written.
* `C68_withdrawal_false`: With `-serial` (a Serial Query) withdrawals are written like announcements.
* `C70_maxconn_false`: The code does not have this property: whatever `-maxconn` says, no limit is set.
* `C70_nodelay_false`: Nor for `-enable.nodelay`: it never has an effect.
* `C71_dropped_false`: After everything was dropped the export still lists it.
* `C71_invalid_false`: The export lists entries that are not served, and entries twice.
* `C73_report_lost_false`: The code does not have this property: `sendLoop` finds `connected` false and returns with the report still in the channel.
* `C74_unsupported_false`: The code does not have this property: an unsupported version is not refused; the server silently runs version 0.
* `C75_unchecked_false`: The code does not have this property: values are not checked; a negative one is announced as about 136 years, 2^32+1 as one second.
* `C76_default_route_false`: No VRP for a default route ever comes out, although one is a valid ROA and could be sent.
* `C77_host_bits_false`: An entry with host bits is served as it is, next to the entry for the same prefix without: a router gets two announcements for one VRP.
* `C78_twice_false`: A router key that is twice in the file is served twice: after the first load the full set contains it two times.
* `C80_dropped_false`: Nobody is told when everything is dropped.
* `C81_dropped_false`: After everything was dropped the gauges still tell of one VRP, and of the old serial.
* `C81_keys_false`: A router key twice in the file is counted twice though it is served once.
* `C82_never_again_false`: And if the SLURM file is not refreshed (`-slurm.refresh=false`), it is never tried again.
* `C82_open_false`: A SLURM file that is configured but cannot be fetched at the start does not hold anything back: what it would filter out is served.
* `C83_race_false`: Go stops the program ("concurrent map read and map write") when a map is written while it is read or written: with both files at URLs one goroutine can compare tags while the other stores or forgets one.
* `C84_hang_false`: The request has no time limit (utils/utils.go:57-73 limits only dialling and the TLS handshake). If a fetch never ends, then nothing the program does from then on is a refresh: for every run in which the running refresh does not end, no refresh starts, and at most one further trigger is accepted.
* `C85_short_false`: An interval of 584 years is accepted and works, as one of less than a third of a second.
* `C85_zero_false`: The interval 0 is accepted on the command line and ends the program when the loop starts.
* `C86_start_false`: A SIGHUP before the first load has ended ends the program.
* `C88_blank_false`: With password authentication enabled and no password given anywhere, the configured user gets in with the empty password.
* `C89_key_any_user_false`: With a key any user name is admitted, whatever `-ssh.auth.user` says.
* `C90_interrupted_false`: It fails when the transfer of a new content breaks off: its ETag is remembered all the same. The server's content changes from x (the first record) to y (the second record); the transfer of y is interrupted; from then on the server answers "not modified", and the monitor goes on to show the first record as present, seen just now. All answers are those of a correct server.
* `C91_first_seen_false`: Over sessions it fails: a record the server has announced at 1000 and still announces at 5000 is first seen at 5000, so it is not counted for any threshold above zero, though the other source never had it.
* `C92_lost_false`: It fails: when the connection is lost, or a new one cannot be made, the program ends; nothing happens afterwards, for either source.
* `C93_total_false`: It fails for a file source: the total counts records that the file no longer lists.
* `C95_rtr_false`: With an RTR source `vrp_diff` does not have its meaning: a record that both sources had for hours and that the RTR source withdrew at this very moment is counted as missing there for every threshold.
* `C96_secondary_false`: For the secondary source it fails: with the method password, the environment is not looked at; with the method key, the password of the command line is thrown away.
* `C97_same_url_false`: With the same URL for both it fails: the second client asks for changes since the content that only the first one has, is told that there are none, and shows nothing. A source then differs from itself.
* `C99_early_notify_false`: Without that it fails: a server whose version is 1 sends a Serial Notify of version 0 to a router that has connected and not yet asked for anything. The session of a client that supports version 1 is then of version 0 for good, and it gets no router keys.
* `C100_checktime_false`: With the check of the build time, which is on by default, it fails: the dump has no build time, which cannot be read then, and the file is refused. (That the empty text is no time is an assumption on `time.Parse`.)
* `C103_trailing_false`: What comes behind the JSON text is not looked at: a file that is no JSON text loads.
* `C103_utf8_false`: A file that is not UTF-8 loads, if the bytes that are wrong stand inside strings.
* `C105_fraction_false`: An AS number with a fraction is cut to an integer; a number too large for a `float64` as AS number makes the file unreadable.
* `C105_repeated_false`: Not so with repeated names: the second list of VRPs keeps the AS number of the first, and a VRP is loaded that stands nowhere in the file.
* `C106_empty_key_false`: An entry of `bgpsec_keys` that says nothing is served all the same: as a router key of AS 0 with an empty key identifier and an empty key.
* `C106_type_false`: But an entry with a value of the wrong type or out of range makes the whole file unreadable: next to a good entry, a maximum length of 300, a maximum length as text, or a prefix that is a number.
* `C107_lenient_false`: RFC 8416 (section 3.1) has a version number of 1, and any deviation is an error. Here another version, unknown members and missing members are none.
* `C107_unpadded_false`: RFC 8416 (sections 3.3.2 and 3.4.2) writes key identifiers in base64 without padding: 27 characters for 20 bytes. No such text can be read, whatever the identifier; a file with one is refused as a whole.
* `C108_counts_false`: The export does not say how many router keys there are, nor the serial: the members are there and always zero.
* `C108_generated_false`: The export leaves out `generated`: a server that checks build times serves a file whose build time is given that way only, and refuses its own export of it.
* `C109_keycount_false`: The number of router keys in the metadata is zero however many there are.
* `C111_stays_false`: **C111 is false.** The primary source reads a new file without a record of the published difference, and before the comparator has run again the difference says that the record is only in the primary source and is not visible there.
* `C113_never_false`: **C113 is false.** A source that was never fetched is published with a time in the year 1754: the zero time does not fit 64 bits of nanoseconds.
* `C114_behind_false`: The code does not have the property. With the retention limit 3 of stayrtr (cmd/stayrtr/stayrtr.go:757): a router that missed two changes is told that there is nothing new.
* `C114_race_false`: Nor for a router that asks after every change, if a change comes between the two reads of the store that an answer takes (lib/server.go:101, 108): the answer to the router, one behind at the first read, is taken at distance two and is empty.
* `C115_filter_false`: It is false of a SLURM file with a filter that cannot be read. The two files ask for three VRPs and a router key, as 10.0.0.0/33 is no prefix and so nothing is taken out. Both are loaded, and none of the VRPs is served: no router gets them.
* `C116_first_false`: fails in part: the Reset Query need not come first. `close(c.unlock)` comes before `SendResetQuery` (cmd/rtrmon/rtrmon.go:570-571), so with a short refresh interval the first query of the very first session is a Serial Query, with session 0 and serial 0.
* `C116_pair_false`: fails in part: a Serial Query may name a session together with a serial that this session never had. Between the Cache Response of a new session and its End of Data the timer sends the new session id with the serial of the session before (cmd/rtrmon/rtrmon.go:533, 558, 610).
* `C116_sender_ends_false`: fails in part: `sendLoop` may outlive its session for ever. If `Disconnect` comes when `sendLoop` has checked `connected` but does not wait yet, the non-blocking send to `quit` finds nobody (lib/client.go:78-79, 96-100), and nothing wakes `sendLoop` later.
* `C116_ticker_ends_false`: fails in part: `continuousRTR` may outlive its session. It reads the field `c.qrtr` anew in every round (cmd/rtrmon/rtrmon.go:606-607); if the session ends and the next one begins between two rounds, it waits for the end of the new session and goes on queueing queries for the old one.
* `C117_quiet_false`: So a stayrtr that does all it should does not keep rtrmon quiet: with this file three names are listed as missing over RTR and one as missing in the file, however long both sides have been the same, and they are counted above every threshold (here two days after the file was first seen).
* `C117_reconnect_false`: After a reconnect it is worse. A VRP is taken out of the file, stayrtr stops serving it and says so in a new session: for rtrmon it is still there over RTR and is listed as missing in the file. Another VRP is added to the file that the server once had and serves no more: it is not listed.
* `C118_ssh_false`: Not so on SSH: a client that does not finish its handshake keeps everybody else out for good, with all slots free.
* `C119_env_false`: A client that sends another request first is not served, though it asks for rpki-rtr: any request that is not for the subsystem, such as the environment variable of RFC 4254 section 6.4, ends the connection.
* `C120_keepalive_false`: A client of `C120_session_false`: in its session it asks whether the server is alive, three times.
* `C120_session_false`: During a session nothing else that the client sends is answered: neither the keepalives of the SSH client, which are global requests that want a reply, nor other channels, nor other requests.
* `C121_mixed_false`: The lock of the others does not help: one goroutine that locks and one that does not are enough.
* `C121_slot_false`: What that costs: two SSH connections come one after the other and go at the same time; nobody is connected, the counter says 1, and a server with one slot refuses everybody from then on.
* `C121_ssh_false`: Not so on SSH, where the goroutine of a connection counts without the lock: of two connections that begin at once, one can be left out of the count.
* `C123_diff_false`: **C123, what fails.** `AddSDsDiff`, which is exported, keeps the slice and the records it is given in the list of diffs: a caller that goes on to change one of its records changes what routers are sent. `AddData` makes its records itself and is not affected.
* `C124_race_false`: **C124, what fails.** A router's first query can arrive between the two reads of the version by a notification: the Serial Notify then has version 1 and the session id of version 0. RFC 8210 (section 5.1) makes a router that finds another session id drop the session and flush all data of the cache.
* `C125_interrupted_false`: **C125, what fails.** A Serial Notify can come in the middle of an answer. rtrdump of the same repository ends its session at that point and writes the part of the data that it has (`C68_partial_file_false`).
* `C126_overtaken_false`: **C126, what fails.** The Serial Notify need not come after the answer that it makes outdated: a router that heeds only what comes when it is not waiting for an answer does not learn of the update before its refresh interval is over.
* `C128_overwritten_false`: The code does not have this property. `FilterAssert` without filters appends the assertions to the slice of the loaded file, in its array, where the assertions of the last update are, which are exported. Here a second SLURM file overwrites the sixth VRP of the export with the first; the served set stays the same, so nothing new is exported, and from then on the sixth VRP is served but not in the export, and a response that was being written changes under the hands of the encoder.
* `C129_lenient_false`: Texts that are no times of RFC 3339 are read all the same: an hour of one digit, a comma before the fractions, an offset of 24 hours and 60 minutes.
* `C129_refused_false`: Times of RFC 3339 are refused: in lower case, and in a leap second. With the check of the build time such a file is not applied.
* `C130_merged_false`: The code does not have this property: of two PDUs in one segment only the first is counted.
* `C131_double_disconnect_false`: The code does not have this property: one packet can make the server disconnect a router twice (see `C31_double_disconnect_false`), and the gauge becomes -1.
* `C132_dropped_false`: Nor if everything is dropped: then the gauge is the time of the file before.
* `C132_same_records_false`: The code does not have this property: a file that changed, but not in what is to be served, does not move the gauge.
* `C133_short_false`: Before the first cache file was loaded, the next attempt is due after 30 seconds, even if the flag says 10.
* `C135_late_false`: A VRP that has expired after 100 seconds is still served after 149 seconds, with a refresh interval of 150 seconds.
* `C136_http_false`: But the HTTP server may answer before the first load, for as long as that takes, and what it exports then is a list without payloads and without a list of them.
* `C137_late_false`: Mistakes found late, if the address for TCP is good: the certificate for TLS does not load; or, without TLS, the host key for SSH does not load; or, with neither, the refresh interval is not positive or too long; or the path for metrics cannot be registered.
* `C137_port_false`: So does an address that is taken: two listeners on the same address, of which the second cannot listen.
* `C138_blank_false`: C138 is false of paths with blanks: what comes before the blank is taken for a method, and both programs panic.
* `C138_panics_false`: What the flags accept can make the programs panic: the path of the metrics used for the export, too; a path without its slash; rtrmon with an empty name for the file.
* `C138_slash_false`: C138 is false of rtrmon with a slash before the name of the difference: the difference is not answered on that path but the index is, and a request with both slashes is redirected; it is answered in every directory instead.
* `C138_wildcards_false`: C138 is false of paths with braces, which stand for all paths: with this name every path at the top level is answered with the difference; with dots in the braces, every path at any level; and of paths with a method, which are answered for that method only.
* `C140_same_url_false`: With the same URL for both sources the two series `vrp_diff` of a threshold are one, which has the count of the second direction, also when the first one differs; and the two counts of entries in the grace period are one series, too, which has the count of whoever wrote last.
* `C141_edges_false`: **C141 is false at the edges.** A monitor that is connected may show nothing at all (before the Reset Query), and one that has dropped its session still shows 1; if the cache cannot be reached at the start there is never a series, for the program ends; and when the cache closes the connection the program ends too, so that the 0 of a lost session is shown only until then.
* `C142_deadlock_false`: The code does not have this property: a router asks for 256 records, closes the connection before they are written, and the notifying goroutine, whose copy of the client list still has that client, waits for ever, whatever anyone does.
* `C142_forever_false`: What the others lose: from then on no client of the rest of the list is notified, and the notifying goroutine, which is the one that refreshes the data (cmd/stayrtr/stayrtr.go:539-629), never returns from the call.
* `C143_behind_false`: The code does not have the property: with the retention limit 3 of stayrtr (cmd/stayrtr/stayrtr.go:757), a router that missed three changes is announced a record that it holds. RFC 8210 (section 12) makes it send an Error Report with code 7 and drop the session.
* `C143_race_false`: Nor for a router that asks after every change, if one comes between the two reads of the store that an answer takes: it gets the new data under the old serial number, and with the next answer the same once more.
* `C144_frozen_false`: What that means: whatever comes, timer, SIGHUP or update endpoint, the refresh does not end and no other begins; what is served stays as it is, however old, and whatever the file says.
* `C144_stuck_false`: The code does not have this property: a router that asks for 256 records and closes its connection stops refreshing for ever, of the data of all routers.
* `C145_far_false`: The code does not have the property: a file that says it was generated at the end of the year 292,277,026,596 or later is too old, at any time of the clock.
* `C146_lost_false`: The code does not have the property: the lock is given up between the three parts of an update.
* `C146_mixed_false`: And the set that is served in the end need not be one that was asked for.
* `C146_router_false`: What that does: both sets were served, the first under the serial 0 and the second under 1, but a router with the first is told of no withdrawal and keeps a record that is not served.
* `C147_connected_false`: **C147, what fails: whether a client is connected.** `Disconnect` writes it (lib/server.go:1021) while `sendLoop` reads it (747).
* `C147_count_false`: **C147, what fails: the number of connections.** An accept loop compares it with the limit without the lock (lib/server.go:587), while a connection that has come or gone changes it.
* `C147_count_ssh_false`: On SSH two goroutines change it at once, both without the lock (lib/server.go:517, 569; C121 says what that does).
* `C147_hash_false`: **C147, what fails: the hash of the cache file.** `updateSlurm` logs it in place of its own (cmd/stayrtr/stayrtr.go:518), while `updateFile` replaces it (485).
* `C147_lastts_false`: **C147, what fails: the time of the last refresh.** `updateFile` sets it (cmd/stayrtr/stayrtr.go:464) while `updateSlurm` reads it for its metric (505); a `time.Time` is three words, and what is read may be made of two times.
* `C147_version_false`: **C147, what fails: the version of a client.** `NotifyClientsLatest` reads it without a lock (lib/server.go:635, 1016), while the connection settles it with the first PDU (721) or lowers it (460); C124 says what that does.
* `C148_channels_false`: **C148, what fails: the channels of a session.** They are fields, replaced for the next session (cmd/rtrmon/rtrmon.go:313-314), while a `continuousRTR` of the session before still reads them (600-607).
* `C148_client_false`: **C148, what fails: the version and the state of a session** (lib/client.go:69 against 123, 78 against 91).
* `C148_serial_false`: **C148, what fails: the serial.** End of Data stores it under one lock (cmd/rtrmon/rtrmon.go:533), `continuousRTR` reads it under none (610), the comparator under another (622).
* `C148_serial_page_false`: The lock of the comparator is another one, and does not help.
* `C148_session_false`: **C148, what fails: the session id.** It is stored without any lock (cmd/rtrmon/rtrmon.go:558).
* `C148_visible_false`: **C148, what fails: the records of a file.** A record that has left the file is marked in place (cmd/rtrmon/rtrmon.go:434), without a lock, while the comparator looks at it (694-695) or a page with it is written (760); C111 says what that does.
* `C149_contract_false`: The comparison of `processData` is not what the documentation requires: a VRP is less than itself.
* `C149_stable_false`: So VRPs that are in order already are not left as they are, and sorting twice is not sorting once.
* `C150_mistaken_false`: The code does not have the property: a router whose session and serial number happen to be those of the server keeps what it held, whatever that is, however often it asks.
* `C150_restart_false`: The witness in full: a server with the session id 7 served one record. Started again, with the same id by chance, it serves another. The router keeps the old one for good.
* `C151_hidden_false`: The code does not have this property: a router key entry whose key identifier is the text of a prefix hides a VRP. One file has the VRP and the other only the entry: nothing is listed on either side. In the same file, the entry takes the place of the VRP: then the VRP is not listed either if the other file is empty.
* `C152_answered_false`: An Error Report of an unacceptable version is answered by one.
* `C152_fatal_false`: A fatal error that a router reports does not end the session.
* `C153_accepted_false`: PDUs that no router may send are taken without a word, and the connection stays.
* `C153_silent_false`: Bytes that cannot be decoded cost the connection, and no Error Report tells the router why.
* `C154_copy_false`: A query of another version is reported without the query.
* `C155_keys_false`: What comes of it: the router connects again with the version it was told, and gets no router keys, though the server has one and would have sent it to a router of version 1.
* `C155_told_false`: A router that starts with version 2 is told version 0 by a server of version 1.
* `C156_asked_false`: Two signals a second apart.
* `C156_close_false`: With a refresh interval of ten minutes and no triggers: the refresh of the first tick takes 599 seconds, the next one begins a second later, and both bring changes.
* `C158_fraction_false`: **C158 (fails)** Fractions are computed with floating point numbers and lose nanoseconds: 0.12727047794750h are 458173720611 ns, and one less is read.
* `C158_timer_false`: **C158 (fails)** With `-rtr.expire 07200` the routers are told 3712 seconds.
* `C158_zero_false`: **C158 (fails)** No number of two digits or more that is written with a zero in front is read as it is written: it is refused, or read as octal.
* `C159_unknown_false`: **C159 (fails)** Every other name is accepted, and means the level at which nothing is logged but a panic.
* `C160_query_false`: **C160 (fails)** A serial and a session that do not fit are cut off, and any negative version means version 0: rtrdump asks for something that is not on the command line.
* `C161_idle_false`: **C161 (fails)** Ten flags of the three programs change nothing on any command line, whatever there is outside.
* `C161_refresh_false`: **C161 (fails)** The flag `-refresh` of rtrdump is accepted and changes nothing: not what is sent, and not the file.
* `C162_dump_false`: **C162 (fails)** rtrdump writes such entries into its file as if nothing were wrong; and also a maximum length less than the length.
* `C162_refused_false`: **C162 (fails)** No prefix PDU is refused for its lengths.
* `C162_text_false`: A prefix with more bits than its address has, whatever its address and its length, is written "invalid Prefix" by the clients; stayrtr does not read that text as a prefix.
* `C163_key_false`: C163 for all PDUs is false: the text of a Router Key says nothing about it, and all prefixes with impossible lengths are "invalid Prefix".
* `C163_terminal_false`: C163 on a terminal is false: a server can write any entry into the log of rtrmon. One Error Report, which its wire format can carry, looks like one with the message `m` and an entry `f` of any level, at any time. (The entries that rtrmon itself writes about Error Reports are of level info, which is the default, cmd/rtrmon/rtrmon.go:564, 110.)
* `C165_first_false`: **C165 (fails)** With the first line of the documentation the program ends, in every schedule, and never serves TLS: no certificate is given.
* `C165_integration_false`: **C165 (fails)** The line of the integration test is refused, with status 2: there is no flag `-verify`.
* `C165_tls_false`: **C165 (fails)** With the documented line for TLS the program ends, in every schedule, and never serves both TCP and TLS: the address is also the default of `-bind`.
* `C166_schema_false`: **C166 (fails)** A file that follows the schema has no build time and is never served with the check of the build time, which is on by default: at no time, neither at the start nor at a refresh. (That the empty text is no time is an assumption on `time.Parse`.)
* `C166_slurm_false`: **C166 (fails)** The sample as it is printed is no JSON, for its commas after the last members: it is not loaded, whatever is loaded at that time stays, and a server that starts with it serves all that its cache file asks for. In particular the VRP which the README says will be removed is served.
* `C169_path_false`: A cache file whose name is not UTF-8: with metrics the first load that is to be served ends the program; without metrics the same load is served.
* `C169_source_false`: A source whose name is not UTF-8 ends rtrmon: with its first file, its first session, or the first comparison.
* `C170_directory_false`: C170 is false in general: the index answers for every path that nothing else answers for, and in a directory its relative link to the difference leads back to the index.
* `C170_names_false`: C170 is false in general: names that are no paths for a browser. A colon in the first segment is taken for a protocol, and the link stays on the page; a question mark begins a query; and with a slash before the name both the link and the path lead elsewhere (C138_slash_false).
* `C171_expire_false`: And as to the Expire Interval: data are shown a year after the End of Data that allowed two hours ("The router MUST NOT retain the data past the time indicated by this parameter"), the cache having answered nothing since although it was asked.
* `C171_refresh_false`: is false as to the Refresh Interval: the cache is asked again after the interval of the command line, ten minutes by default, though it said an hour ("The router SHOULD NOT poll the cache sooner than indicated by this parameter", RFC 8210 6) and nothing came from it since.
* `C171_zero_false`: An interval that is not positive is accepted on the command line (`flag.Duration`, cmd/rtrmon/rtrmon.go:66, 77) and there is no limit to how often the cache is asked: any number of Serial Queries can reach it in no time, one after the other without waiting for an answer.
* `C172_goroutines_false`: is false of the connections: any number of routers that have gone away can have left a goroutine each behind, which waits for ever and never closes its connection.
* `C172_monitor_false`: is false of rtrmon: it has the records of all sessions, one for each, though the cache never had more than one (the map of a source is never emptied, cmd/rtrmon/rtrmon.go:245-252, 481-485; up to the number of ASNs here).
* `C172_twice_false`: Without the condition that no list has a record twice it is false: two lists of two entries, and three records are served.
* `C172_unlimited_false`: A store told to keep all change sets (`KeepDifference` 0, lib/server.go:387; stayrtr always has 3) would grow with every change, though one record is served at all times.
* `C173_address_false`: **C173, false.** If the program listens on one address, there is no name to be put in the place of `[host]` that makes the URL of the metrics of it: the address stands there already.
* `C174_dropped_false`: **C174, false after all was dropped.** When the first server drops everything because its files are too old, its export stays as it is. It is no new file for a server behind it, which goes on serving.
* `C174_expiry_false`: **C174, false for expiry times.** Likewise the export keeps the old expiry times when a new file prolongs them: the first server serves the VRP, those behind it withdraw it or do not get it.
* `C174_quiet_false`: **C174, false for build times.** The export keeps the build time of the file with which the served set changed last. A server whose files are new but say the same for a day goes on serving, and its export is too old for a server that starts behind it: that one serves nothing.
* `C175_asserted_false`: **C175, false for what is asserted.** RFC 8416 has filters apply to the validated data, not to assertions. With two servers, one behind the other, the second one's filters also remove what the first one asserts: with both local exceptions on one server, the assertion is served.
* `C176_empty_false`: **C176, false for an export without entries.** The first server's file has become empty. The second one is started anew, and finds nothing to change: its export is then that of a server without a file (`"roas":null`), and the third server, which receives it, goes on serving the VRP it had, as often as it loads.
* `C178_order_false`: **C178, false for any order.** Of servers one behind the other with local exceptions of which one filters what the other asserts, the last one serves different records in the two orders; so does the way through the exceptions.
* `C179_dropped_false`: **C179, false for servers that serve nothing.** A server that has dropped what it served because its file has become too old goes on exporting it: rtrmon shows no difference from a server that serves it.
* `C179_expired_false`: **C179, false for expiry times.** A server whose VRP has expired no longer serves it but goes on exporting it, and rtrmon, which does not look at expiry times, shows a difference from a server that serves the same.
* `C179_unserved_false`: **C179, false for entries that are not served.** Two servers have loaded the same file last and serve the same; the one that had loaded a file with an unusable VRP before goes on exporting it, and rtrmon shows a difference.
* `C180_gap_false`: **C180, false in between.** With another session, which is what the router has unless by chance, it holds nothing after asking once, whatever it held.
<!-- end false -->
