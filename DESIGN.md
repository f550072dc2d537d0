# Formal model of timmathews/argo in Lean 4

## 1. Approach

The Go source in `/repo` is read as text and transcribed, function by function, into small total Lean
functions. Each definition cites file and lines. Properties (`properties.jsonl`, C01..) are theorems in the
`Props*` and topic files, stated against specifications (`*/Spec.lean` and the `## Specification` section at
the head of a topic file) that do not use the model's helper functions.

Conventions (`lean/Verif/Go.lean`):

* `GoM α = Except Panic α`: a Go function that may panic (index or slice out of range, nil map write, nil
  dereference, failed type assertion, close of a closed channel).
* a Go `(T, error)` result is a value *inside* `GoM`; an error is a value, a panic is not.
* A Go slice is `Slice`: the visible bytes plus the *spare* bytes between `len` and `cap`. `s[lo:hi]` succeeds
  iff `lo ≤ hi ≤ cap`. `append` into a full slice reallocates with an arbitrary amount of zeroed slack given by
  a parameter; theorems quantify over it.
* `byte` is `UInt8` (wraps). The `uint64` of `extractNumber` is `BitVec 64`. `uint32`/`int` are `Nat`/`Int`
  where no overflow is possible, with explicit `% 2^32` where it is; each choice is noted at the definition.
* A float result is kept as the exact integer and the scale it is multiplied with; `Verif/Float` computes what Go makes of it
  (IEEE rounding) and prints.
* Goroutines and channels are labelled transition systems; theorems quantify over all schedules (lists of
  events). Map iteration order is a parameter (any permutation).

If the English property is false of the code, the false statement is refuted by a theorem whose name ends in
`_false` (concrete witness, or universally if it always fails), and the true part is proved as `_partial` or as
an exact characterisation. In the manifest such a property is `partial`.

## 2. Plan per property

| id | modelled | proof |
|----|----------|-------|
| C01 | `write` byte for byte | equality with spec envelope; checksum identity by induction |
| C02 | `write` + Read state machine | iff theorem |
| C03 | Read loop over event list | induction over frame list |
| C04 | Read loop | invariant "after a frame the state is initial" from any state |
| C05 | messageReceived | cancellation in Z/256; lifted to every history |
| C06 | n2kMessageReceived | characterisation of acceptance |
| C07 | same, with panics and capacities | exact panic characterisation, `_false` witness |
| C08 | Send | exact case split |
| C09 | every command method | table theorem, injectivity |
| C10 | OpenChannel over a scripted port | all failure patterns |
| C11 | zero-byte reads as events | `_false` witness; exact effect via `heard` (a stream of bytes equivalent to the stream of read outcomes) |
| C12 | ngtMessageReceived with capacities | `_partial` + `_false` |
| C13 | sorted insert + binary search | invariant + loop correctness |
| C14-C16 | ParseFrame | decoding spec over hex texts, exact panic set |
| C17-C19 | Write, Send | round trip through ParseFrame |
| C20-C21 | fast packet Send loop + frameReceived | induction over fragments; `_false` beyond 192 / standard framing |
| C22-C26 | frameReceived with map state | induction over frames, commutation, invariant |
| C27-C28 | Read loop | induction |
| C29-C32 | AddressClaim, conflict loop, CloseChannel | arithmetic, induction, universal panic |
| C33-C34 | First/Last/GetPgnDefinition/FieldOffsets | list induction |
| C35-C38 | extractNumber + the whole shipped table (generated module) | bit-level theorem + `decide +kernel` over the whole table lifted by lemma |
| C39-C44 | extract* | exact characterisations |
| C45-C50 | ParsePacket with fuel | measure, invariants over iterations; C46 and C47 exact for the shipped table and every message (`Crash`) |
| C51-C52 | Print (index structure), FromCanBoat (after JSON decoding) | induction |
| C53-C62 | signalk Delta with arbitrary iteration order | induction over iterations; shipped `map.xml` as generated module |
| C63-C66 | hub as a transition system | invariants over all schedules |
| C67-C69 | statistics, filter, channel pipeline | induction; C67 also for every reachable state of the running program |
| C70-C72 | API handlers | filters; exact parse of keys; channel without receiver |
| C73-C76 | config merge, admin save with crash points | mergo from its documentation; crash prefix model |
| C77-C78 | package listing over a file tree, install handshake | tree induction; transition system |
| C79 | MarshalJSON key map, ParsedMessage.JSON | injectivity of decimal rendering; the text read by the JSON reader of C104 |
| C80 | canusb OpenChannel over a scripted port | all failure patterns |
| C81 | consumer goroutine body: log, statistics, broadcast, publish | induction over messages; exact crash condition |
| C82 | interfaces + consumer + hubs + clients as one transition system | composition of C63, C69, C81 |
| C83 | admin save, restart, read | composition of C73–C76 |
| C84 | installPackage goroutines, pipes and scanner limit | invariant, termination measure; `_false` witness |
| C85 | fast-packet Send with failing writes | induction over fragments |
| C86 | net/http ServeMux and gorilla mux routing, all registrations | case analysis for every path and app list |
| C87 | hub with clients that stop reading | invariant counting the backlog |
| C88 | processInterface start-up, every kind | case split over scripted device |
| C89 | file playback, bufio.Scanner line splitting with its 65536 byte limit | induction over the content |
| C90-C91 | readers + address conflict + ParsePacket composed | composition; exact condition for survival |
| C92 | shipped program: table + map.xml + Print + Delta | C46/C51/C60 composed; every genuine input |
| C93 | wire to client composition | C82 + C90/C91/C89 |
| C94 | same transition system | liveness: from every reachable state a continuation of program steps exists, for a client of the deltas and for a client of the statistics |
| C95 | Print of imported messages | exact set of fields shown |
| C96 | several CANUSB readers sharing one map | commutation, projection; `_false` witness |
| C97 | statistics hub of the running program | C63 + C67 composed over all schedules |
| C98 | all interfaces on any input | C07, C16, C46, C90–C92 composed: cause of every panic, inputs always fatal |
| C99 | delta contents, end to end | `Signalk/Contents`: exact values with the shipped map; `Main/Values`: composed with C69, C82, C90 |
| C100 | lookups.go (generated), lookup fields | `Nmea2k/Names`: `Shows` spec; C50 plus facts about all tables, lifted by lemmas |
| C101 | ParsePacket on PGN 60928 | `Nmea2k/Names`: loop invariant over the ten fields; sub-lookup with the factor -10 |
| C102 | map.xml against decoded messages | `Signalk/Live`: a witness message for each group, evaluated by the kernel and lifted to every printing; 130820 by a loop invariant |
| C103 | can/can.go Print, canframe.go String | `Can/Text`: the text cut at its separators, digits and hexadecimal injective; the order of the words stated apart |
| C104 | json.Marshal of a delta | `Json/Spec` is an RFC 8259 reader; printing then reading is the identity (mutual induction); RFC 3339 and base64 texts; values of ParsePacket are bounded (loop invariant) |
| C105 | JSON of the statistics, the message API, /admin/uuid and /apps/install | the same reader with indentation; map order is an arbitrary permutation; every lookup table checked (`decide +kernel`, all tables); the hand-written reply of /apps/install: bare texts only (partial), witness with a quotation mark. `Fuel`: the reader needs at most 2·length steps, so "not JSON" is decided by computation |
| C106 | package flag (parseOne loop) and flags.go | grammar of typed options (`Line`) and their meaning (`Means`) as a separate spec; equivalence by induction on the words. `strconv.ParseInt` base 0 and `strings.ToUpper` are parameters |
| C107 | start-up in argo.go (main), log levels of go-logging | list of steps as a function of files, broker and options; the settings come from C73. Partial: UseTls/ListenOn ignored, `none` in lower case logs everything, saving always goes to argo.conf (witnesses) |
| C108 | `-explain` (MarshalIndent of the whole table) | reuses the JSON reader and the definition spec of C105; every map order |
| C109 | encoding/xml of a definition (MessageDetailsHandler with `.xml`) | separate reader for XML elements (tags, references, legal characters); printing then reading by mutual induction; texts of the shipped table checked byte-wise. Partial: tables of names are left out, a table of tables gives an empty reply (witnesses) |
| C110 | consumer with `sysconf` changing by admin POSTs, the client made at start only | state machine over POSTs and messages; C75 rule for settings; exact set of histories that end in a nil call, by induction. With the shipped tables and the JSON bytes: C110_shipped. False: enabling MQTT on the admin page ends the process |
| C111 | all goroutines of the process with every access to a shared variable; happens-before of the Go memory model as specification | invariants of an executable scheduler model (who may do what, in which order); predecessor-closed sets for the unordered steps. False: two CANUSB adapters always race; so does a POST that fills a setting in use, and an installation |
| C112 | `path.Clean`, `filepath.Join` and the path cleaning of ServeMux and gorilla mux as functions on bytes; what the file servers open | the cleaned paths are exactly those of good elements (induction over elements), so every file answered is below its directory; two redirects suffice |
| C113 | appsHandler, apps.gtpl, the command line of installPackage, the row after the reply (site.js) | pointwise from C77 for every tree and reply; the reply read with the JSON reader of C104. False: replies with a path of their own, one bad directory, names with `@` or a dash, failed installations shown as installed |
| C114 | the form of index.gtpl, submitForm and getUUID of site.js, adminHandler; browser left open | from the exact rule C75 for every form; composed with saving and reading at the next start. False: an unchanged page sets the UUID to four dashes for good; cleared inputs have no effect |
| C115 | the table and the window of the front page (site.js `onmessage`, `showPgnData`) with the server behind them | induction over the messages received, on C97/C105; the window through the routing of C112 and the details of C71/C105. False: the window of a PGN without a definition |
| C116 | `(*CanPort).Write` on every buffer, with the memory behind it | exact case split; round trip through ParseFrame as in C17-C19. False: what io.Writer asks (buffer unchanged, number of bytes of the buffer) |
| C117 | ParsePacket on messages of PGNs with several definitions: the values, not only the choice (C47) | `Nmea2k/Values`: loop invariant "the entries so far are the fields of the current definition", carried over a change of definition by a comparison of neighbouring definitions of the shipped table. False: an entry of PGN 130816 and one of 130820 |
| C118 | as C99 and C104, for every message of every PGN, of any length and with any number of repetitions, from an NGT-1 or a CANUSB | `Main/Entries`: C117 with the mapping file (multiplier included), then all schedules as in C99; `Json/Bits`: the JSON; `Json/BitsCan`: from the lines of CANUSB adapters, single frames and fast packets (C22, C23, C96). Messages shorter than their first field: `Nmea2k/Short`. False: empty messages, one byte of PGN 65001-65003 |
| C119 | the three templates as they are (`tools/gen_pages.py`), the escapers of html/template, and the browser as the HTML tokenizer of the standard on the part the pages use (it reads nothing else) | substitution lemma: reading a page is reading the template and putting the values in; the templates are read by the kernel; escaped values by induction over their bytes; rows by induction over the reply |
| C120 | the three pieces of HTML that site.js joins, the path a link asks for | as C119, composed of pieces; names of fields over the whole table. False: names inserted as HTML, percent escapes in directory names |
| C121 | the constants of pgn_array.go, IEEE 754 rounding to nearest even (double and single, exponents unbounded above), the operations of extractNumber and the others, the texts by the contract of strconv and the layout of encoding/json; `quantity` is the exact rational number on the bus | relative error of each rounding, of a text by the inverse of rounding (`near_text`), five digits determine a single; table checked by the kernel; then all schedules as in C104 and C118 |
| C122 | as C121 | as C121; the steps of singles between 2^30 and 2^31. False: 4 bytes are computed in single precision |
| C123 | the date and time fields of PGN 126992 from their bytes, the datetime fieldset of map.xml, Go's AddDate and RFC 3339, for a zone with a fixed offset | `Signalk/Gregorian`: the date formulas are the calendar counted day by day (inverse of the day number, by cases on century and year); `Signalk/Props2` C61_any; `Json/SystemTime`: the bytes, then all schedules as in C104. False: 32-bit seconds, other zones |
| C124 | `Print` of parsed messages as a text: fmt `%v`/`%f`, times, byte strings; a reader of such lines (`Log/Line` readLine), written independently | the loop appends the lines of C51 (induction); every text is read back (cuts at separators that the table's names and the texts argo makes cannot contain: whole table by the kernel, values by cases); numbers by exact decimal rounding. False: texts with `;` or a line feed, digits of binary fractions, steps below 10⁻⁶ |
| C125 | `json.Unmarshal` into `CanBoatMessage`: a lenient JSON reader of bytes (grammar of encoding/json: invalid UTF-8 and surrogates replaced), members by folded name, numbers by digits and bits, errors skipped, nesting limit | the reader agrees with the grammar of `Json.Reads` (induction over derivations, fuel); stored values by induction over the members; then C52 for the values by name. False: not JSON, numbers that do not fit, names in another case |
| C126 | `time.Parse` with the layout `2006-01-02T15:04:05.999`, from its source, before and since Go 1.17; the text `Print` makes of it | the digits of a written moment are read back, the civil date of the day number is the date written (C123's calendar). False: any text with a character outside the layout's (induction through the parser), a dash for the T |
| C127 | the write pump as a sequence of rounds (message, tick, closed; a write may fail after any number of bytes), `WriteMessage` of a server (gorilla/websocket 1.2.0: one frame); a client reading RFC 6455 frames, fragments, UTF-8 (`Socket/Spec`) | each header layout is read back and each of its initial parts is waited for; induction over the rounds; with C63 (hub) and C104 (every delta is JSON, so UTF-8: induction over the JSON reader) |
| C128 | the log as bytes: records in the order written, the layout `logFormat`, the headers at level DEBUG, the notice of posted settings (`%v` of the configuration); a reader of lines marked INFO (`Log/Journal`) | lines are cut at line feeds; the head of any other record starts with an escape, so it is not read as INFO; the messages written are an initial part of those taken (C68, C69), then C124; a POST whose log level contains a whole line as witness |
| C129 | `DetectContentType` of net/http as a table of signatures, the Content-Type each handler sets, the types jQuery derives from it (`Http/Sniff`) | the bytes of a reply up to byte 36 decide over the whole table of definitions (`decide +kernel`); every byte of printed JSON or XML is text, by induction on the tree; pages begin with the layout template for all settings |
| C130 | the encoder of the TOML library on the types of `TomlConfig`, as bytes (`Toml/Model`); a reader for TOML 0.4 by lines, and the decoding by names in any case (`Toml/Spec`, `Toml/Decode`); /admin and restart on files | the reader gives back what each line of the encoder says, by induction on strings and digits; lookups by injectivity of places; a name with a backslash always comes back shorter, by induction; histories by induction on the posts |
| C131 | the tab of the interfaces: the list, the dialog and the functions of site.js behind them, elements found by the ids of the page as a browser reads it (`Html/Tab`) | the page of one configuration read by the kernel, carried to all by C119; histories of actions by induction. False: nothing is listed or saved, opening the dialog submits the form |
| C132 | `ParseQuery`, `QueryUnescape` and `EqualFold` (against ASCII), the loop of `MessagesIndex` on bytes and its JSON (`Json/Query`) | a relation for the ways to write a query; decoding by induction on it; the loop as in C70, with which it is proved to agree; the shipped categories are ASCII (whole table) |
| C133 | `json.Decoder.Decode` into `TomlConfig` on bytes (errors noted and decoding continued), `JSON.stringify` of the object of `submitForm` (`Config/Post`) | the values given for a setting as a list, the fold over the members equal to the last of them (`Config/PostProps`); the text of the page read back by induction on characters and members (`Config/PostPage`); numbers above 2^53 to within a double's rounding. False: numbers from 2^63 on |
| C134 | C133 and C130 composed: `boot`, `post`, `posted`, `jsBody` on the files of the machine (`Toml/Form`) | submitting the form keeps a configuration savable (case by case over the settings), then the round trip of C130; induction over submissions and over sessions. False: the certificate is not in the file, NUL in a text, numbers from 2^63 on. |
| C135 | `loggingHandler` behind net/http's request line and net/url's `ParseRequestURI`, `setPath`, `EscapedPath`, `String` (`Log/Requests`) | percent-decoding as an inductive relation equal to `unescape`, `escape` decodes to what it was given, cases on the question mark; the record is an `Other` of C128. False: before Go 1.12 control characters of the query are logged as they are. |
| C136 | C76 and C130 composed: a save cut off after any of its operations, then a start (`Toml/Crash`) | argo.conf is the old text or a part of the new one from its beginning (prefixes of the operations), then the round trip of C130. False: the empty file is read as the defaults, one byte is not TOML, and after every line before the interfaces the file is read as the settings up to there. |

Anything not listed under "not modelled" below was expressible; no property was dropped as inexpressible.

## 3. Modules

| directory | models | files |
|---|---|---|
| `Verif/Go`, `Verif/Heard`, `Verif/Path` | Go slices, panics; what a serial reader hears; `path.Clean` and `filepath.Join` | |
| `Verif/Actisense` | actisense/actisense.go, commands.go | `Model`, `Spec`, `Lemmas`, `Props`–`Props3` |
| `Verif/Canusb` | canusb/canframe.go, canport.go | `Model`, `Spec`, `Lemmas*`, `Props`–`Props6`, `Multi` (several adapters), `Noise` (any input), `Write` |
| `Verif/Nmea2k` | nmea2k/raw_message.go, parsed_message.go, pgn_array.go, lookups.go | `Model`, `Spec`, `Table` (generated), `Lookup`, `Extract`, `Decode`, `Fields`, `Entries`, `Full`, `Loop`, `Parse`, `Safe*`, `Variant*`, `Crash`, `PrintProps`, `Import`, `Lookups` (generated), `Names`, `Values`, `Short` |
| `Verif/Signalk` | signalk/signalk.go, map.xml | `Model`, `Spec`, `Core`, `Order`, `Library`, `Calendar`, `Gregorian`, `MapTable` (generated), `Props*`, `Contents`, `Live` |
| `Verif/Hub` | main/websocket_server.go (hub, serveWs, writer) | `Model`, `Spec`, `Props*`, `Isolation`, `Stalled` |
| `Verif/Main` | main/argo.go (consumer), main/api_server.go, the whole program | `Model`, `Props`, `Api*`, `Details`, `Control`, `System*`, `Whole`, `CatchUp*`, `AnyInput`, `Fatal`, `Statistics`, `Values`, `Entries`, `Flags`, `Startup`, `Broker`, `Races` |
| `Verif/Json` | encoding/json as used by main/argo.go and ui_server.go, struct tags of signalk.go | `Spec` (reader), `Model`, `Lemmas`, `Props`, `Text` (numbers, RFC 3339, base64), `Delta`, `Broker` (C110), `Fuel`, `Pages`, `Query` (addresses of the index, C132), `Explain`, `Parsed`, `Bits`, `BitsCan`, `SystemTime`, `Front` (front page: assets/js/site.js) |
| `Verif/Xml` | encoding/xml as used by main/api_server.go | `Pages` |
| `Verif/Can` | can/can.go (Print), canusb/canframe.go (String) | `Text` |
| `Verif/Iface` | main/argo.go (processInterface) | `Model`, `Start`, `File`, `Wire` |
| `Verif/Config` | config/config.go, adminHandler, templates/index.gtpl, assets/js/site.js (settings) | `Model`, `Props`, `Save`, `Page`, `Post`, `PostProps`, `PostPage` (bodies as bytes) |
| `Verif/Toml` | the text of the configuration file: config/config.go, adminHandler | `Spec` (TOML reader), `Model` (encoder), `Decode`, `Text`, `Whole`, `Back`, `Names`, `Props`, `Form` (C134), `Crash` (C136) |
| `Verif/Packages` | main/packages.go, appsHandler, templates/apps.gtpl, assets/js/site.js (installation) | `Model`, `Props`, `Install`, `Keys`, `Page` |
| `Verif/Html` | templates/*.gtpl, html/template, HTML inserted by assets/js/site.js | `Spec` (tokenizer), `Model`, `Pages` (generated), `Lemmas`, `Parts`, `Index`, `Apps`, `Props`, `Script`, `Tab` (interfaces) |
| `Verif/Float` | float arithmetic of nmea2k/raw_message.go, factors of pgn_array.go, `floatEncoder` of encoding/json | `Round` (IEEE), `Model`, `Text`, `Accuracy`, `Decode`, `Props`, `Exists`, `Angle`, `Position` |
| `Verif/Log` | nmea2k/parsed_message.go (`Print` as text), main/argo.go (log format), main/websocket_server.go (`loggingHandler`) | `Model`, `Text`, `Line` (reader), `Known`, `Props`, `Forged`, `Journal` (the log as a whole), `Requests` (C135) |
| `Verif/Playback` | nmea2k/parsed_message.go (`FromCanBoat`: JSON and timestamps), main/argo.go (`file`) | `Reader`, `Agree`, `Strict`, `Model`, `Props`, `Lines`, `Stamp`, `Layout` |
| `Verif/Socket` | main/websocket_server.go (writePump, write), frames of gorilla/websocket | `Spec` (RFC 6455 client), `Model`, `Props`, `Utf8`, `System`, `Page` |
| `Verif/Routes` | routing in main/api_server.go, ui_server.go, websocket_server.go | `Model`, `Props`, `Apps`, `Paths` |
| `Verif/Http` | Content-Type of the replies of main/api_server.go and main/ui_server.go | `Sniff` (net/http `DetectContentType`, replies), `Types` (bytes of JSON and XML), `Props` |

## 4. Trusted base

* Lean's kernel. Axioms: at most `propext`, `Classical.choice`, `Quot.sound` (section 7 lists them for each
  theorem). No axiom is added; no compiled evaluation is trusted. Finite facts about the shipped table and
  mapping file are checked by the kernel (`decide +kernel`) over the whole table and lifted by lemmas.
* The transcription of Go into Lean, made by hand and not executed here. The generated modules
  (`tools/gen_table.py` reads `nmea2k/pgn_array.go`, `tools/gen_map.py` reads `map.xml`,
  `tools/gen_lookups.py` reads `nmea2k/lookups.go`, `tools/gen_pages.py` reads `templates/*.gtpl`).
* Library behaviour taken from documentation: `net/url` (`ParseQuery` before and from Go 1.17; `ParseRequestURI` from Go 1.7 on, of paths and the asterisk, and `URL.String`), `strings.EqualFold`, `strconv`, `strings.Replace`, `time.Date/Format`,
  `encoding/xml`, `encoding/json` (escaping, struct tags, RFC 3339 times, base64 bytes; with and without the change of Go 1.22),
  `bufio.Scanner`, `net/http` `DetectContentType` (its table of signatures; releases with and without the fonts) and `Error`, jQuery's choice of a type, `net/http.ServeMux` and gorilla mux matching and path cleaning, `path.Clean` and `filepath.Join` (Unix), `http.FileServer`, `mergo.Merge`, `os/exec` pipes,
  html/template (`htmlReplacer`, `urlFilter`, `processURLOnto`, dropping of comments, choice of the escaper by place: the last is
  written into the template by the generator and checked against the tokenizer by the kernel). The HTML and URL standards, on the
  part in `Html/Spec.lean`; for C131 also which buttons submit a form, that the return key in the only text input of a form submits it,
  that `display: hidden` is no style, jQuery's `val`, `hide` and `show` on missing elements, Bootstrap's handling of a click on a button
  that opens a dialog; not the checks of inputs before a form is submitted.
* IEEE 754 as in `Float/Round.lean` (proved there: the result is a number of the format, no other is nearer, ties are even);
  `strconv.FormatFloat` with precision -1 (the fewest digits that read back; which of several is left open) and the layout and
  limits of `floatEncoder` (encoding/json). Constants are exact, as Go's compiler has at least 256 bits.
* fmt: `%v` of integers, strings, byte slices and times (`time.Time.String`), `%f` (strconv converts exactly, ties to even); go-logging
  does not interpret `%` in the text (`Info` and `Notice` take no format: the arguments as by `Sprintln`), has a colour for every level but INFO,
  and writes records one after the other. The zone of the computer is a parameter (`Log.Place`).
* encoding/json reading a line: its grammar (RFC 8259), invalid UTF-8 and unpaired surrogates as U+FFFD, struct fields by name in any case
  (ASCII and the two other letters that fold to s and k), values of the wrong kind skipped, nesting limit of Go 1.15 and later as a
  parameter (`Decoder.Decode` takes the first value of a stream; `null` leaves a field as it is; wrong types are errors at the end); `JSON.stringify`
  of strings and objects, and of whole numbers as in `Config.Prints`; time.Parse transcribed from its source before and since Go 1.17.
* gorilla/websocket 1.2.0: `WriteMessage` of a server without compression writes one frame with the header of `flushFrame`, after a
  failed write nothing more is written. RFC 6455 as in `Socket/Spec.lean` (no extensions).
* github.com/burntsushi/toml v0.2.0: the encoder (order, indentation, escaping of strings and keys, errors for empty keys) from its source as known,
  the decoder by the TOML 0.4 specification except that it takes control characters other than NUL and line ends in strings. Texts with NUL
  are left out (`Savable`).
* Left open as parameters, so that theorems hold for every choice: the Go value of a JSON value in `fields` (and in C52 and C89 the
  whole JSON decoding of a line), `sort.Sort`
  (any routine meeting its contract), `strings.EqualFold`, growth of `append`, map iteration order, goroutine
  scheduling, errors and partial results of every device and file operation.

### Not modelled

* `fmt` of values other than in the log (the MQTT and comparison texts of signalk.go: a parameter), overflow of floats (no value comes near), the MsgPack encoder
  (`MsgPack`); nested JSON values played back from a file (they are not
  values of the model); how timestamps of messages received from an adapter are taken.
* What a data race does: the bodies of loops are atomic steps in all models but that of C111. C111 says exactly
  which executions are free of data races, so in which the other theorems describe what Go does; with a race (several CANUSB adapters, a POST
  that fills a setting in use) the run-time system may also end the process or a slice may be torn. C96 covers the
  effects of sharing under interleaving of whole frames.
* The usage text of `flag`, signal handling and the MQTT client library (publishing is an effect that may not fail).
* A panic of `Print` or `Delta` is modelled at the moment the message is taken.
* HTTP parsing; handlers are functions of the routed request. Parsing of templates (the generator cuts them at the actions);
  building of the document tree from the tokens of a page, decoding of its UTF-8, CR as LF (C119). Symbolic links below
  node_modules. The script of the front page works on rows and values; how a browser prints a number (above 2^53 it rounds)
  is not modelled (C115).
* The WebSocket handshake, and what a client sends (`readPump` does not exist: argo reads nothing from a connection).
* The ISO address negotiation beyond what `canport.go` does; physical bus behaviour.

## 5. Findings (properties that fail of the code; each has a `_false` theorem unless noted)

* **actisense**: length and checksum bytes are not escaped, so a payload length of 16 (a 10-byte message) or a
  checksum of 16 is malformed on the wire (C02); one byte changed on the wire can defeat the checksum
  (C05_wire_false); a short frame crashes the process (C07); an empty read processes the previous byte again
  (C11); a declared length beyond the frame exposes stale bytes (C12).
* **canusb**: a line holding only the identifier crashes (C16); PGN bit 17 lost on sending (C18); fast packets
  over 192 bytes are never received, and every one over 12 bytes departs from the standard framing (C20, C21);
  groups g and g+4, and destinations, are mixed (C24); continuation frames without a beginning are delivered
  (C25); the claim is sent to 225, not to all (C30); addresses leave 0..251 (C31); CloseChannel always panics
  (C32); adapters share partial packets (C96). `OpenChannel` never sends `Z1` though ParseFrame requires four
  timestamp characters; the branch `i == 1` in Send is dead.
* **nmea2k**: the not-available test never succeeds (C36); signed fields of other widths than 8/16/32/64 are
  wrong (C37); 28 fields are truncated, 3 are over 64 bits (C38); dates from 2106 wrap (C40); fractions of
  seconds are ten times too small (C41); strings ending the message lose a character, length-prefixed ones can
  crash (C43, C44); short messages of 60928 and 130842 crash (C46); unmatched proprietary messages get the next
  PGN's definition, 130816 and 130820 pick wrong variants (C47); malformed import lines are taken as PGN 0
  (C52). 19 fields ignore their table of names, five tables have ambiguous names (C100); the device function of
  an address claim is empty text for every function but 0, since both of its numbers are multiplied by the marker
  `RES_LOOKUP2` = -10 (C101). Definitions 237 and 59–69 are unreachable; `GetPgnDefinition` ignores its argument.
* **signalk**: conditions of a group with a fieldset are ignored (C53); results depend on map order in general
  (C56); comparison of numbers as text (C58); repeated fields with index beyond the group size (C59); a panic
  on wrong types (C60); date-times wrong outside UTC (C61, C123) and from 8 February 2106 on, when they restart in 1970 (C123);
  the two entries for PGN 130820 are dead: they compare manufacturer and industry, which are decoded to names, with
  numbers (C102).
* **hub/main**: unregister after a drop would close twice (C65; never sent by argo, so dead clients stay until
  the 257th broadcast, C87); negative detail keys panic (C71); control POSTs never complete (C72); the details
  link is not routed (C86); `Print` of imported messages hides fields (C95); an empty index is JSON `null` (C105);
  the details of PGN 60928 in XML are empty and tables of names are left out of all of them (C109);
  the MQTT URL is always `ssl://`, the server ignores `UseTls` and `ListenOn`, the level `none` in lower case logs
  everything, and settings are saved to `argo.conf` even if another file was read (C107);
  enabling MQTT on the admin page makes the next mapped message call a nil client, which ends the process (C110);
  two CANUSB adapters race for their registry whenever both start, settings and routes are changed without locks (C111).
* **config/packages/routes**: explicit zero values of 12 settings are lost (C73); an admin POST changes only
  unset settings and always writes `argo.conf` (C75); saving is not crash-safe after a crashed save, with
  concurrent POSTs or failing writes (C76); UUID parts are stale until restart (C83); one directory without
  `package.json` empties its level of the listing (C77); an output line over 64K can hang an installation
  (C84), whose helper goroutine always leaks (C78) and whose reply is not escaped (C105); routes of apps shadow `/apps/install`, expose other
  packages, and a start-up race sends API requests to the WebSocket handler (C86);
  a failed installation is shown as installed with a link to `undefined`, two different requests can run the same
  command, a name with a leading dash is an option of yarn (C113); submitting the settings page unchanged without a UUID sets it to `----` for good, unchecked and cleared
  inputs have no effect, interfaces added on the page are not submitted, and the page shows the broker's password (C114);
  a click on the row of a PGN without a definition opens the description of PGN 0 (C115);
  Write of a CANUSB changes the caller's buffer, sends memory behind a short one and panics from 250 bytes on (C116);
  the industry code of messages of PGN 130816 read as definitions 182 to 197, and the mute entry of 130820, can be
  decoded as the field of another definition than the one named (C117); an empty message is decoded to zeros:
  an empty depth message is reported as depth 0, one byte of a two-byte voltage (PGN 65001-65003) as the voltage (C118);
  the name of an app that was just installed is inserted into the page as HTML, so that a name in a reply of the registry (fetched
  over plain http) can run a script there, and the link of an app whose directory name has a percent escape leads elsewhere (C120);
  positions of 4 bytes are computed in single precision: beyond 107 degrees, neighbouring longitudes up to 1.4 m apart are reported
  as the same (C122); scaled numbers show binary rounding (0.7000000000000001, C121); angles are reported in degrees, although
  Signal K asks for radians; a text on the bus with a semicolon or a line feed forges entries or lines of the log, and the log
  shows temperatures like 296.15 K as 296.149994 and drops steps of positions below 10⁻⁶ degrees (C124);
  a line of a recorded file that is not JSON is handed over as a message with PGN 0 from device 0, header numbers that do not fit or
  have a point are replaced by 0, and members are found in any case (C125); time stamps of recorded files with a zone, as CanBoat
  writes them, or with a dash before the time, silently give the year 1 (C126); whoever can reach /admin can write any line into the
  log as if it were a message of the bus, and posted settings are logged with the broker password (C128); every JSON and XML reply of the API is labelled as plain text (C129);
  one POST to /admin with an interface of speed 2^63, or with a line end in its name, and argo cannot be started again, and no later POST
  repairs the file; a backslash in a name changes the name or has the same effect; after one with an empty name nothing is ever saved again,
  silently (C130); the tab of the interfaces shows none of those configured, what is added there is never saved, its "Speed" is always
  "undefined" (the script asks for ids the page does not have), the button that opens its dialog submits the settings (without a UUID
  four dashes are stored), and three of the five types it offers would end the program (C131);
  a number of 2^63 or more in one input of the settings makes the server refuse everything that was entered, and the page does not tell (C133);
  if argo dies just after it has opened argo.conf to save, it starts with the defaults the next time, without a message, and the next save overwrites the backup (C136);
  a certificate entered in the settings is gone after the next start, and after a text with a NUL there is no next start (C134); with net/url before Go 1.12 whoever can reach the server can send escape
  sequences to the terminal that shows the log (C135).

## 6. Testing against wrong programs

`seeded/LOG.jsonl` records every seeded bug: the edited definition, the edit, the broken claim, the theorems
that failed and those tightened. Edits are made in a scratch copy. Two survivors are equivalent programs
(B48 edits dead code, R1 does not change behaviour); every other edit makes a theorem fail.

## 7. Axioms of every claimed theorem

Written by `tools/axioms.py` from `#print axioms` (namespace `Argo.` omitted).

**none**: `Actisense.C02_false`, `Config.C76_disk_full_false`, `Nmea2k.C101_false_names`, `Packages.C113_argument_false`, `Packages.C113_reply_false`, `Signalk.C58_false_text`.

**propext**: `Actisense.C02_read_false`, `Actisense.C04_error_resets`, `Actisense.C05_wire_false`, `Actisense.C07_false`, `Actisense.C09_result`, `Actisense.C09_silent`, `Actisense.C11_false`, `Actisense.C12_false`, `Config.C73_false`, `Config.C76_concurrent_backup_false`, `Config.C76_concurrent_false`, `Config.C83_uuid_stale_false`, `Html.C120_path_false`, `Html.C120_script_false`, `Iface.C89_deterministic`, `Iface.C89_unreadable`, `Iface.C90_false`, `Iface.C90_handover`, `Main.C107_interfaces`, `Main.C107_level_false`, `Main.C107_listen_false`, `Main.C107_texts`, `Main.C110_false`, `Main.C71_parts`, `Main.C95_false`, `Nmea2k.C36_false_witness`, `Nmea2k.C37_false_witness`, `Nmea2k.C43_false`, `Nmea2k.C44_false`, `Nmea2k.print_needs_parsed`, `Packages.C113_argument_partial`, `Packages.C78_leak`, `Packages.C78_pipe_before_start`, `Packages.C78_waits`, `Routes.C86_clean`, `Routes.C86_disabled`, `Routes.C86_startup_false`, `Signalk.C53_false`, `Signalk.C58_false_unknown`, `Signalk.C60_false`, `Signalk.C61_false_empty`.

**propext, Quot.sound**: `Actisense.C09_encoding`, `Actisense.C09_pgn_roundtrip`, `Actisense.C09_understood`, `Actisense.C10_bytes`, `Actisense.C10_open`, `Canusb.C19_short`, `Canusb.C24_false_destination`, `Canusb.C24_false_group`, `Canusb.C25_false`, `Canusb.C26_keys`, `Canusb.C27_error`, `Canusb.C28_closed`, `Canusb.C32_false`, `Canusb.C85_too_long`, `Canusb.C96_false`, `Canusb.session_read`, `Canusb.writeAll_prefix`, `Config.C114_shown`, `Config.C76_history_partial`, `Config.C76_repeat_false`, `Config.C76_save`, `Config.C76_single`, `Html.C120_fields`, `Html.C120_path_partial`, `Html.C131_row_false`, `Html.C131_saved_partial`, `Http.C129_pages`, `Iface.C88_file`, `Iface.C88_ngt`, `Iface.C88_not_serial`, `Iface.C89_cases`, `Iface.C90_error`, `Log.C135_control_false`, `Main.C106_accepted`, `Main.C107_broker`, `Main.C107_level_partial`, `Main.C107_option`, `Main.C107_saved_false`, `Main.C71_false`, `Main.C81_outputs`, `Main.Control.C72_false`, `Main.Control.C72_get_partial`, `Nmea2k.C100_ambiguous_false`, `Nmea2k.C100_fields`, `Nmea2k.C100_fits`, `Nmea2k.C33_last`, `Nmea2k.C34_offsets`, `Nmea2k.C38_false`, `Nmea2k.C38_list`, `Nmea2k.C46_lz_pgns`, `Nmea2k.C49_shape`, `Nmea2k.C52_false`, `Nmea2k.C52_import`, `Packages.C113_failures`, `Packages.C113_option`, `Packages.C77_scope`, `Packages.C78_handshake`, `Routes.C112_redirects`, `Signalk.C59_false`, `Signalk.C59_limit`, `Signalk.C59_repetition_partial`, `Signalk.C61_lookup`, `Signalk.C62_merge`, `Toml.C130_empty_false`, `Toml.C136_backup`, `Toml.C136_broken_false`, `Toml.C136_empty_false`, `Toml.C136_lost_false`, `Toml.C136_missing`.

**propext, Classical.choice, Quot.sound**: `Actisense.C01_Write`, `Actisense.C01_commands`, `Actisense.C01_injective`, `Actisense.C02_partial`, `Actisense.C02_read_partial`, `Actisense.C02_roundtrip_iff`, `Actisense.C03_all_frames`, `Actisense.C04_resync`, `Actisense.C05_checksum`, `Actisense.C05_history`, `Actisense.C05_single_byte`, `Actisense.C06_accepts`, `Actisense.C06_contents`, `Actisense.C07_overrun`, `Actisense.C07_partial`, `Actisense.C08_Send`, `Actisense.C09_envelope`, `Actisense.C11_exact`, `Actisense.C11_partial`, `Actisense.C12_partial`, `Can.C103_false`, `Can.C103_frame`, `Can.C103_frame_layout`, `Can.C103_layout`, `Can.C103_raw`, `Canusb.C116_buffer`, `Canusb.C116_count_false`, `Canusb.C116_frame`, `Canusb.C116_long`, `Canusb.C116_modifies_false`, `Canusb.C116_panic`, `Canusb.C13_registry`, `Canusb.C14_identifier`, `Canusb.C15_accepts`, `Canusb.C16_false`, `Canusb.C16_fatal`, `Canusb.C16_long_enough`, `Canusb.C16_partial`, `Canusb.C16_receive_partial`, `Canusb.C16_stream_partial`, `Canusb.C17_roundtrip`, `Canusb.C18_false`, `Canusb.C18_partial`, `Canusb.C19_sends`, `Canusb.C20_false_above_192`, `Canusb.C20_roundtrip`, `Canusb.C21_false`, `Canusb.C21_partial`, `Canusb.C22_standard`, `Canusb.C23_isolation`, `Canusb.C25_partial`, `Canusb.C26_memory`, `Canusb.C27_read`, `Canusb.C27_session`, `Canusb.C29_claim`, `Canusb.C30_false`, `Canusb.C31_conflicts`, `Canusb.C31_false_range`, `Canusb.C80_open`, `Canusb.C85_groups`, `Canusb.C85_total`, `Canusb.C85_writes`, `Canusb.C96_independent_partial`, `Canusb.C96_lines_partial`, `Canusb.C96_origin`, `Canusb.Send_fast`, `Canusb.Send_frames`, `Config.C114_cleared_false`, `Config.C114_entered_partial`, `Config.C114_generated`, `Config.C114_rule`, `Config.C114_unchanged_partial`, `Config.C114_uuid_entered`, `Config.C114_uuid_false`, `Config.C133_huge_false`, `Config.C133_page_partial`, `Config.C133_post`, `Config.C133_refused_iff`, `Config.C133_rounded_partial`, `Config.C73_affected`, `Config.C73_defaults_partial`, `Config.C73_documented`, `Config.C73_error`, `Config.C73_value`, `Config.C74_unique`, `Config.C74_uuid`, `Config.C75_false`, `Config.C75_rule`, `Config.C75_sticky`, `Config.C75_update_partial`, `Config.C83_roundtrip`, `Float.C121_angle`, `Float.C121_client`, `Float.C121_complete`, `Float.C121_decoded`, `Float.C121_exact_false`, `Float.C121_factors`, `Float.C121_recover`, `Float.C121_value`, `Float.C122_delta_false`, `Float.C122_false`, `Float.C122_near_partial`, `Float.C122_wide`, `Html.C119_apps`, `Html.C119_form`, `Html.C119_index`, `Html.C119_kept`, `Html.C119_links`, `Html.C119_setting`, `Html.C120_script_partial`, `Html.C120_stats`, `Html.C131_inputs`, `Html.C131_list_false`, `Html.C131_open_false`, `Html.C131_page`, `Html.C131_rows_partial`, `Html.C131_saved_false`, `Html.C131_types_false`, `Html.C131_types_partial`, `Http.C129_data`, `Http.C129_details_false`, `Http.C129_index_false`, `Http.C129_uuid`, `Http.C129_xml_false`, `Hub.C63_close`, `Hub.C63_delivery`, `Hub.C63_drop_iff`, `Hub.C63_prefix`, `Hub.C64_broadcast_ends`, `Hub.C64_hub_never_waits`, `Hub.C64_no_panic`, `Hub.C65_false`, `Hub.C65_unregister_partial`, `Hub.C66_alone`, `Hub.C66_isolation`, `Hub.C87_backlog`, `Hub.C87_stalled`, `Iface.C88_canusb`, `Iface.C88_exit`, `Iface.C88_registry`, `Iface.C88_registry_again`, `Iface.C89_long_line`, `Iface.C89_message`, `Iface.C89_play`, `Iface.C90_died`, `Iface.C90_harmless`, `Iface.C90_ngt_partial`, `Iface.C90_values`, `Iface.C91_addresses`, `Iface.C91_canusb_partial`, `Iface.C91_false`, `Iface.C91_fast_packet_partial`, `Iface.C91_handover`, `Iface.C98_deadly`, `Iface.C98_harmless`, `Json.C104_client`, `Json.C104_delta`, `Json.C104_total`, `Json.C104_wire`, `Json.C105_client`, `Json.C105_counters`, `Json.C105_details`, `Json.C105_index`, `Json.C105_install_false`, `Json.C105_install_partial`, `Json.C105_uuid`, `Json.C108_explain`, `Json.C110_shipped`, `Json.C110_shipped_crash`, `Json.C115_catch_up`, `Json.C115_caught_up`, `Json.C115_field_names`, `Json.C115_rows_stay`, `Json.C115_table`, `Json.C115_window_false`, `Json.C115_window_partial`, `Json.C115_window_unknown`, `Json.C118_canusb`, `Json.C118_client`, `Json.C118_complete`, `Json.C118_fast`, `Json.C118_ngt`, `Json.C123_client_partial`, `Json.C123_complete_partial`, `Json.C123_delta_partial`, `Json.C123_wrap_false`, `Json.C123_zone_false`, `Json.C79_json`, `Json.C79_total`, `Log.C124_forged_false`, `Log.C124_newline_false`, `Log.C124_one_line`, `Log.C124_partial`, `Log.C124_position_false`, `Log.C124_temperature_false`, `Log.C124_total`, `Log.C128_forged_false`, `Log.C128_partial`, `Log.C128_password_false`, `Log.C135_entry`, `Log.C135_which`, `Main.C107_checks`, `Main.C107_guarded`, `Main.C107_messages`, `Main.C107_servers`, `Main.C110_crash_iff`, `Main.C110_published`, `Main.C118_false`, `Main.C118_false_voltage`, `Main.C118_field`, `Main.C118_received`, `Main.C67_run`, `Main.C67_statistics`, `Main.C68_default`, `Main.C68_filter`, `Main.C69_order`, `Main.C69_progress`, `Main.C70_all`, `Main.C70_index`, `Main.C70_partition`, `Main.C71_by_index`, `Main.C71_by_pgn`, `Main.C71_large`, `Main.C71_link`, `Main.C71_malformed`, `Main.C71_negative_false`, `Main.C71_number`, `Main.C71_panic_iff`, `Main.C71_shipped`, `Main.C81_crash_iff`, `Main.C82_caught_up`, `Main.C82_client`, `Main.C92_any`, `Main.C92_progress`, `Main.C92_safe`, `Main.C93_any`, `Main.C93_any_complete`, `Main.C93_complete`, `Main.C93_ngt`, `Main.C93_origin`, `Main.C94_catch_up`, `Main.C94_statistics`, `Main.C95_partial`, `Main.C97_caught_up`, `Main.C97_client`, `Main.C98_canusb_deadly`, `Main.C98_canusb_fatal`, `Main.C98_cause`, `Main.C98_ngt_deadly`, `Main.C98_ngt_fatal`, `Main.C98_runs`, `Main.C99_complete`, `Main.C99_contents`, `Main.C99_field`, `Main.C99_wire`, `Main.Races.C111_adapters`, `Main.Races.C111_connections`, `Main.Races.C111_false`, `Main.Races.C111_free_partial`, `Main.Races.C111_settings`, `Nmea2k.C100_any_partial`, `Nmea2k.C100_false`, `Nmea2k.C100_partial`, `Nmea2k.C100_recover`, `Nmea2k.C101_claim`, `Nmea2k.C101_false`, `Nmea2k.C101_partial`, `Nmea2k.C117_decoded`, `Nmea2k.C117_false`, `Nmea2k.C117_origin`, `Nmea2k.C117_partial`, `Nmea2k.C117_satisfied`, `Nmea2k.C117_start`, `Nmea2k.C33_contiguous`, `Nmea2k.C33_definition`, `Nmea2k.C33_first`, `Nmea2k.C33_first_le_last`, `Nmea2k.C35_number`, `Nmea2k.C36_false`, `Nmea2k.C37_false`, `Nmea2k.C37_partial`, `Nmea2k.C38_false_wide`, `Nmea2k.C38_partial`, `Nmea2k.C38_repetitions_partial`, `Nmea2k.C39_latlon`, `Nmea2k.C40_false`, `Nmea2k.C40_partial`, `Nmea2k.C41_false`, `Nmea2k.C41_partial`, `Nmea2k.C42_scaled`, `Nmea2k.C43_partial`, `Nmea2k.C44_partial`, `Nmea2k.C45_general`, `Nmea2k.C45_needs_positive_group`, `Nmea2k.C45_terminates`, `Nmea2k.C46_130842`, `Nmea2k.C46_60928`, `Nmea2k.C46_exact`, `Nmea2k.C46_false`, `Nmea2k.C46_partial`, `Nmea2k.C47_126720`, `Nmea2k.C47_false_130816`, `Nmea2k.C47_false_130820`, `Nmea2k.C47_false_unmatched`, `Nmea2k.C47_general`, `Nmea2k.C47_partial`, `Nmea2k.C47_range`, `Nmea2k.C47_search`, `Nmea2k.C47_single`, `Nmea2k.C47_text_false`, `Nmea2k.C48_unknown`, `Nmea2k.C50_entries`, `Nmea2k.C50_fixed`, `Nmea2k.C50_shipped`, `Nmea2k.C51_print`, `Nmea2k.C51_shipped`, `Nmea2k.C52_multiple`, `Nmea2k.C52_order`, `Nmea2k.C79_marshal`, `Packages.C113_button`, `Packages.C113_failure_false`, `Packages.C113_installed_partial`, `Packages.C113_marked_partial`, `Packages.C113_rows`, `Packages.C113_unmarked_false`, `Packages.C77_empty`, `Packages.C77_exact`, `Packages.C77_false`, `Packages.C77_keys`, `Packages.C77_listing_partial`, `Packages.C77_lookup`, `Packages.C77_sound`, `Packages.C84_hang_false`, `Packages.C84_returns_partial`, `Playback.C125_case_false`, `Playback.C125_exact`, `Playback.C125_json`, `Playback.C125_line_partial`, `Playback.C125_malformed_false`, `Playback.C125_number_false`, `Playback.C126_dash_false`, `Playback.C126_exact`, `Playback.C126_line`, `Playback.C126_partial`, `Playback.C126_refused`, `Playback.C126_shown`, `Playback.C126_zone_false`, `Query.C132_all`, `Query.C132_index`, `Query.C132_other`, `Query.C132_query`, `Routes.C112_addresses`, `Routes.C112_app`, `Routes.C112_files`, `Routes.C112_installed`, `Routes.C112_link`, `Routes.C86_api`, `Routes.C86_apps`, `Routes.C86_details_false`, `Routes.C86_details_partial`, `Routes.C86_exposed_false`, `Routes.C86_install_shadowed_false`, `Routes.C86_installed_url`, `Routes.C86_link_false`, `Routes.C86_link_partial`, `Routes.C86_pages`, `Routes.C86_websockets`, `Signalk.C102_false`, `Signalk.C102_partial`, `Signalk.C53_delta_partial`, `Signalk.C53_replace`, `Signalk.C53_shipped`, `Signalk.C54_once`, `Signalk.C55_exact`, `Signalk.C55_number`, `Signalk.C55_number_malformed`, `Signalk.C55_number_range`, `Signalk.C55_reported`, `Signalk.C56_false`, `Signalk.C56_order_partial`, `Signalk.C56_separate`, `Signalk.C56_shipped`, `Signalk.C57_update`, `Signalk.C58_conjunction_partial`, `Signalk.C58_exact`, `Signalk.C59_delta_partial`, `Signalk.C59_shipped`, `Signalk.C60_delta_partial`, `Signalk.C60_exact`, `Signalk.C60_shipped`, `Signalk.C61_any`, `Signalk.C61_false_zone`, `Signalk.C61_shipped`, `Signalk.C61_text`, `Signalk.C61_utc_partial`, `Signalk.C99_delta`, `Signalk.civil_calendar`, `Socket.C127_client`, `Socket.C127_close`, `Socket.C127_delta`, `Socket.C127_page`, `Socket.C127_stream`, `Socket.C127_texts`, `Toml.C130_backslash_false`, `Toml.C130_control_false`, `Toml.C130_file_partial`, `Toml.C130_newline_false`, `Toml.C130_nul_false`, `Toml.C130_refused_false`, `Toml.C130_restart_partial`, `Toml.C130_speed_false`, `Toml.C130_stuck_false`, `Toml.C134_always_partial`, `Toml.C134_certificate_false`, `Toml.C134_entered_partial`, `Toml.C134_huge_false`, `Toml.C134_nul_false`, `Toml.C136_mixed_false`, `Toml.C136_next_partial`, `Xml.C109_claim_false`, `Xml.C109_details_partial`, `Xml.C109_tables_false`.
