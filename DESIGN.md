# Formal model of koykov/uaxpl in Lean 4 — design

`properties.jsonl` states the properties in English, `MANIFEST.json` maps each of them to the theorems that settle it, this file says what is
modelled, how each property is treated and what has to be trusted.

## 1. Shape of the model

All of it is Lean 4 under `lean/Verif/`:

* `Model/*`  – transcription of the Go code, function by function; each definition cites the `/repo` file and lines.
* `Spec/*`   – what a user believes, stated without reference to the code that computes it (rules and their order, histories, configurations
  of contexts, well-formed tables).
* `Proofs/*` – helper lemmas and invariants.
* `Props/*`  – the property theorems, each with an `example` showing that a concrete case meets its hypotheses.
* `Data/*`   – the shipped rule tables, written by `tools/gen_tables.py` from `/repo/*_repo.go`.

| code | model |
|------|-------|
| `cache_entry.go` | `Model/CacheEntry`: MarshalTo as the sequence of writes at offsets, Unmarshal as reads |
| `cache.go` | `Model/Cache` (heap of entries, `buf` of pointers, `idx`, clock readings as inputs), `Model/Lock` (`sync.Once` step by step, the mutex, any number of goroutines) |
| `ctx.go`, `client_parser.go`, `engine_parser.go`, `device_parser.go`, `os.go`, `vendor.go` | `Model/Ctx`, `Model/Parse`, `Model/Api` |
| `uaxpl.go` (SetCache, GetCache) and goroutines | `Model/Prog` (interaction trees), `Model/System` (interleavings of any number of contexts over one cache), `Model/Builtin` (the same with the built-in cache); `Model/Race` (memory accesses and synchronisation of all of it) |
| `version.go`, `conv.go`, `tokenizer.go`, `client.go`, `device.go` | `Model/Version`, `Model/Tokenizer`, `Model/Parse` |
| `pool.go`, `alias.go` | `Model/Pool` |
| backing arrays of returned strings | `Model/Alias` |
| `cmd/uaxplc` (buf.go, regex.go, mod_os/client/vendor/hint/device.go) | `Model/Compiler` (tables), `Model/Emit` (the text written, mod.go, head of main.go), `Model/Tool` (main.go, mod_bot.go, files) |
| `cmd/uaxpl` (passRaw, single user agent mode, passFile, passURL) | `Model/Cli`, `Model/Batch`, `Model/Single`, `Model/Fetch` |
| `*_repo.go` | `Data/*`, put together by `Data/Shipped` |
| package `regexp` | contract `Re.WF` (`Model/Tables`), `RegexpLib` (`Spec/Regexps`), and an executable model `Model/Regexp` which is proved to satisfy them |

### Conventions

* A run-time panic is the value `none`. A byte slice or string is `List UInt8`. `uint32`, `uint64` are `UInt32`, `UInt64`; index arithmetic the
  code does in `int8` wraps in the model.
* Slicing `b[lo:hi]` with `hi > len(b)` is a panic in the model. Go panics only for `hi > cap(b)` and otherwise exposes bytes between length and
  capacity. Every "no panic" theorem is therefore stronger than needed; in refutations ("GetModel panics") Go may show stale bytes instead.
  The only slicing of this kind whose bounds are not proved to be within the length is that of C20.
* Detection talks to the cache only through `Cache.Get` and `Cache.Set`. It is an interaction tree `Prog` (`ret | get key k | set key e k`), which is
  run against no cache, the built-in cache, or any cache that answers only errors and entries that were stored for the key.
* Theorems about detection are about arbitrary tables `T` (with the stated well-formedness where it is needed), arbitrary regexps, and an
  arbitrary hash function `H`, unless they say "shipped".
* `Ctx.writes` is a ghost field: the operations applied to the context's buffer since the last reset, used to prove C49. No code reads it.
* The version fields of a context hold the Suffix as it was read when parsed. In Go it is a window of the version string; C49 (`parseL`, `versionL`) says how long the two agree: always for browser and engine versions, until the next cache hit for OS versions whose text had underscores.

## 2. Properties and how each is treated

"Refuted" means: the code does not have the property; the negation is proved with a concrete witness, and what does hold is proved beside it.

| id | treatment | proof |
|----|-----------|-------|
| C01–C06 | proved | little-endian lemmas; the writes of MarshalTo equal the layout of one byte list |
| C07 | refuted (header overwritten before the second check) | witness; exact description of what changes |
| C08 | refuted (length field is 32 bits) | for every entry with 2^32 bytes or more the decoded Data is shorter |
| C09–C11, C13, C15 | proved | invariant over all histories of Set/Get/clean; refinement to a map; collisions by pigeonhole |
| C12 | refuted (the element swapped in is skipped) | witness; a pass removes at least half of the expired entries, log many passes all |
| C14 | refuted (one entry under two keys) | histories with a panic, and with a wrong answer |
| C16–C18 | proved | all fields after Reset; pool state machine; configurations of contexts |
| C19, C21, C51 | proved | soundness invariant of contexts and stored entries, preserved by every step of `Sys`; the answers are functions of `uncached` |
| C20 | refuted (stored data is the user agent, not the buffer) | concrete run; what is stored, what is answered; holds for a context alone with its user agent (invariant over executions: no entry for it has a bit its context lacks) |
| C22 | refuted with a shared cache | concrete run; holds without hits; with hits the answer respects the filter of some earlier request |
| C23, C29–C32, C41, C53, C55, C56, C62 | proved | detection is computed in closed form (`P.Out`), compared with `Spec/Rules` (first matching rule, template expansion, …) |
| C24 | refuted in three ways | witnesses; exact answer; holds when none of the three applies |
| C25 | proved | typing invariant of contexts and entries (`P.Fix`) |
| C26 | proved | `WFfor` tables: no operation faults, by structural induction on rows, models, template bytes |
| C27 | refuted for the shipped tables | a user agent on which every client getter panics; the exact condition; everything else proved safe (GetModel below 64 MiB: shipped templates have at most 49 bytes) |
| C28 | proved for the shipped tables | boolean checkers run by the kernel (`decide +kernel`) over the complete tables, lifted by soundness lemmas (`Proofs/Check`, `Proofs/Packed`) |
| C33, C34 | proved | decimal parsing by induction on the input |
| C35, C36, C54 | refuted | witnesses; round trip for Major > 0 without suffix; exact wrapped values |
| C37, C39 | proved | induction on the input |
| C38 | refuted (byte 0xFF) | every input with that byte panics; none without |
| C40 | refuted (string comparison of versions) | for the compiled function and for Chrome 100–199 with the shipped tables; holds for equal digit counts |
| C42 | proved | bit arithmetic |
| C43–C46, C58–C61 | proved | invariants of the accumulators; measure for the normalisation loops; compiled rows denote their rules |
| C47 | refuted | the shipped rule `^Pods/` with `$1` |
| C48, C63 | proved | inductive invariant and progress measure of the worker pool |
| C49 | refuted (a later hit overwrites the buffer in place) | memory model with backing arrays and any append growth policy; what stays valid and how long |
| C50 | proved | ownership invariant of the pool state machine |
| C52 | proved | invariant, linearisation at the body step, progress measure |
| C57 | proved | `Prog.Within` along every path |
| C64 | partial | simulation: executions of contexts, built-in cache, clock and cleaner (`Model/Builtin`), without the getter calls for user agents that share a hash, are executions with an honest cache; then C19. Refuted by two user agents with the same FNV-1 hash |
| C65 | refuted (literal rules) | the matcher is invariant under case folding for patterns that begin with `(?i)` (induction on the regexp); every shipped and generated client, OS and device pattern does; if the case-sensitive texts (literals, vendor fragments, markers) occur alike, all getters give answers alike (transport of each getter's specification and its uniqueness); witnesses for a literal rule and a vendor |
| C66 | refuted (repeated user agents with models) | product of the workers (`Model/Cli`) and the contexts with the built-in cache (`Model/Batch`); an invariant says where each worker is in its script and which answers it has; per row a session as in C20; a lexicographic measure that all steps but the cleaner's decrease; witness: a file with the same row twice |
| C67 | refuted (entries of other contexts) | predicate transformer that counts accesses along every path (`Proofs/Amort`): each is paid for by a part of the detection that becomes known; witness: two half entries in turn, for every number of calls |
| C68 | proved | `Spec/RuleFiles` says what rule files mean without tables or offsets; each emitted row denotes its rule (`Spec/Compiler`), so every clause of the detection properties C23, C30, C55, C56 is carried over row by row (`Proofs/RuleFiles`); equal strings have equal offsets (`Proofs/Intern`); both sides are functional (`Proofs/RuleUnique`), hence equivalences |
| C69 | proved | the same for C53 and C31 (`Proofs/RuleOS`) |
| C70 | proved | the same for C24, C32, C41 (`Proofs/RuleDevice`); the first match in the sorted list is the least one; witness against file order: two brands with one pattern |
| C71 | proved | the same for C29; witness against dropping the condition on the hash: a constant hash |
| C72 | proved | `Model/Single`: the calls of `main` in single mode, executed by the contexts of `Model/Builtin`; invariant over the stages of the run, each answer by C20 for a context alone with its user agent; a decreasing count of steps bounds every run; for the shipped tables also the runs that crash |
| C73 | proved | equations between `uncached` answers: detection does not touch the parsed versions (`Proofs/VersionGetters`); components by C33; witness against equal texts: "96.0.4" is printed as "96.0.4.0" |
| C74 | partial | `Model/Emit` is the text written by the five modules, `Spec/GoSource` an independent reader for the part of Go it uses (tokens, automatic semicolons, brackets, composite literals, functions of `if`s); reading what was written gives the tables back, by induction over rows, bytes, patterns and files (`Proofs/GoSource`, `Emit*`). The hypotheses of the reader are derived from conditions on the rules (`Proofs/EmitRules`). Missing: rules that violate them, for which the claim is refuted by witnesses |
| C75 | partial | `Model/Race` has the memory accesses and synchronisation operations of the library (values left out, so both branches of every test are possible), `Spec/Race` the happens-before relation of the Go memory model and the definition of a race. An invariant (who knows which object, under which lock it may be touched, which earlier accesses are ordered before it) is kept by every step (`Proofs/Race*`). Refuted once a program reads an entry it got from `GetCache().Get`. Contexts are passed on by the pool, a channel or a go statement; caches are built-in or the program's own, the latter doing everything under a lock |
| C76 | partial | `Model/Tool` is `main` of uaxplc with flags, reading, compiling, formatting and writing, over an arbitrary file system; the YAML decoder, `filepath.Glob`, `go/format`, `os.WriteFile` are parameters. Frame by cases; success and end-to-end from C46 (compiling never fails) and C74. The rows of the compiler with the extra columns are projected to those of `Model/Compiler`. Refuted for `bot`, empty directories, failing writes, `~` inside names |
| C77 | partial | `Model/Fetch` is `main`, `passFile` and `passURL` of uaxpl around `Model/Cli`/`Model/Batch`, over an arbitrary file system and network; sequences of runs by induction. Refuted: rows served by the URL, input equal to output, partial downloads |
| C78 | proved | `Spec/Pattern` defines matching by a relation (which parts of a text belong to a regexp) and preference between the ways to match, independent of the backtracking matcher of `Model/Regexp`; the matcher finds the leftmost and of those the preferred way, by induction on regexp and rounds (`Proofs/Pattern`). UTF-8 decoding against the definition of UTF-8 (`Proofs/Utf8`) |
| C79 | partial | the generated prefix parses to a fixed regexp in front of the rule's (`Proofs/PatternText`, `PatternParts`), whose language is "a word may start here"; for the shipped client and vendor regexps by kernel evaluation of the parser over both complete tables. Refuted for vendor patterns with alternatives |
| C80 | partial | language of the version pattern made for an engine with a plain name (`Proofs/PatternPlain`); shipped engine patterns by kernel evaluation. Refuted: only digits and dots |
| C81, C82 | partial | an analysis of which bytes a group can capture (`within`, sound for the language, `Proofs/PatternChars`) is run by the kernel over all shipped client and OS regexps (`Proofs/ShippedPattern`); constants by evaluation. Refuted by the exceptions the analysis finds |
| C83 | partial | every name in the shipped client, hint, device and vendor tables is checked by the kernel (`textN`, `properN`, `Proofs/ShippedNames`) and lifted through C23, C29 and C41; the six exceptions are named by their patterns, one is evaluated |
| C84 | proved | the constants by evaluation; the distributions by an analysis of the words a group can capture (`words`) and of the groups every match passes through (`must`, both sound for the language, `Proofs/PatternWords`) |
| C85 | proved | an expanded template has no dollar sign but the user agent's (`expands_dollar`); literal rules by evaluation over the 16062 models |
| C86 | proved | from the specifications of the getters (C23, C30, C55, C56, C53, C31, C32, C41) and uniqueness of the rule selected |
| C87 | refuted (engine versions, large numbers) | shape of the version strings (C83) and the meaning of `Version.Parse` (C73) give the numbers of strings of digits and dots; witnesses: an engine version with a hyphen, a component of 2^31 |
| C88 | refuted | a kernel check over the shipped model lists finds, for five rules, an earlier rule of the same list whose text is contained in theirs; witness "GACRUX", for which the rules before that of the brand are checked one by one |
| C89 | proved | `WellFormed` is a concatenation of `utf8` of scalar values (`Spec/Text`). Regexp matches begin and end between characters (`Way.boundary`), so captures of a well-formed user agent are well-formed; for arbitrary bytes an analysis of what a group can capture (`solid`, `capsSolid`, `Proofs/Text`) is run by the kernel over the shipped client and OS regexps; table texts are checked one by one (`Proofs/ShippedText`). Versions and the report of the comparison tool follow (`Proofs/VersionText`, `Props/ToolText`) |
| C90 | partial | `Model/CliFlags` is package flag as uaxpl uses it, with `strconv.ParseInt` (base 0, underscores, signs) and `ParseBool`, and the program up to the work itself. `Spelled` says what argument lists mean and `Number` what integer literals mean, without the reader; both directions by induction on the arguments and on the digits (`Proofs/CliNumber`). `Ran` joins the reader with the executions of `Model/Single` and `Model/Batch`, so that C72 and C66 become statements about argument lists and files. Missing: the conditions of C66; the claims about numbers that are refuted. |
| C91 | refuted in part | `Spec/VersionText` describes version texts by inductive predicates (`Dec`, `Numeral`, `Dotted`, `AfterMark`) without the parser; both directions by induction on the number of pieces left (`Proofs/VersionShape`) |
| C92 | refuted in part | the text of a version is computed in closed form (`numParts`); it is cut at the first space and at its dots again, and decimal texts determine their numbers |
| C93 | proved | `Spec.slots` is the table of offsets and widths, `Layout` says which byte is where; written records by induction on the table, reading because the layout determines all 95 bytes (checked for every offset) and the payload |
| C94 | refuted in part | witness; the result of `Parse` on a version in any state from the description of C91 |
| C95 | refuted in part | the calls of C37 from any position; the position after the end of a text by induction on the calls |

### Findings in the code that the proofs rest on

* `CacheEntry.FromCtx` stores a copy of the user agent as Data although the model offsets refer to the buffer (C20).
* Cache entries do not depend on filters, cache keys neither (C22).
* Device type: keyword lists, portable media player rules and types named by rules ignore the filter (C24).
* Eight shipped client rules take the version from a group their regexp does not have (C27, C28, C47).
* Engine thresholds are compared as strings and only the smallest one can ever fire (C40, C59).
* The tokenizer indexes a 255-element table with a byte (C38). `Unmarshal` writes before it checks (C07).
* `clean` skips elements (C12); an entry stored under two keys breaks the index (C14).
* `fromCache` overwrites the buffer that earlier answers point into (C49).
* The built-in cache identifies user agents by a 64-bit hash alone (C64).
* Rules without regexp characters and vendor fragments are compared case-sensitively, all others are not; GetDeviceType compares the OS name with the desktop names exactly, although a captured name is spelled as in the user agent (C65).
* The batch checker reports a wrong model for the second of two equal rows (C66).
* Loading an entry replaces the detection flags of the context, so it can forget a part it had detected (C67).
* Device and vendor rules lose their file order: the compiler sorts brands by name, so the alphabetically least matching brand wins, and the greatest matching vendor (C70).
* A client rule without regexp characters never gives a version, even if it names a constant one (C68).
* An engine known only from the engine file never gets an engine version, and neither does the forced "Blink" (C68).
* A device rule none of whose models matches ignores its own device type (C70); in rules without regexp characters model templates stay unexpanded (C70).
* Header names are looked up by hash only (C71).
* The dot between the numbers of an engine version is not escaped in the regexps, so any character may stand there and a suffix can appear; components of 2^31 and more wrap around (C87).
* For the same reason bytes that are no UTF-8 get from the user agent into the engine version; classes such as `[^;/]` let them into models (C89).
* `uaxpl -threads 010` starts eight threads and `-threads 08` is refused; a negative number panics and `-threads 0` hangs, both after the output file was emptied; `-format` is never looked at (C90).
* A version gets a suffix only after four numbers and a fourth dot (`1.2.3.4.x-beta`); `10-beta` and `10.7 beta` are errors (C91).
* The versions read from `2147483648` and from `0` are both written as `0`: numbers that are not positive are left out at the beginning (C92).
* `Parse` keeps the components read before an error: after the error on `1.2.x`, a second `Parse` of `5` gives 5.2 (C94).
* A tokenizer that reached the end of one text skips as many bytes of the next unless it is reset (C95).
* Texts of model rules are looked for anywhere in the user agent: Ceibal's Gacrux is always taken for an Ácrux; four more rules are never used (C88).
* On a user agent for which a rule with one of the broken regexps is selected, the single mode of the tool crashes after writing two lines (C72).
* Version getters swallow the error of Parse: a version text with a piece that is no number gives the numbers before it and zeros (C73). The single mode of the command line tool prints normalised versions, not the version strings (C72, C73).
* The generator quotes nothing (C74): patterns go between backquotes as they are, so a backquote ends the string or even adds a regexp and shifts all later ones, and carriage returns are dropped; thresholds go between double quotes unescaped. A reference `$128` becomes −128 and is written `-0x-80`, which does not compile. Two hints with equal hashes give a repeated map key, which does not compile.
* `Get` of the built-in cache returns a pointer to an entry it goes on writing to (the timestamp, under its lock). The library itself never reads the timestamp outside the lock, so it is race-free; a program that reads the entry, e.g. with `MarshalTo`, races with any other `Get` of it (C75).
* `uaxplc` ends with status 0 and writes nothing for `-module bot`; a mistyped directory gives empty tables and status 0; a failing write destroys the old target; every `~` in the input is replaced (C76).
* `uaxpl -url` looks at the last segment of the URL only and trusts whatever is in `/tmp/uaxpl_<segment>`, including the beginning of a file from a broken write; `-out` is emptied before `-file` is read (C77).
* What has to follow a vendor name, `[^a-z0-9]+`, is appended without grouping, so with alternatives it binds to the last one only, and case counts only here (C79).
* The dot in the version patterns made for engines is not escaped: "WebKit/5a3" gives engine version "5a3" (C80).
* The version `$1 $2` of Yandex Browser is compiled to group 0, so its version is the whole match: "x/YaBrowser/23.1 (beta)" has version "YaBrowser/23.1 (beta)" (C81).
* Versions such as `26.$1` and `Server $1` do not begin with a reference and are kept as constants: iOS 19.1 has OS version "26.$1" (C82).
* Six rules of mobile apps have templates for names, which client rules do not support: GetBrowser answers "Podkicker$1", "Microsoft Office $1",
  "radio.$1", "$1" and "$2" literally (C83).
* The rule for Siri is a literal one with a constant version 1.0, which is never reported: literal client rules ignore it.
* Two model templates refer to a group that does not exist: Compal (`$1`, always an empty model) and ZTE (`Blade A$1 (2020)`, cut off at `Blade A`).
* The desktop names IBM, Unix, Chromium OS and OS ROSA are the name of no OS rule, so they never make a device a desktop (C84).
* `uaxpl -threads 0` hangs (C48).

## 3. Trusted base

* Lean's kernel. Every theorem depends on at most `propext`, `Classical.choice`, `Quot.sound`; no axioms are added, no `sorry`, no
  `native_decide`. `decide +kernel` is evaluation by the kernel itself.
* The reading of the Go code recorded in the comments of `Model/*`.
* `tools/gen_tables.py`, which copies the literals of `/repo/*_repo.go` into `Data/*`.
* The behaviour of the libraries below; their sources are not available here.
  * `koykov/entry.Entry64`: `Encode(lo,hi)` = `lo<<32|hi`, `Decode` its inverse (the shipped tables confirm this).
  * `koykov/bitset.Bitset`: 64-bit word with `SetBit`, `CheckBit`, `Reset`.
  * `koykov/bytealg`: `Copy` copies; `Trim`, `TrimRight` with one byte cut set; `IndexByteAtLUR(s,b,at)` = least index ≥ at holding b or -1.
  * `koykov/byteconv`: S2B, B2S do not copy.
  * `koykov/hash/fnv.Hash64String`: FNV-1, 64 bit (the keys of hint_repo.go confirm this). Only the results that name `fnv1` depend on it.
  * Go `regexp` (through `Re.WF` and `RegexpLib`; C65, C78–C80 and the statements that name `Regexp.compile` or `Regexp.lib` rest on the parser of `Model/Regexp`), `strconv`, `strings`, `bytes`, `sort`, `sync`, `encoding/binary`, as documented; `int` has 64 bits.
  * The Go memory model as in `Spec/Race`, with `sync.Once` giving no ordering at all (not needed), `sync.Pool`, `sync.Mutex`, `atomic` and
    `go` as documented; `*regexp.Regexp` is safe for concurrent use.

Validation of the transcription: an independent port of the detection code to Python, and the Lean model run with the shipped tables and the
modelled regexps, agree on all ten getters for all 1960 user agents in `/repo/testdata`. The reader of Go source, run on the five shipped
`*_repo.go` (`tools/check_tables.lean.txt`), gives exactly the tables of `Data/*`. These are tests of the model, not part of any proof.

Not modelled: memory limits, garbage collection beyond pools dropping objects, real time (clock readings are arbitrary inputs), `go/format` (trusted to keep the tokens of the generated source), the verbose log of uaxpl. Files, network and the YAML and JSON decoders of the two
tools are parameters of `Model/Tool` and `Model/Fetch`. Word boundaries,
named groups and Unicode classes of `regexp` are outside `Model/Regexp` (no shipped pattern needs them) but inside `Re.WF`.
