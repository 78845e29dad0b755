{"id": "C01", "title": "CacheEntry encode/decode round trip", "statement": "Encoding any CacheEntry with MarshalTo into a buffer of at least Size() bytes and decoding the result with Unmarshal into any receiver yields an entry equal in every field, including Data, Hkey and Timestamp.", "quantifier": "every CacheEntry with len(Data) < 2^32, every destination buffer of sufficient size with any contents, every receiver", "why_tests_cant": "the field values span 13 machine words plus an unbounded byte string; tests sample three entries", "anchors": ["cache_entry.go:CacheEntry.MarshalTo", "cache_entry.go:CacheEntry.Unmarshal"]}
{"id": "C02", "title": "MarshalTo writes exactly Size() bytes", "statement": "On success MarshalTo returns n = Size() = 95 + len(Data), bytes at positions >= n are unchanged, the buffer length is unchanged, and the first n bytes depend only on the entry (not on what the buffer held).", "quantifier": "every entry, every buffer with len >= Size()", "why_tests_cant": "absence of writes past n must hold for every buffer content and length", "anchors": ["cache_entry.go:CacheEntry.MarshalTo", "cache_entry.go:CacheEntry.Size", "cache_entry.go:CacheEntry.minsz"]}
{"id": "C03", "title": "MarshalTo rejects short buffers without writing", "statement": "If the buffer is shorter than Size(), MarshalTo returns (0, io.ErrShortBuffer) and the buffer is untouched; otherwise it never fails or panics.", "quantifier": "every entry and every buffer", "why_tests_cant": "universal over entry and buffer sizes", "anchors": ["cache_entry.go:CacheEntry.MarshalTo"]}
{"id": "C04", "title": "Unmarshal is total on arbitrary bytes", "statement": "Unmarshal never panics on any input bytes; it succeeds exactly when the input has at least 95 bytes and at least as many further bytes as the 32-bit length field announces, and otherwise returns io.ErrUnexpectedEOF.", "quantifier": "every byte string, every receiver", "why_tests_cant": "the input is attacker-controlled and unbounded", "anchors": ["cache_entry.go:CacheEntry.Unmarshal"]}
{"id": "C05", "title": "Unmarshal is canonical", "statement": "If Unmarshal accepts an input, re-encoding the decoded entry reproduces exactly the first Size() bytes of that input; consequently two inputs decoding to the same entry share that prefix.", "quantifier": "every byte string accepted by Unmarshal", "why_tests_cant": "needs all byte strings, not only outputs of MarshalTo", "anchors": ["cache_entry.go:CacheEntry.Unmarshal", "cache_entry.go:CacheEntry.MarshalTo"]}
{"id": "C06", "title": "Truncated encodings are always rejected", "statement": "Every strict prefix of an encoding produced by MarshalTo is rejected by Unmarshal with io.ErrUnexpectedEOF; appending any trailing bytes to a full encoding does not change the decoded entry.", "quantifier": "every entry with len(Data) < 2^32, every truncation point, every trailing suffix", "why_tests_cant": "all truncation points of all encodings", "anchors": ["cache_entry.go:CacheEntry.Unmarshal"]}
{"id": "C07", "title": "A failed Unmarshal leaves the receiver unchanged", "statement": "If Unmarshal returns an error the receiver is unchanged. (Expected by callers that retry; must be checked against the code.)", "quantifier": "every receiver and every rejected input", "why_tests_cant": "requires reasoning about all error exits and all fields", "anchors": ["cache_entry.go:CacheEntry.Unmarshal"]}
{"id": "C08", "title": "Large Data survives the round trip", "statement": "The round trip of C01 also holds for entries whose Data is 4 GiB or larger. (Must be checked against the 32-bit length field.)", "quantifier": "every entry, no bound on len(Data)", "why_tests_cant": "4 GiB inputs are impractical to test", "anchors": ["cache_entry.go:CacheEntry.MarshalTo"]}
{"id": "C09", "title": "Built-in cache reads back the last write", "statement": "Whatever sequence of Set, Get and periodic clean operations precedes it, Get(k) on the built-in cache returns either not-found or exactly the entry of the most recent Set(k,_); it is not-found only if k was never set or a clean ran since its last Set.", "quantifier": "every history of operations with fresh entries, every clock behaviour, every hash function without collision on the keys used", "why_tests_cant": "histories and clock readings are unbounded", "anchors": ["cache.go:cache.Set", "cache.go:cache.Get", "cache.go:cache.clean"]}
{"id": "C10", "title": "Built-in cache stays internally consistent and never panics", "statement": "After any history of Set/Get/clean with fresh entries and arbitrary (even non-monotone) clock readings, the cache holds at most one entry per key, every stored entry is reachable through Get, and no operation panics with an index error.", "quantifier": "every history, every clock", "why_tests_cant": "index/slice consistency after swap-removal depends on all interleavings of insertions and evictions", "anchors": ["cache.go:cache.Set", "cache.go:cache.Get", "cache.go:cache.clean"]}
{"id": "C11", "title": "The cache never evicts a recently used entry", "statement": "A clean at time t removes an entry only if its last Set or Get happened more than one hour before t; all other entries remain retrievable with the same value.", "quantifier": "every cache state reachable by any history, every time t", "why_tests_cant": "needs all states including those produced by earlier swap-removals", "anchors": ["cache.go:cache.clean", "cache.go:cacheTTL"]}
{"id": "C12", "title": "A clean pass removes every expired entry", "statement": "After a clean at time t no entry unused for more than one hour remains. (Must be checked: the swapped-in element is not re-examined.) What does hold: one pass removes at least half of the expired entries, and as many passes as there are expired entries remove all.", "quantifier": "every reachable cache state and every t", "why_tests_cant": "depends on the arrangement of expired entries in the buffer", "anchors": ["cache.go:cache.clean"]}
{"id": "C13", "title": "Distinct keys do not interfere", "statement": "Set on one key never changes what Get returns for a different key. Holds when the two keys hash differently; because keys are identified by a 64-bit hash alone there exist key pairs for which it fails.", "quantifier": "every pair of keys, every cache state", "why_tests_cant": "collisions are too rare to be hit by tests but exist for certain", "anchors": ["cache.go:cache.Set", "cache.go:cache.Get"]}
{"id": "C14", "title": "Storing the same entry under two keys is safe", "statement": "Calling Set with one *CacheEntry under two different keys behaves as two independent entries. (Must be checked: Set writes Hkey into the caller's entry.)", "quantifier": "every history that re-uses an entry pointer", "why_tests_cant": "needs a pointer-sharing history followed by expiry", "anchors": ["cache.go:cache.Set", "cache.go:cache.clean"]}
{"id": "C15", "title": "Entries obtained from the cache keep their detection results", "statement": "An entry returned by Get is never altered in its detection fields or Data by later operations of any goroutine on the built-in cache (only its timestamp is refreshed), so reading it outside the lock cannot mix two results.", "quantifier": "every history after the Get, with fresh entries", "why_tests_cant": "schedules between Get and the copy-out are unbounded", "anchors": ["cache.go:cache.Get", "cache.go:cache.Set", "ctx.go:Ctx.fromCache"]}
{"id": "C16", "title": "A pooled context is as good as new", "statement": "Whatever was done with a context before Release, the context later handed out by Acquire behaves exactly like NewCtx().", "quantifier": "every history of operations on the context before Release", "why_tests_cant": "leftover state could be in any of 20 fields after any history", "anchors": ["pool.go:Pool.Get", "pool.go:Pool.Put", "ctx.go:Ctx.Reset", "alias.go"]}
{"id": "C17", "title": "SetUserAgent forgets the previous user agent", "statement": "After SetUserAgent(ua) every getter answers as on a fresh context with the same filters and ua, independently of everything done before on that context.", "quantifier": "every prior history and every ua", "why_tests_cant": "leak of stale fields depends on history", "anchors": ["ctx.go:Ctx.SetUserAgent", "ctx.go:Ctx.reset"]}
{"id": "C18", "title": "Filters persist until Reset", "statement": "Client and device filters survive SetUserAgent and all getters, and Reset/Release restores the all-types filters.", "quantifier": "every history between setting the filter and reading", "why_tests_cant": "histories unbounded", "anchors": ["ctx.go:Ctx.FilterClientType", "ctx.go:Ctx.FilterDeviceType", "ctx.go:Ctx.Reset"]}
{"id": "C19", "title": "Shared caching never changes detection answers", "statement": "With any number of contexts used concurrently, sharing a cache that may drop entries at any time, each of GetClientType, GetBrowser, GetBrowserVersionString, GetEngine, GetEngineVersionString, GetDeviceType, GetBrand, GetOS and GetOSVersionString returns what uncached detection returns for that user agent under a filter in use by some context; in particular with one common filter the answer is exactly the uncached one.", "quantifier": "every number of contexts, every interleaving of their cache accesses, every sequence of calls, every eviction behaviour, every user agent shorter than 4 GiB", "why_tests_cant": "interleavings of partially filled cache entries (client-only, OS-only, ...) overwriting one another are unbounded", "anchors": ["ctx.go:Ctx.fromCache", "cache_entry.go:CacheEntry.FromCtx", "client_parser.go:Ctx.parseClient", "device_parser.go:Ctx.parseDevice", "os.go:Ctx.parseOS"]}
{"id": "C20", "title": "Caching never changes the device model", "statement": "GetModel returns the same model whether or not the user agent's result came from the cache. (Must be checked: the cached entry stores the user agent, not the model buffer.)", "quantifier": "every user agent, every schedule", "why_tests_cant": "depends on cache hits; the test-suite only logs differences", "anchors": ["cache_entry.go:CacheEntry.FromCtx", "ctx.go:Ctx.GetModel"]}
{"id": "C21", "title": "Getter answers do not depend on call order or repetition", "statement": "For one context and user agent, any sequence of getter calls yields for each getter the same answer every time and the same as calling that getter first.", "quantifier": "every sequence of getter calls", "why_tests_cant": "factorially many orders; lazily computed state is shared between getters", "anchors": ["ctx.go"]}
{"id": "C22", "title": "Client filter is respected", "statement": "With FilterClientType(mask), GetClientType returns 0 or one type included in mask. Holds when the result is not taken from an entry cached under another filter; fails otherwise.", "quantifier": "every mask and user agent, every cache state", "why_tests_cant": "all masks times all inputs times all cache states", "anchors": ["ctx.go:Ctx.FilterClientType", "client_parser.go:Ctx.parseClient"]}
{"id": "C23", "title": "Client detection order", "statement": "Uncached, the client type is the first of feed reader, mobile app, media player, PIM, library, browser that is allowed by the filter and has a matching rule, and the name reported is that of the first matching rule of that category.", "quantifier": "every user agent, every filter, every rule table", "why_tests_cant": "all inputs and tables", "anchors": ["client_parser.go:Ctx.parseClient", "client_parser.go:Ctx.evalClient"]}
{"id": "C24", "title": "Device filter is respected", "statement": "With FilterDeviceType(mask), GetDeviceType returns 0 or a type included in mask. (Must be checked: keyword fall-backs and per-rule types ignore the mask.)", "quantifier": "every mask and user agent", "why_tests_cant": "all masks times all inputs", "anchors": ["ctx.go:Ctx.FilterDeviceType", "device_parser.go:Ctx.parseDevice", "device_parser.go:Ctx.evalDevice"]}
{"id": "C25", "title": "Device type is a single declared constant", "statement": "GetDeviceType always returns 0 or exactly one of the ten DeviceType constants, so String() of a non-zero answer is never UNK; likewise GetClientType returns 0 or exactly one of the six constants.", "quantifier": "every user agent, filter, cache schedule", "why_tests_cant": "all inputs and schedules", "anchors": ["device.go", "client.go", "device_parser.go:Ctx.deviceEvalType"]}
{"id": "C26", "title": "No panic with well-formed rule tables", "statement": "If the rule tables are well formed (all offsets and indices in range, every version/name group index exists in its regexp) then no API call panics, whatever the user agent, filters, call order and concurrent cache use (GetModel after a cache hit excepted, see C20).", "quantifier": "every user agent shorter than 4 GiB, every schedule, every well-formed table set", "why_tests_cant": "user agents are attacker-controlled and unbounded", "anchors": ["client_parser.go", "device_parser.go", "os.go", "engine_parser.go", "ctx.go"]}
{"id": "C27", "title": "No panic with the shipped rule tables", "statement": "With the tables shipped in the repository no user agent makes a getter panic. (Must be checked: group-index guards compare with the wrong bound.)", "quantifier": "every user agent", "why_tests_cant": "only a handful of rules are affected and none is in the test data", "anchors": ["client_parser.go:Ctx.evalClient", "client_repo.go"]}
{"id": "C28", "title": "Shipped tables are well formed", "statement": "Every offset and index of every row of the shipped client, engine, OS, vendor, hint and device tables is in range of the buffer/table it points to, version ranges are non-empty, and every group index exists in its regexp except for an explicit list of client rows.", "quantifier": "every row of the shipped tables", "why_tests_cant": "tests do not exercise most of the 20 000 rows", "anchors": ["client_repo.go", "os_repo.go", "vendor_repo.go", "hint_repo.go", "device_repo.go"]}
{"id": "C29", "title": "X-Requested-With hint semantics", "statement": "If a non-empty X-Requested-With header is set whose hash is non-zero, GetBrowser returns the hint table's name for it if the header is known and \"UNK\" otherwise, regardless of the user agent; without header it returns the detected client name. Other getters ignore the header.", "quantifier": "every header, user agent and history", "why_tests_cant": "all headers", "anchors": ["ctx.go:Ctx.SetRequestedWith", "ctx.go:Ctx.GetBrowser"]}
{"id": "C30", "title": "Browser version string shape", "statement": "GetBrowserVersionString is empty, or is the rule's constant version or the matched group of the user agent, with everything up to the first '/' removed and trailing dots removed; so it never ends in a dot.", "quantifier": "every user agent and table set", "why_tests_cant": "all inputs", "anchors": ["ctx.go:Ctx.GetBrowserVersionString", "client_parser.go:Ctx.evalClient"]}
{"id": "C31", "title": "OS version string shape", "statement": "GetOSVersionString never contains an underscore, equals the detected version text with each '_' replaced by '.', and computing it any number of times changes no other answer.", "quantifier": "every user agent, every call sequence", "why_tests_cant": "all inputs and histories", "anchors": ["ctx.go:Ctx.GetOSVersionString"]}
{"id": "C32", "title": "Model name template expansion", "statement": "The model name produced from a rule template replaces each $1, $2, $3 by the corresponding regexp group in order and copies the other text, stopping at the first reference to a missing group.", "quantifier": "every template and every match result", "why_tests_cant": "all templates and matches", "anchors": ["device_parser.go:Ctx.deviceBufMNE1", "conv.go:b2i"]}
{"id": "C33", "title": "Version.Parse reads dotted numbers", "statement": "Parsing a string of one to four decimal numbers joined by dots sets Major, Minor, Patch, Revision to those numbers (missing ones 0) and succeeds, for all numbers up to 2^31-1.", "quantifier": "all lists of up to four numbers, any number of leading zeros", "why_tests_cant": "the number space is unbounded", "anchors": ["version.go:Version.Parse"]}
{"id": "C34", "title": "Version.Parse is latched", "statement": "After a successful Parse further Parse calls change nothing until Reset; after a failed Parse, parsing the same string again gives the same fields.", "quantifier": "every string and every prior state", "why_tests_cant": "all strings", "anchors": ["version.go:Version.Parse", "version.go:Version.Reset"]}
{"id": "C35", "title": "Version text round trip", "statement": "For a parsed version, Parse(String()) reproduces the same four numbers. Holds for Major > 0 without suffix; must be checked for Major = 0 and for versions with a suffix.", "quantifier": "all versions", "why_tests_cant": "unbounded number space", "anchors": ["version.go:Version.Write", "version.go:Version.String"]}
{"id": "C36", "title": "Version components are not distorted", "statement": "If Parse succeeds the stored components equal the numbers in the text. (Must be checked for numbers above 2^31-1.)", "quantifier": "all strings", "why_tests_cant": "large components are not tested", "anchors": ["version.go:Version.Parse"]}
{"id": "C37", "title": "Tokenizer splits exactly at delimiters", "statement": "Calling Next until EOF yields precisely the maximal delimiter-free substrings of the input, in order, each non-empty and free of delimiters; NextString agrees.", "quantifier": "every byte string without byte 0xFF", "why_tests_cant": "all inputs", "anchors": ["tokenizer.go:Tokenizer.Next", "tokenizer.go:Tokenizer.NextString"]}
{"id": "C38", "title": "Tokenizer never panics", "statement": "Next never panics on any byte string. (Must be checked: the delimiter table has 255 entries.)", "quantifier": "every byte string", "why_tests_cant": "a single byte value is affected", "anchors": ["tokenizer.go:isDelimiter", "tokenizer.go:tableDelim"]}
{"id": "C39", "title": "Tokenizer progress, sticky EOF and reset", "statement": "Every non-EOF call consumes at least one byte and never goes past the end; after EOF every further call on the same input is EOF; Reset makes the sequence start over.", "quantifier": "every byte string, every number of calls", "why_tests_cant": "all inputs and call sequences", "anchors": ["tokenizer.go:Tokenizer.Next", "tokenizer.go:Tokenizer.Reset"]}
{"id": "C40", "title": "Engine choice is monotone in the browser version", "statement": "If an engine switch happens at version N, every browser version numerically >= N gets the newer engine. (Must be checked: versions are compared as strings.)", "quantifier": "every version number", "why_tests_cant": "three-digit versions behave differently from two-digit ones", "anchors": ["engine_parser.go:Ctx.evalEngine", "version.go:getMajor", "client_repo.go:__cr_ef"]}
{"id": "C41", "title": "Vendor fragment decides the brand", "statement": "When no device rule matches and no Tablet/Mobile keyword is present, the brand is that of the last vendor in the table having a matching fragment, and UNK if there is none.", "quantifier": "every user agent and vendor table", "why_tests_cant": "all inputs", "anchors": ["device_parser.go:Ctx.evalVendor", "ctx.go:Ctx.GetBrand"]}
{"id": "C42", "title": "Offset packing is lossless", "statement": "Packing a (lo,hi) pair of 32-bit offsets into one 64-bit word and unpacking returns the same pair; the packed word is 0 only for (0,0).", "quantifier": "all 2^64 pairs", "why_tests_cant": "domain too large", "anchors": ["ctx.go", "device_parser.go:Ctx.deviceBufMNE"]}
{"id": "C43", "title": "Rule compiler interns strings faithfully", "statement": "In uaxplc, whatever strings are added in whatever order, each returned offset pair still denotes exactly the added string in the final buffer, equal strings share one pair, and distinct strings get distinct pairs.", "quantifier": "every sequence of additions with total size < 4 GiB", "why_tests_cant": "all sequences", "anchors": ["cmd/uaxplc/buf.go:buf.add"]}
{"id": "C44", "title": "Regexp normalisation terminates", "statement": "uaxplc's normalizeRegex terminates on every input without panicking, never lengthens its input, and if the look-ahead stage runs its result before the final clean-up contains no \"(?!\".", "quantifier": "every string", "why_tests_cant": "non-termination cannot be established by tests", "anchors": ["cmd/uaxplc/regex.go:normalizeRegex"]}
{"id": "C45", "title": "Literal rules contain no regexp syntax", "statement": "uaxplc stores a rule as a literal substring exactly when it contains none of the 16 regexp characters ?:.+*\\|^;()[]{}$.", "quantifier": "every rule string", "why_tests_cant": "all strings", "anchors": ["cmd/uaxplc/regex.go:isRegex"]}
{"id": "C46", "title": "Rule compiler emits in-range tables", "statement": "For every input YAML content, the OS, client, vendor, hint and device tables emitted by uaxplc have all offsets and indices in range and non-empty version ranges.", "quantifier": "every list of rules, every outcome of regexp compilation", "why_tests_cant": "all inputs of the generator", "anchors": ["cmd/uaxplc/mod_os.go", "cmd/uaxplc/mod_client.go", "cmd/uaxplc/mod_vendor.go", "cmd/uaxplc/mod_hint.go", "cmd/uaxplc/mod_device.go"]}
{"id": "C47", "title": "Rule compiler checks group indices", "statement": "Every group index emitted by uaxplc exists in the corresponding regexp. (Must be checked: nothing validates it.)", "quantifier": "every list of rules", "why_tests_cant": "all inputs of the generator", "anchors": ["cmd/uaxplc/mod_client.go", "cmd/uaxplc/mod_os.go"]}
{"id": "C48", "title": "CLI batch processing is exactly-once", "statement": "With at least one thread, processing a file handles every row exactly once, never deadlocks, and returns only after all rows are handled, under every schedule; with zero threads and at least one row it deadlocks.", "quantifier": "every number of rows and threads, every schedule", "why_tests_cant": "schedules are unbounded", "anchors": ["cmd/uaxpl/main.go:passRaw"]}
{"id": "C49", "title": "Returned strings stay valid until the context is reused", "statement": "A string returned by a getter keeps its bytes until SetUserAgent/Reset/Release on that context. (Must be checked: a later cache hit overwrites the context's buffer.)", "quantifier": "every sequence of getter calls and cache schedules after the string was obtained", "why_tests_cant": "aliasing effects depend on histories", "anchors": ["ctx.go:Ctx.GetModel", "ctx.go:Ctx.GetOSVersionString", "ctx.go:Ctx.fromCache"]}
{"id": "C50", "title": "Exclusive ownership of pooled contexts", "statement": "As long as each acquired context is released at most once and not used afterwards, no two holders ever hold the same context; a double Release breaks this.", "quantifier": "every history of Acquire/Release by any number of goroutines", "why_tests_cant": "schedules unbounded", "anchors": ["pool.go:Pool.Get", "pool.go:Pool.Put"]}
{"id": "C51", "title": "Custom caches", "statement": "With any user-supplied Cache (via SetCache, possibly switched at any time) whose Get(k) only returns errors or entries previously passed to Set(k,_) (possibly through MarshalTo/Unmarshal), all answers of C19 remain correct; a cache that returns a nil entry with nil error makes getters panic.", "quantifier": "every cache implementation honouring the contract, every schedule", "why_tests_cant": "implementations are supplied by users", "anchors": ["uaxpl.go:SetCache", "uaxpl.go:GetCache", "cache.go:Cache"]}
{"id": "C52", "title": "Cache locking is deadlock-free", "statement": "Any number of goroutines calling Set/Get and the cleaner, including the very first concurrent calls that race to initialise the cache, always make progress, initialise exactly once and mutate the state only under the lock.", "quantifier": "every number of goroutines, every schedule", "why_tests_cant": "schedules unbounded", "anchors": ["cache.go:cache.init", "cache.go:cache.Set", "cache.go:cache.Get", "cache.go:cache.clean"]}
{"id": "C53", "title": "Skipped OS rules", "statement": "The two Darwin/iOS rules are never selected for a user agent containing a Mac marker and the two generic Android rules never for one containing \"like Android\"; otherwise the first matching OS rule is selected.", "quantifier": "every user agent, every OS table", "why_tests_cant": "all inputs", "anchors": ["os.go:Ctx.parseOS"]}
{"id": "C54", "title": "Version.Write appends the String() text", "statement": "Write(dst) returns dst followed by String(), for every version and every destination prefix. (Must be checked: the '0' fallback looks at the whole buffer, so a zero version appended to a non-empty buffer writes nothing.)", "quantifier": "all versions, all prefixes", "why_tests_cant": "all combinations of zero and non-zero components and prefixes", "anchors": ["version.go:Version.Write", "version.go:Version.String"]}
{"id": "C55", "title": "Engine choice", "statement": "The engine reported is the one the selected client rule names, directly or through its version-dependent engine function applied to the client version; otherwise the first engine rule matching the user agent; otherwise none (\"UNK\").", "quantifier": "every user agent, filter and table without dangling references", "why_tests_cant": "all user agents and all tables", "anchors": ["client_parser.go:Ctx.parseClient", "client_parser.go:Ctx.evalEngine", "client.go:Ctx.GetEngine"]}
{"id": "C56", "title": "Engine version text", "statement": "The engine version string is the text of the first capture group of the regular expression registered for the engine, at its leftmost match in the user agent, and empty when there is no expression or no match.", "quantifier": "every user agent, filter and table", "why_tests_cant": "all user agents and all tables", "anchors": ["client_parser.go:Ctx.evalEngineVersion", "client.go:Ctx.GetEngineVersionString"]}
{"id": "C57", "title": "Bounded cache traffic", "statement": "Every call makes at most two Get and two Set calls on the installed cache (device getters), at most one of each (client and OS getters) or none (other calls), and the key is always the context's current user agent, however the cache answers.", "quantifier": "every call, context state and cache behaviour", "why_tests_cant": "all cache behaviours times all context states", "anchors": ["client_parser.go:Ctx.parseClient", "device_parser.go:Ctx.parseDevice", "os.go:Ctx.parseOS"]}
{"id": "C58", "title": "Rule files that reference existing groups cannot crash detection", "statement": "If the rule files given to uaxplc have the expected number of non-empty files, every group reference names an existing group of its regexp, no rule combines engine thresholds with a constant version and no model text ends in '$', then with the tables uaxplc generates no call other than GetModel panics, whatever the schedule.", "quantifier": "every rule set, every user agent shorter than 4 GiB, every schedule", "why_tests_cant": "all rule sets and all user agents", "anchors": ["cmd/uaxplc/mod_client.go", "cmd/uaxplc/mod_os.go", "cmd/uaxplc/mod_device.go", "client_parser.go:Ctx.evalClient"]}
{"id": "C59", "title": "Only the smallest engine threshold counts", "statement": "For a client rule with several engine thresholds, the generated engine function answers the engine of the threshold that is smallest as a string for every version not below it, and the default engine for all others: the remaining thresholds have no effect.", "quantifier": "every list of thresholds, every version string", "why_tests_cant": "all thresholds and versions", "anchors": ["cmd/uaxplc/mod_client.go:engine", "client_repo.go:__cr_ef"]}
{"id": "C60", "title": "Hint table has each key once, the first file wins", "statement": "The generated hint table has exactly the application ids of all hint files, each once, with the name from the first file that contains it.", "quantifier": "every list of hint files", "why_tests_cant": "all inputs of the generator", "anchors": ["cmd/uaxplc/mod_hint.go"]}
{"id": "C61", "title": "Generated rows match what their rules match", "statement": "A generated client, OS or device row matches a user agent exactly when its rule does: a pattern without regexp characters when it is non-empty and occurs in the user agent, any other when the regexp made from it (normalised, then replaced) matches; a pattern whose regexp does not compile never matches.", "quantifier": "every rule set, every user agent, every regexp library", "why_tests_cant": "all inputs", "anchors": ["cmd/uaxplc/mod_client.go", "cmd/uaxplc/mod_os.go", "cmd/uaxplc/mod_device.go", "client_parser.go:Ctx.evalClient"]}
{"id": "C62", "title": "Type names", "statement": "String() of each declared client or device type is its documented name and of every other value, including 0 and combinations, \"UNK\"; names identify the type except that both TV types are \"tv\"; a device type named in a rule by one of the six recognised names is the type with that name.", "quantifier": "every uint8 / uint16 value", "why_tests_cant": "needs the whole domain and the relation between two functions", "anchors": ["client.go:ClientType.String", "device.go:DeviceType.String", "device_parser.go:Ctx.deviceEvalType"]}
{"id": "C63", "title": "The checker reports exactly the differing rows", "statement": "The command line checker reports a row of the sample file exactly when some expected value of that row is non-empty and differs, ignoring case, from the detected one; a reported row is printed as one block with one line per differing value and in the order of the columns.", "quantifier": "every row, every detection result, every lower-casing function", "why_tests_cant": "all combinations of expected and detected values", "anchors": ["cmd/uaxpl"]}
{"id": "C64", "title": "With the built-in cache answers are those of the user agent asked for", "statement": "In a program that uses any number of contexts from any goroutines together with the built-in cache, the cache never panics, and each getter other than GetModel answers for its user agent what it would answer without a cache, provided that user agent is always queried under the same filters.", "quantifier": "every interleaving of calls, cache operations, unlocked entry reads, clock readings and cleaner runs; all tables", "why_tests_cant": "needs every interleaving; the failing inputs are hash collisions that no ordinary test data contain", "anchors": ["cache.go:cache.Set", "cache.go:cache.Get", "cache.go:cache.clean", "uaxpl.go", "ctx.go:Ctx.fromCache"]}
{"id": "C65", "title": "Detection ignores the case of letters", "statement": "Two user agents that differ only in the case of ASCII letters get the same client type and client name, and the answers of all other getters differ in the case of letters at most.", "quantifier": "every pair of user agents, every filter, the shipped rule tables", "why_tests_cant": "all pairs of spellings; only some of several thousand rules depend on case", "anchors": ["client_parser.go", "client_repo.go", "cmd/uaxplc/mod_client.go"]}
{"id": "C66", "title": "The batch checker reports what the library detects, whatever the schedule and the cache", "statement": "For a file whose user agents have different hashes, the batch mode of the command line tool, run with the default cache and any number of threads, does not crash, can always go on until it returns, and writes for each row exactly the mismatches between the row and what a new context without a cache answers for its user agent; so two runs differ at most in the order of the rows.", "quantifier": "every file, every number of threads, every interleaving of the workers, the cache and its cleaner", "why_tests_cant": "all schedules of concurrent workers sharing a cache, all files", "anchors": ["cmd/uaxpl/main.go:90-186", "cache.go", "uaxpl.go:7-9", "pool.go"]}
{"id": "C67", "title": "A context turns to the cache at most three times per user agent", "statement": "After SetUserAgent, however many getters are called on the context, in whatever order and with whatever filters and headers set in between, the context makes at most three cache lookups and three cache stores in total (client, device, OS), with any cache that only answers with errors or with entries stored for that user agent.", "quantifier": "every table set, user agent, sequence of calls, and sequence of cache answers", "why_tests_cant": "unboundedly long call sequences, all sequences of cache answers including those caused by other contexts", "anchors": ["ctx.go:92-278", "ctx.go:311-324", "client_parser.go:17-30", "device_parser.go:45-58", "os.go:45-57"]}
{"id": "C68", "title": "Client answers are those of the rule files", "statement": "For a library generated by the rule compiler from client rule files, GetClientType, GetBrowser, GetBrowserVersionString, GetEngine and GetEngineVersionString answer what the files say: category and name of the first matching rule in category and file order, the version its version text gives (constant or group of the pattern as written), the engine its thresholds give for that version or else the first matching rule of the engine file, and the version found by the pattern of that engine.", "quantifier": "every set of rule files whose group references exist, every regexp library honouring its contract, every user agent and client filter", "why_tests_cant": "ranges over all rule files and user agents, through generation and detection", "anchors": ["cmd/uaxplc/mod_client.go:40-262", "cmd/uaxplc/buf.go:10-23", "client_parser.go:10-120", "engine_parser.go", "ctx.go:92-180"]}
{"id": "C69", "title": "OS answers are those of the rule files", "statement": "For a library generated by the rule compiler from an OS rule file, GetOS answers the trimmed name (constant or group) of the first rule in file order that matches and is not one of the skipped Darwin/Android rules, and GetOSVersionString the version text of that rule: its own, or that of the first matching rule of its versions list, with underscores as dots.", "quantifier": "every OS rule file whose group references exist, every regexp library honouring its contract, every user agent", "why_tests_cant": "ranges over all rule files and user agents, through generation and detection", "anchors": ["cmd/uaxplc/mod_os.go:30-170", "os.go:40-153", "ctx.go:182-230"]}
{"id": "C70", "title": "Device answers are those of the rule files, brands in alphabetical order", "statement": "For a library generated by the rule compiler from device and vendor rule files, GetDeviceType, GetModel and GetBrand answer what the matching rule with the alphabetically least brand says, in the first allowed category with a matching rule: type and model of its first matching model rule, or its own; without a matching rule, the desktop and keyword fall-backs and the alphabetically greatest matching vendor. The order of brands inside a file plays no role.", "quantifier": "every set of device, vendor and OS rule files with distinct brands per file, every regexp library honouring its contract, every user agent and device filter", "why_tests_cant": "ranges over all rule files and user agents, through generation and detection", "anchors": ["cmd/uaxplc/mod_device.go:40-250", "cmd/uaxplc/mod_vendor.go:25-120", "device_parser.go:10-200", "vendor.go", "ctx.go:232-300"]}
{"id": "C71", "title": "Hint answers are those of the hint files", "statement": "For a library generated by the rule compiler from hint files, GetBrowser on a context with a requested-with header answers the name the first file listing that header gives it, and UNK for a header no file lists, provided the hash does not confuse the header with a listed one.", "quantifier": "every set of hint files, every hash function, every header and user agent", "why_tests_cant": "ranges over all hint files, headers and hash functions", "anchors": ["cmd/uaxplc/mod_hint.go:25-104", "ctx.go:60-110", "hint_repo.go"]}
{"id": "C72", "title": "Single user agent mode reports the getters' answers", "statement": "`uaxpl -ua U` terminates, and the output file then consists of the fixed labels with the answers that fresh contexts without a cache give for U, types by name and versions in their printed form; at any earlier time the file is a beginning of that report.", "quantifier": "every user agent for which detection does not panic, every clock and schedule of the cache's cleaner, all rule tables", "why_tests_cant": "ranges over all user agents, rule tables and interleavings with the cache's cleaner", "anchors": ["cmd/uaxpl/main.go:56-78", "alias.go:8-11", "uaxpl.go:5-9", "version.go:95-97"]}
{"id": "C73", "title": "Version getters give the parsed version strings", "statement": "GetBrowserVersion, GetEngineVersion and GetOSVersion give what Version.Parse makes of the corresponding version string: up to four numbers joined by dots become the components; if a piece is not a number, the pieces before it count and the rest is 0 without any error; no text gives 0. The printed version equals the version string only if all four numbers are present (must be checked: refuted in general).", "quantifier": "every user agent, filter, header and rule tables", "why_tests_cant": "ranges over all user agents and tables", "anchors": ["ctx.go:127-133", "ctx.go:168-174", "ctx.go:244-250", "version.go:20-97"]}
{"id": "C74", "title": "The generated source declares the compiled tables", "statement": "The five Go files written by uaxplc are valid Go and their variables hold exactly the tables computed from the rules: every row, byte, pattern, engine function and map entry, whatever arguments and file names are recorded in comments. (Must be checked: refuted for patterns with backquotes or carriage returns, thresholds with quotes, references that become -128 and hints with equal hashes; it holds for all other rules.)", "quantifier": "every rule set, replacement map, argument list and list of file names", "why_tests_cant": "a golden file shows one rule set; the claim is about the text written for any rules", "anchors": ["cmd/uaxplc/mod.go:14-36", "cmd/uaxplc/mod_client.go:71-262", "cmd/uaxplc/mod_os.go:132-187", "cmd/uaxplc/mod_vendor.go:69-116", "cmd/uaxplc/mod_hint.go:46-93", "cmd/uaxplc/mod_device.go:107-254", "cmd/uaxplc/main.go:65-71"]}
{"id": "C75", "title": "No data races", "statement": "However many goroutines use contexts (from AcquireCtx, or new, one goroutine at a time, passed on through the pool, a channel or a go statement), parse user agents, release contexts, call SetCache/GetCache (with built-in caches or with others that lock) and however the cleaners of the built-in caches run, no two accesses to the same memory, one of them a write, are unordered by the happens-before relation of the Go memory model. (Must be checked: it fails as soon as the program reads an entry obtained directly from GetCache().Get, because the cache still writes its timestamp.)", "quantifier": "every number of goroutines, contexts, caches and entries, every interleaving", "why_tests_cant": "the race detector sees the interleavings that occurred; the claim is about all", "anchors": ["cache.go:13-88", "uaxpl.go:9-26", "pool.go:7-38", "ctx.go:79-125", "client_parser.go:8-31", "device_parser.go:36-59", "os.go:36-58", "entry.go"]}
{"id": "C76", "title": "A run of the rule compiler writes the tables of the rules, or changes nothing", "statement": "uaxplc -module m -input i -target t changes at most the target file. If it ends with status 0, the target is the formatted Go source of the tables of the rules in the input files, and the five generated files together make a package that detects according to the rules; if the input files are readable and decode, it does end so. If an input file is missing, empty or cannot be decoded, it fails and no file changes. (Must be checked: refuted for the bot module, empty directories, failing writes and inputs with ~ in the middle.)", "quantifier": "every file system, command line, rule set and behaviour of the operating system", "why_tests_cant": "file systems, rule files and failures of writes are unbounded", "anchors": ["cmd/uaxplc/main.go:19-79", "cmd/uaxplc/mod_bot.go:14-17", "cmd/uaxplc/mod_client.go:49-91", "cmd/uaxplc/mod_client.go:225-239", "cmd/uaxplc/mod_device.go:86-128", "cmd/uaxplc/mod_hint.go:27-64", "cmd/uaxplc/mod_os.go:47-67", "cmd/uaxplc/mod_vendor.go:31-67"]}
{"id": "C77", "title": "Input and output of the comparison tool", "statement": "uaxpl -file f -out o compares exactly the rows of f, leaves the reports of all rows in o and changes no other file. With -url the rows are downloaded once and kept in /tmp under the last segment of the URL, so later runs read the same rows without the network; a failed download ends with an error and leaves nothing behind. (Must be checked: refuted that the rows are those the URL serves, that the input survives when it is also the output, and that a partial download is noticed.)", "quantifier": "every file system, URL, answer of the network, sequence of runs and schedule", "why_tests_cant": "sequences of runs and network answers are unbounded", "anchors": ["cmd/uaxpl/main.go:38-93", "cmd/uaxpl/main.go:188-217"]}
{"id": "C78", "title": "What the patterns of the rules mean", "statement": "A pattern of a rule matches a user agent iff some part of it that starts where a UTF-8 rune starts belongs to the language of the pattern. The match found starts as far left as possible; among the ways to match from there it is the one preferred by earlier alternatives and greedy or lazy repetitions; a group reports its last capture, which belongs to the language of the inside of the group, or nothing. A pattern without special characters matches exactly the texts it occurs in.", "quantifier": "every pattern of the supported syntax, every byte string as user agent", "why_tests_cant": "patterns and texts are unbounded, invalid UTF-8 included", "anchors": ["client_parser.go:80-110", "os.go:72-140", "device_parser.go:150-240", "device_parser.go:290-300", "engine_parser.go:28-60", "cmd/uaxplc/regex.go:13-60"]}
{"id": "C79", "title": "Client rules match at the start of a word", "statement": "A client rule with a pattern applies iff the pattern matches, ignoring case, at a position where a word may start: the beginning, after a character that is no letter, digit, '-' or '_', after '_' preceded by such a character, or after 'sprd-' or 'MZ-'. GetClientType names a category only if a rule of it applies in this sense; all shipped client regexps have this form. A vendor fragment applies iff it occurs, case counting, followed by something that is no lower-case letter or digit; so do all shipped ones. (Must be checked: refuted for vendor fragments with alternatives.)", "quantifier": "every rule pattern of the supported syntax, every user agent; every regexp of the shipped client and vendor tables", "why_tests_cant": "user agents and patterns are unbounded; there are 1350 shipped client regexps", "anchors": ["cmd/uaxplc/mod_client.go:172", "cmd/uaxplc/mod_vendor.go:84", "cmd/uaxplc/mod_vendor.go:103", "client_repo.go", "vendor_repo.go"]}
{"id": "C80", "title": "Engine versions look like versions", "statement": "GetEngineVersionString answers nothing, or a text of the user agent that begins and ends with a digit and has no newline, which stands after the name of the engine (Chrome for Blink) and blanks or a slash; for Gecko it consists of digits and dots. It never panics because of the generated pattern, for its group takes part in every match. (Must be checked: refuted that only digits and dots occur.)", "quantifier": "every rule set whose engines have plain names and the shipped tables, every user agent, filter and hint", "why_tests_cant": "user agents are unbounded", "anchors": ["cmd/uaxplc/mod_client.go:192-216", "engine_parser.go:40-60", "ctx.go:176-190", "client_repo.go"]}
{"id": "C81", "title": "Browser versions are numbers", "statement": "With the shipped rules GetBrowserVersionString consists of digits and dots and does not end in a dot, whatever the user agent, filter and hint. (Must be checked: refuted for eight rules; for Yandex Browser the version is the whole match from the first slash on, letters included.)", "quantifier": "every user agent below 4 GiB, filter and hint; all 1466 shipped client rules", "why_tests_cant": "user agents are unbounded; each rule has its own regexp", "anchors": ["client_repo.go", "client_parser.go:80-110", "ctx.go:135-147"]}
{"id": "C82", "title": "OS versions are numbers or names", "statement": "With the shipped rules GetOSVersionString consists of digits and dots, or is one of a fixed list of names such as Vista or Server 2012, unless the rule is one of four that take a product name for a version. It is never a template. (Must be checked: refuted, iOS 19.1 is reported as version \"26.$1\", because only references at the start of a version are expanded.)", "quantifier": "every user agent below 4 GiB; all 330 shipped OS rules and 211 version rules", "why_tests_cant": "user agents are unbounded; each rule has its own regexp", "anchors": ["os_repo.go", "os.go:60-150", "ctx.go:252-265", "cmd/uaxplc/mod_os.go:131-138"]}
{"id": "C83", "title": "Names are names", "statement": "With the shipped rules GetBrowser (with and without X-Requested-With header) and GetBrand answer a proper name: not empty, printable, no blank at its ends and no dollar sign, that is no template that was never filled in. (Must be checked: refuted for GetBrowser by exactly six rules of mobile apps, e.g. Podkicker Pro is \"Podkicker$1\" and Excel \"Microsoft Office $1\".)", "quantifier": "every user agent, header, filter and hash function; all shipped client, hint, device and vendor rules", "why_tests_cant": "user agents are unbounded; which of the 1466 rules a test reaches depends on all the others", "anchors": ["client_repo.go:914", "client_repo.go:970", "client_repo.go:1324", "client_repo.go:1457-1459", "hint_repo.go", "ctx.go:103-125", "ctx.go:197-212"]}
{"id": "C84", "title": "Closed vocabularies of engines and operating systems", "statement": "With the shipped rules GetEngine is one of 21 names or empty. GetOS is \"UNK\" if no rule applies, and otherwise one of the constant names of the rules (each of which is the name of some rule) or one of 19 Linux distributions as the user agent spells it, in some case; hence four of the names that count as desktop systems (IBM, Unix, Chromium OS, OS ROSA) are never answered.", "quantifier": "every user agent below 4 GiB and every filter", "why_tests_cant": "a closed vocabulary is a statement about all inputs", "anchors": ["client_repo.go", "os_repo.go:767-769", "ctx.go:154-166", "ctx.go:227-242", "device_parser.go:150-170"]}
{"id": "C85", "title": "Model templates are always filled in", "statement": "With the shipped rules GetModel has no dollar sign unless the user agent has one: no reference to a group is left in a model name, and literal rules have no templates.", "quantifier": "every user agent below 64 MiB and every filter; all 16062 shipped model rules", "why_tests_cant": "user agents are unbounded and models are built from captured text", "anchors": ["device_repo.go", "device_parser.go:60-130", "ctx.go:214-225"]}
{"id": "C86", "title": "The answers about a user agent fit together", "statement": "With the shipped rules: without header GetBrowser is \"UNK\" exactly if GetClientType is 0; a client version implies a known client; an engine implies that the client is a browser; an engine version implies a known engine; GetOS is \"UNK\" exactly if no rule applies, and then there is no OS version; a model implies a known brand.", "quantifier": "every user agent (below 4 GiB, models 64 MiB) and filter on which the getters do not panic", "why_tests_cant": "relates several getters for every user agent", "anchors": ["ctx.go:96-278", "client_parser.go", "engine_parser.go", "os.go", "device_parser.go"]}
{"id": "C87", "title": "Version getters give the numbers of the version string", "statement": "With the shipped rules GetBrowserVersion and GetOSVersion, asked without cache, have the numbers of the first four dot-separated pieces of the version string as Major, Minor, Patch and Revision, and no suffix; missing pieces are 0. GetEngineVersion likewise.", "quantifier": "every user agent and filter on which the getters do not panic, all shipped rules", "why_tests_cant": "version strings come from captured text of unbounded user agents", "anchors": ["version.go:31-93", "ctx.go:120-175", "ctx.go:240-278", "client_repo.go", "os_repo.go", "engine_parser.go"]}
{"id": "C88", "title": "Every model rule can take effect", "statement": "For every shipped model rule of a brand which looks for a text, there is a user agent with that text in it for which GetBrand and GetModel answer the brand and the model of the rule.", "quantifier": "all shipped model rules; all user agents below 64 MiB and all filters", "why_tests_cant": "that a rule never takes effect is a statement about all user agents", "anchors": ["device_repo.go", "device_parser.go:60-130"]}
{"id": "C89", "title": "Answers are well-formed UTF-8", "statement": "With the shipped rules every text a getter answers is well-formed UTF-8: whatever bytes the user agent consists of for GetBrowser, GetBrowserVersionString, GetEngine, GetOS, GetOSVersionString and GetBrand, and if the user agent is well-formed also for GetEngineVersionString and GetModel.", "quantifier": "every user agent (below 4 GiB, models 64 MiB), header and filter; every schedule over any honest cache for the getters other than GetModel", "why_tests_cant": "answers are cut out of unbounded user agents by some thousand regexps; no test tries every byte string", "anchors": ["ctx.go:96-278", "client_parser.go", "engine_parser.go", "os.go", "device_parser.go", "client_repo.go", "os_repo.go", "device_repo.go", "vendor_repo.go", "hint_repo.go"]}
{"id": "C90", "title": "The comparison tool does what its command line says", "statement": "The arguments of the comparison tool are accepted exactly if they spell settings of its flags (-flag value, -flag=value, one or two dashes, -verbose alone, up to --, the first argument that is no flag or the end) with valid numbers and truth values; every option is then the last value given or its default. With other arguments, or without a user agent, file or URL, no file changes. A user agent goes before a file, a file before a URL; what is not used has no effect. A complete run leaves in the file of -out (or out.diff.txt) the report about the user agent, or the rows' reports in some order whatever the number of threads, and changes no other file. -threads takes a decimal number and starts that many workers.", "quantifier": "all argument lists, file systems, surroundings, rule tables and schedules of workers and cache cleaner", "why_tests_cant": "argument lists and number notations are unbounded, and the effect of an option is only seen at the end of a concurrent run", "anchors": ["cmd/uaxpl/main.go:39-99", "cmd/uaxpl/main.go:188-218"]}
{"id": "C91", "title": "Which texts are versions", "statement": "Version.Parse accepts exactly the texts of up to four decimal numbers in the range of 64-bit integers, with or without a sign, with dots between them, perhaps a dot after the last, and any text after the dot of the fourth number. The suffix is what comes after the first space or dash. Expected and to be checked: a number followed by a dash or a space and a text is a version with that text as its suffix.", "quantifier": "every text", "why_tests_cant": "the texts are unbounded, and refusal is a statement about all others", "anchors": ["version.go:20-62"]}
{"id": "C92", "title": "Different versions have different texts", "statement": "Version.String writes the numbers from the first positive one on, each after a dot except a positive major number, then a space and the suffix if there is one, and 0 if nothing else is written. Expected and to be checked: two versions with the same text have the same components and suffix.", "quantifier": "all versions, also those with negative components", "why_tests_cant": "that no two versions share a text is a statement about all pairs", "anchors": ["version.go:64-97"]}
{"id": "C93", "title": "Byte layout of cache records", "statement": "A cache record is stored as: 8 bytes of flags, 1 byte client type, four 8-byte references (client name, client version, engine name, engine version), 2 bytes device type, four 8-byte references (brand, model, OS name, OS version), 8 bytes key, 8 bytes time, 4 bytes payload length, and the payload from byte 95 on; all numbers have their low byte first. Unmarshal gives a record exactly for the texts that begin with its layout, whatever the receiver was.", "quantifier": "all records, buffers, receivers and texts", "why_tests_cant": "that a reader in another process or language finds every field is a statement about all records; round trips do not notice a layout changed on both sides", "anchors": ["cache_entry.go:50-159"]}
{"id": "C94", "title": "A version can be used again after an error", "statement": "Parse after a failed Parse, or after Reset, gives for every text what a new Version would give. Expected and to be checked for the case without Reset.", "quantifier": "all pairs of texts; all versions before Reset", "why_tests_cant": "ranges over all pairs of texts", "anchors": ["version.go:20-62", "version.go:99-102"]}
{"id": "C95", "title": "A tokenizer can be used for the next text", "statement": "After a Tokenizer has reported the end of one text, or after Reset, the calls of Next on another text give the tokens of that text. Expected and to be checked for the case without Reset.", "quantifier": "all pairs of texts without byte 0xFF, all numbers of calls", "why_tests_cant": "ranges over all pairs of texts and call sequences", "anchors": ["tokenizer.go:15-48"]}
