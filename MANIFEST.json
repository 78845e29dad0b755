{
 "claims": [
  {
   "property": "C01",
   "status": "proved",
   "theorems": [
    "Verif.C01_roundtrip"
   ],
   "note": ""
  },
  {
   "property": "C02",
   "status": "proved",
   "theorems": [
    "Verif.C02_footprint"
   ],
   "note": ""
  },
  {
   "property": "C03",
   "status": "proved",
   "theorems": [
    "Verif.C03_short_buffer"
   ],
   "note": ""
  },
  {
   "property": "C04",
   "status": "proved",
   "theorems": [
    "Verif.C04_unmarshal_total"
   ],
   "note": ""
  },
  {
   "property": "C05",
   "status": "proved",
   "theorems": [
    "Verif.C05_canonical",
    "Verif.C05_injective"
   ],
   "note": ""
  },
  {
   "property": "C06",
   "status": "proved",
   "theorems": [
    "Verif.C06_truncation"
   ],
   "note": ""
  },
  {
   "property": "C07",
   "status": "partial",
   "theorems": [
    "Verif.C07_failed_unmarshal_partial",
    "Verif.C07_refuted"
   ],
   "note": "The code violates the full claim: the header fields are overwritten before the second length check. Refutation proved, plus what does hold."
  },
  {
   "property": "C08",
   "status": "partial",
   "theorems": [
    "Verif.C08_refuted",
    "Verif.C08_hypotheses_satisfiable"
   ],
   "note": "The code violates the claim for every entry with 2^32 or more bytes of Data: the 32-bit length field wraps."
  },
  {
   "property": "C09",
   "status": "proved",
   "theorems": [
    "Verif.C09_get_returns_last_set",
    "Verif.C09_read_your_write"
   ],
   "note": ""
  },
  {
   "property": "C10",
   "status": "proved",
   "theorems": [
    "Verif.C10_consistent"
   ],
   "note": ""
  },
  {
   "property": "C11",
   "status": "proved",
   "theorems": [
    "Verif.C11_recent_survives",
    "Verif.C11_clean_only_drops_expired"
   ],
   "note": "Clock readings after 1970 for the integer form; the state form has no such assumption."
  },
  {
   "property": "C12",
   "status": "partial",
   "theorems": [
    "Verif.C12_refuted",
    "Verif.C12_halves_partial",
    "Verif.C12_passes_partial"
   ],
   "note": "The code violates the full claim (swapped-in element is skipped). Refutation plus the halving bound that holds."
  },
  {
   "property": "C13",
   "status": "proved",
   "theorems": [
    "Verif.C13_no_interference",
    "Verif.C13_collision_interferes"
   ],
   "note": "Both halves: holds for different hashes, fails for the collisions that exist for every 64-bit hash."
  },
  {
   "property": "C14",
   "status": "partial",
   "theorems": [
    "Verif.C14_refuted",
    "Verif.C14_refuted_alias"
   ],
   "note": "The code violates the claim: panic and wrong answers proved."
  },
  {
   "property": "C15",
   "status": "proved",
   "theorems": [
    "Verif.C15_entry_stable"
   ],
   "note": ""
  },
  {
   "property": "C16",
   "status": "proved",
   "theorems": [
    "Verif.C16_reset_is_new",
    "Verif.C16_behaves_as_new",
    "Verif.Pooling.C16_acquired_is_new",
    "Verif.Pooling.C16_acquired_behaves",
    "Verif.Pooling.C16_use_after_release"
   ],
   "note": "Pool and reset modelled; a context used after release is outside the discipline and C16_use_after_release shows why."
  },
  {
   "property": "C17",
   "status": "proved",
   "theorems": [
    "Verif.C17_forgets",
    "Verif.C17_reachable"
   ],
   "note": ""
  },
  {
   "property": "C18",
   "status": "proved",
   "theorems": [
    "Verif.C18_filters_persist"
   ],
   "note": ""
  },
  {
   "property": "C19",
   "status": "proved",
   "theorems": [
    "Verif.C19_some_filter",
    "Verif.C19_common_filter"
   ],
   "note": "All interleavings over any honest cache, all tables. GetModel excluded (C20); user agents on which uncached detection panics excluded (C27)."
  },
  {
   "property": "C20",
   "status": "partial",
   "theorems": [
    "Verif.C20_refuted",
    "Verif.C20_stored",
    "Verif.C20_actual",
    "Verif.C20_uncached_partial",
    "Verif.C20_sole_partial",
    "Verif.C20_sole_builtin_partial"
   ],
   "note": "False: the stored data is the user agent, so a cached model is a slice of it (or a panic). Proved: the refutation, what is stored, what is answered, that the property holds without a cache, and that it holds in every execution for a context which is the only one asked about its user agent, with any honest cache (C20_sole_partial) and with the built-in one (C20_sole_builtin_partial). Missing because false: user agents asked about by several contexts, or again after the context was reset."
  },
  {
   "property": "C21",
   "status": "proved",
   "theorems": [
    "Verif.C21_order",
    "Verif.C21_shared"
   ],
   "note": ""
  },
  {
   "property": "C22",
   "status": "partial",
   "theorems": [
    "Verif.C22_uncached_partial",
    "Verif.C22_cached_partial",
    "Verif.C22_refuted"
   ],
   "note": "False with a shared cache: an entry stored under a wider filter is served under a narrower one (C22_refuted, concrete schedule). Proved: without a cache hit the filter is respected; with a shared cache the answer respects the filter of some earlier request for the same user agent."
  },
  {
   "property": "C23",
   "status": "proved",
   "theorems": [
    "Verif.C23_client_type",
    "Verif.C23_client_name",
    "Verif.C23_chosen"
   ],
   "note": ""
  },
  {
   "property": "C24",
   "status": "partial",
   "theorems": [
    "Verif.C24_refuted",
    "Verif.C24_refuted_player",
    "Verif.C24_refuted_rule",
    "Verif.C24_device_type",
    "Verif.C24_partial",
    "Verif.C24_cached_partial"
   ],
   "note": "False in three ways (keywords, portable media players, types named by rules). Proved: the exact answer, and the property when none of the three applies."
  },
  {
   "property": "C25",
   "status": "proved",
   "theorems": [
    "Verif.C25_client_type",
    "Verif.C25_device_type"
   ],
   "note": ""
  },
  {
   "property": "C26",
   "status": "proved",
   "theorems": [
    "Verif.C26_no_panic",
    "Verif.C26_no_panic_device",
    "Verif.C26_model_uncached"
   ],
   "note": ""
  },
  {
   "property": "C27",
   "status": "partial",
   "theorems": [
    "Verif.C27_refuted",
    "Verif.C27_panics",
    "Verif.C27_exact",
    "Verif.C27_safe",
    "Verif.C27_partial",
    "Verif.C27_device_partial",
    "Verif.C27_model"
   ],
   "note": "Refuted: RutubeTVBlackAndroid makes the client getters panic. Exactly when: a getter panics (uncached) iff it is a client getter and the selected rule has one of eight regexps without groups (for every regexp library satisfying RegexpLib). In every schedule no call but GetModel panics on other user agents; OS and device getters never do; GetModel is covered without a cache and below 64 MiB."
  },
  {
   "property": "C28",
   "status": "proved",
   "theorems": [
    "Verif.C28_clients",
    "Verif.C28_exceptions",
    "Verif.C28_os",
    "Verif.C28_devices",
    "Verif.C28_sizes"
   ],
   "note": "Over the data extracted from the repository by tools/gen_tables.py, for every regexp library satisfying RegexpLib; the eight exceptions are listed in Spec/Shipped.lean and shown to be real."
  },
  {
   "property": "C29",
   "status": "proved",
   "theorems": [
    "Verif.C29_known",
    "Verif.C29_unknown",
    "Verif.C29_zero",
    "Verif.C29_ignored",
    "Verif.C29_concurrent",
    "Verif.C29_model_ignored"
   ],
   "note": "An unknown header gives \"UNK\", not the detected name: proved as it is."
  },
  {
   "property": "C30",
   "status": "proved",
   "theorems": [
    "Verif.C30_shape"
   ],
   "note": ""
  },
  {
   "property": "C31",
   "status": "proved",
   "theorems": [
    "Verif.C31_shape"
   ],
   "note": ""
  },
  {
   "property": "C32",
   "status": "proved",
   "theorems": [
    "Verif.C32_model",
    "Verif.C32_model_iff"
   ],
   "note": ""
  },
  {
   "property": "C33",
   "status": "proved",
   "theorems": [
    "Verif.C33_parse_dotted"
   ],
   "note": ""
  },
  {
   "property": "C34",
   "status": "proved",
   "theorems": [
    "Verif.C34_latched",
    "Verif.C34_failed_again"
   ],
   "note": ""
  },
  {
   "property": "C35",
   "status": "partial",
   "theorems": [
    "Verif.C35_roundtrip_partial",
    "Verif.C35_zero_partial",
    "Verif.C35_refuted_suffix",
    "Verif.C35_refuted_major_zero"
   ],
   "note": "Holds for Major > 0 without suffix and for the zero version; false for every version with a suffix and for Major = 0 with another positive component (both proved)."
  },
  {
   "property": "C36",
   "status": "partial",
   "theorems": [
    "Verif.C36_components_partial",
    "Verif.C36_refuted"
   ],
   "note": "The code violates the claim for numbers outside int32; the exact wrapped value is proved."
  },
  {
   "property": "C37",
   "status": "proved",
   "theorems": [
    "Verif.C37_tokens",
    "Verif.C37_tokens_shape",
    "Verif.C37_tokens_complete",
    "Verif.C37_nextString"
   ],
   "note": ""
  },
  {
   "property": "C38",
   "status": "partial",
   "theorems": [
    "Verif.C38_refuted",
    "Verif.C38_refuted_every",
    "Verif.C38_no_panic_partial"
   ],
   "note": "The code violates the claim: every input containing byte 0xFF makes some call panic."
  },
  {
   "property": "C39",
   "status": "proved",
   "theorems": [
    "Verif.C39_progress"
   ],
   "note": ""
  },
  {
   "property": "C40",
   "status": "partial",
   "theorems": [
    "Verif.Compiler.C40_refuted",
    "Verif.Compiler.C40_partial",
    "Verif.C40_chrome",
    "Verif.C40_chrome_refuted",
    "Verif.chrome_100"
   ],
   "note": "Refuted: for a rule switching to Blink at 28, version 100 gets the default engine, because versions are compared as strings; with the shipped tables Chrome 100-199 is reported as WebKit. What holds: versions with as many digits as the threshold."
  },
  {
   "property": "C41",
   "status": "proved",
   "theorems": [
    "Verif.C41_brand",
    "Verif.C41_total"
   ],
   "note": ""
  },
  {
   "property": "C42",
   "status": "proved",
   "theorems": [
    "Verif.C42_decode_encode",
    "Verif.C42_encode_decode",
    "Verif.C42_zero"
   ],
   "note": "About the assumed layout of the external entry package (confirmed by the shipped tables)."
  },
  {
   "property": "C43",
   "status": "proved",
   "theorems": [
    "Verif.Compiler.C43_intern"
   ],
   "note": "For any list of strings with total size below 4 GiB."
  },
  {
   "property": "C44",
   "status": "proved",
   "theorems": [
    "Verif.Compiler.C44_normalise",
    "Verif.Compiler.C44_stage",
    "Verif.Compiler.C44_unchanged",
    "Verif.Compiler.C44_removes"
   ],
   "note": "Total (no panic, no endless loop), only deletes characters, no look-ahead (?!x...) left; unchanged when nothing triggers; a plain look-ahead is removed as a whole."
  },
  {
   "property": "C45",
   "status": "proved",
   "theorems": [
    "Verif.Compiler.C45_isRegex",
    "Verif.Compiler.C45_literal"
   ],
   "note": "isRegex exactly characterised; the emitted client row is literal exactly then."
  },
  {
   "property": "C46",
   "status": "proved",
   "theorems": [
    "Verif.Compiler.C46_os",
    "Verif.Compiler.C46_client",
    "Verif.Compiler.C46_device",
    "Verif.Compiler.C46_vendor",
    "Verif.Compiler.C46_in_range"
   ],
   "note": "Compilation is total for every rule set and every outcome of regexp compilation; if the outputs fit 32-bit offsets, all rows denote their rules and are in range."
  },
  {
   "property": "C47",
   "status": "partial",
   "theorems": [
    "Verif.Compiler.C47_refuted",
    "Verif.Compiler.C47_partial"
   ],
   "note": "Refuted: rule {regex: ^Pods/, version: $1} is emitted with group index 1 for a regexp without groups. What holds: the index is the number in the rule as int8."
  },
  {
   "property": "C48",
   "status": "proved",
   "theorems": [
    "Verif.Cli.C48_exactly_once",
    "Verif.Cli.C48_at_most_once",
    "Verif.Cli.C48_no_deadlock",
    "Verif.Cli.C48_terminates",
    "Verif.Cli.C48_zero_threads"
   ],
   "note": "For at least one worker; C48_zero_threads shows that the tool hangs with none."
  },
  {
   "property": "C49",
   "status": "partial",
   "theorems": [
    "Verif.C49_refuted",
    "Verif.C49_partial",
    "Verif.C49_no_hits",
    "Verif.C49_same_answers",
    "Verif.C49_suffix_refuted"
   ],
   "note": "Refuted: strings of GetModel and GetOSVersionString, and the Suffix of the version returned by GetOSVersion, are windows of the context's buffer, which a later cache hit on the same context overwrites in place; C49_refuted and C49_suffix_refuted are such runs with an honest, up-to-date cache. C49_partial: all other strings (and Suffixes) stay valid until SetUserAgent/Reset whatever the cache answers, and those three do until the next hit. C49_no_hits: without hits the full property."
  },
  {
   "property": "C50",
   "status": "proved",
   "theorems": [
    "Verif.Pooling.C50_exclusive",
    "Verif.Pooling.C50_isolated",
    "Verif.Pooling.C50_double_release"
   ],
   "note": "For callers that release a context once and do not touch it afterwards; C50_double_release shows the hypothesis is needed."
  },
  {
   "property": "C51",
   "status": "proved",
   "theorems": [
    "Verif.C51_nil_entry_panics",
    "Verif.C51_serialised",
    "Verif.C19_some_filter"
   ],
   "note": "The system model lets the cache answer with any error or any entry set before for the key, with arbitrary owner fields."
  },
  {
   "property": "C52",
   "status": "proved",
   "theorems": [
    "Verif.Locking.C52_exclusive",
    "Verif.Locking.C52_under_lock",
    "Verif.Locking.C52_init_once",
    "Verif.Locking.C52_sequential",
    "Verif.Locking.C52_results",
    "Verif.Locking.C52_each_call",
    "Verif.Locking.C52_no_crash",
    "Verif.Locking.C52_no_deadlock",
    "Verif.Locking.C52_terminates",
    "Verif.Locking.C52_all_return",
    "Verif.Locking.C52_get"
   ],
   "note": "Every interleaving of any number of goroutines, with sync.Once modelled step by step; no crash for callers that pass each Set its own entry (cf. C14)."
  },
  {
   "property": "C53",
   "status": "proved",
   "theorems": [
    "Verif.C53_os",
    "Verif.C53_skipped",
    "Verif.C53_not_skipped"
   ],
   "note": ""
  },
  {
   "property": "C54",
   "status": "partial",
   "theorems": [
    "Verif.C54_refuted",
    "Verif.C54_write_appends_partial"
   ],
   "note": "False for the zero version appended to a non-empty buffer."
  },
  {
   "property": "C55",
   "status": "proved",
   "theorems": [
    "Verif.C55_engine"
   ],
   "note": ""
  },
  {
   "property": "C56",
   "status": "proved",
   "theorems": [
    "Verif.C56_engine_version"
   ],
   "note": ""
  },
  {
   "property": "C57",
   "status": "proved",
   "theorems": [
    "Verif.C57_traffic"
   ],
   "note": ""
  },
  {
   "property": "C58",
   "status": "proved",
   "theorems": [
    "Verif.Compiler.C58_well_formed",
    "Verif.Compiler.C58_no_panic"
   ],
   "note": "The regexps are those of any library honouring the regexp contract (Re.WF)."
  },
  {
   "property": "C59",
   "status": "proved",
   "theorems": [
    "Verif.Compiler.C59_first_threshold"
   ],
   "note": "Thresholds distinct from the smallest one."
  },
  {
   "property": "C60",
   "status": "proved",
   "theorems": [
    "Verif.Compiler.C60_hints"
   ],
   "note": ""
  },
  {
   "property": "C61",
   "status": "proved",
   "theorems": [
    "Verif.Compiler.C61_client",
    "Verif.Compiler.C61_os",
    "Verif.Compiler.C61_device"
   ],
   "note": ""
  },
  {
   "property": "C62",
   "status": "proved",
   "theorems": [
    "Verif.C62_client_name",
    "Verif.C62_device_name",
    "Verif.C62_distinct",
    "Verif.C62_device_distinct",
    "Verif.C62_rule_type"
   ],
   "note": ""
  },
  {
   "property": "C63",
   "status": "proved",
   "theorems": [
    "Verif.Cli.C63_reported",
    "Verif.Cli.C63_lines",
    "Verif.Cli.C63_text",
    "Verif.Cli.C63_report"
   ],
   "note": ""
  },
  {
   "property": "C64",
   "status": "partial",
   "theorems": [
    "Verif.C64_no_panic",
    "Verif.C64_honest",
    "Verif.C64_as_uncached_partial",
    "Verif.C64_collision",
    "Verif.C64_refuted"
   ],
   "note": "The code refutes the full claim: the built-in cache finds entries by the 64-bit FNV-1 hash of the user agent and never compares the user agent itself (C64_refuted: an explicit pair of user agents with the same hash; C64_collision: every pair behaves like that). Proved: no panic; an answer for a user agent whose hash no other user agent asked about so far has refines an execution with an honest cache (C64_honest) and equals the uncached one (C64_as_uncached_partial)."
  },
  {
   "property": "C65",
   "status": "partial",
   "theorems": [
    "Verif.C65_regexp",
    "Verif.C65_patterns",
    "Verif.C65_rules",
    "Verif.C65_generated",
    "Verif.C65_wrapped",
    "Verif.C65_client_partial",
    "Verif.C65_refuted",
    "Verif.C65_partial",
    "Verif.C65_brand_refuted"
   ],
   "note": "Refuted: rules without regexp characters become literal texts that are matched exactly (Stringer / stringer), and vendor fragments are matched exactly too. All other regexps, shipped or generated from any rule files, ignore case. C65_partial: if the literal texts, the vendor fragments and four fixed markers occur in the same way in both spellings, every getter panics on both or gives answers equal up to case (types and numbers equal), for the shipped tables and user agents below 64 MiB; the device type also needs the two OS names to be both desktop names or both not."
  },
  {
   "property": "C66",
   "status": "partial",
   "theorems": [
    "Verif.Cli.C66_answers",
    "Verif.Cli.C66_no_panic",
    "Verif.Cli.C66_report_partial",
    "Verif.Cli.C66_same_report_partial",
    "Verif.Cli.C66_no_deadlock",
    "Verif.Cli.C66_terminates",
    "Verif.Cli.C66_refuted",
    "Verif.Cli.C66_shipped_partial",
    "Verif.Cli.C66_ends"
   ],
   "note": "Refuted when a user agent occurs in several rows with a model column: the second occurrence is answered from the cache with a wrong model (C66_refuted). Proved for files where rows with a model column have a user agent of their own; the nine other answers are right in all files. Hypotheses: no getter panics on the user agents without a cache, no buffer reaches 4 GiB, different user agents of the file have different hashes. No deadlock and termination need none of these; the steps of the cache's cleaner, which runs for ever, do not count."
  },
  {
   "property": "C67",
   "status": "partial",
   "theorems": [
    "Verif.C67_accesses_partial",
    "Verif.C67_alone_partial",
    "Verif.C67_unbounded",
    "Verif.C67_refuted"
   ],
   "note": "Refuted for arbitrary honest caches: fromCache replaces the flags of the context by those of the entry, so entries stored by contexts that were asked different things make a context forget what it knew, and 2n getter calls can make 2n lookups for every n (C67_unbounded). Proved when the cache never answers with an entry that lacks a part it gave or took before in the session, and when no other context asks about the user agent; nil, nil answers are excluded. Panicking calls are included."
  },
  {
   "property": "C68",
   "status": "proved",
   "theorems": [
    "Verif.Compiler.C68_client_type",
    "Verif.Compiler.C68_browser",
    "Verif.Compiler.C68_version",
    "Verif.Compiler.C68_engine",
    "Verif.Compiler.C68_engine_version",
    "Verif.Compiler.C69_reference",
    "Verif.Compiler.C70_order"
   ],
   "note": "Equivalences between answers and a description of the rules that mentions no tables; the description is proved functional. GetEngine also depends on the hand-written Chromium regexp, a parameter."
  },
  {
   "property": "C69",
   "status": "proved",
   "theorems": [
    "Verif.Compiler.C69_os",
    "Verif.Compiler.C69_os_iff",
    "Verif.Compiler.C69_os_version",
    "Verif.Compiler.C69_reference"
   ],
   "note": "An empty name may be answered as the empty text or as UNK; all other names exactly."
  },
  {
   "property": "C70",
   "status": "proved",
   "theorems": [
    "Verif.Compiler.C70_device_type",
    "Verif.Compiler.C70_model",
    "Verif.Compiler.C70_brand",
    "Verif.Compiler.C70_file_order_refuted",
    "Verif.Compiler.C70_order"
   ],
   "note": "File order, which one might expect to decide, is refuted by two brands with the same pattern."
  },
  {
   "property": "C71",
   "status": "proved",
   "theorems": [
    "Verif.Compiler.C71_hint",
    "Verif.Compiler.C71_unknown",
    "Verif.Compiler.C71_refuted"
   ],
   "note": "Without the condition on the hash the claim is refuted."
  },
  {
   "property": "C72",
   "status": "proved",
   "theorems": [
    "Verif.Cli.C72_report",
    "Verif.Cli.C72_no_panic",
    "Verif.Cli.C72_prefix",
    "Verif.Cli.C72_progress",
    "Verif.Cli.C72_terminates",
    "Verif.Cli.C72_crash",
    "Verif.Cli.C72_ends",
    "Verif.Cli.C72_shipped",
    "Verif.Cli.C72_shipped_crash"
   ],
   "note": "The general theorems assume that no answer panics without a cache and that buffers stay below 4 GiB. C72_shipped and C72_shipped_crash settle every user agent below 64 MiB for the shipped tables: the report, or, if a rule with one of the eight broken regexps (C27) is selected, a crash with only the user agent and a heading in the file."
  },
  {
   "property": "C73",
   "status": "proved",
   "theorems": [
    "Verif.C73_browser",
    "Verif.C73_engine",
    "Verif.C73_os",
    "Verif.C73_components",
    "Verif.C73_garbage",
    "Verif.C73_none",
    "Verif.C73_printed",
    "Verif.C73_text_refuted"
   ],
   "note": "With a cache: by C19, C20 and C21 the answers are the same. That the printed version is the version string is refuted."
  },
  {
   "property": "C74",
   "status": "partial",
   "theorems": [
    "Verif.Compiler.C74_source_partial",
    "Verif.Compiler.C74_package_partial",
    "Verif.Compiler.C74_refuted"
   ],
   "note": "Holds for rules without the bytes the generator fails to quote, without references that become -128 and with distinct hashes (Rules.Writable, Env.Writable). C74_refuted shows that each of these can break the source; missing is only that case."
  },
  {
   "property": "C75",
   "status": "partial",
   "theorems": [
    "Verif.Race.C75_race_free_partial",
    "Verif.Race.C75_refuted"
   ],
   "note": "race-free for all executions in which entries are read by the library only (happens-before of the Go memory model; unbounded goroutines, contexts, caches, entries; contexts passed on by the pool, a channel or a go statement; caches built-in or the program's own if guarded by a lock); refuted with a concrete execution when the program reads an entry returned by GetCache().Get."
  },
  {
   "property": "C76",
   "status": "partial",
   "theorems": [
    "Verif.Tool.C76_frame_partial",
    "Verif.Tool.C76_bad_file",
    "Verif.Tool.C76_generate_partial",
    "Verif.Tool.C76_succeeds_partial",
    "Verif.Tool.C76_flags",
    "Verif.Tool.C76_refuted"
   ],
   "note": "frame, failure and end-to-end theorems for arbitrary file systems and surroundings; go/format is a parameter that accepts valid Go and keeps what it declares. Missing: rules the generator cannot write (C74), ~ in inputs; refuted for the bot module, empty directories, failing writes, ~ inside names."
  },
  {
   "property": "C77",
   "status": "partial",
   "theorems": [
    "Verif.Cli.C77_file",
    "Verif.Cli.C77_whole_partial",
    "Verif.Cli.C77_frame",
    "Verif.Cli.C77_download_partial",
    "Verif.Cli.C77_failed",
    "Verif.Cli.C77_refuted"
   ],
   "note": "what is read and written by the comparison tool, for arbitrary files, networks and sequences of runs; combined with C66 for the text of the report. Missing because false: same last segment, input = output, partial downloads."
  },
  {
   "property": "C78",
   "status": "proved",
   "theorems": [
    "Verif.Regexp.C78_found",
    "Verif.Regexp.C78_match",
    "Verif.Regexp.C78_group",
    "Verif.Regexp.C78_ascii",
    "Verif.Regexp.C78_literal",
    "Verif.Regexp.C78_literal_any_case"
   ],
   "note": "The matcher of the regexp model against a relational definition; relative to the parser of the model for patterns with special characters."
  },
  {
   "property": "C79",
   "status": "partial",
   "theorems": [
    "Verif.Regexp.C79_word",
    "Verif.Regexp.C79_ascii",
    "Verif.Regexp.C79_vendor",
    "Verif.Regexp.C79_vendor_refuted",
    "Verif.Compiler.C79_client",
    "Verif.C79_shipped_client",
    "Verif.C79_shipped_category",
    "Verif.C79_shipped_vendor"
   ],
   "note": "Refuted for vendor fragments with alternatives; everything else proved."
  },
  {
   "property": "C80",
   "status": "partial",
   "theorems": [
    "Verif.Compiler.C80_group",
    "Verif.Compiler.C80_version",
    "Verif.Compiler.C80_getter",
    "Verif.Compiler.C80_digits_refuted",
    "Verif.C80_shipped"
   ],
   "note": "Refuted that only digits and dots occur (5a3); everything else proved."
  },
  {
   "property": "C81",
   "status": "partial",
   "theorems": [
    "Verif.C81_partial",
    "Verif.C81_refuted",
    "Verif.C81_yandex"
   ],
   "note": "Refuted for eight of the shipped client rules, which the theorem names; proved for all others."
  },
  {
   "property": "C82",
   "status": "partial",
   "theorems": [
    "Verif.C82_partial",
    "Verif.C82_refuted"
   ],
   "note": "Refuted: ten constants of the shipped tables are unexpanded templates such as 26.$1. Proved: numbers, listed constants, or one of four rules."
  },
  {
   "property": "C83",
   "status": "partial",
   "theorems": [
    "Verif.C83_partial",
    "Verif.C83_refuted",
    "Verif.C83_brand"
   ],
   "note": "GetBrand proved; GetBrowser refuted by the six rules, proved for all others and for headers."
  },
  {
   "property": "C84",
   "status": "proved",
   "theorems": [
    "Verif.C84_engine",
    "Verif.C84_os",
    "Verif.C84_os_names",
    "Verif.C84_desktop"
   ],
   "note": "For the shipped tables and the modelled regexp library."
  },
  {
   "property": "C85",
   "status": "proved",
   "theorems": [
    "Verif.C85_model"
   ],
   "note": "For the shipped tables and the modelled regexp library; user agents below 64 MiB, the bound under which GetModel is proved not to panic."
  },
  {
   "property": "C86",
   "status": "proved",
   "theorems": [
    "Verif.C86_client",
    "Verif.C86_version",
    "Verif.C86_engine",
    "Verif.C86_engine_version",
    "Verif.C86_os",
    "Verif.C86_model"
   ],
   "note": "For the shipped tables and the modelled regexp library, uncached getters."
  },
  {
   "property": "C87",
   "status": "partial",
   "theorems": [
    "Verif.C87_browser_partial",
    "Verif.C87_os_partial",
    "Verif.C87_engine_refuted",
    "Verif.C87_negative"
   ],
   "note": "Proved for the client getters, except for the rules with one of eight regexps whose groups have other characters, and for the OS getters: the pieces up to the first that is empty or reaches 2^63, reduced to 32 signed bits. Refuted for engine versions: the dot of their regexps is not escaped, so a suffix can appear (C87_engine_refuted). Components of 2^31 and more come out wrong, e.g. negative (C87_negative)."
  },
  {
   "property": "C88",
   "status": "partial",
   "theorems": [
    "Verif.C88_refuted",
    "Verif.C88_acrux",
    "Verif.C88_dead"
   ],
   "note": "Refuted: the model Gacrux of Ceibal is always taken for an \u00c1crux, as texts are looked for anywhere in the user agent and \"ACRUX\" is listed first. C88_dead: five rules are never used in any list; for the four others the earlier rule has the same model. That all other rules can take effect is not proved."
  },
  {
   "property": "C89",
   "status": "proved",
   "theorems": [
    "Verif.C89_any",
    "Verif.C89_utf8",
    "Verif.C89_shared",
    "Verif.C89_refuted",
    "Verif.C89_version",
    "Verif.Cli.C89_report"
   ],
   "note": "The claim as listed is proved for the shipped tables (C89_any, C89_utf8) and for every schedule (C89_shared; version getters answer numbers, GetModel served by a cache is C20). C89_refuted shows why the restriction is there: a stray byte of the user agent gets into the engine version. C89_version: the same for the suffix and the text of versions; C89_report: the output of a complete run of uaxpl -ua U is well-formed if U is."
  },
  {
   "property": "C90",
   "status": "partial",
   "theorems": [
    "Verif.Cli.C90_read",
    "Verif.Cli.C90_accepted",
    "Verif.Cli.C90_values",
    "Verif.Cli.C90_refused",
    "Verif.Cli.C90_nothing",
    "Verif.Cli.C90_ignored",
    "Verif.Cli.C90_threads",
    "Verif.Cli.C90_octal",
    "Verif.Cli.C90_single",
    "Verif.Cli.C90_shipped",
    "Verif.Cli.C90_file_partial",
    "Verif.Cli.C90_url_partial",
    "Verif.Cli.C90_workers",
    "Verif.Cli.C90_negative",
    "Verif.Cli.C90_zero"
   ],
   "note": "Reading the flags is settled in both directions, numbers being Go's integer literals (C90_values), and so are the modes and their order; for the shipped rules C90_shipped says exactly for which user agents uaxpl -ua comes to its end and what it writes. Refuted: digits with a zero in front are octal (-threads 010 is eight, 08 an error); a negative number of threads passes the flags and makes the program panic after the output has been emptied; with zero threads and at least one row it never ends. -format has no effect (part of C90_ignored). The rows' reports need the conditions of C66 (C90_file_partial, C90_url_partial); URLs fetched before are C77."
  },
  {
   "property": "C91",
   "status": "partial",
   "theorems": [
    "Verif.C91_parse",
    "Verif.C91_accepted",
    "Verif.C91_no_suffix_partial",
    "Verif.C91_suffix_partial",
    "Verif.C91_getter_partial",
    "Verif.C91_refuted"
   ],
   "note": "Accepted texts, components and suffixes are characterised exactly, in both directions (C91_parse, C91_accepted). The expected meaning of a suffix is refuted (C91_refuted): with fewer than four dots there is never a suffix, and a text with a space in it is an error (C91_no_suffix_partial); a suffix is always the end of the text after a mark that follows four dots, for Parse and for the version getters (C91_suffix_partial, C91_getter_partial)."
  },
  {
   "property": "C92",
   "status": "partial",
   "theorems": [
    "Verif.C92_text",
    "Verif.C92_distinct_partial",
    "Verif.C92_refuted"
   ],
   "note": "C92_text gives the text of every version. The claim holds if no component is negative (C92_distinct_partial); it is refuted by the versions Parse makes of 2147483648 and 0, both written as 0 (C92_refuted)."
  },
  {
   "property": "C93",
   "status": "proved",
   "theorems": [
    "Verif.C93_write",
    "Verif.C93_read"
   ],
   "note": "Layout lists offset, width and value of every field byte by byte; C93_read is an equivalence. Payloads of 4 GiB and more are C08."
  },
  {
   "property": "C94",
   "status": "partial",
   "theorems": [
    "Verif.C94_refuted",
    "Verif.C94_over_partial",
    "Verif.C94_accepts_partial",
    "Verif.C94_reset_partial"
   ],
   "note": "Refuted without Reset: after the error on 1.2.x, 5 is read as 5.2 (C94_refuted). What holds: the same texts are accepted (C94_accepts_partial), the numbers of the text replace the first components and the rest stays (C94_over_partial); after Reset, or for four numbers, the answer is that of a new version (C94_reset_partial)."
  },
  {
   "property": "C95",
   "status": "partial",
   "theorems": [
    "Verif.C95_refuted",
    "Verif.C95_again_partial",
    "Verif.C95_shorter_partial",
    "Verif.C95_reset_partial"
   ],
   "note": "Refuted without Reset (C95_refuted): the tokenizer goes on at the position where the first text ended, so the calls give the tokens of the second text without that many bytes (C95_again_partial), none at all if it is not longer (C95_shorter_partial). With Reset the claim holds (C95_reset_partial)."
  }
 ]
}