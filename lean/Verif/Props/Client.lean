import Verif.Proofs.Unique
import Verif.Proofs.DemoWF
import Verif.Props.Transparency
/-
Properties of client detection: C22 (filter), C23 (order), C29 (hint), C30 (version text), C55 (engine), C56 (engine version).
-/
namespace Verif

section
variable {T : Tables} {H : Bytes → UInt64} {q : Req}

/-! ### C23 -/

/-- C23, type: an uncached GetClientType answers the type of the first allowed category with a matching rule, 0 if there is none. -/
theorem C23_client_type {a : Ans} (h : uncached T H .clientType q = some a) :
    (∃ t v, ClientChosen T q.mc q.ua t v ∧ a = .clientType t) ∨ (ClientNone T q.mc q.ua ∧ a = .clientType 0) := by
  rw [uncached_eq _ (by decide)] at h
  simp only [outAns, Option.map_eq_some_iff] at h
  obtain ⟨g, h1, rfl⟩ := h
  obtain ⟨h2, rfl⟩ | ⟨t, i, v, h0, h2, rfl, h3⟩ := clientOut_char h1
  · exact .inr ⟨h2, rfl⟩
  · exact .inl ⟨_, v, h2, rfl⟩

/-- C23, name: without header, GetBrowser answers the name of the first matching rule of that category, "UNK" if there is none. -/
theorem C23_client_name {a : Ans} (hh : q.header = []) (h : uncached T H .browser q = some a) :
    (∃ t v n, ClientChosen T q.mc q.ua t v ∧ NameAt T.crBuf v.browser64 n ∧ a = .text n) ∨ (ClientNone T q.mc q.ua ∧ a = .text (ascii "UNK")) := by
  rw [uncached_eq _ (by decide)] at h
  simp only [outAns, Option.map_eq_some_iff, Option.bind_eq_some_iff] at h
  obtain ⟨n, ⟨g, h1, h2⟩, rfl⟩ := h
  have h0 : q.hint H = 0 := by simp [Req.hint, hh]
  simp only [browserText, h0, ne_eq, not_true_eq_false, if_false] at h2
  obtain ⟨h3, rfl⟩ | ⟨t, i, v, -, h3, -, h4⟩ := clientOut_char h1
  · right
    simp [zeroC] at h2
    exact ⟨h3, by rw [← h2]; rfl⟩
  · left
    refine ⟨t, v, n, h3, ?_, rfl⟩
    rw [h4.name] at h2
    by_cases hz : v.browser64 = 0
    · simp [hz] at h2
      exact .inl ⟨hz, h2.symm⟩
    · have : v.browser64 > 0 := UInt64.pos_iff_ne_zero.mpr hz
      simp only [this, if_true] at h2
      exact .inr ⟨hz, sliceE_iff.mp h2⟩

/-- C23, converse: a rule chosen by the specification is the one reported (there is only one such rule). -/
theorem C23_chosen (hok : uncached T H .clientType q ≠ none) {t : ClientType} {v : ClientTuple} (h : ClientChosen T q.mc q.ua t v) :
    uncached T H .clientType q = some (.clientType t) := by
  obtain ⟨a, ha⟩ := Option.ne_none_iff_exists'.mp hok
  rw [ha]
  obtain ⟨t', v', h1, rfl⟩ | ⟨h1, -⟩ := C23_client_type ha
  · rw [(h.unique h1).1]
  · exact absurd h1 h.not_none

/-- The phone runs a browser: no feed reader, app, player, PIM or library rule matches before. -/
example : uncached Demo.tables Demo.hash .clientType { ua := Demo.phone } = some (.clientType ClientTypeBrowser) ∧
    uncached Demo.tables Demo.hash .browser { ua := Demo.phone } = some (.text (ascii "Chrome")) := by decide +kernel

/-- A feed reader that also mentions curl and Chrome is a feed reader; without that category it is a library, and without both a browser. -/
example : let ua := ascii "Feedly curl/7 Chrome/96"
    uncached Demo.tables Demo.hash .clientType { ua } = some (.clientType ClientTypeFeedReader) ∧
    uncached Demo.tables Demo.hash .clientType { ua, mc := ClientTypeLibrary ||| ClientTypeBrowser } = some (.clientType ClientTypeLibrary) ∧
    uncached Demo.tables Demo.hash .clientType { ua, mc := ClientTypeBrowser } = some (.clientType ClientTypeBrowser) ∧
    uncached Demo.tables Demo.hash .clientType { ua, mc := ClientTypePIM } = some (.clientType 0) := by decide +kernel

/-- The hypothesis of `C23_chosen` is met: the library rule is chosen for curl. -/
example : ClientChosen Demo.tables ClientTypeAll (ascii "curl/7.1") ClientTypeLibrary { matchRI := 1, browser64 := Demo.e64 11 15, browserVI := 1 } := by
  have h : uncached Demo.tables Demo.hash .clientType { ua := ascii "curl/7.1" } = some (.clientType ClientTypeLibrary) := by decide +kernel
  obtain ⟨t, v, h1, h2⟩ | ⟨-, h2⟩ := C23_client_type h
  · injection h2 with h2
    subst h2
    obtain ⟨i, rows, h3, h4, h5⟩ := h1.first
    have hi : i = 3 := by
      have := h3.mem.1
      revert this
      have : ∀ x ∈ clientOrder, x.1 = ClientTypeLibrary → x.2 = 3 := by decide
      exact fun hm => this _ hm rfl
    subst hi
    cases h4
    have hv := h5.mem.1
    simp at hv
    subst hv
    exact h1
  · injection h2 with h2; exact absurd h2 (by decide)

/-! ### C22 -/

/-- C22, uncached: GetClientType answers 0 or one type allowed by the filter. -/
theorem C22_uncached_partial {a : Ans} (h : uncached T H .clientType q = some a) :
    a = .clientType 0 ∨ ∃ t ∈ [ClientTypeBrowser, ClientTypeMobileApp, ClientTypeLibrary, ClientTypeFeedReader, ClientTypeMediaPlayer, ClientTypePIM],
      q.mc &&& t = t ∧ a = .clientType t := by
  obtain ⟨t, v, h1, rfl⟩ | ⟨-, rfl⟩ := C23_client_type h
  · right
    obtain ⟨h2, h3⟩ := h1.type
    have bit : ∀ t ∈ clientOrder.map (·.1), ∀ m : UInt8, m &&& t ≠ 0 → m &&& t = t := by
      have : ∀ t ∈ clientOrder.map (·.1), ∀ n : Fin 256, UInt8.ofNat n.val &&& t ≠ 0 → UInt8.ofNat n.val &&& t = t := by decide +kernel
      intro t ht m
      have := this t ht ⟨m.toNat, m.toNat_lt⟩
      simpa using this
    refine ⟨t, ?_, bit t h2 _ h3, rfl⟩
    revert h2
    have : ∀ t ∈ clientOrder.map (·.1), t ∈ [ClientTypeBrowser, ClientTypeMobileApp, ClientTypeLibrary, ClientTypeFeedReader, ClientTypeMediaPlayer, ClientTypePIM] := by decide
    exact this t
  · exact .inl rfl

/-- C22, cached: in every schedule in which every getter call made so far for this user agent was made under a filter included in this
one, the answer is 0 or a type allowed by the filter. -/
theorem C22_cached_partial {s : Sys} (hr : Sys.Reach T H s) {pre post : List Event} {t : Nat} {r : Option (Option Ans)}
    (hlog : s.log = pre ++ .ret t (.get .clientType) r :: post)
    (hf : ∀ q', Used pre q' → q'.ua = (reqOf pre t).ua → q'.mc &&& (reqOf pre t).mc = q'.mc)
    (hok : ∀ q', Used pre q' → q'.ua = (reqOf pre t).ua → uncached T H .clientType ((reqOf pre t).withFiltersOf q') ≠ none) :
    ∃ ty : ClientType, r = some (some (.clientType ty)) ∧ (ty = 0 ∨ (reqOf pre t).mc &&& ty = ty) := by
  obtain ⟨q', a, h1, h2, h3, rfl⟩ := C19_some_filter hr hlog (by decide) hok
  obtain rfl | ⟨ty, -, h4, rfl⟩ := C22_uncached_partial h3
  · exact ⟨0, rfl, .inl rfl⟩
  · refine ⟨ty, rfl, .inr ?_⟩
    have h4 : q'.mc &&& ty = ty := h4
    have h5 := hf q' h1 h2
    rw [← h4, ← UInt8.and_assoc, UInt8.and_comm _ q'.mc, h5]

/-- Context 0 asks with all types allowed, then context 1 for libraries only. -/
def Demo.filters : Sys := Sys.init.execs Demo.tables Demo.hash
  [(0, .setUserAgent Demo.phone), (0, .get .clientType), (1, .filterClientType ClientTypeLibrary), (1, .setUserAgent Demo.phone), (1, .get .clientType)]

/-- C22 refuted: the cache ignores the filter, so with a filter that allows libraries only GetClientType answers "browser". -/
theorem C22_refuted : ∃ s pre, Sys.Reach Demo.tables Demo.hash s ∧
    s.log = pre ++ [.ret 1 (.get .clientType) (some (some (.clientType ClientTypeBrowser)))] ∧
    (reqOf pre 1).mc = ClientTypeLibrary ∧ uncached Demo.tables Demo.hash .clientType (reqOf pre 1) = some (.clientType 0) :=
  ⟨Demo.filters, Demo.filters.log.take 9, reach_execs _ .init, by decide +kernel, by decide +kernel, by decide +kernel⟩

/-- Context 0 asks for libraries only, then context 1 for any type and is served from the cache. -/
def Demo.filters' : Sys := Sys.init.execs Demo.tables Demo.hash
  [(0, .filterClientType ClientTypeLibrary), (0, .setUserAgent (ascii "curl/7 Chrome/9")), (0, .get .clientType),
   (1, .setUserAgent (ascii "curl/7 Chrome/9")), (1, .get .clientType)]

/-- The hypotheses of `C22_cached_partial` are met when the second filter includes the first. -/
example {r : Option (Option Ans)} (h : Demo.filters'.log = Demo.filters'.log.take 9 ++ [.ret 1 (.get .clientType) r]) :
    ∃ ty : ClientType, r = some (some (.clientType ty)) ∧ (ty = 0 ∨ (reqOf (Demo.filters'.log.take 9) 1).mc &&& ty = ty) := by
  refine C22_cached_partial (reach_execs _ .init) h ?_ ?_
  · have : ∀ q' ∈ usedList [] (Demo.filters'.log.take 9), q'.mc &&& (reqOf (Demo.filters'.log.take 9) 1).mc = q'.mc := by decide +kernel
    exact fun q' h _ => this q' (used_mem h)
  · have : ∀ q' ∈ usedList [] (Demo.filters'.log.take 9), uncached Demo.tables Demo.hash .clientType ((reqOf (Demo.filters'.log.take 9) 1).withFiltersOf q') ≠ none := by decide +kernel
    exact fun q' h _ => this q' (used_mem h)

example : Demo.filters'.log = Demo.filters'.log.take 9 ++ [.ret 1 (.get .clientType) (some (some (.clientType ClientTypeLibrary)))] := by decide +kernel

/-! ### C29 -/

/-- C29, known header: GetBrowser answers the table's name for it, whatever the user agent. -/
theorem C29_known {a : Ans} {e : Entry64} {n : Bytes} (hh : q.header ≠ []) (h0 : H q.header ≠ 0) (he : T.hrIdx (H q.header) = some e)
    (hn : NameAt T.hrBuf e n) (h : uncached T H .browser q = some a) : a = .text n := by
  rw [uncached_eq _ (by decide)] at h
  simp only [outAns, Option.map_eq_some_iff, Option.bind_eq_some_iff] at h
  obtain ⟨n', ⟨g, h1, h2⟩, rfl⟩ := h
  have hq : q.hint H = H q.header := by simp [Req.hint, hh]
  simp only [browserText, hq, ne_eq, h0, not_false_eq_true, if_true, he] at h2
  obtain ⟨rfl, rfl⟩ | ⟨hz, ht⟩ := hn
  · simp at h2; rw [← h2]; rfl
  · have : e > 0 := UInt64.pos_iff_ne_zero.mpr hz
    rw [if_pos this, sliceE_iff.mpr ht] at h2
    cases h2; rfl

/-- C29, unknown header: GetBrowser answers "UNK", whatever the user agent. -/
theorem C29_unknown {a : Ans} (hh : q.header ≠ []) (h0 : H q.header ≠ 0) (he : T.hrIdx (H q.header) = none)
    (h : uncached T H .browser q = some a) : a = .text (ascii "UNK") := by
  rw [uncached_eq _ (by decide)] at h
  simp only [outAns, Option.map_eq_some_iff, Option.bind_eq_some_iff] at h
  obtain ⟨n', ⟨g, h1, h2⟩, rfl⟩ := h
  have hq : q.hint H = H q.header := by simp [Req.hint, hh]
  simp [browserText, hq, h0, he] at h2
  rw [← h2]; rfl

/-- C29, no header (or one whose hash is zero): GetBrowser answers as if none had been set. -/
theorem C29_zero (h0 : q.header = [] ∨ H q.header = 0) : uncached T H .browser q = uncached T H .browser { q with header := [] } := by
  rw [uncached_eq _ (by decide), uncached_eq _ (by decide)]
  have h1 : q.hint H = 0 := by
    unfold Req.hint
    rcases h0 with h | h
    · rw [if_pos h]
    · split
      · rfl
      · exact h
  have h2 : ({ q with header := [] } : Req).hint H = 0 := by simp [Req.hint]
  simp only [outAns, h1, h2]

/-- C29, other getters ignore the header (for GetModel see `C29_model_ignored`). -/
theorem C29_ignored {g : Getter} (hg : g ≠ .browser) (hm : g ≠ .model) (h : Bytes) : uncached T H g q = uncached T H g { q with header := h } := by
  rw [uncached_eq _ hm, uncached_eq _ hm]
  cases g <;> first | rfl | exact absurd rfl hg

/-- C29 under concurrency: in every schedule over any honest cache, GetBrowser on a context with a header answers the header's name. -/
theorem C29_concurrent {s : Sys} (hr : Sys.Reach T H s) {pre post : List Event} {t : Nat} {r : Option (Option Ans)} {n : Bytes}
    (hlog : s.log = pre ++ .ret t (.get .browser) r :: post)
    (hh : (reqOf pre t).header ≠ []) (h0 : H (reqOf pre t).header ≠ 0)
    (hn : (∃ e, T.hrIdx (H (reqOf pre t).header) = some e ∧ NameAt T.hrBuf e n) ∨ (T.hrIdx (H (reqOf pre t).header) = none ∧ n = ascii "UNK"))
    (hok : ∀ q', Used pre q' → q'.ua = (reqOf pre t).ua → uncached T H .browser ((reqOf pre t).withFiltersOf q') ≠ none) :
    r = some (some (.text n)) := by
  obtain ⟨q', a, h1, h2, h3, rfl⟩ := C19_some_filter hr hlog (by decide) hok
  obtain ⟨e, he, hn⟩ | ⟨he, rfl⟩ := hn
  · rw [C29_known (q := (reqOf pre t).withFiltersOf q') hh h0 he hn h3]
  · rw [C29_unknown (q := (reqOf pre t).withFiltersOf q') hh h0 he h3]

/-- Telegram's in-app browser on the phone. -/
example : uncached Demo.tables Demo.hash .browser { ua := Demo.phone, header := ascii "org.telegram" } = some (.text (ascii "Telegram")) ∧
    NameAt Demo.tables.hrBuf (Demo.e64 0 8) (ascii "Telegram") :=
  ⟨by decide +kernel, .inr ⟨by decide, sliceE_iff.mp (by decide +kernel)⟩⟩

/-- An unknown application hides Chrome. -/
example : uncached Demo.tables Demo.hash .browser { ua := Demo.phone, header := ascii "com.example" } = some (.text (ascii "UNK")) := by decide +kernel

/-- A context with a header served from the cache of one without. -/
example : ∃ s pre, Sys.Reach Demo.tables Demo.hash s ∧ s.log = pre ++ [.ret 1 (.get .browser) (some (some (.text (ascii "Telegram"))))] ∧ s.hist.length = 1 :=
  ⟨Sys.init.execs Demo.tables Demo.hash [(0, .setUserAgent Demo.phone), (0, .get .browser), (1, .setUserAgent Demo.phone),
    (1, .setRequestedWith (ascii "org.telegram")), (1, .get .browser)], _, reach_execs _ .init, by
      show _ = (Sys.init.execs Demo.tables Demo.hash [(0, .setUserAgent Demo.phone), (0, .get .browser), (1, .setUserAgent Demo.phone),
        (1, .setRequestedWith (ascii "org.telegram")), (1, .get .browser)]).log.take 9 ++ _
      decide +kernel, by decide +kernel⟩

/-! ### C30 -/

/-- C30: the version text is that of the chosen rule, cleaned; empty if no rule matches. It never ends in a dot. -/
theorem C30_shape (hw : WFbase T q.ua) (hgr : ChosenWF T q.mc q.ua) (hl : q.ua.length < 2 ^ 32) :
    ∃ s, uncached T H .browserVersionString q = some (.text s) ∧ s.getLast? ≠ some 46 ∧
      ((ClientNone T q.mc q.ua ∧ s = []) ∨ ∃ t v raw, ClientChosen T q.mc q.ua t v ∧ ClientVersion T q.ua v raw ∧ Cleaned raw s) := by
  rw [uncached_eq _ (by decide)]
  obtain ⟨g, hg⟩ := Option.ne_none_iff_exists'.mp (clientOut_total hw hl hgr)
  simp only [outAns, hg, Option.bind_some]
  obtain ⟨h1, rfl⟩ | ⟨t, i, v, h0, h1, h2, h3⟩ := clientOut_char hg
  · refine ⟨[], by simp [browserVerText, zeroC], by simp, .inl ⟨h1, rfl⟩⟩
  · obtain ⟨a, z, i', rows, -, -, -, h4, h5⟩ := id h1
    obtain ⟨raw, h6, h7⟩ := clientVer_text hw hl (hw.cr rows (List.mem_of_getElem? h4) v h5.mem.1) (hgr t v h1) h5.mem.2
    rw [← h3.ver] at h7
    have h7 : Text (if g.verConst then T.crBuf else q.ua) g.clientVersion64 raw := h7
    unfold browserVerText
    by_cases hz : g.clientVersion64 > 0
    · rw [if_pos hz, sliceE_iff.mpr h7]
      have hc := cleaned_spec raw
      refine ⟨_, rfl, ?_, .inr ⟨t, v, raw, h1, h6, hc⟩⟩
      obtain ⟨_, _, _, _, h⟩ := hc
      exact h
    · rw [if_neg hz]
      have : g.clientVersion64 = 0 := by
        rcases Classical.em (g.clientVersion64 = 0) with h | h
        · exact h
        · exact absurd (UInt64.pos_iff_ne_zero.mpr h) hz
      rw [this] at h7
      cases text_zero h7
      exact ⟨[], rfl, by simp, .inr ⟨t, v, [], h1, h6, cleaned_nil⟩⟩

example : WFbase Demo.tables Demo.phone ∧ ChosenWF Demo.tables ClientTypeAll Demo.phone := ⟨(Demo.tables_wf _).toWFbase, (Demo.tables_wf _).chosen _⟩

/-- The version of the phone's browser; trailing dots are removed. -/
example : uncached Demo.tables Demo.hash .browserVersionString { ua := Demo.phone } = some (.text (ascii "96.0.4")) ∧
    uncached Demo.tables Demo.hash .browserVersionString { ua := ascii "Chrome/96.0.. x" } = some (.text (ascii "96.0")) := by decide +kernel

/-! ### C55, C56 -/

/-- C55: the engine of a browser is the one its rule names (a constant or a function of the major version), or else that of the first
matching engine rule, or else "Blink" if the keyword occurs, or else empty. Other clients and unknown ones have no engine. -/
theorem C55_engine (hw : WFbase T q.ua) (hgr : ChosenWF T q.mc q.ua) (hl : q.ua.length < 2 ^ 32) :
    ∃ s, uncached T H .engine q = some (.text s) ∧
      ((∃ v e, ClientChosen T q.mc q.ua ClientTypeBrowser v ∧ EngineOf T q.ua v e ∧
          ((e ≠ 0 ∧ Text T.crBuf e s) ∨ (e = 0 ∧ s = if T.forceBlink.isMatch q.ua then ascii "Blink" else []))) ∨
       ((∃ t v, ClientChosen T q.mc q.ua t v ∧ t ≠ ClientTypeBrowser) ∧ s = []) ∨
       (ClientNone T q.mc q.ua ∧ s = [])) := by
  rw [uncached_eq _ (by decide)]
  obtain ⟨g, hg⟩ := Option.ne_none_iff_exists'.mp (clientOut_total hw hl hgr)
  obtain ⟨-, -, h0, -⟩ := clientTexts_total hw hl hgr hg 0
  obtain ⟨s, hs⟩ := Option.ne_none_iff_exists'.mp h0
  refine ⟨s, by simp [outAns, hg, hs], ?_⟩
  unfold engineText at hs
  obtain ⟨h1, rfl⟩ | ⟨t, i, v, h0, h1, h2, h3⟩ := clientOut_char hg
  · refine .inr (.inr ⟨h1, ?_⟩)
    simpa [zeroC] using hs
  · have he := h3.eng
    obtain ⟨-, hb⟩ := clientOrder_ne h0
    split at he
    · rename_i hi
      have ht : t = ClientTypeBrowser := hb.mp hi
      subst ht
      obtain ⟨e1, k1, k2, k3, k4⟩ := he
      obtain ⟨a, z, i', rows, -, -, -, h4, h5⟩ := id h1
      have hr := engineOf_of hw hl (hw.cr rows (List.mem_of_getElem? h4) v h5.mem.1) (hgr _ v h1) h5.mem.2 (by rw [← h3.ver]) k1 k2
      refine .inl ⟨v, g.engineName64, h1, hr, ?_⟩
      rw [k4] at hs
      unfold engBlink at hs
      by_cases hz : g.engineName64 = 0
      · refine .inr ⟨hz, ?_⟩
        rw [hz] at hs
        by_cases hf : T.forceBlink.isMatch q.ua = true
        · simp [hf] at hs; simp [hf, hs]
        · simp [hf] at hs; simp [hf, hs]
      · refine .inl ⟨hz, ?_⟩
        simp only [hz, decide_false, Bool.false_and, Bool.false_eq_true, if_false] at hs
        rw [if_pos (UInt64.pos_iff_ne_zero.mpr hz)] at hs
        exact sliceE_iff.mp hs
    · rename_i hi
      refine .inr (.inl ⟨⟨t, v, h1, fun h => hi (hb.mpr h)⟩, ?_⟩)
      obtain ⟨k1, -, k2⟩ := he
      simpa [k1, k2] using hs

/-- C56: the engine version is what the first group of the engine's version regexp captures in the user agent; empty if the browser
has no known engine, its engine has no such regexp or it does not match. -/
theorem C56_engine_version (hw : WFbase T q.ua) (hgr : ChosenWF T q.mc q.ua) (hl : q.ua.length < 2 ^ 32) :
    ∃ s, uncached T H .engineVersionString q = some (.text s) ∧
      ((∃ v e, ClientChosen T q.mc q.ua ClientTypeBrowser v ∧ EngineOf T q.ua v e ∧ EngineVersionText T q.ua e s) ∨
       ((∃ t v, ClientChosen T q.mc q.ua t v ∧ t ≠ ClientTypeBrowser) ∧ s = []) ∨ (ClientNone T q.mc q.ua ∧ s = [])) := by
  rw [uncached_eq _ (by decide)]
  obtain ⟨g, hg⟩ := Option.ne_none_iff_exists'.mp (clientOut_total hw hl hgr)
  simp only [outAns, hg, Option.bind_some]
  unfold engineVerText
  obtain ⟨h1, rfl⟩ | ⟨t, i, v, h0, h1, h2, h3⟩ := clientOut_char hg
  · exact ⟨[], by simp [zeroC], .inr (.inr ⟨h1, rfl⟩)⟩
  · have he := h3.eng
    obtain ⟨-, hb⟩ := clientOrder_ne h0
    split at he
    · rename_i hi
      have ht : t = ClientTypeBrowser := hb.mp hi
      subst ht
      obtain ⟨e1, k1, k2, k3, k4⟩ := he
      obtain ⟨a, z, i', rows, -, -, -, h4, h5⟩ := id h1
      have hr := engineOf_of hw hl (hw.cr rows (List.mem_of_getElem? h4) v h5.mem.1) (hgr _ v h1) h5.mem.2 (by rw [← h3.ver]) k1 k2
      obtain ⟨s, e2, e3⟩ := engVer_text hw hl g.engineName64
      rw [← k3] at e3
      refine ⟨s, ?_, .inl ⟨v, g.engineName64, h1, hr, e2⟩⟩
      by_cases hz : g.engineVersion64 = 0
      · rw [hz] at e3 ⊢
        rw [text_zero e3]; rfl
      · rw [if_pos (UInt64.pos_iff_ne_zero.mpr hz), sliceE_iff.mpr e3]; rfl
    · rename_i hi
      refine ⟨[], by simp [he.2.1], .inr (.inl ⟨⟨t, v, h1, fun h => hi (hb.mpr h)⟩, rfl⟩)⟩

example : uncached Demo.tables Demo.hash .engine { ua := Demo.phone } = some (.text (ascii "Blink")) ∧
    uncached Demo.tables Demo.hash .engineVersionString { ua := Demo.phone } = some (.text (ascii "96.0.4")) ∧
    uncached Demo.tables Demo.hash .engine { ua := ascii "curl/7" } = some (.text []) := by decide +kernel

end
end Verif
