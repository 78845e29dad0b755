import Verif.Proofs.ShippedText
import Verif.Props.ShippedNames
import Verif.Props.Transparency
/-
C89: answers are well-formed UTF-8 if the user agent is.
-/
namespace Verif

open Data Regexp Compiler

theorem unk_wf : WellFormed (ascii "UNK") := .ascii (by decide)

theorem shipped_captures {res : List (List Chunk)} {i : Nat} {re : Re} (hr : (res.map fun p => Regexp.compile (buf p))[i]? = some re) {u : Bytes}
    (hu : WellFormed u) {n : Nat} {t : Bytes} (h : Captures re u n t) : WellFormed t := by
  rw [List.getElem?_map] at hr
  obtain ⟨c, -, rfl⟩ := Option.map_eq_some_iff.mp hr
  exact hu.captures h

theorem client_row_wf {m : ClientType} {u : Bytes} {t : ClientType} {v : ClientTuple} (h : ClientChosen Regexp.lib.tables m u t v) :
    textOK crBuf v.browser64 = true ∧ textOK crBuf v.version64 = true := by
  obtain ⟨a, z, i, rows, -, -, -, h4, h5⟩ := h
  have hm : rows ∈ [crIdx0, crIdx1, crIdx2, crIdx3, crIdx4, crIdx5, crIdx6] := List.mem_of_getElem? h4
  have := List.all_eq_true.mp (crTexts_ok rows hm) v h5.mem.1
  rwa [Bool.and_eq_true] at this

theorem browser_wf {H : Bytes → UInt64} {q : Req} {s : Bytes} (h : uncached Regexp.lib.tables H .browser q = some (.text s)) : WellFormed s := by
  by_cases h0 : q.header = [] ∨ H q.header = 0
  · rw [C29_zero h0] at h
    rcases C23_client_name rfl h with ⟨t, v, n, h1, h2, h3⟩ | ⟨-, h3⟩
    · cases h3
      rcases h2 with ⟨-, rfl⟩ | ⟨-, h2⟩
      · exact unk_wf
      · exact textOK_sound (client_row_wf h1).1 h2
    · cases h3
      exact unk_wf
  · obtain ⟨hh, h0⟩ := not_or.mp h0
    cases he : Regexp.lib.tables.hrIdx (H q.header) with
    | none => cases C29_unknown hh h0 he h; exact unk_wf
    | some e =>
      have hp : textOK hrBuf e = true := by
        have he' : (mapOf hrIdx (H q.header)).map UInt64.ofNat = some e := he
        simp only [mapOf, Option.map_map, Option.map_eq_some_iff] at he'
        obtain ⟨x, hx, rfl⟩ := he'
        exact List.all_eq_true.mp hrTexts_ok x (List.mem_of_find?_eq_some hx)
      obtain ⟨n, hn⟩ := hint_rows Regexp.lib _ _ he
      by_cases hz : e = 0
      · cases C29_known hh h0 he (.inl ⟨hz, rfl⟩) h
        exact unk_wf
      · cases C29_known hh h0 he (.inr ⟨hz, hn⟩) h
        exact textOK_sound hp hn

theorem safe_chosen {H : Bytes → UInt64} {q : Req} {g : Getter} (hg : g.isC = true) {a : Ans} (h : uncached Regexp.lib.tables H g q = some a) :
    ChosenWF Regexp.lib.tables q.mc q.ua := by
  refine chosen_wf _ fun t v hc hv => ?_
  rw [C27_panics (H := H) _ hc hv hg] at h
  cases h

theorem engine_version_wf {H : Bytes → UInt64} {q : Req} (hl : q.ua.length < 2 ^ 32) (hu : WellFormed q.ua) {s : Bytes}
    (h : uncached Regexp.lib.tables H .engineVersionString q = some (.text s)) : WellFormed s := by
  obtain ⟨s', ha, hs⟩ := C56_engine_version (H := H) (shipped_wfbase Regexp.lib q.ua) (safe_chosen rfl h) hl
  rw [h] at ha
  cases ha
  rcases hs with ⟨v, e, -, -, ⟨-, i, re, -, hr, h⟩ | ⟨-, rfl⟩⟩ | ⟨-, rfl⟩ | ⟨-, rfl⟩
  · exact shipped_captures hr hu h
  · exact .nil
  · exact .nil
  · exact .nil

theorem replaced {raw s : Bytes} (hlen : s.length = raw.length) (hmap : ∀ (i : Nat) b, raw[i]? = some b → s[i]? = some (if b = 95 then 46 else b)) :
    s = raw.map fun b => if b = 95 then 46 else b := by
  refine List.ext_getElem? fun i => ?_
  by_cases hi : i < raw.length
  · rw [hmap i raw[i] (List.getElem?_eq_getElem hi), List.getElem?_map, List.getElem?_eq_getElem hi]
    rfl
  · rw [List.getElem?_eq_none (by omega), List.getElem?_eq_none (by rw [List.length_map]; omega)]

theorem row_mem {rows : List OSVersionTuple} {e : Entry64} (h : Rows Regexp.lib.tables.orOv e rows) : ∀ w ∈ rows, w ∈ orOv := by
  obtain ⟨a, z, h, -⟩ := h
  intro w hw
  have h : orOv = a ++ rows ++ z := h
  rw [h]; simp [hw]

theorem brand_wf {H : Bytes → UInt64} {q : Req} {s : Bytes} (h : uncached Regexp.lib.tables H .brand q = some (.text s)) : WellFormed s := by
  obtain ⟨s', e, h⟩ := C41_brand h
  cases e
  have fin : ∀ {cs : List Chunk} {e : Entry64}, textOK cs e = true → BrandAt (buf cs) e s → WellFormed s := by
    intro cs e h hb
    rcases hb with ⟨-, rfl⟩ | ⟨-, raw, h1, h2⟩
    · exact unk_wf
    · exact (textOK_sound h h1).trimmed h2
  rcases h with ⟨d, v, h1, h2⟩ | ⟨-, -, rfl⟩ | ⟨-, -, -, ⟨v, h1, h2⟩ | ⟨-, rfl⟩⟩
  · obtain ⟨a, z, b, i, rows, -, -, -, h4, h5⟩ := h1
    exact fin (cs := drBuf) (List.all_eq_true.mp (drTexts_ok rows (List.mem_of_getElem? h4)) v h5.mem.1) h2
  · exact unk_wf
  · have hv : v ∈ vrIdx := by
      obtain ⟨a, z, e, -⟩ := h1
      have e : vrIdx = a ++ v :: z := e
      rw [e]; simp
    exact fin (cs := vrBuf) (List.all_eq_true.mp vrTexts_ok v hv) h2
  · exact unk_wf

theorem model_wf {H : Bytes → UInt64} {q : Req} (hl : q.ua.length < 2 ^ 26) (hu : WellFormed q.ua) {s : Bytes}
    (h : uncached Regexp.lib.tables H .model q = some (.text s)) : WellFormed s := by
  obtain ⟨mo, s', h1, h2, h3⟩ := C32_model (H := H) (q := q) (shipped_wfdev Regexp.lib _) (by omega) (shipped_bound _ hl)
  rw [h] at h3
  cases h3
  refine WellFormed.trimmed ?_ h2
  have fin : ∀ {w : ModelTuple} {ri : Int} {raw t : Bytes}, w ∈ drDm → Text Regexp.lib.tables.drBuf w.model64 raw →
      ModelText Regexp.lib.tables q.ua ri raw t → WellFormed t := by
    intro w ri raw t hw hr ht
    obtain ⟨k1, k2⟩ := templateOK_sound (List.all_eq_true.mp drDm_text w hw) hr
    rcases ht with ⟨-, re, hre, ht⟩ | ⟨-, rfl⟩
    · have hre : (drRe.map fun p => Regexp.compile (buf p))[ri.toNat]? = some re := hre
      rw [List.getElem?_map] at hre
      obtain ⟨c, -, rfl⟩ := Option.map_eq_some_iff.mp hre
      exact hu.expands ht (x := []) k2 k1
    · exact k1
  rcases h1 with ⟨d, v, typ, -, hr⟩ | ⟨-, rfl⟩
  · cases hr with
    | single _ _ hm hr ht _ => exact fin (List.mem_of_getElem? hm) hr ht
    | model _ _ hm hr ht _ => exact fin (List.mem_of_mem_drop (List.mem_of_mem_take hm.mem.1)) hr ht
    | noModel | plain => exact .nil
  · exact .nil

/-- The other getters do not answer texts. -/
theorem not_text {H : Bytes → UInt64} {g : Getter} {q : Req} {s : Bytes} (hg : g ∈ ([.clientType, .deviceType, .browserVersion, .engineVersion, .osVersion] : List Getter)) :
    uncached Regexp.lib.tables H g q ≠ some (.text s) := by
  intro h
  have hm : g ≠ .model := by rintro rfl; exact absurd hg (by decide)
  rw [uncached_eq _ hm] at h
  simp only [List.mem_cons, List.not_mem_nil, or_false] at hg
  rcases hg with rfl | rfl | rfl | rfl | rfl <;> simp [outAns, Option.bind_eq_some_iff] at h

theorem numeric_wf {s : Bytes} (h : Numeric' s) : WellFormed s := by
  refine .ascii fun c hc => ?_
  rcases h c hc with rfl | rfl | h
  · decide
  · decide
  · omega

theorem odd_parse : ∀ p ∈ oddClients, ∃ rx, parse (anyCase p) = some rx ∧ capsSolid rx = true := by
  have : (oddClients.all fun p => match parse (anyCase p) with
    | some rx => capsSolid rx
    | none => false) = true := by decide +kernel
  intro p hp
  have := List.all_eq_true.mp this p hp
  cases h : parse (anyCase p) with
  | none => rw [h] at this; cases this
  | some rx => rw [h] at this; exact ⟨rx, rfl, this⟩

theorem yandex_parse : ∃ rx, parse (anyCase yandex) = some rx ∧ solid rx = true ∧ slashed rx = true := by
  have : (match parse (anyCase yandex) with
    | some rx => solid rx && slashed rx
    | none => false) = true := by decide +kernel
  cases h : parse (anyCase yandex) with
  | none => rw [h] at this; cases this
  | some rx =>
    rw [h, Bool.and_eq_true] at this
    exact ⟨rx, rfl, this⟩

theorem capsSolid_word {rx : Rx} (h : capsSolid rx = true) : capsSolid (.cat wordRx rx) = true := by
  have : capsSolid wordRx = true := by decide +kernel
  rw [capsSolid, this, h]; rfl

theorem atWord_parse {p : Bytes} {rx : Rx} (h : parse (anyCase p) = some rx) : parse (atWord p) = some (.cat wordRx rx) := by
  rw [atWord_eq]
  exact parse_atWord h

theorem version_groups : ∀ rows ∈ [crIdx0, crIdx1, crIdx2, crIdx3, crIdx4, crIdx5, crIdx6],
    (rows.all fun v => decide (v.matchRI = 393) || v.browserVI == -1 || decide (1 ≤ v.browserVI.toInt.toNat)) = true := by decide +kernel

theorem browser_version_any {H : Bytes → UInt64} {q : Req} (hl : q.ua.length < 2 ^ 32) {s : Bytes}
    (h : uncached Regexp.lib.tables H .browserVersionString q = some (.text s)) : WellFormed s := by
  obtain ⟨s', ha, -, hs⟩ := C30_shape (H := H) (shipped_wfbase Regexp.lib q.ua) (safe_chosen rfl h) hl
  rw [h] at ha
  cases ha
  rcases hs with ⟨-, rfl⟩ | ⟨t, v, raw, hc, hv, hcl⟩
  · exact .nil
  by_cases hm : v.matchRI = 393
  · obtain ⟨m, h1, h2⟩ := C81_yandex.2.2 hl hc hm h
    obtain ⟨rx, g1, g2, g3⟩ := yandex_parse
    exact whole_cleaned (atWord_parse g1) g2 g3 h1 h2
  refine WellFormed.cleaned ?_ hcl
  obtain ⟨a, z, i, rows, -, -, -, h4, h5⟩ := id hc
  have hrows : rows ∈ Regexp.lib.tables.crIdx := List.mem_of_getElem? h4
  rcases version_numeric hrows h5.mem.1 hv with hn | ⟨re, p, g1, g2, g3⟩
  · exact numeric_wf hn.weaken
  cases hv with
  | const _ _ h => exact textOK_sound (client_row_wf hc).2 h
  | group _ _ h2 hr h =>
    have hg := List.all_eq_true.mp (version_groups rows hrows) v h5.mem.1
    simp only [hm, decide_false, Bool.false_or, Bool.or_eq_true, beq_iff_eq, h2, false_or, decide_eq_true_eq] at hg
    rw [hr] at g2
    cases g2
    have hr : (crRe.map fun p => Regexp.compile (buf p))[v.matchRI.toNat]? = some _ := hr
    rw [List.getElem?_map] at hr
    obtain ⟨c, -, rfl⟩ := Option.map_eq_some_iff.mp hr
    have g3 : buf c = atWord p := g3
    rw [g3] at h
    obtain ⟨rx, k1, k2⟩ := odd_parse p g1
    exact captured_solid (atWord_parse k1) (capsSolid_word k2) hg h
  | absent | noGroup | literal => exact .nil

theorem osOdd_parse : ∀ k ∈ orOdd, ∀ c, orRe[k]? = some c → ∃ rx, parse (buf c) = some rx ∧ capsSolid rx = true := by
  have : (orOdd.all fun k => match orRe[k]? with
    | some c => match parse (buf c) with
      | some rx => capsSolid rx
      | none => false
    | none => false) = true := by decide +kernel
  intro k hk c hc
  have := List.all_eq_true.mp this k hk
  rw [hc] at this
  cases h : parse (buf c) with
  | none => simp only [h] at this; cases this
  | some rx => simp only [h] at this; exact ⟨rx, rfl, this⟩

theorem osOdd_group : (orOs.all fun x => !orOdd.contains x.matchRI.toNat || decide (1 ≤ x.versionSI.toInt.toNat)) = true := by decide +kernel

theorem os_version_any {H : Bytes → UInt64} {q : Req} (hl : q.ua.length < 2 ^ 32) {s : Bytes}
    (h : uncached Regexp.lib.tables H .osVersionString q = some (.text s)) : WellFormed s := by
  obtain ⟨s', ha, -, hs⟩ := C31_shape (H := H) (shipped_wfdev Regexp.lib q.ua) hl
  rw [h] at ha
  cases ha
  rcases hs with ⟨-, rfl⟩ | ⟨x, raw, hc, hv, hlen, hmap⟩
  · exact .nil
  rw [replaced hlen hmap]
  refine WellFormed.replace ?_ 95 46 (by decide) (by decide)
  have hx : x ∈ orOs := hc.mem.1
  have own : ∀ {raw}, OSOwnVersion Regexp.lib.tables q.ua x raw → WellFormed raw := by
    intro raw h
    rcases osOwn_numeric hx h with hn | ho
    · exact numeric_wf hn
    cases h with
    | group h0 h1 hr h =>
      have hr : (orRe.map fun p => Regexp.compile (buf p))[x.matchRI.toNat]? = some _ := hr
      rw [List.getElem?_map] at hr
      obtain ⟨c, hc', rfl⟩ := Option.map_eq_some_iff.mp hr
      obtain ⟨rx, k1, k2⟩ := osOdd_parse _ ho c hc'
      have hg := List.all_eq_true.mp osOdd_group x hx
      simp only [List.contains_eq_mem, ho, decide_true, Bool.not_true, Bool.false_or, decide_eq_true_eq] at hg
      exact captured_solid k1 k2 hg h
    | none => exact .nil
  cases hv with
  | const _ h =>
    have := List.all_eq_true.mp orTexts_ok x hx
    rw [Bool.and_eq_true] at this
    exact textOK_sound this.2 h
  | @rowGroup rows w re _ h0 h1 h2 hr hf h3 h4 hre h =>
    have := List.all_eq_true.mp orOv_group w (row_mem hr w hf.mem.1)
    simp only [Bool.and_eq_true, Bool.not_eq_true', List.contains_eq_mem, decide_eq_false_iff_not] at this
    rcases osGroup_numeric h3 h4 this.1 hre h with h | h
    · exact numeric_wf h
    · exact absurd h this.2
  | rowNoGroup _ _ _ _ _ _ _ _ _ h => exact own h
  | rowConst _ _ _ hr hf _ h => exact textOK_sound (List.all_eq_true.mp ovTexts_ok _ (row_mem hr _ hf.mem.1)) h
  | noRow _ _ _ _ _ h => exact own h
  | own _ _ h => exact own h

theorem written_wf {w : List Nat} {s : Bytes} (hw : ∀ c ∈ w, c < 128) (h : Written w s) : WellFormed s := by
  induction h with
  | nil => exact .nil
  | @cons c r l t h1 _ ih =>
    refine WellFormed.append ⟨[r], ?_, by simp⟩ (ih fun c hc => hw c (by simp [hc]))
    intro x hx
    rw [List.mem_singleton.mp hx]
    rcases folds_ascii h1 (hw c (by simp)) with h | rfl | rfl
    · exact .inl (by omega)
    · exact .inl (by decide)
    · exact .inl (by decide)

theorem os_any {H : Bytes → UInt64} {q : Req} (hl : q.ua.length < 2 ^ 32) {s : Bytes} (h : uncached Regexp.lib.tables H .os q = some (.text s)) : WellFormed s := by
  rcases C84_os hl h with ⟨-, rfl⟩ | ⟨-, hs | ⟨-, n, hn, hw⟩⟩
  · exact unk_wf
  · exact wfB_sound (fuel := 24) ((by decide +kernel : ∀ n ∈ osNames, wfB 24 n = true) s hs)
  · exact written_wf ((by decide +kernel : ∀ n ∈ distroNames, ∀ c ∈ n.map UInt8.toNat, c < 128) n hn) hw

theorem engine_any {H : Bytes → UInt64} {q : Req} (hl : q.ua.length < 2 ^ 32) {s : Bytes} (h : uncached Regexp.lib.tables H .engine q = some (.text s)) :
    WellFormed s := by
  rcases C84_engine hl h with rfl | h
  · exact .nil
  · exact .ascii ((by decide +kernel : ∀ n ∈ renderEngines, ∀ c ∈ n, c.toNat < 0x80) s h)

/-- C89, any user agent: with the shipped tables every text answered is well-formed, whatever bytes the user agent consists of, except the engine
version, the model and the user agent itself. -/
theorem C89_any {H : Bytes → UInt64} {g : Getter} (hg : g ≠ .userAgent ∧ g ≠ .engineVersionString ∧ g ≠ .model) {q : Req} (hl : q.ua.length < 2 ^ 32) {s : Bytes}
    (h : uncached Regexp.lib.tables H g q = some (.text s)) : WellFormed s := by
  cases g with
  | userAgent => exact absurd rfl hg.1
  | engineVersionString => exact absurd rfl hg.2.1
  | model => exact absurd rfl hg.2.2
  | browser => exact browser_wf h
  | browserVersionString => exact browser_version_any hl h
  | engine => exact engine_any hl h
  | os => exact os_any hl h
  | osVersionString => exact os_version_any hl h
  | brand => exact brand_wf h
  | clientType | deviceType | browserVersion | engineVersion | osVersion => exact absurd h (not_text (by decide))

/-- C89: with the shipped tables every text a getter answers is well-formed UTF-8 if the user agent is. The header need not be. -/
theorem C89_utf8 {H : Bytes → UInt64} {g : Getter} {q : Req} (hl : q.ua.length < 2 ^ 26) (hu : WellFormed q.ua) {s : Bytes}
    (h : uncached Regexp.lib.tables H g q = some (.text s)) : WellFormed s := by
  have hl' : q.ua.length < 2 ^ 32 := by omega
  by_cases h1 : g = .userAgent
  · subst h1
    rw [uncached_eq _ (by decide)] at h
    cases h
    exact hu
  by_cases h2 : g = .engineVersionString
  · subst h2
    exact engine_version_wf hl' hu h
  by_cases h3 : g = .model
  · subst h3
    exact model_wf hl hu h
  exact C89_any ⟨h1, h2, h3⟩ hl' h

/-- C89 under concurrency: in every schedule over any honest cache the texts answered about well-formed user agents are well-formed. (GetModel on a
context served by the cache is another matter, see C20.) -/
theorem C89_shared {H : Bytes → UInt64} {s : Sys} (hr : Sys.Reach Regexp.lib.tables H s) {pre post : List Event} {t : Nat} {g : Getter} {r : Option (Option Ans)}
    (hlog : s.log = pre ++ .ret t (.get g) r :: post) (hg : g ≠ .model ∧ g ≠ .browserVersion ∧ g ≠ .engineVersion ∧ g ≠ .osVersion) (hl : (reqOf pre t).ua.length < 2 ^ 26) (hu : WellFormed (reqOf pre t).ua)
    (hok : ∀ q', Used pre q' → q'.ua = (reqOf pre t).ua → uncached Regexp.lib.tables H g ((reqOf pre t).withFiltersOf q') ≠ none) {x : Bytes}
    (hx : r = some (some (.text x))) : WellFormed x := by
  obtain ⟨q', a, h1, h2, h3, rfl⟩ := C19_some_filter hr hlog hg hok
  cases hx
  exact C89_utf8 (q := (reqOf pre t).withFiltersOf q') hl hu h3

/-- C89 for any user agent. -/
def C89Claim : Prop := ∀ (H : Bytes → UInt64) (g : Getter) (q : Req) (s : Bytes), q.ua.length < 2 ^ 26 → uncached Regexp.lib.tables H g q = some (.text s) → WellFormed s

theorem not_wf_ff : ¬ WellFormed [0xFF] := by
  rintro ⟨rs, hs, e⟩
  rcases rs with _ | ⟨r, rs⟩
  · cases e
  · have hd := decode_utf8 (hs r (by simp)) (rs.flatMap utf8)
    rw [← List.flatMap_cons, ← e] at hd
    have h1 : r = 0xFFFD := (congrArg Prod.fst hd).symm
    have h2 : (utf8 r).length = 1 := (congrArg Prod.snd hd).symm
    rw [h1, utf8_fffd] at h2
    omega

/-- C89 for any user agent is refuted: bytes that are no UTF-8 get into the version of the engine. -/
theorem C89_refuted : ¬ C89Claim := by
  intro h
  have h : WellFormed ([] ++ 49 :: ([0xFF] ++ 50 :: [])) :=
    h (fun _ => 0) .engineVersionString { ua := ascii "AltiBrowser/1 WebKit/1" ++ 0xFF :: ascii "2", mc := ClientTypeBrowser } _ (by decide) (by decide +kernel)
  exact not_wf_ff ((h.split (by decide)).2.split (by decide)).1

/-- A version that is not ASCII, from a well-formed user agent. -/
example : uncached Regexp.lib.tables (fun _ => 0) .engineVersionString { ua := ascii "AltiBrowser/1 WebKit/1" ++ 0xC3 :: 0xA9 :: ascii "2", mc := ClientTypeBrowser } =
    some (.text (49 :: 0xC3 :: 0xA9 :: [50])) ∧ WellFormed (ascii "AltiBrowser/1 WebKit/1" ++ 0xC3 :: 0xA9 :: ascii "2") :=
  ⟨by decide +kernel, wfB_sound (fuel := 40) (by decide +kernel)⟩

/-- An answer of `C89_any` about bytes that are no UTF-8. -/
example : uncached Regexp.lib.tables (fun _ => 0) .browserVersionString { ua := 0xFF :: ascii "curl/7.1.", mc := ClientTypeLibrary } = some (.text (ascii "7.1")) := by
  decide +kernel

end Verif
