import Verif.Props.Shipped
import Verif.Props.Client
import Verif.Props.Compiler
import Verif.Props.Case
/-
C40 for the shipped rules: the engine of Chrome.
-/
namespace Verif

open Data

/-- If the selected browser rule computes the engine from the major version `m`, that is the answer of GetEngine. -/
theorem engine_of_major {T : Tables} {H : Bytes → UInt64} {q : Req} (hw : WFbase T q.ua) (hl : q.ua.length < 2 ^ 32) {v : ClientTuple}
    (hgr : ClientGroupWF T v) (hc : ClientChosen T q.mc q.ua ClientTypeBrowser v) (hfi : v.engineFI ≠ -1) {raw m : Bytes}
    (hv : ClientVersion T q.ua v raw) (hm : MajorOf raw m) {f : Bytes → Entry64} (hf : T.crEf[v.engineFI.toNat]? = some f) (h0 : f m ≠ 0) :
    ∃ s, uncached T H .engine q = some (.text s) ∧ Text T.crBuf (f m) s := by
  have huniq : ∀ e, RuleEngine T q.ua v e → e = f m := by
    intro e he
    cases he with
    | const h => exact absurd h hfi
    | fn _ hv' hm' hf' =>
      rw [hf] at hf'; cases hf'
      have := hv.unique hv'; subst this
      rw [hm.unique hm']
  obtain ⟨s, hs, h⟩ := C55_engine (H := H) hw (fun t v' h => by obtain ⟨-, rfl⟩ := hc.unique h; exact hgr) hl
  refine ⟨s, hs, ?_⟩
  obtain ⟨v', e, h1, h2, h3⟩ | ⟨⟨t, v', h1, h2⟩, -⟩ | ⟨h1, -⟩ := h
  · obtain ⟨-, rfl⟩ := hc.unique h1
    have he : e = f m := by
      cases h2 with
      | own h => exact huniq _ h
      | first h => exact absurd (huniq _ h).symm h0
      | none h => exact absurd (huniq _ h).symm h0
    subst he
    obtain ⟨-, h3⟩ | ⟨h3, -⟩ := h3
    · exact h3
    · exact absurd h3 h0
  · exact absurd (hc.unique h1).1.symm h2
  · exact absurd h1 hc.not_none

/-- Row 494 of the browsers in client_repo.go: `Chrome(?:/(\d+[.\d]+))?`, Blink from version 28 on and WebKit before. -/
def chromeRule : ClientTuple := (crIdx1[494]?).getD {}

/-- Its engine function. -/
def chromeFn : Compiler.EngineFn := (crEf[chromeRule.engineFI.toNat]?).getD ⟨[], 0⟩

theorem chrome_row : crIdx1[494]? = some chromeRule := by
  have : 494 < crIdx1.length := by decide +kernel
  unfold chromeRule
  simp [this]

theorem chrome_fi : chromeRule.engineFI ≠ -1 := by decide +kernel
theorem chrome_ri : chromeRule.matchRI = 473 := by decide +kernel
theorem chrome_cases : chromeFn.cases = [(ascii "28", 103079215133)] ∧ chromeFn.default = 124554051619 := by decide +kernel
theorem chrome_texts : sliceE? (buf crBuf) 103079215133 = some (ascii "Blink") ∧ sliceE? (buf crBuf) 124554051619 = some (ascii "WebKit") := by decide +kernel
theorem chrome_pattern : crRe[473]?.map buf = some (ascii "(?i)(?:^|[^A-Z0-9\\-_]|[^A-Z0-9\\-]_|sprd-|MZ-)(?:Chrome(?:/(\\d+[.\\d]+))?)") := by decide +kernel

section
variable (L : RegexpLib) {H : Bytes → UInt64}

theorem chrome_fn : L.tables.crEf[chromeRule.engineFI.toNat]? = some chromeFn.run := by
  have h : chromeRule.engineFI.toNat < crEf.length := by decide +kernel
  simp only [shipped, List.getElem?_map]
  unfold chromeFn
  simp [h]

theorem chrome_groups : ClientGroupWF L.tables chromeRule := by
  refine (client_rows L crIdx1 (by simp [shipped]) chromeRule (List.mem_of_getElem? chrome_row)).2.resolve_right ?_
  rintro ⟨-, p, hp, hi⟩
  have := unsafe_bad hi hp
  rw [chrome_ri] at this
  revert this; decide

/-- C40 for Chrome as shipped, whatever the regexps match: if the Chrome rule is selected and the version it finds has major `m`, the engine
is Blink if `m` is at least "28" in the order of strings, else WebKit. -/
theorem C40_chrome {q : Req} (hl : q.ua.length < 2 ^ 32) (hc : ClientChosen L.tables q.mc q.ua ClientTypeBrowser chromeRule) {raw m : Bytes}
    (hv : ClientVersion L.tables q.ua chromeRule raw) (hm : MajorOf raw m) :
    uncached L.tables H .engine q = some (.text (if Compiler.strGe m (ascii "28") then ascii "Blink" else ascii "WebKit")) := by
  have hrun : chromeFn.run m = if Compiler.strGe m (ascii "28") then 103079215133 else 124554051619 := by
    unfold Compiler.EngineFn.run
    rw [chrome_cases.1, chrome_cases.2]
    cases h : Compiler.strGe m (ascii "28") <;> simp [List.find?, h]
  obtain ⟨s, h1, h2⟩ := engine_of_major (H := H) (shipped_wfbase L _) hl (chrome_groups L) hc chrome_fi hv hm (chrome_fn L)
    (by rw [hrun]; split <;> decide)
  rw [h1]
  have h2 : Text (buf crBuf) (chromeFn.run m) s := h2
  rw [hrun] at h2
  cases h : Compiler.strGe m (ascii "28") with
  | true =>
    rw [h, if_pos rfl] at h2
    rw [if_pos rfl, h2.unique (sliceE_iff.mp chrome_texts.1)]
  | false =>
    rw [h, if_neg (by decide)] at h2
    rw [if_neg (by decide), h2.unique (sliceE_iff.mp chrome_texts.2)]

theorem strGe_one (ds : Bytes) : Compiler.strGe (49 :: ds) (ascii "28") = false := by
  show Compiler.strGe (49 :: ds) [50, 56] = false
  simp only [Compiler.strGe]
  have h1 : decide ((50 : UInt8) < 49) = false := by decide
  have h2 : decide ((49 : UInt8) = 50) = false := by decide
  rw [h1, h2]; rfl

/-- C40 is refuted for the shipped tables and every regexp library: all Chrome versions whose major begins with 1, such as 100 to 199, are
reported with the engine of the versions before 28. -/
theorem C40_chrome_refuted {q : Req} (hl : q.ua.length < 2 ^ 32) (hc : ClientChosen L.tables q.mc q.ua ClientTypeBrowser chromeRule) {ds z : Bytes}
    (hd : 46 ∉ ds) (hv : ClientVersion L.tables q.ua chromeRule (49 :: ds ++ 46 :: z)) :
    uncached L.tables H .engine q = some (.text (ascii "WebKit")) := by
  have := C40_chrome L (H := H) hl hc hv (m := 49 :: ds) (.inl ⟨z, rfl, by simp only [List.mem_cons, not_or]; exact ⟨by decide, hd⟩⟩)
  rw [this, strGe_one, if_neg (by decide)]

end

/-! The hypotheses are met, with the modelled regexp library, by the following user agent. -/

/-- Evaluates `ClientMatch`. -/
def clientMatchB (u : Bytes) (v : ClientTuple) : Bool :=
  match v.matchRI with
  | .ofNat i => (match crRe[i]? with | some p => (Regexp.compile (buf p)).isMatch u | none => false)
  | .negSucc _ => (match sliceE? (buf crBuf) v.match64 with | some l => !l.isEmpty && containsSub u l | none => false)

theorem clientMatchB_iff (u : Bytes) (v : ClientTuple) : clientMatchB u v = true ↔ ClientMatch Regexp.lib.tables u v := by
  have hre : ∀ i, Regexp.lib.tables.crRe[i]? = crRe[i]?.map fun p => Regexp.compile (buf p) := fun i => List.getElem?_map ..
  unfold clientMatchB ClientMatch RowMatch
  match hr : v.matchRI with
  | .ofNat i =>
    simp only [Int.toNat_natCast, Int.ofNat_eq_natCast, hre]
    cases crRe[i]? with
    | none => simp; omega
    | some p =>
      constructor
      · intro h; exact .inl ⟨by omega, _, rfl, h⟩
      · rintro (⟨-, re, h1, h2⟩ | ⟨h, -⟩)
        · cases h1; exact h2
        · omega
  | .negSucc i =>
    constructor
    · intro h
      refine .inr ⟨Int.negSucc_lt_zero i, ?_⟩
      cases hs : sliceE? (buf crBuf) v.match64 with
      | none => rw [hs] at h; cases h
      | some l =>
        rw [hs] at h
        simp only [Bool.and_eq_true, Bool.not_eq_true', List.isEmpty_eq_false_iff] at h
        exact ⟨l, h.1, sliceE_iff.mp hs, (containsSub_iff _ _).mp h.2⟩
    · rintro (⟨h, -⟩ | ⟨-, l, h1, h2, h3⟩)
      · exact absurd h (by have := Int.negSucc_lt_zero i; omega)
      · have h2 : sliceE? (buf crBuf) v.match64 = some l := sliceE_iff.mpr h2
        simp only [h2]
        simp only [Bool.and_eq_true, Bool.not_eq_true', List.isEmpty_eq_false_iff]
        exact ⟨h1, (containsSub_iff _ _).mpr h3⟩

theorem first_of_findIdx {u : Bytes} {rows : List ClientTuple} {i : Nat} {v : ClientTuple} (h : rows.findIdx? (clientMatchB u) = some i)
    (hv : rows[i]? = some v) : First (ClientMatch Regexp.lib.tables u) rows v := by
  rw [List.findIdx?_eq_some_iff_getElem] at h
  obtain ⟨hi, h1, h2⟩ := h
  rw [List.getElem?_eq_getElem hi] at hv
  cases hv
  refine ⟨rows.take i, rows.drop (i + 1), ?_, (clientMatchB_iff _ _).mp h1, ?_⟩
  · simp
  · intro y hy hm
    obtain ⟨j, hj, rfl⟩ := List.mem_take_iff_getElem.mp hy
    exact h2 j (by omega) ((clientMatchB_iff _ _).mpr hm)

theorem chrome_first : crIdx1.findIdx? (clientMatchB (buf (pat! "Chrome/100.0"))) = some 494 := by decide +kernel

theorem chrome_find : (crRe[473]?.bind fun p => (Regexp.compile (buf p)).find (buf (pat! "Chrome/100.0"))) = some [0, 12, 7, 12] := by decide +kernel

/-- Chrome 100 is reported with the engine WebKit. -/
theorem chrome_100 : uncached Regexp.lib.tables fnv1 .engine { ua := buf (pat! "Chrome/100.0"), mc := ClientTypeBrowser } = some (.text (ascii "WebKit")) := by
  refine C40_chrome_refuted Regexp.lib (ds := ascii "00") (z := ascii "0") (by decide +kernel) ?_ (by decide) ?_
  · have hf : ∀ x ∈ clientOrder.take 5, ClientTypeBrowser &&& x.1 = 0 := by decide
    exact ⟨clientOrder.take 5, [], 1, crIdx1, rfl, by decide, fun x hx h => absurd (hf x hx) h, rfl, first_of_findIdx chrome_first chrome_row⟩
  · have h := chrome_find
    cases hp : crRe[473]? with
    | none => rw [hp] at h; cases h
    | some p =>
      rw [hp] at h
      refine .group (by decide +kernel) (by decide +kernel) (by decide +kernel) (re := Regexp.compile (buf p)) ?_ ?_
      · rw [chrome_ri]
        show (crRe.map fun p => Regexp.compile (buf p))[473]? = _
        rw [List.getElem?_map, hp]; rfl
      · exact ⟨_, ascii "Chrome/", [], h, by decide +kernel, by decide +kernel, by decide +kernel⟩

end Verif
