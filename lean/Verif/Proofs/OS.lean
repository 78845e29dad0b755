import Verif.Proofs.Client
/-
OS detection described by `Spec/Rules`; no panic on well-formed tables.
-/
namespace Verif

variable {T : Tables} {u : Bytes} {E : Prop}

/-- Group `i`, `none` = absent (as the OS code tells it). -/
def groupO (re : Re) (u : Bytes) (i : Int8) : Option Entry64 :=
  if i ≠ -1 ∧ ((re.submatch u).length : Int) > i.toInt then
    match index? (re.submatch u) (i * 2).toInt, index? (re.submatch u) (i * 2 + 1).toInt with
    | some lo, some hi => if lo ≠ -1 ∧ hi ≠ -1 then some (Entry64.encode (u32 lo) (u32 hi)) else none
    | _, _ => none
  else none

theorem groupO_text {re : Re} {i : Int8} (hg : GroupIx re i) (hw : re.WF) (hm : re.isMatch u = true) (hl : u.length < 2 ^ 32) :
    (groupO re u i = none ∧ (i ≠ -1 → ¬ ∃ t, Captures re u i.toInt.toNat t)) ∨
    ∃ e t, i ≠ -1 ∧ groupO re u i = some e ∧ Captures re u i.toInt.toNat t ∧ Text u e t := by
  obtain rfl | ⟨h0, h1, h2⟩ := hg
  · left; simp [groupO]
  have hne : i ≠ -1 := by rintro rfl; revert h0; decide
  obtain ⟨e1, e2⟩ := int8_double h0 h2
  obtain ⟨m, hf, hlen, hs, hok⟩ := group_index hw hm (i := i.toInt.toNat) (by omega)
  unfold groupO
  rw [hs, if_pos ⟨hne, by omega⟩, e1, e2, index_eq _ (by omega), index_eq _ (by omega), show (i.toInt * 2).toNat = 2 * i.toInt.toNat by omega,
    show (i.toInt * 2 + 1).toNat = 2 * i.toInt.toNat + 1 by omega]
  obtain ⟨k1, k2⟩ | ⟨a, t, z, k0, k1, k2⟩ := groupOK_split hok
  · left
    rw [k1, k2]
    refine ⟨by simp, ?_⟩
    rintro - ⟨t, m', a, z, c1, -, c3, -⟩
    rw [hf] at c1; cases c1
    rw [k1] at c3
    simp at c3
  · right
    rw [k1, k2]
    dsimp only
    rw [if_pos (by omega)]
    exact ⟨_, t, hne, rfl, ⟨m, a, z, hf, k0, k1, k2⟩, text_encode k0 hl⟩

/-- OS results of a context. -/
def gO (c : Ctx) : GO := ⟨c.osName64, c.osVersion64, c.check flagOSBufSrc, c.check flagOSVerBufSrc⟩

theorem gO_ent (c : Ctx) : eO (ent c) = gO c := rfl

theorem gO_bufSrc (c : Ctx) : gO (c.setBit flagOSBufSrc) = { gO c with bufSrc := true } := by
  simp only [gO, GO.mk.injEq]
  refine ⟨rfl, rfl, ?_, ?_⟩ <;> rw [Ctx.check_setBit _ _ _ (by decide)] <;> simp [flagOSBufSrc, flagOSVerBufSrc]

theorem gO_verBufSrc (c : Ctx) : gO (c.setBit flagOSVerBufSrc) = { gO c with verBufSrc := true } := by
  simp only [gO, GO.mk.injEq]
  refine ⟨rfl, rfl, ?_, ?_⟩ <;> rw [Ctx.check_setBit _ _ _ (by decide)] <;> simp [flagOSBufSrc, flagOSVerBufSrc]

theorem groupO_some {re : Re} {i : Int8} {lo hi : Int} (hc : ((re.submatch u).length : Int) > i.toInt ∧ i ≠ -1)
    (h1 : index? (re.submatch u) (i * 2).toInt = some lo) (h2 : index? (re.submatch u) (i * 2 + 1).toInt = some hi) :
    groupO re u i = if lo ≠ -1 ∧ hi ≠ -1 then some (Entry64.encode (u32 lo) (u32 hi)) else none := by
  unfold groupO
  rw [if_pos hc.symm, h1, h2]

theorem groupO_none {re : Re} {i : Int8} (hc : ¬ (((re.submatch u).length : Int) > i.toInt ∧ i ≠ -1)) : groupO re u i = none := by
  unfold groupO
  rw [if_neg fun h => hc h.symm]

/-- Name part of a regexp match. -/
def osName (re : Re) (u : Bytes) (x : OSTuple) : Entry64 × Bool :=
  match groupO re u x.nameSI with
  | some e => (e, true)
  | none => (x.name64, false)

theorem out_osEvalMatch {re : Re} {x : OSTuple} {c : Ctx} (hu : c.src = u) (h0 : gO c = zeroO)
    (hE : E ∨ (re.WF ∧ re.isMatch u = true ∧ GroupIx re x.nameSI ∧ GroupIx re x.versionSI)) :
    P.Out E (osEvalMatch re x c) (fun _ c' => c'.src = u ∧
      gO c' = ⟨(osName re u x).1, (groupO re u x.versionSI).getD 0, (osName re u x).2, false⟩) := by
  subst hu
  unfold osEvalMatch
  rw [P.ctx_bind, P.modify_bind]
  have hg : ∀ e, gO { c with osName64 := e } = ⟨e, 0, false, false⟩ := fun e => by
    have : gO { c with osName64 := e } = { gO c with osName64 := e } := rfl
    rw [this, h0]; rfl
  unfold P.when
  by_cases hc : x.nameSI ≠ -1 ∨ x.versionSI ≠ -1
  · rw [if_pos hc]
    refine .bind (mid := fun _ c' => c'.src = c.src ∧ gO c' = ⟨(osName re c.src x).1, 0, (osName re c.src x).2, false⟩) ?_ ?_
    · unfold osName
      by_cases hn : ((re.submatch c.src).length : Int) > x.nameSI.toInt ∧ x.nameSI ≠ -1
      · rw [if_pos hn]
        have hE' := hE.imp id fun ⟨h1, h2, h3, _⟩ => h3.index hn.2 h1 h2
        refine .ofOption_bind (fun h => hE'.resolve_right (fun h' => h'.1 h)) fun lo hlo => ?_
        refine .ofOption_bind (fun h => hE'.resolve_right (fun h' => h'.2 h)) fun hi hhi => ?_
        rw [groupO_some hn hlo hhi]
        by_cases hne : lo ≠ -1 ∧ hi ≠ -1
        · rw [if_pos hne, if_pos hne]
          refine ⟨fun _ _ => ⟨rfl, ?_⟩, fun h => by cases h⟩
          show gO (Ctx.setBit _ _) = _
          rw [gO_bufSrc]
          have := hg (Entry64.encode (u32 lo) (u32 hi))
          show ({ gO { c with osName64 := (Entry64.encode (u32 lo) (u32 hi)) } with bufSrc := true } : GO) = _
          rw [this]
        · rw [if_neg hne, if_neg hne]
          exact .ret ⟨rfl, hg _⟩
      · rw [if_neg hn, groupO_none hn]
        exact .ret ⟨rfl, hg _⟩
    · rintro _ c' ⟨hs, hc'⟩
      by_cases hn : ((re.submatch c.src).length : Int) > x.versionSI.toInt ∧ x.versionSI ≠ -1
      · rw [if_pos hn]
        have hE' := hE.imp id fun ⟨h1, h2, _, h3⟩ => h3.index hn.2 h1 h2
        refine .ofOption_bind (fun h => hE'.resolve_right (fun h' => h'.1 h)) fun lo hlo => ?_
        refine .ofOption_bind (fun h => hE'.resolve_right (fun h' => h'.2 h)) fun hi hhi => ?_
        rw [groupO_some hn hlo hhi]
        by_cases hne : lo ≠ -1 ∧ hi ≠ -1
        · rw [if_pos hne, if_pos hne]
          refine ⟨fun _ _ => ⟨hs, ?_⟩, fun h => by cases h⟩
          have : gO { c' with osVersion64 := (Entry64.encode (u32 lo) (u32 hi)) } = { gO c' with osVersion64 := (Entry64.encode (u32 lo) (u32 hi)) } := rfl
          show gO { c' with osVersion64 := (Entry64.encode (u32 lo) (u32 hi)) } = _
          rw [this, hc']; rfl
        · rw [if_neg hne, if_neg hne]
          exact .ret ⟨hs, hc'⟩
      · rw [if_neg hn, groupO_none hn]
        exact .ret ⟨hs, hc'⟩
  · rw [if_neg hc]
    have hc : x.nameSI = -1 ∧ x.versionSI = -1 := by simpa using hc
    have h1 : osName re c.src x = (x.name64, false) := by unfold osName; rw [groupO_none (by simp [hc.1])]
    have h2 : groupO re c.src x.versionSI = none := groupO_none (by simp [hc.2])
    refine .ret ⟨rfl, ?_⟩
    rw [h1, h2]
    exact hg _

/-- Effect of a matching version row on the version part: new offsets and source flag. -/
def verRow (T : Tables) (u : Bytes) (w : OSVersionTuple) (old : Entry64 × Bool) : Entry64 × Bool :=
  if w.matchRI ≥ 0 then
    match index? T.orRe w.matchRI with
    | some re => if w.versionSI ≠ -1 then (match groupO re u w.versionSI with | some e => (e, old.2) | none => old) else (w.version64, true)
    | none => old
  else (w.version64, true)

theorem osVersionMatch_iff (v : OSVersionTuple) : rowB T.orRe T.orBuf u v.matchRI v.match64 = true ↔ OSVersionMatch T u v := rowB_iff _ _ _ _ _

theorem rowB_zero (res : List Re) (buf u : Bytes) {ri : Int} (h : ¬ ri ≥ 0) : rowB res buf u ri 0 = false := by
  unfold rowB
  rw [if_neg h]
  have : sliceE? buf 0 = some [] := sliceE_iff.mpr ⟨[], buf, by simp, by simp, by simp⟩
  rw [this]; simp

/-- Version part of OS results. -/
def GO.withVer (g : GO) (p : Entry64 × Bool) : GO := { g with osVersion64 := p.1, verBufSrc := p.2 }

theorem out_osVerLoop {c : Ctx} (hu : c.src = u) (rv : List OSVersionTuple)
    (hE : E ∨ ((∀ re ∈ T.orRe, re.WF) ∧ ∀ v ∈ rv, OSVersionRowWF T u v)) :
    P.Out E (osVerLoop T rv c) (fun _ c' => c'.src = u ∧ ∃ r, Found (OSVersionMatch T u) rv r ∧
      gO c' = (gO c).withVer (match r with | some w => verRow T u w (c.osVersion64, c.check flagOSVerBufSrc) | none => (c.osVersion64, c.check flagOSVerBufSrc))) := by
  induction rv with
  | nil => exact .ret ⟨hu, none, by simp [Found], rfl⟩
  | cons v rv ih =>
    have ih := ih (hE.imp id fun h => ⟨h.1, fun w hw => h.2 w (List.mem_cons_of_mem _ hw)⟩)
    have next : ¬ OSVersionMatch T u v → P.Out E (osVerLoop T rv c) (fun _ c' => c'.src = u ∧ ∃ r, Found (OSVersionMatch T u) (v :: rv) r ∧
      gO c' = (gO c).withVer (match r with | some w => verRow T u w (c.osVersion64, c.check flagOSVerBufSrc) | none => (c.osVersion64, c.check flagOSVerBufSrc))) :=
      fun hn => ih.mono fun _ c' ⟨h0, r, h1, h2⟩ => ⟨h0, r, h1.cons_neg hn, h2⟩
    have const : OSVersionMatch T u v → verRow T u v (c.osVersion64, c.check flagOSVerBufSrc) = (v.version64, true) →
        P.Out E ((do P.modify fun c => { c with osVersion64 := v.version64 }
                     P.modify fun c => c.setBit flagOSVerBufSrc : P Unit) c) (fun _ c' => c'.src = u ∧ ∃ r, Found (OSVersionMatch T u) (v :: rv) r ∧
      gO c' = (gO c).withVer (match r with | some w => verRow T u w (c.osVersion64, c.check flagOSVerBufSrc) | none => (c.osVersion64, c.check flagOSVerBufSrc))) := by
      intro hm hv
      refine ⟨fun _ _ => ⟨hu, some v, First.cons_pos hm, ?_⟩, fun h => by cases h⟩
      show gO (Ctx.setBit _ _) = _
      rw [gO_verBufSrc]
      dsimp only
      rw [hv]
      rfl
    have hb := osVersionMatch_iff (T := T) (u := u) v
    have hz : ¬ v.matchRI ≥ 0 → v.match64 = 0 → ¬ OSVersionMatch T u v := fun h1 h2 h3 => by
      rw [← hb, h2, rowB_zero _ _ _ h1] at h3; cases h3
    unfold rowB at hb
    rw [osVerLoop, P.ctx_bind, hu]
    by_cases hri : v.matchRI ≥ 0
    · rw [if_pos hri] at hb ⊢
      refine .ofOption_bind ?_ fun re hre => ?_
      · intro hn
        refine hE.resolve_right fun h => ?_
        obtain ⟨re, h1, -⟩ := (h.2 v (by simp)).re hri
        rw [index_eq _ hri, h1] at hn; cases hn
      · rw [hre] at hb
        dsimp only at hb
        by_cases hm : re.isMatch u = true
        · rw [if_pos hm]
          have hvr : ∀ old, verRow T u v old = if v.versionSI ≠ -1 then (match groupO re u v.versionSI with | some e => (e, old.2) | none => old) else (v.version64, true) := by
            intro old; unfold verRow; rw [if_pos hri, hre]
          have keep : groupO re u v.versionSI = none → v.versionSI ≠ -1 → P.Out E ((pure () : P Unit) c) (fun _ c' => c'.src = u ∧ ∃ r, Found (OSVersionMatch T u) (v :: rv) r ∧
              gO c' = (gO c).withVer (match r with | some w => verRow T u w (c.osVersion64, c.check flagOSVerBufSrc) | none => (c.osVersion64, c.check flagOSVerBufSrc))) := by
            intro hg hne
            refine .ret ⟨hu, some v, First.cons_pos (hb.mp hm), ?_⟩
            dsimp only
            rw [hvr, if_pos hne, hg]
            rfl
          by_cases hsi : v.versionSI ≠ -1
          · rw [if_pos hsi]
            by_cases hl : ((re.submatch u).length : Int) > v.versionSI.toInt
            · rw [if_pos hl]
              have hE' : E ∨ (index? (re.submatch u) (v.versionSI * 2).toInt ≠ none ∧ index? (re.submatch u) (v.versionSI * 2 + 1).toInt ≠ none) := by
                refine hE.imp id fun h => ?_
                obtain ⟨re', h1, h2⟩ := (h.2 v (by simp)).re hri
                have hre' := hre
                rw [index_eq _ hri, h1] at hre'; cases hre'
                exact (h2 hm).index hsi (h.1 _ (List.mem_of_getElem? h1)) hm
              refine .ofOption_bind (fun h => hE'.resolve_right (fun h' => h'.1 h)) fun lo hlo => ?_
              refine .ofOption_bind (fun h => hE'.resolve_right (fun h' => h'.2 h)) fun hi hhi => ?_
              have hg := groupO_some ⟨hl, hsi⟩ hlo hhi
              by_cases hne : lo ≠ -1 ∧ hi ≠ -1
              · rw [if_pos hne] at hg ⊢
                refine ⟨fun _ _ => ⟨hu, some v, First.cons_pos (hb.mp hm), ?_⟩, fun h => by cases h⟩
                dsimp only
                rw [hvr, if_pos hsi, hg]
                rfl
              · rw [if_neg hne] at hg ⊢
                exact keep hg hsi
            · rw [if_neg hl]
              exact keep (groupO_none fun h => hl h.1) hsi
          · rw [if_neg hsi]
            exact const (hb.mp hm) (by rw [hvr, if_neg hsi])
        · rw [if_neg hm]
          exact next fun h => hm (hb.mpr h)
    · rw [if_neg hri] at hb ⊢
      by_cases h64 : v.match64 ≠ 0
      · rw [if_pos h64]
        refine .ofOption_bind ?_ fun si hsi => ?_
        · intro hn
          refine hE.resolve_right fun h => ?_
          obtain ⟨t, ht⟩ := (h.2 v (by simp)).lit (by omega)
          rw [sliceE_iff.mpr ht] at hn; cases hn
        · rw [hsi] at hb
          dsimp only at hb
          rw [decide_eq_true_iff] at hb
          by_cases hm : si.length > 0 ∧ containsSub u si = true
          · rw [if_pos hm]
            exact const (hb.mp hm) (by unfold verRow; rw [if_neg hri])
          · rw [if_neg hm]
            exact next fun h => hm (hb.mpr h)
      · rw [if_neg h64]
        exact next (hz hri (by simpa using h64))


theorem sliceT_iff {α : Type} {l : List α} {e : Entry64} {r : List α} : sliceT? l e = some r ↔ Rows l e r := by
  unfold sliceT? Rows
  dsimp only
  rw [decode_fst, decode_snd]
  split
  · rename_i h
    simp only [Option.some.injEq]
    constructor
    · rintro rfl
      refine ⟨l.take (e.toNat / 2 ^ 32), l.drop (e.toNat % 2 ^ 32), ?_, ?_, ?_⟩
      · have h1 : l.drop (e.toNat % 2 ^ 32) = (l.drop (e.toNat / 2 ^ 32)).drop (e.toNat % 2 ^ 32 - e.toNat / 2 ^ 32) := by
          rw [List.drop_drop]; congr 1; omega
        rw [h1, List.append_assoc, List.take_append_drop, List.take_append_drop]
      · simp; omega
      · simp; omega
    · rintro ⟨a, z, rfl, h1, h2⟩
      rw [h1, h2]
      simp [List.append_assoc]
  · rename_i h
    simp only [reduceCtorEq, false_iff, not_exists, not_and]
    rintro a z rfl h1 h2
    exact h ⟨by omega, by simp; omega⟩

/-- Version part of the results of OS rule `x`: from the rule's own regexp `old`, refined by the version rows, overridden by a constant. -/
def OSVer (T : Tables) (u : Bytes) (x : OSTuple) (old : Entry64) (p : Entry64 × Bool) : Prop :=
  if x.version64 ≠ 0 then p = (x.version64, true)
  else if 0 ≤ x.matchRI ∧ x.versions64 ≠ 0 then
    ∃ rows r, Rows T.orOv x.versions64 rows ∧ Found (OSVersionMatch T u) rows r ∧
      p = match r with | some w => verRow T u w (old, false) | none => (old, false)
  else p = (old, false)

/-- Name part and own version of OS rule `x`. -/
def osOwn (T : Tables) (u : Bytes) (x : OSTuple) : (Entry64 × Bool) × Entry64 :=
  if x.matchRI ≥ 0 then
    match index? T.orRe x.matchRI with
    | some re => (osName re u x, (groupO re u x.versionSI).getD 0)
    | none => ((x.name64, false), 0)
  else ((x.name64, false), 0)

/-- OS results when rule `x` was selected. -/
structure OSOK (T : Tables) (u : Bytes) (x : OSTuple) (g : GO) : Prop where
  name : (g.osName64, g.bufSrc) = (osOwn T u x).1
  ver : OSVer T u x (osOwn T u x).2 (g.osVersion64, g.verBufSrc)

/-- As `OSVer`, before the constant. -/
def OSVer0 (T : Tables) (u : Bytes) (x : OSTuple) (old : Entry64) (p : Entry64 × Bool) : Prop :=
  if 0 ≤ x.matchRI ∧ x.versions64 ≠ 0 then
    ∃ rows r, Rows T.orOv x.versions64 rows ∧ Found (OSVersionMatch T u) rows r ∧
      p = match r with | some w => verRow T u w (old, false) | none => (old, false)
  else p = (old, false)

theorem osMatch_iff (v : OSTuple) : rowB T.orRe T.orBuf u v.matchRI v.match64 = true ↔ OSMatch T u v := rowB_iff _ _ _ _ _

theorem skip_iff (T : Tables) (u : Bytes) {v : OSTuple} {re : Re} (hri : v.matchRI ≥ 0) (hre : T.orRe[v.matchRI.toNat]? = some re) :
    OSSkipped T u v ↔ (osMaybeMacRE.contains re.src = true ∧ osMaybeMacBytes.any (containsSub u) = true) ∨
      (osMaybeNotANDRE.contains re.src = true ∧ osMaybeNotAND.any (containsSub u) = true) := by
  unfold OSSkipped osMaybeMacRE osMaybeMacBytes osMaybeNotANDRE osMaybeNotAND
  have e : ∀ (a b : Bytes), (a == b) = true ↔ a = b := fun a b => beq_iff_eq
  simp only [List.contains_cons, List.contains_nil, List.any_cons, List.any_nil, Bool.or_false, Bool.or_eq_true, containsSub_iff, e, hre,
    Option.some.injEq, exists_eq_left', hri, true_and]

theorem out_osEvalVer {c : Ctx} (hu : c.src = u) {x : OSTuple} (hE : E ∨ (WFdev T u ∧ OSRowWF T u x)) (hx : x.versions64 ≠ 0) :
    P.Out E (osEvalVer T x.versions64 c) (fun _ c' => c'.src = u ∧ ∃ rows r, Rows T.orOv x.versions64 rows ∧ Found (OSVersionMatch T u) rows r ∧
      gO c' = (gO c).withVer (match r with | some w => verRow T u w (c.osVersion64, c.check flagOSVerBufSrc) | none => (c.osVersion64, c.check flagOSVerBufSrc))) := by
  unfold osEvalVer
  have hE1 : E ∨ ∃ rows, sliceT? T.orOv x.versions64 = some rows ∧ rows ≠ [] := by
    refine hE.imp id fun ⟨_, h⟩ => ?_
    obtain ⟨h1, h2⟩ := h.vers hx
    unfold sliceT?
    dsimp only
    rw [decode_fst, decode_snd, if_pos ⟨by omega, h2⟩]
    refine ⟨_, rfl, ?_⟩
    intro h3
    have := congrArg List.length h3
    simp at this
    omega
  refine .ofOption_bind ?_ fun rows hrows => ?_
  · intro hn
    refine hE1.resolve_right fun ⟨rows, h1, _⟩ => ?_
    rw [h1] at hn; cases hn
  refine .ofOption_bind ?_ fun _ _ => ?_
  · intro hn
    refine hE1.resolve_right fun ⟨rows', h1, h2⟩ => ?_
    rw [h1] at hrows; cases hrows
    exact h2 (boundsHint_none hn)
  have hR := sliceT_iff.mp hrows
  refine (out_osVerLoop hu rows ?_).mono ?_
  · refine hE.imp id fun ⟨hw, _⟩ => ⟨hw.orRe, fun v hv => hw.orOv v ?_⟩
    obtain ⟨a, z, e, -⟩ := hR
    rw [e]; simp [hv]
  · rintro _ c' ⟨h0, r, h1, h2⟩
    exact ⟨h0, rows, r, hR, h1, h2⟩

/-- The rule can be chosen. -/
def OSCan (T : Tables) (u : Bytes) (w : OSTuple) : Prop := OSMatch T u w ∧ ¬ OSSkipped T u w

theorem out_osLoop {c : Ctx} (hu : c.src = u) (h0 : gO c = zeroO) (r : List OSTuple) (hE : E ∨ (WFdev T u ∧ ∀ v ∈ r, OSRowWF T u v)) :
    P.Out E (osLoop T (osMaybeMacBytes.any (containsSub u)) (osMaybeNotAND.any (containsSub u)) r c) (fun o c' => c'.src = u ∧ Found (OSCan T u) r o ∧
      match o with
      | some x => ((gO c').osName64, (gO c').bufSrc) = (osOwn T u x).1 ∧ OSVer0 T u x (osOwn T u x).2 ((gO c').osVersion64, (gO c').verBufSrc)
      | none => c' = c) := by
  have hzv : c.osVersion64 = 0 := congrArg GO.osVersion64 h0
  have hzb : c.check flagOSBufSrc = false := congrArg GO.bufSrc h0
  have hzf : c.check flagOSVerBufSrc = false := congrArg GO.verBufSrc h0
  induction r with
  | nil => exact .ret ⟨hu, by simp [Found], rfl⟩
  | cons v r ih =>
    have ih := ih (hE.imp id fun h => ⟨h.1, fun w hw => h.2 w (List.mem_cons_of_mem _ hw)⟩)
    have next : ¬ OSCan T u v → P.Out E (osLoop T (osMaybeMacBytes.any (containsSub u)) (osMaybeNotAND.any (containsSub u)) r c) (fun o c' => c'.src = u ∧ Found (OSCan T u) (v :: r) o ∧
      match o with
      | some x => ((gO c').osName64, (gO c').bufSrc) = (osOwn T u x).1 ∧ OSVer0 T u x (osOwn T u x).2 ((gO c').osVersion64, (gO c').verBufSrc)
      | none => c' = c) :=
      fun hn => ih.mono fun o c' ⟨h1, h2, h3⟩ => ⟨h1, h2.cons_neg hn, h3⟩
    have hb := osMatch_iff (T := T) (u := u) v
    have hz : ¬ v.matchRI ≥ 0 → v.match64 = 0 → ¬ OSMatch T u v := fun h1 h2 h3 => by
      rw [← hb, h2, rowB_zero _ _ _ h1] at h3; cases h3
    unfold rowB at hb
    rw [osLoop, P.ctx_bind, hu]
    by_cases hri : v.matchRI ≥ 0
    · rw [if_pos hri] at hb ⊢
      refine .ofOption_bind ?_ fun re hre => ?_
      · intro hn
        refine hE.resolve_right fun h => ?_
        obtain ⟨re, h1, -⟩ := (h.2 v (by simp)).re hri
        rw [index_eq _ hri, h1] at hn; cases hn
      · rw [hre] at hb
        dsimp only at hb
        have hre' := hre
        rw [index_eq _ hri] at hre'
        have hsk := skip_iff T u hri hre'
        by_cases hs1 : osMaybeMacRE.contains re.src = true ∧ osMaybeMacBytes.any (containsSub u) = true
        · rw [if_pos hs1]
          exact next fun h => h.2 (hsk.mpr (.inl hs1))
        rw [if_neg hs1]
        by_cases hs2 : osMaybeNotANDRE.contains re.src = true ∧ osMaybeNotAND.any (containsSub u) = true
        · rw [if_pos hs2]
          exact next fun h => h.2 (hsk.mpr (.inr hs2))
        rw [if_neg hs2]
        by_cases hm : re.isMatch u = true
        · rw [if_pos hm]
          have hcan : OSCan T u v := ⟨hb.mp hm, fun h => (hsk.mp h).elim hs1 hs2⟩
          have hown : osOwn T u v = (osName re u v, (groupO re u v.versionSI).getD 0) := by
            unfold osOwn; rw [if_pos hri, hre]
          refine .bind (out_osEvalMatch hu h0 ?_) ?_
          · refine hE.imp id fun h => ?_
            obtain ⟨re', h1, h2⟩ := (h.2 v (by simp)).re hri
            rw [h1] at hre'; cases hre'
            exact ⟨h.1.orRe _ (List.mem_of_getElem? h1), hm, h2 hm⟩
          · rintro _ c1 ⟨hs, hg⟩
            refine .bind (mid := fun _ c2 => c2.src = u ∧ ((gO c2).osName64, (gO c2).bufSrc) = osName re u v ∧
              OSVer0 T u v ((groupO re u v.versionSI).getD 0) ((gO c2).osVersion64, (gO c2).verBufSrc)) ?_ ?_
            · unfold P.when
              by_cases hv : v.versions64 ≠ 0
              · rw [if_pos hv]
                refine (out_osEvalVer (E := E) hs (hE.imp id fun h => ⟨h.1, h.2 v (by simp)⟩) hv).mono ?_
                rintro _ c2 ⟨hs2, rows, r, h1, h2, h3⟩
                have k1 : c1.osVersion64 = (groupO re u v.versionSI).getD 0 := congrArg GO.osVersion64 hg
                have k2 : c1.check flagOSVerBufSrc = false := congrArg GO.verBufSrc hg
                rw [k1, k2, hg] at h3
                refine ⟨hs2, by rw [h3]; rfl, ?_⟩
                rw [OSVer0, if_pos ⟨hri, hv⟩]
                exact ⟨rows, r, h1, h2, by rw [h3]; rfl⟩
              · rw [if_neg hv]
                refine .ret ⟨hs, by rw [hg], ?_⟩
                rw [OSVer0, if_neg (fun h => hv h.2), hg]
            · rintro _ c2 ⟨hs2, h1, h2⟩
              refine .ret ⟨hs2, First.cons_pos hcan, ?_⟩
              dsimp only
              rw [hown]
              exact ⟨h1, h2⟩
        · rw [if_neg hm]
          exact next fun h => hm (hb.mpr h.1)
    · rw [if_neg hri] at hb ⊢
      by_cases h64 : v.match64 ≠ 0
      · rw [if_pos h64]
        refine .ofOption_bind ?_ fun si hsi => ?_
        · intro hn
          refine hE.resolve_right fun h => ?_
          obtain ⟨t, ht⟩ := (h.2 v (by simp)).lit (by omega)
          rw [sliceE_iff.mpr ht] at hn; cases hn
        · rw [hsi] at hb
          dsimp only at hb
          rw [decide_eq_true_iff] at hb
          by_cases hm : si.length > 0 ∧ containsSub u si = true
          · rw [if_pos hm]
            have hcan : OSCan T u v := ⟨hb.mp hm, fun h => hri h.1⟩
            refine ⟨?_, fun h => by cases h⟩
            intro o ho
            cases ho
            refine ⟨hu, First.cons_pos hcan, ?_⟩
            have hown : osOwn T u v = ((v.name64, false), 0) := by unfold osOwn; rw [if_neg hri]
            dsimp only
            rw [hown]
            refine ⟨?_, ?_⟩
            · show (v.name64, c.check flagOSBufSrc) = _
              rw [hzb]
            · rw [OSVer0, if_neg (fun h => hri h.1)]
              show (c.osVersion64, c.check flagOSVerBufSrc) = _
              rw [hzv, hzf]
          · rw [if_neg hm]
            exact next fun h => hm (hb.mpr h.1)
      · rw [if_neg h64]
        exact next fun h => (hz hri (by simpa using h64)) h.1

theorem out_detectOS {c : Ctx} (hu : c.src = u) (h0 : gO c = zeroO) (hE : E ∨ WFdev T u) :
    P.Out E (detectOS T c) (fun _ c' => (OSNone T u ∧ gO c' = zeroO) ∨ ∃ x, OSChosen T u x ∧ OSOK T u x (gO c')) := by
  unfold detectOS
  refine .ofOption_bind ?_ fun _ _ => ?_
  · intro hn
    exact hE.resolve_right fun h => h.orOs.1 (boundsHint_none hn)
  rw [P.ctx_bind, hu]
  refine .bind (out_osLoop hu h0 T.orOs (hE.imp id fun h => ⟨h, h.orOs.2⟩)) ?_
  rintro o c1 ⟨hs, hf, ho⟩
  cases o with
  | none =>
    dsimp only at ho
    refine .ret (.inl ⟨?_, by rw [ho, h0]⟩)
    intro w hw hm
    exact Classical.byContradiction fun h => hf w hw ⟨hm, h⟩
  | some x =>
    obtain ⟨h1, h2⟩ := ho
    dsimp only
    refine .bind (mid := fun _ c2 => OSOK T u x (gO c2)) ?_ fun _ c2 h => .ret (.inr ⟨x, hf, h⟩)
    unfold P.when
    by_cases hv : x.version64 ≠ 0
    · rw [if_pos hv]
      refine ⟨fun _ _ => ?_, fun h => by cases h⟩
      show OSOK T u x (gO (Ctx.setBit _ _))
      rw [gO_verBufSrc]
      refine ⟨h1, ?_⟩
      rw [OSVer, if_pos hv]
      rfl
    · rw [if_neg hv]
      refine .ret ⟨h1, ?_⟩
      rw [OSVer, if_neg hv]
      exact h2

theorem gO_fresh (u : Bytes) : gO { src := u } = zeroO := by simp [gO, zeroO, Ctx.check]

/-- OS detection from scratch: nothing chosen, or the results of the chosen rule. -/
theorem osOut_char {g : GO} (h : osOut T u = some g) : (OSNone T u ∧ g = zeroO) ∨ ∃ x, OSChosen T u x ∧ OSOK T u x g := by
  have := (out_detectOS (T := T) (u := u) (E := True) (c := { src := u }) rfl (gO_fresh u) (.inl trivial)).1
  unfold osOut at h
  revert this h
  rcases detectOS T { src := u } with ⟨c, _ | a⟩
  · intro h; cases h
  · intro h this
    cases h
    exact this a rfl

/-- OS detection never panics on well-formed tables. -/
theorem osOut_total (hw : WFdev T u) : osOut T u ≠ none := by
  have := (out_detectOS (T := T) (u := u) (E := False) (c := { src := u }) rfl (gO_fresh u) (.inr hw)).2
  unfold osOut
  revert this
  rcases detectOS T { src := u } with ⟨c, _ | a⟩
  · intro h _; exact h rfl
  · intro _ h; cases h

/-! ### The offsets denote texts -/

theorem row_re {res : List Re} {buf : Bytes} {ri : Int} {lit64 : Entry64} {re : Re} (hm : RowMatch res buf u ri lit64) (hri : 0 ≤ ri)
    (hre : res[ri.toNat]? = some re) : re.isMatch u = true := by
  obtain ⟨-, re', h3, h4⟩ | ⟨h3, -⟩ := hm
  · rw [hre] at h3; cases h3; exact h4
  · omega

theorem osOwn_inBuf (hw : WFdev T u) (hl : u.length < 2 ^ 32) {x : OSTuple} (hx : OSRowWF T u x) (hm : OSMatch T u x) :
    InBuf (if (osOwn T u x).1.2 then u else T.orBuf) (osOwn T u x).1.1 ∧ InBuf u (osOwn T u x).2 := by
  unfold osOwn
  split
  · rename_i hri
    obtain ⟨re, h1, h2⟩ := hx.re hri
    have hmm := row_re hm hri h1
    obtain ⟨g1, g2⟩ := h2 hmm
    have hre := hw.orRe re (List.mem_of_getElem? h1)
    rw [index_eq _ hri, h1]
    dsimp only
    constructor
    · unfold osName
      obtain ⟨h, -⟩ | ⟨e, t, -, h, -, ht⟩ := groupO_text g1 hre hmm hl
      · simp only [h]; exact hx.name
      · simp only [h]; exact ⟨t, ht⟩
    · obtain ⟨h, -⟩ | ⟨e, t, -, h, -, ht⟩ := groupO_text g2 hre hmm hl
      · simp only [h]; exact inBuf_zero u
      · simp only [h]; exact ⟨t, ht⟩
  · exact ⟨hx.name, inBuf_zero u⟩

theorem verRow_inBuf (hw : WFdev T u) (hl : u.length < 2 ^ 32) {w : OSVersionTuple} (hx : OSVersionRowWF T u w) (hm : OSVersionMatch T u w)
    {old : Entry64} (ho : InBuf u old) :
    InBuf (if (verRow T u w (old, false)).2 then T.orBuf else u) (verRow T u w (old, false)).1 := by
  unfold verRow
  split
  · rename_i hri
    obtain ⟨re, h1, h2⟩ := hx.re hri
    have hmm := row_re hm hri h1
    have hre := hw.orRe re (List.mem_of_getElem? h1)
    rw [index_eq _ hri, h1]
    dsimp only
    split
    · obtain ⟨h, -⟩ | ⟨e, t, -, h, -, ht⟩ := groupO_text (h2 hmm) hre hmm hl
      · simp only [h]; exact ho
      · simp only [h]; exact ⟨t, ht⟩
    · exact hx.ver
  · exact hx.ver

theorem osVer_inBuf (hw : WFdev T u) (hl : u.length < 2 ^ 32) {x : OSTuple} (hx : OSRowWF T u x) {old : Entry64} (ho : InBuf u old)
    {p : Entry64 × Bool} (h : OSVer T u x old p) : InBuf (if p.2 then T.orBuf else u) p.1 := by
  unfold OSVer at h
  split at h
  · rw [h]; exact hx.ver
  · split at h
    · obtain ⟨rows, r, h1, h2, rfl⟩ := h
      cases r with
      | none => exact ho
      | some w =>
        have hmem : w ∈ T.orOv := by
          obtain ⟨a, z, e, -⟩ := h1
          rw [e]; simp [h2.mem.1]
        exact verRow_inBuf hw hl (hw.orOv w hmem) h2.mem.2 ho
    · rw [h]; exact ho

/-- The OS texts exist on well-formed tables. -/
theorem osTexts_total (hw : WFdev T u) (hl : u.length < 2 ^ 32) {g : GO} (h : osOut T u = some g) :
    osNameText T u g ≠ none ∧ osVerText T u g ≠ none := by
  have key : InBuf (if g.bufSrc then u else T.orBuf) g.osName64 ∧ InBuf (if g.verBufSrc then T.orBuf else u) g.osVersion64 := by
    obtain ⟨-, rfl⟩ | ⟨x, h1, h2⟩ := osOut_char h
    · exact ⟨inBuf_zero _, inBuf_zero _⟩
    · have hx := hw.orOs.2 x h1.mem.1
      obtain ⟨k1, k2⟩ := osOwn_inBuf hw hl hx h1.mem.2.1
      rw [← h2.name] at k1
      exact ⟨k1, osVer_inBuf hw hl hx k2 h2.ver⟩
  obtain ⟨⟨t1, k1⟩, ⟨t2, k2⟩⟩ := key
  rw [← sliceE_iff] at k1 k2
  constructor
  · unfold osNameText; split <;> simp [k1]
  · unfold osVerText; split <;> simp [k2]

end Verif
