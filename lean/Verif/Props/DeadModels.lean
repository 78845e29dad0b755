import Verif.Props.Consistent
/-
C88: model rules of the shipped tables that cannot take effect, as an earlier rule of the same brand matches whenever they do.
-/
namespace Verif

open Data

/-- Numbers of model rules: whenever the second matches, so does the first. -/
def shadows : List (Nat × Nat) := [(1973, 1976), (4258, 4295), (4746, 4777), (8949, 8950), (13527, 13530)]

/-- Both rules look for a text, and that of the first is contained in that of the second. -/
def shadowB (p : Nat × Nat) : Bool :=
  match drDm[p.1]?, drDm[p.2]? with
  | some v, some w => decide (v.matchRI < 0) && decide (w.matchRI < 0) && !(textN drBuf v.match64).isEmpty &&
      (List.range 10).any fun k => (textN drBuf v.match64).isPrefixOf ((textN drBuf w.match64).drop k)
  | _, _ => false

theorem shadows_ok : shadows.all shadowB = true := by decide +kernel

/-- The lists of models of the brands. -/
theorem drLists : ∀ rows ∈ [drIdx0, drIdx1, drIdx2, drIdx3, drIdx4, drIdx5, drIdx6, drIdx7],
    (rows.all fun v => shadows.all fun p => !(Nat.ble (v.models64.toNat / 4294967296) p.2 && Nat.blt p.2 (v.models64.toNat % 4294967296)) ||
      (Nat.ble (v.models64.toNat / 4294967296) p.1 && Nat.blt p.1 p.2)) = true := by decide +kernel

theorem prefix_of_map {α β : Type} {f : α → β} (hf : ∀ a b, f a = f b → a = b) : ∀ {s t : List α}, s.map f <+: t.map f → s <+: t
  | [], _, _ => List.nil_prefix
  | a :: s, [], h => by simp at h
  | a :: s, b :: t, h => by
    rw [List.map_cons, List.map_cons, List.cons_prefix_cons] at h
    rw [List.cons_prefix_cons]
    exact ⟨hf _ _ h.1, prefix_of_map hf h.2⟩

theorem shadow_match {p : Nat × Nat} (hp : shadowB p = true) {w : ModelTuple} (hw : drDm[p.2]? = some w) {u : Bytes} (h : ModelMatch Regexp.lib.tables u w) :
    ∃ v, drDm[p.1]? = some v ∧ ModelMatch Regexp.lib.tables u v := by
  unfold shadowB at hp
  rw [hw] at hp
  cases hv : drDm[p.1]? with
  | none => rw [hv] at hp; cases hp
  | some v =>
    rw [hv] at hp
    simp only [Bool.and_eq_true, decide_eq_true_eq, List.any_eq_true, Bool.not_eq_true', List.isEmpty_eq_false_iff] at hp
    obtain ⟨⟨⟨h1, h2⟩, h3⟩, k, -, h4⟩ := hp
    refine ⟨v, rfl, .inr ⟨h1, ?_⟩⟩
    obtain ⟨t, ht⟩ := (model_rows Regexp.lib v (List.mem_of_getElem? hv)).lit h1
    obtain ⟨h0, -⟩ | ⟨-, lit, g1, g2, g3⟩ := h
    · omega
    rw [textN_eq (cs := drBuf) ht] at h3 h4
    rw [textN_eq (cs := drBuf) g2, ← List.map_drop] at h4
    have h5 : t <+: lit.drop k := prefix_of_map (fun _ _ => UInt8.toNat_inj.mp) (List.isPrefixOf_iff_prefix.mp h4)
    exact ⟨t, by simpa using h3, ht, (h5.isInfix.trans (List.drop_suffix k lit).isInfix).trans g3⟩

/-- C88, five model rules are never used: in the list of any brand, whatever the user agent, if such a rule matches then so does an earlier one. -/
theorem C88_dead {p : Nat × Nat} (hp : p ∈ shadows) {rows : List DeviceTuple} (hr : rows ∈ Regexp.lib.tables.drIdx) {x : DeviceTuple} (hx : x ∈ rows)
    {k : Nat} (hk : x.models64.toNat / 2 ^ 32 + k = p.2) {u : Bytes} {w : ModelTuple} (hw : (range64 Regexp.lib.tables.drDm x.models64)[k]? = some w)
    (hm : ModelMatch Regexp.lib.tables u w) :
    ∃ k' v, k' < k ∧ (range64 Regexp.lib.tables.drDm x.models64)[k']? = some v ∧ ModelMatch Regexp.lib.tables u v := by
  have h1 := List.all_eq_true.mp (List.all_eq_true.mp (drLists rows hr) x hx) p hp
  have get : ∀ j, j < x.models64.toNat % 2 ^ 32 - x.models64.toNat / 2 ^ 32 →
      (range64 Regexp.lib.tables.drDm x.models64)[j]? = drDm[x.models64.toNat / 2 ^ 32 + j]? := by
    intro j hj
    unfold range64
    rw [List.getElem?_take_of_lt hj, List.getElem?_drop]
    rfl
  have hlt : k < x.models64.toNat % 2 ^ 32 - x.models64.toNat / 2 ^ 32 := by
    obtain ⟨h, -⟩ := List.getElem?_eq_some_iff.mp hw
    unfold range64 at h
    rw [List.length_take] at h
    omega
  rw [get k hlt, hk] at hw
  obtain ⟨v, h2, h3⟩ := shadow_match (List.all_eq_true.mp shadows_ok p hp) hw hm
  have h4 : Nat.ble (x.models64.toNat / 4294967296) p.2 = true := by
    rw [Nat.ble_eq]
    omega
  have h5 : Nat.blt p.2 (x.models64.toNat % 4294967296) = true := by
    rw [Nat.blt_eq]
    omega
  rw [h4, h5] at h1
  simp only [Bool.and_self, Bool.not_true, Bool.false_or, Bool.and_eq_true, Nat.ble_eq, Nat.blt_eq] at h1
  refine ⟨p.1 - x.models64.toNat / 2 ^ 32, v, by omega, ?_, h3⟩
  rw [get _ (by omega), show x.models64.toNat / 2 ^ 32 + (p.1 - x.models64.toNat / 2 ^ 32) = p.1 by omega]
  exact h2

/-- The only rule of the brand Ceibal. -/
theorem drCeibal : ∀ rows ∈ [drIdx0, drIdx1, drIdx2, drIdx3, drIdx4, drIdx5, drIdx6, drIdx7],
    (rows.all fun v => !(textN drBuf v.brand64 == [67, 101, 105, 98, 97, 108]) || (decide (v.modelSI = -1) && v.models64 == 8473970476988)) = true := by
  decide +kernel

theorem ceibal_first : ∃ v l, range64 drDm (8473970476988 : Entry64) = v :: l ∧ v.matchRI < 0 ∧ textN drBuf v.match64 = (ascii "ACRUX").map UInt8.toNat ∧
    textN drBuf v.model64 = ([195, 129, 99, 114, 117, 120] : Bytes).map UInt8.toNat := by
  have h : (match range64 drDm (8473970476988 : Entry64) with
      | v :: _ => decide (v.matchRI < 0) && (textN drBuf v.match64 == (ascii "ACRUX").map UInt8.toNat) &&
          (textN drBuf v.model64 == ([195, 129, 99, 114, 117, 120] : Bytes).map UInt8.toNat)
      | [] => false) = true := by decide +kernel
  split at h
  · rename_i v l e
    simp only [Bool.and_eq_true, decide_eq_true_eq, beq_iff_eq] at h
    exact ⟨v, l, e, h.1.1, h.1.2, h.2⟩
  · cases h

/-- C88, a wrong model: for a user agent of the brand Ceibal in which "GACRUX", or any text with "ACRUX" in it, occurs, GetModel answers "Ácrux" (in UTF-8). Whatever
the filters. -/
theorem C88_acrux {H : Bytes → UInt64} {q : Req} (hl : q.ua.length < 2 ^ 26) (hb : uncached Regexp.lib.tables H .brand q = some (.text (ascii "Ceibal")))
    (hu : ascii "ACRUX" <:+: q.ua) : uncached Regexp.lib.tables H .model q = some (.text [195, 129, 99, 114, 117, 120]) := by
  obtain ⟨mo, s, h1, h2, h3⟩ := C32_model (H := H) (q := q) (shipped_wfdev Regexp.lib _) (by omega) (shipped_bound _ hl)
  obtain ⟨n, e, hb⟩ := C41_brand hb
  cases e
  have hunk : (ascii "Ceibal") ≠ ascii "UNK" := by decide +kernel
  obtain ⟨v0, l, e0, g1, g2, g3⟩ := ceibal_first
  have hmem : v0 ∈ Regexp.lib.tables.drDm := by
    have : v0 ∈ range64 drDm (8473970476988 : Entry64) := by rw [e0]; exact List.mem_cons_self
    exact List.mem_of_mem_drop (List.mem_of_mem_take this)
  have hwf := model_rows Regexp.lib v0 hmem
  have text : ∀ {e : Entry64} {t : Bytes}, InBuf (buf drBuf) e → textN drBuf e = t.map UInt8.toNat → Text (buf drBuf) e t := by
    rintro e t ⟨t', ht⟩ h
    rw [textN_eq ht] at h
    rw [← map_toNat_inj h]
    exact ht
  have hlit := text (hwf.lit g1) g2
  have hmod := text hwf.model g3
  have hmatch : ModelMatch Regexp.lib.tables q.ua v0 := .inr ⟨g1, _, by decide +kernel, hlit, hu⟩
  have main : ∀ d v, DeviceChosen Regexp.lib.tables q.md q.ua d v → BrandAt Regexp.lib.tables.drBuf v.brand64 (ascii "Ceibal") →
      uncached Regexp.lib.tables H .model q = some (.text [195, 129, 99, 114, 117, 120]) := by
    intro d v hc hb
    have hrow : v.modelSI = -1 ∧ v.models64 = 8473970476988 := by
      obtain ⟨a, z, b, i, rows, -, -, -, h4, h5⟩ := id hc
      have hp := List.all_eq_true.mp (drNames_ok rows (List.mem_of_getElem? h4)) v h5.mem.1
      have hq := List.all_eq_true.mp (drCeibal rows (List.mem_of_getElem? h4)) v h5.mem.1
      unfold drNameB at hp
      simp only [Bool.and_eq_true, bne_iff_ne, ne_eq] at hp
      rcases hb with ⟨-, hb⟩ | ⟨-, raw, hb, ht⟩
      · exact absurd hb hunk
      · have := (proper_text (cs := drBuf) hp.2 hb).trimmed ht
        rw [← this] at hb
        rw [textN_eq (cs := drBuf) hb] at hq
        have e : ((ascii "Ceibal").map UInt8.toNat == [67, 101, 105, 98, 97, 108]) = true := by decide +kernel
        rw [e] at hq
        simpa using hq
    have hfirst : First (ModelMatch Regexp.lib.tables q.ua) (range64 Regexp.lib.tables.drDm v.models64) v0 := by
      rw [hrow.2]
      exact ⟨[], l, e0, hmatch, by simp⟩
    rcases h1 with ⟨d', v', typ, hc', hres⟩ | ⟨hd, -⟩
    · obtain ⟨rfl, rfl⟩ := hc.unique hc'
      cases hres with
      | single h => exact absurd hrow.1 h
      | noModel h h0 hm => exact absurd hfirst.mem.2 (hm _ hfirst.mem.1)
      | plain h h0 => rw [hrow.2] at h0; exact absurd h0 (by decide)
      | model h h0 hm hr ht hy =>
        have := hm.unique hfirst
        subst this
        have := hr.unique hmod
        subst this
        rcases ht with ⟨h0, -⟩ | ⟨-, rfl⟩
        · omega
        · rw [h3]
          have hp : Proper ([195, 129, 99, 114, 117, 120] : Bytes) := proper_of (by decide)
          rw [hp.trimmed h2]
    · exact absurd hd hc.not_none
  rcases hb with ⟨d, v, hc, hb⟩ | ⟨-, -, hb⟩ | ⟨-, -, -, ⟨v, hv, hb⟩ | ⟨-, hb⟩⟩
  · exact main d v hc hb
  · exact absurd hb hunk
  · exfalso
    have hall : (vrIdx.all fun v => !(textN vrBuf v.brand64 == [67, 101, 105, 98, 97, 108]) && properN (textN vrBuf v.brand64)) = true := by decide +kernel
    obtain ⟨a, z, e, -, -⟩ := hv
    have hm : v ∈ vrIdx := by
      have : v ∈ Regexp.lib.tables.vrIdx := by rw [e]; simp
      exact this
    have hq := List.all_eq_true.mp hall v hm
    simp only [Bool.and_eq_true] at hq
    rcases hb with ⟨-, hb⟩ | ⟨-, raw, hb, ht⟩
    · exact hunk hb
    · have := (proper_text (cs := vrBuf) hq.2 hb).trimmed ht
      rw [← this] at hb
      rw [textN_eq (cs := vrBuf) hb] at hq
      exact absurd hq.1 (by decide +kernel)
  · exact absurd hb hunk

/-- The claim of C88: for every model rule of a brand which looks for a text, there is a user agent in which that text occurs and for which GetBrand and GetModel answer
the brand and the model of the rule. -/
def C88Claim (H : Bytes → UInt64) : Prop :=
  ∀ rows ∈ Regexp.lib.tables.drIdx, ∀ x ∈ rows, ∀ w ∈ range64 Regexp.lib.tables.drDm x.models64, w.matchRI < 0 → ∀ b lit m, Text Regexp.lib.tables.drBuf x.brand64 b →
    Text Regexp.lib.tables.drBuf w.match64 lit → Text Regexp.lib.tables.drBuf w.model64 m →
    ∃ q : Req, q.ua.length < 2 ^ 26 ∧ lit <:+: q.ua ∧ uncached Regexp.lib.tables H .brand q = some (.text b) ∧ uncached Regexp.lib.tables H .model q = some (.text m)

theorem ceibal_rule : ∃ x ∈ drIdx3, ∃ w ∈ range64 drDm x.models64, w.matchRI < 0 ∧ textN drBuf x.brand64 = (ascii "Ceibal").map UInt8.toNat ∧
    textN drBuf w.match64 = (ascii "GACRUX").map UInt8.toNat ∧ textN drBuf w.model64 = (ascii "Gacrux").map UInt8.toNat := by
  have h : (match drIdx3[268]? with
      | some x => (textN drBuf x.brand64 == (ascii "Ceibal").map UInt8.toNat) && (match (range64 drDm x.models64)[3]? with
        | some w => decide (w.matchRI < 0) && (textN drBuf w.match64 == (ascii "GACRUX").map UInt8.toNat) && (textN drBuf w.model64 == (ascii "Gacrux").map UInt8.toNat)
        | none => false)
      | none => false) = true := by decide +kernel
  split at h
  · rename_i x hx
    rw [Bool.and_eq_true] at h
    obtain ⟨h1, h2⟩ := h
    split at h2
    · rename_i w hw
      simp only [Bool.and_eq_true, decide_eq_true_eq, beq_iff_eq] at h2 h1
      exact ⟨x, List.mem_of_getElem? hx, w, List.mem_of_getElem? hw, h2.1.1, h1, h2.1.2, h2.2⟩
    · cases h2
  · cases h

/-- C88 is refuted: the model Gacrux of Ceibal is taken for an Ácrux. -/
theorem C88_refuted (H : Bytes → UInt64) : ¬ C88Claim H := by
  intro hc
  obtain ⟨x, hx, w, hw, h1, h2, h3, h4⟩ := ceibal_rule
  have text : ∀ {e : Entry64} {t : Bytes}, InBuf (buf drBuf) e → textN drBuf e = t.map UInt8.toNat → Text (buf drBuf) e t := by
    rintro e t ⟨t', ht⟩ h
    rw [textN_eq ht] at h
    rw [← map_toNat_inj h]
    exact ht
  have hrows : drIdx3 ∈ Regexp.lib.tables.drIdx := by simp [RegexpLib.tables, shipped]
  have hwf := model_rows Regexp.lib w (List.mem_of_mem_drop (List.mem_of_mem_take hw))
  have hdf := device_rows Regexp.lib drIdx3 hrows x hx
  obtain ⟨q, g1, g2, g3, g4⟩ := hc drIdx3 hrows x hx w hw h1 _ _ _ (text hdf.brand h2) (text (hwf.lit h1) h3) (text hwf.model h4)
  rw [C88_acrux g1 g3 (List.IsInfix.trans ⟨ascii "G", [], by decide +kernel⟩ g2)] at g4
  exact absurd g4 (by decide +kernel)

/-- The hypotheses of `C88_dead` are met by the same rule. -/
example : ∃ x ∈ drIdx3, ∃ w, x.models64.toNat / 2 ^ 32 + 3 = 1976 ∧ (range64 drDm x.models64)[3]? = some w := by
  have h : (match drIdx3[268]? with
      | some x => decide (x.models64.toNat / 4294967296 + 3 = 1976) && (range64 drDm x.models64)[3]?.isSome
      | none => false) = true := by decide +kernel
  split at h
  · rename_i x hx
    rw [Bool.and_eq_true] at h
    obtain ⟨w, hw⟩ := Option.isSome_iff_exists.mp h.2
    exact ⟨x, List.mem_of_getElem? hx, w, by simpa using h.1, hw⟩
  · cases h

end Verif
