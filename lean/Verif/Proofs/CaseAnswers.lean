import Verif.Proofs.CaseFold
import Verif.Proofs.Unique
import Verif.Proofs.Shape
import Verif.Proofs.RuleUnique
import Verif.Proofs.NullModel
/-
What two spellings of a user agent have in common, rule by rule.
-/
namespace Verif

/-! ### Texts -/

/-- The byte is no letter. -/
def NoLetter (b : UInt8) : Prop := b.toNat < 65 ∨ (90 < b.toNat ∧ b.toNat < 97) ∨ 122 < b.toNat

theorem lower_toNat (b : UInt8) : (lowerByte b).toNat = if 65 ≤ b.toNat ∧ b.toNat ≤ 90 then b.toNat + 32 else b.toNat := by
  unfold lowerByte
  split
  · rw [UInt8.toNat_add]
    have : (32 : UInt8).toNat = 32 := rfl
    omega
  · rfl

theorem lower_fixed {a a' : UInt8} (h : lowerByte a = lowerByte a') (hn : NoLetter a) : a' = a := by
  have h := congrArg UInt8.toNat h
  rw [lower_toNat, lower_toNat] at h
  apply UInt8.toNat_inj.mp
  unfold NoLetter at hn
  split at h <;> split at h <;> omega

theorem CaseEq.eq_of {u u' : Bytes} (h : CaseEq u u') (hu : ∀ b ∈ u, NoLetter b) : u' = u := by
  induction u generalizing u' with
  | nil => exact h.nil_left
  | cons a l ih =>
    obtain ⟨a', l', rfl, h1, h2⟩ := h.cons_left
    rw [lower_fixed h1 (hu a (by simp)), ih h2 fun b hb => hu b (List.mem_cons_of_mem _ hb)]

theorem CaseEq.split {a b u' : Bytes} (h : CaseEq (a ++ b) u') : ∃ a' b', u' = a' ++ b' ∧ CaseEq a a' ∧ CaseEq b b' := by
  unfold CaseEq at h
  rw [List.map_append] at h
  obtain ⟨a', b', h1, h2, h3⟩ := List.map_eq_append_iff.mp h.symm
  exact ⟨a', b', h1, h2.symm, h3.symm⟩

theorem CaseEq.append {a b a' b' : Bytes} (h : CaseEq a a') (h' : CaseEq b b') : CaseEq (a ++ b) (a' ++ b') := by
  unfold CaseEq at *
  rw [List.map_append, List.map_append, h, h']

theorem CaseEq.mem {u u' : Bytes} (h : CaseEq u u') {b : UInt8} (hn : NoLetter b) (hb : b ∈ u) : b ∈ u' := by
  have : lowerByte b ∈ u.map lowerByte := List.mem_map_of_mem hb
  rw [h] at this
  obtain ⟨c, hc, e⟩ := List.mem_map.mp this
  rwa [lower_fixed e.symm hn] at hc

theorem CaseEq.head {u u' : Bytes} (h : CaseEq u u') {b : UInt8} (hn : NoLetter b) (hb : u'.head? = some b) : u.head? = some b := by
  cases u' with
  | nil => cases hb
  | cons c l =>
    cases hb
    obtain ⟨a, m, rfl, h1, -⟩ := h.symm.cons_left
    rw [lower_fixed h1 hn]; rfl

theorem CaseEq.last {u u' : Bytes} (h : CaseEq u u') {b : UInt8} (hn : NoLetter b) (hb : u'.getLast? = some b) : u.getLast? = some b := by
  have e := congrArg List.getLast? h
  rw [List.getLast?_map, List.getLast?_map, hb, Option.map_some] at e
  obtain ⟨a, h1, h2⟩ := Option.map_eq_some_iff.mp e
  rw [h1, lower_fixed h2.symm hn]

theorem CaseEq.nil_iff {u u' : Bytes} (h : CaseEq u u') : u = [] ↔ u' = [] := by
  rw [← List.length_eq_zero_iff, ← List.length_eq_zero_iff, h.length]

theorem noLetter_replicate {n : Nat} {b : UInt8} (hb : NoLetter b) : ∀ c ∈ List.replicate n b, NoLetter c := by
  intro c hc
  rwa [(List.mem_replicate.mp hc).2]

theorem CaseEq.trimmed {raw raw' s : Bytes} (h : CaseEq raw raw') (ht : Trimmed raw s) : ∃ s', Trimmed raw' s' ∧ CaseEq s s' := by
  obtain ⟨a, z, rfl, h1, h2⟩ := ht
  obtain ⟨x, z', rfl, h3, h4⟩ := h.split
  obtain ⟨a', s', rfl, h5, h6⟩ := h3.split
  have hn : NoLetter 32 := by unfold NoLetter; decide
  rw [h5.eq_of (noLetter_replicate hn), h4.eq_of (noLetter_replicate hn)]
  exact ⟨s', ⟨a, z, rfl, fun e => h1 (h6.head hn e), fun e => h2 (h6.last hn e)⟩, h6⟩

theorem CaseEq.cleaned {raw raw' s : Bytes} (h : CaseEq raw raw') (ht : Cleaned raw s) : ∃ s', Cleaned raw' s' ∧ CaseEq s s' := by
  have n46 : NoLetter 46 := by unfold NoLetter; decide
  have n47 : NoLetter 47 := by unfold NoLetter; decide
  have key : ∀ {r r' : Bytes} {n : Nat}, CaseEq r r' → r = s ++ List.replicate n 46 → s.getLast? ≠ some 46 →
      ∃ s', r' = s' ++ List.replicate n 46 ∧ s'.getLast? ≠ some 46 ∧ CaseEq s s' := by
    rintro r r' n hr rfl hs
    obtain ⟨s', z, rfl, h1, h2⟩ := hr.split
    rw [h2.eq_of (noLetter_replicate n46)]
    exact ⟨s', rfl, fun e => hs (h1.last n46 e), h1⟩
  obtain ⟨r, n, ⟨h1, rfl⟩ | ⟨p, h1, rfl⟩, h2, h3⟩ := ht
  · obtain ⟨s', h4, h5, h6⟩ := key h h2 h3
    exact ⟨s', ⟨raw', n, .inl ⟨fun hm => h1 (h.symm.mem n47 hm), rfl⟩, h4, h5⟩, h6⟩
  · obtain ⟨p', x, rfl, h4, h5⟩ := h.split
    obtain ⟨c, r', rfl, h6, h7⟩ := h5.cons_left
    rw [lower_fixed h6 n47]
    obtain ⟨s', h8, h9, h10⟩ := key h7 h2 h3
    exact ⟨s', ⟨r', n, .inr ⟨p', fun hm => h1 (h4.symm.mem n47 hm), rfl⟩, h8, h9⟩, h10⟩

theorem CaseEq.major {raw raw' m : Bytes} (h : CaseEq raw raw') (hm : MajorOf raw m) : ∃ m', MajorOf raw' m' ∧ CaseEq m m' := by
  have n46 : NoLetter 46 := by unfold NoLetter; decide
  obtain ⟨z, rfl, h1⟩ | ⟨h1, rfl⟩ := hm
  · obtain ⟨m', x, rfl, h4, h5⟩ := h.split
    obtain ⟨c, z', rfl, h6, -⟩ := h5.cons_left
    rw [lower_fixed h6 n46]
    exact ⟨m', .inl ⟨z', rfl, fun hm => h1 (h4.symm.mem n46 hm)⟩, h4⟩
  · exact ⟨[], .inr ⟨fun hm => h1 (h.symm.mem n46 hm), rfl⟩, rfl⟩

/-! ### Versions -/

theorem CaseEq.take {u u' : Bytes} (h : CaseEq u u') (n : Nat) : CaseEq (u.take n) (u'.take n) := by
  unfold CaseEq at *
  rw [List.map_take, List.map_take, h]

theorem findIdx_same {p : UInt8 → Bool} (hp : ∀ a a', lowerByte a = lowerByte a' → p a = p a') : ∀ {u u' : Bytes}, CaseEq u u' → u.findIdx? p = u'.findIdx? p
  | [], u', h => by rw [h.nil_left]
  | a :: l, u', h => by
    obtain ⟨a', l', rfl, h1, h2⟩ := h.cons_left
    rw [List.findIdx?_cons, List.findIdx?_cons, hp a a' h1, findIdx_same hp h2]

theorem isByte_same {c : UInt8} (hc : NoLetter c) {a a' : UInt8} (h : lowerByte a = lowerByte a') : (a == c) = (a' == c) := by
  rw [Bool.eq_iff_iff, beq_iff_eq, beq_iff_eq]
  constructor
  · rintro rfl; exact lower_fixed h hc
  · rintro rfl; exact lower_fixed h.symm hc

theorem isDigit_noLetter {b : UInt8} (h : isDigit b = true) : NoLetter b := by
  unfold isDigit at h
  simp only [Bool.and_eq_true, decide_eq_true_eq, UInt8.le_iff_toNat_le] at h
  have : (57 : UInt8).toNat = 57 := rfl
  unfold NoLetter; omega

theorem atoi_noLetter {s : Bytes} {d : Int} (h : atoi s = some d) : ∀ b ∈ s, NoLetter b := by
  have key : ∀ {neg : Bool} {ds : Bytes}, (if ds ≠ [] ∧ ds.all isDigit = true then
      if neg then (if decVal ds ≤ 2 ^ 63 then some (-(decVal ds : Int)) else none) else (if decVal ds < 2 ^ 63 then some (decVal ds : Int) else none)
      else none) = some d → ∀ b ∈ ds, NoLetter b := by
    intro neg ds h b hb
    by_cases hd : ds ≠ [] ∧ ds.all isDigit = true
    · exact isDigit_noLetter (List.all_eq_true.mp hd.2 b hb)
    · rw [if_neg hd] at h; cases h
  unfold atoi at h
  intro b hb
  split at h
  · rename_i neg ds heq
    split at heq
    · cases heq
      rcases List.mem_cons.mp hb with rfl | hb
      · unfold NoLetter; decide
      · exact key (neg := true) h b hb
    · cases heq
      rcases List.mem_cons.mp hb with rfl | hb
      · unfold NoLetter; decide
      · exact key (neg := false) h b hb
    · cases heq
      exact key (neg := false) h b hb

theorem atoi_same {s s' : Bytes} (h : CaseEq s s') : atoi s = atoi s' := by
  cases h1 : atoi s with
  | some d => rw [h.eq_of (atoi_noLetter h1), h1]
  | none =>
    cases h2 : atoi s' with
    | none => rfl
    | some d => rw [h.symm.eq_of (atoi_noLetter h2)] at h1; rw [h1] at h2; cases h2

/-- Versions with equal numbers and suffixes that differ in the case of letters at most. -/
def VersionAlike (v v' : Version) : Prop :=
  v.major = v'.major ∧ v.minor = v'.minor ∧ v.patch = v'.patch ∧ v.revision = v'.revision ∧ v.p = v'.p ∧ CaseEq v.suffix v'.suffix

theorem parseLoop_same : ∀ n i v {s s' : Bytes}, CaseEq s s' →
    (Version.parseLoop n i v s).1 = (Version.parseLoop n i v s').1 ∧ CaseEq (Version.parseLoop n i v s).2.1 (Version.parseLoop n i v s').2.1 ∧
      (Version.parseLoop n i v s).2.2 = (Version.parseLoop n i v s').2.2
  | 0, _, _, _, _, h => ⟨rfl, h, rfl⟩
  | n + 1, i, v, s, s', h => by
    have e : indexByte s 46 = indexByte s' 46 := findIdx_same (fun a a' => isByte_same (by unfold NoLetter; decide)) h
    have el := h.length
    rw [Version.parseLoop, Version.parseLoop, e, el]
    by_cases hc : (indexByte s' 46).isSome = true ∨ s'.length > 0
    · rw [if_pos hc, if_pos hc]
      simp only
      rw [atoi_same (h.take _)]
      cases atoi (s'.take ((indexByte s' 46).getD s'.length)) with
      | none => exact ⟨rfl, h, rfl⟩
      | some d =>
        refine parseLoop_same n (i + 1) _ ?_
        split
        · exact h.drop _
        · exact CaseEq.refl _
    · rw [if_neg hc, if_neg hc]
      exact parseLoop_same n (i + 1) v h

theorem parse_same {s s' : Bytes} (h : CaseEq s s') : VersionAlike (({} : Version).parse s).1 (({} : Version).parse s').1 := by
  obtain ⟨h1, h2, h3⟩ := parseLoop_same 4 0 {} h
  have el := h.length
  have hi := findIdx_same (p := fun c => c == 32 || c == 45)
    (fun a a' e => by rw [isByte_same (c := 32) (by unfold NoLetter; decide) e, isByte_same (c := 45) (by unfold NoLetter; decide) e]) h2
  have same : ∀ v : Version, VersionAlike v v := fun v => ⟨rfl, rfl, rfl, rfl, rfl, CaseEq.refl _⟩
  unfold Version.parse
  rw [el]
  by_cases hc : s'.length > 0
  · simp only [Bool.false_eq_true, if_false, if_pos hc]
    generalize Version.parseLoop 4 0 {} s = x at *
    generalize Version.parseLoop 4 0 {} s' = x' at *
    obtain ⟨v, t, b⟩ := x
    obtain ⟨v', t', b'⟩ := x'
    simp only at h1 h2 h3 hi
    subst h1 h3
    cases b with
    | true => exact same _
    | false =>
      simp only [h2.length, hi]
      by_cases ht : t'.length > 0
      · simp only [if_pos ht]
        cases t'.findIdx? fun c => c == 32 || c == 45 with
        | none => exact same _
        | some i => exact ⟨rfl, rfl, rfl, rfl, rfl, h2.drop _⟩
      · simp only [if_neg ht]
        exact same _
  · simp only [Bool.false_eq_true, if_false, if_neg hc]
    exact same _

/-! ### Comparisons with numbers -/

theorem strGe_same {x : Bytes} (hx : ∀ b ∈ x, b.toNat < 65) : ∀ {m m' : Bytes}, CaseEq m m' → Compiler.strGe m x = Compiler.strGe m' x := by
  induction x with
  | nil => intro m m' _; cases m <;> cases m' <;> rfl
  | cons c x ih =>
    intro m m' h
    cases m with
    | nil => rw [h.nil_left]
    | cons a l =>
      obtain ⟨a', l', rfl, h1, h2⟩ := h.cons_left
      have hc := hx c (by simp)
      have e := congrArg UInt8.toNat h1
      rw [lower_toNat, lower_toNat] at e
      rw [Compiler.strGe, Compiler.strGe, ih (fun b hb => hx b (List.mem_cons_of_mem _ hb)) h2]
      congr 1
      · rw [Bool.eq_iff_iff, decide_eq_true_eq, decide_eq_true_eq, UInt8.lt_iff_toNat_lt, UInt8.lt_iff_toNat_lt]
        split at e <;> split at e <;> omega
      · congr 1
        rw [Bool.eq_iff_iff, decide_eq_true_eq, decide_eq_true_eq, ← UInt8.toNat_inj, ← UInt8.toNat_inj]
        split at e <;> split at e <;> omega

theorem engineFn_same {f : Compiler.EngineFn} (hf : ∀ x ∈ f.cases, ∀ b ∈ x.1, b.toNat < 65) {m m' : Bytes} (h : CaseEq m m') : f.run m = f.run m' := by
  have : f.cases.find? (fun x => Compiler.strGe m x.1) = f.cases.find? (fun x => Compiler.strGe m' x.1) := by
    generalize f.cases = l at *
    induction l with
    | nil => rfl
    | cons a l ih =>
      rw [List.find?_cons, List.find?_cons, strGe_same (hf a (by simp)) h, ih fun x hx => hf x (List.mem_cons_of_mem _ hx)]
  unfold Compiler.EngineFn.run
  rw [this]

/-! ### Texts are determined -/

theorem EngineVersionText.unique {T : Tables} {u : Bytes} {e : Entry64} {s s' : Bytes} (h : EngineVersionText T u e s) (h' : EngineVersionText T u e s') : s = s' := by
  have key : ∀ {s s' : Bytes}, (e ≠ 0 ∧ ∃ i re, T.crEv e = some i ∧ T.crEvre[i]? = some re ∧ Captures re u 1 s) →
      (e = 0 ∨ T.crEv e = none ∨ ∃ i re, T.crEv e = some i ∧ T.crEvre[i]? = some re ∧ re.isMatch u = false) ∧ s' = [] → False := by
    rintro s s' ⟨h0, i, re, h1, h2, m, a, z, h3, -⟩ ⟨h | h | ⟨i', re', h4, h5, h6⟩, -⟩
    · exact h0 h
    · rw [h] at h1; cases h1
    · rw [h1] at h4; cases h4
      rw [h2] at h5; cases h5
      rw [Re.isMatch, h3] at h6; cases h6
  rcases h with h | h <;> rcases h' with h' | h'
  · obtain ⟨-, i, re, h1, h2, h3⟩ := h
    obtain ⟨-, i', re', h1', h2', h3'⟩ := h'
    rw [h1] at h1'; cases h1'
    rw [h2] at h2'; cases h2'
    exact h3.unique h3'
  · exact (key h h').elim
  · exact (key h' h).elim
  · rw [h.2, h'.2]

section
variable {T : Tables} {u : Bytes} {x : OSTuple}

theorem no_group {re : Re} {ri : Int} {si : Int8} {t : Bytes} (h0 : 0 ≤ ri) (h1 : si ≠ -1) (hr : T.orRe[ri.toNat]? = some re)
    (h : Captures re u si.toInt.toNat t)
    (hn : ri < 0 ∨ si = -1 ∨ ∃ re, T.orRe[ri.toNat]? = some re ∧ ∀ t, ¬ Captures re u si.toInt.toNat t) : False := by
  obtain hn | hn | ⟨re', h2, h3⟩ := hn
  · omega
  · exact h1 hn
  · rw [hr] at h2; cases h2
    exact h3 t h

theorem OSName.unique {a b : Bytes} (h : OSName T u x a) (h' : OSName T u x b) : a = b := by
  cases h with
  | group h0 h1 hr h =>
    cases h' with
    | group h0' h1' hr' h' => rw [hr] at hr'; cases hr'; exact h.unique h'
    | const hn => exact (no_group h0 h1 hr h hn).elim
  | const hn ht =>
    cases h' with
    | group h0 h1 hr h => exact (no_group h0 h1 hr h hn).elim
    | const _ ht' => exact ht.unique ht'

theorem OSOwnVersion.unique {a b : Bytes} (h : OSOwnVersion T u x a) (h' : OSOwnVersion T u x b) : a = b := by
  cases h with
  | group h0 h1 hr h =>
    cases h' with
    | group h0' h1' hr' h' => rw [hr] at hr'; cases hr'; exact h.unique h'
    | none hn => exact (no_group h0 h1 hr h hn).elim
  | none hn =>
    cases h' with
    | group h0 h1 hr h => exact (no_group h0 h1 hr h hn).elim
    | none => rfl

theorem Rows.unique {α : Type} {l : List α} {e : Entry64} {r r' : List α} (h : Rows l e r) (h' : Rows l e r') : r = r' := by
  obtain ⟨a, z, h1, h2, h3⟩ := h
  obtain ⟨a', z', h1', h2', h3'⟩ := h'
  have hr : r.length = r'.length := by omega
  have ha : a.length = a'.length := by omega
  rw [h1, List.append_assoc, List.append_assoc] at h1'
  have := (List.append_inj h1' ha).2
  exact (List.append_inj this hr).1

theorem OSVersionText.unique {a b : Bytes} (h : OSVersionText T u x a) (h' : OSVersionText T u x b) : a = b := by
  have rows : ∀ {r r' : List OSVersionTuple} {w w' : OSVersionTuple}, Rows T.orOv x.versions64 r → Rows T.orOv x.versions64 r' →
      First (OSVersionMatch T u) r w → First (OSVersionMatch T u) r' w' → w = w' := by
    intro r r' w w' h1 h2 h3 h4
    rw [h1.unique h2] at h3
    exact h3.unique h4
  have none : ∀ {r r' : List OSVersionTuple} {w : OSVersionTuple}, Rows T.orOv x.versions64 r → Rows T.orOv x.versions64 r' →
      First (OSVersionMatch T u) r w → (∀ w ∈ r', ¬ OSVersionMatch T u w) → False := by
    intro r r' w h1 h2 h3 h4
    rw [h1.unique h2] at h3
    exact h3.not_none h4
  cases h with
  | const h0 h =>
    cases h' with
    | const _ h' => exact h.unique h'
    | rowGroup h0' => exact absurd h0' h0
    | rowNoGroup h0' => exact absurd h0' h0
    | rowConst h0' => exact absurd h0' h0
    | noRow h0' => exact absurd h0' h0
    | own h0' => exact absurd h0' h0
  | rowGroup h0 h1 h2 hr hf h3 h4 hre h =>
    cases h' with
    | const h0' => exact absurd h0 h0'
    | rowGroup _ _ _ hr' hf' h3' h4' hre' h' =>
      obtain rfl := rows hr hr' hf hf'
      rw [hre] at hre'; cases hre'; exact h.unique h'
    | rowNoGroup _ _ _ hr' hf' h3' h4' hre' hn' h' =>
      obtain rfl := rows hr hr' hf hf'
      rw [hre] at hre'; cases hre'; exact absurd h (hn' _)
    | rowConst _ _ _ hr' hf' h3' h' =>
      obtain rfl := rows hr hr' hf hf'
      rcases h3' with h3' | h3'
      · omega
      · exact absurd h3' h4
    | noRow _ _ _ hr' hf' => exact (none hr hr' hf hf').elim
    | own _ h1' => rcases h1' with h1' | h1'; omega; exact absurd h1' h2
  | rowNoGroup h0 h1 h2 hr hf h3 h4 hre hn h =>
    cases h' with
    | const h0' => exact absurd h0 h0'
    | rowGroup _ _ _ hr' hf' h3' h4' hre' h' =>
      obtain rfl := rows hr hr' hf hf'
      rw [hre] at hre'; cases hre'; exact absurd h' (hn _)
    | rowNoGroup _ _ _ hr' hf' h3' h4' hre' hn' h' => exact OSOwnVersion.unique h h'
    | rowConst _ _ _ hr' hf' h3' h' =>
      obtain rfl := rows hr hr' hf hf'
      rcases h3' with h3' | h3'
      · omega
      · exact absurd h3' h4
    | noRow _ _ _ hr' hf' => exact (none hr hr' hf hf').elim
    | own _ h1' => rcases h1' with h1' | h1'; omega; exact absurd h1' h2
  | rowConst h0 h1 h2 hr hf h3 h =>
    cases h' with
    | const h0' => exact absurd h0 h0'
    | rowGroup _ _ _ hr' hf' h3' h4' hre' h' =>
      obtain rfl := rows hr hr' hf hf'
      rcases h3 with h3 | h3
      · omega
      · exact absurd h3 h4'
    | rowNoGroup _ _ _ hr' hf' h3' h4' hre' hn' h' =>
      obtain rfl := rows hr hr' hf hf'
      rcases h3 with h3 | h3
      · omega
      · exact absurd h3 h4'
    | rowConst _ _ _ hr' hf' h3' h' =>
      obtain rfl := rows hr hr' hf hf'
      exact h.unique h'
    | noRow _ _ _ hr' hf' => exact (none hr hr' hf hf').elim
    | own _ h1' => rcases h1' with h1' | h1'; omega; exact absurd h1' h2
  | noRow h0 h1 h2 hr hf h =>
    cases h' with
    | const h0' => exact absurd h0 h0'
    | rowGroup _ _ _ hr' hf' => exact (none hr' hr hf' hf).elim
    | rowNoGroup _ _ _ hr' hf' => exact (none hr' hr hf' hf).elim
    | rowConst _ _ _ hr' hf' => exact (none hr' hr hf' hf).elim
    | noRow _ _ _ _ _ h' => exact OSOwnVersion.unique h h'
    | own _ _ h' => exact OSOwnVersion.unique h h'
  | own h0 h1 h =>
    cases h' with
    | const h0' => exact absurd h0 h0'
    | rowGroup _ h1' h2' => rcases h1 with h1 | h1; omega; exact absurd h1 h2'
    | rowNoGroup _ h1' h2' => rcases h1 with h1 | h1; omega; exact absurd h1 h2'
    | rowConst _ h1' h2' => rcases h1 with h1 | h1; omega; exact absurd h1 h2'
    | noRow _ _ _ _ _ h' => exact OSOwnVersion.unique h h'
    | own _ _ h' => exact OSOwnVersion.unique h h'

end

/-! ### Rules -/

/-- Two spellings of a user agent that the tables treat alike. -/
structure Alike (T : Tables) (u u' : Bytes) : Prop where
  eq : CaseEq u u'
  cr : ∀ re ∈ T.crRe, re.find u = re.find u'
  ev : ∀ re ∈ T.crEvre, re.find u = re.find u'
  os : ∀ re ∈ T.orRe, re.find u = re.find u'
  dr : ∀ re ∈ T.drRe, re.find u = re.find u'
  vr : ∀ re ∈ T.vrRe, re.isMatch u = re.isMatch u'
  blink : T.forceBlink.isMatch u = T.forceBlink.isMatch u'
  tablet : T.forceTablet.isMatch u = T.forceTablet.isMatch u'
  mobile : T.forceMobile.isMatch u = T.forceMobile.isMatch u'
  fn : ∀ f ∈ T.crEf, ∀ m m', CaseEq m m' → f m = f m'
  client : ∀ rows ∈ T.crIdx, ∀ v ∈ rows, v.matchRI < 0 → ∀ lit, Text T.crBuf v.match64 lit → (lit <:+: u ↔ lit <:+: u')
  osLit : ∀ v ∈ T.orOs, v.matchRI < 0 → ∀ lit, Text T.orBuf v.match64 lit → (lit <:+: u ↔ lit <:+: u')
  ovLit : ∀ v ∈ T.orOv, v.matchRI < 0 → ∀ lit, Text T.orBuf v.match64 lit → (lit <:+: u ↔ lit <:+: u')
  device : ∀ rows ∈ T.drIdx, ∀ v ∈ rows, v.matchRI < 0 → ∀ lit, Text T.drBuf v.match64 lit → (lit <:+: u ↔ lit <:+: u')
  model : ∀ v ∈ T.drDm, v.matchRI < 0 → ∀ lit, Text T.drBuf v.match64 lit → (lit <:+: u ↔ lit <:+: u')
  marks : ∀ m ∈ [ascii "Mac", ascii "(x86_64)", ascii "com.apple.Safari", ascii "like Android"], m <:+: u ↔ m <:+: u'

section
variable {T : Tables} {u u' : Bytes}

theorem Alike.symm (A : Alike T u u') : Alike T u' u where
  eq := A.eq.symm
  cr re h := (A.cr re h).symm
  ev re h := (A.ev re h).symm
  os re h := (A.os re h).symm
  dr re h := (A.dr re h).symm
  vr re h := (A.vr re h).symm
  blink := A.blink.symm
  tablet := A.tablet.symm
  mobile := A.mobile.symm
  fn := A.fn
  client rows h v hv h0 lit ht := (A.client rows h v hv h0 lit ht).symm
  osLit v hv h0 lit ht := (A.osLit v hv h0 lit ht).symm
  ovLit v hv h0 lit ht := (A.ovLit v hv h0 lit ht).symm
  device rows h v hv h0 lit ht := (A.device rows h v hv h0 lit ht).symm
  model v hv h0 lit ht := (A.model v hv h0 lit ht).symm
  marks m hm := (A.marks m hm).symm

theorem rowMatch_same {res : List Re} {buf : Bytes} {ri : Int} {e : Entry64} (hre : ∀ re ∈ res, re.find u = re.find u')
    (hl : ri < 0 → ∀ lit, Text buf e lit → (lit <:+: u ↔ lit <:+: u')) : RowMatch res buf u ri e ↔ RowMatch res buf u' ri e := by
  unfold RowMatch
  constructor
  · rintro (⟨h0, re, h1, h2⟩ | ⟨h0, lit, h1, h2, h3⟩)
    · exact .inl ⟨h0, re, h1, by unfold Re.isMatch at h2 ⊢; rwa [← hre re (List.mem_of_getElem? h1)]⟩
    · exact .inr ⟨h0, lit, h1, h2, (hl h0 lit h2).mp h3⟩
  · rintro (⟨h0, re, h1, h2⟩ | ⟨h0, lit, h1, h2, h3⟩)
    · exact .inl ⟨h0, re, h1, by unfold Re.isMatch at h2 ⊢; rwa [hre re (List.mem_of_getElem? h1)]⟩
    · exact .inr ⟨h0, lit, h1, h2, (hl h0 lit h2).mpr h3⟩

theorem First.same {α : Type} {p p' : α → Prop} {l : List α} {x : α} (he : ∀ y ∈ l, p y ↔ p' y) (h : First p l x) : First p' l x := by
  obtain ⟨a, z, rfl, h1, h2⟩ := h
  exact ⟨a, z, rfl, (he x (by simp)).mp h1, fun y hy h => h2 y hy ((he y (by simp [hy])).mpr h)⟩

theorem Last.same {α : Type} {p p' : α → Prop} {l : List α} {x : α} (he : ∀ y ∈ l, p y ↔ p' y) (h : Last p l x) : Last p' l x := by
  obtain ⟨a, z, rfl, h1, h2⟩ := h
  exact ⟨a, z, rfl, (he x (by simp)).mp h1, fun y hy h => h2 y hy ((he y (by simp [hy])).mpr h)⟩

theorem captures_same {re : Re} (hc : CaseEq u u') (hf : re.find u = re.find u') {i : Nat} {t : Bytes} (h : Captures re u i t) :
    ∃ t', Captures re u' i t' ∧ CaseEq t t' := by
  obtain ⟨m, a, z, h1, rfl, h2, h3⟩ := h
  obtain ⟨x, z', rfl, h4, h5⟩ := hc.split
  obtain ⟨a', t', rfl, h6, h7⟩ := h4.split
  exact ⟨t', ⟨m, a', z', by rw [← hf, h1], rfl, by rw [← h6.length]; exact h2, by rw [← h6.length, ← h7.length]; exact h3⟩, h7⟩

theorem nocapture_same {re : Re} (hc : CaseEq u u') (hf : re.find u = re.find u') {i : Nat} (h : ∀ t, ¬ Captures re u i t) : ∀ t, ¬ Captures re u' i t := by
  intro t ht
  obtain ⟨t', h', -⟩ := captures_same hc.symm hf.symm ht
  exact h t' h'

/-! Clients. -/

theorem Alike.clientMatch (A : Alike T u u') {rows : List ClientTuple} (hr : rows ∈ T.crIdx) {v : ClientTuple} (hv : v ∈ rows) :
    ClientMatch T u v ↔ ClientMatch T u' v := rowMatch_same A.cr (A.client rows hr v hv)

theorem Alike.noClient (A : Alike T u u') {i : Nat} (hn : NoClient T u i) : NoClient T u' i := by
  obtain ⟨rows, h1, h2⟩ := hn
  exact ⟨rows, h1, fun v hv hm => h2 v hv ((A.clientMatch (List.mem_of_getElem? h1) hv).mpr hm)⟩

theorem Alike.clientChosen (A : Alike T u u') {m t : ClientType} {v : ClientTuple} (hc : ClientChosen T m u t v) : ClientChosen T m u' t v := by
  obtain ⟨a, z, i, rows, h1, h2, h3, h4, h5⟩ := hc
  exact ⟨a, z, i, rows, h1, h2, fun x hx hm => A.noClient (h3 x hx hm), h4, h5.same fun y hy => A.clientMatch (List.mem_of_getElem? h4) hy⟩

theorem Alike.clientNone (A : Alike T u u') {m : ClientType} (h : ClientNone T m u) : ClientNone T m u' := fun x hx hm => A.noClient (h x hx hm)

theorem Alike.clientVersion (A : Alike T u u') {v : ClientTuple} {raw : Bytes} (h : ClientVersion T u v raw) :
    ∃ raw', ClientVersion T u' v raw' ∧ CaseEq raw raw' := by
  cases h with
  | const h0 h1 h => exact ⟨raw, .const h0 h1 h, .refl _⟩
  | group h0 h1 h2 hr h =>
    obtain ⟨t, h3, h4⟩ := captures_same A.eq (A.cr _ (List.mem_of_getElem? hr)) h
    exact ⟨t, .group h0 h1 h2 hr h3, h4⟩
  | absent h0 h1 h2 hr h => exact ⟨[], .absent h0 h1 h2 hr (nocapture_same A.eq (A.cr _ (List.mem_of_getElem? hr)) h), .refl _⟩
  | noGroup h0 h1 h2 => exact ⟨[], .noGroup h0 h1 h2, .refl _⟩
  | literal h0 => exact ⟨[], .literal h0, .refl _⟩

theorem Alike.ruleEngine (A : Alike T u u') {v : ClientTuple} {e : Entry64} (h : RuleEngine T u v e) : RuleEngine T u' v e := by
  cases h with
  | const h => exact .const h
  | @fn raw m f h hv hm hf =>
    obtain ⟨raw', h1, h2⟩ := A.clientVersion hv
    obtain ⟨m', h3, h4⟩ := h2.major hm
    rw [A.fn f (List.mem_of_getElem? hf) _ _ h4]
    exact .fn h h1 h3 hf

theorem Alike.engineOf (A : Alike T u u') {v : ClientTuple} {e : Entry64} (h : EngineOf T u v e) : EngineOf T u' v e := by
  cases h with
  | own h h0 => exact .own (A.ruleEngine h) h0
  | first h hr hf => exact .first (A.ruleEngine h) hr (hf.same fun y hy => A.clientMatch (List.mem_of_getElem? hr) hy)
  | none h hr hf => exact .none (A.ruleEngine h) hr fun w hw hm => hf w hw ((A.clientMatch (List.mem_of_getElem? hr) hw).mpr hm)

theorem Alike.engineVersionText (A : Alike T u u') {e : Entry64} {s : Bytes} (h : EngineVersionText T u e s) : ∃ s', EngineVersionText T u' e s' ∧ CaseEq s s' := by
  obtain ⟨h0, i, re, h1, h2, h3⟩ | ⟨h, rfl⟩ := h
  · obtain ⟨t, h4, h5⟩ := captures_same A.eq (A.ev _ (List.mem_of_getElem? h2)) h3
    exact ⟨t, .inl ⟨h0, i, re, h1, h2, h4⟩, h5⟩
  · refine ⟨[], .inr ⟨?_, rfl⟩, .refl _⟩
    obtain h | h | ⟨i, re, h1, h2, h3⟩ := h
    · exact .inl h
    · exact .inr (.inl h)
    · exact .inr (.inr ⟨i, re, h1, h2, by unfold Re.isMatch at h3 ⊢; rwa [← A.ev _ (List.mem_of_getElem? h2)]⟩)

/-! Operating systems. -/

theorem Alike.osMatch (A : Alike T u u') {v : OSTuple} (hv : v ∈ T.orOs) : OSMatch T u v ↔ OSMatch T u' v := rowMatch_same A.os (A.osLit v hv)

theorem Alike.osSkipped (A : Alike T u u') {v : OSTuple} : OSSkipped T u v ↔ OSSkipped T u' v := by
  have h1 := A.marks (ascii "Mac") (by simp)
  have h2 := A.marks (ascii "(x86_64)") (by simp)
  have h3 := A.marks (ascii "com.apple.Safari") (by simp)
  have h4 := A.marks (ascii "like Android") (by simp)
  unfold OSSkipped
  rw [h1, h2, h3, h4]

theorem Alike.osChosen (A : Alike T u u') {x : OSTuple} (h : OSChosen T u x) : OSChosen T u' x :=
  First.same (fun _ hy => and_congr (A.osMatch hy) (not_congr A.osSkipped)) h

theorem Alike.osNone (A : Alike T u u') (h : OSNone T u) : OSNone T u' := fun w hw hm => A.osSkipped.mp (h w hw ((A.osMatch hw).mpr hm))

theorem Alike.osName (A : Alike T u u') {x : OSTuple} {raw : Bytes} (h : OSName T u x raw) : ∃ raw', OSName T u' x raw' ∧ CaseEq raw raw' := by
  cases h with
  | group h0 h1 hr h =>
    obtain ⟨t, h3, h4⟩ := captures_same A.eq (A.os _ (List.mem_of_getElem? hr)) h
    exact ⟨t, .group h0 h1 hr h3, h4⟩
  | const h0 h =>
    refine ⟨raw, .const ?_ h, .refl _⟩
    obtain h0 | h0 | ⟨re, h1, h2⟩ := h0
    · exact .inl h0
    · exact .inr (.inl h0)
    · exact .inr (.inr ⟨re, h1, nocapture_same A.eq (A.os _ (List.mem_of_getElem? h1)) h2⟩)

theorem Alike.osOwnVersion (A : Alike T u u') {x : OSTuple} {raw : Bytes} (h : OSOwnVersion T u x raw) : ∃ raw', OSOwnVersion T u' x raw' ∧ CaseEq raw raw' := by
  cases h with
  | group h0 h1 hr h =>
    obtain ⟨t, h3, h4⟩ := captures_same A.eq (A.os _ (List.mem_of_getElem? hr)) h
    exact ⟨t, .group h0 h1 hr h3, h4⟩
  | none h0 =>
    refine ⟨[], .none ?_, .refl _⟩
    obtain h0 | h0 | ⟨re, h1, h2⟩ := h0
    · exact .inl h0
    · exact .inr (.inl h0)
    · exact .inr (.inr ⟨re, h1, nocapture_same A.eq (A.os _ (List.mem_of_getElem? h1)) h2⟩)

theorem Alike.osVersionMatch (A : Alike T u u') {e : Entry64} {rows : List OSVersionTuple} (hr : Rows T.orOv e rows) {w : OSVersionTuple} (hw : w ∈ rows) :
    OSVersionMatch T u w ↔ OSVersionMatch T u' w := by
  obtain ⟨a, z, h, -⟩ := hr
  exact rowMatch_same A.os (A.ovLit w (by rw [h]; simp [hw]))

theorem Alike.osVersionText (A : Alike T u u') {x : OSTuple} {raw : Bytes} (h : OSVersionText T u x raw) : ∃ raw', OSVersionText T u' x raw' ∧ CaseEq raw raw' := by
  cases h with
  | const h0 h => exact ⟨raw, .const h0 h, .refl _⟩
  | rowGroup h0 h1 h2 hr hf h3 h4 hre h =>
    obtain ⟨t, h5, h6⟩ := captures_same A.eq (A.os _ (List.mem_of_getElem? hre)) h
    exact ⟨t, .rowGroup h0 h1 h2 hr (hf.same fun _ hy => A.osVersionMatch hr hy) h3 h4 hre h5, h6⟩
  | rowNoGroup h0 h1 h2 hr hf h3 h4 hre hn h =>
    obtain ⟨t, h5, h6⟩ := A.osOwnVersion h
    exact ⟨t, .rowNoGroup h0 h1 h2 hr (hf.same fun _ hy => A.osVersionMatch hr hy) h3 h4 hre
      (nocapture_same A.eq (A.os _ (List.mem_of_getElem? hre)) hn) h5, h6⟩
  | rowConst h0 h1 h2 hr hf h3 h => exact ⟨raw, .rowConst h0 h1 h2 hr (hf.same fun _ hy => A.osVersionMatch hr hy) h3 h, .refl _⟩
  | noRow h0 h1 h2 hr hf h =>
    obtain ⟨t, h5, h6⟩ := A.osOwnVersion h
    exact ⟨t, .noRow h0 h1 h2 hr (fun w hw hm => hf w hw ((A.osVersionMatch hr hw).mpr hm)) h5, h6⟩
  | own h0 h1 h =>
    obtain ⟨t, h5, h6⟩ := A.osOwnVersion h
    exact ⟨t, .own h0 h1 h5, h6⟩

/-! Devices. -/

theorem Alike.deviceMatch (A : Alike T u u') {rows : List DeviceTuple} (hr : rows ∈ T.drIdx) {v : DeviceTuple} (hv : v ∈ rows) :
    DeviceMatch T u v ↔ DeviceMatch T u' v := rowMatch_same A.dr (A.device rows hr v hv)

theorem Alike.noDevice (A : Alike T u u') {i : Nat} (hn : NoDevice T u i) : NoDevice T u' i := by
  obtain ⟨rows, h1, h2⟩ := hn
  exact ⟨rows, h1, fun v hv hm => h2 v hv ((A.deviceMatch (List.mem_of_getElem? h1) hv).mpr hm)⟩

theorem Alike.deviceChosen (A : Alike T u u') {m d : DeviceType} {v : DeviceTuple} (hc : DeviceChosen T m u d v) : DeviceChosen T m u' d v := by
  obtain ⟨a, z, b, i, rows, h1, h2, h3, h4, h5⟩ := hc
  exact ⟨a, z, b, i, rows, h1, h2, fun x hx hm => A.noDevice (h3 x hx hm), h4, h5.same fun y hy => A.deviceMatch (List.mem_of_getElem? h4) hy⟩

theorem Alike.deviceNone (A : Alike T u u') {m : DeviceType} (h : DeviceNone T m u) : DeviceNone T m u' := fun x hx hm => A.noDevice (h x hx hm)

theorem Alike.expands (A : Alike T u u') {re : Re} (hre : re ∈ T.drRe) {r t : Bytes} (h : Expands re u r t) : ∃ t', Expands re u' r t' ∧ CaseEq t t' := by
  have hf := A.dr re hre
  induction h with
  | nil => exact ⟨[], .nil, .refl _⟩
  | @char b r t hb _ ih =>
    obtain ⟨t', h1, h2⟩ := ih
    exact ⟨b :: t', .char hb h1, .cons rfl h2⟩
  | stop hg => exact ⟨[], .stop (nocapture_same A.eq hf hg), .refl _⟩
  | group hd hg _ ih =>
    obtain ⟨t', h1, h2⟩ := ih
    obtain ⟨g', h3, h4⟩ := captures_same A.eq hf hg
    exact ⟨g' ++ t', .group hd h3 h1, h4.append h2⟩
  | dollar hg _ ih =>
    obtain ⟨t', h1, h2⟩ := ih
    obtain ⟨g', h3, h4⟩ := captures_same A.eq hf hg
    exact ⟨g' ++ t', .dollar h3 h1, h4.append h2⟩

theorem Alike.modelText (A : Alike T u u') {ri : Int} {raw t : Bytes} (h : ModelText T u ri raw t) : ∃ t', ModelText T u' ri raw t' ∧ CaseEq t t' := by
  obtain ⟨h0, re, h1, h2⟩ | ⟨h0, rfl⟩ := h
  · obtain ⟨t', h3, h4⟩ := A.expands (List.mem_of_getElem? h1) h2
    exact ⟨t', .inl ⟨h0, re, h1, h3⟩, h4⟩
  · exact ⟨_, .inr ⟨h0, rfl⟩, .refl _⟩

theorem Alike.modelMatch (A : Alike T u u') {e : Entry64} {w : ModelTuple} (hw : w ∈ range64 T.drDm e) : ModelMatch T u w ↔ ModelMatch T u' w :=
  rowMatch_same A.dr (A.model w (List.mem_of_mem_drop (List.mem_of_mem_take hw)))

theorem Alike.deviceRes (A : Alike T u u') {x : DeviceTuple} {d typ : DeviceType} {mo : Option Bytes} (h : DeviceRes T u x d mo typ) :
    ∃ mo', DeviceRes T u' x d mo' typ ∧ CaseEq (mo.getD []) (mo'.getD []) := by
  cases h with
  | single h h0 hm hr ht hy =>
    obtain ⟨t', h1, h2⟩ := A.modelText ht
    exact ⟨some t', .single h h0 hm hr h1 hy, h2⟩
  | model h h0 hm hr ht hy =>
    obtain ⟨t', h1, h2⟩ := A.modelText ht
    exact ⟨some t', .model h h0 (hm.same fun _ hy => A.modelMatch hy) hr h1 hy, h2⟩
  | noModel h h0 hm => exact ⟨none, .noModel h h0 fun w hw hx => hm w hw ((A.modelMatch hw).mpr hx), .refl _⟩
  | plain h h0 hy => exact ⟨none, .plain h h0 hy, .refl _⟩

theorem Alike.modelIs (A : Alike T u u') {m : DeviceType} {mo : Option Bytes} (h : ModelIs T m u mo) : ∃ mo', ModelIs T m u' mo' ∧ CaseEq (mo.getD []) (mo'.getD []) := by
  obtain ⟨d, v, typ, h1, h2⟩ | ⟨h1, rfl⟩ := h
  · obtain ⟨mo', h3, h4⟩ := A.deviceRes h2
    exact ⟨mo', .inl ⟨d, v, typ, A.deviceChosen h1, h3⟩, h4⟩
  · exact ⟨none, .inr ⟨A.deviceNone h1, rfl⟩, .refl _⟩

theorem Alike.vendorMatch (A : Alike T u u') {v : VendorTuple} : VendorMatch T u v ↔ VendorMatch T u' v := by
  unfold VendorMatch
  constructor
  · rintro ⟨re, h1, h2⟩
    exact ⟨re, h1, by rw [← A.vr re (List.mem_of_mem_drop (List.mem_of_mem_take h1))]; exact h2⟩
  · rintro ⟨re, h1, h2⟩
    exact ⟨re, h1, by rw [A.vr re (List.mem_of_mem_drop (List.mem_of_mem_take h1))]; exact h2⟩

end

end Verif
