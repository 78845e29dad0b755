import Verif.Props.VersionText
/-
C92: different versions have different texts.
-/
namespace Verif

open Version

/-- The pieces of the number part of a version's text. -/
def numParts (v : Version) : List Bytes :=
  let d := fun x : Int32 => intDec x.toInt
  if v.major > 0 then [d v.major, d v.minor, d v.patch, d v.revision]
  else if v.minor > 0 then [[], d v.minor, d v.patch, d v.revision]
  else if v.patch > 0 then [[], d v.patch, d v.revision]
  else if v.revision > 0 then [[], d v.revision]
  else [[]]

/-- **C92**. The text of a version, whatever its components: the numbers from the first positive one on, after a dot unless that is the major number; then a space and the
suffix, if there is one; "0" if nothing else is written. -/
theorem C92_text (v : Version) : v.string =
    if v.suffix = [] then (if numParts v = [[]] then ascii "0" else List.intercalate (ascii ".") (numParts v))
    else List.intercalate (ascii ".") (numParts v) ++ ascii " " ++ v.suffix := by
  have e1 : ascii "." = [46] := by decide
  have e2 : ascii " " = [32] := by decide
  have e3 : ascii "0" = [48] := by decide
  have n1 := intDec_ne_nil v.major.toInt
  rw [e1, e2, e3]
  unfold numParts
  by_cases hs : v.suffix = []
  · rw [if_pos hs]
    by_cases h1 : v.major > 0
    · simp [string, write, h1, hs, List.intercalate, n1]
    by_cases h2 : v.minor > 0
    · simp [string, write, h1, h2, hs, List.intercalate]
    by_cases h3 : v.patch > 0
    · simp [string, write, h1, h2, h3, hs, List.intercalate]
    by_cases h4 : v.revision > 0
    · simp [string, write, h1, h2, h3, h4, hs, List.intercalate]
    · simp [string, write, h1, h2, h3, h4, hs]
  · have hl : v.suffix.length > 0 := List.length_pos_iff.2 hs
    rw [if_neg hs]
    by_cases h1 : v.major > 0
    · simp [string, write, h1, hs, hl, List.intercalate]
    by_cases h2 : v.minor > 0
    · simp [string, write, h1, h2, hs, hl, List.intercalate]
    by_cases h3 : v.patch > 0
    · simp [string, write, h1, h2, h3, hs, hl, List.intercalate]
    by_cases h4 : v.revision > 0
    · simp [string, write, h1, h2, h3, h4, hs, hl, List.intercalate]
    · simp [string, write, h1, h2, h3, h4, hs, hl, List.intercalate]

theorem numParts_plain (v : Version) : ∀ d ∈ numParts v, (46 : UInt8) ∉ d ∧ (32 : UInt8) ∉ d := by
  have h := fun x : Int32 => intDec_not_mem x.toInt
  have n : (46 : UInt8) ∉ ([] : Bytes) ∧ (32 : UInt8) ∉ ([] : Bytes) := ⟨by simp, by simp⟩
  intro d hd
  unfold numParts at hd
  dsimp only at hd
  repeat' split at hd
  all_goals
    simp only [List.mem_cons, List.not_mem_nil, or_false] at hd
    first
      | (rcases hd with rfl | rfl | rfl | rfl <;> first | exact n | exact h _)
      | (rcases hd with rfl | rfl | rfl <;> first | exact n | exact h _)
      | (rcases hd with rfl | rfl <;> first | exact n | exact h _)
      | (subst hd; exact n)

theorem numParts_ne (v : Version) : numParts v ≠ [] := by
  unfold numParts
  dsimp only
  repeat' split
  all_goals nofun

theorem join_space {ps : List Bytes} (h : ∀ d ∈ ps, (46 : UInt8) ∉ d ∧ (32 : UInt8) ∉ d) : (32 : UInt8) ∉ List.intercalate (ascii ".") ps := by
  induction ps with
  | nil => simp [List.intercalate]
  | cons d ps ih =>
    cases ps with
    | nil => simpa [List.intercalate] using (h d (by simp)).2
    | cons e ps =>
      have := ih fun x hx => h x (by simp at hx ⊢; exact .inr hx)
      rw [show List.intercalate (ascii ".") (d :: e :: ps) = d ++ 46 :: List.intercalate (ascii ".") (e :: ps) by
        rw [show ascii "." = [46] by decide]; simp [List.intercalate]]
      simp [(h d (by simp)).2, this]

theorem dotParts_join {ps : List Bytes} (hne : ps ≠ []) (h : ∀ d ∈ ps, (46 : UInt8) ∉ d ∧ (32 : UInt8) ∉ d) :
    Spec.dotParts (List.intercalate (ascii ".") ps) = ps := by
  induction ps with
  | nil => exact absurd rfl hne
  | cons d ps ih =>
    cases ps with
    | nil => simpa [List.intercalate] using dotParts_no_dot d (h d (by simp)).1
    | cons e ps =>
      have := ih nofun fun x hx => h x (by simp at hx ⊢; exact .inr hx)
      rw [show List.intercalate (ascii ".") (d :: e :: ps) = d ++ 46 :: List.intercalate (ascii ".") (e :: ps) by
        rw [show ascii "." = [46] by decide]; simp [List.intercalate], dotParts_dot _ _ (h d (by simp)).1, this]

theorem mark_unique {c : UInt8} {a b x y : Bytes} (ha : c ∉ a) (hb : c ∉ b) (h : a ++ c :: x = b ++ c :: y) : a = b ∧ x = y := by
  induction a generalizing b with
  | nil =>
    cases b with
    | nil => injection h with _ h; exact ⟨rfl, h⟩
    | cons d b => injection h with h _; exact absurd (by simp [h]) hb
  | cons d a ih =>
    cases b with
    | nil => injection h with h _; exact absurd (by simp [h]) ha
    | cons e b =>
      injection h with h1 h2
      obtain ⟨rfl, rfl⟩ := ih (fun hm => ha (by simp [hm])) (fun hm => hb (by simp [hm])) h2
      exact ⟨by rw [h1], rfl⟩

theorem intDec_inj {x y : Int32} (h : intDec x.toInt = intDec y.toInt) : x = y := by
  have hx := atoi_intDec x.toInt (int32_range x).1 (int32_range x).2
  rw [h, atoi_intDec y.toInt (int32_range y).1 (int32_range y).2] at hx
  injection hx with hx
  exact (Int32.toInt_inj.mp hx).symm

/-- Versions with the same text have the same number part and the same suffix. -/
theorem same_parts {v w : Version} (h : v.string = w.string) : numParts v = numParts w ∧ v.suffix = w.suffix := by
  have jv := join_space (numParts_plain v)
  have jw := join_space (numParts_plain w)
  have dv := dotParts_join (numParts_ne v) (numParts_plain v)
  have dw := dotParts_join (numParts_ne w) (numParts_plain w)
  have zero : ∀ u : Version, numParts u ≠ [ascii "0"] := by
    intro u
    unfold numParts
    dsimp only
    repeat' split
    all_goals first
      | decide
      | (intro h; have := congrArg List.length h; simp at this)
  have noSpace : ∀ u : Version, u.suffix = [] → (32 : UInt8) ∉ u.string := by
    intro u hu
    rw [C92_text, if_pos hu]
    split
    · decide
    · exact join_space (numParts_plain u)
  have space : ∀ u : Version, u.suffix ≠ [] → (32 : UInt8) ∈ u.string := by
    intro u hu
    rw [C92_text, if_neg hu, show ascii " " = [32] by decide]
    simp
  by_cases hv : v.suffix = []
  · by_cases hw : w.suffix = []
    · refine ⟨?_, hv.trans hw.symm⟩
      rw [C92_text v, C92_text w, if_pos hv, if_pos hw] at h
      split at h
      · rename_i e1
        split at h
        · rename_i e2; exact e1.trans e2.symm
        · rw [← h] at dw
          exact absurd (dw.symm.trans (by decide)) (zero w)
      · split at h
        · rw [h] at dv
          exact absurd (dv.symm.trans (by decide)) (zero v)
        · rw [← dv, h, dw]
    · exact absurd (h ▸ space w hw) (noSpace v hv)
  · by_cases hw : w.suffix = []
    · exact absurd (h ▸ space v hv) (noSpace w hw)
    · rw [C92_text v, C92_text w, if_neg hv, if_neg hw, show ascii " " = [32] by decide, List.append_assoc, List.append_assoc] at h
      obtain ⟨h1, h2⟩ := mark_unique jv jw h
      exact ⟨by rw [← dv, h1, dw], h2⟩

/-- Different components or suffixes show in the text. -/
def C92Claim : Prop := ∀ v w : Version, v.string = w.string → Spec.comps v = Spec.comps w ∧ v.suffix = w.suffix

theorem zero_of {x : Int32} (h0 : 0 ≤ x.toInt) (h : ¬ x > 0) : x.toInt = 0 := by
  have : ¬ (0 : Int32).toInt < x.toInt := fun hlt => h (Int32.lt_iff_toInt_lt.mpr hlt)
  have e : (0 : Int32).toInt = 0 := by decide
  omega

/-- **C92** (what holds). Versions without negative components are told apart by their texts. -/
theorem C92_distinct_partial {v w : Version} (hv : ∀ x ∈ Spec.comps v, 0 ≤ x) (hw : ∀ x ∈ Spec.comps w, 0 ≤ x) (h : v.string = w.string) :
    Spec.comps v = Spec.comps w ∧ v.suffix = w.suffix := by
  obtain ⟨hp, hs⟩ := same_parts h
  refine ⟨?_, hs⟩
  simp only [Spec.comps, List.mem_cons, List.not_mem_nil, or_false, forall_eq_or_imp, forall_eq] at hv hw
  obtain ⟨v1, v2, v3, v4⟩ := hv
  obtain ⟨w1, w2, w3, w4⟩ := hw
  have ne := fun x : Int32 => intDec_ne_nil x.toInt
  unfold numParts at hp
  dsimp only at hp
  unfold Spec.comps
  split at hp
  · split at hp
    · injection hp with a hp; injection hp with b hp; injection hp with c hp; injection hp with d _
      rw [intDec_inj a, intDec_inj b, intDec_inj c, intDec_inj d]
    · repeat' split at hp
      all_goals (injection hp with a _; exact absurd a (ne _))
  · rename_i m1
    split at hp
    · split at hp
      · injection hp with a _; exact absurd a.symm (ne _)
      · rename_i n1
        split at hp
        · injection hp with _ hp; injection hp with b hp; injection hp with c hp; injection hp with d _
          rw [intDec_inj b, intDec_inj c, intDec_inj d, zero_of v1 m1, zero_of w1 n1]
        · repeat' split at hp
          all_goals (have := congrArg List.length hp; simp at this)
    · rename_i m2
      split at hp
      · split at hp
        · injection hp with a _; exact absurd a.symm (ne _)
        · rename_i n1
          split at hp
          · have := congrArg List.length hp; simp at this
          · rename_i n2
            split at hp
            · injection hp with _ hp; injection hp with c hp; injection hp with d _
              rw [intDec_inj c, intDec_inj d, zero_of v1 m1, zero_of w1 n1, zero_of v2 m2, zero_of w2 n2]
            · repeat' split at hp
              all_goals (have := congrArg List.length hp; simp at this)
      · rename_i m3
        split at hp
        · split at hp
          · injection hp with a _; exact absurd a.symm (ne _)
          · rename_i n1
            split at hp
            · have := congrArg List.length hp; simp at this
            · rename_i n2
              split at hp
              · have := congrArg List.length hp; simp at this
              · rename_i n3
                split at hp
                · injection hp with _ hp; injection hp with d _
                  rw [intDec_inj d, zero_of v1 m1, zero_of w1 n1, zero_of v2 m2, zero_of w2 n2, zero_of v3 m3, zero_of w3 n3]
                · have := congrArg List.length hp; simp at this
        · rename_i m4
          split at hp
          · injection hp with a _; exact absurd a.symm (ne _)
          · rename_i n1
            split at hp
            · have := congrArg List.length hp; simp at this
            · rename_i n2
              split at hp
              · have := congrArg List.length hp; simp at this
              · rename_i n3
                split at hp
                · have := congrArg List.length hp; simp at this
                · rename_i n4
                  rw [zero_of v1 m1, zero_of w1 n1, zero_of v2 m2, zero_of w2 n2, zero_of v3 m3, zero_of w3 n3, zero_of v4 m4, zero_of w4 n4]

/-- **C92** refuted: the versions read from "2147483648" and from "0" have the same text. -/
theorem C92_refuted : ¬ C92Claim := by
  intro h
  have := (h (({} : Version).parse (ascii "2147483648")).1 (({} : Version).parse (ascii "0")).1 (by decide +kernel)).1
  revert this
  decide +kernel

example : ({ minor := 5 } : Version).string ≠ ({ patch := 5 } : Version).string := fun h =>
  absurd (C92_distinct_partial (by decide) (by decide) h).1 (by decide)

example : ({ minor := 5, suffix := ascii "a b" } : Version).string = ascii ".5.0.0 a b" := by decide +kernel

end Verif
