import Verif.Props.VersionText
/-
C94: parsing with a version that was used before.
-/
namespace Verif

open Version

theorem comps_over (v : Version) (xs : List Int) (hl : xs.length ≤ 4) :
    Spec.comps (assign 0 v xs) = xs.map (fun x => Int.bmod x (2 ^ 32)) ++ (Spec.comps v).drop xs.length := by
  have e : ∀ x : Int, (Int32.ofInt x).toInt = Int.bmod x (2 ^ 32) := fun x => Int32.toInt_ofInt
  match xs, hl with
  | [], _ => rfl
  | [a], _ => simp [Spec.comps, assign, setComp, e a]
  | [a, b], _ => simp [Spec.comps, assign, setComp, e a, e b]
  | [a, b, c], _ => simp [Spec.comps, assign, setComp, e a, e b, e c]
  | [a, b, c, d], _ => simp [Spec.comps, assign, setComp, e a, e b, e c, e d]
  | _ :: _ :: _ :: _ :: _ :: _, h => simp at h

/-- The natural claim: a version gives the same for a text as a new one would, unless it has taken a text before. -/
def C94Claim : Prop := ∀ (a s : Bytes), (({} : Version).parse a).2 = true → (({} : Version).parse a).1.parse s = ({} : Version).parse s

/-- **C94** refuted: after the error on "1.2.x", "5" is read as 5.2. -/
theorem C94_refuted : ¬ C94Claim := by
  intro h
  have := h (ascii "1.2.x") (ascii "5") (by decide +kernel)
  revert this
  decide +kernel

/-- **C94** (what holds). A version that has taken no text yet, in whatever state, accepts the same texts as a new one; the numbers in the text replace its first components,
the others and, without a mark in the text, the suffix stay as they were. -/
theorem C94_over_partial {v : Version} (hp : v.p = false) {s t : Bytes} {xs : List Int} (h : Dotted 4 s xs t) :
    ∃ w, v.parse s = (w, false) ∧ Spec.comps w = xs.map (fun x => Int.bmod x (2 ^ 32)) ++ (Spec.comps v).drop xs.length ∧
      (∀ a c x, t = a ++ c :: x → (32 : UInt8) ∉ a → (45 : UInt8) ∉ a → (c = 32 ∨ c = 45) → w.suffix = x) ∧
      ((32 : UInt8) ∉ t → (45 : UInt8) ∉ t → w.suffix = v.suffix) := by
  have hc := comps_over v xs h.length.1
  have hs : (assign 0 v xs).suffix = v.suffix := (assign_p v 0 xs).2
  have hl := dotted_loop h 0 v
  by_cases hn : s.length > 0
  · unfold parse
    rw [hp, if_neg (by decide), if_pos hn, hl]
    refine ⟨_, rfl, ?_, ?_, ?_⟩
    · rw [← hc]
      split
      · split <;> rfl
      · rfl
    · rintro a c x rfl h1 h2 h3
      have hf := (AfterMark.after (x := x) h1 h2 h3).find
      rw [if_pos (by simp; omega)]
      cases hi : (a ++ c :: x).findIdx? (fun c => c == 32 || c == 45) with
      | none =>
        rw [List.findIdx?_eq_none_iff] at hi
        have := hi c (by simp)
        rcases h3 with rfl | rfl <;> simp at this
      | some i =>
        rw [hi] at hf
        exact hf
    · intro h1 h2
      have : t.findIdx? (fun c => c == 32 || c == 45) = none := by
        rw [List.findIdx?_eq_none_iff]
        intro c hc
        simp only [Bool.or_eq_false_iff, beq_eq_false_iff_ne]
        exact ⟨fun e => h1 (e ▸ hc), fun e => h2 (e ▸ hc)⟩
      rw [this]
      show Version.suffix (if _ then _ else _) = _
      split <;> exact hs
  · have : s = [] := List.length_eq_zero_iff.mp (by omega)
    subst this
    rw [parseLoop_nil] at hl
    injection hl with h1 h2
    injection h2 with h2 _
    subst h2
    refine ⟨{ v with p := true }, ?_, ?_, ?_, fun _ _ => rfl⟩
    · unfold parse
      rw [hp, if_neg (by decide), if_neg hn]
    · rw [← hc, ← h1]
      rfl
    · intro a c x e
      have := congrArg List.length e
      simp at this

/-- **C94** (what holds). Which texts are accepted does not depend on what was refused before. -/
theorem C94_accepts_partial {v : Version} (hp : v.p = false) {s : Bytes} : (v.parse s).2 = (({} : Version).parse s).2 := by
  have e : ∀ u : Version, u.p = false → (u.parse s).2 = if s.length > 0 then (parseLoop 4 0 u s).2.2 else false := by
    intro u hu
    unfold parse
    rw [hu, if_neg (by decide)]
    by_cases hs : s.length > 0
    · rw [if_pos hs, if_pos hs]
      rcases parseLoop 4 0 u s with ⟨a, b, c⟩
      cases c <;> rfl
    · rw [if_neg hs, if_neg hs]
  rw [e v hp, e {} rfl, (parseLoop_assign 4 0 v {} s).2]

/-- **C94** (what holds). After `Reset` everything is as with a new version; so it is after an error for a text of four numbers without a suffix. -/
theorem C94_reset_partial (v : Version) (s : Bytes) : v.reset.parse s = ({} : Version).parse s ∧
    ∀ a xs, (({} : Version).parse a).2 = true → Dotted 4 s xs [] → xs.length = 4 → (({} : Version).parse a).1.parse s = ({} : Version).parse s := by
  refine ⟨rfl, fun a xs ha hd hl => ?_⟩
  have hp : (({} : Version).parse a).1.p = false := by
    revert ha
    have := (parseLoop_assign 4 0 {} {} a).1
    unfold parse
    rw [if_neg (by decide)]
    split
    · revert this
      rcases parseLoop 4 0 {} a with ⟨x, y, z⟩
      cases z
      · exact fun _ h => by cases h
      · intro h _
        show x.p = false
        rw [show x = _ from h, (assign_p _ _ _).1]
    · exact fun h => by cases h
  have hsx : (({} : Version).parse a).1.suffix = [] := parse_failed_suffix (by rw [ha]; decide)
  have hne : s.length > 0 := by
    cases s with
    | nil =>
      have := dotted_loop hd 0 {}
      have h0 : ∀ {n s xs t}, Dotted n s xs t → s = [] → xs = [] := by
        intro n s xs t h e
        cases h with
        | nothing => rfl
        | last hd => exact absurd e hd.facts.1
        | next hd _ => have := congrArg List.length e; simp [ascii] at this
        | rest => rfl
      rw [h0 hd rfl] at hl
      cases hl
    | cons => simp
  generalize (({} : Version).parse a).1 = w at hp hsx
  have key : ∀ u : Version, u.p = false → u.parse s = ({ assign 0 u xs with p := true }, false) := by
    intro u hu
    unfold parse
    rw [hu, if_neg (by decide), if_pos hne, dotted_loop hd]
    rfl
  rw [key w hp, key {} rfl]
  match xs, hl with
  | [b, c, d, e], _ => simp [assign, setComp, hsx]

example : ∃ w, (({} : Version).parse (ascii "1.2.x")).1.parse (ascii "5") = (w, false) ∧ Spec.comps w = [5, 2, 0, 0] := by
  obtain ⟨w, h1, h2, -⟩ := C94_over_partial (v := (({} : Version).parse (ascii "1.2.x")).1) (by decide +kernel) (s := ascii "5")
    (.last (d := ascii "5") (x := 5) (atoi_iff.mp (by decide +kernel)))
  exact ⟨w, h1, h2.trans (by decide +kernel)⟩

example : (({} : Version).parse (ascii "1.2.x")).1.parse (ascii "5.6.7.8") = ({} : Version).parse (ascii "5.6.7.8") :=
  (C94_reset_partial {} _).2 _ [5, 6, 7, 8] (by decide +kernel)
    (.next (d := ascii "5") (r := ascii "6.7.8") (atoi_iff.mp (by decide +kernel)) <| .next (d := ascii "6") (r := ascii "7.8") (atoi_iff.mp (by decide +kernel)) <|
      .next (d := ascii "7") (r := ascii "8") (atoi_iff.mp (by decide +kernel)) <| .last (d := ascii "8") (atoi_iff.mp (by decide +kernel))) rfl

end Verif
