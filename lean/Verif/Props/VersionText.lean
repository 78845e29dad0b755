import Verif.Proofs.VersionShape
import Verif.Props.Version
/-
C91: which texts are versions.
-/
namespace Verif

open Version

theorem comps_wrapped (xs : List Int) (hl : xs.length ≤ 4) :
    Spec.comps (assign 0 {} xs) = xs.map (fun x => Int.bmod x (2 ^ 32)) ++ List.replicate (4 - xs.length) 0 := by
  have e : ∀ x : Int, (Int32.ofInt x).toInt = Int.bmod x (2 ^ 32) := fun x => Int32.toInt_ofInt
  match xs, hl with
  | [], _ => decide
  | [a], _ => simp [Spec.comps, assign, setComp, e a]
  | [a, b], _ => simp [Spec.comps, assign, setComp, e a, e b]
  | [a, b, c], _ => simp [Spec.comps, assign, setComp, e a, e b, e c]
  | [a, b, c, d], _ => simp [Spec.comps, assign, setComp, e a, e b, e c, e d]
  | _ :: _ :: _ :: _ :: _ :: _, h => simp at h

/-- **C91**. A new version takes a text of up to four numbers with dots between them, perhaps with a dot after the last, and any text after the dot of the fourth.
The components are the numbers, in 32 bits; the suffix is what comes after the first space or dash of that text. -/
theorem C91_parse {s t x : Bytes} {xs : List Int} (h : Dotted 4 s xs t) (hx : AfterMark t x) :
    ∃ v, ({} : Version).parse s = (v, false) ∧ Spec.comps v = xs.map (fun x => Int.bmod x (2 ^ 32)) ++ List.replicate (4 - xs.length) 0 ∧ v.suffix = x := by
  have hc := comps_wrapped xs h.length.1
  have hs : (assign 0 {} xs).suffix = [] := (assign_p {} 0 xs).2
  have hf := hx.find
  unfold parse
  rw [if_neg (by decide)]
  split
  · rw [dotted_loop h]
    refine ⟨_, rfl, ?_, ?_⟩
    · rw [← hc]
      split
      · split <;> rfl
      · rfl
    · rw [← hf]
      show Version.suffix (if _ then _ else _) = _
      split
      · split
        · rename_i hi
          rw [hi]
        · rename_i hi
          rw [hi]
          exact hs
      · rename_i ht
        have : t = [] := List.length_eq_zero_iff.mp (by omega)
        subst this
        exact hs
  · rename_i hn
    have : s = [] := List.length_eq_zero_iff.mp (by omega)
    subst this
    have e : ∀ {n s xs t}, Dotted n s xs t → s = [] → xs = [] ∧ t = [] := by
      intro n s xs t h e
      cases h with
      | nothing => exact ⟨rfl, rfl⟩
      | last hd => exact absurd e hd.facts.1
      | next hd _ =>
        have := congrArg List.length e
        simp [ascii] at this
      | rest => exact ⟨rfl, e⟩
    obtain ⟨rfl, rfl⟩ := e h rfl
    exact ⟨_, rfl, by decide, by rw [← hf]; rfl⟩

/-- **C91**. All other texts are refused. -/
theorem C91_accepted {s : Bytes} : (({} : Version).parse s).2 = false ↔ ∃ xs t, Dotted 4 s xs t := by
  constructor
  · intro h
    apply loop_dotted 4 0 {} s
    by_cases hs : s.length > 0
    · unfold parse at h
      rw [if_neg (by decide), if_pos hs] at h
      revert h
      rcases parseLoop 4 0 {} s with ⟨a, b, c⟩
      cases c
      · intro _; rfl
      · exact fun h => h
    · have : s = [] := List.length_eq_zero_iff.mp (by omega)
      subst this
      rfl
  · rintro ⟨xs, t, h⟩
    obtain ⟨x, hx⟩ := AfterMark.exists t
    obtain ⟨v, hv, -⟩ := C91_parse h hx
    rw [hv]

/-- The natural claim: a number or numbers, then a dash or a space, then any text, are a version with that text as the suffix. -/
def C91Claim : Prop := ∀ (d x : Bytes) (n : Int) (c : UInt8), Numeral d n → (c = 32 ∨ c = 45) → x ≠ [] →
  ∃ v, ({} : Version).parse (d ++ c :: x) = (v, false) ∧ v.suffix = x

/-- After an error there is no suffix. -/
theorem parse_failed_suffix {s : Bytes} (hok : ¬ (({} : Version).parse s).2 = false) : (({} : Version).parse s).1.suffix = [] := by
  have ha := (parseLoop_assign 4 0 {} {} s).1
  unfold parse at hok ⊢
  rw [if_neg (by decide)] at hok ⊢
  split at hok
  · rename_i hl
    rw [if_pos hl]
    revert hok ha
    rcases parseLoop 4 0 {} s with ⟨a, b, c⟩
    cases c
    · exact fun _ h => absurd rfl h
    · intro ha _
      show a.suffix = []
      rw [show a = _ from ha, (assign_p _ _ _).2]
  · exact absurd rfl hok

/-- **C91** (what holds of suffixes). A text with fewer than four dots never gives a suffix; without an error it has no space in it. -/
theorem C91_no_suffix_partial {s : Bytes} (hd : s.count 46 < 4) :
    (({} : Version).parse s).1.suffix = [] ∧ ((({} : Version).parse s).2 = false → (32 : UInt8) ∉ s) := by
  constructor
  · by_cases hok : (({} : Version).parse s).2 = false
    · obtain ⟨xs, t, h⟩ := C91_accepted.mp hok
      have ht : t = [] := by
        cases t with
        | nil => rfl
        | cons c t => exact absurd (h.dots nofun) (by omega)
      subst ht
      obtain ⟨v, h1, -, h3⟩ := C91_parse h (.without (by simp) (by simp))
      rw [h1]
      exact h3
    · exact parse_failed_suffix hok
  · intro hok hm
    obtain ⟨xs, t, h⟩ := C91_accepted.mp hok
    have ht : t = [] := by
      cases t with
      | nil => rfl
      | cons c t => exact absurd (h.dots nofun) (by omega)
    have num : ∀ {d : Bytes} {x : Int}, Numeral d x → (32 : UInt8) ∉ d := fun hd hm => by
      have := atoi_space hm
      rw [atoi_iff.mpr hd] at this
      cases this
    have key : ∀ {n s xs t}, Dotted n s xs t → t = [] → (32 : UInt8) ∉ s := by
      intro n s xs t h ht
      induction h with
      | nothing => simp
      | last hd => exact num hd
      | next hd _ ih =>
        intro hm
        rcases List.mem_append.mp hm with hm | hm
        · rcases List.mem_append.mp hm with hm | hm
          · exact num hd hm
          · revert hm; decide
        · exact ih ht hm
      | rest => rw [ht]; simp
    exact key h ht hm

/-- **C91** (what holds of suffixes). Whether or not there is an error, a suffix is the end of the text, after a space or a dash which comes after four dots. -/
theorem C91_suffix_partial {s : Bytes} (hs : (({} : Version).parse s).1.suffix ≠ []) :
    ∃ a c, s = a ++ c :: (({} : Version).parse s).1.suffix ∧ (c = 32 ∨ c = 45) ∧ 4 ≤ a.count 46 := by
  by_cases hok : (({} : Version).parse s).2 = false
  · obtain ⟨xs, t, h⟩ := C91_accepted.mp hok
    obtain ⟨x, hx⟩ := AfterMark.exists t
    obtain ⟨v, h1, -, rfl⟩ := C91_parse h hx
    rw [h1] at hs ⊢
    have ht : t ≠ [] := by
      rintro rfl
      generalize v.suffix = x at hs hx
      generalize he : ([] : Bytes) = t at hx
      cases hx with
      | without => exact hs rfl
      | after => simp at he
    obtain ⟨b, rfl, hb⟩ := h.split ht
    generalize v.suffix = x at hs hx
    cases hx with
    | without => exact absurd rfl hs
    | @after a x c _ _ hc => exact ⟨b ++ a, c, by simp, hc, by rw [List.count_append]; omega⟩
  · exact absurd (parse_failed_suffix hok) hs

/-- **C91** refuted: "10-beta" is refused. -/
theorem C91_refuted : ¬ C91Claim := by
  intro h
  obtain ⟨v, h1, h2⟩ := h (ascii "10") (ascii "beta") 10 45 (.bare (.more (.one (k := 1) (by decide)) (k := 0) (by decide)) (by decide)) (.inr rfl) (by decide)
  have := (C91_no_suffix_partial (s := ascii "10" ++ 45 :: ascii "beta") (by decide)).1
  rw [h1] at this
  rw [show v.suffix = ascii "beta" from h2] at this
  exact absurd this (by decide)

/-- Four numbers, a dot, more text and a mark: the suffix. -/
example : ∃ v, ({} : Version).parse (ascii "1.+2.-3.4294967297.x-beta 2") = (v, false) ∧ Spec.comps v = [1, 2, -3, 1] ∧ v.suffix = ascii "beta 2" := by
  have h := C91_parse (s := ascii "1.+2.-3.4294967297.x-beta 2") (t := ascii "x-beta 2") (x := ascii "beta 2") (xs := [1, 2, -3, 4294967297])
    (.next (d := ascii "1") (r := ascii "+2.-3.4294967297.x-beta 2") (atoi_iff.mp (by decide +kernel)) <|
      .next (d := ascii "+2") (r := ascii "-3.4294967297.x-beta 2") (atoi_iff.mp (by decide +kernel)) <|
      .next (d := ascii "-3") (r := ascii "4294967297.x-beta 2") (atoi_iff.mp (by decide +kernel)) <|
      .next (d := ascii "4294967297") (r := ascii "x-beta 2") (atoi_iff.mp (by decide +kernel)) .rest)
    (.after (a := ascii "x") (by decide) (by decide) (.inr rfl))
  exact h

example : ∃ a c, ascii "1.2.3.4. 5-6" = a ++ c :: ascii "5-6" ∧ (c = 32 ∨ c = 45) ∧ 4 ≤ a.count 46 := by
  have e : (({} : Version).parse (ascii "1.2.3.4. 5-6")).1.suffix = ascii "5-6" := by decide +kernel
  have := C91_suffix_partial (s := ascii "1.2.3.4. 5-6") (by rw [e]; decide)
  rwa [e] at this

example : (({} : Version).parse (ascii "1.2.")).2 = false := C91_accepted.mpr ⟨[1, 2], [],
  .next (d := ascii "1") (r := ascii "2.") (atoi_iff.mp (by decide +kernel)) (.next (d := ascii "2") (r := []) (atoi_iff.mp (by decide +kernel)) .nothing)⟩

/-- The largest number, and one more. -/
example : (({} : Version).parse (ascii "9223372036854775807")).2 = false ∧ (({} : Version).parse (ascii "9223372036854775808")).2 = true := by decide +kernel

example : (({} : Version).parse (ascii "10.7 beta")).1.suffix = [] ∧ (ascii "10.7 beta").count 46 < 4 := ⟨(C91_no_suffix_partial (by decide)).1, by decide⟩

end Verif
