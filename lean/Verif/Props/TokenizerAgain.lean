import Verif.Props.Tokenizer
/-
C95: using a tokenizer for another text.
-/
namespace Verif

open Tokenizer

/-- The natural claim: a tokenizer that has come to the end of one text gives the tokens of the next. -/
def C95Claim : Prop := ∀ (a b : Bytes) (n p : Nat) (rs : List (Option Bytes)), (255 : UInt8) ∉ a → (255 : UInt8) ∉ b →
  calls a 0 n = some (p, rs) → none ∈ rs → ∀ m, ∃ p', calls b p m = some (p', (List.range m).map fun k => (Spec.tokens b)[k]?)

/-- The position after the end of a text was reported is the end of the text. -/
theorem calls_end {a : Bytes} (ha : (255 : UInt8) ∉ a) (n : Nat) : ∀ {pos p : Nat} {rs : List (Option Bytes)}, pos ≤ a.length → calls a pos n = some (p, rs) →
    p ≤ a.length ∧ (none ∈ rs → p = a.length) := by
  induction n with
  | zero =>
    intro pos p rs hp h
    cases h
    exact ⟨hp, nofun⟩
  | succ n ih =>
    intro pos p rs hp h
    obtain ⟨q, r, h1, -, h3, -, h5, -⟩ := C39_progress a ha pos hp
    rw [calls, h1] at h
    simp only [Option.bind_eq_bind, Option.bind_some] at h
    cases hc : calls a q n with
    | none => rw [hc] at h; cases h
    | some x =>
      obtain ⟨p', rs'⟩ := x
      rw [hc] at h
      cases h
      obtain ⟨i1, i2⟩ := ih h3 hc
      refine ⟨i1, fun hm => ?_⟩
      rcases List.mem_cons.mp hm with hm | hm
      · obtain ⟨e, hr⟩ := h5 hm.symm
        rw [hr n] at hc
        cases hc
        exact e
      · exact i2 hm

/-- **C95** (what holds). After the end of text `a` was reported, the calls on text `b` give the tokens of `b` without its first `len(a)` bytes. -/
theorem C95_again_partial {a b : Bytes} {n p : Nat} {rs : List (Option Bytes)} (ha : (255 : UInt8) ∉ a) (hb : (255 : UInt8) ∉ b)
    (h : calls a 0 n = some (p, rs)) (he : none ∈ rs) (m : Nat) :
    ∃ p', calls b p m = some (p', (List.range m).map fun k => (Spec.tokens (b.drop a.length))[k]?) := by
  rw [(calls_end ha n (Nat.zero_le _) h).2 he]
  exact calls_eq b hb a.length m

/-- **C95** (what holds). So a text that is not longer has no token at all. -/
theorem C95_shorter_partial {a b : Bytes} {n p : Nat} {rs : List (Option Bytes)} (ha : (255 : UInt8) ∉ a) (hl : b.length ≤ a.length)
    (h : calls a 0 n = some (p, rs)) (he : none ∈ rs) (m : Nat) : calls b p m = some (p, List.replicate m none) := by
  rw [(calls_end ha n (Nat.zero_le _) h).2 he]
  induction m with
  | zero => rfl
  | succ m ih =>
    rw [calls, next, if_pos hl]
    simp [ih, List.replicate_succ]

/-- **C95** (what holds). After `Reset`, wherever the tokenizer was, the calls give the tokens of the next text. -/
theorem C95_reset_partial {b : Bytes} (hb : (255 : UInt8) ∉ b) (p m : Nat) :
    ∃ p', calls b (reset p) m = some (p', (List.range m).map fun k => (Spec.tokens b)[k]?) := calls_eq b hb 0 m

theorem two_calls : calls (ascii "abc") 0 2 = some (3, [some (ascii "abc"), none]) := by
  have h := C37_tokens (ascii "abc") (by decide) 2
  obtain ⟨p, h⟩ := h
  have he := (calls_end (by decide) 2 (Nat.zero_le _) h).2 (by decide +kernel)
  rw [h, he]
  decide +kernel

/-- **C95** refuted: after "abc" the text "xyz" has no tokens. -/
theorem C95_refuted : ¬ C95Claim := by
  intro h
  obtain ⟨p', h'⟩ := h (ascii "abc") (ascii "xyz") 2 _ _ (by decide) (by decide) two_calls (by decide) 1
  rw [C95_shorter_partial (by decide) (by decide) two_calls (by decide) 1] at h'
  injection h' with h'
  injection h' with _ h'
  revert h'
  decide +kernel

/-- After "abc" the text "Mozilla/5.0" begins with "illa". -/
example : ∃ p', calls (ascii "Mozilla/5.0") 3 2 = some (p', [some (ascii "illa"), some (ascii "5")]) := by
  obtain ⟨p', h⟩ := C95_again_partial (b := ascii "Mozilla/5.0") (by decide) (by decide) two_calls (by decide) 2
  exact ⟨p', h.trans (by congr 1)⟩

example : ∃ p', calls (ascii "Mozilla/5.0") (reset 3) 2 = some (p', [some (ascii "Mozilla"), some (ascii "5")]) := by
  obtain ⟨p', h⟩ := C95_reset_partial (b := ascii "Mozilla/5.0") (by decide) 3 2
  exact ⟨p', h.trans (by congr 1)⟩

end Verif
