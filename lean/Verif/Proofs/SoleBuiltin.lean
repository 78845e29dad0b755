import Verif.Proofs.SoleSys
import Verif.Proofs.Builtin
import Verif.Proofs.Exec
/-
Sessions (`Session`) in executions with the built-in cache, and a way to recognise them in a given log.
-/
namespace Verif

section
variable {G : Bytes → Prop}

theorem Kept.usedBy {l l' : List Event} (h : Kept G l l') {t : Nat} {q : Req} (hu : UsedBy t l' q) : UsedBy t l q := by
  induction h with
  | nil => exact hu
  | @keep l l' h e ih =>
    obtain ⟨pre, post, g, he, hq⟩ := hu
    rcases List.eq_nil_or_concat post with rfl | ⟨post', x, rfl⟩
    · have h1 := List.append_inj_left' he rfl
      have h2 := List.append_inj_right' he rfl
      simp only [List.cons.injEq, and_true] at h2
      subst h1 h2
      refine ⟨l, [], g, rfl, ?_⟩
      rw [← h.reqOf, hq]
    · rw [List.concat_eq_append, ← List.cons_append, ← List.append_assoc] at he
      exact (ih ⟨pre, post', g, List.append_inj_left' he rfl, hq⟩).append
  | drop h he hn ih => exact (ih hu).append

/-- A prefix of a log becomes a prefix of what is kept of it. -/
theorem Kept.split {l l' : List Event} (h : Kept G l l') {l1 : List Event} : ∀ l2, l = l1 ++ l2 → ∃ l1' l2', l' = l1' ++ l2' ∧ Kept G l1 l1' ∧ l2'.Sublist l2 := by
  induction h with
  | nil =>
    intro l2 hl
    obtain ⟨rfl, rfl⟩ := List.nil_eq_append_iff.mp hl
    exact ⟨[], [], rfl, .nil, .refl _⟩
  | @keep l l' h e ih =>
    intro l2 hl
    rcases List.eq_nil_or_concat l2 with rfl | ⟨l2, x, rfl⟩
    · rw [List.append_nil] at hl
      subst hl
      exact ⟨l' ++ [e], [], by simp, h.keep e, .refl _⟩
    · rw [List.concat_eq_append, ← List.append_assoc] at hl
      have h1 := List.append_inj_left' hl rfl
      have h2 := List.append_inj_right' hl rfl
      simp only [List.cons.injEq, and_true] at h2
      subst h2
      obtain ⟨a, b, rfl, ka, kb⟩ := ih l2 h1
      rw [List.concat_eq_append]
      exact ⟨a, b ++ [e], by simp, ka, kb.append (.refl _)⟩
  | @drop l l' h e t he hn ih =>
    intro l2 hl
    rcases List.eq_nil_or_concat l2 with rfl | ⟨l2, x, rfl⟩
    · rw [List.append_nil] at hl
      subst hl
      exact ⟨l', [], by simp, h.drop he hn, .refl _⟩
    · rw [List.concat_eq_append, ← List.append_assoc] at hl
      obtain ⟨a, b, rfl, ka, kb⟩ := ih l2 (List.append_inj_left' hl rfl)
      rw [List.concat_eq_append]
      exact ⟨a, b, rfl, ka, kb.trans (List.sublist_append_left _ _)⟩

/-- The contexts asked, with the configuration in force. -/
def usedByList : List Event → List Event → List (Nat × Req)
  | _, [] => []
  | pre, e :: log =>
    let rest := usedByList (pre ++ [e]) log
    match e with
    | .call t (.get _) => (t, reqOf pre t) :: rest
    | _ => rest

theorem mem_usedByList {t : Nat} {q : Req} : ∀ (log pre : List Event), (∃ a b g, log = a ++ .call t (.get g) :: b ∧ reqOf (pre ++ a) t = q) →
    (t, q) ∈ usedByList pre log := by
  intro log
  induction log with
  | nil => rintro pre ⟨a, b, g, h, -⟩; simp at h
  | cons e log ih =>
    rintro pre ⟨a, b, g, h, hq⟩
    cases a with
    | nil =>
      simp only [List.nil_append, List.cons.injEq] at h
      rw [h.1, usedByList]
      simp only [List.append_nil] at hq
      simp [hq]
    | cons x a =>
      simp only [List.cons_append, List.cons.injEq] at h
      have := ih (pre ++ [e]) ⟨a, b, g, h.2, by rw [h.1]; simpa using hq⟩
      unfold usedByList
      split
      · exact List.mem_cons_of_mem _ this
      · exact this

/-- Not a setter on `t`. -/
def Event.getOnly (t : Nat) : Event → Bool
  | .call _ (.get _) => true
  | .call t' _ => t' != t
  | _ => true

theorem Session.of_lists {t : Nat} {u : Bytes} {pre1 l : List Event} (h1 : ∀ q ∈ usedList [] pre1, q.ua ≠ u) (h2 : ∀ e ∈ l, e.getOnly t = true)
    (h3 : ∀ x ∈ usedByList [] (pre1 ++ l), x.1 ≠ t → x.2.ua ≠ u) : Session t u pre1 l := by
  refine ⟨fun q hq => h1 q (used_mem hq), fun op ho => ?_, fun t' ht q hq => ?_⟩
  · have := h2 _ ho
    cases op <;> simp [Event.getOnly] at this ⊢
  · obtain ⟨a, b, g, e1, e2⟩ := hq
    exact h3 (t', q) (mem_usedByList _ [] ⟨a, b, g, e1, by simpa using e2⟩) ht

end
end Verif
