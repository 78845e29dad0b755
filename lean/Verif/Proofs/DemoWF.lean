import Verif.Proofs.Check
import Verif.Spec.Demo
/-
The demonstration tables are well formed.
-/
namespace Verif.Demo
open Verif

theorem findSub_bound (s : Bytes) : ∀ (b : Bytes) (i k : Nat), findSub s b i = some k → i ≤ k ∧ k + s.length ≤ i + b.length := by
  intro b
  induction b with
  | nil =>
    intro i k h
    unfold findSub at h
    split at h
    · rename_i hs; cases h; simp [hs]
    · cases h
  | cons x b ih =>
    intro i k h
    unfold findSub at h
    split at h
    · rename_i hs
      cases h
      have := List.IsPrefix.length_le (List.isPrefixOf_iff_prefix.mp hs)
      omega
    · have := ih _ _ h
      simp; omega

theorem litRe_wf (l : String) : (litRe l).WF := by
  intro u m h
  unfold litRe at h
  dsimp only at h
  split at h
  · rename_i i hi
    cases h
    refine ⟨rfl, ?_⟩
    have hb := (findSub_bound _ _ _ _ hi).2
    have ht : ((List.drop (i + (ascii l).length) u).takeWhile fun c => decide ((48 ≤ c ∧ c ≤ 57) ∨ c = 46 ∨ c = 95)).length ≤ u.length - (i + (ascii l).length) := by
      have := (List.takeWhile_sublist (l := List.drop (i + (ascii l).length) u) fun c => decide ((48 ≤ c ∧ c ≤ 57) ∨ c = 46 ∨ c = 95)).length_le
      simpa using this
    intro j hj
    have hj : j ≤ 1 := hj
    have : j = 0 ∨ j = 1 := by omega
    rcases this with rfl | rfl
    · exact ⟨_, _, rfl, rfl, .inr ⟨by omega, by omega, by omega⟩⟩
    · exact ⟨_, _, rfl, rfl, .inr ⟨by omega, by omega, by omega⟩⟩
  · cases h

theorem plainRe_wf (l : String) : (plainRe l).WF := by
  intro u m h
  unfold plainRe at h
  dsimp only at h
  split at h
  · rename_i i hi
    cases h
    refine ⟨rfl, ?_⟩
    have hb := (findSub_bound _ _ _ _ hi).2
    intro j hj
    have hj : j ≤ 0 := hj
    have : j = 0 := by omega
    subst this
    exact ⟨_, _, rfl, rfl, .inr ⟨by omega, by omega, by omega⟩⟩
  · cases h

theorem litRe_group (l : String) : MandatoryGroup (litRe l) := by
  refine ⟨Nat.le_refl 1, fun u m h => ?_⟩
  unfold litRe at h
  dsimp only at h
  split at h
  · cases h
    exact ⟨_, by omega, rfl⟩
  · cases h

theorem tables_wf : tables.WF := by
  intro u
  have all : ∀ {α : Type} {l : List α} {p : α → Prop} {f : α → Bool}, (∀ x, f x = true → p x) → l.all f = true → ∀ x ∈ l, p x := by
    intro α l p f h h1 x hx
    exact h x (List.all_eq_true.mp h1 x hx)
  have cr : ∀ rows ∈ tables.crIdx, ∀ v ∈ rows, ClientRowWF tables v ∧ ClientGroupWF tables v :=
    all (fun rows h => all (fun v h => clientRow_of (nbuf := 26) (caps := [1, 1]) (nef := 0) (by decide) (by decide) (by decide) h) h) (by decide +kernel)
  refine WFfor.of ?_ (fun rows h v hv => (cr rows h v hv).1) (fun rows h v hv => (cr rows h v hv.mem.1).2) ?_ ?_ ⟨by decide, ?_⟩ ?_ ?_ ?_ ?_ ?_ ?_ ?_ ?_ ?_ ?_
  · intro i hi
    have : ∀ i, i < 7 → tables.crIdx[i]? ≠ none ∧ tables.crIdx[i]? ≠ some [] := by decide +kernel
    obtain ⟨h1, h2⟩ := this i hi
    obtain ⟨r, hr⟩ := Option.ne_none_iff_exists'.mp h1
    exact ⟨r, hr, fun h => h2 (by rw [hr, h])⟩
  · intro f hf; cases hf
  · intro e i h
    have : i = 0 := by
      unfold tables at h
      dsimp only at h
      split at h <;> cases h
      rfl
    subst this
    exact ⟨litRe "Chrome/", rfl, litRe_group _⟩
  · exact all (fun v h => osRow_of (nbuf := 17) (caps := [1, 1]) (nov := 0) (by decide) (by decide) (by decide) h u) (by decide +kernel)
  · intro v hv; cases hv
  · intro i hi
    have : ∀ i, i < 8 → tables.drIdx[i]? ≠ none ∧ tables.drIdx[i]? ≠ some [] := by decide +kernel
    obtain ⟨h1, h2⟩ := this i hi
    obtain ⟨r, hr⟩ := Option.ne_none_iff_exists'.mp h1
    exact ⟨r, hr, fun h => h2 (by rw [hr, h])⟩
  · exact all (fun rows h => all (fun v h => deviceRow_of (nbuf := 21) (nre := 1) (ndm := 1) (by decide) (by decide) (by decide) h) h) (by decide +kernel)
  · refine all (fun v h => modelRow_of (nbuf := 21) (nre := 1) (tmplB := fun e => e = e64 6 14) (by decide) (by decide) ?_ h) (by decide +kernel)
    intro e t he ht
    have he : e = e64 6 14 := by simpa using he
    subst he
    rw [← sliceE_iff] at ht
    have : sliceE? tables.drBuf (e64 6 14) = some (ascii "Pixel $1") := by decide +kernel
    rw [this] at ht; cases ht
    decide
  · exact all (fun v h => vendorRow_of (nbuf := 8) (nre := 2) (by decide) (by decide) h) (by decide +kernel)
  · intro h e he
    have : e = e64 0 8 := by
      unfold tables at he
      dsimp only at he
      split at he <;> cases he
      rfl
    subst this
    exact inBuf_of (n := 8) (by decide) (by decide +kernel)
  · intro re h; simp [tables] at h; rcases h with rfl | rfl <;> exact litRe_wf _
  · intro re h; simp [tables] at h; subst h; exact litRe_wf _
  · intro re h; simp [tables] at h; rcases h with rfl | rfl <;> exact litRe_wf _
  · intro re h; simp [tables] at h; subst h; exact litRe_wf _

end Verif.Demo
