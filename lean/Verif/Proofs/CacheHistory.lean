import Verif.Proofs.Cache
import Verif.Spec.Cache
import Mathlib.Data.List.Induction
/-
The cache refines its history-based specification: induction over operation histories.
-/
namespace Verif
open CacheState Spec

theorem Spec.SameResult.refl (a : CacheEntry) : SameResult a a := by simp [SameResult]

theorem Spec.SameResult.trans {a b c : CacheEntry} (h1 : SameResult a b) (h2 : SameResult b c) : SameResult a c := by
  unfold SameResult at *
  obtain ⟨a1, a2, a3, a4, a5, a6, a7, a8, a9, a10, a11, a12⟩ := h1
  obtain ⟨b1, b2, b3, b4, b5, b6, b7, b8, b9, b10, b11, b12⟩ := h2
  exact ⟨a1.trans b1, a2.trans b2, a3.trans b3, a4.trans b4, a5.trans b5, a6.trans b6, a7.trans b7, a8.trans b8, a9.trans b9,
    a10.trans b10, a11.trans b11, a12.trans b12⟩

theorem run_snoc (H) (ops : List CacheOp) (o : CacheOp) :
    CacheState.run H (ops ++ [o]) = (CacheState.run H ops).bind (fun st => st.step H o) := by
  simp only [CacheState.run, List.foldlM_append, List.foldlM_cons, List.foldlM_nil]
  cases ops.foldlM (CacheState.step H) CacheState.empty with
  | none => rfl
  | some st => simp

theorem run_append (H) (a b : List CacheOp) :
    CacheState.run H (a ++ b) = (CacheState.run H a).bind (fun st => b.foldlM (CacheState.step H) st) := by
  simp only [CacheState.run, List.foldlM_append]
  cases a.foldlM (CacheState.step H) CacheState.empty <;> rfl

/-- Invariant linking a state to the history that produced it. -/
structure Good (H : Bytes → UInt64) (ops : List CacheOp) (st : CacheState) : Prop where
  inv : st.Inv
  ptrs : ∀ p ∈ st.buf, p ∈ setPtrs ops
  val : ∀ k, NoCollision H ops k → ∀ p, st.lookup (H k) = some p →
    ∃ e, lastSet ops k = some e ∧ SameResult (st.heap p) e ∧ lastUse ops k = some (st.heap p).timestamp
  miss : ∀ k, st.lookup (H k) = none → lastSet ops k = none ∨ CleanSince ops k

theorem Spec.CleanSince.snoc {ops : List CacheOp} {k : Bytes} (o : CacheOp) (h : CleanSince ops k)
    (ho : ∀ k' p e t, o = CacheOp.set k' p e t → k' ≠ k) : CleanSince (ops ++ [o]) k := by
  obtain ⟨pre, post, he, hs, t, ht⟩ := h
  refine ⟨pre, post ++ [o], by simp [he], ?_, t, by simp [ht]⟩
  intro k' p e t' hm
  rcases List.mem_append.1 hm with hm | hm
  · exact hs _ _ _ _ hm
  · exact ho _ _ _ _ (List.mem_singleton.1 hm).symm

theorem lastSet_snoc (ops : List CacheOp) (o : CacheOp) (k : Bytes) :
    lastSet (ops ++ [o]) k = match o with
      | .set k' _ e _ => if k' = k then some e else lastSet ops k
      | _ => lastSet ops k := by
  simp only [lastSet, List.reverse_append, List.reverse_cons, List.reverse_nil, List.nil_append, List.singleton_append,
    List.findSome?_cons]
  cases o with
  | set k' p e t => by_cases h : k' = k <;> simp [h]
  | get => rfl
  | clean => rfl

theorem lastUse_snoc (ops : List CacheOp) (o : CacheOp) (k : Bytes) :
    lastUse (ops ++ [o]) k = match o with
      | .set k' _ _ t => if k' = k then some t else lastUse ops k
      | .get k' t => if k' = k then some t else lastUse ops k
      | .clean _ => lastUse ops k := by
  simp only [lastUse, List.reverse_append, List.reverse_cons, List.reverse_nil, List.nil_append, List.singleton_append,
    List.findSome?_cons]
  cases o with
  | set k' p e t => by_cases h : k' = k <;> simp [h]
  | get k' t => by_cases h : k' = k <;> simp [h]
  | clean => rfl

theorem setPtrs_snoc (ops : List CacheOp) (o : CacheOp) :
    setPtrs (ops ++ [o]) = setPtrs ops ++ (match o with | .set _ p _ _ => [p] | _ => []) := by
  cases o <;> simp [setPtrs, List.filterMap_append]

theorem usedKeys_snoc (ops : List CacheOp) (o : CacheOp) :
    usedKeys (ops ++ [o]) = usedKeys ops ++ (match o with | .set k _ _ _ => [k] | .get k _ => [k] | .clean _ => []) := by
  cases o <;> simp [usedKeys, List.filterMap_append]

theorem Spec.NoCollision.of_snoc {H} {ops : List CacheOp} {o : CacheOp} {k : Bytes} (h : NoCollision H (ops ++ [o]) k) :
    NoCollision H ops k := by
  intro k' hk' he
  exact h k' (by rw [usedKeys_snoc]; exact List.mem_append_left _ hk') he

theorem good_empty (H) : Good H [] CacheState.empty := by
  refine ⟨inv_empty _, by simp [empty], ?_, ?_⟩
  · intro k _ p hp; simp [lookup, empty] at hp
  · intro k _; left; rfl

/-- Overwriting the contents of an unused pointer is invisible. -/
theorem good_write {H} {ops : List CacheOp} {st : CacheState} (h : Good H ops st) (p : Ptr) (e : CacheEntry) (hp : p ∉ setPtrs ops) :
    Good H ops { st with heap := fun q => if q = p then e else st.heap q } := by
  have hne : ∀ q ∈ st.buf, q ≠ p := fun q hq he => hp (he ▸ h.ptrs q hq)
  have hI : ({ st with heap := fun q => if q = p then e else st.heap q } : CacheState).Inv := by
    intro hh i
    simp only
    rw [h.inv hh i]
    constructor <;> rintro ⟨q, hq, hk⟩ <;> refine ⟨q, hq, ?_⟩ <;>
      (have := hne q (List.mem_of_getElem? hq)) <;> simpa [this] using hk
  refine ⟨hI, h.ptrs, ?_, h.miss⟩
  · intro k hk q hq
    have hm := ((lookup_iff h.inv (H k) q).1 hq).1
    simp only [hne q hm, if_false]
    exact h.val k hk q hq

theorem good_step {H} {ops : List CacheOp} {st : CacheState} (h : Good H ops st) (o : CacheOp) (hf : Fresh (ops ++ [o])) :
    ∃ st', st.step H o = some st' ∧ Good H (ops ++ [o]) st' ∧ (∀ p ∈ setPtrs ops, SameResult (st'.heap p) (st.heap p)) := by
  cases o with
  | set k p e t =>
    have hp : p ∉ setPtrs ops := by
      rw [Fresh, setPtrs_snoc, List.nodup_append] at hf
      intro hm; exact hf.2.2 p hm p (by simp) rfl
    have hw := good_write h p e hp
    have hpb : p ∉ st.buf := fun hm => hp (h.ptrs p hm)
    obtain ⟨st', h1, h2, h3, h4, h5⟩ := set_spec hw.inv H k p t hpb
    refine ⟨st', h1, ⟨h2, ?_, ?_, ?_⟩, ?_⟩
    · intro q hq
      rw [setPtrs_snoc]
      rcases (h5 q).1 hq with rfl | ⟨hq, _⟩
      · simp
      · exact List.mem_append_left _ (h.ptrs q hq)
    · intro k' hnc q hq
      rw [h4] at hq
      by_cases hk : H k' = H k
      · rw [if_pos hk] at hq; cases hq
        have : k = k' := hnc k (by rw [usedKeys_snoc]; simp) hk.symm
        subst this
        rw [lastSet_snoc, lastUse_snoc, h3]
        simp [SameResult]
      · rw [if_neg hk] at hq
        have hkk : k ≠ k' := by rintro rfl; exact hk rfl
        obtain ⟨e', a, b, c⟩ := hw.val k' hnc.of_snoc q hq
        have hqb : q ∈ st.buf := ((lookup_iff hw.inv _ q).1 hq).1
        have hqp : q ≠ p := fun e => hpb (e ▸ hqb)
        refine ⟨e', ?_, ?_, ?_⟩
        · rw [lastSet_snoc]; simp [hkk, a]
        · rw [h3, if_neg hqp]; exact b
        · rw [lastUse_snoc]; simp only [hkk, if_false]; rw [h3, if_neg hqp]; exact c
    · intro k' hmiss
      rw [h4] at hmiss
      by_cases hk : H k' = H k
      · rw [if_pos hk] at hmiss; cases hmiss
      · rw [if_neg hk] at hmiss
        have hkk : k ≠ k' := by rintro rfl; exact hk rfl
        rcases hw.miss k' hmiss with a | a
        · left; rw [lastSet_snoc]; simp [hkk, a]
        · right; exact a.snoc _ (by rintro k2 p2 e2 t2 ⟨⟩; exact hkk)
    · intro q hq
      have hqp : q ≠ p := fun e => hp (e ▸ hq)
      rw [h3, if_neg hqp]; simp [hqp, SameResult]
  | get k t =>
    refine ⟨_, rfl, ⟨inv_get h.inv H k t, ?_, ?_, ?_⟩, ?_⟩
    · intro p hp
      rw [setPtrs_snoc]; simp only [List.append_nil]
      apply h.ptrs
      rw [get_eq h.inv] at hp
      revert hp; cases st.lookup (H k) <;> exact id
    · intro k' hnc p hp
      rw [get_lookup] at hp
      obtain ⟨e, a, b, c⟩ := h.val k' hnc.of_snoc p hp
      rw [lastSet_snoc, lastUse_snoc, get_eq h.inv]
      refine ⟨e, a, ?_⟩
      by_cases hk : k = k'
      · subst hk
        rw [hp]
        simp only [if_true]
        exact ⟨b, trivial⟩
      · simp only [hk, if_false]
        cases hq : st.lookup (H k) with
        | none => exact ⟨b, c⟩
        | some q =>
          by_cases hqp : p = q
          · subst hqp
            -- the same entry reached through a colliding key: excluded
            exfalso
            have h1 := (lookup_iff h.inv _ _).1 hp
            have h2 := (lookup_iff h.inv _ _).1 hq
            have hHe : H k' = H k := h1.2.symm.trans h2.2
            exact hk (hnc k (by rw [usedKeys_snoc]; simp) hHe.symm)
          · simp only [hqp, if_false]; exact ⟨b, c⟩
    · intro k' hmiss
      rw [get_lookup] at hmiss
      rw [lastSet_snoc]
      rcases h.miss k' hmiss with a | a
      · left; exact a
      · right; exact a.snoc _ (by intro _ _ _ _ e; cases e)
    · intro p _
      rw [get_eq h.inv]
      cases st.lookup (H k) with
      | none => exact SameResult.refl _
      | some q => simp only; split <;> simp [SameResult]
  | clean t =>
    have hI' : (st.clean t).Inv := inv_cleanLoop t 0 st h.inv
    have hh : (st.clean t).heap = st.heap := cleanLoop_heap t 0 st
    have hsub : ∀ hk p, (st.clean t).lookup hk = some p → st.lookup hk = some p := by
      intro hk p hp
      obtain ⟨a, b⟩ := (lookup_iff hI' hk p).1 hp
      rw [hh] at b
      exact (lookup_iff h.inv hk p).2 ⟨(mem_cleanLoop t 0 st p).1 a, b⟩
    refine ⟨_, rfl, ⟨hI', ?_, ?_, ?_⟩, ?_⟩
    · intro p hp
      rw [setPtrs_snoc]; simp only [List.append_nil]
      exact h.ptrs p ((mem_cleanLoop t 0 st p).1 hp)
    · intro k hnc p hp
      rw [lastSet_snoc, lastUse_snoc, hh]
      exact h.val k hnc.of_snoc p (hsub _ _ hp)
    · intro k _
      right
      exact ⟨ops, [.clean t], rfl, by simp, t, by simp⟩
    · intro p _
      rw [hh]; exact SameResult.refl _

theorem good_run (H) (ops : List CacheOp) (hf : Fresh ops) : ∃ st, CacheState.run H ops = some st ∧ Good H ops st := by
  induction ops using List.reverseRecOn with
  | nil => exact ⟨_, rfl, good_empty H⟩
  | append_singleton ops o ih =>
    have hf' : Fresh ops := by
      rw [Fresh, setPtrs_snoc, List.nodup_append] at hf; exact hf.1
    obtain ⟨st, h1, h2⟩ := ih hf'
    obtain ⟨st', h3, h4, _⟩ := good_step h2 o hf
    exact ⟨st', by rw [run_snoc, h1]; exact h3, h4⟩

theorem good_run_keeps (H) (ops more : List CacheOp) (hf : Fresh (ops ++ more)) :
    ∃ st st', CacheState.run H ops = some st ∧ CacheState.run H (ops ++ more) = some st' ∧ Good H ops st ∧ Good H (ops ++ more) st' ∧
      ∀ p ∈ setPtrs ops, SameResult (st'.heap p) (st.heap p) := by
  induction more using List.reverseRecOn with
  | nil =>
    rw [List.append_nil] at hf ⊢
    obtain ⟨st, h1, h2⟩ := good_run H ops hf
    exact ⟨st, st, h1, h1, h2, h2, fun p _ => SameResult.refl _⟩
  | append_singleton more o ih =>
    have hf' : Fresh (ops ++ more) := by
      rw [← List.append_assoc, Fresh, setPtrs_snoc, List.nodup_append] at hf; exact hf.1
    obtain ⟨st, st', h1, h2, h3, h4, h5⟩ := ih hf'
    rw [← List.append_assoc] at hf ⊢
    obtain ⟨st2, h6, h7, h8⟩ := good_step h4 o hf
    refine ⟨st, st2, h1, by rw [run_snoc, h2]; exact h6, h3, h7, ?_⟩
    intro p hp
    refine SameResult.trans (h8 p ?_) (h5 p hp)
    simp only [setPtrs, List.filterMap_append]; exact List.mem_append_left _ hp

theorem expired_iff (st : CacheState) (t : Int64) (p : Ptr) (ht : 0 ≤ t) (hs : 0 ≤ (st.heap p).timestamp) :
    st.expired t p = true ↔ OlderThanHour t (st.heap p).timestamp := by
  unfold expired OlderThanHour
  rw [decide_eq_true_iff]
  show cacheTTL < t - _ ↔ _
  rw [Int64.lt_iff_toInt_lt, Int64.toInt_sub]
  have h1 := Int64.le_iff_toInt_le.1 ht
  have h2 := Int64.le_iff_toInt_le.1 hs
  have h3 := Int64.toInt_lt t
  have h4 := Int64.toInt_lt (st.heap p).timestamp
  rw [Int64.toInt_zero] at h1 h2
  rw [Int.bmod_eq_of_le (by omega) (by omega)]
  rw [show cacheTTL.toInt = 3600000000000 by decide]

end Verif
