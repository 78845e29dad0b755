import Verif.Proofs.CacheHistory
import Verif.Props.Codec
import Mathlib.Data.Fintype.EquivFin
/-
Properties C09-C15: the built-in cache (cache.go), over all histories of Set, Get and clean with arbitrary clock readings.
-/
namespace Verif
open CacheState Spec

instance (ops : List CacheOp) : Decidable (Fresh ops) := inferInstanceAs (Decidable (List.Nodup _))
instance (t s : Int64) : Decidable (OlderThanHour t s) := inferInstanceAs (Decidable (_ > _))

/-- Turns an evaluated check into an existence statement (used for concrete witnesses only). -/
theorem exists_of_check {α : Type} (x : Option α) (P : α → Prop) [DecidablePred P] (h : x.any (fun a => decide (P a)) = true) :
    ∃ a, x = some a ∧ P a := by
  cases x with
  | none => cases h
  | some a => exact ⟨a, rfl, of_decide_eq_true h⟩

/-- A small fresh history used in the non-vacuity examples: two keys, a Get, a clean in which one entry expires. -/
def exOps : List CacheOp :=
  [.set (ascii "k1") 0 { clientType := 1, data := ascii "a" } 0, .set (ascii "k2") 1 { clientType := 2 } 10, .get (ascii "k1") 20,
   .clean 3600000000015, .set (ascii "k2") 2 { clientType := 3 } 3600000000016]

/-! ### C09 -/

/-- C09: after any history with fresh entries nothing has panicked, and `Get(k)` returns the entry of the last `Set(k,_)` (with the
read time as its timestamp), or not-found, the latter only if `k` was never set or a clean ran since. -/
theorem C09_get_returns_last_set (H : Bytes → UInt64) (ops : List CacheOp) (hf : Fresh ops) :
    ∃ st, CacheState.run H ops = some st ∧ ∀ k now, NoCollision H ops k →
      match st.get H k now with
      | (st', some p) => ∃ e, lastSet ops k = some e ∧ SameResult (st'.heap p) e ∧ (st'.heap p).timestamp = now
      | (_, none) => lastSet ops k = none ∨ CleanSince ops k := by
  obtain ⟨st, h1, h2⟩ := good_run H ops hf
  refine ⟨st, h1, fun k now hnc => ?_⟩
  rw [get_eq h2.inv]
  cases hl : st.lookup (H k) with
  | none => exact h2.miss k hl
  | some p =>
    obtain ⟨e, a, b, _⟩ := h2.val k hnc p hl
    refine ⟨e, a, ?_, by simp⟩
    simp only [if_true]; exact b

example : Fresh exOps ∧ NoCollision fnv1 exOps (ascii "k1") := by
  constructor
  · decide
  · intro k' hk; revert k'; decide

example : lastSet exOps (ascii "k2") = some { clientType := 3 } := by decide

/-- A key that is neither set nor cleaned away is found: with `C09_get_returns_last_set`, the read-your-writes half. -/
theorem C09_read_your_write (H : Bytes → UInt64) (ops : List CacheOp) (k : Bytes) (p : Ptr) (e : CacheEntry) (t now : Int64)
    (hf : Fresh (ops ++ [.set k p e t])) :
    ∃ st, CacheState.run H (ops ++ [.set k p e t]) = some st ∧ (st.get H k now).2 = some p ∧ SameResult (st.heap p) e := by
  obtain ⟨st, h1, h2⟩ := good_run H ops (by rw [Fresh, setPtrs_snoc, List.nodup_append] at hf; exact hf.1)
  have hp : p ∉ setPtrs ops := by
    rw [Fresh, setPtrs_snoc, List.nodup_append] at hf
    intro hm; exact hf.2.2 p hm p (by simp) rfl
  have hw := good_write h2 p e hp
  obtain ⟨st', h3, h4, h5, h6, _⟩ := set_spec hw.inv H k p t (fun hm => hp (h2.ptrs p hm))
  refine ⟨st', ?_, ?_, ?_⟩
  · rw [run_snoc, h1]; exact h3
  · rw [get_eq h4, h6]; simp
  · rw [h5]; simp [SameResult]

/-! ### C10 -/

/-- C10: after any fresh history the cache holds at most one entry per hash key, every stored entry is found by Get, and no further
operation can panic. -/
theorem C10_consistent (H : Bytes → UInt64) (ops : List CacheOp) (hf : Fresh ops) :
    ∃ st, CacheState.run H ops = some st ∧
      (∀ i j (hi : i < st.buf.length) (hj : j < st.buf.length),
        (st.heap st.buf[i]).hkey = (st.heap st.buf[j]).hkey → i = j) ∧
      (∀ p ∈ st.buf, ∀ k now, H k = (st.heap p).hkey → (st.get H k now).2 = some p) ∧
      (∀ o, Fresh (ops ++ [o]) → st.step H o ≠ none) := by
  obtain ⟨st, h1, h2⟩ := good_run H ops hf
  refine ⟨st, h1, ?_, ?_, ?_⟩
  · intro i j hi hj h
    exact inv_inj h2.inv (List.getElem?_eq_getElem hi) (List.getElem?_eq_getElem hj) h
  · intro p hp k now hk
    rw [get_eq h2.inv, (lookup_iff h2.inv (H k) p).2 ⟨hp, hk.symm⟩]
  · intro o ho hn
    obtain ⟨st', h3, _⟩ := good_step h2 o ho
    rw [h3] at hn; cases hn

example : ∃ st, CacheState.run fnv1 exOps = some st ∧ st.buf.length = 2 :=
  exists_of_check _ _ (by decide +kernel)

/-! ### C11 -/

/-- C11: let `k` be retrievable after a fresh history, and let `s` be the time of its last Set or Get. A clean at any `t` not more
than an hour after `s` leaves it retrievable, same entry, same contents. (Clock readings after 1970, i.e. non-negative.) -/
theorem C11_recent_survives (H : Bytes → UInt64) (ops : List CacheOp) (hf : Fresh ops) (st : CacheState)
    (hst : CacheState.run H ops = some st) (k : Bytes) (hnc : NoCollision H ops k) (p : Ptr) (now : Int64)
    (hget : (st.get H k now).2 = some p) :
    ∃ s, lastUse ops k = some s ∧ ∀ t, 0 ≤ s → 0 ≤ t → ¬ OlderThanHour t s →
      ((st.clean t).get H k now).2 = some p ∧ (st.clean t).heap p = st.heap p := by
  obtain ⟨st0, h1, h2⟩ := good_run H ops hf
  rw [hst] at h1; cases h1
  have hl : st.lookup (H k) = some p := by
    rw [get_eq h2.inv] at hget
    cases hl : st.lookup (H k) with
    | none => rw [hl] at hget; cases hget
    | some q => rw [hl] at hget; simpa using hget
  obtain ⟨e, _, _, c⟩ := h2.val k hnc p hl
  refine ⟨_, c, fun t hs ht hold => ?_⟩
  have hx : st.expired t p = false := by
    rw [← Bool.not_eq_true, expired_iff st t p ht hs]; exact hold
  obtain ⟨hm, hk⟩ := (lookup_iff h2.inv _ _).1 hl
  have hh : (st.clean t).heap = st.heap := cleanLoop_heap t 0 st
  have hI' : (st.clean t).Inv := inv_cleanLoop t 0 st h2.inv
  have hl' : (st.clean t).lookup (H k) = some p :=
    (lookup_iff hI' _ _).2 ⟨(mem_cleanLoop t 0 st p).2 hm hx, by rw [hh]; exact hk⟩
  exact ⟨by rw [get_eq hI', hl'], by rw [hh]⟩

/-- C11, general state form: a clean keeps exactly a subset of the entries, dropping only expired ones, and never alters one. -/
theorem C11_clean_only_drops_expired (st : CacheState) (t : Int64) :
    (∀ p ∈ (st.clean t).buf, p ∈ st.buf) ∧
    (∀ p ∈ st.buf, p ∉ (st.clean t).buf → t - (st.heap p).timestamp > 3600000000000) ∧
    (st.clean t).heap = st.heap := by
  refine ⟨fun p hp => (mem_cleanLoop t 0 st p).1 hp, fun p hp hn => ?_, cleanLoop_heap t 0 st⟩
  by_cases hx : st.expired t p = true
  · exact of_decide_eq_true hx
  · exact absurd ((mem_cleanLoop t 0 st p).2 hp (by simpa using hx)) hn

example : ∃ st, CacheState.run fnv1 exOps = some st ∧ (st.get fnv1 (ascii "k1") 5).2 = some 0 ∧
    lastUse exOps (ascii "k1") = some 20 ∧ ¬ OlderThanHour 3600000000020 20 ∧ OlderThanHour 3600000000021 20 :=
  exists_of_check _ _ (by decide +kernel)

/-! ### C12 -/

/-- C12 refuted: a fresh history after which a clean at `t` leaves an entry that was last used more than an hour before `t`. -/
theorem C12_refuted : ∃ (ops : List CacheOp) (k : Bytes) (t s : Int64), Fresh ops ∧ lastUse ops k = some s ∧ OlderThanHour t s ∧
    ∃ st, CacheState.run fnv1 ops = some st ∧ ((st.clean t).get fnv1 k t).2 ≠ none :=
  ⟨[.set (ascii "a") 0 {} 0, .set (ascii "b") 1 {} 0], ascii "b", 7200000000000, 0, by decide, by decide, by decide,
    exists_of_check _ _ (by decide +kernel)⟩

/-- C12, what holds: in any state one pass removes at least half of the expired entries. -/
theorem C12_halves_partial (st : CacheState) (t : Int64) :
    2 * ((st.clean t).buf.filter (fun p => t - (st.heap p).timestamp > 3600000000000)).length ≤
      (st.buf.filter (fun p => t - (st.heap p).timestamp > 3600000000000)).length := by
  have := cleanLoop_count t 0 st
  simp only [List.take_zero, List.drop_zero, List.countP_nil, Nat.mul_zero, Nat.zero_add] at this
  simp only [List.countP_eq_length_filter] at this
  exact this

/-- C12, what holds: if fewer than 2^n entries are expired, n passes at the same time remove all of them. -/
theorem C12_passes_partial (t : Int64) (n : Nat) (st : CacheState)
    (h : (st.buf.filter (fun p => t - (st.heap p).timestamp > 3600000000000)).length < 2 ^ n) :
    ∀ p ∈ (Nat.iterate (fun s => CacheState.clean s t) n st).buf, ¬ (t - (st.heap p).timestamp > 3600000000000) := by
  induction n generalizing st with
  | zero =>
    intro p hp hx
    have h0 : (st.buf.filter (fun p => t - (st.heap p).timestamp > 3600000000000)).length = 0 := by omega
    rw [List.length_eq_zero_iff, List.filter_eq_nil_iff] at h0
    exact h0 p hp (by simpa using hx)
  | succ n ih =>
    have hh : (st.clean t).heap = st.heap := cleanLoop_heap t 0 st
    have h2 := C12_halves_partial st t
    have h3 := ih (st.clean t) (by rw [hh]; rw [Nat.pow_succ] at h; omega)
    rw [hh] at h3
    exact h3

example : ∃ st, CacheState.run fnv1 [.set (ascii "a") 0 {} 0, .set (ascii "b") 1 {} 0] = some st ∧
    (st.buf.filter (fun p => (7200000000000 : Int64) - (st.heap p).timestamp > 3600000000000)).length = 2 :=
  exists_of_check _ _ (by decide +kernel)

/-! ### C13 -/

/-- C13: a Set of a fresh entry under `k2` never changes what Get returns for a key with a different hash. -/
theorem C13_no_interference (H : Bytes → UInt64) (ops : List CacheOp) (k1 k2 : Bytes) (p : Ptr) (e : CacheEntry) (t now : Int64)
    (hf : Fresh (ops ++ [.set k2 p e t])) (hne : H k1 ≠ H k2) :
    ∃ st st', CacheState.run H ops = some st ∧ CacheState.run H (ops ++ [.set k2 p e t]) = some st' ∧
      (st'.get H k1 now).2 = (st.get H k1 now).2 ∧
      ∀ q, (st.get H k1 now).2 = some q → st'.heap q = st.heap q := by
  have hf0 : Fresh ops := by rw [Fresh, setPtrs_snoc, List.nodup_append] at hf; exact hf.1
  obtain ⟨st, h1, h2⟩ := good_run H ops hf0
  have hp : p ∉ setPtrs ops := by
    rw [Fresh, setPtrs_snoc, List.nodup_append] at hf
    intro hm; exact hf.2.2 p hm p (by simp) rfl
  have hw := good_write h2 p e hp
  obtain ⟨st', h3, h4, h5, h6, _⟩ := set_spec hw.inv H k2 p t (fun hm => hp (h2.ptrs p hm))
  have hl : st'.lookup (H k1) = st.lookup (H k1) := by rw [h6, if_neg hne]; rfl
  refine ⟨st, st', h1, by rw [run_snoc, h1]; exact h3, ?_, ?_⟩
  · rw [get_eq h4, get_eq h2.inv, hl]
    cases st.lookup (H k1) <;> rfl
  · intro q hq
    rw [get_eq h2.inv] at hq
    cases hlq : st.lookup (H k1) with
    | none => rw [hlq] at hq; cases hq
    | some q' =>
      rw [hlq] at hq; cases hq
      have hm := ((lookup_iff h2.inv _ _).1 hlq).1
      have hqp : q ≠ p := fun e => hp (e ▸ h2.ptrs q hm)
      rw [h5, if_neg hqp]; simp [hqp]

theorem fnv1_example_ne : fnv1 (ascii "k1") ≠ fnv1 (ascii "k2") := by decide

/-- C13, the failing half: whatever the 64-bit hash, there are two different keys such that storing under the second one replaces what
Get returns for the first one. -/
theorem C13_collision_interferes (H : Bytes → UInt64) (e1 e2 : CacheEntry) (t1 t2 now : Int64) :
    ∃ k1 k2 : Bytes, k1 ≠ k2 ∧
      ∃ st, CacheState.run H [.set k1 0 e1 t1, .set k2 1 e2 t2] = some st ∧
        (st.get H k1 now).2 = some 1 ∧ SameResult (st.heap 1) e2 := by
  have : Finite UInt64 := Finite.of_injective UInt64.toFin (fun _ _ h => UInt64.toFin_inj.1 h)
  have : Infinite Bytes := inferInstanceAs (Infinite (List UInt8))
  have hni := not_injective_infinite_finite H
  rw [Function.Injective] at hni
  push Not at hni
  obtain ⟨k1, k2, he, hne⟩ := hni
  refine ⟨k1, k2, hne, ?_⟩
  have hf : Fresh ([CacheOp.set k1 0 e1 t1] ++ [.set k2 1 e2 t2]) := by simp [Fresh, setPtrs]
  obtain ⟨st, h1, h2, h3⟩ := C09_read_your_write H [.set k1 0 e1 t1] k2 1 e2 t2 now hf
  refine ⟨st, h1, ?_, h3⟩
  have : st.get H k1 now = st.get H k2 now := by unfold CacheState.get; rw [he]
  rw [this]; exact h2

/-! ### C14 -/

/-- C14 refuted: one entry stored under two keys, two periodic cleans after it expired, and the next Set panics with an index error. -/
theorem C14_refuted :
    CacheState.run fnv1 [.set (ascii "k1") 0 exEntry 0, .set (ascii "k2") 0 exEntry 0, .clean 7200000000000,
      .clean 7230000000000] ≠ none ∧
    CacheState.run fnv1 [.set (ascii "k1") 0 exEntry 0, .set (ascii "k2") 0 exEntry 0, .clean 7200000000000,
      .clean 7230000000000, .set (ascii "k1") 1 exEntry 7240000000000] = none := by
  rw [← Option.isNone_iff_eq_none, ← Option.isSome_iff_ne_none]
  decide +kernel

/-- C14 refuted, wrong answers: without any expiry, re-using an entry object for a second key changes what the first key returns. -/
theorem C14_refuted_alias (e1 e2 : CacheEntry) (now : Int64) :
    ∃ st, CacheState.run fnv1 [.set (ascii "k1") 0 e1 0, .set (ascii "k2") 0 e2 0] = some st ∧
      (st.get fnv1 (ascii "k1") now).2 = some 0 ∧ SameResult (st.heap 0) e2 :=
  ⟨_, rfl, rfl, by simp [SameResult]⟩

/-! ### C15 -/

/-- C15: an entry obtained from Get keeps its detection fields and Data through every continuation of the history. -/
theorem C15_entry_stable (H : Bytes → UInt64) (ops more : List CacheOp) (k : Bytes) (now : Int64)
    (hf : Fresh (ops ++ .get k now :: more)) (st : CacheState) (hst : CacheState.run H ops = some st) (p : Ptr)
    (hp : (st.get H k now).2 = some p) :
    ∃ st', CacheState.run H (ops ++ .get k now :: more) = some st' ∧ SameResult (st'.heap p) ((st.get H k now).1.heap p) := by
  obtain ⟨s1, s2, h1, h2, h3, h4, h5⟩ := good_run_keeps H ops (.get k now :: more) hf
  rw [hst] at h1; cases h1
  have hl : p ∈ setPtrs ops := by
    rw [get_eq h3.inv] at hp
    cases hl : st.lookup (H k) with
    | none => rw [hl] at hp; cases hp
    | some q => rw [hl] at hp; cases hp; exact h3.ptrs _ ((lookup_iff h3.inv _ _).1 hl).1
  refine ⟨s2, h2, SameResult.trans (h5 p hl) ?_⟩
  rw [get_eq h3.inv]
  cases st.lookup (H k) with
  | none => exact SameResult.refl _
  | some q => simp only; split <;> simp [SameResult]

example : Fresh (exOps ++ .get (ascii "k1") 5 :: [.set (ascii "k1") 7 {} 9, .clean 0]) ∧
    ∃ st, CacheState.run fnv1 exOps = some st ∧ (st.get fnv1 (ascii "k1") 5).2 = some 0 :=
  ⟨by decide, exists_of_check _ _ (by decide +kernel)⟩

end Verif
