import Verif.Model.Cache
/-
Invariant of the built-in cache and effect of its operations.
-/
namespace Verif
namespace CacheState

/-- `idx` is exactly the inverse of the hash keys of `buf`. -/
def Inv (st : CacheState) : Prop :=
  ∀ h i, st.idx h = some i ↔ ∃ p, st.buf[i]? = some p ∧ (st.heap p).hkey = h

theorem inv_empty (hp) : (empty hp).Inv := by intro h i; simp [empty]

/-- The pointer Get would find for a hash. -/
def lookup (st : CacheState) (h : UInt64) : Option Ptr := st.idx h >>= fun i => st.buf[i]?

theorem lookup_iff {st : CacheState} (hI : st.Inv) (h : UInt64) (p : Ptr) :
    st.lookup h = some p ↔ p ∈ st.buf ∧ (st.heap p).hkey = h := by
  unfold lookup
  constructor
  · intro hl
    cases hi : st.idx h with
    | none => simp [hi] at hl
    | some i =>
      simp only [hi, Option.bind_eq_bind, Option.bind_some] at hl
      obtain ⟨q, hq, hk⟩ := (hI h i).1 hi
      rw [hl] at hq; cases hq
      exact ⟨List.mem_of_getElem? hl, hk⟩
  · rintro ⟨hm, hk⟩
    obtain ⟨i, hi⟩ := List.mem_iff_getElem?.1 hm
    have := (hI h i).2 ⟨p, hi, hk⟩
    simp [this, hi]

theorem inv_inj {st : CacheState} (hI : st.Inv) {i j : Nat} {p q : Ptr} (hi : st.buf[i]? = some p) (hj : st.buf[j]? = some q)
    (h : (st.heap p).hkey = (st.heap q).hkey) : i = j := by
  have a := (hI _ i).2 ⟨p, hi, h⟩
  have b := (hI _ j).2 ⟨q, hj, rfl⟩
  rw [a] at b; exact Option.some.inj b

theorem inv_nodup {st : CacheState} (hI : st.Inv) : st.buf.Nodup := by
  rw [List.Nodup, List.pairwise_iff_getElem]
  intro i j hi hj hij he
  have := inv_inj hI (List.getElem?_eq_getElem hi) (List.getElem?_eq_getElem hj) (by rw [he])
  omega

theorem get_eq {st : CacheState} (hI : st.Inv) (H) (key : Bytes) (now : Int64) :
    st.get H key now = match st.lookup (H key) with
      | some p => ({ st with heap := fun q => if q = p then { st.heap q with timestamp := now } else st.heap q }, some p)
      | none => (st, none) := by
  unfold get lookup
  cases hi : st.idx (H key) with
  | none => simp
  | some i =>
    obtain ⟨p, hp, _⟩ := (hI _ i).1 hi
    obtain ⟨hlt, he⟩ := List.getElem?_eq_some_iff.1 hp
    simp [hlt]

theorem inv_get {st : CacheState} (hI : st.Inv) (H) (key : Bytes) (now : Int64) : (st.get H key now).1.Inv := by
  rw [get_eq hI]
  cases st.lookup (H key) with
  | none => exact hI
  | some p =>
    intro h i
    rw [show (({ st with heap := fun q => if q = p then { st.heap q with timestamp := now } else st.heap q } : CacheState).idx h)
      = st.idx h from rfl, hI h i]
    simp only
    constructor <;> rintro ⟨q, hq, hk⟩ <;> refine ⟨q, hq, ?_⟩ <;> revert hk <;> by_cases hqp : q = p <;> simp [hqp]

theorem get_lookup {st : CacheState} (H) (key : Bytes) (now : Int64) (h : UInt64) :
    (st.get H key now).1.lookup h = st.lookup h := by
  unfold get lookup
  split
  · split <;> rfl
  · rfl

/-- Set with a pointer that is not in the buffer never panics, keeps the invariant, and only redirects its own hash. -/
theorem set_spec {st : CacheState} (hI : st.Inv) (H) (key : Bytes) (p : Ptr) (now : Int64) (hp : p ∉ st.buf) :
    ∃ st', st.set H key p now = some st' ∧ st'.Inv ∧
      (∀ q, st'.heap q = if q = p then { st.heap q with hkey := H key, timestamp := now } else st.heap q) ∧
      (∀ h, st'.lookup h = if h = H key then some p else st.lookup h) ∧
      (∀ q, q ∈ st'.buf ↔ q = p ∨ (q ∈ st.buf ∧ (st.heap q).hkey ≠ H key)) := by
  have hfinish : ∀ st' : CacheState, st'.Inv →
      (∀ q, st'.heap q = if q = p then { st.heap q with hkey := H key, timestamp := now } else st.heap q) →
      (∀ q, q ∈ st'.buf ↔ q = p ∨ (q ∈ st.buf ∧ (st.heap q).hkey ≠ H key)) →
      (∀ h, st'.lookup h = if h = H key then some p else st.lookup h) := by
    intro st' hI' hh hb h
    by_cases hk : h = H key
    · rw [if_pos hk]
      exact (lookup_iff hI' h p).2 ⟨(hb p).2 (Or.inl rfl), by rw [hh p]; simp [hk]⟩
    · rw [if_neg hk]
      apply Option.ext; intro q
      have e1 := lookup_iff hI' h q
      have e2 := lookup_iff hI h q
      rw [e1, e2, hb q, hh q]
      by_cases hqp : q = p
      · subst hqp; simp [hp, Ne.symm hk]
      · simp only [hqp, false_or, if_false]
        constructor
        · rintro ⟨⟨a, b⟩, c⟩; exact ⟨a, c⟩
        · rintro ⟨a, c⟩; exact ⟨⟨a, by rw [c]; exact hk⟩, c⟩
  unfold set
  cases hi : st.idx (H key) with
  | some i =>
    obtain ⟨o, ho, hok⟩ := (hI _ i).1 hi
    obtain ⟨hlt, hoe⟩ := List.getElem?_eq_some_iff.1 ho
    simp only [hlt, if_true]
    have hop : o ≠ p := fun h => hp (h ▸ List.mem_of_getElem? ho)
    have hInv : ({ st with heap := fun q => if q = p then { st.heap q with hkey := H key, timestamp := now } else st.heap q,
                            buf := st.buf.set i p } : CacheState).Inv := by
      intro h j
      simp only
      rw [hI h j]
      by_cases hij : i = j
      · subst hij
        simp only [List.getElem?_set_self hlt, Option.some.injEq, exists_eq_left', ho]
        simp [hok]
      · rw [List.getElem?_set_ne hij]
        constructor <;> rintro ⟨q, hq, hk⟩ <;> refine ⟨q, hq, ?_⟩ <;>
          (have hqp : q ≠ p := fun h => hp (h ▸ List.mem_of_getElem? hq)) <;> simpa [hqp] using hk
    have hb : ∀ q, q ∈ st.buf.set i p ↔ q = p ∨ (q ∈ st.buf ∧ (st.heap q).hkey ≠ H key) := by
      intro q
      constructor
      · intro hq
        obtain ⟨j, hj⟩ := List.mem_iff_getElem?.1 hq
        by_cases hij : i = j
        · subst hij; rw [List.getElem?_set_self hlt] at hj; left; exact (Option.some.inj hj).symm
        · rw [List.getElem?_set_ne hij] at hj
          right
          refine ⟨List.mem_of_getElem? hj, fun hk => hij (inv_inj hI ho hj (hok.trans hk.symm))⟩
      · rintro (rfl | ⟨hq, hk⟩)
        · exact List.mem_set hlt q
        · obtain ⟨j, hj⟩ := List.mem_iff_getElem?.1 hq
          have hij : i ≠ j := by
            rintro rfl
            rw [ho] at hj; cases hj; exact hk hok
          exact List.mem_of_getElem? ((List.getElem?_set_ne hij).trans hj)
    exact ⟨_, rfl, hInv, fun _ => rfl, hfinish _ hInv (fun _ => rfl) hb, hb⟩
  | none =>
    have hno : ∀ q ∈ st.buf, (st.heap q).hkey ≠ H key := by
      intro q hq hk
      obtain ⟨j, hj⟩ := List.mem_iff_getElem?.1 hq
      have := (hI (H key) j).2 ⟨q, hj, hk⟩
      rw [hi] at this; cases this
    have hInv : ({ heap := fun q => if q = p then { st.heap q with hkey := H key, timestamp := now } else st.heap q,
                   idx := fun h => if h = H key then some ((st.buf ++ [p]).length - 1) else st.idx h,
                   buf := st.buf ++ [p] } : CacheState).Inv := by
      intro h j
      simp only [List.length_append, List.length_singleton, Nat.add_sub_cancel]
      by_cases hj : j < st.buf.length
      · rw [List.getElem?_append_left hj]
        by_cases hk : h = H key
        · subst hk
          simp only [if_true, Option.some.injEq]
          constructor
          · intro e; omega
          · rintro ⟨q, hq, hk⟩
            have hm := List.mem_of_getElem? hq
            have hqp : q ≠ p := fun h => hp (h ▸ hm)
            simp only [hqp, if_false] at hk
            exact absurd hk (hno q hm)
        · rw [if_neg hk, hI h j]
          constructor <;> rintro ⟨q, hq, hk⟩ <;> refine ⟨q, hq, ?_⟩ <;>
            (have hqp : q ≠ p := fun h => hp (h ▸ List.mem_of_getElem? hq)) <;> simpa [hqp] using hk
      · by_cases hje : j = st.buf.length
        · subst hje
          simp only [List.getElem?_append_right (Nat.le_refl _), Nat.sub_self, List.getElem?_cons_zero, Option.some.injEq,
            exists_eq_left', if_true]
          by_cases hk : h = H key
          · simp [hk]
          · rw [if_neg hk]
            constructor
            · intro e
              obtain ⟨q, hq, _⟩ := (hI h _).1 e
              simp at hq
            · intro e; exact absurd e.symm hk
        · have : (st.buf ++ [p])[j]? = none := by simp; omega
          rw [this]
          constructor
          · intro e
            by_cases hk : h = H key
            · rw [if_pos hk] at e; exact absurd (Option.some.inj e).symm hje
            · rw [if_neg hk] at e
              obtain ⟨q, hq, _⟩ := (hI h _).1 e
              obtain ⟨hlt, _⟩ := List.getElem?_eq_some_iff.1 hq
              exact absurd hlt hj
          · rintro ⟨q, hq, _⟩; cases hq
    have hb : ∀ q, q ∈ st.buf ++ [p] ↔ q = p ∨ (q ∈ st.buf ∧ (st.heap q).hkey ≠ H key) := by
      intro q
      rw [List.mem_append, List.mem_singleton]
      constructor
      · rintro (h | h)
        · exact Or.inr ⟨h, hno q h⟩
        · exact Or.inl h
      · rintro (h | h)
        · exact Or.inr h
        · exact Or.inl h.1
    exact ⟨_, rfl, hInv, fun _ => rfl, hfinish _ hInv (fun _ => rfl) hb, hb⟩

/-! ### clean -/

theorem removeAt_heap (st : CacheState) (i hi) : (st.removeAt i hi).heap = st.heap := rfl

theorem removeAt_getElem? (st : CacheState) (i : Nat) (hi : i < st.buf.length) (j : Nat) :
    (st.removeAt i hi).buf[j]? = if j < st.buf.length - 1 then (if j = i then st.buf[st.buf.length - 1]? else st.buf[j]?) else none := by
  simp only [removeAt, List.getElem?_take]
  by_cases hj : j < st.buf.length - 1
  · simp only [hj, if_true]
    by_cases hji : j = i
    · subst hji; rw [List.getElem?_set_self hi, if_pos rfl, List.getElem?_eq_getElem (by omega)]
    · rw [List.getElem?_set_ne (fun h => hji h.symm), if_neg hji]
  · simp [hj]

theorem inv_removeAt {st : CacheState} (hI : st.Inv) (i : Nat) (hi : i < st.buf.length) : (st.removeAt i hi).Inv := by
  intro h j
  rw [removeAt_getElem?, removeAt_heap]
  have hIi : st.buf[i]? = some st.buf[i] := List.getElem?_eq_getElem hi
  have hIl : st.buf[st.buf.length - 1]? = some st.buf[st.buf.length - 1] := List.getElem?_eq_getElem (by omega)
  have hidx : (st.removeAt i hi).idx h = if h = (st.heap st.buf[i]).hkey then none else
      (if i < st.buf.length - 1 then (if h = (st.heap st.buf[st.buf.length - 1]).hkey then some i else st.idx h) else st.idx h) := by
    simp only [removeAt, List.length_take, List.length_set]
    rw [show min (st.buf.length - 1) st.buf.length = st.buf.length - 1 by omega]
    split <;> rename_i hc
    · rfl
    · split <;> rfl
  rw [hidx]
  by_cases hold : h = (st.heap st.buf[i]).hkey
  · -- the removed hash
    simp only [hold, if_true]
    constructor
    · intro e; cases e
    · rintro ⟨q, hq, hk⟩
      by_cases hj : j < st.buf.length - 1
      · rw [if_pos hj] at hq
        by_cases hji : j = i
        · rw [if_pos hji] at hq
          have := inv_inj hI hq hIi hk
          omega
        · rw [if_neg hji] at hq
          exact absurd (inv_inj hI hq hIi hk) hji
      · rw [if_neg hj] at hq; cases hq
  · rw [if_neg hold]
    by_cases hlast : i < st.buf.length - 1
    · rw [if_pos hlast]
      by_cases hkl : h = (st.heap st.buf[st.buf.length - 1]).hkey
      · rw [if_pos hkl]
        constructor
        · intro e
          cases e
          exact ⟨_, by rw [if_pos hlast, if_pos rfl]; exact hIl, hkl.symm⟩
        · rintro ⟨q, hq, hk⟩
          by_cases hj : j < st.buf.length - 1
          · rw [if_pos hj] at hq
            by_cases hji : j = i
            · rw [hji]
            · rw [if_neg hji] at hq
              have := inv_inj hI hq hIl (hk.trans hkl)
              omega
          · rw [if_neg hj] at hq; cases hq
      · rw [if_neg hkl, hI h j]
        constructor
        · rintro ⟨q, hq, hk⟩
          obtain ⟨hlt, hqe⟩ := List.getElem?_eq_some_iff.1 hq
          have hji : j ≠ i := by rintro rfl; rw [hIi] at hq; cases hq; exact hold hk.symm
          have hjl : j ≠ st.buf.length - 1 := by rintro rfl; rw [hIl] at hq; cases hq; exact hkl hk.symm
          exact ⟨q, by rw [if_pos (by omega), if_neg hji]; exact hq, hk⟩
        · rintro ⟨q, hq, hk⟩
          by_cases hj : j < st.buf.length - 1
          · rw [if_pos hj] at hq
            by_cases hji : j = i
            · rw [if_pos hji, hIl] at hq; cases hq; exact absurd hk.symm hkl
            · rw [if_neg hji] at hq; exact ⟨q, hq, hk⟩
          · rw [if_neg hj] at hq; cases hq
    · rw [if_neg hlast, hI h j]
      have hil : i = st.buf.length - 1 := by omega
      constructor
      · rintro ⟨q, hq, hk⟩
        obtain ⟨hlt, hqe⟩ := List.getElem?_eq_some_iff.1 hq
        have hji : j ≠ i := by rintro rfl; rw [hIi] at hq; cases hq; exact hold hk.symm
        exact ⟨q, by rw [if_pos (by omega), if_neg hji]; exact hq, hk⟩
      · rintro ⟨q, hq, hk⟩
        by_cases hj : j < st.buf.length - 1
        · rw [if_pos hj, if_neg (by omega)] at hq; exact ⟨q, hq, hk⟩
        · rw [if_neg hj] at hq; cases hq

theorem mem_removeAt {st : CacheState} (i : Nat) (hi : i < st.buf.length) (q : Ptr) :
    (q ∈ (st.removeAt i hi).buf → q ∈ st.buf) ∧ (q ∈ st.buf → q ≠ st.buf[i] → q ∈ (st.removeAt i hi).buf) := by
  constructor
  · intro hq
    obtain ⟨j, hj⟩ := List.mem_iff_getElem?.1 hq
    rw [removeAt_getElem?] at hj
    split at hj
    · split at hj
      · exact List.mem_of_getElem? hj
      · exact List.mem_of_getElem? hj
    · cases hj
  · intro hq hne
    obtain ⟨j, hj⟩ := List.mem_iff_getElem?.1 hq
    obtain ⟨hlt, hqe⟩ := List.getElem?_eq_some_iff.1 hj
    have hji : j ≠ i := by rintro rfl; exact hne hqe.symm
    by_cases hjl : j < st.buf.length - 1
    · apply List.mem_of_getElem? (i := j); rw [removeAt_getElem?, if_pos hjl, if_neg hji]; exact hj
    · apply List.mem_of_getElem? (i := i)
      rw [removeAt_getElem?, if_pos (by omega), if_pos rfl, show st.buf.length - 1 = j by omega]; exact hj

theorem cleanLoop_heap (now : Int64) (i : Nat) (st : CacheState) : (cleanLoop now i st).heap = st.heap := by
  fun_induction cleanLoop now i st with
  | case1 i st hi he ih => rw [ih]; rfl
  | case2 i st hi he ih => exact ih
  | case3 => rfl

theorem inv_cleanLoop (now : Int64) (i : Nat) (st : CacheState) (hI : st.Inv) : (cleanLoop now i st).Inv := by
  fun_induction cleanLoop now i st with
  | case1 i st hi he ih => exact ih (inv_removeAt hI i hi)
  | case2 i st hi he ih => exact ih hI
  | case3 => exact hI

theorem mem_cleanLoop (now : Int64) (i : Nat) (st : CacheState) (q : Ptr) :
    (q ∈ (cleanLoop now i st).buf → q ∈ st.buf) ∧
    (q ∈ st.buf → st.expired now q = false → q ∈ (cleanLoop now i st).buf) := by
  fun_induction cleanLoop now i st with
  | case1 i st hi he ih =>
    refine ⟨fun h => (mem_removeAt i hi q).1 (ih.1 h), fun h hx => ih.2 ((mem_removeAt i hi q).2 h ?_) hx⟩
    rintro rfl
    rw [he] at hx; cases hx
  | case2 i st hi he ih => exact ih
  | case3 => exact ⟨id, fun h _ => h⟩

/-- Number of expired entries. -/
def expiredCount (st : CacheState) (now : Int64) : Nat := st.buf.countP (st.expired now)

theorem removeAt_buf (st : CacheState) (i : Nat) (hi : i < st.buf.length) :
    (st.buf.drop (i + 1) = [] ∧ (st.removeAt i hi).buf = st.buf.take i) ∨
    (∃ R x, st.buf.drop (i + 1) = R ++ [x] ∧ (st.removeAt i hi).buf = st.buf.take i ++ x :: R) := by
  have hdec : st.buf = st.buf.take i ++ st.buf[i] :: st.buf.drop (i + 1) := by
    rw [← List.drop_eq_getElem_cons hi, List.take_append_drop]
  have hlen : (st.buf.take i).length = i := by simp; omega
  rcases List.eq_nil_or_concat (st.buf.drop (i + 1)) with h | ⟨R, x, h⟩
  · left
    refine ⟨h, ?_⟩
    rw [h] at hdec
    have : st.buf.length = i + 1 := by have := congrArg List.length hdec; simp at this; omega
    simp only [removeAt, this, Nat.add_sub_cancel]
    rw [List.take_set_of_le (Nat.le_refl _)]
  · right
    rw [List.concat_eq_append] at h
    refine ⟨R, x, h, ?_⟩
    rw [h] at hdec
    have hl : st.buf.length = i + R.length + 2 := by have := congrArg List.length hdec; simp at this; omega
    have hlast : st.buf[st.buf.length - 1]? = some x := by
      rw [hl]
      rw [hdec]
      rw [List.getElem?_append_right (by omega), hlen]
      rw [show i + R.length + 2 - 1 - i = R.length + 1 by omega]
      simp
    have hlast' : st.buf[st.buf.length - 1] = x := by
      rw [List.getElem?_eq_getElem (by omega)] at hlast; exact Option.some.inj hlast
    simp only [removeAt, hlast']
    have hset : st.buf.set i x = st.buf.take i ++ x :: (R ++ [x]) := by
      conv => lhs; rw [hdec]
      rw [List.set_append_right _ _ (by omega), hlen, Nat.sub_self, List.set_cons_zero]
    rw [hset, show st.buf.take i ++ x :: (R ++ [x]) = (st.buf.take i ++ x :: R) ++ [x] by simp]
    rw [List.take_append_of_le_length (by simp; omega), List.take_of_length_le (by simp; omega)]

theorem cleanLoop_count (now : Int64) (i : Nat) (st : CacheState) :
    2 * (cleanLoop now i st).buf.countP (st.expired now) ≤
      2 * (st.buf.take i).countP (st.expired now) + (st.buf.drop i).countP (st.expired now) := by
  fun_induction cleanLoop now i st with
  | case1 i st hi he ih =>
    have hx : (st.removeAt i hi).expired now = st.expired now := rfl
    rw [hx] at ih
    refine Nat.le_trans ih ?_
    rw [List.drop_eq_getElem_cons hi, List.countP_cons, if_pos he]
    have hlen : (st.buf.take i).length = i := by simp; omega
    rcases removeAt_buf st i hi with ⟨hd, hb⟩ | ⟨R, x, hd, hb⟩
    · rw [hb, hd, List.take_of_length_le (by omega), List.drop_eq_nil_of_le (by omega)]; simp
    · rw [hb, hd]
      have ht : (st.buf.take i ++ x :: R).take (i + 1) = st.buf.take i ++ [x] := by
        rw [List.take_append, hlen, List.take_of_length_le (by omega)]
        simp [show i + 1 - i = 1 by omega]
      have hdr : (st.buf.take i ++ x :: R).drop (i + 1) = R := by
        rw [List.drop_append, hlen, List.drop_eq_nil_of_le (by omega)]
        simp [show i + 1 - i = 1 by omega]
      rw [ht, hdr]
      simp only [List.countP_append, List.countP_cons, List.countP_nil]
      split <;> omega
  | case2 i st hi he ih =>
    refine Nat.le_trans ih ?_
    rw [List.drop_eq_getElem_cons hi, List.countP_cons, if_neg he]
    rw [List.take_succ_eq_append_getElem hi, List.countP_append, List.countP_cons, if_neg he]
    simp
  | case3 i st hi =>
    rw [List.take_of_length_le (by omega)]; omega

end CacheState
end Verif
