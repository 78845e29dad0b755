import Verif.Model.Version
/-
Lemmas about decimal text and Version.Parse.
-/
namespace Verif

theorem indexByte_none {s : Bytes} {c : UInt8} (h : c ∉ s) : indexByte s c = none := by
  unfold indexByte
  rw [List.findIdx?_eq_none_iff]
  intro x hx
  simp only [beq_eq_false_iff_ne, ne_eq]
  rintro rfl; exact h hx

theorem indexByte_append {d r : Bytes} {c : UInt8} (h : c ∉ d) : indexByte (d ++ c :: r) c = some d.length := by
  unfold indexByte
  rw [List.findIdx?_append]
  have : d.findIdx? (· == c) = none := indexByte_none h
  rw [this, List.findIdx?_cons]; simp

/-- First-separator decomposition. -/
theorem split_first (s : Bytes) (c : UInt8) : c ∉ s ∨ ∃ d r, c ∉ d ∧ s = d ++ c :: r := by
  induction s with
  | nil => left; simp
  | cons x xs ih =>
    by_cases hx : c = x
    · right; exact ⟨[], xs, by simp, by simp [hx]⟩
    · rcases ih with h | ⟨d, r, h1, h2⟩
      · left; simp [hx, h]
      · right; exact ⟨x :: d, r, by simp [hx, h1], by simp [h2]⟩

theorem decVal_snoc (d : Bytes) (c : UInt8) : decVal (d ++ [c]) = 10 * decVal d + (c.toNat - 48) := by
  simp [decVal, List.foldl_append]

theorem digit_toNat (k : Nat) (hk : k < 10) : (UInt8.ofNat (48 + k)).toNat = 48 + k := by
  rw [UInt8.toNat_ofNat']; omega

theorem digit_isDigit (k : Nat) (hk : k < 10) : isDigit (UInt8.ofNat (48 + k)) = true := by
  have h := digit_toNat k hk
  simp only [isDigit, Bool.and_eq_true, decide_eq_true_eq, UInt8.le_iff_toNat_le, h]
  constructor
  · show 48 ≤ _; omega
  · show _ ≤ 57; omega

theorem natDec_spec (n : Nat) : natDec n ≠ [] ∧ (natDec n).all isDigit = true ∧ decVal (natDec n) = n := by
  induction n using Nat.strongRecOn with
  | ind n ih =>
    rw [natDec]
    by_cases h : n < 10
    · rw [if_pos h]
      refine ⟨by simp, by rw [List.all_cons, digit_isDigit n h]; rfl, ?_⟩
      simp only [decVal, List.foldl_cons, List.foldl_nil, digit_toNat n h]; omega
    · rw [if_neg h]
      obtain ⟨_, h2, h3⟩ := ih (n / 10) (by omega)
      have hm : n % 10 < 10 := Nat.mod_lt _ (by decide)
      refine ⟨by simp, ?_, ?_⟩
      · rw [List.all_append, h2, List.all_cons, digit_isDigit _ hm]; rfl
      · rw [decVal_snoc, h3, digit_toNat _ hm]; omega

theorem isDigit_ne {c : UInt8} (h : isDigit c = true) : c ≠ 45 ∧ c ≠ 43 ∧ c ≠ 46 ∧ c ≠ 32 := by
  simp only [isDigit, Bool.and_eq_true, decide_eq_true_eq] at h
  refine ⟨?_, ?_, ?_, ?_⟩ <;> rintro rfl <;> revert h <;> decide

theorem atoi_digits {d : Bytes} (h1 : d ≠ []) (h2 : d.all isDigit = true) (h3 : decVal d < 2 ^ 63) : atoi d = some (decVal d : Int) := by
  cases d with
  | nil => exact absurd rfl h1
  | cons c cs =>
    have hc := isDigit_ne (by simp only [List.all_cons, Bool.and_eq_true] at h2; exact h2.1)
    unfold atoi
    split
    rename_i x neg ds heq
    have : (neg, ds) = (false, c :: cs) := by
      rw [← heq]
      split
      · rename_i h; cases h; exact absurd rfl hc.1
      · rename_i h; cases h; exact absurd rfl hc.2.1
      · rfl
    cases this
    rw [if_pos ⟨by simp, h2⟩]
    simp [h3]

theorem atoi_neg {d : Bytes} (h1 : d ≠ []) (h2 : d.all isDigit = true) (h3 : decVal d ≤ 2 ^ 63) :
    atoi (45 :: d) = some (-(decVal d : Int)) := by
  show (if d ≠ [] ∧ d.all isDigit = true then (if decVal d ≤ 2 ^ 63 then some (-(decVal d : Int)) else none) else none) = _
  rw [if_pos ⟨h1, h2⟩, if_pos h3]

theorem atoi_intDec (i : Int) (h1 : -2 ^ 31 ≤ i) (h2 : i < 2 ^ 31) : atoi (intDec i) = some i := by
  obtain ⟨a, b, c⟩ := natDec_spec i.natAbs
  unfold intDec
  by_cases hi : i < 0
  · rw [if_pos hi, atoi_neg a b (by omega), c]; congr 1; omega
  · rw [if_neg hi, atoi_digits a b (by omega), c]; congr 1; omega

theorem digits_not_mem {d : Bytes} (h : d.all isDigit = true) : (46 : UInt8) ∉ d ∧ (32 : UInt8) ∉ d := by
  rw [List.all_eq_true] at h
  exact ⟨fun hm => (isDigit_ne (h _ hm)).2.2.1 rfl, fun hm => (isDigit_ne (h _ hm)).2.2.2 rfl⟩

theorem intDec_not_mem (i : Int) : (46 : UInt8) ∉ intDec i ∧ (32 : UInt8) ∉ intDec i := by
  obtain ⟨_, b, _⟩ := natDec_spec i.natAbs
  have := digits_not_mem b
  unfold intDec
  split <;> simp [this]

theorem intDec_ne_nil (i : Int) : intDec i ≠ [] := by
  obtain ⟨a, _, _⟩ := natDec_spec i.natAbs
  unfold intDec
  split <;> simp [a]

/-- Text with a space is never a number. -/
theorem atoi_space {s : Bytes} (h : (32 : UInt8) ∈ s) : atoi s = none := by
  unfold atoi
  split
  rename_i x neg ds heq
  have hm : (32 : UInt8) ∈ ds := by
    revert heq
    split
    · rintro ⟨⟩; simpa using h
    · rintro ⟨⟩; simpa using h
    · rintro ⟨⟩; exact h
  rw [if_neg]
  rintro ⟨_, ha⟩
  exact (isDigit_ne ((List.all_eq_true.1 ha) _ hm)).2.2.2 rfl

theorem atoi_nil : atoi [] = none := rfl

namespace Version

theorem parseLoop_nil (n i : Nat) (v : Version) : parseLoop n i v [] = (v, [], false) := by
  induction n generalizing i v with
  | zero => rfl
  | succ n ih => simp only [parseLoop]; exact ih _ _

theorem parseLoop_dot (n i : Nat) (v : Version) (d r : Bytes) (hd : (46 : UInt8) ∉ d) :
    parseLoop (n + 1) i v (d ++ 46 :: r) =
      match atoi d with
      | none => (v, d ++ 46 :: r, true)
      | some x => parseLoop n (i + 1) (v.setComp i x) r := by
  have hi : indexByte (d ++ 46 :: r) 46 = some d.length := indexByte_append hd
  have hne : d ++ 46 :: r ≠ [] := by simp
  rw [parseLoop, hi, if_pos (by simp)]
  simp only [Option.getD_some, List.take_left, List.length_append, List.length_cons]
  rw [if_pos (by omega)]
  cases atoi d with
  | none => rfl
  | some x => simp only; congr 1; simp

theorem parseLoop_last (n i : Nat) (v : Version) (d : Bytes) (hd : (46 : UInt8) ∉ d) (hne : d ≠ []) :
    parseLoop (n + 1) i v d =
      match atoi d with
      | none => (v, d, true)
      | some x => parseLoop n (i + 1) (v.setComp i x) [] := by
  have hi : indexByte d 46 = none := indexByte_none hd
  cases d with
  | nil => exact absurd rfl hne
  | cons c cs =>
    rw [parseLoop, hi, if_pos (by simp)]
    simp only [Option.getD_none, List.take_length, Nat.lt_irrefl, if_false]
    cases atoi (c :: cs) <;> rfl

/-- Assign a list of numbers to consecutive components. -/
def assign (i : Nat) (v : Version) : List Int → Version
  | [] => v
  | d :: ds => assign (i + 1) (v.setComp i d) ds

theorem parseLoop_join (n i : Nat) (v : Version) (ds : List (Bytes × Int)) (hl : ds.length ≤ n)
    (hd : ∀ d ∈ ds, d.1 ≠ [] ∧ (46 : UInt8) ∉ d.1 ∧ atoi d.1 = some d.2) :
    parseLoop n i v (List.intercalate [46] (ds.map Prod.fst)) = (assign i v (ds.map Prod.snd), [], false) := by
  induction ds generalizing n i v with
  | nil => exact parseLoop_nil _ _ _
  | cons d ds ih =>
    cases n with
    | zero => simp at hl
    | succ n =>
      obtain ⟨h1, hnm, h3⟩ := hd d (by simp)
      cases ds with
      | nil =>
        rw [show List.intercalate [46] ([d].map Prod.fst) = d.1 by simp [List.intercalate], parseLoop_last n i v d.1 hnm h1, h3]
        exact parseLoop_nil _ _ _
      | cons d2 ds =>
        rw [show List.intercalate [46] ((d :: d2 :: ds).map Prod.fst) = d.1 ++ 46 :: List.intercalate [46] ((d2 :: ds).map Prod.fst) by
          simp [List.intercalate], parseLoop_dot n i v d.1 _ hnm, h3]
        exact ih n (i + 1) _ (by simp at hl ⊢; omega) (fun x hx => hd x (by simp at hx ⊢; right; exact hx))

/-! The loop as: numbers read, rest, error flag — independent of the version it writes to. -/

/-- Numbers the loop reads before it stops. -/
def reads : Nat → Bytes → List Int
  | 0, _ => []
  | n + 1, s =>
    if (indexByte s 46).isSome = true ∨ s.length > 0 then
      match atoi (s.take ((indexByte s 46).getD s.length)) with
      | none => []
      | some d => d :: reads n (if (indexByte s 46).getD s.length < s.length then s.drop ((indexByte s 46).getD s.length + 1) else [])
    else []

theorem parseLoop_assign (n i : Nat) (v w : Version) (s : Bytes) :
    (parseLoop n i v s).1 = assign i v (reads n s) ∧ (parseLoop n i v s).2 = (parseLoop n i w s).2 := by
  induction n generalizing i v w s with
  | zero => exact ⟨rfl, rfl⟩
  | succ n ih =>
    rcases split_first s 46 with h | ⟨d, r, h, rfl⟩
    · cases s with
      | nil => rw [parseLoop_nil, parseLoop_nil]; exact ⟨rfl, rfl⟩
      | cons c cs =>
        rw [parseLoop_last n i v _ h (by simp), parseLoop_last n i w _ h (by simp)]
        have hi : indexByte (c :: cs) 46 = none := indexByte_none h
        rw [reads, hi, if_pos (by simp)]
        simp only [Option.getD_none, List.take_length, Nat.lt_irrefl, if_false]
        cases atoi (c :: cs) with
        | none => exact ⟨rfl, rfl⟩
        | some x => exact ih _ _ _ _
    · rw [parseLoop_dot n i v d r h, parseLoop_dot n i w d r h]
      have hi : indexByte (d ++ 46 :: r) 46 = some d.length := indexByte_append h
      rw [reads, hi, if_pos (by simp)]
      simp only [Option.getD_some, List.take_left, List.length_append, List.length_cons]
      rw [if_pos (by omega)]
      cases atoi d with
      | none => exact ⟨rfl, rfl⟩
      | some x =>
        have hdr : (d ++ 46 :: r).drop (d.length + 1) = r := by simp
        rw [hdr]; exact ih (i + 1) (v.setComp i x) (w.setComp i x) r

theorem reads_length (n : Nat) (s : Bytes) : (reads n s).length ≤ n := by
  induction n generalizing s with
  | zero => simp [reads]
  | succ n ih =>
    rw [reads]
    split
    · split
      · simp
      · simp only [List.length_cons]; exact Nat.succ_le_succ (ih _)
    · simp

theorem assign_idem (v : Version) (ds : List Int) (h : ds.length ≤ 4) : assign 0 (assign 0 v ds) ds = assign 0 v ds := by
  match ds, h with
  | [], _ => rfl
  | [a], _ => rfl
  | [a, b], _ => rfl
  | [a, b, c], _ => rfl
  | [a, b, c, d], _ => rfl
  | _ :: _ :: _ :: _ :: _ :: _, h => simp at h

theorem assign_p (v : Version) (i : Nat) (ds : List Int) : (assign i v ds).p = v.p ∧ (assign i v ds).suffix = v.suffix := by
  induction ds generalizing i v with
  | nil => exact ⟨rfl, rfl⟩
  | cons d ds ih =>
    have := ih (v.setComp i d) (i + 1)
    rw [assign, this.1, this.2]
    unfold setComp; split <;> exact ⟨rfl, rfl⟩

end Version
end Verif
