import Verif.Model.Emit
import Verif.Spec.Emit
/-
Lemmas on reading generated source: lexing, brackets, lists.
-/
namespace Verif.Go
open Compiler

/-! ### The lexer -/

/-- `l` after tokens `o`. -/
def Lexer.after (o : List Tok) (l : Lexer) : Lexer := { l with out := l.out ++ o }

theorem fresh_after (a : Bool) (o o' : List Tok) (c : UInt8) :
    Lexer.fresh a (o ++ o') c = (Lexer.fresh a o c).map (Lexer.after o') := by
  unfold Lexer.fresh
  repeat
    rw [apply_ite (Option.map (Lexer.after o'))]
    refine ite_congr rfl (fun _ => ?_) (fun _ => ?_)
    · cases a <;> rfl
  rfl

theorem step_after (m : Mode) (a : Bool) (o o' : List Tok) (c : UInt8) :
    (Lexer.mk m a (o ++ o')).step c = ((Lexer.mk m a o).step c).map (Lexer.after o') := by
  have f := fresh_after
  cases m with
  | idle => exact f ..
  | hex n =>
    cases n with
    | none => simp only [Lexer.step, Option.map_map]; rfl
    | some n =>
      simp only [Lexer.step]
      cases hexVal c with
      | some d => rfl
      | none =>
        simp only []
        split
        · rfl
        · exact f true (.int n :: o) o' c
  | _ =>
    simp only [Lexer.step]
    repeat' split
    all_goals first | rfl | exact f _ (_ :: o) o' c | exact f _ o o' c

theorem run_after (m : Mode) (a : Bool) (o o' : List Tok) (s : Bytes) :
    (Lexer.mk m a (o ++ o')).run s = ((Lexer.mk m a o).run s).map (Lexer.after o') := by
  induction s generalizing m a o with
  | nil => rfl
  | cons c s ih =>
    simp only [Lexer.run, step_after]
    cases h : (Lexer.mk m a o).step c with
    | none => rfl
    | some l =>
      obtain ⟨m1, a1, o1⟩ := l
      exact ih m1 a1 o1

theorem run_append (l : Lexer) (s t : Bytes) : l.run (s ++ t) = (l.run s).bind (·.run t) := by
  induction s generalizing l with
  | nil => rfl
  | cons c s ih =>
    simp only [List.cons_append, Lexer.run]
    cases l.step c with
    | none => rfl
    | some l' => exact ih l'

/-- Reading `s` in mode `m` (with `a`: semicolon pending) gives tokens `ts` and ends in mode `m'`. -/
def Run (m : Mode) (a : Bool) (s : Bytes) (ts : List Tok) (m' : Mode) (b : Bool) : Prop :=
  (Lexer.mk m a []).run s = some ⟨m', b, ts.reverse⟩

instance {m a s ts m' b} : Decidable (Run m a s ts m' b) := inferInstanceAs (Decidable (_ = _))

theorem Run.append {m m' m'' a b c s s' ts ts'} (h : Run m a s ts m' b) (h' : Run m' b s' ts' m'' c) : Run m a (s ++ s') (ts ++ ts') m'' c := by
  unfold Run at *
  rw [run_append, h]
  have := run_after m' b [] ts.reverse s'
  rw [List.nil_append, h'] at this
  simp only [Option.bind_some, this, Option.map_some, Lexer.after, List.reverse_append]

theorem Run.nil {m a} : Run m a [] [] m a := rfl

/-- Not part of an identifier or number. -/
def delim (c : UInt8) : Bool := !isLetter c && !isDigit c && c != 46

def delimHead : Bytes → Bool
  | c :: _ => delim c
  | [] => false

theorem hexVal_delim {c : UInt8} (h : delim c = true) : hexVal c = none := by
  unfold delim at h
  simp only [Bool.and_eq_true, Bool.not_eq_true'] at h
  obtain ⟨⟨h1, h2⟩, -⟩ := h
  unfold hexVal
  rw [if_neg (by simp [h2])]
  unfold isLetter at h1
  simp only [Bool.or_eq_false_iff, Bool.and_eq_false_iff, decide_eq_false_iff_not, UInt8.le_iff_toNat_le, Nat.not_le] at h1
  have e1 : (65 : UInt8).toNat = 65 := rfl
  have e2 : (90 : UInt8).toNat = 90 := rfl
  have e3 : (97 : UInt8).toNat = 97 := rfl
  have e4 : (122 : UInt8).toNat = 122 := rfl
  have e5 : (102 : UInt8).toNat = 102 := rfl
  have e6 : (70 : UInt8).toNat = 70 := rfl
  rw [if_neg, if_neg]
  · simp only [Bool.and_eq_true, decide_eq_true_eq, UInt8.le_iff_toNat_le]; omega
  · simp only [Bool.and_eq_true, decide_eq_true_eq, UInt8.le_iff_toNat_le]; omega

/-- A number ends at a delimiter. -/
theorem Run.close_hex {n a s ts m b} (hd : delimHead s = true) (h : Run .idle true s ts m b) : Run (.hex (some n)) a s (.int n :: ts) m b := by
  cases s with
  | nil => cases hd
  | cons c s =>
    have hd : delim c = true := hd
    unfold Run at *
    have hs : (Lexer.mk (.hex (some n)) a []).step c = (Lexer.mk .idle true [.int n]).step c := by
      simp only [Lexer.step, hexVal_delim hd]
      unfold delim at hd
      simp only [Bool.and_eq_true, Bool.not_eq_true', bne_iff_ne, ne_eq] at hd
      rw [if_neg (by simp [hd.1.1, hd.2])]
    have := run_after .idle true [] [.int n] (c :: s)
    rw [List.nil_append, h] at this
    rw [Lexer.run, hs]
    exact this.trans (by simp [Lexer.after])

theorem Run.close_dec {n a s ts m b} (hd : delimHead s = true) (h : Run .idle true s ts m b) : Run (.dec n) a s (.int n :: ts) m b := by
  cases s with
  | nil => cases hd
  | cons c s =>
    have hd : delim c = true := hd
    unfold Run at *
    have hs : (Lexer.mk (.dec n) a []).step c = (Lexer.mk .idle true [.int n]).step c := by
      unfold delim at hd
      simp only [Bool.and_eq_true, Bool.not_eq_true', bne_iff_ne, ne_eq] at hd
      simp only [Lexer.step]
      rw [if_neg (by simp [hd.1.2]), if_neg (by simp [hd.1.1, hd.2])]
    have := run_after .idle true [] [.int n] (c :: s)
    rw [List.nil_append, h] at this
    rw [Lexer.run, hs]
    exact this.trans (by simp [Lexer.after])

theorem Run.close_zero {a s ts m b} (hd : delimHead s = true) (h : Run .idle true s ts m b) : Run .zero a s (.int 0 :: ts) m b := by
  cases s with
  | nil => cases hd
  | cons c s =>
    have hd : delim c = true := hd
    unfold Run at *
    have hs : (Lexer.mk .zero a []).step c = (Lexer.mk .idle true [.int 0]).step c := by
      unfold delim at hd
      simp only [Bool.and_eq_true, Bool.not_eq_true', bne_iff_ne, ne_eq] at hd
      simp only [Lexer.step]
      rw [if_neg, if_neg (by simp [hd.1.1, hd.1.2, hd.2])]
      rintro rfl
      exact absurd hd.1.1 (by decide)
    have := run_after .idle true [] [.int 0] (c :: s)
    rw [List.nil_append, h] at this
    rw [Lexer.run, hs]
    exact this.trans (by simp [Lexer.after])

/-- An identifier ends at a delimiter or dot. -/
theorem Run.close_ident {x a s ts m b} (hd : ∀ c ∈ s.head?, (isLetter c || isDigit c) = false) (hs : s ≠ [])
    (h : Run .idle (!keywords.contains x) s ts m b) : Run (.ident x) a s (.ident x :: ts) m b := by
  cases s with
  | nil => exact absurd rfl hs
  | cons c s =>
    have hd := hd c rfl
    unfold Run at *
    have hs : (Lexer.mk (.ident x) a []).step c = (Lexer.mk .idle (!keywords.contains x) [.ident x]).step c := by
      simp only [Lexer.step]
      rw [if_neg (by simp [hd])]
    have := run_after .idle (!keywords.contains x) [] [.ident x] (c :: s)
    rw [List.nil_append, h] at this
    rw [Lexer.run, hs]
    exact this.trans (by simp [Lexer.after])

/-- An identifier. -/
def isIdent : Bytes → Bool
  | c :: r => isLetter c && r.all fun c => isLetter c || isDigit c
  | [] => false

theorem run_ident_rest (b r : Bytes) (a : Bool) (hr : (r.all fun c => isLetter c || isDigit c) = true) : Run (.ident b) a r [] (.ident (b ++ r)) a := by
  induction r generalizing b with
  | nil => rw [List.append_nil]; exact Run.nil
  | cons c r ih =>
    rw [List.all_cons, Bool.and_eq_true] at hr
    have := ih (b ++ [c]) hr.2
    unfold Run at *
    rw [List.append_assoc] at this
    simp only [Lexer.run, Lexer.step, hr.1, if_true]
    exact this

theorem letter_fresh {a : Bool} {c : UInt8} (h : isLetter c = true) : Lexer.fresh a [] c = some ⟨.ident [c], false, []⟩ := by
  unfold Lexer.fresh
  have n10 : c ≠ 10 := by rintro rfl; exact absurd h (by decide)
  have n32 : c ≠ 32 := by rintro rfl; exact absurd h (by decide)
  have n9 : c ≠ 9 := by rintro rfl; exact absurd h (by decide)
  have n13 : c ≠ 13 := by rintro rfl; exact absurd h (by decide)
  rw [if_neg n10, if_neg (by simp [n32, n9, n13]), if_pos h]

theorem run_ident {b : Bytes} (a : Bool) (h : isIdent b = true) : Run .idle a b [] (.ident b) false := by
  cases b with
  | nil => cases h
  | cons c r =>
    simp only [isIdent, Bool.and_eq_true] at h
    have := run_ident_rest [c] r false h.2
    unfold Run at *
    simp only [Lexer.run, Lexer.step, letter_fresh h.1]
    exact this

/-! ### Numbers -/

theorem hexVal_digit : ∀ d : Fin 16, hexVal (hexDigit d.val) = some d.val := by decide

def hexFold (m : Nat) (s : Bytes) : Nat := s.foldl (fun m c => 16 * m + (hexVal c).getD 0) m

theorem run_hex {s : Bytes} (m : Nat) (a : Bool) (h : ∀ c ∈ s, (hexVal c).isSome = true) : Run (.hex (some m)) a s [] (.hex (some (hexFold m s))) a := by
  induction s generalizing m with
  | nil => exact Run.nil
  | cons c s ih =>
    obtain ⟨d, hd⟩ := Option.isSome_iff_exists.mp (h c (List.mem_cons_self ..))
    have := ih (16 * m + d) fun x hx => h x (List.mem_cons_of_mem _ hx)
    unfold Run at *
    simp only [Lexer.run, Lexer.step, hd, hexFold, List.foldl_cons, Option.getD_some]
    exact this

theorem run_hex_none {s : Bytes} (a : Bool) (h : ∀ c ∈ s, (hexVal c).isSome = true) (hne : s ≠ []) :
    Run (.hex none) a s [] (.hex (some (hexFold 0 s))) a := by
  cases s with
  | nil => exact absurd rfl hne
  | cons c s =>
    obtain ⟨d, hd⟩ := Option.isSome_iff_exists.mp (h c (List.mem_cons_self ..))
    have := run_hex d a fun x hx => h x (List.mem_cons_of_mem c hx)
    unfold Run at *
    simp only [Lexer.run, Lexer.step, hd, hexFold, List.foldl_cons, Option.getD_some, Nat.mul_zero, Nat.zero_add]
    exact this

theorem hexNat_spec (n : Nat) : (∀ c ∈ hexNat n, (hexVal c).isSome = true) ∧ hexNat n ≠ [] ∧ ∀ m, hexFold m (hexNat n) = m * 16 ^ (hexNat n).length + n := by
  induction n using Nat.strongRecOn with
  | _ n ih =>
    rw [hexNat]
    split
    · rename_i h
      have := hexVal_digit ⟨n, h⟩
      refine ⟨fun c hc => ?_, by simp, fun m => ?_⟩
      · rw [List.mem_singleton] at hc
        rw [hc, this]; rfl
      · simp only [hexFold, List.foldl_cons, List.foldl_nil, List.length_singleton, this, Option.getD_some]
        omega
    · rename_i h
      have := hexVal_digit ⟨n % 16, by omega⟩
      obtain ⟨h1, h2, h3⟩ := ih (n / 16) (by omega)
      refine ⟨fun c hc => ?_, by simp, fun m => ?_⟩
      · rcases List.mem_append.mp hc with hc | hc
        · exact h1 c hc
        · rw [List.mem_singleton] at hc
          rw [hc, this]; rfl
      · have h3 := h3 m
        unfold hexFold at *
        rw [List.foldl_append, h3, List.length_append, List.length_singleton, Nat.pow_succ, ← Nat.mul_assoc]
        simp only [List.foldl_cons, List.foldl_nil, this, Option.getD_some]
        omega

theorem padZero_spec (w n : Nat) : (∀ c ∈ padZero w (hexNat n), (hexVal c).isSome = true) ∧ padZero w (hexNat n) ≠ [] ∧
    hexFold 0 (padZero w (hexNat n)) = n := by
  obtain ⟨h1, h2, h3⟩ := hexNat_spec n
  unfold padZero
  refine ⟨fun c hc => ?_, by simp [h2], ?_⟩
  · rcases List.mem_append.mp hc with hc | hc
    · rw [List.eq_of_mem_replicate hc]; rfl
    · exact h1 c hc
  · have : ∀ k, hexFold 0 (List.replicate k 48) = 0 := by
      intro k
      induction k with
      | zero => rfl
      | succ k ih => rw [List.replicate_succ]; exact ih
    unfold hexFold at *
    rw [List.foldl_append, this, h3]
    omega

/-- `s` is read as the number `v`, up to a delimiter. -/
def NumText (s : Bytes) (v : Int) : Prop := ∀ a, Run .idle a s (if v < 0 then [.sym 45] else []) (.hex (some v.natAbs)) false

theorem num_pad (w n : Nat) : NumText (ascii "0x" ++ padZero w (hexNat n)) n := by
  intro a
  obtain ⟨h1, h2, h3⟩ := padZero_spec w n
  have := run_hex_none false h1 h2
  rw [h3] at this
  rw [if_neg (by omega)]
  have h0 : Run .idle a (ascii "0x") [] (.hex none) false := by cases a <;> decide
  exact h0.append this

theorem num_neg_pad (w : Nat) {n : Nat} (hn : 0 < n) : NumText (ascii "-0x" ++ padZero w (hexNat n)) (-n) := by
  intro a
  obtain ⟨h1, h2, h3⟩ := padZero_spec w n
  have := run_hex_none false h1 h2
  rw [h3] at this
  rw [if_pos (by omega), Int.natAbs_neg, Int.natAbs_natCast]
  have h0 : Run .idle a (ascii "-0x") [.sym 45] (.hex none) false := by cases a <;> decide
  exact h0.append this

theorem num64 (x : UInt64) : NumText (hex64 x) x.toNat := num_pad 8 _

theorem num8 {i : Int8} (h : i ≠ -128) : NumText (hex8 i) i.toInt := by
  unfold hex8
  split
  · rename_i hn
    have hl : -128 ≤ i.toInt := i.le_toInt
    have hne : i.toInt ≠ -128 := fun e => h (Int8.toInt_inj.mp e)
    have hneg : i.toInt < 0 := Int8.lt_iff_toInt_lt.mp hn
    have hv : (-i).toInt = -i.toInt := by
      rw [Int8.toInt_neg, Int.bmod_eq_of_le] <;> omega
    unfold fmtHex
    rw [if_neg (by omega), hv]
    have := num_neg_pad 1 (n := (-i.toInt).natAbs) (by omega)
    rwa [show (-((-i.toInt).natAbs : Int)) = i.toInt by omega] at this
  · rename_i hn
    have hnn : 0 ≤ i.toInt := by
      rcases Int.lt_or_le i.toInt 0 with h | h
      · exact absurd (Int8.lt_iff_toInt_lt.mpr h) hn
      · exact h
    unfold fmtHex
    rw [if_neg (by omega)]
    have := num_pad 1 i.toInt.natAbs
    rwa [show ((i.toInt.natAbs : Nat) : Int) = i.toInt by omega] at this

theorem num32 {i : Int} (h1 : -2 ^ 31 < i) (h2 : i < 2 ^ 31) : NumText (hex32 i) i := by
  have e : (Int32.ofInt i).toInt = i := Int32.toInt_ofInt_of_le (by omega) (by omega)
  unfold hex32
  simp only []
  split
  · rename_i hn
    have hneg : i < 0 := by have := Int32.lt_iff_toInt_lt.mp hn; rwa [e] at this
    have hv : (-Int32.ofInt i).toInt = -i := by
      rw [Int32.toInt_neg, e, Int.bmod_eq_of_le] <;> omega
    unfold fmtHex
    rw [if_neg (by omega), hv]
    have := num_neg_pad 4 (n := (-i).natAbs) (by omega)
    rwa [show (-((-i).natAbs : Int)) = i by omega] at this
  · rename_i hn
    have hnn : 0 ≤ i := by
      rcases Int.lt_or_le i 0 with h | h
      · exact absurd (Int32.lt_iff_toInt_lt.mpr (by rw [e]; exact h)) hn
      · exact h
    unfold fmtHex
    rw [e, if_neg (by omega)]
    have := num_pad 4 i.natAbs
    rwa [show ((i.natAbs : Nat) : Int) = i by omega] at this

/-- The tokens of a number. -/
def numToks (v : Int) : List Tok := if v < 0 then [.sym 45, .int v.natAbs] else [.int v.natAbs]

theorem NumText.then {s v} (h : NumText s v) {a t ts m b} (hd : delimHead t = true) (ht : Run .idle true t ts m b) :
    Run .idle a (s ++ t) (numToks v ++ ts) m b := by
  have := (h a).append (ht.close_hex (n := v.natAbs) (a := false) hd)
  unfold numToks
  by_cases hv : v < 0
  · rw [if_pos hv] at this ⊢; exact this
  · rw [if_neg hv] at this ⊢; exact this

theorem ident_then {x : Bytes} (hx : isIdent x = true) {a t ts m b} (hd : ∀ c ∈ t.head?, (isLetter c || isDigit c) = false) (hne : t ≠ [])
    (ht : Run .idle (!keywords.contains x) t ts m b) : Run .idle a (x ++ t) (.ident x :: ts) m b :=
  (run_ident a hx).append (ht.close_ident (a := false) hd hne)

theorem run_natDec (n : Nat) (hn : 0 < n) (a : Bool) : Run .idle a (natDec n) [] (.dec n) false := by
  induction n using Nat.strongRecOn generalizing a with
  | _ n ih =>
    rw [natDec]
    split
    · rename_i h
      have : ∀ k : Fin 10, ∀ a, 0 < k.val → Run .idle a [UInt8.ofNat (48 + k.val)] [] (.dec k.val) false := by decide
      exact this ⟨n, h⟩ a hn
    · rename_i h
      have h1 := ih (n / 10) (by omega) (by omega) a
      have h2 : ∀ k : Fin 10, isDigit (UInt8.ofNat (48 + k.val)) = true ∧ (UInt8.ofNat (48 + k.val)).toNat - 48 = k.val := by decide
      obtain ⟨d1, d2⟩ := h2 ⟨n % 10, by omega⟩
      have : Run (.dec (n / 10)) false [UInt8.ofNat (48 + n % 10)] [] (.dec n) false := by
        unfold Run
        simp only [Lexer.run, Lexer.step, d1, if_true, d2, Option.bind_some, List.reverse_nil]
        congr 3
        omega
      exact h1.append this

theorem natDec_then (n : Nat) {a t ts m b} (hd : delimHead t = true) (ht : Run .idle true t ts m b) :
    Run .idle a (natDec n ++ t) (.int n :: ts) m b := by
  cases n with
  | zero =>
    have : Run .idle a (natDec 0) [] .zero false := by rw [natDec]; cases a <;> decide
    exact this.append (ht.close_zero hd)
  | succ n => exact (run_natDec (n + 1) (by omega) a).append (ht.close_dec hd)

/-! ### Strings and comments -/

theorem run_raw_rest (b p : Bytes) (a : Bool) (h : RawOK p) : Run (.raw b) a p [] (.raw (b ++ p)) a := by
  induction p generalizing b with
  | nil => rw [List.append_nil]; exact Run.nil
  | cons c p ih =>
    obtain ⟨h1, h2, h3⟩ := h c (List.mem_cons_self ..)
    have := ih (b ++ [c]) fun x hx => h x (List.mem_cons_of_mem _ hx)
    unfold Run at *
    rw [List.append_assoc] at this
    simp only [Lexer.run, Lexer.step, h1, h2, h3, if_false]
    exact this

theorem run_raw {p : Bytes} (h : RawOK p) (a : Bool) : Run .idle a (ascii "`" ++ p ++ ascii "`") [.str p] .idle true := by
  have h1 : Run .idle a (ascii "`") [] (.raw []) false := by cases a <;> decide
  have h2 := run_raw_rest [] p false h
  have h3 : Run (.raw p) false (ascii "`") [.str p] .idle true := rfl
  exact (h1.append h2).append h3

theorem run_quoted_rest (b p : Bytes) (a : Bool) (h : QuotedOK p) : Run (.quoted b) a p [] (.quoted (b ++ p)) a := by
  induction p generalizing b with
  | nil => rw [List.append_nil]; exact Run.nil
  | cons c p ih =>
    obtain ⟨h1, h2, h3, h4⟩ := h c (List.mem_cons_self ..)
    have := ih (b ++ [c]) fun x hx => h x (List.mem_cons_of_mem _ hx)
    unfold Run at *
    rw [List.append_assoc] at this
    simp only [Lexer.run, Lexer.step, h1, h2, h3, h4, if_false, or_self]
    exact this

theorem run_quoted {p : Bytes} (h : QuotedOK p) (a : Bool) : Run .idle a (ascii "\"" ++ p ++ ascii "\"") [.str p] .idle true := by
  have h1 : Run .idle a (ascii "\"") [] (.quoted []) false := by cases a <;> decide
  have h2 := run_quoted_rest [] p false h
  have h3 : Run (.quoted p) false (ascii "\"") [.str p] .idle true := rfl
  exact (h1.append h2).append h3

theorem run_comment_rest (p : Bytes) (a : Bool) (h : LineOK p) : Run .comment a p [] .comment a := by
  induction p with
  | nil => exact Run.nil
  | cons c p ih =>
    obtain ⟨h1, h2⟩ := h c (List.mem_cons_self ..)
    have := ih fun x hx => h x (List.mem_cons_of_mem _ hx)
    unfold Run at *
    simp only [Lexer.run, Lexer.step, h1, h2, if_false]
    exact this

theorem run_comment {p : Bytes} (h : LineOK p) : Run .idle false (ascii "//" ++ p ++ ascii "\n") [] .idle false := by
  have h1 : Run .idle false (ascii "//") [] .comment false := by decide
  have h3 : Run .comment false (ascii "\n") [] .idle false := by decide
  exact (h1.append (run_comment_rest p false h)).append h3

/-! ### Brackets -/

theorem build_append (b : Builder) (s t : List Tok) : b.run (s ++ t) = (b.run s).bind (·.run t) := by
  induction s generalizing b with
  | nil => rfl
  | cons c s ih =>
    simp only [List.cons_append, Builder.run]
    cases b.step c with
    | none => rfl
    | some l' => exact ih l'

/-- The tokens `ts` form the trees `l`. -/
def Build (ts : List Tok) (l : List Tree) : Prop := ∀ st cur, (Builder.mk st cur).run ts = some ⟨st, l.reverse ++ cur⟩

theorem Build.nil : Build [] [] := fun _ _ => rfl

theorem Build.append {s t l l'} (h : Build s l) (h' : Build t l') : Build (s ++ t) (l ++ l') := by
  intro st cur
  rw [build_append, h, Option.bind_some, h', List.reverse_append, List.append_assoc]

/-- Not a bracket. -/
def plain : Tok → Bool
  | .sym c => !(c == 40 || c == 91 || c == 123 || c == 41 || c == 93 || c == 125)
  | _ => true

theorem Build.tok {t : Tok} (h : plain t = true) : Build [t] [.tok t] := by
  intro st cur
  cases t with
  | sym c =>
    simp only [plain, Bool.not_eq_true', Bool.or_eq_false_iff, beq_eq_false_iff_ne, ne_eq] at h
    simp [Builder.run, Builder.step, h]
  | _ => rfl

theorem Build.toks {ts : List Tok} (h : ts.all plain = true) : Build ts (ts.map .tok) := by
  induction ts with
  | nil => exact .nil
  | cons t ts ih =>
    rw [List.all_cons, Bool.and_eq_true] at h
    exact (Build.tok h.1).append (ih h.2)

theorem Build.group {c : UInt8} (hc : c = 40 ∨ c = 91 ∨ c = 123) {ts l} (h : Build ts l) :
    Build (.sym c :: (ts ++ [.sym (closer c)])) [.group c l] := by
  intro st cur
  have e : (Builder.mk st cur).step (.sym c) = some ⟨(c, cur) :: st, []⟩ := by
    rcases hc with rfl | rfl | rfl <;> rfl
  simp only [Builder.run, e, Option.bind_some]
  rw [build_append, h, Option.bind_some]
  rcases hc with rfl | rfl | rfl <;> simp [Builder.run, Builder.step, closer]

/-! ### Lists -/

/-- Does not occur at top level. -/
def noSep (c : UInt8) (l : List Tree) : Prop := ∀ t ∈ l, t ≠ .tok (.sym c)

theorem splitAt_ne (c : UInt8) (l : List Tree) : splitAt c l ≠ [] := by
  induction l with
  | nil => simp [splitAt]
  | cons t l ih =>
    unfold splitAt
    repeat' split
    all_goals simp_all

theorem splitAt_cons_ne {c : UInt8} {t : Tree} (h : t ≠ .tok (.sym c)) {l p ps} (e : splitAt c l = p :: ps) : splitAt c (t :: l) = (t :: p) :: ps := by
  cases t with
  | group o b => simp only [splitAt, e]
  | tok t =>
    cases t with
    | sym x =>
      have : x ≠ c := by rintro rfl; exact h rfl
      simp only [splitAt, e, if_neg this]
    | _ => simp only [splitAt, e]

theorem splitAt_append {c : UInt8} {l : List Tree} (h : noSep c l) (r : List Tree) : splitAt c (l ++ .tok (.sym c) :: r) = l :: splitAt c r := by
  induction l with
  | nil => simp [splitAt]
  | cons t l ih => exact splitAt_cons_ne (h t (List.mem_cons_self ..)) (ih fun x hx => h x (List.mem_cons_of_mem _ hx))

theorem splitAt_single {c : UInt8} {l : List Tree} (h : noSep c l) : splitAt c l = [l] := by
  induction l with
  | nil => rfl
  | cons t l ih => exact splitAt_cons_ne (h t (List.mem_cons_self ..)) (ih fun x hx => h x (List.mem_cons_of_mem _ hx))

theorem splitAt_flatMap {α : Type} {c : UInt8} {f : α → List Tree} (xs : List α) (h : ∀ x ∈ xs, noSep c (f x)) :
    splitAt c (xs.flatMap fun x => f x ++ [.tok (.sym c)]) = xs.map f ++ [[]] := by
  induction xs with
  | nil => rfl
  | cons x xs ih =>
    rw [List.flatMap_cons, List.append_assoc, List.singleton_append, splitAt_append (h x (List.mem_cons_self ..)),
      ih fun y hy => h y (List.mem_cons_of_mem _ hy)]
    rfl

theorem items_flatMap {α : Type} {c : UInt8} {f : α → List Tree} (xs : List α) (h : ∀ x ∈ xs, noSep c (f x)) :
    items c (xs.flatMap fun x => f x ++ [.tok (.sym c)]) = xs.map f := by
  unfold items
  rw [splitAt_flatMap xs h, List.reverse_append]
  simp

theorem splitAt_sep {α : Type} {c : UInt8} {f : α → List Tree} (x : α) (xs : List α) (h : ∀ y ∈ x :: xs, noSep c (f y)) :
    splitAt c (f x ++ xs.flatMap fun y => .tok (.sym c) :: f y) = (x :: xs).map f := by
  induction xs generalizing x with
  | nil => simpa using splitAt_single (h x (List.mem_cons_self ..))
  | cons y ys ih =>
    rw [List.flatMap_cons, List.cons_append, splitAt_append (h x (List.mem_cons_self ..)), ih y fun z hz => h z (List.mem_cons_of_mem _ hz)]
    rfl

theorem items_sep {α : Type} {c : UInt8} {f : α → List Tree} (x : α) (xs : List α) (h : ∀ y ∈ x :: xs, noSep c (f y)) (hne : ∀ y, f y ≠ []) :
    items c (f x ++ xs.flatMap fun y => .tok (.sym c) :: f y) = (x :: xs).map f := by
  unfold items
  rw [splitAt_sep x xs h]
  split
  · rename_i r e
    have : ([] : List Tree) ∈ ((x :: xs).map f).reverse := by rw [e]; exact List.mem_cons_self ..
    rw [List.mem_reverse, List.mem_map] at this
    obtain ⟨y, _, hy⟩ := this
    exact absurd hy (hne y)
  · rw [List.reverse_reverse]

theorem allM_map {α β γ : Type} {g : α → β} {f : β → Option γ} {v : α → γ} (xs : List α) (h : ∀ x ∈ xs, f (g x) = some (v x)) :
    allM f (xs.map g) = some (xs.map v) := by
  induction xs with
  | nil => rfl
  | cons x xs ih =>
    simp only [List.map_cons, allM, h x (List.mem_cons_self ..), ih fun y hy => h y (List.mem_cons_of_mem _ hy)]

end Verif.Go
