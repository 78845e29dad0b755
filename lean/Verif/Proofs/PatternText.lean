import Verif.Proofs.Pattern
/-
Reading patterns that are put together from parts.
-/
namespace Verif.Regexp

/-! ### Runes of a text followed by an ASCII character -/

theorem decode_stop {c : UInt8} (hc : c.toNat < 0x80) (a : UInt8) (l t : Bytes) : decodeRune (a :: (l ++ c :: t)) = decodeRune (a :: l) := by
  have h41 : isCont c = false := by unfold isCont; rw [decide_eq_false (by omega), Bool.false_and]
  rcases l with _ | ⟨b, _ | ⟨b', _ | ⟨d, l⟩⟩⟩
  all_goals simp only [List.cons_append, List.nil_append, decodeRune, h41, Bool.false_and, Bool.and_false, Bool.false_eq_true, if_false, ite_self]
  all_goals rcases t with _ | ⟨_, _ | ⟨_, t⟩⟩ <;> simp only [h41, Bool.false_and, Bool.and_false, Bool.false_eq_true, if_false, ite_self]

theorem runes_fuel : ∀ (fuel : Nat) (s : Bytes), s.length ≤ fuel → runes fuel s = runes s.length s := by
  have : ∀ (n fuel : Nat) (s : Bytes), s.length ≤ n → s.length ≤ fuel → runes fuel s = runes s.length s := by
    intro n
    induction n with
    | zero =>
      intro fuel s h _
      have : s = [] := List.eq_nil_of_length_eq_zero (by omega)
      subst this
      cases fuel <;> rfl
    | succ n ih =>
      intro fuel s hn hf
      rcases s with _ | ⟨a, s⟩
      · cases fuel <;> rfl
      · obtain ⟨fuel, rfl⟩ : ∃ k, fuel = k + 1 := ⟨fuel - 1, by simp only [List.length_cons] at hf; omega⟩
        have hw := decodeRune_width a s
        simp only [List.length_cons] at hn hf hw ⊢
        have hl : ((a :: s).drop (decodeRune (a :: s)).2).length ≤ s.length := by
          rw [List.length_drop, List.length_cons]; omega
        show (decodeRune (a :: s)).1 :: runes fuel ((a :: s).drop (decodeRune (a :: s)).2) =
          (decodeRune (a :: s)).1 :: runes s.length ((a :: s).drop (decodeRune (a :: s)).2)
        rw [ih fuel _ (by omega) (by omega), ih s.length _ (by omega) hl]
  intro fuel s h
  exact this _ fuel s (Nat.le_refl _) h

/-- The runes of a text. -/
def runesOf (s : Bytes) : List Nat := runes s.length s

theorem runesOf_cons (a : UInt8) (s : Bytes) : runesOf (a :: s) = (decodeRune (a :: s)).1 :: runesOf ((a :: s).drop (decodeRune (a :: s)).2) := by
  have hw := decodeRune_width a s
  simp only [List.length_cons] at hw
  unfold runesOf
  rw [← runes_fuel s.length ((a :: s).drop (decodeRune (a :: s)).2) (by rw [List.length_drop, List.length_cons]; omega)]
  rfl

theorem runesOf_ascii {a : UInt8} (h : a.toNat < 0x80) (s : Bytes) : runesOf (a :: s) = a.toNat :: runesOf s := by
  have : decodeRune (a :: s) = (a.toNat, 1) := by simp only [decodeRune, if_pos h]
  rw [runesOf_cons, this]
  rfl

theorem runesOf_append {l : Bytes} (h : ∀ a ∈ l, a.toNat < 0x80) (s : Bytes) : runesOf (l ++ s) = l.map UInt8.toNat ++ runesOf s := by
  induction l with
  | nil => rfl
  | cons a l ih =>
    rw [List.cons_append, runesOf_ascii (h a List.mem_cons_self), ih fun x hx => h x (List.mem_cons_of_mem _ hx)]
    rfl

theorem runesOf_stop {c : UInt8} (hc : c.toNat < 0x80) (t : Bytes) : ∀ s : Bytes, runesOf (s ++ c :: t) = runesOf s ++ c.toNat :: runesOf t := by
  have : ∀ (n : Nat) (s : Bytes), s.length ≤ n → runesOf (s ++ c :: t) = runesOf s ++ c.toNat :: runesOf t := by
    intro n
    induction n with
    | zero =>
      intro s h
      have : s = [] := List.eq_nil_of_length_eq_zero (by omega)
      subst this
      exact runesOf_ascii hc t
    | succ n ih =>
      intro s hn
      rcases s with _ | ⟨a, s⟩
      · exact runesOf_ascii hc t
      · have hw := decodeRune_width a s
        simp only [List.length_cons] at hn hw
        rw [List.cons_append, runesOf_cons, decode_stop hc, runesOf_cons a s, List.cons_append]
        congr 1
        rw [← ih _ (by rw [List.length_drop, List.length_cons]; omega), ← List.cons_append, List.drop_append_of_le_length (by simp only [List.length_cons]; omega)]
  exact fun s => this _ s (Nat.le_refl _)

/-! ### Tokens -/

set_option linter.unusedSimpArgs false

/-- Characters that end a token: `)`, `[`, a backslash. -/
def Stop (z : Nat) : Prop := z = 41 ∨ z = 91 ∨ z = 92

theorem parseClass_nil (fuel : Nat) (first : Bool) (acc : List (Nat × Nat)) : parseClass fuel first acc [] = none := by
  cases fuel <;> simp [parseClass]

theorem parseClass_one (fuel : Nat) (first : Bool) (acc : List (Nat × Nat)) (a : Nat) (h : a ≠ 93) : parseClass fuel first acc [a] = none := by
  cases fuel with
  | zero => rfl
  | succ fuel => simp [parseClass, h, parseClass_nil]

theorem parseClass_stop {z fuel k : Nat} {first : Bool} {acc : List (Nat × Nat)} {s : List Nat} {r : List (Nat × Nat) × List Nat} (t : List Nat) :
    parseClass fuel first acc s = some r → parseClass (fuel + k) first acc (s ++ z :: t) = some (r.1, r.2 ++ z :: t) := by
  fun_induction parseClass fuel first acc s with
  | case1 => intro h; cases h
  | case2 => intro h; cases h
  | case3 _ _ _ ih => intro h; rw [Nat.succ_add, List.cons_append]; simp [parseClass, ih h]
  | case4 _ _ _ _ hf =>
    intro h; cases h
    rw [Nat.succ_add, List.cons_append]; simp [parseClass, hf]
  | case5 _ _ _ _ _ ih => intro h; rw [Nat.succ_add, List.cons_append, List.cons_append]; simp [parseClass, ih h]
  | case6 _ _ _ _ _ h1 h2 =>
    intro h; cases h
    rw [Nat.succ_add, List.cons_append, List.cons_append, List.cons_append]; simp [parseClass, h1, h2]
  | case7 _ _ _ _ _ _ h1 h2 ih =>
    intro h
    rw [Nat.succ_add, List.cons_append, List.cons_append, List.cons_append, List.cons_append]; simp [parseClass, h1, h2, ih h]
  | case8 fuel first acc a b rest h1 h2 h3 h4 ih =>
    intro h
    have hb : b ≠ 92 := by
      rintro rfl
      rcases rest with _ | ⟨c, rest⟩
      · rw [parseClass_nil] at h; cases h
      · exact h4 c rest rfl rfl
    rw [Nat.succ_add, List.cons_append, List.cons_append, List.cons_append]; simp [parseClass, h1, h2, h3, hb, ih h]
  | case9 fuel first acc a rest h1 h2 h3 h4 h5 ih =>
    intro h
    rcases rest with _ | ⟨c, _ | ⟨d, rest⟩⟩
    · rw [parseClass_nil] at h; cases h
    · by_cases hc : c = 93
      · subst hc
        have ha : a ≠ 92 := fun e => h2 _ _ e rfl
        rw [Nat.succ_add, List.cons_append]; simp [parseClass, h1, ha]
        exact ih h
      · rw [parseClass_one _ _ _ _ hc] at h; cases h
    · have hc : c ≠ 45 := by rintro rfl; exact h5 d rest rfl
      have ha : a ≠ 92 := fun e => h2 _ _ e rfl
      rw [Nat.succ_add, List.cons_append]; simp [parseClass, h1, ha, hc]
      exact ih h

theorem number_stop {z : Nat} (hz : Stop z) (t : List Nat) (s : List Nat) (acc : Option Nat) : number (s ++ z :: t) acc = ((number s acc).1, (number s acc).2 ++ z :: t) := by
  induction s generalizing acc with
  | nil => rcases hz with rfl | rfl | rfl <;> rfl
  | cons d s ih =>
    rw [List.cons_append, number, number]
    split
    · exact ih _
    · rfl

theorem counted_stop {z : Nat} (hz : Stop z) (t s : List Nat) : counted (s ++ z :: t) = (counted s).map fun x => (x.1, x.2.1, x.2.2 ++ z :: t) := by
  unfold counted
  rw [number_stop hz]
  generalize number s none = y
  obtain ⟨_ | n, rest⟩ := y
  · rfl
  · rcases rest with _ | ⟨c, rest⟩
    · rcases hz with rfl | rfl | rfl <;> rfl
    · by_cases h1 : c = 125
      · subst h1; rfl
      · by_cases h2 : c = 44
        · subst h2
          rcases rest with _ | ⟨d, rest⟩
          · rcases hz with rfl | rfl | rfl <;> rfl
          · by_cases h3 : d = 125
            · subst h3; rfl
            · simp only [List.cons_append]
              have e := number_stop hz t (d :: rest) none
              rw [List.cons_append] at e
              simp [h3, e]
              generalize number (d :: rest) none = y
              obtain ⟨_ | m, r⟩ := y
              · rfl
              · rcases r with _ | ⟨x, r⟩
                · rcases hz with rfl | rfl | rfl <;> rfl
                · by_cases h4 : x = 125
                  · subst h4; simp [h3]
                  · simp [h3, h4]
        · simp [h1, h2]

theorem lazyMark_stop {z : Nat} (hz : Stop z) (s t : List Nat) : lazyMark (s ++ z :: t) = ((lazyMark s).1, (lazyMark s).2 ++ z :: t) := by
  rcases s with _ | ⟨c, s⟩
  · rcases hz with rfl | rfl | rfl <;> rfl
  · by_cases h : c = 63
    · subst h; rfl
    · simp [lazyMark, h]

theorem token_stop {z : Nat} (hz : Stop z) {fold : Bool} {s rest : List Nat} {k : Tok} (t : List Nat) :
    token fold s = some (k, rest) → token fold (s ++ z :: t) = some (k, rest ++ z :: t) := by
  fun_cases token fold s
  case case1 => intro h; cases h
  case case2 => intro h; cases h; rfl
  case case3 => intro h; cases h
  case case4 rest' h1 h2 =>
    intro h
    rcases rest' with _ | ⟨c, rest'⟩
    · cases h; rcases hz with rfl | rfl | rfl <;> rfl
    · cases h
      have : c ≠ 63 := by rintro rfl; exact h2 _ rfl
      simp [token, this]
  case case5 => intro h; cases h; rfl
  case case6 => intro h; cases h; rfl
  case case7 => intro h; cases h; rfl
  case case8 => intro h; cases h; rfl
  case case9 => intro h; cases h; rfl
  case case10 rest' =>
    intro h
    obtain ⟨x, h1, h2⟩ := Option.map_eq_some_iff.mp h
    cases h2
    simp only [List.cons_append, token]
    rw [show (rest' ++ z :: t).length + 1 = rest'.length + 1 + (z :: t).length by rw [List.length_append]; omega, parseClass_stop t h1]
    rfl
  case case11 rest' hne =>
    intro h
    obtain ⟨x, h1, h2⟩ := Option.map_eq_some_iff.mp h
    cases h2
    have e : token fold (91 :: (rest' ++ z :: t)) =
        (parseClass ((rest' ++ z :: t).length + 1) true [] (rest' ++ z :: t)).map fun x => (.atom (.cls fold false x.1), x.2) := by
      rcases rest' with _ | ⟨c, rest'⟩
      · rcases hz with rfl | rfl | rfl <;> rfl
      · have : c ≠ 94 := by rintro rfl; exact hne _ rfl
        simp [token, this]
    rw [List.cons_append, e]
    rw [show (rest' ++ z :: t).length + 1 = rest'.length + 1 + (z :: t).length by rw [List.length_append]; omega, parseClass_stop t h1]
    rfl
  case case12 => intro h; cases h
  case case13 => intro h; cases h; rfl
  case case14 => intro h; cases h; simp only [List.cons_append, token, lazyMark_stop hz]; rfl
  case case15 => intro h; cases h; simp only [List.cons_append, token, lazyMark_stop hz]; rfl
  case case16 => intro h; cases h; simp only [List.cons_append, token, lazyMark_stop hz]; rfl
  case case17 h _ => intro h'; cases h'; simp only [List.cons_append, token, counted_stop hz, h, Option.map_some, lazyMark_stop hz]; rfl
  case case18 h => intro h'; cases h'; simp only [List.cons_append, token, counted_stop hz, h, Option.map_none]
  case case19 =>
    intro h
    cases h
    rcases rest with _ | ⟨c, rest⟩ <;> simp_all [token]

/-! Tokens leave a suffix. -/

theorem parseClass_suffix {fuel : Nat} {first : Bool} {acc : List (Nat × Nat)} {s : List Nat} {r : List (Nat × Nat) × List Nat} :
    parseClass fuel first acc s = some r → r.2 <:+ s := by
  fun_induction parseClass fuel first acc s with
  | case1 => intro h; cases h
  | case2 => intro h; cases h
  | case3 _ _ _ ih => intro h; exact (ih h).trans (List.suffix_cons _ _)
  | case4 => intro h; cases h; exact List.suffix_cons _ _
  | case5 _ _ _ _ _ ih => intro h; exact (ih h).trans ((List.suffix_cons _ _).trans (List.suffix_cons _ _))
  | case6 => intro h; cases h; exact (List.suffix_cons _ _).trans ((List.suffix_cons _ _).trans (List.suffix_cons _ _))
  | case7 _ _ _ _ _ _ _ _ ih =>
    intro h
    exact (ih h).trans ((List.suffix_cons _ _).trans ((List.suffix_cons _ _).trans ((List.suffix_cons _ _).trans (List.suffix_cons _ _))))
  | case8 _ _ _ _ _ _ _ _ _ _ ih => intro h; exact (ih h).trans ((List.suffix_cons _ _).trans ((List.suffix_cons _ _).trans (List.suffix_cons _ _)))
  | case9 _ _ _ _ _ _ _ _ _ _ ih => intro h; exact (ih h).trans (List.suffix_cons _ _)

theorem number_suffix (s : List Nat) (acc : Option Nat) : (number s acc).2 <:+ s := by
  induction s generalizing acc with
  | nil => exact List.suffix_refl _
  | cons d s ih =>
    rw [number]
    split
    · exact (ih _).trans (List.suffix_cons _ _)
    · exact List.suffix_refl _

theorem counted_suffix {s : List Nat} {n : Nat} {m : Option Nat} {r : List Nat} (h : counted s = some (n, m, r)) : r <:+ s := by
  unfold counted at h
  have hs := number_suffix s none
  split at h
  · rename_i e
    cases h
    rw [e] at hs
    exact (List.suffix_cons _ _).trans hs
  · rename_i e
    cases h
    rw [e] at hs
    exact ((List.suffix_cons _ _).trans (List.suffix_cons _ _)).trans hs
  · rename_i rest _ e
    rw [e] at hs
    have hs' := number_suffix rest none
    split at h
    · rename_i e'
      cases h
      rw [e'] at hs'
      exact ((List.suffix_cons _ _).trans hs').trans ((List.suffix_cons _ _).trans hs)
    · cases h
  · cases h

theorem lazyMark_suffix (s : List Nat) : (lazyMark s).2 <:+ s := by
  unfold lazyMark
  split
  · exact List.suffix_cons _ _
  · exact List.suffix_refl _

theorem token_suffix {fold : Bool} {s rest : List Nat} {k : Tok} : token fold s = some (k, rest) → rest <:+ s := by
  fun_cases token fold s
  case case1 => intro h; cases h
  case case2 => intro h; cases h; exact (List.suffix_cons _ _).trans ((List.suffix_cons _ _).trans (List.suffix_cons _ _))
  case case3 => intro h; cases h
  case case4 => intro h; cases h; exact List.suffix_cons _ _
  case case5 => intro h; cases h; exact List.suffix_cons _ _
  case case6 => intro h; cases h; exact List.suffix_cons _ _
  case case7 => intro h; cases h; exact List.suffix_cons _ _
  case case8 => intro h; cases h; exact List.suffix_cons _ _
  case case9 => intro h; cases h; exact List.suffix_cons _ _
  case case10 =>
    intro h
    obtain ⟨x, h1, h2⟩ := Option.map_eq_some_iff.mp h
    cases h2
    exact (parseClass_suffix h1).trans ((List.suffix_cons _ _).trans (List.suffix_cons _ _))
  case case11 =>
    intro h
    obtain ⟨x, h1, h2⟩ := Option.map_eq_some_iff.mp h
    cases h2
    exact (parseClass_suffix h1).trans (List.suffix_cons _ _)
  case case12 => intro h; cases h
  case case13 => intro h; cases h; exact (List.suffix_cons _ _).trans (List.suffix_cons _ _)
  case case14 => intro h; cases h; exact (lazyMark_suffix _).trans (List.suffix_cons _ _)
  case case15 => intro h; cases h; exact (lazyMark_suffix _).trans (List.suffix_cons _ _)
  case case16 => intro h; cases h; exact (lazyMark_suffix _).trans (List.suffix_cons _ _)
  case case17 h _ => intro h'; cases h'; exact (lazyMark_suffix _).trans ((counted_suffix h).trans (List.suffix_cons _ _))
  case case18 => intro h; cases h; exact List.suffix_cons _ _
  case case19 => intro h; cases h; exact List.suffix_cons _ _

theorem token_bar {fold : Bool} {s rest : List Nat} : token fold s = some (.bar, rest) → 124 ∈ s := by
  fun_cases token fold s
  case case6 => intro _; exact List.mem_cons_self
  case case10 => intro h; obtain ⟨x, h1, h2⟩ := Option.map_eq_some_iff.mp h; cases h2
  case case11 => intro h; obtain ⟨x, h1, h2⟩ := Option.map_eq_some_iff.mp h; cases h2
  all_goals intro h; cases h

theorem token_opn {fold : Bool} {s rest : List Nat} {c : Bool} : token fold s = some (.opn c, rest) → 40 ∈ s := by
  fun_cases token fold s
  case case2 => intro _; exact List.mem_cons_self
  case case4 => intro _; exact List.mem_cons_self
  case case10 => intro h; obtain ⟨x, h1, h2⟩ := Option.map_eq_some_iff.mp h; cases h2
  case case11 => intro h; obtain ⟨x, h1, h2⟩ := Option.map_eq_some_iff.mp h; cases h2
  all_goals intro h; cases h

/-! ### Groups -/

/-- A pattern is read as by itself when `)`, `[` or a backslash follows. -/
theorem parseLoop_stop {z : Nat} (hz : Stop z) {fold : Bool} : ∀ {fuel n : Nat} {f : Frame} {stack : List Frame} {s : List Nat} {rx : Rx}, parseLoop fold fuel n f stack s = some rx →
    ∃ k n' f', k < fuel ∧ rx = f'.close ∧
      (124 ∉ s → (∀ g ∈ f :: stack, g.alts = []) → f'.alts = []) ∧ (40 ∉ s → n' = n) ∧ f'.cap = ((f :: stack).getLast (List.cons_ne_nil _ _)).cap ∧
      ∀ base t m, parseLoop fold (m + 1 + k) n f (stack ++ base) (s ++ z :: t) = parseLoop fold (m + 1) n' f' base (z :: t) := by
  intro fuel
  induction fuel with
  | zero => intro n f stack s rx h; cases h
  | succ fuel ih =>
    intro n f stack s rx h
    rw [parseLoop] at h
    by_cases he : s.isEmpty = true
    · rw [if_pos he] at h
      have : s = [] := List.isEmpty_iff.mp he
      subst this
      by_cases hs : stack.isEmpty = true
      · rw [if_pos hs] at h
        have : stack = [] := List.isEmpty_iff.mp hs
        subst this
        exact ⟨0, n, f, by omega, (Option.some.inj h).symm, fun _ h => h f List.mem_cons_self, fun _ => rfl, rfl, fun base t m => rfl⟩
      · rw [if_neg hs] at h; cases h
    · rw [if_neg he] at h
      -- one token, then the rest
      have step : ∀ {n1 : Nat} {f1 : Frame} {st1 : List Frame} {r1 : List Nat}, parseLoop fold fuel n1 f1 st1 r1 = some rx → r1 <:+ s →
          (124 ∉ s → (∀ g ∈ f :: stack, g.alts = []) → ∀ g ∈ f1 :: st1, g.alts = []) → (40 ∉ s → n1 = n) →
          ((f1 :: st1).getLast (List.cons_ne_nil _ _)).cap = ((f :: stack).getLast (List.cons_ne_nil _ _)).cap →
          (∀ base t m, parseLoop fold (m + 1) n f (stack ++ base) (s ++ z :: t) = parseLoop fold m n1 f1 (st1 ++ base) (r1 ++ z :: t)) →
          ∃ k n' f', k < fuel + 1 ∧ rx = f'.close ∧
            (124 ∉ s → (∀ g ∈ f :: stack, g.alts = []) → f'.alts = []) ∧ (40 ∉ s → n' = n) ∧ f'.cap = ((f :: stack).getLast (List.cons_ne_nil _ _)).cap ∧
            ∀ base t m, parseLoop fold (m + 1 + k) n f (stack ++ base) (s ++ z :: t) = parseLoop fold (m + 1) n' f' base (z :: t) := by
        intro n1 f1 st1 r1 h1 hsuf hbar hopn hcap h2
        obtain ⟨k, n', f', hk, hc, hb, ho, hcp, hg⟩ := ih h1
        exact ⟨k + 1, n', f', by omega, hc, fun hs ha => hb (fun h => hs (hsuf.mem h)) (hbar hs ha),
          fun hs => (ho fun h => hs (hsuf.mem h)).trans (hopn hs), hcp.trans hcap,
          fun base t m => by rw [show m + 1 + (k + 1) = m + 1 + k + 1 by omega, h2, hg]⟩
      have ne : ∀ t : List Nat, (s ++ z :: t).isEmpty = false := fun t => by cases s <;> rfl
      cases ht : token fold s with
      | none => rw [ht] at h; cases h
      | some x =>
        obtain ⟨tok, rest⟩ := x
        rw [ht] at h
        have hst := fun t => token_stop hz t ht
        have hsuf := token_suffix ht
        -- changing the current frame only
        have same : ∀ {f1 : Frame}, f1.cap = f.cap → ((f1 :: stack).getLast (List.cons_ne_nil _ _)).cap = ((f :: stack).getLast (List.cons_ne_nil _ _)).cap := by
          intro f1 h1
          cases stack with
          | nil => exact h1
          | cons g st => rfl
        cases tok with
        | atom x =>
          refine step h hsuf ?_ (fun _ => rfl) (same rfl) fun base t m => ?_
          · intro _ ha g hg
            rcases List.mem_cons.mp hg with rfl | hg
            · exact ha f List.mem_cons_self
            · exact ha g (List.mem_cons_of_mem _ hg)
          · rw [parseLoop, ne, if_neg (by decide), hst]
        | opn c =>
          cases c with
          | true =>
            refine step h hsuf ?_ (fun hs => absurd (token_opn ht) hs) rfl fun base t m => ?_
            · intro _ ha g hg
              rcases List.mem_cons.mp hg with rfl | hg
              · rfl
              · exact ha g hg
            · rw [parseLoop, ne, if_neg (by decide), hst]
              rfl
          | false =>
            refine step h hsuf ?_ (fun _ => rfl) rfl fun base t m => ?_
            · intro _ ha g hg
              rcases List.mem_cons.mp hg with rfl | hg
              · rfl
              · exact ha g hg
            · rw [parseLoop, ne, if_neg (by decide), hst]
              rfl
        | cls =>
          cases stack with
          | nil => cases h
          | cons g0 stack =>
            refine step h hsuf ?_ (fun _ => rfl) ?_ fun base t m => ?_
            · intro _ ha g hg
              rcases List.mem_cons.mp hg with rfl | hg
              · exact ha g0 (List.mem_cons_of_mem _ List.mem_cons_self)
              · exact ha g (List.mem_cons_of_mem _ (List.mem_cons_of_mem _ hg))
            · cases stack <;> rfl
            · rw [parseLoop, ne, if_neg (by decide), hst]
              rfl
        | bar =>
          refine step h hsuf (fun hs => absurd (token_bar ht) hs) (fun _ => rfl) (same rfl) fun base t m => ?_
          rw [parseLoop, ne, if_neg (by decide), hst]
        | quant a b g =>
          cases hq : f.seq with
          | nil => simp only [hq] at h; cases h
          | cons x seq =>
            simp only [hq] at h
            refine step h hsuf ?_ (fun _ => rfl) (same rfl) fun base t m => ?_
            · intro _ ha g hg
              rcases List.mem_cons.mp hg with rfl | hg
              · exact ha f List.mem_cons_self
              · exact ha g (List.mem_cons_of_mem _ hg)
            · rw [parseLoop, ne, if_neg (by decide), hst]
              simp only [hq]

theorem parse_anyCase {p : Bytes} : parse (ascii "(?i)" ++ p) = parseLoop true ((runesOf p).length + 1) 0 ⟨none, [], []⟩ [] (runesOf p) := by
  have e : runes (ascii "(?i)" ++ p).length (ascii "(?i)" ++ p) = 40 :: 63 :: 105 :: 41 :: runesOf p := by
    have := runesOf_append (l := ascii "(?i)") (by decide +kernel) p
    rw [runesOf] at this
    rw [this]
    rfl
  unfold parse
  rw [e]
  rfl

/-- The characters of words, for client rules. -/
def wordClass (under : Bool) : Rx := .cls true true ((if under then [(95, 95)] else []) ++ [(45, 45), (48, 57), (65, 90)])

def lit (s : String) : Rx := catAll ((ascii s).map fun b => .cls true false [(b.toNat, b.toNat)])

/-- What client patterns put before the pattern of the rule. -/
def wordRx : Rx := altAll [.bot, wordClass true, catAll [wordClass false, lit "_"], lit "sprd-", lit "MZ-"]

def wordText : Bytes := ascii "(?:^|[^A-Z0-9\\-_]|[^A-Z0-9\\-]_|sprd-|MZ-)"

theorem parse_word (m : Nat) (t : List Nat) : parseLoop true (m + 19) 0 ⟨none, [], []⟩ [] (wordText.map UInt8.toNat ++ 40 :: 63 :: 58 :: t) =
    parseLoop true m 0 ⟨none, [], []⟩ [⟨none, [], [wordRx]⟩] t := by
  have e : wordText.map UInt8.toNat = [40, 63, 58, 94, 124, 91, 94, 65, 45, 90, 48, 45, 57, 92, 45, 95, 93, 124, 91, 94, 65, 45, 90, 48, 45, 57, 92, 45, 93, 95, 124, 115, 112, 114, 100, 45, 124, 77, 90, 45, 41] := by decide +kernel
  have e' : wordRx = .alt (.bot) (.alt (.cls true true [(95, 95), (45, 45), (48, 57), (65, 90)]) (.alt (.cat (.cls true true [(45, 45), (48, 57), (65, 90)]) (.cls true false [(95, 95)])) (.alt (.cat (.cls true false [(115, 115)]) (.cat (.cls true false [(112, 112)]) (.cat (.cls true false [(114, 114)]) (.cat (.cls true false [(100, 100)]) (.cls true false [(45, 45)]))))) (.cat (.cls true false [(77, 77)]) (.cat (.cls true false [(90, 90)]) (.cls true false [(45, 45)])))))) := by decide +kernel
  rw [e, e']
  rfl

theorem parse_atWord {p : Bytes} {rx : Rx} (h : parse (ascii "(?i)" ++ p) = some rx) :
    parse (ascii "(?i)" ++ (wordText ++ (ascii "(?:" ++ (p ++ [41])))) = some (.cat wordRx rx) := by
  rw [parse_anyCase] at h ⊢
  rw [runesOf_append (by decide +kernel), runesOf_append (by decide +kernel), runesOf_stop (by decide)]
  obtain ⟨k, n', f', hk, rfl, -, -, -, hg⟩ := parseLoop_stop (.inl rfl) h
  have e : (ascii "(?:").map UInt8.toNat = [40, 63, 58] := by decide +kernel
  have hl : (wordText.map UInt8.toNat).length = 41 := by decide +kernel
  rw [e, show ([40, 63, 58] ++ (runesOf p ++ (41 : UInt8).toNat :: runesOf [])) = 40 :: 63 :: 58 :: (runesOf p ++ (41 : UInt8).toNat :: runesOf []) from rfl]
  obtain ⟨d, hd⟩ : ∃ d, (wordText.map UInt8.toNat ++ 40 :: 63 :: 58 :: (runesOf p ++ (41 : UInt8).toNat :: runesOf [])).length + 1 = d + 1 + 1 + k + 19 :=
    ⟨(runesOf p).length + 46 - 21 - k, by
      simp only [List.length_append, List.length_cons, hl]
      have : (runesOf []).length = 0 := rfl
      omega⟩
  rw [hd, parse_word]
  exact hg [⟨none, [], [wordRx]⟩] [] (d + 1)

end Verif.Regexp
