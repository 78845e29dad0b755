import Verif.Proofs.Utf8
/-
The backtracking search of the regexp model against the language of expressions and the order of preference.
-/
namespace Verif.Regexp

theorem inRanges_iff {r : Nat} {l : List (Nat × Nat)} : inRanges r l = true ↔ ∃ lo hi, (lo, hi) ∈ l ∧ lo ≤ r ∧ r ≤ hi := by
  induction l with
  | nil => simp [inRanges]
  | cons x l ih =>
    obtain ⟨lo, hi⟩ := x
    rw [inRanges, Bool.or_eq_true, Bool.and_eq_true, Nat.ble_eq, Nat.ble_eq, ih]
    constructor
    · rintro (⟨h1, h2⟩ | ⟨lo', hi', h1, h2⟩)
      · exact ⟨lo, hi, List.mem_cons_self, h1, h2⟩
      · exact ⟨lo', hi', List.mem_cons_of_mem _ h1, h2⟩
    · rintro ⟨lo', hi', h1, h2⟩
      rcases List.mem_cons.mp h1 with h | h
      · cases h; exact .inl h2
      · exact .inr ⟨lo', hi', h, h2⟩

theorem mem_ite {c : Prop} [Decidable c] {r : Nat} {l l' : List Nat} (h : c → r ∈ l) (h' : ¬ c → r ∈ l') : r ∈ if c then l else l' := by
  by_cases hc : c
  · rw [if_pos hc]; exact h hc
  · rw [if_neg hc]; exact h' hc

theorem folds_self (r : Nat) : r ∈ folds r := by
  unfold folds
  repeat' refine mem_ite (fun h => ?_) (fun _ => ?_)
  all_goals first
    | exact List.mem_cons_self
    | (rw [h]; exact List.mem_cons_self)

theorem inClass_iff {fold neg : Bool} {l : List (Nat × Nat)} {r : Nat} : inClass fold neg l r = true ↔ (InRanges fold l r ↔ neg = false) := by
  have e : (if fold then (folds r).any fun x => inRanges x l else inRanges r l) = true ↔ InRanges fold l r := by
    cases fold with
    | false =>
      rw [if_neg (by decide), inRanges_iff]
      constructor
      · rintro h; exact ⟨r, .inl rfl, h⟩
      · rintro ⟨x, rfl | ⟨h, -⟩, h'⟩
        · exact h'
        · cases h
    | true =>
      rw [if_pos rfl, List.any_eq_true]
      constructor
      · rintro ⟨x, h1, h2⟩; exact ⟨x, .inr ⟨rfl, h1⟩, inRanges_iff.mp h2⟩
      · rintro ⟨x, rfl | ⟨-, h⟩, h'⟩
        · exact ⟨x, folds_self x, inRanges_iff.mpr h'⟩
        · exact ⟨x, h, inRanges_iff.mpr h'⟩
  rw [inClass, ← e]
  cases (if fold then (folds r).any fun x => inRanges x l else inRanges r l) <;> cases neg <;> simp

/-! ### Ways -/

theorem Way.le {b : Bytes} {rx : Rx} {i j : Nat} {c : Caps} {p : List Bool} (h : Way b rx i j c p) : i ≤ j ∧ (i ≤ b.length → j ≤ b.length) := by
  induction h with
  | cls h _ => have := h.width; omega
  | empty | bot | eot | stop => omega
  | cat _ _ h1 h2 => omega
  | altL _ h | altR _ h | cap _ h => exact h
  | more _ _ _ h1 h2 => omega

theorem app_left {α : Type} {a b c : List α} (h : a ++ b = a ++ c) : b = c := List.append_cancel_left h

/-- The choices determine the match, also when more choices follow. -/
theorem Way.unique {b : Bytes} {rx : Rx} {i j : Nat} {c : Caps} {p : List Bool} (h : Way b rx i j c p) : ∀ {j' : Nat} {c' : Caps} {p' s s' : List Bool},
    Way b rx i j' c' p' → p ++ s = p' ++ s' → p = p' ∧ j = j' ∧ c = c' := by
  induction h with
  | empty => intro j' c' p' s s' h' e; cases h'; exact ⟨rfl, rfl, rfl⟩
  | bot => intro j' c' p' s s' h' e; cases h'; exact ⟨rfl, rfl, rfl⟩
  | eot => intro j' c' p' s s' h' e; cases h'; exact ⟨rfl, rfl, rfl⟩
  | cls h _ =>
    intro j' c' p' s s' h' e
    cases h' with
    | cls g _ => obtain ⟨rfl, rfl⟩ := h.unique g; exact ⟨rfl, rfl, rfl⟩
  | cat _ _ ih1 ih2 =>
    intro j' c' p' s s' h' e
    cases h' with
    | cat g1 g2 =>
      rw [List.append_assoc, List.append_assoc] at e
      obtain ⟨rfl, rfl, rfl⟩ := ih1 g1 e
      obtain ⟨rfl, rfl, rfl⟩ := ih2 g2 (app_left e)
      exact ⟨rfl, rfl, rfl⟩
  | altL _ ih =>
    intro j' c' p' s s' h' e
    cases h' with
    | altL g =>
      obtain ⟨rfl, rfl, rfl⟩ := ih g (List.cons.inj e).2
      exact ⟨rfl, rfl, rfl⟩
    | altR g => exact absurd (List.cons.inj e).1 (by decide)
  | altR _ ih =>
    intro j' c' p' s s' h' e
    cases h' with
    | altR g =>
      obtain ⟨rfl, rfl, rfl⟩ := ih g (List.cons.inj e).2
      exact ⟨rfl, rfl, rfl⟩
    | altL g => exact absurd (List.cons.inj e).1 (by decide)
  | @stop g =>
    intro j' c' p' s s' h' e
    cases h' with
    | stop => exact ⟨rfl, rfl, rfl⟩
    | more => exact absurd (List.cons.inj e).1 (by cases g <;> decide)
  | @more g _ _ _ _ _ _ _ _ _ _ _ ih1 ih2 =>
    intro j' c' p' s s' h' e
    cases h' with
    | stop => exact absurd (List.cons.inj e).1 (by cases g <;> decide)
    | more g1 _ g2 =>
      simp only [List.cons_append, List.append_assoc, List.cons.injEq, true_and] at e
      obtain ⟨rfl, rfl, rfl⟩ := ih1 g1 e
      obtain ⟨rfl, rfl, rfl⟩ := ih2 g2 (app_left e)
      exact ⟨rfl, rfl, rfl⟩
  | cap _ ih =>
    intro j' c' p' s s' h' e
    cases h' with
    | cap g =>
      obtain ⟨rfl, rfl, rfl⟩ := ih g e
      exact ⟨rfl, rfl, rfl⟩

/-- Preference between ways of one expression followed by further choices. -/
theorem Preferred.split {b : Bytes} {rx : Rx} {i j j' : Nat} {c c' : Caps} {p p' q q' : List Bool} (h : Way b rx i j c p) (h' : Way b rx i j' c' p')
    (hp : Preferred (p' ++ q') (p ++ q)) : Preferred p' p ∨ (p = p' ∧ j = j' ∧ c = c' ∧ Preferred q' q) := by
  obtain ⟨s, t, u, e', e⟩ := hp
  rcases List.append_eq_append_iff.mp e' with ⟨x, h1, h2⟩ | ⟨x, h1, h2⟩
  · -- `p'` is exhausted first
    right
    subst h1
    rw [List.append_assoc] at e
    obtain ⟨rfl, rfl, rfl⟩ := h.unique h' e
    exact ⟨rfl, rfl, rfl, x, t, u, h2, app_left e⟩
  · rcases x with _ | ⟨z, x⟩
    · right
      rw [List.append_nil] at h1
      subst h1
      obtain ⟨rfl, rfl, rfl⟩ := h.unique h' e
      exact ⟨rfl, rfl, rfl, [], t, u, h2.symm, app_left e⟩
    · obtain ⟨rfl, h2⟩ := List.cons.inj h2
      left
      rcases List.append_eq_append_iff.mp e with ⟨y, g1, g2⟩ | ⟨y, g1, g2⟩
      · exfalso
        rw [h1, g1, List.append_assoc] at h'
        obtain ⟨k1, -, -⟩ := h.unique (s := y ++ false :: x) (s' := []) h' (by rw [List.append_nil])
        have := congrArg List.length k1
        simp only [List.length_append, List.length_cons] at this
        omega
      · rcases y with _ | ⟨z, y⟩
        · exfalso
          rw [List.append_nil] at g1
          rw [h1] at h'
          obtain ⟨k1, -, -⟩ := h.unique (s := false :: x) (s' := []) h' (by rw [List.append_nil, g1])
          have := congrArg List.length k1
          rw [g1] at this
          simp only [List.length_append, List.length_cons] at this
          omega
        · obtain ⟨rfl, -⟩ := List.cons.inj g2
          exact ⟨s, x, y, h1, g1⟩

/-! ### Backtracking -/

/-- The result `r` is that of the most preferred way after which the rest succeeds, `none` if there is no such way. -/
def First (b : Bytes) (rx : Rx) (k : K) (i : Nat) (caps : Caps) : Option Caps → Prop
  | none => ∀ j c p, Way b rx i j c p → k j (b.drop j) (c ++ caps) = none
  | some r => ∃ j c p, Way b rx i j c p ∧ k j (b.drop j) (c ++ caps) = some r ∧
      ∀ j' c' p', Way b rx i j' c' p' → Preferred p' p → k j' (b.drop j') (c' ++ caps) = none

theorem not_preferred_nil {p : List Bool} : ¬ Preferred p [] := by
  rintro ⟨s, t, u, -, h⟩
  cases s <;> cases h

theorem not_preferred_false {p q : List Bool} (h : Preferred p (false :: q)) : ∃ p', p = false :: p' ∧ Preferred p' q := by
  obtain ⟨s, t, u, h1, h2⟩ := h
  rcases s with _ | ⟨x, s⟩
  · cases (List.cons.inj h2).1
  · obtain ⟨rfl, h3⟩ := List.cons.inj h2
    exact ⟨_, h1, s, t, u, rfl, h3⟩

theorem preferred_true {p q : List Bool} (h : Preferred p (true :: q)) : (∃ p', p = false :: p') ∨ ∃ p', p = true :: p' ∧ Preferred p' q := by
  obtain ⟨s, t, u, h1, h2⟩ := h
  rcases s with _ | ⟨x, s⟩
  · exact .inl ⟨_, h1⟩
  · obtain ⟨rfl, h3⟩ := List.cons.inj h2
    exact .inr ⟨_, h1, s, t, u, rfl, h3⟩

theorem isSome_none {α : Type} {x : Option α} (h : ∀ a, x ≠ some a) : x = none := by
  cases x with
  | none => rfl
  | some a => exact absurd rfl (h a)

/-- Matching one expression and then another. -/
theorem First.seq {b : Bytes} {x y : Rx} {k : K} {i : Nat} {caps : Caps} (P : Nat → Prop)
    (hP : ∀ j c p, Way b x i j c p → P j)
    {k' : K} (hk : ∀ j c, P j → First b y k j c (k' j (b.drop j) c))
    {r : Option Caps} (h : First b x k' i caps r) :
    (∀ j l c d p q, Way b x i j c p → Way b y j l d q → r = none → k l (b.drop l) (d ++ c ++ caps) = none) ∧
    (∀ v, r = some v → ∃ j l c d p q, Way b x i j c p ∧ Way b y j l d q ∧ k l (b.drop l) (d ++ c ++ caps) = some v ∧
      ∀ j' l' c' d' p' q', Way b x i j' c' p' → Way b y j' l' d' q' → Preferred (p' ++ q') (p ++ q) → k l' (b.drop l') (d' ++ c' ++ caps) = none) := by
  constructor
  · rintro j l c d p q h1 h2 rfl
    have := hk j (c ++ caps) (hP _ _ _ h1)
    rw [h _ _ _ h1] at this
    have := this _ _ _ h2
    rwa [List.append_assoc]
  · rintro v rfl
    obtain ⟨j, c, p, h1, h2, h3⟩ := h
    have g := hk j (c ++ caps) (hP _ _ _ h1)
    rw [h2] at g
    obtain ⟨l, d, q, g1, g2, g3⟩ := g
    refine ⟨j, l, c, d, p, q, h1, g1, by rwa [List.append_assoc], ?_⟩
    intro j' l' c' d' p' q' w1 w2 hp
    rw [List.append_assoc]
    rcases hp.split h1 w1 with hp | ⟨rfl, rfl, rfl, hp⟩
    · have z := hk j' (c' ++ caps) (hP _ _ _ w1)
      rw [h3 _ _ _ w1 hp] at z
      exact z _ _ _ w2
    · exact g3 _ _ _ w2 hp

theorem starLoop_first {b : Bytes} {g : Bool} {x : Rx} (ih : ∀ k i caps, i ≤ b.length → First b x k i caps (x.run k i (b.drop i) caps)) (k : K) :
    ∀ fuel i caps, i ≤ b.length → b.length - i ≤ fuel → First b (.star g x) k i caps (starLoop g x.run k fuel i (b.drop i) caps) := by
  intro fuel
  induction fuel with
  | zero =>
    intro i caps hi hf
    have only : ∀ {j c p}, Way b (.star g x) i j c p → j = i ∧ c = [] ∧ p = [g] := by
      intro j c p h
      cases h with
      | stop => exact ⟨rfl, rfl, rfl⟩
      | more h1 h2 _ => have := h1.le; omega
    rw [starLoop]
    cases hk : k i (b.drop i) caps with
    | none =>
      intro j c p h
      obtain ⟨rfl, rfl, rfl⟩ := only h
      exact hk
    | some r =>
      refine ⟨i, [], [g], .stop, hk, fun j' c' p' h hp => ?_⟩
      obtain ⟨rfl, rfl, rfl⟩ := only h
      obtain ⟨s, t, u, e1, e2⟩ := hp
      rw [e1] at e2
      exact absurd (app_left e2) (by simp)
  | succ fuel ihf =>
    intro i caps hi hf
    have hm := ih (fun pos' rest' caps' => if pos' = i then none else starLoop g x.run k fuel pos' rest' caps') i caps hi
    -- what the further rounds yield
    have hmore : ∀ r, x.run (fun pos' rest' caps' => if pos' = i then none else starLoop g x.run k fuel pos' rest' caps') i (b.drop i) caps = r →
        (r = none → ∀ j l c d p q, Way b x i j c p → j ≠ i → Way b (.star g x) j l d q → k l (b.drop l) (d ++ c ++ caps) = none) ∧
        (∀ v, r = some v → ∃ j l c d p q, Way b x i j c p ∧ j ≠ i ∧ Way b (.star g x) j l d q ∧ k l (b.drop l) (d ++ c ++ caps) = some v ∧
          ∀ j' l' c' d' p' q', Way b x i j' c' p' → j' ≠ i → Way b (.star g x) j' l' d' q' → Preferred (p' ++ q') (p ++ q) →
            k l' (b.drop l') (d' ++ c' ++ caps) = none) := by
      intro r hr
      rw [hr] at hm
      have rc : ∀ j c' c p, Way b x i j c p → j ≠ i → First b (.star g x) k j c' (starLoop g x.run k fuel j (b.drop j) c') := by
        intro j c' c p h1 hne
        have := h1.le
        exact ihf j c' (this.2 hi) (by omega)
      constructor
      · rintro rfl j l c d p q h1 hne h2
        have z := rc j (c ++ caps) c p h1 hne
        have e := hm _ _ _ h1
        dsimp only at e
        rw [if_neg hne] at e
        rw [e] at z
        rw [List.append_assoc]
        exact z _ _ _ h2
      · rintro v rfl
        obtain ⟨j, c, p, h1, h2, h3⟩ := hm
        have hne : j ≠ i := by
          rintro rfl
          dsimp only at h2
          rw [if_pos rfl] at h2
          cases h2
        dsimp only at h2
        rw [if_neg hne] at h2
        have z := rc j (c ++ caps) c p h1 hne
        rw [h2] at z
        obtain ⟨l, d, q, g1, g2, g3⟩ := z
        refine ⟨j, l, c, d, p, q, h1, hne, g1, by rwa [List.append_assoc], ?_⟩
        intro j' l' c' d' p' q' w1 hne' w2 hp
        rw [List.append_assoc]
        rcases hp.split h1 w1 with hp | ⟨rfl, rfl, rfl, hp⟩
        · have z := rc j' (c' ++ caps) c' p' w1 hne'
          have e := h3 _ _ _ w1 hp
          dsimp only at e
          rw [if_neg hne'] at e
          rw [e] at z
          exact z _ _ _ w2
        · exact g3 _ _ _ w2 hp
    cases g with
    | true =>
      have e : starLoop true x.run k (fuel + 1) i (b.drop i) caps =
          (match x.run (fun pos' rest' caps' => if pos' = i then none else starLoop true x.run k fuel pos' rest' caps') i (b.drop i) caps with
          | some r => some r
          | none => k i (b.drop i) caps) := rfl
      rw [e]
      cases hr : x.run (fun pos' rest' caps' => if pos' = i then none else starLoop true x.run k fuel pos' rest' caps') i (b.drop i) caps with
      | some v =>
        obtain ⟨j, l, c, d, p, q, h1, hne, h2, h3, h4⟩ := (hmore _ hr).2 v rfl
        refine ⟨l, d ++ c, false :: p ++ q, .more h1 hne h2, h3, ?_⟩
        intro j' c' p' w hp
        obtain ⟨p'', rfl, hq⟩ := not_preferred_false hp
        cases w with
        | more w1 hne' w2 => exact h4 _ _ _ _ _ _ w1 hne' w2 hq
      | none =>
        dsimp only
        have hn := (hmore _ hr).1 rfl
        cases hk : k i (b.drop i) caps with
        | some v =>
          refine ⟨i, [], [true], .stop, hk, ?_⟩
          intro j' c' p' w hp
          cases w with
          | stop =>
            obtain ⟨s, t, u, e1, e2⟩ := hp
            rw [e1] at e2
            exact absurd (app_left e2) (by simp)
          | more w1 hne' w2 => exact hn _ _ _ _ _ _ w1 hne' w2
        | none =>
          intro j' c' p' w
          cases w with
          | stop => exact hk
          | more w1 hne' w2 => exact hn _ _ _ _ _ _ w1 hne' w2
    | false =>
      have e : starLoop false x.run k (fuel + 1) i (b.drop i) caps =
          (match k i (b.drop i) caps with
          | some r => some r
          | none => x.run (fun pos' rest' caps' => if pos' = i then none else starLoop false x.run k fuel pos' rest' caps') i (b.drop i) caps) := rfl
      rw [e]
      cases hk : k i (b.drop i) caps with
      | some v =>
        refine ⟨i, [], [false], .stop, hk, ?_⟩
        intro j' c' p' w hp
        obtain ⟨p'', rfl, hq⟩ := not_preferred_false hp
        exact absurd hq not_preferred_nil
      | none =>
        dsimp only
        cases hr : x.run (fun pos' rest' caps' => if pos' = i then none else starLoop false x.run k fuel pos' rest' caps') i (b.drop i) caps with
        | some v =>
          obtain ⟨j, l, c, d, p, q, h1, hne, h2, h3, h4⟩ := (hmore _ hr).2 v rfl
          refine ⟨l, d ++ c, true :: p ++ q, .more h1 hne h2, h3, ?_⟩
          intro j' c' p' w hp
          cases w with
          | stop => exact hk
          | more w1 hne' w2 =>
            rcases preferred_true hp with ⟨p'', e⟩ | ⟨p'', e, hp⟩
            · cases (List.cons.inj e).1
            · obtain ⟨-, rfl⟩ := List.cons.inj e
              exact h4 _ _ _ _ _ _ w1 hne' w2 hp
        | none =>
          intro j' c' p' w
          cases w with
          | stop => exact hk
          | more w1 hne' w2 => exact (hmore _ hr).1 rfl _ _ _ _ _ _ w1 hne' w2

/-- A single way without choices. -/
theorem First.one {b : Bytes} {rx : Rx} {k : K} {i j : Nat} {caps : Caps} (h : Way b rx i j [] [])
    (only : ∀ {j' c p}, Way b rx i j' c p → j' = j ∧ c = [] ∧ p = []) : First b rx k i caps (k j (b.drop j) caps) := by
  cases hk : k j (b.drop j) caps with
  | none =>
    intro j' c p w
    obtain ⟨rfl, rfl, rfl⟩ := only w
    exact hk
  | some r =>
    refine ⟨j, [], [], h, hk, ?_⟩
    intro j' c p _ hp
    exact absurd hp not_preferred_nil

/-- The backtracking search yields the result of the most preferred way. -/
theorem run_first (b : Bytes) (rx : Rx) : ∀ (k : K) (i : Nat) (caps : Caps), i ≤ b.length → First b rx k i caps (rx.run k i (b.drop i) caps) := by
  induction rx with
  | empty =>
    intro k i caps hi
    exact First.one .empty (by intro j c p w; cases w; exact ⟨rfl, rfl, rfl⟩)
  | cls fold neg ranges =>
    intro k i caps hi
    by_cases hl : i < b.length
    · obtain ⟨r, w, hr⟩ := runeAt_ex hl
      have hd := (runeAt_iff.mp hr).2
      have hs : (b.drop i).drop w = b.drop (i + w) := by rw [List.drop_drop]
      have only : ∀ {j' c p}, Way b (.cls fold neg ranges) i j' c p → j' = i + w ∧ c = [] ∧ p = [] := by
        intro j' c p h
        cases h with
        | cls h1 _ => obtain ⟨rfl, rfl⟩ := hr.unique h1; exact ⟨rfl, rfl, rfl⟩
      have e : (Rx.cls fold neg ranges).run k i (b.drop i) caps = if inClass fold neg ranges r then k (i + w) (b.drop (i + w)) caps else none := by
        rw [← hs]
        rw [List.drop_eq_getElem_cons hl] at hd ⊢
        rw [Rx.run]
        dsimp only
        by_cases ha : b[i].toNat < 0x80
        · rw [if_pos ha]
          have hd' : decodeRune (b[i] :: b.drop (i + 1)) = (b[i].toNat, 1) := by simp only [decodeRune, if_pos ha]
          rw [hd] at hd'
          cases hd'
          rfl
        · rw [if_neg ha, hd]
      rw [e]
      by_cases hc : inClass fold neg ranges r = true
      · rw [if_pos hc]
        exact First.one (.cls hr (inClass_iff.mp hc)) only
      · rw [if_neg hc]
        intro j c p h
        cases h with
        | cls h1 h2 => obtain ⟨rfl, rfl⟩ := hr.unique h1; exact absurd (inClass_iff.mpr h2) hc
    · rw [List.drop_eq_nil_of_le (by omega)]
      intro j c p h
      cases h with
      | cls h1 h2 => exact absurd h1.1 hl
  | bot =>
    intro k i caps hi
    rw [Rx.run]
    dsimp only
    by_cases h0 : i = 0
    · subst h0
      rw [if_pos rfl]
      exact First.one .bot (by intro j c p w; cases w; exact ⟨rfl, rfl, rfl⟩)
    · rw [if_neg h0]
      intro j c p h
      cases h
      exact absurd rfl h0
  | eot =>
    intro k i caps hi
    rw [Rx.run]
    dsimp only
    by_cases h0 : i = b.length
    · subst h0
      rw [if_pos (by rw [List.drop_length]; rfl)]
      exact First.one .eot (by intro j c p w; cases w; exact ⟨rfl, rfl, rfl⟩)
    · rw [if_neg (by rw [List.isEmpty_iff, List.drop_eq_nil_iff]; omega)]
      intro j c p h
      cases h
      exact absurd rfl h0
  | cat x y ihx ihy =>
    intro k i caps hi
    obtain ⟨h1, h2⟩ := First.seq (k := k) (fun j => j ≤ b.length) (fun j c p w => w.le.2 hi) (fun j c hj => ihy k j c hj) (ihx (y.run k) i caps hi)
    rw [Rx.run]
    cases hr : x.run (y.run k) i (b.drop i) caps with
    | none =>
      intro j c p w
      cases w with
      | cat w1 w2 => exact h1 _ _ _ _ _ _ w1 w2 hr
    | some v =>
      obtain ⟨j, l, c, d, p, q, g1, g2, g3, g4⟩ := h2 v hr
      refine ⟨l, d ++ c, p ++ q, .cat g1 g2, g3, ?_⟩
      intro j' c' p' w hp
      cases w with
      | cat w1 w2 => exact g4 _ _ _ _ _ _ w1 w2 hp
  | alt x y ihx ihy =>
    intro k i caps hi
    have hx := ihx k i caps hi
    have hy := ihy k i caps hi
    rw [Rx.run]
    dsimp only
    cases hr : x.run k i (b.drop i) caps with
    | some v =>
      rw [hr] at hx
      obtain ⟨j, c, p, g1, g2, g3⟩ := hx
      refine ⟨j, c, false :: p, .altL g1, g2, ?_⟩
      intro j' c' p' w hp
      obtain ⟨p'', rfl, hq⟩ := not_preferred_false hp
      cases w with
      | altL w => exact g3 _ _ _ w hq
    | none =>
      rw [hr] at hx
      dsimp only
      cases hs : y.run k i (b.drop i) caps with
      | none =>
        rw [hs] at hy
        intro j c p w
        cases w with
        | altL w => exact hx _ _ _ w
        | altR w => exact hy _ _ _ w
      | some v =>
        rw [hs] at hy
        obtain ⟨j, c, p, g1, g2, g3⟩ := hy
        refine ⟨j, c, true :: p, .altR g1, g2, ?_⟩
        intro j' c' p' w hp
        cases w with
        | altL w => exact hx _ _ _ w
        | altR w =>
          rcases preferred_true hp with ⟨p'', e⟩ | ⟨p'', e, hp⟩
          · cases (List.cons.inj e).1
          · obtain ⟨-, rfl⟩ := List.cons.inj e
            exact g3 _ _ _ w hp
  | star g x ih =>
    intro k i caps hi
    rw [Rx.run]
    dsimp only
    exact starLoop_first ih k _ i caps hi (by rw [List.length_drop]; exact Nat.le_refl _)
  | cap n x ih =>
    intro k i caps hi
    have h := ih (fun pos' rest' caps' => k pos' rest' ((n, i, pos') :: caps')) i caps hi
    rw [Rx.run]
    dsimp only
    cases hr : x.run (fun pos' rest' caps' => k pos' rest' ((n, i, pos') :: caps')) i (b.drop i) caps with
    | none =>
      rw [hr] at h
      intro j c p w
      cases w with
      | cap w => exact h _ _ _ w
    | some v =>
      rw [hr] at h
      obtain ⟨j, c, p, g1, g2, g3⟩ := h
      refine ⟨j, _, p, .cap g1, g2, ?_⟩
      intro j' c' p' w hp
      cases w with
      | cap w => exact g3 _ _ _ w hp

/-! ### The language -/

theorem Way.lang {b : Bytes} {rx : Rx} {i j : Nat} {c : Caps} {p : List Bool} (h : Way b rx i j c p) : Lang b rx i j := by
  induction h with
  | empty => exact .empty
  | cls h1 h2 => exact .cls h1 h2
  | bot => exact .bot
  | eot => exact .eot
  | cat _ _ h1 h2 => exact .cat h1 h2
  | altL _ h => exact .altL h
  | altR _ h => exact .altR h
  | stop => exact .stop
  | more _ _ _ h1 h2 => exact .more h1 h2
  | cap _ h => exact .cap h

theorem Lang.way {b : Bytes} {rx : Rx} {i j : Nat} (h : Lang b rx i j) : ∃ c p, Way b rx i j c p := by
  induction h with
  | empty => exact ⟨_, _, .empty⟩
  | cls h1 h2 => exact ⟨_, _, .cls h1 h2⟩
  | bot => exact ⟨_, _, .bot⟩
  | eot => exact ⟨_, _, .eot⟩
  | cat _ _ h1 h2 => obtain ⟨_, _, h1⟩ := h1; obtain ⟨_, _, h2⟩ := h2; exact ⟨_, _, .cat h1 h2⟩
  | altL _ h => obtain ⟨_, _, h⟩ := h; exact ⟨_, _, .altL h⟩
  | altR _ h => obtain ⟨_, _, h⟩ := h; exact ⟨_, _, .altR h⟩
  | stop => exact ⟨_, _, .stop⟩
  | @more g x i j k _ _ h1 h2 =>
    obtain ⟨c, p, h1⟩ := h1
    obtain ⟨d, q, h2⟩ := h2
    by_cases e : j = i
    · subst e; exact ⟨d, q, h2⟩
    · exact ⟨_, _, .more h1 e h2⟩
  | cap _ h => obtain ⟨_, _, h⟩ := h; exact ⟨_, _, .cap h⟩

/-! ### Searching -/

theorem Boundary.le {b : Bytes} {i : Nat} (h : Boundary b i) : i ≤ b.length := by
  induction h with
  | zero => omega
  | next _ h _ => exact h.width.2

/-- There are no boundaries inside a rune. -/
theorem Boundary.gap {b : Bytes} {i l r w : Nat} (hi : Boundary b i) (hr : RuneAt b i r w) (hl : Boundary b l) : l ≤ i ∨ i + w ≤ l := by
  have : ∀ n i l r w, i + l ≤ n → Boundary b i → RuneAt b i r w → Boundary b l → l ≤ i ∨ i + w ≤ l := by
    intro n
    induction n with
    | zero => intros; omega
    | succ n ih =>
      intro i l r w hn hi hr hl
      cases hl with
      | zero => omega
      | @next l' r' w' hl h =>
        have := h.width
        have g1 := ih i l' r w (by omega) hi hr hl
        have g2 := ih l' i r' w' (by omega) hl h hi
        by_cases e : l' = i
        · subst e
          obtain ⟨-, rfl⟩ := hr.unique h
          omega
        · omega
  exact this _ _ _ _ _ (Nat.le_refl _) hi hr hl

/-- The match found by `search`. -/
structure Found (b : Bytes) (rx : Rx) (i j : Nat) (c : Caps) (p : List Bool) : Prop where
  start : Boundary b i
  way : Way b rx i j c p
  leftmost : ∀ i' j', Boundary b i' → Lang b rx i' j' → i ≤ i'
  first : ∀ j' c' p', Way b rx i j' c' p' → ¬ Preferred p' p

theorem search_found {b : Bytes} {rx : Rx} : ∀ fuel i, Boundary b i → b.length - i ≤ fuel →
    (∀ i' j', Boundary b i' → Lang b rx i' j' → i ≤ i') →
    (search rx fuel i (b.drop i) = none → ∀ i' j', Boundary b i' → ¬ Lang b rx i' j') ∧
    (∀ caps, search rx fuel i (b.drop i) = some caps → ∃ i' j c p, Found b rx i' j c p ∧ caps = (0, i', j) :: c) := by
  intro fuel
  have here : ∀ i, Boundary b i → (∀ i' j', Boundary b i' → Lang b rx i' j' → i ≤ i') →
      ((Rx.cap 0 rx).run (fun _ _ caps => some caps) i (b.drop i) [] = none → ∀ j', ¬ Lang b rx i j') ∧
      (∀ caps, (Rx.cap 0 rx).run (fun _ _ caps => some caps) i (b.drop i) [] = some caps → ∃ i' j c p, Found b rx i' j c p ∧ caps = (0, i', j) :: c) := by
    intro i hb hleft
    have h := run_first b (.cap 0 rx) (fun _ _ caps => some caps) i [] hb.le
    constructor
    · intro hn j' hl
      rw [hn] at h
      obtain ⟨c, p, w⟩ := hl.way
      cases h _ _ _ (.cap w)
    · intro caps hc
      rw [hc] at h
      obtain ⟨j, c, p, w, h1, h2⟩ := h
      cases w with
      | cap w =>
        refine ⟨i, j, _, p, ⟨hb, w, hleft, ?_⟩, ?_⟩
        · intro j' c' p' w' hp
          cases h2 _ _ _ (.cap w') hp
        · rw [List.append_nil] at h1
          exact (Option.some.inj h1).symm
  induction fuel with
  | zero =>
    intro i hb hf hleft
    obtain ⟨h1, h2⟩ := here i hb hleft
    refine ⟨fun hn i' j' hb' hl => ?_, h2⟩
    have := hleft i' j' hb' hl
    have := hb'.le
    have : i' = i := by have := hb.le; omega
    subst this
    exact h1 hn j' hl
  | succ fuel ih =>
    intro i hb hf hleft
    obtain ⟨h1, h2⟩ := here i hb hleft
    have eq : search rx (fuel + 1) i (b.drop i) = (match (Rx.cap 0 rx).run (fun _ _ caps => some caps) i (b.drop i) [] with
      | some caps => some caps
      | none =>
        match b.drop i with
        | [] => none
        | _ :: _ => search rx fuel (i + (decodeRune (b.drop i)).2) ((b.drop i).drop (decodeRune (b.drop i)).2)) := rfl
    rw [eq]
    cases hr : (Rx.cap 0 rx).run (fun _ _ caps => some caps) i (b.drop i) [] with
    | some caps =>
      refine ⟨fun hn => (by cases hn), fun caps' h => ?_⟩
      obtain rfl := Option.some.inj h
      exact h2 _ hr
    | none =>
      have hno := h1 hr
      by_cases hl : i < b.length
      · obtain ⟨r, w, hw⟩ := runeAt_ex hl
        have hd := (runeAt_iff.mp hw).2
        have hww := hw.width
        have := ih (i + w) (hb.next hw) (by omega) (by
          intro i' j' hb' hlang
          rcases hb.gap hw hb' with h | h
          · have := hleft _ _ hb' hlang
            have : i' = i := by omega
            subst this
            exact absurd hlang (hno _)
          · exact h)
        rw [← List.drop_drop] at this
        have e : (match b.drop i with
            | [] => (none : Option Caps)
            | _ :: _ => search rx fuel (i + (decodeRune (b.drop i)).2) ((b.drop i).drop (decodeRune (b.drop i)).2)) =
            search rx fuel (i + w) ((b.drop i).drop w) := by
          rw [hd]
          rw [List.drop_eq_getElem_cons hl]
        dsimp only
        rw [e]
        exact this
      · have hnil : b.drop i = [] := List.drop_eq_nil_of_le (by omega)
        rw [hnil]
        refine ⟨fun _ i' j' hb' hlang => ?_, fun caps h => by cases h⟩
        have := hleft _ _ hb' hlang
        have := hb'.le
        have := hb.le
        have : i' = i := by omega
        subst this
        exact hno _ hlang

end Verif.Regexp
