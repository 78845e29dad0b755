import Verif.Spec.Compiler
/-
`normalizeRegex` and `isRegex`.
-/
namespace Verif.Compiler
open scoped List

theorem indexSub_some {s n : Bytes} {k : Nat} (h : indexSub s n = some k) : ∃ a b, s = a ++ n ++ b ∧ a.length = k := by
  induction s generalizing k with
  | nil =>
    unfold indexSub at h
    split at h
    · rename_i hn
      rw [List.isEmpty_iff] at hn
      cases h
      exact ⟨[], [], by simp [hn], rfl⟩
    · cases h
  | cons x xs ih =>
    unfold indexSub at h
    split at h
    · rename_i hp
      cases h
      rw [List.isPrefixOf_iff_prefix] at hp
      obtain ⟨b, hb⟩ := hp
      exact ⟨[], b, by simp [hb], rfl⟩
    · cases hi : indexSub xs n with
      | none => rw [hi] at h; cases h
      | some j =>
        rw [hi] at h
        cases h
        obtain ⟨a, b, hab, hl⟩ := ih hi
        exact ⟨x :: a, b, by simp [hab], by simp [hl]⟩

theorem indexSub_none {s n : Bytes} (h : indexSub s n = none) : ¬ n <:+: s := by
  induction s with
  | nil =>
    unfold indexSub at h
    split at h
    · cases h
    · rename_i hn
      intro hi
      rw [List.infix_nil] at hi
      exact hn (by simp [hi])
  | cons x xs ih =>
    unfold indexSub at h
    split at h
    · cases h
    · rename_i hp
      rw [Option.map_eq_none_iff] at h
      intro hi
      rw [List.infix_cons_iff] at hi
      rcases hi with hi | hi
      · exact hp (List.isPrefixOf_iff_prefix.mpr hi)
      · exact ih h hi

theorem removeFirst_sub (s ss : Bytes) : removeFirst s ss <+ s := by
  unfold removeFirst
  split
  · exact List.Sublist.refl _
  · rename_i i _
    conv => rhs; rw [← List.take_append_drop i s]
    refine List.Sublist.append (List.Sublist.refl _) ?_
    rw [← List.drop_drop]
    exact List.drop_sublist _ _

theorem removeFirst_lt {s ss : Bytes} (h : ss <:+: s) (hne : ss ≠ []) : (removeFirst s ss).length < s.length := by
  unfold removeFirst
  split
  · rename_i hi
    exact absurd h (indexSub_none hi)
  · rename_i i hi
    obtain ⟨a, b, hab, hl⟩ := indexSub_some hi
    have := List.length_pos_iff.mpr hne
    subst hl
    rw [hab]
    simp only [List.length_append, List.length_take, List.length_drop]
    omega

theorem scan_bound {esc : Bool} {p : UInt8} {i bo bc : Nat} {l : Bytes} {j : Nat} (h : scan esc p i bo bc l = some j) :
    i ≤ j ∧ j < i + l.length := by
  induction l generalizing p i bo bc with
  | nil => cases h
  | cons c cs ih =>
    unfold scan at h
    dsimp only at h
    by_cases hb : (if c = 40 ∧ (esc = true → p ≠ 92) then bo + 1 else bo) = (if c = 41 ∧ p ≠ 92 then bc + 1 else bc)
    · rw [if_pos hb] at h
      cases h
      simp
    · rw [if_neg hb] at h
      obtain ⟨h1, h2⟩ := ih h
      simp only [List.length_cons]
      omega

/-- One removal succeeds, removes something and nothing else. -/
theorem cutAt_ok {esc : Bool} {s : Bytes} {k : Nat} (hk : k + 2 ≤ s.length) :
    ∃ s', cutAt esc s k = some s' ∧ s' <+ s ∧ s'.length < s.length := by
  unfold cutAt
  dsimp only
  cases hs : scan esc ((s.drop k).headD 0) (k + 1) 1 0 (s.drop (k + 1)) with
  | none =>
    simp only [Option.getD_none, slice?]
    rw [if_pos (by omega)]
    refine ⟨_, rfl, removeFirst_sub _ _, removeFirst_lt ⟨s.take k, s.drop (k + 2), ?_⟩ ?_⟩
    · have h1 : k + 1 + 1 - (k + 1 - 1) = 2 := by omega
      have h2 : k + 1 - 1 = k := by omega
      rw [h1, h2, List.append_assoc, ← List.drop_drop, List.take_append_drop, List.take_append_drop]
    · intro h
      have := congrArg List.length h
      simp only [List.length_take, List.length_drop, List.length_nil] at this
      omega
  | some j =>
    obtain ⟨h1, h2⟩ := scan_bound hs
    rw [List.length_drop] at h2
    simp only [Option.getD_some, slice?]
    rw [if_pos (by omega)]
    refine ⟨_, rfl, removeFirst_sub _ _, removeFirst_lt ⟨s.take k, s.drop (j + 1), ?_⟩ ?_⟩
    · have h4 : k + 1 - 1 = k := by omega
      rw [h4]
      obtain ⟨m, hm⟩ : ∃ m, j + 1 = k + m := ⟨j + 1 - k, by omega⟩
      rw [hm]
      have h5 : k + m - k = m := by omega
      rw [h5, List.append_assoc, ← List.drop_drop, List.take_append_drop, List.take_append_drop]
    · intro h
      have := congrArg List.length h
      simp only [List.length_take, List.length_drop, List.length_nil] at this
      omega

theorem cutAll_ok {esc : Bool} {lit : Bytes} (hl : 2 ≤ lit.length) (s : Bytes) :
    ∃ s', cutAll esc lit s = some s' ∧ s' <+ s ∧ ¬ lit <:+: s' := by
  induction hn : s.length using Nat.strongRecOn generalizing s with
  | _ n ih =>
    subst hn
    unfold cutAll
    cases hi : indexSub s lit with
    | none => exact ⟨s, rfl, List.Sublist.refl _, indexSub_none hi⟩
    | some k =>
      obtain ⟨a, b, hab, hk⟩ := indexSub_some hi
      have hk2 : k + 2 ≤ s.length := by rw [hab]; simp only [List.length_append]; omega
      obtain ⟨s', h1, h2, h3⟩ := cutAt_ok (esc := esc) hk2
      simp only [h1, h3, dite_true]
      obtain ⟨s'', g1, g2, g3⟩ := ih _ h3 s' rfl
      exact ⟨s'', g1, g2.trans h2, g3⟩

theorem guardRe_infix {lit s : Bytes} (h : guardRe lit s = true) : lit <:+: s := by
  induction s with
  | nil => cases h
  | cons x xs ih =>
    simp only [guardRe, Bool.or_eq_true, Bool.and_eq_true] at h
    rcases h with ⟨⟨h, _⟩, _⟩ | h
    · exact (List.isPrefixOf_iff_prefix.mp h).isInfix
    · exact List.infix_cons (ih h)

/-- The guards are what the regexps say. -/
theorem guardRe_iff {lit s : Bytes} : guardRe lit s = true ↔ ∃ a b c, s = a ++ lit ++ b ++ [41] ++ c ∧ b ≠ [] ∧ (41 : UInt8) ∉ b := by
  induction s with
  | nil =>
    constructor
    · intro h; cases h
    · rintro ⟨a, b, c, h, _, _⟩
      simp at h
  | cons x xs ih =>
    simp only [guardRe, Bool.or_eq_true, Bool.and_eq_true, ih, List.isPrefixOf_iff_prefix, bne_iff_ne, List.contains_iff_mem]
    constructor
    · rintro (⟨⟨⟨r, hr⟩, h1⟩, h2⟩ | ⟨a, b, c, h, h1, h2⟩)
      · rw [← hr, List.drop_left] at h1 h2
        rw [← hr]
        have h3 : ∃ b c, r = b ++ [41] ++ c ∧ (41 : UInt8) ∉ b := by
          clear hr h1
          induction r with
          | nil => cases h2
          | cons y ys ih =>
            by_cases hy : y = 41
            · exact ⟨[], ys, by simp [hy], by simp⟩
            · obtain ⟨b, c, e, hb⟩ := ih (by
                rcases List.mem_cons.mp h2 with h | h
                · exact absurd h.symm hy
                · exact h)
              refine ⟨y :: b, c, by simp [e], ?_⟩
              intro hm
              rcases List.mem_cons.mp hm with h | h
              · exact hy h.symm
              · exact hb h
        obtain ⟨b, c, e, hb⟩ := h3
        refine ⟨[], b, c, by simp [e], ?_, hb⟩
        rintro rfl
        rw [e] at h1
        exact h1 rfl
      · exact ⟨x :: a, b, c, by simp [h], h1, h2⟩
    · rintro ⟨a, b, c, h, h1, h2⟩
      cases a with
      | nil =>
        left
        have h' : x :: xs = lit ++ (b ++ [41] ++ c) := by rw [h]; simp
        rw [h', List.drop_left]
        refine ⟨⟨⟨_, rfl⟩, ?_⟩, by simp⟩
        cases b with
        | nil => exact absurd rfl h1
        | cons y ys =>
          intro he
          simp at he
          exact h2 (by simp [he])
      | cons y ys =>
        right
        simp only [List.cons_append, List.cons.injEq] at h
        exact ⟨ys, b, c, h.2, h1, h2⟩

theorem squeeze_sub (s : Bytes) : squeezeBars s <+ s := by
  fun_induction squeezeBars s with
  | case1 rest ih =>
    refine List.Sublist.cons_cons _ (List.Sublist.cons_cons _ (List.Sublist.cons _ (List.Sublist.cons_cons _ ih)))
  | case2 x xs _ ih => exact List.Sublist.cons_cons _ ih
  | case3 => exact List.Sublist.refl _

theorem squeeze_cons {x : UInt8} (hx : x ≠ 41) (xs : Bytes) : squeezeBars (x :: xs) = x :: squeezeBars xs := by
  rw [squeezeBars]
  rintro rest h
  exact absurd h hx

theorem squeeze_head (s : Bytes) : (squeezeBars s).head? = s.head? := by
  fun_induction squeezeBars s <;> rfl

/-- Cleaning up `)||(` creates no new look-ahead. -/
theorem guard_squeeze (s : Bytes) : guardRe (ascii "(?!") (squeezeBars s) = true → guardRe (ascii "(?!") s = true := by
  have hlit : ascii "(?!" = [40, 63, 33] := by decide
  rw [hlit]
  induction hn : s.length using Nat.strongRecOn generalizing s with
  | _ n ih =>
    subst hn
    intro h
    match s, ih, h with
    | [], _, h => exact h
    | x :: xs, ih, h =>
      by_cases h40 : x = 40
      · subst h40
        rw [squeeze_cons (by decide)] at h
        simp only [guardRe, Bool.or_eq_true, Bool.and_eq_true] at h ⊢
        rcases h with ⟨⟨hp, h1⟩, h2⟩ | h
        · left
          rw [List.isPrefixOf_iff_prefix] at hp
          obtain ⟨r, hr⟩ := hp
          simp only [List.cons_append, List.nil_append, List.cons.injEq, true_and] at hr
          cases xs with
          | nil => simp [squeezeBars] at hr
          | cons y ys =>
            have hy : y = 63 := by
              have := squeeze_head (y :: ys)
              rw [← hr] at this
              simpa using this.symm
            subst hy
            rw [squeeze_cons (by decide)] at hr
            simp only [List.cons.injEq, true_and] at hr
            cases ys with
            | nil => simp [squeezeBars] at hr
            | cons z zs =>
              have hz : z = 33 := by
                have := squeeze_head (z :: zs)
                rw [← hr] at this
                simpa using this.symm
              subst hz
              rw [squeeze_cons (by decide), squeeze_cons (by decide)] at h1 h2
              simp only [List.length_cons, List.length_nil, List.drop_succ_cons, List.drop_zero] at h1 h2 ⊢
              rw [squeeze_head] at h1
              refine ⟨⟨by simp, h1⟩, ?_⟩
              rw [List.contains_iff_mem] at h2 ⊢
              exact (squeeze_sub zs).subset h2
        · exact .inr (ih _ (by simp) xs rfl h)
      · -- the head is no opening bracket
        have hskip : ∀ l : Bytes, guardRe [40, 63, 33] (x :: l) = guardRe [40, 63, 33] l := by
          intro l
          simp only [guardRe]
          rw [show List.isPrefixOf [40, 63, 33] (x :: l) = false from by
            simp only [List.isPrefixOf, Bool.and_eq_false_imp]
            intro hh
            exact absurd (by simpa using hh : (40 : UInt8) = x).symm h40]
          rfl
        rw [hskip]
        by_cases hsq : ∃ rest, x :: xs = 41 :: 124 :: 124 :: 40 :: rest
        · obtain ⟨rest, hrest⟩ := hsq
          rw [hrest] at h
          simp only [List.cons.injEq] at hrest
          obtain ⟨rfl, rfl⟩ := hrest
          rw [squeezeBars] at h
          have hk : ∀ (y : UInt8) (l : Bytes), y ≠ 40 → guardRe [40, 63, 33] (y :: l) = guardRe [40, 63, 33] l := by
            intro y l hy
            simp only [guardRe]
            rw [show List.isPrefixOf [40, 63, 33] (y :: l) = false from by
              simp only [List.isPrefixOf, Bool.and_eq_false_imp]
              intro hh
              exact absurd (by simpa using hh : (40 : UInt8) = y).symm hy]
            rfl
          rw [hk 41 _ (by decide), hk 124 _ (by decide), ← squeeze_cons (x := 40) (by decide)] at h
          rw [hk 124 _ (by decide), hk 124 _ (by decide)]
          exact ih _ (by simp) (40 :: rest) rfl h
        · have : squeezeBars (x :: xs) = x :: squeezeBars xs := by
            rw [squeezeBars]
            intro rest h1 h2
            exact hsq ⟨rest, by rw [h1, h2]⟩
          rw [this, hskip] at h
          exact ih _ (by simp) xs rfl h

theorem stage1_ok (s : Bytes) : ∃ s', stage1 s = some s' ∧ s' <+ s := by
  unfold stage1
  split
  · obtain ⟨s', h1, h2, _⟩ := cutAll_ok (esc := false) (lit := ascii "(?<") (by decide) s
    exact ⟨s', h1, h2⟩
  · exact ⟨s, rfl, List.Sublist.refl _⟩

theorem stage2_ok (s : Bytes) : ∃ s', stage2 s = some s' ∧ s' <+ s := by
  unfold stage2
  split
  · rename_i hg
    cases hi : indexSub s (ascii "(?!.*") with
    | none => exact absurd (guardRe_infix hg) (indexSub_none hi)
    | some k =>
      obtain ⟨a, b, hab, hk⟩ := indexSub_some hi
      have hl : (ascii "(?!.*").length = 5 := by decide
      obtain ⟨s', h1, h2, _⟩ := cutAt_ok (esc := false) (s := s) (k := k) (by rw [hab]; simp only [List.length_append, hl]; omega)
      exact ⟨s', h1, h2⟩
  · exact ⟨s, rfl, List.Sublist.refl _⟩

theorem stage3_ok (s : Bytes) : ∃ s', stage3 s = some s' ∧ s' <+ s ∧ guardRe (ascii "(?!") s' = false := by
  unfold stage3
  split
  · obtain ⟨s', h1, h2, h3⟩ := cutAll_ok (esc := true) (lit := ascii "(?!") (by decide) s
    refine ⟨s', h1, h2, ?_⟩
    cases hg : guardRe (ascii "(?!") s' with
    | false => rfl
    | true => exact absurd (guardRe_infix hg) h3
  · rename_i hg
    exact ⟨s, rfl, List.Sublist.refl _, by simpa using hg⟩

theorem normalizeRegex_ok (s : Bytes) : ∃ r, normalizeRegex s = some r ∧ r <+ s ∧ ¬ HasLookahead r := by
  obtain ⟨s1, h1, k1⟩ := stage1_ok s
  obtain ⟨s2, h2, k2⟩ := stage2_ok s1
  obtain ⟨s3, h3, k3, g3⟩ := stage3_ok s2
  refine ⟨squeezeBars s3, by simp [normalizeRegex, h1, h2, h3], (squeeze_sub s3).trans (k3.trans (k2.trans k1)), ?_⟩
  intro h
  have := guard_squeeze s3 (guardRe_iff.mpr h)
  rw [g3] at this
  cases this

theorem squeeze_id {s : Bytes} (h : ¬ ascii ")||(" <:+: s) : squeezeBars s = s := by
  fun_induction squeezeBars s with
  | case1 rest ih => exact absurd ⟨[], rest, rfl⟩ h
  | case2 x xs _ ih => rw [ih fun hi => h (List.infix_cons hi)]
  | case3 => rfl

theorem normalizeRegex_id {s : Bytes} (h1 : ¬ ascii "(?<!" <:+: s) (h2 : ¬ ascii "(?!" <:+: s) (h3 : ¬ ascii ")||(" <:+: s) :
    normalizeRegex s = some s := by
  have e1 : stage1 s = some s := by
    unfold stage1
    rw [if_neg fun h => h1 (guardRe_infix h)]
  have e2 : stage2 s = some s := by
    unfold stage2
    rw [if_neg fun h => h2 (List.IsInfix.trans (List.IsPrefix.isInfix ⟨ascii ".*", by decide⟩) (guardRe_infix h))]
  have e3 : stage3 s = some s := by
    unfold stage3
    rw [if_neg fun h => h2 (guardRe_infix h)]
  simp [normalizeRegex, e1, e2, e3, squeeze_id h3]

theorem isRegex_iff (s : Bytes) : isRegex s = true ↔ Special s := by
  unfold isRegex Special indexByte
  simp only [List.any_eq_true, List.findIdx?_isSome, beq_iff_eq]
  constructor
  · rintro ⟨c, hc, x, hx, rfl⟩
    exact ⟨x, hx, hc⟩
  · rintro ⟨c, hc, hm⟩
    exact ⟨c, hm, c, hc, rfl⟩

end Verif.Compiler
