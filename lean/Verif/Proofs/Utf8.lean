import Verif.Spec.Pattern
import Verif.Proofs.Regexp
/-
The rune decoder of the regexp model against UTF-8.
-/
namespace Verif.Regexp

theorem toNat_ofNat {n : Nat} (h : n < 256) : (UInt8.ofNat n).toNat = n := by
  rw [UInt8.toNat_ofNat']; omega

theorem ofNat_eq {a : UInt8} {n : Nat} (h : a.toNat = n) : UInt8.ofNat n = a := by
  subst h; exact UInt8.ofNat_toNat

/-- Decoding what was encoded. -/
theorem decode_utf8 {r : Nat} (h : Scalar r) (l : Bytes) : decodeRune (utf8 r ++ l) = (r, (utf8 r).length) := by
  unfold Scalar at h
  unfold utf8
  by_cases h1 : r < 0x80
  · rw [if_pos h1]
    simp only [List.cons_append, List.nil_append, decodeRune, toNat_ofNat (show r < 256 by omega), if_pos h1, List.length_cons, List.length_nil]
  · rw [if_neg h1]
    by_cases h2 : r < 0x800
    · rw [if_pos h2]
      simp only [List.cons_append, List.nil_append, decodeRune, isCont, toNat_ofNat (show 0xC0 + r / 64 < 256 by omega),
        toNat_ofNat (show 0x80 + r % 64 < 256 by omega), List.length_cons, List.length_nil, Bool.and_eq_true, decide_eq_true_eq]
      rw [if_neg (by omega), if_pos (by omega), if_pos (by omega)]
      ext <;> simp; omega
    · rw [if_neg h2]
      by_cases h3 : r < 0x10000
      · rw [if_pos h3]
        simp only [List.cons_append, List.nil_append, decodeRune, isCont, toNat_ofNat (show 0xE0 + r / 4096 < 256 by omega),
          toNat_ofNat (show 0x80 + r / 64 % 64 < 256 by omega),
          toNat_ofNat (show 0x80 + r % 64 < 256 by omega), List.length_cons, List.length_nil, Bool.and_eq_true, decide_eq_true_eq,
          Bool.not_eq_true', Bool.and_eq_false_imp, beq_iff_eq, decide_eq_false_iff_not]
        rw [if_neg (by omega), if_neg (by omega), if_pos (by omega), if_pos (by omega)]
        ext <;> simp; omega
      · rw [if_neg h3]
        simp only [List.cons_append, List.nil_append, decodeRune, isCont, toNat_ofNat (show 0xF0 + r / 262144 < 256 by omega),
          toNat_ofNat (show 0x80 + r / 4096 % 64 < 256 by omega),
          toNat_ofNat (show 0x80 + r / 64 % 64 < 256 by omega),
          toNat_ofNat (show 0x80 + r % 64 < 256 by omega), List.length_cons, List.length_nil, Bool.and_eq_true, decide_eq_true_eq,
          Bool.not_eq_true', Bool.and_eq_false_imp, beq_iff_eq, decide_eq_false_iff_not]
        rw [if_neg (by omega), if_neg (by omega), if_neg (by omega), if_pos (by omega), if_pos (by omega)]
        ext <;> simp; omega

/-- What is decoded is an encoding, or one byte read as U+FFFD. -/
theorem decode_cases (a : UInt8) (l : Bytes) :
    (∃ r, Scalar r ∧ utf8 r <+: a :: l ∧ decodeRune (a :: l) = (r, (utf8 r).length)) ∨ decodeRune (a :: l) = (0xFFFD, 1) := by
  have ha : a.toNat < 256 := a.toNat_lt
  have key : ∀ r, Scalar r → utf8 r <+: a :: l → ∃ r, Scalar r ∧ utf8 r <+: a :: l ∧ decodeRune (a :: l) = (r, (utf8 r).length) := by
    intro r hr hp
    obtain ⟨t, ht⟩ := hp
    exact ⟨r, hr, ⟨t, ht⟩, by rw [← ht]; exact decode_utf8 hr t⟩
  by_cases h1 : a.toNat < 0x80
  · refine .inl (key a.toNat (.inl (by omega)) ?_)
    rw [utf8, if_pos h1, ofNat_eq rfl]
    exact ⟨l, rfl⟩
  by_cases h2 : 0xC2 ≤ a.toNat ∧ a.toNat ≤ 0xDF
  · rcases l with _ | ⟨b, l⟩
    · right
      simp only [decodeRune, Bool.and_eq_true, decide_eq_true_eq]
      rw [if_neg h1, if_pos h2]
    · by_cases hb : 0x80 ≤ b.toNat ∧ b.toNat ≤ 0xBF
      · refine .inl (key ((a.toNat - 0xC0) * 64 + (b.toNat - 0x80)) (.inl (by omega)) ?_)
        rw [utf8, if_neg (by omega), if_pos (by omega), ofNat_eq (a := a) (by omega), ofNat_eq (a := b) (by omega)]
        exact ⟨l, rfl⟩
      · right
        simp only [decodeRune, isCont, Bool.and_eq_true, decide_eq_true_eq]
        rw [if_neg h1, if_pos h2, if_neg hb]
  by_cases h3 : 0xE0 ≤ a.toNat ∧ a.toNat ≤ 0xEF
  · rcases l with _ | ⟨b, _ | ⟨c, l⟩⟩
    · right
      simp only [decodeRune, Bool.and_eq_true, decide_eq_true_eq]
      rw [if_neg h1, if_neg h2, if_pos h3]
    · right
      simp only [decodeRune, Bool.and_eq_true, decide_eq_true_eq]
      rw [if_neg h1, if_neg h2, if_pos h3]
    · by_cases hb : ((0x80 ≤ b.toNat ∧ b.toNat ≤ 0xBF) ∧ 0x80 ≤ c.toNat ∧ c.toNat ≤ 0xBF) ∧
          ¬ (a.toNat = 0xE0 ∧ b.toNat < 0xA0) ∧ ¬ (a.toNat = 0xED ∧ 0xA0 ≤ b.toNat)
      · refine .inl (key ((a.toNat - 0xE0) * 4096 + (b.toNat - 0x80) * 64 + (c.toNat - 0x80)) ?_ ?_)
        · unfold Scalar; omega
        · rw [utf8, if_neg (by omega), if_neg (by omega), if_pos (by omega), ofNat_eq (a := a) (by omega), ofNat_eq (a := b) (by omega),
            ofNat_eq (a := c) (by omega)]
          exact ⟨l, rfl⟩
      · right
        simp only [decodeRune, isCont, Bool.and_eq_true, decide_eq_true_eq, Bool.not_eq_true', Bool.and_eq_false_imp, beq_iff_eq,
          decide_eq_false_iff_not]
        rw [if_neg h1, if_neg h2, if_pos h3, if_neg (by omega)]
  by_cases h4 : 0xF0 ≤ a.toNat ∧ a.toNat ≤ 0xF4
  · have short : ∀ l', l' = l → (∀ b c d t, l' ≠ b :: c :: d :: t) → decodeRune (a :: l) = (0xFFFD, 1) := by
      rintro l' rfl hl
      simp only [decodeRune, Bool.and_eq_true, decide_eq_true_eq]
      rw [if_neg h1, if_neg h2, if_neg h3, if_pos h4]
    rcases l with _ | ⟨b, _ | ⟨c, _ | ⟨d, l⟩⟩⟩
    · exact .inr (short _ rfl (by simp))
    · exact .inr (short _ rfl (by simp))
    · exact .inr (short _ rfl (by simp))
    · by_cases hb : (((0x80 ≤ b.toNat ∧ b.toNat ≤ 0xBF) ∧ 0x80 ≤ c.toNat ∧ c.toNat ≤ 0xBF) ∧ 0x80 ≤ d.toNat ∧ d.toNat ≤ 0xBF) ∧
          ¬ (a.toNat = 0xF0 ∧ b.toNat < 0x90) ∧ ¬ (a.toNat = 0xF4 ∧ 0x90 ≤ b.toNat)
      · refine .inl (key ((a.toNat - 0xF0) * 262144 + (b.toNat - 0x80) * 4096 + (c.toNat - 0x80) * 64 + (d.toNat - 0x80)) ?_ ?_)
        · unfold Scalar; omega
        · rw [utf8, if_neg (by omega), if_neg (by omega), if_neg (by omega), ofNat_eq (a := a) (by omega), ofNat_eq (a := b) (by omega),
            ofNat_eq (a := c) (by omega), ofNat_eq (a := d) (by omega)]
          exact ⟨l, rfl⟩
      · right
        simp only [decodeRune, isCont, Bool.and_eq_true, decide_eq_true_eq, Bool.not_eq_true', Bool.and_eq_false_imp, beq_iff_eq,
          decide_eq_false_iff_not]
        rw [if_neg h1, if_neg h2, if_neg h3, if_pos h4, if_neg (by omega)]
  right
  simp only [decodeRune, Bool.and_eq_true, decide_eq_true_eq]
  rw [if_neg h1, if_neg h2, if_neg h3, if_neg h4]

theorem utf8_fffd : (utf8 0xFFFD).length = 3 := by decide

/-- The decoder reads the rune at an offset. -/
theorem runeAt_iff {b : Bytes} {i r w : Nat} : RuneAt b i r w ↔ i < b.length ∧ decodeRune (b.drop i) = (r, w) := by
  constructor
  · rintro ⟨hi, ⟨h1, ⟨t, h2⟩, rfl⟩ | ⟨h1, rfl, rfl⟩⟩
    · exact ⟨hi, by rw [← h2]; exact decode_utf8 h1 t⟩
    · refine ⟨hi, ?_⟩
      rw [List.drop_eq_getElem_cons hi]
      rcases decode_cases b[i] (b.drop (i + 1)) with ⟨s, g1, g2, -⟩ | h
      · rw [← List.drop_eq_getElem_cons hi] at g2
        exact absurd g2 (h1 s g1)
      · exact h
  · rintro ⟨hi, hd⟩
    refine ⟨hi, ?_⟩
    rw [List.drop_eq_getElem_cons hi] at hd ⊢
    rcases decode_cases b[i] (b.drop (i + 1)) with ⟨s, g1, g2, g3⟩ | h
    · rw [hd] at g3
      cases g3
      exact .inl ⟨g1, g2, rfl⟩
    · rw [hd] at h
      cases h
      refine .inr ⟨fun s hs ⟨t, ht⟩ => ?_, rfl, rfl⟩
      rw [← ht, decode_utf8 hs] at hd
      have e1 : s = 0xFFFD := congrArg Prod.fst hd
      have e2 : (utf8 s).length = 1 := congrArg Prod.snd hd
      rw [e1, utf8_fffd] at e2
      omega

theorem RuneAt.unique {b : Bytes} {i r w r' w' : Nat} (h : RuneAt b i r w) (h' : RuneAt b i r' w') : r = r' ∧ w = w' := by
  have := (runeAt_iff.mp h).2.symm.trans (runeAt_iff.mp h').2
  cases this
  exact ⟨rfl, rfl⟩

theorem RuneAt.width {b : Bytes} {i r w : Nat} (h : RuneAt b i r w) : 1 ≤ w ∧ i + w ≤ b.length := by
  obtain ⟨hi, hd⟩ := runeAt_iff.mp h
  rw [List.drop_eq_getElem_cons hi] at hd
  have := decodeRune_width b[i] (b.drop (i + 1))
  rw [hd] at this
  simp only [List.length_cons, List.length_drop] at this
  omega

theorem runeAt_ex {b : Bytes} {i : Nat} (h : i < b.length) : ∃ r w, RuneAt b i r w :=
  ⟨_, _, runeAt_iff.mpr ⟨h, rfl⟩⟩

end Verif.Regexp
