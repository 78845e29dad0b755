import Verif.Proofs.PatternChars
/-
Groups that enclose a list of words: what they capture is one of the words, in some case; and groups every match passes through.
-/
namespace Verif.Regexp

/-- The words of an expression put together from characters (in any case), concatenation and choice. -/
def words : Rx → Option (List (List Nat))
  | .empty => some [[]]
  | .cls true false [(c, d)] => if Nat.beq c d && Nat.blt c 128 then some [[c]] else none
  | .cat x y => match words x, words y with
    | some a, some b => some (a.flatMap fun u => b.map fun v => u ++ v)
    | _, _ => none
  | .alt x y => match words x, words y with
    | some a, some b => some (a ++ b)
    | _, _ => none
  | _ => none

theorem Spells.append {b : Bytes} {u v : List Nat} {i j k : Nat} (h : Spells b u i j) (h' : Spells b v j k) : Spells b (u ++ v) i k := by
  induction h with
  | nil => exact h'
  | cons h1 h2 _ ih => exact .cons h1 h2 (ih h')

theorem lang_words {b : Bytes} {rx : Rx} {i j : Nat} (h : Lang b rx i j) {ws : List (List Nat)} (hw : words rx = some ws) :
    ∃ w ∈ ws, Spells b w i j ∧ ∀ c ∈ w, c < 128 := by
  induction h generalizing ws with
  | empty => cases hw; exact ⟨[], by simp, .nil, by simp⟩
  | @cls fold neg rs i r w h1 h2 =>
    unfold words at hw
    split at hw
    · rename_i e; cases e
    · rename_i c d e
      cases e
      split at hw
      · rename_i hcd
        cases hw
        rw [Bool.and_eq_true] at hcd
        have := Nat.eq_of_beq_eq_true hcd.1
        subst this
        exact ⟨[c], by simp, .cons h1 (single_iff.mp (h2.mpr rfl)) .nil, fun c' hc' => by rw [List.mem_singleton.mp hc']; exact Nat.le_of_ble_eq_true hcd.2⟩
      · cases hw
    · rename_i e; cases e
    · rename_i e; cases e
    · cases hw
  | bot | eot | stop | more | cap => cases hw
  | @cat x y i j k _ _ ih1 ih2 =>
    rw [words] at hw
    split at hw
    · rename_i a c ha hc
      cases hw
      obtain ⟨u, g1, g2, g3⟩ := ih1 ha
      obtain ⟨v, g4, g5, g6⟩ := ih2 hc
      refine ⟨u ++ v, List.mem_flatMap.mpr ⟨u, g1, List.mem_map.mpr ⟨v, g4, rfl⟩⟩, g2.append g5, fun c hc => ?_⟩
      rcases List.mem_append.mp hc with h | h
      · exact g3 c h
      · exact g6 c h
    · cases hw
  | altL _ ih =>
    rw [words] at hw
    split at hw
    · rename_i a c ha hc
      cases hw
      obtain ⟨u, g1, g2⟩ := ih ha
      exact ⟨u, List.mem_append_left _ g1, g2⟩
    · cases hw
  | altR _ ih =>
    rw [words] at hw
    split at hw
    · rename_i a c ha hc
      cases hw
      obtain ⟨u, g1, g2⟩ := ih hc
      exact ⟨u, List.mem_append_right _ g1, g2⟩
    · cases hw

/-- The bytes are the characters, each in some case, in UTF-8. -/
inductive Written : List Nat → Bytes → Prop
  | nil : Written [] []
  | cons {c r : Nat} {l : List Nat} {t : Bytes} : c ∈ folds r → Written l t → Written (c :: l) (utf8 r ++ t)

theorem Spells.written {b : Bytes} {w : List Nat} {i j : Nat} (h : Spells b w i j) (hw : ∀ c ∈ w, c < 128) :
    i ≤ j ∧ (i ≤ b.length → j ≤ b.length) ∧ Written w ((b.drop i).take (j - i)) := by
  induction h with
  | nil => exact ⟨Nat.le_refl _, id, by rw [Nat.sub_self, List.take_zero]; exact .nil⟩
  | @cons c l i r w j h1 h2 h3 ih =>
    obtain ⟨g1, g2, g3⟩ := ih fun c hc => hw c (List.mem_cons_of_mem _ hc)
    have hc := hw c List.mem_cons_self
    obtain ⟨hi, ⟨-, ⟨t, ht⟩, rfl⟩ | ⟨-, rfl, -⟩⟩ := h1
    · have e : b.drop (i + (utf8 r).length) = t := by rw [← List.drop_drop, ← ht, List.drop_left]
      have hlen : i + (utf8 r).length ≤ b.length := by
        have := congrArg List.length ht
        rw [List.length_append, List.length_drop] at this
        omega
      refine ⟨by omega, fun _ => g2 hlen, ?_⟩
      have : (b.drop i).take (j - i) = utf8 r ++ (b.drop (i + (utf8 r).length)).take (j - (i + (utf8 r).length)) := by
        rw [← ht, List.take_append, e, List.take_of_length_le (by omega), show j - i - (utf8 r).length = j - (i + (utf8 r).length) by omega]
      rw [this]
      exact .cons h2 g3
    · have e : folds 0xFFFD = [0xFFFD] := by decide
      rw [e, List.mem_singleton] at h2
      omega

/-- What the group captures is one of the words. -/
theorem captured_word {p b t : Bytes} {rx : Rx} (hp : parse p = some rx) {n : Nat} (hn : 1 ≤ n) {W : List (List Nat)}
    (hw : ∀ x ∈ insides n rx, ∃ ws, words x = some ws ∧ ∀ w ∈ ws, w ∈ W) (h : Captures (compile p) b n t) : ∃ w ∈ W, (∀ c ∈ w, c < 128) ∧ Written w t := by
  obtain ⟨x, lo, hi, h1, h2, -, -, rfl⟩ := captured hp hn h
  obtain ⟨ws, g1, g2⟩ := hw x h1.mem
  obtain ⟨w, g3, g4, g5⟩ := lang_words h2 g1
  exact ⟨w, g2 w g3, g5, (g4.written g5).2.2⟩

/-- The runes an ASCII character may be written as. -/
theorem folds_ascii {c r : Nat} (h : c ∈ folds r) (hc : c < 128) : r < 128 ∨ r = 0x17F ∨ r = 0x212A := by
  have := mem_folds h
  omega

/-- A text of ASCII characters has the length of the word and its characters are the word's, each in some case. -/
def canB : List Nat → Bytes → Bool
  | [], [] => true
  | c :: l, b :: t => (folds b.toNat).contains c && canB l t
  | _, _ => false

theorem Written.can {w : List Nat} {s : Bytes} (h : Written w s) (hw : ∀ c ∈ w, c < 128) (hs : ∀ b ∈ s, b.toNat < 128) : canB w s = true := by
  induction h with
  | nil => rfl
  | @cons c r l t h1 _ ih =>
    have hc := hw c List.mem_cons_self
    rcases folds_ascii h1 hc with h | rfl | rfl
    · rw [utf8_small h] at hs ⊢
      show ((folds (UInt8.ofNat r).toNat).contains c && canB l t) = true
      rw [toNat_ofNat (by omega), Bool.and_eq_true]
      exact ⟨List.contains_iff_mem.mpr h1, ih (fun c hc => hw c (List.mem_cons_of_mem _ hc)) fun b hb => hs b (List.mem_append_right _ hb)⟩
    · have := hs 0xC5 (List.mem_append_left _ (by decide))
      exact absurd this (by decide)
    · have := hs 0xE2 (List.mem_append_left _ (by decide))
      exact absurd this (by decide)

theorem Written.head {w : List Nat} {s : Bytes} (h : Written w s) (hw : ∀ c ∈ w, c < 128) (hs : s.head? = some 32) : w.head? = some 32 := by
  cases h with
  | nil => cases hs
  | @cons c r l t h1 _ =>
    rcases folds_ascii h1 (hw c List.mem_cons_self) with h | rfl | rfl
    · rw [utf8_small h] at hs
      have e : UInt8.ofNat r = 32 := Option.some.inj hs
      have : r = 32 := by rw [← toNat_ofNat (show r < 256 by omega), e]; rfl
      subst this
      have : c ∈ [32] := h1
      rw [List.mem_singleton.mp this]; rfl
    · have : (some (0xC5 : UInt8)) = some 32 := hs
      exact absurd this (by decide)
    · have : (some (0xE2 : UInt8)) = some 32 := hs
      exact absurd this (by decide)

/-- A word is not empty in writing. -/
theorem Written.empty {w : List Nat} {s : Bytes} (h : Written w s) (hw : ∀ c ∈ w, c < 128) (hs : s = []) : w = [] := by
  cases h with
  | nil => rfl
  | @cons c r l t h1 _ =>
    have : utf8 r = [] := (List.append_eq_nil_iff.mp hs).1
    rcases folds_ascii h1 (hw c List.mem_cons_self) with h | rfl | rfl
    · rw [utf8_small h] at this; cases this
    · exact absurd this (by decide)
    · exact absurd this (by decide)

theorem Written.last {w : List Nat} {s : Bytes} (h : Written w s) (hw : ∀ c ∈ w, c < 128) (hs : s.getLast? = some 32) : w.getLast? = some 32 := by
  induction h with
  | nil => cases hs
  | @cons c r l t h1 h2 ih =>
    have hw' : ∀ c ∈ l, c < 128 := fun c hc => hw c (List.mem_cons_of_mem _ hc)
    cases ht : t with
    | cons b t' =>
      have hs' : t.getLast? = some 32 := by
        rw [List.getLast?_append] at hs
        have : t ≠ [] := by rw [ht]; simp
        rw [List.getLast?_eq_some_getLast this] at hs ⊢
        exact hs
      have := ih hw' hs'
      cases l with
      | nil => cases this
      | cons d l => rw [List.getLast?_cons_cons]; exact this
    | nil =>
      subst ht
      have : l = [] := h2.empty hw' rfl
      subst this
      rw [List.append_nil] at hs
      rcases folds_ascii h1 (hw c List.mem_cons_self) with h | rfl | rfl
      · rw [utf8_small h] at hs
        have e : UInt8.ofNat r = 32 := Option.some.inj hs
        have : r = 32 := by rw [← toNat_ofNat (show r < 256 by omega), e]; rfl
        subst this
        have : c ∈ [32] := h1
        rw [List.mem_singleton.mp this]; rfl
      · exact absurd hs (by decide)
      · exact absurd hs (by decide)

/-- Every match passes through group `n`. -/
def must (n : Nat) : Rx → Bool
  | .cap m x => Nat.beq n m || must n x
  | .cat x y => must n x || must n y
  | .alt x y => must n x && must n y
  | _ => false

theorem Way.must {b : Bytes} {rx : Rx} {i j : Nat} {c : Caps} {q : List Bool} (h : Way b rx i j c q) {n : Nat} (hm : must n rx = true) :
    ∃ v, (n, v) ∈ c := by
  induction h with
  | empty | cls | bot | eot | stop | more => cases hm
  | cat _ _ ih1 ih2 =>
    rw [Regexp.must, Bool.or_eq_true] at hm
    rcases hm with h | h
    · obtain ⟨v, h⟩ := ih1 h; exact ⟨v, List.mem_append_right _ h⟩
    · obtain ⟨v, h⟩ := ih2 h; exact ⟨v, List.mem_append_left _ h⟩
  | altL _ ih => rw [Regexp.must, Bool.and_eq_true] at hm; exact ih hm.1
  | altR _ ih => rw [Regexp.must, Bool.and_eq_true] at hm; exact ih hm.2
  | cap _ ih =>
    rw [Regexp.must, Bool.or_eq_true] at hm
    rcases hm with h | h
    · exact ⟨_, by rw [Nat.eq_of_beq_eq_true h]; exact List.mem_cons_self⟩
    · obtain ⟨v, h⟩ := ih h; exact ⟨v, List.mem_cons_of_mem _ h⟩

/-- If the expression matches, such a group captures something. -/
theorem must_captured {p b : Bytes} {rx : Rx} (hp : parse p = some rx) {n : Nat} (hn : 1 ≤ n) (hg : n ≤ groups p) (hm : must n rx = true)
    (h : (compile p).isMatch b = true) : ∃ t, Captures (compile p) b n t := by
  obtain ⟨m, hf⟩ := Option.isSome_iff_exists.mp h
  obtain ⟨rx', i, j, c, q, hp', hF, rfl⟩ := compile_found hf
  rw [hp] at hp'
  cases hp'
  obtain ⟨v, hv⟩ := hF.way.must hm
  have g0 := vector_get ((0, i, j) :: c) (groups p) n hg 0 (by omega)
  have g1 := vector_get ((0, i, j) :: c) (groups p) n hg 1 (by omega)
  cases hl : ((0, i, j) :: c).lookup n with
  | none =>
    have := List.lookup_eq_none_iff.mp hl _ (List.mem_cons_of_mem _ hv)
    simp at this
  | some v =>
    obtain ⟨lo, hi⟩ := v
    unfold vector.group at g0 g1
    rw [hl] at g0 g1
    have hmem : (n, lo, hi) ∈ c := by
      rcases List.mem_cons.mp (lookup_mem hl) with e | h
      · cases e; omega
      · exact h
    obtain ⟨x, k1, k2, k3, k4⟩ := hF.way.group hmem
    have hle := hF.way.le.2 hF.start.le
    have hlh := k2.le
    refine ⟨(b.drop lo).take (hi - lo), _, b.take lo, b.drop hi, hf, ?_, ?_, ?_⟩
    · rw [List.append_assoc]
      have : b.drop hi = (b.drop lo).drop (hi - lo) := by rw [List.drop_drop, show lo + (hi - lo) = hi by omega]
      rw [this, List.take_append_drop, List.take_append_drop]
    · rw [Nat.add_zero] at g0
      rw [g0, List.length_take, Nat.min_eq_left (by omega)]
      rfl
    · rw [g1, List.length_take, List.length_take, List.length_drop, Nat.min_eq_left (by omega), Nat.min_eq_left (by omega), show lo + (hi - lo) = hi by omega]
      rfl

end Verif.Regexp
