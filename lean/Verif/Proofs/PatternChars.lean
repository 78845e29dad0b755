import Verif.Proofs.PatternPlain
/-
Which bytes occur in the parts of a text that belong to an expression.
-/
namespace Verif.Regexp

/-- Every class of the expression is contained in the ranges. -/
def within (S : List (Nat × Nat)) : Rx → Bool
  | .empty => true
  | .bot => true
  | .eot => true
  | .cls _ neg rs => !neg && rs.all fun x => S.any fun y => Nat.ble y.1 x.1 && Nat.ble x.2 y.2
  | .cat a b => within S a && within S b
  | .alt a b => within S a && within S b
  | .star _ a => within S a
  | .cap _ a => within S a

/-- ASCII without letters. -/
def Plainer (S : List (Nat × Nat)) : Prop := ∀ y ∈ S, y.2 < 65 ∨ (90 < y.1 ∧ y.2 < 97)

theorem within_seg {S : List (Nat × Nat)} (hS : Plainer S) {b : Bytes} {rx : Rx} {i j : Nat} (h : Lang b rx i j) (hw : within S rx = true) :
    Seg b (fun c => ∃ y ∈ S, y.1 ≤ c.toNat ∧ c.toNat ≤ y.2) i j := by
  induction h with
  | empty | bot | eot | stop => intro k h1 h2; omega
  | @cls fold neg rs i r w h1 h2 =>
    simp only [within, Bool.and_eq_true, Bool.not_eq_true', List.all_eq_true, List.any_eq_true, Nat.ble_eq] at hw
    obtain ⟨rfl, hw⟩ := hw
    obtain ⟨x, hx, lo, hi, hm, g1, g2⟩ := h2.mpr rfl
    obtain ⟨y, hy, k1, k2⟩ := hw _ hm
    have hp := hS y hy
    dsimp only at k1 k2
    have hxr : x = r := by
      rcases hx with rfl | ⟨-, hx⟩
      · rfl
      · have := mem_folds hx
        omega
    subst hxr
    obtain ⟨g3, rfl⟩ := (runeAt_ascii (by omega)).mp h1
    intro k l1 l2
    have : k = i := by omega
    subst this
    refine ⟨_, g3, y, hy, ?_⟩
    rw [toNat_ofNat (by omega)]
    omega
  | cat _ _ ih1 ih2 =>
    simp only [within, Bool.and_eq_true] at hw
    exact (ih1 hw.1).trans (ih2 hw.2)
  | altL _ ih =>
    simp only [within, Bool.and_eq_true] at hw
    exact ih hw.1
  | altR _ ih =>
    simp only [within, Bool.and_eq_true] at hw
    exact ih hw.2
  | more _ _ ih1 ih2 => exact (ih1 hw).trans (ih2 hw)
  | cap _ ih => exact ih hw

/-- Digits and dots; and underscores. -/
def numS : List (Nat × Nat) := [(46, 46), (48, 57)]
def numS' : List (Nat × Nat) := [(46, 46), (48, 57), (95, 95)]

/-- What a group of the expression captures consists of bytes in the ranges. -/
theorem captured_within {S : List (Nat × Nat)} (hS : Plainer S) {p b t : Bytes} {rx : Rx} (hp : parse p = some rx) {n : Nat} (hn : 1 ≤ n)
    (hw : (insides n rx).all (within S) = true) (h : Captures (compile p) b n t) : ∀ c ∈ t, ∃ y ∈ S, y.1 ≤ c.toNat ∧ c.toNat ≤ y.2 := by
  obtain ⟨x, lo, hi, h1, h2, h3, h4, rfl⟩ := captured hp hn h
  have hs := within_seg hS h2 (List.all_eq_true.mp hw _ h1.mem)
  intro c hc
  obtain ⟨k, hk⟩ := List.mem_iff_getElem?.mp hc
  have hlt : k < hi - lo := by
    have := (List.getElem?_eq_some_iff.mp hk).1
    rw [List.length_take] at this
    omega
  rw [List.getElem?_take, if_pos hlt, List.getElem?_drop] at hk
  obtain ⟨c', g1, g2⟩ := hs (lo + k) (by omega) (by omega)
  rw [hk] at g1
  cases g1
  exact g2

/-- If the expression matches, group 0 is the match. -/
theorem whole_captured {p b : Bytes} (h : (compile p).isMatch b = true) : ∃ t, Captures (compile p) b 0 t := by
  obtain ⟨m, hf⟩ := Option.isSome_iff_exists.mp h
  obtain ⟨rx, i, j, c, q, -, hF, rfl⟩ := compile_found hf
  have hij := hF.way.le
  have hb := hij.2 hF.start.le
  have g0 := vector_get ((0, i, j) :: c) (groups p) 0 (Nat.zero_le _) 0 (by omega)
  have g1 := vector_get ((0, i, j) :: c) (groups p) 0 (Nat.zero_le _) 1 (by omega)
  have hl : ((0, i, j) :: c).lookup 0 = some (i, j) := List.lookup_cons_self
  unfold vector.group at g0 g1
  rw [hl] at g0 g1
  refine ⟨(b.drop i).take (j - i), _, b.take i, b.drop j, hf, ?_, ?_, ?_⟩
  · rw [List.append_assoc]
    have : b.drop j = (b.drop i).drop (j - i) := by rw [List.drop_drop, show i + (j - i) = j by omega]
    rw [this, List.take_append_drop, List.take_append_drop]
  · rw [Nat.add_zero] at g0
    rw [g0, List.length_take, Nat.min_eq_left (by omega)]
    rfl
  · rw [g1, List.length_take, List.length_take, List.length_drop, Nat.min_eq_left (by omega), Nat.min_eq_left (by omega), show i + (j - i) = j by omega]
    rfl

end Verif.Regexp
