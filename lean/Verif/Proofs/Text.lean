import Verif.Spec.Text
import Verif.Spec.Rules
import Verif.Props.Pattern
/-
Well-formed texts: parts, edits, captured groups, expanded templates.
-/
namespace Verif.Regexp

open Verif.Compiler

theorem WellFormed.nil : WellFormed [] := ⟨[], by simp, rfl⟩

theorem WellFormed.append {a b : Bytes} (ha : WellFormed a) (hb : WellFormed b) : WellFormed (a ++ b) := by
  obtain ⟨rs, h1, rfl⟩ := ha
  obtain ⟨ss, h2, rfl⟩ := hb
  refine ⟨rs ++ ss, fun r hr => ?_, by rw [List.flatMap_append]⟩
  rcases List.mem_append.mp hr with h | h
  · exact h1 r h
  · exact h2 r h

theorem utf8_ascii {r : Nat} (h : r < 0x80) : utf8 r = [UInt8.ofNat r] := by rw [utf8, if_pos h]

theorem WellFormed.ascii {b : Bytes} (h : ∀ c ∈ b, c.toNat < 0x80) : WellFormed b := by
  refine ⟨b.map UInt8.toNat, fun r hr => ?_, ?_⟩
  · obtain ⟨c, hc, rfl⟩ := List.mem_map.mp hr
    have := h c hc
    exact .inl (by omega)
  · induction b with
    | nil => rfl
    | cons c b ih =>
      rw [List.map_cons, List.flatMap_cons, utf8_ascii (h c (by simp)), ← ih fun c hc => h c (by simp [hc])]
      simp

/-- Longer encodings have no ASCII bytes. -/
theorem utf8_tail {r : Nat} (hs : Scalar r) (h : ¬ r < 0x80) : ∀ c ∈ utf8 r, 0x80 ≤ c.toNat := by
  unfold Scalar at hs
  intro c hc
  rw [utf8, if_neg h] at hc
  split at hc
  · simp only [List.mem_cons, List.not_mem_nil, or_false] at hc
    rcases hc with rfl | rfl <;> rw [toNat_ofNat (by omega)] <;> omega
  split at hc
  · simp only [List.mem_cons, List.not_mem_nil, or_false] at hc
    rcases hc with rfl | rfl | rfl <;> rw [toNat_ofNat (by omega)] <;> omega
  · simp only [List.mem_cons, List.not_mem_nil, or_false] at hc
    rcases hc with rfl | rfl | rfl | rfl <;> rw [toNat_ofNat (by omega)] <;> omega

theorem utf8_ne {r : Nat} : utf8 r ≠ [] := by
  unfold utf8
  split
  · simp
  split
  · simp
  split <;> simp

/-- A well-formed text can be cut at an ASCII byte. -/
theorem WellFormed.split {c : UInt8} (hc : c.toNat < 0x80) {x y : Bytes} (h : WellFormed (x ++ c :: y)) : WellFormed x ∧ WellFormed y := by
  obtain ⟨rs, h1, h2⟩ := h
  induction rs generalizing x with
  | nil => simp at h2
  | cons r rs ih =>
    rw [List.flatMap_cons] at h2
    have hr := h1 r (by simp)
    have hrs : ∀ r ∈ rs, Scalar r := fun r hr => h1 r (by simp [hr])
    rcases List.append_eq_append_iff.mp h2 with ⟨l, e1, e2⟩ | ⟨l, e1, e2⟩
    · -- utf8 r = x ++ l
      rcases l with _ | ⟨d, l⟩
      · rw [List.append_nil] at e1
        rw [List.nil_append] at e2
        obtain ⟨g1, g2⟩ := ih (x := []) hrs (by rw [List.nil_append]; exact e2)
        exact ⟨⟨[r], by simpa using hr, by rw [← e1]; simp⟩, g2⟩
      · rw [List.cons_append] at e2
        obtain ⟨rfl, e2⟩ := List.cons.inj e2
        have hlt : r < 0x80 := by
          refine Classical.byContradiction fun hn => ?_
          have := utf8_tail hr hn c (by rw [e1]; simp)
          omega
        rw [utf8_ascii hlt] at e1
        have hx : x = [] := by
          rcases x with _ | ⟨a, x⟩
          · rfl
          · have := congrArg List.length e1
            simp at this
        subst hx
        have hl : l = [] := by
          have := congrArg List.length e1
          simpa using this
        subst hl
        exact ⟨.nil, rs, hrs, by simpa using e2⟩
    · -- x = utf8 r ++ l
      obtain ⟨g1, g2⟩ := ih hrs e2.symm
      rw [e1]
      refine ⟨WellFormed.append ⟨[r], by simpa using hr, by simp⟩ g1, g2⟩

/-- Boundaries cut a well-formed text between its runes. -/
theorem boundary_split {rs : List Nat} (hs : ∀ r ∈ rs, Scalar r) {i : Nat} (h : Boundary (rs.flatMap utf8) i) :
    ∃ p s, rs = p ++ s ∧ i = (p.flatMap utf8).length := by
  induction h with
  | zero => exact ⟨[], rs, rfl, rfl⟩
  | @next i r w _ hr ih =>
    obtain ⟨p, s, e, rfl⟩ := ih
    rcases s with _ | ⟨x, s⟩
    · have := hr.1
      rw [e] at this
      simp at this
    · have hx : RuneAt (rs.flatMap utf8) (p.flatMap utf8).length x (utf8 x).length := by
        refine ⟨hr.1, .inl ⟨hs x (by rw [e]; simp), ?_, rfl⟩⟩
        rw [e, List.flatMap_append, List.drop_left, List.flatMap_cons]
        exact List.prefix_append _ _
      obtain ⟨rfl, rfl⟩ := hr.unique hx
      exact ⟨p ++ [r], s, by rw [e]; simp, by simp⟩

theorem WellFormed.slice {b : Bytes} (h : WellFormed b) {i j : Nat} (hi : Boundary b i) (hj : Boundary b j) : WellFormed ((b.drop i).take (j - i)) := by
  obtain ⟨rs, hs, rfl⟩ := h
  obtain ⟨p, s, e, rfl⟩ := boundary_split hs hi
  obtain ⟨p', s', e', rfl⟩ := boundary_split hs hj
  rcases List.append_eq_append_iff.mp (e.symm.trans e') with ⟨l, e1, e2⟩ | ⟨l, e1, e2⟩
  · -- p' = p ++ l
    refine ⟨l, fun r hr => hs r (by rw [e', e1]; simp [hr]), ?_⟩
    rw [e, e2, e1]
    simp only [List.flatMap_append, List.drop_left, List.length_append]
    rw [Nat.add_sub_cancel_left, List.take_left]
  · have : (p'.flatMap utf8).length - (p.flatMap utf8).length = 0 := by
      rw [e1, List.flatMap_append, List.length_append]; omega
    rw [this, List.take_zero]
    exact .nil

theorem Way.boundary {b : Bytes} {rx : Rx} {i j : Nat} {c : Caps} {p : List Bool} (h : Way b rx i j c p) (hi : Boundary b i) :
    Boundary b j ∧ ∀ x ∈ c, Boundary b x.2.1 ∧ Boundary b x.2.2 := by
  induction h with
  | empty | stop => exact ⟨hi, by simp⟩
  | bot => exact ⟨hi, by simp⟩
  | cls h _ => exact ⟨hi.next h, by simp⟩
  | eot => exact ⟨hi, by simp⟩
  | cat _ _ ih1 ih2 =>
    obtain ⟨h1, h2⟩ := ih1 hi
    obtain ⟨h3, h4⟩ := ih2 h1
    refine ⟨h3, fun x hx => ?_⟩
    rcases List.mem_append.mp hx with h | h
    · exact h4 x h
    · exact h2 x h
  | altL _ ih | altR _ ih => exact ih hi
  | more _ _ _ ih1 ih2 =>
    obtain ⟨h1, h2⟩ := ih1 hi
    obtain ⟨h3, h4⟩ := ih2 h1
    refine ⟨h3, fun x hx => ?_⟩
    rcases List.mem_append.mp hx with h | h
    · exact h4 x h
    · exact h2 x h
  | cap _ ih =>
    obtain ⟨h1, h2⟩ := ih hi
    refine ⟨h1, fun x hx => ?_⟩
    rcases List.mem_cons.mp hx with rfl | h
    · exact ⟨hi, h1⟩
    · exact h2 x h

/-- What a group captures in a well-formed text is well-formed. -/
theorem WellFormed.captures {p u : Bytes} (hu : WellFormed u) {n : Nat} {t : Bytes} (h : Captures (compile p) u n t) : WellFormed t := by
  obtain ⟨m, a, z, h1, h2, h3, h4⟩ := h
  obtain ⟨rx, i, j, c, w, g1, g2, g3, -, -, g5, g6⟩ := C78_match h1
  obtain ⟨gb, gc⟩ := g3.boundary g2
  have hn : n ≤ groups p := by
    have := (List.getElem?_eq_some_iff.mp h4).1
    omega
  rcases g6 n hn with ⟨lo, hi, ⟨l, l', e, -⟩, k1, k2⟩ | ⟨-, k1, -⟩
  · rw [h3] at k1
    rw [h4] at k2
    have e1 : a.length = lo := by have := Option.some.inj k1; omega
    have e2 : a.length + t.length = hi := by have := Option.some.inj k2; omega
    have hb : Boundary u lo ∧ Boundary u hi := by
      have : (n, lo, hi) ∈ (0, i, j) :: c := by rw [e]; simp
      rcases List.mem_cons.mp this with h | h
      · cases h; exact ⟨g2, gb⟩
      · exact gc _ h
    have := hu.slice hb.1 hb.2
    rw [← e1, ← e2, h2, Nat.add_sub_cancel_left, List.append_assoc, List.drop_left, List.take_left] at this
    exact this
  · rw [h3] at k1
    have := Option.some.inj k1
    omega

/-- Every dollar sign is followed by an ASCII character. -/
def Dollars (r : Bytes) : Prop := ∀ a d z, r = a ++ 36 :: d :: z → d.toNat < 0x80

theorem Dollars.suffix {a r : Bytes} (h : Dollars (a ++ r)) : Dollars r := fun a' d z e => h (a ++ a') d z (by rw [e, List.append_assoc])

/-- Filling in a well-formed template leaves it well-formed. -/
theorem WellFormed.expands {p u : Bytes} (hu : WellFormed u) {r t : Bytes} (h : Expands (compile p) u r t) : ∀ {x : Bytes}, Dollars r →
    WellFormed (x ++ r) → WellFormed (x ++ t) := by
  have h36 : (36 : UInt8).toNat < 0x80 := by decide
  induction h with
  | nil => exact fun _ h => h
  | @char b r t hb _ ih =>
    intro x hd h
    rw [show x ++ b :: t = (x ++ [b]) ++ t by simp]
    refine ih (Dollars.suffix (a := [b]) hd) ?_
    rw [show (x ++ [b]) ++ r = x ++ b :: r by simp]
    exact h
  | stop _ =>
    intro x _ h
    rw [List.append_nil]
    exact (h.split h36).1
  | @group d r g t hd' hg _ ih =>
    intro x hd h
    obtain ⟨h1, h2⟩ := h.split h36
    have h3 := (WellFormed.split (x := []) (hd [] d r rfl) h2).2
    exact h1.append ((hu.captures hg).append (ih (x := []) (Dollars.suffix (a := [36, d]) hd) h3))
  | @dollar r g t hg _ ih =>
    intro x hd h
    obtain ⟨h1, h2⟩ := h.split h36
    exact h1.append ((hu.captures hg).append (ih (x := []) (Dollars.suffix (a := [36]) hd) h2))

/-! ### Edits -/

theorem WellFormed.prefix_ascii {a y : Bytes} (ha : ∀ c ∈ a, c.toNat < 0x80) (h : WellFormed (a ++ y)) : WellFormed y := by
  induction a with
  | nil => exact h
  | cons c a ih => exact ih (fun d hd => ha d (by simp [hd])) (WellFormed.split (x := []) (ha c (by simp)) h).2

theorem WellFormed.suffix_ascii {x z : Bytes} (hz : ∀ c ∈ z, c.toNat < 0x80) (h : WellFormed (x ++ z)) : WellFormed x := by
  rcases z with _ | ⟨c, z⟩
  · rwa [List.append_nil] at h
  · exact (h.split (hz c (by simp))).1

theorem rep_ascii {c : UInt8} (hc : c.toNat < 0x80) {n : Nat} : ∀ d ∈ List.replicate n c, d.toNat < 0x80 := by
  intro d hd
  rw [List.eq_of_mem_replicate hd]
  exact hc

theorem WellFormed.trimmed {raw s : Bytes} (h : WellFormed raw) (ht : Trimmed raw s) : WellFormed s := by
  obtain ⟨a, z, e, -, -⟩ := ht
  rw [e] at h
  have := WellFormed.suffix_ascii (rep_ascii (by decide)) h
  exact WellFormed.prefix_ascii (rep_ascii (by decide)) this

theorem WellFormed.cleaned {raw s : Bytes} (h : WellFormed raw) (hc : Cleaned raw s) : WellFormed s := by
  obtain ⟨r, n, h1, h2, -⟩ := hc
  have hr : WellFormed r := by
    rcases h1 with ⟨-, rfl⟩ | ⟨p, -, e⟩
    · exact h
    · rw [e] at h
      exact (h.split (by decide)).2
  rw [h2] at hr
  exact hr.suffix_ascii (rep_ascii (by decide))

/-- Replacing one ASCII character by another. -/
theorem WellFormed.replace {b : Bytes} (h : WellFormed b) (c d : UInt8) (hc : c.toNat < 0x80) (hd : d.toNat < 0x80) :
    WellFormed (b.map fun x => if x = c then d else x) := by
  obtain ⟨rs, hs, rfl⟩ := h
  induction rs with
  | nil => exact .nil
  | cons r rs ih =>
    rw [List.flatMap_cons, List.map_append]
    have hr := hs r (by simp)
    refine WellFormed.append ?_ (ih fun r h => hs r (by simp [h]))
    by_cases hlt : r < 0x80
    · rw [utf8_ascii hlt]
      refine .ascii fun x hx => ?_
      simp only [List.map_cons, List.map_nil, List.mem_cons, List.not_mem_nil, or_false] at hx
      rw [hx]
      split
      · exact hd
      · rw [toNat_ofNat (by omega)]; exact hlt
    · have : (utf8 r).map (fun x => if x = c then d else x) = utf8 r := by
        conv => rhs; rw [← List.map_id (utf8 r)]
        refine List.map_congr_left fun x hx => ?_
        have := utf8_tail hr hlt x hx
        rw [if_neg (fun e => by rw [e] at this; omega)]
        rfl
      rw [this]
      exact ⟨[r], by simpa using hr, by simp⟩

/-! ### Deciding -/

/-- The text decodes without errors; `fuel` at least its length. -/
def wfB : Nat → Bytes → Bool
  | _, [] => true
  | 0, _ => false
  | fuel + 1, a :: l => !(Nat.beq (decodeRune (a :: l)).2 1 && !Nat.blt a.toNat 128) && wfB fuel ((a :: l).drop (decodeRune (a :: l)).2)

theorem wfB_sound : ∀ {fuel : Nat} {b : Bytes}, wfB fuel b = true → WellFormed b
  | _, [], _ => .nil
  | 0, _ :: _, h => by cases h
  | fuel + 1, a :: l, h => by
    rw [wfB, Bool.and_eq_true] at h
    have ih := wfB_sound h.2
    rcases decode_cases a l with ⟨r, hr, ⟨t, ht⟩, hd⟩ | hd
    · rw [hd] at ih
      rw [← ht] at ih ⊢
      rw [List.drop_left] at ih
      exact WellFormed.append ⟨[r], by simpa using hr, by simp⟩ ih
    · rw [hd] at ih
      have h1 := h.1
      rw [hd] at h1
      have hlt : a.toNat < 0x80 := by
        simp only [Bool.not_eq_true', Bool.and_eq_false_imp, Bool.not_eq_false', Nat.blt_eq] at h1
        exact h1 rfl
      exact WellFormed.append (a := [a]) (.ascii (by simpa using hlt)) ih

/-! ### Texts whose runes are all real -/

/-- The text between two offsets consists of encodings. -/
def Good (b : Bytes) (i j : Nat) : Prop := ∃ rs : List Nat, (∀ r ∈ rs, Scalar r) ∧ rs.flatMap utf8 <+: b.drop i ∧ j = i + (rs.flatMap utf8).length

theorem Good.refl {b : Bytes} {i : Nat} : Good b i i := ⟨[], by simp, by simp, by simp⟩

theorem Good.trans {b : Bytes} {i j k : Nat} (h : Good b i j) (h' : Good b j k) : Good b i k := by
  obtain ⟨rs, h1, ⟨t, h2⟩, rfl⟩ := h
  obtain ⟨ss, g1, ⟨t', g2⟩, rfl⟩ := h'
  refine ⟨rs ++ ss, fun r hr => ?_, ⟨t', ?_⟩, by rw [List.flatMap_append, List.length_append]; omega⟩
  · rcases List.mem_append.mp hr with h | h
    · exact h1 r h
    · exact g1 r h
  · rw [← List.drop_drop, ← h2, List.drop_left] at g2
    rw [← h2, ← g2, List.flatMap_append, List.append_assoc]

theorem Good.text {b : Bytes} {i j : Nat} (h : Good b i j) : WellFormed ((b.drop i).take (j - i)) := by
  obtain ⟨rs, h1, ⟨t, h2⟩, rfl⟩ := h
  exact ⟨rs, h1, by rw [← h2, Nat.add_sub_cancel_left, List.take_left]⟩

/-- No class of the expression contains U+FFFD. -/
def solid : Rx → Bool
  | .empty => true
  | .bot => true
  | .eot => true
  | .cls _ neg rs => !neg && !inRanges 0xFFFD rs
  | .cat a b => solid a && solid b
  | .alt a b => solid a && solid b
  | .star _ a => solid a
  | .cap _ a => solid a

theorem solid_good {b : Bytes} {rx : Rx} {i j : Nat} (h : Lang b rx i j) (hs : solid rx = true) : Good b i j := by
  induction h with
  | empty | bot | eot | stop => exact .refl
  | @cls fold neg rs i r w h1 h2 =>
    simp only [solid, Bool.and_eq_true, Bool.not_eq_true'] at hs
    obtain ⟨rfl, hs⟩ := hs
    obtain ⟨x, hx, lo, hi, hm, g1, g2⟩ := h2.mpr rfl
    obtain ⟨-, ⟨k1, k2, rfl⟩ | ⟨-, rfl, rfl⟩⟩ := h1
    · exact ⟨[r], by simpa using k1, by simpa using k2, by simp⟩
    · exfalso
      have e : folds 0xFFFD = [0xFFFD] := by decide
      have hx : x = 0xFFFD := by
        rcases hx with rfl | ⟨-, hx⟩
        · rfl
        · rw [e, List.mem_singleton] at hx; exact hx
      subst hx
      have := inRanges_iff.mpr ⟨lo, hi, hm, g1, g2⟩
      rw [hs] at this
      cases this
  | cat _ _ ih1 ih2 =>
    simp only [solid, Bool.and_eq_true] at hs
    exact (ih1 hs.1).trans (ih2 hs.2)
  | altL _ ih =>
    simp only [solid, Bool.and_eq_true] at hs
    exact ih hs.1
  | altR _ ih =>
    simp only [solid, Bool.and_eq_true] at hs
    exact ih hs.2
  | more _ _ ih1 ih2 => exact (ih1 hs).trans (ih2 hs)
  | cap _ ih => exact ih hs

/-- The insides of all groups are such. -/
def capsSolid : Rx → Bool
  | .cat a b => capsSolid a && capsSolid b
  | .alt a b => capsSolid a && capsSolid b
  | .star _ a => capsSolid a
  | .cap _ a => solid a && capsSolid a
  | _ => true

theorem Rx.Group.solid {n : Nat} {x rx : Rx} (h : Rx.Group n x rx) (hs : capsSolid rx = true) : Regexp.solid x = true := by
  induction h with
  | here =>
    simp only [capsSolid, Bool.and_eq_true] at hs
    exact hs.1
  | catL _ ih | altL _ ih =>
    simp only [capsSolid, Bool.and_eq_true] at hs
    exact ih hs.1
  | catR _ ih | altR _ ih =>
    simp only [capsSolid, Bool.and_eq_true] at hs
    exact ih hs.2
  | star _ ih => exact ih hs
  | cap _ ih =>
    simp only [capsSolid, Bool.and_eq_true] at hs
    exact ih hs.2

/-- What such a group captures is well-formed, whatever the text. -/
theorem captured_solid {p b t : Bytes} {rx : Rx} (hp : parse p = some rx) (hs : capsSolid rx = true) {n : Nat} (hn : 1 ≤ n)
    (h : Captures (compile p) b n t) : WellFormed t := by
  obtain ⟨x, lo, hi, h1, h2, h3, h4, rfl⟩ := captured hp hn h
  exact (solid_good h2 (h1.solid hs)).text

/-- What precedes the pattern of a client rule: at most one rune, and a well-formed text. -/
theorem word_good {b : Bytes} {i k : Nat} (h : Lang b wordRx i k) : Good b i k ∨ ∃ r w, RuneAt b i r w ∧ Good b (i + w) k := by
  have e : wordRx = .alt (.bot) (.alt (.cls true true [(95, 95), (45, 45), (48, 57), (65, 90)]) (.alt (.cat (.cls true true [(45, 45), (48, 57), (65, 90)]) (.cls true false [(95, 95)])) (.alt (.cat (.cls true false [(115, 115)]) (.cat (.cls true false [(112, 112)]) (.cat (.cls true false [(114, 114)]) (.cat (.cls true false [(100, 100)]) (.cls true false [(45, 45)]))))) (.cat (.cls true false [(77, 77)]) (.cat (.cls true false [(90, 90)]) (.cls true false [(45, 45)])))))) := by decide +kernel
  rw [e] at h
  cases h with
  | altL h => exact .inl (solid_good h rfl)
  | altR h =>
    cases h with
    | altL h =>
      cases h with
      | cls h _ => exact .inr ⟨_, _, h, .refl⟩
    | altR h =>
      cases h with
      | altL h =>
        cases h with
        | cat h h' =>
          cases h with
          | cls h _ => exact .inr ⟨_, _, h, solid_good h' (by decide)⟩
      | altR h => exact .inl (solid_good h (by decide))

/-- Every text of the expression has a slash. -/
def slashed : Rx → Bool
  | .cls _ neg rs => !neg && rs == [(47, 47)]
  | .cat a b => slashed a || slashed b
  | .alt a b => slashed a && slashed b
  | .cap _ a => slashed a
  | _ => false

theorem slashed_at {b : Bytes} {rx : Rx} {i j : Nat} (h : Lang b rx i j) (hs : slashed rx = true) : ∃ k, i ≤ k ∧ k < j ∧ b[k]? = some 47 := by
  induction h with
  | empty | bot | eot | stop => cases hs
  | more => cases hs
  | @cls fold neg rs i r w h1 h2 =>
    simp only [slashed, Bool.and_eq_true, Bool.not_eq_true', beq_iff_eq] at hs
    obtain ⟨rfl, rfl⟩ := hs
    obtain ⟨x, hx, lo, hi, hm, g1, g2⟩ := h2.mpr rfl
    simp only [List.mem_singleton, Prod.mk.injEq] at hm
    have hr : r = 47 := by
      rcases hx with rfl | ⟨-, hx⟩
      · omega
      · have := mem_folds hx
        omega
    subst hr
    obtain ⟨g3, rfl⟩ := (runeAt_ascii (by omega)).mp h1
    exact ⟨i, Nat.le_refl _, by omega, g3⟩
  | cat h1 h2 ih1 ih2 =>
    obtain ⟨_, _, w1⟩ := h1.way
    obtain ⟨_, _, w2⟩ := h2.way
    have l1 := w1.le.1
    have l2 := w2.le.1
    simp only [slashed, Bool.or_eq_true] at hs
    rcases hs with hs | hs
    · obtain ⟨k, g1, g2, g3⟩ := ih1 hs
      exact ⟨k, g1, by omega, g3⟩
    · obtain ⟨k, g1, g2, g3⟩ := ih2 hs
      exact ⟨k, by omega, g2, g3⟩
  | altL _ ih =>
    simp only [slashed, Bool.and_eq_true] at hs
    exact ih hs.1
  | altR _ ih =>
    simp only [slashed, Bool.and_eq_true] at hs
    exact ih hs.2
  | cap _ ih => exact ih hs

/-- The whole match of a client rule, cut after its first slash: well-formed if the rule's own pattern is such. -/
theorem whole_cleaned {p b raw s : Bytes} {rx : Rx} (hp : parse (atWord p) = some (.cat wordRx rx)) (hs : solid rx = true)
    (hsl : slashed rx = true) (h : Captures (compile (atWord p)) b 0 raw) (hc : Cleaned raw s) : WellFormed s := by
  obtain ⟨m, a, z, h1, h2, h3, h4⟩ := h
  obtain ⟨rx', i, j, c, w, g1, g2, g3, -, -, -, g6⟩ := C78_match h1
  rw [hp] at g1
  cases g1
  have hij : a.length = i ∧ a.length + raw.length = j := by
    rcases g6 0 (Nat.zero_le _) with ⟨lo, hi, ⟨l, l', e, hl⟩, k1, k2⟩ | ⟨k1, -, -⟩
    · have k1 : m[2 * 0]? = some (lo : Int) := k1
      rw [h3] at k1
      rw [h4] at k2
      have e1 := Option.some.inj k1
      have e2 := Option.some.inj k2
      have : (lo, hi) = (i, j) := by
        rcases l with _ | ⟨y, l⟩
        · cases e; rfl
        · cases e
          exact absurd rfl (hl _ List.mem_cons_self)
      cases this
      omega
    · exact absurd rfl (k1 (0, i, j) (by simp))
  obtain ⟨rfl, rfl⟩ := hij
  have hraw : (b.drop a.length).take (a.length + raw.length - a.length) = raw := by
    rw [Nat.add_sub_cancel_left, h2, List.append_assoc, List.drop_left, List.take_left]
  cases g3.lang with
  | @cat _ _ _ k _ w1 w2 =>
    have hb := solid_good w2 hs
    have h47 : 47 ∈ raw := by
      obtain ⟨y, k1, k2, k3⟩ := slashed_at w2 hsl
      obtain ⟨_, _, w1⟩ := w1.way
      have hle := w1.le.1
      rw [← hraw]
      refine List.mem_iff_getElem?.mpr ⟨y - a.length, ?_⟩
      rw [List.getElem?_take, if_pos (by omega), List.getElem?_drop, show a.length + (y - a.length) = y by omega, k3]
    rcases word_good w1 with hw | ⟨r, w, hr, hw⟩
    · have := (hw.trans hb).text
      rw [hraw] at this
      exact this.cleaned hc
    · have hg := hw.trans hb
      obtain ⟨hi, ⟨k1, k2, rfl⟩ | ⟨k1, rfl, rfl⟩⟩ := id hr
      · have : Good b a.length (a.length + raw.length) := Good.trans ⟨[r], by simpa using k1, by simpa using k2, by simp⟩ hg
        have := this.text
        rw [hraw] at this
        exact this.cleaned hc
      · -- a stray byte first
        have hd := List.drop_eq_getElem_cons hi
        have hlen : 1 ≤ raw.length := by
          rcases raw with _ | ⟨_, _⟩
          · cases h47
          · simp
        have e : raw = b[a.length] :: (b.drop (a.length + 1)).take (raw.length - 1) := by
          conv => lhs; rw [← hraw, hd, Nat.add_sub_cancel_left]
          obtain ⟨n, hn⟩ : ∃ n, raw.length = n + 1 := ⟨raw.length - 1, by omega⟩
          rw [hn, List.take_succ_cons]
          rfl
        have hy := hg.text
        rw [show a.length + raw.length - (a.length + 1) = raw.length - 1 by omega] at hy
        have hne : ¬ b[a.length].toNat < 0x80 := by
          intro hlt
          refine k1 b[a.length].toNat (.inl (by omega)) ?_
          rw [utf8_ascii hlt, hd]
          exact ⟨b.drop (a.length + 1), by simp⟩
        generalize b[a.length] = x at e hne
        generalize (b.drop (a.length + 1)).take (raw.length - 1) = y at e hy
        subst e
        obtain ⟨r, n, hr, h6, -⟩ := hc
        have hwr : WellFormed r := by
          rcases hr with ⟨hr, -⟩ | ⟨q, -, hr⟩
          · exact absurd h47 hr
          · rcases q with _ | ⟨q0, q⟩
            · rw [List.nil_append] at hr
              have := (List.cons.inj hr).1
              rw [this] at hne
              exact absurd (by decide) hne
            · have e := (List.cons.inj hr).2
              rw [e] at hy
              exact (hy.split (by decide)).2
        rw [h6] at hwr
        exact hwr.suffix_ascii (rep_ascii (by decide))

end Verif.Regexp
