import Verif.Proofs.PatternParts
import Verif.Spec.Compiler
/-
Patterns without special characters, and the version patterns of engines.
-/
namespace Verif.Regexp

theorem token_plain {fold : Bool} {r : Nat} {rest : List Nat} (h : r ∉ [36, 40, 41, 42, 43, 46, 63, 91, 92, 94, 123, 124]) :
    token fold (r :: rest) = some (.atom (.cls fold false [(r, r)]), rest) := by
  simp only [List.mem_cons, List.not_mem_nil, or_false, not_or] at h
  generalize hs : r :: rest = s
  fun_cases token fold s <;> first | (cases hs; omega) | (injection hs with h1 h2; subst h1 h2; first | rfl | omega) | cases hs

def litOf (fold : Bool) (l : List Nat) : List Rx := l.map fun c => .cls fold false [(c, c)]

theorem parseLoop_plain {fold : Bool} : ∀ {l : List Nat}, (∀ r ∈ l, r ∉ [36, 40, 41, 42, 43, 46, 63, 91, 92, 94, 123, 124]) → ∀ {fuel n : Nat} {cap : Option Nat}
    {alts seq : List Rx} {stack : List Frame} {t : List Nat}, parseLoop fold (fuel + l.length) n ⟨cap, alts, seq⟩ stack (l ++ t) =
      parseLoop fold fuel n ⟨cap, alts, (litOf fold l).reverse ++ seq⟩ stack t
  | [], _, _, _, _, _, _, _, _ => rfl
  | r :: l, h, fuel, n, cap, alts, seq, stack, t => by
    rw [show fuel + (r :: l).length = (fuel + l.length) + 1 from rfl, List.cons_append, parseLoop, token_plain (h r List.mem_cons_self)]
    refine (parseLoop_plain (fun x hx => h x (List.mem_cons_of_mem _ hx))).trans ?_
    rw [show litOf fold (r :: l) = .cls fold false [(r, r)] :: litOf fold l from rfl, List.reverse_cons, List.append_assoc]
    rfl

theorem plain_runes {p : Bytes} (h : PlainText p) : ∀ r ∈ p.map UInt8.toNat, r ∉ [36, 40, 41, 42, 43, 46, 63, 91, 92, 94, 123, 124] := by
  intro r hr
  obtain ⟨c, hc, rfl⟩ := List.mem_map.mp hr
  have h2 := (h c hc).2
  intro hm
  have e : [36, 40, 41, 42, 43, 46, 63, 91, 92, 94, 123, 124] = (ascii "$()*+.?[\\^{|").map UInt8.toNat := by decide +kernel
  rw [e] at hm
  obtain ⟨d, hd, hcd⟩ := List.mem_map.mp hm
  rw [UInt8.toNat_inj.mp hcd] at hd
  exact h2 hd

theorem runesOf_plain {p : Bytes} (h : PlainText p) : runesOf p = p.map UInt8.toNat := by
  have := runesOf_append (l := p) (fun c hc => (h c hc).1) []
  rw [List.append_nil] at this
  rw [this]
  exact List.append_nil _

theorem plain_not_flag {p : Bytes} (h : PlainText p) (q : Bytes) : p ≠ ascii "(?i)" ++ q := by
  rintro rfl
  exact (h 40 (List.mem_append_left _ (by decide +kernel))).2 (by decide +kernel)

theorem parse_plainText {p : Bytes} (h : PlainText p) : parse p = some (catAll (litOf false (p.map UInt8.toNat))) := by
  rw [parse_plain (plain_not_flag h), runesOf_plain h]
  have := parseLoop_plain (fold := false) (plain_runes h) (fuel := 1) (n := 0) (cap := none) (alts := []) (seq := []) (stack := []) (t := [])
  rw [List.append_nil, Nat.add_comm] at this
  rw [this, List.append_nil]
  show some (catAll (litOf false (p.map UInt8.toNat)).reverse.reverse) = _
  rw [List.reverse_reverse]

theorem parse_plainAny {p : Bytes} (h : PlainText p) : parse (ascii "(?i)" ++ p) = some (catAll (litOf true (p.map UInt8.toNat))) := by
  rw [parse_anyCase, runesOf_plain h]
  have := parseLoop_plain (fold := true) (plain_runes h) (fuel := 1) (n := 0) (cap := none) (alts := []) (seq := []) (stack := []) (t := [])
  rw [List.append_nil, Nat.add_comm] at this
  rw [this, List.append_nil]
  show some (catAll (litOf true (p.map UInt8.toNat)).reverse.reverse) = _
  rw [List.reverse_reverse]

/-! ### Plain text -/

theorem lang_plain {b p : Bytes} (h : PlainText p) {i j : Nat} (hi : i ≤ b.length) : Lang b (catAll (litOf false (p.map UInt8.toNat))) i j ↔ p <+: b.drop i ∧ j = i + p.length := by
  induction p generalizing i with
  | nil =>
    constructor
    · intro h; cases h; exact ⟨List.nil_prefix, rfl⟩
    · rintro ⟨-, rfl⟩; exact .empty
  | cons c p ih =>
    have hc := (h c List.mem_cons_self).1
    have e : litOf false ((c :: p).map UInt8.toNat) = .cls false false [(c.toNat, c.toNat)] :: litOf false (p.map UInt8.toNat) := rfl
    have hr : ∀ r, InRanges false [(c.toNat, c.toNat)] r ↔ r = c.toNat := by
      intro r
      constructor
      · rintro ⟨x, rfl | ⟨h, -⟩, lo, hi, hm, h1, h2⟩
        · simp only [List.mem_cons, List.not_mem_nil, or_false, Prod.mk.injEq] at hm
          omega
        · cases h
      · rintro rfl
        exact ⟨_, .inl rfl, _, _, List.mem_cons_self, Nat.le_refl _, Nat.le_refl _⟩
    rw [e, lang_cons]
    have hp : PlainText p := fun x hx => h x (List.mem_cons_of_mem _ hx)
    constructor
    · rintro ⟨k, h1, h2⟩
      obtain ⟨r, w, g1, g2, rfl⟩ := lang_cls.mp h1
      have := (hr r).mp (g2.mpr rfl)
      subst this
      obtain ⟨g3, rfl⟩ := (runeAt_ascii hc).mp g1
      obtain ⟨hlt, g4⟩ := List.getElem?_eq_some_iff.mp g3
      obtain ⟨h3, rfl⟩ := (ih hp (by omega)).mp h2
      refine ⟨?_, by simp only [List.length_cons]; omega⟩
      rw [List.drop_eq_getElem_cons hlt, g4, UInt8.ofNat_toNat]
      exact List.cons_prefix_cons.mpr ⟨rfl, h3⟩
    · rintro ⟨h1, rfl⟩
      have hlt : i < b.length := by
        have := h1.length_le
        simp only [List.length_cons, List.length_drop] at this
        omega
      rw [List.drop_eq_getElem_cons hlt] at h1
      obtain ⟨h2, h3⟩ := List.cons_prefix_cons.mp h1
      refine ⟨i + 1, lang_cls.mpr ⟨c.toNat, 1, (runeAt_ascii hc).mpr ⟨?_, rfl⟩, iff_of_true ((hr _).mpr rfl) rfl, rfl⟩,
        (ih hp (by omega)).mpr ⟨h3, by simp only [List.length_cons]; omega⟩⟩
      rw [UInt8.ofNat_toNat, h2]
      exact List.getElem?_eq_getElem hlt

theorem boundary_all {b : Bytes} (h : ∀ c ∈ b, c.toNat < 0x80) {i : Nat} (hi : i ≤ b.length) : Boundary b i := by
  induction i with
  | zero => exact .zero
  | succ i ih =>
    have hb := List.getElem?_eq_getElem (l := b) (i := i) (by omega)
    exact (ih (by omega)).next ((runeAt_ascii (r := (b[i]'(by omega)).toNat) (h _ (List.getElem_mem _))).mpr ⟨by rw [hb, UInt8.ofNat_toNat], rfl⟩)

/-! ### Segments of the text -/

/-- All bytes between the offsets satisfy `P`. -/
def Seg (b : Bytes) (P : UInt8 → Prop) (i j : Nat) : Prop := ∀ k, i ≤ k → k < j → ∃ c, b[k]? = some c ∧ P c

theorem Seg.trans {b : Bytes} {P : UInt8 → Prop} {i j k : Nat} (h1 : Seg b P i j) (h2 : Seg b P j k) : Seg b P i k := by
  intro l hl hk
  by_cases h : l < j
  · exact h1 l hl h
  · exact h2 l (by omega) hk

theorem Seg.mono {b : Bytes} {P Q : UInt8 → Prop} {i j : Nat} (h : Seg b P i j) (hpq : ∀ c, P c → Q c) : Seg b Q i j := by
  intro l hl hk
  obtain ⟨c, h1, h2⟩ := h l hl hk
  exact ⟨c, h1, hpq c h2⟩

theorem star_seg {b : Bytes} {P : UInt8 → Prop} {g : Bool} {x : Rx} (hx : ∀ i j, Lang b x i j → Seg b P i j) {i j : Nat} (h : Lang b (.star g x) i j) : Seg b P i j := by
  generalize hy : Rx.star g x = y at h
  induction h with
  | stop => intro k h1 h2; omega
  | more h1 _ _ ih => cases hy; exact (hx _ _ h1).trans (ih rfl)
  | _ => cases hy

theorem Lang.le {b : Bytes} {x : Rx} {i j : Nat} (h : Lang b x i j) : i ≤ j := by
  induction h with
  | cls h _ => have := h.width; omega
  | cat _ _ h1 h2 => omega
  | more _ _ h1 h2 => omega
  | altL _ h | altR _ h | cap _ h => exact h
  | _ => exact Nat.le_refl _

def Digit (c : UInt8) : Prop := 48 ≤ c.toNat ∧ c.toNat ≤ 57

theorem digit_lang {b : Bytes} {i j : Nat} (h : Lang b digitRx i j) : j = i + 1 ∧ Seg b Digit i j := by
  obtain ⟨r, w, h1, h2, rfl⟩ := lang_cls.mp h
  obtain ⟨x, hx, lo, hi, hm, g1, g2⟩ := inRanges_fold.mp (h2.mpr rfl)
  simp only [List.mem_cons, List.not_mem_nil, or_false, Prod.mk.injEq] at hm
  have := mem_folds hx
  obtain ⟨g3, rfl⟩ := (runeAt_ascii (by omega)).mp h1
  refine ⟨rfl, fun k k1 k2 => ?_⟩
  have : k = i := by omega
  subst this
  refine ⟨_, g3, ?_⟩
  unfold Digit
  rw [toNat_ofNat (by omega)]
  omega

theorem digits_lang {b : Bytes} {i j : Nat} (h : Lang b (plusRx digitRx) i j) : i < j ∧ Seg b Digit i j := by
  obtain ⟨k, h1, h2⟩ := lang_cat.mp h
  obtain ⟨rfl, h3⟩ := digit_lang h1
  have := h2.le
  exact ⟨by omega, h3.trans (star_seg (fun _ _ h => (digit_lang h).2) h2)⟩

theorem utf8_high {r : Nat} (h : 0x80 ≤ r) (h' : r < 0x110000) : ∀ c ∈ utf8 r, 0x80 ≤ c.toNat := by
  intro c hc
  unfold utf8 at hc
  rw [if_neg (by omega)] at hc
  have key : ∀ {x : Nat}, c = UInt8.ofNat x → 0x80 ≤ x ∧ x < 256 → 0x80 ≤ c.toNat := by
    rintro x rfl h
    rw [toNat_ofNat h.2]
    exact h.1
  by_cases h2 : r < 0x800
  · rw [if_pos h2] at hc
    simp only [List.mem_cons, List.not_mem_nil, or_false] at hc
    rcases hc with hc | hc <;> exact key hc (by omega)
  · rw [if_neg h2] at hc
    by_cases h3 : r < 0x10000
    · rw [if_pos h3] at hc
      simp only [List.mem_cons, List.not_mem_nil, or_false] at hc
      rcases hc with hc | hc | hc <;> exact key hc (by omega)
    · rw [if_neg h3] at hc
      simp only [List.mem_cons, List.not_mem_nil, or_false] at hc
      rcases hc with hc | hc | hc | hc <;> exact key hc (by omega)

theorem rune_bytes {b : Bytes} {i r w : Nat} (h : RuneAt b i r w) :
    (r < 0x80 ∧ w = 1 ∧ b[i]? = some (UInt8.ofNat r)) ∨ Seg b (fun c => 0x80 ≤ c.toNat) i (i + w) := by
  by_cases hr : r < 0x80
  · exact .inl ⟨hr, ((runeAt_ascii hr).mp h).2, ((runeAt_ascii hr).mp h).1⟩
  · right
    obtain ⟨hi, ⟨hs, ⟨t, ht⟩, rfl⟩ | ⟨h1, -, rfl⟩⟩ := h
    · intro k k1 k2
      have hk : (b.drop i)[k - i]? = (utf8 r)[k - i]? := by rw [← ht, List.getElem?_append_left (by omega)]
      rw [List.getElem?_drop, show i + (k - i) = k by omega, List.getElem?_eq_getElem (l := utf8 r) (by omega)] at hk
      exact ⟨_, hk, utf8_high (by omega) (by rcases hs with hs | hs <;> omega) _ (List.getElem_mem _)⟩
    · intro k k1 k2
      have : k = i := by omega
      subst this
      refine ⟨b[k], List.getElem?_eq_getElem hi, Classical.byContradiction fun hn => ?_⟩
      refine h1 b[k].toNat (.inl (by omega)) ?_
      rw [utf8_small (by omega), UInt8.ofNat_toNat, List.drop_eq_getElem_cons hi]
      exact List.cons_prefix_cons.mpr ⟨rfl, List.nil_prefix⟩

/-- A rune other than newline has no newline in it. -/
theorem rune_seg {b : Bytes} {i r w : Nat} (h : RuneAt b i r w) (hr : r ≠ 10) : Seg b (· ≠ 10) i (i + w) := by
  rcases rune_bytes h with ⟨h1, rfl, h2⟩ | h1
  · intro k k1 k2
    have : k = i := by omega
    subst this
    refine ⟨_, h2, fun e => hr ?_⟩
    have := congrArg UInt8.toNat e
    rw [toNat_ofNat (by omega)] at this
    exact this
  · refine h1.mono ?_
    rintro c hc rfl
    exact absurd hc (by decide)

theorem boundary_near {b : Bytes} {i : Nat} (hi : i ≤ b.length) : Boundary b i ∨ ∃ k r w, Boundary b k ∧ RuneAt b k r w ∧ k < i ∧ i < k + w := by
  induction i with
  | zero => exact .inl .zero
  | succ i ih =>
    rcases ih (by omega) with h | ⟨k, r, w, h1, h2, h3, h4⟩
    · obtain ⟨r, w, hr⟩ := runeAt_ex (b := b) (i := i) (by omega)
      have := hr.width
      by_cases hw : w = 1
      · subst hw; exact .inl (h.next hr)
      · exact .inr ⟨i, r, w, h, hr, by omega, by omega⟩
    · by_cases hw : i + 1 = k + w
      · rw [hw]; exact .inl (h1.next h2)
      · exact .inr ⟨k, r, w, h1, h2, by omega, by omega⟩

/-- Where an ASCII byte is, a rune starts. -/
theorem boundary_ascii {b : Bytes} {i : Nat} {c : UInt8} (h : b[i]? = some c) (hc : c.toNat < 0x80) : Boundary b i := by
  obtain ⟨hi, -⟩ := List.getElem?_eq_some_iff.mp h
  rcases boundary_near (b := b) (i := i) (by omega) with h' | ⟨k, r, w, h1, h2, h3, h4⟩
  · exact h'
  · rcases rune_bytes h2 with ⟨-, rfl, -⟩ | h5
    · omega
    · obtain ⟨d, g1, g2⟩ := h5 i (by omega) h4
      rw [h] at g1
      cases g1
      omega

theorem part_lang {b : Bytes} {i j : Nat} (h : Lang b (.cat (.cls false false [(0, 9), (11, 0x10FFFF)]) (plusRx digitRx)) i j) :
    i + 2 ≤ j ∧ Seg b (· ≠ 10) i j ∧ Seg b Digit (j - 1) j := by
  obtain ⟨k, h1, h2⟩ := lang_cat.mp h
  obtain ⟨r, w, g1, g2, rfl⟩ := lang_cls.mp h1
  obtain ⟨h3, h4⟩ := digits_lang h2
  have hw := g1.width
  have hr : r ≠ 10 := by
    rintro rfl
    obtain ⟨x, rfl | ⟨h, -⟩, lo, hi, hm, k1, k2⟩ := g2.mpr rfl
    · simp only [List.mem_cons, List.not_mem_nil, or_false, Prod.mk.injEq] at hm
      omega
    · cases h
  refine ⟨by omega, (rune_seg g1 hr).trans (h4.mono ?_), fun l l1 l2 => h4 l (by omega) l2⟩
  rintro c hc rfl
  exact absurd hc.1 (by decide)

theorem engineVersion_lang {b : Bytes} {i j : Nat} (h : Lang b engineVersionRx i j) :
    i + 3 ≤ j ∧ Seg b (· ≠ 10) i j ∧ Seg b Digit i (i + 1) ∧ Seg b Digit (j - 1) j := by
  obtain ⟨k, h1, h2⟩ := lang_cat.mp h
  obtain ⟨h3, h4⟩ := digits_lang h1
  obtain ⟨l, h5, h6⟩ := lang_cat.mp h2
  have key : ∀ {i l j : Nat}, Lang b (.star true (.cat (.cls false false [(0, 9), (11, 0x10FFFF)]) (plusRx digitRx))) l j → Seg b Digit (l - 1) l → Seg b Digit (j - 1) j := by
    intro _ l j h
    generalize hy : Rx.star true _ = y at h
    induction h with
    | stop => exact id
    | more h1 _ _ ih => cases hy; exact fun _ => ih rfl (part_lang h1).2.2
    | _ => cases hy
  obtain ⟨h7, h8, h9⟩ := part_lang h5
  have := h6.le
  refine ⟨by omega, ?_, fun l l1 l2 => h4 l l1 (by omega), key (i := i) h6 h9⟩
  refine (h4.mono ?_).trans (h8.trans (star_seg (fun _ _ h => (part_lang h).2.1) h6))
  rintro c hc rfl
  exact absurd hc.1 (by decide)

/-! ### Engine patterns -/

theorem group_catAll {n : Nat} {x : Rx} {l : List Rx} (h : Rx.Group n x (catAll l)) : ∃ y ∈ l, Rx.Group n x y := by
  induction l with
  | nil => cases h
  | cons y l ih =>
    cases l with
    | nil => exact ⟨y, List.mem_cons_self, h⟩
    | cons z l =>
      cases h with
      | catL h => exact ⟨y, List.mem_cons_self, h⟩
      | catR h => obtain ⟨y', h1, h2⟩ := ih h; exact ⟨y', List.mem_cons_of_mem _ h1, h2⟩

theorem must_catAll {n : Nat} {x : Rx} {l : List Rx} (hx : x ∈ l) (h : x.must n = true) : (catAll l).must n = true := by
  induction l with
  | nil => cases hx
  | cons y l ih =>
    cases l with
    | nil => rw [List.mem_singleton.mp hx] at h; exact h
    | cons z l =>
      show (y.must n || (catAll (z :: l)).must n) = true
      rcases List.mem_cons.mp hx with rfl | hx
      · rw [h]; rfl
      · rw [ih hx, Bool.or_true]

def sepRx : Rx := .cls true false [(9, 10), (12, 13), (32, 32), (47, 47)]

theorem parse_engine {n : Bytes} (h : PlainText n) : parse (ascii "(?i)" ++ (n ++ engineText)) =
    some (catAll (litOf true (n.map UInt8.toNat) ++ [.star true spaceRx, sepRx, .star true spaceRx, .cap 1 engineVersionRx])) := by
  have e2 : engineText.map UInt8.toNat = [92, 115, 42, 91, 47, 92, 115, 93, 92, 115, 42, 40, 92, 100, 43, 40, 63, 58, 46, 92, 100, 43, 41, 43, 41] := by decide +kernel
  have e4 : runesOf engineText = engineText.map UInt8.toNat := by decide +kernel
  rw [parse_anyCase, runesOf_append (fun c hc => (h c hc).1), e4, e2]
  have hl : ∀ l : List Nat, (l ++ [92, 115, 42, 91, 47, 92, 115, 93, 92, 115, 42, 40, 92, 100, 43, 40, 63, 58, 46, 92, 100, 43, 41, 43, 41]).length + 1 = 26 + l.length := by
    intro l
    simp only [List.length_append, List.length_cons, List.length_nil]
    omega
  rw [hl, parseLoop_plain (plain_runes h), List.append_nil]
  have e3 : litOf true (n.map UInt8.toNat) ++ [.star true spaceRx, sepRx, .star true spaceRx, .cap 1 engineVersionRx] =
      (.cap 1 engineVersionRx :: .star true spaceRx :: sepRx :: .star true spaceRx :: (litOf true (n.map UInt8.toNat)).reverse).reverse := by
    simp only [List.reverse_cons, List.reverse_reverse, List.append_assoc, List.cons_append, List.nil_append]
  rw [e3]
  rfl

theorem groupCount_plain {n t : Bytes} (h : PlainText n) (k : Nat) : groupCount .plain k (n ++ t) = groupCount .plain k t := by
  induction n with
  | nil => rfl
  | cons c n ih =>
    rw [List.cons_append, groupCount]
    have hc := plain_runes h c.toNat (List.mem_map_of_mem List.mem_cons_self)
    simp only [List.mem_cons, List.not_mem_nil, or_false, not_or] at hc
    have : scanPlain c.toNat = .plain := by
      unfold scanPlain
      rw [if_neg (fun h => by have := Nat.eq_of_beq_eq_true h; omega), if_neg (fun h => by have := Nat.eq_of_beq_eq_true h; omega),
        if_neg (fun h => by have := Nat.eq_of_beq_eq_true h; omega)]
    rw [this]
    exact ih fun x hx => h x (List.mem_cons_of_mem _ hx)

theorem groups_engine {n : Bytes} (h : PlainText n) : groups (ascii "(?i)" ++ (n ++ engineText)) = 1 := by
  have e : ∀ t, groupCount .plain 0 (ascii "(?i)" ++ t) = groupCount .plain 0 t := by
    intro t
    have e' : ascii "(?i)" = [40, 63, 105, 41] := by decide +kernel
    rw [e']
    rfl
  rw [groups, e, groupCount_plain h]
  decide +kernel

theorem engine_mandatory {n : Bytes} (h : PlainText n) : MandatoryGroup (compile (ascii "(?i)" ++ (n ++ engineText))) := by
  refine compile_mandatory ?_
  unfold mandatory
  rw [groups_engine h, parse_engine h]
  exact must_catAll (x := .cap 1 engineVersionRx) (List.mem_append_right _ (by simp)) rfl

/-! ### What engine patterns capture -/

/-- The insides of the groups `n`. -/
def insides (n : Nat) : Rx → List Rx
  | .cap m x => (if n = m then [x] else []) ++ insides n x
  | .cat x y => insides n x ++ insides n y
  | .alt x y => insides n x ++ insides n y
  | .star _ x => insides n x
  | _ => []

theorem Rx.Group.mem {n : Nat} {x rx : Rx} (h : Rx.Group n x rx) : x ∈ insides n rx := by
  induction h with
  | here => rw [insides, if_pos rfl]; exact List.mem_append_left _ List.mem_cons_self
  | catL _ h | altL _ h => exact List.mem_append_left _ h
  | catR _ h | altR _ h => exact List.mem_append_right _ h
  | star _ h => exact h
  | cap _ h => exact List.mem_append_right _ h

def dotDigitRx : Rx := .cls true false [(46, 46), (48, 57)]

theorem dotDigit_lang {b : Bytes} {i j : Nat} (h : Lang b dotDigitRx i j) : i < j ∧ Seg b (fun c => c = 46 ∨ Digit c) i j := by
  obtain ⟨r, w, h1, h2, rfl⟩ := lang_cls.mp h
  obtain ⟨x, hx, lo, hi, hm, g1, g2⟩ := inRanges_fold.mp (h2.mpr rfl)
  simp only [List.mem_cons, List.not_mem_nil, or_false, Prod.mk.injEq] at hm
  have := mem_folds hx
  obtain ⟨g3, rfl⟩ := (runeAt_ascii (by omega)).mp h1
  refine ⟨by omega, fun k k1 k2 => ?_⟩
  have : k = i := by omega
  subst this
  refine ⟨_, g3, ?_⟩
  by_cases hr : r = 46
  · subst hr; exact .inl rfl
  · right
    unfold Digit
    rw [toNat_ofNat (by omega)]
    omega

theorem dotDigits_lang {b : Bytes} {i j : Nat} (h : Lang b (plusRx dotDigitRx) i j) : i < j ∧ Seg b (fun c => c = 46 ∨ Digit c) i j := by
  obtain ⟨k, h1, h2⟩ := lang_cat.mp h
  obtain ⟨h3, h4⟩ := dotDigit_lang h1
  have := h2.le
  exact ⟨by omega, h4.trans (star_seg (fun _ _ h => (dotDigit_lang h).2) h2)⟩

theorem Way.nocap {b : Bytes} {rx : Rx} {i j : Nat} {c : Caps} {p : List Bool} (h : Way b rx i j c p) (hg : ∀ n x, ¬ Rx.Group n x rx) : c = [] := by
  cases c with
  | nil => rfl
  | cons x c =>
    obtain ⟨n, lo, hi⟩ := x
    obtain ⟨x, h1, -⟩ := h.group (List.mem_cons_self (a := (n, lo, hi)) (l := c))
    exact absurd h1 (hg n x)

theorem way_append {b : Bytes} {l l' : List Rx} {i k : Nat} {c : Caps} {p : List Bool} (h : Way b (catAll (l ++ l')) i k c p) :
    ∃ j d d' q q', Way b (catAll l) i j d q ∧ Way b (catAll l') j k d' q' ∧ c = d' ++ d := by
  induction l generalizing i c p with
  | nil => exact ⟨i, [], c, [], p, .empty, h, (List.append_nil _).symm⟩
  | cons x l ih =>
    cases l with
    | nil =>
      cases l' with
      | nil => exact ⟨k, c, [], p, [], h, .empty, rfl⟩
      | cons y l' =>
        cases h with
        | cat h1 h2 => exact ⟨_, _, _, _, _, h1, h2, rfl⟩
    | cons y l =>
      cases h with
      | cat h1 h2 =>
        obtain ⟨j, d, d', q, q', g1, g2, rfl⟩ := ih h2
        exact ⟨j, _, d', _, q', .cat h1 g1, g2, List.append_assoc _ _ _⟩

/-- What may separate the name of an engine from its version. -/
def Sep (c : UInt8) : Prop := c ∈ ascii "\t\n\x0c\r /"

theorem sep_class {b : Bytes} {l : List (Nat × Nat)} (hl : ∀ x ∈ l, x ∈ [(9, 10), (12, 13), (32, 32), (47, 47)]) {i j : Nat} (h : Lang b (.cls true false l) i j) :
    i < j ∧ Seg b Sep i j := by
  obtain ⟨r, w, h1, h2, rfl⟩ := lang_cls.mp h
  obtain ⟨x, hx, lo, hi, hm, g1, g2⟩ := inRanges_fold.mp (h2.mpr rfl)
  have hm := hl _ hm
  simp only [List.mem_cons, List.not_mem_nil, or_false, Prod.mk.injEq] at hm
  have := mem_folds hx
  have hr : r = 9 ∨ r = 10 ∨ r = 12 ∨ r = 13 ∨ r = 32 ∨ r = 47 := by omega
  obtain ⟨g3, rfl⟩ := (runeAt_ascii (by omega)).mp h1
  refine ⟨by omega, fun k k1 k2 => ?_⟩
  have : k = i := by omega
  subst this
  refine ⟨_, g3, ?_⟩
  unfold Sep
  rcases hr with rfl | rfl | rfl | rfl | rfl | rfl <;> decide +kernel

theorem lits_nogroup {fold : Bool} {l : List Nat} (n : Nat) (x : Rx) : ¬ Rx.Group n x (catAll (litOf fold l)) := by
  intro h
  obtain ⟨y, hy, hg⟩ := group_catAll h
  obtain ⟨c, -, rfl⟩ := List.mem_map.mp hy
  cases hg

/-- Where the captured version is: after the name and a separator. -/
theorem engine_captured {n b t : Bytes} (hn : PlainText n) (h : Captures (compile (ascii "(?i)" ++ (n ++ engineText))) b 1 t) :
    ∃ i k lo hi, Boundary b i ∧ Spells b (n.map UInt8.toNat) i k ∧ k < lo ∧ Seg b Sep k lo ∧ Lang b engineVersionRx lo hi ∧ hi ≤ b.length ∧
      t = (b.drop lo).take (hi - lo) := by
  obtain ⟨m, a, z, hf, hb, h1, h2⟩ := h
  obtain ⟨rx, i, j, c, q, hp, hF, rfl⟩ := compile_found hf
  rw [parse_engine hn] at hp
  cases hp
  have hle := hF.way.le.2 hF.start.le
  obtain ⟨k, d, d', q1, q2, w1, w2, rfl⟩ := way_append hF.way
  cases w1.nocap (fun n x => lits_nogroup n x)
  have star_no : ∀ n x, ¬ Rx.Group n x (.star true spaceRx) := by
    intro n x h
    cases h with
    | star h => cases h
  cases w2 with
  | cat s1 w3 =>
    cases w3 with
    | cat s2 w4 =>
      cases w4 with
      | cat s3 w5 =>
        cases w5 with
        | cap w6 =>
          cases s1.nocap star_no
          cases s2.nocap (fun n x h => by cases h)
          cases s3.nocap star_no
          have hg : 1 ≤ groups (ascii "(?i)" ++ (n ++ engineText)) := by rw [groups_engine hn]; exact Nat.le_refl _
          have g0 := h1.symm.trans (vector_get _ _ 1 hg 0 (by omega))
          have g1 := h2.symm.trans (vector_get _ _ 1 hg 1 (by omega))
          have e1 := Option.some.inj g0
          have e2 := Option.some.inj g1
          have hs : ∀ x ∈ [(9, 10), (12, 13), (32, 32)], x ∈ [(9, 10), (12, 13), (32, 32), (47, 47)] := by decide
          have hseg := (star_seg (fun _ _ h => (sep_class hs h).2) s1.lang).trans
            ((sep_class (fun _ h => h) s2.lang).2.trans (star_seg (fun _ _ h => (sep_class hs h).2) s3.lang))
          have l1 := s1.lang.le
          have l2 := (sep_class (fun _ h => h) s2.lang).1
          have l3 := s3.lang.le
          refine ⟨i, k, _, j, hF.start, lang_lit.mp w1.lang, by omega, hseg, w6.lang, hle, ?_⟩
          have e1 := Int.ofNat.inj e1.symm
          have e2 : j = a.length + t.length := (Int.ofNat.inj e2).symm
          rw [e1, e2, hb, List.append_assoc, List.drop_left, show a.length + t.length - a.length = t.length by omega, List.take_left]

end Verif.Regexp
