import Verif.Proofs.PatternText
import Verif.Spec.Rules
/-
What the patterns mean that the rule compiler puts together.
-/
namespace Verif.Regexp

/-! ### Matches of a compiled pattern -/

theorem compile_isMatch {p : Bytes} {rx : Rx} (h : parse p = some rx) (b : Bytes) :
    (compile p).isMatch b = true ↔ ∃ i j, Boundary b i ∧ Lang b rx i j := by
  have e : (compile p).find b = (search rx b.length 0 b).map fun caps => vector caps (groups p) := by
    show (match parse p with
    | none => fun _ => none
    | some rx => fun b : Bytes => (search rx b.length 0 b).map fun caps => vector caps (groups p)) b = _
    rw [h]
  obtain ⟨h1, h2⟩ := search_found (b := b) (rx := rx) b.length 0 .zero (by omega) (fun _ _ _ _ => Nat.zero_le _)
  rw [List.drop_zero] at h1 h2
  unfold Re.isMatch
  rw [e, Option.isSome_map]
  cases hs : search rx b.length 0 b with
  | none => exact ⟨fun h => (by cases h), fun ⟨i, j, g1, g2⟩ => absurd g2 (h1 hs i j g1)⟩
  | some caps =>
    obtain ⟨i, j, c, q, hf, -⟩ := h2 _ hs
    exact ⟨fun _ => ⟨i, j, hf.start, hf.way.lang⟩, fun _ => rfl⟩

/-- What a group captured matches the inside of the group. -/
theorem Way.group {b : Bytes} {rx : Rx} {i j : Nat} {c : Caps} {p : List Bool} (h : Way b rx i j c p) {n lo hi : Nat} (hm : (n, lo, hi) ∈ c) :
    ∃ x, Rx.Group n x rx ∧ Lang b x lo hi ∧ i ≤ lo ∧ hi ≤ j := by
  induction h with
  | empty | cls | bot | eot | stop => cases hm
  | cat w1 w2 h1 h2 =>
    have := w1.le; have := w2.le
    rcases List.mem_append.mp hm with h | h
    · obtain ⟨x, g1, g2, g3, g4⟩ := h2 h; exact ⟨x, .catR g1, g2, by omega, g4⟩
    · obtain ⟨x, g1, g2, g3, g4⟩ := h1 h; exact ⟨x, .catL g1, g2, g3, by omega⟩
  | altL _ h => obtain ⟨x, g1, g2⟩ := h hm; exact ⟨x, .altL g1, g2⟩
  | altR _ h => obtain ⟨x, g1, g2⟩ := h hm; exact ⟨x, .altR g1, g2⟩
  | more w1 _ w2 h1 h2 =>
    have := w1.le; have := w2.le
    rcases List.mem_append.mp hm with h | h
    · obtain ⟨x, g1, g2, g3, g4⟩ := h2 h; exact ⟨x, g1, g2, by omega, g4⟩
    · obtain ⟨x, g1, g2, g3, g4⟩ := h1 h; exact ⟨x, .star g1, g2, g3, by omega⟩
  | cap w h =>
    rcases List.mem_cons.mp hm with e | hm
    · cases e; exact ⟨_, .here, w.lang, Nat.le_refl _, Nat.le_refl _⟩
    · obtain ⟨x, g1, g2⟩ := h hm; exact ⟨x, .cap g1, g2⟩

theorem compile_found {p b : Bytes} {m : List Int} (h : (compile p).find b = some m) :
    ∃ rx i j c q, parse p = some rx ∧ Found b rx i j c q ∧ m = vector ((0, i, j) :: c) (groups p) := by
  obtain ⟨rx, caps, h1, h2, rfl⟩ := compile_find h
  obtain ⟨-, h3⟩ := search_found (b := b) (rx := rx) b.length 0 .zero (by omega) (fun _ _ _ _ => Nat.zero_le _)
  rw [List.drop_zero] at h3
  obtain ⟨i, j, c, q, g1, rfl⟩ := h3 _ h2
  exact ⟨rx, i, j, c, q, h1, g1, rfl⟩

theorem captured {p b : Bytes} {rx : Rx} (hp : parse p = some rx) {n : Nat} (hn : 1 ≤ n) {t : Bytes} (h : Captures (compile p) b n t) :
    ∃ x lo hi, Rx.Group n x rx ∧ Lang b x lo hi ∧ hi ≤ b.length ∧ lo ≤ hi ∧ t = (b.drop lo).take (hi - lo) := by
  obtain ⟨m, a, z, hf, hb, h1, h2⟩ := h
  obtain ⟨rx', i, j, c, q, hp', hF, rfl⟩ := compile_found hf
  rw [hp] at hp'
  cases hp'
  have hg : n ≤ groups p := by
    refine Classical.byContradiction fun hlt => ?_
    rw [List.getElem?_eq_none (by rw [vector_length]; omega)] at h1
    cases h1
  have g0 := vector_get ((0, i, j) :: c) (groups p) n hg 0 (by omega)
  have g1 := vector_get ((0, i, j) :: c) (groups p) n hg 1 (by omega)
  rw [Nat.add_zero, h1] at g0
  rw [h2] at g1
  unfold vector.group at g0 g1
  cases hl : ((0, i, j) :: c).lookup n with
  | none =>
    rw [hl] at g0
    simp only [List.getElem?_cons_zero, Option.some.injEq] at g0
    omega
  | some v =>
    obtain ⟨lo, hi⟩ := v
    rw [hl] at g0 g1
    simp only [List.getElem?_cons_zero, List.getElem?_cons_succ, Option.some.injEq] at g0 g1
    have hm : (n, lo, hi) ∈ c := by
      rcases List.mem_cons.mp (lookup_mem hl) with e | h
      · cases e; omega
      · exact h
    obtain ⟨x, k1, k2, k3, k4⟩ := hF.way.group hm
    have hle := hF.way.le.2 hF.start.le
    refine ⟨x, lo, hi, k1, k2, by omega, by omega, ?_⟩
    have e1 : lo = a.length := by omega
    have e2 : hi = a.length + t.length := by omega
    subst e1 e2
    rw [hb, List.append_assoc, List.drop_left, show a.length + t.length - a.length = t.length by omega, List.take_left]

/-! ### Runes and bytes -/

theorem utf8_small {r : Nat} (h : r < 0x80) : utf8 r = [UInt8.ofNat r] := by rw [utf8, if_pos h]

theorem runesOf_head {p : Bytes} {r : Nat} {l : List Nat} (h : runesOf p = r :: l) (hr : r < 0x80) : ∃ p', p = UInt8.ofNat r :: p' ∧ l = runesOf p' := by
  rcases p with _ | ⟨a, p⟩
  · cases h
  · have hd := decode_cases a p
    rw [runesOf_cons] at h
    obtain ⟨h1, h2⟩ := List.cons.inj h
    rcases hd with ⟨r', -, ⟨t, g2⟩, g3⟩ | g
    · rw [g3] at h1
      dsimp only at h1
      subst h1
      rw [utf8_small hr] at g2
      obtain ⟨rfl, rfl⟩ := List.cons.inj g2
      have e : (UInt8.ofNat r').toNat = r' := toNat_ofNat (by omega)
      refine ⟨[] ++ t, rfl, ?_⟩
      have := runesOf_ascii (a := UInt8.ofNat r') (by omega) ([] ++ t)
      rw [runesOf_cons] at this
      rw [← h2]
      exact (List.cons.inj this).2
    · rw [g] at h1
      dsimp only at h1
      omega

theorem mem_runesOf {r : Nat} (hr : r < 0x80) : ∀ {p : Bytes}, r ∈ runesOf p → UInt8.ofNat r ∈ p := by
  have : ∀ (n : Nat) (p : Bytes), p.length ≤ n → r ∈ runesOf p → UInt8.ofNat r ∈ p := by
    intro n
    induction n with
    | zero =>
      intro p hn h
      have : p = [] := List.eq_nil_of_length_eq_zero (by omega)
      subst this
      cases h
    | succ n ih =>
      intro p hn h
      rcases p with _ | ⟨a, p⟩
      · cases h
      · rw [runesOf_cons] at h
        rcases List.mem_cons.mp h with h' | h'
        · obtain ⟨p', e, -⟩ := runesOf_head (p := a :: p) (r := r) (l := _) (by rw [runesOf_cons, ← h']) hr
          rw [e]
          exact List.mem_cons_self
        · have hw := decodeRune_width a p
          have := ih _ (by rw [List.length_drop]; simp only [List.length_cons] at hn hw ⊢; omega) h'
          exact List.mem_of_mem_drop this
  exact fun {p} h => this _ p (Nat.le_refl _) h

/-! ### Sequences -/

theorem lang_cat {b : Bytes} {x y : Rx} {i k : Nat} : Lang b (.cat x y) i k ↔ ∃ j, Lang b x i j ∧ Lang b y j k :=
  ⟨fun h => by cases h with | cat h1 h2 => exact ⟨_, h1, h2⟩, fun ⟨_, h1, h2⟩ => .cat h1 h2⟩

theorem lang_alt {b : Bytes} {x y : Rx} {i k : Nat} : Lang b (.alt x y) i k ↔ Lang b x i k ∨ Lang b y i k :=
  ⟨fun h => by cases h with | altL h => exact .inl h | altR h => exact .inr h, fun h => h.elim .altL .altR⟩

theorem lang_cons {b : Bytes} {x : Rx} {l : List Rx} {i k : Nat} : Lang b (catAll (x :: l)) i k ↔ ∃ j, Lang b x i j ∧ Lang b (catAll l) j k := by
  cases l with
  | nil => exact ⟨fun h => ⟨k, h, .empty⟩, fun ⟨j, h1, h2⟩ => by cases h2; exact h1⟩
  | cons y l => exact lang_cat

theorem lang_append {b : Bytes} {l l' : List Rx} {i k : Nat} : Lang b (catAll (l ++ l')) i k ↔ ∃ j, Lang b (catAll l) i j ∧ Lang b (catAll l') j k := by
  induction l generalizing i with
  | nil => exact ⟨fun h => ⟨i, .empty, h⟩, fun ⟨j, h1, h2⟩ => by cases h1; exact h2⟩
  | cons x l ih =>
    rw [List.cons_append, lang_cons]
    constructor
    · rintro ⟨j, h1, h2⟩
      obtain ⟨j', h3, h4⟩ := ih.mp h2
      exact ⟨j', lang_cons.mpr ⟨j, h1, h3⟩, h4⟩
    · rintro ⟨j', h1, h2⟩
      obtain ⟨j, h3, h4⟩ := lang_cons.mp h1
      exact ⟨j, h3, ih.mpr ⟨j', h4, h2⟩⟩

theorem Lang.boundary {b : Bytes} {rx : Rx} {i j : Nat} (h : Lang b rx i j) (hi : Boundary b i) : Boundary b j := by
  induction h with
  | empty | bot | eot | stop => exact hi
  | cls h _ => exact hi.next h
  | cat _ _ h1 h2 => exact h2 (h1 hi)
  | altL _ h | altR _ h | cap _ h => exact h hi
  | more _ _ h1 h2 => exact h2 (h1 hi)

/-! ### Patterns with something after them -/

theorem parse_plain {p : Bytes} (h : ∀ q, p ≠ ascii "(?i)" ++ q) : parse p = parseLoop false ((runesOf p).length + 1) 0 ⟨none, [], []⟩ [] (runesOf p) := by
  unfold parse
  change (match runesOf p with
    | 40 :: 63 :: 105 :: 41 :: rest => parseLoop true (rest.length + 1) 0 ⟨none, [], []⟩ [] rest
    | _ => parseLoop false ((runesOf p).length + 1) 0 ⟨none, [], []⟩ [] (runesOf p)) = _
  split
  · rename_i rest hr
    obtain ⟨p1, rfl, h1⟩ := runesOf_head hr (by omega)
    obtain ⟨p2, rfl, h2⟩ := runesOf_head h1.symm (by omega)
    obtain ⟨p3, rfl, h3⟩ := runesOf_head h2.symm (by omega)
    obtain ⟨p4, rfl, h4⟩ := runesOf_head h3.symm (by omega)
    exact absurd (by simp only [ascii]; rfl) (h p4)
  · rfl

/-- A pattern without alternatives is a sequence, to which what follows is added. -/
theorem parse_then {z : Nat} (hz : Stop z) {fold : Bool} {p : Bytes} {rx : Rx}
    (h : parseLoop fold ((runesOf p).length + 1) 0 ⟨none, [], []⟩ [] (runesOf p) = some rx) (hb : 124 ∉ p) :
    ∃ seq k n, rx = catAll seq.reverse ∧ k ≤ (runesOf p).length ∧ (40 ∉ p → n = 0) ∧ ∀ t m,
      parseLoop fold (m + 1 + k) 0 ⟨none, [], []⟩ [] (runesOf p ++ z :: t) = parseLoop fold (m + 1) n ⟨none, [], seq⟩ [] (z :: t) := by
  obtain ⟨k, n', f', hk, h1, h2, h3, h4, h5⟩ := parseLoop_stop hz h
  have ha : f'.alts = [] := h2 (fun hm => hb (mem_runesOf (r := 124) (by omega) hm)) (by
    intro g hg
    rcases List.mem_singleton.mp hg with rfl
    rfl)
  have hc : f'.cap = none := h4
  obtain ⟨c, a, seq⟩ := f'
  cases ha
  cases hc
  exact ⟨seq, k, n', h1, by omega, fun h => h3 fun hm => h (mem_runesOf (r := 40) (by omega) hm), fun t m => h5 [] t m⟩

/-- One or more of something other than a lower-case letter or a digit. -/
def gapRx : Rx := .cat (.cls false true [(48, 57), (97, 122)]) (.star true (.cls false true [(48, 57), (97, 122)]))

theorem parse_gap {p : Bytes} {rx : Rx} (h : parse p = some rx) (hi : ∀ q, p ≠ ascii "(?i)" ++ q) (hb : 124 ∉ p) :
    ∃ l, rx = catAll l ∧ parse (p ++ ascii "[^a-z0-9]+") = some (catAll (l ++ [gapRx])) := by
  rw [parse_plain hi] at h
  have e : ascii "[^a-z0-9]+" = 91 :: ascii "^a-z0-9]+" := by decide +kernel
  have hi' : ∀ q, p ++ ascii "[^a-z0-9]+" ≠ ascii "(?i)" ++ q := by
    intro q hq
    have e' : ascii "(?i)" = [40, 63, 105, 41] := by decide +kernel
    rw [e'] at hq
    rcases p with _ | ⟨a, _ | ⟨b, _ | ⟨c, _ | ⟨d, p⟩⟩⟩⟩
    · rw [e] at hq; cases hq
    · rw [e] at hq; cases hq
    · rw [e] at hq; cases hq
    · rw [e] at hq; cases hq
    · simp only [List.cons_append, List.nil_append, List.cons.injEq] at hq
      obtain ⟨rfl, rfl, rfl, rfl, hq⟩ := hq
      exact hi p (by rw [e']; rfl)
  rw [parse_plain hi', e, runesOf_stop (by decide)]
  obtain ⟨seq, k, n, rfl, hk, -, hg⟩ := parse_then (z := 91) (.inr (.inl rfl)) h hb
  refine ⟨seq.reverse, rfl, ?_⟩
  have e2 : runesOf (ascii "^a-z0-9]+") = [94, 97, 45, 122, 48, 45, 57, 93, 43] := by decide +kernel
  rw [e2]
  obtain ⟨d, hd⟩ : ∃ d, (runesOf p ++ (91 : UInt8).toNat :: [94, 97, 45, 122, 48, 45, 57, 93, 43]).length + 1 = (d + 4) + 1 + k :=
    ⟨(runesOf p).length + 6 - k, by simp only [List.length_append, List.length_cons, List.length_nil]; omega⟩
  rw [hd]
  refine (hg _ _).trans ?_
  rw [← List.reverse_cons]
  rfl

def spaceRx : Rx := .cls true false [(9, 10), (12, 13), (32, 32)]

def digitRx : Rx := .cls true false [(48, 57)]

def plusRx (x : Rx) : Rx := .cat x (.star true x)

/-- The version an engine pattern captures. -/
def engineVersionRx : Rx := .cat (plusRx digitRx) (plusRx (.cat (.cls false false [(0, 9), (11, 0x10FFFF)]) (plusRx digitRx)))

def engineText : Bytes := ascii "\\s*[/\\s]\\s*(\\d+(?:.\\d+)+)"

/-! ### Word starts -/

theorem inRanges_fold {ranges : List (Nat × Nat)} {r : Nat} : InRanges true ranges r ↔ ∃ x ∈ folds r, ∃ lo hi, (lo, hi) ∈ ranges ∧ lo ≤ x ∧ x ≤ hi := by
  constructor
  · rintro ⟨x, rfl | ⟨-, h⟩, hx⟩
    · exact ⟨x, folds_self x, hx⟩
    · exact ⟨x, h, hx⟩
  · rintro ⟨x, h, hx⟩
    exact ⟨x, .inr ⟨rfl, h⟩, hx⟩

theorem mem_ite_elim {c P : Prop} [Decidable c] {x : Nat} {l l' : List Nat} (h : c → x ∈ l → P) (h' : ¬ c → x ∈ l' → P) : (x ∈ if c then l else l') → P := by
  by_cases hc : c
  · rw [if_pos hc]; exact h hc
  · rw [if_neg hc]; exact h' hc

theorem mem_folds {r x : Nat} : x ∈ folds r → (x = r ∨ (65 ≤ r ∧ r ≤ 90 ∧ (x = r + 32 ∨ r = 75 ∧ x = 0x212A ∨ r = 83 ∧ x = 0x17F)) ∨
    (97 ≤ r ∧ r ≤ 122 ∧ (x = r - 32 ∨ r = 107 ∧ x = 0x212A ∨ r = 115 ∧ x = 0x17F)) ∨ (r = 0x17F ∧ (x = 83 ∨ x = 115)) ∨ (r = 0x212A ∧ (x = 75 ∨ x = 107)) ∨
    (0xC0 ≤ r ∧ 0xC0 ≤ x)) := by
  unfold folds
  repeat' refine mem_ite_elim (fun _ => ?_) (fun _ => ?_)
  all_goals
    simp only [List.mem_cons, List.not_mem_nil, or_false]
  all_goals
    intro hx
    first
    | exact .inl hx
    | (rcases hx with hx | hx | hx
       all_goals first
         | exact .inl hx
         | exact .inl (by omega)
         | exact .inr (.inl (by omega))
         | exact .inr (.inr (.inl (by omega)))
         | exact .inr (.inr (.inr (.inl (by omega))))
         | exact .inr (.inr (.inr (.inr (.inl (by omega))))))
    | exact .inr (.inr (.inr (.inr (.inr (by omega)))))

theorem word_folds {r : Nat} : (∃ x ∈ folds r, x = 45 ∨ (48 ≤ x ∧ x ≤ 57) ∨ (65 ≤ x ∧ x ≤ 90)) ↔ WordRune r := by
  unfold WordRune
  constructor
  · rintro ⟨x, hx, h⟩
    have := mem_folds hx
    omega
  · rintro (h | h | h | h | rfl | rfl)
    · exact ⟨r, folds_self r, by omega⟩
    · exact ⟨r, folds_self r, by omega⟩
    · exact ⟨r, folds_self r, by omega⟩
    · refine ⟨r - 32, ?_, by omega⟩
      unfold folds
      rw [if_neg (by omega), if_neg (by omega), if_neg (by omega), if_pos (by omega)]
      repeat' refine mem_ite (fun h => ?_) (fun _ => ?_)
      · subst h; decide
      · subst h; decide
      · exact List.mem_cons_of_mem _ List.mem_cons_self
    · exact ⟨83, by decide, by omega⟩
    · exact ⟨75, by decide, by omega⟩

theorem under_folds {r : Nat} : 95 ∈ folds r ↔ r = 95 := by
  constructor
  · intro h
    have := mem_folds h
    omega
  · rintro rfl
    exact folds_self _

theorem wordClass_iff {r : Nat} : InRanges true [(45, 45), (48, 57), (65, 90)] r ↔ WordRune r := by
  rw [inRanges_fold, ← word_folds]
  simp only [List.mem_cons, List.not_mem_nil, or_false, Prod.mk.injEq]
  constructor
  · rintro ⟨x, h, lo, hi, h' | h' | h', h1, h2⟩ <;> exact ⟨x, h, by omega⟩
  · rintro ⟨x, h, h' | h' | h'⟩
    · exact ⟨x, h, 45, 45, by omega, by omega, by omega⟩
    · exact ⟨x, h, 48, 57, by omega, by omega, by omega⟩
    · exact ⟨x, h, 65, 90, by omega, by omega, by omega⟩

theorem single_iff {c r : Nat} : InRanges true [(c, c)] r ↔ c ∈ folds r := by
  rw [inRanges_fold]
  simp only [List.mem_cons, List.not_mem_nil, or_false, Prod.mk.injEq]
  constructor
  · rintro ⟨x, h, lo, hi, h', h1, h2⟩
    rwa [show c = x by omega]
  · intro h
    exact ⟨c, h, c, c, by omega, by omega, by omega⟩

theorem wordClass_under_iff {r : Nat} : InRanges true [(95, 95), (45, 45), (48, 57), (65, 90)] r ↔ r = 95 ∨ WordRune r := by
  rw [← wordClass_iff, ← under_folds, ← single_iff, inRanges_fold, inRanges_fold, inRanges_fold]
  constructor
  · rintro ⟨x, h, lo, hi, h', h1⟩
    rcases List.mem_cons.mp h' with e | h'
    · exact .inl ⟨x, h, lo, hi, by rw [e]; exact List.mem_cons_self, h1⟩
    · exact .inr ⟨x, h, lo, hi, h', h1⟩
  · rintro (⟨x, h, lo, hi, h', h1⟩ | ⟨x, h, lo, hi, h', h1⟩)
    · exact ⟨x, h, lo, hi, by rw [List.mem_singleton.mp h']; exact List.mem_cons_self, h1⟩
    · exact ⟨x, h, lo, hi, List.mem_cons_of_mem _ h', h1⟩

theorem runeAt_ascii {b : Bytes} {i r w : Nat} (hr : r < 0x80) : RuneAt b i r w ↔ b[i]? = some (UInt8.ofNat r) ∧ w = 1 := by
  constructor
  · rintro ⟨hi, ⟨-, h2, h3⟩ | ⟨-, h2, -⟩⟩
    · rw [utf8_small hr] at h2 h3
      obtain ⟨t, ht⟩ := h2
      refine ⟨?_, h3⟩
      have : (b.drop i)[0]? = some (UInt8.ofNat r) := by rw [← ht]; rfl
      rwa [List.getElem?_drop, Nat.add_zero] at this
    · omega
  · rintro ⟨h, rfl⟩
    obtain ⟨hi, h⟩ := List.getElem?_eq_some_iff.mp h
    refine ⟨hi, .inl ⟨.inl (by omega), ?_, by rw [utf8_small hr]; rfl⟩⟩
    rw [utf8_small hr, ← h]
    exact ⟨b.drop (i + 1), by rw [List.drop_eq_getElem_cons hi]; rfl⟩

theorem lang_cls {b : Bytes} {f n : Bool} {l : List (Nat × Nat)} {i j : Nat} :
    Lang b (.cls f n l) i j ↔ ∃ r w, RuneAt b i r w ∧ (InRanges f l r ↔ n = false) ∧ i + w = j :=
  ⟨fun h => by cases h with | cls h1 h2 => exact ⟨_, _, h1, h2, rfl⟩, fun ⟨_, _, h1, h2, h3⟩ => h3 ▸ .cls h1 h2⟩

theorem lang_lit {b : Bytes} {l : List Nat} {i j : Nat} : Lang b (catAll (l.map fun c => .cls true false [(c, c)])) i j ↔ Spells b l i j := by
  induction l generalizing i with
  | nil => exact ⟨fun h => by cases h; exact .nil, fun h => by cases h; exact .empty⟩
  | cons c l ih =>
    rw [List.map_cons, lang_cons]
    constructor
    · rintro ⟨k, h1, h2⟩
      obtain ⟨r, w, g1, g2, rfl⟩ := lang_cls.mp h1
      exact .cons g1 (single_iff.mp (g2.mpr rfl)) (ih.mp h2)
    · intro h
      cases h with
      | cons h1 h2 h3 => exact ⟨_, .cls h1 (iff_of_true (single_iff.mpr h2) rfl), ih.mpr h3⟩

theorem lang_lit' {b : Bytes} {s : String} {i j : Nat} : Lang b (lit s) i j ↔ Spells b ((ascii s).map UInt8.toNat) i j := by
  rw [← lang_lit, List.map_map]
  rfl

theorem word_iff {b : Bytes} {i : Nat} : (∃ k, Boundary b k ∧ Lang b wordRx k i) ↔ WordStart b i := by
  have ew : ∀ r, (InRanges true [(45, 45), (48, 57), (65, 90)] r ↔ true = false) ↔ ¬ WordRune r := by
    intro r; rw [wordClass_iff]; exact ⟨fun h g => Bool.noConfusion (h.mp g), fun h => iff_of_false h (fun g => Bool.noConfusion g)⟩
  have eu : ∀ r, (InRanges true [(95, 95), (45, 45), (48, 57), (65, 90)] r ↔ true = false) ↔ ¬ WordRune r ∧ r ≠ 95 := by
    intro r; rw [wordClass_under_iff]
    exact ⟨fun h => ⟨fun g => Bool.noConfusion (h.mp (.inr g)), fun g => Bool.noConfusion (h.mp (.inl g))⟩,
      fun h => iff_of_false (fun g => g.elim h.2 h.1) (fun g => Bool.noConfusion g)⟩
  have e5 : ∀ k j, Lang b (lit "_") k j ↔ b[k]? = some 95 ∧ k + 1 = j := by
    intro k j
    show Lang b (.cls true false [(95, 95)]) k j ↔ _
    rw [lang_cls]
    constructor
    · rintro ⟨r, w, h1, h2, rfl⟩
      have := under_folds.mp (single_iff.mp (h2.mpr rfl))
      subst this
      obtain ⟨h3, rfl⟩ := (runeAt_ascii (by omega)).mp h1
      exact ⟨h3, rfl⟩
    · rintro ⟨h1, rfl⟩
      exact ⟨95, 1, (runeAt_ascii (by omega)).mpr ⟨h1, rfl⟩, iff_of_true (single_iff.mpr (under_folds.mpr rfl)) rfl, rfl⟩
  have e : ∀ k, Lang b wordRx k i ↔ (Lang b .bot k i ∨ Lang b (wordClass true) k i ∨ Lang b (.cat (wordClass false) (lit "_")) k i ∨
      Lang b (lit "sprd-") k i ∨ Lang b (lit "MZ-") k i) := by
    intro k
    show Lang b (.alt _ (.alt _ (.alt _ (.alt _ _)))) k i ↔ _
    rw [lang_alt, lang_alt, lang_alt, lang_alt]
    rfl
  simp only [e]
  constructor
  · rintro ⟨k, hk, h | h | h | h | h⟩
    · cases h; exact .inl rfl
    · obtain ⟨r, w, h1, h2, h3⟩ := lang_cls.mp h
      obtain ⟨h4, h5⟩ := (eu r).mp h2
      exact .inr (.inl ⟨k, r, w, hk, h1, h4, h5, h3⟩)
    · obtain ⟨j, h1, h2⟩ := lang_cat.mp h
      obtain ⟨r, w, h3, h4, rfl⟩ := lang_cls.mp h1
      obtain ⟨h5, h6⟩ := (e5 _ _).mp h2
      exact .inr (.inr (.inl ⟨k, r, w, hk, h3, (ew r).mp h4, h5, h6⟩))
    · exact .inr (.inr (.inr ⟨k, hk, .inl (lang_lit'.mp h)⟩))
    · exact .inr (.inr (.inr ⟨k, hk, .inr (lang_lit'.mp h)⟩))
  · rintro (rfl | ⟨k, r, w, hk, h1, h4, h5, h3⟩ | ⟨k, r, w, hk, h3, h4, h5, h6⟩ | ⟨k, hk, h | h⟩)
    · exact ⟨0, .zero, .inl .bot⟩
    · exact ⟨k, hk, .inr (.inl (lang_cls.mpr ⟨r, w, h1, (eu r).mpr ⟨h4, h5⟩, h3⟩))⟩
    · exact ⟨k, hk, .inr (.inr (.inl (lang_cat.mpr ⟨k + w, lang_cls.mpr ⟨r, w, h3, (ew r).mpr h4, rfl⟩, (e5 _ _).mpr ⟨h5, h6⟩⟩)))⟩
    · exact ⟨k, hk, .inr (.inr (.inr (.inl (lang_lit'.mpr h))))⟩
    · exact ⟨k, hk, .inr (.inr (.inr (.inr (lang_lit'.mpr h))))⟩

theorem WordStart.boundary {b : Bytes} {i : Nat} (h : WordStart b i) : Boundary b i := by
  obtain ⟨k, h1, h2⟩ := word_iff.mpr h
  exact h2.boundary h1

end Verif.Regexp
