import Verif.Spec.CliFlags
/-
Lemmas for C90: the reader of numbers accepts integer literals and nothing else.
-/
namespace Verif.Cli

instance (c : UInt8) (d : Nat) : Decidable (DigitOf c d) := by unfold DigitOf; infer_instance

theorem digit_table : ∀ n : Fin 256, ∀ d ∈ digitVal (UInt8.ofNat n.val), DigitOf (UInt8.ofNat n.val) d := by decide +kernel

theorem digit_back : (∀ d : Fin 10, digitVal (UInt8.ofNat (48 + d.val)) = some d.val) ∧
    ∀ d : Fin 36, 10 ≤ d.val → digitVal (UInt8.ofNat (87 + d.val)) = some d.val ∧ digitVal (UInt8.ofNat (55 + d.val)) = some d.val := by decide +kernel

theorem digit_iff {c : UInt8} {d : Nat} : digitVal c = some d ↔ DigitOf c d := by
  constructor
  · intro h
    have := digit_table ⟨c.toNat, c.toNat_lt⟩
    simp only [UInt8.ofNat_toNat] at this
    exact this d h
  · rintro (⟨h1, rfl⟩ | ⟨h1, h2, rfl | rfl⟩)
    · exact digit_back.1 ⟨d, h1⟩
    · exact (digit_back.2 ⟨d, h2⟩ h1).1
    · exact (digit_back.2 ⟨d, h2⟩ h1).2

/-- What the loop over underscores takes for a digit. -/
def seen (hex : Bool) (c : UInt8) : Prop := isDigit c = true ∨ hex = true ∧ 97 ≤ lowerC c ∧ lowerC c ≤ 102

instance (hex : Bool) (c : UInt8) : Decidable (seen hex c) := by unfold seen; infer_instance

theorem seen_table : ∀ n : Fin 256, ∀ d ∈ digitVal (UInt8.ofNat n.val), (UInt8.ofNat n.val ≠ 95 ∧ (d < 10 → seen false (UInt8.ofNat n.val) ∧ seen true (UInt8.ofNat n.val)) ∧ (d < 16 → seen true (UInt8.ofNat n.val))) := by decide +kernel

/-- The bases and whether letters count. -/
def Fits (base : Nat) (hex : Bool) : Prop := base ≤ 10 ∨ base ≤ 16 ∧ hex = true

theorem seen_digit {base : Nat} {hex : Bool} (hf : Fits base hex) {c : UInt8} {d : Nat} (h : digitVal c = some d) (hd : d < base) : c ≠ 95 ∧ seen hex c := by
  have := seen_table ⟨c.toNat, c.toNat_lt⟩
  simp only [UInt8.ofNat_toNat] at this
  have this := this d h
  refine ⟨this.1, ?_⟩
  rcases hf with hf | ⟨hf, rfl⟩
  · cases hex
    · exact (this.2.1 (by omega)).1
    · exact (this.2.1 (by omega)).2
  · exact this.2.2 (by omega)

theorem under_seen {hex : Bool} {st : Saw} {c : UInt8} {r : Bytes} (h : seen hex c) : underLoop hex st (c :: r) = underLoop hex .digit r := by
  conv => lhs; unfold underLoop
  exact if_pos h

theorem under_95 {hex : Bool} {st : Saw} {r : Bytes} : underLoop hex st (95 :: r) = if st = .digit then underLoop hex .under r else false := by
  conv => lhs; unfold underLoop
  rw [if_neg (by cases hex <;> decide), if_pos rfl]

theorem val_95 {base n : Nat} {r : Bytes} : digitsVal base n (95 :: r) = digitsVal base n r := by
  conv => lhs; unfold digitsVal
  exact if_pos rfl

theorem val_cons {base n : Nat} {c : UInt8} {r : Bytes} (h : c ≠ 95) {d : Nat} (hd : digitVal c = some d) (hb : d < base) :
    digitsVal base n (c :: r) = digitsVal base (n * base + d) r := by
  conv => lhs; unfold digitsVal
  rw [if_neg h, hd]
  exact if_pos hb

theorem val_some {base n m : Nat} {c : UInt8} {r : Bytes} (h : c ≠ 95) (hv : digitsVal base n (c :: r) = some m) : ∃ d, digitVal c = some d ∧ d < base := by
  unfold digitsVal at hv
  rw [if_neg h] at hv
  cases hd : digitVal c with
  | none => rw [hd] at hv; cases hv
  | some d =>
    rw [hd] at hv
    simp only at hv
    split at hv
    · next hb => exact ⟨d, rfl, hb⟩
    · cases hv

theorem digits_read {base : Nat} {hex : Bool} (hf : Fits base hex) {s : Bytes} {ds : List Nat} (h : Digits base s ds) :
    (∀ n, digitsVal base n s = some (ds.foldl (fun n d => n * base + d) n)) ∧ ∀ st, underLoop hex st s = true := by
  induction h with
  | one h hb =>
    have h := digit_iff.mpr h
    obtain ⟨h1, h2⟩ := seen_digit hf h hb
    exact ⟨fun n => by rw [val_cons h1 h hb]; rfl, fun st => by rw [under_seen h2]; rfl⟩
  | next h hb _ ih =>
    have h := digit_iff.mpr h
    obtain ⟨h1, h2⟩ := seen_digit hf h hb
    exact ⟨fun n => by rw [val_cons h1 h hb, ih.1]; rfl, fun st => by rw [under_seen h2, ih.2]⟩
  | under h hb _ ih =>
    have h := digit_iff.mpr h
    obtain ⟨h1, h2⟩ := seen_digit hf h hb
    exact ⟨fun n => by rw [val_cons h1 h hb, val_95, ih.1]; rfl, fun st => by rw [under_seen h2, under_95, if_pos rfl, ih.2]⟩

theorem digits_ne {base : Nat} {s : Bytes} {ds : List Nat} (h : Digits base s ds) : s ≠ [] := by cases h <;> simp

/-- Back: after a digit, and otherwise. -/
theorem read_digits {base : Nat} {hex : Bool} (hf : Fits base hex) : ∀ (s : Bytes) {n m : Nat}, digitsVal base n s = some m →
    (underLoop hex .digit s = true → s = [] ∧ m = n ∨ (∃ ds, Digits base s ds ∧ m = ds.foldl (fun n d => n * base + d) n) ∨
      ∃ s' ds, s = 95 :: s' ∧ Digits base s' ds ∧ m = ds.foldl (fun n d => n * base + d) n) ∧
    ((underLoop hex .under s = true ∨ s ≠ [] ∧ underLoop hex .start s = true) → ∃ ds, Digits base s ds ∧ m = ds.foldl (fun n d => n * base + d) n) := by
  intro s
  induction s with
  | nil =>
    intro n m h
    cases h
    exact ⟨fun _ => .inl ⟨rfl, rfl⟩, fun h => by rcases h with h | h; exact absurd h (by cases hex <;> decide); exact absurd rfl h.1⟩
  | cons c s ih =>
    intro n m h
    by_cases hc : c = 95
    · subst hc
      rw [val_95] at h
      obtain ⟨-, ih2⟩ := ih h
      refine ⟨fun hu => ?_, fun hu => ?_⟩
      · rw [under_95, if_pos rfl] at hu
        obtain ⟨ds, h1, h2⟩ := ih2 (.inl hu)
        exact .inr (.inr ⟨s, ds, rfl, h1, h2⟩)
      · rcases hu with hu | ⟨-, hu⟩
        · rw [under_95, if_neg (by decide)] at hu; cases hu
        · rw [under_95, if_neg (by decide)] at hu; cases hu
    · obtain ⟨d, hd, hb⟩ := val_some hc h
      rw [val_cons hc hd hb] at h
      obtain ⟨ih1, -⟩ := ih h
      have key : underLoop hex .digit s = true → ∃ ds, Digits base (c :: s) ds ∧ m = ds.foldl (fun n d => n * base + d) n := by
        intro hu
        rcases ih1 hu with ⟨rfl, rfl⟩ | ⟨ds, h1, h2⟩ | ⟨s', ds, rfl, h1, h2⟩
        · exact ⟨[d], .one (digit_iff.mp hd) hb, rfl⟩
        · exact ⟨d :: ds, .next (digit_iff.mp hd) hb h1, h2⟩
        · exact ⟨d :: ds, .under (digit_iff.mp hd) hb h1, h2⟩
      have hs := (seen_digit hf hd hb).2
      refine ⟨fun hu => .inr (.inl (key (by rwa [under_seen hs] at hu))), fun hu => key ?_⟩
      rcases hu with hu | ⟨-, hu⟩
      · rwa [under_seen hs] at hu
      · rwa [under_seen hs] at hu

theorem under_free {base : Nat} {hex : Bool} (hf : Fits base hex) : ∀ (s : Bytes) {n m : Nat}, digitsVal base n s = some m → (95 : UInt8) ∉ s →
    ∀ st, (st ≠ .under ∨ s ≠ []) → underLoop hex st s = true := by
  intro s
  induction s with
  | nil =>
    intro n m _ _ st h
    rcases h with h | h
    · unfold underLoop; exact decide_eq_true h
    · exact absurd rfl h
  | cons c s ih =>
    intro n m h hn st _
    have hc : c ≠ 95 := fun h => hn (h ▸ .head _)
    obtain ⟨d, hd, hb⟩ := val_some hc h
    rw [val_cons hc hd hb] at h
    rw [under_seen (seen_digit hf hd hb).2]
    exact ih h (fun h => hn (.tail _ h)) _ (.inl (by decide))

/-- The part of the reader after the sign. -/
def unsigned (r : Bytes) : Option Nat :=
  if r = [] then none
  else
    match digitsVal (splitBase r).1 0 (splitBase r).2 with
    | none => none
    | some n => if 95 ∈ (splitBase r).2 ∧ underscoreOK r = false then none else some n

theorem parse_unsigned (s : Bytes) : parseInt s = (unsigned (splitSign s).2).bind fun n =>
    if (splitSign s).1 = true then (if n ≤ 2 ^ 63 then some (-(n : Int)) else none) else (if n < 2 ^ 63 then some (n : Int) else none) := by
  unfold parseInt unsigned
  simp only
  by_cases h : (splitSign s).2 = []
  · rw [if_pos h, if_pos h]; rfl
  rw [if_neg h, if_neg h]
  cases digitsVal (splitBase (splitSign s).2).1 0 (splitBase (splitSign s).2).2 with
  | none => rfl
  | some n =>
    simp only
    by_cases h : 95 ∈ (splitBase (splitSign s).2).2 ∧ underscoreOK (splitSign s).2 = false
    · rw [if_pos h, if_pos h]; rfl
    · rw [if_neg h, if_neg h]; rfl

/-- Reading a part with a base, after a prefix or at the start. -/
theorem unsigned_some {r : Bytes} {m : Nat} : unsigned r = some m ↔
    r ≠ [] ∧ digitsVal (splitBase r).1 0 (splitBase r).2 = some m ∧ (95 ∈ (splitBase r).2 → underscoreOK r = true) := by
  unfold unsigned
  constructor
  · intro h
    split at h
    · cases h
    next hr =>
    split at h
    · cases h
    next n hn =>
    split at h
    · cases h
    next hu =>
    cases h
    refine ⟨hr, hn, fun h => ?_⟩
    cases hk : underscoreOK r with
    | true => rfl
    | false => exact absurd ⟨h, hk⟩ hu
  · rintro ⟨h1, h2, h3⟩
    rw [if_neg h1, h2]
    exact if_neg fun h => by rw [h3 h.1] at h; cases h.2

theorem after_prefix {base : Nat} {hex : Bool} (hf : Fits base hex) {r : Bytes} (hr : r ≠ []) {m : Nat} (hv : digitsVal base 0 r = some m)
    (hu : 95 ∈ r → underLoop hex .digit r = true) :
    (∃ ds, Digits base r ds ∧ m = valueOf base ds) ∨ ∃ s ds, r = 95 :: s ∧ Digits base s ds ∧ m = valueOf base ds := by
  have hu : underLoop hex .digit r = true := by
    by_cases h : (95 : UInt8) ∈ r
    · exact hu h
    · exact under_free hf r hv h _ (.inl (by decide))
  rcases (read_digits hf r hv).1 hu with ⟨h, -⟩ | h | h
  · exact absurd h hr
  · exact .inl h
  · exact .inr h

theorem lower_table : ∀ n : Fin 256,
    (lowerC (UInt8.ofNat n.val) = 98 → UInt8.ofNat n.val = 98 ∨ UInt8.ofNat n.val = 66) ∧
    (lowerC (UInt8.ofNat n.val) = 111 → UInt8.ofNat n.val = 111 ∨ UInt8.ofNat n.val = 79) ∧
    (lowerC (UInt8.ofNat n.val) = 120 → UInt8.ofNat n.val = 120 ∨ UInt8.ofNat n.val = 88) ∧
    (lowerC (UInt8.ofNat n.val) = 98 ∨ lowerC (UInt8.ofNat n.val) = 111 ∨ lowerC (UInt8.ofNat n.val) = 120 →
      UInt8.ofNat n.val ≠ 95 ∧ ∀ d ∈ digitVal (UInt8.ofNat n.val), 8 ≤ d) := by decide +kernel

theorem lower_spec (c : UInt8) : (lowerC c = 98 → c = 98 ∨ c = 66) ∧ (lowerC c = 111 → c = 111 ∨ c = 79) ∧ (lowerC c = 120 → c = 120 ∨ c = 88) ∧
    (lowerC c = 98 ∨ lowerC c = 111 ∨ lowerC c = 120 → c ≠ 95 ∧ ∀ d ∈ digitVal c, 8 ≤ d) := by
  have := lower_table ⟨c.toNat, c.toNat_lt⟩
  simp only [UInt8.ofNat_toNat] at this
  exact this

theorem literal_of {r : Bytes} {m : Nat} (h : unsigned r = some m) : Literal r m := by
  obtain ⟨hr, hv, hu⟩ := unsigned_some.mp h
  rcases r with _ | ⟨c, r⟩
  · exact absurd rfl hr
  by_cases hc : c = 48
  · subst hc
    rcases r with _ | ⟨c, r⟩
    · cases hv; exact .zero
    obtain ⟨l1, l2, l3, l4⟩ := lower_spec c
    unfold splitBase at hv hu
    unfold underscoreOK at hu
    simp only at hv hu
    by_cases h1 : r ≠ [] ∧ lowerC c = 98
    · rw [if_pos h1] at hv
      rw [if_pos h1, if_pos (.inl h1.2)] at hu
      rw [show decide (lowerC c = 120) = false by rw [h1.2]; rfl] at hu
      rcases after_prefix (base := 2) (.inl (by decide)) h1.1 hv hu with ⟨ds, k1, rfl⟩ | ⟨s, ds, rfl, k1, rfl⟩
      · rcases l1 h1.2 with rfl | rfl
        · exact .binary (p := "0b") (by decide) k1
        · exact .binary (p := "0B") (by decide) k1
      · rcases l1 h1.2 with rfl | rfl
        · exact .binary (p := "0b_") (by decide) k1
        · exact .binary (p := "0B_") (by decide) k1
    rw [if_neg h1] at hv hu
    by_cases h2 : r ≠ [] ∧ lowerC c = 111
    · rw [if_pos h2] at hv
      rw [if_pos h2, if_pos (.inr (.inl h2.2))] at hu
      rw [show decide (lowerC c = 120) = false by rw [h2.2]; rfl] at hu
      rcases after_prefix (base := 8) (.inl (by decide)) h2.1 hv hu with ⟨ds, k1, rfl⟩ | ⟨s, ds, rfl, k1, rfl⟩
      · rcases l2 h2.2 with rfl | rfl
        · exact .octal (p := "0o") (by decide) k1
        · exact .octal (p := "0O") (by decide) k1
      · rcases l2 h2.2 with rfl | rfl
        · exact .octal (p := "0o_") (by decide) k1
        · exact .octal (p := "0O_") (by decide) k1
    rw [if_neg h2] at hv hu
    by_cases h3 : r ≠ [] ∧ lowerC c = 120
    · rw [if_pos h3] at hv
      rw [if_pos h3, if_pos (.inr (.inr h3.2))] at hu
      rw [show decide (lowerC c = 120) = true by rw [h3.2]; rfl] at hu
      rcases after_prefix (base := 16) (.inr ⟨by decide, rfl⟩) h3.1 hv hu with ⟨ds, k1, rfl⟩ | ⟨s, ds, rfl, k1, rfl⟩
      · rcases l3 h3.2 with rfl | rfl
        · exact .hex (p := "0x") (by decide) k1
        · exact .hex (p := "0X") (by decide) k1
      · rcases l3 h3.2 with rfl | rfl
        · exact .hex (p := "0x_") (by decide) k1
        · exact .hex (p := "0X_") (by decide) k1
    rw [if_neg h3] at hv hu
    simp only at hv hu
    have hno : ¬ (lowerC c = 98 ∨ lowerC c = 111 ∨ lowerC c = 120) := by
      intro hl
      have : r = [] := by
        refine Classical.byContradiction fun hr => ?_
        rcases hl with h | h | h
        · exact h1 ⟨hr, h⟩
        · exact h2 ⟨hr, h⟩
        · exact h3 ⟨hr, h⟩
      obtain ⟨k1, k2⟩ := l4 hl
      obtain ⟨d, k3, k4⟩ := val_some k1 hv
      have := k2 d k3
      omega
    rw [if_neg hno, under_seen (.inl (by decide))] at hu
    rcases after_prefix (.inl (by decide)) (by simp) hv hu with ⟨ds, k1, rfl⟩ | ⟨s, ds, e, k1, rfl⟩
    · exact .octal (p := "0") (by decide) k1
    · rw [e]; exact .octal (p := "0_") (by decide) k1
  · have hb : splitBase (c :: r) = (10, c :: r) := by
      unfold splitBase
      split
      · next h => injection h with h _; exact absurd h hc
      · next h => injection h with h _; exact absurd h hc
      · rfl
    have ho : underscoreOK (c :: r) = underLoop false .start (c :: r) := by
      unfold underscoreOK
      split
      · next h => injection h with h _; exact absurd h hc
      · rfl
    rw [hb] at hv hu
    rw [ho] at hu
    simp only at hv hu
    have hu : underLoop false .start (c :: r) = true := by
      by_cases h : (95 : UInt8) ∈ c :: r
      · exact hu h
      · exact under_free (.inl (Nat.le_refl 10)) _ hv h _ (.inl (by decide))
    obtain ⟨ds, k1, rfl⟩ := (read_digits (.inl (Nat.le_refl 10)) _ hv).2 (.inr ⟨by simp, hu⟩)
    exact .decimal k1 (by simpa using hc)

/-- The texts after the prefix. -/
theorem prefixed {base : Nat} {hex : Bool} (hf : Fits base hex) {s : Bytes} {ds : List Nat} (h : Digits base s ds) :
    (digitsVal base 0 s = some (valueOf base ds) ∧ underLoop hex .digit s = true) ∧ digitsVal base 0 (95 :: s) = some (valueOf base ds) ∧ underLoop hex .digit (95 :: s) = true := by
  obtain ⟨h1, h2⟩ := digits_read hf h
  refine ⟨⟨h1 0, h2 _⟩, by rw [val_95]; exact h1 0, ?_⟩
  rw [under_95, if_pos rfl, h2]

theorem base_letter {c : UInt8} {r : Bytes} (hr : r ≠ []) :
    (lowerC c = 98 → splitBase (48 :: c :: r) = (2, r) ∧ underscoreOK (48 :: c :: r) = underLoop false .digit r) ∧
    (lowerC c = 111 → splitBase (48 :: c :: r) = (8, r) ∧ underscoreOK (48 :: c :: r) = underLoop false .digit r) ∧
    (lowerC c = 120 → splitBase (48 :: c :: r) = (16, r) ∧ underscoreOK (48 :: c :: r) = underLoop true .digit r) := by
  refine ⟨fun h => ⟨?_, ?_⟩, fun h => ⟨?_, ?_⟩, fun h => ⟨?_, ?_⟩⟩ <;> simp [splitBase, underscoreOK, h, hr]

theorem base_zero {s : Bytes} {ds : List Nat} (h : Digits 8 s ds) {t : Bytes} (ht : t = s ∨ t = 95 :: s) :
    splitBase (48 :: t) = (8, t) ∧ underscoreOK (48 :: t) = underLoop false .digit t := by
  have hne : ∃ c r, t = c :: r ∧ ¬ (lowerC c = 98 ∨ lowerC c = 111 ∨ lowerC c = 120) := by
    rcases ht with rfl | rfl
    · rcases t with _ | ⟨c, r⟩
      · exact absurd rfl (digits_ne h)
      · refine ⟨c, r, rfl, fun hl => ?_⟩
        have hv := (digits_read (hex := false) (.inl (by decide)) h).1 0
        obtain ⟨k1, k2⟩ := (lower_spec c).2.2.2 hl
        obtain ⟨d, k3, k4⟩ := val_some k1 hv
        have := k2 d k3
        omega
    · exact ⟨95, s, rfl, by decide⟩
  obtain ⟨c, r, rfl, hno⟩ := hne
  obtain ⟨n1, n2⟩ := not_or.mp hno
  obtain ⟨n2, n3⟩ := not_or.mp n2
  constructor
  · simp [splitBase, n1, n2, n3]
  · unfold underscoreOK
    simp only
    rw [if_neg hno, under_seen (.inl (by decide))]

theorem letter_ok {base : Nat} {hex : Bool} {c : UInt8} {r : Bytes} {m : Nat}
    (h : splitBase (48 :: c :: r) = (base, r) ∧ underscoreOK (48 :: c :: r) = underLoop hex .digit r) (h2 : digitsVal base 0 r = some m ∧ underLoop hex .digit r = true) :
    unsigned (48 :: c :: r) = some m := by
  refine unsigned_some.mpr ⟨by simp, ?_⟩
  rw [h.1, h.2]
  exact ⟨h2.1, fun _ => h2.2⟩

theorem literal_head {s : Bytes} {n : Nat} (h : Literal s n) : s.head? ≠ some 45 ∧ s.head? ≠ some 43 := by
  cases h with
  | zero => decide
  | decimal h _ =>
    have key : ∀ {c d}, DigitOf c d → d < 10 → c ≠ 45 ∧ c ≠ 43 := by
      intro c d h hd
      rcases h with ⟨h, rfl⟩ | ⟨h, -⟩
      · revert d; decide
      · omega
    cases h with
    | one h hb => simpa using key h hb
    | next h hb _ => simpa using key h hb
    | under h hb _ => simpa using key h hb
  | octal hp _ =>
    simp only [List.mem_cons, List.not_mem_nil, or_false] at hp
    rcases hp with rfl | rfl | rfl | rfl | rfl | rfl <;> exact ⟨show some (48 : UInt8) ≠ some 45 by decide, show some (48 : UInt8) ≠ some 43 by decide⟩
  | binary hp _ =>
    simp only [List.mem_cons, List.not_mem_nil, or_false] at hp
    rcases hp with rfl | rfl | rfl | rfl <;> exact ⟨show some (48 : UInt8) ≠ some 45 by decide, show some (48 : UInt8) ≠ some 43 by decide⟩
  | hex hp _ =>
    simp only [List.mem_cons, List.not_mem_nil, or_false] at hp
    rcases hp with rfl | rfl | rfl | rfl <;> exact ⟨show some (48 : UInt8) ≠ some 45 by decide, show some (48 : UInt8) ≠ some 43 by decide⟩

theorem of_literal {r : Bytes} {m : Nat} (h : Literal r m) : unsigned r = some m := by
  cases h with
  | zero => decide +kernel
  | decimal h h0 =>
    have hne := digits_ne h
    rcases r with _ | ⟨c, r⟩
    · exact absurd rfl hne
    have hc : c ≠ 48 := by simpa using h0
    obtain ⟨h1, h2⟩ := digits_read (hex := false) (.inl (Nat.le_refl 10)) h
    refine unsigned_some.mpr ⟨by simp, ?_⟩
    have hb : splitBase (c :: r) = (10, c :: r) := by
      unfold splitBase
      split
      · next h => injection h with h _; exact absurd h hc
      · next h => injection h with h _; exact absurd h hc
      · rfl
    have ho : underscoreOK (c :: r) = underLoop false .start (c :: r) := by
      unfold underscoreOK
      split
      · next h => injection h with h _; exact absurd h hc
      · rfl
    rw [hb, ho]
    exact ⟨h1 0, fun _ => h2 _⟩
  | @octal p s ds hp h =>
    obtain ⟨⟨a1, a2⟩, b1, b2⟩ := prefixed (hex := false) (.inl (by decide)) h
    have hne := digits_ne h
    simp only [List.mem_cons, List.not_mem_nil, or_false] at hp
    rcases hp with rfl | rfl | rfl | rfl | rfl | rfl
    · obtain ⟨e1, e2⟩ := base_zero h (.inl rfl)
      refine unsigned_some.mpr ⟨by simp [hne], ?_⟩
      show digitsVal (splitBase (48 :: s)).1 _ (splitBase (48 :: s)).2 = _ ∧ (_ ∈ (splitBase (48 :: s)).2 → underscoreOK (48 :: s) = _)
      rw [e1, e2]; exact ⟨a1, fun _ => a2⟩
    · obtain ⟨e1, e2⟩ := base_zero h (.inr rfl)
      refine unsigned_some.mpr ⟨by simp [hne], ?_⟩
      show digitsVal (splitBase (48 :: 95 :: s)).1 _ (splitBase (48 :: 95 :: s)).2 = _ ∧ (_ ∈ (splitBase (48 :: 95 :: s)).2 → underscoreOK (48 :: 95 :: s) = _)
      rw [e1, e2]; exact ⟨b1, fun _ => b2⟩
    · exact letter_ok (c := 111) ((base_letter hne).2.1 (by decide)) ⟨a1, a2⟩
    · exact letter_ok (c := 79) ((base_letter hne).2.1 (by decide)) ⟨a1, a2⟩
    · exact letter_ok (c := 111) ((base_letter (by simp)).2.1 (by decide)) ⟨b1, b2⟩
    · exact letter_ok (c := 79) ((base_letter (by simp)).2.1 (by decide)) ⟨b1, b2⟩
  | @binary p s ds hp h =>
    obtain ⟨⟨a1, a2⟩, b1, b2⟩ := prefixed (hex := false) (.inl (by decide)) h
    have hne := digits_ne h
    simp only [List.mem_cons, List.not_mem_nil, or_false] at hp
    rcases hp with rfl | rfl | rfl | rfl
    · exact letter_ok (c := 98) ((base_letter hne).1 (by decide)) ⟨a1, a2⟩
    · exact letter_ok (c := 66) ((base_letter hne).1 (by decide)) ⟨a1, a2⟩
    · exact letter_ok (c := 98) ((base_letter (by simp)).1 (by decide)) ⟨b1, b2⟩
    · exact letter_ok (c := 66) ((base_letter (by simp)).1 (by decide)) ⟨b1, b2⟩
  | @hex p s ds hp h =>
    obtain ⟨⟨a1, a2⟩, b1, b2⟩ := prefixed (hex := true) (.inr ⟨by decide, rfl⟩) h
    have hne := digits_ne h
    simp only [List.mem_cons, List.not_mem_nil, or_false] at hp
    rcases hp with rfl | rfl | rfl | rfl
    · exact letter_ok (c := 120) ((base_letter hne).2.2 (by decide)) ⟨a1, a2⟩
    · exact letter_ok (c := 88) ((base_letter hne).2.2 (by decide)) ⟨a1, a2⟩
    · exact letter_ok (c := 120) ((base_letter (by simp)).2.2 (by decide)) ⟨b1, b2⟩
    · exact letter_ok (c := 88) ((base_letter (by simp)).2.2 (by decide)) ⟨b1, b2⟩

theorem number_iff {s : Bytes} {i : Int} : parseInt s = some i ↔ Number s i := by
  rw [parse_unsigned]
  constructor
  · intro h
    obtain ⟨n, h1, h2⟩ := Option.bind_eq_some_iff.mp h
    have hl := literal_of h1
    unfold splitSign at hl h2
    split at hl
    · simp only [if_true] at h2
      split at h2
      · next hn => cases h2; exact .minus hl hn
      · cases h2
    · simp only [Bool.false_eq_true, if_false] at h2
      split at h2
      · next hn => cases h2; exact .plus hl hn
      · cases h2
    · simp only [Bool.false_eq_true, if_false] at h2
      split at h2
      · next hn => cases h2; exact .bare hl hn
      · cases h2
  · intro h
    cases h with
    | minus h hn =>
      show (unsigned _).bind _ = _
      simp only [splitSign, of_literal h, Option.bind_some, if_true]
      exact if_pos hn
    | plus h hn =>
      simp only [splitSign, of_literal h, Option.bind_some, Bool.false_eq_true, if_false]
      exact if_pos hn
    | bare h hn =>
      have hs : splitSign s = (false, s) := by
        have hh : s.head? ≠ some 45 ∧ s.head? ≠ some 43 := literal_head h
        unfold splitSign
        split
        · exact absurd rfl hh.1
        · exact absurd rfl hh.2
        · rfl
      rw [hs]
      simp only [of_literal h, Option.bind_some, Bool.false_eq_true, if_false]
      exact if_pos hn

theorem boolean_iff {s : Bytes} {b : Bool} : parseBool s = some b ↔ Boolean s b := by
  unfold parseBool Boolean
  constructor
  · intro h
    split at h
    · next hm => cases h; left; refine ⟨rfl, ?_⟩; simp only [List.mem_cons, List.not_mem_nil, or_false, List.map_cons, List.map_nil] at hm ⊢; rcases hm with h | h | h | h | h | h <;> simp [h]
    · split at h
      · next hm => cases h; right; refine ⟨rfl, ?_⟩; simp only [List.mem_cons, List.not_mem_nil, or_false, List.map_cons, List.map_nil] at hm ⊢; rcases hm with h | h | h | h | h | h <;> simp [h]
      · cases h
  · rintro (⟨rfl, h⟩ | ⟨rfl, h⟩)
    · simp only [List.mem_cons, List.not_mem_nil, or_false, List.map_cons, List.map_nil] at h
      rcases h with rfl | rfl | rfl | rfl | rfl | rfl <;> decide +kernel
    · simp only [List.mem_cons, List.not_mem_nil, or_false, List.map_cons, List.map_nil] at h
      rcases h with rfl | rfl | rfl | rfl | rfl | rfl <;> decide +kernel

end Verif.Cli
