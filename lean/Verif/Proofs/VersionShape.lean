import Verif.Proofs.Version
import Verif.Spec.VersionText
/-
`Version.Parse` against the description of version texts.
-/
namespace Verif

theorem Dec.spec {d : Bytes} {n : Nat} (h : Dec d n) : d ≠ [] ∧ d.all isDigit = true ∧ decVal d = n := by
  induction h with
  | @one k h =>
    refine ⟨by simp, by rw [List.all_cons, digit_isDigit k h]; rfl, ?_⟩
    simp only [decVal, List.foldl_cons, List.foldl_nil, digit_toNat k h]; omega
  | @more d n k _ h ih =>
    obtain ⟨-, h2, h3⟩ := ih
    refine ⟨by simp, by rw [List.all_append, h2, List.all_cons, digit_isDigit k h]; rfl, ?_⟩
    rw [decVal_snoc, h3, digit_toNat k h]; omega

theorem isDigit_of {c : UInt8} (h : isDigit c = true) : ∃ k, k < 10 ∧ c = UInt8.ofNat (48 + k) := by
  unfold isDigit at h
  simp only [Bool.and_eq_true, decide_eq_true_eq, UInt8.le_iff_toNat_le] at h
  obtain ⟨h1, h2⟩ := h
  change 48 ≤ c.toNat at h1
  change c.toNat ≤ 57 at h2
  refine ⟨c.toNat - 48, by omega, ?_⟩
  rw [show 48 + (c.toNat - 48) = c.toNat by omega]
  exact (UInt8.ofNat_toNat).symm

theorem dec_of (m : Nat) : ∀ {d : Bytes}, d.length = m → d ≠ [] → d.all isDigit = true → Dec d (decVal d) := by
  induction m with
  | zero => intro d hl hd; exact absurd (List.length_eq_zero_iff.mp hl) hd
  | succ m ih =>
    intro d hl hd ha
    rcases List.eq_nil_or_concat d with rfl | ⟨l, c, e⟩
    · exact absurd rfl hd
    · have e : d = l ++ [c] := by simpa using e
      subst e
      rw [List.all_append, Bool.and_eq_true] at ha
      obtain ⟨k, hk, rfl⟩ := isDigit_of (c := c) (by simpa using ha.2)
      rw [decVal_snoc, digit_toNat k hk, show 48 + k - 48 = k by omega]
      by_cases hl0 : l = []
      · subst hl0
        simpa [decVal] using Dec.one hk
      · exact .more (ih (by simpa using hl) hl0 ha.1) hk

theorem atoi_iff {s : Bytes} {x : Int} : atoi s = some x ↔ Numeral s x := by
  constructor
  · have key : ∀ {ds : Bytes}, ds ≠ [] ∧ ds.all isDigit = true → Dec ds (decVal ds) := fun h => dec_of _ rfl h.1 h.2
    have pos : ∀ {ds : Bytes}, (if ds ≠ [] ∧ ds.all isDigit = true then (if decVal ds < 2 ^ 63 then some (decVal ds : Int) else none) else none) = some x →
        ∃ n : Nat, Dec ds n ∧ n < 2 ^ 63 ∧ x = n := by
      intro ds h
      split at h
      · rename_i hd
        split at h
        · rename_i hn
          cases h
          exact ⟨_, key hd, hn, rfl⟩
        · cases h
      · cases h
    intro h
    unfold atoi at h
    split at h
    rename_i a neg ds heq
    split at heq
    · cases heq
      simp only [if_true] at h
      split at h
      · rename_i hd
        split at h
        · rename_i hn
          cases h
          exact .minus (key hd) hn
        · cases h
      · cases h
    · cases heq
      obtain ⟨n, h1, h2, rfl⟩ := pos h
      exact .plus h1 h2
    · cases heq
      obtain ⟨n, h1, h2, rfl⟩ := pos h
      exact .bare h1 h2
  · intro h
    cases h with
    | bare hd h => obtain ⟨h1, h2, h3⟩ := hd.spec; rw [atoi_digits h1 h2 (by omega), h3]
    | @plus d n hd h =>
      obtain ⟨h1, h2, h3⟩ := hd.spec
      show (if d ≠ [] ∧ d.all isDigit = true then (if decVal d < 2 ^ 63 then some (decVal d : Int) else none) else none) = _
      rw [if_pos ⟨h1, h2⟩, if_pos (by omega), h3]
    | minus hd h => obtain ⟨h1, h2, h3⟩ := hd.spec; exact (atoi_neg h1 h2 (by omega)).trans (by rw [h3])

theorem Numeral.facts {s : Bytes} {x : Int} (h : Numeral s x) : s ≠ [] ∧ (46 : UInt8) ∉ s := by
  have key : ∀ {d : Bytes} {n : Nat}, Dec d n → d ≠ [] ∧ (46 : UInt8) ∉ d := fun hd => ⟨hd.spec.1, (digits_not_mem hd.spec.2.1).1⟩
  cases h with
  | bare hd _ => exact key hd
  | plus hd _ | minus hd _ =>
    refine ⟨nofun, fun hm => ?_⟩
    rcases List.mem_append.mp hm with hm | hm
    · revert hm; decide
    · exact (key hd).2 hm

namespace Version

theorem dotted_loop {n : Nat} {s t : Bytes} {xs : List Int} (h : Dotted n s xs t) : ∀ (i : Nat) (v : Version), parseLoop n i v s = (assign i v xs, t, false) := by
  induction h with
  | nothing => exact fun i v => parseLoop_nil _ _ _
  | last hd =>
    intro i v
    rw [parseLoop_last _ _ _ _ hd.facts.2 hd.facts.1, atoi_iff.mpr hd]
    exact parseLoop_nil _ _ _
  | @next n d r t x xs hd _ ih =>
    intro i v
    rw [show d ++ ascii "." ++ r = d ++ 46 :: r by rw [List.append_assoc]; rfl, parseLoop_dot _ _ _ _ _ hd.facts.2, atoi_iff.mpr hd]
    exact ih _ _
  | rest => exact fun _ _ => rfl

theorem loop_dotted (n : Nat) : ∀ (i : Nat) (v : Version) (s : Bytes), (parseLoop n i v s).2.2 = false → ∃ xs t, Dotted n s xs t := by
  induction n with
  | zero => exact fun _ _ s _ => ⟨[], s, .rest⟩
  | succ n ih =>
    intro i v s h
    rcases split_first s 46 with hn | ⟨d, r, hd, rfl⟩
    · by_cases hs : s = []
      · subst hs; exact ⟨[], [], .nothing⟩
      · rw [parseLoop_last n i v s hn hs] at h
        cases ha : atoi s with
        | none => rw [ha] at h; cases h
        | some x => exact ⟨[x], [], .last (atoi_iff.mp ha)⟩
    · rw [parseLoop_dot n i v d r hd] at h
      cases ha : atoi d with
      | none => rw [ha] at h; cases h
      | some x =>
        rw [ha] at h
        obtain ⟨xs, t, hr⟩ := ih _ _ r h
        have := Dotted.next (atoi_iff.mp ha) hr
        rw [List.append_assoc] at this
        exact ⟨x :: xs, t, this⟩

end Version

theorem Dotted.length {n : Nat} {s t : Bytes} {xs : List Int} (h : Dotted n s xs t) : xs.length ≤ n ∧ (t ≠ [] → xs.length = n) := by
  induction h with
  | nothing => exact ⟨Nat.zero_le _, fun h => absurd rfl h⟩
  | last => exact ⟨by simp, fun h => absurd rfl h⟩
  | next _ _ ih => exact ⟨by simpa using ih.1, fun h => by simpa using ih.2 h⟩
  | rest => exact ⟨Nat.le_refl _, fun _ => rfl⟩

theorem Dotted.dots {n : Nat} {s t : Bytes} {xs : List Int} (h : Dotted n s xs t) (ht : t ≠ []) : n ≤ s.count 46 := by
  induction h with
  | nothing | last => exact absurd rfl ht
  | next _ _ ih =>
    have := ih ht
    rw [List.count_append, List.count_append, show (ascii ".").count 46 = 1 from by decide]
    omega
  | rest => exact Nat.zero_le _

theorem Dotted.split {n : Nat} {s t : Bytes} {xs : List Int} (h : Dotted n s xs t) (ht : t ≠ []) : ∃ b, s = b ++ t ∧ n ≤ b.count 46 := by
  induction h with
  | nothing | last => exact absurd rfl ht
  | @next n d r t x xs _ _ ih =>
    obtain ⟨b, e, hb⟩ := ih ht
    refine ⟨d ++ ascii "." ++ b, by rw [e]; simp, ?_⟩
    rw [List.count_append, List.count_append, show (ascii ".").count 46 = 1 from by decide]
    omega
  | rest => exact ⟨[], rfl, Nat.zero_le _⟩

theorem AfterMark.find {t x : Bytes} (h : AfterMark t x) :
    (match t.findIdx? (fun c => c == 32 || c == 45) with | some i => t.drop (i + 1) | none => []) = x := by
  cases h with
  | without h1 h2 =>
    rw [List.findIdx?_eq_none_iff.mpr]
    intro c hc
    simp only [Bool.or_eq_false_iff, beq_eq_false_iff_ne]
    exact ⟨fun e => h1 (e ▸ hc), fun e => h2 (e ▸ hc)⟩
  | @after a x c h1 h2 hc =>
    have e : (a ++ c :: x).findIdx? (fun c => c == 32 || c == 45) = some a.length := by
      rw [List.findIdx?_append, List.findIdx?_eq_none_iff.mpr, List.findIdx?_cons, if_pos]
      · simp
      · rcases hc with rfl | rfl <;> decide
      · intro c hc
        simp only [Bool.or_eq_false_iff, beq_eq_false_iff_ne]
        exact ⟨fun e => h1 (e ▸ hc), fun e => h2 (e ▸ hc)⟩
    rw [e]
    simp

theorem AfterMark.exists (t : Bytes) : ∃ x, AfterMark t x := by
  induction t with
  | nil => exact ⟨[], .without (by simp) (by simp)⟩
  | cons c t ih =>
    by_cases hc : c = 32 ∨ c = 45
    · exact ⟨t, .after (a := []) (by simp) (by simp) hc⟩
    · have hc : c ≠ 32 ∧ c ≠ 45 := ⟨fun h => hc (.inl h), fun h => hc (.inr h)⟩
      obtain ⟨x, hx⟩ := ih
      cases hx with
      | without h1 h2 => exact ⟨[], .without (by simp [h1, hc.1.symm]) (by simp [h2, hc.2.symm])⟩
      | @after a x d h1 h2 hd => exact ⟨_, .after (a := c :: a) (by simp [h1, hc.1.symm]) (by simp [h2, hc.2.symm]) hd⟩

end Verif
