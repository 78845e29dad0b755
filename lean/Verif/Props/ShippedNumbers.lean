import Verif.Props.ShippedVersions
import Verif.Props.Version
import Verif.Props.VersionGetters
/-
C87: the numbers of the version getters, for the shipped tables and the modelled regexp library.
-/
namespace Verif

open Data Regexp Version

/-- The numbers of a text of digits and dots: of the first four pieces between the dots, those before the first one that is empty or does not fit 64
bits, each reduced to 32 bits. -/
def numbers (s : Bytes) : List Int :=
  (((Spec.dotParts s).take 4).takeWhile fun d => d ≠ [] ∧ decVal d < 2 ^ 63).map fun d => Int.bmod (decVal d) (2 ^ 32)

/-- The version has these numbers, zeros after them, and no Suffix. -/
def HasNumbers (v : Version) (ds : List Int) : Prop := Spec.comps v = ds ++ List.replicate (4 - ds.length) 0 ∧ v.suffix = []

theorem numeric_digits {d : Bytes} (h : Numeric d) (h1 : (46 : UInt8) ∉ d) : d.all isDigit = true := by
  refine List.all_eq_true.mpr fun c hc => ?_
  rcases h c hc with rfl | h
  · exact absurd hc h1
  · simp only [isDigit, Bool.and_eq_true, decide_eq_true_eq]
    exact ⟨UInt8.le_iff_toNat_le.mpr h.1, UInt8.le_iff_toNat_le.mpr h.2⟩

theorem atoi_big {d : Bytes} (h2 : d.all isDigit = true) (h3 : ¬ decVal d < 2 ^ 63) : atoi d = none := by
  cases d with
  | nil => rfl
  | cons c cs =>
    have hc : isDigit c = true := List.all_eq_true.mp h2 c (.head _)
    obtain ⟨n1, n2, -, -⟩ := isDigit_ne hc
    unfold atoi
    simp [n1, n2, h2, h3]

theorem atoi_piece {d : Bytes} (h : d.all isDigit = true) : atoi d = if d ≠ [] ∧ decVal d < 2 ^ 63 then some (decVal d : Int) else none := by
  split
  · rename_i h1; exact atoi_digits h1.1 h h1.2
  · rename_i h1
    by_cases h0 : d = []
    · subst h0; rfl
    · exact atoi_big h fun h2 => h1 ⟨h0, h2⟩

theorem reads_numeric (n : Nat) {s : Bytes} (h : Numeric s) :
    reads n s = (((Spec.dotParts s).take n).takeWhile fun d => d ≠ [] ∧ decVal d < 2 ^ 63).map fun d => (decVal d : Int) := by
  induction n generalizing s with
  | zero => rfl
  | succ n ih =>
    rcases split_first s 46 with h1 | ⟨d, r, h1, rfl⟩
    · rw [dotParts_no_dot s h1, reads, show indexByte s 46 = none from indexByte_none h1]
      by_cases hs : s = []
      · subst hs; simp
      · rw [if_pos (Or.inr (List.length_pos_iff.2 hs))]
        simp only [Option.getD_none, List.take_length, Nat.lt_irrefl, if_false]
        rw [atoi_piece (numeric_digits h h1)]
        have hr : reads n [] = [] := by cases n <;> simp [reads, indexByte]
        by_cases hd : decVal s < 2 ^ 63 <;> simp [hs, hd, hr]
    · have hd : Numeric d := fun c hc => h c (List.mem_append_left _ hc)
      have hr : Numeric r := fun c hc => h c (List.mem_append_right _ (.tail _ hc))
      rw [dotParts_dot d r h1, reads, show indexByte (d ++ 46 :: r) 46 = some d.length from indexByte_append h1, if_pos (Or.inl (by simp))]
      simp only [Option.getD_some, List.take_left, List.length_append, List.length_cons]
      rw [if_pos (by omega), show (d ++ 46 :: r).drop (d.length + 1) = r by simp, atoi_piece (numeric_digits hd h1), ih hr, List.take_succ_cons, List.takeWhile_cons]
      by_cases hp : d ≠ [] ∧ decVal d < 2 ^ 63 <;> simp [hp]

theorem comps_assign_all (ds : List Int) (hl : ds.length ≤ 4) :
    Spec.comps (assign 0 {} ds) = ds.map (fun d => Int.bmod d (2 ^ 32)) ++ List.replicate (4 - ds.length) 0 := by
  match ds, hl with
  | [], _ => decide
  | [a], _ => simp [Spec.comps, assign, setComp, Int32.toInt_ofInt]
  | [a, b], _ => simp [Spec.comps, assign, setComp, Int32.toInt_ofInt]
  | [a, b, c], _ => simp [Spec.comps, assign, setComp, Int32.toInt_ofInt]
  | [a, b, c, d], _ => simp [Spec.comps, assign, setComp, Int32.toInt_ofInt]
  | _ :: _ :: _ :: _ :: _ :: _, h => simp at h

theorem rest_mem (n i : Nat) (v : Version) {s : Bytes} : ∀ c ∈ (parseLoop n i v s).2.1, c ∈ s := by
  induction n generalizing i v s with
  | zero => exact fun c hc => hc
  | succ n ih =>
    rcases split_first s 46 with h | ⟨d, r, h, rfl⟩
    · by_cases hs : s = []
      · subst hs; rw [parseLoop_nil]; exact fun c hc => hc
      · rw [parseLoop_last n i v s h hs]
        cases atoi s with
        | none => exact fun c hc => hc
        | some x => intro c hc; cases (ih _ _ c hc)
    · rw [parseLoop_dot n i v d r h]
      cases atoi d with
      | none => exact fun c hc => hc
      | some x => exact fun c hc => List.mem_append_right _ (.tail _ (ih _ _ c hc))

/-- What Parse makes of digits and dots. -/
theorem parse_numeric {s : Bytes} (h : Numeric s) : HasNumbers (({} : Version).parse s).1 (numbers s) := by
  have hr := reads_numeric 4 h
  have hc := comps_assign_all (reads 4 s) (reads_length 4 s)
  have hn : numbers s = (reads 4 s).map fun d => Int.bmod d (2 ^ 32) := by unfold numbers; rw [hr, List.map_map, Function.comp_def]
  have ha := (parseLoop_assign 4 0 {} {} s).1
  have hm := rest_mem 4 0 ({} : Version) (s := s)
  have hx := (assign_p ({} : Version) 0 (reads 4 s)).2
  rw [← hn, ← ha] at hc
  rw [← ha] at hx
  have hlen : (reads 4 s).length = (numbers s).length := by rw [hn, List.length_map]
  rw [hlen] at hc
  unfold Version.parse HasNumbers
  rw [if_neg (by simp)]
  split
  · revert hc hx hm
    rcases parseLoop 4 0 {} s with ⟨v, r, _ | _⟩
    · intro hc hm hx
      dsimp only at hm hc hx ⊢
      have : r.findIdx? (fun c => c == 32 || c == 45) = none := by
        refine List.findIdx?_eq_none_iff.mpr fun c hcr => ?_
        have hcs := h c (hm c hcr)
        rcases hcs with rfl | hcs
        · rfl
        · have : c ≠ 32 ∧ c ≠ 45 := by constructor <;> (rintro rfl; revert hcs; decide)
          simp [this]
      rw [this]
      split <;> exact ⟨hc, hx⟩
    · intro hc _ hx; exact ⟨hc, hx⟩
  · rename_i h0
    have : s = [] := List.length_eq_zero_iff.mp (by omega)
    subst this
    decide

/-- Numbers below 2^31 come out as they are. -/
theorem numbers_exact {s : Bytes} (h : ∀ d ∈ (Spec.dotParts s).take 4, d ≠ [] ∧ decVal d < 2 ^ 31) :
    numbers s = ((Spec.dotParts s).take 4).map fun d => (decVal d : Int) := by
  unfold numbers
  have : ∀ l : List Bytes, (∀ d ∈ l, d ≠ [] ∧ decVal d < 2 ^ 31) →
      (l.takeWhile fun d => d ≠ [] ∧ decVal d < 2 ^ 63).map (fun d => Int.bmod (decVal d) (2 ^ 32)) = l.map fun d => (decVal d : Int) := by
    intro l hl
    induction l with
    | nil => simp
    | cons d l ih =>
      have h0 := hl d (List.mem_cons_self ..)
      have h1 := h0.1
      have h2 := h0.2
      have h3 : decVal d < 2 ^ 63 := Nat.lt_trans h2 (by decide)
      have h4 : Int.bmod (decVal d) (2 ^ 32) = (decVal d : Int) := Int.bmod_eq_of_le (by omega) (by omega)
      rw [List.takeWhile_cons, if_pos (decide_eq_true ⟨h1, h3⟩), List.map_cons, List.map_cons, ih fun d hd => hl d (List.mem_cons_of_mem _ hd), h4]
  exact this _ h

/-- C87, browsers: GetBrowserVersion has the numbers of GetBrowserVersionString and no Suffix, unless the selected rule is one of the eight of C81. -/
theorem C87_browser_partial {H : Bytes → UInt64} {q : Req} (hl : q.ua.length < 2 ^ 32) {v : Version}
    (h : uncached Regexp.lib.tables H .browserVersion q = some (.version v)) :
    ∃ s, uncached Regexp.lib.tables H .browserVersionString q = some (.text s) ∧ (HasNumbers v (numbers s) ∨
      ∃ t r re p, ClientChosen Regexp.lib.tables q.mc q.ua t r ∧ Regexp.lib.tables.crRe[r.matchRI.toNat]? = some re ∧ p ∈ oddClients ∧ re.src = Compiler.atWord p) := by
  rw [C73_browser] at h
  obtain ⟨a, ha, h⟩ := Option.bind_eq_some_iff.mp h
  cases a with
  | text s =>
    cases h
    refine ⟨s, ha, ?_⟩
    rcases C81_partial hl ha with ⟨hn, -⟩ | ho
    · exact .inl (parse_numeric hn)
    · exact .inr ho
  | _ => cases h

/-- C87, systems: GetOSVersion has the numbers of GetOSVersionString, or the string is one of the constants, unless the selected rule is one of the
four of C82; in the first two cases it has no Suffix. -/
theorem C87_os_partial {H : Bytes → UInt64} {q : Req} (hl : q.ua.length < 2 ^ 32) {v : Version}
    (h : uncached Regexp.lib.tables H .osVersion q = some (.version v)) :
    ∃ s, uncached Regexp.lib.tables H .osVersionString q = some (.text s) ∧ (HasNumbers v (numbers s) ∨ (s ∈ osWords ∧ v.suffix = []) ∨
      ∃ x re p, OSChosen Regexp.lib.tables q.ua x ∧ Regexp.lib.tables.orRe[x.matchRI.toNat]? = some re ∧ p ∈ oddSystems ∧ re.src = Compiler.anyCase p) := by
  rw [C73_os] at h
  obtain ⟨a, ha, h⟩ := Option.bind_eq_some_iff.mp h
  cases a with
  | text s =>
    cases h
    refine ⟨s, ha, ?_⟩
    rcases C82_partial hl ha with hn | hw | ho
    · exact .inl (parse_numeric hn)
    · refine .inr (.inl ⟨hw, ?_⟩)
      have : ∀ w ∈ osWords, (({} : Version).parse w).1.suffix = [] := by decide +kernel
      exact this s hw
    · exact .inr (.inr ho)
  | _ => cases h

/-- C87 for engines: Suffix is empty. -/
def C87EngineClaim : Prop := ∀ (H : Bytes → UInt64) (q : Req) (v : Version), uncached Regexp.lib.tables H .engineVersion q = some (.version v) → v.suffix = []

/-- C87 is refuted for engines. -/
theorem C87_engine_refuted : ¬ C87EngineClaim := by
  intro h
  have := h (fun _ => 0) { ua := ascii "AltiBrowser/1 WebKit/1.2.3.4.5-6", mc := ClientTypeBrowser }
    { major := 1, minor := 2, patch := 3, revision := 4, suffix := ascii "6", p := true } (by decide +kernel)
  cases this

/-- C87: a component can be negative. -/
theorem C87_negative : uncached Regexp.lib.tables (fun _ => 0) .browserVersion { ua := ascii "AltiBrowser/2147483648.1", mc := ClientTypeBrowser } =
    some (.version { major := -2147483648, minor := 1, p := true }) := by decide +kernel

example : numbers (ascii "35.5..8") = [35, 5] ∧ numbers (ascii "53.0.2785.134.7") = [53, 0, 2785, 134] := by decide +kernel
example : uncached Regexp.lib.tables (fun _ => 0) .osVersion { ua := ascii "iOS 19_1" } = some (.version { major := 26 }) := by decide +kernel

end Verif
