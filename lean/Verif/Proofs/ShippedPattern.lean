import Verif.Proofs.PatternChars
import Verif.Data.Client
import Verif.Data.OS
import Verif.Data.Vendor
/-
The regexps of the shipped client and vendor tables are of the shapes the rule compiler gives them.
-/
namespace Verif.Data

open Verif.Regexp Verif.Compiler

def wordStartText : Bytes := ascii "(?i)(?:^|[^A-Z0-9\\-_]|[^A-Z0-9\\-]_|sprd-|MZ-)(?:"

/-- Regexps whose version group has other characters than digits and dots, or whose rule refers to the whole match. -/
def crOdd : List Nat := [359, 393, 582, 624, 720, 746, 757, 819]

/-- Regexps whose first group is not a version. -/
def crTwo : List Nat := [101, 102, 824, 876, 1019, 1020, 1038, 1125, 1194, 1226, 1316, 1318]

/-- Regexp `k` of the client tables: the beginning of a word, then a pattern that can be read by itself; its version group, unless odd, has only
digits and dots. -/
def wordOK (k : Nat) (c : List Chunk) : Bool :=
  let b := buf c
  wordStartText.isPrefixOf b && (b.getLast? == some 41) && match parse (ascii "(?i)" ++ (b.drop 48).dropLast) with
    | none => false
    | some rx => (insides (if crTwo.contains k then 2 else 1) rx).all (within numS) || crOdd.contains k

theorem wordOK_spec {k : Nat} {c : List Chunk} (h : wordOK k c = true) : ∃ p rx, buf c = atWord p ∧ parse (anyCase p) = some rx ∧
    (k ∉ crOdd → (insides (if crTwo.contains k then 2 else 1) rx).all (within numS) = true) := by
  unfold wordOK at h
  simp only [Bool.and_eq_true, beq_iff_eq] at h
  obtain ⟨⟨h1, h2⟩, h3⟩ := h
  obtain ⟨t, ht⟩ := List.isPrefixOf_iff_prefix.mp h1
  cases hrx : parse (ascii "(?i)" ++ ((buf c).drop 48).dropLast) with
  | none => rw [hrx] at h3; cases h3
  | some rx =>
    rw [hrx] at h3
    refine ⟨_, rx, ?_, hrx, fun hk => ?_⟩
    · have hl : wordStartText.length = 48 := by decide +kernel
      rw [← ht] at h2 ⊢
      rw [← hl, List.drop_left]
      have e : ascii ")" = [41] := by decide +kernel
      have hne : t ≠ [] := by
        rintro rfl
        rw [List.append_nil] at h2
        exact absurd h2 (by decide +kernel)
      rw [List.getLast?_append, List.getLast?_eq_some_getLast hne] at h2
      rw [atWord, e, List.append_assoc]
      show wordStartText ++ t = wordStartText ++ (t.dropLast ++ [41])
      rw [← Option.some.inj h2, List.dropLast_concat_getLast]
    · rcases Bool.or_eq_true _ _ ▸ h3 with h3 | h3
      · exact h3
      · exact absurd (List.contains_iff_mem.mp h3) hk

/-- `p` holds of every element and its position, counted from `k`. -/
def allFrom {α : Type} (p : Nat → α → Bool) : Nat → List α → Bool
  | _, [] => true
  | k, x :: l => p k x && allFrom p (k + 1) l

theorem allFrom_get {α : Type} {p : Nat → α → Bool} : ∀ {l : List α} {k i : Nat} {x : α}, allFrom p k l = true → l[i]? = some x → p (k + i) x = true
  | y :: l, k, i, x, h, hx => by
    rw [allFrom, Bool.and_eq_true] at h
    cases i with
    | zero => cases hx; exact h.1
    | succ i =>
      have := allFrom_get h.2 (by simpa using hx)
      rwa [show k + 1 + i = k + (i + 1) by omega] at this

theorem allFrom_append {α : Type} {p : Nat → α → Bool} : ∀ {l m : List α} {k : Nat}, allFrom p k (l ++ m) = (allFrom p k l && allFrom p (k + l.length) m)
  | [], m, k => by rw [List.nil_append]; rfl
  | x :: l, m, k => by
    rw [List.cons_append, allFrom, allFrom, allFrom_append, Bool.and_assoc, List.length_cons, show k + 1 + l.length = k + (l.length + 1) by omega]

theorem crRe_0_word : allFrom wordOK 0 crRe_0 = true := by decide +kernel
theorem crRe_1_word : allFrom wordOK 250 crRe_1 = true := by decide +kernel
theorem crRe_2_word : allFrom wordOK 500 crRe_2 = true := by decide +kernel
theorem crRe_3_word : allFrom wordOK 750 crRe_3 = true := by decide +kernel
theorem crRe_4_word : allFrom wordOK 1000 crRe_4 = true := by decide +kernel
theorem crRe_5_word : allFrom wordOK 1250 crRe_5 = true := by decide +kernel

theorem crRe_word : allFrom wordOK 0 crRe = true := by
  have h0 : crRe_0.length = 250 := by decide +kernel
  have h1 : crRe_1.length = 250 := by decide +kernel
  have h2 : crRe_2.length = 250 := by decide +kernel
  have h3 : crRe_3.length = 250 := by decide +kernel
  have h4 : crRe_4.length = 250 := by decide +kernel
  simp only [crRe, allFrom_append, List.length_append, h0, h1, h2, h3, h4, Nat.zero_add, Nat.reduceAdd, crRe_0_word, crRe_1_word, crRe_2_word, crRe_3_word,
    crRe_4_word, crRe_5_word, Bool.and_self]

/-- The version group of a client rule is the one looked at by `wordOK`. -/
def crRowOK (v : ClientTuple) : Bool :=
  decide (v.matchRI < 0) || v.version64 != 0 || v.browserVI == -1 || crOdd.contains v.matchRI.toNat ||
    (if crTwo.contains v.matchRI.toNat then v.browserVI == 2 else v.browserVI == 1)

theorem crRows_ok : ∀ rows ∈ [crIdx0, crIdx1, crIdx2, crIdx3, crIdx4, crIdx5, crIdx6], rows.all crRowOK = true := by decide +kernel

/-- The constant versions of client rules consist of digits and dots. -/
def crConstOK (b : Bytes) (v : ClientTuple) : Bool :=
  v.version64 == 0 || match sliceE? b v.version64 with
    | none => false
    | some s => s.all fun c => c == 46 || (Nat.ble 48 c.toNat && Nat.ble c.toNat 57)

theorem crConst_ok : ∀ rows ∈ [crIdx0, crIdx1, crIdx2, crIdx3, crIdx4, crIdx5, crIdx6], rows.all (crConstOK (buf crBuf)) = true := by decide +kernel

/-- The same for operating systems: versions in other characters than digits, dots and underscores; regexps whose first group is no version. -/
def orOdd : List Nat := [437, 460, 464, 465]
def orTwo : List Nat := [14, 88, 185, 189, 211, 213, 345]

def osOK (k : Nat) (c : List Chunk) : Bool :=
  match parse (buf c) with
  | none => false
  | some rx => (insides (if orTwo.contains k then 2 else 1) rx).all (within numS') || orOdd.contains k

theorem osOK_spec {k : Nat} {c : List Chunk} (h : osOK k c = true) : ∃ rx, parse (buf c) = some rx ∧
    (k ∉ orOdd → (insides (if orTwo.contains k then 2 else 1) rx).all (within numS') = true) := by
  unfold osOK at h
  cases hrx : parse (buf c) with
  | none => rw [hrx] at h; cases h
  | some rx =>
    rw [hrx] at h
    refine ⟨rx, rfl, fun hk => ?_⟩
    rcases Bool.or_eq_true _ _ ▸ h with h | h
    · exact h
    · exact absurd (List.contains_iff_mem.mp h) hk

theorem orRe_0_ok : allFrom osOK 0 orRe_0 = true := by decide +kernel
theorem orRe_1_ok : allFrom osOK 250 orRe_1 = true := by decide +kernel

theorem orRe_ok : allFrom osOK 0 orRe = true := by
  have h0 : orRe_0.length = 250 := by decide +kernel
  simp only [orRe, allFrom_append, h0, Nat.zero_add, orRe_0_ok, orRe_1_ok, Bool.and_self]

def groupOK (ri : Int) (vi : Int8) : Bool :=
  decide (ri < 0) || vi == -1 || orOdd.contains ri.toNat || (if orTwo.contains ri.toNat then vi == 2 else vi == 1)

theorem orOs_group : (orOs.all fun v => groupOK v.matchRI v.versionSI) = true := by decide +kernel
theorem orOv_group : (orOv.all fun v => groupOK v.matchRI v.versionSI && !orOdd.contains v.matchRI.toNat) = true := by decide +kernel

/-- Constant OS versions that are not numbers. -/
def osWords : List Bytes :=
  [ascii "Server $1", ascii "Server 2012 R2", ascii "Server 2012", ascii "Server 2008 R2", ascii "Vista", ascii "Server 2003", ascii "XP", ascii "NT",
   ascii "ME", ascii "Anna", ascii "Belle", ascii "26.$1", ascii "18.$1", ascii "17.$1", ascii "16.$1", ascii "15.$1", ascii "13.$1", ascii "14.$1",
   ascii "10.15.$1", ascii "10.11.$1", ascii "10.10.$1"]

def osConstOK (b : Bytes) (e : Entry64) : Bool :=
  match sliceE? b e with
  | none => false
  | some s => (s.all fun c => c == 46 || (Nat.ble 48 c.toNat && Nat.ble c.toNat 57)) || osWords.contains s

theorem orOs_const : (orOs.all fun v => osConstOK (buf orBuf) v.version64) = true := by decide +kernel
theorem orOv_const : (orOv.all fun v => osConstOK (buf orBuf) v.version64) = true := by decide +kernel

/-- A regexp of the vendor table: a fragment without alternatives, then the gap. -/
def vendorOK (c : List Chunk) : Bool :=
  let b := buf c
  let p := b.take (b.length - 10)
  (b == p ++ ascii "[^a-z0-9]+") && !(ascii "(?i)").isPrefixOf p && !p.contains 124 && (parse p).isSome

theorem vendorOK_spec {c : List Chunk} (h : vendorOK c = true) :
    ∃ p rx, buf c = p ++ ascii "[^a-z0-9]+" ∧ (∀ q, p ≠ ascii "(?i)" ++ q) ∧ 124 ∉ p ∧ parse p = some rx := by
  unfold vendorOK at h
  simp only [Bool.and_eq_true, beq_iff_eq, Bool.not_eq_true', List.contains_eq_mem, decide_eq_false_iff_not] at h
  obtain ⟨⟨⟨h1, h2⟩, h3⟩, h4⟩ := h
  obtain ⟨rx, hrx⟩ := Option.isSome_iff_exists.mp h4
  refine ⟨_, rx, h1, fun q hq => ?_, h3, hrx⟩
  have := List.isPrefixOf_iff_prefix.mpr (⟨q, hq.symm⟩ : ascii "(?i)" <+: _)
  rw [h2] at this
  cases this

theorem vrRe_gap : vrRe.all vendorOK = true := by decide +kernel

end Verif.Data
