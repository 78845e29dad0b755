import Verif.Proofs.CliNumber
import Verif.Proofs.Tool
import Verif.Proofs.Version
/-
Lemmas for C90: reading the arguments of the comparison tool.
-/
namespace Verif.Cli

open Tool (FS put splitEq dashes dashes_flag split_none split_some)

/-- The settings, one after the other. -/
def applyAll (o : Opts) : List (Flag × Bytes) → Option Opts
  | [] => some o
  | (f, v) :: ss => (o.set f v).bind fun o' => applyAll o' ss

theorem applyAll_snoc (o : Opts) (ss : List (Flag × Bytes)) (x : Flag × Bytes) : applyAll o (ss ++ [x]) = (applyAll o ss).bind fun o' => o'.set x.1 x.2 := by
  induction ss generalizing o with
  | nil =>
    show ((o.set x.1 x.2).bind fun o' => some o') = _
    simp [applyAll]
  | cons y ss ih =>
    obtain ⟨f, v⟩ := y
    show ((o.set f v).bind fun o' => applyAll o' (ss ++ [x])) = ((o.set f v).bind fun o' => applyAll o' ss).bind _
    cases o.set f v with
    | none => rfl
    | some o' => exact ih o'

theorem name_shape (f : Flag) : ∃ c n, f.name = c :: n ∧ c ≠ 45 ∧ c ≠ 61 ∧ (61 : UInt8) ∉ n := by
  cases f <;> exact ⟨_, _, rfl, by decide, by decide, by decide⟩

theorem ofName_name (f : Flag) : Flag.ofName f.name = some f := by cases f <;> decide

theorem name_ofName {n : Bytes} {f : Flag} (h : Flag.ofName n = some f) : n = f.name := by
  unfold Flag.ofName at h
  repeat' split at h
  all_goals first
    | (cases h; assumption)
    | cases h

theorem read_next {d : String} (hd : d ∈ ["-", "--"]) {f : Flag} (hf : f ≠ .verbose) {o o' : Opts} {v : Bytes} (h : o.set f v = some o') {as : List Bytes} :
    readArgs o ((ascii d ++ f.name) :: v :: as) = readArgs o' as := by
  have hn := ofName_name f
  obtain ⟨c, n, e, h1, h2, h3⟩ := name_shape f
  rw [e] at hn ⊢
  obtain ⟨k1, k2⟩ := dashes_flag hd (n := n) h1
  conv => lhs; unfold readArgs
  simp only [k1, split_none h3, hn, h]
  rw [if_neg k2, if_neg (by simp [h1, h2]), if_neg hf]

theorem read_next_none {d : String} (hd : d ∈ ["-", "--"]) {f : Flag} (hf : f ≠ .verbose) {o : Opts} {v : Bytes} (h : o.set f v = none) {as : List Bytes} :
    readArgs o ((ascii d ++ f.name) :: v :: as) = .bad := by
  have hn := ofName_name f
  obtain ⟨c, n, e, h1, h2, h3⟩ := name_shape f
  rw [e] at hn ⊢
  obtain ⟨k1, k2⟩ := dashes_flag hd (n := n) h1
  conv => lhs; unfold readArgs
  simp only [k1, split_none h3, hn, h]
  rw [if_neg k2, if_neg (by simp [h1, h2]), if_neg hf]

theorem read_eq {d : String} (hd : d ∈ ["-", "--"]) {f : Flag} {o o' : Opts} {v : Bytes} (h : o.set f v = some o') {as : List Bytes} :
    readArgs o ((ascii d ++ f.name ++ 61 :: v) :: as) = readArgs o' as := by
  have hn := ofName_name f
  obtain ⟨c, n, e, h1, h2, h3⟩ := name_shape f
  rw [e] at hn ⊢
  obtain ⟨k1, k2⟩ := dashes_flag hd (n := n ++ 61 :: v) h1
  rw [List.append_assoc, List.cons_append]
  conv => lhs; unfold readArgs
  simp only [k1, split_some h3, hn, h]
  rw [if_neg k2, if_neg (by simp [h1, h2])]

theorem read_eq_none {d : String} (hd : d ∈ ["-", "--"]) {f : Flag} {o : Opts} {v : Bytes} (h : o.set f v = none) {as : List Bytes} :
    readArgs o ((ascii d ++ f.name ++ 61 :: v) :: as) = .bad := by
  have hn := ofName_name f
  obtain ⟨c, n, e, h1, h2, h3⟩ := name_shape f
  rw [e] at hn ⊢
  obtain ⟨k1, k2⟩ := dashes_flag hd (n := n ++ 61 :: v) h1
  rw [List.append_assoc, List.cons_append]
  conv => lhs; unfold readArgs
  simp only [k1, split_some h3, hn, h]
  rw [if_neg k2, if_neg (by simp [h1, h2])]

theorem read_verbose {d : String} (hd : d ∈ ["-", "--"]) {o o' : Opts} (h : o.set .verbose (ascii "true") = some o') {as : List Bytes} :
    readArgs o ((ascii d ++ Flag.verbose.name) :: as) = readArgs o' as := by
  have hn := ofName_name .verbose
  obtain ⟨c, n, e, h1, h2, h3⟩ := name_shape .verbose
  rw [e] at hn ⊢
  obtain ⟨k1, k2⟩ := dashes_flag hd (n := n) h1
  conv => lhs; unfold readArgs
  simp only [k1, split_none h3, hn, h]
  rw [if_neg k2, if_neg (by simp [h1, h2]), if_pos trivial]

theorem dashes_none {a : Bytes} (h : a = ascii "-" ∨ a.head? ≠ some 45) : dashes a = none := by
  rcases h with rfl | h
  · decide
  · unfold dashes
    split
    · exact absurd rfl h
    · exact absurd rfl h
    · rfl

theorem spelled_read {ss : List (Flag × Bytes)} {as : List Bytes} (h : Spelled ss as) : ∀ {o o' : Opts}, applyAll o ss = some o' → readArgs o as = .ok o' := by
  induction h with
  | done => intro o o' h; cases h; rfl
  | stop => intro o o' h; cases h; rfl
  | @operand a rest ha =>
    intro o o' h
    cases h
    unfold readArgs
    rw [dashes_none ha]
  | next hd hf _ ih =>
    intro o o' h
    obtain ⟨o1, h1, h2⟩ := Option.bind_eq_some_iff.mp h
    rw [read_next hd hf h1, ih h2]
  | eq hd _ ih =>
    intro o o' h
    obtain ⟨o1, h1, h2⟩ := Option.bind_eq_some_iff.mp h
    rw [read_eq hd h1, ih h2]
  | verbose hd _ ih =>
    intro o o' h
    obtain ⟨o1, h1, h2⟩ := Option.bind_eq_some_iff.mp h
    rw [read_verbose hd h1, ih h2]

theorem split_back {s : Bytes} (hs : s ≠ []) : s = (splitEq s).1 ++ match (splitEq s).2 with | some v => 61 :: v | none => [] := by
  cases s with
  | nil => exact absurd rfl hs
  | cons c r =>
    unfold splitEq
    simp only [List.cons_append, List.cons.injEq, true_and]
    split
    · next v h =>
      split at h
      · next hm =>
        cases h
        clear hs
        induction r with
        | nil => cases hm
        | cons x r ih =>
          by_cases hx : x = 61
          · subst hx; simp
          · have hm : (61 : UInt8) ∈ r := by
              rcases List.mem_cons.mp hm with h | h
              · exact absurd h.symm hx
              · exact h
            rw [List.takeWhile_cons, if_pos (by simpa using hx), List.dropWhile_cons, if_pos (by simpa using hx), List.cons_append, ← ih hm]
      · cases h
    · next h =>
      split at h
      · cases h
      · next hm =>
        have ne : ∀ x ∈ r, decide (x ≠ 61) = true := fun x hx => decide_eq_true fun e => hm (e ▸ hx)
        have := List.takeWhile_append_of_pos (l₂ := []) ne
        rw [List.append_nil, List.takeWhile_nil, List.append_nil] at this
        rw [List.append_nil, this]

theorem dashes_some {a s : Bytes} (h : dashes a = some s) (h1 : s.head? ≠ some 45) : ∃ d, d ∈ ["-", "--"] ∧ a = ascii d ++ s := by
  unfold dashes at h
  split at h
  · cases h; exact ⟨"--", by simp, rfl⟩
  · cases h; exact ⟨"-", by simp, rfl⟩
  · cases h

theorem dashes_none' {a : Bytes} (h : dashes a = none) : a = ascii "-" ∨ a.head? ≠ some 45 := by
  unfold dashes at h
  split at h
  · cases h
  · cases h
  · next h1 h2 =>
    rcases a with _ | ⟨c, a⟩
    · right; simp
    · by_cases hc : c = 45
      · subst hc
        rcases a with _ | ⟨x, a⟩
        · left; rfl
        · exact absurd rfl (h2 x a)
      · right; simpa using hc

theorem read_spelled : ∀ (n : Nat) (as : List Bytes), as.length ≤ n → ∀ {o o' : Opts}, readArgs o as = .ok o' →
    ∃ ss, Spelled ss as ∧ applyAll o ss = some o' := by
  intro n
  induction n with
  | zero =>
    intro as hn o o' h
    have : as = [] := List.length_eq_zero_iff.mp (by omega)
    subst this
    cases h
    exact ⟨[], .done, rfl⟩
  | succ n ih =>
    intro as hn o o' h
    rcases as with _ | ⟨a, as⟩
    · cases h
      exact ⟨[], .done, rfl⟩
    rw [List.length_cons] at hn
    unfold readArgs at h
    cases hd : dashes a with
    | none =>
      rw [hd] at h
      cases h
      exact ⟨[], .operand (dashes_none' hd), rfl⟩
    | some s =>
      rw [hd] at h
      simp only at h
      by_cases h2 : a = ascii "--"
      · rw [if_pos h2] at h
        cases h
        subst h2
        exact ⟨[], .stop, rfl⟩
      rw [if_neg h2] at h
      by_cases hb : s = [] ∨ s.head? = some 45 ∨ s.head? = some 61
      · rw [if_pos hb] at h; cases h
      rw [if_neg hb] at h
      obtain ⟨hb1, hb⟩ := not_or.mp hb
      obtain ⟨hb2, hb3⟩ := not_or.mp hb
      obtain ⟨d, hdd, rfl⟩ := dashes_some hd hb2
      have hsp := split_back hb1
      cases hf : Flag.ofName (splitEq s).1 with
      | none => rw [hf] at h; simp only at h; split at h <;> cases h
      | some f =>
        rw [hf] at h
        have hnm := name_ofName hf
        cases hv : (splitEq s).2 with
        | some v =>
          rw [hv] at h hsp
          rw [hnm] at hsp
          simp only at h hsp
          cases hs : o.set f v with
          | none => rw [hs] at h; cases h
          | some o1 =>
            rw [hs] at h
            obtain ⟨ss, k1, k2⟩ := ih as (by omega) h
            refine ⟨(f, v) :: ss, ?_, by simp [applyAll, hs, k2]⟩
            rw [hsp, ← List.append_assoc]
            exact .eq hdd k1
        | none =>
          rw [hv] at h hsp
          rw [hnm, List.append_nil] at hsp
          simp only at h
          rw [hsp]
          by_cases hvb : f = .verbose
          · subst hvb
            rw [if_pos rfl] at h
            cases hs : o.set .verbose (ascii "true") with
            | none => rw [hs] at h; cases h
            | some o1 =>
              rw [hs] at h
              obtain ⟨ss, k1, k2⟩ := ih as (by omega) h
              exact ⟨(.verbose, ascii "true") :: ss, .verbose hdd k1, by simp [applyAll, hs, k2]⟩
          · rw [if_neg hvb] at h
            rcases as with _ | ⟨v, as⟩
            · cases h
            · simp only at h
              cases hs : o.set f v with
              | none => rw [hs] at h; cases h
              | some o1 =>
                rw [hs] at h
                rw [List.length_cons] at hn
                obtain ⟨ss, k1, k2⟩ := ih as (by omega) h
                exact ⟨(f, v) :: ss, .next hdd hvb k1, by simp [applyAll, hs, k2]⟩

/-! ### What the settings come to -/

theorem last_snoc (f : Flag) (ss : List (Flag × Bytes)) (x : Flag × Bytes) : last f (ss ++ [x]) = if x.1 = f then some x.2 else last f ss := by
  unfold last
  rw [List.filter_append]
  by_cases h : x.1 = f
  · rw [if_pos h]; simp [h]
  · rw [if_neg h]; simp [h]

theorem set_obeys {ss : List (Flag × Bytes)} {o o' : Opts} (ho : Obeys ss o) {x : Flag × Bytes} (h : o.set x.1 x.2 = some o') : Obeys (ss ++ [x]) o' := by
  obtain ⟨f, v⟩ := x
  cases f <;> simp only [Opts.set, Option.some.injEq, Option.map_eq_some_iff] at h
  case threads =>
    obtain ⟨n, hn, rfl⟩ := h
    refine ⟨?_, ?_, ?_, ?_, ?_, ?_, ?_⟩ <;> simp only [last_snoc, reduceCtorEq, if_false, if_true, ho.ua, ho.file, ho.url, ho.out, ho.format, Option.getD_some]
    · exact number_iff.mp hn
    · exact ho.verbose
  case verbose =>
    obtain ⟨n, hn, rfl⟩ := h
    refine ⟨?_, ?_, ?_, ?_, ?_, ?_, ?_⟩ <;> simp only [last_snoc, reduceCtorEq, if_false, if_true, ho.ua, ho.file, ho.url, ho.out, ho.format, Option.getD_some]
    · exact ho.threads
    · exact boolean_iff.mp hn
  all_goals
    subst h
    constructor <;> (simp only [last_snoc, reduceCtorEq, if_false, if_true, ho.ua, ho.file, ho.url, ho.out, ho.format, Option.getD_some]; try first | exact ho.threads | exact ho.verbose)

theorem snoc_ind {α : Type} {P : List α → Prop} (h0 : P []) (h1 : ∀ l x, P l → P (l ++ [x])) (l : List α) : P l := by
  rw [← List.reverse_reverse l]
  generalize l.reverse = r
  induction r with
  | nil => exact h0
  | cons x r ih => rw [List.reverse_cons]; exact h1 _ _ ih

theorem applyAll_obeys (ss : List (Flag × Bytes)) : ∀ {o : Opts}, applyAll {} ss = some o → Valid ss ∧ Obeys ss o := by
  refine snoc_ind (P := fun ss => ∀ {o : Opts}, applyAll {} ss = some o → Valid ss ∧ Obeys ss o) ?_ ?_ ss
  · intro o h
    cases h
    exact ⟨fun x hx => (List.not_mem_nil hx).elim, ⟨rfl, rfl, rfl, rfl, rfl, number_iff.mp (by decide +kernel), boolean_iff.mp (by decide +kernel)⟩⟩
  · intro ss x ih o h
    rw [applyAll_snoc] at h
    obtain ⟨o1, h1, h2⟩ := Option.bind_eq_some_iff.mp h
    obtain ⟨k1, k2⟩ := ih h1
    refine ⟨fun y hy => ?_, set_obeys k2 h2⟩
    rcases List.mem_append.mp hy with hy | hy
    · exact k1 y hy
    · cases List.mem_singleton.mp hy
      constructor
      · intro e
        rw [e] at h2
        obtain ⟨i, hi, -⟩ := Option.map_eq_some_iff.mp h2
        exact ⟨i, number_iff.mp hi⟩
      · intro e
        rw [e] at h2
        obtain ⟨i, hi, -⟩ := Option.map_eq_some_iff.mp h2
        exact ⟨i, boolean_iff.mp hi⟩

theorem valid_applyAll (ss : List (Flag × Bytes)) (h : Valid ss) : ∀ o, ∃ o', applyAll o ss = some o' := by
  induction ss with
  | nil => exact fun o => ⟨o, rfl⟩
  | cons x ss ih =>
    intro o
    have : ∃ o', o.set x.1 x.2 = some o' := by
      obtain ⟨f, v⟩ := x
      have hx := h (f, v) (by simp)
      cases f with
      | threads => obtain ⟨n, hn⟩ := hx.1 rfl; have hn := number_iff.mpr hn; exact ⟨_, by simp only [Opts.set]; rw [hn]; rfl⟩
      | verbose => obtain ⟨n, hn⟩ := hx.2 rfl; have hn := boolean_iff.mpr hn; exact ⟨_, by simp only [Opts.set]; rw [hn]; rfl⟩
      | _ => exact ⟨_, rfl⟩
    obtain ⟨o', ho⟩ := this
    obtain ⟨o2, ho2⟩ := ih (fun y hy => h y (by simp [hy])) o'
    exact ⟨o2, by obtain ⟨f, v⟩ := x; simp only [applyAll]; rw [ho]; exact ho2⟩

theorem valid_iff (ss : List (Flag × Bytes)) : Valid ss ↔ ∀ x ∈ ss, (x.1 = .threads → parseInt x.2 ≠ none) ∧ (x.1 = .verbose → parseBool x.2 ≠ none) := by
  unfold Valid
  constructor
  · intro h x hx
    refine ⟨fun e => ?_, fun e => ?_⟩
    · obtain ⟨i, hi⟩ := (h x hx).1 e; rw [number_iff.mpr hi]; simp
    · obtain ⟨i, hi⟩ := (h x hx).2 e; rw [boolean_iff.mpr hi]; simp
  · intro h x hx
    refine ⟨fun e => ?_, fun e => ?_⟩
    · obtain ⟨i, hi⟩ := Option.ne_none_iff_exists'.mp ((h x hx).1 e); exact ⟨i, number_iff.mp hi⟩
    · obtain ⟨i, hi⟩ := Option.ne_none_iff_exists'.mp ((h x hx).2 e); exact ⟨i, boolean_iff.mp hi⟩

instance (ss : List (Flag × Bytes)) : Decidable (Valid ss) := decidable_of_iff _ (valid_iff ss).symm

theorem obeys_unique {ss : List (Flag × Bytes)} {o o' : Opts} (h : Obeys ss o) (h' : Obeys ss o') : o = o' := by
  have a := (number_iff.mpr h.threads).symm.trans (number_iff.mpr h'.threads)
  have b := (boolean_iff.mpr h.verbose).symm.trans (boolean_iff.mpr h'.verbose)
  cases o; cases o'
  simp only [Opts.mk.injEq]
  exact ⟨h.ua.trans h'.ua.symm, h.file.trans h'.file.symm, h.url.trans h'.url.symm, h.out.trans h'.out.symm, Option.some.inj a, h.format.trans h'.format.symm, Option.some.inj b⟩

/-! ### Decimal numbers -/

theorem digit_val {c : UInt8} (h : isDigit c = true) : digitVal c = some (c.toNat - 48) ∧ c.toNat - 48 < 10 ∧ c ≠ 95 := by
  have h' := h
  simp only [isDigit, Bool.and_eq_true, decide_eq_true_eq, UInt8.le_iff_toNat_le] at h
  refine ⟨by unfold digitVal; rw [if_pos h'], ?_, ?_⟩
  · have := h.2
    have e : (57 : UInt8).toNat = 57 := rfl
    omega
  · rintro rfl
    exact absurd h (by decide)

theorem digits_val {d : Bytes} (h : d.all isDigit = true) (n : Nat) : digitsVal 10 n d = some (d.foldl (fun a c => 10 * a + (c.toNat - 48)) n) := by
  induction d generalizing n with
  | nil => rfl
  | cons c d ih =>
    rw [List.all_cons, Bool.and_eq_true] at h
    obtain ⟨h1, h2, h3⟩ := digit_val h.1
    unfold digitsVal
    rw [if_neg h3, h1]
    simp only
    rw [if_pos h2, ih h.2, List.foldl_cons, Nat.mul_comm]

theorem no_under {d : Bytes} (h : d.all isDigit = true) : (95 : UInt8) ∉ d := fun hm => absurd (List.all_eq_true.mp h 95 hm) (by decide)

theorem base_ten {c : UInt8} {d : Bytes} (h : c ≠ 48) : splitBase (c :: d) = (10, c :: d) := by
  unfold splitBase
  split
  · next h' => injection h' with h' _; exact absurd h' h
  · next h' => injection h' with h' _; exact absurd h' h
  · rfl

theorem parse_pos {c : UInt8} {d : Bytes} (hd : (c :: d).all isDigit = true) (hc : c ≠ 48) (hv : decVal (c :: d) < 2 ^ 63) :
    parseInt (c :: d) = some (decVal (c :: d) : Int) := by
  have hc' : isDigit c = true := by rw [List.all_cons, Bool.and_eq_true] at hd; exact hd.1
  have hs : splitSign (c :: d) = (false, c :: d) := by
    unfold splitSign
    split
    · next h => injection h with h _; subst h; exact absurd hc' (by decide)
    · next h => injection h with h _; subst h; exact absurd hc' (by decide)
    · rfl
  unfold parseInt
  simp only [hs, base_ten hc, digits_val hd]
  rw [if_neg (by simp), if_neg (fun h => no_under hd h.1), if_neg (by simp)]
  exact if_pos hv

theorem parse_neg {c : UInt8} {d : Bytes} (hd : (c :: d).all isDigit = true) (hc : c ≠ 48) (hv : decVal (c :: d) ≤ 2 ^ 63) :
    parseInt (45 :: c :: d) = some (-(decVal (c :: d) : Int)) := by
  have hs : splitSign (45 :: c :: d) = (true, c :: d) := rfl
  unfold parseInt
  simp only [hs, base_ten hc, digits_val hd]
  rw [if_neg (by simp), if_neg (fun h => no_under hd h.1), if_pos trivial]
  exact if_pos hv

theorem natDec_head (n : Nat) (h : 0 < n) : ∃ c d, natDec n = c :: d ∧ c ≠ 48 := by
  induction n using Nat.strongRecOn with
  | _ n ih =>
    unfold natDec
    split
    · next hn =>
      refine ⟨_, [], rfl, fun e => ?_⟩
      have := congrArg UInt8.toNat e
      rw [UInt8.toNat_ofNat'] at this
      have e : (48 : UInt8).toNat = 48 := rfl
      rw [e] at this
      omega
    · obtain ⟨c, d, e, hc⟩ := ih (n / 10) (by omega) (by omega)
      exact ⟨c, d ++ [UInt8.ofNat (48 + n % 10)], by rw [e]; rfl, hc⟩

end Verif.Cli
