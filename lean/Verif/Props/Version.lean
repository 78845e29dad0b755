import Verif.Proofs.Version
/-
Properties C33-C36: Version (version.go), and C54: Write versus String.
-/
namespace Verif
open Version

/-! ### Specification vocabulary -/

/-- The maximal dot-free pieces of a text, in order ("1..2" has the pieces "1", "", "2"). -/
def Spec.dotParts : Bytes → List Bytes
  | [] => [[]]
  | c :: cs =>
    if c = 46 then [] :: Spec.dotParts cs
    else match Spec.dotParts cs with
      | [] => [[c]]
      | h :: t => (c :: h) :: t

/-- The four numeric components of a version, as integers. -/
def Spec.comps (v : Version) : List Int := [v.major.toInt, v.minor.toInt, v.patch.toInt, v.revision.toInt]

/-! ### C33 -/

theorem Int32.toInt_ofInt_small (d : Int) (h1 : -2 ^ 31 ≤ d) (h2 : d < 2 ^ 31) : (Int32.ofInt d).toInt = d := by
  rw [Int32.toInt_ofInt, show Int32.size = 2 ^ 32 from rfl]; exact Int.bmod_eq_of_le (by omega) (by omega)

theorem parse_join (v : Version) (hp : v.p = false) (ds : List (Bytes × Int)) (h1 : ds ≠ []) (hl : ds.length ≤ 4)
    (hd : ∀ d ∈ ds, d.1 ≠ [] ∧ (46 : UInt8) ∉ d.1 ∧ atoi d.1 = some d.2) :
    v.parse (List.intercalate [46] (ds.map Prod.fst)) = ({ assign 0 v (ds.map Prod.snd) with p := true }, false) := by
  have hne : (List.intercalate [46] (ds.map Prod.fst)).length > 0 := by
    cases ds with
    | nil => exact absurd rfl h1
    | cons d ds =>
      have hd1 := (hd d (by simp)).1
      have : 0 < d.1.length := List.length_pos_iff.2 hd1
      cases ds <;> simp [List.intercalate] <;> omega
  unfold parse
  rw [hp, if_neg (by simp), if_pos hne, parseLoop_join 4 0 v ds hl hd]
  simp

theorem comps_assign (ds : List Int) (hl : ds.length ≤ 4) (hr : ∀ d ∈ ds, -2 ^ 31 ≤ d ∧ d < 2 ^ 31) :
    Spec.comps (assign 0 {} ds) = ds ++ List.replicate (4 - ds.length) 0 := by
  have e : ∀ d ∈ ds, (Int32.ofInt d).toInt = d := fun d hd => Int32.toInt_ofInt_small d (hr d hd).1 (hr d hd).2
  match ds, hl with
  | [], _ => decide
  | [a], _ => simp [Spec.comps, assign, setComp, e a (by simp)]
  | [a, b], _ => simp [Spec.comps, assign, setComp, e a (by simp), e b (by simp)]
  | [a, b, c], _ => simp [Spec.comps, assign, setComp, e a (by simp), e b (by simp), e c (by simp)]
  | [a, b, c, d], _ => simp [Spec.comps, assign, setComp, e a (by simp), e b (by simp), e c (by simp), e d (by simp)]
  | _ :: _ :: _ :: _ :: _ :: _, h => simp at h

/-- C33: one to four decimal numbers below 2^31 (any number of leading zeros), joined by dots, parse to exactly those numbers;
missing components are 0 and there is no suffix. -/
theorem C33_parse_dotted (v : Version) (ds : List Bytes) (h1 : ds ≠ []) (hl : ds.length ≤ 4)
    (hd : ∀ d ∈ ds, d ≠ [] ∧ d.all isDigit = true ∧ decVal d < 2 ^ 31) :
    ∃ v', v.reset.parse (List.intercalate (ascii ".") ds) = (v', false) ∧
      Spec.comps v' = ds.map (fun d => (decVal d : Int)) ++ List.replicate (4 - ds.length) 0 ∧ v'.suffix = [] := by
  have h := parse_join v.reset rfl (ds.map fun d => (d, (decVal d : Int))) (by simpa using h1) (by simpa using hl) (by
    intro d hm
    obtain ⟨d', hm', rfl⟩ := List.mem_map.1 hm
    obtain ⟨a, b, c⟩ := hd d' hm'
    exact ⟨a, (digits_not_mem b).1, atoi_digits a b (by show decVal d' < _; omega)⟩)
  simp only [List.map_map, Function.comp_def, List.map_id'] at h
  refine ⟨_, h, ?_, ?_⟩
  · have := comps_assign (ds.map fun d => (decVal d : Int)) (by simpa using hl) (by
      intro d hm
      obtain ⟨d', hm', rfl⟩ := List.mem_map.1 hm
      obtain ⟨_, _, c⟩ := hd d' hm'
      omega)
    rw [List.length_map] at this
    exact this
  · show (assign 0 v.reset _).suffix = []
    rw [(assign_p _ _ _).2]; rfl

example : ∀ d ∈ [ascii "120", ascii "0", ascii "0006099"], d ≠ [] ∧ d.all isDigit = true ∧ decVal d < 2 ^ 31 := by decide

/-! ### C34 -/

/-- C34, first half: a successful Parse latches, and a latched version is not changed by any further Parse; Reset clears everything. -/
theorem C34_latched (v : Version) (s s' : Bytes) (h : (v.parse s).2 = false) :
    (v.parse s).1.parse s' = ((v.parse s).1, false) ∧ (v.parse s).1.reset = ({} : Version) := by
  refine ⟨?_, rfl⟩
  have hp : (v.parse s).1.p = true := by
    revert h
    unfold parse
    by_cases hv : v.p = true
    · rw [if_pos hv]; intro _; exact hv
    · rw [if_neg hv]
      split
      · split
        · intro h; cases h
        · intro _; rfl
      · intro _; rfl
  rw [parse, if_pos hp]

/-- C34, second half: after a failed Parse, parsing the same text again gives the same fields and the same failure. -/
theorem C34_failed_again (v : Version) (s : Bytes) (h : (v.parse s).2 = true) : (v.parse s).1.parse s = v.parse s := by
  by_cases hv : v.p = true
  · rw [parse, if_pos hv] at h; cases h
  · by_cases hs : s.length > 0
    · have key : ∀ w : Version, w.p = false → (parseLoop 4 0 w s).2.2 = true → w.parse s = (assign 0 w (reads 4 s), true) := by
        intro w hw he
        have ha := (parseLoop_assign 4 0 w w s).1
        unfold parse
        rw [hw, if_neg (by simp), if_pos hs]
        revert he ha
        rcases parseLoop 4 0 w s with ⟨a, b, c⟩
        intro he ha
        simp only at he ha
        subst he; rw [ha]
      have hv' : v.p = false := by simpa using hv
      have he : (parseLoop 4 0 v s).2.2 = true := by
        rw [parse, if_neg hv, if_pos hs] at h
        revert h
        rcases parseLoop 4 0 v s with ⟨a, b, c⟩
        cases c <;> simp
      rw [key v hv' he]
      have hap := (assign_p v 0 (reads 4 s)).1
      rw [key _ (by rw [hap]; exact hv')
        (by rw [← congrArg Prod.snd (parseLoop_assign 4 0 v (assign 0 v (reads 4 s)) s).2]; exact he)]
      rw [assign_idem _ _ (reads_length 4 s)]
    · rw [parse, if_neg hv, if_neg hs] at h; cases h

example : (({} : Version).parse (ascii "10.7 beta")).2 = true ∧ (({} : Version).parse (ascii "10.7.1")).2 = false := by decide

/-! ### C35 -/

theorem string_major_pos (v : Version) (h : v.major > 0) (hs : v.suffix = []) :
    v.string = List.intercalate [46] [intDec v.major.toInt, intDec v.minor.toInt, intDec v.patch.toInt, intDec v.revision.toInt] := by
  have : intDec v.major.toInt ≠ [] := intDec_ne_nil _
  simp [string, write, h, hs, List.intercalate, this]

theorem int32_range (x : Int32) : -2 ^ 31 ≤ x.toInt ∧ x.toInt < 2 ^ 31 := ⟨x.le_toInt, x.toInt_lt⟩

/-- C35 (what holds): text round trip for every version with Major > 0 and no suffix, whatever the other components. -/
theorem C35_roundtrip_partial (v : Version) (h : v.major > 0) (hs : v.suffix = []) :
    ∃ v', ({} : Version).parse v.string = (v', false) ∧ Spec.comps v' = Spec.comps v ∧ v'.suffix = [] := by
  rw [string_major_pos v h hs]
  have hc : ∀ x : Int32, (intDec x.toInt ≠ [] ∧ (46 : UInt8) ∉ intDec x.toInt ∧ atoi (intDec x.toInt) = some x.toInt) :=
    fun x => ⟨intDec_ne_nil _, (intDec_not_mem _).1, atoi_intDec _ (int32_range x).1 (int32_range x).2⟩
  have hpj := parse_join {} rfl [(intDec v.major.toInt, v.major.toInt), (intDec v.minor.toInt, v.minor.toInt),
    (intDec v.patch.toInt, v.patch.toInt), (intDec v.revision.toInt, v.revision.toInt)] (by simp) (by simp) (by
    intro d hm
    simp only [List.mem_cons, List.not_mem_nil, or_false] at hm
    rcases hm with rfl | rfl | rfl | rfl <;> exact hc _)
  simp only [List.map_cons, List.map_nil] at hpj
  refine ⟨_, hpj, ?_, ?_⟩
  · simp only [Spec.comps, assign, setComp, Int32.ofInt_toInt]
  · rw [show ∀ w : Version, ({ w with p := true } : Version).suffix = w.suffix from fun _ => rfl, (assign_p _ _ _).2]

example : ({ major := 10, minor := 15, patch := 7 } : Version).major > 0 := by decide

/-- C35: the all-zero version also round-trips (as "0"). -/
theorem C35_zero_partial : ({} : Version).string = ascii "0" ∧
    ∃ v', ({} : Version).parse (ascii "0") = (v', false) ∧ Spec.comps v' = [0, 0, 0, 0] :=
  ⟨by decide, _, rfl, by decide⟩

theorem parse_err_of_loop {v : Version} {s : Bytes} (hp : v.p = false) (hs : s ≠ []) (h : (parseLoop 4 0 v s).2.2 = true) :
    (v.parse s).2 = true := by
  unfold parse
  rw [hp, if_neg (by simp), if_pos (List.length_pos_iff.2 hs)]
  revert h
  rcases parseLoop 4 0 v s with ⟨a, b, c⟩
  cases c <;> simp

/-- Error anywhere in the first four pieces. -/
theorem loop_err (n i : Nat) (v : Version) (pre : List Bytes) (bad : Bytes) (tail : Bytes) (hn : pre.length < n)
    (hpre : ∀ d ∈ pre, (46 : UInt8) ∉ d) (hb : (46 : UInt8) ∉ bad) (ha : atoi bad = none) (hne : bad ≠ [] ∨ tail ≠ [])
    (ht : tail = [] ∨ ∃ r, tail = 46 :: r) :
    (parseLoop n i v ((pre.map (· ++ [46])).flatten ++ bad ++ tail)).2.2 = true := by
  induction pre generalizing n i v with
  | nil =>
    cases n with
    | zero => simp at hn
    | succ n =>
      simp only [List.map_nil, List.flatten_nil, List.nil_append]
      rcases ht with rfl | ⟨r, rfl⟩
      · rw [List.append_nil, parseLoop_last n i v bad hb (by rcases hne with h | h; exact h; exact absurd rfl h), ha]
      · rw [parseLoop_dot n i v bad r hb, ha]
  | cons d pre ih =>
    cases n with
    | zero => simp at hn
    | succ n =>
      have hrw : ((List.map (· ++ [46]) (d :: pre)).flatten ++ bad ++ tail) =
          d ++ 46 :: ((pre.map (· ++ [46])).flatten ++ bad ++ tail) := by simp
      rw [hrw, parseLoop_dot n i v d _ (hpre d (by simp))]
      cases atoi d with
      | none => rfl
      | some x => exact ih n (i + 1) _ (by simp at hn; omega) (fun d' h' => hpre d' (by simp [h']))

/-- The text before the suffix: up to three dot-terminated pieces and a last one. -/
theorem string_suffix (v : Version) (hs : v.suffix ≠ []) :
    ∃ (pre : List Bytes) (last : Bytes), pre.length < 4 ∧ (∀ d ∈ pre, (46 : UInt8) ∉ d) ∧ (46 : UInt8) ∉ last ∧
      v.string = (pre.map (· ++ [46])).flatten ++ last ++ 32 :: v.suffix := by
  have hl : v.suffix.length > 0 := List.length_pos_iff.2 hs
  have d1 := (intDec_not_mem v.major.toInt).1
  have d2 := (intDec_not_mem v.minor.toInt).1
  have d3 := (intDec_not_mem v.patch.toInt).1
  have d4 := (intDec_not_mem v.revision.toInt).1
  by_cases h1 : v.major > 0
  · exact ⟨[intDec v.major.toInt, intDec v.minor.toInt, intDec v.patch.toInt], intDec v.revision.toInt, by simp, by simp [d1, d2, d3],
      d4, by simp [string, write, h1, hl, hs]⟩
  · by_cases h2 : v.minor > 0
    · exact ⟨[[], intDec v.minor.toInt, intDec v.patch.toInt], intDec v.revision.toInt, by simp, by simp [d2, d3],
        d4, by simp [string, write, h1, h2, hl, hs]⟩
    · by_cases h3 : v.patch > 0
      · exact ⟨[[], intDec v.patch.toInt], intDec v.revision.toInt, by simp, by simp [d3],
          d4, by simp [string, write, h1, h2, h3, hl, hs]⟩
      · by_cases h4 : v.revision > 0
        · exact ⟨[[]], intDec v.revision.toInt, by simp, by simp,
            d4, by simp [string, write, h1, h2, h3, h4, hl, hs]⟩
        · exact ⟨[], [], by simp, by simp, by simp, by simp [string, write, h1, h2, h3, h4, hl, hs]⟩

/-- C35 refuted for suffixes: no version with a suffix can be read back; Parse always fails on its text. -/
theorem C35_refuted_suffix (v : Version) (hs : v.suffix ≠ []) : (({} : Version).parse v.string).2 = true := by
  obtain ⟨pre, last, h1, h2, h3, h4⟩ := string_suffix v hs
  rw [h4]
  apply parse_err_of_loop rfl (by simp)
  -- the piece with the space
  rcases split_first v.suffix 46 with hd | ⟨a, r, ha, hr⟩
  · have := loop_err 4 0 {} pre (last ++ 32 :: v.suffix) [] h1 h2 (by simp [h3, hd]) (atoi_space (by simp)) (Or.inl (by simp)) (Or.inl rfl)
    simpa using this
  · have := loop_err 4 0 {} pre (last ++ 32 :: a) (46 :: r) h1 h2 (by simp [h3, ha]) (atoi_space (by simp)) (Or.inl (by simp))
      (Or.inr ⟨r, rfl⟩)
    rw [hr]; simpa using this

/-- C35 refuted for Major = 0: a version such as 0.5 prints as ".5.0.0", which Parse rejects. -/
theorem C35_refuted_major_zero (v : Version) (h0 : ¬ v.major > 0) (hs : v.suffix = [])
    (hpos : v.minor > 0 ∨ v.patch > 0 ∨ v.revision > 0) : (({} : Version).parse v.string).2 = true := by
  have hstr : ∃ r, v.string = 46 :: r := by
    by_cases h2 : v.minor > 0
    · exact ⟨_, by simp [string, write, h0, h2, hs]; rfl⟩
    · by_cases h3 : v.patch > 0
      · exact ⟨_, by simp [string, write, h0, h2, h3, hs]; rfl⟩
      · have h4 : v.revision > 0 := by simp [h2, h3] at hpos; exact hpos
        exact ⟨_, by simp [string, write, h0, h2, h3, h4, hs]; rfl⟩
  obtain ⟨r, hr⟩ := hstr
  rw [hr]
  exact parse_err_of_loop rfl (by simp) (loop_err 4 0 {} [] [] (46 :: r) (by simp) (by simp) (by simp) rfl (Or.inr (by simp)) (Or.inr ⟨r, rfl⟩))

example : ({} : Version).parse (ascii "0.5") = ({ minor := 5, p := true }, false) ∧
    ({ minor := 5, p := true } : Version).string = ascii ".5.0.0" := by decide +kernel

/-! ### C36 -/

theorem dotParts_no_dot (s : Bytes) (h : (46 : UInt8) ∉ s) : Spec.dotParts s = [s] := by
  induction s with
  | nil => rfl
  | cons c cs ih =>
    simp only [List.mem_cons, not_or] at h
    rw [Spec.dotParts, if_neg (Ne.symm h.1), ih h.2]

theorem dotParts_dot (d r : Bytes) (h : (46 : UInt8) ∉ d) : Spec.dotParts (d ++ 46 :: r) = d :: Spec.dotParts r := by
  induction d with
  | nil => rfl
  | cons c cs ih =>
    simp only [List.mem_cons, not_or] at h
    rw [List.cons_append, Spec.dotParts, if_neg (Ne.symm h.1), ih h.2]

theorem reads_parts (n i : Nat) (v : Version) (s : Bytes) (hok : (parseLoop n i v s).2.2 = false) :
    ∀ j, j < n → ∀ part, (Spec.dotParts s)[j]? = some part → part ≠ [] → ∃ d, atoi part = some d ∧ (reads n s)[j]? = some d := by
  induction n generalizing i v s with
  | zero => intro j hj; omega
  | succ n ih =>
    intro j hj part hp hne
    rcases split_first s 46 with h | ⟨d, r, h, rfl⟩
    · rw [dotParts_no_dot s h] at hp
      cases j with
      | succ j => simp at hp
      | zero =>
        simp at hp; subst hp
        rw [parseLoop_last n i v s h hne] at hok
        rw [reads, if_pos (Or.inr (List.length_pos_iff.2 hne)), show indexByte s 46 = none from indexByte_none h]
        simp only [Option.getD_none, List.take_length]
        cases ha : atoi s with
        | none => rw [ha] at hok; cases hok
        | some x => exact ⟨x, rfl, rfl⟩
    · rw [dotParts_dot d r h] at hp
      rw [parseLoop_dot n i v d r h] at hok
      rw [reads, show indexByte (d ++ 46 :: r) 46 = some d.length from indexByte_append h, if_pos (Or.inl (by simp))]
      simp only [Option.getD_some, List.take_left, List.length_append, List.length_cons]
      rw [if_pos (by omega), show (d ++ 46 :: r).drop (d.length + 1) = r by simp]
      cases ha : atoi d with
      | none => rw [ha] at hok; cases hok
      | some x =>
        rw [ha] at hok
        cases j with
        | zero => simp at hp; subst hp; exact ⟨x, ha, rfl⟩
        | succ j =>
          simp only [List.getElem?_cons_succ] at hp ⊢
          exact ih (i + 1) _ r hok j (by omega) part hp hne

theorem comps_assign_get (v : Version) (ds : List Int) (hl : ds.length ≤ 4) (j : Nat) (d : Int) (h : ds[j]? = some d) :
    (Spec.comps (assign 0 v ds))[j]? = some (Int32.ofInt d).toInt := by
  have hj : j < ds.length := by
    rcases Nat.lt_or_ge j ds.length with h' | h'
    · exact h'
    · rw [List.getElem?_eq_none h'] at h; cases h
  have hj4 : j < 4 := by omega
  match ds, hl with
  | [], _ => simp at hj
  | [a], _ => simp at hj; subst hj; simp at h; subst h; rfl
  | [a, b], _ =>
    match j, hj with
    | 0, _ => simp at h; subst h; rfl
    | 1, _ => simp at h; subst h; rfl
  | [a, b, c], _ =>
    match j, hj with
    | 0, _ => simp at h; subst h; rfl
    | 1, _ => simp at h; subst h; rfl
    | 2, _ => simp at h; subst h; rfl
  | [a, b, c, e], _ =>
    match j, hj with
    | 0, _ => simp at h; subst h; rfl
    | 1, _ => simp at h; subst h; rfl
    | 2, _ => simp at h; subst h; rfl
    | 3, _ => simp at h; subst h; rfl
  | _ :: _ :: _ :: _ :: _ :: _, h => simp at h

/-- C36 (what holds): after a successful Parse the j-th component is the number of the j-th dot-separated piece reduced to 32 bits,
hence the number itself when that fits. -/
theorem C36_components_partial (v : Version) (hv : v.p = false) (s : Bytes) (v' : Version) (h : v.parse s = (v', false))
    (j : Nat) (hj : j < 4) (part : Bytes) (hp : (Spec.dotParts s)[j]? = some part) (hne : part ≠ []) :
    ∃ d, atoi part = some d ∧ (Spec.comps v')[j]? = some (Int.bmod d (2 ^ 32)) ∧
      (-2 ^ 31 ≤ d → d < 2 ^ 31 → (Spec.comps v')[j]? = some d) := by
  have hs : s ≠ [] := by
    rintro rfl
    have : (Spec.dotParts [])[j]? = some part := hp
    cases j with
    | zero => simp [Spec.dotParts] at this; exact hne this
    | succ j => simp [Spec.dotParts] at this
  unfold parse at h
  rw [hv, if_neg (by simp), if_pos (List.length_pos_iff.2 hs)] at h
  have ha := (parseLoop_assign 4 0 v v s).1
  have hr := reads_parts 4 0 v s
  revert h ha hr
  rcases parseLoop 4 0 v s with ⟨a, b, c⟩
  cases c with
  | true => intro h; simp at h
  | false =>
    intro h ha hr
    obtain ⟨d, hd1, hd2⟩ := hr rfl j hj part hp hne
    have hc := comps_assign_get v (reads 4 s) (reads_length 4 s) j d hd2
    simp only at ha
    rw [← ha] at hc
    have hv' : Spec.comps v' = Spec.comps a := by
      simp only [Prod.mk.injEq, and_true] at h
      rw [← h]
      split
      · split <;> rfl
      · rfl
    refine ⟨d, hd1, by rw [hv', hc, Int32.toInt_ofInt], fun h1 h2 => ?_⟩
    rw [hv', hc, Int32.toInt_ofInt_small d h1 h2]

/-- C36 refuted: Parse succeeds on "4294967296" and stores Major = 0, on "2147483648" it stores a negative Major. -/
theorem C36_refuted :
    (({} : Version).parse (ascii "4294967296.7")) = ({ major := 0, minor := 7, p := true }, false) ∧
    (({} : Version).parse (ascii "2147483648")) = ({ major := -2147483648, p := true }, false) := by decide

example : (({} : Version).parse (ascii "10.0.7")).2 = false ∧ (Spec.dotParts (ascii "10.0.7"))[2]? = some (ascii "7") := by decide

/-! ### C54 -/

/-- C54 refuted: appending to a non-empty buffer, the zero version writes nothing although String() is "0". -/
theorem C54_refuted : ∃ (v : Version) (dst : Bytes), v.write dst ≠ dst ++ v.string :=
  ⟨{}, ascii "v", by decide⟩

/-- C54, what holds: Write appends exactly String() unless all components are non-positive and the suffix is empty. -/
theorem C54_write_appends_partial (v : Version) (dst : Bytes)
    (h : v.major > 0 ∨ v.minor > 0 ∨ v.patch > 0 ∨ v.revision > 0 ∨ v.suffix ≠ []) : v.write dst = dst ++ v.string := by
  have n1 := intDec_ne_nil v.major.toInt
  by_cases h1 : v.major > 0
  · by_cases h5 : 0 < v.suffix.length <;> simp [string, write, h1, h5, n1]
  by_cases h2 : v.minor > 0
  · by_cases h5 : 0 < v.suffix.length <;> simp [string, write, h1, h2, h5]
  by_cases h3 : v.patch > 0
  · by_cases h5 : 0 < v.suffix.length <;> simp [string, write, h1, h2, h3, h5]
  by_cases h4 : v.revision > 0
  · by_cases h5 : 0 < v.suffix.length <;> simp [string, write, h1, h2, h3, h4, h5]
  have h5 : v.suffix ≠ [] := by
    rcases h with h | h | h | h | h
    · exact absurd h h1
    · exact absurd h h2
    · exact absurd h h3
    · exact absurd h h4
    · exact h
  have h6 : v.suffix.length > 0 := List.length_pos_iff.2 h5
  simp [string, write, h1, h2, h3, h4, h6, h5]

example : ({ major := 3 } : Version).major > 0 := by decide

end Verif
