import Verif.Proofs.GoSource
/-
What the pieces of emitted source mean.
-/
namespace Verif.Go
open Compiler

/-- The text `s` consists of the trees `l`. -/
def Reads (a : Bool) (s : Bytes) (l : List Tree) (b : Bool) : Prop := ∃ ts, Run .idle a s ts .idle b ∧ Build ts l

theorem Reads.append {a b c s s' l l'} (h : Reads a s l b) (h' : Reads b s' l' c) : Reads a (s ++ s') (l ++ l') c := by
  obtain ⟨ts, h1, h2⟩ := h
  obtain ⟨ts', h1', h2'⟩ := h'
  exact ⟨ts ++ ts', h1.append h1', h2.append h2'⟩

theorem Reads.nil {a} : Reads a [] [] a := ⟨[], Run.nil, Build.nil⟩

theorem Reads.flatMap {α : Type} {f : α → Bytes} {g : α → List Tree} {a : Bool} (xs : List α) (h : ∀ x ∈ xs, Reads a (f x) (g x) a) :
    Reads a (xs.flatMap f) (xs.flatMap g) a := by
  induction xs with
  | nil => exact .nil
  | cons x xs ih => exact (h x (List.mem_cons_self ..)).append (ih fun y hy => h y (List.mem_cons_of_mem _ hy))

/-- Text between brackets. -/
theorem Reads.group {a b c d : Bool} {o : UInt8} (ho : o = 40 ∨ o = 91 ∨ o = 123) {s1 s s2 : Bytes} {l : List Tree}
    (h1 : Run .idle a s1 [.sym o] .idle b) (h : Reads b s l c) (h2 : Run .idle c s2 [.sym (closer o)] .idle d) :
    Reads a (s1 ++ (s ++ s2)) [.group o l] d := by
  obtain ⟨ts, h3, h4⟩ := h
  exact ⟨_, h1.append (h3.append h2), Build.group ho h4⟩

theorem Reads.toks {a b : Bool} {s : Bytes} {ts : List Tok} (h : Run .idle a s ts .idle b) (hp : ts.all plain = true) : Reads a s (ts.map .tok) b :=
  ⟨ts, h, Build.toks hp⟩

/-! ### Numbers -/

/-- The trees of a number. -/
def num (v : Int) : List Tree := (numToks v).map .tok

theorem build_num (v : Int) : Build (numToks v) (num v) := Build.toks (by unfold numToks; split <;> rfl)

theorem noSep_num {c : UInt8} (hc : c ≠ 45) (v : Int) : noSep c (num v) := by
  intro t ht
  unfold num numToks at ht
  split at ht <;> simp only [List.map_cons, List.map_nil, List.mem_cons, List.not_mem_nil, or_false] at ht
  · rcases ht with rfl | rfl
    · intro h
      injection h with h
      injection h with h
      exact hc h.symm
    · intro h; injection h with h; cases h
  · subst ht; intro h; injection h with h; cases h

theorem num_ne_nil (v : Int) : num v ≠ [] := by
  unfold num numToks
  split <;> simp

theorem intIn_num {lo hi v : Int} (h1 : lo ≤ v) (h2 : v ≤ hi) : intIn lo hi (num v) = some v := by
  unfold num numToks
  split
  · rename_i h
    show (if lo ≤ -(v.natAbs : Int) ∧ -(v.natAbs : Int) ≤ hi then some (-(v.natAbs : Int)) else none) = _
    rw [show (-(v.natAbs : Int)) = v by omega, if_pos ⟨h1, h2⟩]
  · rename_i h
    show (if lo ≤ (v.natAbs : Int) ∧ (v.natAbs : Int) ≤ hi then some (v.natAbs : Int) else none) = _
    rw [show ((v.natAbs : Nat) : Int) = v by omega, if_pos ⟨h1, h2⟩]

theorem uint64_num (x : UInt64) : uint64 (num x.toNat) = some x := by
  have := x.toNat_lt
  unfold uint64
  rw [intIn_num (by omega) (by omega), Option.map_some, Int.toNat_natCast, UInt64.ofNat_toNat]

theorem byte_num (x : UInt8) : byte (num x.toNat) = some x := by
  have := x.toNat_lt
  unfold byte
  rw [intIn_num (by omega) (by omega), Option.map_some, Int.toNat_natCast, UInt8.ofNat_toNat]

theorem int32_num {i : Int} (h1 : -2 ^ 31 < i) (h2 : i < 2 ^ 31) : int32 (num i) = some i := intIn_num (by omega) (by omega)

theorem int8_num (i : Int8) : int8 (num i.toInt) = some i := by
  unfold int8
  have h1 : -128 ≤ i.toInt := i.le_toInt
  have h2 : i.toInt < 128 := i.toInt_lt
  rw [intIn_num h1 (by omega), Option.map_some, Int8.ofInt_toInt]

/-! ### Structures -/

/-- A field name or variable. -/
def nameOK (f : String) : Bool := isIdent (ascii f) && !keywords.contains (ascii f)

theorem name_then {f : String} (hf : nameOK f = true) {a t ts m b} (hd : delimHead t = true) (ht : Run .idle true t ts m b) :
    Run .idle a (ascii f ++ t) (.ident (ascii f) :: ts) m b := by
  simp only [nameOK, Bool.and_eq_true, Bool.not_eq_true'] at hf
  refine ident_then hf.1 ?_ ?_ (by rw [hf.2]; exact ht)
  · cases t with
    | nil => cases hd
    | cons c t =>
      intro x hx
      obtain rfl : c = x := by simpa using hx
      have : delim c = true := hd
      simp only [delim, Bool.and_eq_true, Bool.not_eq_true'] at this
      simp [this.1.1, this.1.2]
  · rintro rfl; cases hd

/-- A field with the text of its value and the value. -/
abbrev Field := String × Bytes × Int

def Field.OK (x : Field) : Prop := nameOK x.1 = true ∧ NumText x.2.1 x.2.2

def Field.toks (x : Field) : List Tok := .ident (ascii x.1) :: .sym 58 :: numToks x.2.2
def Field.trees (x : Field) : List Tree := .tok (.ident (ascii x.1)) :: .tok (.sym 58) :: num x.2.2

theorem Field.build (x : Field) : Build x.toks x.trees := by
  have h : Build [.ident (ascii x.1), .sym 58] [.tok (.ident (ascii x.1)), .tok (.sym 58)] := Build.toks (ts := [.ident (ascii x.1), .sym 58]) rfl
  exact h.append (build_num x.2.2)

theorem Field.noSep (x : Field) : Go.noSep 44 x.trees := by
  intro t ht
  rcases List.mem_cons.mp ht with rfl | ht
  · intro h; injection h with h; cases h
  · rcases List.mem_cons.mp ht with rfl | ht
    · intro h; injection h with h; injection h with h; exact absurd h (by decide)
    · exact noSep_num (by decide) _ t ht

theorem field_then {x : Field} (hx : x.OK) {a t ts m b} (hd : delimHead t = true) (ht : Run .idle true t ts m b) :
    Run .idle a (ascii x.1 ++ ascii ":" ++ x.2.1 ++ t) (x.toks ++ ts) m b := by
  have h1 : Run .idle true (ascii ":" ++ (x.2.1 ++ t)) ([.sym 58] ++ (numToks x.2.2 ++ ts)) m b :=
    Run.append (m' := .idle) (b := false) (by decide) (hx.2.then hd ht)
  have := name_then hx.1 (a := a) (t := ascii ":" ++ (x.2.1 ++ t)) rfl h1
  simp only [List.append_assoc]
  exact this

theorem fields_rest {xs : List Field} (h : ∀ x ∈ xs, x.OK) :
    Run .idle true (xs.flatMap (fun x => ascii "," ++ ascii x.1 ++ ascii ":" ++ x.2.1) ++ ascii "}")
      (xs.flatMap (fun x => .sym 44 :: x.toks) ++ [.sym 125]) .idle true ∧
    delimHead (xs.flatMap (fun x => ascii "," ++ ascii x.1 ++ ascii ":" ++ x.2.1) ++ ascii "}") = true := by
  induction xs with
  | nil => exact ⟨by decide, rfl⟩
  | cons x xs ih =>
    obtain ⟨h1, h2⟩ := ih fun y hy => h y (List.mem_cons_of_mem _ hy)
    have := field_then (h x (List.mem_cons_self ..)) (a := false) h2 h1
    have c : Run .idle true (ascii ",") [.sym 44] .idle false := by decide
    refine ⟨?_, rfl⟩
    have r := c.append this
    simp only [List.flatMap_cons, List.append_assoc, List.cons_append, List.nil_append] at r ⊢
    exact r

/-- A structure. -/
def tupleTrees (name : String) : List Field → List Tree
  | [] => []
  | x :: xs => [.tok (.ident (ascii name)), .group 123 (x.trees ++ xs.flatMap fun y => .tok (.sym 44) :: y.trees)]

theorem reads_tuple {name : String} (hn : nameOK name = true) {x : Field} {xs : List Field} (h : ∀ y ∈ x :: xs, y.OK) (a : Bool) :
    Reads a (sprintTuple name ((x :: xs).map fun y => (y.1, y.2.1))) (tupleTrees name (x :: xs)) true := by
  obtain ⟨h1, h2⟩ := fields_rest fun y hy => h y (List.mem_cons_of_mem x hy)
  have h3 := field_then (h x (List.mem_cons_self ..)) (a := false) h2 h1
  have h4 : Run .idle true (ascii "{") [.sym 123] .idle false := by decide
  have h5 := name_then hn (a := a) rfl (h4.append h3)
  have e : sprintTuple name ((x :: xs).map fun y => (y.1, y.2.1)) =
      ascii name ++ (ascii "{" ++ (ascii x.1 ++ ascii ":" ++ x.2.1 ++
        (xs.flatMap (fun x => ascii "," ++ ascii x.1 ++ ascii ":" ++ x.2.1) ++ ascii "}"))) := by
    simp only [List.map_cons, sprintTuple, List.flatMap_map, List.append_assoc]
  rw [e]
  refine ⟨_, h5, ?_⟩
  have b0 : Build (xs.flatMap fun y => .sym 44 :: y.toks) (xs.flatMap fun y => .tok (.sym 44) :: y.trees) := by
    clear h h1 h2 h3 h4 h5 e
    induction xs with
    | nil => exact .nil
    | cons y ys ih => exact ((Build.tok (t := .sym 44) rfl).append y.build).append ih
  have b2 := (Build.tok (t := .ident (ascii name)) rfl).append (Build.group (c := 123) (by simp) (x.build.append b0))
  have e : [Tok.ident (ascii name)] ++ (Tok.sym 123 :: ((x.toks ++ xs.flatMap fun y => Tok.sym 44 :: y.toks) ++ [Tok.sym (closer 123)])) =
      Tok.ident (ascii name) :: ([Tok.sym 123] ++ (x.toks ++ (xs.flatMap (fun x => Tok.sym 44 :: x.toks) ++ [Tok.sym 125]))) := by
    simp [show closer 123 = 125 from rfl]
  rw [e] at b2
  exact b2

theorem struct_tuple {name : String} {known : List String} {x : Field} {xs : List Field} (hk : (x :: xs).map (·.1) = known)
    (hd : (known.map ascii).Nodup) : struct name known (tupleTrees name (x :: xs)) = some ((x :: xs).map fun y => (ascii y.1, num y.2.2)) := by
  have h1 : items 44 (x.trees ++ xs.flatMap fun y => .tok (.sym 44) :: y.trees) = (x :: xs).map Field.trees :=
    items_sep x xs (fun y _ => y.noSep) (fun y h => by cases h)
  have h2 : allM keyed ((x :: xs).map Field.trees) = some ((x :: xs).map fun y => (ascii y.1, num y.2.2)) := allM_map _ fun y _ => rfl
  have e : ((x :: xs).map fun y => (ascii y.1, num y.2.2)).map (·.1) = known.map ascii := by
    rw [← hk, List.map_map, List.map_map]; rfl
  simp only [tupleTrees, struct, if_true, h1, h2]
  rw [if_pos]
  refine ⟨by rw [e]; exact hd, fun f hf => ?_⟩
  rw [← e]
  exact List.mem_map_of_mem hf

theorem noSep_tuple (c : UInt8) (name : String) (xs : List Field) : noSep c (tupleTrees name xs) := by
  cases xs with
  | nil => intro t ht; cases ht
  | cons x xs =>
    intro t ht
    simp only [tupleTrees, List.mem_cons, List.not_mem_nil, or_false] at ht
    rcases ht with rfl | rfl
    · intro h; injection h with h; cases h
    · intro h; cases h

/-! ### Lists of items -/

theorem reads_rows {α : Type} {f : α → Bytes} {g : α → List Tree} (xs : List α) (h : ∀ x ∈ xs, Reads false (f x) (g x) true) :
    Reads false (xs.flatMap fun x => f x ++ ascii ",\n") (xs.flatMap fun x => g x ++ [.tok (.sym 44)]) false :=
  Reads.flatMap xs fun x hx => (h x hx).append (Reads.toks (ts := [.sym 44]) (by decide) rfl)

/-- A declaration. -/
def decl (name : String) (v : List Tree) : List Tree := .tok (.ident (ascii name)) :: .tok (.sym 61) :: v ++ [.tok (.sym 59)]

theorem reads_decl {name : String} (hn : nameOK name = true) {s : Bytes} {v : List Tree} (h : Reads true s v true) (hs : delimHead s = true) :
    Reads false (ascii name ++ (s ++ ascii "\n")) (.tok (.ident (ascii name)) :: v ++ [.tok (.sym 59)]) false := by
  obtain ⟨ts, h1, h2⟩ := h
  have h3 : Run .idle true (ascii "\n") [.sym 59] .idle false := by decide
  refine ⟨_, name_then hn ?_ (h1.append h3), ?_⟩
  · cases s with
    | nil => cases hs
    | cons c s => exact hs
  · exact (Build.tok (t := .ident (ascii name)) rfl).append (h2.append (Build.tok (t := .sym 59) rfl))

theorem reads_brackets (a : Bool) : Reads a (ascii "[]") [.group 91 []] true := by
  have := Reads.group (a := a) (b := false) (c := false) (d := true) (o := 91) (by simp) (s1 := ascii "[") (s2 := ascii "]") (by cases a <;> decide) Reads.nil (by decide)
  exact this

theorem reads_eq : Reads true (ascii " = ") [.tok (.sym 61)] false := Reads.toks (ts := [.sym 61]) (by decide) rfl

/-- The body of a list, of any kind. -/
theorem reads_body {a : Bool} {s : Bytes} {l : List Tree} (h : Reads false s l false) : Reads a (ascii "{\n" ++ (s ++ ascii "}")) [.group 123 l] true :=
  Reads.group (b := false) (c := false) (by simp) (by cases a <;> decide) h (by decide)

theorem reads_name {name : String} (hn : nameOK name = true) {a b : Bool} {s : Bytes} {l : List Tree} (h : Reads true s l b) (hs : delimHead s = true) :
    Reads a (ascii name ++ s) (.tok (.ident (ascii name)) :: l) b := by
  obtain ⟨ts, h1, h2⟩ := h
  exact ⟨_, name_then hn hs h1, (Build.tok (t := .ident (ascii name)) rfl).append h2⟩

theorem reads_table {name type : String} (hn : nameOK name = true) (ht : nameOK type = true) {α : Type} {f : α → Bytes} {g : α → List Tree}
    (xs : List α) (h : ∀ x ∈ xs, Reads false (f x) (g x) true) :
    Reads false (emitTable name type (xs.map f))
      (decl name [.group 91 [], .tok (.ident (ascii type)), .group 123 (xs.flatMap fun x => g x ++ [.tok (.sym 44)])]) false := by
  have h1 := reads_name ht (a := true) (reads_body (reads_rows xs h)) rfl
  have h2 := reads_decl hn (reads_eq.append ((reads_brackets false).append h1)) rfl
  have e : emitTable name type (xs.map f) = ascii name ++ ((ascii " = " ++ (ascii "[]" ++ (ascii type ++ (ascii "{\n" ++
      ((xs.flatMap fun x => f x ++ ascii ",\n") ++ ascii "}"))))) ++ ascii "\n") := by
    unfold emitTable
    rw [List.flatMap_map, show ascii " = []" = ascii " = " ++ ascii "[]" from rfl, show ascii "}\n" = ascii "}" ++ ascii "\n" from rfl]
    simp only [List.append_assoc]
  rw [e]
  exact h2

/-! ### Buffers -/

def bufTrees (b : Bytes) : List Tree := b.flatMap fun x => num x.toNat ++ [.tok (.sym 44)]

theorem reads_buf (b : Bytes) (i : Nat) : Reads false (emitBuf i b) (bufTrees b) false := by
  induction b generalizing i with
  | nil => exact .nil
  | cons x b ih =>
    have h1 : Reads false (if i > 0 ∧ i % 16 = 0 then ascii "\n" else []) [] false := by
      split
      · exact Reads.toks (ts := []) (by decide) rfl
      · exact .nil
    have h2 : Run .idle true (ascii ", ") [.sym 44] .idle false := by decide
    have h3 : Reads false ((ascii "0x" ++ padZero 2 (hexNat x.toNat)) ++ ascii ", ") (num x.toNat ++ [.tok (.sym 44)]) false :=
      ⟨_, (num_pad 2 x.toNat).then rfl h2, (build_num _).append (Build.tok (t := .sym 44) rfl)⟩
    have := h1.append (h3.append (ih (i + 1)))
    simp only [emitBuf, bufTrees, List.flatMap_cons, List.append_assoc, List.nil_append] at this ⊢
    exact this

theorem reads_bytes {name : String} (hn : nameOK name = true) (b : Bytes) :
    Reads false (emitBytes name b) (decl name [.group 91 [], .tok (.ident (ascii "byte")), .group 123 (bufTrees b)]) false := by
  have h0 : Reads false (emitBuf 0 b ++ ascii "\n") (bufTrees b) false := by
    have := (reads_buf b 0).append (Reads.toks (a := false) (b := false) (s := ascii "\n") (ts := []) (by decide) rfl)
    simpa using this
  have h1 := reads_name (name := "byte") (by decide) (a := true) (reads_body h0) rfl
  have h2 := reads_decl hn (reads_eq.append ((reads_brackets false).append h1)) rfl
  have e : emitBytes name b = ascii name ++ ((ascii " = " ++ (ascii "[]" ++ (ascii "byte" ++ (ascii "{\n" ++
      ((emitBuf 0 b ++ ascii "\n") ++ ascii "}"))))) ++ ascii "\n") := by
    unfold emitBytes
    rw [show ascii " = []byte{\n" = ascii " = " ++ ascii "[]" ++ ascii "byte" ++ ascii "{\n" from rfl,
      show ascii "\n}\n" = ascii "\n" ++ ascii "}" ++ ascii "\n" from rfl]
    simp only [List.append_assoc]
  rw [e]
  exact h2

theorem bytes_spec (b : Bytes) : bytes [.group 91 [], .tok (.ident (ascii "byte")), .group 123 (bufTrees b)] = some b := by
  have h1 : items 44 (bufTrees b) = b.map fun x => num x.toNat := items_flatMap b fun x _ => noSep_num (by decide) _
  simp only [bytes, slice, if_true, h1]
  rw [allM_map (v := id) b fun x _ => byte_num x, List.map_id]

/-! ### Patterns -/

def patTrees (p : Bytes) : List Tree :=
  [.tok (.ident (ascii "regexp")), .tok (.sym 46), .tok (.ident (ascii "MustCompile")), .group 40 [.tok (.str p)]]

theorem reads_pat {p : Bytes} (hp : RawOK p) : Reads false (ascii "regexp.MustCompile(" ++ ((ascii "`" ++ p ++ ascii "`") ++ ascii ")")) (patTrees p) true := by
  have h1 : Run .idle false (ascii "regexp.MustCompile(") [.ident (ascii "regexp"), .sym 46, .ident (ascii "MustCompile"), .sym 40] .idle false := by
    decide
  have h2 : Run .idle true (ascii ")") [.sym 41] .idle true := by decide
  refine ⟨_, h1.append ((run_raw hp false).append h2), ?_⟩
  have b1 := Build.toks (ts := [.ident (ascii "regexp"), .sym 46, .ident (ascii "MustCompile")]) rfl
  exact b1.append (Build.group (c := 40) (by simp) (Build.tok (t := .str p) rfl))

theorem reads_res {name : String} (hn : nameOK name = true) {ps : List Bytes} (hp : ∀ p ∈ ps, RawOK p) :
    Reads false (emitRes name ps)
      (decl name [.group 91 [], .tok (.sym 42), .tok (.ident (ascii "regexp")), .tok (.sym 46), .tok (.ident (ascii "Regexp")),
        .group 123 (ps.flatMap fun p => patTrees p ++ [.tok (.sym 44)])]) false := by
  have h0 := reads_rows (f := fun p => ascii "regexp.MustCompile(" ++ ((ascii "`" ++ p ++ ascii "`") ++ ascii ")")) ps fun p h => reads_pat (hp p h)
  have h1 := reads_name (name := "Regexp") (by decide) (a := false) (reads_body h0) rfl
  have h2 : Reads true (ascii "*regexp.") [.tok (.sym 42), .tok (.ident (ascii "regexp")), .tok (.sym 46)] false :=
    Reads.toks (ts := [.sym 42, .ident (ascii "regexp"), .sym 46]) (by decide) rfl
  have h3 := reads_decl hn (reads_eq.append ((reads_brackets false).append (h2.append h1))) rfl
  have e : emitRes name ps = ascii name ++ ((ascii " = " ++ (ascii "[]" ++ (ascii "*regexp." ++ (ascii "Regexp" ++ (ascii "{\n" ++
      ((ps.flatMap fun p => (ascii "regexp.MustCompile(" ++ ((ascii "`" ++ p ++ ascii "`") ++ ascii ")")) ++ ascii ",\n") ++ ascii "}")))))) ++ ascii "\n") := by
    unfold emitRes
    rw [show ascii " = []*regexp.Regexp{\n" = ascii " = " ++ ascii "[]" ++ ascii "*regexp." ++ ascii "Regexp" ++ ascii "{\n" from rfl,
      show ascii "regexp.MustCompile(`" = ascii "regexp.MustCompile(" ++ ascii "`" from rfl,
      show ascii "`),\n" = ascii "`" ++ ascii ")" ++ ascii ",\n" from rfl, show ascii "}\n" = ascii "}" ++ ascii "\n" from rfl]
    simp only [List.append_assoc]
  rw [e]
  exact h3

theorem noSep_pat (p : Bytes) : noSep 44 (patTrees p) := by
  intro t ht
  simp only [patTrees, List.mem_cons, List.not_mem_nil, or_false] at ht
  rcases ht with rfl | rfl | rfl | rfl
  · intro h; injection h with h; cases h
  · intro h; injection h with h; injection h with h; exact absurd h (by decide)
  · intro h; injection h with h; cases h
  · intro h; cases h

theorem patterns_spec (ps : List Bytes) :
    patterns [.group 91 [], .tok (.sym 42), .tok (.ident (ascii "regexp")), .tok (.sym 46), .tok (.ident (ascii "Regexp")),
        .group 123 (ps.flatMap fun p => patTrees p ++ [.tok (.sym 44)])] = some ps := by
  have h1 := items_flatMap (c := 44) (f := patTrees) ps fun p _ => noSep_pat p
  have h2 : allM mustCompile (ps.map patTrees) = some (ps.map id) := allM_map ps fun p _ => rfl
  simp only [patterns, and_self, if_true, h1, h2, List.map_id]

/-! ### Tables -/

theorem slice_spec {α : Type} {type : String} {read : List Tree → Option α} {g : α → List Tree} (xs : List α)
    (hs : ∀ x ∈ xs, noSep 44 (g x)) (hr : ∀ x ∈ xs, read (g x) = some x) :
    slice type read [.group 91 [], .tok (.ident (ascii type)), .group 123 (xs.flatMap fun x => g x ++ [.tok (.sym 44)])] = some xs := by
  simp only [slice, if_true, items_flatMap xs hs]
  rw [allM_map (v := id) xs hr, List.map_id]

theorem inner_spec {α : Type} {read : List Tree → Option α} {g : α → List Tree} (xs : List α)
    (hs : ∀ x ∈ xs, noSep 44 (g x)) (hr : ∀ x ∈ xs, read (g x) = some x) :
    inner read [.group 123 (xs.flatMap fun x => g x ++ [.tok (.sym 44)])] = some xs := by
  simp only [inner, items_flatMap xs hs]
  rw [allM_map (v := id) xs hr, List.map_id]

theorem reads_line {name : Bytes} (h : LineOK name) : Reads false (ascii "// " ++ name ++ ascii "\n") [] false := by
  have : LineOK (ascii " " ++ name) := by
    intro c hc
    rcases List.mem_append.mp hc with hc | hc
    · obtain rfl : c = 32 := by simpa [show ascii " " = [32] from rfl] using hc
      decide
    · exact h c hc
  have := run_comment this
  rw [show ascii "// " = ascii "//" ++ ascii " " from rfl]
  refine ⟨[], ?_, .nil⟩
  simpa only [List.append_assoc] using this

theorem reads_file {α : Type} {f : α → Bytes} {g : α → List Tree} {name : Bytes} (hn : LineOK name) (xs : List α)
    (h : ∀ x ∈ xs, Reads false (f x) (g x) true) :
    Reads false (emitFile name (xs.map f)) [.group 123 (xs.flatMap fun x => g x ++ [.tok (.sym 44)]), .tok (.sym 44)] false := by
  have h1 := (reads_line hn).append ((reads_body (a := false) (reads_rows xs h)).append
    (Reads.toks (a := true) (b := false) (s := ascii ",\n") (ts := [.sym 44]) (by decide) rfl))
  have e : emitFile name (xs.map f) = ascii "// " ++ name ++ ascii "\n" ++ ((ascii "{\n" ++ ((xs.flatMap fun x => f x ++ ascii ",\n") ++ ascii "}")) ++ ascii ",\n") := by
    unfold emitFile
    rw [List.flatMap_map, show ascii "},\n" = ascii "}" ++ ascii ",\n" from rfl]
    simp only [List.append_assoc]
  rw [e]
  exact h1

theorem reads_size (n : Nat) : Reads false (ascii "[" ++ (natDec n ++ ascii "]")) [.group 91 [.tok (.int n)]] true := by
  have h1 : Run .idle true (ascii "]") [.sym 93] .idle true := by decide
  have h2 : Run .idle false (ascii "[") [.sym 91] .idle false := by decide
  exact ⟨_, h2.append (natDec_then n rfl h1), Build.group (c := 91) (ts := [.int n]) (by simp) (Build.tok rfl)⟩

/-- The trees of a table with one list per file. -/
def filesTrees {α : Type} (g : α → List Tree) (fs : List (Bytes × List α)) : List Tree :=
  fs.flatMap fun f => [.group 123 (f.2.flatMap fun x => g x ++ [.tok (.sym 44)])] ++ [.tok (.sym 44)]

theorem reads_files {α : Type} {f : α → Bytes} {g : α → List Tree} {name type : String} (hn : nameOK name = true) (ht : nameOK type = true)
    (fs : List (Bytes × List α)) (hl : ∀ x ∈ fs, LineOK x.1) (h : ∀ x ∈ fs, ∀ y ∈ x.2, Reads false (f y) (g y) true) :
    Reads false (emitFiles name type (fs.map fun x => (x.1, x.2.map f)))
      (decl name [.group 91 [.tok (.int fs.length)], .group 91 [], .tok (.ident (ascii type)), .group 123 (filesTrees g fs)]) false := by
  have h0 : Reads false (fs.flatMap fun x => emitFile x.1 (x.2.map f)) (filesTrees g fs) false :=
    Reads.flatMap fs fun x hx => reads_file (hl x hx) x.2 (h x hx)
  have h1 := reads_name ht (a := true) (reads_body h0) rfl
  have h2 := reads_decl hn (reads_eq.append ((reads_size fs.length).append ((reads_brackets true).append h1))) rfl
  have e : emitFiles name type (fs.map fun x => (x.1, x.2.map f)) = ascii name ++ ((ascii " = " ++ ((ascii "[" ++ (natDec fs.length ++ ascii "]")) ++
      (ascii "[]" ++ (ascii type ++ (ascii "{\n" ++ ((fs.flatMap fun x => emitFile x.1 (x.2.map f)) ++ ascii "}")))))) ++ ascii "\n") := by
    unfold emitFiles
    rw [List.flatMap_map, List.length_map, show ascii " = [" = ascii " = " ++ ascii "[" from rfl, show ascii "][]" = ascii "]" ++ ascii "[]" from rfl,
      show ascii "}\n" = ascii "}" ++ ascii "\n" from rfl]
    simp only [List.append_assoc]
  rw [e]
  exact h2

theorem array_spec {α : Type} {read : List Tree → Option α} {g : α → List Tree} {type : String} (fs : List (Bytes × List α))
    (hs : ∀ x ∈ fs, ∀ y ∈ x.2, noSep 44 (g y)) (hr : ∀ x ∈ fs, ∀ y ∈ x.2, read (g y) = some y) :
    array type read [.group 91 [.tok (.int fs.length)], .group 91 [], .tok (.ident (ascii type)), .group 123 (filesTrees g fs)] = some (fs.map (·.2)) := by
  have h1 : items 44 (filesTrees g fs) = fs.map fun f => [.group 123 (f.2.flatMap fun x => g x ++ [.tok (.sym 44)])] :=
    items_flatMap fs fun f _ t ht => by
      obtain rfl := List.mem_singleton.mp ht
      intro h; cases h
  have h2 : allM (inner read) (fs.map fun f => [.group 123 (f.2.flatMap fun x => g x ++ [.tok (.sym 44)])]) = some (fs.map (·.2)) :=
    allM_map fs fun f hf => inner_spec f.2 (hs f hf) (hr f hf)
  simp only [array, if_true, h1, h2, List.length_map, Nat.le_refl, Nat.sub_self, List.replicate_zero, List.append_nil]

/-! ### Engine functions -/

/-- `return e`. -/
def retTrees (e : Entry64) : List Tree := .tok (.ident (ascii "return")) :: num e.toNat

def caseTrees (c : Bytes × Entry64) : List Tree :=
  [.tok (.ident (ascii "if")), .tok (.ident (ascii "s")), .tok .ge, .tok (.str c.1), .group 123 (retTrees c.2)]

def efTrees (f : EngineFn) : List Tree :=
  [.tok (.ident (ascii "func")), .group 40 [.tok (.ident (ascii "s")), .tok (.ident (ascii "string"))], .tok (.ident (ascii "entry")), .tok (.sym 46),
    .tok (.ident (ascii "Entry64")), .group 123 ((f.cases.map caseTrees ++ [retTrees f.default]).flatMap fun x => x ++ [.tok (.sym 59)])]

theorem build_ret (e : Entry64) : Build (.ident (ascii "return") :: numToks e.toNat) (retTrees e) :=
  (Build.tok (t := .ident (ascii "return")) rfl).append (build_num _)

theorem reads_case {c : Bytes × Entry64} (h : QuotedOK c.1) :
    Reads false (ascii "if s>=\"" ++ c.1 ++ ascii "\"{return " ++ hex64 c.2 ++ ascii "}\n") (caseTrees c ++ [.tok (.sym 59)]) false := by
  have h1 : Run .idle false (ascii "if s>=") [.ident (ascii "if"), .ident (ascii "s"), .ge] .idle false := by decide
  have h2 : Run .idle true (ascii "{return ") [.sym 123, .ident (ascii "return")] .idle true := by decide
  have h3 : Run .idle true (ascii "}\n") [.sym 125, .sym 59] .idle false := by decide
  have h4 := h1.append ((run_quoted h false).append (h2.append ((num64 c.2).then (a := true) rfl h3)))
  have e : ascii "if s>=\"" ++ c.1 ++ ascii "\"{return " ++ hex64 c.2 ++ ascii "}\n" =
      ascii "if s>=" ++ ((ascii "\"" ++ c.1 ++ ascii "\"") ++ (ascii "{return " ++ (hex64 c.2 ++ ascii "}\n"))) := by
    rw [show ascii "if s>=\"" = ascii "if s>=" ++ ascii "\"" from rfl, show ascii "\"{return " = ascii "\"" ++ ascii "{return " from rfl]
    simp only [List.append_assoc]
  rw [e]
  refine ⟨_, h4, ?_⟩
  have b1 := Build.toks (ts := [.ident (ascii "if"), .ident (ascii "s"), .ge, .str c.1]) rfl
  have b2 := b1.append ((Build.group (c := 123) (by simp) (build_ret c.2)).append (Build.tok (t := .sym 59) rfl))
  simpa [closer, caseTrees] using b2

theorem reads_ef {f : EngineFn} (h : ∀ c ∈ f.cases, QuotedOK c.1) : Reads false (emitEf f) (efTrees f) true := by
  have h1 : Run .idle false (ascii "func(s string) entry.Entry64 {\n") [.ident (ascii "func"), .sym 40, .ident (ascii "s"), .ident (ascii "string"), .sym 41,
      .ident (ascii "entry"), .sym 46, .ident (ascii "Entry64"), .sym 123] .idle false := by decide
  obtain ⟨ts, h2, b2⟩ := Reads.flatMap (a := false) f.cases (g := fun c => caseTrees c ++ [.tok (.sym 59)]) fun c hc => reads_case (h c hc)
  have h3 : Run .idle false (ascii "return ") [.ident (ascii "return")] .idle true := by decide
  have h4 : Run .idle true (ascii "\n" ++ ascii "}") [.sym 59, .sym 125] .idle true := by decide
  have h5 := h1.append (h2.append (h3.append ((num64 f.default).then (a := true) rfl h4)))
  have e : emitEf f = ascii "func(s string) entry.Entry64 {\n" ++
      ((f.cases.flatMap fun c => ascii "if s>=\"" ++ c.1 ++ ascii "\"{return " ++ hex64 c.2 ++ ascii "}\n") ++
        (ascii "return " ++ (hex64 f.default ++ (ascii "\n" ++ ascii "}")))) := by
    unfold emitEf
    simp only [List.append_assoc]
  rw [e]
  refine ⟨_, h5, ?_⟩
  have g1 := Build.group (c := 40) (by simp) (Build.toks (ts := [.ident (ascii "s"), .ident (ascii "string")]) rfl)
  have g2 := Build.toks (ts := [.ident (ascii "entry"), .sym 46, .ident (ascii "Entry64")]) rfl
  have g3 := Build.group (c := 123) (by simp) (b2.append ((build_ret f.default).append (Build.tok (t := .sym 59) rfl)))
  have g4 := (Build.tok (t := .ident (ascii "func")) rfl).append (g1.append (g2.append g3))
  have e1 : (f.cases.map caseTrees ++ [retTrees f.default]).flatMap (fun x => x ++ [Tree.tok (.sym 59)]) =
      f.cases.flatMap (fun c => caseTrees c ++ [.tok (.sym 59)]) ++ (retTrees f.default ++ [.tok (.sym 59)]) := by
    rw [List.flatMap_append, List.flatMap_map, List.flatMap_singleton]
  unfold efTrees
  rw [e1]
  simpa [closer] using g4

theorem noSep_ret {c : UInt8} (hc : c ≠ 45) (e : Entry64) : noSep c (retTrees e) := by
  intro t ht
  rcases List.mem_cons.mp ht with rfl | ht
  · intro h; injection h with h; cases h
  · exact noSep_num hc _ t ht

theorem returns_spec (e : Entry64) : returns (retTrees e) = some e := by
  simp only [retTrees, returns, if_true, uint64_num]

theorem ifGe_spec (c : Bytes × Entry64) : ifGe (caseTrees c) = some c := by
  have h : items 59 (retTrees c.2) = [retTrees c.2] := by
    unfold items
    rw [splitAt_single (noSep_ret (by decide) _)]
    rfl
  simp only [caseTrees, ifGe, and_self, if_true, h, returns_spec, Option.map_some]

theorem engineFn_spec (f : EngineFn) : engineFn (efTrees f) = some (f.cases, f.default) := by
  have h1 : items 59 ((f.cases.map caseTrees ++ [retTrees f.default]).flatMap fun x => x ++ [.tok (.sym 59)]) = f.cases.map caseTrees ++ [retTrees f.default] := by
    have := items_flatMap (c := 59) (f := id) (f.cases.map caseTrees ++ [retTrees f.default]) fun x hx => by
      rcases List.mem_append.mp hx with hx | hx
      · obtain ⟨c, _, rfl⟩ := List.mem_map.mp hx
        intro t ht
        simp only [id, caseTrees, List.mem_cons, List.not_mem_nil, or_false] at ht
        rcases ht with rfl | rfl | rfl | rfl | rfl <;> intro h <;> first | (injection h with h; cases h) | cases h
      · rw [List.mem_singleton] at hx
        subst hx
        exact noSep_ret (by decide) _
    simpa using this
  have h2 : allM ifGe (f.cases.map caseTrees) = some (f.cases.map id) := allM_map f.cases fun c _ => ifGe_spec c
  simp only [efTrees, engineFn, and_self, if_true, h1, List.reverse_append, List.reverse_cons, List.reverse_nil, List.nil_append, List.singleton_append,
    List.reverse_reverse, h2, returns_spec, List.map_id]

theorem noSep_ef (f : EngineFn) : noSep 44 (efTrees f) := by
  intro t ht
  simp only [efTrees, List.mem_cons, List.not_mem_nil, or_false] at ht
  rcases ht with rfl | rfl | rfl | rfl | rfl | rfl
  · intro h; injection h with h; cases h
  · intro h; cases h
  · intro h; injection h with h; cases h
  · intro h; injection h with h; injection h with h; exact absurd h (by decide)
  · intro h; injection h with h; cases h
  · intro h; cases h

/-! ### Maps -/

def pairTrees (k v : Int) : List Tree := num k ++ [.tok (.sym 58)] ++ num v

theorem reads_pair {k v : Int} {s t : Bytes} (hs : NumText s k) (ht : NumText t v) :
    Reads false (s ++ ascii ":" ++ t ++ ascii ",\n") (pairTrees k v ++ [.tok (.sym 44)]) false := by
  have h1 : Run .idle true (ascii ",\n") [.sym 44] .idle false := by decide
  have h2 : Run .idle true (ascii ":") [.sym 58] .idle false := by decide
  have h3 := hs.then (a := false) (t := ascii ":" ++ (t ++ ascii ",\n")) rfl (h2.append (ht.then (a := false) rfl h1))
  refine ⟨_, by simpa only [List.append_assoc] using h3, ?_⟩
  have := (build_num k).append ((Build.tok (t := .sym 58) rfl).append ((build_num v).append (Build.tok (t := .sym 44) rfl)))
  simpa [pairTrees] using this

theorem noSep_pair (k v : Int) : noSep 44 (pairTrees k v) := by
  intro t ht
  simp only [pairTrees, List.mem_append, List.mem_singleton] at ht
  rcases ht with (ht | rfl) | ht
  · exact noSep_num (by decide) _ t ht
  · intro h; injection h with h; injection h with h; exact absurd h (by decide)
  · exact noSep_num (by decide) _ t ht

theorem pair_spec {α β : Type} {rk : List Tree → Option α} {rv : List Tree → Option β} {k v : Int} {a : α} {b : β}
    (hk : rk (num k) = some a) (hv : rv (num v) = some b) : pair rk rv (pairTrees k v) = some (a, b) := by
  have : splitAt 58 (pairTrees k v) = [num k, num v] := by
    unfold pairTrees
    rw [List.append_assoc, List.singleton_append, splitAt_append (noSep_num (by decide) k), splitAt_single (noSep_num (by decide) v)]
  simp only [pair, this, hk, hv]

theorem mapBody_spec {α β γ : Type} [DecidableEq α] {rk : List Tree → Option α} {rv : List Tree → Option β} (xs : List γ) {k v : γ → Int}
    {a : γ → α} {b : γ → β} (hk : ∀ x ∈ xs, rk (num (k x)) = some (a x)) (hv : ∀ x ∈ xs, rv (num (v x)) = some (b x)) (hd : (xs.map a).Nodup) :
    mapBody rk rv (xs.flatMap fun x => pairTrees (k x) (v x) ++ [.tok (.sym 44)]) = some (xs.map fun x => (a x, b x)) := by
  have h1 := items_flatMap (c := 44) (f := fun x => pairTrees (k x) (v x)) xs fun x _ => noSep_pair _ _
  have h2 := allM_map (f := pair rk rv) (g := fun x => pairTrees (k x) (v x)) (v := fun x => (a x, b x)) xs fun x hx => pair_spec (hk x hx) (hv x hx)
  have e : (xs.map fun x => (a x, b x)).map (·.1) = xs.map a := by rw [List.map_map]; rfl
  unfold mapBody
  rw [h1, h2]
  dsimp only
  rw [e, if_pos hd]

/-! ### Files -/

theorem reads_head {args : List Bytes} (h : ∀ a ∈ args, LineOK a) :
    Reads false (emitHead args) [.tok (.ident (ascii "package")), .tok (.ident (ascii "uaxpl")), .tok (.sym 59)] false := by
  have h1 : LineOK (ascii " Code generated by \"uaxplc" ++ args.flatMap (fun a => ascii " " ++ a) ++ ascii "\". DO NOT EDIT.") := by
    have c1 : ∀ c ∈ ascii " Code generated by \"uaxplc", c ≠ 10 ∧ c ≠ 0 := by decide
    have c2 : ∀ c ∈ ascii " ", c ≠ 10 ∧ c ≠ 0 := by decide
    have c3 : ∀ c ∈ ascii "\". DO NOT EDIT.", c ≠ 10 ∧ c ≠ 0 := by decide
    intro c hc
    rcases List.mem_append.mp hc with hc | hc
    · rcases List.mem_append.mp hc with hc | hc
      · exact c1 c hc
      · obtain ⟨a, ha, hc⟩ := List.mem_flatMap.mp hc
        rcases List.mem_append.mp hc with hc | hc
        · exact c2 c hc
        · exact h a ha c hc
    · exact c3 c hc
  have h2 := run_comment h1
  have h3 : Run .idle false (ascii "\n" ++ ascii "package uaxpl\n\n") [.ident (ascii "package"), .ident (ascii "uaxpl"), .sym 59] .idle false := by decide
  refine ⟨_, ?_, Build.toks (ts := [.ident (ascii "package"), .ident (ascii "uaxpl"), .sym 59]) rfl⟩
  have e : emitHead args = ascii "//" ++ (ascii " Code generated by \"uaxplc" ++ args.flatMap (fun a => ascii " " ++ a) ++ ascii "\". DO NOT EDIT.") ++
      ascii "\n" ++ (ascii "\n" ++ ascii "package uaxpl\n\n") := by
    unfold emitHead
    rw [show ascii "// Code generated by \"uaxplc" = ascii "//" ++ ascii " Code generated by \"uaxplc" from rfl,
      show ascii "\". DO NOT EDIT.\n\n" = ascii "\". DO NOT EDIT." ++ ascii "\n" ++ ascii "\n" from rfl]
    simp only [List.append_assoc]
  rw [e]
  exact h2.append h3

/-- No semicolon at top level. -/
def noSemi (l : List Tree) : Bool := l.all fun t => match t with
  | .tok (.sym 59) => false
  | _ => true

theorem noSemi_noSep {l : List Tree} (h : noSemi l = true) : noSep 59 l := by
  intro t ht
  have := List.all_eq_true.mp h t ht
  rintro rfl
  exact absurd this (by decide)

theorem file_spec {args : List Bytes} (ha : ∀ a ∈ args, LineOK a) {imp body : Bytes} {il : List Tree}
    (hi : Reads false imp [.tok (.ident (ascii "import")), .group 40 il, .tok (.sym 59)] false) {ds : List (String × List Tree)}
    (hb : Reads false body (ds.flatMap fun d => decl d.1 d.2) false) (hs : ∀ d ∈ ds, noSemi d.2 = true) (hd : (ds.map fun d => ascii d.1).Nodup) :
    file (emitHead args ++ (imp ++ (ascii "var (\n" ++ (body ++ ascii ")\n")))) = some (ds.map fun d => (ascii d.1, d.2)) := by
  have h0 : Run .idle false (ascii "var (\n") [.ident (ascii "var"), .sym 40] .idle false := by decide
  have h1 : Run .idle false (ascii ")\n") [.sym 41, .sym 59] .idle false := by decide
  have h2 : Reads false (ascii "var (\n" ++ (body ++ ascii ")\n"))
      [.tok (.ident (ascii "var")), .group 40 (ds.flatMap fun d => decl d.1 d.2), .tok (.sym 59)] false := by
    obtain ⟨ts, r, b⟩ := hb
    refine ⟨_, h0.append (r.append h1), ?_⟩
    have := (Build.tok (t := .ident (ascii "var")) rfl).append ((Build.group (c := 40) (by simp) b).append (Build.tok (t := .sym 59) rfl))
    simpa [closer] using this
  obtain ⟨ts, r, b⟩ := (reads_head ha).append (hi.append h2)
  have e1 : tokens (emitHead args ++ (imp ++ (ascii "var (\n" ++ (body ++ ascii ")\n")))) = some ts := by
    unfold tokens
    rw [r]
    simp
  have e2 : trees ts = some ([.tok (.ident (ascii "package")), .tok (.ident (ascii "uaxpl")), .tok (.sym 59)] ++
      ([.tok (.ident (ascii "import")), .group 40 il, .tok (.sym 59)] ++
      [.tok (.ident (ascii "var")), .group 40 (ds.flatMap fun d => decl d.1 d.2), .tok (.sym 59)])) := by
    unfold trees
    rw [b [] []]
    simp
  have e3 : items 59 (ds.flatMap fun d => decl d.1 d.2) = ds.map fun d => .tok (.ident (ascii d.1)) :: .tok (.sym 61) :: d.2 :=
    items_flatMap (f := fun d : String × List Tree => .tok (.ident (ascii d.1)) :: .tok (.sym 61) :: d.2) ds fun d h t ht => by
      rcases List.mem_cons.mp ht with rfl | ht
      · intro h; injection h with h; cases h
      · rcases List.mem_cons.mp ht with rfl | ht
        · intro h; injection h with h; injection h with h; exact absurd h (by decide)
        · exact noSemi_noSep (hs d h) t ht
  have e4 : allM declaration (ds.map fun d => .tok (.ident (ascii d.1)) :: .tok (.sym 61) :: d.2) = some (ds.map fun d => (ascii d.1, d.2)) :=
    allM_map ds fun d _ => rfl
  have e5 : (ds.map fun d => (ascii d.1, d.2)).map (·.1) = ds.map fun d => ascii d.1 := by rw [List.map_map]; rfl
  unfold file
  rw [e1, Option.bind_some, e2, Option.bind_some]
  simp only [List.cons_append, List.nil_append, variables, and_self, if_true, e3, e4, e5, hd]

end Verif.Go
