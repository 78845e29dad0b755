import Verif.Model.Compiler
/-
What a Go file of tables means: the lexical rules of the Go specification (white space, comments, semicolon insertion, identifiers, integer and
string literals), bracket structure, and the composite literals, conversions and functions that occur in such files. Anything the language
forbids, and anything beyond what is needed here, has no meaning (`none`).
-/
namespace Verif.Go

/-! ### Tokens -/

inductive Tok where
  | ident (b : Bytes)
  | int (n : Nat)
  | str (b : Bytes)
  /-- an operator or bracket of one character -/
  | sym (c : UInt8)
  /-- `>=` -/
  | ge
deriving DecidableEq, Repr

/-- What the lexer is in the middle of. -/
inductive Mode where
  | idle
  | ident (b : Bytes)
  /-- after a leading `0` -/
  | zero
  | dec (n : Nat)
  /-- after `0x`, with the value of the digits, if any -/
  | hex (n : Option Nat)
  | raw (b : Bytes)
  | quoted (b : Bytes)
  | escape (b : Bytes)
  | slash
  | comment
  | gt
deriving DecidableEq, Repr

/-- `semi`: a semicolon is inserted if the line ends here. `out`: the tokens so far, last one first. -/
structure Lexer where
  mode : Mode
  semi : Bool
  out : List Tok
deriving DecidableEq, Repr

def isLetter (c : UInt8) : Bool := (65 ≤ c && c ≤ 90) || (97 ≤ c && c ≤ 122) || c == 95
def isDigit (c : UInt8) : Bool := 48 ≤ c && c ≤ 57
def hexVal (c : UInt8) : Option Nat :=
  if isDigit c then some (c.toNat - 48)
  else if 97 ≤ c && c ≤ 102 then some (c.toNat - 87)
  else if 65 ≤ c && c ≤ 70 then some (c.toNat - 55) else none

/-- Keywords after which no semicolon is inserted. -/
def keywords : List Bytes :=
  ["case", "chan", "const", "default", "defer", "else", "for", "func", "go", "goto", "if", "import", "interface", "map", "package", "range",
   "select", "struct", "switch", "type", "var"].map ascii

/-- The first byte of a token, white space, or a comment. -/
def Lexer.fresh (semi : Bool) (out : List Tok) (c : UInt8) : Option Lexer :=
  if c = 10 then some ⟨.idle, false, if semi then .sym 59 :: out else out⟩
  else if c = 32 ∨ c = 9 ∨ c = 13 then some ⟨.idle, semi, out⟩
  else if isLetter c then some ⟨.ident [c], false, out⟩
  else if c = 48 then some ⟨.zero, false, out⟩
  else if isDigit c then some ⟨.dec (c.toNat - 48), false, out⟩
  else if c = 96 then some ⟨.raw [], false, out⟩
  else if c = 34 then some ⟨.quoted [], false, out⟩
  else if c = 47 then some ⟨.slash, semi, out⟩
  else if c = 62 then some ⟨.gt, false, out⟩
  else if c ∈ ascii ")]}" then some ⟨.idle, true, .sym c :: out⟩
  else if c ∈ ascii "([{,:.*-=;" then some ⟨.idle, false, .sym c :: out⟩
  else none

/-- One more byte. -/
def Lexer.step (l : Lexer) (c : UInt8) : Option Lexer :=
  match l.mode with
  | .idle => Lexer.fresh l.semi l.out c
  | .ident b => if isLetter c || isDigit c then some { l with mode := .ident (b ++ [c]) } else Lexer.fresh (!keywords.contains b) (.ident b :: l.out) c
  | .zero =>
    if c = 120 then some { l with mode := .hex none }
    else if isLetter c || isDigit c || c == 46 then none else Lexer.fresh true (.int 0 :: l.out) c
  | .dec n =>
    if isDigit c then some { l with mode := .dec (10 * n + (c.toNat - 48)) }
    else if isLetter c || c == 46 then none else Lexer.fresh true (.int n :: l.out) c
  | .hex none => (hexVal c).map fun d => { l with mode := .hex (some d) }
  | .hex (some n) =>
    match hexVal c with
    | some d => some { l with mode := .hex (some (16 * n + d)) }
    | none => if isLetter c || c == 46 then none else Lexer.fresh true (.int n :: l.out) c
  | .raw b =>
    -- carriage returns are discarded
    if c = 96 then some ⟨.idle, true, .str b :: l.out⟩ else if c = 13 then some l else if c = 0 then none else some { l with mode := .raw (b ++ [c]) }
  | .quoted b =>
    if c = 34 then some ⟨.idle, true, .str b :: l.out⟩
    else if c = 92 then some { l with mode := .escape b }
    else if c = 10 ∨ c = 0 then none else some { l with mode := .quoted (b ++ [c]) }
  | .escape b =>
    if c = 110 then some { l with mode := .quoted (b ++ [10]) }
    else if c = 114 then some { l with mode := .quoted (b ++ [13]) }
    else if c = 116 then some { l with mode := .quoted (b ++ [9]) }
    else if c = 92 ∨ c = 34 then some { l with mode := .quoted (b ++ [c]) } else none
  | .slash => if c = 47 then some { l with mode := .comment } else none
  | .comment => if c = 10 then Lexer.fresh l.semi l.out c else if c = 0 then none else some l
  | .gt => if c = 61 then some ⟨.idle, false, .ge :: l.out⟩ else none

/-- The lexer on a text. -/
def Lexer.run (l : Lexer) : Bytes → Option Lexer
  | [] => some l
  | c :: cs => (l.step c).bind fun l' => l'.run cs

/-- The tokens of a file; the last line must be complete. -/
def tokens (b : Bytes) : Option (List Tok) :=
  match (Lexer.mk .idle false []).run b with
  | some ⟨.idle, false, out⟩ => some out.reverse
  | _ => none

/-! ### Brackets -/

inductive Tree where
  | tok (t : Tok)
  /-- what is between a bracket `(`, `[` or `{` and its partner -/
  | group (c : UInt8) (body : List Tree)

/-- Open brackets with what was read before them, innermost first; the trees read since then, last one first. -/
structure Builder where
  stack : List (UInt8 × List Tree)
  cur : List Tree

def closer (c : UInt8) : UInt8 := if c = 40 then 41 else c + 2

def Builder.step (b : Builder) (t : Tok) : Option Builder :=
  match t with
  | .sym c =>
    if c = 40 ∨ c = 91 ∨ c = 123 then some ⟨(c, b.cur) :: b.stack, []⟩
    else if c = 41 ∨ c = 93 ∨ c = 125 then
      match b.stack with
      | [] => none
      | (o, before) :: rest => if closer o = c then some ⟨rest, .group o b.cur.reverse :: before⟩ else none
    else some { b with cur := .tok t :: b.cur }
  | _ => some { b with cur := .tok t :: b.cur }

def Builder.run (b : Builder) : List Tok → Option Builder
  | [] => some b
  | t :: ts => (b.step t).bind fun b' => b'.run ts

def trees (ts : List Tok) : Option (List Tree) :=
  match (Builder.mk [] []).run ts with
  | some ⟨[], cur⟩ => some cur.reverse
  | _ => none

/-! ### Declarations -/

/-- Separated by the symbol `c`. -/
def splitAt (c : UInt8) : List Tree → List (List Tree)
  | [] => [[]]
  | .tok (.sym x) :: r =>
    if x = c then [] :: splitAt c r
    else match splitAt c r with
      | [] => [[.tok (.sym x)]]
      | p :: ps => (.tok (.sym x) :: p) :: ps
  | t :: r =>
    match splitAt c r with
    | [] => [[t]]
    | p :: ps => (t :: p) :: ps

/-- A list whose last element may be followed by a separator. -/
def items (c : UInt8) (l : List Tree) : List (List Tree) :=
  match (splitAt c l).reverse with
  | [] :: r => r.reverse
  | r => r.reverse

def allM {α β : Type} (f : α → Option β) : List α → Option (List β)
  | [] => some []
  | a :: l => match f a, allM f l with
    | some b, some bs => some (b :: bs)
    | _, _ => none

/-- `name = value`. -/
def declaration : List Tree → Option (Bytes × List Tree)
  | .tok (.ident n) :: .tok (.sym 61) :: v => some (n, v)
  | _ => none

/-- `package uaxpl`, an import, and one block of variables, each declared once. -/
def variables : List Tree → Option (List (Bytes × List Tree))
  | [.tok (.ident p), .tok (.ident n), .tok (.sym 59), .tok (.ident i), .group 40 _, .tok (.sym 59), .tok (.ident v), .group 40 b, .tok (.sym 59)] =>
    if p = ascii "package" ∧ n = ascii "uaxpl" ∧ i = ascii "import" ∧ v = ascii "var" then
      match allM declaration (items 59 b) with
      | some ds => if (ds.map (·.1)).Nodup then some ds else none
      | none => none
    else none
  | _ => none

/-- The variables of a file. -/
def file (b : Bytes) : Option (List (Bytes × List Tree)) := (tokens b).bind fun ts => (trees ts).bind variables

/-! ### Values -/

/-- An integer constant between `lo` and `hi`. -/
def intIn (lo hi : Int) : List Tree → Option Int
  | [.tok (.int n)] => if lo ≤ n ∧ (n : Int) ≤ hi then some n else none
  | [.tok (.sym 45), .tok (.int n)] => if lo ≤ -n ∧ -(n : Int) ≤ hi then some (-n) else none
  | _ => none

def uint64 (l : List Tree) : Option UInt64 := (intIn 0 (2 ^ 64 - 1) l).map fun i => UInt64.ofNat i.toNat
def byte (l : List Tree) : Option UInt8 := (intIn 0 255 l).map fun i => UInt8.ofNat i.toNat
def int32 (l : List Tree) : Option Int := intIn (-2 ^ 31) (2 ^ 31 - 1) l
def int8 (l : List Tree) : Option Int8 := (intIn (-128) 127 l).map Int8.ofInt

/-- `f: v`. -/
def keyed : List Tree → Option (Bytes × List Tree)
  | .tok (.ident f) :: .tok (.sym 58) :: v => some (f, v)
  | _ => none

/-- `t{f1: v1, …}` with fields among `known`, each at most once: the fields. -/
def struct (t : String) (known : List String) : List Tree → Option (List (Bytes × List Tree))
  | [.tok (.ident n), .group 123 b] =>
    if n = ascii t then
      match allM keyed (items 44 b) with
      | some fs => if (fs.map (·.1)).Nodup ∧ ∀ f ∈ fs, f.1 ∈ known.map ascii then some fs else none
      | none => none
    else none
  | _ => none

/-- A field; those left out are zero. -/
def field {α : Type} (zero : α) (read : List Tree → Option α) (fs : List (Bytes × List Tree)) (f : String) : Option α :=
  match fs.lookup (ascii f) with
  | some v => read v
  | none => some zero

/-- `[]t{…}`. -/
def slice {α : Type} (t : String) (read : List Tree → Option α) : List Tree → Option (List α)
  | [.group 91 [], .tok (.ident n), .group 123 b] => if n = ascii t then allM read (items 44 b) else none
  | _ => none

/-- `{…}` inside a list of type `[]…`. -/
def inner {α : Type} (read : List Tree → Option α) : List Tree → Option (List α)
  | [.group 123 b] => allM read (items 44 b)
  | _ => none

/-- `[n][]t{{…}, …}`; elements left out are empty. -/
def array {α : Type} (t : String) (read : List Tree → Option α) : List Tree → Option (List (List α))
  | [.group 91 [.tok (.int k)], .group 91 [], .tok (.ident n), .group 123 b] =>
    if n = ascii t then
      match allM (inner read) (items 44 b) with
      | some l => if l.length ≤ k then some (l ++ List.replicate (k - l.length) []) else none
      | none => none
    else none
  | _ => none

/-- A call `regexp.MustCompile(s)`: the pattern. -/
def mustCompile : List Tree → Option Bytes
  | [.tok (.ident p), .tok (.sym 46), .tok (.ident f), .group 40 [.tok (.str s)]] =>
    if p = ascii "regexp" ∧ f = ascii "MustCompile" then some s else none
  | _ => none

/-- `[]*regexp.Regexp{…}`: the patterns. -/
def patterns : List Tree → Option (List Bytes)
  | [.group 91 [], .tok (.sym 42), .tok (.ident p), .tok (.sym 46), .tok (.ident t), .group 123 b] =>
    if p = ascii "regexp" ∧ t = ascii "Regexp" then allM mustCompile (items 44 b) else none
  | _ => none

/-- `[]byte{…}`. -/
def bytes : List Tree → Option Bytes := slice "byte" byte

/-- `k: v` in a map. -/
def pair {α β : Type} (readK : List Tree → Option α) (readV : List Tree → Option β) (l : List Tree) : Option (α × β) :=
  match splitAt 58 l with
  | [k, v] => match readK k, readV v with
    | some a, some b => some (a, b)
    | _, _ => none
  | _ => none

/-- The pairs of a map literal; constant keys must be different. -/
def mapBody {α β : Type} [DecidableEq α] (readK : List Tree → Option α) (readV : List Tree → Option β) (b : List Tree) : Option (List (α × β)) :=
  match allM (pair readK readV) (items 44 b) with
  | some l => if (l.map (·.1)).Nodup then some l else none
  | none => none

/-- `map[entry.Entry64]int32{…}`. -/
def mapEntryInt : List Tree → Option (List (UInt64 × Int))
  | [.tok (.ident m), .group 91 [.tok (.ident p), .tok (.sym 46), .tok (.ident e)], .tok (.ident v), .group 123 b] =>
    if m = ascii "map" ∧ p = ascii "entry" ∧ e = ascii "Entry64" ∧ v = ascii "int32" then mapBody uint64 int32 b else none
  | _ => none

/-- `map[uint64]entry.Entry64{…}`. -/
def mapIntEntry : List Tree → Option (List (UInt64 × UInt64))
  | [.tok (.ident m), .group 91 [.tok (.ident k)], .tok (.ident p), .tok (.sym 46), .tok (.ident e), .group 123 b] =>
    if m = ascii "map" ∧ k = ascii "uint64" ∧ p = ascii "entry" ∧ e = ascii "Entry64" then mapBody uint64 uint64 b else none
  | _ => none

/-- `return e`. -/
def returns : List Tree → Option UInt64
  | .tok (.ident r) :: v => if r = ascii "return" then uint64 v else none
  | _ => none

/-- `if s >= "v" { return e }`. -/
def ifGe : List Tree → Option (Bytes × UInt64)
  | [.tok (.ident i), .tok (.ident s), .tok .ge, .tok (.str v), .group 123 b] =>
    if i = ascii "if" ∧ s = ascii "s" then
      match items 59 b with
      | [r] => (returns r).map fun e => (v, e)
      | _ => none
    else none
  | _ => none

/-- `func(s string) entry.Entry64 { if s >= … { return … } … return … }`: the tests in order and the value returned when none holds. -/
def engineFn : List Tree → Option (List (Bytes × UInt64) × UInt64)
  | [.tok (.ident f), .group 40 [.tok (.ident s), .tok (.ident t)], .tok (.ident p), .tok (.sym 46), .tok (.ident e), .group 123 b] =>
    if f = ascii "func" ∧ s = ascii "s" ∧ t = ascii "string" ∧ p = ascii "entry" ∧ e = ascii "Entry64" then
      match (items 59 b).reverse with
      | [] => none
      | last :: ifs => match allM ifGe ifs.reverse, returns last with
        | some cs, some d => some (cs, d)
        | _, _ => none
    else none
  | _ => none

/-! ### The types of the package (client.go:22-32, device.go:23-37, os.go:9-24, vendor.go:5-8) -/

def clientTuple (l : List Tree) : Option (ClientTuple × Entry64 × Entry64) := do
  let fs ← struct "clientTuple" ["matchRI", "match64", "browser64", "version64", "browserVI", "engine64", "engineFI", "url64", "type64"] l
  return ({ matchRI := ← field 0 int32 fs "matchRI", match64 := ← field 0 uint64 fs "match64", browser64 := ← field 0 uint64 fs "browser64",
            version64 := ← field 0 uint64 fs "version64", browserVI := ← field 0 int8 fs "browserVI", engine64 := ← field 0 uint64 fs "engine64",
            engineFI := ← field 0 int32 fs "engineFI" }, ← field 0 uint64 fs "url64", ← field 0 uint64 fs "type64")

def deviceTuple (l : List Tree) : Option DeviceTuple := do
  let fs ← struct "deviceTuple" ["type64", "brand64", "matchRI", "match64", "modelSI", "models64"] l
  return { type64 := ← field 0 uint64 fs "type64", brand64 := ← field 0 uint64 fs "brand64", matchRI := ← field 0 int32 fs "matchRI",
           match64 := ← field 0 uint64 fs "match64", modelSI := ← field 0 int32 fs "modelSI", models64 := ← field 0 uint64 fs "models64" }

def modelTuple (l : List Tree) : Option ModelTuple := do
  let fs ← struct "modelTuple" ["type64", "matchRI", "match64", "model64"] l
  return { type64 := ← field 0 uint64 fs "type64", matchRI := ← field 0 int32 fs "matchRI", match64 := ← field 0 uint64 fs "match64",
           model64 := ← field 0 uint64 fs "model64" }

def osTuple (l : List Tree) : Option OSTuple := do
  let fs ← struct "osTuple" ["name64", "nameSI", "matchRI", "match64", "versionSI", "version64", "versions64"] l
  return { name64 := ← field 0 uint64 fs "name64", nameSI := ← field 0 int8 fs "nameSI", matchRI := ← field 0 int32 fs "matchRI",
           match64 := ← field 0 uint64 fs "match64", versionSI := ← field 0 int8 fs "versionSI", version64 := ← field 0 uint64 fs "version64",
           versions64 := ← field 0 uint64 fs "versions64" }

def osVersionTuple (l : List Tree) : Option OSVersionTuple := do
  let fs ← struct "osVersionTuple" ["matchRI", "match64", "versionSI", "version64"] l
  return { matchRI := ← field 0 int32 fs "matchRI", match64 := ← field 0 uint64 fs "match64", versionSI := ← field 0 int8 fs "versionSI",
           version64 := ← field 0 uint64 fs "version64" }

def vendorTuple (l : List Tree) : Option VendorTuple := do
  let fs ← struct "vendorTuple" ["brand64", "range64"] l
  return { brand64 := ← field 0 uint64 fs "brand64", range64 := ← field 0 uint64 fs "range64" }

/-! ### The five files -/

/-- The value of a variable. -/
def value {α : Type} (vars : List (Bytes × List Tree)) (name : String) (read : List Tree → Option α) : Option α := (vars.lookup (ascii name)).bind read

/-- The sources of the five generated files. -/
structure Sources where
  client : Bytes
  os : Bytes
  device : Bytes
  vendor : Bytes
  hint : Bytes

/-- The tables a package with these files starts with. `lib` is `regexp.MustCompile`; `fb`, `ft`, `fm` are the regexps of the hand-written files. -/
def tables (lib : Bytes → Re) (fb ft fm : Re) (s : Sources) : Option Tables := do
  let c ← file s.client
  let o ← file s.os
  let d ← file s.device
  let v ← file s.vendor
  let h ← file s.hint
  let crIdx ← value c "__cr_idx" (array "clientTuple" clientTuple)
  let crRe ← value c "__cr_re" patterns
  let crEf ← value c "__cr_ef" (slice "engineFn" engineFn)
  let crEv ← value c "__cr_ev" mapEntryInt
  let crEvre ← value c "__cr_evre" patterns
  let crBuf ← value c "__cr_buf" bytes
  let orOs ← value o "__or_os" (slice "osTuple" osTuple)
  let orOv ← value o "__or_ov" (slice "osVersionTuple" osVersionTuple)
  let orRe ← value o "__or_re" patterns
  let orBuf ← value o "__or_buf" bytes
  let drIdx ← value d "__dr_idx" (array "deviceTuple" deviceTuple)
  let drDm ← value d "__dr_dm" (slice "modelTuple" modelTuple)
  let drRe ← value d "__dr_re" patterns
  let drBuf ← value d "__dr_buf" bytes
  let vrIdx ← value v "__vr_idx" (slice "vendorTuple" vendorTuple)
  let vrRe ← value v "__vr_re" patterns
  let vrBuf ← value v "__vr_buf" bytes
  let hrIdx ← value h "__hr_idx" mapIntEntry
  let hrBuf ← value h "__hr_buf" bytes
  return {
    crIdx := crIdx.map (·.map (·.1)), crRe := crRe.map lib,
    crEf := crEf.map fun f s => ((f.1.find? fun c => decide (c.1 ≤ s)).map (·.2)).getD f.2,
    crEv := fun e => ((crEv.find? fun x => x.1 == e).map (·.2)).map Int.toNat,
    crEvre := crEvre.map lib, crBuf := crBuf,
    orOs := orOs, orOv := orOv, orRe := orRe.map lib, orBuf := orBuf,
    drIdx := drIdx, drDm := drDm, drRe := drRe.map lib, drBuf := drBuf,
    vrIdx := vrIdx, vrRe := vrRe.map lib, vrBuf := vrBuf,
    hrIdx := fun k => (hrIdx.find? fun x => x.1 == k).map (·.2), hrBuf := hrBuf,
    forceBlink := fb, forceTablet := ft, forceMobile := fm }

end Verif.Go
