import Verif.Model.Base
/-
Model of version.go.
-/
namespace Verif

def isDigit (c : UInt8) : Bool := 48 ≤ c && c ≤ 57

/-- Value of a run of decimal digits. -/
def decVal (d : Bytes) : Nat := d.foldl (fun a c => 10 * a + (c.toNat - 48)) 0

/-- `strconv.Atoi` (64-bit int): optional sign, at least one digit, only digits, in range; `none` is an error
(library, per its documentation). -/
def atoi (s : Bytes) : Option Int :=
  let (neg, ds) := match s with
    | 45 :: r => (true, r)
    | 43 :: r => (false, r)
    | r => (false, r)
  if ds ≠ [] ∧ ds.all isDigit = true then
    let n := decVal ds
    if neg then (if n ≤ 2 ^ 63 then some (-(n : Int)) else none)
    else (if n < 2 ^ 63 then some (n : Int) else none)
  else none

/-- Decimal digits of a natural number. -/
def natDec (n : Nat) : Bytes :=
  if n < 10 then [UInt8.ofNat (48 + n)] else natDec (n / 10) ++ [UInt8.ofNat (48 + n % 10)]

/-- `strconv.AppendInt(nil, i, 10)` (library). -/
def intDec (i : Int) : Bytes := if i < 0 then 45 :: natDec i.natAbs else natDec i.natAbs

/-- `type Version` (version.go:10-18). -/
structure Version where
  major : Int32 := 0
  minor : Int32 := 0
  patch : Int32 := 0
  revision : Int32 := 0
  suffix : Bytes := []
  p : Bool := false
deriving DecidableEq, Repr, Inhabited

namespace Version

/-- `switch i` (version.go:36-45), with the conversion `int32(d)`, which wraps. -/
def setComp (v : Version) (i : Nat) (d : Int) : Version :=
  match i with
  | 0 => { v with major := Int32.ofInt d }
  | 1 => { v with minor := Int32.ofInt d }
  | 2 => { v with patch := Int32.ofInt d }
  | 3 => { v with revision := Int32.ofInt d }
  | _ => v

/-- `for i := 0; i < 4; i++` (version.go:25-52); `n` iterations remain, the next has index `i`.
Returns the version, the rest of `s` and whether Atoi failed. -/
def parseLoop : Nat → Nat → Version → Bytes → Version × Bytes × Bool
  | 0, _, v, s => (v, s, false)
  | n + 1, i, v, s =>
    if (indexByte s 46).isSome = true ∨ s.length > 0 then
      let idx := (indexByte s 46).getD s.length
      match atoi (s.take idx) with
      | none => (v, s, true)
      | some d => parseLoop n (i + 1) (v.setComp i d) (if idx < s.length then s.drop (idx + 1) else [])
    else parseLoop n (i + 1) v s

/-- `Version.Parse` (version.go:20-62). The flag is `true` when an error is returned. -/
def parse (v : Version) (s : Bytes) : Version × Bool :=
  if v.p then (v, false)
  else if s.length > 0 then
    match parseLoop 4 0 v s with
    | (v, _, true) => (v, true)
    | (v, s, false) =>
      -- lines 53-58; `strings.IndexAny(s, " -")`
      let v := if s.length > 0 then
          match s.findIdx? (fun c => c == 32 || c == 45) with
          | some idx => { v with suffix := s.drop (idx + 1) }
          | none => v
        else v
      ({ v with p := true }, false)
  else ({ v with p := true }, false)

/-- `Version.Write` (version.go:64-93). -/
def write (v : Version) (dst : Bytes) : Bytes :=
  let (dst, ok) := if v.major > 0 then (dst ++ intDec v.major.toInt, true) else (dst, false)
  let (dst, ok) := if v.minor > 0 ∨ ok = true then (dst ++ [46] ++ intDec v.minor.toInt, true) else (dst, ok)
  let (dst, ok) := if v.patch > 0 ∨ ok = true then (dst ++ [46] ++ intDec v.patch.toInt, true) else (dst, ok)
  let (dst, _) := if v.revision > 0 ∨ ok = true then (dst ++ [46] ++ intDec v.revision.toInt, true) else (dst, ok)
  let dst := if v.suffix.length > 0 then dst ++ [32] ++ v.suffix else dst
  if dst.length = 0 then dst ++ [48] else dst

/-- `Version.String` (version.go:95-97). -/
def string (v : Version) : Bytes := v.write []

/-- `Version.Reset` (version.go:99-102). -/
def reset (_ : Version) : Version := { major := 0, minor := 0, patch := 0, revision := 0, suffix := [], p := false }

end Version

/-- `getMajor` (version.go:104-110). -/
def getMajor (ver : Bytes) : Bytes :=
  match indexByte ver 46 with
  | none => []
  | some p => ver.take p

end Verif
