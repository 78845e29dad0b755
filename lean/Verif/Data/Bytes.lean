import Lean.Elab.Term
import Verif.Model.Compiler
/-
Notation for the shipped tables. Byte strings are literals that the kernel can compute with: `chunk! "text"` is elaborated to
`Chunk.mk n x`, with `n` the number of characters and `x` one natural number holding the bytes in base 256. Every character stands for one
byte (`\xNN` for bytes outside ASCII).
-/
namespace Verif.Data

/-- The `n` lowest bytes of a number, lowest first. -/
def unpack : Nat → Nat → Bytes
  | 0, _ => []
  | n + 1, x => UInt8.ofNat (x % 256) :: unpack n (x / 256)

/-- A packed byte string. -/
structure Chunk where
  n : Nat
  x : Nat

def Chunk.bytes (c : Chunk) : Bytes := unpack c.n c.x

open Lean Elab Term in
/-- `chunk! "text"`: the bytes of a text. -/
elab "chunk! " s:str : term => do
  let cs := s.getString.toList
  if cs.any (fun c => c.toNat > 255) then throwError "not a byte"
  let x := cs.foldr (fun c acc => acc * 256 + c.toNat) 0
  return mkApp2 (mkConst ``Verif.Data.Chunk.mk) (mkRawNatLit cs.length) (mkRawNatLit x)

example : (chunk! "az\xff").bytes = [97, 122, 255] := by decide

/-- A buffer from its chunks. -/
def buf (cs : List Chunk) : Bytes := cs.flatMap Chunk.bytes

open Lean Elab Term in
/-- `pat! "text"`: the same in chunks of eight bytes, used for the many short texts. (The kernel's caches tell numbers apart by their lower
64 bits, and most patterns begin with the same bytes.) -/
elab "pat! " s:str : term => do
  let cs := s.getString.toList
  if cs.any (fun c => c.toNat > 255) then throwError "not a byte"
  let ty := Lean.mkConst ``Verif.Data.Chunk
  let rec go (fuel : Nat) (cs : List Char) : Expr :=
    match fuel, cs with
    | 0, _ | _, [] => mkApp (mkConst ``List.nil [.zero]) ty
    | fuel + 1, cs =>
      let w := cs.take 8
      mkApp3 (mkConst ``List.cons [.zero]) ty
        (mkApp2 (mkConst ``Verif.Data.Chunk.mk) (mkRawNatLit w.length) (mkRawNatLit (w.foldr (fun c acc => acc * 256 + c.toNat) 0)))
        (go fuel (cs.drop 8))
  return go cs.length cs

example : buf (pat! "abcdefghi") = [97, 98, 99, 100, 101, 102, 103, 104, 105] := by decide

/-- `-1` in the index columns. -/
def no : Nat := 4294967295

def ix (n : Nat) : Int := if Nat.beq n no then -1 else (n : Int)
def ix8 (n : Nat) : Int8 := if Nat.beq n no then -1 else Int8.ofNat n

/-- `clientTuple{…}`, without url64 and type64, which nothing reads. -/
def cr (matchRI match64 browser64 version64 browserVI engine64 engineFI : Nat) : ClientTuple :=
  ⟨ix matchRI, .ofNat match64, .ofNat browser64, .ofNat version64, ix8 browserVI, .ofNat engine64, ix engineFI⟩

/-- `osTuple{…}` -/
def os (name64 nameSI matchRI match64 versionSI version64 versions64 : Nat) : OSTuple :=
  ⟨.ofNat name64, ix8 nameSI, ix matchRI, .ofNat match64, ix8 versionSI, .ofNat version64, .ofNat versions64⟩

/-- `osVersionTuple{…}` -/
def ov (matchRI match64 versionSI version64 : Nat) : OSVersionTuple := ⟨ix matchRI, .ofNat match64, ix8 versionSI, .ofNat version64⟩

/-- `vendorTuple{…}` -/
def vr (brand64 range64 : Nat) : VendorTuple := ⟨.ofNat brand64, .ofNat range64⟩

/-- `deviceTuple{…}` -/
def dr (type64 brand64 matchRI match64 modelSI models64 : Nat) : DeviceTuple :=
  ⟨.ofNat type64, .ofNat brand64, ix matchRI, .ofNat match64, ix modelSI, .ofNat models64⟩

/-- `modelTuple{…}` -/
def dm (type64 matchRI match64 model64 : Nat) : ModelTuple := ⟨.ofNat type64, ix matchRI, .ofNat match64, .ofNat model64⟩

/-- `func(s string) entry.Entry64 { if s >= "…" { return … } … return … }` -/
def fn (cases : List (Chunk × Nat)) (dflt : Nat) : Compiler.EngineFn := ⟨cases.map fun c => (c.1.bytes, .ofNat c.2), .ofNat dflt⟩

end Verif.Data
