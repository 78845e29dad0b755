/-
Shared vocabulary of the model: byte strings, Go slicing, 64-bit packed offsets (`Entry64`) and bit sets.
-/
namespace Verif

/-- A Go `[]byte` / `string` value (contents only; aliasing is modelled separately in `Model/Alias`). -/
abbrev Bytes := List UInt8

/-- ASCII text as bytes, for readable literals. -/
def ascii (s : String) : Bytes := s.toList.map (fun c => UInt8.ofNat c.toNat)

/-- Go slicing `b[lo:hi]`. `none` is a run-time panic. Simplification: Go only panics when `hi > cap(b)`; between `len`
and `cap` it would expose stale bytes. The model treats that as a fault too (stricter). -/
def slice? (b : Bytes) (lo hi : Nat) : Option Bytes :=
  if lo ≤ hi ∧ hi ≤ b.length then some ((b.drop lo).take (hi - lo)) else none

/-- `bytes.Index(b, needle) != -1` / `strings.Contains`. -/
def containsSub (b needle : Bytes) : Bool :=
  match b with
  | [] => needle.isEmpty
  | x :: xs => needle.isPrefixOf (x :: xs) || containsSub xs needle

/-- `bytes.IndexByte(b, c)` / `strings.Index(s, "c")` for a one-byte needle; `none` is `-1`. -/
def indexByte (b : Bytes) (c : UInt8) : Option Nat := b.findIdx? (· == c)

/-- `koykov/entry.Entry64`: two 32-bit offsets packed in one word, `lo` in the high half
(layout visible in the shipped tables, e.g. vendor_repo.go:12 `0x400000008` = [4:8]). -/
abbrev Entry64 := UInt64

namespace Entry64

/-- `(*Entry64).Encode(lo, hi uint32)` (external library, assumed `lo<<32 | hi`). -/
def encode (lo hi : UInt32) : Entry64 := (lo.toUInt64 <<< 32) ||| hi.toUInt64

/-- `Entry64.Decode()` (external library, assumed inverse of `Encode`). -/
def decode (e : Entry64) : UInt32 × UInt32 := ((e >>> 32).toUInt32, e.toUInt32)

end Entry64

/-- `lo, hi := e.Decode(); buf[lo:hi]`, the idiom used all over the code (e.g. ctx.go:121-122). -/
def sliceE? (buf : Bytes) (e : Entry64) : Option Bytes :=
  slice? buf (Entry64.decode e).1.toNat (Entry64.decode e).2.toNat

/-- `koykov/bitset.Bitset` is a 64-bit word. -/
abbrev Bitset := UInt64

namespace Bitset

/-- `Bitset.CheckBit(i)` (external library). -/
def check (b : Bitset) (i : Nat) : Bool := b.toBitVec.getLsbD i

/-- `(*Bitset).SetBit(i, true)` (external library; the code never clears single bits). -/
def set (b : Bitset) (i : Nat) : Bitset := b ||| ((1 : UInt64) <<< UInt64.ofNat i)

end Bitset

end Verif
