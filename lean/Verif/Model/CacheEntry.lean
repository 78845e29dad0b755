import Verif.Model.Base
/-
cache_entry.go: the cache record and its binary codec.
-/
namespace Verif

/-- cache_entry.go:12-33 `type CacheEntry struct`. -/
structure CacheEntry where
  bits : Bitset := 0
  clientType : UInt8 := 0
  clientName64 : Entry64 := 0
  clientVersion64 : Entry64 := 0
  engineName64 : Entry64 := 0
  engineVersion64 : Entry64 := 0
  deviceType : UInt16 := 0
  brandName64 : Entry64 := 0
  modelName64 : Entry64 := 0
  osName64 : Entry64 := 0
  osVersion64 : Entry64 := 0
  data : Bytes := []
  hkey : UInt64 := 0
  timestamp : Int64 := 0
deriving DecidableEq, Repr, Inhabited

/-- The `n` low-order bytes of `v`, least significant first:
`binary.LittleEndian.PutUint16/32/64` as used in cache_entry.go:77-107. -/
def leBytes : Nat → Nat → Bytes
  | 0, _ => []
  | n + 1, v => UInt8.ofNat v :: leBytes n (v / 256)

/-- `binary.LittleEndian.Uint16/32/64` on a slice of the right length, cache_entry.go:121-151. -/
def ofLE : Bytes → Nat
  | [] => 0
  | b :: bs => b.toNat + 256 * ofLE bs

/-- Store `bs` at `buf[off:off+len(bs)]`; `none` is the index panic. -/
def putAt (buf : Bytes) (off : Nat) (bs : Bytes) : Option Bytes :=
  if off + bs.length ≤ buf.length then
    some (buf.take off ++ bs ++ buf.drop (off + bs.length))
  else none

/-- The two errors of the codec: `io.ErrShortBuffer`, `io.ErrUnexpectedEOF`. -/
inductive CodecErr where
  | shortBuffer
  | unexpectedEOF
deriving DecidableEq, Repr

namespace CacheEntry

/-- cache_entry.go:54-69 `minsz`. -/
def minsz (_r : CacheEntry) : Nat := 8 + 1 + 8 + 8 + 8 + 8 + 2 + 8 + 8 + 8 + 8 + 8 + 8 + 4

/-- cache_entry.go:50-52 `Size`. -/
def size (r : CacheEntry) : Nat := r.minsz + r.data.length

/-- cache_entry.go:71-113 `MarshalTo`. Result: buffer afterwards, returned count, returned error; `none` = panic.
`copy(buf[off:], r.Data)` (line 109) copies `min(len(buf)-off, len(Data))` bytes and never panics for `off ≤ len(buf)`. -/
def marshalTo (r : CacheEntry) (buf : Bytes) : Option (Bytes × Nat × Option CodecErr) := do
  if buf.length < r.size then
    return (buf, 0, some .shortBuffer)
  let off := 0
  let buf ← putAt buf off (leBytes 8 r.bits.toNat)
  let off := off + 8
  let buf ← putAt buf off (leBytes 1 r.clientType.toNat)
  let off := off + 1
  let buf ← putAt buf off (leBytes 8 r.clientName64.toNat)
  let off := off + 8
  let buf ← putAt buf off (leBytes 8 r.clientVersion64.toNat)
  let off := off + 8
  let buf ← putAt buf off (leBytes 8 r.engineName64.toNat)
  let off := off + 8
  let buf ← putAt buf off (leBytes 8 r.engineVersion64.toNat)
  let off := off + 8
  let buf ← putAt buf off (leBytes 2 r.deviceType.toNat)
  let off := off + 2
  let buf ← putAt buf off (leBytes 8 r.brandName64.toNat)
  let off := off + 8
  let buf ← putAt buf off (leBytes 8 r.modelName64.toNat)
  let off := off + 8
  let buf ← putAt buf off (leBytes 8 r.osName64.toNat)
  let off := off + 8
  let buf ← putAt buf off (leBytes 8 r.osVersion64.toNat)
  let off := off + 8
  let buf ← putAt buf off (leBytes 8 r.hkey.toNat)
  let off := off + 8
  let buf ← putAt buf off (leBytes 8 r.timestamp.toUInt64.toNat)
  let off := off + 8
  let buf ← putAt buf off (leBytes 4 (r.data.length % 2 ^ 32))   -- uint32(len(r.Data))
  let off := off + 4
  if off > buf.length then none                                   -- buf[off:]
  let buf ← putAt buf off (r.data.take (buf.length - off))        -- copy
  let off := off + r.data.length
  return (buf, off, none)

/-- `binary.LittleEndian.UintN(data[off:off+n])`; `none` is the slicing panic. -/
def getLE (data : Bytes) (off n : Nat) : Option Nat := (slice? data off (off + n)).map ofLE

/-- cache_entry.go:115-159 `Unmarshal`. Result: receiver afterwards and returned error; `none` = panic.
`int` is 64 bits wide, so `off+int(ln)` cannot overflow. `append(r.Data[:0], ...)` (line 156) = replace the contents. -/
def unmarshal (r : CacheEntry) (data : Bytes) : Option (CacheEntry × Option CodecErr) := do
  if data.length < r.minsz then
    return (r, some .unexpectedEOF)
  let off := 0
  let r := { r with bits := UInt64.ofNat (← getLE data off 8) }
  let off := off + 8
  let r := { r with clientType := UInt8.ofNat (← getLE data off 1) }
  let off := off + 1
  let r := { r with clientName64 := UInt64.ofNat (← getLE data off 8) }
  let off := off + 8
  let r := { r with clientVersion64 := UInt64.ofNat (← getLE data off 8) }
  let off := off + 8
  let r := { r with engineName64 := UInt64.ofNat (← getLE data off 8) }
  let off := off + 8
  let r := { r with engineVersion64 := UInt64.ofNat (← getLE data off 8) }
  let off := off + 8
  let r := { r with deviceType := UInt16.ofNat (← getLE data off 2) }
  let off := off + 2
  let r := { r with brandName64 := UInt64.ofNat (← getLE data off 8) }
  let off := off + 8
  let r := { r with modelName64 := UInt64.ofNat (← getLE data off 8) }
  let off := off + 8
  let r := { r with osName64 := UInt64.ofNat (← getLE data off 8) }
  let off := off + 8
  let r := { r with osVersion64 := UInt64.ofNat (← getLE data off 8) }
  let off := off + 8
  let r := { r with hkey := UInt64.ofNat (← getLE data off 8) }
  let off := off + 8
  let r := { r with timestamp := (UInt64.ofNat (← getLE data off 8)).toInt64 }
  let off := off + 8
  let ln ← getLE data off 4
  let off := off + 4
  if data.length < off + ln then
    return (r, some .unexpectedEOF)
  let d ← slice? data off (off + ln)
  return ({ r with data := d }, none)

end CacheEntry
end Verif
