import Verif.Model.Prog
import Verif.Model.Cache
import Verif.Model.Version
import Verif.Model.Tables
/-
Model of ctx.go: the context, its setters, reset and the exchange with cache entries.
-/
namespace Verif

/- Flag numbers. `Unknown = "UNK"` occupies iota 0 (ctx.go:13-28), so the flags start at 1. -/
def flagClientDetect : Nat := 1
def flagDeviceDetect : Nat := 2
def flagOSDetect : Nat := 3
def flagOSBufSrc : Nat := 4
def flagOSVerBufSrc : Nat := 5
def flagVerConstSrc : Nat := 6
def flagDeviceForceDesktop : Nat := 7
def flagEngineForceBlink : Nat := 8
def flagVendorFragment : Nat := 9

/-- `type ClientType uint8` (client.go:7). -/
abbrev ClientType := UInt8
/-- `type DeviceType uint16` (device.go:5). -/
abbrev DeviceType := UInt16

/- client.go:9-18 -/
def ClientTypeBrowser : ClientType := 1
def ClientTypeMobileApp : ClientType := 2
def ClientTypeLibrary : ClientType := 4
def ClientTypeFeedReader : ClientType := 8
def ClientTypeMediaPlayer : ClientType := 16
def ClientTypePIM : ClientType := 32
def ClientTypeAll : ClientType := ClientTypeBrowser ||| ClientTypeMobileApp ||| ClientTypeLibrary ||| ClientTypeFeedReader |||
  ClientTypeMediaPlayer ||| ClientTypePIM

/- device.go:7-21 -/
def DeviceTypeNotebook : DeviceType := 1
def DeviceTypeMobile : DeviceType := 2
def DeviceTypePhablet : DeviceType := 4
def DeviceTypeTablet : DeviceType := 8
def DeviceTypeConsole : DeviceType := 16
def DeviceTypeTV : DeviceType := 32
def DeviceTypeShellTV : DeviceType := 64
def DeviceTypeCamera : DeviceType := 128
def DeviceTypeCarBrowser : DeviceType := 256
def DeviceTypePortableMediaPlayer : DeviceType := 512
def DeviceTypeAll : DeviceType := DeviceTypeTV ||| DeviceTypeShellTV ||| DeviceTypeNotebook ||| DeviceTypeConsole |||
  DeviceTypeCarBrowser ||| DeviceTypeCamera ||| DeviceTypePortableMediaPlayer ||| DeviceTypeMobile ||| DeviceTypePhablet |||
  DeviceTypeTablet

/-- `Unknown` (ctx.go:14). -/
def unknown : Bytes := ascii "UNK"

/-- `ClientType.String` (client.go:34-51). -/
def clientTypeString (t : ClientType) : Bytes :=
  if t = ClientTypeBrowser then ascii "browser"
  else if t = ClientTypeMobileApp then ascii "mobile app"
  else if t = ClientTypeLibrary then ascii "library"
  else if t = ClientTypeFeedReader then ascii "feed reader"
  else if t = ClientTypeMediaPlayer then ascii "mediaplayer"
  else if t = ClientTypePIM then ascii "pim"
  else unknown

/-- `DeviceType.String` (device.go:39-64). -/
def deviceTypeString (t : DeviceType) : Bytes :=
  if t = DeviceTypeNotebook then ascii "desktop"
  else if t = DeviceTypeMobile then ascii "smartphone"
  else if t = DeviceTypeTablet then ascii "tablet"
  else if t = DeviceTypePhablet then ascii "phablet"
  else if t = DeviceTypeConsole then ascii "console"
  else if t = DeviceTypeTV then ascii "tv"
  else if t = DeviceTypeShellTV then ascii "tv"
  else if t = DeviceTypeCamera then ascii "camera"
  else if t = DeviceTypeCarBrowser then ascii "car browser"
  else if t = DeviceTypePortableMediaPlayer then ascii "portable media player"
  else unknown

/-- A statement that writes to the array of `c.buf` (see `Model/Alias`): `c.buf = append(c.buf, s...)` or `c.buf = append(c.buf[:0], s...)`. -/
inductive BufOp where
  | append (s : Bytes)
  | load (s : Bytes)
deriving DecidableEq, Repr

/-- `type Ctx` (ctx.go:30-55). Byte slices are their contents; capacities and aliasing are in `Model/Alias`. The last field is not part of
the code and has no influence: it records the writes to `c.buf` since it was last truncated by `reset`. -/
structure Ctx where
  bits : Bitset := 0
  src : Bytes := []
  buf : Bytes := []
  maskClientType : ClientType := 0
  maskDeviceType : DeviceType := 0
  hintHash : UInt64 := 0
  clientType : ClientType := 0
  clientName64 : Entry64 := 0
  clientVersion64 : Entry64 := 0
  clientVersion : Version := {}
  engineName64 : Entry64 := 0
  engineVersion64 : Entry64 := 0
  engineVersion : Version := {}
  deviceType : DeviceType := 0
  brandName64 : Entry64 := 0
  modelName64 : Entry64 := 0
  osName64 : Entry64 := 0
  osVersion64 : Entry64 := 0
  osVersion : Version := {}
  writes : List BufOp := []
deriving DecidableEq, Repr

/-- `NewCtx` (ctx.go:57-63). -/
def newCtx : Ctx := { maskClientType := ClientTypeAll, maskDeviceType := DeviceTypeAll }

namespace Ctx

/-- `c.CheckBit(i)`. -/
def check (c : Ctx) (i : Nat) : Bool := c.bits.check i

/-- `c.SetBit(i, true)`. -/
def setBit (c : Ctx) (i : Nat) : Ctx := { c with bits := c.bits.set i }

/-- `reset` (ctx.go:286-309). `Entry64.Reset` and `Bitset.Reset` zero the word (external library). -/
def reset0 (c : Ctx) : Ctx :=
  let c := { c with bits := 0 }
  let c := { c with src := [] }
  let c := { c with buf := [], writes := [] }
  let c := { c with hintHash := 0 }
  let c := { c with clientType := 0 }
  let c := { c with clientName64 := 0 }
  let c := { c with clientVersion64 := 0 }
  let c := { c with clientVersion := c.clientVersion.reset }
  let c := { c with engineName64 := 0 }
  let c := { c with engineVersion64 := 0 }
  let c := { c with engineVersion := c.engineVersion.reset }
  let c := { c with deviceType := 0 }
  let c := { c with brandName64 := 0 }
  let c := { c with modelName64 := 0 }
  let c := { c with osName64 := 0 }
  let c := { c with osVersion64 := 0 }
  { c with osVersion := c.osVersion.reset }

/-- `Reset` (ctx.go:280-284). -/
def reset (c : Ctx) : Ctx :=
  let c := c.reset0
  let c := { c with maskClientType := ClientTypeAll }
  { c with maskDeviceType := DeviceTypeAll }

/-- `SetUserAgent` (ctx.go:65-69), also `SetUserAgentStr` (78-80). An argument that is a window of the context's own arrays is copied
correctly too: `reset` only shortens the slices, and `append` moves overlapping memory. -/
def setUserAgent (c : Ctx) (src : Bytes) : Ctx :=
  let c := c.reset0
  { c with src := src }

/-- `SetRequestedWith` (ctx.go:71-76); `H` is `fnv.Hash64String`. -/
def setRequestedWith (H : Bytes → UInt64) (c : Ctx) (header : Bytes) : Ctx :=
  if header.length > 0 then { c with hintHash := H header } else c

/-- `FilterClientType` (ctx.go:82-85). -/
def filterClientType (c : Ctx) (mask : ClientType) : Ctx := { c with maskClientType := mask }

/-- `FilterDeviceType` (ctx.go:87-90). -/
def filterDeviceType (c : Ctx) (mask : DeviceType) : Ctx := { c with maskDeviceType := mask }

/-- `fromCache` (ctx.go:311-324). -/
def fromCache (c : Ctx) (row : CacheEntry) : Ctx :=
  let c := { c with bits := row.bits }
  let c := { c with clientType := row.clientType }
  let c := { c with clientName64 := row.clientName64 }
  let c := { c with clientVersion64 := row.clientVersion64 }
  let c := { c with engineName64 := row.engineName64 }
  let c := { c with engineVersion64 := row.engineVersion64 }
  let c := { c with deviceType := row.deviceType }
  let c := { c with brandName64 := row.brandName64 }
  let c := { c with modelName64 := row.modelName64 }
  let c := { c with osName64 := row.osName64 }
  let c := { c with osVersion64 := row.osVersion64 }
  { c with buf := row.data, writes := c.writes ++ [BufOp.load row.data] }

end Ctx

/-- `(*CacheEntry).FromCtx` (cache_entry.go:35-48). -/
def CacheEntry.fromCtx (r : CacheEntry) (ctx : Ctx) : CacheEntry :=
  let r := { r with bits := ctx.bits }
  let r := { r with clientType := ctx.clientType }
  let r := { r with clientName64 := ctx.clientName64 }
  let r := { r with clientVersion64 := ctx.clientVersion64 }
  let r := { r with engineName64 := ctx.engineName64 }
  let r := { r with engineVersion64 := ctx.engineVersion64 }
  let r := { r with deviceType := ctx.deviceType }
  let r := { r with brandName64 := ctx.brandName64 }
  let r := { r with modelName64 := ctx.modelName64 }
  let r := { r with osName64 := ctx.osName64 }
  let r := { r with osVersion64 := ctx.osVersion64 }
  { r with data := ctx.src }

/-- Straight-line methods of `*Ctx` without cache access: context afterwards and result, `none` = panicking. The context after
a panic matters, because deferred functions still use it. -/
def P (α : Type) : Type := Ctx → Ctx × Option α

namespace P

def pure {α : Type} (a : α) : P α := fun c => (c, some a)

def bind {α β : Type} (x : P α) (f : α → P β) : P β := fun c =>
  match x c with
  | (c', some a) => f a c'
  | (c', none) => (c', none)

instance : Monad P where
  pure := P.pure
  bind := P.bind

/-- Read the context. -/
def ctx : P Ctx := fun c => (c, some c)

/-- Assign fields of the context. -/
def modify (f : Ctx → Ctx) : P Unit := fun c => (f c, some ())

/-- An expression that may panic (index or slice out of range). -/
def ofOption {α : Type} (o : Option α) : P α := fun c => (c, o)

/-- `if p { x }`. -/
def when (p : Prop) [Decidable p] (x : P Unit) : P Unit := if p then x else P.pure ()

end P

/-- Methods of `*Ctx` that also access the cache. -/
def M (α : Type) : Type := Ctx → Prog (Ctx × Option α)

namespace M

def pure {α : Type} (a : α) : M α := fun c => .ret (c, some a)

def bind {α β : Type} (x : M α) (f : α → M β) : M β := fun c =>
  (x c).bind fun r =>
    match r with
    | (c', some a) => f a c'
    | (c', none) => .ret (c', none)

instance : Monad M where
  pure := M.pure
  bind := M.bind

/-- Cache-free code as a special case. -/
def lift {α : Type} (x : P α) : M α := fun c => .ret (x c)

def ctx : M Ctx := lift P.ctx

def modify (f : Ctx → Ctx) : M Unit := lift (P.modify f)

def ofOption {α : Type} (o : Option α) : M α := lift (P.ofOption o)

/-- `if p { x }`. -/
def when (p : Prop) [Decidable p] (x : M Unit) : M Unit := if p then x else M.pure ()

/-- `body` with a deferred function, which runs on return and on panic; it sees the named result (`none` while panicking).
A panic of the deferred function replaces the result. -/
def defer {α : Type} (d : Option α → M Unit) (body : M α) : M α := fun c =>
  (body c).bind fun r =>
    (d r.2 r.1).bind fun r' =>
      .ret (r'.1, match r'.2 with | some _ => r.2 | none => none)

/-- `GetCache().Get(key)`. -/
def cacheGet (key : Bytes) : M GetResp := fun c => .get key (fun r => .ret (c, some r))

/-- `GetCache().Set(key, &e)`; the returned error is ignored by all callers. -/
def cacheSet (key : Bytes) (e : CacheEntry) : M Unit := fun c => .set key e (.ret (c, some ()))

end M
end Verif
