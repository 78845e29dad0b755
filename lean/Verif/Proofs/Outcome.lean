import Verif.Proofs.Local
import Verif.Spec.Request
import Verif.Model.System
/-
The outcome of each detection stage as a function of the user agent and the filter, and the invariant satisfied by every cache entry
and every context in every execution.
-/
namespace Verif

/-! ### Result groups -/

/-- Client results. -/
structure GC where
  clientType : ClientType
  clientName64 : Entry64
  clientVersion64 : Entry64
  engineName64 : Entry64
  engineVersion64 : Entry64
  verConst : Bool
  blink : Bool

/-- OS results. -/
structure GO where
  osName64 : Entry64
  osVersion64 : Entry64
  bufSrc : Bool
  verBufSrc : Bool

def eC (e : CacheEntry) : GC :=
  ⟨e.clientType, e.clientName64, e.clientVersion64, e.engineName64, e.engineVersion64, e.bits.check flagVerConstSrc,
    e.bits.check flagEngineForceBlink⟩

def eO (e : CacheEntry) : GO := ⟨e.osName64, e.osVersion64, e.bits.check flagOSBufSrc, e.bits.check flagOSVerBufSrc⟩

def zeroC : GC := ⟨0, 0, 0, 0, 0, false, false⟩
def zeroO : GO := ⟨0, 0, false, false⟩

/-- The device type a getter reports. -/
def eType (e : CacheEntry) : DeviceType := if e.bits.check flagDeviceForceDesktop then DeviceTypeNotebook else e.deviceType

/-- The brand a getter reports: offsets and whether they point into the vendor buffer. -/
def eBrand (e : CacheEntry) : Option (Entry64 × Bool) :=
  if e.brandName64 = 0 then none else some (e.brandName64, e.bits.check flagVendorFragment)

def EZeroD (e : CacheEntry) : Prop :=
  e.deviceType = 0 ∧ e.brandName64 = 0 ∧ e.bits.check flagDeviceForceDesktop = false ∧ e.bits.check flagVendorFragment = false

/-- A context seen as the entry it would store. -/
def ent (c : Ctx) : CacheEntry := CacheEntry.fromCtx {} c

/-! ### Outcomes -/

/-- Client detection from scratch; `none` = panic. -/
def clientOut (T : Tables) (m : ClientType) (u : Bytes) : Option GC :=
  match detectClient T { src := u, maskClientType := m } with
  | (c, some _) => some (eC (ent c))
  | (_, none) => none

/-- OS detection from scratch. -/
def osOut (T : Tables) (u : Bytes) : Option GO :=
  match detectOS T { src := u } with
  | (c, some _) => some (eO (ent c))
  | (_, none) => none

/-- What GetOS makes of the OS results. -/
def osNameText (T : Tables) (u : Bytes) (g : GO) : Option Bytes :=
  if g.osName64 ≠ 0 then (sliceE? (if g.bufSrc then u else T.orBuf) g.osName64).map (trim 32) else some unknown

def osAns (T : Tables) (u : Bytes) : Option Bytes := (osOut T u).bind (osNameText T u)

/-- The device categories in detection order (device_parser.go:60-115): filter bit, table, default type. -/
def devCats : List (DeviceType × Nat × DeviceType) :=
  [(DeviceTypeCamera, dpCamera, DeviceTypeCamera), (DeviceTypeCarBrowser, dpCarBrowser, DeviceTypeCarBrowser),
   (DeviceTypeConsole, dpConsole, DeviceTypeConsole), (DeviceTypePortableMediaPlayer, dpPortableMediaPlayer, DeviceTypeNotebook),
   (DeviceTypeShellTV, dpShellTV, DeviceTypeShellTV), (DeviceTypeTV, dpTV, DeviceTypeTV), (DeviceTypeMobile, dpMobile, DeviceTypeMobile),
   (DeviceTypeNotebook, dpNotebook, DeviceTypeNotebook)]

/-- First category with a match: type and brand; `none` = panic. -/
def devSelect (T : Tables) (m : DeviceType) (u : Bytes) :
    List (DeviceType × Nat × DeviceType) → Option (Option (DeviceType × Entry64))
  | [] => some none
  | (bit, idx, def_) :: r =>
    if m &&& bit ≠ 0 then
      match evalDeviceBody T idx def_ { src := u, maskDeviceType := m } with
      | (_, none) => none
      | (c, some (some t)) => some (some (t, c.brandName64))
      | (_, some none) => devSelect T m u r
    else devSelect T m u r

def vendorOut (T : Tables) (u : Bytes) : Option (Option (Entry64 × Bool)) :=
  match evalVendor T { src := u } with
  | (c, some _) => some (eBrand (ent c))
  | (_, none) => none

/-- Is the detected OS a desktop one? -/
def desktop (T : Tables) (u : Bytes) : Option Bool := (osAns T u).map desktopOS.contains

/-- Device detection from scratch: reported type and brand. -/
def devOut (T : Tables) (m : DeviceType) (u : Bytes) : Option (DeviceType × Option (Entry64 × Bool)) :=
  match devSelect T m u devCats with
  | none => none
  | some (some (t, b)) => some (t, if b = 0 then none else some (b, false))
  | some none =>
    match (if m &&& DeviceTypeNotebook ≠ 0 then desktop T u else some false) with
    | none => none
    | some dsk =>
      if T.forceTablet.isMatch u then some (if dsk then DeviceTypeNotebook else DeviceTypeTablet, none)
      else if T.forceMobile.isMatch u then some (if dsk then DeviceTypeNotebook else DeviceTypeMobile, none)
      else (vendorOut T u).map fun b => (if dsk then DeviceTypeNotebook else 0, b)

/-! ### The invariant -/

section
variable (T : Tables) (MC : Bytes → ClientType → Prop) (MD : Bytes → DeviceType → Prop)

/-- No filter in use makes client detection panic. -/
def GoodC (u : Bytes) : Prop := ∀ m, MC u m → clientOut T m u ≠ none
def GoodO (u : Bytes) : Prop := osOut T u ≠ none
def GoodD (u : Bytes) : Prop := ∀ m, MD u m → devOut T m u ≠ none

def InvC (u : Bytes) (e : CacheEntry) : Prop :=
  GoodC T MC u → if e.bits.check flagClientDetect = true then ∃ m, MC u m ∧ clientOut T m u = some (eC e) else eC e = zeroC

def InvO (u : Bytes) (e : CacheEntry) : Prop :=
  GoodO T u → if e.bits.check flagOSDetect = true then osOut T u = some (eO e) else eO e = zeroO

def InvD (u : Bytes) (e : CacheEntry) : Prop :=
  GoodD T MD u →
    (if e.bits.check flagDeviceDetect = true then
      (∃ m o, MD u m ∧ devOut T m u = some o ∧ o.1 = eType e) ∧ (∃ m o, MD u m ∧ devOut T m u = some o ∧ o.2 = eBrand e)
    else EZeroD e) ∧ (e.bits.check flagDeviceForceDesktop = true → desktop T u = some true)

/-- What every stored entry satisfies. -/
structure Inv (u : Bytes) (e : CacheEntry) : Prop where
  c : InvC T MC u e
  o : InvO T u e
  d : InvD T MD u e

/-- What GetBrowserVersionString makes of the client results. -/
def browserVerText (u : Bytes) (g : GC) : Option Bytes :=
  if g.clientVersion64 > 0 then
    (sliceE? (if g.verConst then T.crBuf else u) g.clientVersion64).map fun raw =>
      trimRight 46 (match indexByteAt raw 47 0 with | some p => raw.drop (p + 1) | none => raw)
  else some []

/-- What GetEngineVersionString makes of the client results. -/
def engineVerText (u : Bytes) (g : GC) : Option Bytes :=
  if g.engineVersion64 > 0 then sliceE? u g.engineVersion64 else some []

/-- What GetOSVersionString makes of the OS results. -/
def osVerText (u : Bytes) (g : GO) : Option Bytes :=
  if g.osVersion64 > 0 then
    (sliceE? (if g.verBufSrc then T.orBuf else u) g.osVersion64).map fun raw => raw.map fun b => if b = 95 then 46 else b
  else some []

/-- Versions obtainable by repeatedly parsing texts of `R`, starting from the zero version. -/
inductive ParsedFrom (R : Bytes → Prop) : Version → Prop where
  | zero : ParsedFrom R {}
  | parse {v raw} (h : ParsedFrom R v) (hr : R raw) : ParsedFrom R (v.parse raw).1

/-- Version texts of clients under the filters in use. -/
def BrowserRaw (u raw : Bytes) : Prop := ∃ m g, MC u m ∧ clientOut T m u = some g ∧ browserVerText T u g = some raw
def EngineRaw (u raw : Bytes) : Prop := ∃ m g, MC u m ∧ clientOut T m u = some g ∧ engineVerText u g = some raw
def OSRaw (u raw : Bytes) : Prop := ∃ g, osOut T u = some g ∧ osVerText T u g = some raw

/-- What every context configured for `q` satisfies between calls. -/
structure CInv (H : Bytes → UInt64) (q : Req) (c : Ctx) : Prop where
  src : c.src = q.ua
  mc : c.maskClientType = q.mc
  md : c.maskDeviceType = q.md
  hint : c.hintHash = if q.header = [] then 0 else H q.header
  inv : Inv T MC MD q.ua (ent c)
  bv : GoodC T MC q.ua → ParsedFrom (BrowserRaw T MC q.ua) c.clientVersion
  ev : GoodC T MC q.ua → ParsedFrom (EngineRaw T MC q.ua) c.engineVersion
  ov : GoodO T q.ua → ParsedFrom (OSRaw T q.ua) c.osVersion

end
end Verif
