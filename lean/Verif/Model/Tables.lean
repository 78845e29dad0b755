import Verif.Model.Base
/-
The rule tables and compiled regular expressions the detection code runs on (client_repo.go, device_repo.go, os_repo.go,
vendor_repo.go, hint_repo.go). The model is parametric in them; the shipped ones are in `Verif/Data`.
-/
namespace Verif

/-- A compiled `*regexp.Regexp`: its source text (`String()`), its number of capture groups and `FindSubmatchIndex`
(`none` = nil = no match). Library type; only its documented contract (`Re.WF`) is ever assumed. -/
structure Re where
  src : Bytes
  ncap : Nat
  find : Bytes → Option (List Int)

namespace Re

/-- `re.Match(b)`. -/
def isMatch (re : Re) (b : Bytes) : Bool := (re.find b).isSome

/-- `re.FindSubmatchIndex(b)`; a nil result is the empty list. -/
def submatch (re : Re) (b : Bytes) : List Int := (re.find b).getD []

/-- Group `i` of a match vector is either absent (-1,-1) or a valid range of `b`. -/
def GroupOK (b : Bytes) (m : List Int) (i : Nat) : Prop :=
  ∃ lo hi, m[2 * i]? = some lo ∧ m[2 * i + 1]? = some hi ∧
    ((lo = -1 ∧ hi = -1) ∨ (0 ≤ lo ∧ lo ≤ hi ∧ hi ≤ b.length))

/-- Documented contract of `FindSubmatchIndex`. -/
def WF (re : Re) : Prop :=
  ∀ b m, re.find b = some m → m.length = 2 * (re.ncap + 1) ∧ ∀ i, i ≤ re.ncap → GroupOK b m i

end Re

/-- `type clientTuple` (client.go:22-32). `int32` indices are `Int` (the code does no arithmetic on them); `url64`, `type64` are never
read by the detection code and left out. -/
structure ClientTuple where
  matchRI : Int := -1
  match64 : Entry64 := 0
  browser64 : Entry64 := 0
  version64 : Entry64 := 0
  browserVI : Int8 := -1
  engine64 : Entry64 := 0
  engineFI : Int := -1
deriving DecidableEq, Repr

/-- `type deviceTuple` (device.go:23-30). -/
structure DeviceTuple where
  type64 : Entry64 := 0
  brand64 : Entry64 := 0
  matchRI : Int := -1
  match64 : Entry64 := 0
  modelSI : Int := -1
  models64 : Entry64 := 0
deriving DecidableEq, Repr

/-- `type modelTuple` (device.go:32-37). -/
structure ModelTuple where
  type64 : Entry64 := 0
  matchRI : Int := -1
  match64 : Entry64 := 0
  model64 : Entry64 := 0
deriving DecidableEq, Repr

/-- `type osTuple` (os.go:9-17). -/
structure OSTuple where
  name64 : Entry64 := 0
  nameSI : Int8 := -1
  matchRI : Int := -1
  match64 : Entry64 := 0
  versionSI : Int8 := -1
  version64 : Entry64 := 0
  versions64 : Entry64 := 0
deriving DecidableEq, Repr

/-- `type osVersionTuple` (os.go:19-24). -/
structure OSVersionTuple where
  matchRI : Int := -1
  match64 : Entry64 := 0
  versionSI : Int8 := -1
  version64 : Entry64 := 0
deriving DecidableEq, Repr

/-- `type vendorTuple` (vendor.go:5-8). -/
structure VendorTuple where
  brand64 : Entry64 := 0
  range64 : Entry64 := 0
deriving DecidableEq, Repr

/-- All package-level tables and fixed regular expressions. Go maps are functions to `Option`. -/
structure Tables where
  /-- `__cr_idx`, `__cr_re`, `__cr_ef`, `__cr_ev`, `__cr_evre`, `__cr_buf` (client_repo.go) -/
  crIdx : List (List ClientTuple)
  crRe : List Re
  crEf : List (Bytes → Entry64)
  crEv : Entry64 → Option Nat
  crEvre : List Re
  crBuf : Bytes
  /-- `__dr_idx`, `__dr_dm`, `__dr_re`, `__dr_buf` (device_repo.go) -/
  drIdx : List (List DeviceTuple)
  drDm : List ModelTuple
  drRe : List Re
  drBuf : Bytes
  /-- `__or_os`, `__or_ov`, `__or_re`, `__or_buf` (os_repo.go) -/
  orOs : List OSTuple
  orOv : List OSVersionTuple
  orRe : List Re
  orBuf : Bytes
  /-- `__vr_idx`, `__vr_re`, `__vr_buf` (vendor_repo.go) -/
  vrIdx : List VendorTuple
  vrRe : List Re
  vrBuf : Bytes
  /-- `__hr_idx`, `__hr_buf` (hint_repo.go) -/
  hrIdx : UInt64 → Option Entry64
  hrBuf : Bytes
  /-- `forceEngineBlinkRE` (engine_parser.go:11), `reForceTablet`, `reForceMobile` (device_parser.go:41-42) -/
  forceBlink : Re
  forceTablet : Re
  forceMobile : Re

end Verif
