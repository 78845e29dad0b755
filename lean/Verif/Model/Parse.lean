import Verif.Model.Ctx
/-
Model of client_parser.go, engine_parser.go, device_parser.go, os.go (detection) and of the getters of ctx.go.
Everything is parametric in the rule tables `T` (including the compiled regular expressions).
-/
namespace Verif

/-- Go indexing `l[i]`; `none` is the index panic. -/
def index? {α : Type} (l : List α) (i : Int) : Option α := if i < 0 then none else l[i.toNat]?

/-- `uint32(i)` for an `int` (wraps). -/
def u32 (i : Int) : UInt32 := UInt32.ofInt i

/-- `bytealg.TrimRight(b, []byte{x})` (external library). -/
def trimRight (x : UInt8) (b : Bytes) : Bytes := (b.reverse.dropWhile (· == x)).reverse

/-- `bytealg.Trim(b, []byte{x})` (external library). -/
def trim (x : UInt8) (b : Bytes) : Bytes := trimRight x (b.dropWhile (· == x))

/-- `bytealg.IndexByteAtLUR(s, b, at)` (external library): least index ≥ `at` of byte `b`; `none` is -1. -/
def indexByteAt (s : Bytes) (b : UInt8) (at_ : Nat) : Option Nat := (indexByte (s.drop at_) b).map (· + at_)

/-- `_ = ir[irl-1]`, the bounds hint that panics on an empty table. -/
def boundsHint {α : Type} (l : List α) : Option Unit := (index? l (l.length - 1)).map fun _ => ()

/-! ### Client and engine -/

def cpBrowserEngine : Nat := 0
def cpBrowser : Nat := 1
def cpFeedReader : Nat := 2
def cpLibrary : Nat := 3
def cpMediaPlayer : Nat := 4
def cpMobileApp : Nat := 5
def cpPIM : Nat := 6

/-- client_parser.go:88-99, the version of a client matched by regexp. `x.browserVI*2` is int8 arithmetic and wraps. -/
def clientEvalVersion (re : Re) (x : ClientTuple) : P Unit := do
  let c ← P.ctx
  if x.version64 ≠ 0 then
    P.modify fun c => { c with clientVersion64 := x.version64 }
    P.modify fun c => c.setBit flagVerConstSrc
  else if x.browserVI ≠ -1 then
    let m := re.submatch c.src
    if (m.length : Int) > x.browserVI.toInt then
      let lo1 ← P.ofOption (index? m (x.browserVI * 2).toInt)
      let hi1 ← P.ofOption (index? m (x.browserVI * 2 + 1).toInt)
      if lo1 ≠ -1 ∧ hi1 ≠ -1 then
        P.modify fun c => { c with clientVersion64 := Entry64.encode (u32 lo1) (u32 hi1) }
      else pure ()
    else pure ()
  else pure ()

/-- client_parser.go:81-110, the rule loop of `evalClient`; the result is `x`. -/
def clientLoop (T : Tables) : List ClientTuple → P (Option ClientTuple)
  | [] => pure none
  | v :: ir => do
    let c ← P.ctx
    if v.matchRI ≥ 0 then
      let re ← P.ofOption (index? T.crRe v.matchRI)
      if re.isMatch c.src then
        clientEvalVersion re v
        pure (some v)
      else clientLoop T ir
    else
      let si ← P.ofOption (sliceE? T.crBuf v.match64)
      if si.length > 0 ∧ containsSub c.src si = true then pure (some v)
      else clientLoop T ir

/-- engine_parser.go:27-44, the rule loop of `evalEngine`; the result is `e`. -/
def engineLoop (T : Tables) : List ClientTuple → P (Option ClientTuple)
  | [] => pure none
  | v :: ir => do
    let c ← P.ctx
    if v.matchRI ≥ 0 then
      let re ← P.ofOption (index? T.crRe v.matchRI)
      if re.isMatch c.src then pure (some v)
      else engineLoop T ir
    else
      let si ← P.ofOption (sliceE? T.crBuf v.match64)
      if si.length > 0 ∧ containsSub c.src si = true then pure (some v)
      else engineLoop T ir

/-- engine_parser.go:15-22. -/
def engineFromRule (T : Tables) (cri : ClientTuple) : P Unit := do
  P.when (cri.engine64 ≠ 0) do
    P.modify fun c => { c with engineName64 := cri.engine64 }
  P.when (cri.engineFI ≠ -1) do
    let c ← P.ctx
    let raw ← P.ofOption (sliceE? c.src c.clientVersion64)
    let f ← P.ofOption (index? T.crEf cri.engineFI)
    P.modify fun c => { c with engineName64 := f (getMajor raw) }

/-- engine_parser.go:23-48. -/
def engineFromList (T : Tables) : P Unit := do
  let c ← P.ctx
  if c.engineName64 = 0 then
    let ir ← P.ofOption (index? T.crIdx cpBrowserEngine)
    P.ofOption (boundsHint ir)
    match ← engineLoop T ir with
    | some e => P.modify fun c => { c with engineName64 := e.browser64 }
    | none => pure ()
  else pure ()

/-- engine_parser.go:49-55. -/
def engineEvalVersion (T : Tables) : P Unit := do
  let c ← P.ctx
  if c.engineName64 ≠ 0 then
    match T.crEv c.engineName64 with
    | some ri =>
      let re ← P.ofOption T.crEvre[ri]?
      let m := re.submatch c.src
      if m.length ≥ 4 then
        let lo ← P.ofOption (index? m 2)
        let hi ← P.ofOption (index? m 3)
        P.modify fun c => { c with engineVersion64 := Entry64.encode (u32 lo) (u32 hi) }
      else pure ()
    | none => pure ()
  else pure ()

/-- engine_parser.go:56-59. -/
def engineForceBlink (T : Tables) : P Unit := do
  let c ← P.ctx
  if c.engineName64 = 0 ∧ T.forceBlink.isMatch c.src = true then
    P.modify fun c => c.setBit flagEngineForceBlink
  else pure ()

/-- `evalEngine` (engine_parser.go:14-60). -/
def evalEngine (T : Tables) (cri : ClientTuple) : P Unit := do
  engineFromRule T cri
  engineFromList T
  engineEvalVersion T
  engineForceBlink T

/-- `evalClient` (client_parser.go:77-123). -/
def evalClient (T : Tables) (idx : Nat) : P Bool := do
  let ir ← P.ofOption (index? T.crIdx idx)
  P.ofOption (boundsHint ir)
  match ← clientLoop T ir with
  | some x =>
    P.modify fun c => { c with clientName64 := x.browser64 }
    P.when (idx = cpBrowser) (evalEngine T x)
    pure true
  | none => pure false

/-- One `if c.maskClientType&t != 0 { if c.evalClient(idx) { c.clientType = t; ok = true; return } }` block followed by the rest
(client_parser.go:32-73). -/
def clientTry (T : Tables) (t : ClientType) (idx : Nat) (rest : P Bool) : P Bool := do
  let c ← P.ctx
  if c.maskClientType &&& t ≠ 0 then
    if ← evalClient T idx then
      P.modify fun c => { c with clientType := t }
      pure true
    else rest
  else rest

/-- client_parser.go:32-74, the body of `parseClient` after the cache lookup. -/
def detectClient (T : Tables) : P Bool :=
  clientTry T ClientTypeFeedReader cpFeedReader <|
  clientTry T ClientTypeMobileApp cpMobileApp <|
  clientTry T ClientTypeMediaPlayer cpMediaPlayer <|
  clientTry T ClientTypePIM cpPIM <|
  clientTry T ClientTypeLibrary cpLibrary <|
  clientTry T ClientTypeBrowser cpBrowser <|
  pure false

/-- The deferred function of the three parse methods (client_parser.go:24-30, device_parser.go:52-58, os.go:51-57). -/
def finishParse (flag : Nat) : M Unit := do
  M.modify fun c => c.setBit flag
  let c ← M.ctx
  M.cacheSet c.src (CacheEntry.fromCtx {} c)

/-- The common frame of the three parse methods: cache lookup, then `body` with the deferred function
(client_parser.go:17-30, device_parser.go:45-58, os.go:45-57). `e.CheckBit` on a nil entry panics. -/
def parseFrame (flag : Nat) (body : M Bool) : M Bool := do
  let c ← M.ctx
  match ← M.cacheGet c.src with
  | .nilEntry => M.ofOption none
  | .hit e =>
    if e.bits.check flag then
      M.modify fun c => c.fromCache e
      pure true
    else M.defer (fun _ => finishParse flag) body
  | .miss => M.defer (fun _ => finishParse flag) body

/-- `parseClient` (client_parser.go:17-75). -/
def parseClient (T : Tables) : M Bool := parseFrame flagClientDetect (M.lift (detectClient T))

/-! ### Operating system -/

/-- os.go:27-31 -/
def osMaybeMacBytes : List Bytes := [ascii "Mac", ascii "(x86_64)", ascii "com.apple.Safari"]

/-- os.go:32-35 -/
def osMaybeMacRE : List Bytes :=
  [ascii "(?i)^.*CFNetwork/.+ Darwin/(\\d+[\\.\\d]+)",
   ascii "(?i)(?:Podcasts/(?:[\\d\\.]+)|Instacast(?:HD)?/(?:\\d\\.[\\d\\.abc]+)|Pocket Casts, iOS|\\(iOS\\)|iOS; Opera|Overcast|Castro|Podcat|iCatcher|RSSRadio/|MobileSafari/)"]

/-- os.go:36-38 -/
def osMaybeNotAND : List Bytes := [ascii "like Android"]

/-- os.go:39-42 -/
def osMaybeNotANDRE : List Bytes :=
  [ascii "(?i)(?:(?:Orca-)?Android|Adr|AOSP)[ /]?(?:[a-z]+ )?(\\d+[\\.\\d]*)",
   ascii "(?i) Adr |Android|Silk-Accelerated=[a-z]{4,5}"]

/-- os.go:126-152, the loop of `osEvalVer`. -/
def osVerLoop (T : Tables) : List OSVersionTuple → P Unit
  | [] => pure ()
  | v :: rv => do
    let c ← P.ctx
    if v.matchRI ≥ 0 then
      let re ← P.ofOption (index? T.orRe v.matchRI)
      if re.isMatch c.src then
        if v.versionSI ≠ -1 then
          let m := re.submatch c.src
          if (m.length : Int) > v.versionSI.toInt then
            let lo1 ← P.ofOption (index? m (v.versionSI * 2).toInt)
            let hi1 ← P.ofOption (index? m (v.versionSI * 2 + 1).toInt)
            if lo1 ≠ -1 ∧ hi1 ≠ -1 then
              P.modify fun c => { c with osVersion64 := Entry64.encode (u32 lo1) (u32 hi1) }
            else pure ()
          else pure ()
        else
          P.modify fun c => { c with osVersion64 := v.version64 }
          P.modify fun c => c.setBit flagOSVerBufSrc
      else osVerLoop T rv
    else if v.match64 ≠ 0 then
      let si ← P.ofOption (sliceE? T.orBuf v.match64)
      if si.length > 0 ∧ containsSub c.src si = true then
        P.modify fun c => { c with osVersion64 := v.version64 }
        P.modify fun c => c.setBit flagOSVerBufSrc
      else osVerLoop T rv
    else osVerLoop T rv

/-- Go slicing of a table, `l[lo:hi]` (os.go:123). -/
def sliceT? {α : Type} (l : List α) (e : Entry64) : Option (List α) :=
  let lo := (Entry64.decode e).1.toNat
  let hi := (Entry64.decode e).2.toNat
  if lo ≤ hi ∧ hi ≤ l.length then some ((l.drop lo).take (hi - lo)) else none

/-- `osEvalVer` (os.go:121-153). -/
def osEvalVer (T : Tables) (r : Entry64) : P Unit := do
  let rv ← P.ofOption (sliceT? T.orOv r)
  P.ofOption (boundsHint rv)
  osVerLoop T rv

/-- os.go:79-93, name and version of an operating system matched by regexp. -/
def osEvalMatch (re : Re) (x : OSTuple) : P Unit := do
  let c ← P.ctx
  P.modify fun c => { c with osName64 := x.name64 }
  P.when (x.nameSI ≠ -1 ∨ x.versionSI ≠ -1) do
    let m := re.submatch c.src
    P.when ((m.length : Int) > x.nameSI.toInt ∧ x.nameSI ≠ -1) do
      let lo1 ← P.ofOption (index? m (x.nameSI * 2).toInt)
      let hi1 ← P.ofOption (index? m (x.nameSI * 2 + 1).toInt)
      P.when (lo1 ≠ -1 ∧ hi1 ≠ -1) do
        P.modify fun c => { c with osName64 := Entry64.encode (u32 lo1) (u32 hi1) }
        P.modify fun c => c.setBit flagOSBufSrc
    P.when ((m.length : Int) > x.versionSI.toInt ∧ x.versionSI ≠ -1) do
      let lo1 ← P.ofOption (index? m (x.versionSI * 2).toInt)
      let hi1 ← P.ofOption (index? m (x.versionSI * 2 + 1).toInt)
      P.when (lo1 ≠ -1 ∧ hi1 ≠ -1) do
        P.modify fun c => { c with osVersion64 := Entry64.encode (u32 lo1) (u32 hi1) }

/-- os.go:67-108, the rule loop of `parseOS`; the result is `x`. -/
def osLoop (T : Tables) (maybeMac maybeNotAND : Bool) : List OSTuple → P (Option OSTuple)
  | [] => pure none
  | v :: r => do
    let c ← P.ctx
    if v.matchRI ≥ 0 then
      let re ← P.ofOption (index? T.orRe v.matchRI)
      if osMaybeMacRE.contains re.src = true ∧ maybeMac = true then osLoop T maybeMac maybeNotAND r
      else if osMaybeNotANDRE.contains re.src = true ∧ maybeNotAND = true then osLoop T maybeMac maybeNotAND r
      else if re.isMatch c.src then
        osEvalMatch re v
        P.when (v.versions64 ≠ 0) (osEvalVer T v.versions64)
        pure (some v)
      else osLoop T maybeMac maybeNotAND r
    else if v.match64 ≠ 0 then
      let si ← P.ofOption (sliceE? T.orBuf v.match64)
      if si.length > 0 ∧ containsSub c.src si = true then
        P.modify fun c => { c with osName64 := v.name64 }
        pure (some v)
      else osLoop T maybeMac maybeNotAND r
    else osLoop T maybeMac maybeNotAND r

/-- os.go:59-118, the body of `parseOS` after the cache lookup. -/
def detectOS (T : Tables) : P Bool := do
  P.ofOption (boundsHint T.orOs)
  let c ← P.ctx
  let maybeMac := osMaybeMacBytes.any (containsSub c.src)
  let maybeNotAND := osMaybeNotAND.any (containsSub c.src)
  match ← osLoop T maybeMac maybeNotAND T.orOs with
  | some x =>
    P.when (x.version64 ≠ 0) do
      P.modify fun c => { c with osVersion64 := x.version64 }
      P.modify fun c => c.setBit flagOSVerBufSrc
    pure true
  | none => pure false

/-- `parseOS` (os.go:45-119). -/
def parseOS (T : Tables) : M Bool := parseFrame flagOSDetect (M.lift (detectOS T))

/-- `if !c.CheckBit(flag) { c.parseX() }`, the first statement of the getters. -/
def ensure (flag : Nat) (parse : M Bool) : M Unit := do
  let c ← M.ctx
  M.when (¬ c.check flag = true) do
    let _ ← parse
    pure ()

/-- `GetOS` (ctx.go:227-242). -/
def getOS (T : Tables) : M Bytes := do
  ensure flagOSDetect (parseOS T)
  let c ← M.ctx
  if c.osName64 ≠ 0 then
    let buf := if c.check flagOSBufSrc then c.src else T.orBuf
    let raw ← M.ofOption (sliceE? buf c.osName64)
    pure (trim 32 raw)
  else pure unknown

/-! ### Device -/

def dpCamera : Nat := 0
def dpCarBrowser : Nat := 1
def dpConsole : Nat := 2
def dpMobile : Nat := 3
def dpNotebook : Nat := 4
def dpPortableMediaPlayer : Nat := 5
def dpShellTV : Nat := 6
def dpTV : Nat := 7

/-- device_parser.go:24-39 -/
def desktopOS : List Bytes :=
  [ascii "AmigaOS", ascii "IBM", ascii "GNU/Linux", ascii "Ubuntu", ascii "Fedora", ascii "Mac", ascii "Unix", ascii "OpenBSD",
   ascii "FreeBSD", ascii "Windows", ascii "BeOS", ascii "Chrome OS", ascii "Chromium OS", ascii "OS ROSA"]

/-- `b2i` (conv.go:3-12). -/
def b2i (b : UInt8) : Nat := if b = 49 then 1 else if b = 50 then 2 else if b = 51 then 3 else 0

/-- `append(c.buf, s...)`. -/
def bufAppend (s : Bytes) : P Unit := P.modify fun c => { c with buf := c.buf ++ s, writes := c.writes ++ [BufOp.append s] }

/-- Append `raw` and point `modelName64` at it (device_parser.go:213-216, 254-257). -/
def bufModel (raw : Bytes) : P Unit := do
  let c ← P.ctx
  bufAppend raw
  let c' ← P.ctx
  P.modify fun d => { d with modelName64 := Entry64.encode (UInt32.ofNat c.buf.length) (UInt32.ofNat c'.buf.length) }

/-- `deviceBufMNE` (device_parser.go:210-217). -/
def deviceBufMNE (T : Tables) (e : Entry64) : P Unit := do
  let raw ← P.ofOption (sliceE? T.drBuf e)
  bufModel raw

/-- The expansion loop of `deviceBufMNE1` (device_parser.go:227-249), `p` being the position of a '$'. The fuel bounds the number
of iterations; `raw.length` suffices because `p` strictly increases (see `Proofs/Template`). Out of fuel counts as a panic, so
a wrong bound could not make anything provable by accident. -/
def mneLoop (raw : Bytes) (m : List Int) (src : Bytes) : Nat → Nat → P Unit
  | 0, _ => P.ofOption none
  | fuel + 1, p => do
    let p1 ← P.ofOption raw[p + 1]?
    let i := b2i p1
    if m.length ≤ i * 2 + 1 then pure ()
    else
      let lo2 ← P.ofOption m[i * 2]?
      let hi2 ← P.ofOption m[i * 2 + 1]?
      if lo2 < 0 ∨ hi2 < 0 then pure ()
      else
        let r ← P.ofOption (slice? src lo2.toNat hi2.toNat)
        bufAppend r
        let pp := p + 1
        match indexByteAt raw 36 pp with
        | some p =>
          -- p-(pp+1) > 0
          P.when (p > pp + 1) (bufAppend ((raw.drop (pp + 1)).take (p - (pp + 1))))
          mneLoop raw m src fuel p
        | none => bufAppend (raw.drop (pp + 1))

/-- `deviceBufMNE1` (device_parser.go:219-258). -/
def deviceBufMNE1 (T : Tables) (e : Entry64) (re : Re) : P Unit := do
  let raw ← P.ofOption (sliceE? T.drBuf e)
  match indexByte raw 36 with
  | some p =>
    let c ← P.ctx
    bufAppend (raw.take p)
    mneLoop raw (re.submatch c.src) c.src raw.length p
    let c' ← P.ctx
    P.modify fun d => { d with modelName64 := Entry64.encode (UInt32.ofNat c.buf.length) (UInt32.ofNat c'.buf.length) }
  | none => bufModel raw

/-- The `switch` of `deviceEvalType` (device_parser.go:270-285). -/
def deviceTypeOfText (raw : Bytes) (defType : DeviceType) : DeviceType :=
  if raw = ascii "smartphone" then DeviceTypeMobile
  else if raw = ascii "phablet" then DeviceTypePhablet
  else if raw = ascii "tablet" then DeviceTypeTablet
  else if raw = ascii "tv" then DeviceTypeTV
  else if raw = ascii "console" then DeviceTypeConsole
  else if raw = ascii "portable media player" then DeviceTypePortableMediaPlayer
  else defType

/-- `deviceEvalType` (device_parser.go:260-286). -/
def deviceEvalType (T : Tables) (typ typ1 : Entry64) (defType : DeviceType) : Option DeviceType := do
  let raw ← sliceE? T.drBuf typ
  let e := if raw.length = 0 then typ1 else typ
  let raw ← sliceE? T.drBuf e
  if raw.length = 0 then return defType
  return deviceTypeOfText raw defType

/-- device_parser.go:152-169, the rule loop of `evalDevice`; the result is `x`. -/
def deviceLoop (T : Tables) : List DeviceTuple → P (Option DeviceTuple)
  | [] => pure none
  | v :: ir => do
    let c ← P.ctx
    if v.matchRI ≥ 0 then
      let re ← P.ofOption (index? T.drRe v.matchRI)
      if re.isMatch c.src then pure (some v)
      else deviceLoop T ir
    else
      let si ← P.ofOption (sliceE? T.drBuf v.match64)
      if si.length > 0 ∧ containsSub c.src si = true then pure (some v)
      else deviceLoop T ir

/-- device_parser.go:183-201, the model loop, for `n` more rows from index `i`; the result is `typ`. -/
def modelLoop (T : Tables) (x : DeviceTuple) (defType : DeviceType) : Nat → Nat → P DeviceType
  | 0, _ => pure defType
  | n + 1, i => do
    let c ← P.ctx
    let m ← P.ofOption T.drDm[i]?
    if m.matchRI ≥ 0 then
      let re ← P.ofOption (index? T.drRe m.matchRI)
      if re.isMatch c.src then
        deviceBufMNE1 T m.model64 re
        P.ofOption (deviceEvalType T m.type64 x.type64 defType)
      else modelLoop T x defType n (i + 1)
    else if m.match64 ≠ 0 then
      let si ← P.ofOption (sliceE? T.drBuf m.match64)
      if si.length > 0 ∧ containsSub c.src si = true then
        deviceBufMNE T m.model64
        P.ofOption (deviceEvalType T m.type64 x.type64 defType)
      else modelLoop T x defType n (i + 1)
    else modelLoop T x defType n (i + 1)

/-- device_parser.go:171-204, brand, model and type of a matched device rule; the result is `typ`. -/
def deviceFill (T : Tables) (x : DeviceTuple) (defType : DeviceType) : P DeviceType := do
  P.modify fun c => { c with brandName64 := x.brand64 }
  if x.modelSI ≠ -1 then
    let sm ← P.ofOption (index? T.drDm x.modelSI)
    (if x.matchRI ≠ -1 then do
      let re ← P.ofOption (index? T.drRe x.matchRI)
      deviceBufMNE1 T sm.model64 re
    else deviceBufMNE T sm.model64)
    P.ofOption (deviceEvalType T sm.type64 x.type64 defType)
  else if x.models64 ≠ 0 then
    let lo := (Entry64.decode x.models64).1.toNat
    let hi := (Entry64.decode x.models64).2.toNat
    modelLoop T x defType (hi - lo) lo
  else P.ofOption (deviceEvalType T x.type64 0 defType)

/-- device_parser.go:149-207, `evalDevice` without its deferred function. The result is `some typ` for `ok = true`. -/
def evalDeviceBody (T : Tables) (idx : Nat) (defType : DeviceType) : P (Option DeviceType) := do
  let ir ← P.ofOption (index? T.drIdx idx)
  P.ofOption (boundsHint ir)
  match ← deviceLoop T ir with
  | some x =>
    let typ ← deviceFill T x defType
    pure (some typ)
  | none => pure none

/-- The deferred function of `evalDevice` (device_parser.go:139-147); `ok` is false when the body panicked. -/
def evalDeviceDeferred (T : Tables) (idx : Nat) (res : Option (Option DeviceType)) : M Unit := do
  match res with
  | some (some _) => pure ()
  | _ =>
    if idx ≠ dpNotebook then pure ()
    else
      let os ← getOS T
      if desktopOS.contains os then M.modify fun c => c.setBit flagDeviceForceDesktop
      else pure ()

/-- `evalDevice` (device_parser.go:136-208). -/
def evalDevice (T : Tables) (idx : Nat) (defType : DeviceType) : M (Option DeviceType) :=
  M.defer (evalDeviceDeferred T idx) (M.lift (evalDeviceBody T idx defType))

/-- device_parser.go:292-298, the fragments `j` of one vendor, `n` to go. -/
def vendorFragLoop (T : Tables) (brand : VendorTuple) : Nat → Nat → P Unit
  | 0, _ => pure ()
  | n + 1, j => do
    let c ← P.ctx
    let re ← P.ofOption T.vrRe[j]?
    P.when (re.isMatch c.src = true) do
      P.modify fun c => { c with brandName64 := brand.brand64 }
      P.modify fun c => c.setBit flagVendorFragment
    vendorFragLoop T brand n (j + 1)

/-- device_parser.go:289-299, the vendors. -/
def vendorLoop (T : Tables) : List VendorTuple → P Unit
  | [] => pure ()
  | brand :: r => do
    let lo := (Entry64.decode brand.range64).1.toNat
    let hi := (Entry64.decode brand.range64).2.toNat
    vendorFragLoop T brand (hi - lo) lo
    vendorLoop T r

/-- `evalVendor` (device_parser.go:288-300). -/
def evalVendor (T : Tables) : P Unit := vendorLoop T T.vrIdx

/-- One `if c.maskDeviceType&bit != 0 { if typ, ok1 := c.evalDevice(idx, defType); ok1 {...; return} }` block followed by the rest
(device_parser.go:60-115). -/
def deviceTry (T : Tables) (bit : DeviceType) (idx : Nat) (defType : DeviceType) (rest : M Bool) : M Bool := do
  let c ← M.ctx
  if c.maskDeviceType &&& bit ≠ 0 then
    match ← evalDevice T idx defType with
    | some typ =>
      M.modify fun c => { c with deviceType := typ }
      pure true
    | none => rest
  else rest

/-- device_parser.go:117-133, the keyword and vendor fall-backs. -/
def deviceFallback (T : Tables) : P Bool := do
  let c ← P.ctx
  if T.forceTablet.isMatch c.src then
    P.modify fun c => { c with deviceType := DeviceTypeTablet }
    pure true
  else if T.forceMobile.isMatch c.src then
    P.modify fun c => { c with deviceType := DeviceTypeMobile }
    pure true
  else
    P.when (c.brandName64 = 0) (evalVendor T)
    pure false

/-- device_parser.go:60-133, the body of `parseDevice` after the cache lookup. -/
def detectDevice (T : Tables) : M Bool :=
  deviceTry T DeviceTypeCamera dpCamera DeviceTypeCamera <|
  deviceTry T DeviceTypeCarBrowser dpCarBrowser DeviceTypeCarBrowser <|
  deviceTry T DeviceTypeConsole dpConsole DeviceTypeConsole <|
  deviceTry T DeviceTypePortableMediaPlayer dpPortableMediaPlayer DeviceTypeNotebook <|
  deviceTry T DeviceTypeShellTV dpShellTV DeviceTypeShellTV <|
  deviceTry T DeviceTypeTV dpTV DeviceTypeTV <|
  deviceTry T DeviceTypeMobile dpMobile DeviceTypeMobile <|
  deviceTry T DeviceTypeNotebook dpNotebook DeviceTypeNotebook <|
  M.lift (deviceFallback T)

/-- `parseDevice` (device_parser.go:45-134). -/
def parseDevice (T : Tables) : M Bool := parseFrame flagDeviceDetect (detectDevice T)

/-! ### Getters -/

/-- `GetUserAgent` (ctx.go:92-94). -/
def getUserAgent : M Bytes := do
  let c ← M.ctx
  pure c.src

/-- `GetClientType` (ctx.go:96-101). -/
def getClientType (T : Tables) : M ClientType := do
  ensure flagClientDetect (parseClient T)
  let c ← M.ctx
  pure c.clientType

/-- `GetBrowser` (ctx.go:103-125). -/
def getBrowser (T : Tables) : M Bytes := do
  ensure flagClientDetect (parseClient T)
  let c ← M.ctx
  let eb : Entry64 × Bytes :=
    if c.hintHash ≠ 0 then
      match T.hrIdx c.hintHash with
      | some he => (he, T.hrBuf)
      | none => (0, [])
    else if c.clientName64 > 0 then (c.clientName64, T.crBuf)
    else (0, [])
  if eb.1 > 0 then M.ofOption (sliceE? eb.2 eb.1)
  else pure unknown

/-- `GetBrowserVersionString` (ctx.go:135-152). -/
def getBrowserVersionString (T : Tables) : M Bytes := do
  ensure flagClientDetect (parseClient T)
  let c ← M.ctx
  if c.clientVersion64 > 0 then
    let buf := if c.check flagVerConstSrc then T.crBuf else c.src
    let raw ← M.ofOption (sliceE? buf c.clientVersion64)
    let raw := match indexByteAt raw 47 0 with
      | some p => raw.drop (p + 1)
      | none => raw
    pure (trimRight 46 raw)
  else pure []

/-- `GetBrowserVersion` (ctx.go:127-133); the value behind the returned pointer. -/
def getBrowserVersion (T : Tables) : M Version := do
  let c ← M.ctx
  M.when (¬ c.clientVersion.p = true) do
    let raw ← getBrowserVersionString T
    M.modify fun c => { c with clientVersion := (c.clientVersion.parse raw).1 }
  let c ← M.ctx
  pure c.clientVersion

/-- `GetEngine` (ctx.go:154-166). -/
def getEngine (T : Tables) : M Bytes := do
  ensure flagClientDetect (parseClient T)
  let c ← M.ctx
  if c.check flagEngineForceBlink then pure (ascii "Blink")
  else if c.engineName64 > 0 then M.ofOption (sliceE? T.crBuf c.engineName64)
  else pure []

/-- `GetEngineVersionString` (ctx.go:176-185). -/
def getEngineVersionString (T : Tables) : M Bytes := do
  ensure flagClientDetect (parseClient T)
  let c ← M.ctx
  if c.engineVersion64 > 0 then M.ofOption (sliceE? c.src c.engineVersion64)
  else pure []

/-- `GetEngineVersion` (ctx.go:168-174). -/
def getEngineVersion (T : Tables) : M Version := do
  let c ← M.ctx
  M.when (¬ c.engineVersion.p = true) do
    let raw ← getEngineVersionString T
    M.modify fun c => { c with engineVersion := (c.engineVersion.parse raw).1 }
  let c ← M.ctx
  pure c.engineVersion

/-- `GetDeviceType` (ctx.go:187-195). -/
def getDeviceType (T : Tables) : M DeviceType := do
  ensure flagDeviceDetect (parseDevice T)
  let c ← M.ctx
  if c.check flagDeviceForceDesktop then pure DeviceTypeNotebook
  else pure c.deviceType

/-- `GetBrand` (ctx.go:197-212). -/
def getBrand (T : Tables) : M Bytes := do
  ensure flagDeviceDetect (parseDevice T)
  let c ← M.ctx
  if c.brandName64 ≠ 0 then
    let buf := if c.check flagVendorFragment then T.vrBuf else T.drBuf
    let raw ← M.ofOption (sliceE? buf c.brandName64)
    pure (trim 32 raw)
  else pure unknown

/-- `GetModel` (ctx.go:214-225). -/
def getModel (T : Tables) : M Bytes := do
  ensure flagDeviceDetect (parseDevice T)
  let c ← M.ctx
  if c.modelName64 ≠ 0 then
    let raw ← M.ofOption (sliceE? c.buf c.modelName64)
    pure (trim 32 raw)
  else pure []

/-- `GetOSVersionString` (ctx.go:252-278). `_ = raw[len(raw)-1]` cannot panic there, since raw contains an underscore. -/
def getOSVersionString (T : Tables) : M Bytes := do
  ensure flagOSDetect (parseOS T)
  let c ← M.ctx
  if c.osVersion64 > 0 then
    let buf := if c.check flagOSVerBufSrc then T.orBuf else c.src
    let raw ← M.ofOption (sliceE? buf c.osVersion64)
    if (indexByte raw 95).isSome then
      M.modify fun c => { c with buf := c.buf ++ raw.map (fun b => if b = 95 then 46 else b),
                                 writes := c.writes ++ raw.map fun b => BufOp.append [if b = 95 then 46 else b] }
      let c' ← M.ctx
      pure (c'.buf.drop c.buf.length)
    else pure raw
  else pure []

/-- `GetOSVersion` (ctx.go:244-250). -/
def getOSVersion (T : Tables) : M Version := do
  let c ← M.ctx
  M.when (¬ c.osVersion.p = true) do
    let raw ← getOSVersionString T
    M.modify fun c => { c with osVersion := (c.osVersion.parse raw).1 }
  let c ← M.ctx
  pure c.osVersion

end Verif
