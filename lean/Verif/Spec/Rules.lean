import Verif.Model.Parse
/-
What the rule tables mean, stated without reference to the detection code: texts in buffers, matching rules, first matches, groups.
-/
namespace Verif

/-- The packed offsets `e` denote the text `t` inside `buf`: high half = start, low half = end. -/
def Text (buf : Bytes) (e : Entry64) (t : Bytes) : Prop :=
  ∃ a z, buf = a ++ t ++ z ∧ e.toNat / 2 ^ 32 = a.length ∧ e.toNat % 2 ^ 32 = a.length + t.length

/-- A rule (regexp index or literal text) matches user agent `u`. A rule with an empty literal never matches. -/
def RowMatch (res : List Re) (buf : Bytes) (u : Bytes) (ri : Int) (lit64 : Entry64) : Prop :=
  (0 ≤ ri ∧ ∃ re, res[ri.toNat]? = some re ∧ re.isMatch u = true) ∨
  (ri < 0 ∧ ∃ lit, lit ≠ [] ∧ Text buf lit64 lit ∧ lit <:+: u)

/-- `x` is the first element of `l` satisfying `p`. -/
def First {α : Type} (p : α → Prop) (l : List α) (x : α) : Prop := ∃ a z, l = a ++ x :: z ∧ p x ∧ ∀ y ∈ a, ¬ p y

/-- Group `i` of `re` participates in the match on `u` and captures the bytes between offsets `lo` and `hi`. -/
def Captures (re : Re) (u : Bytes) (i : Nat) (t : Bytes) : Prop :=
  ∃ m a z, re.find u = some m ∧ u = a ++ t ++ z ∧ m[2 * i]? = some (a.length : Int) ∧ m[2 * i + 1]? = some ((a.length + t.length : Nat) : Int)

/-- Client rule matches. -/
def ClientMatch (T : Tables) (u : Bytes) (v : ClientTuple) : Prop := RowMatch T.crRe T.crBuf u v.matchRI v.match64

/-- Client categories in order of precedence: type, table. -/
def clientOrder : List (ClientType × Nat) :=
  [(ClientTypeFeedReader, 2), (ClientTypeMobileApp, 5), (ClientTypeMediaPlayer, 4), (ClientTypePIM, 6), (ClientTypeLibrary, 3),
   (ClientTypeBrowser, 1)]

/-- No rule of table `i` matches. -/
def NoClient (T : Tables) (u : Bytes) (i : Nat) : Prop := ∃ rows, T.crIdx[i]? = some rows ∧ ∀ v ∈ rows, ¬ ClientMatch T u v

/-- Type `t` is allowed by the filter `m`, and `v` is the first matching rule of the first allowed category having one. -/
def ClientChosen (T : Tables) (m : ClientType) (u : Bytes) (t : ClientType) (v : ClientTuple) : Prop :=
  ∃ a z i rows, clientOrder = a ++ (t, i) :: z ∧ m &&& t ≠ 0 ∧ (∀ x ∈ a, m &&& x.1 ≠ 0 → NoClient T u x.2) ∧
    T.crIdx[i]? = some rows ∧ First (ClientMatch T u) rows v

/-- No allowed category has a matching rule. -/
def ClientNone (T : Tables) (m : ClientType) (u : Bytes) : Prop := ∀ x ∈ clientOrder, m &&& x.1 ≠ 0 → NoClient T u x.2

/-- The version text a matching client rule gives: its constant, the version group of its regexp, or nothing. -/
inductive ClientVersion (T : Tables) (u : Bytes) (v : ClientTuple) : Bytes → Prop where
  | const {raw} (h0 : 0 ≤ v.matchRI) (h1 : v.version64 ≠ 0) (h : Text T.crBuf v.version64 raw) : ClientVersion T u v raw
  | group {re raw} (h0 : 0 ≤ v.matchRI) (h1 : v.version64 = 0) (h2 : v.browserVI ≠ -1) (hr : T.crRe[v.matchRI.toNat]? = some re)
      (h : Captures re u v.browserVI.toInt.toNat raw) : ClientVersion T u v raw
  | absent {re} (h0 : 0 ≤ v.matchRI) (h1 : v.version64 = 0) (h2 : v.browserVI ≠ -1) (hr : T.crRe[v.matchRI.toNat]? = some re)
      (h : ∀ t, ¬ Captures re u v.browserVI.toInt.toNat t) : ClientVersion T u v []
  | noGroup (h0 : 0 ≤ v.matchRI) (h1 : v.version64 = 0) (h2 : v.browserVI = -1) : ClientVersion T u v []
  | literal (h0 : v.matchRI < 0) : ClientVersion T u v []

/-- `s` is `raw` without everything up to the first '/' and without trailing dots. -/
def Cleaned (raw s : Bytes) : Prop :=
  ∃ r n, (47 ∉ raw ∧ r = raw ∨ ∃ p, 47 ∉ p ∧ raw = p ++ 47 :: r) ∧ r = s ++ List.replicate n 46 ∧ s.getLast? ≠ some 46

/-- The name stored at `e`: "UNK" if there is none. -/
def NameAt (buf : Bytes) (e : Entry64) (s : Bytes) : Prop := (e = 0 ∧ s = ascii "UNK") ∨ (e ≠ 0 ∧ Text buf e s)

/-- `s` is `raw` without leading and trailing spaces. -/
def Trimmed (raw s : Bytes) : Prop :=
  ∃ a z, raw = List.replicate a 32 ++ s ++ List.replicate z 32 ∧ s.head? ≠ some 32 ∧ s.getLast? ≠ some 32

/-- The major part of a version: the text before the first dot (nothing if there is no dot). -/
def MajorOf (raw m : Bytes) : Prop := (∃ z, raw = m ++ 46 :: z ∧ 46 ∉ m) ∨ (46 ∉ raw ∧ m = [])

/-- Engine of browser rule `v` (offsets of its name, 0 = none): constant, or computed from the major version by the rule's function. -/
inductive RuleEngine (T : Tables) (u : Bytes) (v : ClientTuple) : Entry64 → Prop where
  | const (h : v.engineFI = -1) : RuleEngine T u v v.engine64
  | fn {raw m f} (h : v.engineFI ≠ -1) (hv : ClientVersion T u v raw) (hm : MajorOf raw m) (hf : T.crEf[v.engineFI.toNat]? = some f) :
      RuleEngine T u v (f m)

/-- Engine when browser rule `v` was selected: the rule's, or else that of the first matching engine rule. -/
inductive EngineOf (T : Tables) (u : Bytes) (v : ClientTuple) : Entry64 → Prop where
  | own {e} (h : RuleEngine T u v e) (h0 : e ≠ 0) : EngineOf T u v e
  | first {rows w} (h : RuleEngine T u v 0) (hr : T.crIdx[0]? = some rows) (hf : First (ClientMatch T u) rows w) : EngineOf T u v w.browser64
  | none {rows} (h : RuleEngine T u v 0) (hr : T.crIdx[0]? = some rows) (hf : ∀ w ∈ rows, ¬ ClientMatch T u w) : EngineOf T u v 0

/-- Text of the engine version: what the first group of the engine's version regexp captures. -/
def EngineVersionText (T : Tables) (u : Bytes) (e : Entry64) (s : Bytes) : Prop :=
  (e ≠ 0 ∧ ∃ i re, T.crEv e = some i ∧ T.crEvre[i]? = some re ∧ Captures re u 1 s) ∨
  ((e = 0 ∨ T.crEv e = none ∨ ∃ i re, T.crEv e = some i ∧ T.crEvre[i]? = some re ∧ re.isMatch u = false) ∧ s = [])

/-! ### Operating systems -/

/-- OS rule matches. -/
def OSMatch (T : Tables) (u : Bytes) (v : OSTuple) : Prop := RowMatch T.orRe T.orBuf u v.matchRI v.match64

/-- The rule is one of the two Darwin/iOS rules (recognised by their regexp) and the user agent carries a Mac marker, or one of the two
generic Android rules and the user agent says "like Android". -/
def OSSkipped (T : Tables) (u : Bytes) (v : OSTuple) : Prop :=
  0 ≤ v.matchRI ∧ ∃ re, T.orRe[v.matchRI.toNat]? = some re ∧
    ((re.src = ascii "(?i)^.*CFNetwork/.+ Darwin/(\\d+[\\.\\d]+)" ∨
      re.src = ascii "(?i)(?:Podcasts/(?:[\\d\\.]+)|Instacast(?:HD)?/(?:\\d\\.[\\d\\.abc]+)|Pocket Casts, iOS|\\(iOS\\)|iOS; Opera|Overcast|Castro|Podcat|iCatcher|RSSRadio/|MobileSafari/)") ∧
     (ascii "Mac" <:+: u ∨ ascii "(x86_64)" <:+: u ∨ ascii "com.apple.Safari" <:+: u) ∨
     (re.src = ascii "(?i)(?:(?:Orca-)?Android|Adr|AOSP)[ /]?(?:[a-z]+ )?(\\d+[\\.\\d]*)" ∨
      re.src = ascii "(?i) Adr |Android|Silk-Accelerated=[a-z]{4,5}") ∧ ascii "like Android" <:+: u)

/-- `v` is the first OS rule that matches and is not skipped. -/
def OSChosen (T : Tables) (u : Bytes) (v : OSTuple) : Prop := First (fun w => OSMatch T u w ∧ ¬ OSSkipped T u w) T.orOs v

/-- Every OS rule that matches is skipped. -/
def OSNone (T : Tables) (u : Bytes) : Prop := ∀ w ∈ T.orOs, OSMatch T u w → OSSkipped T u w

/-- OS version rule matches. -/
def OSVersionMatch (T : Tables) (u : Bytes) (v : OSVersionTuple) : Prop := RowMatch T.orRe T.orBuf u v.matchRI v.match64

/-- The rows of a table in the range denoted by `e`. -/
def Rows {α : Type} (l : List α) (e : Entry64) (r : List α) : Prop :=
  ∃ a z, l = a ++ r ++ z ∧ e.toNat / 2 ^ 32 = a.length ∧ e.toNat % 2 ^ 32 = a.length + r.length

/-- OS name of rule `x`, untrimmed: what its name group captures, or else its constant. -/
inductive OSName (T : Tables) (u : Bytes) (x : OSTuple) : Bytes → Prop where
  | group {re raw} (h0 : 0 ≤ x.matchRI) (h1 : x.nameSI ≠ -1) (hr : T.orRe[x.matchRI.toNat]? = some re)
      (h : Captures re u x.nameSI.toInt.toNat raw) : OSName T u x raw
  | const {raw} (h0 : x.matchRI < 0 ∨ x.nameSI = -1 ∨ ∃ re, T.orRe[x.matchRI.toNat]? = some re ∧ ∀ t, ¬ Captures re u x.nameSI.toInt.toNat t)
      (h : Text T.orBuf x.name64 raw) : OSName T u x raw

/-- OS version found by the regexp of rule `x` itself; empty if there is none. -/
inductive OSOwnVersion (T : Tables) (u : Bytes) (x : OSTuple) : Bytes → Prop where
  | group {re raw} (h0 : 0 ≤ x.matchRI) (h1 : x.versionSI ≠ -1) (hr : T.orRe[x.matchRI.toNat]? = some re)
      (h : Captures re u x.versionSI.toInt.toNat raw) : OSOwnVersion T u x raw
  | none (h0 : x.matchRI < 0 ∨ x.versionSI = -1 ∨ ∃ re, T.orRe[x.matchRI.toNat]? = some re ∧ ∀ t, ¬ Captures re u x.versionSI.toInt.toNat t) :
      OSOwnVersion T u x []

/-- OS version text of rule `x`: its constant; or that of the first matching version row (constant or group); or its own. -/
inductive OSVersionText (T : Tables) (u : Bytes) (x : OSTuple) : Bytes → Prop where
  | const {raw} (h0 : x.version64 ≠ 0) (h : Text T.orBuf x.version64 raw) : OSVersionText T u x raw
  | rowGroup {rows w re raw} (h0 : x.version64 = 0) (h1 : 0 ≤ x.matchRI) (h2 : x.versions64 ≠ 0) (hr : Rows T.orOv x.versions64 rows)
      (hf : First (OSVersionMatch T u) rows w) (h3 : 0 ≤ w.matchRI) (h4 : w.versionSI ≠ -1) (hre : T.orRe[w.matchRI.toNat]? = some re)
      (h : Captures re u w.versionSI.toInt.toNat raw) : OSVersionText T u x raw
  | rowNoGroup {rows w re raw} (h0 : x.version64 = 0) (h1 : 0 ≤ x.matchRI) (h2 : x.versions64 ≠ 0) (hr : Rows T.orOv x.versions64 rows)
      (hf : First (OSVersionMatch T u) rows w) (h3 : 0 ≤ w.matchRI) (h4 : w.versionSI ≠ -1) (hre : T.orRe[w.matchRI.toNat]? = some re)
      (hn : ∀ t, ¬ Captures re u w.versionSI.toInt.toNat t) (h : OSOwnVersion T u x raw) : OSVersionText T u x raw
  | rowConst {rows w raw} (h0 : x.version64 = 0) (h1 : 0 ≤ x.matchRI) (h2 : x.versions64 ≠ 0) (hr : Rows T.orOv x.versions64 rows)
      (hf : First (OSVersionMatch T u) rows w) (h3 : w.matchRI < 0 ∨ w.versionSI = -1) (h : Text T.orBuf w.version64 raw) : OSVersionText T u x raw
  | noRow {rows raw} (h0 : x.version64 = 0) (h1 : 0 ≤ x.matchRI) (h2 : x.versions64 ≠ 0) (hr : Rows T.orOv x.versions64 rows)
      (hf : ∀ w ∈ rows, ¬ OSVersionMatch T u w) (h : OSOwnVersion T u x raw) : OSVersionText T u x raw
  | own {raw} (h0 : x.version64 = 0) (h1 : x.matchRI < 0 ∨ x.versions64 = 0) (h : OSOwnVersion T u x raw) : OSVersionText T u x raw

/-! ### Devices -/

/-- Device and model rules match. -/
def DeviceMatch (T : Tables) (u : Bytes) (v : DeviceTuple) : Prop := RowMatch T.drRe T.drBuf u v.matchRI v.match64
def ModelMatch (T : Tables) (u : Bytes) (v : ModelTuple) : Prop := RowMatch T.drRe T.drBuf u v.matchRI v.match64

/-- Group referred to by the character after '$': '1', '2', '3', anything else is the whole match. -/
def dollarGroup (d : UInt8) : Nat := if d = 49 then 1 else if d = 50 then 2 else if d = 51 then 3 else 0

/-- The template (first list) expands to the second list for the match of `re` on `u`: '$' and the following character are replaced by
the group; after "$$" the second dollar starts a reference again; a reference to a missing group ends the expansion. -/
inductive Expands (re : Re) (u : Bytes) : Bytes → Bytes → Prop where
  | nil : Expands re u [] []
  | char {b r t} (hb : b ≠ 36) (h : Expands re u r t) : Expands re u (b :: r) (b :: t)
  | stop {d r} (hg : ∀ g, ¬ Captures re u (dollarGroup d) g) : Expands re u (36 :: d :: r) []
  | group {d r g t} (hd : d ≠ 36) (hg : Captures re u (dollarGroup d) g) (h : Expands re u r t) : Expands re u (36 :: d :: r) (g ++ t)
  | dollar {r g t} (hg : Captures re u 0 g) (h : Expands re u (36 :: r) t) : Expands re u (36 :: 36 :: r) (g ++ t)

/-- Model text from template `raw` for a rule with regexp index `ri` (negative: literal rule, no expansion). -/
def ModelText (T : Tables) (u : Bytes) (ri : Int) (raw t : Bytes) : Prop :=
  (0 ≤ ri ∧ ∃ re, T.drRe[ri.toNat]? = some re ∧ Expands re u raw t) ∨ (ri < 0 ∧ t = raw)

/-- The type names usable in rules. -/
def typeNames : List (Bytes × DeviceType) :=
  [(ascii "smartphone", DeviceTypeMobile), (ascii "phablet", DeviceTypePhablet), (ascii "tablet", DeviceTypeTablet), (ascii "tv", DeviceTypeTV),
   (ascii "console", DeviceTypeConsole), (ascii "portable media player", DeviceTypePortableMediaPlayer)]

/-- The type named by the text at `a`, or by the text at `b` if that at `a` is empty; unknown or empty names mean the default `d`. -/
def TypeOf (T : Tables) (a b : Entry64) (d typ : DeviceType) : Prop :=
  ∃ s, (s ≠ [] ∧ Text T.drBuf a s ∨ Text T.drBuf a [] ∧ Text T.drBuf b s) ∧ typ = (typeNames.lookup s).getD d

/-- The part of a table denoted by the range `e`. -/
def range64 {α : Type} (l : List α) (e : Entry64) : List α := (l.drop (e.toNat / 2 ^ 32)).take (e.toNat % 2 ^ 32 - e.toNat / 2 ^ 32)

/-- Model text (`none`: no model) and type a matching device rule `x` of a category with default type `d` yields. -/
inductive DeviceRes (T : Tables) (u : Bytes) (x : DeviceTuple) (d : DeviceType) : Option Bytes → DeviceType → Prop where
  /-- rule with one model -/
  | single {sm raw t typ} (h : x.modelSI ≠ -1) (h0 : 0 ≤ x.modelSI) (hm : T.drDm[x.modelSI.toNat]? = some sm) (hr : Text T.drBuf sm.model64 raw)
      (ht : ModelText T u x.matchRI raw t) (hy : TypeOf T sm.type64 x.type64 d typ) : DeviceRes T u x d (some t) typ
  /-- rule with a list of models: the first matching one -/
  | model {w raw t typ} (h : x.modelSI = -1) (h0 : x.models64 ≠ 0) (hm : First (ModelMatch T u) (range64 T.drDm x.models64) w)
      (hr : Text T.drBuf w.model64 raw) (ht : ModelText T u w.matchRI raw t) (hy : TypeOf T w.type64 x.type64 d typ) : DeviceRes T u x d (some t) typ
  /-- none of the models matches -/
  | noModel (h : x.modelSI = -1) (h0 : x.models64 ≠ 0) (hm : ∀ w ∈ range64 T.drDm x.models64, ¬ ModelMatch T u w) : DeviceRes T u x d none d
  /-- rule without models -/
  | plain {typ} (h : x.modelSI = -1) (h0 : x.models64 = 0) (hy : TypeOf T x.type64 0 d typ) : DeviceRes T u x d none typ

/-- Device categories in order of precedence: filter bit, table, default type. -/
def deviceOrder : List (DeviceType × Nat × DeviceType) :=
  [(DeviceTypeCamera, 0, DeviceTypeCamera), (DeviceTypeCarBrowser, 1, DeviceTypeCarBrowser), (DeviceTypeConsole, 2, DeviceTypeConsole),
   (DeviceTypePortableMediaPlayer, 5, DeviceTypeNotebook), (DeviceTypeShellTV, 6, DeviceTypeShellTV), (DeviceTypeTV, 7, DeviceTypeTV),
   (DeviceTypeMobile, 3, DeviceTypeMobile), (DeviceTypeNotebook, 4, DeviceTypeNotebook)]

/-- No rule of device table `i` matches. -/
def NoDevice (T : Tables) (u : Bytes) (i : Nat) : Prop := ∃ rows, T.drIdx[i]? = some rows ∧ ∀ v ∈ rows, ¬ DeviceMatch T u v

/-- `v` is the first matching rule of the first allowed device category having one; `d` is that category's default type. -/
def DeviceChosen (T : Tables) (m : DeviceType) (u : Bytes) (d : DeviceType) (v : DeviceTuple) : Prop :=
  ∃ a z b i rows, deviceOrder = a ++ (b, i, d) :: z ∧ m &&& b ≠ 0 ∧ (∀ x ∈ a, m &&& x.1 ≠ 0 → NoDevice T u x.2.1) ∧
    T.drIdx[i]? = some rows ∧ First (DeviceMatch T u) rows v

/-- No allowed category has a matching rule. -/
def DeviceNone (T : Tables) (m : DeviceType) (u : Bytes) : Prop := ∀ x ∈ deviceOrder, m &&& x.1 ≠ 0 → NoDevice T u x.2.1

/-- The model text device detection finds (`none`: no model). -/
def ModelIs (T : Tables) (m : DeviceType) (u : Bytes) (mo : Option Bytes) : Prop :=
  (∃ d v typ, DeviceChosen T m u d v ∧ DeviceRes T u v d mo typ) ∨ (DeviceNone T m u ∧ mo = none)

/-- The operating systems counting as desktop ones. -/
def desktopNames : List Bytes :=
  [ascii "AmigaOS", ascii "IBM", ascii "GNU/Linux", ascii "Ubuntu", ascii "Fedora", ascii "Mac", ascii "Unix", ascii "OpenBSD",
   ascii "FreeBSD", ascii "Windows", ascii "BeOS", ascii "Chrome OS", ascii "Chromium OS", ascii "OS ROSA"]

/-! ### Vendors -/

/-- One of the fragments of vendor `v` matches. -/
def VendorMatch (T : Tables) (u : Bytes) (v : VendorTuple) : Prop := ∃ re ∈ range64 T.vrRe v.range64, re.isMatch u = true

/-- `x` is the last element of `l` satisfying `p`. -/
def Last {α : Type} (p : α → Prop) (l : List α) (x : α) : Prop := ∃ a z, l = a ++ x :: z ∧ p x ∧ ∀ y ∈ z, ¬ p y

end Verif
