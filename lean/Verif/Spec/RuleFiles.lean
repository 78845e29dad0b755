import Verif.Spec.Compiler
/-
What rule files say about a user agent, in terms of the rules as their authors write them: no tables, offsets or indices.
`lib` is `regexp.MustCompile`.
-/
namespace Verif.Compiler

/-- `n` is given as an engine by some client rule. -/
def NamesEngine (r : Rules) (n : Bytes) : Prop :=
  n ≠ [] ∧ ∃ f ∈ r.client, ∃ t ∈ f, ∃ en, t.engine = some en ∧ (n = en.default ∨ n ∈ en.versions.map (·.2))

/-- `T` are the tables of package uaxpl after generation from the rules `r` with a library `lib` that honours the documented contract of
package regexp: `FindStringSubmatchIndex` (`Re.WF`) and `String`. The group of the version patterns of engines takes part in every match. -/
structure Package (env : Env) (lib : Bytes → Re) (hash : Bytes → UInt64) (r : Rules) (T : Tables) : Prop where
  made : ∃ o fb ft fm, compile env hash r = some o ∧ o.Small ∧ T = tablesOf lib fb ft fm o
  lib_wf : ∀ p, (lib p).WF
  src : ∀ p, (lib p).src = p
  engines : ∀ n, NamesEngine r n → MandatoryGroup (lib (anyCase (enginePattern n)))

section
variable (env : Env) (lib : Bytes → Re) (u : Bytes)

/-! ### Clients -/

/-- The client rule matches. Client patterns must begin at a word (`atWord`). -/
def ClientRule.Hits (t : ClientRule) : Prop := RuleMatch env env.replClient (fun p => lib (atWord p)) t.regex t.regex u

/-- No rule of file `i` matches. -/
def NoClientRule (r : Rules) (i : Nat) : Prop := ∃ f, r.client[i]? = some f ∧ ∀ t ∈ f, ¬ t.Hits env lib u

/-- `t` is the first matching rule, in file order, of the first allowed category that has one. -/
def ClientRuleChosen (r : Rules) (m ty : ClientType) (t : ClientRule) : Prop :=
  ∃ a z i f, clientOrder = a ++ (ty, i) :: z ∧ m &&& ty ≠ 0 ∧ (∀ x ∈ a, m &&& x.1 ≠ 0 → NoClientRule env lib u r x.2) ∧
    r.client[i]? = some f ∧ First (ClientRule.Hits env lib u) f t

/-- No rule of an allowed category matches. -/
def ClientRuleNone (r : Rules) (m : ClientType) : Prop := ∀ x ∈ clientOrder, m &&& x.1 ≠ 0 → NoClientRule env lib u r x.2

/-- The version a matching client rule gives. A rule without regexp characters gives none, whatever it says. -/
inductive ClientRule.Version (t : ClientRule) : Bytes → Prop where
  | literal (h : ¬ Special t.regex) : ClientRule.Version t []
  | const (hs : Special t.regex) (h : t.version ≠ []) (hd : t.version.head? ≠ some 36) : ClientRule.Version t t.version
  | group {x p raw} (h : t.version = 36 :: x) (hi : clientIx x ≠ -1) (hp : patternOf env env.replClient t.regex p)
      (hc : Captures (lib (atWord p)) u (clientIx x).toInt.toNat raw) : ClientRule.Version t raw
  | absent {x p} (h : t.version = 36 :: x) (hi : clientIx x ≠ -1) (hp : patternOf env env.replClient t.regex p)
      (hc : ∀ raw, ¬ Captures (lib (atWord p)) u (clientIx x).toInt.toNat raw) : ClientRule.Version t []
  | none (hs : Special t.regex) (h : t.version = [] ∨ ∃ x, t.version = 36 :: x ∧ clientIx x = -1) : ClientRule.Version t []

/-- The engine a browser rule names; empty if none. Of several thresholds only the smallest (as a text) counts. -/
inductive ClientRule.Engine (t : ClientRule) : Bytes → Prop where
  | none (h : t.engine = none) : ClientRule.Engine t []
  | const {en} (h : t.engine = some en) (hv : en.versions = []) : ClientRule.Engine t en.default
  | above {en raw m v} (h : t.engine = some en) (hr : t.Version env lib u raw) (hm : MajorOf raw m) (hv : v ∈ en.versions)
      (hmin : ∀ w ∈ en.versions, strGe w.1 v.1 = true) (hge : strGe m v.1 = true) : ClientRule.Engine t v.2
  | below {en raw m v} (h : t.engine = some en) (hr : t.Version env lib u raw) (hm : MajorOf raw m) (hv : v ∈ en.versions)
      (hmin : ∀ w ∈ en.versions, strGe w.1 v.1 = true) (hlt : strGe m v.1 = false) : ClientRule.Engine t en.default

/-- The engine of a browser: the one its rule names, or else the name of the first matching rule of the engine file. -/
inductive BrowserEngine (r : Rules) (t : ClientRule) : Bytes → Prop where
  | own {n} (h : t.Engine env lib u n) (hn : n ≠ []) : BrowserEngine r t n
  | first {f w} (h : t.Engine env lib u []) (hf : r.client[0]? = some f) (hw : First (ClientRule.Hits env lib u) f w) : BrowserEngine r t w.name
  | none (h : t.Engine env lib u []) (hw : NoClientRule env lib u r 0) : BrowserEngine r t []

/-- The version of engine `n`: the first group of the pattern made for it. Engines no client rule names have no pattern. -/
inductive EngineVersionSays (r : Rules) (n : Bytes) : Bytes → Prop where
  | group {s} (h : NamesEngine r n) (hc : Captures (lib (anyCase (enginePattern n))) u 1 s) : EngineVersionSays r n s
  | noMatch (h : NamesEngine r n) (hm : (lib (anyCase (enginePattern n))).isMatch u = false) : EngineVersionSays r n []
  | unknown (h : ¬ NamesEngine r n) : EngineVersionSays r n []

/-- The name of a rule, "UNK" if it is empty. -/
def shown (n : Bytes) : Bytes := if n = [] then ascii "UNK" else n

/-- The answers of the client getters for filter `m`. `blink` is the regexp that forces the engine "Blink". -/
def ClientTypeSays (r : Rules) (m ty : ClientType) : Prop :=
  (∃ t, ClientRuleChosen env lib u r m ty t) ∨ (ClientRuleNone env lib u r m ∧ ty = 0)

def BrowserSays (r : Rules) (m : ClientType) (s : Bytes) : Prop :=
  (∃ ty t, ClientRuleChosen env lib u r m ty t ∧ s = shown t.name) ∨ (ClientRuleNone env lib u r m ∧ s = ascii "UNK")

def BrowserVersionSays (r : Rules) (m : ClientType) (s : Bytes) : Prop :=
  (∃ ty t raw, ClientRuleChosen env lib u r m ty t ∧ t.Version env lib u raw ∧ Cleaned raw s) ∨ (ClientRuleNone env lib u r m ∧ s = [])

/-- Only browsers have an engine. -/
def EngineSays (blink : Re) (r : Rules) (m : ClientType) (s : Bytes) : Prop :=
  (∃ t n, ClientRuleChosen env lib u r m ClientTypeBrowser t ∧ BrowserEngine env lib u r t n ∧
    s = if n = [] then (if blink.isMatch u then ascii "Blink" else []) else n) ∨
  ((∃ ty t, ClientRuleChosen env lib u r m ty t ∧ ty ≠ ClientTypeBrowser) ∧ s = []) ∨ (ClientRuleNone env lib u r m ∧ s = [])

def EngineVersionStringSays (r : Rules) (m : ClientType) (s : Bytes) : Prop :=
  (∃ t n, ClientRuleChosen env lib u r m ClientTypeBrowser t ∧ BrowserEngine env lib u r t n ∧ EngineVersionSays lib u r n s) ∨
  ((∃ ty t, ClientRuleChosen env lib u r m ty t ∧ ty ≠ ClientTypeBrowser) ∧ s = []) ∨ (ClientRuleNone env lib u r m ∧ s = [])

/-- What the engine thresholds have to look like: distinct keys (as in any YAML map) and names that are not empty. -/
def ThresholdsOK (r : Rules) : Prop := ∀ f ∈ r.client, ∀ t ∈ f, ∀ en, t.engine = some en →
  (en.versions.map (·.1)).Nodup ∧ ∀ v ∈ en.versions, v.2 ≠ []

/-! ### Operating systems -/

/-- The OS rule matches. -/
def OSRule.Hits (t : OSRule) : Prop := RuleMatch env env.replOS (fun p => lib (anyCase p)) t.regex t.regex u

/-- The rule is one of the two Darwin/iOS rules and the user agent carries a Mac marker, or one of the two generic Android rules and the
user agent says "like Android". -/
def OSRule.Skipped (t : OSRule) : Prop := ∃ p, patternOf env env.replOS t.regex p ∧
  ((p = ascii "^.*CFNetwork/.+ Darwin/(\\d+[\\.\\d]+)" ∨
    p = ascii "(?:Podcasts/(?:[\\d\\.]+)|Instacast(?:HD)?/(?:\\d\\.[\\d\\.abc]+)|Pocket Casts, iOS|\\(iOS\\)|iOS; Opera|Overcast|Castro|Podcat|iCatcher|RSSRadio/|MobileSafari/)") ∧
   (ascii "Mac" <:+: u ∨ ascii "(x86_64)" <:+: u ∨ ascii "com.apple.Safari" <:+: u) ∨
   (p = ascii "(?:(?:Orca-)?Android|Adr|AOSP)[ /]?(?:[a-z]+ )?(\\d+[\\.\\d]*)" ∨
    p = ascii " Adr |Android|Silk-Accelerated=[a-z]{4,5}") ∧ ascii "like Android" <:+: u)

/-- `t` is the first rule in file order that matches and is not skipped. -/
def OSRuleChosen (r : Rules) (t : OSRule) : Prop := First (fun w => OSRule.Hits env lib u w ∧ ¬ OSRule.Skipped env u w) r.os t

/-- Every matching rule is skipped. -/
def OSRuleNone (r : Rules) : Prop := ∀ w ∈ r.os, w.Hits env lib u → w.Skipped env u

/-- Group `x` of the pattern `rs` captures `raw`. -/
def GroupGives (repl : Bytes → Option Bytes) (rs x raw : Bytes) : Prop :=
  osIx x ≠ -1 ∧ ∃ p, patternOf env repl rs p ∧ Captures (lib (anyCase p)) u (osIx x).toInt.toNat raw

/-- The name a matching OS rule gives. -/
inductive OSRule.Name (t : OSRule) : Bytes → Prop where
  | const (h : t.name.head? ≠ some 36) : OSRule.Name t t.name
  | group {x raw} (h : t.name = 36 :: x) (hc : GroupGives env lib u env.replOS t.regex x raw) : OSRule.Name t raw
  | absent {x} (h : t.name = 36 :: x) (hc : ∀ raw, ¬ GroupGives env lib u env.replOS t.regex x raw) : OSRule.Name t []

/-- The version rule matches. -/
def OSVersionRule.Hits (v : OSVersionRule) : Prop := RuleMatch env (fun _ => none) (fun p => lib (anyCase p)) v.regex v.regex u

/-- What a text, constant or group reference, gives for pattern `rs`. -/
inductive TextGives (repl : Bytes → Option Bytes) (rs ver : Bytes) : Bytes → Prop where
  | const (h : ver.head? ≠ some 36) : TextGives repl rs ver ver
  | group {x raw} (h : ver = 36 :: x) (hc : GroupGives env lib u repl rs x raw) : TextGives repl rs ver raw
  | absent {x} (h : ver = 36 :: x) (hc : ∀ raw, ¬ GroupGives env lib u repl rs x raw) : TextGives repl rs ver []

/-- The version a matching OS rule gives: its own text, or that of the first matching rule of its list; a list is not looked at in a rule
without regexp characters. -/
inductive OSRule.VersionText (t : OSRule) : Bytes → Prop where
  | own {raw} (h : t.versions = []) (hg : TextGives env lib u env.replOS t.regex t.version raw) : OSRule.VersionText t raw
  | first {v raw} (hs : Special t.regex) (hf : First (OSVersionRule.Hits env lib u) t.versions v)
      (hg : TextGives env lib u (fun _ => none) v.regex v.version raw) : OSRule.VersionText t raw
  | none (h : t.versions ≠ []) (hf : ¬ Special t.regex ∨ ∀ v ∈ t.versions, ¬ v.Hits env lib u) : OSRule.VersionText t []

/-- The answers of GetOS and GetOSVersionString. A rule with an empty name counts as unknown. -/
def OSSays (r : Rules) (s : Bytes) : Prop :=
  (∃ t raw, OSRuleChosen env lib u r t ∧ t.Name env lib u raw ∧ (Trimmed raw s ∨ raw = [] ∧ s = ascii "UNK")) ∨
  (OSRuleNone env lib u r ∧ s = ascii "UNK")

def OSVersionSays (r : Rules) (s : Bytes) : Prop :=
  (∃ t raw, OSRuleChosen env lib u r t ∧ t.VersionText env lib u raw ∧ s = raw.map (fun b => if b = 95 then 46 else b)) ∨
  (OSRuleNone env lib u r ∧ s = [])

/-! ### Devices -/

/-- The device rule matches. -/
def DeviceRule.Hits (t : DeviceRule) : Prop :=
  RuleMatch env env.replDevice (fun p => lib (anyCase p)) ((env.staticRepl t.regex).getD t.regex) t.regex u

/-- The model rule matches. -/
def ModelRule.Hits (m : ModelRule) : Prop := RuleMatch env env.replDevice (fun p => lib (anyCase p)) m.regex m.regex u

/-- No rule of file `i` matches. -/
def NoDeviceRule (r : Rules) (i : Nat) : Prop := ∃ f, r.device[i]? = some f ∧ ∀ t ∈ f, ¬ t.Hits env lib u

/-- `t` is the matching rule with the alphabetically least brand, of the first allowed category that has a matching rule; `d` is the type
of that category. -/
def DeviceRuleChosen (r : Rules) (m d : DeviceType) (t : DeviceRule) : Prop :=
  ∃ a z b i f, deviceOrder = a ++ (b, i, d) :: z ∧ m &&& b ≠ 0 ∧ (∀ x ∈ a, m &&& x.1 ≠ 0 → NoDeviceRule env lib u r x.2.1) ∧
    r.device[i]? = some f ∧ t ∈ f ∧ t.Hits env lib u ∧ ∀ t' ∈ f, t'.Hits env lib u → strGe t'.name t.name = true

/-- The same with the first matching rule in file order. -/
def DeviceRuleFirst (r : Rules) (m d : DeviceType) (t : DeviceRule) : Prop :=
  ∃ a z b i f, deviceOrder = a ++ (b, i, d) :: z ∧ m &&& b ≠ 0 ∧ (∀ x ∈ a, m &&& x.1 ≠ 0 → NoDeviceRule env lib u r x.2.1) ∧
    r.device[i]? = some f ∧ First (DeviceRule.Hits env lib u) f t

/-- No rule of an allowed category matches. -/
def DeviceRuleNone (r : Rules) (m : DeviceType) : Prop := ∀ x ∈ deviceOrder, m &&& x.1 ≠ 0 → NoDeviceRule env lib u r x.2.1

/-- What the template `raw` expands to for pattern `rs`; in a rule without regexp characters it stays as it is. -/
def TemplateGives (rs raw t : Bytes) : Prop :=
  (∃ p, patternOf env env.replDevice rs p ∧ Expands (lib (anyCase p)) u raw t) ∨ (¬ Special rs ∧ t = raw)

/-- The type called `n`, or `n'` if that is empty; unknown names and no name mean `d`. -/
def typeCalled (n n' : Bytes) (d : DeviceType) : DeviceType := (typeNames.lookup (if n = [] then n' else n)).getD d

/-- Model and type a matching device rule gives. If a rule has a list of models and none matches, its own type does not count. -/
inductive DeviceRule.Gives (t : DeviceRule) (d : DeviceType) : Option Bytes → DeviceType → Prop where
  | single {x} (h : t.models = []) (hm : t.model ≠ []) (hx : TemplateGives env lib u ((env.staticRepl t.regex).getD t.regex) t.model x) :
      DeviceRule.Gives t d (some x) (typeCalled [] t.device d)
  | model {m x} (hf : First (ModelRule.Hits env lib u) t.models m) (hx : TemplateGives env lib u m.regex m.model x) :
      DeviceRule.Gives t d (some x) (typeCalled m.device t.device d)
  | noModel (h : t.models ≠ []) (hf : ∀ m ∈ t.models, ¬ m.Hits env lib u) : DeviceRule.Gives t d none d
  | plain (h : t.models = []) (hm : t.model = []) : DeviceRule.Gives t d none (typeCalled [] t.device d)

/-- One of the fragments of the vendor matches. -/
def VendorRule.Hits (v : VendorRule) : Prop := ∃ p ∈ v.regex, (lib (p ++ ascii "[^a-z0-9]+")).isMatch u = true

/-- The matching vendor with the alphabetically greatest name. -/
def VendorRuleChosen (r : Rules) (v : VendorRule) : Prop :=
  v ∈ r.vendor ∧ v.Hits lib u ∧ ∀ v' ∈ r.vendor, v'.Hits lib u → strGe v.name v'.name = true

/-- The brand called `n`. -/
def BrandCalled (n s : Bytes) : Prop := Trimmed n s ∨ (n = [] ∧ s = ascii "UNK")

/-- The answers of the device getters for filter `m`; `ft`, `fm` are the regexps for words that mean a tablet or a phone. -/
def DeviceTypeSays (ft fm : Re) (r : Rules) (m typ : DeviceType) : Prop :=
  (∃ d t mo, DeviceRuleChosen env lib u r m d t ∧ t.Gives env lib u d mo typ) ∨
  (DeviceRuleNone env lib u r m ∧
    ((m &&& DeviceTypeNotebook ≠ 0 ∧ (∃ os ∈ desktopNames, OSSays env lib u r os) ∧ typ = DeviceTypeNotebook) ∨
     ((m &&& DeviceTypeNotebook = 0 ∨ ∃ os, os ∉ desktopNames ∧ OSSays env lib u r os) ∧
       typ = if ft.isMatch u then DeviceTypeTablet else if fm.isMatch u then DeviceTypeMobile else 0)))

def BrandSays (ft fm : Re) (r : Rules) (m : DeviceType) (s : Bytes) : Prop :=
  (∃ d t, DeviceRuleChosen env lib u r m d t ∧ BrandCalled t.name s) ∨
  (DeviceRuleNone env lib u r m ∧ (ft.isMatch u = true ∨ fm.isMatch u = true) ∧ s = ascii "UNK") ∨
  (DeviceRuleNone env lib u r m ∧ ft.isMatch u = false ∧ fm.isMatch u = false ∧
    ((∃ v, VendorRuleChosen lib u r v ∧ BrandCalled v.name s) ∨ ((∀ v ∈ r.vendor, ¬ v.Hits lib u) ∧ s = ascii "UNK")))

def ModelSays (r : Rules) (m : DeviceType) (s : Bytes) : Prop :=
  (∃ d t mo typ, DeviceRuleChosen env lib u r m d t ∧ t.Gives env lib u d mo typ ∧ Trimmed (mo.getD []) s) ∨ (DeviceRuleNone env lib u r m ∧ s = [])

/-- What the brand names have to look like: each once per file (they are the keys of a YAML map) and not empty. -/
structure BrandsOK (r : Rules) : Prop where
  device : ∀ f ∈ r.device, (f.map (·.name)).Nodup ∧ ∀ t ∈ f, t.name ≠ []
  vendor : (r.vendor.map (·.name)).Nodup ∧ ∀ v ∈ r.vendor, v.name ≠ []

end
end Verif.Compiler
