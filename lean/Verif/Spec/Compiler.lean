import Verif.Model.Compiler
import Verif.Spec.WF
/-
What it means for an emitted table row to denote the rule it was compiled from.
-/
namespace Verif.Compiler

/-- The string contains one of the 16 characters `?:.+*\|^;()[]{}$`. -/
def Special (s : Bytes) : Prop := ∃ c ∈ s, c ∈ ascii "?:.+*\\|^;()[]{}$"

/-- A look-ahead group that a Go regexp cannot express: `(?!` followed by a non-empty body without `)` and a `)`. -/
def HasLookahead (s : Bytes) : Prop := ∃ a b c, s = a ++ ascii "(?!" ++ b ++ ascii ")" ++ c ∧ b ≠ [] ∧ 41 ∉ b

/-- The emitted tables are small enough for their 32-bit offsets and indices. -/
structure Small (F : St) : Prop where
  buf : F.buf.buf.length < 2 ^ 32
  re : F.re.length ≤ 2 ^ 31
  ov : F.ov.length < 2 ^ 32
  dm : F.dm.length < 2 ^ 31
  ef : F.ef.length ≤ 2 ^ 31

/-- `ri`, `e` denote the pattern `rs` (literal text `lit`): a pattern without special characters is stored as a literal; otherwise its normal
form (or the replacement of that) is one of the emitted regexps, unless it does not compile, and then the rule never matches. -/
inductive MatchDen (compiles : Bytes → Bool) (repl : Bytes → Option Bytes) (F : St) (rs lit : Bytes) (ri : Int) (e : Entry64) : Prop where
  | lit (h : ¬ Special rs) (hr : ri = -1) (he : Text F.buf.buf e lit)
  | re (n : Bytes) (h : Special rs) (hn : normalizeRegex rs = some n) (hc : compiles ((repl n).getD n) = true)
      (hr : 0 ≤ ri) (hre : F.re[ri.toNat]? = some ((repl n).getD n)) (he : e = 0)
  | bad (n : Bytes) (h : Special rs) (hn : normalizeRegex rs = some n) (hc : compiles ((repl n).getD n) = false) (hr : ri = -1) (he : e = 0)

/-- `vi`, `e` denote the text `ver`: nothing, a group reference `$…` (index `ix` of the rest) or a constant. -/
inductive IxDen (ix : Bytes → Int8) (F : St) (ver : Bytes) (vi : Int8) (e : Entry64) : Prop where
  | none (h : ver = []) (hv : vi = -1) (he : e = 0)
  | group (r : Bytes) (h : ver = 36 :: r) (hv : vi = ix r) (he : e = 0)
  | const (h : ver ≠ []) (hd : ver.head? ≠ some 36) (hv : vi = -1) (he : e ≠ 0) (ht : Text F.buf.buf e ver)

/-- Decimal number, possibly signed, that fits in 64 bits. -/
def osIx (r : Bytes) : Int8 := if (parseInt r).2 then Int8.ofInt (parseInt r).1 else 1
def clientIx (r : Bytes) : Int8 := Int8.ofInt (parseInt r).1

/-- An optional text: 0 when empty. -/
def OptText (F : St) (t : Bytes) (e : Entry64) : Prop := (t = [] ∧ e = 0) ∨ (t ≠ [] ∧ e ≠ 0 ∧ Text F.buf.buf e t)

/-- The packed range `e` selects exactly `ws` from the list `l`. -/
def Range {α : Type} (l : List α) (e : Entry64) (ws : List α) : Prop :=
  ∃ a b, l = a ++ ws ++ b ∧ e.toNat / 2 ^ 32 = a.length ∧ e.toNat % 2 ^ 32 = a.length + ws.length

/-- Element-wise relation of two lists. -/
def All2 {α β : Type} (R : α → β → Prop) (l : List α) (m : List β) : Prop :=
  l.length = m.length ∧ ∀ (i : Nat) a b, l[i]? = some a → m[i]? = some b → R a b

structure OSVersionDen (env : Env) (F : St) (r : OSVersionRule) (w : OSVersionTuple) : Prop where
  m : MatchDen env.compiles (fun _ => none) F r.regex r.regex w.matchRI w.match64
  v : IxDen osIx F r.version w.versionSI w.version64

structure OSDen (env : Env) (F : St) (r : OSRule) (w : OSTuple) : Prop where
  name : IxDen osIx F r.name w.nameSI w.name64
  m : MatchDen env.compiles env.replOS F r.regex r.regex w.matchRI w.match64
  /-- A list of versions overrides a single version. -/
  vers : r.versions ≠ [] → w.versionSI = -1 ∧ w.version64 = 0 ∧
    ∃ ws, Range F.ov w.versions64 ws ∧ All2 (OSVersionDen env F) r.versions ws
  ver : r.versions = [] → w.versions64 = 0 ∧ IxDen osIx F r.version w.versionSI w.version64

/-- Engine names of a rule are interned; `f` is the function generated for the thresholds. -/
structure EngineFnDen (F : St) (en : EngineRule) (d : Entry64) (f : EngineFn) : Prop where
  dflt : f.default = d
  cases : ∃ vs, vs.Perm en.versions ∧ vs.Pairwise (fun a b => strGe b.1 a.1 = true) ∧
    All2 (fun (v : Bytes × Bytes) (c : Bytes × Entry64) => c.1 = v.1 ∧ Text F.buf.buf c.2 v.2) vs f.cases

structure ClientDen (env : Env) (F : St) (r : ClientRule) (w : ClientTuple) : Prop where
  m : MatchDen env.compiles env.replClient F r.regex r.regex w.matchRI w.match64
  name : OptText F r.name w.browser64
  ver : IxDen clientIx F r.version w.browserVI w.version64
  noEngine : r.engine = none → w.engine64 = 0 ∧ w.engineFI = -1
  engine : ∀ en, r.engine = some en → OptText F en.default w.engine64 ∧
    (en.versions = [] → w.engineFI = -1) ∧
    (en.versions ≠ [] → 0 ≤ w.engineFI ∧ ∃ f, F.ef[w.engineFI.toNat]? = some f ∧ EngineFnDen F en w.engine64 f)
  /-- The names are collected for the engine version patterns. -/
  names : ∀ en, r.engine = some en → ∀ n, n ≠ [] → (n = en.default ∨ n ∈ en.versions.map (·.2)) → n ∈ F.engines

structure VendorDen (F : St) (r : VendorRule) (w : VendorTuple) : Prop where
  brand : Text F.buf.buf w.brand64 r.name
  res : Range F.re w.range64 (r.regex.map (· ++ ascii "[^a-z0-9]+"))

structure ModelDen (env : Env) (F : St) (r : ModelRule) (w : ModelTuple) : Prop where
  m : MatchDen env.compiles env.replDevice F r.regex r.regex w.matchRI w.match64
  typ : Text F.buf.buf w.type64 r.device
  model : Text F.buf.buf w.model64 r.model

structure DeviceDen (env : Env) (F : St) (r : DeviceRule) (w : DeviceTuple) : Prop where
  brand : Text F.buf.buf w.brand64 r.name
  typ : Text F.buf.buf w.type64 r.device
  m : MatchDen env.compiles env.replDevice F ((env.staticRepl r.regex).getD r.regex) r.regex w.matchRI w.match64
  models : r.models ≠ [] → w.modelSI = -1 ∧ ∃ ws, Range F.dm w.models64 ws ∧ All2 (ModelDen env F) r.models ws
  model : r.models = [] → r.model ≠ [] → w.models64 = 0 ∧ 0 ≤ w.modelSI ∧
    ∃ x, F.dm[w.modelSI.toNat]? = some x ∧ x.matchRI = -1 ∧ x.match64 = 0 ∧ x.type64 = 0 ∧ Text F.buf.buf x.model64 r.model
  none : r.models = [] → r.model = [] → w.modelSI = -1 ∧ w.models64 = 0

/-- The value of a hint key: that of the first file containing it. -/
def hintValue (files : List (List (Bytes × Bytes))) (k : Bytes) : Option Bytes := files.findSome? (fun f => f.lookup k)

/-- The emitted pairs (before hashing) are exactly the keys of the files, each once, with their values. -/
structure HintDen (F : St) (files : List (List (Bytes × Bytes))) (l : List (Bytes × Entry64)) : Prop where
  value : ∀ k e, (k, e) ∈ l → ∃ v, hintValue files k = some v ∧ Text F.buf.buf e v
  all : ∀ k v, hintValue files k = some v → ∃ e, (k, e) ∈ l
  nodup : (l.map (·.1)).Nodup

/-- All generated tables are small enough. -/
structure Outputs.Small (o : Outputs) : Prop where
  client : Compiler.Small o.client.st
  os : Compiler.Small o.os.2
  device : Compiler.Small o.device.2
  vendor : Compiler.Small o.vendor.2
  hint : Compiler.Small o.hint.2

/-- The regexp a rule pattern ends up as, if any. -/
def patternOf (env : Env) (repl : Bytes → Option Bytes) (rs p : Bytes) : Prop :=
  Special rs ∧ ∃ n, normalizeRegex rs = some n ∧ p = (repl n).getD n ∧ env.compiles p = true

/-- `p`, in any case, at the beginning of a word: at the start of the text, after something other than a letter, digit, `-` or `_`, after `_`
preceded by none of these, or after the prefixes `sprd-` and `MZ-`. -/
def atWord (p : Bytes) : Bytes := ascii "(?i)(?:^|[^A-Z0-9\\-_]|[^A-Z0-9\\-]_|sprd-|MZ-)(?:" ++ p ++ ascii ")"

/-- `p` in any case. -/
def anyCase (p : Bytes) : Bytes := ascii "(?i)" ++ p

/-- The pattern for the version of engine `n`: the name, a `/` or space and a dotted number, `Chrome` standing in for Blink; for Gecko the number
after `rv`. -/
def enginePattern (n : Bytes) : Bytes :=
  if n = ascii "Gecko" then ascii "[ ](?:rv[: ]([0-9\\.]+)).*gecko/[0-9.]+"
  else (if n = ascii "Blink" then ascii "Chrome" else n) ++ ascii "\\s*[/\\s]\\s*(\\d+(?:.\\d+)+)"

/-- A rule pattern matches user agent `u`: a literal occurs in it, or the regexp made from it matches. -/
def RuleMatch (env : Env) (repl : Bytes → Option Bytes) (lib : Bytes → Re) (rs lit u : Bytes) : Prop :=
  (¬ Special rs ∧ lit ≠ [] ∧ lit <:+: u) ∨ ∃ p, patternOf env repl rs p ∧ (lib p).isMatch u = true

/-- A group reference `$…` names an existing group of the rule's regexp, at least for rules that match `u`. -/
def RefOK (re : Re) (u ver : Bytes) (ix : Bytes → Int8) : Prop := ∀ x, ver = 36 :: x → re.isMatch u = true → GroupIx re (ix x)

/-- What the authors of the rule files have to ensure (nothing checks it): enough non-empty files, group references to existing groups, no
engine thresholds together with a constant version, no model text ending in `$`. -/
structure RulesOK (env : Env) (lib : Bytes → Re) (r : Rules) (u : Bytes) : Prop where
  clientFiles : ∀ i, i < 7 → ∃ f, r.client[i]? = some f ∧ f ≠ []
  clientRef : ∀ f ∈ r.client, ∀ t ∈ f, ∀ p, patternOf env env.replClient t.regex p → RefOK (lib (atWord p)) u t.version clientIx
  clientEngine : ∀ f ∈ r.client, ∀ t ∈ f, ∀ en, t.engine = some en → en.versions ≠ [] → t.version = [] ∨ t.version.head? = some 36
  os : r.os ≠ []
  osRef : ∀ t ∈ r.os, ∀ p, patternOf env env.replOS t.regex p →
    RefOK (lib (anyCase p)) u t.name osIx ∧ (t.versions = [] → RefOK (lib (anyCase p)) u t.version osIx)
  osVersionRef : ∀ t ∈ r.os, ∀ v ∈ t.versions, ∀ p, patternOf env (fun _ => none) v.regex p → RefOK (lib (anyCase p)) u v.version osIx
  deviceFiles : ∀ i, i < 8 → ∃ f, r.device[i]? = some f ∧ f ≠ []
  models : ∀ f ∈ r.device, ∀ t ∈ f, t.model.getLast? ≠ some 36 ∧ ∀ m ∈ t.models, m.model.getLast? ≠ some 36

/-- Adding strings one after the other (buf.go:10). -/
def internAll (b : Buf) : List Bytes → List Entry64 × Buf
  | [] => ([], b)
  | s :: ss =>
    let r := b.add s
    let rs := internAll r.2 ss
    (r.1 :: rs.1, rs.2)

end Verif.Compiler
