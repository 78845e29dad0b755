import Verif.Model.Tables
/-
The rule compiler `cmd/uaxplc`: string interning (buf.go), regexp normalisation (regex.go) and the five modules that turn YAML rules into
tables (mod_os.go, mod_client.go, mod_vendor.go, mod_hint.go, mod_device.go).

Not modelled: reading files and decoding YAML (the input of the model is the decoded rules), writing the tables as Go source
(the output of the model is the tables; for the text see Model/Emit), logging.
-/
namespace Verif.Compiler

/-! ## Strings (package `strings` of the standard library) -/

/-- `strings.Index(s, needle)`; `none` is -1. -/
def indexSub (s needle : Bytes) : Option Nat :=
  match s with
  | [] => if needle.isEmpty then some 0 else none
  | x :: xs => if needle.isPrefixOf (x :: xs) then some 0 else (indexSub xs needle).map (· + 1)

/-- `strings.Replace(s, sub, "", 1)`. -/
def removeFirst (s sub : Bytes) : Bytes :=
  match indexSub s sub with
  | none => s
  | some i => s.take i ++ s.drop (i + sub.length)

/-- `strings.ReplaceAll(s, ")||(", ")|(")` (regex.go:106): left to right, without overlaps. -/
def squeezeBars : Bytes → Bytes
  | 41 :: 124 :: 124 :: 40 :: rest => 41 :: 124 :: 40 :: squeezeBars rest
  | x :: xs => x :: squeezeBars xs
  | [] => []

/-- String comparison `s >= v` (byte-wise lexicographic). -/
def strGe : Bytes → Bytes → Bool
  | _, [] => true
  | [], _ :: _ => false
  | x :: xs, y :: ys => decide (y < x) || (decide (x = y) && strGe xs ys)

/-- `strconv.ParseInt(s, 10, 64)` / `strconv.Atoi(s)`: value and whether `err == nil`. A syntax error yields 0, a range error the nearest bound. -/
def parseDigits : Bytes → Option Nat
  | [] => none
  | s => if s.all (fun c => decide (48 ≤ c) && decide (c ≤ 57)) then some (s.foldl (fun n c => 10 * n + (c.toNat - 48)) 0) else none

def parseInt (s : Bytes) : Int × Bool :=
  let (neg, ds) := match s with
    | 45 :: r => (true, r)
    | 43 :: r => (false, r)
    | r => (false, r)
  match parseDigits ds with
  | none => (0, false)
  | some n =>
    if neg then (if n ≤ 2 ^ 63 then (-(n : Int), true) else (-2 ^ 63, false))
    else (if n < 2 ^ 63 then ((n : Int), true) else (2 ^ 63 - 1, false))

/-! ## regex.go -/

/-- `regexBytes` (regex.go:12). -/
def regexBytes : Bytes := ascii "?:.+*\\|^;()[]{}$"

/-- `isRegex` (regex.go:18-27). -/
def isRegex (s : Bytes) : Bool := regexBytes.any fun c => (indexByte s c).isSome

/-- `re.MatchString(s)` for `re = lit([^)]+)\)` with a literal prefix `lit` (regex.go:13-15): somewhere `lit` is followed by at least one byte
other than `)` and later by a `)`. -/
def guardRe (lit : Bytes) : Bytes → Bool
  | [] => false
  | x :: xs =>
    (lit.isPrefixOf (x :: xs) && (((x :: xs).drop lit.length).head? != some 41) && ((x :: xs).drop lit.length).contains 41)
      || guardRe lit xs

/-- The bracket-counting loop `for i := io; i < len(s); i++` (regex.go:38-48, 61-71, 87-97): `prev` is `s[i-1]`, the list is `s[i:]`;
`none` = never balanced. With `esc` an escaped `(` does not count (third stage only). -/
def scan (esc : Bool) (prev : UInt8) (i bo bc : Nat) : Bytes → Option Nat
  | [] => none
  | c :: cs =>
    let bo' := if c = 40 ∧ (esc = true → prev ≠ 92) then bo + 1 else bo
    let bc' := if c = 41 ∧ prev ≠ 92 then bc + 1 else bc
    if bo' = bc' then some i else scan esc c (i + 1) bo' bc' cs

/-- One removal (regex.go:32-54, 58-77, 81-103): find `lit` at `io-1`, take `s[io-1 : ic+1]` and remove its first occurrence.
`none`: slice out of range. -/
def cutAt (esc : Bool) (s : Bytes) (k : Nat) : Option Bytes :=
  let io := k + 1
  let ic := (scan esc ((s.drop k).headD 0) io 1 0 (s.drop io)).getD io
  match slice? s (io - 1) (ic + 1) with
  | none => none
  | some ss => some (removeFirst s ss)

/-- The loops `for { … }` of the first and third stage (regex.go:31-55, 80-104). `none` is a panic or an endless loop: a round that does not
shorten the string leaves it as it is, so it would be repeated for ever. -/
def cutAll (esc : Bool) (lit : Bytes) (s : Bytes) : Option Bytes :=
  match indexSub s lit with
  | none => some s
  | some k =>
    match cutAt esc s k with
    | none => none
    | some s' => if _h : s'.length < s.length then cutAll esc lit s' else none
termination_by s.length

/-- First stage (regex.go:30-56). -/
def stage1 (s : Bytes) : Option Bytes := if guardRe (ascii "(?<!") s then cutAll false (ascii "(?<") s else some s

/-- Second stage (regex.go:57-78). When the literal is not found `io` is 0 and `s[-1:…]` panics. -/
def stage2 (s : Bytes) : Option Bytes :=
  if guardRe (ascii "(?!.*") s then
    match indexSub s (ascii "(?!.*") with
    | none => none
    | some k => cutAt false s k
  else some s

/-- Third stage (regex.go:79-105). -/
def stage3 (s : Bytes) : Option Bytes := if guardRe (ascii "(?!") s then cutAll true (ascii "(?!") s else some s

/-- `normalizeRegex` (regex.go:29-108). -/
def normalizeRegex (s : Bytes) : Option Bytes := do
  let s ← stage1 s
  let s ← stage2 s
  let s ← stage3 s
  return squeezeBars s

/-! ## buf.go -/

/-- `type buf` (buf.go:5-8). -/
structure Buf where
  idx : Bytes → Option Entry64 := fun _ => none
  buf : Bytes := []

/-- `(*buf).add` (buf.go:10-24). -/
def Buf.add (b : Buf) (s : Bytes) : Entry64 × Buf :=
  match b.idx s with
  | some e => (e, b)
  | none =>
    let lo := UInt32.ofNat b.buf.length
    let buf := b.buf ++ s
    let hi := UInt32.ofNat buf.length
    let e := Entry64.encode lo hi
    (e, { idx := fun k => if k = s then some e else b.idx k, buf := buf })

/-! ## The modules -/

/-- What the modules use of package `regexp` and of the replacement maps `reReplOS` (mod_os.go:31-38), `reReplClient` (mod_client.go:35-40),
`staticReplDevice`, `reReplDevice` (mod_device.go:37-77): whether a pattern compiles, and the maps. The model is parametric in all of them. -/
structure Env where
  compiles : Bytes → Bool
  replOS : Bytes → Option Bytes := fun _ => none
  replClient : Bytes → Option Bytes := fun _ => none
  staticRepl : Bytes → Option Bytes := fun _ => none
  replDevice : Bytes → Option Bytes := fun _ => none

/-- A generated engine function (`ef`, mod_client.go:241-262): the thresholds in order of the generated `if`s, and the default. -/
structure EngineFn where
  cases : List (Bytes × Entry64)
  default : Entry64

/-- Running a generated engine function: the first `if s>="v"` that holds decides. -/
def EngineFn.run (f : EngineFn) (s : Bytes) : Entry64 :=
  match f.cases.find? (fun x => strGe s x.1) with
  | some x => x.2
  | none => f.default

/-- The accumulators of the modules: the interner, `bufRE`, `bufOV`, `bufDM`, `bufEF` and the engine names `idxE` (a set; kept as the list of
insertions). Each module starts with empty ones and uses those it declares. -/
structure St where
  buf : Buf := {}
  re : List Bytes := []
  ov : List OSVersionTuple := []
  dm : List ModelTuple := []
  ef : List EngineFn := []
  engines : List Bytes := []

/-- Compilation steps. `none`: panic or endless loop. -/
def C (α : Type) := St → Option (α × St)

namespace C

def pure {α : Type} (a : α) : C α := fun s => some (a, s)

def bind {α β : Type} (x : C α) (f : α → C β) : C β := fun s =>
  match x s with
  | none => none
  | some (a, s') => f a s'

instance : Monad C where
  pure := pure
  bind := bind

/-- A computation that does not touch the accumulators. -/
def lift {α : Type} (o : Option α) : C α := fun s => o.map (fun a => (a, s))

/-- `buf.add(s)`. -/
def add (b : Bytes) : C Entry64 := fun s => let (e, b') := s.buf.add b; some (e, { s with buf := b' })

/-- `if len(s) > 0 { e = buf.add(s) }`. -/
def addNE (b : Bytes) : C Entry64 := if b.length > 0 then add b else pure 0

/-- `bufRE = append(bufRE, rs); int32(len(bufRE) - 1)`. -/
def pushRe (rs : Bytes) : C Int := fun s => some ((Int32.ofNat s.re.length).toInt, { s with re := s.re ++ [rs] })

/-- `int32` / `uint32` of lengths of accumulators. -/
def pushOv (t : OSVersionTuple) : C Unit := fun s => some ((), { s with ov := s.ov ++ [t] })
def pushDm (t : ModelTuple) : C Unit := fun s => some ((), { s with dm := s.dm ++ [t] })
def lenOv : C UInt32 := fun s => some (UInt32.ofNat s.ov.length, s)
def lenDm : C UInt32 := fun s => some (UInt32.ofNat s.dm.length, s)
def lenRe : C UInt32 := fun s => some (UInt32.ofNat s.re.length, s)
/-- `int32(len(bufDM)) - 1` right after an append (mod_device.go:211). -/
def lastDm : C Int := fun s => some ((Int32.ofNat s.dm.length - 1).toInt, s)
/-- `bufEF = append(bufEF, fn); int32(len(bufEF) - 1)` (mod_client.go:141-142). -/
def pushEf (f : EngineFn) : C Int := fun s => some ((Int32.ofNat s.ef.length).toInt, { s with ef := s.ef ++ [f] })
/-- `idxE[e] = struct{}{}`. -/
def pushEngine (e : Bytes) : C Unit := fun s => some ((), { s with engines := s.engines ++ [e] })

/-- `for` over a slice, collecting one result per element. -/
def forList {α β : Type} (f : α → C β) : List α → C (List β)
  | [] => pure []
  | a :: as => do
    let b ← f a
    let bs ← forList f as
    return b :: bs

end C

/-- The literal-or-regexp part of a rule, written out five times in the code: mod_os.go:91-104, 117-130, mod_client.go:107-121,
mod_device.go:151-168, 185-199. `rs` is tested and normalised, `lit` is what is interned when it is no regexp. Result: matchRI, match64. -/
def matchPart (compiles : Bytes → Bool) (repl : Bytes → Option Bytes) (rs lit : Bytes) : C (Int × Entry64) :=
  if isRegex rs = false then do
    let e ← C.add lit
    return (-1, e)
  else do
    let rs ← C.lift (normalizeRegex rs)
    let rs := (repl rs).getD rs
    if compiles rs then do
      let i ← C.pushRe rs
      return (i, 0)
    else return (-1, 0)

/-- `parseInx` (mod_os.go:189-203). -/
def parseInx (ver : Bytes) : C (Int8 × Entry64) :=
  match ver with
  | [] => return (-1, 0)
  | 36 :: r =>
    let (i, ok) := parseInt r
    return (if ok then Int8.ofInt i else 1, 0)
  | _ => do
    let e ← C.add ver
    return (-1, e)

/-! ### mod_os.go -/

/-- `type osVersion` (mod_os.go:24-27). -/
structure OSVersionRule where
  regex : Bytes
  version : Bytes

/-- `type osTuple` (mod_os.go:17-22). -/
structure OSRule where
  name : Bytes
  regex : Bytes
  version : Bytes := []
  versions : List OSVersionRule := []

/-- Body of the inner loop (mod_os.go:109-134). The lookup `reReplOS[rs]` there overwrites the outer `rs` and never the pattern that is
compiled, so there is no replacement here. -/
def osVersionRow (env : Env) (tv : OSVersionRule) : C Unit := do
  let m ← matchPart env.compiles (fun _ => none) tv.regex tv.regex
  let v ← parseInx tv.version
  C.pushOv { matchRI := m.1, match64 := m.2, versionSI := v.1, version64 := v.2 }

/-- mod_os.go:107-139: versionSI, version64, versions64. -/
def osVersions (env : Env) (t : OSRule) : C (Int8 × Entry64 × Entry64) :=
  if t.versions.length > 0 then do
    let lo ← C.lenOv
    let _ ← C.forList (osVersionRow env) t.versions
    let hi ← C.lenOv
    return (-1, 0, Entry64.encode lo hi)
  else if t.version.length > 0 then do
    let v ← parseInx t.version
    return (v.1, v.2, 0)
  else return (-1, 0, 0)

/-- Body of the outer loop (mod_os.go:76-143). -/
def osRow (env : Env) (t : OSRule) : C OSTuple := do
  let n ← parseInx t.name
  let m ← matchPart env.compiles env.replOS t.regex t.regex
  let v ← osVersions env t
  return { name64 := n.2, nameSI := n.1, matchRI := m.1, match64 := m.2, versionSI := v.1, version64 := v.2.1, versions64 := v.2.2 }

/-- `osModule.Compile` (mod_os.go:47-187): `__or_os`; the other tables are in the final state. -/
def compileOS (env : Env) (rules : List OSRule) : Option (List OSTuple × St) := C.forList (osRow env) rules {}

/-! ### mod_client.go -/

/-- `type ClientEngine` (mod_client.go:28-31); the map is a list of pairs with distinct keys, in iteration order. -/
structure EngineRule where
  default : Bytes := []
  versions : List (Bytes × Bytes) := []

/-- `type clientTuple` (mod_client.go:19-26). -/
structure ClientRule where
  regex : Bytes
  name : Bytes
  version : Bytes := []
  engine : Option EngineRule := none
  url : Bytes := []
  type : Bytes := []

/-- Insertion into a sorted list; helper of `sortBy`. -/
def insertBy {α : Type} (key : α → Bytes) (a : α) : List α → List α
  | [] => [a]
  | b :: l => if strGe (key b) (key a) then a :: b :: l else b :: insertBy key a l

/-- `sort.Slice` / `sort.Strings` by string order (mod_client.go:250-252). Go leaves the order of equal keys open; here it is that of the file. -/
def sortBy {α : Type} (key : α → Bytes) (l : List α) : List α := l.foldr (insertBy key) []

/-- `ef` (mod_client.go:241-262). -/
def engineFn (versions : List (Bytes × Bytes)) (dflt : Entry64) : C EngineFn := do
  let cases ← C.forList (fun (x : Bytes × Bytes) => do
    let e ← C.add x.2
    return (x.1, e)) (sortBy (·.1) versions)
  return { cases := cases, default := dflt }

/-- mod_client.go:125-132: version64, browserVI. -/
def clientVersion (ver : Bytes) : C (Entry64 × Int8) :=
  match ver with
  | [] => return (0, -1)
  | 36 :: r => return (0, Int8.ofInt (parseInt r).1)
  | _ => do
    let e ← C.add ver
    return (e, -1)

/-- mod_client.go:134-147: engine64, engineFI. -/
def clientEngine : Option EngineRule → C (Entry64 × Int)
  | none => return (0, -1)
  | some en => do
    let d ← (if en.default.length > 0 then do
        let d ← C.add en.default
        C.pushEngine en.default
        return d
      else return 0 : C Entry64)
    if en.versions.length > 0 then do
      let f ← engineFn en.versions d
      let i ← C.pushEf f
      let _ ← C.forList (fun (x : Bytes × Bytes) => C.pushEngine x.2) en.versions
      return (d, i)
    else return (d, -1)

/-- Body of the inner loop (mod_client.go:93-158). `url64` and `type64` are interned but left out of the tuple, as in `ClientTuple`. -/
def clientRow (env : Env) (t : ClientRule) : C ClientTuple := do
  let m ← matchPart env.compiles env.replClient t.regex t.regex
  let n ← C.addNE t.name
  let v ← clientVersion t.version
  let e ← clientEngine t.engine
  let _ ← C.addNE t.url
  let _ ← C.addNE t.type
  return { matchRI := m.1, match64 := m.2, browser64 := n, version64 := v.1, browserVI := v.2, engine64 := e.1, engineFI := e.2 }

/-- The engine version pattern of an engine (mod_client.go:194-203), without the `(?i)` added on output. -/
def evPattern (en : Bytes) : Bytes :=
  if en = ascii "Gecko" then ascii "[ ](?:rv[: ]([0-9\\.]+)).*gecko/[0-9.]+"
  else (if en = ascii "Blink" then ascii "Chrome" else en) ++ ascii "\\s*[/\\s]\\s*(\\d+(?:.\\d+)+)"

/-- The engine names that get a pattern (mod_client.go:184-192): the non-empty ones, each once, sorted. -/
def engineNames (l : List Bytes) : List Bytes := sortBy id (l.eraseDups.filter (fun e => !e.isEmpty))

/-- What `clientModule.Compile` writes. -/
structure ClientOut where
  rows : List (List ClientTuple)
  ev : List (Entry64 × Nat)
  evre : List Bytes
  st : St

/-- The loop of mod_client.go:193-210, starting with pattern number `i`. -/
def evRows (i : Nat) : List Bytes → C (List (Entry64 × Nat))
  | [] => return []
  | n :: ns => do
    let e ← C.add n
    let es ← evRows (i + 1) ns
    return (e, i) :: es

/-- `clientModule.Compile` (mod_client.go:49-239): one list of rules per input file. -/
def compileClient (env : Env) (files : List (List ClientRule)) : Option ClientOut :=
  match C.forList (C.forList (clientRow env)) files {} with
  | none => none
  | some (rows, s) =>
    let names := engineNames s.engines
    match evRows 0 names s with
    | none => none
    | some (ev, s') => some { rows := rows, ev := ev, evre := names.map evPattern, st := s' }

/-- Lookup in the emitted `__cr_ev` map literal. -/
def ClientOut.evLookup (o : ClientOut) (e : Entry64) : Option Nat := (o.ev.find? (fun x => x.1 == e)).map (·.2)

/-! ### mod_vendor.go -/

/-- `type vendorTuple1` (mod_vendor.go:17-20). -/
structure VendorRule where
  name : Bytes
  regex : List Bytes

/-- Body of the loop (mod_vendor.go:72-92). The patterns are not compiled by the generator. -/
def vendorRow (v : VendorRule) : C VendorTuple := do
  let b ← C.add v.name
  let lo ← C.lenRe
  let _ ← C.forList (fun re => C.pushRe (re ++ ascii "[^a-z0-9]+")) v.regex
  let hi ← C.lenRe
  return { brand64 := b, range64 := Entry64.encode lo hi }

/-- `vendorModule.Compile` (mod_vendor.go:31-127). -/
def compileVendor (rules : List VendorRule) : Option (List VendorTuple × St) := C.forList vendorRow (sortBy (·.name) rules) {}

/-! ### mod_hint.go -/

/-- The loop over the sorted keys (mod_hint.go:72-81): `k` is written unless it was written before; the value is looked up in the map of the
current file (`tuples[k]`, empty if absent). `done` is `uniqK`. Result: the written pairs (key before hashing) and the new `uniqK`. -/
def hintLoop (cur : List (Bytes × Bytes)) (done : List Bytes) : List Bytes → C (List (Bytes × Entry64) × List Bytes)
  | [] => return ([], done)
  | k :: ks =>
    if k ∈ done then hintLoop cur done ks
    else do
      let e ← C.add ((cur.lookup k).getD [])
      let r ← hintLoop cur (k :: done) ks
      return ((k, e) :: r.1, r.2)

/-- The loop over the files (mod_hint.go:51-82): `bufST` (here `keys`) is never cleared, so earlier keys are sorted in again. -/
def hintFiles (keys done : List Bytes) : List (List (Bytes × Bytes)) → C (List (Bytes × Entry64))
  | [] => return []
  | f :: fs => do
    let keys' := sortBy id (keys ++ f.map (·.1))
    let r ← hintLoop f done keys'
    let rs ← hintFiles keys' r.2 fs
    return r.1 ++ rs

/-- `hintModule.Compile` (mod_hint.go:27-104); `hash` is `fnv.Hash64String`. A file is the list of its key/value pairs. -/
def compileHint (hash : Bytes → UInt64) (files : List (List (Bytes × Bytes))) : Option (List (UInt64 × Entry64) × St) :=
  match hintFiles [] [] files {} with
  | none => none
  | some (l, s) => some (l.map (fun x => (hash x.1, x.2)), s)

/-! ### mod_device.go -/

/-- `type deviceModel` (mod_device.go:29-33). -/
structure ModelRule where
  regex : Bytes
  model : Bytes
  device : Bytes := []

/-- `type deviceBrand` (mod_device.go:21-27). -/
structure DeviceRule where
  name : Bytes
  regex : Bytes
  device : Bytes := []
  model : Bytes := []
  models : List ModelRule := []

/-- Body of the innermost loop (mod_device.go:179-203). -/
def modelRow (env : Env) (m : ModelRule) : C Unit := do
  let r ← matchPart env.compiles env.replDevice m.regex m.regex
  let ty ← C.add m.device
  let mo ← C.add m.model
  C.pushDm { type64 := ty, matchRI := r.1, match64 := r.2, model64 := mo }

/-- mod_device.go:176-212: modelSI, models64. -/
def deviceModels (env : Env) (t : DeviceRule) : C (Int × Entry64) :=
  if t.models.length > 0 then do
    let lo ← C.lenDm
    let _ ← C.forList (modelRow env) t.models
    let hi ← C.lenDm
    return (-1, Entry64.encode lo hi)
  else if t.model.length > 0 then do
    let mo ← C.add t.model
    C.pushDm { type64 := 0, matchRI := -1, match64 := 0, model64 := mo }
    let i ← C.lastDm
    return (i, 0)
  else return (-1, 0)

/-- Body of the middle loop (mod_device.go:138-216). -/
def deviceRow (env : Env) (t : DeviceRule) : C DeviceTuple := do
  let b ← C.add t.name
  let ty ← C.add t.device
  let m ← matchPart env.compiles env.replDevice ((env.staticRepl t.regex).getD t.regex) t.regex
  let mm ← deviceModels env t
  return { type64 := ty, brand64 := b, matchRI := m.1, match64 := m.2, modelSI := mm.1, models64 := mm.2 }

/-- `deviceModule.Compile` (mod_device.go:86-265): one list of brands per input file. -/
def compileDevice (env : Env) (files : List (List DeviceRule)) : Option (List (List DeviceTuple) × St) :=
  C.forList (fun f => C.forList (deviceRow env) (sortBy (·.name) f)) files {}

/-! ### The generated package files -/

/-- Everything the five modules write. -/
structure Outputs where
  client : ClientOut
  os : List OSTuple × St
  device : List (List DeviceTuple) × St
  vendor : List VendorTuple × St
  hint : List (UInt64 × Entry64) × St

/-- The rules given to the five modules. -/
structure Rules where
  client : List (List ClientRule)
  os : List OSRule
  device : List (List DeviceRule)
  vendor : List VendorRule
  hint : List (List (Bytes × Bytes))

/-- Running all five modules. -/
def compile (env : Env) (hash : Bytes → UInt64) (r : Rules) : Option Outputs := do
  let c ← compileClient env r.client
  let o ← compileOS env r.os
  let d ← compileDevice env r.device
  let v ← compileVendor r.vendor
  let h ← compileHint hash r.hint
  return { client := c, os := o, device := d, vendor := v, hint := h }

/-- Text around a client pattern (mod_client.go:172). -/
def wrapClient (re : Bytes) : Bytes := ascii "(?i)(?:^|[^A-Z0-9\\-_]|[^A-Z0-9\\-]_|sprd-|MZ-)(?:" ++ re ++ ascii ")"

/-- Text around the other patterns (mod_client.go:215, mod_os.go:164, mod_device.go:241). -/
def wrapCI (re : Bytes) : Bytes := ascii "(?i)" ++ re

/-- The tables of package uaxpl after generation; `lib` is `regexp.MustCompile`. The three regexps that are not generated are left as they are
(`forceBlink`, `forceTablet`, `forceMobile`). Simplification: a map literal with a repeated key would not compile; here the first one counts. -/
def tablesOf (lib : Bytes → Re) (fb ft fm : Re) (o : Outputs) : Tables where
  crIdx := o.client.rows
  crRe := o.client.st.re.map (fun p => lib (wrapClient p))
  crEf := o.client.st.ef.map (·.run)
  crEv := o.client.evLookup
  crEvre := o.client.evre.map (fun p => lib (wrapCI p))
  crBuf := o.client.st.buf.buf
  drIdx := o.device.1
  drDm := o.device.2.dm
  drRe := o.device.2.re.map (fun p => lib (wrapCI p))
  drBuf := o.device.2.buf.buf
  orOs := o.os.1
  orOv := o.os.2.ov
  orRe := o.os.2.re.map (fun p => lib (wrapCI p))
  orBuf := o.os.2.buf.buf
  vrIdx := o.vendor.1
  vrRe := o.vendor.2.re.map lib
  vrBuf := o.vendor.2.buf.buf
  hrIdx := fun h => (o.hint.1.find? (fun x => x.1 == h)).map (·.2)
  hrBuf := o.hint.2.buf.buf
  forceBlink := fb
  forceTablet := ft
  forceMobile := fm

end Verif.Compiler
