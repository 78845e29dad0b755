import Verif.Model.Emit
/-
The rule compiler as a program: cmd/uaxplc/main.go, mod_bot.go and the parts of the modules that read and write files.

A run is a function of the command line and of the files. It either ends with status 0 or stops: an error message and status 1, a wrong command
line and status 2, a panic and the endless loop of `normalizeRegex` are not distinguished, so the order of reading, decoding and compiling does not
matter. Messages of `log` are left out.
-/
namespace Verif.Tool

open Compiler

/-- Files: contents by path. -/
abbrev FS := Bytes → Option Bytes

/-- What writing a file can come to: done; not even opened; failed after `n` bytes of the emptied file. -/
inductive Written where
  | ok
  | refused
  | short (n : Nat)

/-- What the tool uses of the operating system and of the packages path/filepath, gopkg.in/yaml.v2, go/format, regexp and fnv. The model is
parametric in it. -/
structure World where
  /-- `os.UserHomeDir`, empty on error -/
  home : Bytes
  /-- `filepath.Glob`; `none`: bad pattern -/
  glob : FS → Bytes → Option (List Bytes)
  /-- `os.WriteFile` -/
  write : FS → Bytes → Bytes → Written
  /-- `yaml.Unmarshal` into the types of the five modules; `none`: error -/
  client : Bytes → Option (List ClientRule)
  os : Bytes → Option (List OSRule)
  device : Bytes → Option (List DeviceRule)
  vendor : Bytes → Option (List VendorRule)
  hint : Bytes → Option (List (Bytes × Bytes))
  /-- `format.Source`; `none`: error -/
  format : Bytes → Option Bytes
  env : Env
  hash : Bytes → UInt64

/-! ### The command line -/

/-- `fmod`, `fin`, `ftrg` (main.go:19). -/
structure Flags where
  mod : Bytes := []
  inp : Bytes := []
  trg : Bytes := []

/-- The flags (main.go:37-39): which variable a name sets. -/
def Flags.set (f : Flags) (name value : Bytes) : Option Flags :=
  if name = ascii "module" ∨ name = ascii "mod" ∨ name = ascii "m" then some { f with mod := value }
  else if name = ascii "input" ∨ name = ascii "in" ∨ name = ascii "i" then some { f with inp := value }
  else if name = ascii "target" ∨ name = ascii "t" then some { f with trg := value }
  else none

inductive Parsed where
  | ok (f : Flags)
  /-- usage was asked for: status 0 -/
  | help
  | bad

/-- The name after the dashes, and the value after `=` if there is one (`parseOne` of package flag; the first byte of the name is not looked at). -/
def splitEq (s : Bytes) : Bytes × Option Bytes :=
  match s with
  | [] => ([], none)
  | c :: r => (c :: r.takeWhile (· ≠ 61), if 61 ∈ r then some ((r.dropWhile (· ≠ 61)).drop 1) else none)

/-- The text after one or two dashes (`parseOne` of package flag): `none` if this is not a flag, so that parsing ends. -/
def dashes : Bytes → Option Bytes
  | 45 :: 45 :: r => some r
  | 45 :: c :: r => some (c :: r)
  | _ => none

/-- A flag that is not defined, or has no value (`parseOne` of package flag); `-h` and `-help` are not defined here. -/
def unknown (name : Bytes) : Parsed := if name = ascii "help" ∨ name = ascii "h" then .help else .bad

/-- `flag.Parse` (main.go:40) for string flags. -/
def parseFlags (f : Flags) : List Bytes → Parsed
  | [] => .ok f
  | a :: as =>
    match dashes a with
    | none => .ok f
    | some s =>
      if a = ascii "--" then .ok f
      else if s = [] ∨ s.head? = some 45 ∨ s.head? = some 61 then .bad
      else
        match (splitEq s).2 with
        | some v =>
          match f.set (splitEq s).1 v with
          | some f' => parseFlags f' as
          | none => unknown (splitEq s).1
        | none =>
          match as with
          | [] => unknown (splitEq s).1
          | v :: as' =>
            match f.set (splitEq s).1 v with
            | some f' => parseFlags f' as'
            | none => unknown (splitEq s).1

inductive Mod where
  | hint
  | client
  | device
  | os
  | bot
  | vendor
deriving DecidableEq

/-- `mods` (main.go:21-28). -/
def Mod.ofName (n : Bytes) : Option Mod :=
  if n = ascii "hint" then some .hint
  else if n = ascii "client" then some .client
  else if n = ascii "device" then some .device
  else if n = ascii "os" then some .os
  else if n = ascii "bot" then some .bot
  else if n = ascii "vendor" then some .vendor
  else none

/-- The target if none is given (mod_hint.go:28-30, mod_client.go:50-52, mod_device.go:87-89, mod_os.go:48-50, mod_vendor.go:32-34). -/
def Mod.target : Mod → Bytes
  | .hint => ascii "hint_repo.go"
  | .client => ascii "client_repo.go"
  | .device => ascii "device_repo.go"
  | .os => ascii "os_repo.go"
  | .vendor => ascii "vendor_repo.go"
  | .bot => []

/-! ### Reading -/

/-- `strings.ReplaceAll(input, "~", hd)` (mod_client.go:55 and the other modules). -/
def World.expand (w : World) (input : Bytes) : Bytes := input.flatMap fun c => if c = 126 then w.home else [c]

/-- `os.ReadFile`, the test for an empty file and `yaml.Unmarshal` (mod_client.go:79-91, mod_os.go:55-67 and the other modules). -/
def load {α : Type} (decode : Bytes → Option α) (fs : FS) (path : Bytes) : Option α :=
  match fs path with
  | none => none
  | some body => if body = [] then none else decode body

/-- The same for all files of the directory (mod_client.go:57-60, 76-91, mod_device.go:94-97, 113-128, mod_hint.go:35-38, 51-64). -/
def loadAll {α : Type} (decode : Bytes → Option α) (fs : FS) : List Bytes → Option (List α)
  | [] => some []
  | p :: ps => do
    let a ← load decode fs p
    let as ← loadAll decode fs ps
    return a :: as

/-- `filepath.Base` of a path that ends in a name. -/
def base (p : Bytes) : Bytes := (p.reverse.takeWhile (· ≠ 47)).reverse

/-! ### The rows with all columns -/

/-- `clientRow` with `url64` and `type64` (mod_client.go:93-158). -/
def clientRowX (env : Env) (t : ClientRule) : C ClientRow := do
  let m ← matchPart env.compiles env.replClient t.regex t.regex
  let n ← C.addNE t.name
  let v ← clientVersion t.version
  let e ← clientEngine t.engine
  let u ← C.addNE t.url
  let y ← C.addNE t.type
  return ({ matchRI := m.1, match64 := m.2, browser64 := n, version64 := v.1, browserVI := v.2, engine64 := e.1, engineFI := e.2 }, u, y)

/-- `compileClient` with these rows (mod_client.go:49-239). -/
def compileClientX (env : Env) (files : List (List ClientRule)) : Option (List (List ClientRow) × ClientOut) :=
  match C.forList (C.forList (clientRowX env)) files {} with
  | none => none
  | some (rows, s) =>
    let names := engineNames s.engines
    match evRows 0 names s with
    | none => none
    | some (ev, s') => some (rows, { rows := rows.map fun f => f.map (·.1), ev := ev, evre := names.map evPattern, st := s' })

/-- `hintFiles` by files (mod_hint.go:51-82). -/
def hintFilesX (keys done : List Bytes) : List (List (Bytes × Bytes)) → C (List (List (Bytes × Entry64)))
  | [] => return []
  | f :: fs => do
    let keys' := sortBy id (keys ++ f.map (·.1))
    let r ← hintLoop f done keys'
    let rs ← hintFilesX keys' r.2 fs
    return r.1 :: rs

/-- `compileHint` by files (mod_hint.go:27-104). -/
def compileHintX (hash : Bytes → UInt64) (files : List (List (Bytes × Bytes))) : Option (List (List (UInt64 × Entry64)) × St) :=
  match hintFilesX [] [] files {} with
  | none => none
  | some (l, s) => some (l.map fun f => f.map (fun x => (hash x.1, x.2)), s)

/-! ### Compiling -/

/-- `Compile` of the modules up to `source := w.Bytes()`: the Go source. -/
def World.source (w : World) (fs : FS) (args : List Bytes) (input : Bytes) : Mod → Option Bytes
  | .client => do
    let ps ← w.glob fs (w.expand input ++ ascii "/*.yml")
    let rs ← loadAll w.client fs ps
    let o ← compileClientX w.env rs
    return emitClient args ((ps.map base).zip o.1) o.2
  | .device => do
    let ps ← w.glob fs (w.expand input ++ ascii "/*.yml")
    let rs ← loadAll w.device fs ps
    let o ← compileDevice w.env rs
    return emitDevice args ((ps.map base).zip o.1) o.2
  | .hint => do
    let ps ← w.glob fs (w.expand input ++ ascii "/*.yml")
    let rs ← loadAll w.hint fs ps
    let o ← compileHintX w.hash rs
    return emitHint args ((ps.map base).zip o.1) o.2
  | .os => do
    let rs ← load w.os fs (w.expand input)
    let o ← compileOS w.env rs
    return emitOS args o.1 o.2
  | .vendor => do
    let rs ← load w.vendor fs (w.expand input)
    let o ← compileVendor rs
    return emitVendor args o.1 o.2
  | .bot => none

inductive Outcome where
  /-- status 0 after compiling -/
  | done
  /-- status 0 after printing the usage -/
  | help
  /-- any other end, or none -/
  | stopped
deriving DecidableEq

/-- `os.WriteFile(target, fmtSource, 0644)` (mod_client.go:236 and the other modules). -/
def World.save (w : World) (fs : FS) (path text : Bytes) : Outcome × FS :=
  match w.write fs path text with
  | .ok => (.done, fun p => if p = path then some text else fs p)
  | .refused => (.stopped, fs)
  | .short n => (.stopped, fun p => if p = path then some (text.take n) else fs p)

/-- `mod.Compile` (main.go:75); that of the bot module does nothing (mod_bot.go:14-17). -/
def World.compile (w : World) (fs : FS) (args : List Bytes) (m : Mod) (input target : Bytes) : Outcome × FS :=
  if m = .bot then (.done, fs)
  else
    match w.source fs args input m with
    | none => (.stopped, fs)
    | some src =>
      match w.format src with
      | none => (.stopped, fs)
      | some text => w.save fs (if target = [] then m.target else target) text

/-- A run of the tool (main.go:31-79). `Validate` of all modules asks for an input (mod_bot.go:7-12, mod_client.go:42-47, mod_device.go:79-84,
mod_hint.go:20-25, mod_os.go:40-45, mod_vendor.go:24-29). `args` are the arguments without the name of the program. -/
def World.run (w : World) (fs : FS) (args : List Bytes) : Outcome × FS :=
  match parseFlags {} args with
  | .bad => (.stopped, fs)
  | .help => (.help, fs)
  | .ok f =>
    if f.mod = [] then (.stopped, fs)
    else
      match Mod.ofName f.mod with
      | none => (.stopped, fs)
      | some m => if f.inp = [] then (.stopped, fs) else w.compile fs args m f.inp f.trg

end Verif.Tool
