import Verif.Model.Fetch
import Verif.Model.Version
/-
The command line of the comparison tool: package flag as the tool uses it, and the run from the arguments up to the work itself.

Simplifications: messages on standard error are left out; a channel and the goroutines always fit into memory.
-/
namespace Verif.Cli

open Tool (FS put splitEq dashes)

/-- The flags (cmd/uaxpl/main.go:39-47). -/
inductive Flag where
  | ua | file | url | out | threads | format | verbose
deriving DecidableEq, Repr

/-- Lookup by name, `f.formal[name]` of package flag (main.go:40-46). -/
def Flag.ofName (n : Bytes) : Option Flag :=
  if n = ascii "ua" then some .ua
  else if n = ascii "file" then some .file
  else if n = ascii "url" then some .url
  else if n = ascii "out" then some .out
  else if n = ascii "threads" then some .threads
  else if n = ascii "format" then some .format
  else if n = ascii "verbose" then some .verbose
  else none

/-- The variables behind the flags, with the default values (main.go:39-47). -/
structure Opts where
  ua : Bytes := []
  file : Bytes := []
  url : Bytes := []
  out : Bytes := ascii "out.diff.txt"
  threads : Int := 1
  format : Bytes := ascii "plain"
  verbose : Bool := false
deriving DecidableEq

/-! ### Numbers: `strconv.ParseInt(s, 0, 64)`, which `flag.Int` (main.go:44) uses -/

/-- `lower` of package strconv (library). -/
def lowerC (c : UInt8) : UInt8 := c ||| 32

/-- The value of a digit or letter (`ParseUint`, library). -/
def digitVal (c : UInt8) : Option Nat :=
  if isDigit c = true then some (c.toNat - 48)
  else if 97 ≤ lowerC c ∧ lowerC c ≤ 122 then some ((lowerC c).toNat - 97 + 10)
  else none

/-- The loop of `ParseUint` (library), without its limit, which is checked at the end: all its errors are alike here. -/
def digitsVal (base : Nat) : Nat → Bytes → Option Nat
  | n, [] => some n
  | n, c :: r =>
    if c = 95 then digitsVal base n r
    else
      match digitVal c with
      | some d => if d < base then digitsVal base (n * base + d) r else none
      | none => none

/-- The prefix that gives the base (`ParseUint`, library). -/
def splitBase : Bytes → Nat × Bytes
  | 48 :: c :: r =>
    if r ≠ [] ∧ lowerC c = 98 then (2, r)
    else if r ≠ [] ∧ lowerC c = 111 then (8, r)
    else if r ≠ [] ∧ lowerC c = 120 then (16, r)
    else (8, c :: r)
  | [48] => (8, [])
  | s => (10, s)

/-- The last thing `underscoreOK` saw. -/
inductive Saw where
  | start | digit | under | other
deriving DecidableEq

/-- The loop of `underscoreOK` of package strconv (library). -/
def underLoop (hex : Bool) : Saw → Bytes → Bool
  | s, [] => s ≠ .under
  | s, c :: r =>
    if isDigit c = true ∨ hex = true ∧ 97 ≤ lowerC c ∧ lowerC c ≤ 102 then underLoop hex .digit r
    else if c = 95 then (if s = .digit then underLoop hex .under r else false)
    else if s = .under then false
    else underLoop hex .other r

/-- `underscoreOK` of package strconv (library). -/
def underscoreOK : Bytes → Bool
  | 48 :: c :: r =>
    if lowerC c = 98 ∨ lowerC c = 111 ∨ lowerC c = 120 then underLoop (lowerC c = 120) .digit r
    else underLoop false .start (48 :: c :: r)
  | s => underLoop false .start s

/-- The sign (`ParseInt`, library). -/
def splitSign : Bytes → Bool × Bytes
  | 45 :: r => (true, r)
  | 43 :: r => (false, r)
  | r => (false, r)

/-- `strconv.ParseInt(s, 0, 64)` (library); `none` is an error. -/
def parseInt (s : Bytes) : Option Int :=
  let r := (splitSign s).2
  if r = [] then none
  else
    match digitsVal (splitBase r).1 0 (splitBase r).2 with
    | none => none
    | some n =>
      if 95 ∈ (splitBase r).2 ∧ underscoreOK r = false then none
      else if (splitSign s).1 = true then (if n ≤ 2 ^ 63 then some (-(n : Int)) else none)
      else (if n < 2 ^ 63 then some (n : Int) else none)

/-- `strconv.ParseBool` (library), used by `flag.Bool` (main.go:46). -/
def parseBool (s : Bytes) : Option Bool :=
  if s ∈ [ascii "1", ascii "t", ascii "T", ascii "TRUE", ascii "true", ascii "True"] then some true
  else if s ∈ [ascii "0", ascii "f", ascii "F", ascii "FALSE", ascii "false", ascii "False"] then some false
  else none

/-- `Set` of the flag's value (package flag); `none` is an error. -/
def Opts.set (o : Opts) : Flag → Bytes → Option Opts
  | .ua, v => some { o with ua := v }
  | .file, v => some { o with file := v }
  | .url, v => some { o with url := v }
  | .out, v => some { o with out := v }
  | .threads, v => (parseInt v).map fun n => { o with threads := n }
  | .format, v => some { o with format := v }
  | .verbose, v => (parseBool v).map fun b => { o with verbose := b }

inductive Read where
  | ok (o : Opts)
  /-- usage was asked for: status 0 -/
  | help
  /-- status 2 -/
  | bad
deriving DecidableEq

/-- `flag.Parse` (main.go:50; `parseOne` of package flag). -/
def readArgs (o : Opts) : List Bytes → Read
  | [] => .ok o
  | a :: as =>
    match dashes a with
    | none => .ok o
    | some s =>
      if a = ascii "--" then .ok o
      else if s = [] ∨ s.head? = some 45 ∨ s.head? = some 61 then .bad
      else
        match Flag.ofName (splitEq s).1 with
        | none => if (splitEq s).1 = ascii "help" ∨ (splitEq s).1 = ascii "h" then .help else .bad
        | some f =>
          match (splitEq s).2 with
          | some v =>
            match o.set f v with
            | some o' => readArgs o' as
            | none => .bad
          | none =>
            if f = .verbose then
              match o.set f (ascii "true") with
              | some o' => readArgs o' as
              | none => .bad
            else
              match as with
              | [] => .bad
              | v :: as' =>
                match o.set f v with
                | some o' => readArgs o' as'
                | none => .bad

/-- What a run comes to before the work itself. -/
inductive End where
  /-- shows its usage, status 0 -/
  | help
  /-- complains about a flag, status 2 -/
  | usage
  /-- stops with an error message, status 1 -/
  | fatal
  /-- panics -/
  | crash
  /-- writes what is found in the user agent to the file `out` (Model/Single) -/
  | show (ua out : Bytes)
  /-- compares the rows with this number of threads and writes to `out` (Model/Cli) -/
  | compare (rows : List Row) (threads : Nat) (out : Bytes)

/-- The flags as the rest of the program sees them. -/
def Opts.args (o : Opts) : Args := { ua := o.ua, file := o.file, url := o.url, out := o.out, threads := o.threads.toNat }

/-- The program from its arguments on (main.go:49-99). `make(chan *tuple, *threads*8)` (main.go:99) panics if the size, computed with 64 bits, is negative. Model/Cli has a channel of `threads*8` without wrapping: the same below 2^60 threads.
-/
def invoke (e : Around) (fs : FS) (args : List Bytes) : End × FS :=
  match readArgs {} args with
  | .help => (.help, fs)
  | .bad => (.usage, fs)
  | .ok o =>
    match begin e fs o.args with
    | (.fatal, fs') => (.fatal, fs')
    | (.show u, fs') => (.show u o.out, fs')
    | (.compare rows, fs') => if Int64.ofInt (o.threads * 8) < 0 then (.crash, fs') else (.compare rows o.threads.toNat o.out, fs')

end Verif.Cli
