import Verif.Model.Cli
import Verif.Spec.Tool
/-
The comparison tool as a program, apart from the comparison itself (Model/Cli, Model/Single): which rows it compares, which files it changes.

Simplifications: a file that exists can be read; the values of the flags are given (how they are read is in Model/CliFlags); messages on standard error are
left out. The environment of a run says what opening, writing and the network come to.
-/
namespace Verif.Cli

open Tool (FS Written put)

/-- The values of the flags (cmd/uaxpl/main.go:39-47). -/
structure Args where
  ua : Bytes := []
  file : Bytes := []
  url : Bytes := []
  out : Bytes := ascii "out.diff.txt"
  threads : Nat := 1

/-- What happens around a run: can the output be opened; what does `http.Get` give (`none`: an error; otherwise the status and the body, `none` if
reading it fails); what does `os.WriteFile` come to. -/
structure Around where
  opens : Bool
  get : Bytes → Option (Nat × Option Bytes)
  write : Bytes → Bytes → Written
  /-- `json.Unmarshal` into the rows -/
  json : Bytes → Option (List Row)

/-- `strings.LastIndex(uri, "/")` and `uri[pos+1:]` (main.go:197-201): the text after the last slash; `none` without a slash. -/
def lastSegment (uri : Bytes) : Option Bytes := if (47 : UInt8) ∈ uri then some ((uri.reverse.takeWhile (· ≠ 47)).reverse) else none

/-- `fpath` (main.go:202). -/
def cachePath (seg : Bytes) : Bytes := ascii "/tmp/uaxpl_" ++ seg

/-- The download (main.go:204-211). Its errors are dropped. -/
def download (e : Around) (fs : FS) (uri path : Bytes) : FS :=
  match e.get uri with
  | some (status, some body) =>
    if status = 200 then
      match e.write path body with
      | .ok => put fs path body
      | .refused => fs
      | .short n => put fs path (body.take n)
    else fs
  | _ => fs

/-- `passURL` up to `passRaw` (main.go:196-216): the contents, `none` for an error, and the files. -/
def fetch (e : Around) (fs : FS) (uri : Bytes) : Option Bytes × FS :=
  match lastSegment uri with
  | none => (none, fs)
  | some seg =>
    let fs' := if fs (cachePath seg) = none then download e fs uri (cachePath seg) else fs
    (fs' (cachePath seg), fs')

/-- What a run does with its input. -/
inductive Doing where
  /-- stops with an error message and status 1 -/
  | fatal
  /-- shows what is found in one user agent (Model/Single) -/
  | show (ua : Bytes)
  /-- compares these rows (Model/Cli) -/
  | compare (rows : List Row)

/-- `init` and `main` up to the work itself (main.go:49-94), and `passFile` (main.go:188-194). The output is emptied before the input is read. -/
def begin (e : Around) (fs : FS) (a : Args) : Doing × FS :=
  if a.ua = [] ∧ a.file = [] ∧ a.url = [] then (.fatal, fs)
  else if e.opens = false then (.fatal, fs)
  else
    let fs1 := put fs a.out []
    if a.ua ≠ [] then (.show a.ua, fs1)
    else if a.file ≠ [] then
      match (fs1 a.file).bind e.json with
      | none => (.fatal, fs1)
      | some rows => (.compare rows, fs1)
    else
      match fetch e fs1 a.url with
      | (none, fs2) => (.fatal, fs2)
      | (some body, fs2) =>
        match e.json body with
        | none => (.fatal, fs2)
        | some rows => (.compare rows, fs2)

/-- A whole run that compares: `text` is what it writes to the output, one string after the other, in a complete execution of `passRaw`. -/
inductive Compared (lower : Bytes → Bytes) (e : Around) (fs : FS) (a : Args) : FS → Prop where
  | mk {rows fs' s} (h : begin e fs a = (.compare rows, fs')) (hr : CReach lower rows a.threads s) (hret : s.Returned) :
      Compared lower e fs a (put fs' a.out s.out.flatten)

end Verif.Cli
