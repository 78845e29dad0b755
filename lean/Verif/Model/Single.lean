import Verif.Model.Batch
/-
Single user agent mode of the command line tool (cmd/uaxpl/main.go:56-77, `case len(*ua) > 0`) together with the library it calls, with the
built-in cache, which is the one installed at program start (uaxpl.go:7-9) and which the tool never replaces.
-/
namespace Verif.Cli

/-- The getters called, in this order (main.go:65-77). -/
def shown : List Getter :=
  [.userAgent, .clientType, .browser, .browserVersion, .engine, .engineVersion, .deviceType, .brand, .model, .os, .osVersion]

/-- `NewCtxWithSrcStr` (main.go:64, alias.go:10-12, ctx.go:40-44) and the getters. The context is never released. -/
def singleScript (u : Bytes) : List Op := .setUserAgent u :: shown.map .get

/-- `%s` of an answer (fmt): a string as it is, otherwise what `String` gives (client.go:34-51, device.go:39-64, version.go:95-97; the method
set of `*Version` contains that of `Version`). -/
def printS : Ans → Bytes
  | .text b => b
  | .clientType t => clientTypeString t
  | .deviceType t => deviceTypeString t
  | .version v => v.string

/-- What is written once the getter has answered and before the next one is called (main.go:65-77). -/
def line : Getter → Bytes → Bytes
  | .userAgent, s => ascii "origin ua: " ++ s ++ ascii "\n" ++ ascii "client:\n"
  | .clientType, s => ascii " * type: '" ++ s ++ ascii "'\n"
  | .browser, s => ascii " * browser: '" ++ s ++ ascii "'\n"
  | .browserVersion, s => ascii " * browser version: '" ++ s ++ ascii "'\n"
  | .engine, s => ascii " * engine: '" ++ s ++ ascii "'\n"
  | .engineVersion, s => ascii " * engine version: '" ++ s ++ ascii "'\n" ++ ascii "device:\n"
  | .deviceType, s => ascii " * type: '" ++ s ++ ascii "'\n"
  | .brand, s => ascii " * brand: '" ++ s ++ ascii "'\n"
  | .model, s => ascii " * model: '" ++ s ++ ascii "'\n"
  | .os, s => ascii " * os: '" ++ s ++ ascii "'\n"
  | .osVersion, s => ascii " * os version: '" ++ s ++ ascii "'\n"
  | _, _ => []

/-- What a call leads to in the output file. Errors of `WriteString` are ignored by the code; here there are none. -/
def written : Op → Option Ans → Bytes
  | .get g, some a => line g (printS a)
  | _, _ => []

/-- The whole program: the library, the calls still to be made on the only context, which has number 0, the contents of the output file. After a
panic the program is dead, as nothing recovers. -/
structure Single where
  sys : BSys
  todo : List Op
  out : Bytes
  panicked : Bool

/-- Start: the output file was truncated (main.go:57). -/
def Single.start (u : Bytes) : Single := ⟨.init, singleScript u, [], false⟩

/-- One step. -/
inductive Single.Step (T : Tables) (H : Bytes → UInt64) (s : Single) : Single → Prop where
  /-- inside a getter, or the cache's cleaner -/
  | sys {b'} (hp : s.panicked = false) (st : BSys.Step T H s.sys b') (hl : b'.log = s.sys.log) : Single.Step T H s { s with sys := b' }
  /-- the next method is called -/
  | call {op rest c} (hp : s.panicked = false) (ho : s.todo = op :: rest) (ht : s.sys.threads 0 = .idle c) :
      Single.Step T H s { s with
        todo := rest,
        sys := { s.sys with threads := s.sys.put 0 (.busy op (op.prog T H c)), log := s.sys.log ++ [.call 0 op] } }
  /-- the method returns and its answer is written -/
  | ret {op c a} (hp : s.panicked = false) (ht : s.sys.threads 0 = .busy op (.ret (c, some a))) :
      Single.Step T H s { s with
        out := s.out ++ written op a,
        sys := { s.sys with threads := s.sys.put 0 (.idle c), log := s.sys.log ++ [.ret 0 op (some a)] } }
  /-- the method panics -/
  | panic {op c} (hp : s.panicked = false) (ht : s.sys.threads 0 = .busy op (.ret (c, none))) : Single.Step T H s { s with panicked := true }

/-- States reachable from the start. -/
inductive Single.Reach (T : Tables) (H : Bytes → UInt64) (u : Bytes) : Single → Prop where
  | init : Single.Reach T H u (.start u)
  | step {s s'} (h : Single.Reach T H u s) (st : Single.Step T H s s') : Single.Reach T H u s'

/-- `main` has returned. -/
def Single.Returned (s : Single) : Prop := s.panicked = false ∧ s.todo = [] ∧ ∃ c, s.sys.threads 0 = .idle c

end Verif.Cli
