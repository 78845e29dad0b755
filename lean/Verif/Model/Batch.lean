import Verif.Model.Cli
import Verif.Model.Builtin
/-
Batch processing of the command line tool (cmd/uaxpl/main.go:90-186) together with the library it calls: the workers of `Model/Cli.lean`, whose
getters are executed by the contexts of `Model/Builtin.lean`, that is with the built-in cache, which is the one installed at program start
(uaxpl.go:7-9) and which the tool never replaces.
-/
namespace Verif.Cli

/-- The getters called for a row, in this order, whether the row has something to compare with or not (main.go:117-147). -/
def asked : List Getter :=
  [.clientType, .browser, .browserVersionString, .engine, .engineVersionString, .deviceType, .brand, .model, .os, .osVersionString]

/-- What is done with the context of a row: `AcquireWithSrcStr` (main.go:116, alias.go:18-21), the getters, `Release` (main.go:148). -/
def script (r : Row) : List Op := .setUserAgent r.ua :: (asked.map .get ++ [.reset])

/-- An answer as text: itself, or what its `String` method gives (client.go:34-51, device.go:39-64, main.go:117,133). No version is asked for
as such. -/
def print : Ans → Bytes
  | .text b => b
  | .clientType t => clientTypeString t
  | .deviceType t => deviceTypeString t
  | .version _ => []

/-- The answers of the ten getters. -/
def gotOf : List Ans → Option Got
  | [a, b, c, d, e, f, g, h, i, j] => some ⟨print a, print b, print c, print d, print e, print f, print g, print h, print i, print j⟩
  | _ => none

/-- A worker comparing a row: the context it acquired, what it has still to do with it, the answers so far. -/
structure Job where
  ctx : Nat
  todo : List Op
  got : List Ans

/-- The whole program. `jobs i` belongs to worker `i`. After a panic in a worker the program is dead, as nothing recovers. -/
structure Batch where
  cli : CState
  sys : BSys
  jobs : Nat → Option Job
  panicked : Bool

/-- Start. -/
def Batch.start (threads : Nat) : Batch := ⟨.start threads, .init, fun _ => none, false⟩

/-- Replace the job of worker `i`. -/
def Batch.put (s : Batch) (i : Nat) (j : Option Job) : Nat → Option Job := fun k => if k = i then j else s.jobs k

/-- One step. The comparisons with the columns are made all at once after `Release`; in the code each follows its getter, but they concern only
values already returned. A context counts as released when its worker goes on. -/
inductive Batch.Step (T : Tables) (H : Bytes → UInt64) (lower : Bytes → Bytes) (rows : List Row) (threads : Nat) (s : Batch) : Batch → Prop where
  /-- any step of `CStep` but the comparison of a row -/
  | cli {c'} (hp : s.panicked = false) (st : CStep lower rows threads s.cli c')
      (hw : ∀ (i : Nat) r, s.cli.workers[i]? = some (.work r) → c'.workers[i]? = some (.work r)) : Batch.Step T H lower rows threads s { s with cli := c' }
  /-- inside a getter, or the cache's cleaner -/
  | sys {b'} (hp : s.panicked = false) (st : BSys.Step T H s.sys b') (hl : b'.log = s.sys.log) : Batch.Step T H lower rows threads s { s with sys := b' }
  /-- `Acquire` (pool.go:18-26): a context that nobody holds, from the pool or new -/
  | acquire {i r t c} (hp : s.panicked = false) (hw : s.cli.workers[i]? = some (.work r)) (hj : s.jobs i = none) (ht : s.sys.threads t = .idle c)
      (hf : ∀ k job, s.jobs k = some job → job.ctx ≠ t) : Batch.Step T H lower rows threads s { s with jobs := s.put i (some ⟨t, script r, []⟩) }
  /-- the worker calls the next method of its context -/
  | call {i job op rest c} (hp : s.panicked = false) (hj : s.jobs i = some job) (ho : job.todo = op :: rest) (ht : s.sys.threads job.ctx = .idle c) :
      Batch.Step T H lower rows threads s { s with
        jobs := s.put i (some { job with todo := rest }),
        sys := { s.sys with threads := s.sys.put job.ctx (.busy op (op.prog T H c)), log := s.sys.log ++ [.call job.ctx op] } }
  /-- the method returns -/
  | ret {i job op c a} (hp : s.panicked = false) (hj : s.jobs i = some job) (ht : s.sys.threads job.ctx = .busy op (.ret (c, some a))) :
      Batch.Step T H lower rows threads s { s with
        jobs := s.put i (some { job with got := job.got ++ a.toList }),
        sys := { s.sys with threads := s.sys.put job.ctx (.idle c), log := s.sys.log ++ [.ret job.ctx op (some a)] } }
  /-- the method panics -/
  | panic {i job op c} (hp : s.panicked = false) (hj : s.jobs i = some job) (ht : s.sys.threads job.ctx = .busy op (.ret (c, none))) :
      Batch.Step T H lower rows threads s { s with panicked := true }
  /-- the worker is done with the context -/
  | compare {r g pre post job c} (hp : s.panicked = false) (hw : s.cli.workers = pre ++ .work r :: post) (hj : s.jobs pre.length = some job)
      (hd : job.todo = []) (ht : s.sys.threads job.ctx = .idle c) (hg : gotOf job.got = some g) :
      Batch.Step T H lower rows threads s { s with
        jobs := s.put pre.length none,
        cli := { s.cli with workers := pre ++ (if errs lower r g = [] then .fin r g else .lock r g) :: post } }

/-- States reachable from the start. -/
inductive Batch.Reach (T : Tables) (H : Bytes → UInt64) (lower : Bytes → Bytes) (rows : List Row) (threads : Nat) : Batch → Prop where
  | init : Batch.Reach T H lower rows threads (.start threads)
  | step {s s'} (h : Batch.Reach T H lower rows threads s) (st : Batch.Step T H lower rows threads s s') : Batch.Reach T H lower rows threads s'

end Verif.Cli
