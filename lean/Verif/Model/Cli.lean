import Verif.Model.Base
/-
Batch processing of the command line tool (cmd/uaxpl/main.go:90-186, passRaw): one producer, `threads` workers, a buffered channel, a wait
group and a mutex around the output. Reading of the input file, JSON decoding, timing and the verbose log are not modelled.
-/
namespace Verif.Cli

/-- `type tuple` (main.go:20-37), without the unused field Family. -/
structure Row where
  ua : Bytes
  clientType : Bytes := []
  clientName : Bytes := []
  clientVersion : Bytes := []
  engine : Bytes := []
  engineVersion : Bytes := []
  deviceType : Bytes := []
  brand : Bytes := []
  model : Bytes := []
  os : Bytes := []
  osVersion : Bytes := []
deriving DecidableEq

/-- What the ten getters answered for a row, as text (main.go:117-147). -/
structure Got where
  clientType : Bytes
  browser : Bytes
  browserVersion : Bytes
  engine : Bytes
  engineVersion : Bytes
  deviceType : Bytes
  brand : Bytes
  model : Bytes
  os : Bytes
  osVersion : Bytes
deriving DecidableEq

/-- One comparison, e.g. main.go:117-119; `lower` is `strings.ToLower` (scmp, 220-222). -/
def check (lower : Bytes → Bytes) (label : String) (need got : Bytes) : List Bytes :=
  if need.length > 0 ∧ ¬ (lower got = lower need) then
    [ascii label ++ ascii " mismatch: need '" ++ need ++ ascii "' got '" ++ got ++ ascii "'"]
  else []

/-- The error texts collected in `buf` (main.go:115-147). -/
def errs (lower : Bytes → Bytes) (r : Row) (g : Got) : List Bytes :=
  check lower "client type" r.clientType g.clientType ++
  check lower "browser" r.clientName g.browser ++
  check lower "browser version" r.clientVersion g.browserVersion ++
  check lower "engine" r.engine g.engine ++
  check lower "engine version" r.engineVersion g.engineVersion ++
  check lower "device type" r.deviceType g.deviceType ++
  check lower "brand" r.brand g.brand ++
  check lower "model" r.model g.model ++
  check lower "OS" r.os g.os ++
  check lower "OS version" r.osVersion g.osVersion

/-- The strings written for a row with errors (main.go:152-159). -/
def block (lower : Bytes → Bytes) (r : Row) (g : Got) : List Bytes :=
  r.ua :: ascii "\n" :: ((errs lower r g).flatMap fun e => [ascii "* ", e, ascii "\n"]) ++ [ascii "\n"]

/-- Where a worker is (main.go:106-170). -/
inductive Worker where
  /-- waiting for the channel (111) -/
  | recv
  /-- comparing (115-149) -/
  | work (r : Row)
  /-- before `fmux.Lock()` (151) -/
  | lock (r : Row) (g : Got)
  /-- holding the mutex, these strings are still to be written (152-160) -/
  | write (r : Row) (g : Got) (todo : List Bytes)
  /-- before `atomic.AddUint64` (163) -/
  | fin (r : Row) (g : Got)
  /-- returned, `wg.Done()` called -/
  | done

/-- The shared state. `handled` and `written` are ghosts: the rows counted, and the rows for which writing began, in that order. -/
structure CState where
  sent : Nat := 0
  closed : Bool := false
  chan : List Row := []
  workers : List Worker
  fmux : Option Nat := none
  out : List Bytes := []
  count : Nat := 0
  handled : List (Row × Got) := []
  written : List (Row × Got) := []

/-- Start, after all goroutines were created (main.go:104-180); a goroutine that did not begin yet is one that did not move. -/
def CState.start (threads : Nat) : CState := { workers := List.replicate threads .recv }

/-- One step of one goroutine. The getters may answer anything (`g`). -/
inductive CStep (lower : Bytes → Bytes) (rows : List Row) (threads : Nat) (s : CState) : CState → Prop where
  /-- `ch <- stage` (main.go:177); the channel has room for `threads*8` rows (99) -/
  | send {r} (h : rows[s.sent]? = some r) (hc : s.closed = false) (hl : s.chan.length < threads * 8) :
      CStep lower rows threads s { s with chan := s.chan ++ [r], sent := s.sent + 1 }
  /-- `close(ch)` and `wg.Done()` (179, 174) -/
  | close (h : s.sent = rows.length) (hc : s.closed = false) : CStep lower rows threads s { s with closed := true }
  /-- `stage, ok := <-ch` (111) -/
  | recv {r rest pre post} (hw : s.workers = pre ++ .recv :: post) (hc : s.chan = r :: rest) :
      CStep lower rows threads s { s with chan := rest, workers := pre ++ .work r :: post }
  /-- closed and empty channel: return (112-114) -/
  | stop {pre post} (hw : s.workers = pre ++ .recv :: post) (hc : s.chan = []) (hcl : s.closed = true) :
      CStep lower rows threads s { s with workers := pre ++ .done :: post }
  /-- the comparisons (115-149), no error -/
  | good {r pre post} (g : Got) (hw : s.workers = pre ++ .work r :: post) (he : errs lower r g = []) :
      CStep lower rows threads s { s with workers := pre ++ .fin r g :: post }
  /-- the comparisons (115-150), some error -/
  | bad {r pre post} (g : Got) (hw : s.workers = pre ++ .work r :: post) (he : errs lower r g ≠ []) :
      CStep lower rows threads s { s with workers := pre ++ .lock r g :: post }
  /-- `fmux.Lock()` (151) -/
  | lock {r g pre post} (hw : s.workers = pre ++ .lock r g :: post) (hm : s.fmux = none) :
      CStep lower rows threads s { s with workers := pre ++ .write r g (block lower r g) :: post, fmux := some pre.length, written := s.written ++ [(r, g)] }
  /-- one `w.WriteString` (152-159) -/
  | write {r g x xs pre post} (hw : s.workers = pre ++ .write r g (x :: xs) :: post) :
      CStep lower rows threads s { s with workers := pre ++ .write r g xs :: post, out := s.out ++ [x] }
  /-- `fmux.Unlock()` (160) -/
  | unlock {r g pre post} (hw : s.workers = pre ++ .write r g [] :: post) :
      CStep lower rows threads s { s with workers := pre ++ .fin r g :: post, fmux := none }
  /-- `atomic.AddUint64(&c, 1)` (163) -/
  | count {r g pre post} (hw : s.workers = pre ++ .fin r g :: post) :
      CStep lower rows threads s { s with workers := pre ++ .recv :: post, count := s.count + 1, handled := s.handled ++ [(r, g)] }

inductive CReach (lower : Bytes → Bytes) (rows : List Row) (threads : Nat) : CState → Prop where
  | init : CReach lower rows threads (.start threads)
  | step {s s'} (h : CReach lower rows threads s) (st : CStep lower rows threads s s') : CReach lower rows threads s'

/-- `wg.Wait()` returns (main.go:181): the producer and all workers are done. -/
def CState.Returned (s : CState) : Prop := s.closed = true ∧ ∀ w ∈ s.workers, w = .done

end Verif.Cli
