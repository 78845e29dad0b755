import Verif.Model.System
import Verif.Model.Cache
/-
Many contexts used by many goroutines with the built-in cache (uaxpl.go:5-9, cache.go), its clock and its cleaner. That each operation of the
cache is one atomic step is justified by `Verif/Props/Lock.lean` (C52).
-/
namespace Verif

/-- A context is idle, executing a call, between the return of `Get` and the copying of the entry it returned (`fromCache`, ctx.go:311-324), or
dead because the cache panicked. -/
inductive BThread where
  | idle (c : Ctx)
  | busy (op : Op) (p : Prog (Ctx × Option (Option Ans)))
  | reading (op : Op) (key : Bytes) (p : Ptr) (f : GetResp → Prog (Ctx × Option (Option Ans)))
  | crashed

/-- State of the whole program. `next`: addresses of entries from there on are unused. -/
structure BSys where
  threads : Nat → BThread
  cache : CacheState
  next : Ptr
  log : List Event

/-- Program start. -/
def BSys.init : BSys := ⟨fun _ => .idle newCtx, .empty, 0, []⟩

/-- Replace thread `t`. -/
def BSys.put (s : BSys) (t : Nat) (th : BThread) : Nat → BThread := fun i => if i = t then th else s.threads i

/-- One step. `now` is whatever the clock says. `H` is `fnv.Hash64String`, used for headers and for cache keys. -/
inductive BSys.Step (T : Tables) (H : Bytes → UInt64) (s : BSys) : BSys → Prop where
  | call {t c} (op : Op) (h : s.threads t = .idle c) :
      BSys.Step T H s { s with threads := s.put t (.busy op (op.prog T H c)), log := s.log ++ [.call t op] }
  /-- `Get` finds nothing (cache.go:57-68) -/
  | miss {t op k f} (now : Int64) (h : s.threads t = .busy op (.get k f)) (hg : (s.cache.get H k now).2 = none) :
      BSys.Step T H s { s with threads := s.put t (.busy op (f .miss)), cache := (s.cache.get H k now).1 }
  /-- `Get` returns a pointer -/
  | hit {t op k f p} (now : Int64) (h : s.threads t = .busy op (.get k f)) (hg : (s.cache.get H k now).2 = some p) :
      BSys.Step T H s { s with threads := s.put t (.reading op k p f), cache := (s.cache.get H k now).1 }
  /-- the context reads the entry behind the pointer, without any lock -/
  | read {t op k p f} (h : s.threads t = .reading op k p f) :
      BSys.Step T H s { s with threads := s.put t (.busy op (f (.hit (s.cache.heap p)))) }
  /-- `Set` with a new entry object (client_parser.go:24-30, os.go:51-57, device_parser.go:52-58) -/
  | set {t op k e p c} (now : Int64) (h : s.threads t = .busy op (.set k e p)) (hs : s.cache.step H (.set k s.next e now) = some c) :
      BSys.Step T H s { s with threads := s.put t (.busy op p), cache := c, next := s.next + 1 }
  /-- `Set` panics -/
  | crash {t op k e p} (now : Int64) (h : s.threads t = .busy op (.set k e p)) (hs : s.cache.step H (.set k s.next e now) = none) :
      BSys.Step T H s { s with threads := s.put t .crashed }
  /-- the cleaner (cache.go:29-37, 70-88) -/
  | clean (now : Int64) : BSys.Step T H s { s with cache := s.cache.clean now }
  | ret {t op c r} (h : s.threads t = .busy op (.ret (c, r))) :
      BSys.Step T H s { s with threads := s.put t (.idle c), log := s.log ++ [.ret t op r] }

/-- States reachable from program start. -/
inductive BSys.Reach (T : Tables) (H : Bytes → UInt64) : BSys → Prop where
  | init : BSys.Reach T H BSys.init
  | step {s s'} (h : BSys.Reach T H s) (st : BSys.Step T H s s') : BSys.Reach T H s'

end Verif
