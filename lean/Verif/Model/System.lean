import Verif.Model.Api
/-
Many contexts used by many goroutines, sharing one cache (uaxpl.go:5-17). One context is used by one goroutine at a time.
-/
namespace Verif

/-- A context is either idle or executing a call. -/
inductive Thread where
  | idle (c : Ctx)
  | busy (op : Op) (p : Prog (Ctx × Option (Option Ans)))

/-- Observable events: a call on context `t`, and its return (`none` = it panicked and the caller recovered). -/
inductive Event where
  | call (t : Nat) (op : Op)
  | ret (t : Nat) (op : Op) (r : Option (Option Ans))
deriving DecidableEq

/-- The entries differ at most in the fields owned by the cache (Hkey, Timestamp). -/
def SameButKey (a b : CacheEntry) : Prop := { a with hkey := b.hkey, timestamp := b.timestamp } = b

/-- State of the whole program: contexts (`Nat`-indexed, all new at start), all Sets so far, all events so far. -/
structure Sys where
  threads : Nat → Thread
  hist : List (Bytes × CacheEntry)
  log : List Event

/-- Program start (contexts are created by NewCtx). -/
def Sys.init : Sys := ⟨fun _ => .idle newCtx, [], []⟩

/-- Replace thread `t`. -/
def Sys.put (s : Sys) (t : Nat) (th : Thread) : Nat → Thread := fun i => if i = t then th else s.threads i

/-- One step of one goroutine. The cache is only assumed to be honest: Get may answer with any error at any time, or with some entry
that was passed to Set for the same key before (by any goroutine, to whatever cache was installed then). -/
inductive Sys.Step (T : Tables) (H : Bytes → UInt64) (s : Sys) : Sys → Prop where
  | call {t c} (op : Op) (h : s.threads t = .idle c) :
      Sys.Step T H s { s with threads := s.put t (.busy op (op.prog T H c)), log := s.log ++ [.call t op] }
  | getMiss {t op k f} (h : s.threads t = .busy op (.get k f)) :
      Sys.Step T H s { s with threads := s.put t (.busy op (f .miss)) }
  | getHit {t op k f} (h : s.threads t = .busy op (.get k f)) (e e' : CacheEntry) (he : (k, e') ∈ s.hist) (hs : SameButKey e e') :
      Sys.Step T H s { s with threads := s.put t (.busy op (f (.hit e))) }
  | set {t op k e p} (h : s.threads t = .busy op (.set k e p)) :
      Sys.Step T H s { s with threads := s.put t (.busy op p), hist := s.hist ++ [(k, e)] }
  | ret {t op c r} (h : s.threads t = .busy op (.ret (c, r))) :
      Sys.Step T H s { s with threads := s.put t (.idle c), log := s.log ++ [.ret t op r] }

/-- States reachable from program start. -/
inductive Sys.Reach (T : Tables) (H : Bytes → UInt64) : Sys → Prop where
  | init : Sys.Reach T H Sys.init
  | step {s s'} (h : Sys.Reach T H s) (st : Sys.Step T H s s') : Sys.Reach T H s'

end Verif
