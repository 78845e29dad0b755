import Verif.Model.Cache
/-
Locking of the built-in cache (cache.go): goroutines calling Set, Get and clean run the steps below in any interleaving. `sync.Once` is
modelled after its implementation (fast path on an atomic flag, slow path under an inner mutex), `sync.Mutex` as an owner field.
-/
namespace Verif.Locking

/-- The result of an operation: the pointer found by Get. -/
abbrev Res := Option Ptr

/-- Where a goroutine is. -/
inductive PC where
  | idle
  /-- before the flag test of `c.o.Do` (cache.go:41, 60, 72) -/
  | once (op : CacheOp)
  /-- `Once.doSlow`: waiting for the inner mutex -/
  | onceLock (op : CacheOp)
  /-- holding the inner mutex, before the second flag test -/
  | onceIn (op : CacheOp)
  /-- `init`: before `c.mux.Lock()` (cache.go:26) -/
  | initLock (op : CacheOp)
  /-- `init`: holding both mutexes (cache.go:28-37) -/
  | initBody (op : CacheOp)
  /-- `init`: before the deferred `c.mux.Unlock()` (cache.go:27) -/
  | initUnlock (op : CacheOp)
  /-- `Once.doSlow`: before setting the flag -/
  | onceSet (op : CacheOp)
  /-- `Once.doSlow`: before releasing the inner mutex -/
  | onceUnlock (op : CacheOp)
  /-- before `c.mux.Lock()` (cache.go:46, 61, 73) -/
  | lock (op : CacheOp)
  /-- holding the mutex, the operation proper (cache.go:48-54, 63-67, 75-87) -/
  | body (op : CacheOp)
  /-- before the deferred `c.mux.Unlock()` (cache.go:47, 62, 74) -/
  | unlock (op : CacheOp) (r : Res)
  /-- before returning -/
  | ret (op : CacheOp) (r : Res)
  /-- panicked: nil map, or index out of range -/
  | crashed (op : CacheOp)

inductive LEvent where
  | call (t : Nat) (op : CacheOp)
  /-- the effect of the operation -/
  | eff (t : Nat) (op : CacheOp) (r : Res)
  | ret (t : Nat) (op : CacheOp) (r : Res)

structure LState where
  /-- `Once.done` -/
  done : Bool := false
  /-- owner of the inner mutex of `sync.Once` -/
  om : Option Nat := none
  /-- owner of `c.mux` -/
  mux : Option Nat := none
  /-- `c.idx` was made -/
  ready : Bool := false
  /-- number of executions of `init` (each starts a cleaner goroutine) -/
  inits : Nat := 0
  cache : CacheState := .empty
  threads : List PC
  log : List LEvent := []

def LState.start (n : Nat) : LState := { threads := List.replicate n .idle }

/-- Result of an operation on a cache. -/
def result (H : Bytes → UInt64) (c : CacheState) : CacheOp → Res
  | .get key now => (c.get H key now).2
  | _ => none

/-- Steps inside calls. -/
inductive LStep (H : Bytes → UInt64) (s : LState) : LState → Prop where
  | fast {op pre post} (h : s.threads = pre ++ .once op :: post) (hd : s.done = true) : LStep H s { s with threads := pre ++ .lock op :: post }
  | slow {op pre post} (h : s.threads = pre ++ .once op :: post) (hd : s.done = false) : LStep H s { s with threads := pre ++ .onceLock op :: post }
  | onceLock {op pre post} (h : s.threads = pre ++ .onceLock op :: post) (hm : s.om = none) :
      LStep H s { s with threads := pre ++ .onceIn op :: post, om := some pre.length }
  | again {op pre post} (h : s.threads = pre ++ .onceIn op :: post) (hd : s.done = true) : LStep H s { s with threads := pre ++ .onceUnlock op :: post }
  | first {op pre post} (h : s.threads = pre ++ .onceIn op :: post) (hd : s.done = false) : LStep H s { s with threads := pre ++ .initLock op :: post }
  | initLock {op pre post} (h : s.threads = pre ++ .initLock op :: post) (hm : s.mux = none) :
      LStep H s { s with threads := pre ++ .initBody op :: post, mux := some pre.length }
  | initBody {op pre post} (h : s.threads = pre ++ .initBody op :: post) :
      LStep H s { s with threads := pre ++ .initUnlock op :: post, ready := true, inits := s.inits + 1, cache := { s.cache with idx := fun _ => none } }
  | initUnlock {op pre post} (h : s.threads = pre ++ .initUnlock op :: post) :
      LStep H s { s with threads := pre ++ .onceSet op :: post, mux := none }
  | onceSet {op pre post} (h : s.threads = pre ++ .onceSet op :: post) : LStep H s { s with threads := pre ++ .onceUnlock op :: post, done := true }
  | onceUnlock {op pre post} (h : s.threads = pre ++ .onceUnlock op :: post) : LStep H s { s with threads := pre ++ .lock op :: post, om := none }
  | lock {op pre post} (h : s.threads = pre ++ .lock op :: post) (hm : s.mux = none) :
      LStep H s { s with threads := pre ++ .body op :: post, mux := some pre.length }
  | body {op pre post c} (h : s.threads = pre ++ .body op :: post) (hr : s.ready = true) (hc : s.cache.step H op = some c) :
      LStep H s { s with threads := pre ++ .unlock op (result H s.cache op) :: post, cache := c, log := s.log ++ [.eff pre.length op (result H s.cache op)] }
  /-- The nil map of an uninitialised cache cannot be assigned to; conservatively, no operation tolerates it. The deferred unlock
  runs during the panic. -/
  | crash {op pre post} (h : s.threads = pre ++ .body op :: post) (hc : s.ready = false ∨ s.cache.step H op = none) :
      LStep H s { s with threads := pre ++ .crashed op :: post, mux := none }
  | unlock {op r pre post} (h : s.threads = pre ++ .unlock op r :: post) : LStep H s { s with threads := pre ++ .ret op r :: post, mux := none }
  | ret {op r pre post} (h : s.threads = pre ++ .ret op r :: post) :
      LStep H s { s with threads := pre ++ .idle :: post, log := s.log ++ [.ret pre.length op r] }

inductive LReach (H : Bytes → UInt64) (n : Nat) : LState → Prop where
  | init : LReach H n (.start n)
  | call {s op pre post} (hr : LReach H n s) (h : s.threads = pre ++ .idle :: post) :
      LReach H n { s with threads := pre ++ .once op :: post, log := s.log ++ [.call pre.length op] }
  | step {s s'} (hr : LReach H n s) (st : LStep H s s') : LReach H n s'

end Verif.Locking
