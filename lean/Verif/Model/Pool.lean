import Verif.Model.Api
/-
Context pools (pool.go, alias.go). Contexts are objects on a heap; a program holds them through handles, one per acquisition, and may,
correctly or not, use or release a handle at any time.
-/
namespace Verif.Pooling

/-- What a program does with contexts. A handle is the number of the acquisition that returned it. -/
inductive PEvent where
  /-- a context was handed out: its handle, its address and its contents at that moment -/
  | acq (h a : Nat) (c : Ctx)
  | use (h : Nat)
  | rel (h : Nat)

/-- All pools of a program. `pooled` and `pending` are bags of (pool, address): objects in a pool, and objects already reset but not
yet stored by a `Put` in progress. -/
structure PState where
  heap : Nat → Ctx := fun _ => newCtx
  next : Nat := 0
  handles : List Nat := []
  pending : List (Nat × Nat) := []
  pooled : List (Nat × Nat) := []
  log : List PEvent := []

/-- Write to the heap. -/
def PState.write (s : PState) (a : Nat) (c : Ctx) : Nat → Ctx := fun b => if b = a then c else s.heap b

/-- One step. `sync.Pool` may return any of its objects or nothing at all, and may drop objects at any time (garbage collection).
Nothing stops a program from using or releasing a handle that it released before. -/
inductive PStep (s : PState) : PState → Prop where
  /-- `NewCtx` (ctx.go:57-63), also `Pool.Get` when `sync.Pool` returns nothing (pool.go:25). -/
  | new : PStep s { s with heap := s.write s.next newCtx, next := s.next + 1, handles := s.handles ++ [s.next],
                           log := s.log ++ [.acq s.handles.length s.next newCtx] }
  /-- `Pool.Get` (pool.go:18-24), also `Acquire` (35-37): an object is taken out of the pool. -/
  | get {l r : List (Nat × Nat)} {p a : Nat} (h : s.pooled = l ++ (p, a) :: r) :
      PStep s { s with pooled := l ++ r, handles := s.handles ++ [a], log := s.log ++ [.acq s.handles.length a (s.heap a)] }
  /-- Any method calls on the context. -/
  | use {h a : Nat} (c : Ctx) (hh : s.handles[h]? = some a) : PStep s { s with heap := s.write a c, log := s.log ++ [.use h] }
  /-- `Pool.Put` (pool.go:29-30), also `Release` (40-42): `ctx.Reset()`. -/
  | rel {h a : Nat} (p : Nat) (hh : s.handles[h]? = some a) :
      PStep s { s with heap := s.write a (s.heap a).reset, pending := s.pending ++ [(p, a)], log := s.log ++ [.rel h] }
  /-- `Pool.Put` (pool.go:31): `p.p.Put(ctx)`. -/
  | put {l r : List (Nat × Nat)} {p a : Nat} (h : s.pending = l ++ (p, a) :: r) : PStep s { s with pending := l ++ r, pooled := s.pooled ++ [(p, a)] }
  /-- Garbage collection empties pools. -/
  | drop {l r : List (Nat × Nat)} {x : Nat × Nat} (h : s.pooled = l ++ x :: r) : PStep s { s with pooled := l ++ r }

/-- States reachable from program start. -/
inductive PReach : PState → Prop where
  | init : PReach {}
  | step {s s'} (h : PReach s) (st : PStep s s') : PReach s'

/-- The handle was returned by an acquisition and not released. -/
def Live (s : PState) (h a : Nat) : Prop := s.handles[h]? = some a ∧ .rel h ∉ s.log

/-- The rule the documentation asks for: a handle is not used or released after it was released. -/
def Disciplined (log : List PEvent) : Prop :=
  ∀ pre e post, log = pre ++ e :: post → ∀ h, e = .use h ∨ e = .rel h → .rel h ∉ pre

/-- `NewCtxWithSrc` / `NewCtxWithSrcStr` (alias.go:3-11). -/
def newCtxWithSrc (src : Bytes) : Ctx := newCtx.setUserAgent src

/-- `AcquireWithSrc` / `AcquireWithSrcStr` (alias.go:13-21), given the context that `Acquire` returned. -/
def acquireWithSrc (c : Ctx) (src : Bytes) : Ctx := c.setUserAgent src

end Verif.Pooling
