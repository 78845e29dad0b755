import Verif.Model.Base
/-
Data races in the sense of the Go memory model.
-/
namespace Verif.Race

/-- Memory. Contexts are one location each, so are the index and the slice of a cache together. -/
inductive Loc where
  /-- a `Ctx` with its buffers -/
  | ctx (c : Nat)
  /-- a variable of type `Cache` that `cache_` points to -/
  | box (b : Nat)
  /-- `idx` and `buf` of a built-in cache, or what a cache of the program's own has in their place -/
  | table (k : Nat)
  /-- `Hkey` of a cache entry -/
  | hkey (e : Nat)
  /-- `Timestamp` of a cache entry -/
  | stamp (e : Nat)
  /-- the other fields of a cache entry and its data -/
  | result (e : Nat)
  /-- the rule tables -/
  | rules
deriving DecidableEq

/-- What a goroutine does that matters for races: plain accesses and synchronisation. -/
inductive Ev where
  | acc (write : Bool) (l : Loc)
  | lock (k : Nat)
  | unlock (k : Nat)
  /-- atomic store and load of the address of a box -/
  | store (b : Nat)
  | load (b : Nat)
  /-- `sync.Pool`: Put and Get of a context, or sending and receiving one -/
  | put (c : Nat)
  | get (c : Nat)
  /-- the `go` statement starting goroutine `t` -/
  | go (t : Nat)
deriving DecidableEq

/-- An execution: who did what, in some order that has the synchronisation operations in their real order. -/
abbrev Trace := List (Nat × Ev)

/-- Happens-before (The Go Memory Model; sync, sync/atomic). -/
inductive HB (τ : Trace) : Nat → Nat → Prop where
  /-- order within a goroutine -/
  | seq {i j t x y} (h : i < j) (hi : τ[i]? = some (t, x)) (hj : τ[j]? = some (t, y)) : HB τ i j
  /-- unlocking is synchronised before later locking -/
  | mutex {i j t u k} (h : i < j) (hi : τ[i]? = some (t, .unlock k)) (hj : τ[j]? = some (u, .lock k)) : HB τ i j
  /-- a store is synchronised before the loads that see it -/
  | atomic {i j t u b} (h : i < j) (hi : τ[i]? = some (t, .store b)) (hj : τ[j]? = some (u, .load b)) : HB τ i j
  /-- Put(x) is synchronised before the Get that returns this x, a send on a channel before the receive of what is sent -/
  | pool {i j t u c} (h : i < j) (hi : τ[i]? = some (t, .put c)) (hj : τ[j]? = some (u, .get c))
      (hb : ∀ m v, i < m → m < j → τ[m]? ≠ some (v, .get c)) : HB τ i j
  /-- the go statement is synchronised before the start of the goroutine -/
  | go {i j t u y} (h : i < j) (hi : τ[i]? = some (t, .go u)) (hj : τ[j]? = some (u, y)) : HB τ i j
  | trans {i j k} (h : HB τ i j) (h' : HB τ j k) : HB τ i k

/-- Two accesses of different goroutines to the same location, one of them a write, not ordered by happens-before. -/
def HasRace (τ : Trace) : Prop :=
  ∃ i j t u w w' l, i < j ∧ τ[i]? = some (t, .acc w l) ∧ τ[j]? = some (u, .acc w' l) ∧ t ≠ u ∧ (w = true ∨ w' = true) ∧ ¬ HB τ i j

end Verif.Race
