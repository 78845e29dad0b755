import Verif.Model.CacheEntry
/-
Code that talks to the process-wide cache (uaxpl.go:5-17) as interaction trees: every `GetCache().Get(..)` and
`GetCache().Set(..)` is a node, so that a program can be run against no cache, the built-in cache, a custom cache, or
interleaved with other goroutines.
-/
namespace Verif

/-- What `Cache.Get` may answer (const.go / cache.go:57-68 and custom implementations of the interface). -/
inductive GetResp where
  /-- a non-nil error -/
  | miss
  /-- `nil, nil`, which only a custom cache can return -/
  | nilEntry
  /-- an entry and a nil error -/
  | hit (e : CacheEntry)

/-- A computation with cache accesses. -/
inductive Prog (α : Type) where
  | ret (a : α)
  | get (key : Bytes) (k : GetResp → Prog α)
  | set (key : Bytes) (e : CacheEntry) (k : Prog α)

namespace Prog

/-- Sequencing. -/
def bind {α β : Type} : Prog α → (α → Prog β) → Prog β
  | ret a, f => f a
  | get key k, f => get key (fun r => (k r).bind f)
  | set key e k, f => set key e (k.bind f)

/-- Run against a cache that never finds anything (a user may install one with SetCache; a cold cache answers the same). -/
def runNull {α : Type} : Prog α → α
  | ret a => a
  | get _ k => (k .miss).runNull
  | set _ _ k => k.runNull

end Prog
end Verif
