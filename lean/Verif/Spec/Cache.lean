import Verif.Model.Cache
/-
What a user of the cache believes, in terms of the history of operations only.
-/
namespace Verif.Spec

/-- Entry stored by the most recent `Set(k, _)` of a history. -/
def lastSet (ops : List CacheOp) (k : Bytes) : Option CacheEntry :=
  ops.reverse.findSome? fun
    | .set k' _ e _ => if k' = k then some e else none
    | _ => none

/-- Time of the most recent `Set(k, _)` or `Get(k)` of a history. -/
def lastUse (ops : List CacheOp) (k : Bytes) : Option Int64 :=
  ops.reverse.findSome? fun
    | .set k' _ _ t => if k' = k then some t else none
    | .get k' t => if k' = k then some t else none
    | .clean _ => none

/-- Keys ever passed to Set or Get. -/
def usedKeys (ops : List CacheOp) : List Bytes :=
  ops.filterMap fun
    | .set k _ _ _ => some k
    | .get k _ => some k
    | .clean _ => none

/-- Entry pointers ever passed to Set. -/
def setPtrs (ops : List CacheOp) : List Ptr :=
  ops.filterMap fun
    | .set _ p _ _ => some p
    | _ => none

/-- Every Set gets an entry object of its own (what Ctx does: it allocates one per Set). -/
def Fresh (ops : List CacheOp) : Prop := (setPtrs ops).Nodup

/-- No key of the history collides with `k`. -/
def NoCollision (H : Bytes → UInt64) (ops : List CacheOp) (k : Bytes) : Prop := ∀ k' ∈ usedKeys ops, H k' = H k → k' = k

/-- A clean ran after the last Set of `k`: some suffix of the history has a clean and no Set of `k`. -/
def CleanSince (ops : List CacheOp) (k : Bytes) : Prop :=
  ∃ pre post, ops = pre ++ post ∧ (∀ k' p e t, CacheOp.set k' p e t ∈ post → k' ≠ k) ∧ ∃ t, CacheOp.clean t ∈ post

/-- Two entries carry the same detection result and Data (they may differ in the cache's own bookkeeping fields). -/
def SameResult (a b : CacheEntry) : Prop :=
  a.bits = b.bits ∧ a.clientType = b.clientType ∧ a.clientName64 = b.clientName64 ∧ a.clientVersion64 = b.clientVersion64 ∧
  a.engineName64 = b.engineName64 ∧ a.engineVersion64 = b.engineVersion64 ∧ a.deviceType = b.deviceType ∧
  a.brandName64 = b.brandName64 ∧ a.modelName64 = b.modelName64 ∧ a.osName64 = b.osName64 ∧
  a.osVersion64 = b.osVersion64 ∧ a.data = b.data

/-- "More than one hour ago", over the integers (nanoseconds). -/
def OlderThanHour (t s : Int64) : Prop := t.toInt - s.toInt > 3600000000000

end Verif.Spec
