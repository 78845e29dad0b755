import Verif.Model.Api
/-
What a call asks of the cache.
-/
namespace Verif

/-- On every path `p` makes at most `a` Gets and `b` Sets, all with key `k`, and ends in `Q`. -/
def Prog.Within {α : Type} (k : Bytes) (Q : α → Prop) : Nat → Nat → Prog α → Prop
  | _, _, .ret r => Q r
  | a, b, .get k' f => k' = k ∧ 0 < a ∧ ∀ r, Prog.Within k Q (a - 1) b (f r)
  | a, b, .set k' _ p => k' = k ∧ 0 < b ∧ Prog.Within k Q a (b - 1) p

/-- How many cache accesses an operation may make. -/
def traffic : Op → Nat
  | .get .userAgent => 0
  | .get .deviceType | .get .brand | .get .model => 2
  | .get _ => 1
  | _ => 0

end Verif
