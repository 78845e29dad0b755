import Verif.Spec.Request
import Verif.Model.System
/-
Reading a log of API events: what each context is configured for, and which configurations have been queried.
-/
namespace Verif

/-- Configuration of context `t` after one more event. -/
def Req.event (t : Nat) (q : Req) : Event → Req
  | .call t' op => if t' = t then q.call op else q
  | .ret _ _ _ => q

/-- Configuration of context `t` after the events `log`: the calls made on it, applied to a new context. -/
def reqOf (log : List Event) (t : Nat) : Req := log.foldl (Req.event t) {}

/-- Configuration `q` was in force at some getter call of the log (on any context). -/
def Used (log : List Event) (q : Req) : Prop :=
  ∃ pre post t g, log = pre ++ .call t (.get g) :: post ∧ reqOf pre t = q

/-- Configuration `q` was in force at some getter call made on context `t`. -/
def UsedBy (t : Nat) (log : List Event) (q : Req) : Prop :=
  ∃ pre post g, log = pre ++ .call t (.get g) :: post ∧ reqOf pre t = q

/-- The getters called on context `t`, in order. -/
def getsOf (t : Nat) (log : List Event) : List Getter :=
  log.filterMap fun
    | .call t' (.get g) => if t' = t then some g else none
    | _ => none

/-- No getter was called for user agent `u`. -/
def NoUse (u : Bytes) (log : List Event) : Prop := ∀ q, Used log q → q.ua ≠ u

/-- After `pre1`, context `t` only received getter calls, and no other context was ever asked about user agent `u`. -/
structure Session (t : Nat) (u : Bytes) (pre1 l : List Event) : Prop where
  fresh : NoUse u pre1
  gets : ∀ op, .call t op ∈ l → ∃ g, op = .get g
  alone : ∀ t', t' ≠ t → ∀ q, UsedBy t' (pre1 ++ l) q → q.ua ≠ u

/-- The request `q` with the filters of `q'`. -/
def Req.withFiltersOf (q q' : Req) : Req := { q with mc := q'.mc, md := q'.md }

end Verif
