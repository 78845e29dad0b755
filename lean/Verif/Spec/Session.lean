import Verif.Model.Api
/-
What passes between one context and the cache while the context is asked about one user agent.
-/
namespace Verif

/-- An access to the cache. -/
inductive Acc where
  /-- a Get and its answer -/
  | got (r : GetResp)
  /-- a Set -/
  | put (e : CacheEntry)

/-- `p` may end with `a` after the accesses `tr`. -/
inductive Prog.Run {α : Type} : Prog α → List Acc → α → Prop where
  | ret {a} : Prog.Run (.ret a) [] a
  | get {k f r tr a} (h : Prog.Run (f r) tr a) : Prog.Run (.get k f) (.got r :: tr) a
  | set {k e p tr a} (h : Prog.Run p tr a) : Prog.Run (.set k e p) (.put e :: tr) a

/-- Context `c` receives the calls `ops`, with the accesses `tr`, and becomes `c'`. Panics are recovered by the caller. -/
inductive AskedAll (T : Tables) (H : Bytes → UInt64) : Ctx → List Op → List Acc → Ctx → Prop where
  | nil {c} : AskedAll T H c [] [] c
  | cons {c c' c'' op ops r tr tr'} (h : (op.prog T H c).Run tr (c', r)) (hs : AskedAll T H c' ops tr' c'') : AskedAll T H c (op :: ops) (tr ++ tr') c''

/-- The call does not start another user agent. -/
def Op.Stays : Op → Prop
  | .setUserAgent _ => False
  | .reset => False
  | _ => True

/-- Number of Gets. -/
def gots (tr : List Acc) : Nat := tr.countP fun | .got _ => true | .put _ => false

/-- Number of Sets. -/
def puts (tr : List Acc) : Nat := tr.countP fun | .got _ => false | .put _ => true

/-- The entry that was given or taken. -/
def Acc.entry : Acc → Option CacheEntry
  | .got (.hit e) => some e
  | .got _ => none
  | .put e => some e

/-- `e'` says whether client (bit 1), device (bit 2) and OS (bit 3) were detected whenever `e` does. -/
def CacheEntry.Covers (e' e : CacheEntry) : Prop := ∀ n, 1 ≤ n → n ≤ 3 → e.bits.check n = true → e'.bits.check n = true

/-- The cache never answers `nil, nil`, and never with an entry that knows less than one it gave or took before. -/
def Growing (tr : List Acc) : Prop :=
  Acc.got .nilEntry ∉ tr ∧
  ∀ pre post e, tr = pre ++ .got (.hit e) :: post → ∀ x ∈ pre, ∀ e', x.entry = some e' → e.Covers e'

/-- The cache never answers `nil, nil`, and otherwise with an error or with an entry it took before from the same context: nobody else
asks about the user agent. -/
def OwnOnly (tr : List Acc) : Prop :=
  Acc.got .nilEntry ∉ tr ∧
  ∀ pre post e, tr = pre ++ .got (.hit e) :: post → ∃ e', Acc.put e' ∈ pre ∧ e.bits = e'.bits

end Verif
