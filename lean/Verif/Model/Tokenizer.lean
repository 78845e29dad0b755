import Verif.Model.Base
/-
Model of tokenizer.go.
-/
namespace Verif
namespace Tokenizer

/-- The entries set by `init` (tokenizer.go:57-74). -/
def delimBytes : Bytes := ascii " \t\n\r/();,.[]{}:=+*"

/-- `isDelimiter(c)` (tokenizer.go:50-54): indexing an array of `math.MaxUint8` = 255 elements; index 255 panics (`none`). -/
def isDelimiter (c : UInt8) : Option Bool := if c.toNat < 255 then some (delimBytes.contains c) else none

/-- `for t.pos < len(ua) && isDelimiter(ua[t.pos]) == want { t.pos++ }` (tokenizer.go:20-22 with want = true, 28-30 with want = false). -/
def scan (want : Bool) (ua : Bytes) (pos : Nat) : Option Nat :=
  if h : pos < ua.length then
    match isDelimiter ua[pos] with
    | none => none
    | some d => if d = want then scan want ua (pos + 1) else some pos
  else some pos
termination_by ua.length - pos

/-- `Tokenizer.Next` (tokenizer.go:15-34): new position and token; token `none` is EOF; outer `none` is a panic. -/
def next (pos : Nat) (ua : Bytes) : Option (Nat × Option Bytes) :=
  if pos ≥ ua.length then some (pos, none)
  else do
    let off ← scan true ua pos
    if off ≥ ua.length then some (off, none)
    else
      let p ← scan false ua off
      some (p, some ((ua.drop off).take (p - off)))

/-- `Tokenizer.NextString` (tokenizer.go:37-43); S2B/B2S do not change contents. The returned string is "" at EOF. -/
def nextString (pos : Nat) (ua : Bytes) : Option (Nat × Bytes × Bool) := do
  let (p, r) ← next pos ua
  match r with
  | none => some (p, [], true)
  | some t => some (p, t, false)

/-- `Tokenizer.Reset` (tokenizer.go:46-48). -/
def reset (_pos : Nat) : Nat := 0

/-- `n` consecutive calls of Next on the same input: final position and the list of results. -/
def calls (ua : Bytes) : Nat → Nat → Option (Nat × List (Option Bytes))
  | pos, 0 => some (pos, [])
  | pos, n + 1 => do
    let (p, r) ← next pos ua
    let (p', rs) ← calls ua p n
    some (p', r :: rs)

end Tokenizer
end Verif
