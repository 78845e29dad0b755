import Verif.Spec.Compiler
import Verif.Spec.GoSource
/-
What the authors of the rule files have to avoid so that the generated source means what the rules say. Nothing checks it.
-/
namespace Verif.Compiler

/-- No backquote, carriage return or zero byte. -/
def RawOK (p : Bytes) : Prop := ∀ c ∈ p, c ≠ 96 ∧ c ≠ 13 ∧ c ≠ 0

/-- No quote, backslash, newline or zero byte. -/
def QuotedOK (p : Bytes) : Prop := ∀ c ∈ p, c ≠ 34 ∧ c ≠ 92 ∧ c ≠ 10 ∧ c ≠ 0

/-- No newline or zero byte. -/
def LineOK (p : Bytes) : Prop := ∀ c ∈ p, c ≠ 10 ∧ c ≠ 0

/-- The replacement maps contain only patterns that can be put between backquotes. -/
structure Env.Writable (env : Env) : Prop where
  os : ∀ n p, env.replOS n = some p → RawOK p
  client : ∀ n p, env.replClient n = some p → RawOK p
  static : ∀ n p, env.staticRepl n = some p → RawOK p
  device : ∀ n p, env.replDevice n = some p → RawOK p

/-- The rules can be written as Go source: patterns and engine names without backquote, carriage return and zero byte, thresholds without
quote, backslash, newline and zero byte, no group reference that becomes −128, no two hints with the same hash. -/
structure Rules.Writable (hash : Bytes → UInt64) (r : Rules) : Prop where
  client : ∀ f ∈ r.client, ∀ t ∈ f, RawOK t.regex ∧ ∀ x, t.version = 36 :: x → clientIx x ≠ -128
  engine : ∀ f ∈ r.client, ∀ t ∈ f, ∀ en, t.engine = some en → RawOK en.default ∧ ∀ v ∈ en.versions, QuotedOK v.1 ∧ RawOK v.2
  os : ∀ t ∈ r.os, RawOK t.regex ∧ (∀ x, t.name = 36 :: x → osIx x ≠ -128) ∧ (∀ x, t.version = 36 :: x → osIx x ≠ -128) ∧
    ∀ v ∈ t.versions, RawOK v.regex ∧ ∀ x, v.version = 36 :: x → osIx x ≠ -128
  device : ∀ f ∈ r.device, ∀ t ∈ f, RawOK t.regex ∧ ∀ m ∈ t.models, RawOK m.regex
  vendor : ∀ t ∈ r.vendor, ∀ p ∈ t.regex, RawOK p
  hint : ∀ k k', hintValue r.hint k ≠ none → hintValue r.hint k' ≠ none → hash k = hash k' → k = k'

end Verif.Compiler
