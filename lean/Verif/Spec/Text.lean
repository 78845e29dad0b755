import Verif.Spec.Pattern
/-
Well-formed texts, stated without reference to the code.
-/
namespace Verif.Regexp

/-- A well-formed UTF-8 text: the encodings of Unicode scalar values, one after the other. -/
def WellFormed (b : Bytes) : Prop := ∃ rs : List Nat, (∀ r ∈ rs, Scalar r) ∧ b = rs.flatMap utf8

end Verif.Regexp
