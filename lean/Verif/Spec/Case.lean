import Verif.Model.Base
/-
Letter case of ASCII texts.
-/
namespace Verif

/-- The lower case of a byte, if it is an ASCII letter. -/
def lowerByte (b : UInt8) : UInt8 := if 65 ≤ b.toNat ∧ b.toNat ≤ 90 then b + 32 else b

/-- The texts differ at most in the case of ASCII letters. -/
def CaseEq (u u' : Bytes) : Prop := u.map lowerByte = u'.map lowerByte

end Verif
