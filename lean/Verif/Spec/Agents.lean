import Verif.Spec.Trace
/-
Whether the user agents a program has asked about have different hashes.
-/
namespace Verif

/-- No other user agent that getters were called for so far has the hash of `u`. -/
def Alone (H : Bytes → UInt64) (log : List Event) (u : Bytes) : Prop := ∀ q, Used log q → H q.ua = H u → q.ua = u

end Verif
