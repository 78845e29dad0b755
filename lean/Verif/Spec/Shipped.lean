import Verif.Data.Shipped
import Verif.Spec.Rules
import Verif.Spec.Regexps
/-
The shipped tables and the client rules that ask for a group their regexp does not have.
-/
namespace Verif.Data

/-- The eight regexps of client rules without the group that the rule takes the version from. -/
def unsafePatterns : List (List Chunk) := [
  pat! "(?i)(?:^|[^A-Z0-9\\-_]|[^A-Z0-9\\-]_|sprd-|MZ-)(?:com\\.tcl\\.browser)",
  pat! "(?i)(?:^|[^A-Z0-9\\-_]|[^A-Z0-9\\-]_|sprd-|MZ-)(?:ZTE ?Browser/)",
  pat! "(?i)(?:^|[^A-Z0-9\\-_]|[^A-Z0-9\\-]_|sprd-|MZ-)(?:^Symfony HttpClient/)",
  pat! "(?i)(?:^|[^A-Z0-9\\-_]|[^A-Z0-9\\-]_|sprd-|MZ-)(?:^Lavf/)",
  pat! "(?i)(?:^|[^A-Z0-9\\-_]|[^A-Z0-9\\-]_|sprd-|MZ-)(?:^Android\\.LVLDM$)",
  pat! "(?i)(?:^|[^A-Z0-9\\-_]|[^A-Z0-9\\-]_|sprd-|MZ-)(?:Rutube(?:TV)?BlackAndroid)",
  pat! "(?i)(?:^|[^A-Z0-9\\-_]|[^A-Z0-9\\-]_|sprd-|MZ-)(?:^Pods/)",
  pat! "(?i)(?:^|[^A-Z0-9\\-_]|[^A-Z0-9\\-]_|sprd-|MZ-)(?:^Podu_player$)"]

/-- The rule has one of these regexps. -/
def UnsafeRule (v : ClientTuple) : Prop := 0 ≤ v.matchRI ∧ ∃ p ∈ unsafePatterns, crRe[v.matchRI.toNat]? = some p

/-- In every category of clients the first rule that matches `u`, if any, is not one of these. -/
def SafeUA (L : RegexpLib) (u : Bytes) : Prop :=
  ∀ rows ∈ (shipped L.compile).crIdx, ∀ v, First (ClientMatch (shipped L.compile) u) rows v → ¬ UnsafeRule v

end Verif.Data
