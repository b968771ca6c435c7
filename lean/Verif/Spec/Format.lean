import Verif.Spec.Dcql
/-!
# Which format capabilities are proper
-/

set_option autoImplicit false

namespace Oid4vp.Spec

/-- An object with the single member `k` holding texts. -/
def TextsUnder (k : Str) (l : List Str) (j : Json) : Prop :=
  j = .obj [(k, .arr (l.map .str))]

/-- The catch-all does not have the shape of a known payload. -/
def PayloadOk : ClaimFormatPayload → Prop
  | .other j => ∀ l, ¬ TextsUnder c!"alg_values" l j ∧ ¬ TextsUnder c!"proof_type_values" l j
  | _ => True

/-- Different entries have different keys (a hash map). -/
def DistinctKeys : ClaimFormatMap → Prop
  | [] => True
  | (d, _) :: m => (∀ e ∈ m, e.1 ≠ d) ∧ DistinctKeys m

/-- Equality of hash maps: the same value under every key. -/
def SameMap (m m' : ClaimFormatMap) : Prop := ∀ d, ClaimFormatMap.get d m = ClaimFormatMap.get d m'

end Oid4vp.Spec
