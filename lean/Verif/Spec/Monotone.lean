import Verif.Spec.Decision
/-!
# Wallets that support more, and verifiers that offer more
-/

set_option autoImplicit false

namespace Oid4vp.Spec

/-- A list of texts that only restricts if it is there: it may stay, go, or get
longer. -/
def ListGrows (wm wm' : UntypedObject) (k : Str) : Prop :=
  mget k wm' = mget k wm ∨ Absent wm' k ∨ ∃ l l' : List Str, mget k wm = some (.arr (l.map .str)) ∧
    mget k wm' = some (.arr (l'.map .str)) ∧ ∀ v ∈ l, v ∈ l'

/-- The second wallet supports whatever the first one does. -/
structure SupportsMore (wm wm' : UntypedObject) : Prop where
  prefixes : ∀ p, SupportsPrefix wm p → SupportsPrefix wm' p
  algs : ListGrows wm wm' c!"authorization_encryption_alg_values_supported"
  encs : ListGrows wm wm' c!"authorization_encryption_enc_values_supported"

/-- The second verifier offers whatever the first one does. -/
structure OffersMore (cm cm' : UntypedObject) : Prop where
  keys : ∃ keys keys', KeySet cm keys ∧ KeySet cm' keys' ∧ ∀ k ∈ keys, k ∈ keys'
  wellFormed : TextsIfAny cm' c!"encrypted_response_enc_values_supported"
  encs : ∀ v, OffersEnc cm v → OffersEnc cm' v

end Oid4vp.Spec
