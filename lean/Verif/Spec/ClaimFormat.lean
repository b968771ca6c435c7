import Verif.Model.Format
/-!
# Documents of a claim format
-/

set_option autoImplicit false

namespace Oid4vp.Spec

/-- An object with these texts under the name, or an array with just them. -/
def ListUnder (k : Str) (l : List Str) (j : Json) : Prop :=
  (∃ m, j = .obj m ∧ mget k m = some (.arr (l.map .str))) ∨ j = .arr [.arr (l.map .str)]

/-- The value is a document of one of the four formats of the specification. -/
inductive IsKnownFormat : Json → ClaimFormat → Prop
  | jwt {v l} : ListUnder c!"alg_values_supported" l v → IsKnownFormat (.obj [(c!"jwt_vc_json", v)]) (.jwtVcJson l)
  | ldp {v l} : ListUnder c!"proof_type" l v → IsKnownFormat (.obj [(c!"ldp_vc", v)]) (.ldpVc l)
  | mdoc {v} : IsKnownFormat (.obj [(c!"mso_mdoc", v)]) (.msoMDoc v)
  | sdJwt {v} : IsKnownFormat (.obj [(c!"dc+sd-jwt", v)]) (.dcSdJwt v)

/-- The value is a document of the format: of a known one, or of itself if it is none of these. -/
inductive IsClaimFormat (j : Json) : ClaimFormat → Prop
  | known {f} : IsKnownFormat j f → IsClaimFormat j f
  | other : (∀ f, ¬ IsKnownFormat j f) → IsClaimFormat j (.other j)

/-- The name a document goes by: that of its first member. -/
inductive GoesBy : Json → Str → Prop
  | member {k v m} : GoesBy (.obj ((k, v) :: m)) k
  | nothing {j} : (∀ k v m, j ≠ .obj ((k, v) :: m)) → GoesBy j c!"other"

end Oid4vp.Spec
