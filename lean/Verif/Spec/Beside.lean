import Verif.Spec.RequestUrl
import Verif.Spec.Validate
/-!
# What counts in the query of a request URL
-/

set_option autoImplicit false

namespace Oid4vp.Spec

/-- The client identifiers in the two lists of parameters: the same one, none, or more than one in both. -/
def SameOuterClient (l l' : List (Str × Str)) : Prop :=
  (NoParam c!"client_id" l ↔ NoParam c!"client_id" l') ∧
    ∀ c, OnlyParam c!"client_id" l c ↔ OnlyParam c!"client_id" l' c

/-- The parameters name the same request: the same JWT, the same address of a JWT, or (if there is neither) the
same last values of all parameters. -/
inductive SameNamed (l l' : List (Str × Str)) : Prop
  | value (jwt : Str) : OnlyParam c!"request" l jwt → OnlyParam c!"request" l' jwt → SameNamed l l'
  | reference (s s' : Str) (uri : Url) : (∀ v, ¬ OnlyParam c!"request" l v) → (∀ v, ¬ OnlyParam c!"request" l' v) →
      OnlyParam c!"request_uri" l s → OnlyParam c!"request_uri" l' s' →
      Url.parse s = some uri → Url.parse s' = some uri → SameNamed l l'
  | direct : (∀ v, ¬ OnlyParam c!"request" l v) → (∀ v, ¬ OnlyParam c!"request" l' v) →
      (∀ s, OnlyParam c!"request_uri" l s → Url.parse s = none) →
      (∀ s, OnlyParam c!"request_uri" l' s → Url.parse s = none) →
      (∀ k v, k ≠ c!"client_id" → (LastParam k l v ↔ LastParam k l' v)) → SameNamed l l'

end Oid4vp.Spec
