import Verif.Spec.EndToEnd
import Verif.Spec.Routes
import Verif.Model.TestExchange
/-!
# A whole exchange between a verifier and a wallet
-/

set_option autoImplicit false

namespace Oid4vp.Spec

/-- The HTTP address has the path `p`: between its authority and its query or fragment. -/
def UriPathIs (uri p : Str) : Prop :=
  ∃ scheme auth r rest, uri = scheme ++ c!"://" ++ auth ++ r ++ rest ∧ ':' ∉ scheme ∧
    (∀ c ∈ auth, c ≠ '/' ∧ c ≠ '?' ∧ c ≠ '#') ∧ (∀ c ∈ r, c ≠ '?' ∧ c ≠ '#') ∧
    (rest = [] ∨ ∃ x, rest = '?' :: x ∨ rest = '#' :: x) ∧
    ((r = [] ∧ p = c!"/") ∨ (p = r ∧ ∃ x, r = '/' :: x))

/-- The HTTP request delivers the response `r` for the session `u`: it is addressed to the id, in any
of its forms, below `/submission/`. -/
def PostedFor (q : HttpRequest) (u : Uuid) (r : AuthorizationResponse) : Prop :=
  ∃ id, UriPathIs q.uri (c!"/submission/" ++ id) ∧ UuidText id u ∧
    AuthorizationResponse.ofForm q.body = .ok r

end Oid4vp.Spec
