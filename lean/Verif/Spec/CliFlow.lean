import Verif.Spec.Cli
import Verif.Spec.Routes
/-!
# What the server of the command-line verifier must do
-/

set_option autoImplicit false

namespace Oid4vp.Spec

/-- The call delivers a response for a stored session. -/
def CliDelivers (σ : Store) (u : Uuid) (r : AuthorizationResponse) : Cli.Call → Prop
  | .respond session body => UuidText session u ∧ Carries body r ∧ σ.get u ≠ none
  | .fetch _ => False

/-- What became of a session for which no response was delivered: it is as before, or its request was
fetched. -/
def OnlyFetched (σ σ' : Store) (v : Uuid) : Prop :=
  σ'.get v = σ.get v ∨ ∃ s, σ.get v = some s ∧ s.status = .sentRequestByReference ∧
    σ'.get v = some { s with status := .sentRequest }

end Oid4vp.Spec
