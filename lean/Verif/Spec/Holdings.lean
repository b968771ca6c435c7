import Verif.Spec.Relay
import Verif.Spec.Disclosure
/-! # What the example wallet holds, and requests that cannot be answered -/

set_option autoImplicit false

namespace Oid4vp.Spec
open Example

/-- The wallet has a credential for each credential query. -/
def HoldsAll (w : Adapter) (q : DcqlQuery) : Prop := ∀ k ∈ q.credentials.vec, ∃ c ∈ w.store, Answers w.lower k c

/-- No answer can be sent to the request: not in its mode, or not to its address. -/
def Unanswerable (a : RequestObject) : Prop :=
  (a.responseMode ≠ .directPost ∧ a.responseMode ≠ .directPostJwt) ∨
    ∃ u, RedirectClient a u ∧ a.returnUri.print ≠ u

/-- The same but for the values of claims and what is presented: format, type and names of claims. -/
def LooksLike (c d : Credential) : Prop :=
  c.format = d.format ∧ c.vct = d.vct ∧ c.doctype = d.doctype ∧
    ∀ name, (∃ v, (name, v) ∈ c.claims) ↔ ∃ v, (name, v) ∈ d.claims

/-- The request object with this query that is to be answered over the Digital Credentials API. -/
def probe (query : Json) : UntypedObject :=
  [(c!"dcql_query", query), (c!"nonce", .str c!"n"), (c!"response_mode", .str c!"dc_api"),
   (c!"response_type", .str c!"vp_token")]

end Oid4vp.Spec
