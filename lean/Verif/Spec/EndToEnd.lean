import Verif.Spec.Fits
import Verif.Spec.Dcql
import Verif.Lemmas.JsonText
/-!
# A verifier and a wallet together
-/

set_option autoImplicit false

namespace Oid4vp.Spec

/-- The wallet's HTTP client reaches the verifier: a GET request for the address of a session is
answered with what retrieval returns for it. -/
def Serves (v : Verifier) (σ : Store) (w : Wallet) : Prop :=
  ∀ base id uri jwt, v.passByReference = .at base → AddressOf base id uri →
    (retrieve id σ).2 = .ok jwt → Fetched w uri jwt

/-- The integers of a query are what their types allow, and its `meta` members can be written and
read back. -/
def QueryWritable (q : DcqlQuery) : Prop :=
  ∀ c ∈ q.credentials.vec, (Json.obj c.metaMap).WF FltLit ∧ (Json.obj c.metaMap).depth ≤ 123 ∧
    ∀ l, c.claims = some l → ∀ k ∈ l.vec, (∀ e ∈ k.path.vec, PathOk e) ∧
      ∀ vs, k.values = some vs → ∀ x ∈ vs.vec, ValueOk x

/-- The parameters and the query are JSON that can be written and read back: numbers are JSON
numbers, members have an order, and the nesting is at most what the parser allows. -/
structure Writable (b : RequestBuilder) : Prop where
  params : (Json.obj b.params).WF FltLit
  paramsDepth : (Json.obj b.params).depth ≤ 127
  query : ∀ q, b.dcqlQuery = some q → QueryWritable q

/-- The wallet is at the endpoint for which the request was built, supports the prefix of the
client, and can use the client metadata of the request. -/
structure Matching (v : Verifier) (b : RequestBuilder) (wm : WalletMetadata) (w : Wallet) : Prop where
  endpoint : ∃ s, HasText wm.inner c!"authorization_endpoint" s ∧
    Url.parse s = some w.metadata.endpoint.val
  supported : SupportsPrefix w.metadata.inner v.client.pre.val
  metadata : ∀ m, AsksMode b.params m → MetadataFits w.metadata.inner b.params m

end Oid4vp.Spec
