import Verif.Spec.Authentic
import Verif.Spec.Build
import Verif.Spec.EndToEnd
import Verif.Spec.Jwe
/-!
# Where the answer to a request goes, and who can read it
-/

set_option autoImplicit false

namespace Oid4vp.Spec

open RequestBuilder

/-- The builder of the verifier stored this session: for a link to a wallet or for the Digital Credentials API. -/
inductive Built (v : Verifier) (b : RequestBuilder) (s : Session) : Prop
  | link (uuid : Uuid) (wm : WalletMetadata) (busy : Bool) (σ σ' : Store) (url : Url)
      (built : buildWithSessionId v b uuid wm busy σ = (σ', .ok url)) (stored : σ'.get uuid = some s)
  | dcApi (uuid : Uuid) (busy : Bool) (σ σ' : Store) (p : Uuid × Str)
      (built : buildDcApi v b uuid busy σ = (σ', .ok p)) (stored : σ'.get uuid = some s)

/-- The request objects of the sessions. -/
def AskedIn (made : RequestBuilder → Session → Prop) (a : RequestObject) : Prop :=
  ∃ b s, made b s ∧ s.requestObject = a

/-- What happens with an answer to the request object of the session that was built from `b`. -/
structure AnswersGoTo (v : Verifier) (w : Wallet) (b : RequestBuilder) (s : Session) (a : RequestObject) : Prop where
  /-- The wallet was asked what the builder was given. -/
  query : b.dcqlQuery = some s.dcqlQuery ∧ mget c!"dcql_query" a.inner = some s.dcqlQuery.toJson
  /-- The request is bound to the nonce that the builder was given. -/
  nonce : mget c!"nonce" b.params = some (.str a.nonce.val)
  /-- Whatever the wallet posts goes to the address of this session below the submission endpoint. -/
  posts : ∀ ord r, ∀ q ∈ (w.submitResponse ord a r).1,
    ∃ u, AddressOf v.submissionEndpoint s.uuid u ∧ q.method = c!"POST" ∧ q.uri = u.print
  /-- What the wallet encrypts is encrypted to a key that the builder was given. -/
  encrypted : ∀ (jk : Josekit) (t : VpToken) (st : Option State) (r : AuthorizationResponse),
    buildEncryptedResponse jk a t st = .ok r →
    ∃ cm keys key enc jwe, mget c!"client_metadata" b.params = some (.obj cm) ∧ KeyList cm keys ∧
      FirstWith SuitableKey keys key ∧ FirstEnc cm enc ∧
      jk.encrypt key (encHeader enc (kidOf key)) (encPayload t.toJson (st.map State.val)) = .ok jwe ∧ r = .jwt jwe

end Oid4vp.Spec
