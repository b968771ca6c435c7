import Verif.Spec.EndpointAnswer
import Verif.Spec.Validate
import Verif.Spec.Vocabulary
import Verif.Spec.JsonText
/-!
# What leaves the example wallet
-/

set_option autoImplicit false

namespace Oid4vp.Spec
open Example

/-- For whom the presentations are: the client identifier, if there is one. -/
def ForWhom (o : UntypedObject) (aud : Str) : Prop :=
  HasText o c!"client_id" aud ∨ (Absent o c!"client_id" ∧ aud = c!"unknown-verifier")

/-- The state that goes with the response: the one of the request object if it is a text, else the one of the
call. -/
def StateWith (o : UntypedObject) (p : Params) (st : Option Str) : Prop :=
  (∃ s, HasText o c!"state" s ∧ st = some s) ∨ ((∀ s, ¬ HasText o c!"state" s) ∧ st = p.state)

/-- The members `m` of a VP token disclose what the request object `o` asks for: under the ids of its credential
queries, and no others, for each query of that id in order, the first credential in the store that answers it. -/
def Disclosed (w : Adapter) (o : UntypedObject) (m : List (Str × Json)) : Prop :=
  ∃ j q nonce aud, mget c!"dcql_query" o = some j ∧ IsQuery j q ∧ HasText o c!"nonce" nonce ∧ ForWhom o aud ∧
    ∀ id, (mget id m = none ↔ ∀ k ∈ q.credentials.vec, k.id ≠ id) ∧
      ∀ v, mget id m = some v → ∃ ts : List Str, v = .arr (ts.map .str) ∧
        List.Forall₂ (fun k t => ∃ c, FirstAnswer w.lower w.store k c ∧ Presents w.holder nonce aud c.raw t)
          (q.credentials.vec.filter (fun k => k.id = id)) ts

/-- The key of the verifier that a response is encrypted to. -/
def RecipientKey (o : UntypedObject) (key : List (Str × Json)) : Prop :=
  ∃ cm keys, mget c!"client_metadata" o = some (.obj cm) ∧ KeyList cm keys ∧ FirstWith SuitableKey keys key

/-- The body discloses that, in the mode the request object asks for. -/
inductive DisclosingBody (w : Adapter) (o : UntypedObject) (st : Option Str) : Bytes → Prop
  | plain {body : Bytes} {text : Str} {m : List (Str × Json)} : AsksMode o .directPost →
      FormList body ((c!"vp_token", text) :: st.toList.map (fun s => (c!"state", s))) → JsonText text (.obj m) →
      Disclosed w o m → DisclosingBody w o st body
  | encrypted {body : Bytes} {jwe : Str} {m key : List (Str × Json)} : AsksMode o .directPostJwt →
      FormList body [(c!"response", jwe)] → RecipientKey o key →
      w.jose.encrypt key (encHeader c!"A128GCM" (kidOf key)) (encPayload (.obj m) st) = .ok jwe →
      Disclosed w o m → DisclosingBody w o st body

/-- The request object of a call: the payload of the token it carries or refers to, or its own parameters. -/
def AskedBy (w : Adapter) (p : Params) (o : UntypedObject) : Prop :=
  ∃ r jwt, TakenFor w p r ∧ JwtOf w.wallet r.indirection jwt ∧ ParamsOf w.wallet r o jwt

/-- A request that discloses nothing but that it is made. -/
def MereVisit (req : HttpRequest) : Prop := req.method = c!"GET" ∧ req.body = []

/-- The response to a call. -/
def TheResponse (w : Adapter) (p : Params) (req : HttpRequest) : Prop :=
  w.consent = true ∧ req.method = c!"POST" ∧ ∃ o st s u, AskedBy w p o ∧ StateWith o p st ∧
    HasText o c!"response_uri" s ∧ Url.parse s = some u ∧ req.uri = u.print ∧
    (∀ t, HasText o c!"client_id" (c!"redirect_uri:" ++ t) → req.uri = t) ∧ DisclosingBody w o st req.body

/-- A credential that answers a query of the request object of a call. -/
def Wanted (w : Adapter) (p : Params) (c : Credential) : Prop :=
  ∃ o j q k, AskedBy w p o ∧ mget c!"dcql_query" o = some j ∧ IsQuery j q ∧ k ∈ q.credentials.vec ∧
    Answers w.lower k c

end Oid4vp.Spec
