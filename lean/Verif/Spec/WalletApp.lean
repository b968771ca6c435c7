import Verif.Model.WalletApp
import Verif.Spec.EndpointAnswer
import Verif.Spec.Fits
/-!
# The HTTP surface of the example wallet
-/

set_option autoImplicit false

namespace Oid4vp.Spec
open Example WalletApp

/-- The form field `k`: absent, or given once. -/
def FieldIs (k : Str) (l : List (Str × Str)) : Option Str → Prop
  | none => NoParam k l
  | some v => OnlyParam k l v

/-- The parameters in form fields. -/
structure ParamsIn (l : List (Str × Str)) (p : Params) : Prop where
  clientId : FieldIs c!"client_id" l p.clientId
  request : FieldIs c!"request" l p.request
  requestUri : FieldIs c!"request_uri" l p.requestUri
  responseType : FieldIs c!"response_type" l p.responseType
  nonce : FieldIs c!"nonce" l p.nonce
  state : FieldIs c!"state" l p.state
  responseMode : FieldIs c!"response_mode" l p.responseMode
  responseUri : FieldIs c!"response_uri" l p.responseUri
  dcqlQuery : FieldIs c!"dcql_query" l p.dcqlQuery

/-- The fields of a query string. -/
def QueryFields (q : Option Str) (l : List (Str × Str)) : Prop :=
  (q = none ∧ l = []) ∨ ∃ t, q = some t ∧ FormList (t.flatMap String.utf8EncodeChar) l

/-- An object with exactly these members. -/
def ObjectOf (l : List (Str × Json)) (doc : Json) : Prop := ∃ m, doc = .obj m ∧ Sorted m ∧ m.Perm l

/-- The JSON answer of the authorization endpoint. -/
inductive AnswerDoc (description : Str) : Answer → Nat → Json → Prop
  | done {doc : Json} : ObjectOf [] doc → AnswerDoc description (.success none) 200 doc
  | goOn {addr : Str} {doc : Json} : ObjectOf [(c!"redirect_uri", .str addr)] doc →
      AnswerDoc description (.success (some addr)) 200 doc
  | failed {status : Nat} {error : Str} {doc : Json} :
      ObjectOf [(c!"error", .str error), (c!"error_description", .str description)] doc →
      AnswerDoc description (.failure status error none) status doc
  | failedWithState {status : Nat} {error st : Str} {doc : Json} :
      ObjectOf [(c!"state", .str st), (c!"error", .str error),
        (c!"error_description", .str description)] doc →
      AnswerDoc description (.failure status error (some st)) status doc

/-- What the wallet announces. -/
def announcement (endpoint : Str) : List (Str × Json) :=
  [(c!"authorization_endpoint", .str endpoint),
   (c!"response_types_supported", .arr [.str c!"vp_token"]),
   (c!"response_modes_supported", .arr [.str c!"direct_post", .str c!"direct_post.jwt"]),
   (c!"client_id_prefixes_supported", .arr [.str c!"redirect_uri"]),
   (c!"authorization_encryption_alg_values_supported", .arr [.str c!"ECDH-ES"]),
   (c!"authorization_encryption_enc_values_supported", .arr [.str c!"A256GCM"]),
   (c!"vp_formats_supported", .obj [(c!"dc+sd-jwt", .obj
     [(c!"alg_values_supported", .arr [.str c!"ES256"]),
      (c!"kb-jwt_alg_values_supported", .arr [.str c!"ES256"])])])]

/-- The holder's key as published. -/
def holderKey (x y : Bytes) : List (Str × Json) :=
  [(c!"kty", .str c!"EC"), (c!"crv", .str c!"P-256"), (c!"x", .str (b64Enc .url x)),
   (c!"y", .str (b64Enc .url y)), (c!"kid", .str c!"holder-key"), (c!"use", .str c!"sig"),
   (c!"alg", .str c!"ES256")]

/-- The documents the wallet publishes and their paths. -/
inductive Page (app : App) : Str → Json → Prop
  | metadata {doc : Json} : ObjectOf (announcement app.adapter.endpoint.print) doc →
      Page app c!"/.well-known/openid-configuration" doc
  | keys {key doc : Json} : ObjectOf (holderKey app.x app.y) key → ObjectOf [(c!"keys", .arr [key])] doc →
      Page app c!"/.well-known/jwks.json" doc
  | health {path : Str} {doc : Json} : path = c!"/health" ∨ path = c!"/" →
      ObjectOf [(c!"status", .str c!"ok"), (c!"version", .str app.version),
        (c!"engine", .str c!"headless")] doc → Page app path doc
  | config {doc : Json} : ObjectOf [(c!"authorization_endpoint", .str app.adapter.endpoint.print),
        (c!"public_url", .str app.publicUrl.print),
        (c!"credentials_count", .int app.adapter.store.length)] doc → Page app c!"/debug/config" doc
  | credentials {doc : Json} : ObjectOf [(c!"count", .int app.adapter.store.length),
        (c!"formats", .arr [.str c!"dc+sd-jwt", .str c!"vc+sd-jwt"])] doc →
      Page app c!"/debug/credentials" doc

/-- What GET does: the requests made, status and document. -/
inductive Gets (ord : MapOrder) (app : App) (c : Call) : List HttpRequest → Nat → Option Json → Prop
  | unreadable {l : List (Str × Str)} : c.path = c!"/authorize" → QueryFields c.query l →
      (∀ p, ¬ ParamsIn l p) → Gets ord app c [] 400 none
  | authorized {l : List (Str × Str)} {p : Params} {reqs : List HttpRequest} {ans : Answer}
      {status : Nat} {doc : Json} : c.path = c!"/authorize" → QueryFields c.query l → ParamsIn l p →
      Handles ord app.adapter p reqs ans → AnswerDoc (app.describe p ans) ans status doc →
      Gets ord app c reqs status (some doc)
  | page {doc : Json} : Page app c.path doc → Gets ord app c [] 200 (some doc)
  | nowhere : c.path ≠ c!"/authorize" → (∀ doc, ¬ Page app c.path doc) → Gets ord app c [] 404 none

/-- The content type of a form. -/
def FormType (c : Call) : Prop := ∃ rest, c.contentType = some (c!"application/x-www-form-urlencoded" ++ rest)

/-- What the server does with a request. -/
inductive Served (ord : MapOrder) (app : App) (c : Call) : List HttpRequest → Reply → Prop
  | tooLarge : 1048576 < c.body.length → Served ord app c [] ⟨413, none⟩
  | preflight : c.body.length ≤ 1048576 → c.method = c!"OPTIONS" → Served ord app c [] ⟨200, none⟩
  | get {reqs : List HttpRequest} {status : Nat} {doc : Option Json} : c.body.length ≤ 1048576 →
      c.method = c!"GET" → Gets ord app c reqs status doc → Served ord app c reqs ⟨status, doc⟩
  | head {reqs : List HttpRequest} {status : Nat} {doc : Option Json} : c.body.length ≤ 1048576 →
      c.method = c!"HEAD" → Gets ord app c reqs status doc → Served ord app c reqs ⟨status, none⟩
  | otherType : c.body.length ≤ 1048576 → c.method = c!"POST" → c.path = c!"/authorize" → ¬ FormType c →
      Served ord app c [] ⟨415, none⟩
  | unreadable {l : List (Str × Str)} : c.body.length ≤ 1048576 → c.method = c!"POST" →
      c.path = c!"/authorize" → FormType c → FormList c.body l → (∀ p, ¬ ParamsIn l p) →
      Served ord app c [] ⟨422, none⟩
  | authorized {l : List (Str × Str)} {p : Params} {reqs : List HttpRequest} {ans : Answer}
      {status : Nat} {doc : Json} : c.body.length ≤ 1048576 → c.method = c!"POST" →
      c.path = c!"/authorize" → FormType c → FormList c.body l → ParamsIn l p →
      Handles ord app.adapter p reqs ans → AnswerDoc (app.describe p ans) ans status doc →
      Served ord app c reqs ⟨status, some doc⟩
  | otherMethod : c.body.length ≤ 1048576 → c.method ∉ [c!"OPTIONS", c!"GET", c!"HEAD"] →
      (c.path = c!"/authorize" ∧ c.method ≠ c!"POST") ∨ (∃ doc, Page app c.path doc) →
      Served ord app c [] ⟨405, none⟩
  | nowhere : c.body.length ≤ 1048576 → c.method ∉ [c!"OPTIONS", c!"GET", c!"HEAD"] →
      c.path ≠ c!"/authorize" → (∀ doc, ¬ Page app c.path doc) → Served ord app c [] ⟨404, none⟩

/-- The client metadata has keys and algorithms for an encrypted response to the example wallet. -/
structure OffersAnnounced (cm : UntypedObject) : Prop where
  keys : ∃ keys, KeySet cm keys
  alg : OffersAlg cm c!"ECDH-ES"
  enc : OffersEnc cm c!"A256GCM"

end Oid4vp.Spec
