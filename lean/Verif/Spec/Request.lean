import Verif.Model.AuthRequest
/-!
# What the parameters of a request object say
-/

set_option autoImplicit false

namespace Oid4vp.Spec

/-- The parameter `k` is the text `s`. -/
def HasText (o : UntypedObject) (k s : Str) : Prop := mget k o = some (.str s)

/-- The parameter `k` is absent. -/
def Absent (o : UntypedObject) (k : Str) : Prop := mget k o = none

/-- The known response modes and their names. -/
inductive KnownMode : Str → ResponseMode → Prop
  | directPost : KnownMode c!"direct_post" .directPost
  | directPostJwt : KnownMode c!"direct_post.jwt" .directPostJwt
  | dcApi : KnownMode c!"dc_api" .dcApi
  | dcApiJwt : KnownMode c!"dc_api.jwt" .dcApiJwt

/-- Modes that return by HTTP. -/
def IsDirectPost (m : ResponseMode) : Prop := m = .directPost ∨ m = .directPostJwt

/-- Modes of the Digital Credentials API. -/
def IsDcApi (m : ResponseMode) : Prop := m = .dcApi ∨ m = .dcApiJwt

/-- The response mode the parameters ask for, `direct_post` by default. -/
def AsksMode (o : UntypedObject) (m : ResponseMode) : Prop :=
  (Absent o c!"response_mode" ∧ m = .directPost) ∨
    ∃ s, HasText o c!"response_mode" s ∧ KnownMode s m

/-- The two known response types and their names; any other text is kept. -/
def TypeOf (s : Str) (t : ResponseType) : Prop :=
  (s = c!"vp_token" ∧ t = .vpToken) ∨ (s = c!"vp_token id_token" ∧ t = .vpTokenIdToken) ∨
    (s ≠ c!"vp_token" ∧ s ≠ c!"vp_token id_token" ∧ t = .unsupported s)

/-- The client identifier the parameters carry. -/
def ClientIdIs (o : UntypedObject) : Option ClientId → Prop
  | none => Absent o c!"client_id"
  | some c => HasText o c!"client_id" c.val

/-- The client identifier prefix: what precedes the first colon. -/
def PrefixIs : Option ClientId → Option ClientIdScheme → Prop
  | none, p => p = none
  | some c, none => ':' ∉ c.val
  | some c, some p => ':' ∉ p.val ∧ ∃ rest, c.val = p.val ++ ':' :: rest

/-- The conditions under which parameters are a request object. -/
structure Acceptable (o : UntypedObject) : Prop where
  clientId : Absent o c!"client_id" ∨ ∃ s, HasText o c!"client_id" s
  redirect : Absent o c!"redirect_uri"
  mode : ∃ m, AsksMode o m ∧
    ((IsDirectPost m ∧ ∃ s u, HasText o c!"response_uri" s ∧ Url.parse s = some u) ∨
      (IsDcApi m ∧ Absent o c!"response_uri"))
  responseType : ∃ s, HasText o c!"response_type" s
  nonce : ∃ s, HasText o c!"nonce" s

/-- What the accessors of `a` report is what the parameters `o` say. -/
structure Reports (o : UntypedObject) (a : RequestObject) : Prop where
  clientId : ClientIdIs o a.clientId
  scheme : PrefixIs a.clientId a.clientIdScheme
  mode : AsksMode o a.responseMode
  responseType : ∃ s, HasText o c!"response_type" s ∧ TypeOf s a.responseType
  nonce : HasText o c!"nonce" a.nonce.val
  directPost : IsDirectPost a.responseMode →
    ∃ s, HasText o c!"response_uri" s ∧ Url.parse s = some a.returnUri
  dcApi : IsDcApi a.responseMode → a.returnUri.print = c!"https://example.com/"

/-- Whether an ID token is asked for; nothing can be said for other response types. -/
def IdTokenAsked (o : UntypedObject) : Option Bool → Prop
  | some true => HasText o c!"response_type" c!"vp_token id_token"
  | some false => HasText o c!"response_type" c!"vp_token"
  | none => ∃ s, HasText o c!"response_type" s ∧ s ≠ c!"vp_token" ∧ s ≠ c!"vp_token id_token"

end Oid4vp.Spec
