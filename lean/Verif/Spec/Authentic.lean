import Verif.Spec.Verify
import Verif.Lemmas.JsonText
/-!
# What it means that a request comes from a client
-/

set_option autoImplicit false

namespace Oid4vp.Spec

/-- What is signed in a token: its first two parts, as bytes. -/
def SignedText (jwt : Str) (msg : Bytes) : Prop := ∃ h b g, JwsParts jwt h b g ∧ msg = utf8 (h ++ '.' :: b)

/-- The message is that of a token which the client made for one of the request objects. -/
def MadeFor (c : Client) (asked : RequestObject → Prop) (msg : Bytes) : Prop :=
  ∃ a jwt, asked a ∧ c.generate a = .ok jwt ∧ SignedText jwt msg

/-- The bytes that are signed in a token, and its signature. -/
def Signature (jwt : Str) (msg sig : Bytes) : Prop :=
  ∃ h b g, JwsParts jwt h b g ∧ msg = utf8 (h ++ '.' :: b) ∧ b64Dec .url g = some sig

/-- The token is a forgery for a DID: its signature verifies under a key of the DID, but the client of the DID
made no token with its text for one of the request objects. -/
def ForgedDid (verify : Str → Bytes → Jwk → Bytes → Bool) (resolver : Str → Res Jwk) (did : Str) (c : Client)
    (asked : RequestObject → Prop) (jwt : Str) : Prop :=
  ∃ frag key alg msg sig, resolver (did ++ '#' :: frag) = .ok key ∧ Signature jwt msg sig ∧
    verify alg msg key sig = true ∧ ¬ MadeFor c asked msg

/-- The token is a forgery for a certificate: its signature verifies under the key of the certificate, but the
client made no token with its text for one of the request objects. -/
def ForgedCert (x : X509) (sv : SigVerifier) (cert : x.Cert) (c : Client) (asked : RequestObject → Prop)
    (jwt : Str) : Prop :=
  ∃ alg k msg sig, sv.fromSpki (x.spki cert) alg = some k ∧ Signature jwt msg sig ∧
    sv.verify k msg sig = true ∧ ¬ MadeFor c asked msg

/-- The certificate is the first one that the token carries; `der` is its encoding there. -/
def Carried (x : X509) (jwt : Str) (der : Bytes) (cert : x.Cert) : Prop :=
  ∃ m, JwsHeader jwt m ∧ LeafIs x m der cert

/-- The parameters are JSON within the nesting limit. -/
def WithinJson (a : RequestObject) : Prop := (Json.obj a.toObject).WF FltLit ∧ (Json.obj a.toObject).depth ≤ 127

/-- The wallet got one of the request objects: with its parameters, and with the accessors that these say. -/
def OneOf (asked : RequestObject → Prop) (a : RequestObject) : Prop :=
  ∃ a', asked a' ∧ a.toObject = a'.toObject ∧ RequestObject.ofObject a'.toObject = .ok a

end Oid4vp.Spec
