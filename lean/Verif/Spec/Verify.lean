import Verif.Spec.Validate
import Verif.Model.Verification
/-!
# What the bundled verification methods must check
-/

set_option autoImplicit false

namespace Oid4vp.Spec

/-- The wallet lists the signing algorithm. -/
def AlgListed (wm : WalletMetadata) (alg : Str) : Prop :=
  ∃ l : List Str, mget c!"request_object_signing_alg_values_supported" wm.inner =
    some (.arr (l.map .str)) ∧ alg ∈ l

/-- The client identifier without its prefix, if it has that prefix. -/
def Unprefixed (pre : Str) (c rest : Str) : Prop :=
  c = pre ++ ':' :: rest ∨ (c = rest ∧ ∀ t, c ≠ pre ++ ':' :: t)

/-- A compact JWS whose signature over `header.payload` verifies under `key`, and whose payload
is a JSON document. -/
def SignedBy (ssi : Ssi) (jwt : Str) (key : Jwk) : Prop :=
  ∃ h b g hb sig alg enc payload j, JwsParts jwt h b g ∧ b64Dec .url h = some hb ∧
    b64Dec .url g = some sig ∧ ssi.header hb = .ok (alg, enc) ∧
    ssi.verify alg (utf8 (h ++ '.' :: b)) key sig = true ∧
    (if enc = true then b64Dec .url b = some payload else payload = utf8 b) ∧
    jParseBytes payload = .ok j

/-- The text contains `none`. -/
def MentionsNone (alg : Str) : Prop := ∃ a b, alg = a ++ c!"none" ++ b

/-- What DID verification is to check of a signed request. -/
def DidGenuine (ssi : Ssi) (resolver : Str → Res Jwk) (trusted : Option (List Str))
    (client : Option ClientId) (m : List (Str × Json)) (jwt : Str) : Prop :=
  ∃ did frag c key, mget c!"kid" m = some (.str (did ++ '#' :: frag)) ∧ '#' ∉ did ∧
    client = some c ∧ Unprefixed c!"decentralized_identifier" c.val did ∧
    (∀ l, trusted = some l → did ∈ l) ∧
    resolver (did ++ '#' :: frag) = .ok key ∧ SignedBy ssi jwt key

/-- The first certificate of the `x5c` header, and its DER bytes. -/
def LeafIs (x : X509) (m : List (Str × Json)) (der : Bytes) (c : x.Cert) : Prop :=
  ∃ t n rest, mget c!"x5c" m = some (.arr (.str (t ++ List.replicate n '=') :: rest)) ∧
    b64Dec .std t = some der ∧ x.fromDer der = some c

/-- The certificate names the host. -/
def NamesHost (x : X509) (c : x.Cert) (host : Str) : Prop :=
  ∃ names, some names ∈ x.sanExts c ∧ .dns host ∈ names

/-- The signature over `header.payload` verifies with the certificate's key. -/
def CertSigned (x : X509) (v : SigVerifier) (c : x.Cert) (alg jwt : Str) : Prop :=
  ∃ h b g sig k, JwsParts jwt h b g ∧ b64Dec .url g = some sig ∧ v.fromSpki (x.spki c) alg = some k ∧
    v.verify k (utf8 (h ++ '.' :: b)) sig = true

end Oid4vp.Spec
