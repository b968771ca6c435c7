import Verif.Spec.Verify
import Verif.Spec.Codec
/-!
# What the bundled clients sign (RFC 7515, OpenID4VP 1.0 sections 5.1 and 5.9.3)
-/

set_option autoImplicit false

namespace Oid4vp.Spec

/-- A JSON document as a base64url part of a JWS. -/
def JsonPart (j : Json) (part : Str) : Prop :=
  ∃ text, jParse text = .ok j ∧ part = base64 base64Url (text.flatMap String.utf8EncodeChar)

/-- The compact JWS of a header and a payload under a signing function. -/
def SignedToken (sign : Bytes → Bytes) (header payload : Json) (jwt : Str) : Prop :=
  ∃ h p, JsonPart header h ∧ JsonPart payload p ∧
    jwt = h ++ c!"." ++ p ++ c!"." ++
      base64 base64Url (sign ((h ++ c!"." ++ p).flatMap String.utf8EncodeChar))

/-- The DER forms of a chain of certificates, in order. -/
def ChainDer (x : X509) (chain : List x.Cert) (ders : List Bytes) : Prop :=
  ders.length = chain.length ∧ ∀ p ∈ chain.zip ders, x.toDer p.1 = .ok p.2

/-- The header of a request object signed with a certificate: algorithm, type, and all certificates in
padded standard base64. -/
def certHeader (alg : Str) (ders : List Bytes) : Json :=
  .obj [(c!"alg", .str alg), (c!"typ", .str c!"oauth-authz-req+jwt"),
    (c!"x5c", .arr (ders.map fun d => .str (base64Padded d)))]

/-- The header of a request object signed with the key of a DID. -/
def didKeyHeader (alg vm : Str) : Json :=
  .obj [(c!"alg", .str alg), (c!"kid", .str vm), (c!"typ", .str c!"oauth-authz-req+jwt")]

/-- The first DNS name in the readable subject alternative names of a certificate. -/
def FirstDns (x : X509) (c : x.Cert) (n : Str) : Prop :=
  ∃ before names after a b, x.sanExts c = before ++ some names :: after ∧ names = a ++ .dns n :: b ∧
    (∀ l, some l ∈ before → ∀ m, .dns m ∉ l) ∧ ∀ m, .dns m ∉ a

end Oid4vp.Spec
