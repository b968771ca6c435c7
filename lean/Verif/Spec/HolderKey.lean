import Verif.Spec.P256
import Verif.Spec.Sha256
import Verif.Model.Iso
import Verif.Model.JsonText

/-!
# Keys, signatures and credentials in their written forms

RFC 7517/7518: JWKs of P-256 keys and ES256 signatures; SD-JWT: the key a credential is bound to and
the issuer's signature on it.
-/

set_option autoImplicit false

namespace Oid4vp
namespace Spec

/-- The members of a JWK give the public key `Q` (RFC 7518 §6.2). -/
def JwkOf (Q : CurvePoint) (k : List (Str × Json)) : Prop :=
  mget c!"kty" k = some (.str c!"EC") ∧ mget c!"crv" k = some (.str c!"P-256") ∧
    ∃ x y : Bytes, x.length = 32 ∧ y.length = 32 ∧
      mget c!"x" k = some (.str (b64Enc .url x)) ∧ mget c!"y" k = some (.str (b64Enc .url y)) ∧
      HasCoordinates Q (beNat x) (beNat y)

/-- `sig` is an ES256 signature for `Q` on a message (RFC 7518 §3.4). -/
def Es256On [Fact fieldPrime.Prime] (Q : CurvePoint) (msg sig : Bytes) : Prop :=
  sig.length = 64 ∧ ∃ digest, Sha.Hash msg digest ∧
    IsSignature Q (beNat digest) (beNat (sig.take 32)) (beNat (sig.drop 32))

/-- `sig` is an ES256 signature for `Q` on a text. -/
def Es256 [Fact fieldPrime.Prime] (Q : CurvePoint) (text : Str) (sig : Bytes) : Prop :=
  Es256On Q (utf8 text) sig

/-- A JWS in compact form with an ES256 signature for `Q`. -/
def SignedFor [Fact fieldPrime.Prime] (Q : CurvePoint) (jwt : Str) : Prop :=
  ∃ input sig, jwt = input ++ '.' :: b64Enc .url sig ∧ Es256 Q input sig

/-- The members of the payload of a JWT. -/
def Payload (jwt : Str) (m : List (Str × Json)) : Prop :=
  ∃ hd pl sig text, jwt = hd ++ '.' :: pl ++ '.' :: sig ∧ '.' ∉ hd ∧ '.' ∉ pl ∧ '.' ∉ sig ∧
    b64Dec .url pl = some (utf8 text) ∧ jParse text = .ok (.obj m)

/-- The credential is bound to the key `Q`: its issuer's JWT has it as `cnf.jwk`. -/
def BoundToKey (Q : CurvePoint) (issuerJwt : Str) : Prop :=
  ∃ m c k, Payload issuerJwt m ∧ mget c!"cnf" m = some (.obj c) ∧ mget c!"jwk" c = some (.obj k) ∧
    JwkOf Q k

/-- `d` is the secret of the public key `Q`. -/
def KeyPair [Fact fieldPrime.Prime] (d : ℕ) (Q : CurvePoint) : Prop :=
  1 ≤ d ∧ d < groupOrder ∧ ∃ G, IsBasePoint G ∧ Q = d • G

/-! ## Keys in certificates -/

/-- A DER value of less than 128 bytes. -/
def tlv (tag : UInt8) (content : Bytes) : Bytes := tag :: UInt8.ofNat content.length :: content

/-- The subject public key info of an uncompressed P-256 point (RFC 5480 §2): the identifiers
1.2.840.10045.2.1 and 1.2.840.10045.3.1.7, and the point in a bit string. -/
def SpkiWith (x y spki : Bytes) : Prop :=
  x.length = 32 ∧ y.length = 32 ∧
    spki = tlv 0x30 (tlv 0x30 (tlv 6 [0x2a, 0x86, 0x48, 0xce, 0x3d, 2, 1] ++
      tlv 6 [0x2a, 0x86, 0x48, 0xce, 0x3d, 3, 1, 7]) ++ tlv 3 (0 :: 4 :: (x ++ y)))

/-- That of the public key `Q`. -/
def SpkiOf (Q : CurvePoint) (spki : Bytes) : Prop :=
  ∃ x y, SpkiWith x y spki ∧ HasCoordinates Q (beNat x) (beNat y)

end Spec
end Oid4vp
