import Verif.Spec.HolderKey
import Verif.Spec.Jwe
import Verif.Model.EcdhEs

/-!
# JWEs with ECDH-ES

RFC 7516 and RFC 7518 §4.6 over the group of P-256.
-/

set_option autoImplicit false

namespace Oid4vp
namespace Spec

/-- The secret of the key `Q` and of whoever knows the secret of `E` (SEC 1 §3.3.1): the first coordinate of
`E` times the secret of `Q`. -/
def Shared [Fact fieldPrime.Prime] (Q E : CurvePoint) (z : Bytes) : Prop :=
  ∃ d x y, KeyPair d Q ∧ HasCoordinates (d • E) x y ∧ z.length = 32 ∧ beNat z = x

/-- The number of bytes, in 32 bits, and the bytes. -/
def lengthAnd (b : Bytes) : Bytes := Sha.bigEndian 4 b.length ++ b

/-- The key of `len` bytes derived from a shared secret (RFC 7518 §4.6.2, NIST SP 800-56A §5.8.1): the
beginning of as many hash values as it takes, numbered from 1. -/
def DerivedKey (z : Bytes) (enc : Str) (apu apv : Bytes) (len : Nat) (key : Bytes) : Prop :=
  ∃ hashes : List Bytes, len ≤ 32 * hashes.length ∧ 32 * hashes.length < len + 32 ∧
    key = hashes.flatten.take len ∧
    ∀ i h, hashes[i]? = some h → Sha.Hash (Sha.bigEndian 4 (i + 1) ++ z ++
      (lengthAnd (utf8 enc) ++ lengthAnd apu ++ lengthAnd apv ++ Sha.bigEndian 4 (8 * len))) h

/-- The content encryptions of RFC 7518 §5.1 with the length of their keys. -/
def contentEncryptions : List (Str × Nat) :=
  [(c!"A128CBC-HS256", 32), (c!"A192CBC-HS384", 48), (c!"A256CBC-HS512", 64), (c!"A128GCM", 16),
    (c!"A192GCM", 24), (c!"A256GCM", 32)]

/-- The party information in a header. -/
def PartyInfo (hd : List (Str × Json)) (k : Str) (b : Bytes) : Prop :=
  (mget k hd = none ∧ b = []) ∨ ∃ s, Says hd k s ∧ b64Dec .url s = some b

/-- `key` is the content key the header gives to the owner of `Q`. -/
def ContentKey [Fact fieldPrime.Prime] (Q : CurvePoint) (hd : List (Str × Json)) (enc : Str) (key : Bytes) : Prop :=
  ∃ epk E z len apu apv, mget c!"epk" hd = some (.obj epk) ∧ JwkOf E epk ∧ Shared Q E z ∧
    Says hd c!"enc" enc ∧ (enc, len) ∈ contentEncryptions ∧ PartyInfo hd c!"apu" apu ∧
    PartyInfo hd c!"apv" apv ∧ DerivedKey z enc apu apv len key

/-- A JWE in compact form: its protected header, as text and as members, and the other parts; the encrypted
key is empty. -/
def CompactJwe (jwe protectedText : Str) (hd : List (Str × Json)) (iv ct tag : Bytes) : Prop :=
  ∃ text, jwe = protectedText ++ c!".." ++ b64Enc .url iv ++ c!"." ++ b64Enc .url ct ++ c!"." ++ b64Enc .url tag ∧
    protectedText = b64Enc .url (utf8 text) ∧ jParse text = .ok (.obj hd)

/-- `plain` is what the JWE says to the owner of the key `Q` with the identifier `kid`. -/
def SaysTo [Fact fieldPrime.Prime] (a : EcdhEs.Aead) (Q : CurvePoint) (kid : Option Str) (jwe : Str)
    (plain : Bytes) : Prop :=
  ∃ p hd iv ct tag enc key, CompactJwe jwe p hd iv ct tag ∧ Says hd c!"alg" c!"ECDH-ES" ∧
    (∀ k, kid = some k → Says hd c!"kid" k) ∧ mget c!"zip" hd = none ∧ mget c!"crit" hd = none ∧
    ContentKey Q hd enc key ∧ a.unlock enc key iv (utf8 p) ct tag = .ok plain

/-- The content encryption opens what it closes. -/
def Opens (a : EcdhEs.Aead) : Prop :=
  ∀ enc key iv aad plain ct tag, a.lock enc key iv aad plain = .ok (ct, tag) →
    a.unlock enc key iv aad ct tag = .ok plain

end Spec
end Oid4vp
