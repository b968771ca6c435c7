import Verif.Model.Jwe
import Verif.Model.P256Verifier
import Verif.Model.VerifierApp

/-! # ECDH-ES on P-256

What src/core/jwe.rs and examples/verifier-conformance-adapter/crypto/jwe.rs ask of the crate `josekit`, which
is not in /repo: key agreement, key derivation and the compact form (RFC 7516 §7.1, RFC 7518 §4.6). The
content encryption is a parameter, `Aead`.
-/

set_option autoImplicit false

namespace Oid4vp
namespace EcdhEs

open P256

/-- The content encryptions of the crate (the call at src/core/jwe.rs:140 and
examples/verifier-conformance-adapter/crypto/jwe.rs:17), by name: algorithm, key, initialization vector,
authenticated data, text (and tag). A parameter of the model. -/
structure Aead where
  lock : Str → Bytes → Bytes → Bytes → Bytes → Res (Bytes × Bytes)
  unlock : Str → Bytes → Bytes → Bytes → Bytes → Bytes → Res Bytes

/-- The number of bytes of the key of a content encryption (RFC 7518 §5.1; the `enc` of
src/core/jwe.rs:109,129). -/
def keyLen (enc : Str) : Option Nat :=
  if enc = c!"A128GCM" then some 16
  else if enc = c!"A192GCM" then some 24
  else if enc = c!"A256GCM" then some 32
  else if enc = c!"A128CBC-HS256" then some 32
  else if enc = c!"A192CBC-HS384" then some 48
  else if enc = c!"A256CBC-HS512" then some 64
  else none

/-- The point a JWK stands for (`encrypter_from_jwk`, src/core/jwe.rs:138-139; for `epk` inside
`deserialize_compact`, examples/verifier-conformance-adapter/crypto/jwe.rs:16-17). -/
def readJwk (m : List (Str × Json)) : Option Pt :=
  if jwkStr c!"kty" m = some c!"EC" ∧ jwkStr c!"crv" m = some c!"P-256" then
    match (jwkStr c!"x" m).bind (b64Dec .url), (jwkStr c!"y" m).bind (b64Dec .url) with
    | some x, some y =>
      if x.length = 32 ∧ y.length = 32 ∧ onCurve (beNat x) (beNat y) = true then
        some (.aff (beNat x) (beNat y))
      else none
    | _, _ => none
  else none

/-- The JWK of the public key of a secret (`public_key.to_jwk_string()`,
examples/verifier-conformance-adapter/server/state.rs:301; `epk` inside `encode_with_encrypter`,
src/core/jwe.rs:140), members sorted. -/
def jwkFor (d : Nat) : List (Str × Json) :=
  [(c!"crv", .str c!"P-256"), (c!"kty", .str c!"EC"),
    (c!"x", .str (b64Enc .url (HolderKey.coordinates d).1)),
    (c!"y", .str (b64Enc .url (HolderKey.coordinates d).2))]

/-- The agreed secret: the first coordinate (inside `encode_with_encrypter`, src/core/jwe.rs:140, and
`deserialize_compact`, examples/verifier-conformance-adapter/crypto/jwe.rs:17). -/
def agree (d : Nat) (q : Pt) : Option Bytes :=
  match mul d q with
  | .inf => none
  | .aff x _ => some (beBytes 32 x)

/-- Bytes after their number (RFC 7518 §4.6.2; called as `agree`, src/core/jwe.rs:140). -/
def counted (b : Bytes) : Bytes := beBytes 4 b.length ++ b

/-- The rounds of the key derivation from number `i` on (called as `agree`, src/core/jwe.rs:140). -/
def rounds (msg : Bytes) : Nat → Nat → Bytes
  | 0, _ => []
  | fuel + 1, i => sha256 (beBytes 4 i ++ msg) ++ rounds msg fuel (i + 1)

/-- The derived key (RFC 7518 §4.6.2; called as `agree`, src/core/jwe.rs:140). -/
def kdf (z : Bytes) (enc : Str) (apu apv : Bytes) (len : Nat) : Bytes :=
  (rounds (z ++ (counted (utf8 enc) ++ (counted apu ++ (counted apv ++ beBytes 4 (8 * len))))) ((len + 31) / 32)
    1).take len

/-- `apu` or `apv` of a header, empty if it is not there (called as `agree`, src/core/jwe.rs:140). -/
def party (k : Str) (hd : List (Str × Json)) : Option Bytes :=
  match mget k hd with
  | none => some []
  | some (.str s) => b64Dec .url s
  | some _ => none

/-- The content key of a header for the agreed secret (called as `agree`, src/core/jwe.rs:140). -/
def contentKey (hd : List (Str × Json)) (enc : Str) (z : Bytes) : Option Bytes :=
  match keyLen enc, party c!"apu" hd, party c!"apv" hd with
  | some len, some apu, some apv => some (kdf z enc apu apv len)
  | _, _, _ => none

/-- `encrypter_from_jwk` and `encode_with_encrypter` (src/core/jwe.rs:137-140) for a one-time secret `e` and
an initialization vector. -/
def encrypt (a : Aead) (e : Nat) (iv : Bytes) (key header payload : List (Str × Json)) : Res Str :=
  match readJwk key with
  | none => .error .parse
  | some q => match jwkStr c!"enc" header with
    | none => .error .missing
    | some enc => match agree e q with
      | none => .error .parse
      | some z => match contentKey header enc z with
        | none => .error .unsupported
        | some ck =>
          let h := b64Enc .url (utf8 (jPrint (.obj (mset c!"epk" (.obj (jwkFor e)) header))))
          match a.lock enc ck iv (utf8 h) (utf8 (jPrint (.obj payload))) with
          | .error err => .error err
          | .ok (ct, tag) =>
            .ok (joinWith '.' [h, [], b64Enc .url iv, b64Enc .url ct, b64Enc .url tag])

/-- What `deserialize_compact` makes of a read header (examples/verifier-conformance-adapter/crypto/jwe.rs:16-17).
The `kid` of the key must be that of the header. Simplified: a header with `zip` or `crit` is refused. -/
def unwrap (a : Aead) (kid : Option Str) (d : Nat) (h : Str) (hd : List (Str × Json)) (iv ct tag : Bytes) :
    Res Bytes :=
  if jwkStr c!"alg" hd = some ecdhEs ∧ (kid = none ∨ jwkStr c!"kid" hd = kid) ∧
      mget c!"zip" hd = none ∧ mget c!"crit" hd = none then
    match mget c!"epk" hd with
    | some (.obj k) => match readJwk k with
      | none => .error .parse
      | some q => match jwkStr c!"enc" hd with
        | none => .error .missing
        | some enc => match agree d q with
          | none => .error .parse
          | some z => match contentKey hd enc z with
            | none => .error .unsupported
            | some ck => a.unlock enc ck iv (utf8 h) ct tag
    | _ => .error .missing
  else .error .unsupported

/-- `decrypter_from_jwk` and `deserialize_compact` (examples/verifier-conformance-adapter/crypto/jwe.rs:12-17)
for the secret `d` with the given `kid`. -/
def decrypt (a : Aead) (kid : Option Str) (d : Nat) (jwe : Str) : Res Bytes :=
  match splitOn '.' jwe with
  | [h, [], i, c, t] => match b64Dec .url h, b64Dec .url i, b64Dec .url c, b64Dec .url t with
    | some hb, some iv, some ct, some tag => match jParseBytes hb with
      | .ok (.obj hd) => unwrap a kid d h hd iv ct tag
      | _ => .error .parse
    | _, _, _, _ => .error .decode
  | _ => .error .parse

/-- `josekit` with this key agreement (src/core/jwe.rs:137-140). -/
def josekit (jwkOk : List (Str × Json) → Bool) (claimOk : Str → Json → Bool) (a : Aead) (e : Nat) (iv : Bytes) :
    Josekit := ⟨jwkOk, claimOk, encrypt a e iv⟩

/-- `generate_encryption_key` for a drawn secret (examples/verifier-conformance-adapter/server/state.rs:287-307):
the private JWK has the `kid` `enc-key-1` (line 298). -/
def generated (a : Aead) (d : Nat) : VerifierApp.EncKey := ⟨jwkFor d, decrypt a (some c!"enc-key-1") d⟩

end EcdhEs
end Oid4vp
