import Verif.Model.P256
import Verif.Model.HolderKey
import Verif.Model.Verification

/-! # The bundled P-256 verifier and signer with the arithmetic of the curve

`P256Verifier` and `P256Signer` with what they ask of the crate `p256` written out.
-/

set_option autoImplicit false

namespace Oid4vp
namespace P256

/-- The first 26 bytes of the subject public key info of an uncompressed P-256 key (checked by the crate
`spki` in `spki.try_into()`, src/core/authorization_request/verification/verifier.rs:24). -/
def spkiHead : Bytes :=
  [0x30, 0x59, 0x30, 0x13, 0x06, 0x07, 0x2a, 0x86, 0x48, 0xce, 0x3d, 0x02, 0x01, 0x06, 0x08, 0x2a, 0x86,
    0x48, 0xce, 0x3d, 0x03, 0x01, 0x07, 0x03, 0x42, 0x00]

/-- Whether two numbers are the coordinates of a point (`AffinePoint::from_encoded_point`, reached from
src/core/authorization_request/verification/verifier.rs:24). -/
def onCurve (x y : Nat) : Bool :=
  decide (x < p) && decide (y < p) && (y * y + 3 * x) % p == (x * x * x + b) % p

/-- `spki.try_into()` (src/core/authorization_request/verification/verifier.rs:24). Simplified: what is
made of anything but an uncompressed point is a parameter. -/
def readKey (other : Bytes → Option Pt) (spki : Bytes) : Option Pt :=
  if spki.length = 91 ∧ spki.take 27 = spkiHead ++ [4] then
    let x := beNat ((spki.drop 27).take 32)
    let y := beNat (spki.drop 59)
    if onCurve x y then some (.aff x y) else none
  else other spki

/-- `Signature::from_slice` (src/core/authorization_request/verification/verifier.rs:28). -/
def readSig (sig : Bytes) : Option (Nat × Nat) :=
  if sig.length = 64 then
    let r := beNat (sig.take 32)
    let s := beNat (sig.drop 32)
    if 0 < r ∧ r < n ∧ 0 < s ∧ s < n then some (r, s) else none
  else none

/-- `self.0.verify` (src/core/authorization_request/verification/verifier.rs:29): FIPS 186-5 §6.4.2. -/
def check (q : Pt) (msg : Bytes) (sig : Nat × Nat) : Bool :=
  let w := inv sig.2 n
  match add (mul (beNat (sha256 msg) * w % n) base) (mul (sig.1 * w % n) q) with
  | .inf => false
  | .aff x _ => x % n == sig.1

/-- `P256Verifier` (src/core/authorization_request/verification/verifier.rs:16-31). -/
def verifier (other : Bytes → Option Pt) : SigVerifier := p256Verifier (readKey other) readSig check

/-- `P256Signer::new` for a secret (src/verifier/request_signer.rs:38-43,63-66), with the one-time number of
each message. -/
def signer (d : Nat) (k : Bytes → Nat) : P256Signer :=
  P256Signer.new (HolderKey.coordinates d).1 (HolderKey.coordinates d).2
    (fun m => HolderKey.signBytes d (k m) m)

end P256
end Oid4vp
