import Verif.Model.P256
import Verif.Model.Iso
import Verif.Model.WalletMain

/-! # The holder key of the example wallet

examples/wallet-conformance-adapter/crypto/keys.rs with the arithmetic of `Model/P256.lean`.
-/

set_option autoImplicit false

namespace Oid4vp
namespace HolderKey

open P256 Example

/-- `d_b64` (examples/wallet-conformance-adapter/crypto/keys.rs:13). -/
def secretText : Str := c!"DVt4adukimqmbPWT2g8amdJWUCBRuDOHorjeNQ0xTZk"

/-- `HOLDER_KEY` (examples/wallet-conformance-adapter/crypto/keys.rs:11-24); the three `expect`s become
errors. `SigningKey::from_bytes` takes numbers from 1 to below the order. -/
def secret : Res Nat :=
  match b64Dec .url secretText with
  | none => .error .parse
  | some bytes =>
    if bytes.length = 32 then
      let d := beNat bytes
      if d = 0 ∨ n ≤ d then .error .parse else .ok d
    else .error .parse

/-- The coordinates of the public key (examples/wallet-conformance-adapter/crypto/keys.rs:31-32,37-38);
the point at infinity, which is no public key, is given as empty coordinates. -/
def coordinates (d : Nat) : Bytes × Bytes :=
  match mul d base with
  | .inf => ([], [])
  | .aff x y => (beBytes 32 x, beBytes 32 y)

/-- `HOLDER_KEY.sign(…)` and `to_bytes` (examples/wallet-conformance-adapter/crypto/keys.rs:67-68); `k`
is the one-time number of the message, which the crate computes after RFC 6979. Where the crate panics
the result is empty. -/
def signBytes (d k : Nat) (m : Bytes) : Bytes :=
  match sign d k (beNat (sha256 m)) with
  | none => []
  | some (r, s) => beBytes 32 r ++ beBytes 32 s

/-- The holder of the wallet (examples/wallet-conformance-adapter/crypto/keys.rs:46-77) for a clock and
a choice of one-time numbers. -/
def holder (d : Nat) (k : Bytes → Nat) (now : Str → Int) : Holder where
  sha256 := sha256
  sign m := signBytes d (k m) m
  now := now

/-- The parts of the program with the key in place (examples/wallet-conformance-adapter/crypto/keys.rs:11-77). -/
def withKey (d : Nat) (k : Bytes → Nat) (now : Str → Int) (parts : WalletMain.Parts) : WalletMain.Parts :=
  { parts with holder := holder d k now, x := (coordinates d).1, y := (coordinates d).2 }

end HolderKey
end Oid4vp
