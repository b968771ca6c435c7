import Verif.Model.Example
import Verif.Model.Sha256

/-!
# P-256 and ECDSA, as the example wallet's holder key uses them

The crates `p256` and `ecdsa` are not in /repo; what is written here is the arithmetic the code asks
of them (NIST SP 800-186 §3.2.1.3, FIPS 186-5 §6.4), in affine coordinates, for the calls of
examples/wallet-conformance-adapter/crypto/keys.rs. Their constant-time field arithmetic and
projective formulas are not modelled, only the values.
-/

set_option autoImplicit false

namespace Oid4vp
namespace P256

/-- The prime of the field (the curve `p256` of examples/wallet-conformance-adapter/crypto/keys.rs:5). -/
def p : Nat := 0xffffffff00000001000000000000000000000000ffffffffffffffffffffffff

/-- The order of the base point (the curve `p256` of
examples/wallet-conformance-adapter/crypto/keys.rs:5). -/
def n : Nat := 0xffffffff00000000ffffffffffffffffbce6faada7179e84f3b9cac2fc632551

/-- The constant of the equation `y² = x³ - 3x + b` (the curve `p256` of
examples/wallet-conformance-adapter/crypto/keys.rs:5). -/
def b : Nat := 0x5ac635d8aa3a93e7b3ebbd55769886bc651d06b0cc53b0f63bce3c3e27d2604b

/-- The first coordinate of the base point (the curve `p256` of
examples/wallet-conformance-adapter/crypto/keys.rs:5). -/
def gx : Nat := 0x6b17d1f2e12c4247f8bce6e563a440f277037d812deb33a0f4a13945d898c296

/-- The second coordinate of the base point (the curve `p256` of
examples/wallet-conformance-adapter/crypto/keys.rs:5). -/
def gy : Nat := 0x4fe342e2fe1a7f9b8ee7eb4a7c0f9e162bce33576b315ececbb6406837bf51f5

/-- `acc · a ^ e` modulo `m` by squaring (arithmetic inside the crate `p256`, called at
examples/wallet-conformance-adapter/crypto/keys.rs:31,67). -/
def powAux (m : Nat) : Nat → Nat → Nat → Nat → Nat
  | 0, _, _, acc => acc
  | fuel + 1, a, e, acc =>
    powAux m fuel (a * a % m) (e / 2) (if e % 2 = 1 then acc * a % m else acc)

/-- `a ^ e` modulo `m` (arithmetic inside the crate `p256`, called at
examples/wallet-conformance-adapter/crypto/keys.rs:31,67). -/
def powMod (a e m : Nat) : Nat := powAux m 256 (a % m) e 1 % m

/-- The inverse modulo a prime (arithmetic inside the crate `p256`, called at
examples/wallet-conformance-adapter/crypto/keys.rs:31,67). -/
def inv (a m : Nat) : Nat := powMod a (m - 2) m

/-- A point of the curve (`p256::AffinePoint`, examples/wallet-conformance-adapter/crypto/keys.rs:31). -/
inductive Pt where
  | inf
  | aff (x y : Nat)
deriving DecidableEq, Repr

/-- The third point on a line of slope `l`, mirrored (arithmetic inside the crate `p256`, called at
examples/wallet-conformance-adapter/crypto/keys.rs:31,67). -/
def chord (l x₁ y₁ x₂ : Nat) : Pt :=
  let x := (l * l + (p - x₁) + (p - x₂)) % p
  .aff x ((l * (x₁ + (p - x)) + (p - y₁)) % p)

/-- Adding two points (arithmetic inside the crate `p256`, called at
examples/wallet-conformance-adapter/crypto/keys.rs:31,67). -/
def add : Pt → Pt → Pt
  | .inf, q => q
  | q, .inf => q
  | .aff x₁ y₁, .aff x₂ y₂ =>
    if x₁ = x₂ then
      if (y₁ + y₂) % p = 0 then .inf
      else chord ((3 * (x₁ * x₁) + (p - 3)) * inv (2 * y₁) p % p) x₁ y₁ x₂
    else chord ((y₁ + (p - y₂)) * inv (x₁ + (p - x₂)) p % p) x₁ y₁ x₂

/-- `acc + k · q` by doubling (arithmetic inside the crate `p256`, called at
examples/wallet-conformance-adapter/crypto/keys.rs:31,67). -/
def mulAux : Nat → Nat → Pt → Pt → Pt
  | 0, _, _, acc => acc
  | fuel + 1, k, q, acc => mulAux fuel (k / 2) (add q q) (if k % 2 = 1 then add acc q else acc)

/-- `k · q` for `k < 2 ^ 256` (arithmetic inside the crate `p256`, called at
examples/wallet-conformance-adapter/crypto/keys.rs:31,67). -/
def mul (k : Nat) (q : Pt) : Pt := mulAux 256 k q .inf

/-- The base point (the curve `p256` of examples/wallet-conformance-adapter/crypto/keys.rs:5). -/
def base : Pt := .aff gx gy

/-- Signing the number `e` of a digest with the secret `d` and the one-time number `k`
(`ecdsa::hazmat::sign_prehashed`, called by `Signer::sign` at
examples/wallet-conformance-adapter/crypto/keys.rs:67); `none` where the crate reports an error, on
which `sign` panics. -/
def sign (d k e : Nat) : Option (Nat × Nat) :=
  match mul k base with
  | .inf => none
  | .aff x _ =>
    let r := x % n
    let s := inv k n * (e + r * d) % n
    if r = 0 ∨ s = 0 then none else some (r, s)

end P256
end Oid4vp
