import Mathlib.AlgebraicGeometry.EllipticCurve.Affine.Point
import Mathlib.Algebra.Field.ZMod
import Verif.Model.Json

/-!
# The curve P-256 and ECDSA signatures on it

The curve is the one of NIST SP 800-186 §3.2.1.3, with Mathlib's group of points; a signature is
checked by the equation of FIPS 186-5 §6.4.2. Nothing here is computed.
-/

set_option autoImplicit false

namespace Oid4vp
namespace Spec

/-- The number of elements of the field. -/
@[irreducible] def fieldPrime : ℕ := 2 ^ 256 - 2 ^ 224 + 2 ^ 192 + 2 ^ 96 - 1

/-- The order of the base point. -/
@[irreducible] def groupOrder : ℕ :=
  115792089210356248762697446949407573529996955224135760342422259061068512044369

/-- `y² = x³ - 3x + b`. -/
def curve : WeierstrassCurve.Affine (ZMod fieldPrime) where
  a₁ := 0
  a₂ := 0
  a₃ := 0
  a₄ := -3
  a₆ := ((41058363725152142129326129780047268409114441015993725554835256314039467401291 : ℕ) :
    ZMod fieldPrime)

/-- The points of the curve with the point at infinity. -/
abbrev CurvePoint : Type := curve.Point

/-- A point has these two coordinates. -/
def HasCoordinates (P : CurvePoint) (x y : ℕ) : Prop :=
  x < fieldPrime ∧ y < fieldPrime ∧
    ∃ h : curve.Nonsingular (x : ZMod fieldPrime) (y : ZMod fieldPrime), P = .some _ _ h

/-- The base point. -/
def IsBasePoint (G : CurvePoint) : Prop :=
  HasCoordinates G 48439561293906451759052585252797914202762949526041747995844080717082404635286
    36134250956749795798585127919587881956611106672985015071877198253568414405109

/-- A pair of numbers is a signature on the digest `e` for the public key `Q`. -/
def IsSignature [Fact fieldPrime.Prime] (Q : CurvePoint) (e r s : ℕ) : Prop :=
  1 ≤ r ∧ r < groupOrder ∧ 1 ≤ s ∧ s < groupOrder ∧
    ∃ G w x y, IsBasePoint G ∧ s * w % groupOrder = 1 ∧
      HasCoordinates ((e * w % groupOrder) • G + (r * w % groupOrder) • Q) x y ∧ x % groupOrder = r

end Spec
end Oid4vp
