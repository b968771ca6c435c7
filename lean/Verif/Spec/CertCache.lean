import Verif.Model.VerifierApp
/-!
# What the certificate cache of the example verifier must do
-/

set_option autoImplicit false

namespace Oid4vp.Spec
open VerifierApp

/-- One start of the program: the domain, what would be drawn for a new certificate, and whether the
cache directory can be written. -/
structure Run where
  domain : Str
  draw : Draw
  writable : Bool

/-- Starts of the program one after the other, on the same directory: what each start uses. -/
def runs (p : Pki) : Files → List Run → Files × List (Res (Identity p))
  | f, [] => (f, [])
  | f, r :: rs =>
    let x := getOrGenerate p r.draw r.writable r.domain f
    let y := runs p x.1 rs
    (y.1, x.2 :: y.2)

/-- The identity is what was drawn for its domain in this run: the key that was drawn, and the DER form
of the certificate that was drawn. -/
def GeneratedIn (p : Pki) (r : Run) (i : Identity p) : Prop :=
  ∃ der pkcs8 c, r.draw r.domain = .ok (der, pkcs8) ∧ p.x509.fromDer der = some c ∧
    p.key pkcs8 = .ok i.key ∧ p.x509.toDer c = .ok i.der ∧
    (i.cert = c ∨ p.x509.fromDer i.der = some i.cert)

/-- Certificates drawn for the domain of the run have that domain as their one DNS name. -/
def DrawsName (p : Pki) (r : Run) : Prop :=
  ∀ der pkcs8 c, r.draw r.domain = .ok (der, pkcs8) → p.x509.fromDer der = some c →
    p.x509.sanExts c = [some [.dns r.domain]]

/-- The name of the file for a domain: the domain with `_` in place of every dot, and `.json`. -/
def FileOf (domain name : Str) : Prop :=
  ∃ t, name = t ++ c!".json" ∧ t.length = domain.length ∧
    ∀ p ∈ domain.zip t, (p.1 = '.' ∧ p.2 = '_') ∨ (p.1 ≠ '.' ∧ p.2 = p.1)

/-- Two domains have the same file. -/
def ShareFile (d d' : Str) : Prop := ∃ name, FileOf d name ∧ FileOf d' name

/-- The domain of a URL: the host between optional user information and port; an IPv6 address has brackets. -/
def HostIs (u : Url) (h : Str) : Prop :=
  ∃ user port, u.authority = some (user ++ (h ++ port)) ∧ h ≠ [] ∧ '@' ∉ h ∧ '@' ∉ port ∧
    (user = [] ∨ ∃ x, user = x ++ ['@']) ∧ (port = [] ∨ ∃ n, port = ':' :: n) ∧
    ((':' ∉ h ∧ '[' ∉ h) ∨ ∃ x, h = '[' :: (x ++ [']']) ∧ ']' ∉ x)

end Oid4vp.Spec
