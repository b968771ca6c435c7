import Verif.Spec.CertCache
import Verif.Spec.WalletStore
import Verif.Spec.JsonRaw
/-!
# The files of the certificate cache
-/

set_option autoImplicit false

namespace Oid4vp.Spec
open VerifierApp

/-- The content of a file that has this key and certificate for the domain. -/
def CacheFile (p : Pki) (content domain : Str) (i : Identity p) : Prop :=
  ∃ j field pkcs8, RawText content j ∧ FieldsOnce [c!"domain", c!"cert_der_b64", c!"key_pkcs8_b64"] j field ∧
    field c!"domain" = some (.str domain) ∧ field c!"cert_der_b64" = some (.str (base64Padded i.der)) ∧
    field c!"key_pkcs8_b64" = some (.str (base64Padded pkcs8)) ∧
    p.key pkcs8 = .ok i.key ∧ p.x509.fromDer i.der = some i.cert

/-- A text between quotes, for texts that need no escapes. -/
def Quoted (s : Str) : Str := '"' :: (s ++ ['"'])

/-- Nothing in the text has to be escaped in JSON. -/
def NoEscapes (s : Str) : Prop := ∀ c ∈ s, 32 ≤ c.toNat ∧ c ≠ '"' ∧ c ≠ '\\'

end Oid4vp.Spec
