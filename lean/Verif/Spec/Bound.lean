import Verif.Model.Iso
import Verif.Model.Session
import Verif.Spec.Iso
import Verif.Spec.Request
/-!
# What the session transcript of a request binds

The library leaves it to its caller to put the parts of a request into a handover. What these are is said in
the comments of its constructors (src/core/iso_18013_7/mod.rs:29-36,156-162).
-/

set_option autoImplicit false

namespace Oid4vp.Spec

/-- The response is to be encrypted. -/
def AsksEncrypted (a : RequestObject) : Prop := a.responseMode = .directPostJwt ∨ a.responseMode = .dcApiJwt

/-- The thumbprint that goes into the handover: that of the verifier's encryption key, none if the response is not
encrypted. -/
def ThumbFor (sha : Bytes → Bytes) (a : RequestObject) (t : Option Bytes) : Prop :=
  (AsksEncrypted a ∧ t = getEncryptionJwkThumbprint sha a) ∨ (¬ AsksEncrypted a ∧ t = none)

/-- What is hashed for a request that is answered by a post. -/
def RedirectText (sha : Bytes → Bytes) (a : RequestObject) (m : Bytes) : Prop :=
  IsDirectPost a.responseMode ∧ ∃ cid t, a.clientId = some cid ∧ ThumbFor sha a t ∧
    m = redirectInfo cid.val a.nonce.val t a.returnUri.print

/-- What is hashed for a request that came over the Digital Credentials API from the origin. -/
def DcApiText (sha : Bytes → Bytes) (origin : Str) (a : RequestObject) (m : Bytes) : Prop :=
  IsDcApi a.responseMode ∧ ∃ t, ThumbFor sha a t ∧ m = dcApiInfo origin a.nonce.val t

/-- The session transcript of a request that is answered by a post. -/
def RedirectTranscript (sha : Bytes → Bytes) (a : RequestObject) (tr : Bytes) : Prop :=
  ∃ m, RedirectText sha a m ∧ tr = transcript c!"OpenID4VPHandover" (sha m)

/-- The session transcript of a request that came over the Digital Credentials API from the origin. -/
def DcApiTranscript (sha : Bytes → Bytes) (origin : Str) (a : RequestObject) (tr : Bytes) : Prop :=
  ∃ m, DcApiText sha origin a m ∧ tr = transcript c!"OpenID4VPDCAPIHandover" (sha m)

/-- The texts of the request have fewer than 2^64 bytes, as all texts in the program have. -/
def ShortTexts (a : RequestObject) : Prop :=
  (∀ cid, a.clientId = some cid → (utf8Text cid.val).length < 2 ^ 64) ∧
  (utf8Text a.nonce.val).length < 2 ^ 64 ∧ (utf8Text a.returnUri.print).length < 2 ^ 64

/-- The requests have the same client, nonce, return address and thumbprint. -/
def SameBinding (sha : Bytes → Bytes) (a a' : RequestObject) : Prop :=
  a.clientId = a'.clientId ∧ a.nonce = a'.nonce ∧ a.returnUri.print = a'.returnUri.print ∧
  ∃ t, ThumbFor sha a t ∧ ThumbFor sha a' t

/-- What is hashed for the requests is different and has the same hash. -/
def HashesCollide (sha : Bytes → Bytes) (a a' : RequestObject) : Prop :=
  ∃ m m', RedirectText sha a m ∧ RedirectText sha a' m' ∧ m ≠ m' ∧ sha m = sha m'

end Oid4vp.Spec
