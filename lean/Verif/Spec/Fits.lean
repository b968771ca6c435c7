import Verif.Spec.Validate
import Verif.Spec.Build
/-!
# When a request fits the metadata of a wallet
-/

set_option autoImplicit false

namespace Oid4vp.Spec

/-- The key set of the client metadata: an object with a member `keys`, or, as the code reads
structs, an array of one array. -/
def KeySet (cm : UntypedObject) (keys : List (List (Str × Json))) : Prop :=
  (∃ m, mget c!"jwks" cm = some (.obj m) ∧ mget c!"keys" m = some (.arr (keys.map .obj))) ∨
    mget c!"jwks" cm = some (.arr [.arr (keys.map .obj)])

/-- What is under `k`, if anything, is a list of texts. -/
def TextsIfAny (o : UntypedObject) (k : Str) : Prop :=
  ∀ j, mget k o = some j → ∃ l : List Str, j = .arr (l.map .str)

/-- The wallet can encrypt for a verifier with this client metadata. -/
structure EncryptionFits (wm cm : UntypedObject) : Prop where
  keys : ∃ keys, KeySet cm keys
  alg : ∃ v, OffersAlg cm v
  algListed : ListedIfAny wm c!"authorization_encryption_alg_values_supported" (OffersAlg cm)
  encs : TextsIfAny cm c!"encrypted_response_enc_values_supported"
  encListed : ListedIfAny wm c!"authorization_encryption_enc_values_supported" (OffersEnc cm)

/-- Modes with encrypted responses. -/
def IsEncrypted (m : ResponseMode) : Prop := m = .directPostJwt ∨ m = .dcApiJwt

/-- What a wallet checks in the client metadata of a request with the given mode. -/
def MetadataFits (wm o : UntypedObject) (m : ResponseMode) : Prop :=
  (Absent o c!"client_metadata" ∧ ¬ IsEncrypted m) ∨
    ∃ cm, mget c!"client_metadata" o = some (.obj cm) ∧ (IsEncrypted m → EncryptionFits wm cm)

/-- The request passes the checks against the metadata of the wallet. -/
structure FitsWallet (wm : UntypedObject) (a : RequestObject) : Prop where
  pre : ∀ p, PrefixIs a.clientId (some p) → SupportsPrefix wm p.val
  mode : ¬ Absent a.inner c!"response_mode"
  metadata : MetadataFits wm a.inner a.responseMode

end Oid4vp.Spec
