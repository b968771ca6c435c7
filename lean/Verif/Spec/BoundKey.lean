import Verif.Spec.Bound
import Verif.Spec.Jwe
/-! # Which key a request announces to the transcript, and to which its answer is encrypted -/

set_option autoImplicit false

namespace Oid4vp.Spec

/-- The key whose thumbprint goes into the transcript of the request: of the keys of the verifier, the first one for
encryption with the required members of its type. -/
def TranscriptKey (a : RequestObject) (key : List (Str × Json)) : Prop :=
  ∃ cm keys, mget c!"client_metadata" a.inner = some (.obj cm) ∧ KeyList cm keys ∧ FirstWith ThumbKey keys key

/-- The key the answer to the request is encrypted to: the first one for ECDH-ES on P-256. -/
def AnswerKey (a : RequestObject) (key : List (Str × Json)) : Prop :=
  ∃ cm keys, mget c!"client_metadata" a.inner = some (.obj cm) ∧ KeyList cm keys ∧ FirstWith SuitableKey keys key

/-- A key that has the required members and nothing else; so it names no algorithm. -/
def bareKey : Required → List (Str × Json)
  | .ec crv x y => [(c!"crv", .str crv), (c!"kty", .str c!"EC"), (c!"x", .str x), (c!"y", .str y)]
  | .rsa e n => [(c!"e", .str e), (c!"kty", .str c!"RSA"), (c!"n", .str n)]

/-- The request with these keys in place of its own. -/
def withKeys (a : RequestObject) (cm : UntypedObject) (keys : List (List (Str × Json))) : RequestObject :=
  let cm' := mset c!"jwks" (.obj [(c!"keys", .arr (keys.map .obj))]) cm
  { a with inner := mset c!"client_metadata" (.obj cm') a.inner }

/-- Texts of required members that differ and have the same hash. -/
def ThumbsCollide (sha : Bytes → Bytes) : Prop :=
  ∃ r r' : Required, r.text ≠ r'.text ∧
    sha (r.text.flatMap String.utf8EncodeChar) = sha (r'.text.flatMap String.utf8EncodeChar)

end Oid4vp.Spec
