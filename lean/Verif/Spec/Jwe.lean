import Verif.Lemmas.JsonText
import Verif.Model.Iso
import Verif.Model.Jwe
import Verif.Spec.Validate
/-!
# Specification vocabulary for encrypted responses and key thumbprints
-/

set_option autoImplicit false

namespace Oid4vp.Spec

/-- The member `k` of a key is the text `s`. -/
def Says (key : List (Str × Json)) (k s : Str) : Prop := mget k key = some (.str s)

/-- The key may be used for encryption: its `use` is `enc`, or it has no textual `use`. -/
def ForEncryption (key : List (Str × Json)) : Prop := ∀ s, Says key c!"use" s → s = c!"enc"

/-- The key can be used for ECDH-ES on P-256. -/
def SuitableKey (key : List (Str × Json)) : Prop :=
  Says key c!"alg" c!"ECDH-ES" ∧ Says key c!"crv" c!"P-256" ∧ ForEncryption key

/-- `key` is the first one in `keys` with the property `P`. -/
def FirstWith (P : List (Str × Json) → Prop) (keys : List (List (Str × Json)))
    (key : List (Str × Json)) : Prop :=
  ∃ before after, keys = before ++ key :: after ∧ P key ∧ ∀ k ∈ before, ¬ P k

/-- The textual key identifier of a key. -/
def kidOf (key : List (Str × Json)) : Option Str :=
  match mget c!"kid" key with
  | some (.str s) => some s
  | _ => none

/-- The client metadata announces these keys. -/
def KeyList (cm : UntypedObject) (keys : List (List (Str × Json))) : Prop :=
  (∃ m, mget c!"jwks" cm = some (.obj m) ∧ mget c!"keys" m = some (.arr (keys.map .obj))) ∨
    mget c!"jwks" cm = some (.arr [.arr (keys.map .obj)])

/-- The first content encryption algorithm the client metadata announces, A128GCM if there is
none. -/
def FirstEnc (cm : UntypedObject) (e : Str) : Prop :=
  (mget c!"encrypted_response_enc_values_supported" cm = none ∧ e = c!"A128GCM") ∨
  ∃ l : List Str, mget c!"encrypted_response_enc_values_supported" cm = some (.arr (l.map .str)) ∧
    ((l = [] ∧ e = c!"A128GCM") ∨ ∃ rest, l = e :: rest)

/-- The protected header of an encrypted response, in the order of its keys. -/
def encHeader (enc : Str) (kid : Option Str) : List (Str × Json) :=
  [(c!"alg", .str c!"ECDH-ES"), (c!"enc", .str enc)] ++
    kid.toList.map (fun k => (c!"kid", .str k)) ++ [(c!"typ", .str c!"JWT")]

/-- The payload of an encrypted response, in the order of its keys. -/
def encPayload (t : Json) (state : Option Str) : List (Str × Json) :=
  state.toList.map (fun s => (c!"state", .str s)) ++ [(c!"vp_token", t)]

/-- A key as it comes out of a JSON document. -/
def ProperKey (key : List (Str × Json)) : Prop :=
  (Json.obj key).WF FltLit ∧ (Json.obj key).depth ≤ 127

/-- The required members (RFC 7638) of a key: those of an elliptic curve key or of an RSA
key. -/
inductive Required where
  | ec (crv x y : Str)
  | rsa (e n : Str)
deriving DecidableEq

/-- The key has these required members. -/
def HasRequired (key : List (Str × Json)) : Required → Prop
  | .ec crv x y => Says key c!"kty" c!"EC" ∧ Says key c!"crv" crv ∧ Says key c!"x" x ∧ Says key c!"y" y
  | .rsa e n => Says key c!"kty" c!"RSA" ∧ Says key c!"e" e ∧ Says key c!"n" n

/-- The member texts that are followed by another member have no quote in them. -/
def Required.Quotefree : Required → Prop
  | .ec crv x _ => '"' ∉ crv ∧ '"' ∉ x
  | .rsa e _ => '"' ∉ e

/-- No member text has a quote in it, as it is with base64url texts and the registered curves. -/
def Required.NoQuotes : Required → Prop
  | .ec crv x y => '"' ∉ crv ∧ '"' ∉ x ∧ '"' ∉ y
  | .rsa e n => '"' ∉ e ∧ '"' ∉ n

/-- The text needs no escapes in JSON. -/
def Plain (s : Str) : Prop := ∀ c ∈ s, c ≠ '"' ∧ c ≠ '\\' ∧ 32 ≤ c.toNat

/-- All member texts are plain. -/
def Required.AllPlain : Required → Prop
  | .ec crv x y => Plain crv ∧ Plain x ∧ Plain y
  | .rsa e n => Plain e ∧ Plain n

/-- The required members as a JSON object, keys in lexicographic order. -/
def Required.json : Required → Json
  | .ec crv x y => .obj [(c!"crv", .str crv), (c!"kty", .str c!"EC"), (c!"x", .str x), (c!"y", .str y)]
  | .rsa e n => .obj [(c!"e", .str e), (c!"kty", .str c!"RSA"), (c!"n", .str n)]

/-- The text hashed for a thumbprint: the required members in lexicographic order between quotes, as they
are. -/
def Required.text : Required → Str
  | .ec crv x y => c!"{\"crv\":\"" ++ crv ++ c!"\",\"kty\":\"EC\",\"x\":\"" ++ x ++ c!"\",\"y\":\"" ++ y ++ c!"\"}"
  | .rsa e n => c!"{\"e\":\"" ++ e ++ c!"\",\"kty\":\"RSA\",\"n\":\"" ++ n ++ c!"\"}"

/-- The key is a candidate for the thumbprint in the handover. -/
def ThumbKey (key : List (Str × Json)) : Prop := ForEncryption key ∧ ∃ r, HasRequired key r

end Oid4vp.Spec
