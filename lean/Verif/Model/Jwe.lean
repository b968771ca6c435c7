import Verif.Model.Response
/-!
# Encrypted responses (src/core/jwe.rs)
-/

set_option autoImplicit false

namespace Oid4vp

/-- `josekit`: which JSON objects it accepts as a JWK, which claims it accepts, and
`encode_with_encrypter` for ECDH-ES on P-256 (recipient key, protected header, payload).
A parameter of the model. -/
structure Josekit where
  jwkOk : List (Str × Json) → Bool
  claimOk : Str → Json → Bool
  encrypt : List (Str × Json) → List (Str × Json) → List (Str × Json) → Res Str

/-- `DEFAULT_ENC` (src/core/jwe.rs:11). -/
def defaultEnc : Str := c!"A128GCM"

/-- The only supported key agreement algorithm (src/core/jwe.rs:111,180). -/
def ecdhEs : Str := c!"ECDH-ES"

/-- `serde_json::to_string` followed by `josekit::jwk::Jwk::from_bytes`
(src/core/jwe.rs:65-66,211-212). A `josekit` JWK is the parsed JSON object. -/
def joseJwk (jk : Josekit) (m : List (Str × Json)) : Res (List (Str × Json)) :=
  match jParse (jPrint (.obj m)) with
  | .error e => .error e
  | .ok (.obj m') => if jk.jwkOk m' then .ok m' else .error .parse
  | .ok _ => .error .parse

/-- `EncryptionJwkInfo` (src/core/jwe.rs:18-25). -/
structure EncryptionJwkInfo where
  jwk : List (Str × Json)
  alg : Str
  kid : Option Str
deriving DecidableEq, Repr

/-- A string member of a JWK: `get(k).and_then(as_str)`. -/
def jwkStr (k : Str) (m : List (Str × Json)) : Option Str := (mget k m).bind Json.asStr?

/-- The conditions under which the loop does not `continue`
(src/core/jwe.rs:174-207). -/
def jwkSuitable (m : List (Str × Json)) : Bool :=
  jwkStr c!"alg" m = some ecdhEs && jwkStr c!"crv" m = some c!"P-256" &&
    (jwkStr c!"use" m = some c!"enc" || jwkStr c!"use" m = none)

/-- `find_encryption_jwk` (src/core/jwe.rs:168-227): the loop. -/
def findEncryptionJwk (jk : Josekit) : List (List (Str × Json)) → Res EncryptionJwkInfo
  | [] => .error .missing
  | m :: ms =>
    if jwkSuitable m then
      match joseJwk jk m with
      | .error e => .error e
      | .ok jwk => .ok ⟨jwk, ecdhEs, jwkStr c!"kid" m⟩
    else findEncryptionJwk jk ms

/-- `JweBuilder` (src/core/jwe.rs:34-40). -/
structure JweBuilder where
  payload : Option Json := none
  recipientKey : Option (List (Str × Json)) := none
  alg : Option Str := none
  enc : Option Str := none
  kid : Option Str := none
deriving DecidableEq, Repr

/-- The protected header assembled by `build` (src/core/jwe.rs:126-135). -/
def jweHeader (alg enc : Str) (kid : Option Str) : List (Str × Json) :=
  msetOpt c!"kid" (kid.map .str)
    (mset c!"enc" (.str enc) (mset c!"alg" (.str alg) (mset c!"typ" (.str c!"JWT") [])))

/-- `JweBuilder::build` (src/core/jwe.rs:103-143). -/
def JweBuilder.build (jk : Josekit) (b : JweBuilder) : Res Str :=
  match b.payload with
  | none => .error .missing
  | some payload => match b.recipientKey with
    | none => .error .missing
    | some key => match b.alg with
      | none => .error .missing
      | some alg =>
        if alg ≠ ecdhEs then .error .unsupported
        else match payload with
          | .obj m =>
            if m.all (fun p => jk.claimOk p.1 p.2) then
              jk.encrypt key
                (jweHeader alg (unwrapOr defaultEnc b.enc)
                  (match b.kid with
                    | some k => some k
                    | none => jwkStr c!"kid" key)) m
            else .error .parse
          | _ => .error .parse

/-- The payload of `build_encrypted_response` (src/core/jwe.rs:261-267). -/
def responsePayload (t : VpToken) (s : Option State) : Json :=
  .obj (msetOpt c!"state" (s.map (fun s => .str s.val)) [(c!"vp_token", t.toJson)])

/-- The content encryption chosen by `build_encrypted_response` (src/core/jwe.rs:290-295). -/
def chosenEnc (l : List Str) : Str :=
  match l with
  | [] => defaultEnc
  | e :: _ => e

/-- `build_encrypted_response` (src/core/jwe.rs:249-322). -/
def buildEncryptedResponse (jk : Josekit) (a : RequestObject) (t : VpToken) (s : Option State) :
    Res AuthorizationResponse :=
  match ClientMetadata.resolve a with
  | .error e => .error e
  | .ok cm => match parsingError cm.jwks with
    | .error e => .error e
    | .ok jwks => match findEncryptionJwk jk jwks.keys with
      | .error e => .error e
      | .ok info => match cm.encValues with
        | .error e => .error e
        | .ok encs => match joseJwk jk info.jwk with
          | .error e => .error e
          | .ok key =>
            match JweBuilder.build jk {
                payload := some (responsePayload t s)
                recipientKey := some key
                alg := some info.alg
                enc := some (chosenEnc encs.val)
                kid := info.kid } with
            | .error e => .error e
            | .ok jwe => .ok (.jwt jwe)

end Oid4vp
