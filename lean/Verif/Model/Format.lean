import Verif.Model.Object
/-!
# Credential formats (src/core/credential_format/mod.rs)
-/

set_option autoImplicit false

namespace Oid4vp

/-- `FORMAT_JWT_VC_JSON` (src/core/credential_format/mod.rs:8). -/
def formatJwtVcJson : Str := c!"jwt_vc_json"
/-- `FORMAT_LDP_VC` (src/core/credential_format/mod.rs:9). -/
def formatLdpVc : Str := c!"ldp_vc"
/-- `FORMAT_MSO_MDOC` (src/core/credential_format/mod.rs:10). -/
def formatMsoMdoc : Str := c!"mso_mdoc"
/-- `FORMAT_DC_SD_JWT` (src/core/credential_format/mod.rs:11). -/
def formatDcSdJwt : Str := c!"dc+sd-jwt"

/-- `ClaimFormatDesignation` (src/core/credential_format/mod.rs:117-146). -/
inductive ClaimFormatDesignation where
  | jwtVcJson
  | ldpVc
  | msoMDoc
  | dcSdJwt
  | other (name : Str)
deriving DecidableEq, Repr

namespace ClaimFormatDesignation

/-- `from_name` (src/core/credential_format/mod.rs:149-157). -/
def fromName (s : Str) : ClaimFormatDesignation :=
  if s = formatJwtVcJson then .jwtVcJson
  else if s = formatLdpVc then .ldpVc
  else if s = formatMsoMdoc then .msoMDoc
  else if s = formatDcSdJwt then .dcSdJwt
  else .other s

/-- `name`/`into_name`/`Display` (src/core/credential_format/mod.rs:159-177,206-210). -/
def name : ClaimFormatDesignation → Str
  | .jwtVcJson => formatJwtVcJson
  | .ldpVc => formatLdpVc
  | .msoMDoc => formatMsoMdoc
  | .dcSdJwt => formatDcSdJwt
  | .other s => s

/-- `Deserialize` (src/core/credential_format/mod.rs:221-228). -/
def ofJson : Json → Res ClaimFormatDesignation
  | .str s => .ok (fromName s)
  | _ => .error .parse

/-- `Serialize` (src/core/credential_format/mod.rs:212-219). -/
def toJson (d : ClaimFormatDesignation) : Json := .str d.name

end ClaimFormatDesignation

/-- `ClaimFormatPayload` (src/core/credential_format/mod.rs:77-91). -/
inductive ClaimFormatPayload where
  | algValues (l : List Str)
  | proofTypeValues (l : List Str)
  | other (j : Json)
deriving DecidableEq, Repr

namespace ClaimFormatPayload

/-- Derived `Deserialize` of an externally tagged enum with an untagged catch-all
(src/core/credential_format/mod.rs:77-91): an object with the single key `alg_values` or
`proof_type_values` holding texts is that variant, everything else is `Other`. -/
def ofJson (j : Json) : ClaimFormatPayload :=
  match j with
  | .obj [(k, v)] =>
    if k = c!"alg_values" then
      match strsOfJson v with
      | .ok l => .algValues l
      | .error _ => .other j
    else if k = c!"proof_type_values" then
      match strsOfJson v with
      | .ok l => .proofTypeValues l
      | .error _ => .other j
    else .other j
  | _ => .other j

/-- Derived `Serialize` (src/core/credential_format/mod.rs:77-91). -/
def toJson : ClaimFormatPayload → Json
  | .algValues l => .obj [(c!"alg_values", strsToJson l)]
  | .proofTypeValues l => .obj [(c!"proof_type_values", strsToJson l)]
  | .other j => j

/-- `add_alg` (src/core/credential_format/mod.rs:97-101). -/
def addAlg (alg : Str) : ClaimFormatPayload → ClaimFormatPayload
  | .algValues l => .algValues (l ++ [alg])
  | p => p

/-- `add_proof_type` (src/core/credential_format/mod.rs:106-110). -/
def addProofType (t : Str) : ClaimFormatPayload → ClaimFormatPayload
  | .proofTypeValues l => .proofTypeValues (l ++ [t])
  | p => p

end ClaimFormatPayload

/-- `ClaimFormatMap = HashMap<ClaimFormatDesignation, ClaimFormatPayload>`
(src/core/credential_format/mod.rs:14). A list of entries with different keys, in the
(arbitrary) order in which the hash map would be enumerated. -/
abbrev ClaimFormatMap := List (ClaimFormatDesignation × ClaimFormatPayload)

namespace ClaimFormatMap

/-- `HashMap::get`. -/
def get (d : ClaimFormatDesignation) : ClaimFormatMap → Option ClaimFormatPayload
  | [] => none
  | (d', p) :: m => if d = d' then some p else get d m

/-- `HashMap::insert`: replaces the value of an existing key. -/
def insert (d : ClaimFormatDesignation) (p : ClaimFormatPayload) : ClaimFormatMap → ClaimFormatMap
  | [] => [(d, p)]
  | (d', p') :: m => if d = d' then (d, p) :: m else (d', p') :: insert d p m

/-- `from_value::<ClaimFormatMap>`: members are inserted one after the other. -/
def ofJson : Json → Res ClaimFormatMap
  | .obj m => .ok (m.foldl (fun acc kv =>
      insert (ClaimFormatDesignation.fromName kv.1) (ClaimFormatPayload.ofJson kv.2) acc) [])
  | _ => .error .parse

/-- `to_value(&ClaimFormatMap)`: members are inserted into a JSON object in enumeration
order, under the printed names. -/
def toJson (m : ClaimFormatMap) : Json :=
  .obj (mofList (m.map (fun e => (e.1.name, e.2.toJson))))

end ClaimFormatMap

/-- `ClaimFormat` (src/core/credential_format/mod.rs:25-52). -/
inductive ClaimFormat where
  | jwtVcJson (algs : List Str)
  | ldpVc (proofTypes : List Str)
  | msoMDoc (j : Json)
  | dcSdJwt (j : Json)
  | other (j : Json)
deriving DecidableEq, Repr

/-- `ClaimFormat::designation` (src/core/credential_format/mod.rs:56-73); the first key of a
JSON object is its smallest one. -/
def ClaimFormat.designation : ClaimFormat → ClaimFormatDesignation
  | .jwtVcJson _ => .jwtVcJson
  | .ldpVc _ => .ldpVc
  | .msoMDoc _ => .msoMDoc
  | .dcSdJwt _ => .dcSdJwt
  | .other (.obj ((k, _) :: _)) => .other k
  | .other _ => .other c!"other"

/-- Derived `Serialize` of `ClaimFormat` (src/core/credential_format/mod.rs:25-52). -/
def ClaimFormat.toJson : ClaimFormat → Json
  | .jwtVcJson l => .obj [(formatJwtVcJson, .obj [(c!"alg_values_supported", strsToJson l)])]
  | .ldpVc l => .obj [(formatLdpVc, .obj [(c!"proof_type", strsToJson l)])]
  | .msoMDoc j => .obj [(formatMsoMdoc, j)]
  | .dcSdJwt j => .obj [(formatDcSdJwt, j)]
  | .other j => j

/-- The single field of a struct variant, as an object member or as a one-element array. -/
def ClaimFormat.oneField (k : Str) (v : Json) : Res (List Str) :=
  match structFields [k] v with
  | .error e => .error e
  | .ok m => fieldReq k strsOfJson m

/-- Derived `Deserialize` of `ClaimFormat` (src/core/credential_format/mod.rs:25-52):
externally tagged with an untagged catch-all. -/
def ClaimFormat.ofJson (j : Json) : ClaimFormat :=
  match j with
  | .obj [(k, v)] =>
    if k = formatJwtVcJson then
      match ClaimFormat.oneField c!"alg_values_supported" v with
      | .ok l => .jwtVcJson l
      | .error _ => .other j
    else if k = formatLdpVc then
      match ClaimFormat.oneField c!"proof_type" v with
      | .ok l => .ldpVc l
      | .error _ => .other j
    else if k = formatMsoMdoc then .msoMDoc v
    else if k = formatDcSdJwt then .dcSdJwt v
    else .other j
  | _ => .other j

end Oid4vp
