import Verif.Model.AuthRequest
/-!
# Bundled verification methods and bundled clients

* src/core/authorization_request/verification/{did,x509_san,x509_hash,verifier}.rs
* src/verifier/client.rs, src/verifier/request_signer.rs
-/

set_option autoImplicit false

namespace Oid4vp

/-! ## Parameters of the model: keys, certificates, signatures, hashes -/

/-- A public JWK as JSON members (`ssi::jwk::JWK`). -/
abbrev Jwk := List (Str × Json)

/-- `ssi` as used for signatures: its JOSE header parser and its signature check
`verify_bytes(alg, signing_input, key, signature)`. -/
structure Ssi where
  header : SsiHeader
  verify : Str → Bytes → Jwk → Bytes → Bool

/-- An entry of a subject alternative name extension (`x509_cert::GeneralName`). -/
inductive GeneralName where
  | dns (name : Str)
  | other
deriving DecidableEq, Repr

/-- The X.509 library (`x509_cert`) and the hash function: certificates, their DER form,
their subject-alternative-name extensions (`none` for one that does not parse), their
subject public key info, SHA-256. -/
structure X509 where
  Cert : Type
  fromDer : Bytes → Option Cert
  toDer : Cert → Res Bytes
  sanExts : Cert → List (Option (List GeneralName))
  spki : Cert → Bytes
  sha256 : Bytes → Bytes

/-- `trait Verifier` (src/core/authorization_request/verification/verifier.rs:6-14). -/
structure SigVerifier where
  Key : Type
  fromSpki : Bytes → Str → Option Key
  verify : Key → Bytes → Bytes → Bool

/-- `P256Verifier` (src/core/authorization_request/verification/verifier.rs:16-31) over a
P-256 library: reading a key from its SPKI, reading a signature, checking it. -/
def p256Verifier {K S : Type} (readKey : Bytes → Option K) (readSig : Bytes → Option S)
    (check : K → Bytes → S → Bool) : SigVerifier where
  Key := K
  fromSpki spki alg := if alg ≠ c!"ES256" then none else readKey spki
  verify k msg sig := match readSig sig with
    | none => false
    | some s => check k msg s

/-! ## Verification methods -/

/-- `headers.remove("alg")` must be a string
(src/core/authorization_request/verification/did.rs:30-35 and the same in the x509 files). -/
def headerStr (k : Str) (m : List (Str × Json)) : Res Str :=
  match mget k m with
  | none => .error .missing
  | some (.str s) => .ok s
  | some _ => .error .parse

/-- The wallet must list the algorithm
(src/core/authorization_request/verification/did.rs:37-42 and the same in the x509 files). -/
def checkAlg (wm : WalletMetadata) (alg : Str) : Res Unit :=
  match parsingError (UntypedObject.get RequestObjectSigningAlgValuesSupported wm.inner) with
  | .error e => .error e
  | .ok l => if l.val.contains alg then .ok () else .error .unsupported

/-- `client_id.strip_prefix("<prefix>:").unwrap_or(client_id)`
(src/core/authorization_request/verification/did.rs:67-68, x509_san.rs:30-33, x509_hash.rs:44-47). -/
def stripClientPrefix (pre : Str) (c : ClientId) : Str :=
  match stripPrefix (pre ++ [':']) c.val with
  | some s => s
  | none => c.val

/-- `header_b64.body_b64` as bytes: what is signed. -/
def signingInput (h b : Str) : Bytes := utf8 (h ++ '.' :: b)

/-- `ssi::claims::jwt::decode_verify::<Json>`: decode the parts, check the signature, parse
the payload as JSON. -/
def decodeVerify (ssi : Ssi) (jwt : Str) (key : Jwk) : Res Json :=
  match splitJws jwt with
  | .error e => .error e
  | .ok (h, b, g) => match b64url g with
    | .error e => .error e
    | .ok sig => match b64url h with
      | .error e => .error e
      | .ok hb => match ssi.header hb with
        | .error e => .error e
        | .ok (alg, enc) =>
          match if enc then b64url b else (.ok (utf8 b) : Res Bytes) with
          | .error e => .error e
          | .ok payload =>
            if ssi.verify alg (signingInput h b) key sig then jParseBytes payload
            else .error .signature

/-- `did::verify_with_resolver`
(src/core/authorization_request/verification/did.rs:14-89). -/
def didVerify (ssi : Ssi) (resolver : Str → Res Jwk) (trusted : Option (List Str))
    (wm : WalletMetadata) (a : RequestObject) (jwt : Str) : Res Unit :=
  match jwsHeader jwt with
  | .error e => .error e
  | .ok m => match headerStr c!"alg" m with
    | .error e => .error e
    | .ok alg => match checkAlg wm alg with
      | .error e => .error e
      | .ok () =>
        if contains c!"none" alg then .ok ()
        else match headerStr c!"kid" m with
          | .error e => .error e
          | .ok kid => match a.clientId with
            | none => .error .missing
            | some cid => match splitOnce '#' kid with
              | none => .error .parse
              | some (did, _) =>
                if stripClientPrefix ClientIdScheme.decentralizedIdentifier cid ≠ did then
                  .error .mismatch
                else if (match trusted with
                    | some l => !l.contains did
                    | none => false) then .error .untrusted
                else match resolver kid with
                  | .error e => .error e
                  | .ok key => match decodeVerify ssi jwt key with
                    | .error e => .error e
                    | .ok _ => .ok ()

/-- The first entry of `x5c`
(src/core/authorization_request/verification/x509_san.rs:57-66, x509_hash.rs:72-81). -/
def x5cFirst (m : List (Str × Json)) : Res Str :=
  match mget c!"x5c" m with
  | none => .error .missing
  | some (.arr []) => .error .missing
  | some (.arr (.str s :: _)) => .ok s
  | some (.arr (_ :: _)) => .error .parse
  | some _ => .error .parse

/-- DNS names of a certificate
(src/core/authorization_request/verification/x509_san.rs:77-95, src/verifier/client.rs:92-109). -/
def dnsNames (x : X509) (c : x.Cert) : List Str :=
  ((x.sanExts c).filterMap id).flatten.filterMap (fun g => match g with
    | .dns n => some n
    | .other => none)

/-- The leaf certificate and its DER bytes
(src/core/authorization_request/verification/x509_san.rs:57-73, x509_hash.rs:72-88). -/
def leafCert (x : X509) (m : List (Str × Json)) : Res (Bytes × x.Cert) :=
  match x5cFirst m with
  | .error e => .error e
  | .ok s => match b64Dec .std (trimEndChar '=' s) with
    | none => .error .decode
    | some der => match x.fromDer der with
      | none => .error .decode
      | some c => .ok (der, c)

/-- The final signature check of both x509 methods
(src/core/authorization_request/verification/x509_san.rs:107-125, x509_hash.rs:112-130). -/
def checkCertSig (x : X509) (v : SigVerifier) (c : x.Cert) (alg h b g : Str) : Res Unit :=
  match v.fromSpki (x.spki c) alg with
  | none => .error .signature
  | some k => match b64url g with
    | .error e => .error e
    | .ok sig => if v.verify k (signingInput h b) sig then .ok () else .error .signature

/-- `x509_san::validate` (src/core/authorization_request/verification/x509_san.rs:21-126).
The trust anchors are taken and not used, as in the code. -/
def x509SanVerify (x : X509) (v : SigVerifier) (_roots : Option (List x.Cert))
    (wm : WalletMetadata) (a : RequestObject) (jwt : Str) : Res Unit :=
  match a.clientId with
  | none => .error .missing
  | some cid => match splitJws jwt with
    | .error e => .error e
    | .ok (h, b, g) => match jwsHeader jwt with
      | .error e => .error e
      | .ok m => match headerStr c!"alg" m with
        | .error e => .error e
        | .ok alg => match checkAlg wm alg with
          | .error e => .error e
          | .ok () => match leafCert x m with
            | .error e => .error e
            | .ok (_, c) =>
              if (dnsNames x c).contains (stripClientPrefix ClientIdScheme.x509SanDns cid) then
                checkCertSig x v c alg h b g
              else .error .mismatch

/-- `x509_hash::validate` (src/core/authorization_request/verification/x509_hash.rs:33-131).
The trust anchors are taken and not used, as in the code. -/
def x509HashVerify (x : X509) (v : SigVerifier) (_roots : Option (List x.Cert))
    (wm : WalletMetadata) (a : RequestObject) (jwt : Str) : Res Unit :=
  match a.clientId with
  | none => .error .missing
  | some cid => match splitJws jwt with
    | .error e => .error e
    | .ok (h, b, g) => match jwsHeader jwt with
      | .error e => .error e
      | .ok m => match headerStr c!"alg" m with
        | .error e => .error e
        | .ok alg => match checkAlg wm alg with
          | .error e => .error e
          | .ok () => match leafCert x m with
            | .error e => .error e
            | .ok (der, c) =>
              if b64Enc .url (x.sha256 der) = stripClientPrefix ClientIdScheme.x509Hash cid then
                checkCertSig x v c alg h b g
              else .error .mismatch

/-! ## Clients -/

/-- `trait RequestSigner` (src/verifier/request_signer.rs:11-29). -/
structure Signer where
  alg : Res Str
  jwk : Res Jwk
  sign : Bytes → Bytes

/-- `P256Signer` (src/verifier/request_signer.rs:31-36): the JWK of its public key, and the library's
signing (`SigningKey::sign`, `Signature::to_vec`). -/
structure P256Signer where
  jwk : Jwk
  sign : Bytes → Bytes

/-- `P256Signer::new` (src/verifier/request_signer.rs:38-43) for the key with the coordinates `x` and `y`:
crate `p256` writes these four members, and `ssi` reads them back. -/
def P256Signer.new (x y : Bytes) (sign : Bytes → Bytes) : P256Signer where
  jwk := [(c!"crv", .str c!"P-256"), (c!"kty", .str c!"EC"), (c!"x", .str (b64Enc .url x)),
    (c!"y", .str (b64Enc .url y))]
  sign := sign

/-- `self.jwk.algorithm.unwrap_or(ES256)` (src/verifier/request_signer.rs:55,70). -/
def P256Signer.algorithm (s : P256Signer) : Str :=
  match mget c!"alg" s.jwk with
  | some (.str a) => a
  | _ => c!"ES256"

/-- `impl RequestSigner for P256Signer` (src/verifier/request_signer.rs:50-66), with `try_sign` of the
trait (src/verifier/request_signer.rs:24-28). -/
def P256Signer.signer (s : P256Signer) : Signer := ⟨.ok s.algorithm, .ok s.jwk, s.sign⟩

/-- `fetch_info` of `impl JwsSigner for P256Signer` (src/verifier/request_signer.rs:69-75): algorithm and
key id. -/
def P256Signer.info (s : P256Signer) : Str × Option Str :=
  (s.algorithm, match mget c!"kid" s.jwk with
    | some (.str k) => some k
    | _ => none)

/-- `sign_bytes` of `impl JwsSigner for P256Signer` (src/verifier/request_signer.rs:77-84). -/
def P256Signer.signBytes (s : P256Signer) (msg : Bytes) : Res Bytes := .ok (s.signer.sign msg)

/-- `trait Client` (src/verifier/client.rs:25-34). -/
structure Client where
  id : ClientId
  pre : ClientIdScheme
  generate : RequestObject → Res Str

/-- `make_jwt` (src/verifier/client.rs:250-262). Serialising a JSON value never fails; the
request object is serialised as its parameters (`#[serde(into)]`,
src/core/authorization_request/mod.rs:33). -/
def makeJwt (header : Json) (body : RequestObject) (s : Signer) : Str :=
  let h := b64Enc .url (utf8 (jPrint header))
  let b := b64Enc .url (utf8 (jPrint (.obj body.toObject)))
  h ++ '.' :: (b ++ '.' :: b64Enc .url (s.sign (signingInput h b)))

/-- `ClientId` with a prefix: `format!("{}:{}", prefix, id)` (src/verifier/client.rs:68,118,148). -/
def prefixedId (pre id : Str) : ClientId := ⟨pre ++ ':' :: id⟩

/-- The header built by `DIDClient` (src/verifier/client.rs:175-179), members sorted. -/
def didHeader (alg vm : Str) : Json :=
  .obj [(c!"alg", .str alg), (c!"kid", .str vm), (c!"typ", .str requestObjectTyp)]

/-- `DIDClient` (src/verifier/client.rs:157-182). -/
def didClient (id : ClientId) (vm : Str) (s : Signer) : Client where
  id := id
  pre := ⟨ClientIdScheme.decentralizedIdentifier⟩
  generate body := match s.alg with
    | .error e => .error e
    | .ok alg => .ok (makeJwt (didHeader alg vm) body s)

/-- `DIDClient::new` (src/verifier/client.rs:46-74). -/
def didClientNew (vm : Str) (s : Signer) (resolver : Str → Res Jwk) : Res Client :=
  match rsplitOnce '#' vm with
  | none => .error .parse
  | some (id, _) => match resolver vm with
    | .error e => .error e
    | .ok key => match s.jwk with
      | .error e => .error e
      | .ok own =>
        if key ≠ own then .error .mismatch
        else .ok (didClient (prefixedId ClientIdScheme.decentralizedIdentifier id) vm s)

/-- The header built by the x509 clients (src/verifier/client.rs:208-212,241-245), members
sorted. -/
def x5cHeader (alg : Str) (ders : List Bytes) : Json :=
  .obj [(c!"alg", .str alg), (c!"typ", .str requestObjectTyp),
    (c!"x5c", .arr (ders.map (fun d => .str (b64EncPad .std d))))]

/-- `generate_request_object_jwt` of both x509 clients
(src/verifier/client.rs:194-214,227-247). -/
def x5cGenerate (x : X509) (chain : List x.Cert) (s : Signer) (body : RequestObject) : Res Str :=
  match s.alg with
  | .error e => .error e
  | .ok alg => match mapR x.toDer chain with
    | .error e => .error e
    | .ok ders => .ok (makeJwt (x5cHeader alg ders) body s)

/-- `X509SanDnsClient` (src/verifier/client.rs:184-214). -/
def sanClient (x : X509) (id : ClientId) (chain : List x.Cert) (s : Signer) : Client where
  id := id
  pre := ⟨ClientIdScheme.x509SanDns⟩
  generate := x5cGenerate x chain s

/-- `X509SanDnsClient::new` (src/verifier/client.rs:87-124); `&x5c[0]` panics on an empty
chain. -/
def sanClientNew (x : X509) (chain : List x.Cert) (s : Signer) : Res Client :=
  match chain with
  | [] => .error .panic
  | leaf :: _ => match dnsNames x leaf with
    | [] => .error .missing
    | n :: _ => .ok (sanClient x (prefixedId ClientIdScheme.x509SanDns n) chain s)

/-- `X509HashClient` (src/verifier/client.rs:217-248). -/
def hashClient (x : X509) (id : ClientId) (chain : List x.Cert) (s : Signer) : Client where
  id := id
  pre := ⟨ClientIdScheme.x509Hash⟩
  generate := x5cGenerate x chain s

/-- `X509HashClient::new` (src/verifier/client.rs:137-154); `&x5c[0]` panics on an empty
chain. -/
def hashClientNew (x : X509) (chain : List x.Cert) (s : Signer) : Res Client :=
  match chain with
  | [] => .error .panic
  | leaf :: _ => match x.toDer leaf with
    | .error e => .error e
    | .ok der => .ok (hashClient x
        (prefixedId ClientIdScheme.x509Hash (b64Enc .url (x.sha256 der))) chain s)

end Oid4vp
