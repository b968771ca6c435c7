import Verif.Props.Signed
/-!
# C93: the bundled signer
-/

set_option autoImplicit false

namespace Oid4vp

open Spec

/-- **C93** For all keys, the bundled signer announces ES256 under both traits, publishes the two
coordinates of the public key (RFC 7518 section 6.2.1) and nothing else, and names no key id. -/
theorem C93_es256 (x y : Bytes) (sign : Bytes → Bytes) :
    (P256Signer.new x y sign).signer.alg = .ok c!"ES256" ∧
    (P256Signer.new x y sign).info = (c!"ES256", none) ∧
    (P256Signer.new x y sign).signer.jwk = .ok [(c!"crv", .str c!"P-256"), (c!"kty", .str c!"EC"),
      (c!"x", .str (base64 base64Url x)), (c!"y", .str (base64 base64Url y))] := by
  refine ⟨rfl, rfl, ?_⟩
  simp only [P256Signer.signer, P256Signer.new, C52_base64_rfc4648]
  rfl

/-- **C93** Different keys are published as different JWKs. -/
theorem C93_key_determined (x y x' y' : Bytes) (sign sign' : Bytes → Bytes)
    (h : (P256Signer.new x y sign).signer.jwk = (P256Signer.new x' y' sign').signer.jwk) :
    x = x' ∧ y = y' := by
  simp only [P256Signer.signer, P256Signer.new, Except.ok.injEq, List.cons.injEq, Prod.mk.injEq,
    Json.str.injEq, true_and, and_true] at h
  obtain ⟨h1, h2⟩ := h
  constructor
  · have := b64Dec_b64Enc .url x
    rw [h1, b64Dec_b64Enc] at this
    exact (Option.some.inj this).symm
  · have := b64Dec_b64Enc .url y
    rw [h2, b64Dec_b64Enc] at this
    exact (Option.some.inj this).symm

/-- **C93** The two traits agree: the same algorithm, and the same signatures. -/
theorem C93_traits_agree (s : P256Signer) (msg : Bytes) :
    s.signer.alg = .ok s.info.1 ∧ s.signBytes msg = .ok (s.signer.sign msg) ∧
      s.signer.sign msg = s.sign msg := ⟨rfl, rfl, rfl⟩

/-- **C93** Algorithm and key id are those of the JWK; without an algorithm it is ES256. -/
theorem C93_as_the_key_says (s : P256Signer) :
    (∀ a, mget c!"alg" s.jwk = some (.str a) → s.info.1 = a) ∧
    ((∀ a, mget c!"alg" s.jwk ≠ some (.str a)) → s.info.1 = c!"ES256") ∧
    ∀ k, s.info.2 = some k ↔ mget c!"kid" s.jwk = some (.str k) := by
  simp only [P256Signer.info, P256Signer.algorithm]
  refine ⟨fun a h => by rw [h], fun h => ?_, fun k => ?_⟩
  · split
    · exact absurd ‹_› (h _)
    · rfl
  · split
    · rename_i h; rw [h]; simp
    · rename_i h; simpa using h k

-- C93: a key with both
example : P256Signer.info ⟨[(c!"alg", .str c!"ES384"), (c!"kid", .str c!"1")], id⟩ = (c!"ES384", some c!"1") := by
  decide +kernel

theorem jwsHeader_unique {jwt : Str} {m m' : List (Str × Json)} (h : JwsHeader jwt m)
    (h' : JwsHeader jwt m') : m = m' := by
  rw [← jwsHeader_ok] at h h'
  rw [h] at h'; exact Except.ok.inj h'

/-- **C93** What a DID client with the bundled signer signs is accepted exactly by the wallets that list
ES256. -/
theorem C93_did_iff (ssi : Ssi) (resolver : Str → Res Jwk) (trusted : Option (List Str))
    (wm : WalletMetadata) (x y : Bytes) (sign : Bytes → Bytes) (did frag jwt : Str) (client : Client)
    (a : RequestObject)
    (hnew : didClientNew (did ++ '#' :: frag) (P256Signer.new x y sign).signer resolver = .ok client)
    (hone : '#' ∉ did) (hfrag : '#' ∉ frag)
    (hid : a.clientId = some client.id) (hgen : client.generate a = .ok jwt)
    (hwf : (Json.obj a.toObject).WF FltLit) (hd : (Json.obj a.toObject).depth < 128)
    (htrust : ∀ l, trusted = some l → did ∈ l)
    (hhdr : ∀ kid, ssi.header (utf8 (jPrint (.obj (didMembers c!"ES256" kid)))) = .ok (c!"ES256", true))
    (hsig : ∀ msg, ssi.verify c!"ES256" msg (P256Signer.new x y sign).jwk (sign msg) = true) :
    didVerify ssi resolver trusted wm a jwt = .ok () ↔ AlgListed wm c!"ES256" := by
  constructor
  · intro h
    obtain ⟨m, alg, hm, ha, hl, -⟩ := (C19_accepted_iff _ _ _ _ _ _).mp h
    obtain ⟨did', frag', key, -, -, -, -, -, -, hg⟩ := (C72_did_client _ _ _ _).mp hnew
    rw [hg] at hgen
    have hg2 : makeJwt (didHeader c!"ES256" (did ++ '#' :: frag)) a (P256Signer.new x y sign).signer =
        jwt := Except.ok.inj hgen
    rw [show didHeader c!"ES256" (did ++ '#' :: frag) =
      .obj (didMembers c!"ES256" (did ++ '#' :: frag)) from rfl, makeJwt_eq] at hg2
    have hh : JwsHeader jwt (didMembers c!"ES256" (did ++ '#' :: frag)) := by
      rw [← hg2]; exact compactJws_header (didMembers_wf _ _) (didMembers_depth _ _)
    have := jwsHeader_unique hm hh
    subst this
    cases ha
    exact hl
  · intro hl
    exact C22_did_accepted ssi resolver trusted wm _ did frag c!"ES256" jwt (P256Signer.new x y sign).jwk
      client a hnew hone hfrag hid hgen hwf hd rfl hl htrust rfl hhdr hsig

/-- **C93** What the certificate clients sign with the bundled signer is accepted by the bundled P-256
verifier exactly in the wallets that list ES256. The hypotheses say that the library reads the key of
the certificate and accepts, under it, the signatures of the signer. -/
theorem C93_certificate_iff {K S : Type} (readKey : Bytes → Option K) (readSig : Bytes → Option S)
    (check : K → Bytes → S → Bool) (x509 : X509) (roots : Option (List x509.Cert))
    (wm : WalletMetadata) (x y : Bytes) (sign : Bytes → Bytes) (leaf : x509.Cert)
    (rest : List x509.Cert) (jwt : Str) (client : Client) (a : RequestObject) (k : K)
    (hid : a.clientId = some client.id) (hgen : client.generate a = .ok jwt)
    (hder : ∀ c d, x509.toDer c = .ok d → x509.fromDer d = some c)
    (hkey : readKey (x509.spki leaf) = some k)
    (hsig : ∀ msg, ∃ g, readSig (sign msg) = some g ∧ check k msg g = true) :
    (sanClientNew x509 (leaf :: rest) (P256Signer.new x y sign).signer = .ok client →
      (x509SanVerify x509 (p256Verifier readKey readSig check) roots wm a jwt = .ok () ↔
        AlgListed wm c!"ES256")) ∧
    (hashClientNew x509 (leaf :: rest) (P256Signer.new x y sign).signer = .ok client →
      (x509HashVerify x509 (p256Verifier readKey readSig check) roots wm a jwt = .ok () ↔
        AlgListed wm c!"ES256")) := by
  have hkey' : (p256Verifier readKey readSig check).fromSpki (x509.spki leaf) c!"ES256" = some k := by
    rw [← hkey]; rfl
  have hsig' : ∀ msg, (p256Verifier readKey readSig check).verify k msg
      ((P256Signer.new x y sign).signer.sign msg) = true := by
    intro msg
    obtain ⟨g, h1, h2⟩ := hsig msg
    change (match readSig (sign msg) with
      | none => false
      | some s => check k msg s) = true
    rw [h1]; exact h2
  have hes : ∀ c alg, CertSigned x509 (p256Verifier readKey readSig check) c alg jwt → alg = c!"ES256" :=
    fun c alg h => (C20_p256_only_es256 readKey readSig check x509 c alg jwt h).1
  refine ⟨fun hnew => ⟨fun h => ?_, fun hl => ?_⟩, fun hnew => ⟨fun h => ?_, fun hl => ?_⟩⟩
  · obtain ⟨cid, m, alg, der, c, host, -, -, -, hl, -, -, -, hs⟩ := (C20_accepted_iff _ _ _ _ _ _).mp h
    rw [← hes c alg hs]; exact hl
  · exact C22_san_accepted x509 _ roots wm _ leaf rest c!"ES256" jwt client a k hnew hid hgen rfl hl hder
      hkey' hsig'
  · obtain ⟨cid, m, alg, der, c, -, -, -, hl, -, -, hs⟩ := (C21_accepted_iff _ _ _ _ _ _).mp h
    rw [← hes c alg hs]; exact hl
  · exact C22_hash_accepted x509 _ roots wm _ leaf rest c!"ES256" jwt client a k hnew hid hgen rfl hl hder
      hkey' hsig'

/-! ### Examples -/

/-- A bundled signer with the toy signatures. -/
def toyP256 : P256Signer := P256Signer.new [1, 2] [3, 4] id

/-- The key that it publishes. -/
def toyP256Jwk : Jwk := [(c!"crv", .str c!"P-256"), (c!"kty", .str c!"EC"), (c!"x", .str c!"AQI"),
  (c!"y", .str c!"AwQ")]

example : toyP256.signer.jwk = .ok toyP256Jwk := by decide +kernel

-- accepted by a wallet that lists ES256, refused by one that lists ES384 only
example : ∃ client jwt, didClientNew c!"did:ex:1#k" toyP256.signer (fun _ => .ok toyP256.jwk) = .ok client ∧
    client.generate { explicitObject with clientId := some client.id } = .ok jwt ∧
    ∀ l, (didVerify toySsi (fun _ => .ok toyP256.jwk) (some [c!"did:ex:1"]) (listing l)
      { explicitObject with clientId := some client.id } jwt = .ok () ↔ c!"ES256" ∈ l) := by
  refine ⟨_, _, rfl, rfl, fun l => ?_⟩
  rw [← listing_listed]
  exact C93_did_iff toySsi _ _ _ [1, 2] [3, 4] id c!"did:ex:1" c!"k" _ _ _ rfl (by decide) (by decide) rfl rfl
    explicitSample_wf (by decide) (by simp) (fun _ => rfl) (by simp [toySsi])

example : ∃ client jwt, sanClientNew toyX509 [[1, 2], [3]] toyP256.signer = .ok client ∧
    client.generate explicitObject = .ok jwt ∧
    ∀ l, (x509SanVerify toyX509 (p256Verifier (fun _ => some ()) some (fun _ m g => m == g)) none (listing l)
      explicitObject jwt = .ok () ↔ c!"ES256" ∈ l) := by
  refine ⟨_, _, rfl, rfl, fun l => ?_⟩
  rw [← listing_listed]
  exact (C93_certificate_iff (fun _ => some ()) some (fun _ m g => m == g) toyX509 none _ [1, 2] [3, 4] id
    [1, 2] [[3]] _ _ _ () rfl rfl (by rintro c d ⟨⟩; rfl) rfl (fun msg => ⟨msg, rfl, by simp⟩)).1 rfl

end Oid4vp
