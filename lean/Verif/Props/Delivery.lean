import Verif.Spec.Delivery
import Verif.Props.Authentic
import Verif.Props.Endpoint
import Verif.Props.Response
/-! # C100: the answer to an accepted request goes to the verifier who asked -/

set_option autoImplicit false

namespace Oid4vp

open Spec AuthorizationRequest RequestBuilder

/-- Both ways to build prepare the request object in the same way. -/
theorem built_prepared {v : Verifier} {b : RequestBuilder} {s : Session} (h : Built v b s) :
    ∃ o, prepare v b s.uuid = .ok (o, s.dcqlQuery) ∧ RequestObject.ofObject o = .ok s.requestObject ∧
      v.client.generate s.requestObject = .ok s.jwt := by
  cases h with
  | link uuid wm busy σ σ' url hb hs =>
    obtain ⟨s', hc, hst⟩ := build_ok hb
    rw [hst.2.1, Option.some.injEq] at hs
    subst hs
    obtain ⟨o, _, _, _, hp, -, -, ho, hg, -, -, -, hu⟩ := construct_ok hc
    exact ⟨o, hu ▸ hp, ho, hg⟩
  | dcApi uuid busy σ σ' p hb hs =>
    obtain ⟨u, jwt⟩ := p
    obtain ⟨s', hc, hst, -⟩ := buildDcApi_ok hb
    rw [hst.2.1, Option.some.injEq] at hs
    subst hs
    obtain ⟨o, hp, ho, hg, -, hu⟩ := constructDcApi_ok hc
    exact ⟨o, hu ▸ hp, ho, hg⟩

theorem built_own {v : Verifier} {b : RequestBuilder} {s : Session} (hw : v.submissionEndpoint.WF)
    (h : Built v b s) : b.dcqlQuery = some s.dcqlQuery ∧ OwnValues v b.params s := by
  obtain ⟨o, hp, ho, -⟩ := built_prepared h
  exact ⟨(prepare_ok hp).1, ownValues_of hw hp ho rfl⟩

theorem built_object {v : Verifier} {b : RequestBuilder} {s : Session} (h : Built v b s) :
    RequestObject.ofObject s.requestObject.inner = .ok s.requestObject := by
  obtain ⟨o, -, ho, -⟩ := built_prepared h
  exact C05_reparse ho

theorem built_within {v : Verifier} {b : RequestBuilder} {s : Session} (h : Built v b s) (hw : Writable b) :
    WithinJson s.requestObject := by
  obtain ⟨o, hp, ho, -⟩ := built_prepared h
  have := (ofObject_iff.mp ho).1
  subst this
  exact prepare_writable hp hw

/-- Within JSON the keys of the metadata are proper. -/
theorem within_proper {a : RequestObject} (hw : WithinJson a) :
    ∀ cm keys key, mget c!"client_metadata" a.inner = some (.obj cm) → KeyList cm keys →
      FirstWith SuitableKey keys key → ProperKey key := by
  intro cm keys key hcm hk hf
  have h1 := member_wf (n := 126) hw hcm
  have hks : (Json.arr (keys.map .obj)).WF FltLit ∧ (Json.arr (keys.map .obj)).depth ≤ 125 := by
    rcases hk with ⟨m, h2, h3⟩ | h2
    · have h4 := member_wf (n := 125) h1 h2
      have h5 := member_wf (n := 124) h4 h3
      exact ⟨h5.1, Nat.le_succ_of_le h5.2⟩
    · have h4 := member_wf (n := 125) h1 h2
      have h5 := element_wf (n := 124) h4 (j := .arr (keys.map .obj)) (by simp)
      exact ⟨h5.1, Nat.le_succ_of_le h5.2⟩
  obtain ⟨b, e, rfl, -, -⟩ := hf
  have h6 := element_wf (n := 124) hks (j := .obj key) (by simp)
  exact ⟨h6.1, Nat.le_trans h6.2 (by decide)⟩

/-- **C100** For every request object that was built: what a wallet posts in answer goes to the address of the
session below the verifier's submission endpoint, and what it encrypts is encrypted to a key of the builder's
metadata, whatever else the caller of the builder set. -/
theorem C100_built (v : Verifier) (w : Wallet) (b : RequestBuilder) (s : Session)
    (hsub : v.submissionEndpoint.WF) (h : Built v b s) (hw : Writable b) : AnswersGoTo v w b s s.requestObject := by
  obtain ⟨hq, hown⟩ := built_own hsub h
  refine ⟨⟨hq, hown.query⟩, ?_, ?_, ?_⟩
  · rw [← hown.others _ (by decide)]
    exact (ofObject_iff.mp (built_object h)).2.2.1.nonce
  · intro ord r q hmem
    obtain ⟨-, ⟨u, hm, -, rfl⟩ | ⟨t, hm, -, rfl⟩⟩ := (submit_calls _ _ _ _ _).mp hmem
    · exact ⟨_, (hown.responseUri (.inl hm)).1, rfl, rfl⟩
    · exact ⟨_, (hown.responseUri (.inr hm)).1, rfl, rfl⟩
  · intro jk t st r hr
    obtain ⟨cm, keys, key, enc, jwe, h1, h2, h3, -, h5, -, h7, h8⟩ :=
      (C39_encrypted_response_iff jk _ t st r (within_proper (built_within h hw))).mp hr
    rw [hown.others _ (by decide)] at h1
    exact ⟨cm, keys, key, enc, jwe, h1, h2, h3, h5, h7, h8⟩

/-- What a wallet got as one of the request objects that were built is one of them. -/
theorem oneOf_built {v : Verifier} {made : RequestBuilder → Session → Prop} {a : RequestObject}
    (hmade : ∀ b s, made b s → Built v b s) (h : OneOf (AskedIn made) a) :
    ∃ b s, made b s ∧ a = s.requestObject := by
  obtain ⟨a', ⟨b, s, hm, rfl⟩, -, ho⟩ := h
  have : RequestObject.ofObject s.requestObject.toObject = .ok s.requestObject := built_object (hmade b s hm)
  rw [this, Except.ok.injEq] at ho
  exact ⟨b, s, hm, ho.symm⟩

theorem answers_of_oneOf {v : Verifier} {w : Wallet} {made : RequestBuilder → Session → Prop} {a : RequestObject}
    (hsub : v.submissionEndpoint.WF) (hmade : ∀ b s, made b s → Built v b s ∧ Writable b)
    (h : OneOf (AskedIn made) a) : ∃ b s, made b s ∧ AnswersGoTo v w b s a := by
  obtain ⟨b, s, hm, rfl⟩ := oneOf_built (fun b s hm => (hmade b s hm).1) h
  exact ⟨b, s, hm, C100_built v w b s hsub (hmade b s hm).1 (hmade b s hm).2⟩

theorem askedIn_within {v : Verifier} {made : RequestBuilder → Session → Prop}
    (hmade : ∀ b s, made b s → Built v b s ∧ Writable b) (a : RequestObject) (h : AskedIn made a) : WithinJson a := by
  obtain ⟨b, s, hm, rfl⟩ := h
  exact built_within (hmade b s hm).1 (hmade b s hm).2

/-- **C100** DID clients. Whatever request a wallet accepts under the client identifier of a verifier with a DID,
from whomever it came, the wallet's answer goes to the address of one of the verifier's sessions, and is encrypted
to a key of that session's builder, unless the token that the wallet got is a forgery. -/
theorem C100_did (v : Verifier) (w : Wallet) (verify : Str → Bytes → Jwk → Bytes → Bool) (resolver : Str → Res Jwk)
    (trusted : Option (List Str)) (s : Signer) (did frag alg : Str)
    (made : RequestBuilder → Session → Prop) (r : AuthorizationRequest) (a : RequestObject)
    (hsub : v.submissionEndpoint.WF) (hmade : ∀ b s, made b s → Built v b s ∧ Writable b)
    (hnew : didClientNew (did ++ '#' :: frag) s resolver = .ok v.client) (hfrag : '#' ∉ frag)
    (halg : s.alg = .ok alg)
    (hhdr : ∀ kid, w.ssiHeader (utf8 (jPrint (.obj (didMembers alg kid)))) = .ok (alg, true))
    (hver : ∀ a jwt, w.verifier .decentralizedIdentifier a (some jwt) =
      didVerify ⟨w.ssiHeader, verify⟩ resolver trusted w.metadata a jwt)
    (hnone : ∀ a, w.verifier .decentralizedIdentifier a none ≠ .ok ())
    (hn : ∀ alg, AlgListed w.metadata alg → ¬ MentionsNone alg)
    (h : (r.validate w).2 = .ok a) (hid : a.clientId = some v.client.id) :
    (∃ b s, made b s ∧ AnswersGoTo v w b s a) ∨
      ∃ jwt, JwtOf w r.indirection (some jwt) ∧ ForgedDid verify resolver did v.client (AskedIn made) jwt :=
  (C97_did w verify resolver trusted s did frag alg v.client _ r a hnew hfrag halg hhdr
    hver hnone hn (askedIn_within hmade) h hid).imp_left (answers_of_oneOf hsub hmade)

/-- **C100** x509_hash clients: the same, unless the token is a forgery for the client's certificate or carries
another one with the same hash. -/
theorem C100_hash (v : Verifier) (w : Wallet) (x : X509) (sv : SigVerifier) (roots : Option (List x.Cert))
    (s : Signer) (leaf : x.Cert) (rest : List x.Cert) (alg : Str) (der : Bytes)
    (made : RequestBuilder → Session → Prop) (r : AuthorizationRequest) (a : RequestObject)
    (hsub : v.submissionEndpoint.WF) (hmade : ∀ b s, made b s → Built v b s ∧ Writable b)
    (hnew : hashClientNew x (leaf :: rest) s = .ok v.client) (halg : s.alg = .ok alg)
    (hder : x.toDer leaf = .ok der) (hfrom : x.fromDer der = some leaf)
    (hhdr : ∀ ders, w.ssiHeader (utf8 (jPrint (.obj (x5cMembers alg ders)))) = .ok (alg, true))
    (hver : ∀ a jwt, w.verifier .x509Hash a (some jwt) = x509HashVerify x sv roots w.metadata a jwt)
    (hnone : ∀ a, w.verifier .x509Hash a none ≠ .ok ())
    (h : (r.validate w).2 = .ok a) (hid : a.clientId = some v.client.id) :
    (∃ b s, made b s ∧ AnswersGoTo v w b s a) ∨ ∃ jwt, JwtOf w r.indirection (some jwt) ∧
      (ForgedCert x sv leaf v.client (AskedIn made) jwt ∨
        ∃ d c, Carried x jwt d c ∧ d ≠ der ∧ x.sha256 d = x.sha256 der) :=
  (C97_hash w x sv roots s leaf rest alg der v.client _ r a hnew halg hder hfrom hhdr
    hver hnone (askedIn_within hmade) h hid).imp_left (answers_of_oneOf hsub hmade)

/-- **C100** x509_san_dns clients: the same, unless the token is a forgery for a certificate that it carries and
that names the host, whosever it is (the code does not prevent this, see C97). -/
theorem C100_san (v : Verifier) (w : Wallet) (x : X509) (sv : SigVerifier) (roots : Option (List x.Cert))
    (s : Signer) (leaf : x.Cert) (rest : List x.Cert) (alg host : Str)
    (made : RequestBuilder → Session → Prop) (r : AuthorizationRequest) (a : RequestObject)
    (hsub : v.submissionEndpoint.WF) (hmade : ∀ b s, made b s → Built v b s ∧ Writable b)
    (hnew : sanClientNew x (leaf :: rest) s = .ok v.client) (halg : s.alg = .ok alg)
    (hhost : v.client.id.val = c!"x509_san_dns:" ++ host)
    (hhdr : ∀ ders, w.ssiHeader (utf8 (jPrint (.obj (x5cMembers alg ders)))) = .ok (alg, true))
    (hver : ∀ a jwt, w.verifier .x509SanDns a (some jwt) = x509SanVerify x sv roots w.metadata a jwt)
    (hnone : ∀ a, w.verifier .x509SanDns a none ≠ .ok ())
    (h : (r.validate w).2 = .ok a) (hid : a.clientId = some v.client.id) :
    (∃ b s, made b s ∧ AnswersGoTo v w b s a) ∨ ∃ jwt, JwtOf w r.indirection (some jwt) ∧ ∃ d c,
      Carried x jwt d c ∧ NamesHost x c host ∧ ForgedCert x sv c v.client (AskedIn made) jwt :=
  (C97_san w x sv roots s leaf rest alg host v.client _ r a hnew halg hhost hhdr
    hver hnone (askedIn_within hmade) h hid).imp_left (answers_of_oneOf hsub hmade)

/-! ## Cases -/

/-- A request that was built fits the wallet for which it was built. -/
theorem built_fits {v : Verifier} {b : RequestBuilder} {s : Session} {wm : WalletMetadata} {w : Wallet}
    (hsub : v.submissionEndpoint.WF) (h : Built v b s) (hmatch : Matching v b wm w)
    (hpre : PrefixIs (some v.client.id) (some v.client.pre)) : FitsWallet w.metadata.inner s.requestObject := by
  obtain ⟨-, hown⟩ := built_own hsub h
  obtain ⟨o, hp, ho, -⟩ := built_prepared h
  obtain ⟨-, mode, base, hbase, hmode, -⟩ := prepare_ok hp
  have hrep := (ofObject_iff.mp (built_object h)).2.2.1
  refine ⟨?_, ?_, ?_⟩
  · intro p hp'
    rw [hown.clientIdField] at hp'
    have := prefixIs_unique hp' hpre
    simp only [Option.some.injEq] at this
    rw [this]
    exact hmatch.supported
  · obtain ⟨t, ht, -⟩ := (get_text (f := ResponseMode.ofStr) (fun _ => rfl) _ _).mp hmode
    have ht : mget c!"response_mode" base = some (.str t) := ht
    rw [hbase, mget_mset_ne (by decide), mget_mset_ne (by decide)] at ht
    rw [Absent, hown.others _ (by decide), ht]
    simp
  · have hm : AsksMode b.params s.requestObject.responseMode := by
      have := hrep.mode
      simp only [AsksMode, Absent, HasText] at this ⊢
      rwa [hown.others _ (by decide)] at this
    have := hmatch.metadata _ hm
    simp only [MetadataFits, Absent] at this ⊢
    rwa [hown.others _ (by decide)]

theorem made_in {c : Client} {a : RequestObject} {asked : RequestObject → Prop} {msg : Bytes}
    (ha : asked a) (h : MadeFor c (· = a) msg) : MadeFor c asked msg := by
  obtain ⟨a', jwt, rfl, h1, h2⟩ := h
  exact ⟨_, jwt, ha, h1, h2⟩

theorem auth_built (id : Uuid) : ∃ s, Built (e2eVerifier authClient .no) buildRequest s := by
  have hp : authClient.pre.val ∈ [c!"decentralized_identifier", c!"x509_hash", c!"x509_san_dns"] := by decide
  have hg : ∀ a, ∃ jwt, authClient.generate a = .ok jwt := fun a => ⟨_, rfl⟩
  obtain ⟨σ', url, h⟩ := e2e_built authClient hg hp .no (.inl rfl) id []
  obtain ⟨s, -, hs⟩ := build_ok h
  exact ⟨s, .link _ _ _ _ _ _ h hs.2.1⟩

/-- A verifier with a DID builds one request; the wallet that knows its key accepts this request, and whatever it
accepts under the identifier it answers at the address of the session, though the caller of the builder wanted
the answer elsewhere. -/
example (s : Session) (hb : Built (e2eVerifier authClient .no) buildRequest s) :
    let w := authWallet (signingInput (b64Enc .url (utf8 (jPrint (.obj (didMembers c!"ES256" c!"did:ex:1#k")))))
      (b64Enc .url (utf8 (jPrint (.obj s.requestObject.toObject)))))
    (∃ r, (AuthorizationRequest.validate w r).2 = .ok s.requestObject) ∧
    ∀ r a, (AuthorizationRequest.validate w r).2 = .ok a → a.clientId = some authClient.id →
      AnswersGoTo (e2eVerifier authClient .no) w buildRequest s a := by
  have hp : authClient.pre.val ∈ [c!"decentralized_identifier", c!"x509_hash", c!"x509_san_dns"] := by decide
  have hsub : (e2eVerifier authClient .no).submissionEndpoint.WF := buildVerifier_wf .no
  intro w
  have hnew : didClientNew (c!"did:ex:1" ++ '#' :: c!"k") toySigner (fun _ => .ok []) = .ok authClient := rfl
  have hgen : authClient.generate s.requestObject =
    .ok (makeJwt (.obj (didMembers c!"ES256" c!"did:ex:1#k")) s.requestObject toySigner) := rfl
  have hwi := built_within hb e2e_writable
  have hread := makeJwt_reads (hdr := fun _ => .ok (c!"ES256", true)) (s := toySigner) (a := s.requestObject)
    (didMembers_wf c!"ES256" c!"did:ex:1#k") (didMembers_depth _ _) rfl rfl hwi.1 hwi.2
  have hown := (built_own hsub hb).2
  have hcid : s.requestObject.clientId = some ⟨c!"decentralized_identifier:did:ex:1"⟩ := hown.clientIdField
  constructor
  · refine ⟨⟨none, .byValue _⟩, accepted_by_value (m := .decentralizedIdentifier) hread.1 hread.2
      (built_object hb) (built_fits (w := w) hsub hb
        (wm := e2eMetadata) ?_ ⟨by decide, c!"did:ex:1", rfl⟩) (hcid ▸ .did _) ?_ (by simp)⟩
    · have := e2e_matching authClient .no [] hp
      exact ⟨this.endpoint, this.supported, this.metadata⟩
    rw [authWallet_did]
    rw [C19_accepted_iff]
    refine ⟨didMembers c!"ES256" c!"did:ex:1#k", c!"ES256", ?_, rfl, ⟨[c!"ES256"], rfl, by simp⟩, .inr
      ⟨c!"did:ex:1", c!"k", _, [], rfl, by decide, hcid, .inl rfl, by simp, rfl, ?_⟩⟩
    · rw [makeJwt_eq]
      exact compactJws_header (didMembers_wf _ _) (didMembers_depth _ _)
    · rw [makeJwt_eq]
      exact ⟨_, _, _, _, _, c!"ES256", true, _, _, compactJws_parts _ _ _, b64Dec_b64Enc _ _, b64Dec_b64Enc _ _, rfl,
        by simp [toySigner, signingInput], b64Dec_b64Enc _ _, jParseBytes_jPrint hwi.2 hwi.1⟩
  · intro r a h hid
    rcases C100_did (e2eVerifier authClient .no) w
      (fun _ msg _ sig => msg == sig && msg == _) (fun _ => .ok []) (some [c!"did:ex:1"]) toySigner
      c!"did:ex:1" c!"k" c!"ES256" (fun b s' => b = buildRequest ∧ s' = s) r a hsub
      (by rintro b s' ⟨rfl, rfl⟩; exact ⟨hb, e2e_writable⟩) hnew (by decide) rfl (fun _ => rfl) (fun _ _ => rfl)
      (fun _ h => nomatch h) e2e_no_none h hid with
      ⟨b, s', ⟨rfl, rfl⟩, hd⟩ | ⟨jwt, -, frag, key, alg, msg, sig, -, -, hv, hn⟩
    · exact hd
    · exact absurd (made_in ⟨_, _, ⟨rfl, rfl⟩, rfl⟩ (made_of_only hgen hv)) hn

/-- A request for an encrypted answer, with the key of the verifier in the metadata. -/
def sealedRequest : RequestBuilder :=
  ⟨some dcqlSample, [(c!"client_metadata", .obj [(c!"jwks", .obj [(c!"keys", .arr [.obj sigKey, .obj encKey])])]),
    (c!"nonce", .str c!"n"), (c!"response_mode", .str c!"direct_post.jwt"), (c!"response_type", .str c!"vp_token")]⟩

/-- What is built from it is answered with a token for this key. -/
example : ∃ s, Built (buildVerifier .no) sealedRequest s ∧
    buildEncryptedResponse toyJose s.requestObject tokenSample none =
      .ok (.jwt (jPrint (.arr [.obj encKey, .obj (encHeader c!"A128GCM" (some c!"k1")),
        .obj (encPayload tokenSample.toJson none)]))) :=
  ⟨_, .dcApi (buildId 7) false [] _ _ rfl rfl, rfl⟩

end Oid4vp
