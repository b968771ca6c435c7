import Verif.Spec.EndToEnd
import Verif.Props.Fits
import Verif.Props.Verify
/-!
# C27: a request built by the verifier is validated by the wallet as the stored request object
-/

set_option autoImplicit false

namespace Oid4vp

open Spec AuthorizationRequest RequestBuilder

theorem wf_mset {P : Str → Prop} {m : List (Str × Json)} {k : Str} {j : Json}
    (h : (Json.obj m).WF P) (hj : j.WF P) : (Json.obj (mset k j m)).WF P := by
  simp only [Json.WF, wfM_iff] at h ⊢
  refine ⟨sorted_mset h.1, ?_⟩
  intro p hp
  rcases mem_mset hp with rfl | hp
  · exact hj
  · exact h.2 p hp

theorem depth_mset {m : List (Str × Json)} {k : Str} {j : Json} {n : Nat}
    (h : (Json.obj m).depth ≤ n + 1) (hj : j.depth ≤ n) : (Json.obj (mset k j m)).depth ≤ n + 1 := by
  simp only [Json.depth] at h ⊢
  have h' : Json.depthM m ≤ n := by omega
  have : Json.depthM (mset k j m) ≤ n := by
    rw [depthM_le] at h' ⊢
    intro p hp
    rcases mem_mset hp with rfl | hp
    · exact hj
    · exact h' p hp
  omega

/-- JSON that can be written and read back, of bounded nesting. -/
def Fine (n : Nat) (j : Json) : Prop := j.WF FltLit ∧ j.depth ≤ n

theorem fine_mono {n k : Nat} {j : Json} (h : Fine n j) (hk : n ≤ k) : Fine k j :=
  ⟨h.1, Nat.le_trans h.2 hk⟩

theorem fine_str (n : Nat) (s : Str) : Fine n (.str s) := ⟨trivial, Nat.zero_le _⟩

theorem fine_bool (n : Nat) (b : Bool) : Fine n (.bool b) := ⟨trivial, Nat.zero_le _⟩

theorem fine_nil (n : Nat) : Fine (n + 1) (.obj []) := by
  simp [Fine, Json.WF, Json.WFM, Sorted, Json.depth, Json.depthM]

theorem fine_mset {n : Nat} {m : List (Str × Json)} {k : Str} {j : Json} (h : Fine (n + 1) (.obj m))
    (hj : Fine n j) : Fine (n + 1) (.obj (mset k j m)) := ⟨wf_mset h.1 hj.1, depth_mset h.2 hj.2⟩

theorem fine_msetOpt {n : Nat} {m : List (Str × Json)} {k : Str} {o : Option Json}
    (h : Fine (n + 1) (.obj m)) (ho : ∀ j, o = some j → Fine n j) : Fine (n + 1) (.obj (msetOpt k o m)) := by
  cases o with
  | none => exact h
  | some j => exact fine_mset h (ho j rfl)

theorem fine_arr {α : Type} {n : Nat} {f : α → Json} {l : List α} (h : ∀ x ∈ l, Fine n (f x)) :
    Fine (n + 1) (.arr (l.map f)) := by
  constructor
  · simp only [Json.WF, wfL_iff, List.mem_map]
    rintro j ⟨x, hx, rfl⟩
    exact (h x hx).1
  · simp only [Json.depth]
    have : Json.depthL (l.map f) ≤ n := by
      rw [depthL_le]
      intro j hj
      obtain ⟨x, hx, rfl⟩ := List.mem_map.mp hj
      exact (h x hx).2
    omega

theorem fine_opt {α : Type} {n : Nat} {f : α → Json} {o : Option α} (h : ∀ x, o = some x → Fine n (f x)) :
    ∀ j, o.map f = some j → Fine n j := by
  intro j hj
  obtain ⟨x, rfl, rfl⟩ := Option.map_eq_some_iff.mp hj
  exact h x rfl

theorem fine_path {n : Nat} {e : PathElem} (h : PathOk e) : Fine n e.toJson := by
  cases e with
  | string s => exact fine_str _ _
  | null => exact ⟨trivial, Nat.zero_le _⟩
  | integer k =>
    refine ⟨?_, Nat.zero_le _⟩
    simp only [PathOk] at h
    simp only [PathElem.toJson, Json.WF]
    omega

theorem fine_value {n : Nat} {x : ClaimValue} (h : ValueOk x) : Fine n x.toJson := by
  cases x with
  | string s => exact fine_str _ _
  | boolean b => exact fine_bool _ _
  | integer k =>
    refine ⟨?_, Nat.zero_le _⟩
    simp only [ValueOk] at h
    simp only [ClaimValue.toJson, Json.WF]
    omega

theorem fine_claims {n : Nat} {k : ClaimsQuery} (hp : ∀ e ∈ k.path.vec, PathOk e)
    (hv : ∀ vs, k.values = some vs → ∀ x ∈ vs.vec, ValueOk x) : Fine (n + 2) k.toJson := by
  refine fine_msetOpt (fine_msetOpt (fine_mset (fine_msetOpt (fine_nil _) ?_) ?_) ?_) ?_
  · exact fine_opt (fun _ _ => fine_str _ _)
  · exact fine_arr (fun e he => fine_path (hp e he))
  · exact fine_opt (fun vs hvs => fine_arr (fun x hx => fine_value (hv vs hvs x hx)))
  · exact fine_opt (fun _ _ => fine_bool _ _)

theorem fine_strs {n : Nat} {l : List Str} : Fine (n + 1) (strsToJson l) := fine_arr (fun _ _ => fine_str _ _)

/-- A query is written as JSON that can be read back. -/
theorem fine_query {q : DcqlQuery} (h : QueryWritable q) : Fine 126 q.toJson := by
  refine fine_msetOpt (fine_mset (fine_nil _) (fine_arr ?_)) (fine_opt ?_)
  · intro c hc
    obtain ⟨h1, h2, h3⟩ := h c hc
    refine fine_msetOpt (fine_msetOpt (fine_msetOpt (fine_msetOpt (fine_msetOpt (fine_mset (fine_mset
      (fine_mset (fine_nil _) (fine_str _ _)) ?_) ⟨h1, h2⟩) ?_) ?_) ?_) ?_) ?_
    · exact fine_str _ _
    · exact fine_opt (fun l hl => fine_arr (fun k hk => fine_claims (h3 l hl k hk).1 (h3 l hl k hk).2))
    · exact fine_opt (fun l hl => fine_arr (fun k hk => fine_strs))
    · exact fine_opt (fun l hl => fine_arr (fun k hk =>
        fine_mset (fine_mset (fine_nil _) (fine_str _ _)) (fine_arr (fun _ _ => fine_str _ _))))
    · exact fine_opt (fun _ _ => fine_bool _ _)
    · exact fine_opt (fun _ _ => fine_bool _ _)
  · intro l hl
    refine fine_arr (fun c hc => fine_msetOpt (fine_mset (fine_nil _) (fine_arr (fun k hk => fine_strs)))
      (fine_opt (fun _ _ => fine_bool _ _)))

/-- What is built can be written and read back. -/
theorem prepare_writable {v : Verifier} {b : RequestBuilder} {uuid : Uuid} {o : UntypedObject}
    {q : DcqlQuery} (h : prepare v b uuid = .ok (o, q)) (hw : Writable b) :
    (Json.obj o).WF FltLit ∧ (Json.obj o).depth ≤ 127 := by
  obtain ⟨hq, mode, base, rfl, -, hcase⟩ := prepare_ok h
  have hwf : (Json.obj (mset c!"dcql_query" q.toJson
      (mset c!"client_id" (.str v.client.id.val) b.params))).WF FltLit :=
    wf_mset (wf_mset hw.params trivial) (fine_query (hw.query q hq)).1
  have hd : (Json.obj (mset c!"dcql_query" q.toJson
      (mset c!"client_id" (.str v.client.id.val) b.params))).depth ≤ 126 + 1 :=
    depth_mset (depth_mset hw.paramsDepth (by simp [Json.depth])) (fine_query (hw.query q hq)).2
  rcases hcase with ⟨-, uri, -, rfl⟩ | ⟨-, rfl⟩
  · exact ⟨wf_mset hwf trivial, depth_mset hd (by simp [Json.depth])⟩
  · exact ⟨hwf, hd⟩

/-- The common part of C27: the client signs with a header of the right type that the wallet's JWS
library reads, and the wallet's method for the client's prefix accepts what the client signed. -/
theorem built_validated (v : Verifier) (b : RequestBuilder) (uuid : Uuid) (wm : WalletMetadata)
    (busy : Bool) (σ σ' : Store) (url : Url) (w : Wallet) (m : VerifyMethod)
    (hsub : v.submissionEndpoint.WF)
    (href : ∀ base, v.passByReference = .at base → base.WF)
    (hbuild : buildWithSessionId v b uuid wm busy σ = (σ', .ok url))
    (hmatch : Matching v b wm w) (hwr : Writable b) (hserve : Serves v σ' w)
    (hpre : PrefixIs (some v.client.id) (some v.client.pre))
    (hmeth : MethodFor (some v.client.id) m)
    (hgen : ∀ a jwt, a.clientId = some v.client.id → (Json.obj a.toObject).WF FltLit →
      (Json.obj a.toObject).depth ≤ 127 → v.client.generate a = .ok jwt →
      TypedAsRequest jwt ∧ JwsPayload w.ssiHeader jwt a.toObject ∧ w.verifier m a (some jwt) = .ok ()) :
    ∃ s u, σ'.get uuid = some s ∧ Url.parse url.print = some u ∧
      (w.validateRequest u).2 = .ok s.requestObject := by
  obtain ⟨s, ep, hs, hep, hprint, hval, hrefr⟩ := C25_url_refers_to_session v b uuid wm busy σ σ' url href hbuild
  obtain ⟨s', hs', -, hown⟩ := C24_own_values_win v b uuid wm busy σ σ' url hsub hbuild
  rw [hs] at hs'; cases hs'
  obtain ⟨s'', hc, hst⟩ := build_ok hbuild
  have : s'' = s := by
    have h1 := hst.2.1
    rw [hs] at h1
    exact (Option.some.inj h1).symm
  subst this
  obtain ⟨o, ps, ind, ep', hp, -, -, ho, hg, -, -, -, -⟩ := construct_ok hc
  obtain ⟨rfl, -, hrep, -⟩ := ofObject_iff.mp ho
  obtain ⟨hwf, hd⟩ := prepare_writable hp hwr
  obtain ⟨htyp, hpay, hver⟩ := hgen s''.requestObject s''.jwt hown.clientIdField hwf hd hg
  -- the endpoint is the wallet's
  have hepw : ep.val = w.metadata.authorizationEndpoint.val := by
    obtain ⟨t, h1, h2⟩ := hmatch.endpoint
    obtain ⟨t', h1', h2'⟩ := (endpoint_get wm.inner ep.val).mp hep
    rw [HasText] at h1 h1'
    rw [h1] at h1'
    simp only [Option.some.injEq, Json.str.injEq] at h1'
    rw [← h1', h2] at h2'
    exact (Option.some.inj h2').symm
  -- the request object fits
  have hfits : FitsWallet w.metadata.inner s''.requestObject := by
    obtain ⟨-, mode, base, hbase, hmode, hcase⟩ := prepare_ok hp
    have hkeep : ∀ k, k ∉ ownKeys → mget k s''.requestObject.inner = mget k b.params := hown.others
    refine ⟨?_, ?_, ?_⟩
    · intro p hp'
      rw [hown.clientIdField] at hp'
      have := prefixIs_unique hp' hpre
      simp only [Option.some.injEq] at this
      rw [this]
      exact hmatch.supported
    · obtain ⟨t, ht, -⟩ := (get_text (f := ResponseMode.ofStr) (fun _ => rfl) _ _).mp hmode
      have ht : mget c!"response_mode" base = some (.str t) := ht
      rw [hbase, mget_mset_ne (by decide), mget_mset_ne (by decide)] at ht
      rw [Absent, hkeep _ (by decide), ht]
      simp
    · have hm : AsksMode b.params s''.requestObject.responseMode := by
        have := hrep.mode
        simp only [AsksMode, Absent, HasText] at this ⊢
        rwa [hkeep _ (by decide)] at this
      have := hmatch.metadata _ hm
      simp only [MetadataFits, Absent] at this ⊢
      rwa [hkeep _ (by decide)]
  -- what the wallet makes of the request
  have hfinal : ∀ i, AuthorizationRequest.fromUrl url ep.val = .ok ⟨some v.client.id.val, i⟩ →
      JwtOf w i (some s''.jwt) → (w.validateRequest url).2 = .ok s''.requestObject := by
    intro i hi hj
    simp only [Wallet.validateRequest, ← hepw, hi]
    rw [C15_validation_iff]
    refine ⟨some s''.jwt, m, resolve_ok.mpr ⟨hj, ⟨_, hpay, ho⟩, ?_⟩, hfits, ?_, hver, ?_⟩
    · rintro jwt ⟨⟩; exact .inl htyp
    · rw [hown.clientIdField]; exact hmeth
    · rintro x y ⟨⟩ hy
      rw [hown.clientIdField] at hy
      cases hy; rfl
  refine ⟨s'', url, hs, hprint, ?_⟩
  cases hr : v.passByReference with
  | no => exact hfinal _ (hval hr) rfl
  | «at» base =>
    obtain ⟨uri, haddr, -, hf, hret⟩ := hrefr base hr
    exact hfinal _ hf ⟨_, hserve base uuid uri _ hr haddr hret, rfl⟩

/-- What a compact JWS over the request object says. -/
theorem makeJwt_reads {m : List (Str × Json)} {a : RequestObject} {s : Signer} {hdr : SsiHeader} {alg : Str}
    (hm : (Json.obj m).WF FltLit) (hmd : (Json.obj m).depth ≤ jsonMaxDepth)
    (ht : mget c!"typ" m = some (.str c!"oauth-authz-req+jwt"))
    (hh : hdr (utf8 (jPrint (.obj m))) = .ok (alg, true))
    (hw : (Json.obj a.toObject).WF FltLit) (hd : (Json.obj a.toObject).depth ≤ 127) :
    TypedAsRequest (makeJwt (.obj m) a s) ∧ JwsPayload hdr (makeJwt (.obj m) a s) a.toObject := by
  rw [makeJwt_eq]
  exact ⟨⟨m, compactJws_header hm hmd, ht⟩, compactJws_payload hh hw hd⟩

/-- **C27** for the DID client: whatever the caller's parameters, the URL that the verifier
builds, by value or by reference, is validated by a wallet that uses DID verification as exactly
the request object of the stored session. The hypotheses on the signatures are those of C22. -/
theorem C27_did (v : Verifier) (b : RequestBuilder) (uuid : Uuid) (wm : WalletMetadata) (busy : Bool)
    (σ σ' : Store) (url : Url) (w : Wallet) (verify : Str → Bytes → Jwk → Bytes → Bool)
    (resolver : Str → Res Jwk) (trusted : Option (List Str)) (s : Signer) (did frag alg : Str) (key : Jwk)
    (hsub : v.submissionEndpoint.WF)
    (href : ∀ base, v.passByReference = .at base → base.WF)
    (hbuild : buildWithSessionId v b uuid wm busy σ = (σ', .ok url))
    (hmatch : Matching v b wm w) (hwr : Writable b) (hserve : Serves v σ' w)
    (hnew : didClientNew (did ++ '#' :: frag) s resolver = .ok v.client) (hone : '#' ∉ did)
    (hfrag : '#' ∉ frag) (halg : s.alg = .ok alg) (hlist : AlgListed w.metadata alg)
    (htrust : ∀ l, trusted = some l → did ∈ l) (hkey : s.jwk = .ok key)
    (hhdr : ∀ kid, w.ssiHeader (utf8 (jPrint (.obj (didMembers alg kid)))) = .ok (alg, true))
    (hsig : ∀ msg, verify alg msg key (s.sign msg) = true)
    (hver : ∀ a jwt, w.verifier .decentralizedIdentifier a (some jwt) =
      didVerify ⟨w.ssiHeader, verify⟩ resolver trusted w.metadata a jwt) :
    ∃ s u, σ'.get uuid = some s ∧ Url.parse url.print = some u ∧
      (w.validateRequest u).2 = .ok s.requestObject := by
  have hcl : v.client = didClient (prefixedId ClientIdScheme.decentralizedIdentifier did)
      (did ++ '#' :: frag) s := by
    have hnew' := hnew
    simp only [didClientNew] at hnew'
    rw [rsplitOnce_eq_some.mpr ⟨rfl, hfrag⟩] at hnew'
    simp only at hnew'
    cases hr : resolver (did ++ '#' :: frag) with
    | error e => rw [hr] at hnew'; simp at hnew'
    | ok k =>
      rw [hr, hkey] at hnew'
      simp only at hnew'
      split at hnew'
      · simp at hnew'
      · exact (Except.ok.inj hnew').symm
  refine built_validated v b uuid wm busy σ σ' url w .decentralizedIdentifier hsub href hbuild hmatch hwr
    hserve ?_ ?_ ?_
  · rw [hcl]; exact ⟨show ':' ∉ ClientIdScheme.decentralizedIdentifier by decide, did, rfl⟩
  · rw [hcl]; exact .did did
  · intro a jwt hid hwf hd hgen
    have hacc := C22_did_accepted ⟨w.ssiHeader, verify⟩ resolver trusted w.metadata s did frag alg jwt key
      v.client a hnew hone hfrag hid hgen hwf (Nat.lt_succ_of_le hd) halg hlist htrust hkey hhdr hsig
    rw [hcl] at hgen
    simp only [didClient, halg, Except.ok.injEq] at hgen
    subst hgen
    obtain ⟨h1, h2⟩ := makeJwt_reads (s := s) (didMembers_wf alg (did ++ '#' :: frag))
      (didMembers_depth alg (did ++ '#' :: frag)) rfl (hhdr _) hwf hd
    exact ⟨h1, h2, by rw [hver]; exact hacc⟩

/-- What both x509 clients sign reads back as the request object. -/
theorem x5cGenerate_reads {x : X509} {chain : List x.Cert} {s : Signer} {a : RequestObject}
    {alg jwt : Str} {hdr : SsiHeader} (halg : s.alg = .ok alg)
    (hgen : x5cGenerate x chain s a = .ok jwt)
    (hhdr : ∀ ders, hdr (utf8 (jPrint (.obj (x5cMembers alg ders)))) = .ok (alg, true))
    (hw : (Json.obj a.toObject).WF FltLit) (hd : (Json.obj a.toObject).depth ≤ 127) :
    TypedAsRequest jwt ∧ JwsPayload hdr jwt a.toObject := by
  simp only [x5cGenerate, halg] at hgen
  cases hds : mapR x.toDer chain with
  | error e => rw [hds] at hgen; simp at hgen
  | ok ders =>
    rw [hds] at hgen
    simp only [Except.ok.injEq] at hgen
    subst hgen
    exact makeJwt_reads (s := s) (x5cMembers_wf alg ders).1
      (Nat.le_trans (x5cMembers_wf alg ders).2 (by decide)) rfl (hhdr _) hw hd

/-- **C27** for the x509_san_dns client. -/
theorem C27_x509_san_dns (v : Verifier) (b : RequestBuilder) (uuid : Uuid) (wm : WalletMetadata)
    (busy : Bool) (σ σ' : Store) (url : Url) (w : Wallet) (x : X509) (sv : SigVerifier)
    (roots : Option (List x.Cert)) (s : Signer) (leaf : x.Cert) (rest : List x.Cert) (alg : Str)
    (k : sv.Key) (hsub : v.submissionEndpoint.WF)
    (href : ∀ base, v.passByReference = .at base → base.WF)
    (hbuild : buildWithSessionId v b uuid wm busy σ = (σ', .ok url))
    (hmatch : Matching v b wm w) (hwr : Writable b) (hserve : Serves v σ' w)
    (hnew : sanClientNew x (leaf :: rest) s = .ok v.client)
    (halg : s.alg = .ok alg) (hlist : AlgListed w.metadata alg)
    (hder : ∀ c d, x.toDer c = .ok d → x.fromDer d = some c)
    (hkey : sv.fromSpki (x.spki leaf) alg = some k)
    (hhdr : ∀ ders, w.ssiHeader (utf8 (jPrint (.obj (x5cMembers alg ders)))) = .ok (alg, true))
    (hsig : ∀ msg, sv.verify k msg (s.sign msg) = true)
    (hver : ∀ a jwt, w.verifier .x509SanDns a (some jwt) =
      x509SanVerify x sv roots w.metadata a jwt) :
    ∃ s u, σ'.get uuid = some s ∧ Url.parse url.print = some u ∧
      (w.validateRequest u).2 = .ok s.requestObject := by
  have hcl : ∃ n, v.client = sanClient x (prefixedId ClientIdScheme.x509SanDns n) (leaf :: rest) s := by
    have hnew' := hnew
    simp only [sanClientNew] at hnew'
    cases hn : dnsNames x leaf with
    | nil => rw [hn] at hnew'; simp at hnew'
    | cons n ns => rw [hn] at hnew'; exact ⟨n, (Except.ok.inj hnew').symm⟩
  obtain ⟨n, hcl⟩ := hcl
  refine built_validated v b uuid wm busy σ σ' url w .x509SanDns hsub href hbuild hmatch hwr
    hserve ?_ ?_ ?_
  · rw [hcl]; exact ⟨show ':' ∉ ClientIdScheme.x509SanDns by decide, n, rfl⟩
  · rw [hcl]; exact .sanDns n
  · intro a jwt hid hwf hd hgen
    have hacc := C22_san_accepted x sv roots w.metadata s leaf rest alg jwt v.client a k hnew hid hgen
      halg hlist hder hkey hsig
    rw [hcl] at hgen
    obtain ⟨h1, h2⟩ := x5cGenerate_reads halg hgen hhdr hwf hd
    exact ⟨h1, h2, by rw [hver]; exact hacc⟩

/-- **C27** for the x509_hash client. -/
theorem C27_x509_hash (v : Verifier) (b : RequestBuilder) (uuid : Uuid) (wm : WalletMetadata)
    (busy : Bool) (σ σ' : Store) (url : Url) (w : Wallet) (x : X509) (sv : SigVerifier)
    (roots : Option (List x.Cert)) (s : Signer) (leaf : x.Cert) (rest : List x.Cert) (alg : Str)
    (k : sv.Key) (hsub : v.submissionEndpoint.WF)
    (href : ∀ base, v.passByReference = .at base → base.WF)
    (hbuild : buildWithSessionId v b uuid wm busy σ = (σ', .ok url))
    (hmatch : Matching v b wm w) (hwr : Writable b) (hserve : Serves v σ' w)
    (hnew : hashClientNew x (leaf :: rest) s = .ok v.client)
    (halg : s.alg = .ok alg) (hlist : AlgListed w.metadata alg)
    (hder : ∀ c d, x.toDer c = .ok d → x.fromDer d = some c)
    (hkey : sv.fromSpki (x.spki leaf) alg = some k)
    (hhdr : ∀ ders, w.ssiHeader (utf8 (jPrint (.obj (x5cMembers alg ders)))) = .ok (alg, true))
    (hsig : ∀ msg, sv.verify k msg (s.sign msg) = true)
    (hver : ∀ a jwt, w.verifier .x509Hash a (some jwt) =
      x509HashVerify x sv roots w.metadata a jwt) :
    ∃ s u, σ'.get uuid = some s ∧ Url.parse url.print = some u ∧
      (w.validateRequest u).2 = .ok s.requestObject := by
  have hcl : ∃ n, v.client = hashClient x (prefixedId ClientIdScheme.x509Hash n) (leaf :: rest) s := by
    have hnew' := hnew
    simp only [hashClientNew] at hnew'
    cases hn : x.toDer leaf with
    | error e => rw [hn] at hnew'; simp at hnew'
    | ok d => rw [hn] at hnew'; exact ⟨_, (Except.ok.inj hnew').symm⟩
  obtain ⟨n, hcl⟩ := hcl
  refine built_validated v b uuid wm busy σ σ' url w .x509Hash hsub href hbuild hmatch hwr
    hserve ?_ ?_ ?_
  · rw [hcl]; exact ⟨show ':' ∉ ClientIdScheme.x509Hash by decide, n, rfl⟩
  · rw [hcl]; exact .hash n
  · intro a jwt hid hwf hd hgen
    have hacc := C22_hash_accepted x sv roots w.metadata s leaf rest alg jwt v.client a k hnew hid hgen
      halg hlist hder hkey hsig
    rw [hcl] at hgen
    obtain ⟨h1, h2⟩ := x5cGenerate_reads halg hgen hhdr hwf hd
    exact ⟨h1, h2, by rw [hver]; exact hacc⟩

/-! ## Concrete verifiers and a concrete wallet -/

/-- A verifier with the given client. -/
def e2eVerifier (c : Client) (r : ByReference) : Verifier := { buildVerifier r with client := c }

/-- The metadata of a wallet with three prefixes and one algorithm. -/
def e2eMetadata : WalletMetadata where
  inner := [(c!"authorization_endpoint", .str c!"openid4vp://"),
    (c!"client_id_prefixes_supported",
      .arr [.str c!"decentralized_identifier", .str c!"x509_hash", .str c!"x509_san_dns"]),
    (c!"request_object_signing_alg_values_supported", .arr [.str c!"ES256"])]
  endpoint := ⟨⟨c!"openid4vp", some [], [], none, none⟩⟩
  formats := ⟨[]⟩

/-- A wallet with all three methods, whose HTTP client always gets the text `jwt`. -/
def e2eWallet (jwt : Str) : Wallet where
  metadata := e2eMetadata
  http := fun _ => .ok ⟨200, utf8 jwt⟩
  verifier m a j := match m, j with
    | .decentralizedIdentifier, some j =>
      didVerify ⟨fun _ => .ok (c!"ES256", true), toySsi.verify⟩ (fun _ => .ok []) (some [c!"did:ex:1"]) e2eMetadata a j
    | .x509SanDns, some j => x509SanVerify toyX509 toyVerifier none e2eMetadata a j
    | .x509Hash, some j => x509HashVerify toyX509 toyVerifier none e2eMetadata a j
    | _, _ => .error .unsupported
  uriOk := fun _ => true
  ssiHeader := fun _ => .ok (c!"ES256", true)

theorem e2e_built (c : Client) (hg : ∀ a, ∃ jwt, c.generate a = .ok jwt)
    (hp : c.pre.val ∈ [c!"decentralized_identifier", c!"x509_hash", c!"x509_san_dns"])
    (r : ByReference) (hr : r = .no ∨ r = .at buildBase) (u : Uuid) (σ : Store) :
    ∃ σ' url, buildWithSessionId (e2eVerifier c r) buildRequest u e2eMetadata false σ = (σ', .ok url) := by
  have hb := buildable_sample r hr
  obtain ⟨url, h⟩ := (C23_succeeds_iff (e2eVerifier c r) buildRequest u e2eMetadata false σ
    (buildVerifier_wf r) hg).mpr ⟨rfl, hb.query, hb.params, .inr ⟨_, rfl, hp⟩, hb.reference, ⟨_, _, rfl, rfl⟩⟩
  exact ⟨_, url, by rw [← h]⟩

theorem e2e_matching (c : Client) (r : ByReference) (jwt : Str)
    (hp : c.pre.val ∈ [c!"decentralized_identifier", c!"x509_hash", c!"x509_san_dns"]) :
    Matching (e2eVerifier c r) buildRequest e2eMetadata (e2eWallet jwt) := by
  refine ⟨⟨_, rfl, rfl⟩, .inr ⟨_, rfl, hp⟩, ?_⟩
  rintro m (⟨h, -⟩ | ⟨s, h, hm⟩)
  · simp [Absent, buildRequest, mget] at h
  · have : s = c!"direct_post" := by
      have h' : mget c!"response_mode" buildRequest.params = some (.str c!"direct_post") := rfl
      rw [HasText, h'] at h
      simpa using h.symm
    subst this
    left
    refine ⟨rfl, ?_⟩
    cases hm
    simp [IsEncrypted]

theorem e2e_writable : Writable buildRequest := by
  refine ⟨?_, by decide, ?_⟩
  · simp only [buildRequest, Json.WF, Json.WFM, Sorted, and_true]; decide
  · rintro q ⟨⟩
    simp [QueryWritable, dcqlSample, Json.WF, Json.WFM, Json.WFL, Sorted, Json.depth, Json.depthM,
      Json.depthL, PathOk, ValueOk]

theorem retrieve_jwt {σ : Store} {u : Uuid} {jwt : Str} (h : (retrieve u σ).2 = .ok jwt) :
    ∃ s, σ.get u = some s ∧ jwt = s.jwt := by
  simp only [retrieve, Store.getSession, Bool.false_eq_true, if_false] at h
  cases hg : σ.get u with
  | none => rw [hg] at h; simp at h
  | some s =>
    rw [hg] at h
    simp only [Store.updateStatus, Bool.false_eq_true, if_false, hg] at h
    split at h
    · exact ⟨s, rfl, by simpa using h.symm⟩
    · exact ⟨s, rfl, by simpa using h.symm⟩

/-- The wallet gets the JWT of the only session, so it reaches the verifier. -/
theorem e2e_serves {c : Client} {r : ByReference} {σ : Store} {s : Session}
    (h : ∀ id s', σ.get id = some s' → s' = s) : Serves (e2eVerifier c r) σ (e2eWallet s.jwt) := by
  intro base id uri jwt _ _ hret
  obtain ⟨s', hs', rfl⟩ := retrieve_jwt hret
  rw [h id s' hs']
  exact ⟨⟨200, utf8 s.jwt⟩, rfl, (by decide : 200 ≤ 200), (by decide : 200 < 300), utf8Dec_utf8 _, rfl⟩

/-- The store after building in an empty one. -/
theorem e2e_only {σ' : Store} {u : Uuid} {s : Session} (h : StoredOne [] σ' u s) :
    ∀ id s', σ'.get id = some s' → s' = s := by
  intro id s' hs'
  by_cases hid : id = u
  · subst hid; rw [h.2.1] at hs'; exact (Option.some.inj hs').symm
  · rw [h.2.2 id hid] at hs'; simp [Store.get] at hs'

theorem e2e_ref_wf (c : Client) {r : ByReference} (hr : r = .no ∨ r = .at buildBase) :
    ∀ base, (e2eVerifier c r).passByReference = .at base → base.WF := by
  intro base h
  have h : r = .at base := h
  rcases hr with rfl | rfl
  · simp at h
  · simp only [ByReference.at.injEq] at h
    rw [← h]; exact buildBase_wf

theorem e2e_listed : AlgListed e2eMetadata c!"ES256" := ⟨[c!"ES256"], rfl, by simp⟩

-- the three clients, by value and by reference, for every session id
example (r : ByReference) (hr : r = .no ∨ r = .at buildBase) (id : Uuid) :
    ∃ client σ' url s u, didClientNew c!"did:ex:1#k" toySigner (fun _ => .ok []) = .ok client ∧
      buildWithSessionId (e2eVerifier client r) buildRequest id e2eMetadata false [] = (σ', .ok url) ∧
      σ'.get id = some s ∧ Url.parse url.print = some u ∧
      ((e2eWallet s.jwt).validateRequest u).2 = .ok s.requestObject := by
  have hnew : didClientNew c!"did:ex:1#k" toySigner (fun _ => .ok []) = .ok (didClient (prefixedId ClientIdScheme.decentralizedIdentifier c!"did:ex:1")
      c!"did:ex:1#k" toySigner) := rfl
  have hp : ((didClient (prefixedId ClientIdScheme.decentralizedIdentifier c!"did:ex:1")
      c!"did:ex:1#k" toySigner)).pre.val ∈
      [c!"decentralized_identifier", c!"x509_hash", c!"x509_san_dns"] := by
    simp [didClient, ClientIdScheme.decentralizedIdentifier]
  obtain ⟨σ', url, h⟩ := e2e_built (didClient (prefixedId ClientIdScheme.decentralizedIdentifier c!"did:ex:1")
      c!"did:ex:1#k" toySigner) (fun a => ⟨_, rfl⟩) hp r hr id []
  generalize (didClient (prefixedId ClientIdScheme.decentralizedIdentifier c!"did:ex:1")
      c!"did:ex:1#k" toySigner) = client at *
  obtain ⟨s, hs, -⟩ := C23_build_stores_one _ _ _ _ _ _ _ _ h
  obtain ⟨s', u, h1, h2, h3⟩ := C27_did (e2eVerifier client r) buildRequest id e2eMetadata false [] σ' url
    (e2eWallet s.jwt) toySsi.verify (fun _ => .ok []) (some [c!"did:ex:1"]) toySigner
    c!"did:ex:1" c!"k" c!"ES256" [] (buildVerifier_wf r) (e2e_ref_wf _ hr) h
    (e2e_matching _ _ _ hp) e2e_writable (e2e_serves (e2e_only hs)) hnew (by decide) (by decide) rfl e2e_listed
    (by simp) rfl (fun _ => rfl) (by simp [toySsi, toySigner]) (fun _ _ => rfl)
  have hss : s' = s := e2e_only hs id s' h1
  rw [hss] at h3
  exact ⟨client, σ', url, s, u, hnew, h, hs.2.1, h2, h3⟩

example (r : ByReference) (hr : r = .no ∨ r = .at buildBase) (id : Uuid) :
    ∃ client σ' url s u, sanClientNew toyX509 [[1, 2], [3]] toySigner = .ok client ∧
      buildWithSessionId (e2eVerifier client r) buildRequest id e2eMetadata false [] = (σ', .ok url) ∧
      σ'.get id = some s ∧ Url.parse url.print = some u ∧
      ((e2eWallet s.jwt).validateRequest u).2 = .ok s.requestObject := by
  have hnew : sanClientNew toyX509 [[1, 2], [3]] toySigner = .ok (sanClient toyX509 (prefixedId ClientIdScheme.x509SanDns c!"verifier.example")
      [[1, 2], [3]] toySigner) := rfl
  have hp : ((sanClient toyX509 (prefixedId ClientIdScheme.x509SanDns c!"verifier.example")
      [[1, 2], [3]] toySigner)).pre.val ∈
      [c!"decentralized_identifier", c!"x509_hash", c!"x509_san_dns"] := by
    simp [sanClient, ClientIdScheme.x509SanDns]
  obtain ⟨σ', url, h⟩ := e2e_built (sanClient toyX509 (prefixedId ClientIdScheme.x509SanDns c!"verifier.example")
      [[1, 2], [3]] toySigner) (fun a => ⟨_, rfl⟩) hp r hr id []
  generalize (sanClient toyX509 (prefixedId ClientIdScheme.x509SanDns c!"verifier.example")
      [[1, 2], [3]] toySigner) = client at *
  obtain ⟨s, hs, -⟩ := C23_build_stores_one _ _ _ _ _ _ _ _ h
  obtain ⟨s', u, h1, h2, h3⟩ := C27_x509_san_dns (e2eVerifier client r) buildRequest id e2eMetadata false [] σ' url
    (e2eWallet s.jwt) toyX509 toyVerifier none toySigner [1, 2] [[3]] c!"ES256" () (buildVerifier_wf r) (e2e_ref_wf _ hr) h
    (e2e_matching _ _ _ hp) e2e_writable (e2e_serves (e2e_only hs)) hnew rfl e2e_listed
    (by rintro c d ⟨⟩; rfl) rfl (fun _ => rfl) (by simp [toyVerifier, toySigner]) (fun _ _ => rfl)
  have hss : s' = s := e2e_only hs id s' h1
  rw [hss] at h3
  exact ⟨client, σ', url, s, u, hnew, h, hs.2.1, h2, h3⟩

example (r : ByReference) (hr : r = .no ∨ r = .at buildBase) (id : Uuid) :
    ∃ client σ' url s u, hashClientNew toyX509 [[1, 2], [3]] toySigner = .ok client ∧
      buildWithSessionId (e2eVerifier client r) buildRequest id e2eMetadata false [] = (σ', .ok url) ∧
      σ'.get id = some s ∧ Url.parse url.print = some u ∧
      ((e2eWallet s.jwt).validateRequest u).2 = .ok s.requestObject := by
  have hnew : hashClientNew toyX509 [[1, 2], [3]] toySigner = .ok (hashClient toyX509 (prefixedId ClientIdScheme.x509Hash (b64Enc .url [2, 1]))
      [[1, 2], [3]] toySigner) := rfl
  have hp : ((hashClient toyX509 (prefixedId ClientIdScheme.x509Hash (b64Enc .url [2, 1]))
      [[1, 2], [3]] toySigner)).pre.val ∈
      [c!"decentralized_identifier", c!"x509_hash", c!"x509_san_dns"] := by
    simp [hashClient, ClientIdScheme.x509Hash]
  obtain ⟨σ', url, h⟩ := e2e_built (hashClient toyX509 (prefixedId ClientIdScheme.x509Hash (b64Enc .url [2, 1]))
      [[1, 2], [3]] toySigner) (fun a => ⟨_, rfl⟩) hp r hr id []
  generalize (hashClient toyX509 (prefixedId ClientIdScheme.x509Hash (b64Enc .url [2, 1]))
      [[1, 2], [3]] toySigner) = client at *
  obtain ⟨s, hs, -⟩ := C23_build_stores_one _ _ _ _ _ _ _ _ h
  obtain ⟨s', u, h1, h2, h3⟩ := C27_x509_hash (e2eVerifier client r) buildRequest id e2eMetadata false [] σ' url
    (e2eWallet s.jwt) toyX509 toyVerifier none toySigner [1, 2] [[3]] c!"ES256" () (buildVerifier_wf r) (e2e_ref_wf _ hr) h
    (e2e_matching _ _ _ hp) e2e_writable (e2e_serves (e2e_only hs)) hnew rfl e2e_listed
    (by rintro c d ⟨⟩; rfl) rfl (fun _ => rfl) (by simp [toyVerifier, toySigner]) (fun _ _ => rfl)
  have hss : s' = s := e2e_only hs id s' h1
  rw [hss] at h3
  exact ⟨client, σ', url, s, u, hnew, h, hs.2.1, h2, h3⟩

end Oid4vp
