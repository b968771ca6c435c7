import Verif.Spec.MetadataHistory
import Verif.Props.Build
import Verif.Props.PutBack
/-!
# C103: the address for which a request is built and the address at which the wallet takes it
-/

set_option autoImplicit false

namespace Oid4vp

open Spec RequestBuilder

theorem endpoint_in_object (w : WalletMetadata) (h : w.endpoint.val.WF) :
    UntypedObject.get AuthorizationEndpoint w.toObject = some (.ok w.endpoint) := by
  have : mget c!"authorization_endpoint" w.toObject = some (.str w.endpoint.val.print) := by
    simp only [WalletMetadata.toObject, UntypedObject.put, UntypedObject.insert, TypedParameter.toJson,
      TypedParameter.key]
    rw [mget_mset_ne (by decide), mget_mset_self]
  refine get_ok_iff.mpr ⟨_, this, ?_⟩
  simp only [TypedParameter.ofJson, url_roundtrip h]
  rfl

theorem step_reported {op : MetaOp} {w w' : WalletMetadata} (hw : w.endpoint.val.WF) (h : op.run w = .ok w') :
    w'.authorizationEndpoint = w.authorizationEndpoint := by
  cases op with
  | formats f => cases h; rfl
  | addAlg a =>
    simp only [MetaOp.run, WalletMetadata.addSigningAlg] at h
    split at h
    · cases h
    · cases h; rfl
  | addPrefixes ps =>
    simp only [MetaOp.run, WalletMetadata.addClientIdPrefixes] at h
    split at h
    · cases h
    · cases h; rfl
  | edit f => cases h; rfl
  | convert =>
    obtain ⟨-, h2, -⟩ := (C50_parsed_reports _ _).mp h
    rw [endpoint_in_object w hw] at h2
    simp only [Option.some.injEq, Except.ok.injEq] at h2
    exact h2.symm

/-- **C103** Whatever is done with wallet metadata, the endpoint it reports (where the wallet takes requests)
stays the one it began with. -/
theorem C103_reported {ops : List MetaOp} {w w' : WalletMetadata} (hw : w.endpoint.val.WF)
    (h : Becomes ops w w') : w'.authorizationEndpoint = w.authorizationEndpoint := by
  induction h with
  | done => rfl
  | step h1 _ ih =>
    have h2 := step_reported hw h1
    rw [← h2]
    refine ih ?_
    simp only [WalletMetadata.authorizationEndpoint] at h2
    rw [h2]; exact hw

/-- **C103** New and parsed metadata names in its parameters the endpoint it reports. -/
theorem C103_begin :
    (∀ e f other, e.val.WF → EndpointAgrees (WalletMetadata.new e f other)) ∧
    ∀ o w, WalletMetadata.ofObject o = .ok w → EndpointAgrees w ∧ w.endpoint.val.WF := by
  constructor
  · intro e f other he
    exact endpoint_in_object ⟨unwrapOr [] other, e, f⟩ he
  · intro o w h
    obtain ⟨h1, h2, -⟩ := (C50_parsed_reports _ _).mp h
    subst h1
    obtain ⟨j, -, hj⟩ := get_ok_iff.mp h2
    obtain ⟨u, hu, he⟩ := map_ok_iff.mp hj
    refine ⟨h2, ?_⟩
    have : w.endpoint = ⟨u⟩ := he.symm
    rw [this]; exact url_read_wf hu

/-- **C103** It does so after any history in which no edit of the parameters touched the endpoint, and after
any history at all that ends with a conversion. -/
theorem C103_agrees {ops : List MetaOp} {w w' : WalletMetadata} (hw : w.endpoint.val.WF) :
    (Becomes ops w w' → EndpointAgrees w → (∀ op ∈ ops, op.SparesEndpoint) → EndpointAgrees w') ∧
    (Becomes (ops ++ [.convert]) w w' → EndpointAgrees w') := by
  constructor
  · intro h
    induction h with
    | done => exact fun h _ => h
    | @step op ops w w1 w2 h1 _ ih =>
      intro ha hs
      have hr := step_reported hw h1
      have hw1 : w1.endpoint.val.WF := by
        simp only [WalletMetadata.authorizationEndpoint] at hr
        rw [hr]; exact hw
      refine ih hw1 ?_ fun op' h' => hs op' (List.mem_cons_of_mem _ h')
      have key : mget c!"authorization_endpoint" w1.inner = mget c!"authorization_endpoint" w.inner →
          EndpointAgrees w1 := by
        intro he
        simp only [EndpointAgrees, UntypedObject.get, TypedParameter.key] at ha ⊢
        rw [he, hr]; exact ha
      cases op with
      | formats f => cases h1; exact ha
      | addAlg a =>
        simp only [MetaOp.run, WalletMetadata.addSigningAlg] at h1
        split at h1
        · cases h1
        · cases h1
          exact key (mget_mset_ne (by decide) _ _)
      | addPrefixes ps =>
        simp only [MetaOp.run, WalletMetadata.addClientIdPrefixes] at h1
        split at h1
        · cases h1
        · cases h1
          exact key (mget_mset_ne (by decide) _ _)
      | edit f =>
        cases h1
        exact key (hs (.edit f) (List.mem_cons_self ..) w.inner)
      | convert => exact (C103_begin.2 _ _ h1).1
  · intro h
    clear hw
    induction ops generalizing w with
    | nil =>
      cases h with
      | step h1 t => cases t; exact (C103_begin.2 _ _ h1).1
    | cons op ops ih =>
      cases h with
      | step h1 t => exact ih t

/-- **C103** A request is built for the endpoint in the parameters, and a wallet reads its URL exactly if the
endpoint it reports is the same place. -/
theorem C103_read_iff (v : Verifier) (b : RequestBuilder) (uuid : Uuid) (wm : WalletMetadata) (busy : Bool)
    (σ σ' : Store) (url : Url) (hv : ∀ base, v.passByReference = .at base → base.WF)
    (h : buildWithSessionId v b uuid wm busy σ = (σ', .ok url)) :
    ∃ ep, UntypedObject.get AuthorizationEndpoint wm.inner = some (.ok ep) ∧ ∀ w : WalletMetadata,
      ((∃ r, AuthorizationRequest.fromUrl url w.authorizationEndpoint.val = .ok r) ↔
        SamePlace ep.val w.authorizationEndpoint.val) ∧
      (EndpointAgrees wm → ∃ i, AuthorizationRequest.fromUrl url wm.authorizationEndpoint.val =
        .ok ⟨some v.client.id.val, i⟩) := by
  obtain ⟨s, ep, -, hep, -, h1, h2⟩ := C25_url_refers_to_session v b uuid wm busy σ σ' url hv h
  have hread : ∃ i, AuthorizationRequest.fromUrl url ep.val = .ok ⟨some v.client.id.val, i⟩ := by
    cases hr : v.passByReference with
    | no => exact ⟨_, h1 hr⟩
    | «at» base =>
      obtain ⟨uri, -, -, h3, -⟩ := h2 base hr
      exact ⟨_, h3⟩
  obtain ⟨i, hi⟩ := hread
  obtain ⟨q, hq1, hq2, hq3, hq4⟩ := (C08_endpoint_check _ _ _).mp hi
  refine ⟨ep, hep, fun w => ⟨⟨?_, ?_⟩, ?_⟩⟩
  · rintro ⟨r, hr⟩
    obtain ⟨q', -, h4, h5, -⟩ := (C08_endpoint_check _ _ _).mp hr
    exact ⟨hq2.symm.trans h4, hq3.symm.trans h5⟩
  · rintro ⟨h4, h5⟩
    exact ⟨_, (C08_endpoint_check _ _ _).mpr ⟨q, hq1, hq2.trans h4, hq3.trans h5, hq4⟩⟩
  · intro ha
    rw [EndpointAgrees, hep] at ha
    cases ha
    exact ⟨i, hi⟩

/-- **C103** Metadata whose parameters were edited to name an endpoint at another place describes a wallet that
refuses every request built for it, without looking at the request. -/
theorem C103_edited_refuses (v : Verifier) (b : RequestBuilder) (uuid : Uuid) (w : WalletMetadata) (busy : Bool)
    (σ σ' : Store) (url : Url) (hv : ∀ base, v.passByReference = .at base → base.WF)
    (e : AuthorizationEndpoint) (he : e.val.WF) (hne : ¬ SamePlace e.val w.authorizationEndpoint.val)
    (wallet : Wallet) (hm : wallet.metadata = w.setInner (UntypedObject.put e w.inner))
    (h : buildWithSessionId v b uuid wallet.metadata busy σ = (σ', .ok url)) :
    ∃ err, wallet.validateRequest url = ([], .error err) := by
  obtain ⟨ep, hep, hi⟩ := C103_read_iff v b uuid _ busy σ σ' url hv h
  have : UntypedObject.get AuthorizationEndpoint wallet.metadata.inner = some (.ok e) := by
    rw [hm]
    refine get_ok_iff.mpr ⟨.str e.val.print, mget_mset_self .., ?_⟩
    simp only [TypedParameter.ofJson, url_roundtrip he]
    rfl
  rw [hep] at this
  cases this
  have hno := mt (hi wallet.metadata).1.mp (by rw [hm]; exact hne)
  simp only [Wallet.validateRequest]
  cases hf : AuthorizationRequest.fromUrl url wallet.metadata.authorizationEndpoint.val with
  | error err => exact ⟨err, rfl⟩
  | ok r => exact absurd ⟨r, hf⟩ hno

/-- The wallet of the other examples after its endpoint was edited to `https://w.example/new`: building for it
succeeds. -/
example : ∃ (e : AuthorizationEndpoint) (σ' : Store) (url : Url), e.val.WF ∧
    ¬ SamePlace e.val buildWallet.authorizationEndpoint.val ∧
    buildWithSessionId (buildVerifier .no) buildRequest (buildId 7)
      (buildWallet.setInner (UntypedObject.put e buildWallet.inner)) false [] = (σ', .ok url) ∧
    Becomes [.edit (UntypedObject.put e), .addAlg c!"ES256", .convert] buildWallet
      ⟨[(c!"authorization_endpoint", .str c!"openid4vp://"),
        (c!"client_id_prefixes_supported", .arr [.str c!"x509_san_dns"]),
        (c!"request_object_signing_alg_values_supported", .arr [.str c!"ES256"]),
        (c!"vp_formats_supported", .obj [])], buildWallet.endpoint, ⟨[]⟩⟩ := by
  refine ⟨⟨⟨c!"https", some c!"w.example", c!"/new", none, none⟩⟩, ?_⟩
  have h := (C23_succeeds_iff (buildVerifier .no) buildRequest (buildId 7) (buildWallet.setInner
    (UntypedObject.put (AuthorizationEndpoint.mk ⟨c!"https", some c!"w.example", c!"/new", none, none⟩)
      buildWallet.inner)) false [] (buildVerifier_wf .no) (fun _ => ⟨_, rfl⟩)).mpr ⟨rfl, ?_⟩
  · obtain ⟨url, hu⟩ := h
    refine ⟨_, url, Url.parse_wf (s := c!"https://w.example/new") rfl, ?_, by rw [← hu], ?_⟩
    · simp [SamePlace, buildWallet, WalletMetadata.authorizationEndpoint]
    · exact .step rfl (.step rfl (.step rfl (.done _)))
  · obtain ⟨h1, h2, -, h4, -⟩ := buildable_sample .no (.inl rfl)
    exact ⟨h1, h2, .inr ⟨[c!"x509_san_dns"], rfl, List.mem_singleton.mpr rfl⟩, h4, ⟨_, _, rfl, rfl⟩⟩

end Oid4vp
