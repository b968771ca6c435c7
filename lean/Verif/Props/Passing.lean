import Verif.Props.RequestInputs
import Verif.Lemmas.JsonWf
/-! # C114: how a request reaches the wallet makes no difference to what becomes of it -/

set_option autoImplicit false

namespace Oid4vp
open Spec AuthorizationRequest

theorem resolve_fetched {w : Wallet} {uri : Url} {body : Str} (h : Fetched w uri body) (c : Option Str) :
    (⟨c, .byReference uri⟩ : AuthorizationRequest).resolve w =
      (.http ⟨c!"GET", uri.print, [(c!"prefer", c!"OID4VP-1.0.0")], []⟩ ::
        ((⟨c, .byValue body⟩ : AuthorizationRequest).resolve w).1,
        ((⟨c, .byValue body⟩ : AuthorizationRequest).resolve w).2) := by
  obtain ⟨resp, h1, h2, h3, h4, h5⟩ := h
  have hs : resp.isSuccess = true := by simp [HttpResponse.isSuccess, h2, h3]
  have hf : w.http (fetchRequest uri) = .ok resp := h1
  simp only [resolve, h5, if_true, hf, h4, hs]
  rfl

/-- **C114** A request by reference is treated as the request that passes the fetched token by value: the same
result, be it a request object or an error, and the same effects after the one GET. -/
theorem C114_reference_as_value (w : Wallet) (c : Option Str) {uri : Url} {body : Str} (h : Fetched w uri body) :
    (⟨c, .byReference uri⟩ : AuthorizationRequest).validate w =
      (.http ⟨c!"GET", uri.print, [(c!"prefer", c!"OID4VP-1.0.0")], []⟩ ::
        ((⟨c, .byValue body⟩ : AuthorizationRequest).validate w).1,
        ((⟨c, .byValue body⟩ : AuthorizationRequest).validate w).2) := by
  rw [validate_eq, validate_eq, resolve_fetched h]
  rfl

theorem reference_result (w : Wallet) (c : Option Str) {uri : Url} {body : Str} (h : Fetched w uri body) :
    ((⟨c, .byReference uri⟩ : AuthorizationRequest).validate w).2 =
      ((⟨c, .byValue body⟩ : AuthorizationRequest).validate w).2 := by
  rw [C114_reference_as_value w c h]

/-- **C114** So the place a token is fetched from plays no part. -/
theorem C114_any_place (w : Wallet) (c : Option Str) {uri uri' : Url} {body : Str} (h : Fetched w uri body)
    (h' : Fetched w uri' body) :
    ((⟨c, .byReference uri⟩ : AuthorizationRequest).validate w).2 =
      ((⟨c, .byReference uri'⟩ : AuthorizationRequest).validate w).2 := by
  rw [C114_reference_as_value w c h, C114_reference_as_value w c h']

theorem payload_sorted {hdr : SsiHeader} {jwt : Str} {o : UntypedObject} (h : JwsPayload hdr jwt o) : Sorted o := by
  obtain ⟨_, _, _, _, _, _, bytes, -, -, -, -, -, hp⟩ := h
  rw [jParseBytes] at hp
  cases hu : utf8Dec bytes with
  | none => rw [hu] at hp; cases hp
  | some s =>
    rw [hu] at hp
    exact (jParse_wf hp).1.1

theorem put_client {x : Str} {o : UntypedObject} (hs : Sorted o) (h : mget c!"client_id" o = some (.str x)) :
    UntypedObject.put (ClientId.mk x) o = o := by
  refine map_ext (sorted_mset hs) hs fun k => ?_
  by_cases hk : k = c!"client_id"
  · subst hk
    exact (mget_mset_self _ _ _).trans h.symm
  · exact mget_mset_ne hk _ _

theorem resolve_direct (w : Wallet) (c : Option Str) {o : UntypedObject} (hs : Sorted o)
    (hc : ∀ x, c = some x → mget c!"client_id" o = some (.str x)) :
    ((⟨c, .direct o⟩ : AuthorizationRequest).resolve w).2 =
      (RequestObject.ofObject o).map fun a => (a, none) := by
  cases c with
  | none => simp only [resolve]; cases RequestObject.ofObject o <;> rfl
  | some x =>
    simp only [resolve, put_client hs (hc x rfl)]
    cases RequestObject.ofObject o <;> rfl

/-- **C114** A request object in a token typed as one is treated as the same object passed directly, with the same
result, if the wallet's methods do not ask for the token and the outer client identifier, if there is one, is that
of the object. -/
theorem C114_token_as_direct (w : Wallet) (c : Option Str) {jwt : Str} {o : UntypedObject} (ht : TypedAsRequest jwt)
    (ho : JwsPayload w.ssiHeader jwt o) (hc : ∀ x, c = some x → mget c!"client_id" o = some (.str x))
    (hm : ∀ m a, w.verifier m a none = w.verifier m a (some jwt)) :
    ((⟨c, .byValue jwt⟩ : AuthorizationRequest).validate w).2 =
      ((⟨c, .direct o⟩ : AuthorizationRequest).validate w).2 := by
  have hv : ∀ l, validateRequestObjectTyp jwt l = .ok () := fun l => validateTyp_ok.mpr (.inl ht)
  have h1 : ((⟨c, .byValue jwt⟩ : AuthorizationRequest).resolve w).2 =
      (RequestObject.ofObject o).map fun a => (a, some jwt) := by
    simp only [resolve, resolveJwt, hv, decodeUnverified_ok.mpr ho]
    cases RequestObject.ofObject o <;> rfl
  rw [validate_eq, validate_eq, h1, resolve_direct w c (payload_sorted ho) hc]
  cases RequestObject.ofObject o with
  | error e => rfl
  | ok a =>
    have : (verifyRequest w a (some jwt)).2 = (verifyRequest w a none).2 := by
      simp only [verifyRequest]
      cases validateAgainstMetadata w.metadata a with
      | error e => rfl
      | ok _ => cases selectMethod a.clientIdScheme with
        | none => rfl
        | some m => exact (hm m a).symm
    simp only [Except.map, this]

/-- **C114** The two ways differ where the outer client identifier and that of the object differ: the token is never
accepted, while of the direct parameters the object's own identifier plays no part. -/
theorem C114_outer_differs (w : Wallet) (x y : Str) (hxy : x ≠ y) {jwt : Str} {o : UntypedObject}
    (ho : JwsPayload w.ssiHeader jwt o) (hy : mget c!"client_id" o = some (.str y)) :
    (∀ a, ((⟨some x, .byValue jwt⟩ : AuthorizationRequest).validate w).2 ≠ .ok a) ∧
    (⟨some x, .direct o⟩ : AuthorizationRequest).validate w =
      (⟨none, .direct (mset c!"client_id" (.str x) o)⟩ : AuthorizationRequest).validate w := by
  constructor
  · intro a h
    obtain ⟨_, _, h1, -, -, -, h5⟩ := (C12_accepted_iff _ _ _).mp h
    obtain ⟨h2, ⟨o', h3, h4⟩, -⟩ := resolve_ok.mp h1
    cases h2
    have : o' = o := Except.ok.inj ((decodeUnverified_ok.mpr h3).symm.trans (decodeUnverified_ok.mpr ho))
    subst this
    obtain ⟨hin, hrep⟩ := C05_accessors_agree h4
    have hcl := hrep.clientId
    rw [hin] at hcl
    cases hac : a.clientId with
    | none =>
      rw [hac] at hcl
      cases hy.symm.trans hcl
    | some z =>
      rw [hac] at hcl
      cases hy.symm.trans hcl
      exact hxy (h5 x z rfl hac)
  · have hr : (⟨some x, .direct o⟩ : AuthorizationRequest).resolve w =
        (⟨none, .direct (mset c!"client_id" (.str x) o)⟩ : AuthorizationRequest).resolve w := rfl
    rw [validate_eq, validate_eq, hr]
    cases hp : RequestObject.ofObject (mset c!"client_id" (.str x) o) with
    | error e => simp only [resolve, hp]
    | ok a =>
      have hin : a.inner = mset c!"client_id" (.str x) o := (C05_accessors_agree hp).1
      have hg : UntypedObject.get ClientId a.inner = some (.ok ⟨x⟩) := by
        rw [hin, UntypedObject.get,
          show mget (TypedParameter.key ClientId) (mset c!"client_id" (.str x) o) = some (.str x) from
            mget_mset_self _ _ _]
        rfl
      simp only [resolve, hp, hg, transposeGet]
      simp

/-! ## Cases -/

theorem fetched_sample (uri : Url) :
    Fetched walletSample uri (compactJws jwsHeaderSample explicitSample [1, 2, 3]) :=
  ⟨_, rfl, by decide, by decide, utf8Dec_utf8 _, rfl⟩

-- the sample by reference is accepted, so the sample by value is, and so are the parameters passed directly
example : ((byValueSample none jwsHeaderSample explicitSample).validate walletSample).2 = .ok explicitObject ∧
    ((⟨none, .direct explicitSample⟩ : AuthorizationRequest).validate walletSample).2 = .ok explicitObject := by
  have h1 : ((byValueSample none jwsHeaderSample explicitSample).validate walletSample).2 = .ok explicitObject := by
    rw [byValueSample, ← reference_result walletSample none
      (fetched_sample ⟨c!"https", some c!"v.example", c!"/r", none, none⟩)]
    exact validate_reference
  refine ⟨h1, ?_⟩
  rw [← C114_token_as_direct walletSample none (typed_sample _)
    (compactJws_payload rfl explicitSample_wf (by decide)) (by rintro x ⟨⟩) (fun _ _ => rfl)]
  exact h1

-- under another outer name the token is refused, and the parameters are taken as those of the outer client
example : (∀ a, ((byValueSample (some c!"x509_san_dns:other.example") jwsHeaderSample explicitSample).validate
      walletSample).2 ≠ .ok a) ∧
    ((⟨some c!"x509_san_dns:other.example", .direct explicitSample⟩ : AuthorizationRequest).validate
      walletSample).2.toOption.bind (·.clientId) = some ⟨c!"x509_san_dns:other.example"⟩ := by
  have hp : JwsPayload walletSample.ssiHeader (compactJws jwsHeaderSample explicitSample [1, 2, 3]) explicitSample :=
    compactJws_payload rfl explicitSample_wf (by decide)
  have h := C114_outer_differs walletSample c!"x509_san_dns:other.example" c!"x509_san_dns:verifier.example"
    (by decide) hp (by decide)
  refine ⟨h.1, ?_⟩
  rw [h.2]
  decide +kernel

end Oid4vp
