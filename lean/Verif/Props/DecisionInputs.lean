import Verif.Props.Decision

/-! # C96: what of its metadata the decision of a wallet depends on; pre-registered clients -/

set_option autoImplicit false

namespace Oid4vp

open Spec AuthorizationRequest

/-- Both objects have the same under the key, be it nothing. -/
def AgreeOn (k : Str) (m m' : WalletMetadata) : Prop := mget k m'.inner = mget k m.inner

theorem resolve_metadata (w : Wallet) (m' : WalletMetadata) (r : AuthorizationRequest) :
    r.resolve { w with metadata := m' } = r.resolve w := rfl

/-- Validation depends on the metadata only by the check of the request against it. -/
theorem validate_congr (w : Wallet) (m' : WalletMetadata) (r : AuthorizationRequest)
    (h : ∀ a jwt, (r.resolve w).2 = .ok (a, jwt) →
      validateAgainstMetadata m' a = validateAgainstMetadata w.metadata a) :
    r.validate { w with metadata := m' } = r.validate w := by
  rw [validate_eq, validate_eq, resolve_metadata]
  cases hr : (r.resolve w).2 with
  | error e => rfl
  | ok p =>
    obtain ⟨a, jwt⟩ := p
    have hv : verifyRequest { w with metadata := m' } a jwt = verifyRequest w a jwt := by
      simp only [verifyRequest, h a jwt hr]
    simp only [hv]

theorem checkPrefix_congr {m m' : WalletMetadata} (h : AgreeOn c!"client_id_prefixes_supported" m m')
    (a : RequestObject) : checkPrefix m' a = checkPrefix m a := by
  have : mget (TypedParameter.key ClientIdPrefixesSupported) m'.inner =
      mget (TypedParameter.key ClientIdPrefixesSupported) m.inner := h
  simp only [checkPrefix, UntypedObject.getOrDefault, this]

theorem checkEncryption_congr {m m' : WalletMetadata}
    (h1 : AgreeOn c!"authorization_encryption_alg_values_supported" m m')
    (h2 : AgreeOn c!"authorization_encryption_enc_values_supported" m m') (cm : ClientMetadata) :
    checkEncryption m' cm = checkEncryption m cm := by
  have e1 : UntypedObject.get AuthorizationEncryptionAlgValuesSupported m'.inner =
      UntypedObject.get AuthorizationEncryptionAlgValuesSupported m.inner := by
    have : mget (TypedParameter.key AuthorizationEncryptionAlgValuesSupported) m'.inner =
      mget (TypedParameter.key AuthorizationEncryptionAlgValuesSupported) m.inner := h1
    simp only [UntypedObject.get, this]
  have e2 : UntypedObject.get AuthorizationEncryptionEncValuesSupported m'.inner =
      UntypedObject.get AuthorizationEncryptionEncValuesSupported m.inner := by
    have : mget (TypedParameter.key AuthorizationEncryptionEncValuesSupported) m'.inner =
      mget (TypedParameter.key AuthorizationEncryptionEncValuesSupported) m.inner := h2
    simp only [UntypedObject.get, this]
  simp only [checkEncryption, e1, e2]

/-- **C96** Of its metadata, a wallet's decision about a request, and everything it does on the way, depends
on three parameters only: the client identifier prefixes and the key agreement and content encryption
algorithms it announces. (A finding:) the response types and formats it announces play no part; the signature
algorithms only if the wallet's own verification method, kept the same here, looks at them. -/
theorem C96_three_parameters (w : Wallet) (m' : WalletMetadata) (r : AuthorizationRequest)
    (h1 : AgreeOn c!"client_id_prefixes_supported" w.metadata m')
    (h2 : AgreeOn c!"authorization_encryption_alg_values_supported" w.metadata m')
    (h3 : AgreeOn c!"authorization_encryption_enc_values_supported" w.metadata m') :
    r.validate { w with metadata := m' } = r.validate w :=
  validate_congr w m' r fun a _ _ => by
    simp only [validateAgainstMetadata, checkPrefix_congr h1, checkEncryption_congr h2 h3]

/-- **C96** If the request object does not ask for an encrypted response, only the prefixes matter. -/
theorem C96_unencrypted (w : Wallet) (m' : WalletMetadata) (r : AuthorizationRequest) (a : RequestObject)
    (jwt : Option Str) (hr : ResolvesTo w r a jwt) (hm : ¬ IsEncrypted a.responseMode)
    (h1 : AgreeOn c!"client_id_prefixes_supported" w.metadata m') :
    r.validate { w with metadata := m' } = r.validate w := by
  refine validate_congr w m' r fun a' jwt' hr' => ?_
  have hr := resolvesTo_iff.mpr hr
  rw [hr] at hr'
  injection hr' with hr'
  injection hr' with ha hj
  subst ha hj
  have hrep := (resolve_reports hr).1
  simp only [validateAgainstMetadata, checkPrefix_congr h1]
  cases checkPrefix w.metadata a with
  | error e => rfl
  | ok u =>
    cases ClientMetadata.resolve a with
    | error e => rfl
    | ok cm =>
      simp only
      have hg := (getMode_iff.mpr hrep.mode).1
      have hkm : TypedParameter.key ResponseMode = c!"response_mode" := rfl
      simp only [UntypedObject.getOrDefault, UntypedObject.get, hkm] at hg ⊢
      cases hj : mget c!"response_mode" a.inner with
      | none => rfl
      | some j =>
        rw [hj] at hg
        simp only at hg
        simp only [hg, parsingError]
        cases ha : a.responseMode with
        | directPostJwt => exact absurd (.inl ha) hm
        | dcApiJwt => exact absurd (.inr ha) hm
        | _ => rfl

/-- **C96** A request object is for the method for pre-registered clients exactly if it has no client
identifier or one without a colon. -/
theorem C96_preregistered_iff (c : Option ClientId) :
    MethodFor c .preregistered ↔ ∀ x, c = some x → ':' ∉ x.val := by
  constructor
  · intro h
    cases h with
    | absent => exact fun x hx => nomatch hx
    | plain h => exact fun x hx => by injection hx with hx; exact hx ▸ h
  · intro h
    cases c with
    | none => exact .absent
    | some x => exact .plain (h x rfl)

/-- **C96** For such a client the prefixes that the wallet announces play no part, not even if
`pre-registered` is not among them or they cannot be read; and no other verification method is called. -/
theorem C96_preregistered_any_prefixes (w : Wallet) (m' : WalletMetadata) (r : AuthorizationRequest)
    (a : RequestObject) (jwt : Option Str) (hr : ResolvesTo w r a jwt) (hc : MethodFor a.clientId .preregistered)
    (h2 : AgreeOn c!"authorization_encryption_alg_values_supported" w.metadata m')
    (h3 : AgreeOn c!"authorization_encryption_enc_values_supported" w.metadata m') :
    r.validate { w with metadata := m' } = r.validate w ∧
      ∀ m b j, .verify m b j ∈ (r.validate w).1 → m = .preregistered ∧ b = a ∧ j = jwt := by
  have hr' := resolvesTo_iff.mpr hr
  have hrep := (resolve_reports hr').1
  constructor
  · refine validate_congr w m' r fun a' jwt' ha' => ?_
    rw [hr'] at ha'
    injection ha' with ha'
    injection ha' with ha hj
    subst ha hj
    obtain ⟨p, hp, hs⟩ := methodFor_select hc
    have hn : a.clientIdScheme = none := by
      refine prefixIs_unique hrep.scheme ?_
      have := (C96_preregistered_iff a.clientId).mp hc
      cases hx : a.clientId with
      | none => rfl
      | some x => exact this x hx
    simp only [validateAgainstMetadata, checkPrefix, hn, checkEncryption_congr h2 h3]
  · intro m b j hm
    obtain ⟨f, hf, h1, h2⟩ := C87_effects w r
    have hnf : ∀ m b j, Event.verify m b j ∉ f := by
      intro m b j h
      generalize r.indirection = i at hf
      cases hf <;> simp at h
    by_cases hex : ∃ m a jwt, ReachesMethod w r m a jwt
    · obtain ⟨m1, a1, j1, hx⟩ := hex
      rw [h1 m1 a1 j1 hx, List.mem_append] at hm
      rcases hm with hm | hm
      · exact absurd hm (hnf m b j)
      · simp only [List.mem_singleton, Event.verify.injEq] at hm
        obtain ⟨rfl, rfl, rfl⟩ := hm
        have he := resolvesTo_iff.mpr hx.resolves
        rw [hr'] at he
        injection he with he
        injection he with ha hj
        subst ha hj
        exact ⟨C12_method_unique hx.method hc, rfl, rfl⟩
    · rw [h2 fun m a jwt h => hex ⟨m, a, jwt, h⟩] at hm
      exact absurd hm (hnf m b j)

/-- **C96** (a finding) A client identifier with the prefix `pre-registered` written out is not for the
method for pre-registered clients but for the catch-all, and a wallet that announces no prefixes lets it
through to there. -/
theorem C96_written_out (w : Wallet) (r : AuthorizationRequest) (a : RequestObject) (jwt : Option Str) (t : Str)
    (hr : ResolvesTo w r a jwt) (hc : a.clientId = some ⟨c!"pre-registered:" ++ t⟩) :
    (∀ m, ReachesMethod w r m a jwt → m = .other c!"pre-registered") ∧
    (Absent w.metadata.inner c!"client_id_prefixes_supported" → ¬ Absent a.inner c!"response_mode" →
      MetadataFits w.metadata.inner a.inner a.responseMode →
      ReachesMethod w r (.other c!"pre-registered") a jwt) := by
  have hm : MethodFor a.clientId (.other c!"pre-registered") := by
    rw [hc]
    exact MethodFor.other (p := c!"pre-registered") t (by decide) (by decide)
  refine ⟨fun m h => C12_method_unique h.method hm, fun hp h1 h2 => ⟨hr, ⟨?_, h1, h2⟩, hm⟩⟩
  intro p hpx
  have hpp : PrefixIs a.clientId (some ⟨c!"pre-registered"⟩) := by
    rw [hc]
    exact ⟨by decide, t, rfl⟩
  have := prefixIs_unique hpx hpp
  injection this with this
  subst this
  exact .inl ⟨hp, rfl⟩

/-! ## Cases -/

/-- The metadata of the sample with formats, response types and signature algorithms that exclude the
request. -/
def strictMetadata : WalletMetadata :=
  { walletSample.metadata with
    inner := mset c!"request_object_signing_alg_values_supported" (.arr [.str c!"none"])
      (mset c!"response_types_supported" (.arr []) walletSample.metadata.inner)
    endpoint := ⟨⟨c!"other", none, [], none, none⟩⟩ }

example : (AuthorizationRequest.validate { walletSample with metadata := strictMetadata }
      (byValueSample (some c!"x509_san_dns:verifier.example") jwsHeaderSample explicitSample)).2 =
    .ok explicitObject := by
  rw [C96_three_parameters walletSample strictMetadata _ (by simp only [AgreeOn]; decide +kernel)
    (by simp only [AgreeOn]; decide +kernel) (by simp only [AgreeOn]; decide +kernel)]
  exact validate_sample

/-- The sample without a client identifier. -/
example (m' : WalletMetadata) (h : m'.inner = [(c!"client_id_prefixes_supported", .null)]) :
    AuthorizationRequest.validate { walletSample with metadata := m' }
        (byValueSample none jwsHeaderSample anonymousSample) =
      (byValueSample none jwsHeaderSample anonymousSample).validate walletSample :=
  (C96_preregistered_any_prefixes walletSample m' _ _ _ (resolvesTo_iff.mp (resolve_anonymous none)) .absent
    (by simp only [AgreeOn, h]; decide +kernel) (by simp only [AgreeOn, h]; decide +kernel)).1

end Oid4vp
