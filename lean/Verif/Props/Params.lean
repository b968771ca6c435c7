import Verif.Spec.Params
import Verif.Props.Formats
import Verif.Lemmas.JsonText
/-!
# C02, C03: typed parameters and text
-/

set_option autoImplicit false

namespace Oid4vp

open Spec

theorem survives_iff {α : Type} [TypedParameter α] {t : α} {j : Json}
    (h : TypedParameter.toJson t = .ok j) :
    Spec.Survives t ↔ TypedParameter.ofJson j = .ok t := by
  simp only [Spec.Survives, h, Except.ok.injEq]
  constructor
  · rintro ⟨_, rfl, h⟩; exact h
  · exact fun h => ⟨_, rfl, h⟩

theorem mode_ofStr_print (m : ResponseMode) :
    ResponseMode.ofStr m.print = m ↔ (AnyParam.responseMode m).Proper := by
  cases m with
  | unsupported s =>
    simp only [ResponseMode.print, ResponseMode.ofStr, AnyParam.Proper]
    by_cases h1 : s = c!"direct_post"
    · simp [h1]
    by_cases h2 : s = c!"direct_post.jwt"
    · simp [h2]
    by_cases h3 : s = c!"dc_api"
    · simp [h3]
    by_cases h4 : s = c!"dc_api.jwt"
    · simp [h4]
    simp [h1, h2, h3, h4]
  | _ => simp [ResponseMode.print, ResponseMode.ofStr, AnyParam.Proper]

theorem type_ofStr_print (m : ResponseType) :
    ResponseType.ofStr m.print = m ↔ (AnyParam.responseType m).Proper := by
  cases m with
  | unsupported s =>
    simp only [ResponseType.print, ResponseType.ofStr, AnyParam.Proper]
    by_cases h1 : s = c!"vp_token"
    · simp [h1]
    by_cases h2 : s = c!"vp_token id_token"
    · simp [h2]
    simp [h1, h2]
  | _ => simp [ResponseType.print, ResponseType.ofStr, AnyParam.Proper]

theorem vpToken_roundtrip {t : VpToken} (hs : Sorted t.map)
    (hw : ∀ p ∈ t.map, ∀ m, VpTokenItem.jsonObject m ∈ p.2 → (Json.obj m).WF (fun _ => True)) :
    VpToken.ofJson t.toJson = .ok t := by
  simp only [VpToken.toJson, VpToken.ofJson]
  have : mapR VpToken.memberOfJson
      (t.map.map (fun p => (p.1, Json.arr (p.2.map VpTokenItem.toJson)))) = .ok t.map := by
    refine mapR_map_eq_self.mpr fun p hp => ?_
    simp only [VpToken.memberOfJson]
    have : vecOfJson VpTokenItem.ofJson (.arr (p.2.map VpTokenItem.toJson)) = .ok p.2 := by
      refine vec_roundtrip.mpr fun x hx => ?_
      cases x with
      | string s => rfl
      | jsonObject m =>
        have hm := hw p hp m hx
        simp only [Json.WF] at hm
        simp only [VpTokenItem.toJson, VpTokenItem.ofJson, normM_of_WF m hm.2, mofList_self hm.1]
    rw [this]; rfl
  rw [this]
  simp only [mofList_self hs]

theorem jwks_roundtrip (v : JWKs) : TypedParameter.ofJson (.obj [(c!"keys", .arr (v.keys.map .obj))]) =
    (.ok v : Res JWKs) := by
  have : vecOfJson objOfJson (.arr (v.keys.map .obj)) = .ok v.keys :=
    vec_roundtrip.mpr fun x _ => rfl
  simp only [TypedParameter.ofJson, structFields]
  refine bind_ok_iff.mpr ⟨_, rfl, bind_ok_iff.mpr ⟨v.keys, ?_, rfl⟩⟩
  rw [fieldReq_roundtrip (j := .arr (v.keys.map .obj)) (by simp [mget])]
  exact this

/-- **C02** A typed parameter survives the trip through JSON exactly if no catch-all variant
in it carries a known name (or a payload of a known shape). -/
theorem C02_params_roundtrip (p : AnyParam) (hr : p.Rep) : p.Survives ↔ p.Proper := by
  cases p with
  | redirectUri v | responseUri v | endpoint v =>
    simp only [AnyParam.Rep] at hr
    simp only [AnyParam.Survives, AnyParam.Proper, iff_true]
    refine (survives_iff rfl).mpr ?_
    simp only [TypedParameter.ofJson, url_roundtrip hr]
    rfl
  | responseMode v =>
    rw [← mode_ofStr_print, AnyParam.Survives, survives_iff rfl]
    simp [TypedParameter.ofJson, strOfJson, Except.map]
  | responseType v =>
    rw [← type_ofStr_print, AnyParam.Survives, survives_iff rfl]
    simp [TypedParameter.ofJson, strOfJson, Except.map]
  | clientId v | nonce v | audience v | state v | idToken v | issuer v =>
    simp only [AnyParam.Survives, AnyParam.Proper, iff_true]
    exact (survives_iff rfl).mpr rfl
  | clientMetadata v =>
    simp only [AnyParam.Survives, AnyParam.Proper, iff_true]
    exact (survives_iff rfl).mpr rfl
  | expectedOrigins v | transactionData v | encValues v | signingAlgs v | encryptionAlgs v
  | encryptionEncs v =>
    simp only [AnyParam.Survives, AnyParam.Proper, iff_true]
    refine (survives_iff rfl).mpr ?_
    simp only [TypedParameter.ofJson, strs_roundtrip]
    rfl
  | verifierInfo v =>
    simp only [AnyParam.Survives, AnyParam.Proper, iff_true]
    refine (survives_iff rfl).mpr ?_
    have : vecOfJson .ok (.arr v.val) = .ok v.val := by
      have := vec_roundtrip (f := .ok) (g := id) (l := v.val)
      simpa using this
    simp only [TypedParameter.ofJson, this]
    rfl
  | requestUriMethod v =>
    simp only [AnyParam.Survives, AnyParam.Proper, iff_true]
    refine (survives_iff rfl).mpr ?_
    cases v <;> rfl
  | dcqlQuery v => exact (survives_iff rfl).trans (C45_dcql_roundtrip v)
  | vpToken v =>
    simp only [AnyParam.Survives, AnyParam.Proper, iff_true]
    exact (survives_iff rfl).mpr (vpToken_roundtrip hr.1 hr.2)
  | vpFormats v =>
    simp only [AnyParam.Survives, AnyParam.Proper, SurvivesUpTo]
    rw [← C49_format_map_roundtrip v.val hr]
    constructor
    · rintro ⟨j, t', h1, h2, h3⟩
      simp only [TypedParameter.toJson, Except.ok.injEq] at h1
      subst h1
      exact ⟨t'.val, by
        obtain ⟨m, hm, rfl⟩ := map_ok_iff.mp h2; exact hm, h3⟩
    · rintro ⟨m', h1, h2⟩
      exact ⟨_, ⟨m'⟩, rfl, map_ok_iff.mpr ⟨m', h1, rfl⟩, h2⟩
  | vpFormatsSupported v =>
    simp only [AnyParam.Survives, AnyParam.Proper, SurvivesUpTo]
    rw [← C49_format_map_roundtrip v.val hr]
    constructor
    · rintro ⟨j, t', h1, h2, h3⟩
      simp only [TypedParameter.toJson, Except.ok.injEq] at h1
      subst h1
      exact ⟨t'.val, by
        obtain ⟨m, hm, rfl⟩ := map_ok_iff.mp h2; exact hm, h3⟩
    · rintro ⟨m', h1, h2⟩
      exact ⟨_, ⟨m'⟩, rfl, map_ok_iff.mpr ⟨m', h1, rfl⟩, h2⟩
  | jwks v =>
    simp only [AnyParam.Survives, AnyParam.Proper, iff_true]
    exact (survives_iff rfl).mpr (jwks_roundtrip v)
  | responseTypes v =>
    rw [AnyParam.Survives, survives_iff rfl]
    have := vec_roundtrip (f := fun j => (strOfJson j).map ResponseType.ofStr)
      (g := fun t => Json.str t.print) (l := v.val)
    have h2 : (TypedParameter.ofJson (Json.arr (v.val.map fun t => .str t.print)) =
        (.ok v : Res ResponseTypesSupported)) ↔
        vecOfJson (fun j => (strOfJson j).map ResponseType.ofStr)
          (.arr (v.val.map fun t => .str t.print)) = .ok v.val := by
      refine map_ok_iff.trans ⟨?_, fun h => ⟨_, h, rfl⟩⟩
      rintro ⟨a, ha, rfl⟩; exact ha
    rw [h2, this]
    simp only [AnyParam.Proper, strOfJson, Except.map, Except.ok.injEq]
    constructor
    · intro h s hs
      exact (type_ofStr_print (.unsupported s)).mp (h _ hs)
    · intro h x hx
      refine (type_ofStr_print x).mpr ?_
      cases x with
      | unsupported s => exact h s hx
      | _ => trivial
  | prefixes v =>
    simp only [AnyParam.Survives, AnyParam.Proper, iff_true]
    refine (survives_iff rfl).mpr ?_
    simp only [TypedParameter.ofJson]
    exact map_ok_iff.mpr ⟨v.val, mapR_map_eq_self.mpr fun x _ => rfl, rfl⟩

/-- **C02** The values that do not survive exist. -/
theorem C02_collision : ¬ (AnyParam.responseMode (.unsupported c!"direct_post")).Survives ∧
    ¬ (AnyParam.responseType (.unsupported c!"vp_token")).Survives := by
  constructor
  · intro h
    exact absurd ((C02_params_roundtrip _ (by trivial)).mp h) (by simp [AnyParam.Proper])
  · intro h
    exact absurd ((C02_params_roundtrip _ (by trivial)).mp h) (by simp [AnyParam.Proper])

example : (AnyParam.vpToken ⟨[(c!"a", [.string c!"x", .jsonObject [(c!"k", .int 1)]]), (c!"b", [])]⟩).Rep ∧
    (AnyParam.vpToken ⟨[(c!"a", [.string c!"x", .jsonObject [(c!"k", .int 1)]]), (c!"b", [])]⟩).Survives := by
  have h : (AnyParam.vpToken ⟨[(c!"a", [.string c!"x", .jsonObject [(c!"k", .int 1)]]), (c!"b", [])]⟩).Rep := by
    simp [AnyParam.Rep, Sorted, Json.WF, Json.WFM]
    decide
  exact ⟨h, (C02_params_roundtrip _ h).mpr trivial⟩

example : (AnyParam.responseMode (.unsupported c!"fragment")).Proper := by
  simp [AnyParam.Proper]

/-- Text read as a value of some kind prints as the same text. -/
def KeepsText {α : Type} (read : Str → α) (print : α → Str) : Prop :=
  (∀ s, print (read s) = s) ∧ ∀ s t, read s = read t → s = t

theorem keepsText {α : Type} {read : Str → α} {print : α → Str} (h : ∀ s, print (read s) = s) :
    KeepsText read print :=
  ⟨h, fun s t e => by rw [← h s, e, h t]⟩

/-- **C03** Response modes. -/
theorem C03_response_mode : KeepsText ResponseMode.ofStr ResponseMode.print := by
  refine keepsText fun s => ?_
  simp only [ResponseMode.ofStr]
  by_cases h1 : s = c!"direct_post"
  · simp [h1, ResponseMode.print]
  by_cases h2 : s = c!"direct_post.jwt"
  · simp [h2, ResponseMode.print]
  by_cases h3 : s = c!"dc_api"
  · simp [h3, ResponseMode.print]
  by_cases h4 : s = c!"dc_api.jwt"
  · simp [h4, ResponseMode.print]
  simp [h1, h2, h3, h4, ResponseMode.print]

/-- **C03** Response types. -/
theorem C03_response_type : KeepsText ResponseType.ofStr ResponseType.print := by
  refine keepsText fun s => ?_
  simp only [ResponseType.ofStr]
  by_cases h1 : s = c!"vp_token"
  · simp [h1, ResponseType.print]
  by_cases h2 : s = c!"vp_token id_token"
  · simp [h2, ResponseType.print]
  simp [h1, h2, ResponseType.print]

/-- **C03** Credential formats. -/
theorem C03_format : KeepsText ClaimFormatDesignation.fromName ClaimFormatDesignation.name :=
  keepsText name_fromName

/-- **C03** Trusted-authority types: every text is read, as a value that prints as the same
text. -/
theorem C03_trusted_authority (s : Str) : ∃ t, TrustedAuthorityType.ofJson (.str s) = .ok t ∧
    t.toJson = .str s ∧ ∀ s', TrustedAuthorityType.ofJson (.str s') = .ok t → s' = s := by
  have key : ∀ s t, TrustedAuthorityType.ofJson (.str s) = .ok t → t.name = s := by
    intro s t
    simp only [TrustedAuthorityType.ofJson, TrustedAuthorityType.known]
    by_cases h1 : s = c!"aki"
    · simp only [h1, if_true, Except.ok.injEq]; rintro rfl; rfl
    by_cases h2 : s = c!"etsi_tl"
    · rw [if_neg h1, if_pos h2]; rintro ⟨⟩; rw [h2]; rfl
    by_cases h3 : s = c!"openid_federation"
    · rw [if_neg h1, if_neg h2, if_pos h3]; rintro ⟨⟩; rw [h3]; rfl
    rw [if_neg h1, if_neg h2, if_neg h3]; rintro ⟨⟩; rfl
  have hex : ∃ t, TrustedAuthorityType.ofJson (.str s) = .ok t := by
    simp only [TrustedAuthorityType.ofJson]
    cases TrustedAuthorityType.known s <;> simp
  obtain ⟨t, ht⟩ := hex
  refine ⟨t, ht, by rw [TrustedAuthorityType.toJson, key s t ht], fun s' h' => ?_⟩
  rw [← key s t ht, key s' t h']

/-- **C03** The known names are recognised as such, and nothing else is. -/
theorem C03_known_names (s : Str) :
    (ResponseMode.ofStr s = .directPost ↔ s = c!"direct_post") ∧
    (ResponseMode.ofStr s = .directPostJwt ↔ s = c!"direct_post.jwt") ∧
    (ResponseMode.ofStr s = .dcApi ↔ s = c!"dc_api") ∧
    (ResponseMode.ofStr s = .dcApiJwt ↔ s = c!"dc_api.jwt") ∧
    (ResponseType.ofStr s = .vpToken ↔ s = c!"vp_token") ∧
    (ResponseType.ofStr s = .vpTokenIdToken ↔ s = c!"vp_token id_token") ∧
    (ClaimFormatDesignation.fromName s = .jwtVcJson ↔ s = c!"jwt_vc_json") ∧
    (ClaimFormatDesignation.fromName s = .ldpVc ↔ s = c!"ldp_vc") ∧
    (ClaimFormatDesignation.fromName s = .msoMDoc ↔ s = c!"mso_mdoc") ∧
    (ClaimFormatDesignation.fromName s = .dcSdJwt ↔ s = c!"dc+sd-jwt") := by
  have key : ∀ {α : Type} {read : Str → α} {print : α → Str} (_ : KeepsText read print) (a : α)
      (t : Str), read t = a → (read s = a ↔ s = t) := by
    intro α read print h a t ht
    exact ⟨fun e => h.2 _ _ (e.trans ht.symm), fun e => by rw [e, ht]⟩
  refine ⟨key C03_response_mode _ _ rfl, key C03_response_mode _ _ rfl,
    key C03_response_mode _ _ rfl, key C03_response_mode _ _ rfl,
    key C03_response_type _ _ rfl, key C03_response_type _ _ rfl,
    key C03_format _ _ rfl, key C03_format _ _ rfl, key C03_format _ _ rfl, key C03_format _ _ rfl⟩

end Oid4vp
