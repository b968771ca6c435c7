import Verif.Spec.Fits
import Verif.Props.Validate
import Verif.Props.Build
/-!
# C15: the exact condition under which a request passes the checks against metadata
-/

set_option autoImplicit false

namespace Oid4vp

open Spec AuthorizationRequest RequestBuilder

theorem checkSupported_iff {offered : List Str} {o : UntypedObject} {k : Str} :
    checkSupported offered ((mget k o).map strsOfJson) = .ok () ↔ ListedIfAny o k (· ∈ offered) := by
  refine ⟨checkSupported_ok, ?_⟩
  intro h
  cases hg : mget k o with
  | none => rfl
  | some j =>
    obtain ⟨l, rfl, v, hv, hv'⟩ := h j hg
    have hl : strsOfJson (.arr (l.map .str)) = .ok l := strsOfJson_ok.mpr rfl
    simp only [Option.map_some, hl, checkSupported]
    rw [if_pos (List.any_eq_true.mpr ⟨v, hv', by simpa using hv⟩)]

theorem jwks_get {cm : UntypedObject} {keys : List (List (Str × Json))} :
    UntypedObject.get JWKs cm = some (.ok ⟨keys⟩) ↔ KeySet cm keys := by
  have hk : TypedParameter.key JWKs = c!"jwks" := rfl
  simp only [UntypedObject.get, KeySet, hk]
  cases hg : mget c!"jwks" cm with
  | none => simp
  | some j =>
    simp only [Option.some.injEq]
    constructor
    · intro h
      obtain ⟨ks, hks, rfl⟩ := jwks_keys h
      rcases hks with ⟨m, rfl, hm⟩ | rfl
      · exact .inl ⟨m, rfl, hm⟩
      · exact .inr rfl
    · have hvec : vecOfJson objOfJson (.arr (keys.map .obj)) = .ok keys :=
        vec_roundtrip.mpr (fun _ _ => rfl)
      rintro (⟨m, rfl, hm⟩ | rfl)
      · simp only [TypedParameter.ofJson, structFields, bind, Except.bind, fieldReq, hm, hvec, pure,
          Except.pure]
      · simp only [TypedParameter.ofJson, structFields, bind, Except.bind, fieldReq, hvec, pure,
          Except.pure, List.length_cons, List.length_nil, List.zip_cons_cons, List.zip_nil_right,
          mget, if_true]

theorem keySet_unique {cm : UntypedObject} {k k' : List (List (Str × Json))} (h : KeySet cm k)
    (h' : KeySet cm k') : k = k' := by
  have h1 := jwks_get.mpr h
  rw [jwks_get.mpr h'] at h1
  simpa using h1.symm

theorem keyIn_iff {cm : UntypedObject} {keys : List (List (Str × Json))} (h : KeySet cm keys)
    (key : List (Str × Json)) : KeyIn cm key ↔ key ∈ keys := by
  simp only [KeyIn]
  constructor
  · rintro ⟨ks, hk, hks⟩
    have : ks = keys.map .obj := by
      rcases h with ⟨m, h1, h2⟩ | h1 <;> rcases hks with ⟨m', h3, h4⟩ | h3 <;> rw [h1] at h3 <;>
        simp only [Option.some.injEq, Json.obj.injEq, Json.arr.injEq, List.cons.injEq, and_true,
          reduceCtorEq] at h3
      · subst h3; rw [h2] at h4; simpa using h4.symm
      · exact h3.symm
    subst this
    simpa using hk
  · intro hk
    refine ⟨keys.map .obj, List.mem_map.mpr ⟨key, hk, rfl⟩, ?_⟩
    rcases h with ⟨m, h1, h2⟩ | h1
    · exact .inl ⟨m, h1, h2⟩
    · exact .inr h1

theorem offersAlg_iff {cm : UntypedObject} {keys : List (List (Str × Json))} (h : KeySet cm keys)
    (v : Str) : OffersAlg cm v ↔ v ∈ encryptionAlgs ⟨keys⟩ := by
  rw [encryptionAlgs_mem]
  simp only [OffersAlg]
  constructor
  · rintro ⟨key, h1, h2⟩; exact ⟨key, (keyIn_iff h key).mp h1, h2⟩
  · rintro ⟨key, h1, h2⟩; exact ⟨key, (keyIn_iff h key).mpr h1, h2⟩

theorem listedIfAny_congr {wm : UntypedObject} {k : Str} {P Q : Str → Prop} (h : ∀ v, P v ↔ Q v) :
    ListedIfAny wm k P ↔ ListedIfAny wm k Q := by
  simp only [ListedIfAny, h]

/-- The encryption check, exactly. -/
theorem checkEncryption_iff (wm : WalletMetadata) (cm : ClientMetadata) :
    checkEncryption wm cm = .ok () ↔ EncryptionFits wm.inner cm.val := by
  have ha : ((UntypedObject.get AuthorizationEncryptionAlgValuesSupported wm.inner).map
      (fun r => r.map (·.val))) =
      (mget c!"authorization_encryption_alg_values_supported" wm.inner).map strsOfJson := by
    simp only [UntypedObject.get, TypedParameter.key, TypedParameter.ofJson]
    cases mget c!"authorization_encryption_alg_values_supported" wm.inner with
    | none => rfl
    | some j => simp only [Option.map_some]; cases strsOfJson j <;> rfl
  have hen : ((UntypedObject.get AuthorizationEncryptionEncValuesSupported wm.inner).map
      (fun r => r.map (·.val))) =
      (mget c!"authorization_encryption_enc_values_supported" wm.inner).map strsOfJson := by
    simp only [UntypedObject.get, TypedParameter.key, TypedParameter.ofJson]
    cases mget c!"authorization_encryption_enc_values_supported" wm.inner with
    | none => rfl
    | some j => simp only [Option.map_some]; cases strsOfJson j <;> rfl
  simp only [checkEncryption, ha, hen]
  cases hk : parsingError (UntypedObject.get JWKs cm.val) with
  | error e =>
    simp only [reduceCtorEq, false_iff]
    rintro ⟨⟨keys, hks⟩, -⟩
    rw [jwks_get.mpr hks] at hk
    simp [parsingError] at hk
  | ok jwks =>
    obtain ⟨keys⟩ := jwks
    have hks := jwks_get.mp (parsingError_ok.mp hk)
    simp only
    cases hq : encryptionAlgs ⟨keys⟩ with
    | nil =>
      simp only [List.isEmpty_nil, if_true, reduceCtorEq, false_iff]
      rintro ⟨-, ⟨v, hv⟩, -⟩
      rw [offersAlg_iff hks, hq] at hv
      simp at hv
    | cons v0 vs =>
      rw [← hq]
      have hoff : ∃ v, OffersAlg cm.val v := ⟨v0, (offersAlg_iff hks v0).mpr (by rw [hq]; simp)⟩
      have hne : (encryptionAlgs ⟨keys⟩).isEmpty = false := by rw [hq]; rfl
      simp only [hne, Bool.false_eq_true, if_false]
      have hAlg := checkSupported_iff (offered := encryptionAlgs ⟨keys⟩) (o := wm.inner)
        (k := c!"authorization_encryption_alg_values_supported")
      rw [← listedIfAny_congr (offersAlg_iff hks)] at hAlg
      cases h1 : checkSupported (encryptionAlgs ⟨keys⟩)
          ((mget c!"authorization_encryption_alg_values_supported" wm.inner).map strsOfJson) with
      | error e =>
        simp only [reduceCtorEq, false_iff]
        intro h
        rw [hAlg.mpr h.algListed] at h1
        simp at h1
      | ok u =>
        simp only
        have hl := hAlg.mp h1
        have hkey : TypedParameter.key EncryptedResponseEncValuesSupported =
          c!"encrypted_response_enc_values_supported" := rfl
        cases hg : mget c!"encrypted_response_enc_values_supported" cm.val with
        | none =>
          simp only [UntypedObject.get, hkey, hg, transposeGet, unwrapOr]
          have hd : (RDefault.dflt : EncryptedResponseEncValuesSupported).val = [c!"A128GCM"] := rfl
          rw [hd, checkSupported_iff]
          have hc : ListedIfAny wm.inner c!"authorization_encryption_enc_values_supported" (· ∈ [c!"A128GCM"])
              ↔ ListedIfAny wm.inner c!"authorization_encryption_enc_values_supported" (OffersEnc cm.val) := by
            refine listedIfAny_congr ?_
            intro v
            simp [OffersEnc, hg]
          rw [hc]
          exact ⟨fun h => ⟨⟨keys, hks⟩, hoff, hl, fun j hj => by rw [hg] at hj; simp at hj, h⟩, fun h => h.encListed⟩
        | some je =>
          have hget : UntypedObject.get EncryptedResponseEncValuesSupported cm.val =
              some ((strsOfJson je).map .mk) := by
            simp only [UntypedObject.get, hkey, hg, TypedParameter.ofJson]
          rw [hget]
          cases hs : strsOfJson je with
          | error e =>
            simp only [Except.map, transposeGet, reduceCtorEq, false_iff]
            intro h
            obtain ⟨l, rfl⟩ := h.encs je hg
            rw [show strsOfJson (.arr (l.map .str)) = .ok l from strsOfJson_ok.mpr rfl] at hs
            simp at hs
          | ok l =>
            simp only [Except.map, transposeGet, unwrapOr]
            rw [checkSupported_iff]
            have hje := strsOfJson_ok.mp hs
            subst hje
            have hc : ListedIfAny wm.inner c!"authorization_encryption_enc_values_supported" (· ∈ l)
                ↔ ListedIfAny wm.inner c!"authorization_encryption_enc_values_supported" (OffersEnc cm.val) := by
              refine listedIfAny_congr ?_
              intro v
              simp only [OffersEnc, hg, reduceCtorEq, false_and, Option.some.injEq, false_or]
              constructor
              · exact fun hv => ⟨l, rfl, hv⟩
              · rintro ⟨l', hl', hv⟩
                have hl' : l.map Json.str = l'.map Json.str := Json.arr.inj hl'
                rw [List.map_injective_iff.mpr (fun a b h => by simpa using h) hl']
                exact hv
            rw [hc]
            exact ⟨fun h => ⟨⟨keys, hks⟩, hoff, hl, fun j hj => by
              rw [hg] at hj; simp only [Option.some.injEq] at hj; exact ⟨l, hj.symm⟩, h⟩, fun h => h.encListed⟩

theorem checkPrefix_iff (wm : WalletMetadata) (a : RequestObject) (hp : PrefixIs a.clientId a.clientIdScheme) :
    checkPrefix wm a = .ok () ↔ ∀ p, PrefixIs a.clientId (some p) → SupportsPrefix wm.inner p.val := by
  simp only [checkPrefix]
  cases hs : a.clientIdScheme with
  | none =>
    rw [hs] at hp
    simp only [true_iff]
    intro p hp'
    exact absurd (prefixIs_unique hp hp') (by simp)
  | some p =>
    rw [hs] at hp
    have hone : (∀ q, PrefixIs a.clientId (some q) → SupportsPrefix wm.inner q.val) ↔
        SupportsPrefix wm.inner p.val := by
      constructor
      · exact fun h => h p hp
      · intro h q hq
        have := prefixIs_unique hp hq
        simp only [Option.some.injEq] at this
        exact this ▸ h
    rw [hone, ← supportsPrefix_iff]
    cases UntypedObject.getOrDefault ClientIdPrefixesSupported wm.inner with
    | error e => simp
    | ok l =>
      simp only [Except.ok.injEq, exists_eq_left', List.contains_iff_mem]
      split
      · rename_i h; simp [h]
      · rename_i h; simp [h]

/-- **C15** Exactly when a request object passes the checks against the wallet's metadata: its
prefix is supported, it names a response mode, its client metadata (if any) is an object and, if
it asks for an encrypted response, has keys and algorithms that the wallet can use. -/
theorem C15_fits_iff (wm : WalletMetadata) (a : RequestObject) (h : Reports a.inner a) :
    validateAgainstMetadata wm a = .ok () ↔ FitsWallet wm.inner a := by
  simp only [validateAgainstMetadata]
  cases hpre : checkPrefix wm a with
  | error e =>
    simp only [reduceCtorEq, false_iff]
    intro hf
    rw [(checkPrefix_iff wm a h.scheme).mpr hf.pre] at hpre
    simp at hpre
  | ok u =>
    have hpre' := (checkPrefix_iff wm a h.scheme).mp hpre
    simp only
    have hkm : TypedParameter.key ResponseMode = c!"response_mode" := rfl
    have hkc : TypedParameter.key ClientMetadata = c!"client_metadata" := rfl
    have hmode : (Absent a.inner c!"response_mode" ∧ parsingError (UntypedObject.get ResponseMode a.inner) = .error .missing) ∨
        (¬ Absent a.inner c!"response_mode" ∧ parsingError (UntypedObject.get ResponseMode a.inner) = .ok a.responseMode) := by
      have hg := (getMode_iff.mpr h.mode).1
      simp only [UntypedObject.getOrDefault, UntypedObject.get, hkm, Absent] at hg ⊢
      cases hm : mget c!"response_mode" a.inner with
      | none => left; exact ⟨rfl, rfl⟩
      | some j =>
        right
        rw [hm] at hg
        simp only at hg
        simp [hg, parsingError]
    have hj : ∃ b, a.responseMode.isJarm = .ok b ∧ (b = true ↔ IsEncrypted a.responseMode) := by
      have hu := (getMode_iff.mpr h.mode).2
      cases hr : a.responseMode with
      | directPost => exact ⟨false, rfl, by simp [IsEncrypted]⟩
      | directPostJwt => exact ⟨true, rfl, by simp [IsEncrypted]⟩
      | dcApi => exact ⟨false, rfl, by simp [IsEncrypted]⟩
      | dcApiJwt => exact ⟨true, rfl, by simp [IsEncrypted]⟩
      | unsupported t => exact absurd hr (hu t)
    obtain ⟨b, hb, hbe⟩ := hj
    cases hr : ClientMetadata.resolve a with
    | error e =>
      simp only [reduceCtorEq, false_iff]
      intro hf
      simp only [ClientMetadata.resolve, UntypedObject.get, hkc] at hr
      rcases hf.metadata with ⟨hn, -⟩ | ⟨cm, hcm, -⟩
      · rw [show mget c!"client_metadata" a.inner = none from hn] at hr; simp at hr
      · rw [hcm] at hr; simp [TypedParameter.ofJson, objOfJson, Except.map] at hr
    | ok cm =>
      simp only
      rcases hmode with ⟨ha, hm⟩ | ⟨ha, hm⟩
      · rw [hm]
        simp only [reduceCtorEq, false_iff]
        exact fun hf => hf.mode ha
      · rw [hm]
        simp only [hb]
        have hcm : (Absent a.inner c!"client_metadata" ∧ cm = ⟨[]⟩) ∨
            mget c!"client_metadata" a.inner = some (.obj cm.val) := by
          simp only [ClientMetadata.resolve, UntypedObject.get, hkc] at hr
          cases hg : mget c!"client_metadata" a.inner with
          | none => rw [hg] at hr; left; exact ⟨hg, by simpa using hr.symm⟩
          | some j =>
            rw [hg] at hr
            right
            simp only [TypedParameter.ofJson] at hr
            obtain ⟨m, hm1, rfl⟩ := map_ok_iff.mp hr
            rw [objOfJson_ok.mp hm1]
        cases b with
        | false =>
          simp only [true_iff]
          have hne : ¬ IsEncrypted a.responseMode := by rw [← hbe]; simp
          refine ⟨hpre', ha, ?_⟩
          rcases hcm with ⟨hn, -⟩ | hcm
          · exact .inl ⟨hn, hne⟩
          · exact .inr ⟨_, hcm, fun he => absurd he hne⟩
        | true =>
          have he : IsEncrypted a.responseMode := by rw [← hbe]
          simp only
          rw [checkEncryption_iff]
          constructor
          · intro hf
            refine ⟨hpre', ha, ?_⟩
            rcases hcm with ⟨-, rfl⟩ | hcm
            · obtain ⟨keys, hk⟩ := hf.keys
              simp [KeySet, mget] at hk
            · exact .inr ⟨_, hcm, fun _ => hf⟩
          · intro hf
            rcases hf.metadata with ⟨-, hn⟩ | ⟨cm', hcm', hf'⟩
            · exact absurd he hn
            · rcases hcm with ⟨hn, -⟩ | hcm
              · rw [show mget c!"client_metadata" a.inner = none from hn] at hcm'; simp at hcm'
              · rw [hcm] at hcm'
                simp only [Option.some.injEq, Json.obj.injEq] at hcm'
                rw [hcm']; exact hf' he

/-- **C12, C15** The whole decision of the wallet: a request is accepted as `a` exactly if it
resolves to `a`, `a` fits the metadata, the verification method its client_id asks for accepts it,
and the client_id outside is not a different one. -/
theorem C15_validation_iff (w : Wallet) (r : AuthorizationRequest) (a : RequestObject) :
    (r.validate w).2 = .ok a ↔ ∃ jwt m, (r.resolve w).2 = .ok (a, jwt) ∧
      FitsWallet w.metadata.inner a ∧ MethodFor a.clientId m ∧ w.verifier m a jwt = .ok () ∧
      (∀ x y, r.clientId = some x → a.clientId = some y → x = y.val) := by
  rw [C12_accepted_iff]
  constructor
  · rintro ⟨jwt, m, h1, h2, h3⟩
    exact ⟨jwt, m, h1, (C15_fits_iff _ _ (resolve_reports h1).1).mp h2, h3⟩
  · rintro ⟨jwt, m, h1, h2, h3⟩
    exact ⟨jwt, m, h1, (C15_fits_iff _ _ (resolve_reports h1).1).mpr h2, h3⟩

/-- A wallet that announces its encryption algorithms. -/
def announcing (algs : List Str) : WalletMetadata :=
  { walletSample.metadata with
    inner := [(c!"authorization_encryption_alg_values_supported", .arr (algs.map .str)),
      (c!"authorization_encryption_enc_values_supported", .arr [.str c!"A128GCM"]),
      (c!"client_id_prefixes_supported", .arr [.str c!"x509_san_dns"])] }

theorem encryptedSample_reports : Reports encryptedObject.inner encryptedObject :=
  (C05_accessors_agree (o := encryptedSample) (by decide)).2

-- the request for an encrypted response fits the wallet that knows the algorithm of its key
example : FitsWallet (announcing [c!"RSA-OAEP", c!"ECDH-ES"]).inner encryptedObject ∧
    ¬ FitsWallet (announcing [c!"RSA-OAEP"]).inner encryptedObject := by
  rw [← C15_fits_iff _ _ encryptedSample_reports, ← C15_fits_iff _ _ encryptedSample_reports]
  decide

end Oid4vp
