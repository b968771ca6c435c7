import Verif.Props.WalletApp
import Verif.Props.Fits
import Verif.Props.Formats
import Verif.Props.Build
import Verif.Model.Cli
/-!
# What the example wallet announces, for the library that reads it (C79)
-/

set_option autoImplicit false

namespace Oid4vp
open Spec Example WalletApp

/-- The members of the announced document. -/
def announcedDoc (endpoint : Url) : UntypedObject :=
  mset c!"response_modes_supported" (strsToJson [c!"direct_post", c!"direct_post.jwt"])
    (metadata endpoint).toObject

theorem announcedDoc_get (endpoint : Url) :
    mget c!"authorization_endpoint" (announcedDoc endpoint) = some (.str endpoint.print) ∧
    mget c!"vp_formats_supported" (announcedDoc endpoint) = some (.obj [(c!"dc+sd-jwt", .obj
      [(c!"alg_values_supported", .arr [.str c!"ES256"]),
       (c!"kb-jwt_alg_values_supported", .arr [.str c!"ES256"])])]) ∧
    mget c!"client_id_prefixes_supported" (announcedDoc endpoint) = some (.arr [.str c!"redirect_uri"]) ∧
    mget c!"authorization_encryption_alg_values_supported" (announcedDoc endpoint) =
      some (.arr [.str c!"ECDH-ES"]) ∧
    mget c!"authorization_encryption_enc_values_supported" (announcedDoc endpoint) =
      some (.arr [.str c!"A256GCM"]) := ⟨rfl, rfl, rfl, rfl, rfl⟩

theorem announcedDoc_of {endpoint : Url} {m : UntypedObject}
    (h : ObjectOf (announcement endpoint.print) (.obj m)) : m = announcedDoc endpoint := by
  rw [announcement_iff] at h
  injection h

/-- What the library reads from the document. -/
def readBack (endpoint : Url) : WalletMetadata :=
  ⟨announcedDoc endpoint, ⟨endpoint⟩, ⟨[(.dcSdJwt, .other (.obj
    [(c!"alg_values_supported", .arr [.str c!"ES256"]),
     (c!"kb-jwt_alg_values_supported", .arr [.str c!"ES256"])]))]⟩⟩

theorem readBack_eq {endpoint : Url} (h : endpoint.WF) :
    WalletMetadata.ofObject (announcedDoc endpoint) = .ok (readBack endpoint) := by
  rw [C50_parsed_reports]
  refine ⟨rfl, ?_, rfl⟩
  show some ((Url.ofJson (.str endpoint.print)).map AuthorizationEndpoint.mk) = _
  simp [Url.ofJson, Url.parse_print h, orErr, readBack, WalletMetadata.authorizationEndpoint, Except.map]

theorem announcedDoc_print {endpoint : Url} :
    jParse (jPrint (.obj (announcedDoc endpoint))) = .ok (.obj (announcedDoc endpoint)) := by
  have e : announcedDoc endpoint =
      [(c!"authorization_encryption_alg_values_supported", .arr [.str c!"ECDH-ES"]),
       (c!"authorization_encryption_enc_values_supported", .arr [.str c!"A256GCM"]),
       (c!"authorization_endpoint", .str endpoint.print),
       (c!"client_id_prefixes_supported", .arr [.str c!"redirect_uri"]),
       (c!"response_modes_supported", .arr [.str c!"direct_post", .str c!"direct_post.jwt"]),
       (c!"response_types_supported", .arr [.str c!"vp_token"]),
       (c!"vp_formats_supported", .obj [(c!"dc+sd-jwt", .obj
        [(c!"alg_values_supported", .arr [.str c!"ES256"]),
         (c!"kb-jwt_alg_values_supported", .arr [.str c!"ES256"])])])] := rfl
  rw [e]
  refine jParse_jPrint ?_ ?_
  · simp [Json.depth, Json.depthM, Json.depthL, jsonMaxDepth]
  · simp [Json.WF, Json.WFM, Json.WFL, Sorted]
    decide

/-- **C79** The text of the wallet's metadata document is read by the library: it has the endpoint's
address, and the only format it supports is `dc+sd-jwt`. -/
theorem C79_announcement_read {endpoint : Url} {doc : Json} (h : endpoint.WF)
    (hd : ObjectOf (announcement endpoint.print) doc) :
    ∃ m wm, doc = .obj m ∧ jParse (jPrint doc) = .ok doc ∧ WalletMetadata.ofObject m = .ok wm ∧
      wm.inner = m ∧ wm.authorizationEndpoint.val = endpoint ∧
      ∀ d, wm.vpFormatsSupported.isClaimFormatSupported d = true ↔ d = .dcSdJwt := by
  rw [announcement_iff] at hd
  subst hd
  refine ⟨announcedDoc endpoint, readBack endpoint, rfl, announcedDoc_print, readBack_eq h, rfl, rfl, ?_⟩
  intro d
  cases d <;> simp [readBack, WalletMetadata.vpFormatsSupported, VpFormatsSupported.isClaimFormatSupported,
    ClaimFormatMap.get]

/-- **C79** The wallet's own value of its metadata does not support that format: it files it under
an unknown name. -/
theorem C79_own_value_differs (endpoint : Url) (d : ClaimFormatDesignation) :
    (metadata endpoint).vpFormatsSupported.isClaimFormatSupported d = true ↔
      d = .other c!"dc+sd-jwt" := by
  have : (metadata endpoint).vpFormatsSupported = ⟨formats⟩ := rfl
  rw [this]
  cases d <;> simp [VpFormatsSupported.isClaimFormatSupported, formats, ClaimFormatMap.get, ClaimFormatMap.insert]

theorem offersAnnounced_iff {endpoint : Url} {cm : UntypedObject} :
    EncryptionFits (announcedDoc endpoint) cm ↔ OffersAnnounced cm := by
  have h := announcedDoc_get endpoint
  have one : ∀ {s : Str} {l : List Str}, Json.arr [.str s] = .arr (l.map .str) → l = [s] := by
    intro s l e
    exact (List.map_injective_iff.mpr (fun a b h => Json.str.inj h) (a₁ := [s]) (Json.arr.inj e)).symm
  constructor
  · rintro ⟨h1, -, h3, -, h5⟩
    obtain ⟨l, e, v, hv, ho⟩ := h3 _ h.2.2.2.1
    rw [one e, List.mem_singleton] at hv
    obtain ⟨l', e', v', hv', ho'⟩ := h5 _ h.2.2.2.2
    rw [one e', List.mem_singleton] at hv'
    exact ⟨h1, hv ▸ ho, hv' ▸ ho'⟩
  · rintro ⟨h1, h2, h3⟩
    refine ⟨h1, ⟨_, h2⟩, ?_, ?_, ?_⟩
    · intro j hj
      rw [h.2.2.2.1] at hj
      exact ⟨[c!"ECDH-ES"], by simpa using hj.symm, _, by simp, h2⟩
    · intro j hj
      rcases h3 with ⟨h3, -⟩ | ⟨l, h3, -⟩
      · rw [h3] at hj; simp at hj
      · rw [h3] at hj; exact ⟨l, by simpa using hj.symm⟩
    · intro j hj
      rw [h.2.2.2.2] at hj
      exact ⟨[c!"A256GCM"], by simpa using hj.symm, _, by simp, h3⟩

theorem supports_iff {endpoint : Url} (p : Str) :
    SupportsPrefix (announcedDoc endpoint) p ↔ p = c!"redirect_uri" := by
  simp only [SupportsPrefix, Absent, (announcedDoc_get endpoint).2.2.1, reduceCtorEq, false_and, false_or]
  constructor
  · rintro ⟨l, e, h⟩
    rw [← List.map_injective_iff.mpr (fun a b h => Json.str.inj h) (a₁ := [c!"redirect_uri"])
      (Json.arr.inj (Option.some.inj e)), List.mem_singleton] at h
    exact h
  · rintro rfl
    exact ⟨[c!"redirect_uri"], rfl, by simp⟩

/-- **C79** The requests that fit what the wallet announces: the client identifier has no prefix or
the prefix `redirect_uri`, the response mode is given, and if the response is to be encrypted the
client metadata offers a key for ECDH-ES and, explicitly, A256GCM. -/
theorem C79_fits {endpoint : Url} {m : UntypedObject} {a : RequestObject}
    (hd : ObjectOf (announcement endpoint.print) (.obj m)) :
    FitsWallet m a ↔
      (∀ p, PrefixIs a.clientId (some p) → p.val = c!"redirect_uri") ∧
      ¬ Absent a.inner c!"response_mode" ∧
      ((Absent a.inner c!"client_metadata" ∧ ¬ IsEncrypted a.responseMode) ∨
        ∃ cm, mget c!"client_metadata" a.inner = some (.obj cm) ∧
          (IsEncrypted a.responseMode → OffersAnnounced cm)) := by
  rw [announcedDoc_of hd]
  have hp : ∀ p : Str, SupportsPrefix (announcedDoc endpoint) p ↔ p = c!"redirect_uri" := supports_iff
  constructor
  · rintro ⟨h1, h2, h3⟩
    refine ⟨fun p h => (hp _).mp (h1 p h), h2, ?_⟩
    simpa only [MetadataFits, offersAnnounced_iff] using h3
  · rintro ⟨h1, h2, h3⟩
    refine ⟨fun p h => (hp _).mpr (h1 p h), h2, ?_⟩
    simpa only [MetadataFits, offersAnnounced_iff] using h3

/-- **C79** The content encryption the wallet announces is not the one it uses: every encrypted
response is encrypted with A128GCM. -/
theorem C79_announced_enc_unused {endpoint : Url} {m : UntypedObject}
    (hd : ObjectOf (announcement endpoint.print) (.obj m)) :
    (∃ l, mget c!"authorization_encryption_enc_values_supported" m = some (.arr l) ∧
      .str c!"A128GCM" ∉ l) ∧
    ∀ {ord : MapOrder} {w : Adapter} {p : Params} {a : RequestObject} {req : HttpRequest}
      {reqs : List HttpRequest} {ans : Answer}, Responds ord w p a (req :: reqs) ans →
      a.responseMode = .directPostJwt →
      ∃ key header payload jwe, w.jose.encrypt key header payload = .ok jwe ∧
        Says header c!"enc" c!"A128GCM" ∧ req = Sends a (formText [(c!"response", jwe)]) := by
  refine ⟨⟨_, by rw [announcedDoc_of hd]; exact (announcedDoc_get endpoint).2.2.2.2, by decide⟩, ?_⟩
  intro ord w p a req reqs ans h hm
  cases h with
  | plain _ _ hm' => rw [hm] at hm'; cases hm'
  | encrypted _ _ _ _ _ hk hs _ => exact ⟨_, _, _, _, hs.2, rfl, rfl⟩

/-- **C79** None of the library's clients can build a request for a wallet with this metadata: their
prefixes are not announced. -/
theorem C79_no_library_client {endpoint : Url} {m : UntypedObject} {wm : WalletMetadata}
    (hd : ObjectOf (announcement endpoint.print) (.obj m)) (hw : wm.inner = m) (v : Verifier)
    (b : RequestBuilder) (uuid : Uuid) (busy : Bool) (σ : Store)
    (hc : (∃ id vm s, v.client = didClient id vm s) ∨ (∃ x id chain s, v.client = sanClient x id chain s) ∨
      ∃ x id chain s, v.client = hashClient x id chain s) :
    ∀ url, (RequestBuilder.buildWithSessionId v b uuid wm busy σ).2 ≠ .ok url := by
  intro url h
  have h' : RequestBuilder.buildWithSessionId v b uuid wm busy σ =
      ((RequestBuilder.buildWithSessionId v b uuid wm busy σ).1, .ok url) := by rw [← h]
  obtain ⟨s, hc', -⟩ := build_ok h'
  obtain ⟨o, ps, ind, ep, -, hps, hmem, -⟩ := construct_ok hc'
  have := (supportsPrefix_iff wm _).mp ⟨ps, hps, hmem⟩
  rw [hw, announcedDoc_of hd, supports_iff] at this
  rcases hc with ⟨id, vm, s, e⟩ | ⟨x, id, chain, s, e⟩ | ⟨x, id, chain, s, e⟩ <;>
    rw [e] at this <;> simp [didClient, sanClient, hashClient, ClientIdScheme.decentralizedIdentifier,
      ClientIdScheme.x509SanDns, ClientIdScheme.x509Hash] at this

/-- **C79** The published key is a public one, and not one to encrypt to. -/
theorem C79_key_is_public {x y : Bytes} {key : List (Str × Json)}
    (h : ObjectOf (holderKey x y) (.obj key)) :
    (∀ k ∈ [c!"d", c!"p", c!"q", c!"dp", c!"dq", c!"qi", c!"oth", c!"k"], mget k key = none) ∧
      ¬ ForEncryption key ∧ ¬ SuitableKey key := by
  rw [holderKey_iff] at h
  injection h with h
  subst h
  have hu : ¬ ForEncryption (publicJwk x y) := by
    intro h
    have := h c!"sig" rfl
    revert this; decide
  refine ⟨?_, hu, fun h => hu h.2.2⟩
  intro k hk
  simp only [List.mem_cons, List.not_mem_nil, or_false] at hk
  rcases hk with rfl | rfl | rfl | rfl | rfl | rfl | rfl | rfl <;> rfl

/-- The address of a wallet's endpoint. -/
def announcedUrl : Url := ⟨c!"https", some c!"w.example", c!"/authorize", none, none⟩

-- the document exists, and the library reads the address from it
example : announcedUrl.WF ∧ ∃ m, ObjectOf (announcement announcedUrl.print) (.obj m) :=
  ⟨Url.parse_wf (s := c!"https://w.example/authorize") (by decide +kernel), _, announcement_iff.mpr rfl⟩

/-- A request for an encrypted response with the prefix `redirect_uri`, offering these algorithms. -/
def announcedRequest (encs : List Str) : UntypedObject :=
  mset c!"client_id" (.str c!"redirect_uri:https://verifier.example/r")
    (mset c!"response_mode" (.str c!"direct_post.jwt") (mset c!"client_metadata" (.obj
      [(c!"encrypted_response_enc_values_supported", .arr (encs.map .str)), (c!"jwks",
        .obj [(c!"keys", .arr [.obj [(c!"alg", .str c!"ECDH-ES"), (c!"use", .str c!"enc")]])])])
      requestSample))

-- what is asked with A256GCM fits, what is asked with A128GCM (which would be used) does not
example : (∃ a, RequestObject.ofObject (announcedRequest [c!"A128GCM", c!"A256GCM"]) = .ok a ∧
      FitsWallet (announcedDoc announcedUrl) a) ∧
    ∃ a, RequestObject.ofObject (announcedRequest [c!"A128GCM"]) = .ok a ∧
      ¬ FitsWallet (announcedDoc announcedUrl) a := by
  have h : ∀ encs a, RequestObject.ofObject (announcedRequest encs) = .ok a →
      (FitsWallet (announcedDoc announcedUrl) a ↔ validateAgainstMetadata (readBack announcedUrl) a = .ok ()) := by
    intro encs a ha
    exact (C15_fits_iff (readBack announcedUrl) a (C05_accessors_agree ha).2).symm
  refine ⟨⟨_, rfl, (h _ _ rfl).mpr (by decide +kernel)⟩, ⟨_, rfl, fun hf => ?_⟩⟩
  have := (h _ _ rfl).mp hf
  revert this; decide +kernel

-- a client with the announced prefix is not excluded
example : SupportsPrefix (announcedDoc announcedUrl) (Cli.redirectUriClient announcedUrl).pre.val :=
  (supports_iff _).mpr rfl

end Oid4vp
