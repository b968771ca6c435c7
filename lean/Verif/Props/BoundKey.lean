import Verif.Spec.BoundKey
import Verif.Props.Bound
import Verif.Props.Thumbprint
import Verif.Props.RequestInputs
import Verif.Model.Sha256
/-! # C116: what the session transcript says of the key that an answer is encrypted to -/

set_option autoImplicit false

namespace Oid4vp
open Spec

theorem clientMetadata_iff {a : RequestObject} {cm : UntypedObject} :
    a.clientMetadata = .ok ⟨cm⟩ ↔ mget c!"client_metadata" a.inner = some (.obj cm) := by
  simp only [RequestObject.clientMetadata, UntypedObject.get,
    show TypedParameter.key ClientMetadata = c!"client_metadata" from rfl]
  cases mget c!"client_metadata" a.inner with
  | none => simp
  | some j => cases j <;> simp [TypedParameter.ofJson, objOfJson, Except.map]

/-- **C116** The thumbprint of a request is that of its key for the transcript. -/
theorem C116_thumbprint (sha : Bytes → Bytes) (a : RequestObject) (t : Bytes) :
    getEncryptionJwkThumbprint sha a = some t ↔
      ∃ key, TranscriptKey a key ∧ computeJwkThumbprint sha (.obj key) = .ok t := by
  constructor
  · intro h
    simp only [getEncryptionJwkThumbprint] at h
    cases hc : a.clientMetadata with
    | error e => rw [hc] at h; cases h
    | ok cm =>
      obtain ⟨cm⟩ := cm
      rw [hc] at h
      cases hj : parsingError (ClientMetadata.jwks ⟨cm⟩) with
      | error e => simp only [hj] at h; cases h
      | ok ks =>
        obtain ⟨keys⟩ := ks
        simp only [hj] at h
        obtain ⟨key, hf, ht⟩ := find_thumb.mp h
        exact ⟨key, ⟨cm, keys, clientMetadata_iff.mp hc, jwks_iff.mp (parsingError_ok.mp hj), hf⟩, ht⟩
  · rintro ⟨key, ⟨cm, keys, h1, h2, h3⟩, ht⟩
    exact ((C41_thumbprint_of_first sha a cm keys h1 h2).1 t).mpr ⟨key, h3, ht⟩

theorem thumbs_bind {sha : Bytes → Bytes} {a a' : RequestObject} {t : Option Bytes} (h : ThumbFor sha a t)
    (h' : ThumbFor sha a' t) (he : AsksEncrypted a) {key : List (Str × Json)} {r : Required}
    (hk : TranscriptKey a key) (hr : HasRequired key r) (hq : r.NoQuotes) :
    (AsksEncrypted a' ∧ ∃ key', TranscriptKey a' key' ∧ HasRequired key' r) ∨ ThumbsCollide sha := by
  obtain ⟨th, hth⟩ := (C42_defined_iff sha key).mpr ⟨r, hr⟩
  have hg := (C116_thumbprint sha a th).mpr ⟨key, hk, hth⟩
  have ht : t = some th := by
    rcases h with ⟨-, h⟩ | ⟨h, -⟩
    · exact h.trans hg
    · exact absurd he h
  subst ht
  rcases h' with ⟨he', h'⟩ | ⟨-, h'⟩
  · obtain ⟨key', hk', hth'⟩ := (C116_thumbprint sha a' th).mp h'.symm
    obtain ⟨r', hr', -⟩ := (C42_hashed sha key' th).mp hth'
    rcases C42_honest_key_binds sha key key' r r' th hr hr' hq hth hth' with rfl | hc
    · exact .inl ⟨he', key', hk', hr'⟩
    · exact .inr ⟨r, r', hc⟩
  · cases h'

/-- **C116** A request with the same transcript as one for an encrypted answer asks for an encrypted answer too, and
its key for the transcript has the same type and required members, provided that the key of the first has no quotes in
them; or the hash function collides. -/
theorem C116_same_key (sha : Bytes → Bytes) (hsha : Gives32 sha) (a a' : RequestObject) (hs : ShortTexts a)
    (hs' : ShortTexts a') (tr : Bytes) (h : RedirectTranscript sha a tr) (h' : RedirectTranscript sha a' tr)
    (he : AsksEncrypted a) {key : List (Str × Json)} {r : Required} (hk : TranscriptKey a key)
    (hr : HasRequired key r) (hq : r.NoQuotes) :
    (AsksEncrypted a' ∧ ∃ key', TranscriptKey a' key' ∧ HasRequired key' r) ∨ HashesCollide sha a a' ∨
      ThumbsCollide sha := by
  rcases C105_binds sha hsha a a' hs hs' tr h h' with ⟨-, -, -, t, ht, ht'⟩ | hc
  · exact (thumbs_bind ht ht' he hk hr hq).imp_right .inr
  · exact .inr (.inl hc)

theorem sameKeys {a : RequestObject} {cm cm' : UntypedObject} {keys keys' : List (List (Str × Json))}
    (h1 : mget c!"client_metadata" a.inner = some (.obj cm)) (h2 : KeyList cm keys)
    (h1' : mget c!"client_metadata" a.inner = some (.obj cm')) (h2' : KeyList cm' keys') : keys' = keys := by
  cases h1.symm.trans h1'
  have h3 := jwks_iff.mpr h2
  rw [jwks_iff.mpr h2'] at h3
  simpa using h3

/-- **C116** The answer to a request is encrypted to its key for the answer. -/
theorem C116_answer_key (jk : Josekit) (a : RequestObject)
    (hp : ∀ key, AnswerKey a key → ProperKey key) (t : VpToken) (s : Option State) (resp : AuthorizationResponse)
    (h : buildEncryptedResponse jk a t s = .ok resp) :
    ∃ key header payload jwe, AnswerKey a key ∧ resp = .jwt jwe ∧ jk.encrypt key header payload = .ok jwe := by
  obtain ⟨cm, keys, key, enc, jwe, h1, h2, h3, -, -, -, h7, h8⟩ :=
    (C39_encrypted_response_iff jk a t s resp fun cm keys key h1 h2 h3 => hp key ⟨cm, keys, h1, h2, h3⟩).mp h
  exact ⟨key, _, _, jwe, ⟨cm, keys, h1, h2, h3⟩, h8, h7⟩

/-- **C116** So for the other request, if the same of its keys are for the transcript as for the answer, the answer is
encrypted to a key with the required members of the first. -/
theorem C116_no_other_key (sha : Bytes → Bytes) (hsha : Gives32 sha) (a a' : RequestObject) (hs : ShortTexts a)
    (hs' : ShortTexts a') (tr : Bytes) (h : RedirectTranscript sha a tr) (h' : RedirectTranscript sha a' tr)
    (he : AsksEncrypted a) {key : List (Str × Json)} {r : Required} (hk : TranscriptKey a key)
    (hr : HasRequired key r) (hq : r.NoQuotes) (hsame : ∀ k, TranscriptKey a' k ↔ AnswerKey a' k) :
    (∀ key', AnswerKey a' key' → HasRequired key' r) ∨ HashesCollide sha a a' ∨ ThumbsCollide sha := by
  refine (C116_same_key sha hsha a a' hs hs' tr h h' he hk hr hq).imp_left ?_
  rintro ⟨-, key₁, hk₁, hr₁⟩ key' hk'
  obtain ⟨cm, keys, h1, h2, h3⟩ := hk₁
  obtain ⟨cm', keys', h1', h2', h3'⟩ := (hsame key').mpr hk'
  cases sameKeys h1 h2 h1' h2'
  exact firstWith_unique h3 h3' ▸ hr₁

theorem bare_required (r : Required) : HasRequired (bareKey r) r := by
  cases r with
  | ec => exact ⟨rfl, rfl, rfl, rfl⟩
  | rsa => exact ⟨rfl, rfl, rfl⟩

theorem bare_thumb (r : Required) : ThumbKey (bareKey r) :=
  ⟨fun s hs => (by cases r <;> cases hs), r, bare_required r⟩

/-- Reading a request object does not look at the metadata of the verifier. -/
theorem reading_other_metadata (o : UntypedObject) (j : Json) :
    RequestObject.ofObject (mset c!"client_metadata" j o) =
      (RequestObject.ofObject o).map fun a => { a with inner := mset c!"client_metadata" j o } := by
  have hg : ∀ (α : Type) [TypedParameter α], TypedParameter.key α ≠ c!"client_metadata" →
      UntypedObject.get α (mset c!"client_metadata" j o) = UntypedObject.get α o := fun α _ h => by
    simp only [UntypedObject.get, mget_mset_ne h]
  have hd : ∀ (α : Type) [TypedParameter α] [RDefault α], TypedParameter.key α ≠ c!"client_metadata" →
      UntypedObject.getOrDefault α (mset c!"client_metadata" j o) = UntypedObject.getOrDefault α o :=
    fun α _ _ h => by simp only [UntypedObject.getOrDefault, mget_mset_ne h]
  unfold RequestObject.ofObject
  rw [hg ClientId (by decide), hd ResponseMode (by decide), hg RedirectUri (by decide), hg ResponseUri (by decide),
    hg ResponseType (by decide), hg Nonce (by decide)]
  repeat' split
  all_goals rfl

theorem bare_unsuitable (r : Required) : ¬ SuitableKey (bareKey r) := by
  rintro ⟨h, -, -⟩
  cases r <;> cases h

/-- **C116** (A finding.) In general the transcript says nothing of the key the answer is encrypted to. For every
request for an encrypted answer and every suitable key there is a request that differs only in the keys, has the same
transcript, and whose answer is encrypted to that key: put the key for the transcript, without its algorithm, before
it. -/
theorem C116_substituted (sha : Bytes → Bytes) (a : RequestObject) (hread : RequestObject.ofObject a.inner = .ok a)
    (cm : UntypedObject) {key : List (Str × Json)} {r : Required} (hk : TranscriptKey a key) (hr : HasRequired key r)
    (evil : List (Str × Json)) (hev : SuitableKey evil) :
    let a' := withKeys a cm [bareKey r, evil]
    RequestObject.ofObject a'.inner = .ok a' ∧ (∀ k, k ≠ c!"client_metadata" → mget k a'.inner = mget k a.inner) ∧
    (∃ cm', mget c!"client_metadata" a'.inner = some (.obj cm') ∧ ∀ k, k ≠ c!"jwks" → mget k cm' = mget k cm) ∧
    (∀ tr, RedirectTranscript sha a' tr ↔ RedirectTranscript sha a tr) ∧
    (∀ origin tr, DcApiTranscript sha origin a' tr ↔ DcApiTranscript sha origin a tr) ∧
    ∀ key', AnswerKey a' key' ↔ key' = evil := by
  intro a'
  have hmeta : mget c!"client_metadata" a'.inner =
      some (.obj (mset c!"jwks" (.obj [(c!"keys", .arr ([bareKey r, evil].map .obj))]) cm)) := mget_mset_self _ _ _
  have hlist : KeyList (mset c!"jwks" (.obj [(c!"keys", .arr ([bareKey r, evil].map .obj))]) cm) [bareKey r, evil] :=
    .inl ⟨_, mget_mset_self _ _ _, rfl⟩
  have hother : ∀ k, k ≠ c!"client_metadata" → mget k a'.inner = mget k a.inner := fun k hk => mget_mset_ne hk _ _
  have hthumb : getEncryptionJwkThumbprint sha a' = getEncryptionJwkThumbprint sha a := by
    obtain ⟨t, ht⟩ := (C42_defined_iff sha key).mpr ⟨r, hr⟩
    rw [(C116_thumbprint sha a t).mpr ⟨key, hk, ht⟩, C116_thumbprint sha a' t]
    exact ⟨bareKey r, ⟨_, _, hmeta, hlist, [], [evil], rfl, bare_thumb r, fun k hk => by cases hk⟩,
      (C42_depends_only_on_required sha _ _ r hr (bare_required r)) ▸ ht⟩
  have htf : ∀ t, ThumbFor sha a' t ↔ ThumbFor sha a t := fun t => by
    unfold ThumbFor
    rw [hthumb]
    exact Iff.rfl
  refine ⟨?_, hother, ⟨_, hmeta, fun k hk => mget_mset_ne hk _ _⟩, fun tr => ?_, fun origin tr => ?_, fun key' => ?_⟩
  · have := reading_other_metadata a.inner
      (.obj (mset c!"jwks" (.obj [(c!"keys", .arr ([bareKey r, evil].map .obj))]) cm))
    rw [hread] at this
    exact this
  · unfold RedirectTranscript RedirectText
    simp only [htf]
    exact Iff.rfl
  · unfold DcApiTranscript DcApiText
    simp only [htf]
    exact Iff.rfl
  · constructor
    · rintro ⟨cm', keys', h1, h2, h3⟩
      cases sameKeys hmeta hlist h1 h2
      exact firstWith_unique h3 ⟨[bareKey r], [], rfl, hev, fun k hk => by
        cases List.mem_singleton.mp hk; exact bare_unsuitable r⟩
    · rintro rfl
      exact ⟨_, _, hmeta, hlist, [bareKey r], [], rfl, hev, fun k hk => by
        cases List.mem_singleton.mp hk; exact bare_unsuitable r⟩

/-- **C116** The request with the key put into it passes the checks against the metadata of the wallet if the original
one does, the key says that it is for encryption, and the wallet knows ECDH-ES. -/
theorem C116_substituted_fits (wm : UntypedObject) (a : RequestObject) {cm : UntypedObject}
    (hcm : mget c!"client_metadata" a.inner = some (.obj cm)) (he : IsEncrypted a.responseMode) (r : Required)
    (evil : List (Str × Json)) (hev : SuitableKey evil) (huse : Says evil c!"use" c!"enc")
    (hw : ListedIfAny wm c!"authorization_encryption_alg_values_supported" (· = c!"ECDH-ES"))
    (h : FitsWallet wm a) : FitsWallet wm (withKeys a cm [bareKey r, evil]) := by
  obtain ⟨h1, h2, h3⟩ := h
  have hef : EncryptionFits wm cm := by
    rcases h3 with ⟨h3, -⟩ | ⟨cm', h3, h4⟩
    · exact absurd (h3.symm.trans hcm) (by simp)
    · cases h3.symm.trans hcm
      exact h4 he
  have hjwks := mget_mset_self c!"jwks" (.obj [(c!"keys", .arr ([bareKey r, evil].map .obj))]) cm
  have henc := mget_mset_ne (show c!"encrypted_response_enc_values_supported" ≠ c!"jwks" by decide)
    (.obj [(c!"keys", .arr ([bareKey r, evil].map .obj))]) cm
  have hoffer : OffersAlg (mset c!"jwks" (.obj [(c!"keys", .arr ([bareKey r, evil].map .obj))]) cm) c!"ECDH-ES" :=
    ⟨evil, ⟨_, by simp, .inl ⟨_, hjwks, rfl⟩⟩, huse, hev.1⟩
  refine ⟨h1, ?_, .inr ⟨_, mget_mset_self _ _ _, fun _ => ⟨⟨_, .inl ⟨_, hjwks, rfl⟩⟩, ⟨_, hoffer⟩, ?_, ?_, ?_⟩⟩⟩
  · unfold Absent withKeys at *
    rwa [mget_mset_ne (by decide)]
  · intro j hj
    obtain ⟨l, hl, v, hv, rfl⟩ := hw j hj
    exact ⟨l, hl, _, hv, hoffer⟩
  · unfold TextsIfAny
    rw [henc]
    exact hef.encs
  · have := hef.encListed
    unfold ListedIfAny OffersEnc at this ⊢
    rw [henc]
    exact this

/-- The requests of the examples: one with the key of the verifier, one with another key put behind what remains of
it. -/
def encRequest : RequestObject := jwtObject [encKey] [c!"A128GCM"]
/-- Its metadata. -/
def encRequestMetadata : UntypedObject :=
  [(c!"encrypted_response_enc_values_supported", .arr [.str c!"A128GCM"]),
   (c!"jwks", .obj [(c!"keys", .arr [.obj encKey])])]
/-- The required members of its key. -/
def encRequired : Required := .ec c!"P-256" c!"ex" c!"ey"

/-- A key of somebody else. -/
def otherKey : List (Str × Json) :=
  [(c!"alg", .str c!"ECDH-ES"), (c!"crv", .str c!"P-256"), (c!"kty", .str c!"EC"), (c!"use", .str c!"enc"),
   (c!"x", .str c!"ox"), (c!"y", .str c!"oy")]

theorem encRequest_transcript : TranscriptKey encRequest encKey :=
  ⟨encRequestMetadata, [encKey], rfl, .inl ⟨_, rfl, rfl⟩, [], [], rfl,
    ⟨fun s hs => (by cases hs; rfl), encRequired, rfl, rfl, rfl, rfl⟩, fun k hk => by cases hk⟩

theorem otherKey_suitable : SuitableKey otherKey := by rw [← suitable_iff]; decide

-- the request for an encrypted answer, its key and the key put in its place meet the conditions
example : RequestObject.ofObject encRequest.inner = .ok encRequest ∧ AsksEncrypted encRequest ∧
    TranscriptKey encRequest encKey ∧ HasRequired encKey encRequired ∧ encRequired.NoQuotes ∧ SuitableKey otherKey :=
  ⟨jwtSample_ok _ _, .inl rfl, encRequest_transcript, ⟨rfl, rfl, rfl, rfl⟩, by unfold encRequired Required.NoQuotes; decide,
    otherKey_suitable⟩
example : ∃ tr, RedirectTranscript sha256 encRequest tr :=
  ⟨_, _, ⟨.inr rfl, _, _, rfl, .inl ⟨.inl rfl, rfl⟩, rfl⟩, rfl⟩
-- of the keys of this request the same are for the transcript and for the answer
example : ∀ k, TranscriptKey encRequest k ↔ AnswerKey encRequest k := fun k => by
  have h1 : KeyList encRequestMetadata [encKey] := .inl ⟨_, rfl, rfl⟩
  have hs : SuitableKey encKey := by rw [← suitable_iff]; decide
  have ht : ThumbKey encKey := ⟨hs.2.2, encRequired, rfl, rfl, rfl, rfl⟩
  constructor
  · rintro ⟨cm, keys, a1, a2, a3⟩
    cases sameKeys (a := encRequest) rfl h1 a1 a2
    cases firstWith_unique a3 ⟨[], [], rfl, ht, fun k hk => by cases hk⟩
    exact ⟨encRequestMetadata, _, rfl, h1, [], [], rfl, hs, fun k hk => by cases hk⟩
  · rintro ⟨cm, keys, a1, a2, a3⟩
    cases sameKeys (a := encRequest) rfl h1 a1 a2
    cases firstWith_unique a3 ⟨[], [], rfl, hs, fun k hk => by cases hk⟩
    exact ⟨encRequestMetadata, _, rfl, h1, [], [], rfl, ht, fun k hk => by cases hk⟩

/-- **C116** The wallet accepts both requests, and answers the second under the key put into it. -/
theorem C116_substituted_accepted :
    (AuthorizationRequest.validate (pickyWallet [c!"ECDH-ES"] [c!"A128GCM"]) ⟨none, .direct encRequest.inner⟩).2 =
      .ok encRequest ∧
    (AuthorizationRequest.validate (pickyWallet [c!"ECDH-ES"] [c!"A128GCM"])
      ⟨none, .direct (withKeys encRequest encRequestMetadata [bareKey encRequired, otherKey]).inner⟩).2 =
        .ok (withKeys encRequest encRequestMetadata [bareKey encRequired, otherKey]) ∧
    getEncryptionJwkThumbprint id (withKeys encRequest encRequestMetadata [bareKey encRequired, otherKey]) =
      getEncryptionJwkThumbprint id encRequest ∧
    buildEncryptedResponse toyJose (withKeys encRequest encRequestMetadata [bareKey encRequired, otherKey]) tokenSample none =
      .ok (.jwt (jPrint (.arr [.obj otherKey, .obj (encHeader c!"A128GCM" none),
        .obj (encPayload tokenSample.toJson none)]))) := by
  decide +kernel

end Oid4vp
