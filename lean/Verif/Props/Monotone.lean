import Verif.Spec.Monotone
import Verif.Props.DecisionInputs
import Verif.Props.Disclosure
/-! # C113: supporting, offering and holding more never gets less accepted, with one exception -/

set_option autoImplicit false

namespace Oid4vp
open Spec Example AuthorizationRequest

/-! ## The wallet -/

theorem listedIfAny_grows {wm wm' : UntypedObject} {k : Str} {offered : Str → Prop} (hg : ListGrows wm wm' k)
    (h : ListedIfAny wm k offered) : ListedIfAny wm' k offered := by
  intro j hj
  rcases hg with hg | hg | ⟨l, l', h1, h2, h3⟩
  · exact h j (hg ▸ hj)
  · rw [show mget k wm' = none from hg] at hj
    cases hj
  · rw [h2] at hj
    cases hj
    obtain ⟨l₁, he, v, hv, ho⟩ := h _ h1
    have : l = l₁ := by
      injection he with he
      exact List.map_injective_iff.mpr (fun _ _ h => Json.str.inj h) he
    subst this
    exact ⟨l', rfl, v, h3 v hv, ho⟩

theorem fitsWallet_more {wm wm' : UntypedObject} {a : RequestObject} (hs : SupportsMore wm wm')
    (h : FitsWallet wm a) : FitsWallet wm' a := by
  refine ⟨fun p hp => hs.prefixes _ (h.pre p hp), h.mode, ?_⟩
  rcases h.metadata with h | ⟨cm, h1, h2⟩
  · exact .inl h
  · exact .inr ⟨cm, h1, fun he => ⟨(h2 he).keys, (h2 he).alg, listedIfAny_grows hs.algs (h2 he).algListed,
      (h2 he).encs, listedIfAny_grows hs.encs (h2 he).encListed⟩⟩

/-- **C113** A wallet that supports more accepts what it accepted, as the same request object, and does the same on
the way. -/
theorem C113_wallet_supports_more (w : Wallet) (m' : WalletMetadata) (r : AuthorizationRequest) {a : RequestObject}
    (hs : SupportsMore w.metadata.inner m'.inner) (h : (r.validate w).2 = .ok a) :
    (r.validate { w with metadata := m' }).2 = .ok a ∧ r.validate { w with metadata := m' } = r.validate w := by
  have hv : r.validate { w with metadata := m' } = r.validate w := by
    obtain ⟨jwt, m, h1, h2, -⟩ := (C15_validation_iff w r a).mp h
    refine validate_congr w m' r fun a' jwt' hr => ?_
    cases h1.symm.trans hr
    have hrep := (resolve_reports h1).1
    rw [(C15_fits_iff m' a hrep).mpr (fitsWallet_more hs h2), (C15_fits_iff w.metadata a hrep).mpr h2]
  exact ⟨hv ▸ h, hv⟩

/-- **C113** In particular, announcing further client identifier prefixes refuses nothing that was accepted. -/
theorem C113_adding_prefixes (w : Wallet) (m' : WalletMetadata) (l : List ClientIdScheme)
    (hm : w.metadata.addClientIdPrefixes l = .ok m') (r : AuthorizationRequest) {a : RequestObject}
    (h : (r.validate w).2 = .ok a) : (r.validate { w with metadata := m' }).2 = .ok a := by
  rw [addClientIdPrefixes_eq] at hm
  refine (C113_wallet_supports_more w m' r ?_ h).1
  cases hr : readPrefixes w.metadata with
  | error e => rw [hr] at hm; cases hm
  | ok ps =>
    rw [hr] at hm
    cases hm
    refine ⟨fun p hp => .inr ⟨ps ++ l.map ClientIdScheme.val, ?_, ?_⟩, ?_, ?_⟩
    · simp [strsToJson, mget_mset]
    · refine List.mem_append_left _ ?_
      rcases hp with ⟨h1, h2⟩ | ⟨l', h1, h2⟩
      · rw [readPrefixes, show mget _ _ = none from h1] at hr
        cases hr
        simp [h2]
      · rw [readPrefixes, h1] at hr
        have : strsOfJson (.arr (l'.map .str)) = .ok l' := by simpa [strsToJson] using strs_roundtrip l'
        cases this.symm.trans hr
        exact h2
    · exact .inl (mget_mset_ne (by decide) _ _)
    · exact .inl (mget_mset_ne (by decide) _ _)

/-- **C113** (A finding.) Announcing a list of key agreement algorithms where there was none restricts: with any list
that has none of the algorithms the verifier offers, a request for an encrypted response that was accepted is
refused. -/
theorem C113_announcing_restricts (w : Wallet) (r : AuthorizationRequest) {a : RequestObject}
    (h : (r.validate w).2 = .ok a) (hm : IsEncrypted a.responseMode) (l : List Str)
    (hl : ∀ cm, mget c!"client_metadata" a.inner = some (.obj cm) → ∀ v ∈ l, ¬ OffersAlg cm v) (m' : WalletMetadata)
    (hm' : mget c!"authorization_encryption_alg_values_supported" m'.inner = some (.arr (l.map .str)))
    (a' : RequestObject) : (r.validate { w with metadata := m' }).2 ≠ .ok a' := by
  intro h'
  obtain ⟨jwt, m, h1, -⟩ := (C15_validation_iff w r a).mp h
  obtain ⟨jwt', m₁, h1', h2', -⟩ := (C15_validation_iff _ r a').mp h'
  rw [resolve_metadata] at h1'
  cases h1.symm.trans h1'
  rcases h2'.metadata with ⟨-, hn⟩ | ⟨cm, hcm, hf⟩
  · exact hn hm
  · obtain ⟨l₁, he, v, hv, ho⟩ := (hf hm).algListed _ hm'
    have : l = l₁ := by
      injection he with he
      exact List.map_injective_iff.mpr (fun _ _ h => Json.str.inj h) he
    subst this
    exact hl cm hcm v hv ho

/-! ## The verifier -/

theorem offersAlg_more {cm cm' : UntypedObject} (h : OffersMore cm cm') {v : Str} (hv : OffersAlg cm v) :
    OffersAlg cm' v := by
  obtain ⟨keys, keys', h1, h2, h3⟩ := h.keys
  obtain ⟨key, hk, hu⟩ := hv
  exact ⟨key, (keyIn_iff h2 key).mpr (h3 _ ((keyIn_iff h1 key).mp hk)), hu⟩

theorem encryptionFits_more {wm cm cm' : UntypedObject} (h : OffersMore cm cm') (hf : EncryptionFits wm cm) :
    EncryptionFits wm cm' := by
  obtain ⟨keys, keys', -, h2, -⟩ := h.keys
  refine ⟨⟨keys', h2⟩, ?_, ?_, h.wellFormed, ?_⟩
  · obtain ⟨v, hv⟩ := hf.alg
    exact ⟨v, offersAlg_more h hv⟩
  · intro j hj
    obtain ⟨l, e, v, hv, ho⟩ := hf.algListed j hj
    exact ⟨l, e, v, hv, offersAlg_more h ho⟩
  · intro j hj
    obtain ⟨l, e, v, hv, ho⟩ := hf.encListed j hj
    exact ⟨l, e, v, hv, h.encs v ho⟩

/-- **C113** A verifier whose requests are accepted may offer further keys and content encryption algorithms: the
request that differs in this (and perhaps in what the wallet does not check) is accepted too, if the wallet's
verification method accepts it. -/
theorem C113_verifier_offers_more (w : Wallet) (r r' : AuthorizationRequest) {a a' : RequestObject} {jwt' : Option Str}
    {cm cm' : UntypedObject} (h : (r.validate w).2 = .ok a) (hr' : ResolvesTo w r' a' jwt')
    (ho : r'.clientId = r.clientId) (hi : a'.clientId = a.clientId) (hmode : a'.responseMode = a.responseMode)
    (hpres : ¬ Absent a'.inner c!"response_mode") (hcm : mget c!"client_metadata" a.inner = some (.obj cm))
    (hcm' : mget c!"client_metadata" a'.inner = some (.obj cm')) (hmore : OffersMore cm cm')
    (hver : ∀ m jwt, w.verifier m a jwt = .ok () → w.verifier m a' jwt' = .ok ()) :
    (r'.validate w).2 = .ok a' := by
  obtain ⟨m, jwt, hreach, hv, hs⟩ := (C87_accepted_iff w r a).mp h
  refine (C87_accepted_iff w r' a').mpr ⟨m, jwt', ⟨hr', ⟨?_, hpres, .inr ⟨cm', hcm', fun he => ?_⟩⟩, ?_⟩,
    hver m jwt hv, ?_⟩
  · rw [hi]; exact hreach.fits.pre
  · rw [hmode] at he
    rcases hreach.fits.metadata with ⟨hn, -⟩ | ⟨cm₁, h1, h2⟩
    · rw [show mget _ _ = none from hn] at hcm
      cases hcm
    · rw [hcm] at h1
      cases h1
      exact encryptionFits_more hmore (h2 he)
  · rw [hi]; exact hreach.method
  · intro x y hx hy
    rw [ho] at hx
    rw [hi] at hy
    exact hs x y hx hy

/-! ## The store of the example wallet -/

theorem firstAnswer_append {lower : Str → Str} {store more : List Credential} {k : CredentialQuery}
    {c₀ : Credential} (h₀ : FirstAnswer lower store k c₀) (c : Credential) :
    FirstAnswer lower (store ++ more) k c ↔ FirstAnswer lower store k c := by
  have hput : ∀ c, FirstAnswer lower store k c → FirstAnswer lower (store ++ more) k c := by
    rintro c ⟨before, after, e, h1, h2⟩
    exact ⟨before, after ++ more, by simp [e], h1, h2⟩
  constructor
  · intro h
    have := Except.ok.inj ((match_ok.mpr h).symm.trans (match_ok.mpr (hput c₀ h₀)))
    exact this ▸ h₀
  · exact hput c

theorem sent_only_if {ord : MapOrder} {w : Adapter} {p : Params}
    (h : ∃ req ∈ (w.process ord p).1, req.method = c!"POST") :
    ∃ a q j, Obtains w p a ∧ AskedBy w p a.inner ∧ w.consent = true ∧
      mget c!"dcql_query" a.inner = some j ∧ IsQuery j q ∧
      (∀ k ∈ q.credentials.vec, ∃ c, FirstAnswer w.lower w.store k c) ∧
      (∀ u, RedirectClient a u → a.returnUri.print = u) ∧
      (a.responseMode = .directPost ∨ (a.responseMode = .directPostJwt ∧ ∃ key, KeyFor w a key)) := by
  have hh := (C77_endpoint ord w p _ _).mp (show w.process ord p = ((w.process ord p).1, (w.process ord p).2) from rfl)
  generalize (w.process ord p).1 = reqs at h hh
  generalize (w.process ord p).2 = ans at hh
  obtain ⟨req, hreq, hpost⟩ := h
  have hfetch : ∀ {r l}, FetchesOf w.wallet r l → ∀ req ∈ l, req.method = c!"GET" := by
    intro r l h
    cases h with
    | one => intro r hr; simp only [List.mem_singleton] at hr; subst hr; rfl
    | none => intro r hr; cases hr
  have hne : (c!"POST" : Str) ≠ c!"GET" := by decide
  cases hh with
  | notUnderstood => cases hreq
  | notObtained _ h2 => exact absurd (hpost.symm.trans (hfetch h2 req hreq)) hne
  | @obtained r fetched reqs a jwt ans h1 h2 h3 h4 =>
    have hw : ∃ sel, Willing w a sel ∧ (∀ u, RedirectClient a u → a.returnUri.print = u) ∧
        (a.responseMode = .directPost ∨ (a.responseMode = .directPostJwt ∧ ∃ key, KeyFor w a key)) := by
      have hnil : reqs ≠ [] := by
        rintro rfl
        rw [List.append_nil] at hreq
        exact absurd (hpost.symm.trans (hfetch h2 req hreq)) hne
      cases h4 with
      | noQuery => exact absurd rfl hnil
      | denied => exact absurd rfl hnil
      | wrongAddress => exact absurd rfl hnil
      | otherMode => exact absurd rfl hnil
      | noKey => exact absurd rfl hnil
      | unsealed => exact absurd rfl hnil
      | plain a b c => exact ⟨_, a, b, .inl c⟩
      | encrypted a b c _ _ d => exact ⟨_, a, b, .inr ⟨c, _, d⟩⟩
    obtain ⟨sel, ⟨hc, q, hq, hsel⟩, hu, hm⟩ := hw
    obtain ⟨hjwt, ⟨o, ho, hoa⟩, -⟩ := resolve_ok.mp h3
    obtain ⟨hin, -⟩ := C05_accessors_agree hoa
    obtain ⟨j, hj, hjq⟩ := ((C05_state_and_query a).2.2.2 q).mp hq
    refine ⟨a, q, j, ⟨r, (r.resolve w.wallet).1, jwt, (C77_taken_for w p r).mpr h1, ?_⟩,
      ⟨r, jwt, h1, hjwt, by rw [show a.inner = o from hin]; exact ho⟩, hc, hj, hjq, fun k hk => ?_, hu, hm⟩
    · rw [← h3]
    · cases hmq : matchCredentialQuery w.lower w.store k with
      | ok c => exact ⟨c, match_ok.mp hmq⟩
      | error e =>
        have := (C53_fails_iff w.lower w.store q).mpr (.inr ⟨k, hk, match_error.mp ⟨e, hmq⟩⟩)
        rw [hsel] at this
        obtain ⟨_, h⟩ := this
        cases h

/-- **C113** If the example wallet responded to a call, then credentials put at the end of its store change nothing
in what it sends and answers. -/
theorem C113_credentials_after (ord : MapOrder) (w : Adapter) (p : Params) (more : List Credential)
    (h : ∃ req ∈ (w.process ord p).1, req.method = c!"POST") :
    ({ w with store := w.store ++ more }).process ord p = w.process ord p := by
  obtain ⟨a, q, j, -, hasked, -, hj, hq, hall, -, -⟩ := sent_only_if h
  refine C111_only_the_answers ord w p _ fun o j' q' k ho hj' hq' hk raw => ?_
  cases askedBy_unique ho hasked
  cases hj.symm.trans hj'
  cases Except.ok.inj ((query_means.mpr hq).symm.trans (query_means.mpr hq'))
  obtain ⟨c₀, hc₀⟩ := hall k hk
  simp only [firstAnswer_append hc₀]

/-- **C113** A store with more credentials, wherever they are in it, never makes the example wallet decline what it
responded to (though others may be presented): there is one response again. Encryption must not fail on account of
what is encrypted. -/
theorem C113_bigger_store {ord : MapOrder} (ho : ord.Fair) (w : Adapter)
    (hn : ∀ s, -(2 ^ 63) ≤ w.holder.now s ∧ w.holder.now s < 2 ^ 64) (p : Params) (store : List Credential)
    (hs : ∀ c ∈ w.store, c ∈ store) (hclaim : ∀ n v, w.jose.claimOk n v = true)
    (henc : ∀ key hdr payload, w.jose.jwkOk key = true → ∃ jwe, w.jose.encrypt key hdr payload = .ok jwe)
    (h : ∃ req ∈ (w.process ord p).1, req.method = c!"POST") :
    ∃ req, posts (({ w with store := store }).process ord p).1 = [req] ∧
      TheResponse { w with store := store } p req := by
  obtain ⟨a, q, j, ha, -, hc, hj, hq, hall, hu, hm⟩ := sent_only_if h
  refine C111_responds (w := { w with store := store }) ho hn ha hc hj hq (fun k hk => ?_) hu ?_
  · obtain ⟨c, before, after, e, h1, -⟩ := hall k hk
    exact ⟨c, hs c (by simp [e]), h1⟩
  · rcases hm with hm | ⟨hm, key, hk⟩
    · exact .inl hm
    · exact .inr ⟨hm, key, hk, hclaim, fun payload => henc key _ payload hk.choose_spec.choose_spec.2.2.2⟩

/-! ## Cases -/

/-- The parameters of a verifier that offers a further key and content encryption algorithm. -/
def offeringSample : UntypedObject :=
  mset c!"client_metadata" (.obj [
    (c!"encrypted_response_enc_values_supported", .arr [.str c!"A256GCM", .str c!"A128GCM"]),
    (c!"jwks", .obj [(c!"keys", .arr [.obj [(c!"alg", .str c!"RSA-OAEP"), (c!"use", .str c!"enc")],
      .obj [(c!"alg", .str c!"ECDH-ES"), (c!"use", .str c!"enc")]])])]) encryptedSample

/-- Its request object. -/
def offeringObject : RequestObject := { encryptedObject with inner := offeringSample }

theorem announcing_accepts (algs : List Str) (h : c!"ECDH-ES" ∈ algs) :
    (AuthorizationRequest.validate { walletSample with metadata := announcing algs }
      ⟨none, .direct encryptedSample⟩).2 = .ok encryptedObject := by
  have h0 : (AuthorizationRequest.validate { walletSample with metadata := announcing [c!"ECDH-ES"] }
      ⟨none, .direct encryptedSample⟩).2 = .ok encryptedObject := by decide
  refine (C113_wallet_supports_more { walletSample with metadata := announcing [c!"ECDH-ES"] } (announcing algs) _
    ⟨fun p hp => ?_, ?_, ?_⟩ h0).1
  · rcases hp with ⟨hp, -⟩ | ⟨l, h1, h2⟩
    · cases hp
    · exact .inr ⟨l, h1, h2⟩
  · exact .inr (.inr ⟨_, algs, rfl, rfl, by simpa using h⟩)
  · exact .inl rfl

-- the wallet announces one more prefix, and accepts the sample still
example : ∃ m', walletSample.metadata.addClientIdPrefixes [⟨c!"x509_hash"⟩] = .ok m' ∧
    ((byValueSample (some c!"x509_san_dns:verifier.example") jwsHeaderSample explicitSample).validate
      { walletSample with metadata := m' }).2 = .ok explicitObject :=
  ⟨_, rfl, C113_adding_prefixes walletSample _ [⟨c!"x509_hash"⟩] rfl _ validate_sample⟩

-- the verifier offers one more key
example : (AuthorizationRequest.validate { walletSample with metadata := announcing [c!"ECDH-ES"] }
    ⟨none, .direct offeringSample⟩).2 = .ok offeringObject := by
  refine C113_verifier_offers_more _ ⟨none, .direct encryptedSample⟩ _
    (announcing_accepts [c!"ECDH-ES"] (by simp)) (jwt' := none)
    (resolvesTo_iff.mp (by decide)) rfl rfl rfl (by unfold Absent; decide) rfl rfl ⟨?_, ?_, ?_⟩ (fun _ _ _ => rfl)
  · exact ⟨[[(c!"alg", .str c!"ECDH-ES"), (c!"use", .str c!"enc")]],
      [[(c!"alg", .str c!"RSA-OAEP"), (c!"use", .str c!"enc")], [(c!"alg", .str c!"ECDH-ES"), (c!"use", .str c!"enc")]],
      .inl ⟨_, rfl, rfl⟩, .inl ⟨_, rfl, rfl⟩, by simp⟩
  · intro j hj
    cases hj
    exact ⟨[c!"A256GCM", c!"A128GCM"], rfl⟩
  · rintro v (⟨-, rfl⟩ | ⟨l, hl, -⟩)
    · exact .inr ⟨[c!"A256GCM", c!"A128GCM"], rfl, by simp⟩
    · cases hl

-- the wallet that announced nothing announces an algorithm the verifier does not offer
example (m' : WalletMetadata) (a' : RequestObject)
    (h : mget c!"authorization_encryption_alg_values_supported" m'.inner = some (.arr [.str c!"RSA-OAEP"])) :
    (AuthorizationRequest.validate walletSample ⟨none, .direct encryptedSample⟩).2 = .ok encryptedObject ∧
      (AuthorizationRequest.validate { walletSample with metadata := m' } ⟨none, .direct encryptedSample⟩).2 ≠ .ok a' := by
  have h0 : (AuthorizationRequest.validate walletSample ⟨none, .direct encryptedSample⟩).2 = .ok encryptedObject := by
    decide
  refine ⟨h0, C113_announcing_restricts walletSample _ h0 (.inl rfl) [c!"RSA-OAEP"] ?_ m' h a'⟩
  intro cm hcm v hv
  cases hcm
  simp only [List.mem_singleton] at hv
  subst hv
  rintro ⟨key, hk, -, ha⟩
  have := (keyIn_iff (keys := [[(c!"alg", .str c!"ECDH-ES"), (c!"use", .str c!"enc")]]) (.inl ⟨_, rfl, rfl⟩) key).mp hk
  simp only [List.mem_singleton] at this
  subst this
  revert ha
  decide

-- another mobile document put at the end changes nothing; put at the beginning, there is a response still
example : ({ adapterSample with store := adapterSample.store ++ [{ mdlCred with raw := c!"NEW" }] }).process id
      (paramsSample c!"direct_post" c!"https://v.example/r") =
    adapterSample.process id (paramsSample c!"direct_post" c!"https://v.example/r") :=
  C113_credentials_after id adapterSample _ _ (by decide +kernel)

example : ∃ req, posts (({ adapterSample with store := { mdlCred with raw := c!"NEW" } :: adapterSample.store }).process id
        (paramsSample c!"direct_post" c!"https://v.example/r")).1 = [req] ∧
      TheResponse { adapterSample with store := { mdlCred with raw := c!"NEW" } :: adapterSample.store }
        (paramsSample c!"direct_post" c!"https://v.example/r") req :=
  C113_bigger_store (fun l => List.Perm.refl l) adapterSample (fun s => by simp [adapterSample, toyHolder]) _ _
    (fun c hc => List.mem_cons_of_mem _ hc) (fun _ _ => rfl) (fun _ _ _ _ => ⟨_, rfl⟩)
    (by decide +kernel)

end Oid4vp
