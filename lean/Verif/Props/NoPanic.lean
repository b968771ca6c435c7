import Verif.Spec.Panic
import Verif.Lemmas.NoPanic
import Verif.Props.EndToEnd
import Verif.Props.CliFlow
import Verif.Props.Formats

/-! # Which calls panic (C98)

The code has few places that can panic: indexing into a certificate chain, `unwrap` and `expect` on conversions.
In the model each of them gives the error `panic`. -/

set_option autoImplicit false

namespace Oid4vp

theorem not_panics {α : Type} (r : Res α) [i : NoPanic r] : ¬ Panics r := i.out

/-- **C98** No request URL, no parsed request and no answer of the network makes a wallet panic while it
validates a request or submits a response, as long as what the application supplies does not panic. -/
theorem C98_wallet (w : Wallet) (hh : ∀ b, ¬ Panics (w.ssiHeader b)) (hn : ∀ r, ¬ Panics (w.http r))
    (hv : ∀ m a j, ¬ Panics (w.verifier m a j)) :
    (∀ url, ¬ Panics (w.validateRequest url).2) ∧
    (∀ r : AuthorizationRequest, ¬ Panics (r.validate w).2) ∧
    ∀ ord a r, ¬ Panics (w.submitResponse ord a r).2 := by
  have := fun b => NoPanic.mk (hh b)
  have := fun r => NoPanic.mk (hn r)
  have := fun m a j => NoPanic.mk (hv m a j)
  exact ⟨fun _ => not_panics _, fun _ => not_panics _, fun _ _ _ => not_panics _⟩

/-- The wallet of the end-to-end cases is such a wallet. -/
example (jwt : Str) : (∀ b, ¬ Panics ((e2eWallet jwt).ssiHeader b)) ∧ (∀ r, ¬ Panics ((e2eWallet jwt).http r)) ∧
    ∀ m a j, ¬ Panics ((e2eWallet jwt).verifier m a j) := by
  refine ⟨fun b => nofun, fun r => nofun, fun m a j => ?_⟩
  unfold e2eWallet
  dsimp only
  split
  · have : ∀ b, NoPanic ((⟨fun _ => .ok (c!"ES256", true), toySsi.verify⟩ : Ssi).header b) := fun _ => ⟨nofun⟩
    exact not_panics _
  · exact not_panics _
  · exact not_panics _
  · nofun

/-- **C98** The bundled verification methods do not panic, whatever request they are given. -/
theorem C98_methods (ssi : Ssi) (hh : ∀ b, ¬ Panics (ssi.header b)) (resolver : Str → Res Jwk)
    (hr : ∀ k, ¬ Panics (resolver k)) (trusted : Option (List Str)) (x : X509) (sv : SigVerifier)
    (roots : Option (List x.Cert)) (wm : WalletMetadata) (a : RequestObject) (jwt : Str) :
    ¬ Panics (didVerify ssi resolver trusted wm a jwt) ∧ ¬ Panics (x509SanVerify x sv roots wm a jwt) ∧
    ¬ Panics (x509HashVerify x sv roots wm a jwt) := by
  have := fun b => NoPanic.mk (hh b)
  have := fun k => NoPanic.mk (hr k)
  exact ⟨not_panics _, not_panics _, not_panics _⟩

example : (∀ b, ¬ Panics (toySsi.header b)) ∧ ∀ k : Str, ¬ Panics (.ok [] : Res Jwk) := ⟨fun _ => nofun, fun _ => nofun⟩

/-- **C98** No text or JSON value makes reading it panic: requests, responses in both forms, statuses, DCQL
queries, metadata, handovers, transcripts, keys. -/
theorem C98_reading (s : Str) (b : Bytes) (j : Json) (o : UntypedObject) (sha : Bytes → Bytes) :
    ¬ Panics (AuthorizationRequest.fromQueryParams s) ∧ ¬ Panics (RequestObject.ofObject o) ∧
    ¬ Panics (AuthorizationResponse.ofForm b) ∧ ¬ Panics (AuthorizationResponse.ofJson j) ∧
    ¬ Panics (VpToken.ofText s) ∧ ¬ Panics (Status.ofText s) ∧ ¬ Panics (Status.ofJson j) ∧
    ¬ Panics (DcqlQuery.ofJson j) ∧ ¬ Panics (WalletMetadata.ofObject o) ∧
    ¬ Panics (handoverOfBytes Handover b) ∧ ¬ Panics (handoverOfBytes DcApiHandover b) ∧
    ¬ Panics (SessionTranscript.ofBytes Handover b) ∧ ¬ Panics (SessionTranscript.ofBytes DcApiHandover b) ∧
    ¬ Panics (computeJwkThumbprint sha j) :=
  ⟨not_panics _, not_panics _, not_panics _, not_panics _, not_panics _, not_panics _, not_panics _,
    not_panics _, not_panics _, not_panics _, not_panics _, not_panics _, not_panics _, not_panics _⟩

/-- **C98** Reading a typed parameter never panics. -/
theorem C98_parameters (j : Json) :
    ¬ Panics (TypedParameter.ofJson j : Res ClientId) ∧ ¬ Panics (TypedParameter.ofJson j : Res ClientMetadata) ∧
    ¬ Panics (TypedParameter.ofJson j : Res Nonce) ∧ ¬ Panics (TypedParameter.ofJson j : Res Audience) ∧
    ¬ Panics (TypedParameter.ofJson j : Res RedirectUri) ∧ ¬ Panics (TypedParameter.ofJson j : Res ResponseUri) ∧
    ¬ Panics (TypedParameter.ofJson j : Res ResponseMode) ∧ ¬ Panics (TypedParameter.ofJson j : Res ResponseType) ∧
    ¬ Panics (TypedParameter.ofJson j : Res State) ∧ ¬ Panics (TypedParameter.ofJson j : Res ExpectedOrigins) ∧
    ¬ Panics (TypedParameter.ofJson j : Res TransactionData) ∧
    ¬ Panics (TypedParameter.ofJson j : Res VerifierInfo) ∧
    ¬ Panics (TypedParameter.ofJson j : Res RequestUriMethod) ∧ ¬ Panics (TypedParameter.ofJson j : Res IdToken) ∧
    ¬ Panics (TypedParameter.ofJson j : Res VpToken) ∧ ¬ Panics (TypedParameter.ofJson j : Res DcqlQuery) ∧
    ¬ Panics (TypedParameter.ofJson j : Res VpFormats) ∧ ¬ Panics (TypedParameter.ofJson j : Res JWKs) ∧
    ¬ Panics (TypedParameter.ofJson j : Res EncryptedResponseEncValuesSupported) ∧
    ¬ Panics (TypedParameter.ofJson j : Res Issuer) ∧
    ¬ Panics (TypedParameter.ofJson j : Res AuthorizationEndpoint) ∧
    ¬ Panics (TypedParameter.ofJson j : Res ResponseTypesSupported) ∧
    ¬ Panics (TypedParameter.ofJson j : Res ClientIdPrefixesSupported) ∧
    ¬ Panics (TypedParameter.ofJson j : Res RequestObjectSigningAlgValuesSupported) ∧
    ¬ Panics (TypedParameter.ofJson j : Res VpFormatsSupported) ∧
    ¬ Panics (TypedParameter.ofJson j : Res AuthorizationEncryptionAlgValuesSupported) ∧
    ¬ Panics (TypedParameter.ofJson j : Res AuthorizationEncryptionEncValuesSupported) := by
  refine ⟨?_, ?_, ?_, ?_, ?_, ?_, ?_, ?_, ?_, ?_, ?_, ?_, ?_, ?_, ?_, ?_, ?_, ?_, ?_, ?_, ?_, ?_, ?_, ?_, ?_, ?_,
    ?_⟩ <;> exact not_panics _

/-- **C98** No request parameters, wallet metadata, ids or responses make a verifier panic, as long as its
client does not; neither does the bundled store. -/
theorem C98_verifier (v : Verifier) (hc : ∀ a, ¬ Panics (v.client.generate a)) (b : RequestBuilder) (u : Uuid)
    (wm : WalletMetadata) (busy : Bool) (r : AuthorizationResponse) (f : Validator) (σ : Store) :
    ¬ Panics (b.buildWithSessionId v u wm busy σ).2 ∧ ¬ Panics (b.buildDcApi v u busy σ).2 ∧
    ¬ Panics (pollStatus u σ) ∧ ¬ Panics (retrieve u σ).2 ∧ ¬ Panics (verifyResponse u r f σ).2 ∧
    ¬ Panics (σ.removeSession busy u).2 := by
  have := fun a => NoPanic.mk (hc a)
  exact ⟨not_panics _, not_panics _, not_panics _, not_panics _, not_panics _, not_panics _⟩

example (r : ByReference) : ∀ a, ¬ Panics ((buildVerifier r).client.generate a) := fun a => nofun

/-- **C98** Making an encrypted response does not panic, as long as the encryption does not. -/
theorem C98_encrypted (jk : Josekit) (he : ∀ a b c, ¬ Panics (jk.encrypt a b c)) (a : RequestObject) (t : VpToken)
    (s : Option State) (cs : List JweCall) (b : JweBuilder) :
    ¬ Panics (buildEncryptedResponse jk a t s) ∧ ¬ Panics (JweCall.runAll jk cs b) ∧ ¬ Panics (b.build jk) := by
  have := fun a b c => NoPanic.mk (he a b c)
  exact ⟨not_panics _, not_panics _, not_panics _⟩

example : ∀ a b c, ¬ Panics ((⟨fun _ => true, fun _ _ => true, fun _ _ m => .ok (jPrint (.obj m))⟩ : Josekit).encrypt a b c) :=
  fun _ _ _ => nofun

/-- **C98** A client for a certificate chain is made with a panic exactly if the chain is empty; a client for a
DID never. Once made, the clients do not panic. -/
theorem C98_clients (x : X509) (hx : ∀ c, ¬ Panics (x.toDer c)) (s : Signer) (ha : ¬ Panics s.alg)
    (hj : ¬ Panics s.jwk) (resolver : Str → Res Jwk) (hr : ∀ k, ¬ Panics (resolver k)) (vm : Str)
    (chain : List x.Cert) :
    ¬ Panics (didClientNew vm s resolver) ∧
    (Panics (sanClientNew x chain s) ↔ chain = []) ∧ (Panics (hashClientNew x chain s) ↔ chain = []) ∧
    ∀ c, (didClientNew vm s resolver = .ok c ∨ sanClientNew x chain s = .ok c ∨ hashClientNew x chain s = .ok c) →
      ∀ a, ¬ Panics (c.generate a) := by
  have := fun c => NoPanic.mk (hx c)
  have := NoPanic.mk ha
  have := NoPanic.mk hj
  have := fun k => NoPanic.mk (hr k)
  refine ⟨not_panics _, ?_, ?_, ?_⟩
  · cases chain with
    | nil => exact ⟨fun _ => rfl, fun _ => rfl⟩
    | cons l t =>
      refine ⟨fun h => ?_, nofun⟩
      unfold sanClientNew Panics at h
      simp only at h
      split at h <;> cases h
  · cases chain with
    | nil => exact ⟨fun _ => rfl, fun _ => rfl⟩
    | cons l t =>
      refine ⟨fun h => ?_, nofun⟩
      unfold hashClientNew Panics at h
      simp only at h
      split at h
      · rename_i e he
        cases h
        exact absurd he (hx l)
      · cases h
  · rintro c (h | h | h) a
    · unfold didClientNew at h
      repeat' split at h
      all_goals cases h
      exact not_panics _
    · unfold sanClientNew at h
      repeat' split at h
      all_goals cases h
      exact not_panics (x5cGenerate x _ s a)
    · unfold hashClientNew at h
      repeat' split at h
      all_goals cases h
      exact not_panics (x5cGenerate x _ s a)

example (s : Signer) : Panics (sanClientNew toyX509 [] s) := rfl
example (s : Signer) : ¬ Panics (hashClientNew toyX509 [[1]] s) := nofun

/-- **C98** A presentation is turned into an item of a `vp_token` with a panic exactly if it cannot be serialised
or is not an object. -/
theorem C98_presentation (r : Res Json) : Panics (VpTokenItem.ofSerialised r) ↔ ¬ ∃ m, r = .ok (.obj m) := by
  unfold VpTokenItem.ofSerialised Panics
  split
  · simp
  · rename_i h
    exact ⟨fun _ ⟨m, hm⟩ => h m hm, fun _ => rfl⟩

example : Panics (VpTokenItem.ofSerialised (.ok (.str c!"eyJ"))) ∧ ¬ Panics (VpTokenItem.ofSerialised (.ok (.obj []))) :=
  ⟨rfl, nofun⟩

/-- **C98** The two `unwrap`s in the static wallet metadata never fail. -/
theorem C98_static : ¬ Panics WalletMetadata.openid4vpSchemeStatic := by
  obtain ⟨w, hw, _⟩ := C50_static
  rw [hw]
  nofun

namespace Cli

theorem addType_np (t : Str) : addType t ≠ .error .panic := by
  unfold addType
  repeat' split
  all_goals simp

theorem addType_sets {t : Str} {q : List CredentialQuery} {d : Str} {s : List (List Str)}
    (h : addType t = .ok (q, d, s)) : s ≠ [] := by
  unfold addType at h
  repeat' split at h
  all_goals (cases h; try simp)

theorem typesLoop_np (ts : List Str) (qs : List CredentialQuery) (ds : List Str) (sets : List (List (List Str)))
    (hs : ∀ s ∈ sets, s ≠ []) :
    typesLoop ts qs ds sets ≠ .error .panic ∧
    ∀ qs' ds' sets', typesLoop ts qs ds sets = .ok (qs', ds', sets') → ∀ s ∈ sets', s ≠ [] := by
  induction ts generalizing qs ds sets with
  | nil =>
    unfold typesLoop
    exact ⟨nofun, fun _ _ _ h => by cases h; exact hs⟩
  | cons t ts ih =>
    unfold typesLoop
    split
    · rename_i e he
      exact ⟨fun h => addType_np t (by rw [he]; cases h; rfl), nofun⟩
    · rename_i q d s he
      refine ih _ _ _ fun s' hs' => ?_
      rcases List.mem_append.mp hs' with h | h
      · exact hs _ h
      · rw [List.mem_singleton] at h
        subst h
        exact addType_sets he

theorem credentialSets_ok {sets : List (List (List Str))} (hs : ∀ s ∈ sets, s ≠ []) :
    ∃ l, credentialSets sets = .ok l ∧ l.length = sets.length := by
  unfold credentialSets
  induction sets with
  | nil => exact ⟨[], rfl, rfl⟩
  | cons s sets ih =>
    obtain ⟨l, hl, hn⟩ := ih fun s h => hs s (List.mem_cons_of_mem _ h)
    have : s ≠ [] := hs s (List.mem_cons_self ..)
    cases s with
    | nil => exact absurd rfl this
    | cons o os =>
      refine ⟨CredentialSetQuery.new ⟨o :: os⟩ :: l, ?_, ?_⟩
      · rw [mapR.eq_def]
        simp only [hl]
        rfl
      · simp [hn]

/-- **C98** The three `expect`s of the command-line verifier never fail: building the query for any list of types
does not panic. -/
theorem C98_cli_query (ts : List Str) : ¬ Panics (dcqlForTypes ts) := by
  obtain ⟨h1, h2⟩ := typesLoop_np ts [] [] [] (by simp)
  unfold dcqlForTypes Panics
  split
  · rename_i e he
    intro h
    exact h1 (by rw [he]; cases h; rfl)
  · rename_i qs ds sets he
    obtain ⟨l, hl, hn⟩ := credentialSets_ok (h2 _ _ _ he)
    cases qs with
    | nil => simp
    | cons q qs =>
      cases sets with
      | nil => simp [NonEmptyVec.tryFrom]
      | cons s ss =>
        cases l with
        | nil => simp at hn
        | cons a as => simp [NonEmptyVec.tryFrom, hl]

example : ¬ Panics (dcqlForTypes [c!"ldp_or_mdl", c!"mdl"]) ∧ (dcqlForTypes [c!"ldp_or_mdl", c!"mdl"]).isOk = true :=
  ⟨C98_cli_query _, rfl⟩

/-- **C98** The command-line verifier does not panic while it prepares its request, whatever its public URL, the
types asked for and the random values. -/
theorem C98_cli_start (p : Url) (types : List Str) (uuid : Uuid) (nonce : Str) :
    ¬ Panics (start p types uuid nonce) := by
  intro h
  unfold start Panics at h
  rw [verifier_ok] at h
  obtain ⟨wm, hw, -⟩ := cliWallet
  rw [hw] at h
  simp only at h
  split at h
  · rename_i e he
    cases h
    exact C98_cli_query types he
  · rename_i q d _
    split at h
    · rename_i σ e he
      cases h
      exact (C98_verifier (cliVerifier p) (fun _ => nofun) (requestBuilder (cliVerifier p) q nonce types) uuid wm
        false (.jwt []) (fun _ _ => .error []) []).1 (congrArg Prod.snd he)
    · cases h

end Cli

end Oid4vp
