import Verif.Spec.RedirectRule
import Verif.Props.Bound
import Verif.Props.Endpoint
/-! # C119: a verifier known by a redirect address can be answered in one session at most -/

set_option autoImplicit false

namespace Oid4vp

open Spec Example

theorem knownBy_client {v : Verifier} (hsub : v.submissionEndpoint.WF) {c : Str} (hc : KnownBy v c) {s : Session}
    (hs : PostedSession v s) : RedirectClient s.requestObject c := by
  obtain ⟨⟨b, hb⟩, -⟩ := hs
  exact ⟨_, (built_own hsub hb).2.clientIdField, hc⟩

theorem rule_iff {a : RequestObject} {c : Str} (h : RedirectClient a c) :
    KeepsRedirectRule a ↔ a.returnUri.print = c := by
  refine ⟨fun hk => hk c h, ?_⟩
  rintro rfl u ⟨x, hx, hu⟩
  obtain ⟨y, hy, hc⟩ := h
  rw [hx, Option.some.injEq] at hy
  subst hy
  rw [hu] at hc
  exact (List.append_cancel_left hc).symm

/-- **C119** A session's request keeps the rule exactly if the client's address is the submission
endpoint with the id of that session. -/
theorem C119_kept_iff (v : Verifier) (hsub : v.submissionEndpoint.WF) (c : Str) (hc : KnownBy v c) (s : Session)
    (hs : PostedSession v s) (hp : v.submissionEndpoint.path ≠ ['/']) :
    KeepsRedirectRule s.requestObject ↔
      c = Url.print { v.submissionEndpoint with path := v.submissionEndpoint.path ++ '/' :: s.uuid.print } := by
  rw [rule_iff (knownBy_client hsub hc hs)]
  obtain ⟨⟨b, hb⟩, hd⟩ := hs
  rcases ((built_own hsub hb).2.responseUri hd).1 with h | ⟨h, -⟩
  · rw [h]; exact eq_comm
  · exact absurd h hp

/-- **C119** Two sessions of a verifier known by a redirect address whose requests keep the rule are one. -/
theorem C119_one_session (v : Verifier) (hsub : v.submissionEndpoint.WF) (c : Str) (hc : KnownBy v c)
    (s s' : Session) (hs : PostedSession v s) (hs' : PostedSession v s')
    (hk : KeepsRedirectRule s.requestObject) (hk' : KeepsRedirectRule s'.requestObject) : s.uuid = s'.uuid := by
  rw [rule_iff (knownBy_client hsub hc hs)] at hk
  rw [rule_iff (knownBy_client hsub hc hs')] at hk'
  obtain ⟨⟨b, hb⟩, hd⟩ := hs
  obtain ⟨⟨b', hb'⟩, hd'⟩ := hs'
  have ha := ((built_own hsub hb).2.responseUri hd).1
  have ha' := ((built_own hsub hb').2.responseUri hd').1
  rw [Url.print_inj (built_wf hb hd) (built_wf hb' hd') (hk.trans hk'.symm)] at ha
  exact address_inj ha ha'

/-- **C119** Never if the client's address is the submission endpoint itself, as in the command-line
verifier. -/
theorem C119_endpoint_itself (v : Verifier) (hsub : v.submissionEndpoint.WF)
    (hc : KnownBy v v.submissionEndpoint.print) (s : Session) (hs : PostedSession v s) :
    ¬ KeepsRedirectRule s.requestObject := by
  rw [rule_iff (knownBy_client hsub hc hs)]
  obtain ⟨⟨b, hb⟩, hd⟩ := hs
  intro h
  have h := Url.print_inj (built_wf hb hd) hsub h
  have hl : ∀ id : Uuid, id.print ≠ [] := fun id h => by
    have := congrArg List.length h
    simp [Uuid.print] at this
  rcases ((built_own hsub hb).2.responseUri hd).1 with h' | ⟨hp, h'⟩
  · have := congrArg (fun u => u.path.length) (h'.symm.trans h)
    simp at this
  · have := congrArg Url.path (h'.symm.trans h)
    rw [hp] at this
    simp only [List.cons.injEq, true_and] at this
    exact hl _ this

/-- **C119** A wallet that checks the rule accepts requests of at most one session, however they reach it. -/
theorem C119_strict_wallets (v : Verifier) (hsub : v.submissionEndpoint.WF) (c : Str) (hc : KnownBy v c)
    (s s' : Session) (hs : PostedSession v s) (hs' : PostedSession v s') (w w' : Wallet)
    (hw : ChecksRedirects w) (hw' : ChecksRedirects w') (r r' : AuthorizationRequest)
    (h : (r.validate w).2 = .ok s.requestObject) (h' : (r'.validate w').2 = .ok s'.requestObject) :
    s.uuid = s'.uuid := by
  have key : ∀ (w : Wallet) (r : AuthorizationRequest) (s : Session), ChecksRedirects w → PostedSession v s →
      (r.validate w).2 = .ok s.requestObject → KeepsRedirectRule s.requestObject := by
    intro w r s hw hs h
    obtain ⟨jwt, m, -, -, hm, hv, -⟩ := (C12_accepted_iff w r _).1 h
    obtain ⟨x, hx, hxc⟩ := knownBy_client hsub hc hs
    have hx' : x = ⟨c!"redirect_uri:" ++ c⟩ := by cases x; exact congrArg _ hxc
    rw [hx, hx'] at hm
    rw [C12_method_unique hm (.redirectUri c)] at hv
    exact hw _ _ hv
  exact C119_one_session v hsub c hc s s' hs hs' (key w r s hw hs h) (key w' r' s' hw' hs' h')

/-- **C119** The example wallet sends responses in at most one session of such a verifier, whatever
credentials and consent it has. -/
theorem C119_example_wallet (v : Verifier) (hsub : v.submissionEndpoint.WF) (c : Str) (hc : KnownBy v c)
    (s s' : Session) (hs : PostedSession v s) (hs' : PostedSession v s') (ord ord' : MapOrder) (w w' : Adapter)
    (p p' : Params) (h : Obtains w p s.requestObject) (h' : Obtains w' p' s'.requestObject)
    (hpost : posts (w.process ord p).1 ≠ []) (hpost' : posts (w'.process ord' p').1 ≠ []) :
    s.uuid = s'.uuid := by
  have key : ∀ (ord : MapOrder) (w : Adapter) (p : Params) (s : Session), PostedSession v s →
      Obtains w p s.requestObject → posts (w.process ord p).1 ≠ [] → KeepsRedirectRule s.requestObject := by
    intro ord w p s hs h hpost
    rw [rule_iff (knownBy_client hsub hc hs)]
    by_contra hne
    exact hpost (C56_mismatch_refused ord w p h (knownBy_client hsub hc hs) hne).1
  exact C119_one_session v hsub c hc s s' hs hs' (key ord w p s hs h hpost) (key ord' w' p' s' hs' h' hpost')

/-! ## Examples -/

/-- A verifier known by the address of one session. -/
def redirectVerifier : Verifier :=
  ⟨⟨⟨c!"redirect_uri:https://v.example/submit/00000000-0000-0000-0000-000000000007"⟩, ⟨c!"redirect_uri"⟩,
    fun _ => .ok c!"a.b.c"⟩, [], .no, ⟨c!"https", some c!"v.example", c!"/submit", none, none⟩⟩

theorem redirectVerifier_wf : redirectVerifier.submissionEndpoint.WF :=
  Url.parse_wf (s := c!"https://v.example/submit") rfl

/-- The metadata of a wallet with redirect addresses. -/
def redirectWallet : WalletMetadata :=
  ⟨[(c!"authorization_endpoint", .str c!"openid4vp://"),
    (c!"client_id_prefixes_supported", .arr [.str c!"redirect_uri"])],
   ⟨⟨c!"openid4vp", some [], [], none, none⟩⟩, ⟨[]⟩⟩

theorem redirectSession (n : Nat) (hn : n = 7 ∨ n = 8) :
    ∃ s, PostedSession redirectVerifier s ∧ s.uuid = buildId n := by
  rcases hn with rfl | rfl
  · exact ⟨_, ⟨⟨buildRequest, .link (buildId 7) redirectWallet false [] _ _ rfl rfl⟩, .inl rfl⟩, rfl⟩
  · exact ⟨_, ⟨⟨buildRequest, .link (buildId 8) redirectWallet false [] _ _ rfl rfl⟩, .inl rfl⟩, rfl⟩

-- the rule is kept in the one session and not in another
example : (∃ s, PostedSession redirectVerifier s ∧ s.uuid = buildId 7 ∧ KeepsRedirectRule s.requestObject) ∧
    ∃ s, PostedSession redirectVerifier s ∧ s.uuid = buildId 8 ∧ ¬ KeepsRedirectRule s.requestObject := by
  obtain ⟨s, hs, hu⟩ := redirectSession 7 (.inl rfl)
  obtain ⟨s', hs', hu'⟩ := redirectSession 8 (.inr rfl)
  have hk : KeepsRedirectRule s.requestObject :=
    (C119_kept_iff redirectVerifier redirectVerifier_wf _ rfl s hs (by decide)).2 (by rw [hu]; decide +kernel)
  refine ⟨⟨s, hs, hu, hk⟩, s', hs', hu', fun hk' => ?_⟩
  have := C119_one_session redirectVerifier redirectVerifier_wf _ rfl s s' hs hs' hk hk'
  rw [hu, hu'] at this
  exact absurd this (by decide)

/-- A request for a mobile document. -/
def redirectRequest : RequestBuilder :=
  ⟨some ⟨⟨[Oid4vp.mdlQuery c!"m"]⟩, none⟩, [(c!"nonce", .str c!"n"), (c!"response_mode", .str c!"direct_post"),
    (c!"response_type", .str c!"vp_token")]⟩

/-- Its parameters, in the session the verifier is known by. -/
def redirectParams : UntypedObject :=
  [(c!"client_id", .str c!"redirect_uri:https://v.example/submit/00000000-0000-0000-0000-000000000007"),
   (c!"dcql_query", .obj [(c!"credentials", .arr [.obj [(c!"format", .str c!"mso_mdoc"),
      (c!"id", .str c!"m"), (c!"meta", .obj [(c!"doctype_value", .str c!"org.iso.18013.5.1.mDL")])]])]),
   (c!"nonce", .str c!"n"), (c!"response_mode", .str c!"direct_post"), (c!"response_type", .str c!"vp_token"),
   (c!"response_uri", .str c!"https://v.example/submit/00000000-0000-0000-0000-000000000007")]

/-- The wallet of the samples, which also checks the rule. -/
def redirectChecker : Wallet :=
  { walletSample with verifier := fun _ a _ => if redirectCheck a then .ok () else .error .unsupported }

-- a wallet that checks the rule accepts the request of that session, and the example wallet answers it
example : ChecksRedirects redirectChecker ∧ ∃ s, PostedSession redirectVerifier s ∧ s.uuid = buildId 7 ∧
    (((AuthorizationRequest.mk none (.byValue (compactJws jwsHeaderSample redirectParams [1]))).validate
      redirectChecker).2 = .ok s.requestObject) ∧
    Obtains adapterSample { request := some (compactJws jwsHeaderSample redirectParams [1]) } s.requestObject ∧
    posts (adapterSample.process id { request := some (compactJws jwsHeaderSample redirectParams [1]) }).1 ≠ [] := by
  refine ⟨?_, _, ⟨⟨redirectRequest, .link (buildId 7) redirectWallet false [] _ _ rfl rfl⟩, .inl rfl⟩, rfl, ?_, ?_, ?_⟩
  · intro a jwt h
    simp only [redirectChecker] at h
    split at h
    · rename_i hc; exact redirectCheck_iff.mp hc
    · cases h
  · decide +kernel
  · exact ⟨⟨none, .byValue (compactJws jwsHeaderSample redirectParams [1])⟩, [],
      some (compactJws jwsHeaderSample redirectParams [1]), by decide +kernel, by decide +kernel⟩
  · decide +kernel

end Oid4vp
