import Verif.Props.ExampleFlow
import Verif.Props.ReadParams
import Verif.Props.WalletStore
import Verif.Spec.Shipped
/-!
# C122: the two examples with each other
-/

set_option autoImplicit false

namespace Oid4vp

open Spec Example VerifierApp

theorem pid_unmatched {lower : Str → Str} {store : List Credential} (h : ∀ c ∈ store, ¬IsPid lower c) :
    ∃ e, matchQuery lower store pidAsked = .error e := by
  have hq : ∃ e, matchLoop lower store pidAsked.credentials.vec [] = .error e := by
    rw [matchLoop_error]
    refine ⟨pidAsked.credentials.vec.head (by simp [pidAsked]), by simp [pidAsked], fun c hc ha => h c hc ?_⟩
    rw [← pid_answers]
    simpa [pidAsked] using ha
  obtain ⟨e, he⟩ := hq
  exact ⟨e, by simp only [matchQuery, he]⟩

theorem firstPid_of {lower : Str → Str} {store : List Credential} (h : ∃ c ∈ store, IsPid lower c) :
    ∃ c, FirstPid lower store c := by
  induction store with
  | nil => obtain ⟨c, hc, -⟩ := h; cases hc
  | cons x xs ih =>
    by_cases hx : IsPid lower x
    · exact ⟨x, [], xs, rfl, hx, by simp⟩
    · obtain ⟨c, hc, hp⟩ := h
      rcases List.mem_cons.1 hc with rfl | hc
      · exact absurd hp hx
      · obtain ⟨c', b, a, rfl, h1, h2⟩ := ih ⟨c, hc, hp⟩
        refine ⟨c', x :: b, a, rfl, h1, ?_⟩
        intro d hd
        rcases List.mem_cons.1 hd with rfl | hd
        · exact hx
        · exact h2 d hd

theorem opens_header {a : Adapter} (hw : OpensRequests a) (ders : List Bytes) :
    a.wallet.ssiHeader (utf8 (jPrint (.obj (x5cMembers c!"ES256" ders)))) = .ok (c!"ES256", true) := by
  have := hw.header (ders.map (b64EncPad .std))
  rw [List.map_map] at this
  exact this

/-- **C122** Whoever the verifier serves and however it was started: a wallet that may not present, or
holds no PID, sends nothing to it and answers `access_denied`. -/
theorem C122_denied {p : Pki} {rs : List Run} {draw : Draw} {w : Bool} {key : EncKey} {u : Url}
    {encrypted : Bool} {host : Str} {app : App} (hs : Started p rs draw w key u encrypted host app)
    {nonce : Option Str} {uuid : Uuid} {drawn : Str} {σ σ' : Store} {sid auth st : Str}
    (h : initiate app nonce uuid drawn σ = (σ', .ok (sid, auth, st)))
    (hk : encrypted = true → (Json.obj key.jwk).WF FltLit ∧ (Json.obj key.jwk).depth ≤ 100)
    {a : Adapter} (hw : OpensRequests a) {prm : Params} (hp : Refers u uuid sid σ' a prm) (ord : MapOrder)
    (hn : a.consent = false ∨ ¬HoldsPid a) : Denied ord a prm := by
  obtain ⟨s, -, -, hsid, hst, hpid, -, -, -, hget⟩ := C62_initiate hs h
  obtain ⟨addr, haddr, huri⟩ := hp.uri
  have hob := app_obtained hs h hst.2.1 hk hw.endpoint hp.noRequest huri
    (hp.reached _ _ haddr hget) (opens_header hw)
  obtain ⟨r, tr, jwt, hu, hr⟩ := hob
  have hrp := resolve_posts a.wallet r
  rw [hr] at hrp
  have hsel : ∃ e, a.selectCredentials s.requestObject = .error e := by
    unfold Adapter.selectCredentials
    rcases hn with hc | hn
    · exact ⟨_, by rw [hc]; rfl⟩
    · cases hc : a.consent
      · exact ⟨_, rfl⟩
      · obtain ⟨e, he⟩ := pid_unmatched (lower := a.lower) (store := a.store)
          fun c hc hi => hn ⟨c, hc, hi⟩
        exact ⟨e, by simp only [Bool.not_true, Bool.false_eq_true, if_false, hpid.query, he]⟩
  obtain ⟨e, hsel⟩ := hsel
  unfold Denied
  simp only [Adapter.process, hu, hr, posts_append, hrp, List.nil_append, Adapter.respond, hpid.query, hsel]
  exact ⟨rfl, trivial⟩

/-- **C122** Exactly the wallets that may present and hold a PID send something, and that is one
response. -/
theorem C122_sends_iff {p : Pki} {rs : List Run} {draw : Draw} {w : Bool} {key : EncKey} {u : Url}
    {encrypted : Bool} {host : Str} {app : App} (hs : Started p rs draw w key u encrypted host app)
    {nonce : Option Str} {uuid : Uuid} {drawn : Str} {σ σ' : Store} {sid auth st : Str}
    (h : initiate app nonce uuid drawn σ = (σ', .ok (sid, auth, st)))
    {a : Adapter} (hk : encrypted = true → KeyWorks key a.jose) (hw : OpensRequests a)
    (hclock : ∀ t, -(2 ^ 63) ≤ a.holder.now t ∧ a.holder.now t < 2 ^ 64)
    {prm : Params} (hp : Refers u uuid sid σ' a prm) {ord : MapOrder} (ho : ord.Fair) :
    ((posts (a.process ord prm).1).length = 1 ↔ a.consent = true ∧ HoldsPid a) ∧
    (posts (a.process ord prm).1 = [] ↔ ¬(a.consent = true ∧ HoldsPid a)) := by
  by_cases hc : a.consent = true ∧ HoldsPid a
  · have h1 : (posts (a.process ord prm).1).length = 1 := by
      obtain ⟨c, hpid⟩ := firstPid_of hc.2
      have hr : ReadyWallet a c := ⟨hc.1, hpid, hclock, hw.header, hw.endpoint⟩
      cases encrypted with
      | false =>
        obtain ⟨_, _, _, -, -, h1, -⟩ := C62_plain hs h hr hp ho
        rw [h1]; rfl
      | true =>
        obtain ⟨_, _, _, _, -, -, h1, -⟩ := C62_encrypted (ord := ord) hs h hr (hk rfl) hp
        rw [h1]; rfl
    refine ⟨iff_of_true h1 hc, iff_of_false ?_ (fun hn => hn hc)⟩
    intro h0
    rw [h0] at h1
    cases h1
  · have h0 : posts (a.process ord prm).1 = [] := by
      refine (C122_denied hs h (fun e => (hk e).proper) hw hp ord ?_).1
      cases he : a.consent
      · exact .inl rfl
      · exact .inr fun hh => hc ⟨he, hh⟩
    refine ⟨iff_of_false ?_ hc, iff_of_true h0 hc⟩
    rw [h0]
    simp

theorem shipped_iff {a : Adapter} : Shipped a ↔ a.store = [embeddedCredential] := by
  constructor
  · intro h
    have h1 := (C80_store_file _ _).2 h
    have h2 := (C80_store_file _ _).2 C80_embedded
    rw [h1] at h2
    exact Except.ok.inj h2
  · intro h
    unfold Shipped
    rw [h]
    exact C80_embedded

/-- **C122** (A finding.) The wallet as it is shipped holds no PID in the sense of the verifier: the two
have different names for the type. -/
theorem C122_shipped_no_pid {a : Adapter} (h : Shipped a) :
    ¬HoldsPid a ∧ ∃ c ∈ a.store, c.id = c!"pid_credential" ∧ c.format = .dcSdJwt := by
  rw [shipped_iff] at h
  unfold HoldsPid
  rw [h]
  refine ⟨?_, embeddedCredential, by simp, rfl, rfl⟩
  rintro ⟨c, hc, hp⟩
  simp only [List.mem_cons, List.not_mem_nil, or_false] at hc
  subst hc
  exact absurd hp.2 (by decide)

/-- **C122** (A finding.) The wallet as it is shipped answers no session of the example verifier, whatever
else is configured on either side; and until another response is delivered the verifier reports that the
session waits. -/
theorem C122_shipped {p : Pki} {rs : List Run} {draw : Draw} {w : Bool} {key : EncKey} {u : Url}
    {encrypted : Bool} {host : Str} {app : App} (hs : Started p rs draw w key u encrypted host app)
    {nonce : Option Str} {uuid : Uuid} {drawn : Str} {σ σ' : Store} {sid auth st : Str}
    (h : initiate app nonce uuid drawn σ = (σ', .ok (sid, auth, st)))
    (hk : encrypted = true → (Json.obj key.jwk).WF FltLit ∧ (Json.obj key.jwk).depth ≤ 100)
    {a : Adapter} (hw : OpensRequests a) (hship : Shipped a) {prm : Params}
    (hp : Refers u uuid sid σ' a prm) (ord : MapOrder) :
    Denied ord a prm ∧ ∀ cs, NoneDelivered uuid cs → ∃ doc, status sid (serve app σ' cs) = (200, some doc) ∧
      ((∃ c ∈ cs, Fetches uuid c) → Member doc c!"status" (.str c!"sent_request")) ∧
      ((∀ c ∈ cs, ¬Fetches uuid c) → Member doc c!"status" (.str c!"sent_request_by_reference")) := by
  refine ⟨C122_denied hs h hk hw hp ord (.inr (C122_shipped_no_pid hship).1), fun cs hcs => ?_⟩
  obtain ⟨s, -, -, hsid, hst, hpid, -⟩ := C62_initiate hs h
  exact C61_waiting_reported app cs σ' sid uuid s ⟨hsid, hst.2.1⟩ hpid.status hcs

/-- What the command-line verifier asks for can be written and read back. -/
theorem cliQuery_ok {ts : List Str} {q : DcqlQuery} {d : Str} (h : Cli.dcqlForTypes ts = .ok (q, d)) :
    DcqlOk q ∧ ∃ c ∈ q.credentials.vec, c.format ≠ .dcSdJwt := by
  obtain ⟨hts, hk, hc, hsets, hmem⟩ := dcqlForTypes_ok h
  have hne : q.credentials.vec ≠ [] := by
    intro h0
    cases ts with
    | nil => exact hts rfl
    | cons t ts =>
      rw [h0] at hc
      simp only [List.map_nil, List.flatMap_cons] at hc
      exact asked_ne (hk t List.mem_cons_self) (List.append_eq_nil_iff.1 hc.symm).1
  refine ⟨⟨⟨hne, fun c hc => ?_⟩, fun v hv => ?_⟩, ?_⟩
  · have := hmem c hc
    simp only [cliQueries, List.mem_cons, List.not_mem_nil, or_false] at this
    rcases this with rfl | rfl | rfl | rfl
    · refine ⟨trivial, ?_, ?_, ?_⟩ <;> intro v hv <;> cases hv
    · refine ⟨trivial, ?_, ?_, ?_⟩ <;> intro v hv <;> cases hv
    · refine ⟨?_, ?_, ?_, ?_⟩
      · show _ ∉ _
        decide
      all_goals intro v hv; cases hv
    · refine ⟨trivial, ?_, ?_, ?_⟩
      · intro v hv
        cases hv
        refine ⟨by simp, fun c hc => ?_⟩
        simp only [List.mem_cons, List.not_mem_nil, or_false] at hc
        rcases hc with rfl | rfl
        all_goals
          refine ⟨⟨by simp [Cli.mdlClaim, ClaimsQuery.new], fun x hx => ?_⟩, fun v hv => by cases hv⟩
          simp only [Cli.mdlClaim, ClaimsQuery.new, List.mem_cons, List.not_mem_nil, or_false] at hx
          rcases hx with rfl | rfl <;> trivial
      all_goals intro v hv; cases hv
  · rw [hsets] at hv
    cases hv
    refine ⟨by simpa using hts, fun x hx => ?_⟩
    obtain ⟨t, ht, rfl⟩ := List.mem_map.1 hx
    exact ⟨by simpa using asked_ne (hk t ht), fun _ _ => trivial⟩
  · obtain ⟨c, hc⟩ := List.exists_mem_of_ne_nil _ hne
    refine ⟨c, hc, ?_⟩
    have := hmem c hc
    simp only [cliQueries, List.mem_cons, List.not_mem_nil, or_false] at this
    rcases this with rfl | rfl | rfl | rfl <;> decide

/-- **C122** (A finding.) Nor does it answer the command-line verifier, whatever that is told to ask
for. -/
theorem C122_shipped_cli (p : Url) (types : List Str) (uuid : Uuid) (nonce : Str) (v : Verifier) (σ : Store)
    (url : Url) (hp : p.WF) (h : Cli.start p types uuid nonce = .ok (v, σ, url)) (ord : MapOrder) (a : Adapter)
    (prm : Params) (s : Session) (hs : σ.get uuid = some s) (ha : Obtains a prm s.requestObject)
    (hship : Shipped a) : Denied ord a prm := by
  obtain ⟨s', q, d, hst, -, -, hq, -, -, -, hj, -⟩ := C65_request p types uuid nonce v σ url hp h
  have := hst.2.1
  rw [hs] at this
  cases this
  obtain ⟨hok, k, hk, hfmt⟩ := cliQuery_ok hq
  have hdq : s.requestObject.dcqlQuery = some (.ok q) :=
    ((C05_state_and_query _).2.2.2 q).2 ⟨_, hj, query_means.1 ((C45_dcql_roundtrip q).2 hok)⟩
  have hsel : ∃ e, a.selectCredentials s.requestObject = .error e := by
    unfold Adapter.selectCredentials
    cases hc : a.consent
    · exact ⟨_, rfl⟩
    · have hloop : ∃ e, matchLoop a.lower a.store q.credentials.vec [] = .error e := by
        rw [matchLoop_error]
        refine ⟨k, hk, fun c hc ha => hfmt ?_⟩
        rw [shipped_iff.1 hship] at hc
        simp only [List.mem_cons, List.not_mem_nil, or_false] at hc
        subst hc
        have := ha.1
        simpa [SameFormat, embeddedCredential, eq_comm] using this
      obtain ⟨e, he⟩ := hloop
      exact ⟨e, by simp only [Bool.not_true, Bool.false_eq_true, if_false, hdq, matchQuery, he]⟩
  obtain ⟨e, hsel⟩ := hsel
  obtain ⟨r, tr, jwt, hu, hr⟩ := ha
  have hrp := resolve_posts a.wallet r
  rw [hr] at hrp
  unfold Denied
  simp only [Adapter.process, hu, hr, posts_append, hrp, List.nil_append, Adapter.respond, hdq, hsel]
  exact ⟨rfl, trivial⟩

/-! ## Cases -/

/-- The wallet of the sample flow with the credentials as shipped. -/
def shippedWallet (jwt : Str) : Adapter := { flowWallet jwt with store := [embeddedCredential] }

theorem shippedWallet_shipped (jwt : Str) : Shipped (shippedWallet jwt) := shipped_iff.2 rfl

theorem shippedWallet_opens (jwt : Str) : OpensRequests (shippedWallet jwt) :=
  ⟨(flowReady jwt).header, (flowReady jwt).endpoint⟩

/-- Both kinds of verifier are started, a session is begun, and the wallet as shipped is given its
request: it is denied, the wallet with a PID is not. -/
example (encrypted : Bool) (ord : MapOrder) (ho : ord.Fair) : ∃ app σ sid auth st jwt doc,
    Started cachePki [] (cacheDraw 9) true flowKey flowUrl encrypted c!"a.b" app ∧
    initiate app none (buildId 5) c!"drawn" [] = (σ, .ok (sid, auth, st)) ∧
    Denied ord (shippedWallet jwt) (flowParams (buildId 5)) ∧
    (posts ((flowWallet jwt).process ord (flowParams (buildId 5))).1).length = 1 ∧
    status sid (serve app σ [.fetch sid, .status sid]) = (200, some doc) ∧
    Member doc c!"status" (.str c!"sent_request") := by
  obtain ⟨app, hs⟩ := flowStarted encrypted
  obtain ⟨⟨sid, auth, st⟩, h⟩ := C62_initiate_succeeds hs none (buildId 5) c!"drawn" []
  have h' : initiate app none (buildId 5) c!"drawn" [] =
    ((initiate app none (buildId 5) c!"drawn" []).1, .ok (sid, auth, st)) := by rw [← h]
  obtain ⟨s, -, -, hsid, -, -, -, -, -, hget⟩ := C62_initiate hs h'
  have hr := flowRefers hget
  have hr' : Refers flowUrl (buildId 5) sid (initiate app none (buildId 5) c!"drawn" []).1
      (shippedWallet s.jwt) (flowParams (buildId 5)) := ⟨hr.noRequest, hr.uri, hr.reached⟩
  obtain ⟨h1, h2⟩ := C122_shipped hs h' (fun _ => (flowKeyWorks s.jwt).proper) (shippedWallet_opens s.jwt)
    (shippedWallet_shipped s.jwt) hr' ord
  obtain ⟨doc, h3, h4, -⟩ := h2 [.fetch sid, .status sid] (by
    intro c hc r
    simp only [List.mem_cons, List.not_mem_nil, or_false] at hc
    rcases hc with rfl | rfl <;> exact id)
  have hw := flowReady s.jwt
  obtain ⟨_, _, e, hp, -⟩ := hw.pid
  refine ⟨app, _, sid, auth, st, s.jwt, doc, hs, h', h1, ?_, h3, h4 ⟨.fetch sid, by simp, hsid⟩⟩
  exact (C122_sends_iff hs h' (fun _ => flowKeyWorks s.jwt) ⟨hw.header, hw.endpoint⟩ hw.clock hr ho).1.2
    ⟨rfl, flowPid, by rw [e]; simp, hp⟩

/-- The wallet as shipped, with the request of the command-line verifier. -/
def shippedCliWallet (jwt : Str) : Adapter := { shippedWallet jwt with wallet := cliSampleWallet jwt }

example (ord : MapOrder) : ∃ v σ url s prm,
    Cli.start cliPublic [c!"mdl", c!"vcdm2_sd_jwt"] (buildId 3) c!"n" = .ok (v, σ, url) ∧
    σ.get (buildId 3) = some s ∧ Obtains (shippedCliWallet s.jwt) prm s.requestObject ∧
    Denied ord (shippedCliWallet s.jwt) prm := by
  have hs : (match Cli.start cliPublic [c!"mdl", c!"vcdm2_sd_jwt"] (buildId 3) c!"n" with
      | .ok r => decide (Url.parse r.2.2.print = some r.2.2)
      | .error _ => false) = true := by decide +kernel
  cases h : Cli.start cliPublic [c!"mdl", c!"vcdm2_sd_jwt"] (buildId 3) c!"n" with
  | error e => rw [h] at hs; cases hs
  | ok r =>
    obtain ⟨v, σ, url⟩ := r
    rw [h] at hs
    have hurl := of_decide_eq_true hs
    obtain ⟨s, q, d, hst, -, -, -, -, -, -, -, -, -, -, -, -, -, hfrom, -⟩ :=
      C65_request _ _ _ _ v σ url cliPublic_wf h
    obtain ⟨s', u, h1, h2, h3⟩ := C65_validated _ _ _ _ v σ url (cliSampleWallet s.jwt) cliPublic_wf h rfl
      (.inr ⟨[c!"redirect_uri"], rfl, by simp⟩) (by
        intro base id uri jwt _ _ hret
        obtain ⟨s', hs', rfl⟩ := retrieve_jwt hret
        rw [e2e_only hst id s' hs']
        exact ⟨⟨200, utf8 s.jwt⟩, rfl, (by decide : 200 ≤ 200), (by decide : 200 < 300), utf8Dec_utf8 _, rfl⟩)
      ⟨_, rfl⟩ (fun _ _ _ => rfl)
    rw [e2e_only hst _ s' h1] at h3
    rw [hurl] at h2
    cases h2
    unfold Wallet.validateRequest at h3
    rw [show (cliSampleWallet s.jwt).metadata.authorizationEndpoint.val = openid4vpUrl from rfl, hfrom] at h3
    obtain ⟨jwt, hres, -⟩ := validate_ok h3
    let rsp : Url := { cliPublic with path := c!"/response" }
    let req : Url := { cliPublic with path := c!"/request/" ++ (buildId 3).print }
    let prm : Params := { clientId := some (c!"redirect_uri:" ++ rsp.print), requestUri := some req.print }
    have hparse : Url.parse req.print = some req := by decide +kernel
    have hd : described prm = ⟨some (c!"redirect_uri:" ++ rsp.print), .byReference req⟩ := by
      simp only [described, prm, Option.bind_some, hparse]
    have hob : Obtains (shippedCliWallet s.jwt) prm s.requestObject := by
      refine ⟨described prm, ((described prm).resolve (cliSampleWallet s.jwt)).1, jwt,
        C58_request_of_params _ prm (.inl rfl), ?_⟩
      rw [← hres, hd]
      rfl
    exact ⟨v, σ, url, s, prm, rfl, hst.2.1, hob, C122_shipped_cli _ _ _ _ v σ url cliPublic_wf h ord _ prm s
      hst.2.1 hob (shipped_iff.2 rfl)⟩

end Oid4vp
