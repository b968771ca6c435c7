import Verif.Props.ExampleFlow
/-! # C101: what binds a response to its session -/

set_option autoImplicit false

namespace Oid4vp
open Spec Example VerifierApp

/-- The report of the example verifier about a response. -/
def reportOf (app : App) (r : AuthorizationResponse) : Json :=
  statusJson (.complete (validator app.decrypt ⟨buildId 0, .sentRequest, [], explicitObject, pidAsked⟩ r))

/-- **C101** The library compares nothing of a response with the session for which it is delivered: if a
validator does not do so either, then a response delivered for one session has the same answer and the same
outcome when delivered for any other one. -/
theorem C101_library (f : Validator) (hf : ∀ s s' r, f s r = f s' r) (session session' : Str) (u u' : Uuid)
    (s s' : Session) (body : Bytes) (σ σ' : Store) (hk : Known σ session u s) (hk' : Known σ' session' u' s') :
    (postResponse f session body σ).2 = (postResponse f session' body σ').2 ∧
    ((postResponse f session body σ).2 = 200 →
      getStatus session (postResponse f session body σ).1 = getStatus session' (postResponse f session' body σ').1) := by
  by_cases hc : ∃ r, Carries body r
  · obtain ⟨r, hr⟩ := hc
    obtain ⟨a, b, -⟩ := C60_respond f session body σ
    obtain ⟨a', b', -⟩ := C60_respond f session' body σ'
    have e := a.mpr ⟨u, s, r, hk, hr⟩
    have e' := a'.mpr ⟨u', s', r, hk', hr⟩
    refine ⟨e.trans e'.symm, fun _ => ?_⟩
    have g := (C60_status_answer session (postResponse f session body σ).1 200 (some (.complete (f s r)))).mpr
      (.inr (.inr ⟨u, _, ⟨hk.1, (b u s r hk hr).1⟩, rfl, rfl⟩))
    have g' := (C60_status_answer session' (postResponse f session' body σ').1 200
      (some (.complete (f s' r)))).mpr (.inr (.inr ⟨u', _, ⟨hk'.1, (b' u' s' r hk' hr).1⟩, rfl, rfl⟩))
    rw [g, g', hf s s' r]
  · have hc : ∀ r, ¬Carries body r := fun r hr => hc ⟨r, hr⟩
    have e := (C60_respond_refused f session body σ).1.mpr (.inr hc)
    have e' := (C60_respond_refused f session' body σ').1.mpr (.inr hc)
    refine ⟨e.trans e'.symm, fun h => ?_⟩
    rw [e] at h
    cases h

/-- **C101** What the example verifier reports for a session that got a response depends on the response alone:
not on the session, its request, its nonce, its query, its response mode, the other sessions, or what else
happened. -/
theorem C101_report (app : App) : ∃ report : AuthorizationResponse → Json,
    ∀ (σ : Store) (cs : List Call) (session : Str) (u : Uuid) (s : Session) (r : AuthorizationResponse),
      Known σ session u s → LastDelivered u r cs → status session (serve app σ cs) = (200, some (report r)) := by
  refine ⟨reportOf app, fun σ cs session u s r hk hr => ?_⟩
  obtain ⟨s', hs', hst⟩ := C60_last_response_decides app cs σ u s hk.2 r hr
  rw [status_of_get hk.1 hs', hst]
  rfl

/-- **C101** Of a plain response it depends on the number of query ids alone, so that neither the
presentations nor the state nor the ids that were asked for play a part. -/
theorem C101_plain_report (app : App) (σ σ' : Store) (cs cs' : List Call) (session session' : Str) (u u' : Uuid)
    (s s' : Session) (r r' : UnencodedResponse) (hk : Known σ session u s) (hk' : Known σ' session' u' s')
    (hr : LastDelivered u (.unencoded r) cs) (hr' : LastDelivered u' (.unencoded r') cs')
    (h : r.vpToken.map.length = r'.vpToken.map.length) :
    status session (serve app σ cs) = status session' (serve app σ' cs') := by
  obtain ⟨t, ht, hst⟩ := C60_last_response_decides app cs σ u s hk.2 _ hr
  obtain ⟨t', ht', hst'⟩ := C60_last_response_decides app cs' σ' u' s' hk'.2 _ hr'
  rw [status_of_get hk.1 ht, status_of_get hk'.1 ht', hst, hst']
  simp only [validator, h]

theorem initiate_keeps {app : App} {nonce : Option Str} {uuid : Uuid} {drawn : Str} {σ σ' : Store}
    {r : Str × Str × Str} {p : Pki} {rs : List Run} {draw : Draw} {w : Bool} {key : EncKey} {u : Url}
    {encrypted : Bool} {host : Str} (hs : Started p rs draw w key u encrypted host app)
    (h : initiate app nonce uuid drawn σ = (σ', .ok r)) :
    ∃ s, UuidText r.1 uuid ∧ σ'.get uuid = some s ∧
      PidRequest key u encrypted host (unwrapOr drawn nonce) uuid s := by
  obtain ⟨sid, auth, st⟩ := r
  obtain ⟨s, -, -, h1, h2, h3, -⟩ := C62_initiate hs h
  exact ⟨s, h1, h2.2.1, h3⟩

theorem last_respond {uuid : Uuid} {sid : Str} {body : Bytes} {r : AuthorizationResponse} {pre post : List Call}
    (hid : UuidText sid uuid) (hc : Carries body r) (hn : NoneDelivered uuid post) :
    LastDelivered uuid r (pre ++ .respond sid body :: post) :=
  ⟨pre, _, post, rfl, ⟨hid, hc⟩, hn⟩

/-- **C101** (A finding.) A response is good for any session of the example verifier: what the example wallet
posts for one session, bound to the nonce of that session, is reported as a success for another session, with
another nonce, for which the wallet was never asked. -/
theorem C101_moved {p : Pki} {rs : List Run} {draw : Draw} {w : Bool} {key : EncKey} {u : Url}
    {host : Str} {app : App} (hs : Started p rs draw w key u false host app)
    {nonce nonce' : Option Str} {uuid uuid' : Uuid} {drawn drawn' : Str} {σ σ₁ τ τ₁ : Store}
    {sid auth st sid' auth' st' : Str}
    (h : initiate app nonce uuid drawn σ = (σ₁, .ok (sid, auth, st)))
    (h' : initiate app nonce' uuid' drawn' τ = (τ₁, .ok (sid', auth', st')))
    {a : Adapter} {c : Credential} (hw : ReadyWallet a c) {prm : Params} (hp : Refers u uuid sid σ₁ a prm)
    {ord : MapOrder} (ho : ord.Fair) :
    ∃ pres addr body s', Presents a.holder (unwrapOr drawn nonce) (c!"x509_san_dns:" ++ host) c.raw pres ∧
      SessionAddress u c!"response" uuid addr ∧
      posts (a.process ord prm).1 = [⟨c!"POST", addr.print,
        [(c!"content-type", c!"application/x-www-form-urlencoded")], body⟩] ∧
      Carries body (.unencoded ⟨pidToken pres, prm.state.map .mk⟩) ∧
      τ₁.get uuid' = some s' ∧ s'.requestObject.nonce = ⟨unwrapOr drawn' nonce'⟩ ∧
      ∀ pre post, NoneDelivered uuid' post → ∃ doc,
        status sid' (serve app τ₁ (pre ++ .respond sid' body :: post)) = (200, some doc) ∧
        ReportsPlain doc 1 := by
  obtain ⟨pres, addr, body, h1, h2, h3, h4, -⟩ := C62_plain hs h hw hp ho
  obtain ⟨s', g1, g2, g3⟩ := initiate_keeps hs h'
  exact ⟨pres, addr, body, s', h1, h2, h3, h4, g2, g3.nonce, fun pre post hn =>
    C61_plain_reported app _ τ₁ sid' uuid' s' ⟨g1, g2⟩ _ (last_respond g1 h4 hn)⟩

/-- **C101** (A finding.) The same with encryption: there is one key for all sessions, and the report for the
other session has the presentation made for the first one. -/
theorem C101_moved_encrypted {p : Pki} {rs : List Run} {draw : Draw} {w : Bool} {key : EncKey} {u : Url}
    {host : Str} {app : App} (hs : Started p rs draw w key u true host app)
    {nonce nonce' : Option Str} {uuid uuid' : Uuid} {drawn drawn' : Str} {σ σ₁ τ τ₁ : Store}
    {sid auth st sid' auth' st' : Str}
    (h : initiate app nonce uuid drawn σ = (σ₁, .ok (sid, auth, st)))
    (h' : initiate app nonce' uuid' drawn' τ = (τ₁, .ok (sid', auth', st')))
    {a : Adapter} {c : Credential} (hw : ReadyWallet a c) (hk : KeyWorks key a.jose)
    {prm : Params} (hp : Refers u uuid sid σ₁ a prm) {ord : MapOrder} :
    ∃ pres addr body jwe s', Presents a.holder (unwrapOr drawn nonce) (c!"x509_san_dns:" ++ host) c.raw pres ∧
      SessionAddress u c!"response" uuid addr ∧
      posts (a.process ord prm).1 = [⟨c!"POST", addr.print,
        [(c!"content-type", c!"application/x-www-form-urlencoded")], body⟩] ∧
      Carries body (.jwt jwe) ∧
      τ₁.get uuid' = some s' ∧ s'.requestObject.nonce = ⟨unwrapOr drawn' nonce'⟩ ∧
      ∀ pre post, NoneDelivered uuid' post → ∃ doc,
        status sid' (serve app τ₁ (pre ++ .respond sid' body :: post)) = (200, some doc) ∧
        ReportsEncrypted doc (pidContent pres prm.state) := by
  obtain ⟨pres, addr, body, jwe, h1, h2, h3, h4, h5⟩ := C62_encrypted (ord := ord) hs h hw hk hp
  obtain ⟨s', g1, g2, g3⟩ := initiate_keeps hs h'
  obtain ⟨s, f1, f2, -⟩ := initiate_keeps hs h
  obtain ⟨doc, hd, hrep⟩ := h5 [] [] (by simp [NoneDelivered])
  obtain ⟨report, hreport⟩ := C101_report app
  have e := hreport σ₁ _ sid uuid s _ ⟨f1, f2⟩ (last_respond (pre := []) (post := []) f1 h4 (by simp [NoneDelivered]))
  rw [hd] at e
  simp only [Prod.mk.injEq, Option.some.injEq, true_and] at e
  subst e
  exact ⟨pres, addr, body, jwe, s', h1, h2, h3, h4, g2, g3.nonce, fun pre post hn =>
    ⟨_, hreport τ₁ _ sid' uuid' s' _ ⟨g1, g2⟩ (last_respond g1 h4 hn), hrep⟩⟩

/-! ## Cases -/

/-- The answer to session 5 with the nonce `n-1` is reported as a success of session 6 with the nonce `n-2`. -/
example (ord : MapOrder) (ho : ord.Fair) : ∃ app σ τ sid sid' jwt body addr doc s' auth st auth' st',
    Started cachePki [] (cacheDraw 9) true flowKey flowUrl false c!"a.b" app ∧
    initiate app (some c!"n-1") (buildId 5) c!"drawn" [] = (σ, .ok (sid, auth, st)) ∧
    initiate app (some c!"n-2") (buildId 6) c!"drawn" σ = (τ, .ok (sid', auth', st')) ∧
    posts ((flowWallet jwt).process ord (flowParams (buildId 5))).1 = [⟨c!"POST", addr,
      [(c!"content-type", c!"application/x-www-form-urlencoded")], body⟩] ∧
    τ.get (buildId 6) = some s' ∧ s'.requestObject.nonce = ⟨c!"n-2"⟩ ∧
    status sid' (serve app τ [.respond sid' body]) = (200, some doc) ∧ ReportsPlain doc 1 := by
  obtain ⟨app, hs⟩ := flowStarted false
  obtain ⟨⟨sid, auth, st⟩, h⟩ := C62_initiate_succeeds hs (some c!"n-1") (buildId 5) c!"drawn" []
  have h1 : initiate app (some c!"n-1") (buildId 5) c!"drawn" [] =
    ((initiate app (some c!"n-1") (buildId 5) c!"drawn" []).1, .ok (sid, auth, st)) := by rw [← h]
  generalize (initiate app (some c!"n-1") (buildId 5) c!"drawn" []).1 = σ at h1
  obtain ⟨⟨sid', auth', st'⟩, h'⟩ := C62_initiate_succeeds hs (some c!"n-2") (buildId 6) c!"drawn" σ
  have h2 : initiate app (some c!"n-2") (buildId 6) c!"drawn" σ =
    ((initiate app (some c!"n-2") (buildId 6) c!"drawn" σ).1, .ok (sid', auth', st')) := by rw [← h']
  obtain ⟨s, -, -, -, -, -, -, -, -, hget⟩ := C62_initiate hs h1
  obtain ⟨pres, addr, body, s', -, -, g1, -, g2, g3, g4⟩ := C101_moved hs h1 h2 (flowReady s.jwt) (flowRefers hget) ho
  obtain ⟨doc, g5, g6⟩ := g4 [] [] (by simp [NoneDelivered])
  exact ⟨app, σ, _, sid, sid', s.jwt, body, _, doc, s', auth, st, auth', st', hs, h1, h2, g1, g2, g3, g5, g6⟩

end Oid4vp
