import Verif.Spec.Amid
import Verif.Props.ExampleFlow
import Verif.Props.VerifierKept
/-!
# C109: the example wallet and the example verifier, amid other requests
-/

set_option autoImplicit false

namespace Oid4vp
open Spec Example VerifierTasks
open VerifierApp (App Pki Draw EncKey)
open VerifierHttp (Server Reply Body)

theorem asksAt_asks {u : Url} {v : Uuid} {c : WalletApp.Call} (srv : Server) (hr : AtRoot u) (h : AsksAt u v c) :
    Asks v c := by
  obtain ⟨hm, addr, ha, hp⟩ := h
  exact ⟨by simp [hm], (C82_addresses ha srv v v c hp []).1 hr⟩

/-- What the verifier handed out was made by a request that came, for a new session. -/
theorem handed_out {p : Pki} {rs : List Run} {draw : Draw} {w : Bool} {key : EncKey} {u : Url}
    {encrypted : Bool} {host : Str} {srv : Server} (hs : Started p rs draw w key u encrypted host srv.app)
    (hr : AtRoot u) {σ : Store} {es : List Move} {v : Uuid} {x : Arrival} {jwt : Str} (hσ : σ.get v = none)
    (hx : AsksAt u v x.2.2) (hj : (x, .done ⟨200, .jwt jwt⟩) ∈ (run srv (begin σ) es).tasks)
    {a : Adapter} {prm : Params} (hg : Given u v jwt a prm) :
    ∃ b n τ τ' sid auth st, Arrives es b ∧ Begins b.2.2 ∧ b.1 = v ∧ NonceBody b.2.2.body n ∧
      VerifierApp.initiate srv.app n v b.2.1.print τ = (τ', .ok (sid, auth, st)) ∧ Refers u v sid τ' a prm := by
  have hm : x.2.2.method = c!"GET" := hx.1
  have hsent : sent x ⟨200, .jwt jwt⟩ = ⟨200, .jwt jwt⟩ := by rw [sent, if_neg (by rw [hm]; decide)]
  have hax := asksAt_asks srv hr hx
  obtain ⟨-, ⟨es1, es2, τ, rfl, -, h⟩ | ⟨-, h⟩⟩ := C107_answers srv σ es x _ hj
  · rw [hsent] at h
    obtain ⟨s', hs', hjwt⟩ : ∃ s', (run srv (begin σ) es1).store.get v = some s' ∧ s'.jwt = jwt := by
      have h5 := ((C82_served ..).2 h).1
      rw [serve_fetch (enter_asks (srv := srv).2 hax)] at h5
      cases hgv : (run srv (begin σ) es1).store.get v with
      | none =>
        rw [hgv] at h5
        dsimp only at h5
        rw [sent, if_neg (by rw [hm]; decide)] at h5
        cases h5
      | some s =>
        rw [hgv] at h5
        dsimp only at h5
        rw [sent, if_neg (by rw [hm]; decide)] at h5
        cases h5
        exact ⟨s, rfl, rfl⟩
    obtain ⟨s, ho, he, -⟩ := (C107_sessions srv σ es1 v).2 s' hs'
    cases ho with
    | stored h => rw [hσ] at h; cases h
    | @made b τ τ' doc hb hbe hbv hsv hg' =>
      subst hbv
      cases hsv with
      | get hm' => rw [hbe.1] at hm'; exact absurd hm' (by decide)
      | post _ hp =>
        have hnr : ∀ seg, ¬ Under c!"/response/" b.2.2.path seg := by
          rintro seg ⟨h, -⟩; rw [hbe.2] at h; simp at h
        generalize hq : (200 : Nat) = q at hp
        cases hp with
        | @begun t n τ1 sid auth st _ _ _ _ _ hnb hi hun _ =>
          refine ⟨b, n, τ, τ1, sid, auth, st, List.mem_append_left _ hb, hbe, rfl, hnb, hi, hg.noRequest, hg.uri, ?_⟩
          intro addr jwt' ha hget
          obtain ⟨s1, -, -, -, hst, -, -, -, -, hget'⟩ := C62_initiate hs hi
          rw [hget'] at hget
          simp only [Prod.mk.injEq, Option.some.injEq, true_and] at hget
          have h1 := hun b.1
          rw [hg', hst.2.1] at h1
          cases h1
          rw [← hget, show s.jwt = jwt by rw [← hjwt, he]]
          exact hg.reached addr ha
        | taken h => exact absurd h (hnr _)
        | notBegun => cases hq
        | noId => cases hq
        | noResponse => cases hq
        | unknown => cases hq
  · rw [hsent] at h; cases h

/-- The end of an exchange, from what the verifier alone does. -/
theorem ends_with {srv : Server} {u : Url} (hr : AtRoot u) {σ : Store} {es1 : List Move} {v : Uuid} {x : Arrival}
    (hx : AsksAt u v x.2.2) (hg : Granted (run srv (begin σ) es1) x) (hq : NoneRetrieving (run srv (begin σ) es1) v)
    {addr : Url} (ha : SessionAddress u c!"response" v addr) {body : Bytes} {r : AuthorizationResponse}
    (hc : Carries body r) (hl : body.length ≤ 2097152) {sid : Str} {τ : Store} {s : Session} (hk : Known τ sid v s)
    {doc : Json} (hd : VerifierApp.status sid (VerifierApp.serve srv.app τ [.respond sid body]) = (200, some doc))
    {reported : Json → Prop} (hrep : reported doc) : EndsWith srv σ es1 v addr body reported := by
  intro y es2 hy hdr hn
  obtain ⟨hm, hp, hb⟩ := hy
  have hsub : Submits v r y.2.2 := ⟨hm, (C82_addresses ha srv v v y.2.2 hp []).1 hr, hb ▸ hl, hb ▸ hc⟩
  obtain ⟨s1, o, -, hv, h1, h2⟩ := C108_kept srv σ es1 es2 x y v r hdr (asksAt_asks srv hr hx) hg hq hsub hn
  have hdoc : StatusPage (.complete o) doc := by
    obtain ⟨s', hs', hst⟩ := C60_last_response_decides srv.app [.respond sid body] τ v s hk.2 r
      ⟨[], _, [], rfl, ⟨hk.1, hc⟩, by simp⟩
    rw [status_of_get hk.1 hs', hst, verdict_iff.2 hv] at hd
    simp only [Prod.mk.injEq, Option.some.injEq, true_and] at hd
    exact hd ▸ statusPage_iff.2 rfl
  refine ⟨fun rep hm' => ?_, fun es3 es4 he hgr z rep hz hpz hnz hm' => ?_⟩
  · have := h1 rep hm'
    rwa [show sent y rep = rep from sent_post y.1 y.2.1 hm rep] at this
  · have hsent : sent z rep = rep := by rw [sent, if_neg (by rw [hz]; decide)]
    have := (h2 es3 es4 he hgr).2 z rep hpz hnz hm'
    rw [hsent] at this
    rcases this with ⟨doc', b, g1, g2, g3⟩ | h
    · left
      rcases g2 with ⟨g, -⟩ | ⟨-, rfl⟩
      · rw [hz] at g; exact absurd g (by decide)
      · rw [statusPage_iff] at g1 hdoc
        rw [g1, ← hdoc] at g3
        exact ⟨doc, g3, hrep⟩
    · exact .inr h

/-- **C109** An exchange between the example wallet and the example verifier, amid any other requests, without
encryption. Let the verifier, started under a public address without a directory, have answered a request for the
request object of a session, and let the wallet's HTTP client get just that. Then the session was begun by a request
that came, and the wallet sends exactly one response, to the address of the session, with a presentation of its
first PID bound to the nonce of that request and the client identifier of the verifier. When that is delivered while
nobody else retrieves the request object, and no other response is delivered for the session, then it is accepted,
and from then on the status of the session reports one credential. In between and afterwards any other requests may
come and their handling be interleaved in any way. -/
theorem C109_plain {p : Pki} {rs : List Run} {draw : Draw} {w : Bool} {key : EncKey} {u : Url}
    {host : Str} {srv : Server} (hs : Started p rs draw w key u false host srv.app) (hr : AtRoot u)
    (σ : Store) (es1 : List Move) (v : Uuid) (x : Arrival) (jwt : Str) (hσ : σ.get v = none)
    (hx : AsksAt u v x.2.2) (hj : (x, .done ⟨200, .jwt jwt⟩) ∈ (run srv (begin σ) es1).tasks)
    {a : Adapter} {c : Credential} (hw : ReadyWallet a c) {prm : Params} (hg : Given u v jwt a prm)
    {ord : MapOrder} (ho : ord.Fair) :
    ∃ b n pres addr body, Arrives es1 b ∧ Begins b.2.2 ∧ b.1 = v ∧ NonceBody b.2.2.body n ∧
      Presents a.holder (unwrapOr b.2.1.print n) (c!"x509_san_dns:" ++ host) c.raw pres ∧
      SessionAddress u c!"response" v addr ∧
      posts (a.process ord prm).1 = [⟨c!"POST", addr.print,
        [(c!"content-type", c!"application/x-www-form-urlencoded")], body⟩] ∧
      Carries body (.unencoded ⟨pidToken pres, prm.state.map .mk⟩) ∧
      (body.length ≤ 2097152 → NoneRetrieving (run srv (begin σ) es1) v →
        EndsWith srv σ es1 v addr body fun doc => ReportsPlain doc 1) := by
  obtain ⟨b, n, τ, τ', sid, auth, st, h1, h2, h3, h4, h5, h6⟩ := handed_out hs hr hσ hx hj hg
  obtain ⟨pres, addr, body, g1, g2, g3, g4, g5⟩ := C62_plain hs h5 hw h6 ho
  obtain ⟨s, -, -, hsid, hst, -⟩ := C62_initiate hs h5
  obtain ⟨doc, d1, d2⟩ := g5 [] [] (by simp [NoneDelivered])
  exact ⟨b, n, pres, addr, body, h1, h2, h3, h4, g1, g2, g3, g4, fun hl hq =>
    ends_with hr hx ⟨_, hj, rfl⟩ hq g2 g4 hl ⟨hsid, hst.2.1⟩ d1 d2⟩

/-- **C109** The same with encryption: what is reported is exactly what the wallet encrypted. -/
theorem C109_encrypted {p : Pki} {rs : List Run} {draw : Draw} {w : Bool} {key : EncKey} {u : Url}
    {host : Str} {srv : Server} (hs : Started p rs draw w key u true host srv.app) (hr : AtRoot u)
    (σ : Store) (es1 : List Move) (v : Uuid) (x : Arrival) (jwt : Str) (hσ : σ.get v = none)
    (hx : AsksAt u v x.2.2) (hj : (x, .done ⟨200, .jwt jwt⟩) ∈ (run srv (begin σ) es1).tasks)
    {a : Adapter} {c : Credential} (hw : ReadyWallet a c) (hk : KeyWorks key a.jose) {prm : Params}
    (hg : Given u v jwt a prm) (ord : MapOrder) :
    ∃ b n pres addr body jwe, Arrives es1 b ∧ Begins b.2.2 ∧ b.1 = v ∧ NonceBody b.2.2.body n ∧
      Presents a.holder (unwrapOr b.2.1.print n) (c!"x509_san_dns:" ++ host) c.raw pres ∧
      SessionAddress u c!"response" v addr ∧
      posts (a.process ord prm).1 = [⟨c!"POST", addr.print,
        [(c!"content-type", c!"application/x-www-form-urlencoded")], body⟩] ∧
      Carries body (.jwt jwe) ∧
      (body.length ≤ 2097152 → NoneRetrieving (run srv (begin σ) es1) v →
        EndsWith srv σ es1 v addr body fun doc => ReportsEncrypted doc (pidContent pres prm.state)) := by
  obtain ⟨b, n, τ, τ', sid, auth, st, h1, h2, h3, h4, h5, h6⟩ := handed_out hs hr hσ hx hj hg
  obtain ⟨pres, addr, body, jwe, g1, g2, g3, g4, g5⟩ := C62_encrypted (ord := ord) hs h5 hw hk h6
  obtain ⟨s, -, -, hsid, hst, -⟩ := C62_initiate hs h5
  obtain ⟨doc, d1, d2⟩ := g5 [] [] (by simp [NoneDelivered])
  exact ⟨b, n, pres, addr, body, jwe, h1, h2, h3, h4, g1, g2, g3, g4, fun hl hq =>
    ends_with hr hx ⟨_, hj, rfl⟩ hq g2 g4 hl ⟨hsid, hst.2.1⟩ d1 d2⟩

/-! ## An exchange -/

/-- A request for a new session. -/
def amidBegin : Arrival :=
  (buildId 5, buildId 9, ⟨c!"POST", c!"/initiate", none, some c!"application/json", utf8 c!"{}"⟩)

/-- The wallet's request for the request object. -/
def amidAsk : Arrival := (buildId 8, buildId 9, ⟨c!"GET", c!"/request/" ++ (buildId 5).print, none, none, []⟩)

theorem amidAsksAt : AsksAt flowUrl (buildId 5) amidAsk.2.2 :=
  ⟨rfl, { flowUrl with path := c!"/request/" ++ (buildId 5).print }, ⟨[], [], .inl rfl, by decide, rfl⟩, rfl⟩

theorem amidGiven (jwt : Str) : Given flowUrl (buildId 5) jwt (flowWallet jwt) (flowParams (buildId 5)) := by
  refine ⟨rfl, ⟨{ flowUrl with path := c!"/request/" ++ (buildId 5).print }, ⟨[], [], .inl rfl, by decide, rfl⟩,
    by decide +kernel⟩, ?_⟩
  intro addr _
  exact ⟨⟨200, utf8 jwt⟩, rfl, (by decide : 200 ≤ 200), (by decide : 200 < 300), utf8Dec_utf8 _, rfl⟩

/-- A session is begun and its request retrieved. -/
theorem amidStart {encrypted : Bool} (app : App)
    (hs : Started cachePki [] (cacheDraw 9) true flowKey flowUrl encrypted c!"a.b" app) :
    ∃ jwt rep, (run (toyServer app) (begin []) ([.arrive amidBegin, .step 0 false, .step 0 false] ++
      [.arrive amidAsk, .step 1 false, .step 1 false])).tasks =
        [(amidBegin, .done rep), (amidAsk, .done ⟨200, .jwt jwt⟩)] := by
  obtain ⟨rep, h1, h2, h3⟩ := C107_alone (toyServer app) amidBegin (begin []) 2 (Nat.le_refl _)
  obtain ⟨jwt, s, hg, hjwt⟩ : ∃ jwt s, (run (toyServer app) (begin [])
      (.arrive amidBegin :: List.replicate 2 (.step 0 false))).store.get (buildId 5) = some s ∧ s.jwt = jwt := by
    have h := (C82_begin (srv := toyServer app) hs amidBegin.1 amidBegin.2.1 amidBegin.2.2 [] ⟨rfl, rfl⟩).2.1.2
      ⟨⟨_, rfl, by simp [toyServer]⟩, by decide +kernel, none, nonceBody_iff.1 (by decide +kernel)⟩
    have hv := serve_spec (toyServer app) amidBegin.1 amidBegin.2.1 amidBegin.2.2 []
    have h3' : (run (toyServer app) (begin []) (.arrive amidBegin :: List.replicate 2 (.step 0 false))).store =
      (VerifierHttp.serve (toyServer app) amidBegin.1 amidBegin.2.1 amidBegin.2.2 []).1 := h3
    rw [h3']
    generalize VerifierHttp.serve (toyServer app) amidBegin.1 amidBegin.2.1 amidBegin.2.2 [] = q at h hv
    obtain ⟨τ, n, b⟩ := q
    dsimp only at h hv ⊢
    subst h
    cases hv with
    | preflight hm => cases hm
    | get hm => cases hm
    | head hm => cases hm
    | post hm h =>
      generalize hq : (200 : Nat) = q at h
      cases h with
      | @begun t n τ1 sid auth st doc _ _ _ _ hnb hi hun =>
        obtain ⟨s, -, -, -, hst, -⟩ := C62_initiate hs hi
        refine ⟨_, s, ?_, rfl⟩
        rw [hun]
        exact hst.2.1
      | notBegun => cases hq
      | taken h => exact absurd h.1 (by simp [amidBegin])
      | otherType => cases hq
      | largeJson => cases hq
      | unreadable => exact absurd hq (by simp [toyServer])
      | undecodable => cases hq
      | large => cases hq
      | notText => cases hq
      | noId => cases hq
      | noResponse => cases hq
      | unknown => cases hq
  obtain ⟨rep', g1, g2, g3⟩ := C107_alone (toyServer app) amidAsk
    (run (toyServer app) (begin []) (.arrive amidBegin :: List.replicate 2 (.step 0 false))) 2 (Nat.le_refl _)
  refine ⟨jwt, rep, ?_⟩
  have hlen : (run (toyServer app) (begin []) (.arrive amidBegin :: List.replicate 2 (.step 0 false))).tasks =
    [(amidBegin, .done rep)] := h2
  rw [hlen] at g1 g2
  rw [VerifierTasks.run_append]
  have : rep' = ⟨200, .jwt jwt⟩ := by
    have h5 := ((C82_served ..).2 g1).1
    have hm : amidAsk.2.2.method = c!"GET" := rfl
    rw [serve_fetch (enter_asks (srv := toyServer app).2 (asksAt_asks (toyServer app) (.inr ⟨[], rfl, by simp⟩)
      amidAsksAt)), hg] at h5
    dsimp only at h5
    rw [sent, sent, if_neg (by rw [hm]; decide), if_neg (by rw [hm]; decide)] at h5
    rw [← h5, hjwt]
  rw [this] at g2
  exact g2

/-- The hypotheses are met, and the end is reached. -/
example (ord : MapOrder) (ho : ord.Fair) : ∃ app es1 jwt addr body,
    Started cachePki [] (cacheDraw 9) true flowKey flowUrl false c!"a.b" app ∧
    (amidAsk, .done ⟨200, .jwt jwt⟩) ∈ (run (toyServer app) (begin []) es1).tasks ∧
    ReadyWallet (flowWallet jwt) flowPid ∧ Given flowUrl (buildId 5) jwt (flowWallet jwt) (flowParams (buildId 5)) ∧
    posts ((flowWallet jwt).process ord (flowParams (buildId 5))).1 = [⟨c!"POST", Url.print addr,
      [(c!"content-type", c!"application/x-www-form-urlencoded")], body⟩] ∧
    (body.length ≤ 2097152 → ∃ y es2 rep doc, Brings addr body y.2.2 ∧
      (toyPoll, .done rep) ∈ (run (toyServer app) (begin []) (es1 ++ .arrive y :: es2)).tasks ∧
      rep = ⟨200, .json doc⟩ ∧ ReportsPlain doc 1) := by
  obtain ⟨app, hs⟩ := flowStarted false
  obtain ⟨jwt, rep0, hst⟩ := amidStart app hs
  have hmem : (amidAsk, Point.done ⟨200, .jwt jwt⟩) ∈ (run (toyServer app) (begin [])
      ([.arrive amidBegin, .step 0 false, .step 0 false] ++ [.arrive amidAsk, .step 1 false, .step 1 false])).tasks := by
    rw [hst]; simp
  obtain ⟨b, n, pres, addr, body, -, -, -, -, -, ha, hp, hc, hend⟩ := C109_plain (srv := toyServer app) hs
    (.inr ⟨[], rfl, by simp⟩) [] _ (buildId 5) amidAsk jwt rfl amidAsksAt hmem (flowReady jwt) (amidGiven jwt) ho
  refine ⟨app, _, jwt, addr, body, hs, hmem, flowReady jwt, amidGiven jwt, hp, fun hl => ?_⟩
  have hq : NoneRetrieving (run (toyServer app) (begin []) ([.arrive amidBegin, .step 0 false, .step 0 false] ++
      [.arrive amidAsk, .step 1 false, .step 1 false])) (buildId 5) := by
    intro z p hz _
    rw [hst] at hz
    simp only [List.mem_cons, List.not_mem_nil, or_false, Prod.mk.injEq] at hz
    rcases hz with ⟨-, rfl⟩ | ⟨-, rfl⟩ <;> exact ⟨_, rfl⟩
  generalize he : [Move.arrive amidBegin, .step 0 false, .step 0 false] ++
      [.arrive amidAsk, .step 1 false, .step 1 false] = es1 at hst hmem hend hq
  let y : Arrival := (buildId 8, buildId 9, ⟨c!"POST", addr.path, none, none, body⟩)
  have hroot : AtRoot flowUrl := .inr ⟨[], rfl, by simp⟩
  have hsub : Submits (buildId 5) (.unencoded ⟨pidToken pres, some ⟨c!"xyz"⟩⟩) y.2.2 :=
    ⟨rfl, (C82_addresses ha (toyServer app) (buildId 5) (buildId 5) y.2.2 rfl []).1 hroot, hl, hc⟩
  obtain ⟨rep1, h1, h2, -⟩ := C107_alone (toyServer app) y (run (toyServer app) (begin []) es1) 2 (Nat.le_refl _)
  obtain ⟨rep2, g1, g2, -⟩ := C107_alone (toyServer app) toyPoll
    (run (toyServer app) (run (toyServer app) (begin []) es1) (.arrive y :: List.replicate 2 (.step 2 false))) 2
    (Nat.le_refl _)
  rw [hst] at h1 h2
  have h2' : (run (toyServer app) (run (toyServer app) (begin []) es1) (.arrive y :: List.replicate 2 (.step 2 false))).tasks
    = [(amidBegin, .done rep0), (amidAsk, .done ⟨200, .jwt jwt⟩)] ++ [(y, .done rep1)] := h2
  rw [h2'] at g1 g2
  have hd : DrawnOnce [] (es1 ++ .arrive y :: (List.replicate 2 (.step 2 false) ++
      .arrive toyPoll :: List.replicate 2 (.step 3 false))) (buildId 5) := by
    subst he
    have hy : ¬ (Begins y.2.2 ∧ y.1 = buildId 5) := fun h => absurd (show buildId 8 = buildId 5 from h.2) (by decide)
    simp only [DrawnOnce, List.cons_append, List.nil_append, arrivals, List.replicate, List.countP_cons, List.countP_nil]
    rw [if_neg (c := decide (Begins y.2.2 ∧ y.1 = buildId 5) = true) (by simpa using hy)]
    decide
  have hn : ∀ z r, Arrives (es1 ++ (List.replicate 2 (.step 2 false) ++
      .arrive toyPoll :: List.replicate 2 (.step 3 false))) z → ¬ Submits (buildId 5) r z.2.2 := by
    subst he
    intro z r hz h
    have : z = amidBegin ∨ z = amidAsk ∨ z = toyPoll := by simpa [Arrives] using hz
    rcases this with rfl | rfl | rfl
    · obtain ⟨-, ⟨seg, t, ⟨h, -⟩, -⟩, -⟩ := h
      simp [amidBegin] at h
    · exact absurd h.1 (by decide)
    · exact absurd h.1 (by decide)
  obtain ⟨k1, k2⟩ := hend hl hq y _ ⟨rfl, rfl, rfl⟩ hd hn
  have hy1 : (run (toyServer app) (begin []) (es1 ++ .arrive y :: List.replicate 2 (.step 2 false))).tasks =
      [(amidBegin, .done rep0), (amidAsk, .done ⟨200, .jwt jwt⟩)] ++ [(y, .done rep1)] := by
    rw [VerifierTasks.run_append]; exact h2'
  have hz1 : (run (toyServer app) (begin []) (es1 ++ .arrive y :: (List.replicate 2 (.step 2 false) ++
      .arrive toyPoll :: List.replicate 2 (.step 3 false)))).tasks =
      [(amidBegin, .done rep0), (amidAsk, .done ⟨200, .jwt jwt⟩)] ++ [(y, .done rep1)] ++ [(toyPoll, .done rep2)] := by
    rw [VerifierTasks.run_append, ← List.cons_append, VerifierTasks.run_append]; exact g2
  have hgr : rep1.status = 200 := by
    rcases k1 rep1 (by rw [hz1]; simp) with e | ⟨⟨i, hi⟩, -⟩
    · rw [e]
    · subst he
      simp [List.replicate] at hi
  rcases k2 _ _ rfl ⟨rep1, by rw [hy1]; simp, hgr⟩ toyPoll rep2 rfl toyPolls
    (by subst he; simp [Arrives, toyPoll, amidAsk, amidBegin]) (by rw [hz1]; simp) with ⟨doc, e1, e2⟩ | ⟨⟨i, hi⟩, -⟩
  · exact ⟨y, _, rep2, doc, ⟨rfl, rfl, rfl⟩, by rw [hz1]; simp, e1, e2⟩
  · subst he
    simp [List.replicate] at hi

/-- The hypotheses with encryption are met. -/
example (ord : MapOrder) : ∃ app es1 jwt addr body jwe,
    Started cachePki [] (cacheDraw 9) true flowKey flowUrl true c!"a.b" app ∧
    (amidAsk, .done ⟨200, .jwt jwt⟩) ∈ (run (toyServer app) (begin []) es1).tasks ∧
    posts ((flowWallet jwt).process ord (flowParams (buildId 5))).1 = [⟨c!"POST", Url.print addr,
      [(c!"content-type", c!"application/x-www-form-urlencoded")], body⟩] ∧ Carries body (.jwt jwe) := by
  obtain ⟨app, hs⟩ := flowStarted true
  obtain ⟨jwt, rep0, hst⟩ := amidStart app hs
  obtain ⟨b, n, pres, addr, body, jwe, -, -, -, -, -, -, hp, hc, -⟩ := C109_encrypted (srv := toyServer app) hs
    (.inr ⟨[], rfl, by simp⟩) [] _ (buildId 5) amidAsk jwt rfl amidAsksAt (by rw [hst]; simp) (flowReady jwt)
    (flowKeyWorks jwt) (amidGiven jwt) ord
  exact ⟨app, _, jwt, addr, body, jwe, hs, by rw [hst]; simp, hp, hc⟩

end Oid4vp
