import Mathlib.Data.List.Induction
import Verif.Spec.VerifierTasks
import Verif.Props.VerifierHttp
/-!
# C107: the example verifier with several requests at once
-/

set_option autoImplicit false

namespace Oid4vp
open Spec VerifierTasks
open WalletApp (Call)
open VerifierHttp (Server Reply Body Route routeOf sessionOf maxBody initiateBody failure badId health serve)

namespace VerifierTasks

/-! ## Beginning -/

/-- What is known about a request whose handler begins at a point. -/
def Begun (srv : Server) (c : Call) : Point → Prop
  | .create n => Begins c ∧ c.contentType.any srv.isJson = true ∧ ¬ maxBody < c.body.length ∧
      initiateBody c.body = .ok n
  | .fetch u => (c.method = c!"GET" ∨ c.method = c!"HEAD") ∧ ∃ seg t, routeOf c.path = some (.request seg) ∧
      sessionOf seg = some t ∧ Uuid.parse t = some u
  | .poll u => (c.method = c!"GET" ∨ c.method = c!"HEAD") ∧ ∃ seg t, routeOf c.path = some (.status seg) ∧
      sessionOf seg = some t ∧ Uuid.parse t = some u
  | .lookUp u r => c.method = c!"POST" ∧ ∃ seg t b, routeOf c.path = some (.response seg) ∧
      sessionOf seg = some t ∧ Uuid.parse t = some u ∧ ¬ maxBody < c.body.length ∧ utf8Dec c.body = some b ∧
      AuthorizationResponse.ofForm c.body = .ok r
  | .fetchGot .. => False
  | .record .. => False
  | .done rep => ∀ id drawn σ, serve srv id drawn c σ = (σ, sent (id, drawn, c) rep)

theorem onGet_head {c : Call} (id drawn : Uuid) (hh : c.method = c!"HEAD") (σ : Store) (x : Store × Reply) :
    VerifierHttp.onGet c.method σ x = (x.1, sent (id, drawn, c) x.2) := by
  rw [VerifierHttp.onGet, if_neg (by rw [hh]; decide), if_pos hh, sent, if_pos hh]

theorem onGet_get {c : Call} (id drawn : Uuid) (hh : c.method = c!"GET") (σ : Store) (x : Store × Reply) :
    VerifierHttp.onGet c.method σ x = (x.1, sent (id, drawn, c) x.2) := by
  rw [VerifierHttp.onGet, if_pos hh, sent, if_neg (by simp only [hh]; decide)]

theorem onGet_sent {c : Call} (id drawn : Uuid) (hh : c.method = c!"GET" ∨ c.method = c!"HEAD") (σ : Store)
    (x : Store × Reply) : VerifierHttp.onGet c.method σ x = (x.1, sent (id, drawn, c) x.2) :=
  hh.elim (fun h => onGet_get id drawn h σ x) fun h => onGet_head id drawn h σ x

theorem sent_post {c : Call} (id drawn : Uuid) (h : c.method = c!"POST") (rep : Reply) :
    sent (id, drawn, c) rep = rep := by
  rw [sent, if_neg (by simp only [h]; decide)]

theorem sent_none (x : Arrival) (n : Nat) : sent x ⟨n, .none⟩ = ⟨n, .none⟩ := by
  unfold sent; split <;> rfl

theorem enter_begun (srv : Server) (c : Call) : Begun srv c (enter srv c) := by
  unfold enter
  by_cases ho : c.method = c!"OPTIONS"
  · rw [if_pos ho]
    intro id drawn σ
    rw [serve, if_pos ho, sent_none]
  rw [if_neg ho]
  have no : ∀ {r : Route} {rep : Reply}, routeOf c.path = some r →
      (∀ id drawn σ, (match r with
        | .initiate => if c.method = c!"POST" then VerifierHttp.initiate srv id drawn c σ else (σ, ⟨405, .none⟩)
        | .request seg => VerifierHttp.onGet c.method σ (VerifierHttp.fetch srv c seg σ)
        | .response seg => if c.method = c!"POST" then VerifierHttp.respond srv c seg σ else (σ, ⟨405, .none⟩)
        | .status seg => VerifierHttp.onGet c.method σ (σ, VerifierHttp.status srv c seg σ)
        | .health => VerifierHttp.onGet c.method σ (σ, health)) = (σ, sent (id, drawn, c) rep)) →
      Begun srv c (.done rep) := by
    intro r rep hr h id drawn σ
    rw [serve, if_neg ho, hr, ← h]
    cases r <;> rfl
  have not405 : ∀ (σ : Store) (x : Store × Reply), ¬ (c.method = c!"GET" ∨ c.method = c!"HEAD") →
      VerifierHttp.onGet c.method σ x = (σ, ⟨405, .none⟩) := by
    intro σ x h
    rw [VerifierHttp.onGet, if_neg fun h' => h (.inl h'), if_neg fun h' => h (.inr h')]
  cases hr : routeOf c.path with
  | none =>
    intro id drawn σ
    rw [serve, if_neg ho, hr, sent_none]
  | some r =>
    cases r with
    | initiate =>
      dsimp only
      by_cases hp : c.method = c!"POST"
      · rw [if_pos hp]
        by_cases hj : c.contentType.any srv.isJson = true
        · rw [if_pos hj]
          by_cases hl : maxBody < c.body.length
          · rw [if_pos hl]
            refine no hr fun id drawn σ => ?_
            dsimp only
            rw [if_pos hp, VerifierHttp.initiate, if_pos hj, if_pos hl, sent_none]
          rw [if_neg hl]
          cases hi : initiateBody c.body with
          | error e =>
            refine no hr fun id drawn σ => ?_
            dsimp only
            rw [if_pos hp, VerifierHttp.initiate, if_pos hj, if_neg hl, hi, sent_none]
          | ok n => exact ⟨⟨hp, path_initiate.2 hr⟩, hj, hl, hi⟩
        · rw [if_neg hj]
          refine no hr fun id drawn σ => ?_
          dsimp only
          rw [if_pos hp, VerifierHttp.initiate, if_neg hj, sent_none]
      · rw [if_neg hp]
        refine no hr fun id drawn σ => ?_
        dsimp only
        rw [if_neg hp, sent_none]
    | request seg =>
      dsimp only
      by_cases hg : c.method = c!"GET" ∨ c.method = c!"HEAD"
      · rw [if_pos hg]
        cases hs : sessionOf seg with
        | none =>
          refine no hr fun id drawn σ => ?_
          dsimp only
          rw [onGet_sent id drawn hg, VerifierHttp.fetch, hs]
        | some t =>
          dsimp only
          cases hp : Uuid.parse t with
          | none =>
            refine no hr fun id drawn σ => ?_
            dsimp only
            rw [onGet_sent id drawn hg, VerifierHttp.fetch, hs]
            simp only [Example.getRequest, hp]
          | some u => exact ⟨hg, seg, t, hr, hs, hp⟩
      · rw [if_neg hg]
        exact no hr fun id drawn σ => by rw [sent_none]; exact not405 _ _ hg
    | response seg =>
      dsimp only
      by_cases hm : c.method = c!"POST"
      · rw [if_pos hm]
        cases hs : sessionOf seg with
        | none =>
          refine no hr fun id drawn σ => ?_
          dsimp only
          rw [if_pos hm, VerifierHttp.respond, hs, sent_none]
        | some t =>
          dsimp only
          by_cases hl : maxBody < c.body.length
          · rw [if_pos hl]
            refine no hr fun id drawn σ => ?_
            dsimp only
            rw [if_pos hm, VerifierHttp.respond, hs]
            dsimp only
            rw [if_pos hl, sent_none]
          rw [if_neg hl]
          cases hd : utf8Dec c.body with
          | none =>
            refine no hr fun id drawn σ => ?_
            dsimp only
            rw [if_pos hm, VerifierHttp.respond, hs]
            dsimp only
            rw [if_neg hl, hd, sent_none]
          | some b =>
            dsimp only
            cases hp : Uuid.parse t with
            | none =>
              refine no hr fun id drawn σ => ?_
              dsimp only
              rw [if_pos hm, VerifierHttp.respond, hs]
              dsimp only
              rw [if_neg hl, hd, sent_post _ _ hm]
              simp only [VerifierApp.receive, Example.postResponse, hd, hp]
            | some u =>
              dsimp only
              cases hf : AuthorizationResponse.ofForm c.body with
              | error e =>
                refine no hr fun id drawn σ => ?_
                dsimp only
                rw [if_pos hm, VerifierHttp.respond, hs]
                dsimp only
                rw [if_neg hl, hd, sent_post _ _ hm]
                simp only [VerifierApp.receive, Example.postResponse, hd, hp, hf]
              | ok r => exact ⟨hm, seg, t, b, hr, hs, hp, hl, hd, hf⟩
      · rw [if_neg hm]
        refine no hr fun id drawn σ => ?_
        dsimp only
        rw [if_neg hm, sent_none]
    | status seg =>
      dsimp only
      by_cases hg : c.method = c!"GET" ∨ c.method = c!"HEAD"
      · rw [if_pos hg]
        cases hs : sessionOf seg with
        | none =>
          refine no hr fun id drawn σ => ?_
          dsimp only
          rw [onGet_sent id drawn hg, VerifierHttp.status, hs]
        | some t =>
          dsimp only
          cases hp : Uuid.parse t with
          | none =>
            refine no hr fun id drawn σ => ?_
            dsimp only
            rw [onGet_sent id drawn hg, VerifierHttp.status, hs]
            simp only [VerifierApp.status, Example.getStatus, hp, Option.map_none]
          | some u => exact ⟨hg, seg, t, hr, hs, hp⟩
      · rw [if_neg hg]
        exact no hr fun id drawn σ => by rw [sent_none]; exact not405 _ _ hg
    | health =>
      dsimp only
      by_cases hg : c.method = c!"GET" ∨ c.method = c!"HEAD"
      · rw [if_pos hg]
        exact no hr fun id drawn σ => by dsimp only; rw [onGet_sent id drawn hg]
      · rw [if_neg hg]
        exact no hr fun id drawn σ => by rw [sent_none]; exact not405 _ _ hg

theorem enter_of {srv : Server} {c : Call} {p : Point} (h : enter srv c = p) : Begun srv c p := h ▸ enter_begun srv c

/-! ## The server alone, by where the handler begins -/

theorem serve_done {srv : Server} {x : Arrival} {rep : Reply} (h : enter srv x.2.2 = .done rep) (σ : Store) :
    serve srv x.1 x.2.1 x.2.2 σ = (σ, sent x rep) := enter_of h x.1 x.2.1 σ

theorem serve_create {srv : Server} {x : Arrival} {n : Option Str} (h : enter srv x.2.2 = .create n) (σ : Store) :
    serve srv x.1 x.2.1 x.2.2 σ = create srv false x n σ := by
  obtain ⟨id, drawn, c⟩ := x
  obtain ⟨hb, hj, hl, hi⟩ := enter_of h
  dsimp only at hb hj hl hi ⊢
  rw [serve, if_neg (by rw [hb.1]; decide), path_initiate.1 hb.2]
  dsimp only
  rw [if_pos hb.1, VerifierHttp.initiate, if_pos hj, if_neg hl, hi]
  dsimp only
  unfold VerifierApp.initiate create
  dsimp only
  rw [RequestBuilder.buildWithSessionId]
  cases RequestBuilder.construct srv.app.verifier
      (((RequestBuilder.new srv.app.verifier).withDcqlQuery VerifierApp.pidQuery).withRequestParameter
        (Nonce.mk (unwrapOr drawn.print n))) id srv.app.walletMetadata with
  | error e => rfl
  | ok y => rfl

theorem serve_fetch {srv : Server} {x : Arrival} {u : Uuid} (h : enter srv x.2.2 = .fetch u) (σ : Store) :
    serve srv x.1 x.2.1 x.2.2 σ = match σ.get u with
      | none => (σ, sent x (failure 404 (c!"Session not found: " ++ srv.detail x.2.2)))
      | some s => (if s.status.lt .sentRequest then σ.insert u { s with status := .sentRequest } else σ,
          sent x ⟨200, .jwt s.jwt⟩) := by
  obtain ⟨id, drawn, c⟩ := x
  obtain ⟨hm, seg, t, hr, hs, hp⟩ := enter_of h
  dsimp only at hm hr hs hp ⊢
  rw [serve, if_neg (by rintro h; rw [h] at hm; revert hm; decide), hr]
  dsimp only
  rw [onGet_sent id drawn hm, VerifierHttp.fetch, hs]
  simp only [Example.getRequest, hp, retrieve, Store.getSession, Store.updateStatus, Bool.false_eq_true, if_false]
  cases hg : σ.get u with
  | none => rfl
  | some s =>
    dsimp only
    by_cases hl : s.status.lt .sentRequest = true
    · simp only [if_pos hl]
    · simp only [if_neg hl]

theorem serve_poll {srv : Server} {x : Arrival} {u : Uuid} (h : enter srv x.2.2 = .poll u) (σ : Store) :
    serve srv x.1 x.2.1 x.2.2 σ = (σ, sent x (match σ.get u with
      | none => failure 404 (c!"Session not found: " ++ srv.detail x.2.2)
      | some s => ⟨200, .json (VerifierApp.statusJson s.status)⟩)) := by
  obtain ⟨id, drawn, c⟩ := x
  obtain ⟨hm, seg, t, hr, hs, hp⟩ := enter_of h
  dsimp only at hm hr hs hp ⊢
  rw [serve, if_neg (by rintro h; rw [h] at hm; revert hm; decide), hr]
  dsimp only
  rw [onGet_sent id drawn hm, VerifierHttp.status, hs]
  simp only [VerifierApp.status, Example.getStatus, hp, pollStatus, Store.getSession, Bool.false_eq_true, if_false]
  cases hg : σ.get u with
  | none => rfl
  | some s => rfl

theorem serve_lookUp {srv : Server} {x : Arrival} {u : Uuid} {r : AuthorizationResponse}
    (h : enter srv x.2.2 = .lookUp u r) (σ : Store) :
    serve srv x.1 x.2.1 x.2.2 σ = match σ.get u with
      | none => (σ, failure 500 (c!"Verification failed: " ++ srv.detail x.2.2))
      | some s => (σ.insert u { s with status := .complete (VerifierApp.validator srv.app.decrypt s r) },
          ⟨200, .json (.obj [])⟩) := by
  obtain ⟨id, drawn, c⟩ := x
  obtain ⟨hm, seg, t, b, hr, hs, hp, hl, hd, hf⟩ := enter_of h
  dsimp only at hm hr hs hp hl hd hf ⊢
  rw [serve, if_neg (by rw [hm]; decide), hr]
  dsimp only
  rw [if_pos hm, VerifierHttp.respond, hs]
  dsimp only
  rw [if_neg hl, hd]
  simp only [VerifierApp.receive, Example.postResponse, hd, hp, hf, verifyResponse, Store.getSession,
    Store.updateStatus, Bool.false_eq_true, if_false]
  cases hg : σ.get u with
  | none => rfl
  | some s => rfl

theorem enter_asks {srv : Server} {c : Call} {u : Uuid} : enter srv c = .fetch u ↔ Asks u c := by
  constructor
  · intro h
    obtain ⟨hm, seg, t, hr, hs, hp⟩ := enter_of h
    exact ⟨by simpa using hm, seg, t, under_request.2 hr, sessionOf_iff.1 hs, Uuid.parse_iff.1 hp⟩
  · rintro ⟨hm, seg, t, hr, hs, hp⟩
    have hm' : c.method = c!"GET" ∨ c.method = c!"HEAD" := by simpa using hm
    rw [enter, if_neg (by rintro h; rw [h] at hm'; revert hm'; decide), under_request.1 hr]
    simp only [if_pos hm', sessionOf_iff.2 hs, Uuid.parse_iff.2 hp]

theorem enter_polls {srv : Server} {c : Call} {u : Uuid} : enter srv c = .poll u ↔ Polls u c := by
  constructor
  · intro h
    obtain ⟨hm, seg, t, hr, hs, hp⟩ := enter_of h
    exact ⟨by simpa using hm, seg, t, under_status.2 hr, sessionOf_iff.1 hs, Uuid.parse_iff.1 hp⟩
  · rintro ⟨hm, seg, t, hr, hs, hp⟩
    have hm' : c.method = c!"GET" ∨ c.method = c!"HEAD" := by simpa using hm
    rw [enter, if_neg (by rintro h; rw [h] at hm'; revert hm'; decide), under_status.1 hr]
    simp only [if_pos hm', sessionOf_iff.2 hs, Uuid.parse_iff.2 hp]

theorem enter_submits {srv : Server} {c : Call} {u : Uuid} {r : AuthorizationResponse} :
    enter srv c = .lookUp u r ↔ Submits u r c := by
  constructor
  · intro h
    obtain ⟨hm, seg, t, b, hr, hs, hp, hl, hd, hf⟩ := enter_of h
    exact ⟨hm, ⟨seg, t, under_response.2 hr, sessionOf_iff.1 hs, Uuid.parse_iff.1 hp⟩, Nat.le_of_not_lt hl,
      ⟨b, utf8Dec_eq_some.1 hd⟩, hf⟩
  · rintro ⟨hm, ⟨seg, t, hr, hs, hp⟩, hl, ⟨b, hd⟩, hf⟩
    rw [enter, if_neg (by rw [hm]; decide), under_response.1 hr]
    simp only [if_pos hm, sessionOf_iff.2 hs, Uuid.parse_iff.2 hp]
    rw [if_neg (show ¬ maxBody < c.body.length from Nat.not_lt.2 hl), show utf8Dec c.body = some b by rw [hd, utf8Dec_utf8]]
    simp only [hf]

/-! ## Alone -/

/-- A handler that is not interrupted. -/
def lane (srv : Server) (x : Arrival) : Nat → Store → Point → Store × Point
  | 0, σ, p => (σ, p)
  | n + 1, σ, p => lane srv x n (step srv false x σ p).1 (step srv false x σ p).2

theorem lane_done (srv : Server) (x : Arrival) (n : Nat) (σ : Store) (rep : Reply) :
    lane srv x n σ (.done rep) = (σ, .done rep) := by
  induction n with
  | zero => rfl
  | succ n ih => exact ih

theorem lane_add (srv : Server) (x : Arrival) (a : Nat) : ∀ (b : Nat) (σ : Store) (p : Point),
    lane srv x (a + b) σ p = lane srv x b (lane srv x a σ p).1 (lane srv x a σ p).2 := by
  induction a with
  | zero => intro b σ p; rw [Nat.zero_add]; rfl
  | succ a ih => intro b σ p; rw [Nat.succ_add]; exact ih b _ _

theorem run_lane (srv : Server) (x : Arrival) (n : Nat) : ∀ (σ : Store) (p : Point) (ts : List (Arrival × Point)),
    run srv ⟨σ, ts ++ [(x, p)]⟩ (List.replicate n (.step ts.length false)) =
      ⟨(lane srv x n σ p).1, ts ++ [(x, (lane srv x n σ p).2)]⟩ := by
  induction n with
  | zero => intro σ p ts; rfl
  | succ n ih =>
    intro σ p ts
    have e : next srv ⟨σ, ts ++ [(x, p)]⟩ (.step ts.length false) =
        ⟨(step srv false x σ p).1, ts ++ [(x, (step srv false x σ p).2)]⟩ := by
      rw [next]
      simp only [List.getElem?_append_right (Nat.le_refl _), Nat.sub_self, List.getElem?_cons_zero]
      simp
    rw [List.replicate_succ, run, List.foldl_cons, e]
    exact ih _ _ ts

theorem lane_alone (srv : Server) (x : Arrival) (σ : Store) :
    ∃ rep, lane srv x 2 σ (enter srv x.2.2) = ((serve srv x.1 x.2.1 x.2.2 σ).1, .done rep) ∧
      sent x rep = (serve srv x.1 x.2.1 x.2.2 σ).2 := by
  cases he : enter srv x.2.2 with
  | done rep =>
    rw [serve_done he, lane_done]
    exact ⟨_, rfl, rfl⟩
  | create n =>
    rw [serve_create he]
    obtain ⟨hb, -⟩ := enter_of he
    exact ⟨_, rfl, by obtain ⟨id, drawn, c⟩ := x; exact sent_post id drawn hb.1 _⟩
  | fetch u =>
    rw [serve_fetch he]
    cases hg : σ.get u with
    | none =>
      refine ⟨_, ?_, rfl⟩
      simp [lane, step, Store.getSession, hg, textOf]
    | some s =>
      refine ⟨⟨200, .jwt s.jwt⟩, ?_, rfl⟩
      by_cases hl : s.status.lt .sentRequest = true
      · simp [lane, step, Store.getSession, hg, hl, Store.updateStatus]
      · simp [lane, step, Store.getSession, hg, hl]
  | poll u =>
    rw [serve_poll he]
    refine ⟨_, ?_, rfl⟩
    cases hg : σ.get u with
    | none => simp [lane, step, Store.getSession, hg, textOf]
    | some s => simp [lane, step, Store.getSession, hg]
  | lookUp u r =>
    rw [serve_lookUp he]
    obtain ⟨hm, -⟩ := enter_of he
    have hs : ∀ rep, sent x rep = rep := fun rep => by obtain ⟨id, drawn, c⟩ := x; exact sent_post id drawn hm _
    cases hg : σ.get u with
    | none => exact ⟨_, by simp [lane, step, Store.getSession, hg, textOf], hs _⟩
    | some s => exact ⟨_, by simp [lane, step, Store.getSession, hg, Store.updateStatus], hs _⟩
  | fetchGot u s => exact (enter_of he).elim
  | record u o => exact (enter_of he).elim

end VerifierTasks

/-- **C107** A request whose handler is not interrupted and finds the session store free is handled as in C82:
after at most two steps its handler is done, with the answer and the sessions of `VerifierHttp.serve`. -/
theorem C107_alone (srv : Server) (x : Arrival) (w : Running) (n : Nat) (hn : 2 ≤ n) :
    ∃ rep, VerifierServes srv x.1 x.2.1 x.2.2 w.store
        (run srv w (.arrive x :: List.replicate n (.step w.tasks.length false))).store (sent x rep) ∧
      (run srv w (.arrive x :: List.replicate n (.step w.tasks.length false))).tasks = w.tasks ++ [(x, .done rep)] ∧
      (run srv w (.arrive x :: List.replicate n (.step w.tasks.length false))).store =
        (serve srv x.1 x.2.1 x.2.2 w.store).1 := by
  obtain ⟨rep, h1, h2⟩ := lane_alone srv x w.store
  obtain ⟨m, rfl⟩ := Nat.le.dest hn
  have e : run srv w (.arrive x :: List.replicate (2 + m) (.step w.tasks.length false)) =
      ⟨(serve srv x.1 x.2.1 x.2.2 w.store).1, w.tasks ++ [(x, .done rep)]⟩ := by
    have := run_lane srv x (2 + m) w.store (enter srv x.2.2) w.tasks
    rw [lane_add, h1, lane_done] at this
    exact this
  refine ⟨rep, ?_, by rw [e], by rw [e]⟩
  rw [e, h2]
  exact serve_spec ..

/-- **C107** Requests handled one after the other, each without interruption: the run of C82, and what is sent
for each. -/
theorem C107_serial (srv : Server) (n : Nat) (hn : 2 ≤ n) (σ : Store) (xs : List Arrival) :
    (run srv (begin σ) (Serially n 0 xs)).store = VerifierHttp.run srv σ xs ∧
    ∃ log, InTurn srv σ log (VerifierHttp.run srv σ xs) ∧ log.map Prod.fst = xs ∧
      List.Forall₂ (fun t y => ∃ rep, t = (y.1, .done rep) ∧ sent y.1 rep = y.2)
        (run srv (begin σ) (Serially n 0 xs)).tasks log := by
  have key : ∀ (xs : List Arrival) (w : Running),
      (run srv w (Serially n w.tasks.length xs)).store = VerifierHttp.run srv w.store xs ∧
      ∃ log ts, InTurn srv w.store log (VerifierHttp.run srv w.store xs) ∧ log.map Prod.fst = xs ∧
        (run srv w (Serially n w.tasks.length xs)).tasks = w.tasks ++ ts ∧
        List.Forall₂ (fun t y => ∃ rep, t = (y.1, .done rep) ∧ sent y.1 rep = y.2) ts log := by
    intro xs
    induction xs with
    | nil => intro w; exact ⟨rfl, [], [], .nil (unchanged_refl _), rfl, (List.append_nil _).symm, .nil⟩
    | cons x xs ih =>
      intro w
      obtain ⟨rep, h1, h2, h3⟩ := C107_alone srv x w n hn
      have e : run srv w (Serially n w.tasks.length (x :: xs)) =
          run srv (run srv w (.arrive x :: List.replicate n (.step w.tasks.length false)))
            (Serially n (w.tasks.length + 1) xs) := by
        simp only [Serially, run, ← List.foldl_append, List.cons_append]
      generalize run srv w (.arrive x :: List.replicate n (.step w.tasks.length false)) = w' at *
      have hl : w'.tasks.length = w.tasks.length + 1 := by rw [h2]; simp
      obtain ⟨i1, log, ts, i2, i3, i4, i5⟩ := ih w'
      rw [hl] at i1 i4
      have er : VerifierHttp.run srv w.store (x :: xs) = VerifierHttp.run srv w'.store xs := by rw [h3]; rfl
      rw [e, er]
      exact ⟨i1, (x, sent x rep) :: log, (x, .done rep) :: ts, .cons h1 i2, by rw [List.map_cons, i3],
        by rw [i4, h2, List.append_assoc]; rfl, .cons ⟨rep, rfl, rfl⟩ i5⟩
  obtain ⟨h1, log, ts, h2, h3, h4, h5⟩ := key xs (begin σ)
  refine ⟨h1, log, h2, h3, ?_⟩
  have : (run srv (begin σ) (Serially n 0 xs)).tasks = ts := h4
  rw [this]
  exact h5

/-! ## Every execution -/

namespace VerifierTasks

/-- What is known about a request whose handler has reached a point, with these sessions. -/
def Ok (srv : Server) (σ : Store) (x : Arrival) : Point → Prop
  | .fetchGot u s => Asks u x.2.2 ∧ s.status.lt .sentRequest = true ∧ σ.get u ≠ none
  | .record u o => ∃ r, Submits u r x.2.2 ∧ (∀ s, o = VerifierApp.validator srv.app.decrypt s r) ∧ σ.get u ≠ none
  | .done _ => True
  | p => enter srv x.2.2 = p

theorem enter_ok (srv : Server) (σ : Store) (x : Arrival) : Ok srv σ x (enter srv x.2.2) := by
  have := enter_begun srv x.2.2
  cases he : enter srv x.2.2 <;> rw [he] at this
  case fetchGot => exact this.elim
  case record => exact this.elim
  case done => trivial
  all_goals exact he

/-- No session is lost. -/
def Grows (σ τ : Store) : Prop := ∀ u, σ.get u ≠ none → τ.get u ≠ none

theorem Ok.grows {srv : Server} {σ τ : Store} {x : Arrival} {p : Point} (h : Ok srv σ x p) (hg : Grows σ τ) :
    Ok srv τ x p := by
  cases p with
  | fetchGot u s => exact ⟨h.1, h.2.1, hg u h.2.2⟩
  | record u o => obtain ⟨r, h1, h2, h3⟩ := h; exact ⟨r, h1, h2, hg u h3⟩
  | _ => exact h

theorem updateStatus_grows (b : Bool) (u : Uuid) (st : Status) (σ : Store) : Grows σ (σ.updateStatus b u st).1 := by
  intro v hv
  rw [updateStatus_get]
  split
  · rename_i h
    obtain ⟨rfl, -⟩ := h
    cases hg : σ.get v with
    | none => exact absurd hg hv
    | some s => simp
  · exact hv

theorem create_grows (srv : Server) (b : Bool) (x : Arrival) (n : Option Str) (σ : Store) :
    Grows σ (create srv b x n σ).1 := by
  intro v hv
  unfold create
  dsimp only
  split
  · exact hv
  · rename_i s url _
    cases b with
    | true => exact hv
    | false =>
      simp only [Store.initiate, Bool.false_eq_true, if_false, Store.get_insert]
      split
      · simp
      · exact hv

theorem step_grows (srv : Server) (b : Bool) (x : Arrival) (σ : Store) (p : Point) :
    Grows σ (step srv b x σ p).1 := by
  have refl : Grows σ σ := fun _ h => h
  cases p with
  | create n => exact create_grows srv b x n σ
  | fetch u => simp only [step]; split <;> exact refl
  | fetchGot u s =>
    have := updateStatus_grows b u .sentRequest σ
    simp only [step]
    split <;> rename_i h <;> rw [h] at this <;> exact this
  | poll u => simp only [step]; split <;> exact refl
  | lookUp u r => simp only [step]; split <;> exact refl
  | record u o =>
    have := updateStatus_grows b u (.complete o) σ
    simp only [step]
    split <;> rename_i h <;> rw [h] at this <;> exact this
  | done rep => exact refl

theorem error_doc (m : Str) (n : Nat) : ∃ doc, ErrorDoc m doc ∧ failure n m = ⟨n, .json doc⟩ :=
  ⟨_, errorDoc_iff.2 rfl, rfl⟩

theorem headOrDoc (x : Arrival) (n : Nat) (doc : Json) : ∃ body, HeadOrDoc x.2.2 doc body ∧
    sent x ⟨n, .json doc⟩ = ⟨n, body⟩ := by
  unfold sent
  by_cases h : x.2.2.method = c!"HEAD"
  · exact ⟨.none, .inl ⟨h, rfl⟩, if_pos h⟩
  · exact ⟨.json doc, .inr ⟨h, rfl⟩, if_neg h⟩

/-- The ways a step can go. -/
inductive Goes (srv : Server) (b : Bool) (x : Arrival) (σ : Store) (p : Point) : Store × Point → Prop
  /-- nothing was left to do -/
  | over {rep} : p = .done rep → Goes srv b x σ p (σ, p)
  /-- on to something else, without effect -/
  | on {p'} : (∀ rep, p' ≠ .done rep) → Goes srv b x σ p (σ, p')
  /-- the answer and the effect of the whole request -/
  | whole {σ' rep} : VerifierServes srv x.1 x.2.1 x.2.2 σ σ' (sent x rep) → Goes srv b x σ p (σ', .done rep)
  /-- the store was locked -/
  | locked {rep} : b = true → LockedOut x.2.2 (sent x rep) → Goes srv b x σ p (σ, .done rep)

theorem lt_two {st : Status} (h : st.lt .sentRequest = true) : st = .sentRequestByReference := by
  cases st with
  | sentRequestByReference => rfl
  | complete o =>
    have : ¬ Status.lt (.complete o) .sentRequest = true := by
      simp [Status.lt, Status.partialCmp, Status.variant]; decide
    exact absurd h this
  | _ => exact absurd h (by decide)

theorem locked_request {x : Arrival} {u : Uuid} (h : Asks u x.2.2) :
    LockedOut x.2.2 (sent x (failure 404 c!"Session not found: failed to retrieve session")) ∧
    LockedOut x.2.2 (sent x (failure 404 c!"Session not found: failed to update session status")) := by
  refine ⟨?_, ?_⟩
  · obtain ⟨body, h1, h2⟩ := headOrDoc x 404 (.obj [(c!"error", .str c!"Session not found: failed to retrieve session")])
    rw [VerifierHttp.failure, h2]
    exact .request h (.inl (errorDoc_iff.2 rfl)) h1
  · obtain ⟨body, h1, h2⟩ := headOrDoc x 404
      (.obj [(c!"error", .str c!"Session not found: failed to update session status")])
    rw [VerifierHttp.failure, h2]
    exact .request h (.inr (errorDoc_iff.2 rfl)) h1

theorem locked_status {x : Arrival} {u : Uuid} (h : Polls u x.2.2) :
    LockedOut x.2.2 (sent x (failure 404 c!"Session not found: operation would block")) := by
  obtain ⟨body, h1, h2⟩ := headOrDoc x 404 (.obj [(c!"error", .str c!"Session not found: operation would block")])
  rw [VerifierHttp.failure, h2]
  exact .status h (errorDoc_iff.2 rfl) h1

theorem locked_response {x : Arrival} {u : Uuid} {r : AuthorizationResponse} (h : Submits u r x.2.2) :
    LockedOut x.2.2 (sent x (failure 500 c!"Verification failed: operation would block")) := by
  have := sent_post x.1 x.2.1 h.1 (failure 500 c!"Verification failed: operation would block")
  rw [show sent x _ = _ from this, VerifierHttp.failure]
  exact .response h (errorDoc_iff.2 rfl)

theorem locked_begin {x : Arrival} (h : Begins x.2.2) :
    LockedOut x.2.2 (sent x (failure 500 c!"failed to store the session in the session store")) := by
  have := sent_post x.1 x.2.1 h.1 (failure 500 c!"failed to store the session in the session store")
  rw [show sent x _ = _ from this, VerifierHttp.failure]
  exact .begin h (errorDoc_iff.2 rfl)

theorem create_locked (srv : Server) (x : Arrival) (n : Option Str) (σ : Store) :
    create srv true x n σ = create srv false x n σ ∨
      create srv true x n σ = (σ, failure 500 c!"failed to store the session in the session store") := by
  unfold create
  dsimp only
  split
  · exact .inl rfl
  · exact .inr rfl

theorem serves_of {srv : Server} {x : Arrival} {σ σ' : Store} {rep : Reply}
    (h : serve srv x.1 x.2.1 x.2.2 σ = (σ', rep)) : VerifierServes srv x.1 x.2.1 x.2.2 σ σ' rep := by
  have := serve_spec srv x.1 x.2.1 x.2.2 σ
  rw [h] at this
  exact this

/-- Every step but that of a stale retrieval. -/
theorem step_goes {srv : Server} {b : Bool} {x : Arrival} {σ : Store} {p : Point} (h : Ok srv σ x p)
    (hst : ∀ u s, p = .fetchGot u s → b = false → σ.get u = some s ∨ σ.get u = some { s with status := .sentRequest }) :
    Goes srv b x σ p (step srv b x σ p) ∧ Ok srv (step srv b x σ p).1 x (step srv b x σ p).2 := by
  cases p with
  | done rep => exact ⟨.over rfl, trivial⟩
  | create n =>
    have hs : ∀ rep, sent x rep = rep := fun rep => sent_post x.1 x.2.1 (enter_of h).1.1 rep
    refine ⟨?_, trivial⟩
    cases b with
    | false => exact .whole (serves_of (by rw [serve_create h, hs]; rfl))
    | true =>
      rcases create_locked srv x n σ with e | e
      · simp only [step, e]
        exact .whole (serves_of (by rw [serve_create h, hs]))
      · simp only [step, e]
        exact .locked rfl (locked_begin (enter_of h).1)
  | fetch u =>
    cases b with
    | true => exact ⟨.locked rfl (locked_request (enter_asks.1 h)).1, trivial⟩
    | false =>
      simp only [step, Store.getSession, Bool.false_eq_true, if_false, textOf]
      cases hg : σ.get u with
      | none => exact ⟨.whole (serves_of (by rw [serve_fetch h, hg])), trivial⟩
      | some s =>
        dsimp only
        by_cases hl : s.status.lt .sentRequest = true
        · rw [if_pos hl]
          exact ⟨.on (by rintro rep ⟨⟩), enter_asks.1 h, hl, by rw [hg]; rintro ⟨⟩⟩
        · rw [if_neg hl]
          exact ⟨.whole (serves_of (by rw [serve_fetch h, hg]; dsimp only; rw [if_neg hl])), trivial⟩
  | fetchGot u s =>
    obtain ⟨ha, hl, hn⟩ := h
    have he := (enter_asks (srv := srv)).2 ha
    cases b with
    | true => exact ⟨.locked rfl (locked_request ha).2, trivial⟩
    | false =>
      have h1 := hst u s rfl rfl
      rcases h1 with h1 | h1
      · simp only [step, Store.updateStatus, h1, Bool.false_eq_true, if_false]
        exact ⟨.whole (serves_of (by rw [serve_fetch he, h1]; dsimp only; rw [if_pos hl])), trivial⟩
      · simp only [step, Store.updateStatus, h1, Bool.false_eq_true, if_false]
        refine ⟨.whole ((C82_served ..).1 ⟨?_, ?_⟩), trivial⟩
        · rw [serve_fetch he, h1]
        · rw [serve_fetch he, h1]
          intro v
          dsimp only
          rw [if_neg (by decide), Store.get_insert]
          split
          · rename_i e; rw [e, h1]
          · rfl
  | poll u =>
    cases b with
    | true => exact ⟨.locked rfl (locked_status (enter_polls.1 h)), trivial⟩
    | false =>
      simp only [step, Store.getSession, Bool.false_eq_true, if_false, textOf]
      cases hg : σ.get u with
      | none => exact ⟨.whole (serves_of (by rw [serve_poll h, hg])), trivial⟩
      | some s => exact ⟨.whole (serves_of (by rw [serve_poll h, hg])), trivial⟩
  | lookUp u r =>
    have hs := enter_submits.1 h
    have hp : ∀ rep, sent x rep = rep := fun rep => sent_post x.1 x.2.1 hs.1 rep
    cases b with
    | true => exact ⟨.locked rfl (locked_response hs), trivial⟩
    | false =>
      simp only [step, Store.getSession, Bool.false_eq_true, if_false, textOf]
      cases hg : σ.get u with
      | none => exact ⟨.whole (serves_of (by rw [serve_lookUp h, hg, hp])), trivial⟩
      | some s =>
        refine ⟨.on (by rintro rep ⟨⟩), r, hs, fun s' => ?_, by rw [hg]; rintro ⟨⟩⟩
        cases r <;> rfl
  | record u o =>
    obtain ⟨r, hs, ho, hn⟩ := h
    have hp : ∀ rep, sent x rep = rep := fun rep => sent_post x.1 x.2.1 hs.1 rep
    cases b with
    | true => exact ⟨.locked rfl (locked_response hs), trivial⟩
    | false =>
      cases hg : σ.get u with
      | none => exact absurd hg hn
      | some s =>
        simp only [step, Store.updateStatus, hg, Bool.false_eq_true, if_false]
        exact ⟨.whole (serves_of (by rw [serve_lookUp (enter_submits.2 hs), hg, hp, ho s])), trivial⟩

/-- What is known while the server runs. -/
def Inv (srv : Server) (w : Running) : Prop := ∀ t ∈ w.tasks, Ok srv w.store t.1 t.2

theorem begin_inv (srv : Server) (σ : Store) : Inv srv (begin σ) := by
  intro t ht; simp [begin] at ht

/-- Whatever the step, also a stale one. -/
theorem step_keeps_ok {srv : Server} {b : Bool} {x : Arrival} {σ : Store} {p : Point} (h : Ok srv σ x p) :
    Ok srv (step srv b x σ p).1 x (step srv b x σ p).2 := by
  by_cases hf : ∃ u s, p = .fetchGot u s
  · obtain ⟨u, s, rfl⟩ := hf
    simp only [step]
    split <;> trivial
  · exact (step_goes h fun u s e => absurd ⟨u, s, e⟩ hf).2

theorem next_inv {srv : Server} {w : Running} (h : Inv srv w) (e : Move) : Inv srv (next srv w e) := by
  cases e with
  | arrive x =>
    intro t ht
    rcases List.mem_append.1 ht with ht | ht
    · exact h t ht
    · cases List.mem_singleton.1 ht
      exact enter_ok srv _ x
  | step i b =>
    simp only [next]
    cases hi : w.tasks[i]? with
    | none => exact h
    | some y =>
      obtain ⟨x, p⟩ := y
      have hm : (x, p) ∈ w.tasks := List.mem_of_getElem? hi
      intro t ht
      rcases List.mem_or_eq_of_mem_set ht with ht | rfl
      · exact (h t ht).grows (step_grows srv b x w.store p)
      · exact step_keeps_ok (h _ hm)
  | abandon i => exact fun t ht => h t (List.mem_of_mem_eraseIdx ht)

/-! ## The sequence that explains an execution -/

/-- A retrieval writes its mark too late. -/
def Stale (srv : Server) (w : Running) (es : List Move) : Prop :=
  ∃ es1 i es2 x u s, es = es1 ++ .step i false :: es2 ∧ (run srv w es1).tasks[i]? = some (x, .fetchGot u s) ∧
    (run srv w es1).store.get u ≠ some s ∧ (run srv w es1).store.get u ≠ some { s with status := .sentRequest }

theorem Stale.tail {srv : Server} {w : Running} {e : Move} {es : List Move} (h : Stale srv (next srv w e) es) :
    Stale srv w (e :: es) := by
  obtain ⟨es1, i, es2, x, u, s, rfl, h⟩ := h
  exact ⟨e :: es1, i, es2, x, u, s, rfl, h⟩

open Classical in
/-- What is answered at this moment as a whole. -/
noncomputable def entry (srv : Server) (w : Running) : Move → List (Arrival × Reply)
  | .arrive x => match enter srv x.2.2 with
    | .done rep => [(x, sent x rep)]
    | _ => []
  | .step i b => match w.tasks[i]? with
    | none => []
    | some (_, .done _) => []
    | some (x, p) => match step srv b x w.store p with
      | (σ, .done rep) =>
        if VerifierServes srv x.1 x.2.1 x.2.2 w.store σ (sent x rep) then [(x, sent x rep)] else []
      | _ => []
  | .abandon _ => []

/-- What is answered during an execution. -/
noncomputable def logOf (srv : Server) (w : Running) : List Move → List (Arrival × Reply)
  | [] => []
  | e :: es => entry srv w e ++ logOf srv (next srv w e) es

theorem logOf_append (srv : Server) (es es' : List Move) : ∀ w : Running,
    logOf srv w (es ++ es') = logOf srv w es ++ logOf srv (run srv w es) es' := by
  induction es with
  | nil => intro w; rfl
  | cons e es ih =>
    intro w
    show entry srv w e ++ logOf srv (next srv w e) (es ++ es') = _
    rw [ih, ← List.append_assoc]
    rfl

/-- Whether a handler has not finished. -/
def open? : Point → Bool
  | .done _ => false
  | _ => true

/-- How many handlers of this request have not finished. -/
def openFor (w : Running) (x : Arrival) : Nat := w.tasks.countP fun t => t.1 == x && open? t.2

/-- How a move relates to the sequence. -/
structure Explained (srv : Server) (w : Running) (e : Move) : Prop where
  turn : (entry srv w e = [] ∧ (next srv w e).store = w.store) ∨
    ∃ x rep, entry srv w e = [(x, rep)] ∧ VerifierServes srv x.1 x.2.1 x.2.2 w.store (next srv w e).store rep
  count : ∀ x, ((entry srv w e).map Prod.fst).count x + openFor (next srv w e) x ≤
    (arrivals [e]).count x + openFor w x
  answered : ∀ x rep, (x, Point.done rep) ∈ (next srv w e).tasks → (x, .done rep) ∈ w.tasks ∨
    (x, sent x rep) ∈ entry srv w e ∨ ((∃ i, e = .step i true) ∧ LockedOut x.2.2 (sent x rep))

theorem openFor_set {w : Running} {i : Nat} {x : Arrival} {p p' : Point} {σ : Store} (y : Arrival)
    (hi : w.tasks[i]? = some (x, p)) :
    openFor ⟨σ, w.tasks.set i (x, p')⟩ y + (if x = y ∧ open? p = true then 1 else 0) =
      openFor w y + (if x = y ∧ open? p' = true then 1 else 0) := by
  obtain ⟨hl, hi'⟩ := List.getElem?_eq_some_iff.1 hi
  have hm : 0 < openFor w y ∨ ¬ (x = y ∧ open? p = true) := by
    by_cases hc : x = y ∧ open? p = true
    · left
      exact List.countP_pos_iff.2 ⟨(x, p), List.mem_of_getElem? hi, by simp [hc.1, hc.2]⟩
    · exact .inr hc
  have h1 : ((x == y) && open? p) = decide (x = y ∧ open? p = true) := by
    by_cases hx : x = y <;> simp [hx]
  have h2 : ((x == y) && open? p') = decide (x = y ∧ open? p' = true) := by
    by_cases hx : x = y <;> simp [hx]
  have := List.countP_set (p := fun t : Arrival × Point => t.1 == y && open? t.2) (l := w.tasks) (i := i)
    (a := (x, p')) hl
  simp only [openFor] at hm ⊢
  rw [this, hi']
  simp only [h1, h2, decide_eq_true_eq]
  rcases hm with hm | hm
  · split <;> split <;> omega
  · rw [if_neg hm]; omega

theorem explained {srv : Server} {w : Running} (h : Inv srv w) (e : Move)
    (hs : ∀ i x u s, e = .step i false → w.tasks[i]? = some (x, .fetchGot u s) →
      w.store.get u = some s ∨ w.store.get u = some { s with status := .sentRequest }) :
    Explained srv w e := by
  cases e with
  | arrive x =>
    have hn : (next srv w (.arrive x)).tasks = w.tasks ++ [(x, enter srv x.2.2)] := rfl
    have hc : ∀ y, openFor (next srv w (.arrive x)) y =
        openFor w y + (if x = y ∧ open? (enter srv x.2.2) = true then 1 else 0) := by
      intro y
      simp only [openFor, hn, List.countP_append, List.countP_singleton]
      by_cases hx : x = y <;> simp [hx]
    by_cases hd : ∃ rep, enter srv x.2.2 = .done rep
    · obtain ⟨rep, hd⟩ := hd
      have he : entry srv w (.arrive x) = [(x, sent x rep)] := by simp only [entry, hd]
      refine ⟨.inr ⟨x, _, he, serves_of (serve_done hd w.store)⟩, fun y => ?_, fun y r hy => ?_⟩
      · rw [he, hc, hd]
        by_cases hx : x = y <;> simp [arrivals, hx, open?, Nat.add_comm]
      · rw [hn, hd] at hy
        rcases List.mem_append.1 hy with hy | hy
        · exact .inl hy
        · simp only [List.mem_singleton, Prod.mk.injEq, Point.done.injEq] at hy
          obtain ⟨rfl, rfl⟩ := hy
          exact .inr (.inl (by rw [he]; exact List.mem_singleton_self _))
    · have he : entry srv w (.arrive x) = [] := by
        simp only [entry]
        split
        · rename_i rep hr; exact absurd ⟨rep, hr⟩ hd
        · rfl
      refine ⟨.inl ⟨he, rfl⟩, fun y => ?_, fun y r hy => ?_⟩
      · rw [he, hc]
        by_cases hx : x = y
        · subst hx
          simp only [arrivals, List.map_nil, List.count_nil, List.count_singleton_self, true_and]
          split <;> omega
        · simp [arrivals, hx]
      · rw [hn] at hy
        rcases List.mem_append.1 hy with hy | hy
        · exact .inl hy
        · simp only [List.mem_singleton, Prod.mk.injEq] at hy
          exact absurd ⟨r, hy.2.symm⟩ hd
  | abandon i =>
    refine ⟨.inl ⟨rfl, rfl⟩, fun y => ?_, fun y r hy => .inl (List.mem_of_mem_eraseIdx hy)⟩
    simp only [entry, arrivals, List.map_nil, List.count_nil, Nat.zero_add, openFor, next]
    exact (List.eraseIdx_sublist _ _).countP_le
  | step i b =>
    cases hi : w.tasks[i]? with
    | none =>
      have hn : next srv w (.step i b) = w := by simp only [next, hi]
      have he : entry srv w (.step i b) = [] := by simp only [entry, hi]
      exact ⟨.inl ⟨he, by rw [hn]⟩, fun y => by rw [hn, he]; simp [arrivals], fun y r hy => .inl (by rwa [hn] at hy)⟩
    | some t =>
      obtain ⟨x, p⟩ := t
      have hm : (x, p) ∈ w.tasks := List.mem_of_getElem? hi
      have hok : Ok srv w.store x p := h _ hm
      have hg := (step_goes (b := b) hok fun u s e hb => hs i x u s (by rw [hb]) (by rw [hi, e])).1
      have hn : next srv w (.step i b) =
          ⟨(step srv b x w.store p).1, w.tasks.set i (x, (step srv b x w.store p).2)⟩ := by simp only [next, hi]
      have hc := fun y => openFor_set (p' := (step srv b x w.store p).2) (σ := (step srv b x w.store p).1) y hi
      have hans : ∀ y r, (y, Point.done r) ∈ (next srv w (.step i b)).tasks → (y, .done r) ∈ w.tasks ∨
          (y = x ∧ (step srv b x w.store p).2 = .done r) := by
        intro y r hy
        rw [hn] at hy
        rcases List.mem_or_eq_of_mem_set hy with hy | hy
        · exact .inl hy
        · simp only [Prod.mk.injEq] at hy
          exact .inr ⟨hy.1, hy.2.symm⟩
      rcases hp : step srv b x w.store p with ⟨σ', p'⟩
      rw [hp] at hg hn hc hans
      dsimp only at hn hc hans
      have hcount : open? p = true ∨ open? p' = false → ∀ y, openFor (next srv w (.step i b)) y ≤ openFor w y := by
        intro ho y
        have := hc y
        rw [hn]
        rcases ho with ho | ho
        · simp only [ho, and_true] at this
          by_cases hx : x = y
          · rw [if_pos hx] at this
            split at this <;> omega
          · rw [if_neg hx, if_neg fun h => hx h.1] at this
            omega
        · simp only [ho, Bool.false_eq_true, and_false, if_false] at this
          omega
      cases hg with
      | @over rep hd =>
        subst hd
        have he : entry srv w (.step i b) = [] := by simp only [entry, hi]
        refine ⟨.inl ⟨he, by rw [hn]⟩, fun y => ?_, fun y r hy => ?_⟩
        · rw [he]; simpa [arrivals] using hcount (.inr rfl) y
        · rcases hans y r hy with h | ⟨rfl, h⟩
          · exact .inl h
          · exact .inl (h ▸ hm)
      | on hd =>
        have ho : open? p = true := by
          cases p with
          | done rep =>
            simp only [step, Prod.mk.injEq] at hp
            exact absurd hp.2.symm (hd rep)
          | _ => rfl
        have he : entry srv w (.step i b) = [] := by
          simp only [entry, hi]
          split
          · rfl
          · rfl
          · rename_i x0 p0 _ h0
            simp only [Option.some.injEq, Prod.mk.injEq] at h0
            obtain ⟨rfl, rfl⟩ := h0
            rw [hp]
            split
            · rename_i h1
              simp only [Prod.mk.injEq] at h1
              exact absurd h1.2 (hd _)
            · rfl
        refine ⟨.inl ⟨he, by rw [hn]⟩, fun y => ?_, fun y r hy => ?_⟩
        · rw [he]; simpa [arrivals] using hcount (.inl ho) y
        · rcases hans y r hy with h | ⟨rfl, h⟩
          · exact .inl h
          · exact absurd h (hd r)
      | @whole _ rep hv =>
        by_cases ho : open? p = true
        · have he : entry srv w (.step i b) = [(x, sent x rep)] := by
            simp only [entry, hi]
            split
            · rename_i h0; cases h0
            · rename_i h0
              simp only [Option.some.injEq, Prod.mk.injEq] at h0
              rw [h0.2] at ho; cases ho
            · rename_i x0 p0 _ h0
              simp only [Option.some.injEq, Prod.mk.injEq] at h0
              obtain ⟨rfl, rfl⟩ := h0
              rw [hp]
              simp only [if_pos hv]
          refine ⟨.inr ⟨x, _, he, by rw [hn]; exact hv⟩, fun y => ?_, fun y r hy => ?_⟩
          · have := hc y
            rw [he, hn]
            have hf : open? (.done rep) = false := rfl
            simp only [ho, and_true, hf, Bool.false_eq_true, and_false, if_false, Nat.add_zero] at this
            rw [← this]
            by_cases hx : x = y <;> simp [arrivals, hx, Nat.add_comm]
          · rcases hans y r hy with h | ⟨rfl, h⟩
            · exact .inl h
            · cases h
              exact .inr (.inl (by rw [he]; exact List.mem_singleton_self _))
        · cases p with
          | done r0 =>
            simp only [step, Prod.mk.injEq] at hp
            obtain ⟨rfl, hp⟩ := hp
            cases hp
            have he : entry srv w (.step i b) = [] := by simp only [entry, hi]
            refine ⟨.inl ⟨he, by rw [hn]⟩, fun y => ?_, fun y r hy => ?_⟩
            · rw [he]; simpa [arrivals] using hcount (.inr rfl) y
            · rcases hans y r hy with h | ⟨rfl, h⟩
              · exact .inl h
              · exact .inl (h ▸ hm)
          | _ => exact absurd rfl ho
      | @locked rep hb hv =>
        subst hb
        by_cases he : entry srv w (.step i true) = []
        · refine ⟨.inl ⟨he, by rw [hn]⟩, fun y => ?_, fun y r hy => ?_⟩
          · rw [he]; simpa [arrivals] using hcount (.inr rfl) y
          · rcases hans y r hy with h | ⟨rfl, h⟩
            · exact .inl h
            · cases h
              exact .inr (.inr ⟨⟨i, rfl⟩, hv⟩)
        · have ho : open? p = true := by
            cases p with
            | done r0 => exact absurd (by simp only [entry, hi]) he
            | _ => rfl
          have he' : entry srv w (.step i true) = [(x, sent x rep)] ∧
              VerifierServes srv x.1 x.2.1 x.2.2 w.store w.store (sent x rep) := by
            revert he
            simp only [entry, hi]
            split
            · rename_i h0; cases h0
            · intro h; exact absurd rfl h
            · rename_i x0 p0 _ h0
              simp only [Option.some.injEq, Prod.mk.injEq] at h0
              obtain ⟨rfl, rfl⟩ := h0
              rw [hp]
              dsimp only
              split
              · rename_i h1; intro _; exact ⟨rfl, h1⟩
              · intro h; exact absurd rfl h
          refine ⟨.inr ⟨x, _, he'.1, by rw [hn]; exact he'.2⟩, fun y => ?_, fun y r hy => ?_⟩
          · have := hc y
            rw [he'.1, hn]
            have hf : open? (.done rep) = false := rfl
            simp only [ho, and_true, hf, Bool.false_eq_true, and_false, if_false, Nat.add_zero] at this
            rw [← this]
            by_cases hx : x = y <;> simp [arrivals, hx, Nat.add_comm]
          · rcases hans y r hy with h | ⟨rfl, h⟩
            · exact .inl h
            · cases h
              exact .inr (.inr ⟨⟨i, rfl⟩, hv⟩)

theorem arrivals_cons (e : Move) (es : List Move) : arrivals (e :: es) = arrivals [e] ++ arrivals es := by
  cases e <;> rfl

theorem log_explains (srv : Server) (es : List Move) : ∀ w : Running, Inv srv w → ¬ Stale srv w es →
    InTurn srv w.store (logOf srv w es) (run srv w es).store ∧
    (∀ x, ((logOf srv w es).map Prod.fst).count x ≤ (arrivals es).count x + openFor w x) ∧
    ∀ x rep, (x, Point.done rep) ∈ (run srv w es).tasks → (x, .done rep) ∈ w.tasks ∨
      (x, sent x rep) ∈ logOf srv w es ∨ ((∃ i, Move.step i true ∈ es) ∧ LockedOut x.2.2 (sent x rep)) := by
  induction es with
  | nil =>
    intro w _ _
    exact ⟨.nil (unchanged_refl _), fun x => by simp [logOf], fun x rep h => .inl h⟩
  | cons e es ih =>
    intro w h hst
    obtain ⟨i1, i2, i3⟩ := ih _ (next_inv h e) fun h' => hst h'.tail
    have hE := explained h e fun i x u s he hi => by
      by_contra hc
      rw [not_or] at hc
      exact hst ⟨[], i, es, x, u, s, by rw [he]; rfl, hi, hc.1, hc.2⟩
    refine ⟨?_, fun x => ?_, fun x rep hx => ?_⟩
    · show InTurn srv w.store (entry srv w e ++ logOf srv (next srv w e) es) (run srv (next srv w e) es).store
      rcases hE.turn with ⟨he, hs⟩ | ⟨x, rep, he, hs⟩
      · rw [he, ← hs]; exact i1
      · rw [he]; exact .cons hs i1
    · show ((entry srv w e ++ logOf srv (next srv w e) es).map Prod.fst).count x ≤ _
      rw [List.map_append, List.count_append, arrivals_cons, List.count_append]
      have := hE.count x
      have := i2 x
      omega
    · rcases i3 x rep hx with h' | h' | ⟨⟨i, h'⟩, h2⟩
      · rcases hE.answered x rep h' with h' | h' | ⟨⟨i, h'⟩, h2⟩
        · exact .inl h'
        · exact .inr (.inl (List.mem_append_left _ h'))
        · exact .inr (.inr ⟨⟨i, by rw [h']; exact List.mem_cons_self⟩, h2⟩)
      · exact .inr (.inl (List.mem_append_right _ h'))
      · exact .inr (.inr ⟨⟨i, List.mem_cons_of_mem _ h'⟩, h2⟩)

end VerifierTasks

/-- **C107** As long as no retrieval of a request object writes its mark over a session that has changed in the
meantime, everything that happens, whatever the order of the steps, with handlers dropped and the session store
found locked at any time, is what happens when the requests are handled one after the other in some order: there
is a sequence of requests with what is sent for each, growing with the execution, in which no request is more
often than it came, that leads to the stored sessions; and every answer is in it, except for refusals because
the session store was found locked. -/
theorem C107_linear (srv : Server) (σ : Store) : ∃ log : List Move → List (Arrival × Reply),
    ∀ es, ¬ StaleMark srv σ es →
      (∀ es1, es1 <+: es → log es1 <+: log es) ∧
      InTurn srv σ (log es) (run srv (begin σ) es).store ∧
      (∀ x, ((log es).map Prod.fst).count x ≤ (arrivals es).count x) ∧
      ∀ x rep, (x, Point.done rep) ∈ (run srv (begin σ) es).tasks → (x, sent x rep) ∈ log es ∨
        ((∃ i, Move.step i true ∈ es) ∧ LockedOut x.2.2 (sent x rep)) := by
  refine ⟨logOf srv (begin σ), fun es hst => ?_⟩
  obtain ⟨h1, h2, h3⟩ := log_explains srv es (begin σ) (begin_inv srv σ) hst
  refine ⟨?_, h1, fun x => by simpa [openFor, begin] using h2 x, fun x rep hx => ?_⟩
  · rintro es1 ⟨es2, rfl⟩
    rw [logOf_append]
    exact List.prefix_append ..
  · rcases h3 x rep hx with h | h
    · simp [begin] at h
    · exact h

namespace VerifierTasks

theorem run_snoc (srv : Server) (w : Running) (es : List Move) (e : Move) :
    run srv w (es ++ [e]) = next srv (run srv w es) e := by
  rw [run, List.foldl_append]; rfl

theorem run_inv (srv : Server) (σ : Store) (es : List Move) : Inv srv (run srv (begin σ) es) := by
  induction es using List.reverseRecOn with
  | nil => exact begin_inv srv σ
  | append_singleton es e ih => rw [run_snoc]; exact next_inv ih e

/-- What is known about a request by the history of the execution. -/
def Past (srv : Server) (σ : Store) (es : List Move) (x : Arrival) : Point → Prop
  | .fetchGot u s => ∃ es1 es2, es = es1 ++ es2 ∧ Arrives es1 x ∧ (run srv (begin σ) es1).store.get u = some s
  | .done rep => (∃ es1 es2 τ, es = es1 ++ es2 ∧ Arrives es1 x ∧
      VerifierServes srv x.1 x.2.1 x.2.2 (run srv (begin σ) es1).store τ (sent x rep)) ∨
      ((∃ i, Move.step i true ∈ es) ∧ LockedOut x.2.2 (sent x rep))
  | _ => True

theorem Past.later {srv : Server} {σ : Store} {es : List Move} {x : Arrival} {p : Point} (e : Move)
    (h : Past srv σ es x p) : Past srv σ (es ++ [e]) x p := by
  cases p with
  | fetchGot u s =>
    obtain ⟨es1, es2, rfl, h⟩ := h
    exact ⟨es1, es2 ++ [e], List.append_assoc .., h⟩
  | done rep =>
    rcases h with ⟨es1, es2, τ, rfl, h⟩ | ⟨⟨i, h⟩, h'⟩
    · exact .inl ⟨es1, es2 ++ [e], τ, List.append_assoc .., h⟩
    · exact .inr ⟨⟨i, List.mem_append_left _ h⟩, h'⟩
  | _ => trivial

theorem run_past (srv : Server) (σ : Store) (es : List Move) : ∀ t ∈ (run srv (begin σ) es).tasks,
    Arrives es t.1 ∧ Past srv σ es t.1 t.2 := by
  induction es using List.reverseRecOn with
  | nil => intro t ht; simp [run, begin] at ht
  | append_singleton es e ih =>
    have hinv := run_inv srv σ es
    have more : ∀ t, t ∈ (run srv (begin σ) es).tasks → Arrives (es ++ [e]) t.1 ∧ Past srv σ (es ++ [e]) t.1 t.2 :=
      fun t ht => ⟨List.mem_append_left _ (ih t ht).1, (ih t ht).2.later e⟩
    intro t ht
    have er := run_snoc srv (begin σ) es e
    rw [er] at ht
    cases e with
    | arrive x =>
      rcases List.mem_append.1 ht with ht | ht
      · exact more t ht
      · cases List.mem_singleton.1 ht
        have ha : Arrives (es ++ [.arrive x]) x := List.mem_append_right _ (List.mem_singleton_self _)
        refine ⟨ha, ?_⟩
        show Past srv σ _ x (enter srv x.2.2)
        have hb := enter_begun srv x.2.2
        cases he : enter srv x.2.2 with
        | fetchGot u s => rw [he] at hb; exact hb.elim
        | done rep =>
          exact .inl ⟨_, [], _, (List.append_nil _).symm, ha, serves_of (serve_done he _)⟩
        | _ => trivial
    | abandon i => exact more t (List.mem_of_mem_eraseIdx ht)
    | step i b =>
      simp only [next] at ht
      cases hi : (run srv (begin σ) es).tasks[i]? with
      | none => rw [hi] at ht; exact more t ht
      | some y =>
        obtain ⟨x, p⟩ := y
        simp only [hi] at ht
        have hm : (x, p) ∈ (run srv (begin σ) es).tasks := List.mem_of_getElem? hi
        rcases List.mem_or_eq_of_mem_set ht with ht | rfl
        · exact more t ht
        obtain ⟨hx, hp⟩ := ih _ hm
        have hok : Ok srv (run srv (begin σ) es).store x p := hinv _ hm
        refine ⟨List.mem_append_left _ hx, ?_⟩
        show Past srv σ _ x (step srv b x (run srv (begin σ) es).store p).2
        by_cases hf : ∃ u s, p = .fetchGot u s
        · obtain ⟨u, s, rfl⟩ := hf
          obtain ⟨es1, es2, rfl, h1, h2⟩ := hp
          obtain ⟨ha, hl, hn⟩ := hok
          cases b with
          | true =>
            exact .inr ⟨⟨i, List.mem_append_right _ (List.mem_singleton_self _)⟩, (locked_request ha).2⟩
          | false =>
            cases hg : (run srv (begin σ) (es1 ++ es2)).store.get u with
            | none => exact absurd hg hn
            | some s' =>
              simp only [step, Store.updateStatus, hg, Bool.false_eq_true, if_false]
              have hsv := serve_fetch (srv := srv) (enter_asks.2 ha) (run srv (begin σ) es1).store
              rw [h2] at hsv
              exact .inl ⟨es1, es2 ++ [.step i false], _, List.append_assoc .., h1, serves_of hsv⟩
        · have hg := (step_goes (b := b) hok fun u s e => absurd ⟨u, s, e⟩ hf).1
          rcases hs : step srv b x (run srv (begin σ) es).store p with ⟨σ', p'⟩
          rw [hs] at hg
          dsimp only
          cases hg with
          | over hd => exact hp.later _
          | on hd =>
            cases p' with
            | fetchGot u s =>
              have : (run srv (begin σ) es).store.get u = some s := by
                revert hs
                cases p with
                | fetch v =>
                  simp only [step]
                  cases hg : (run srv (begin σ) es).store.getSession b v with
                  | error e => rintro ⟨⟩
                  | ok s' =>
                    dsimp only
                    split
                    · rintro ⟨⟩; exact getSession_ok hg
                    · rintro ⟨⟩
                | create => simp only [step, Prod.mk.injEq]; rintro ⟨-, h⟩; cases h
                | fetchGot => exact absurd ⟨_, _, rfl⟩ hf
                | poll => simp only [step]; split <;> rintro ⟨⟩
                | lookUp => simp only [step]; split <;> rintro ⟨⟩
                | record => simp only [step]; split <;> rintro ⟨⟩
                | done => simp only [step]; rintro ⟨⟩
              exact ⟨es, [.step i b], rfl, hx, this⟩
            | done rep => exact absurd rfl (hd rep)
            | _ => trivial
          | whole hv => exact .inl ⟨es, [.step i b], _, rfl, hx, hv⟩
          | locked hb hv =>
            subst hb
            exact .inr ⟨⟨i, List.mem_append_right _ (List.mem_singleton_self _)⟩, hv⟩

end VerifierTasks

/-- **C107** Whatever the order of the steps, with handlers dropped and the session store found locked at any
time: what is sent for a request is what the server sends for it alone with the sessions of some moment between
its arrival and its answer, or a refusal because the session store was found locked. -/
theorem C107_answers (srv : Server) (σ : Store) (es : List Move) (x : Arrival) (rep : Reply)
    (h : (x, Point.done rep) ∈ (run srv (begin σ) es).tasks) :
    Arrives es x ∧
    ((∃ es1 es2 τ, es = es1 ++ es2 ∧ Arrives es1 x ∧
      VerifierServes srv x.1 x.2.1 x.2.2 (run srv (begin σ) es1).store τ (sent x rep)) ∨
    ((∃ i, Move.step i true ∈ es) ∧ LockedOut x.2.2 (sent x rep))) := run_past srv σ es _ h

/-! ## Sessions -/

namespace VerifierTasks

/-- What is known about the origin of what a handler holds. -/
def Held (srv : Server) (σ : Store) (C : Arrival → Prop) : Point → Prop
  | .fetchGot u s => ∃ s0, Origin srv σ C u s0 ∧ s0.status = .sentRequestByReference ∧ s.jwt = s0.jwt
  | _ => True

/-- Every session has an origin. -/
def Sourced (srv : Server) (σ : Store) (C : Arrival → Prop) (τ : Store) : Prop :=
  ∀ u s', τ.get u = some s' → ∃ s, Origin srv σ C u s ∧ s' = { s with status := s'.status } ∧
    Comes srv σ C u s.status s'.status

theorem Sourced.update {srv : Server} {σ τ : Store} {C : Arrival → Prop} (h : Sourced srv σ C τ) (b : Bool) {u : Uuid}
    {st : Status} (hst : ∀ st0, Comes srv σ C u st0 st) : Sourced srv σ C (τ.updateStatus b u st).1 := by
  intro v s' hs
  rw [updateStatus_get] at hs
  split at hs
  · rename_i hc
    obtain ⟨rfl, -⟩ := hc
    cases hg : τ.get v with
    | none => rw [hg] at hs; cases hs
    | some s =>
      rw [hg] at hs
      cases hs
      obtain ⟨s0, h1, h2, -⟩ := h v s hg
      exact ⟨s0, h1, by rw [h2], hst _⟩
  · exact h v s' hs

theorem step_sourced {srv : Server} {σ τ : Store} {C : Arrival → Prop} {x : Arrival} {p : Point} (b : Bool) (hC : C x)
    (hok : Ok srv τ x p) (hp : Held srv σ C p) (h : Sourced srv σ C τ) :
    Sourced srv σ C (step srv b x τ p).1 ∧ Held srv σ C (step srv b x τ p).2 := by
  cases p with
  | done rep => exact ⟨h, trivial⟩
  | create n =>
    refine ⟨?_, trivial⟩
    have hb : Begins x.2.2 := (enter_of hok).1
    have hsv := serve_create hok τ
    show Sourced srv σ C (create srv b x n τ).1
    revert hsv
    unfold create
    dsimp only
    cases hcon : RequestBuilder.construct srv.app.verifier
        (((RequestBuilder.new srv.app.verifier).withDcqlQuery VerifierApp.pidQuery).withRequestParameter
          (Nonce.mk (unwrapOr x.2.1.print n))) x.1 srv.app.walletMetadata with
    | error e => intro _; exact h
    | ok q =>
      obtain ⟨s, url⟩ := q
      intro hsv
      cases b with
      | true => exact h
      | false =>
        have hu : s.uuid = x.1 := by
          obtain ⟨-, -, -, -, -, -, -, -, -, -, -, -, hu⟩ := construct_ok hcon
          exact hu
        intro v s' hs
        simp only [Store.initiate, Bool.false_eq_true, if_false] at hs hsv
        rw [Store.get_insert] at hs
        split at hs
        · rename_i hv
          cases hs
          refine ⟨s, .made hC hb (by rw [hv, hu]) (serves_of hsv) ?_, rfl, .same⟩
          rw [Store.get_insert, if_pos hv]
        · exact h v s' hs
  | fetch u =>
    simp only [step]
    cases hg : τ.getSession b u with
    | error e => exact ⟨h, trivial⟩
    | ok s =>
      refine ⟨h, ?_⟩
      dsimp only
      split
      · rename_i hl
        obtain ⟨s0, h1, h2, h3⟩ := h u s (getSession_ok hg)
        refine ⟨s0, h1, ?_, by rw [h2]⟩
        rw [lt_two hl] at h3
        generalize s0.status = y at h3 ⊢
        cases h3 with
        | same => rfl
      · trivial
  | fetchGot u s =>
    obtain ⟨s0, h1, h2, -⟩ := hp
    have h' := h.update b (u := u) (st := .sentRequest) fun st0 => .fetched hC hok.1 h1 h2
    simp only [step]
    split <;> rename_i hu <;> rw [hu] at h' <;> exact ⟨h', trivial⟩
  | poll u => simp only [step]; split <;> exact ⟨h, trivial⟩
  | lookUp u r => simp only [step]; split <;> exact ⟨h, trivial⟩
  | record u o =>
    obtain ⟨r, h1, h2, h3⟩ := hok
    cases hg : τ.get u with
    | none => exact absurd hg h3
    | some s =>
      have h' := h.update b (u := u) (st := .complete o) fun st0 => .result hC h1 (verdict_iff.1 (h2 s).symm)
      simp only [step]
      split <;> rename_i hu <;> rw [hu] at h' <;> exact ⟨h', trivial⟩

theorem run_sourced (srv : Server) (σ : Store) (C : Arrival → Prop) (es : List Move) (hC : ∀ x, Arrives es x → C x) :
    Sourced srv σ C (run srv (begin σ) es).store ∧ ∀ t ∈ (run srv (begin σ) es).tasks, Held srv σ C t.2 := by
  induction es using List.reverseRecOn with
  | nil =>
    exact ⟨fun u s hs => ⟨s, .stored hs, rfl, .same⟩, fun t ht => by simp [run, begin] at ht⟩
  | append_singleton es e ih =>
    obtain ⟨i1, i2⟩ := ih fun x hx => hC x (List.mem_append_left _ hx)
    rw [run_snoc]
    have hinv := run_inv srv σ es
    have harr := run_past srv σ es
    generalize run srv (begin σ) es = w at *
    cases e with
    | arrive x =>
      refine ⟨i1, fun t ht => ?_⟩
      rcases List.mem_append.1 ht with ht | ht
      · exact i2 t ht
      · cases List.mem_singleton.1 ht
        show Held srv σ C (enter srv x.2.2)
        have hb := enter_begun srv x.2.2
        cases he : enter srv x.2.2 with
        | fetchGot u s => rw [he] at hb; exact hb.elim
        | _ => trivial
    | abandon i => exact ⟨i1, fun t ht => i2 t (List.mem_of_mem_eraseIdx ht)⟩
    | step i b =>
      simp only [next]
      cases hi : w.tasks[i]? with
      | none => exact ⟨i1, i2⟩
      | some y =>
        obtain ⟨x, p⟩ := y
        have hm : (x, p) ∈ w.tasks := List.mem_of_getElem? hi
        have := step_sourced b (hC x (List.mem_append_left _ (harr _ hm).1)) (hinv _ hm) (i2 _ hm) i1
        refine ⟨this.1, fun t ht => ?_⟩
        rcases List.mem_or_eq_of_mem_set ht with ht | rfl
        · exact i2 t ht
        · exact this.2

theorem run_grows (srv : Server) (es : List Move) : ∀ w : Running, Grows w.store (run srv w es).store := by
  induction es with
  | nil => intro w u h; exact h
  | cons e es ih =>
    intro w u h
    refine ih (next srv w e) u ?_
    cases e with
    | arrive x => exact h
    | abandon i => exact h
    | step i b =>
      simp only [next]
      cases w.tasks[i]? with
      | none => exact h
      | some y => exact step_grows srv b y.1 w.store y.2 u h

end VerifierTasks

/-- **C107** Whatever the order of the steps: no session is lost; every session was there at first or was made by
a request that came, under the id drawn for it; nothing but its status changes, and its status only to that of
a request object that was asked for or to the verdict on a response delivered for that session. -/
theorem C107_sessions (srv : Server) (σ : Store) (es : List Move) (u : Uuid) :
    (σ.get u ≠ none → (run srv (begin σ) es).store.get u ≠ none) ∧
    ∀ s', (run srv (begin σ) es).store.get u = some s' → ∃ s, Origin srv σ (Arrives es) u s ∧
      s' = { s with status := s'.status } ∧ Comes srv σ (Arrives es) u s.status s'.status :=
  ⟨run_grows srv es (begin σ) u, (run_sourced srv σ (Arrives es) es fun _ h => h).1 u⟩

/-! ## Findings -/

namespace VerifierTasks

theorem inTurn_complete {srv : Server} {σ σ' : Store} {l : List (Arrival × Reply)} (h : InTurn srv σ l σ') {u : Uuid}
    {r : AuthorizationResponse} {s : Session} (hs : σ.get u = some s)
    (hl : ∀ t ∈ l, Asks u t.1.2.2 ∨ Polls u t.1.2.2 ∨ Submits u r t.1.2.2)
    (hd : (∃ o, Verdict srv.app.decrypt r o ∧ s.status = .complete o) ∨ ∃ t ∈ l, Submits u r t.1.2.2) :
    ∃ o, Verdict srv.app.decrypt r o ∧ σ'.get u = some { s with status := .complete o } := by
  induction h generalizing s with
  | nil hu =>
    rcases hd with ⟨o, h1, h2⟩ | ⟨t, ht, -⟩
    · exact ⟨o, h1, by rw [hu u, hs, ← h2]⟩
    · cases ht
  | @cons σ τ σ' x rep l h1 h2 ih =>
    obtain ⟨-, hτ⟩ := (C82_served srv x.1 x.2.1 x.2.2 σ τ rep).2 h1
    replace hτ := hτ u
    have hl' := fun t ht => hl t (List.mem_cons_of_mem _ ht)
    rcases hl _ (List.mem_cons_self ..) with ha | ha | ha
    · rw [serve_fetch (enter_asks.2 ha), hs] at hτ
      dsimp only at hτ
      split at hτ
      · rename_i hlt
        rw [Store.get_insert, if_pos rfl] at hτ
        obtain ⟨o, h3, h4⟩ := ih hτ hl' (by
          rcases hd with ⟨o, -, h⟩ | ⟨t, ht, h⟩
          · rw [lt_two hlt] at h; cases h
          · rcases List.mem_cons.1 ht with rfl | ht
            · exact absurd (enter_submits (srv := srv).2 h) (by rw [enter_asks.2 ha]; simp)
            · exact .inr ⟨t, ht, h⟩)
        exact ⟨o, h3, h4⟩
      · refine ih (by rw [hτ, hs]) hl' (hd.imp_right ?_)
        rintro ⟨t, ht, h⟩
        rcases List.mem_cons.1 ht with rfl | ht
        · exact absurd (enter_submits (srv := srv).2 h) (by rw [enter_asks.2 ha]; simp)
        · exact ⟨t, ht, h⟩
    · rw [serve_poll (enter_polls.2 ha)] at hτ
      refine ih (by rw [hτ, hs]) hl' (hd.imp_right ?_)
      rintro ⟨t, ht, h⟩
      rcases List.mem_cons.1 ht with rfl | ht
      · exact absurd (enter_submits (srv := srv).2 h) (by rw [enter_polls.2 ha]; simp)
      · exact ⟨t, ht, h⟩
    · rw [serve_lookUp (enter_submits.2 ha), hs] at hτ
      dsimp only at hτ
      rw [Store.get_insert, if_pos rfl] at hτ
      obtain ⟨o, h3, h4⟩ := ih hτ hl' (.inl ⟨_, verdict_iff.1 rfl, rfl⟩)
      exact ⟨o, h3, h4⟩

end VerifierTasks

/-- **C107** A result can be lost: for a session whose request object has not been fetched, a request for that
request object, a response and a later poll of the status, there is an execution of just these three, in which
nothing is dropped and the session store is never found locked: all succeed, but the poll is told that a response
is still waited for, and so the session stays. Handled one after the other in any order, these three always leave
the session complete, with the verdict on the response. -/
theorem C107_stale (srv : Server) (σ : Store) (u : Uuid) (s : Session) (r : AuthorizationResponse) (x y z : Arrival)
    (hs : σ.get u = some s) (hst : s.status = .sentRequestByReference) (hx : Asks u x.2.2)
    (hy : Submits u r y.2.2) (hz : Polls u z.2.2) :
    (∃ es doc, Undisturbed es ∧ arrivals es = [x, y, z] ∧ StatusPage .sentRequest doc ∧
      (run srv (begin σ) es).tasks = [(x, .done ⟨200, .jwt s.jwt⟩), (y, .done ⟨200, .json (.obj [])⟩),
        (z, .done ⟨200, .json doc⟩)] ∧
      (run srv (begin σ) es).store.get u = some { s with status := .sentRequest }) ∧
    ∀ l σ', (l.map Prod.fst).Perm [x, y, z] → InTurn srv σ l σ' →
      ∃ o, Verdict srv.app.decrypt r o ∧ σ'.get u = some { s with status := .complete o } := by
  constructor
  · refine ⟨[.arrive x, .step 0 false, .arrive y, .step 1 false, .step 1 false, .step 0 false, .arrive z, .step 2 false],
      VerifierApp.statusJson .sentRequest, ?_, rfl, statusPage_iff.2 rfl, ?_⟩
    · intro e he
      simp only [List.mem_cons, List.not_mem_nil, or_false] at he
      rcases he with rfl | rfl | rfl | rfl | rfl | rfl | rfl | rfl <;> simp
    · have e1 : enter srv x.2.2 = .fetch u := enter_asks.2 hx
      have e2 : enter srv y.2.2 = .lookUp u r := enter_submits.2 hy
      have e3 : enter srv z.2.2 = .poll u := enter_polls.2 hz
      have hlt : Status.lt .sentRequestByReference .sentRequest = true := by decide
      simp [run, begin, next, step, e1, e2, e3, hs, hst, hlt, Store.getSession, Store.updateStatus, Store.get_insert]
  · intro l σ' hp h
    have hm : ∀ a, a ∈ l.map Prod.fst ↔ a = x ∨ a = y ∨ a = z := fun a => by rw [hp.mem_iff]; simp
    refine inTurn_complete h hs (r := r) (fun t ht => ?_) (.inr ?_)
    · rcases (hm t.1).1 (List.mem_map_of_mem ht) with e | e | e <;> rw [e]
      · exact .inl hx
      · exact .inr (.inr hy)
      · exact .inr (.inl hz)
    · obtain ⟨t, ht, e⟩ := List.mem_map.1 ((hm y).2 (.inr (.inl rfl)))
      exact ⟨t, ht, by rw [e]; exact hy⟩

/-- **C107** A request can be refused although its session is stored: while a poll of the status of any session is
under way, every request for the request object or the status of a stored session, every response for one and
every request for a new session that would be granted can be answered as if there were no session, with nothing
done. -/
theorem C107_locked (srv : Server) (σ : Store) (v : Uuid) (x y : Arrival) (hy : Polls v y.2.2)
    (h : (∃ u, σ.get u ≠ none ∧ (Asks u x.2.2 ∨ Polls u x.2.2 ∨ ∃ r, Submits u r x.2.2)) ∨
      (Begins x.2.2 ∧ ∃ τ doc, VerifierServes srv x.1 x.2.1 x.2.2 σ τ ⟨200, .json doc⟩)) :
    ∃ es rep, arrivals es = [y, x] ∧ (run srv (begin σ) es).tasks = [(y, .poll v), (x, .done rep)] ∧
      (run srv (begin σ) es).store = σ ∧ LockedOut x.2.2 (sent x rep) := by
  have ey : enter srv y.2.2 = .poll v := enter_polls.2 hy
  have key : ∀ p rep, enter srv x.2.2 = p → step srv true x σ p = (σ, .done rep) →
      (run srv (begin σ) [.arrive y, .arrive x, .step 1 true]).tasks = [(y, .poll v), (x, .done rep)] ∧
      (run srv (begin σ) [.arrive y, .arrive x, .step 1 true]).store = σ := by
    intro p rep h1 h2
    simp [run, begin, next, ey, h1, h2]
  rcases h with ⟨u, -, h | h | ⟨r, h⟩⟩ | ⟨hb, τ, doc, h⟩
  · obtain ⟨h1, h2⟩ := key (.fetch u) _ (enter_asks.2 h) rfl
    exact ⟨_, _, rfl, h1, h2, (locked_request h).1⟩
  · obtain ⟨h1, h2⟩ := key (.poll u) _ (enter_polls.2 h) rfl
    exact ⟨_, _, rfl, h1, h2, locked_status h⟩
  · obtain ⟨h1, h2⟩ := key (.lookUp u r) _ (enter_submits.2 h) rfl
    exact ⟨_, _, rfl, h1, h2, locked_response h⟩
  · obtain ⟨hr, -⟩ := (C82_served ..).2 h
    have hn : ∃ n, enter srv x.2.2 = .create n := by
      have hg := enter_begun srv x.2.2
      cases he : enter srv x.2.2 with
      | create n => exact ⟨n, rfl⟩
      | done rep =>
        rw [serve_done he] at hr
        have := sent_post x.1 x.2.1 hb.1 rep
        rw [show sent x rep = rep from this] at hr
        dsimp only at hr
        subst hr
        revert he
        rw [enter, if_neg (by rw [hb.1]; decide), path_initiate.1 hb.2]
        simp only [hb.1, if_true]
        split
        · split
          · intro h; cases h
          · split
            · intro h; injection h with h; injection h with h; split at h <;> cases h
            · intro h; cases h
        · intro h; cases h
      | fetch u => exact absurd (enter_asks.1 he).1 (by rw [hb.1]; decide)
      | poll u => exact absurd (enter_polls.1 he).1 (by rw [hb.1]; decide)
      | lookUp u r =>
        obtain ⟨-, ⟨seg, t, ⟨h, -⟩, -⟩, -⟩ := enter_submits.1 he
        rw [hb.2] at h; simp at h
      | fetchGot u s => rw [he] at hg; exact hg.elim
      | record u o => rw [he] at hg; exact hg.elim
    obtain ⟨n, hn⟩ := hn
    rw [serve_create hn] at hr
    have hl : create srv true x n σ = (σ, VerifierHttp.failure 500 c!"failed to store the session in the session store") := by
      revert hr
      unfold create
      dsimp only
      split
      · intro h; cases h
      · intro _; rfl
    obtain ⟨h1, h2⟩ := key (.create n) (VerifierHttp.failure 500 c!"failed to store the session in the session store") hn
      (by simp only [step, hl])
    exact ⟨_, _, rfl, h1, h2, locked_begin hb⟩

/-! ## Executions -/

/-- A request for the request object of the session of `routeStore`. -/
def toyAsk : Arrival := (buildId 8, buildId 9, ⟨c!"GET", c!"/request/" ++ routeId, none, none, []⟩)

/-- A poll of its status. -/
def toyPoll : Arrival := (buildId 8, buildId 9, ⟨c!"GET", c!"/status/" ++ routeId, none, none, []⟩)

/-- A response for it. -/
def toyResponse : Arrival :=
  (buildId 8, buildId 9, ⟨c!"POST", c!"/response/%300000000-0000-0000-0000-000000000005", none, none,
     utf8 c!"vp_token=%7B%22q%22%3A%5B%22x%22%5D%7D"⟩)

theorem toyAsks : Asks (buildId 5) toyAsk.2.2 :=
  ⟨by decide, routeId, routeId, ⟨rfl, by decide, by decide⟩, sessionOf_iff.1 (by decide +kernel), routeId_text⟩

theorem toyPolls : Polls (buildId 5) toyPoll.2.2 :=
  ⟨by decide, routeId, routeId, ⟨rfl, by decide, by decide⟩, sessionOf_iff.1 (by decide +kernel), routeId_text⟩

/-- The poll comes between the two steps of the retrieval: nothing is stale, and the poll is before the retrieval
in the sequence although its request came later. -/
example (app : VerifierApp.App) :
    let es := [.arrive toyAsk, .step 0 false, .arrive toyPoll, .step 1 false, .step 0 false]
    ¬ StaleMark (toyServer app) routeStore es ∧
    (run (toyServer app) (begin routeStore) es).tasks =
      [(toyAsk, .done ⟨200, .jwt (sessionSample 5 .sentRequestByReference).jwt⟩),
        (toyPoll, .done ⟨200, .json (VerifierApp.statusJson .sentRequestByReference)⟩)] := by
  have e1 : enter (toyServer app) toyAsk.2.2 = .fetch (buildId 5) := enter_asks.2 toyAsks
  have e3 : enter (toyServer app) toyPoll.2.2 = .poll (buildId 5) := enter_polls.2 toyPolls
  have hs : routeStore.get (buildId 5) = some (sessionSample 5 .sentRequestByReference) := routeKnown.2
  have hst : (sessionSample 5 .sentRequestByReference).status = .sentRequestByReference := rfl
  have hlt : Status.lt .sentRequestByReference .sentRequest = true := by decide
  refine ⟨?_, ?_⟩
  · rintro ⟨es1, i, es2, x, u, s, h, h1, h2, -⟩
    rcases es1 with _ | ⟨a, _ | ⟨b, _ | ⟨c, _ | ⟨d, _ | ⟨e, _ | ⟨f, es1⟩⟩⟩⟩⟩⟩ <;>
      simp only [List.nil_append, List.cons_append, List.cons.injEq, reduceCtorEq, false_and, and_false,
        List.nil_eq] at h
    · obtain ⟨rfl, h, -⟩ := h
      cases h
      simp [run, begin, next, e1] at h1
    · obtain ⟨rfl, rfl, rfl, h, -⟩ := h
      cases h
      simp [run, begin, next, step, e1, e3, hs, hst, hlt, Store.getSession] at h1
    · obtain ⟨rfl, rfl, rfl, rfl, h, -⟩ := h
      cases h
      simp [run, begin, next, step, e1, e3, hs, hst, hlt, Store.getSession] at h1 h2
      obtain ⟨-, rfl, rfl⟩ := h1
      exact h2 hs
  · simp [run, begin, next, step, e1, e3, hs, hst, hlt, Store.getSession, Store.updateStatus]

/-- The result is lost. -/
example (app : VerifierApp.App) : (∃ es doc, Undisturbed es ∧ arrivals es = [toyAsk, toyResponse, toyPoll] ∧
      StatusPage .sentRequest doc ∧
      (run (toyServer app) (begin routeStore) es).tasks =
        [(toyAsk, .done ⟨200, .jwt (sessionSample 5 .sentRequestByReference).jwt⟩),
          (toyResponse, .done ⟨200, .json (.obj [])⟩), (toyPoll, .done ⟨200, .json doc⟩)] ∧
      (run (toyServer app) (begin routeStore) es).store.get (buildId 5) =
        some { sessionSample 5 .sentRequestByReference with status := .sentRequest }) :=
  (C107_stale (toyServer app) routeStore (buildId 5) _ _ toyAsk toyResponse toyPoll routeKnown.2 rfl toyAsks toySubmits
    toyPolls).1

/-- Two polls of a stored session at the same time: one of them is told that there is no session. -/
example (app : VerifierApp.App) : ∃ es rep, arrivals es = [toyPoll, toyPoll] ∧
    (run (toyServer app) (begin routeStore) es).tasks = [(toyPoll, .poll (buildId 5)), (toyPoll, .done rep)] ∧
    (run (toyServer app) (begin routeStore) es).store = routeStore ∧ LockedOut toyPoll.2.2 (sent toyPoll rep) :=
  C107_locked _ _ _ _ _ toyPolls (.inl ⟨buildId 5, by rw [routeKnown.2]; simp, .inr (.inl toyPolls)⟩)

/-- So can a request for a new session be refused by a verifier that was started. -/
example : ∃ app, ∃ x : Arrival, Begins x.2.2 ∧ ∃ τ doc,
    VerifierServes (toyServer app) x.1 x.2.1 x.2.2 routeStore τ ⟨200, .json doc⟩ := by
  obtain ⟨app, hs⟩ := flowStarted false
  refine ⟨app, (buildId 8, buildId 9, ⟨c!"POST", c!"/initiate", none, some c!"application/json", utf8 c!"{}"⟩),
    ⟨rfl, rfl⟩, ?_⟩
  have h := (C82_begin (srv := toyServer app) hs (buildId 8) (buildId 9)
    ⟨c!"POST", c!"/initiate", none, some c!"application/json", utf8 c!"{}"⟩ routeStore ⟨rfl, rfl⟩).2.1.2
    ⟨⟨_, rfl, by simp [toyServer]⟩, by decide +kernel, none, nonceBody_iff.1 (by decide +kernel)⟩
  have hv := serve_spec (toyServer app) (buildId 8) (buildId 9)
    ⟨c!"POST", c!"/initiate", none, some c!"application/json", utf8 c!"{}"⟩ routeStore
  generalize serve (toyServer app) (buildId 8) (buildId 9)
    ⟨c!"POST", c!"/initiate", none, some c!"application/json", utf8 c!"{}"⟩ routeStore = q at h hv
  obtain ⟨τ, n, b⟩ := q
  dsimp only at h hv ⊢
  subst h
  have : ∃ doc, b = .json doc := by
    cases hv with
    | preflight hm => cases hm
    | get hm => cases hm
    | head hm => cases hm
    | post hm h => cases h <;> exact ⟨_, rfl⟩
  obtain ⟨doc, rfl⟩ := this
  exact ⟨τ, doc, hv⟩

end Oid4vp
