import Mathlib.Data.List.Induction
import Verif.Spec.CliTasks
import Verif.Props.CliHttp
import Verif.Props.Session
/-!
# C106: the command-line verifier with several requests at once
-/

set_option autoImplicit false

namespace Oid4vp
open Spec CliTasks
open Cli (Display)
open WalletApp (Call)
open CliHttp (Reply Body failure final)

namespace CliTasks

/-! ## Beginning -/

theorem enter_cases (c : Call) :
    (∃ u, enter c = .fetch u ∧ Asks u c) ∨
    (∃ u, enter c = .respond u ∧ c.method = c!"POST" ∧ ForSession c!"/response/" u c ∧
      c.body.length ≤ 2097152 ∧ ∃ t, c.body = utf8 t) ∨
    (∃ rep, enter c = .done rep ∧ ((c.method = c!"OPTIONS" ∧ rep = ⟨200, .none⟩) ∨ Refuses rep)) := by
  unfold enter
  by_cases ho : c.method = c!"OPTIONS"
  · exact .inr (.inr ⟨_, if_pos ho, .inl ⟨ho, rfl⟩⟩)
  rw [if_neg ho]
  cases h1 : VerifierHttp.segmentAfter c!"/request/" c.path with
  | some seg =>
    have hu := under_iff.1 h1
    by_cases hg : c.method = c!"GET" ∨ c.method = c!"HEAD"
    · simp only [if_pos hg]
      cases hs : VerifierHttp.sessionOf seg with
      | none => exact .inr (.inr ⟨_, rfl, .inr ⟨by decide, .inl rfl⟩⟩)
      | some t =>
        cases hp : Uuid.parse t with
        | none =>
          exact .inr (.inr ⟨failure c!"Invalid session ID", by simp only [hp], .inr ⟨by decide, .inr ⟨_, rfl⟩⟩⟩)
        | some u =>
          exact .inl ⟨u, by simp only [hp], by simpa using hg, seg, t, hu, sessionOf_iff.1 hs, Uuid.parse_iff.1 hp⟩
    · simp only [if_neg hg]
      exact .inr (.inr ⟨_, rfl, .inr ⟨by decide, .inl rfl⟩⟩)
  | none =>
    cases h2 : VerifierHttp.segmentAfter c!"/response/" c.path with
    | some seg =>
      have hu := under_iff.1 h2
      by_cases hp : c.method = c!"POST"
      · simp only [if_pos hp]
        cases hs : VerifierHttp.sessionOf seg with
        | none => exact .inr (.inr ⟨_, rfl, .inr ⟨by decide, .inl rfl⟩⟩)
        | some t =>
          by_cases hl : VerifierHttp.maxBody < c.body.length
          · simp only [if_pos hl]
            exact .inr (.inr ⟨_, rfl, .inr ⟨by decide, .inl rfl⟩⟩)
          simp only [if_neg hl]
          cases hd : utf8Dec c.body with
          | none => exact .inr (.inr ⟨_, rfl, .inr ⟨by decide, .inl rfl⟩⟩)
          | some b =>
            cases hpp : Uuid.parse t with
            | none => exact .inr (.inr ⟨failure c!"Invalid session ID", by simp only [hpp], .inr ⟨by decide, .inr ⟨_, rfl⟩⟩⟩)
            | some u =>
              exact .inr (.inl ⟨u, by simp only [hpp], hp, ⟨seg, t, hu, sessionOf_iff.1 hs, Uuid.parse_iff.1 hpp⟩,
                Nat.le_of_not_lt hl, b, utf8Dec_eq_some.1 hd⟩)
      · simp only [if_neg hp]
        exact .inr (.inr ⟨_, rfl, .inr ⟨by decide, .inl rfl⟩⟩)
    | none => exact .inr (.inr ⟨_, rfl, .inr ⟨by decide, .inl rfl⟩⟩)

theorem enter_asks {c : Call} {u : Uuid} (h : Asks u c) : enter c = .fetch u := by
  obtain ⟨hm, seg, t, hu, ht, hut⟩ := h
  have hm' : c.method = c!"GET" ∨ c.method = c!"HEAD" := by simpa using hm
  have ho : c.method ≠ c!"OPTIONS" := by rintro h; rw [h] at hm'; revert hm'; decide
  rw [enter, if_neg ho]
  simp only [under_iff.2 hu, if_pos hm', sessionOf_iff.2 ht, Uuid.parse_iff.2 hut]

theorem enter_tries {c : Call} {u : Uuid} (hm : c.method = c!"POST") (h : ForSession c!"/response/" u c)
    (hl : c.body.length ≤ 2097152) (hb : ∃ t, c.body = utf8 t) : enter c = .respond u := by
  obtain ⟨seg, t, hu, ht, hut⟩ := h
  obtain ⟨b, hb⟩ := hb
  have h0 : VerifierHttp.segmentAfter c!"/request/" c.path = none :=
    under_none.2 fun seg' h => CliProgram.not_both h hu
  rw [enter, if_neg (by rw [hm]; decide)]
  simp only [h0, under_iff.2 hu, if_pos hm, sessionOf_iff.2 ht]
  rw [if_neg (show ¬ VerifierHttp.maxBody < c.body.length from Nat.not_lt.2 hl),
    show utf8Dec c.body = some b by rw [hb, utf8Dec_utf8]]
  simp only [Uuid.parse_iff.2 hut]

/-! ## Alone -/

/-- A handler that is not interrupted. -/
def lane (ord : MapOrder) (c : Call) : Nat → Server → Point → Server × Point
  | 0, w, p => (w, p)
  | n + 1, w, p => lane ord c n (step ord false c w p).1 (step ord false c w p).2

theorem lane_done (ord : MapOrder) (c : Call) (n : Nat) (w : Server) (rep : Reply) :
    lane ord c n w (.done rep) = (w, .done rep) := by
  induction n with
  | zero => rfl
  | succ n ih => exact ih

theorem step_tasks (ord : MapOrder) (b : Bool) (c : Call) (w : Server) (ts : List (Call × Point)) (p : Point) :
    step ord b c { w with tasks := ts } p =
      ({ (step ord b c w p).1 with tasks := ts }, (step ord b c w p).2) := by
  cases p <;> simp only [step] <;> (try rfl) <;> split <;> rfl

theorem step_keeps (ord : MapOrder) (b : Bool) (c : Call) (w : Server) (p : Point) :
    (step ord b c w p).1.exited = w.exited ∧ (step ord b c w p).1.stopped = w.stopped ∧
      (step ord b c w p).1.tasks = w.tasks := by
  unfold step
  cases p <;> dsimp only <;> first | exact ⟨rfl, rfl, rfl⟩ | (split <;> exact ⟨rfl, rfl, rfl⟩)

theorem run_lane (ord : MapOrder) (c : Call) (n : Nat) : ∀ (w : Server) (p : Point) (ts : List (Call × Point)),
    w.exited = false →
    run ord { w with tasks := ts ++ [(c, p)] } (List.replicate n (.step ts.length false)) =
      { (lane ord c n w p).1 with tasks := ts ++ [(c, (lane ord c n w p).2)] } := by
  induction n with
  | zero => intro w p ts _; rfl
  | succ n ih =>
    intro w p ts hx
    have e : next ord { w with tasks := ts ++ [(c, p)] } (.step ts.length false) =
        { (step ord false c w p).1 with tasks := ts ++ [(c, (step ord false c w p).2)] } := by
      rw [next, if_neg (by simp [hx])]
      simp only [List.getElem?_append_right (Nat.le_refl _), Nat.sub_self, List.getElem?_cons_zero]
      rw [step_tasks]
      simp
    rw [List.replicate_succ, run, List.foldl_cons, e]
    exact ih _ _ ts ((step_keeps ord false c w p).1.trans hx)

theorem lane_add (ord : MapOrder) (c : Call) (a : Nat) : ∀ (b : Nat) (w : Server) (p : Point),
    lane ord c (a + b) w p = lane ord c b (lane ord c a w p).1 (lane ord c a w p).2 := by
  induction a with
  | zero => intro b w p; rw [Nat.zero_add]; rfl
  | succ a ih => intro b w p; rw [Nat.succ_add]; exact ih b _ _

/-- What a handler leaves behind that has printed this. -/
def left (w : Server) (x : Store × List Display × Reply) : Server :=
  { w with store := x.1, display := x.2.1.getLast?.getD w.display, shown := w.shown ++ x.2.1,
           notified := w.notified || x.2.1.any final }

theorem left_same (w : Server) (rep : Reply) : left w (w.store, [], rep) = w := by
  simp [left]

theorem lane_alone (ord : MapOrder) (c : Call) (w : Server) :
    ∃ rep, lane ord c 10 w (enter c) = (left w (CliHttp.serve ord c w.store), .done rep) ∧
      sent c rep = (CliHttp.serve ord c w.store).2.2 := by
  rcases enter_cases c with ⟨u, he, ha⟩ | ⟨u, he, hm, hf, hl, hb⟩ | ⟨rep, he, -⟩
  · -- a request object
    rw [he]
    obtain ⟨hm, seg, t, hu, ht, hut⟩ := ha
    have hm' : c.method = c!"GET" ∨ c.method = c!"HEAD" := by simpa using hm
    have ho : c.method ≠ c!"OPTIONS" := by rintro h; rw [h] at hm'; revert hm'; decide
    have key : ∃ rep, lane ord c 10 w (.fetch u) = (left w (CliHttp.fetch seg w.store), .done rep) ∧
        (CliHttp.fetch seg w.store).2.2 = rep := by
      cases hg : w.store.get u with
      | none =>
        rw [CliProgram.fetch_unknown ht ⟨u, hut, hg⟩, left_same]
        refine ⟨failure c!"Failed to retrieve authorization request", ?_, rfl⟩
        rw [lane]
        simp only [step, Store.getSession, hg, Bool.false_eq_true, if_false]
        exact lane_done ..
      | some s =>
        by_cases hs : s.status.lt .sentRequest = true
        · refine ⟨⟨200, .jwt s.jwt⟩, ?_, ?_⟩
          · simp [lane, step, Store.getSession, hg, hs, Store.updateStatus, After.go, left, CliHttp.fetch,
              sessionOf_iff.2 ht, Uuid.parse_iff.2 hut, retrieve, final]
          · simp [CliHttp.fetch, sessionOf_iff.2 ht, Uuid.parse_iff.2 hut, retrieve, Store.getSession, hg, hs,
              Store.updateStatus]
        · refine ⟨⟨200, .jwt s.jwt⟩, ?_, ?_⟩
          · simp [lane, step, Store.getSession, hg, hs, After.go, left, CliHttp.fetch,
              sessionOf_iff.2 ht, Uuid.parse_iff.2 hut, retrieve, final]
          · simp [CliHttp.fetch, sessionOf_iff.2 ht, Uuid.parse_iff.2 hut, retrieve, Store.getSession, hg, hs]
    obtain ⟨rep, h1, h2⟩ := key
    refine ⟨rep, ?_⟩
    rw [h1]
    rcases hm' with hm' | hm'
    · have hh : c.method ≠ c!"HEAD" := by rw [hm']; decide
      rw [CliHttp.serve, if_neg ho]
      simp only [under_iff.2 hu, if_pos hm', sent, if_neg hh, h2, and_self]
    · have hh : c.method ≠ c!"GET" := by rw [hm']; decide
      rw [CliHttp.serve, if_neg ho]
      simp only [under_iff.2 hu, if_neg hh, if_pos hm', sent]
      generalize CliHttp.fetch seg w.store = x at h2 ⊢
      obtain ⟨τ, ds, rep'⟩ := x
      cases h2
      exact ⟨rfl, rfl⟩
  · -- a response
    rw [he]
    have hf' := hf
    obtain ⟨seg, t, hu, ht, hut⟩ := hf'
    obtain ⟨b, hb⟩ := hb
    have h0 : VerifierHttp.segmentAfter c!"/request/" c.path = none :=
      under_none.2 fun seg' h => CliProgram.not_both h hu
    have hh : c.method ≠ c!"HEAD" := by rw [hm]; decide
    rw [CliHttp.serve, if_neg (by rw [hm]; decide)]
    simp only [h0, under_iff.2 hu, if_pos hm, sent, if_neg hh]
    rw [CliProgram.respond_text ht hl hb]
    simp only [Uuid.parse_iff.2 hut]
    cases hr : AuthorizationResponse.ofForm c.body with
    | error e =>
      refine ⟨failure c!"Failed to parse authorization response", ?_, rfl⟩
      simp [lane, step, hr, After.go, left, final]
    | ok r =>
      cases hg : w.store.get u with
      | none =>
        refine ⟨failure c!"Failed to verify response", ?_, rfl⟩
        simp [lane, step, hr, After.go, left, final, Store.getSession, hg]
      | some s =>
        have hfin : final (Cli.displayOf (Cli.outcome ord r)) = true := by cases r <;> rfl
        refine ⟨⟨200, .json (.obj [])⟩, ?_, ?_⟩
        · simp [lane, step, hr, After.go, left, Store.getSession, hg, verifyResponse, Store.updateStatus, hfin]
        · simp [Store.getSession, hg, verifyResponse, Store.updateStatus]
  · -- refused at once
    rw [he, lane_done]
    have : CliHttp.serve ord c w.store = (w.store, [], sent c rep) := by
      revert he
      unfold enter CliHttp.serve
      by_cases ho : c.method = c!"OPTIONS"
      · have hh : c.method ≠ c!"HEAD" := by rw [ho]; decide
        simp only [if_pos ho, sent, if_neg hh]
        rintro ⟨⟩; rfl
      simp only [if_neg ho]
      cases h1 : VerifierHttp.segmentAfter c!"/request/" c.path with
      | some seg =>
        simp only
        by_cases hg : c.method = c!"GET"
        · have hh : c.method ≠ c!"HEAD" := by rw [hg]; decide
          simp only [if_pos (Or.inl hg : c.method = c!"GET" ∨ c.method = c!"HEAD"), if_pos hg, CliHttp.fetch, sent, if_neg hh]
          cases hs : VerifierHttp.sessionOf seg with
          | none => rintro ⟨⟩; rfl
          | some t =>
            simp only
            cases hp : Uuid.parse t with
            | none => rintro ⟨⟩; rfl
            | some u => rintro ⟨⟩
        by_cases hh : c.method = c!"HEAD"
        · simp only [if_pos (Or.inr hh : c.method = c!"GET" ∨ c.method = c!"HEAD"), if_neg hg, CliHttp.fetch, sent, if_pos hh]
          cases hs : VerifierHttp.sessionOf seg with
          | none => rintro ⟨⟩; rfl
          | some t =>
            simp only
            cases hp : Uuid.parse t with
            | none => rintro ⟨⟩; rfl
            | some u => rintro ⟨⟩
        · simp only [if_neg (not_or.2 ⟨hg, hh⟩), if_neg hg, if_neg hh, sent]
          rintro ⟨⟩; rfl
      | none =>
        simp only
        cases h2 : VerifierHttp.segmentAfter c!"/response/" c.path with
        | none =>
          rintro ⟨⟩
          simp [sent]
        | some seg =>
          simp only
          by_cases hp : c.method = c!"POST"
          · have hh : c.method ≠ c!"HEAD" := by rw [hp]; decide
            simp only [if_pos hp, CliHttp.respond, sent, if_neg hh]
            cases hs : VerifierHttp.sessionOf seg with
            | none => rintro ⟨⟩; rfl
            | some t =>
              simp only
              by_cases hl : VerifierHttp.maxBody < c.body.length
              · simp only [if_pos hl]; rintro ⟨⟩; rfl
              simp only [if_neg hl]
              cases hd : utf8Dec c.body with
              | none => rintro ⟨⟩; rfl
              | some b =>
                simp only
                cases hpp : Uuid.parse t with
                | none => rintro ⟨⟩; rfl
                | some u => rintro ⟨⟩
          · simp only [if_neg hp]
            rintro ⟨⟩
            simp [sent]
    rw [this, left_same]
    exact ⟨_, rfl, rfl⟩

end CliTasks

/-- **C106** A request whose handler is not interrupted and finds the session store free is handled as in C85:
after at most ten steps its handler is done, with the answer, the sessions and the displayed statuses of
`CliHttp.serve`; completion has been notified exactly if it was before or a result was displayed. -/
theorem C106_alone (ord : MapOrder) (c : Call) (w : Server) (n : Nat) (hn : 10 ≤ n) (hx : w.exited = false) :
    ∃ rep, sent c rep = (CliHttp.serve ord c w.store).2.2 ∧
      run ord w (.arrive c :: List.replicate n (.step w.tasks.length false)) =
        { w with
          store := (CliHttp.serve ord c w.store).1
          shown := w.shown ++ (CliHttp.serve ord c w.store).2.1
          display := (CliHttp.serve ord c w.store).2.1.getLast?.getD w.display
          notified := w.notified || (CliHttp.serve ord c w.store).2.1.any final
          tasks := w.tasks ++ [(c, .done rep)] } := by
  obtain ⟨rep, h1, h2⟩ := lane_alone ord c w
  refine ⟨rep, h2, ?_⟩
  have e : next ord w (.arrive c) = { w with tasks := w.tasks ++ [(c, enter c)] } := by
    simp only [next, hx, Bool.false_eq_true, if_false]
  obtain ⟨m, rfl⟩ := Nat.le.dest hn
  rw [run, List.foldl_cons, e]
  have := run_lane ord c (10 + m) w (enter c) w.tasks hx
  rw [run] at this
  rw [this, lane_add, h1, lane_done]
  rfl

/-- **C106** Requests handled one after the other, each without interruption: the run of C85. -/
theorem C106_serial (ord : MapOrder) (n : Nat) (hn : 10 ≤ n) (σ : Store) (cs : List Call) :
    ((run ord (begin σ) (OneByOne n 0 cs)).store, (run ord (begin σ) (OneByOne n 0 cs)).shown,
      (run ord (begin σ) (OneByOne n 0 cs)).stopped) = CliHttp.run ord σ cs := by
  have stays : ∀ es (w : Server), w.exited = true → run ord w es = w := by
    intro es
    induction es with
    | nil => intro w _; rfl
    | cons e es ih =>
      intro w hx
      rw [run, List.foldl_cons, show next ord w e = w by simp [next, hx]]
      exact ih w hx
  have key : ∀ (cs : List Call) (w : Server), w.exited = false → w.stopped = false → w.notified = false →
      ((run ord w (OneByOne n w.tasks.length cs)).store, (run ord w (OneByOne n w.tasks.length cs)).shown,
        (run ord w (OneByOne n w.tasks.length cs)).stopped) =
      ((CliHttp.run ord w.store cs).1, w.shown ++ (CliHttp.run ord w.store cs).2.1,
        (CliHttp.run ord w.store cs).2.2) := by
    intro cs
    induction cs with
    | nil => intro w hx hs hn; simp [OneByOne, run, CliHttp.run, hs]
    | cons c cs ih =>
      intro w hx hs hno
      obtain ⟨rep, -, e⟩ := C106_alone ord c w n hn hx
      have e' : run ord w (OneByOne n w.tasks.length (c :: cs)) =
          run ord (run ord w (.arrive c :: List.replicate n (.step w.tasks.length false)))
            (.main :: .exit :: OneByOne n (w.tasks.length + 1) cs) := by
        simp only [OneByOne, run, ← List.foldl_append, List.cons_append]
      rw [e', e, CliHttp.run]
      rcases hsv : CliHttp.serve ord c w.store with ⟨σ', ds, rep'⟩
      simp only
      rw [run, List.foldl_cons, List.foldl_cons]
      by_cases hf : ds.any final = true
      · simp only [next, hx, hs, hno, hf, Bool.false_eq_true, if_false, Bool.false_or, if_true]
        rw [← run, stays _ _ rfl]
      · have hf' : ds.any final = false := by simpa using hf
        simp only [next, hx, hs, hno, hf', Bool.false_eq_true, if_false, Bool.false_or]
        rw [← run]
        have := ih ⟨σ', ds.getLast?.getD w.display, w.shown ++ ds, false, false, false,
          w.tasks ++ [(c, .done rep)]⟩ rfl rfl rfl
        simp only [List.length_append, List.length_cons, List.length_nil, Nat.zero_add] at this
        rw [this, List.append_assoc]
  exact key cs (begin σ) rfl rfl rfl

/-! ## Every execution -/

namespace CliTasks

/-- What is known about a request whose handler has reached a point. -/
def PointOk (ord : MapOrder) (σ : Store) (C : Call → Prop) (c : Call) : Point → Prop
  | .fetch u => Asks u c
  | .fetchGot u s => Asks u c ∧ ∃ s0, σ.get u = some s0 ∧ s0.status = .sentRequestByReference ∧ s.jwt = s0.jwt
  | .fetched jwt => ∃ u s0, Asks u c ∧ σ.get u = some s0 ∧ jwt = s0.jwt
  | .tell k => AfterOk k
  | .print d k => AfterOk k ∧ Shows ord σ C d
  | .respond u => TriesFor u
  | .parse u => TriesFor u
  | .lookUp u r => Submits u r c
  | .judge u r => Submits u r c ∧ σ.get u ≠ none
  | .notify u o => ∃ r, Submits u r c ∧ σ.get u ≠ none ∧ o = Cli.outcome ord r
  | .record u o => ∃ r, Submits u r c ∧ σ.get u ≠ none ∧ o = Cli.outcome ord r
  | .done rep => Grants σ c (sent c rep) ∨ Refuses (sent c rep)
where
  TriesFor (u : Uuid) : Prop := c.method = c!"POST" ∧ ForSession c!"/response/" u c ∧ c.body.length ≤ 2097152 ∧
    ∃ t, c.body = utf8 t
  AfterOk : After → Prop
    | .answer jwt => ∃ u s0, Asks u c ∧ σ.get u = some s0 ∧ jwt = s0.jwt
    | .parse u => TriesFor u
    | .notify u o => ∃ r, Submits u r c ∧ σ.get u ≠ none ∧ o = Cli.outcome ord r

/-- What has become of the sessions. -/
def Kept (ord : MapOrder) (σ : Store) (C : Call → Prop) (τ : Store) : Prop :=
  ∀ u, match σ.get u with
    | none => τ.get u = none
    | some s => ∃ st, τ.get u = some { s with status := st } ∧ Turns ord σ C u s.status st

/-- The invariant of executions. -/
structure Inv (ord : MapOrder) (σ : Store) (C : Call → Prop) (w : Server) : Prop where
  came : ∀ x ∈ w.tasks, C x.1
  points : ∀ x ∈ w.tasks, PointOk ord σ C x.1 x.2
  display : (∃ c k, (c, Point.tell k) ∈ w.tasks) → Shows ord σ C w.display
  shown : ∀ d ∈ w.shown, Shows ord σ C d
  notified : w.notified = true → ∃ c, C c ∧ Concludes σ c
  stopped : w.stopped = true → ∃ c, C c ∧ Concludes σ c
  kept : Kept ord σ C w.store

theorem Kept.session {ord : MapOrder} {σ τ : Store} {C : Call → Prop} (h : Kept ord σ C τ) {u : Uuid} {s : Session}
    (hs : τ.get u = some s) : ∃ s0, σ.get u = some s0 ∧ s = { s0 with status := s.status } ∧
      Turns ord σ C u s0.status s.status := by
  have := h u
  cases h0 : σ.get u with
  | none => simp only [h0] at this; rw [this] at hs; cases hs
  | some s0 =>
    simp only [h0] at this
    obtain ⟨st, h1, h2⟩ := this
    rw [h1] at hs
    cases hs
    exact ⟨s0, rfl, rfl, h2⟩

theorem Kept.update {ord : MapOrder} {σ τ : Store} {C : Call → Prop} (h : Kept ord σ C τ) (b : Bool) {u : Uuid}
    {st : Status} (hst : ∀ s0, σ.get u = some s0 → Turns ord σ C u s0.status st) :
    Kept ord σ C (τ.updateStatus b u st).1 := by
  intro v
  have hv := h v
  rw [updateStatus_get]
  by_cases hc : v = u ∧ b = false
  · obtain ⟨rfl, rfl⟩ := hc
    rw [if_pos ⟨rfl, rfl⟩]
    cases h0 : σ.get v with
    | none => simp only [h0] at hv ⊢; rw [hv]; rfl
    | some s0 =>
      simp only [h0] at hv ⊢
      obtain ⟨st', h1, -⟩ := hv
      exact ⟨st, by rw [h1]; rfl, hst s0 h0⟩
  · rw [if_neg hc]
    exact hv

theorem refuses_failure (t : Str) : Refuses (failure t) := ⟨by simp [CliHttp.failure], .inr ⟨_, rfl⟩⟩

theorem refuses_sent {c : Call} {rep : Reply} (h : Refuses rep) : Refuses (sent c rep) := by
  unfold sent
  split
  · exact ⟨h.1, .inl rfl⟩
  · exact h

theorem grants_jwt {σ : Store} {c : Call} {u : Uuid} {s : Session} (h : Asks u c) (hs : σ.get u = some s) :
    Grants σ c (sent c ⟨200, .jwt s.jwt⟩) := by
  have hm : c.method = c!"GET" ∨ c.method = c!"HEAD" := by simpa using h.1
  unfold sent
  rcases hm with hm | hm
  · rw [if_neg (by rw [hm]; decide)]
    exact .object hm h hs
  · rw [if_pos hm]
    exact .head hm h hs

theorem enter_ok (ord : MapOrder) (σ : Store) (C : Call → Prop) (c : Call) : PointOk ord σ C c (enter c) := by
  rcases enter_cases c with ⟨u, he, ha⟩ | ⟨u, he, h⟩ | ⟨rep, he, h⟩
  · rw [he]; exact ha
  · rw [he]; exact h
  · rw [he]
    rcases h with ⟨hm, rfl⟩ | h
    · left
      have : sent c ⟨200, .none⟩ = ⟨200, .none⟩ := by unfold sent; split <;> rfl
      rw [this]
      exact .preflight hm
    · exact .inr (refuses_sent h)

theorem not_tell_enter (c : Call) (k : After) : enter c ≠ .tell k := by
  rcases enter_cases c with ⟨u, he, -⟩ | ⟨u, he, -⟩ | ⟨rep, he, -⟩ <;> rw [he] <;> rintro ⟨⟩

/-- What a step of a handler gives, knowing what is shared. -/
structure StepOk (ord : MapOrder) (σ : Store) (C : Call → Prop) (c : Call) (w : Server) (x : Server × Point) : Prop where
  point : PointOk ord σ C c x.2
  display : x.1.display = w.display ∧ (∀ k, x.2 ≠ .tell k) ∨ Shows ord σ C x.1.display
  shown : ∀ d ∈ x.1.shown, Shows ord σ C d
  notified : x.1.notified = true → ∃ c, C c ∧ Concludes σ c
  kept : Kept ord σ C x.1.store

theorem step_ok {ord : MapOrder} {σ : Store} {C : Call → Prop} {c : Call} {w : Server} {p : Point} (b : Bool)
    (hC : C c) (hp : PointOk ord σ C c p) (hd : (∃ k, p = .tell k) → Shows ord σ C w.display)
    (hs : ∀ d ∈ w.shown, Shows ord σ C d) (hn : w.notified = true → ∃ c, C c ∧ Concludes σ c)
    (hk : Kept ord σ C w.store) : StepOk ord σ C c w (step ord b c w p) := by
  have isTwo : ∀ st : Status, st.lt .sentRequest = true → st = .sentRequestByReference := by
    intro st h
    cases st with
    | sentRequestByReference => rfl
    | complete o =>
      have : ¬ Status.lt (.complete o) .sentRequest = true := by
        simp [Status.lt, Status.partialCmp, Status.variant]; decide
      exact absurd h this
    | _ => exact absurd h (by decide)
  cases p with
  | fetch u =>
    simp only [step]
    cases hg : w.store.getSession b u with
    | error e => exact ⟨.inr (refuses_sent (refuses_failure _)), .inl ⟨rfl, by rintro k ⟨⟩⟩, hs, hn, hk⟩
    | ok s =>
      obtain ⟨s0, h0, e, ht⟩ := hk.session (getSession_ok hg)
      have hj : s.jwt = s0.jwt := by rw [e]
      simp only
      split
      · rename_i hl
        have hs0 : s0.status = .sentRequestByReference := by
          rw [isTwo _ hl] at ht
          generalize s0.status = y at ht ⊢
          cases ht with
          | same => rfl
        exact ⟨⟨hp, s0, h0, hs0, hj⟩, .inl ⟨rfl, by rintro k ⟨⟩⟩, hs, hn, hk⟩
      · exact ⟨⟨u, s0, hp, h0, hj⟩, .inl ⟨rfl, by rintro k ⟨⟩⟩, hs, hn, hk⟩
  | fetchGot u s =>
    obtain ⟨ha, s0, h0, hs0, hj⟩ := hp
    have hk' : Kept ord σ C (w.store.updateStatus b u .sentRequest).1 := hk.update b fun s1 h1 => by
      rw [h0] at h1; cases h1
      rw [hs0]
      exact .fetched hC ha
    simp only [step]
    rcases hu : w.store.updateStatus b u .sentRequest with ⟨τ, e | e⟩
    · rw [hu] at hk'
      exact ⟨.inr (refuses_sent (refuses_failure _)), .inl ⟨rfl, by rintro k ⟨⟩⟩, hs, hn, hk'⟩
    · rw [hu] at hk'
      exact ⟨⟨u, s0, ha, h0, hj⟩, .inl ⟨rfl, by rintro k ⟨⟩⟩, hs, hn, hk'⟩
  | fetched jwt =>
    have hp' := hp
    obtain ⟨u, s0, ha, h0, -⟩ := hp'
    exact ⟨hp, .inr (.fetched hC ha (by rw [h0]; rintro ⟨⟩)), hs, hn, hk⟩
  | tell k => exact ⟨⟨hp, hd ⟨k, rfl⟩⟩, .inr (hd ⟨k, rfl⟩), hs, hn, hk⟩
  | print d k =>
    refine ⟨?_, .inl ⟨rfl, ?_⟩, ?_, hn, hk⟩
    · cases k with
      | answer jwt =>
        obtain ⟨⟨u, s0, ha, h0, rfl⟩, -⟩ := hp
        exact .inl (grants_jwt ha h0)
      | parse u => exact hp.1
      | notify u o => exact hp.1
    · cases k <;> rintro k ⟨⟩
    · intro d' hd'
      rcases List.mem_append.1 hd' with h | h
      · exact hs _ h
      · cases List.mem_singleton.1 h
        exact hp.2
  | respond u => exact ⟨hp, .inr (.received hC ⟨hp.1, ⟨u, hp.2.1⟩, hp.2.2⟩), hs, hn, hk⟩
  | parse u =>
    simp only [step]
    cases hr : AuthorizationResponse.ofForm c.body with
    | error e => exact ⟨.inr (refuses_sent (refuses_failure _)), .inl ⟨rfl, by rintro k ⟨⟩⟩, hs, hn, hk⟩
    | ok r => exact ⟨⟨hp.1, hp.2.1, hp.2.2.1, hp.2.2.2, hr⟩, .inl ⟨rfl, by rintro k ⟨⟩⟩, hs, hn, hk⟩
  | lookUp u r =>
    simp only [step]
    cases hg : w.store.getSession b u with
    | error e => exact ⟨.inr (refuses_sent (refuses_failure _)), .inl ⟨rfl, by rintro k ⟨⟩⟩, hs, hn, hk⟩
    | ok s =>
      obtain ⟨s0, h0, -⟩ := hk.session (getSession_ok hg)
      exact ⟨⟨hp, by rw [h0]; rintro ⟨⟩⟩, .inl ⟨rfl, by rintro k ⟨⟩⟩, hs, hn, hk⟩
  | judge u r =>
    exact ⟨⟨r, hp.1, hp.2, rfl⟩,
      .inr (.result (u := u) ⟨c, r, hC, hp.1, hp.2, CliProgram.verdict_iff.2 ⟨rfl, rfl⟩⟩), hs, hn, hk⟩
  | notify u o =>
    have hp' := hp
    obtain ⟨r, h1, h2, -⟩ := hp'
    exact ⟨hp, .inl ⟨rfl, by rintro k ⟨⟩⟩, hs, fun _ => ⟨c, hC, u, r, h2, h1⟩, hk⟩
  | record u o =>
    obtain ⟨r, h1, h2, rfl⟩ := hp
    have hk' : Kept ord σ C (w.store.updateStatus b u (.complete (Cli.outcome ord r))).1 := hk.update b fun s1 _ =>
      .result ⟨c, r, hC, h1, h2, CliProgram.verdict_iff.2 ⟨rfl, rfl⟩⟩
    simp only [step]
    rcases hu : w.store.updateStatus b u (.complete (Cli.outcome ord r)) with ⟨τ, e | e⟩
    · rw [hu] at hk'
      exact ⟨.inr (refuses_sent (refuses_failure _)), .inl ⟨rfl, by rintro k ⟨⟩⟩, hs, hn, hk'⟩
    · rw [hu] at hk'
      refine ⟨.inl ?_, .inl ⟨rfl, by rintro k ⟨⟩⟩, hs, hn, hk'⟩
      rw [sent, if_neg (by rw [h1.1]; decide)]
      exact .taken h1 h2 ((objectOf_iff (by simp [NoDupKeys])).2 rfl)
  | done rep => exact ⟨hp, .inl ⟨rfl, by rintro k ⟨⟩⟩, hs, hn, hk⟩

theorem next_inv {ord : MapOrder} {σ : Store} {C : Call → Prop} {w : Server} (h : Inv ord σ C w) (e : Move)
    (hC : ∀ c, e = .arrive c → C c) : Inv ord σ C (next ord w e) := by
  unfold next
  split
  · exact h
  cases e with
  | arrive c =>
    refine ⟨?_, ?_, ?_, h.shown, h.notified, h.stopped, h.kept⟩
    · intro x hx
      rcases List.mem_append.1 hx with hx | hx
      · exact h.came x hx
      · cases List.mem_singleton.1 hx; exact hC c rfl
    · intro x hx
      rcases List.mem_append.1 hx with hx | hx
      · exact h.points x hx
      · cases List.mem_singleton.1 hx; exact enter_ok ord σ C c
    · rintro ⟨c', k, hx⟩
      rcases List.mem_append.1 hx with hx | hx
      · exact h.display ⟨c', k, hx⟩
      · simp only [List.mem_singleton, Prod.mk.injEq] at hx
        exact absurd hx.2.symm (not_tell_enter c k)
  | step i b =>
    simp only
    cases hi : w.tasks[i]? with
    | none => exact h
    | some x =>
      obtain ⟨c, p⟩ := x
      have hm : (c, p) ∈ w.tasks := List.mem_of_getElem? hi
      have hs := step_ok (p := p) b (h.came _ hm) (h.points _ hm) (fun ⟨k, e⟩ => h.display ⟨c, k, e ▸ hm⟩)
        h.shown h.notified h.kept
      have hst := (step_keeps ord b c w p).2.1
      show Inv ord σ C { (step ord b c w p).1 with tasks := w.tasks.set i (c, (step ord b c w p).2) }
      refine ⟨?_, ?_, ?_, hs.shown, hs.notified, fun h' => h.stopped (hst ▸ h'), hs.kept⟩
      · intro x hx
        rcases List.mem_or_eq_of_mem_set hx with hx | rfl
        · exact h.came x hx
        · exact h.came (c, p) hm
      · intro x hx
        rcases List.mem_or_eq_of_mem_set hx with hx | rfl
        · exact h.points x hx
        · exact hs.point
      · rintro ⟨c', k, hx⟩
        rcases hs.display with ⟨e, hk⟩ | hd
        · rcases List.mem_or_eq_of_mem_set hx with hx | hx
          · show Shows ord σ C (step ord b c w p).1.display
            rw [e]
            exact h.display ⟨c', k, hx⟩
          · simp only [Prod.mk.injEq] at hx
            exact absurd hx.2.symm (hk k)
        · exact hd
  | abandon i =>
    refine ⟨fun x hx => h.came x (List.mem_of_mem_eraseIdx hx), fun x hx => h.points x (List.mem_of_mem_eraseIdx hx),
      fun ⟨c, k, hx⟩ => h.display ⟨c, k, List.mem_of_mem_eraseIdx hx⟩, h.shown, h.notified, h.stopped, h.kept⟩
  | main =>
    refine ⟨h.came, h.points, h.display, h.shown, h.notified, fun h' => ?_, h.kept⟩
    rcases Bool.or_eq_true_iff.1 h' with h' | h'
    · exact h.stopped h'
    · exact h.notified h'
  | exit => exact ⟨h.came, h.points, h.display, h.shown, h.notified, h.stopped, h.kept⟩

theorem run_inv {ord : MapOrder} {σ : Store} {C : Call → Prop} (es : List Move) : ∀ {w : Server}, Inv ord σ C w →
    (∀ c, Came es c → C c) → Inv ord σ C (run ord w es) := by
  induction es with
  | nil => intro w h _; exact h
  | cons e es ih =>
    intro w h hC
    exact ih (next_inv h e fun c hc => hC c (by rw [Came, hc]; exact List.mem_cons_self))
      fun c hc => hC c (List.mem_cons_of_mem _ hc)

theorem begin_inv (ord : MapOrder) (σ : Store) (C : Call → Prop) : Inv ord σ C (begin σ) := by
  refine ⟨by simp [begin], by simp [begin], by simp [begin], by simp [begin], by simp [begin], by simp [begin], ?_⟩
  intro u
  show match σ.get u with
    | none => σ.get u = none
    | some s => ∃ st, σ.get u = some { s with status := st } ∧ Turns ord σ C u s.status st
  cases h : σ.get u with
  | none => rfl
  | some s => exact ⟨s.status, rfl, .same⟩

theorem inv_of_run (ord : MapOrder) (σ : Store) (es : List Move) :
    Inv ord σ (Came es) (run ord (begin σ) es) :=
  run_inv es (begin_inv ord σ _) fun _ h => h

end CliTasks

/-- **C106** Whatever the order in which the handlers take their steps, with handlers dropped and the session
store found locked at any time: every status displayed is accounted for by a request that came, a result by a
response delivered for a stored session, with the verdict of that response; the program only stops after such a
response has come; no session appears or disappears, nothing but its status changes, and its status only to
that of a request that was asked for or of a response that was delivered for that session. -/
theorem C106_result (ord : MapOrder) (σ : Store) (es : List Move) :
    (∀ d ∈ (run ord (begin σ) es).shown, Shows ord σ (Came es) d) ∧
    ((run ord (begin σ) es).stopped = true → ∃ c, Came es c ∧ Concludes σ c) ∧
    ∀ u, (σ.get u = none → (run ord (begin σ) es).store.get u = none) ∧
      ∀ s, σ.get u = some s → ∃ st, (run ord (begin σ) es).store.get u = some { s with status := st } ∧
        Turns ord σ (Came es) u s.status st := by
  have h := inv_of_run ord σ es
  refine ⟨h.shown, h.stopped, fun u => ⟨fun h0 => ?_, fun s h0 => ?_⟩⟩
  · have := h.kept u; simp only [h0] at this; exact this
  · have := h.kept u; simp only [h0] at this; exact this

/-- **C106** Whatever the order of the steps, what is sent for a request is a refusal, the answer to a preflight
request, the stored request object of the session that was asked for, or the acceptance of a response delivered
for a stored session. -/
theorem C106_answers (ord : MapOrder) (σ : Store) (es : List Move) (c : Call) (rep : Reply)
    (h : (c, Point.done rep) ∈ (run ord (begin σ) es).tasks) :
    Came es c ∧ (Grants σ c (sent c rep) ∨ Refuses (sent c rep)) :=
  ⟨(inv_of_run ord σ es).came _ h, (inv_of_run ord σ es).points _ h⟩

/-- **C106** A response is accepted only when its verdict has been stored in its session: at some moment of the
execution, the session had it. -/
theorem C106_stored (ord : MapOrder) (σ : Store) (es : List Move) (c : Call) (doc : Json)
    (h : (c, Point.done ⟨200, .json doc⟩) ∈ (run ord (begin σ) es).tasks) :
    ∃ u r o d s es1 es2, es = es1 ++ es2 ∧ Submits u r c ∧ CliVerdict ord r o d ∧
      (run ord (begin σ) es1).store.get u = some s ∧ s.status = .complete o := by
  induction es using List.reverseRecOn with
  | nil => simp [run, begin] at h
  | append_singleton es e ih =>
    have more : (c, Point.done ⟨200, .json doc⟩) ∈ (run ord (begin σ) es).tasks →
        ∃ u r o d s es1 es2, es ++ [e] = es1 ++ es2 ∧ Submits u r c ∧ CliVerdict ord r o d ∧
          (run ord (begin σ) es1).store.get u = some s ∧ s.status = .complete o := fun h => by
      obtain ⟨u, r, o, d, s, es1, es2, rfl, h1⟩ := ih h
      exact ⟨u, r, o, d, s, es1, es2 ++ [e], List.append_assoc .., h1⟩
    have er : run ord (begin σ) (es ++ [e]) = next ord (run ord (begin σ) es) e := by
      rw [run, List.foldl_append]; rfl
    have hi := inv_of_run ord σ es
    have h' := h
    rw [er] at h
    generalize hw : run ord (begin σ) es = w at *
    unfold next at h
    split at h
    · exact more h
    rename_i hx
    cases e with
    | arrive c' =>
      rcases List.mem_append.1 h with h | h
      · exact more h
      · simp only [List.mem_singleton, Prod.mk.injEq] at h
        obtain ⟨rfl, h⟩ := h
        rcases enter_cases c with ⟨u, he, -⟩ | ⟨u, he, -⟩ | ⟨rep, he, hr⟩
        · rw [he] at h; cases h
        · rw [he] at h; cases h
        · rw [he] at h; cases h
          rcases hr with ⟨-, h⟩ | h
          · cases h
          · exact absurd h.1 (by simp)
    | step i b =>
      simp only at h
      cases hti : w.tasks[i]? with
      | none => rw [hti] at h; exact more h
      | some x =>
        obtain ⟨c', p⟩ := x
        simp only [hti] at h
        have hm : (c', p) ∈ w.tasks := List.mem_of_getElem? hti
        rcases List.mem_or_eq_of_mem_set h with h | h
        · exact more h
        simp only [Prod.mk.injEq] at h
        obtain ⟨rfl, h⟩ := h
        have hp := hi.points _ hm
        -- the only step that leads there
        have : (∃ u o, p = .record u o ∧ b = false) ∨ p = .done ⟨200, .json doc⟩ := by
          revert h
          cases p with
          | fetch u =>
            simp only [step]
            split
            · simp [CliHttp.failure]
            · split <;> simp
          | fetchGot u s => simp only [step]; split <;> simp [CliHttp.failure]
          | fetched => simp [step]
          | tell => simp [step]
          | print d k => cases k <;> simp [step, After.go]
          | respond => simp [step]
          | parse => simp only [step]; split <;> simp [CliHttp.failure]
          | lookUp => simp only [step]; split <;> simp [CliHttp.failure]
          | judge => simp [step]
          | notify => simp [step]
          | record u o =>
            intro h
            cases b with
            | false => exact .inl ⟨u, o, rfl, rfl⟩
            | true => simp [step, Store.updateStatus, CliHttp.failure] at h
          | done rep => simp only [step]; intro h; exact .inr h.symm
        rcases this with ⟨u, o, rfl, rfl⟩ | rfl
        · obtain ⟨r, h1, h2, rfl⟩ := hp
          have hg : ∃ s, w.store.get u = some s := by
            have := hi.kept u
            cases h0 : σ.get u with
            | none => exact absurd h0 h2
            | some s0 =>
              simp only [h0] at this
              obtain ⟨st, h, -⟩ := this
              exact ⟨_, h⟩
          obtain ⟨s, hg⟩ := hg
          refine ⟨u, r, _, _, { s with status := .complete (Cli.outcome ord r) }, es ++ [.step i false], [],
            (List.append_nil _).symm, h1, CliProgram.verdict_iff.2 ⟨rfl, rfl⟩, ?_, rfl⟩
          rw [er]
          simp only [next, if_neg hx, hti, step, Store.updateStatus, hg, Bool.false_eq_true, if_false]
          simp [Store.get_insert]
        · exact more hm
    | abandon i => exact more (List.mem_of_mem_eraseIdx h)
    | main => exact more h
    | exit => exact more h

/-! ## What the order of the steps does to the console -/

namespace CliTasks

theorem not_concludes {σ : Store} {c : Call} {u : Uuid} {r : AuthorizationResponse} (hm : c.method = c!"POST")
    (hf : ForSession c!"/response/" u c) (hl : c.body.length ≤ 2097152) (hb : ∃ t, c.body = utf8 t)
    (hn : ¬ Concludes σ c) (hr : AuthorizationResponse.ofForm c.body = .ok r) : σ.get u = none := by
  by_contra h
  exact hn ⟨u, r, h, hm, hf, hl, hb, hr⟩

end CliTasks

/-- **C106** The result can remain unseen: for every response delivered for a stored session and every other
request that brings some text for any session id but no response for a stored session, there is an execution
with just these two requests in which nothing is dropped, every handler finishes, the session store is never
found locked, the verdict is stored and the program stops, but no result is ever displayed. -/
theorem C106_result_unseen (ord : MapOrder) (σ : Store) (u : Uuid) (r : AuthorizationResponse) (c c' : Call)
    (o : Outcome) (d : Display) (hu : σ.get u ≠ none) (hc : Submits u r c) (hv : CliVerdict ord r o d)
    (ht : Tries c') (hn : ¬ Concludes σ c') :
    ∃ es, Orderly es ∧ (∀ x, Came es x ↔ x = c ∨ x = c') ∧
      (run ord (begin σ) es).stopped = true ∧ AllDone (run ord (begin σ) es) ∧
      (∃ s, (run ord (begin σ) es).store.get u = some s ∧ s.status = .complete o) ∧
      ∀ x ∈ (run ord (begin σ) es).shown, ¬ IsResult x := by
  obtain ⟨rfl, -⟩ := CliProgram.verdict_iff.1 hv
  obtain ⟨hm, hf, hl, hb, hr⟩ := hc
  obtain ⟨hm', ⟨u', hf'⟩, hl', hb'⟩ := ht
  have e := enter_tries hm hf hl hb
  have e' := enter_tries hm' hf' hl' hb'
  cases hs : σ.get u with
  | none => exact absurd hs hu
  | some s =>
  refine ⟨[.arrive c, .arrive c', .step 0 false, .step 0 false, .step 0 false, .step 0 false, .step 0 false,
    .step 0 false, .step 1 false, .step 0 false, .step 0 false, .step 0 false, .step 0 false,
    .step 1 false, .step 1 false, .step 1 false, .step 1 false, .main], ?_, ?_, ?_⟩
  · intro x hx
    simp only [List.mem_cons, List.not_mem_nil, or_false] at hx
    rcases hx with rfl | rfl | rfl | rfl | rfl | rfl | rfl | rfl | rfl | rfl | rfl | rfl | rfl | rfl | rfl | rfl | rfl | rfl <;> simp
  · intro x; simp [Came]
  · cases hr' : AuthorizationResponse.ofForm c'.body with
    | error x =>
      simp [run, begin, next, step, e, e', After.go, hr, hr', hs, Store.getSession, Store.updateStatus,
        AllDone, IsResult, Store.get_insert]
    | ok r' =>
      have h0 := not_concludes hm' hf' hl' hb' hn hr'
      have hne : u' ≠ u := by rintro rfl; rw [hs] at h0; cases h0
      simp [run, begin, next, step, e, e', After.go, hr, hr', hs, h0, hne, Store.getSession, Store.updateStatus,
        AllDone, IsResult, Store.get_insert]

/-- **C106** The result can be displayed twice: in the same situation there is an execution, again with nothing
dropped and every handler finishing, in which the result of the one response is displayed twice. -/
theorem C106_result_twice (ord : MapOrder) (σ : Store) (u : Uuid) (r : AuthorizationResponse) (c c' : Call)
    (o : Outcome) (d : Display) (hu : σ.get u ≠ none) (hc : Submits u r c) (hv : CliVerdict ord r o d)
    (ht : Tries c') (hn : ¬ Concludes σ c') :
    ∃ es, Orderly es ∧ (∀ x, Came es x ↔ x = c ∨ x = c') ∧
      (run ord (begin σ) es).stopped = true ∧ AllDone (run ord (begin σ) es) ∧
      IsResult d ∧ (run ord (begin σ) es).shown = [.responseReceived, d, d] := by
  have hres : IsResult d := by cases hv <;> exact trivial
  obtain ⟨rfl, rfl⟩ := CliProgram.verdict_iff.1 hv
  obtain ⟨hm, hf, hl, hb, hr⟩ := hc
  obtain ⟨hm', ⟨u', hf'⟩, hl', hb'⟩ := ht
  have e := enter_tries hm hf hl hb
  have e' := enter_tries hm' hf' hl' hb'
  cases hs : σ.get u with
  | none => exact absurd hs hu
  | some s =>
  refine ⟨[.arrive c, .arrive c', .step 0 false, .step 0 false, .step 0 false, .step 0 false, .step 0 false,
    .step 1 false, .step 0 false, .step 1 false, .step 1 false, .step 0 false, .step 0 false, .step 0 false, .step 0 false,
    .step 1 false, .step 1 false, .main], ?_, ?_, ?_⟩
  · intro x hx
    simp only [List.mem_cons, List.not_mem_nil, or_false] at hx
    rcases hx with rfl | rfl | rfl | rfl | rfl | rfl | rfl | rfl | rfl | rfl | rfl | rfl | rfl | rfl | rfl | rfl | rfl | rfl <;> simp
  · intro x; simp [Came]
  · cases hr' : AuthorizationResponse.ofForm c'.body with
    | error x =>
      simp [run, begin, next, step, e, e', After.go, hr, hr', hs, Store.getSession, Store.updateStatus,
        AllDone, hres]
    | ok r' =>
      have h0 := not_concludes hm' hf' hl' hb' hn hr'
      have hne : u' ≠ u := by rintro rfl; rw [hs] at h0; cases h0
      simp [run, begin, next, step, e, e', After.go, hr, hr', hs, h0, hne, Store.getSession, Store.updateStatus,
        AllDone, hres, Store.get_insert]

/-- **C106** A result can be displayed and the program stop although its response is refused and no session gets
an outcome: the lock of the session store may be held by the handler of another request just when the verdict
is to be stored. -/
theorem C106_result_refused (ord : MapOrder) (σ : Store) (u u' : Uuid) (r : AuthorizationResponse) (c c' : Call)
    (o : Outcome) (d : Display) (hu : σ.get u ≠ none) (hc : Submits u r c) (hv : CliVerdict ord r o d)
    (ht : Asks u' c') :
    ∃ es rep, (∀ x, Came es x ↔ x = c ∨ x = c') ∧ (run ord (begin σ) es).stopped = true ∧
      IsResult d ∧ (run ord (begin σ) es).shown = [.responseReceived, d] ∧ (run ord (begin σ) es).store = σ ∧
      (run ord (begin σ) es).tasks = [(c, .done rep), (c', .fetch u')] ∧ rep.status = 500 := by
  have hres : IsResult d := by cases hv <;> exact trivial
  obtain ⟨rfl, rfl⟩ := CliProgram.verdict_iff.1 hv
  obtain ⟨hm, hf, hl, hb, hr⟩ := hc
  have e := enter_tries hm hf hl hb
  have e' := enter_asks ht
  cases hs : σ.get u with
  | none => exact absurd hs hu
  | some s =>
  refine ⟨[.arrive c, .arrive c', .step 0 false, .step 0 false, .step 0 false, .step 0 false, .step 0 false,
    .step 0 false, .step 0 false, .step 0 false, .step 0 false, .step 0 true, .main],
    CliHttp.failure c!"Failed to verify response", ?_, ?_⟩
  · intro x; simp [Came]
  · simp [run, begin, next, step, e, e', After.go, hr, hs, Store.getSession, Store.updateStatus, hres, CliHttp.failure]

/-! ## Cases -/

-- a response for the stored session and a text that is no response for it
example : ∃ es, Orderly es ∧ (run id (begin routeStore) es).stopped = true ∧
    AllDone (run id (begin routeStore) es) ∧ ∀ x ∈ (run id (begin routeStore) es).shown, ¬ IsResult x := by
  refine ⟨[.arrive (cliPost (c!"/response/" ++ routeId) c!"response=a"),
    .arrive (cliPost (c!"/response/" ++ routeId) c!"x=1"),
    .step 0 false, .step 0 false, .step 0 false, .step 0 false, .step 0 false,
    .step 0 false, .step 1 false, .step 0 false, .step 0 false, .step 0 false, .step 0 false,
    .step 1 false, .step 1 false, .step 1 false, .step 1 false, .main], ?_, ?_, ?_, ?_⟩
  · intro x hx
    simp only [List.mem_cons, List.not_mem_nil, or_false] at hx
    rcases hx with rfl | rfl | rfl | rfl | rfl | rfl | rfl | rfl | rfl | rfl | rfl | rfl | rfl | rfl | rfl | rfl | rfl | rfl <;> simp
  · decide +kernel
  · have : (run id (begin routeStore) [.arrive (cliPost (c!"/response/" ++ routeId) c!"response=a"),
        .arrive (cliPost (c!"/response/" ++ routeId) c!"x=1"),
        .step 0 false, .step 0 false, .step 0 false, .step 0 false, .step 0 false,
        .step 0 false, .step 1 false, .step 0 false, .step 0 false, .step 0 false, .step 0 false,
        .step 1 false, .step 1 false, .step 1 false, .step 1 false, .main]).tasks.map Prod.snd =
        [.done ⟨200, .json (.obj [])⟩, .done (CliHttp.failure c!"Failed to parse authorization response")] := by
      decide +kernel
    intro x hx
    have := this ▸ List.mem_map_of_mem (f := Prod.snd) hx
    simp only [List.mem_cons, List.not_mem_nil, or_false] at this
    rcases this with h | h <;> exact ⟨_, h⟩
  · have : (run id (begin routeStore) [.arrive (cliPost (c!"/response/" ++ routeId) c!"response=a"),
        .arrive (cliPost (c!"/response/" ++ routeId) c!"x=1"),
        .step 0 false, .step 0 false, .step 0 false, .step 0 false, .step 0 false,
        .step 0 false, .step 1 false, .step 0 false, .step 0 false, .step 0 false, .step 0 false,
        .step 1 false, .step 1 false, .step 1 false, .step 1 false, .main]).shown =
        [.responseReceived, .responseReceived, .responseReceived] := by decide +kernel
    rw [this]
    intro x hx
    simp only [List.mem_cons, List.not_mem_nil, or_false, or_self] at hx
    subst hx
    exact id

-- two interleaved fetches of the same request: both get the request object, the session is fetched once
example : (run id (begin routeStore) [.arrive (cliGet (c!"/request/" ++ routeId)),
      .arrive { cliGet (c!"/request/" ++ routeId) with method := c!"HEAD" }, .step 1 false, .step 0 false, .step 0 false,
      .step 1 false, .step 1 false, .step 0 false, .step 0 false, .step 0 false, .step 1 false, .step 1 false,
      .main]).shown = [.requestFetched, .requestFetched] := by decide +kernel

end Oid4vp
