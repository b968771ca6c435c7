import Verif.Props.VerifierTasks
/-!
# A result is kept

Properties of `Model/VerifierTasks`: an exchange in its proper order is not disturbed by other requests.
-/

set_option autoImplicit false

namespace Oid4vp
open Spec VerifierTasks
open VerifierHttp (Server Reply Body)

namespace VerifierTasks

/-! ## What a step does to one session -/

/-- What a step does to the session `u`. -/
inductive Touch (x : Arrival) (σ : Store) (u : Uuid) : Point → Option Session → Prop
  | not {p} : Touch x σ u p (σ.get u)
  | made {n q} : x.1 = u → Touch x σ u (.create n) q
  | marked {s} : Touch x σ u (.fetchGot u s) ((σ.get u).map fun s => { s with status := .sentRequest })
  | recorded {o} : Touch x σ u (.record u o) ((σ.get u).map fun s => { s with status := .complete o })

theorem step_touch (srv : Server) (b : Bool) (x : Arrival) (σ : Store) (p : Point) (u : Uuid) :
    Touch x σ u p ((step srv b x σ p).1.get u) := by
  cases p with
  | done rep => exact .not
  | create n =>
    show Touch x σ u _ ((create srv b x n σ).1.get u)
    by_cases hu : x.1 = u
    · exact .made hu
    · have : (create srv b x n σ).1.get u = σ.get u := by
        unfold create
        dsimp only
        cases hcon : RequestBuilder.construct srv.app.verifier
            (((RequestBuilder.new srv.app.verifier).withDcqlQuery VerifierApp.pidQuery).withRequestParameter
              (Nonce.mk (unwrapOr x.2.1.print n))) x.1 srv.app.walletMetadata with
        | error e => rfl
        | ok q =>
          obtain ⟨s, url⟩ := q
          cases b with
          | true => rfl
          | false =>
            have hs : s.uuid = x.1 := by
              obtain ⟨-, -, -, -, -, -, -, -, -, -, -, -, hu⟩ := construct_ok hcon
              exact hu
            simp only [Store.initiate, Bool.false_eq_true, if_false, Store.get_insert, hs]
            rw [if_neg fun h => hu h.symm]
      rw [this]
      exact .not
  | fetch v => simp only [step]; split <;> exact .not
  | poll v => simp only [step]; split <;> exact .not
  | lookUp v r => simp only [step]; split <;> exact .not
  | fetchGot v s =>
    have h := updateStatus_get b v u .sentRequest σ
    have : Touch x σ u (.fetchGot v s) ((σ.updateStatus b v .sentRequest).1.get u) := by
      rw [h]
      split
      · rename_i h; obtain ⟨rfl, -⟩ := h; exact .marked
      · exact .not
    simp only [step]
    split <;> rename_i h <;> rw [h] at this <;> exact this
  | record v o =>
    have h := updateStatus_get b v u (.complete o) σ
    have : Touch x σ u (.record v o) ((σ.updateStatus b v (.complete o)).1.get u) := by
      rw [h]
      split
      · rename_i h; obtain ⟨rfl, -⟩ := h; exact .recorded
      · exact .not
    simp only [step]
    split <;> rename_i h <;> rw [h] at this <;> exact this

/-- What a step leads to. -/
theorem step_point (srv : Server) (b : Bool) (x : Arrival) (σ : Store) (p : Point) :
    (∃ rep, (step srv b x σ p).2 = .done rep) ∨
    (∃ u s, p = .fetch u ∧ σ.get u = some s ∧ s.status.lt .sentRequest = true ∧ (step srv b x σ p).2 = .fetchGot u s) ∨
    ∃ u r o, p = .lookUp u r ∧ (step srv b x σ p).2 = .record u o := by
  cases p with
  | done rep => exact .inl ⟨rep, rfl⟩
  | create n => exact .inl ⟨_, rfl⟩
  | fetch u =>
    simp only [step]
    cases hg : σ.getSession b u with
    | error e => exact .inl ⟨_, rfl⟩
    | ok s =>
      dsimp only
      by_cases hl : s.status.lt .sentRequest = true
      · exact .inr (.inl ⟨u, s, rfl, getSession_ok hg, hl, if_pos hl⟩)
      · exact .inl ⟨_, if_neg hl⟩
  | fetchGot u s => simp only [step]; split <;> exact .inl ⟨_, rfl⟩
  | poll u => simp only [step]; split <;> exact .inl ⟨_, rfl⟩
  | record u o => simp only [step]; split <;> exact .inl ⟨_, rfl⟩
  | lookUp u r =>
    simp only [step]
    split
    · exact .inl ⟨_, rfl⟩
    · exact .inr (.inr ⟨u, r, _, rfl, rfl⟩)

/-! ## Until the response comes -/

/-- A task that will make a session with the id. -/
def making (u : Uuid) (t : Arrival × Point) : Bool :=
  match t.2 with
  | .create _ => t.1.1 == u
  | _ => false

theorem making_iff {u : Uuid} {x : Arrival} {p : Point} : making u (x, p) = true ↔ x.1 = u ∧ ∃ n, p = .create n := by
  cases p <;> simp [making]

/-- One or none. -/
def one : Option Session → Nat
  | none => 0
  | some _ => 1

/-- The sessions with the id, now or soon. -/
def holds (w : Running) (u : Uuid) : Nat := w.tasks.countP (making u) + one (w.store.get u)

theorem holds_next (srv : Server) (w : Running) (e : Move) (u : Uuid) :
    holds (next srv w e) u ≤ holds w u + (arrivals [e]).countP (fun x => decide (Begins x.2.2 ∧ x.1 = u)) := by
  cases e with
  | arrive x =>
    simp only [holds, next, List.countP_append, List.countP_singleton, arrivals, decide_eq_true_eq]
    by_cases hm : making u (x, enter srv x.2.2) = true
    · obtain ⟨h1, n, h2⟩ := making_iff.1 hm
      rw [if_pos hm, if_pos ⟨(enter_of h2).1, h1⟩]
      omega
    · rw [if_neg hm]; omega
  | abandon i =>
    simp only [holds, next, arrivals, List.countP_nil]
    have := (List.eraseIdx_sublist w.tasks i).countP_le (p := making u)
    omega
  | step i b =>
    simp only [next, arrivals, List.countP_nil, Nat.add_zero]
    cases hi : w.tasks[i]? with
    | none => exact Nat.le_refl _
    | some y =>
      obtain ⟨x, p⟩ := y
      obtain ⟨hl, hi'⟩ := List.getElem?_eq_some_iff.1 hi
      have hc := List.countP_set (p := making u) (l := w.tasks) (i := i) (a := (x, (step srv b x w.store p).2)) hl
      rw [hi'] at hc
      have hp' : making u (x, (step srv b x w.store p).2) = false := by
        rcases step_point srv b x w.store p with ⟨rep, e⟩ | ⟨u, s, -, -, -, e⟩ | ⟨u, r, o, -, e⟩ <;> rw [e] <;> rfl
      rw [hp'] at hc
      have ht := step_touch srv b x w.store p u
      simp only [holds]
      rw [hc]
      by_cases hm : making u (x, p) = true
      · have : 0 < w.tasks.countP (making u) := List.countP_pos_iff.2 ⟨_, List.mem_of_getElem? hi, hm⟩
        rw [if_pos hm]
        have h1 : one ((step srv b x w.store p).1.get u) ≤ 1 := by
          cases (step srv b x w.store p).1.get u <;> simp [one]
        simp only [Bool.false_eq_true, if_false]
        omega
      · rw [if_neg hm]
        have he : one ((step srv b x w.store p).1.get u) = one (w.store.get u) := by
          generalize (step srv b x w.store p).1.get u = q at ht
          cases ht with
          | not => rfl
          | made h => exact absurd (making_iff.2 ⟨h, _, rfl⟩) hm
          | marked => cases w.store.get u <;> rfl
          | recorded => cases w.store.get u <;> rfl
        simp only [he, Bool.false_eq_true, if_false]
        omega

theorem arrivals_append (es es' : List Move) : arrivals (es ++ es') = arrivals es ++ arrivals es' := by
  induction es with
  | nil => rfl
  | cons e es ih => cases e <;> simp [arrivals, ih]

theorem holds_run (srv : Server) (σ : Store) (es : List Move) (u : Uuid) :
    holds (run srv (begin σ) es) u ≤
      (arrivals es).countP (fun x => decide (Begins x.2.2 ∧ x.1 = u)) + one (σ.get u) := by
  induction es using List.reverseRecOn with
  | nil => simp [run, begin, holds, arrivals]
  | append_singleton es e ih =>
    rw [run_snoc, arrivals_append, List.countP_append]
    have := holds_next srv (run srv (begin σ) es) e u
    omega

theorem drawnOnce_prefix {σ : Store} {es es' : List Move} {u : Uuid} (h : DrawnOnce σ (es ++ es') u) :
    DrawnOnce σ es u := by
  unfold DrawnOnce at *
  rw [arrivals_append, List.countP_append] at h
  omega

theorem holds_one {srv : Server} {σ : Store} {es : List Move} {u : Uuid} (h : DrawnOnce σ es u) :
    holds (run srv (begin σ) es) u ≤ 1 := by
  have := holds_run srv σ es u
  unfold DrawnOnce at h
  cases hc : σ.get u with
  | none => rw [hc] at h this; simp only [one, Option.isSome_none, Bool.false_eq_true, if_false] at h this; omega
  | some s => rw [hc] at h this; simp only [one, Option.isSome_some, if_true] at h this; omega

/-- A request object that was handed out is marked. -/
theorem marked_run (srv : Server) (σ : Store) (es : List Move) (u : Uuid) (hd : DrawnOnce σ es u) :
    ∀ x, Asks u x.2.2 → Granted (run srv (begin σ) es) x → ∃ s, (run srv (begin σ) es).store.get u = some s ∧
      s.status ≠ .sentRequestByReference := by
  induction es using List.reverseRecOn with
  | nil => rintro x - ⟨rep, h, -⟩; simp [run, begin] at h
  | append_singleton es e ih =>
    replace ih := ih (drawnOnce_prefix hd)
    have hinv := run_inv srv σ es
    have hone := holds_one (srv := srv) (drawnOnce_prefix hd)
    rw [run_snoc]
    generalize run srv (begin σ) es = w at *
    rintro x ha ⟨rep, hm, hr⟩
    cases e with
    | arrive y =>
      rcases List.mem_append.1 hm with hm | hm
      · exact ih x ha ⟨rep, hm, hr⟩
      · simp only [List.mem_singleton, Prod.mk.injEq] at hm
        obtain ⟨rfl, he⟩ := hm
        rw [enter_asks.2 ha] at he; cases he
    | abandon i => exact ih x ha ⟨rep, List.mem_of_mem_eraseIdx hm, hr⟩
    | step i b =>
      simp only [next] at hm ⊢
      cases hi : w.tasks[i]? with
      | none => rw [hi] at hm; exact ih x ha ⟨rep, hm, hr⟩
      | some q =>
        obtain ⟨y, p⟩ := q
        simp only [hi] at hm
        have hmem : (y, p) ∈ w.tasks := List.mem_of_getElem? hi
        have hok : Ok srv w.store y p := hinv _ hmem
        have old : (∃ s, w.store.get u = some s ∧ s.status ≠ .sentRequestByReference) →
            ∃ s, (step srv b y w.store p).1.get u = some s ∧ s.status ≠ .sentRequestByReference := by
          rintro ⟨s, hs, hn⟩
          have ht := step_touch srv b y w.store p u
          generalize (step srv b y w.store p).1.get u = q at ht ⊢
          cases ht with
          | not => exact ⟨s, hs, hn⟩
          | made h =>
            exfalso
            have : 0 < w.tasks.countP (making u) := List.countP_pos_iff.2 ⟨_, hmem, making_iff.2 ⟨h, _, rfl⟩⟩
            simp only [holds, hs, one] at hone
            omega
          | marked => exact ⟨{ s with status := .sentRequest }, by rw [hs]; rfl, by rintro ⟨⟩⟩
          | @recorded o => exact ⟨{ s with status := .complete o }, by rw [hs]; rfl, by rintro ⟨⟩⟩
        rcases List.mem_or_eq_of_mem_set hm with hm | hm
        · exact old (ih x ha ⟨rep, hm, hr⟩)
        · simp only [Prod.mk.injEq] at hm
          obtain ⟨rfl, he⟩ := hm
          have hen := enter_asks (srv := srv).2 ha
          cases p with
          | done rep' =>
            simp only [step, Point.done.injEq] at he
            subst he
            exact old (ih x ha ⟨rep, hmem, hr⟩)
          | fetch v =>
            have : v = u := by
              have h' : enter srv x.2.2 = .fetch v := hok
              rw [hen] at h'; cases h'; rfl
            subst this
            revert he
            simp only [step]
            cases hg : w.store.getSession b v with
            | error e => intro he; cases he; cases hr
            | ok s =>
              dsimp only
              split
              · intro he; cases he
              · rename_i hl
                intro _
                exact ⟨s, getSession_ok hg, by intro h; rw [h] at hl; exact hl (by decide)⟩
          | fetchGot v s =>
            obtain ⟨ha', -, hn⟩ := hok
            have : v = u := by
              have h' := enter_asks (srv := srv).2 ha'
              rw [hen] at h'; cases h'; rfl
            subst this
            cases hg : w.store.get v with
            | none => exact absurd hg hn
            | some s' =>
              cases b with
              | true => cases he; cases hr
              | false =>
                refine ⟨{ s' with status := .sentRequest }, ?_, by rintro ⟨⟩⟩
                simp [step, Store.updateStatus, hg, Store.get_insert]
          | record v o =>
            obtain ⟨r, hs, -⟩ := hok
            have h' := enter_submits (srv := srv).2 hs
            rw [hen] at h'; cases h'
          | create n => have h' : enter srv x.2.2 = .create n := hok; rw [hen] at h'; cases h'
          | poll v => have h' : enter srv x.2.2 = .poll v := hok; rw [hen] at h'; cases h'
          | lookUp v r => have h' : enter srv x.2.2 = .lookUp v r := hok; rw [hen] at h'; cases h'

/-! ## From then on -/

/-- What the handlers still may do about the session. -/
def Quiet (u : Uuid) (y : Arrival) (o : Outcome) (st : Status) (t : Arrival × Point) : Prop :=
  match t.2 with
  | .create _ => t.1.1 ≠ u
  | .fetchGot v _ => v ≠ u
  | .record v o' => v = u → o' = o
  | .lookUp v _ => v = u → t.1 = y
  | .done rep => t.1 = y → rep.status = 200 → st = .complete o
  | _ => True

/-- The session is as it was, or has the verdict. -/
def Kept (u : Uuid) (y : Arrival) (s : Session) (o : Outcome) (w : Running) (st : Status) : Prop :=
  w.store.get u = some { s with status := st } ∧ (st = s.status ∨ st = .complete o) ∧ ∀ t ∈ w.tasks, Quiet u y o st t

theorem kept_next {srv : Server} {u : Uuid} {y : Arrival} {r : AuthorizationResponse} {s : Session} {o : Outcome}
    (hs : s.status ≠ .sentRequestByReference) (hy : Submits u r y.2.2)
    (ho : ∀ s, o = VerifierApp.validator srv.app.decrypt s r) {w : Running} {st : Status} (hi : Inv srv w)
    (h : Kept u y s o w st) (e : Move) (ha : ∀ z, e = .arrive z → (∀ r', ¬ Submits u r' z.2.2) ∧ ¬ (Begins z.2.2 ∧ z.1 = u)) :
    ∃ st', Kept u y s o (next srv w e) st' ∧ (st = .complete o → st' = .complete o) := by
  have hey := enter_submits (srv := srv).2 hy
  obtain ⟨h1, h2, h3⟩ := h
  have hlt : ¬ st.lt .sentRequest = true := by
    intro h
    have := lt_two h
    rcases h2 with rfl | rfl
    · exact hs this
    · cases this
  cases e with
  | arrive z =>
    obtain ⟨hz, hb⟩ := ha z rfl
    refine ⟨st, ⟨h1, h2, fun t ht => ?_⟩, id⟩
    rcases List.mem_append.1 ht with ht | ht
    · exact h3 t ht
    · cases List.mem_singleton.1 ht
      have hg := enter_begun srv z.2.2
      cases he : enter srv z.2.2 with
      | create n => exact fun h => hb ⟨(enter_of he).1, h⟩
      | fetchGot v q => rw [he] at hg; exact hg.elim
      | record v q => rw [he] at hg; exact hg.elim
      | lookUp v r' => rintro rfl; exact absurd (enter_submits.1 he) (hz r')
      | done rep => rintro rfl; rw [hey] at he; cases he
      | fetch v => trivial
      | poll v => trivial
  | abandon i => exact ⟨st, ⟨h1, h2, fun t ht => h3 t (List.mem_of_mem_eraseIdx ht)⟩, id⟩
  | step i b =>
    simp only [next]
    cases hx : w.tasks[i]? with
    | none => exact ⟨st, ⟨h1, h2, h3⟩, id⟩
    | some q =>
      obtain ⟨x, p⟩ := q
      have hm : (x, p) ∈ w.tasks := List.mem_of_getElem? hx
      have hok : Ok srv w.store x p := hi _ hm
      have hq : Quiet u y o st (x, p) := h3 _ hm
      have keep : ∀ st', ((step srv b x w.store p).1.get u = some { s with status := st' }) →
          (st' = st ∨ st' = .complete o) → Quiet u y o st' (x, (step srv b x w.store p).2) →
          ∃ st', Kept u y s o ⟨(step srv b x w.store p).1, w.tasks.set i (x, (step srv b x w.store p).2)⟩ st' ∧
            (st = .complete o → st' = .complete o) := by
        intro st' g1 g2 g3
        refine ⟨st', ⟨g1, ?_, fun t ht => ?_⟩, ?_⟩
        · rcases g2 with rfl | rfl
          · exact h2
          · exact .inr rfl
        · rcases List.mem_or_eq_of_mem_set ht with ht | rfl
          · have := h3 t ht
            obtain ⟨t1, t2⟩ := t
            cases t2 with
            | done rep =>
              intro e1 e2
              rcases g2 with rfl | rfl
              · exact this e1 e2
              · rfl
            | _ => exact this
          · exact g3
        · rcases g2 with rfl | rfl
          · exact id
          · exact fun _ => rfl
      have ht := step_touch srv b x w.store p u
      cases p with
      | done rep => exact keep st h1 (.inl rfl) hq
      | create n =>
        refine keep st ?_ (.inl rfl) ?_
        · generalize (step srv b x w.store (.create n)).1.get u = q at ht ⊢
          cases ht with
          | not => exact h1
          | made h => exact absurd h hq
        · intro (e1 : x = y) _
          have h' : enter srv x.2.2 = .create n := hok
          rw [e1, hey] at h'; cases h'
      | fetch v =>
        refine keep st ?_ (.inl rfl) ?_
        · generalize (step srv b x w.store (.fetch v)).1.get u = q at ht ⊢
          cases ht with
          | not => exact h1
        · rcases step_point srv b x w.store (.fetch v) with ⟨rep, e⟩ | ⟨v', s', e1, e2, e3, e⟩ | ⟨v', r', o', e1, -⟩
          · rw [e]
            intro (e1 : x = y) _
            have h' : enter srv x.2.2 = .fetch v := hok
            rw [e1, hey] at h'; cases h'
          · rw [e]
            rintro rfl
            rw [h1] at e2
            cases e2
            exact hlt e3
          · cases e1
      | poll v =>
        refine keep st ?_ (.inl rfl) ?_
        · generalize (step srv b x w.store (.poll v)).1.get u = q at ht ⊢
          cases ht with
          | not => exact h1
        · rcases step_point srv b x w.store (.poll v) with ⟨rep, e⟩ | ⟨v', s', e1, -⟩ | ⟨v', r', o', e1, -⟩
          · rw [e]
            intro (e1 : x = y) _
            have h' : enter srv x.2.2 = .poll v := hok
            rw [e1, hey] at h'; cases h'
          · cases e1
          · cases e1
      | fetchGot v q =>
        refine keep st ?_ (.inl rfl) ?_
        · generalize (step srv b x w.store (.fetchGot v q)).1.get u = q at ht ⊢
          cases ht with
          | not => exact h1
          | marked => exact absurd rfl hq
        · rcases step_point srv b x w.store (.fetchGot v q) with ⟨rep, e⟩ | ⟨v', s', e1, -⟩ | ⟨v', r', o', e1, -⟩
          · rw [e]
            intro (e1 : x = y) _
            have h' := enter_asks (srv := srv).2 hok.1
            rw [e1, hey] at h'; cases h'
          · cases e1
          · cases e1
      | lookUp v r' =>
        have he : enter srv x.2.2 = .lookUp v r' := hok
        refine keep st ?_ (.inl rfl) ?_
        · generalize (step srv b x w.store (.lookUp v r')).1.get u = q at ht ⊢
          cases ht with
          | not => exact h1
        · simp only [step]
          cases hg : w.store.getSession b v with
          | error e => intro _ e2; cases e2
          | ok s' =>
            rintro rfl
            have e1 : x = y := hq rfl
            rw [e1, hey] at he
            cases he
            exact (ho s').symm
      | record v o' =>
        obtain ⟨r', g1, g2, g3⟩ := hok
        have he := enter_submits (srv := srv).2 g1
        by_cases hv : v = u
        · subst hv
          have e1 : o' = o := hq rfl
          subst e1
          cases b with
          | true => exact keep st h1 (.inl rfl) (fun _ e2 => by cases e2)
          | false =>
            refine keep (.complete o') ?_ (.inr rfl) ?_
            · simp [step, Store.updateStatus, h1, Store.get_insert]
            · simp only [step, Store.updateStatus, h1, Bool.false_eq_true, if_false]
              exact fun _ _ => rfl
        · refine keep st ?_ (.inl rfl) ?_
          · generalize (step srv b x w.store (.record v o')).1.get u = q at ht ⊢
            cases ht with
            | not => exact h1
            | recorded => exact absurd rfl hv
          · rcases step_point srv b x w.store (.record v o') with ⟨rep, e⟩ | ⟨v', s', e1, -⟩ | ⟨v', r', o', e1, -⟩
            · rw [e]
              intro (e1 : x = y) _
              rw [e1, hey] at he; cases he; exact absurd rfl hv
            · cases e1
            · cases e1

theorem kept_run {srv : Server} {u : Uuid} {y : Arrival} {r : AuthorizationResponse} {s : Session} {o : Outcome}
    (hs : s.status ≠ .sentRequestByReference) (hy : Submits u r y.2.2)
    (ho : ∀ s, o = VerifierApp.validator srv.app.decrypt s r) (es : List Move) : ∀ {w : Running} {st : Status},
    Inv srv w → Kept u y s o w st →
    (∀ z, Arrives es z → (∀ r', ¬ Submits u r' z.2.2) ∧ ¬ (Begins z.2.2 ∧ z.1 = u)) →
    ∃ st', Kept u y s o (run srv w es) st' ∧ (st = .complete o → st' = .complete o) := by
  induction es with
  | nil => intro w st _ h _; exact ⟨st, h, id⟩
  | cons e es ih =>
    intro w st hi h ha
    obtain ⟨st1, h1, h2⟩ := kept_next hs hy ho hi h e fun z hz => ha z (hz ▸ List.mem_cons_self ..)
    obtain ⟨st2, h3, h4⟩ := ih (next_inv hi e) h1 fun z hz => ha z (List.mem_cons_of_mem _ hz)
    exact ⟨st2, h3, h4 ∘ h2⟩

theorem run_append (srv : Server) (w : Running) (es es' : List Move) :
    run srv w (es ++ es') = run srv (run srv w es) es' := by simp only [run, List.foldl_append]

/-- The situation when the response comes. -/
theorem kept_begin {srv : Server} {σ : Store} {es : List Move} {x y : Arrival} {u : Uuid} {r : AuthorizationResponse}
    (hd : DrawnOnce σ es u) (hx : Asks u x.2.2) (hg : Granted (run srv (begin σ) es) x)
    (hq : ∀ z p, (z, p) ∈ (run srv (begin σ) es).tasks → Asks u z.2.2 → ∃ rep, p = .done rep)
    (hy : Submits u r y.2.2) (hn : ∀ z r', Arrives es z → ¬ Submits u r' z.2.2) (o : Outcome) :
    ∃ s, s.status ≠ .sentRequestByReference ∧ (run srv (begin σ) es).store.get u = some s ∧
      Kept u y s o (next srv (run srv (begin σ) es) (.arrive y)) s.status := by
  obtain ⟨s, h1, h2⟩ := marked_run srv σ es u hd x hx hg
  have hone := holds_one (srv := srv) hd
  have hinv := run_inv srv σ es
  have harr := run_past srv σ es
  refine ⟨s, h2, h1, h1, .inl rfl, fun t ht => ?_⟩
  rcases List.mem_append.1 ht with ht | ht
  · obtain ⟨z, p⟩ := t
    have hok : Ok srv (run srv (begin σ) es).store z p := hinv _ ht
    have ha : Arrives es z := (harr _ ht).1
    cases p with
    | create n =>
      intro (h : z.1 = u)
      have : 0 < (run srv (begin σ) es).tasks.countP (making u) :=
        List.countP_pos_iff.2 ⟨_, ht, making_iff.2 ⟨h, _, rfl⟩⟩
      simp only [holds, h1, one] at hone
      omega
    | fetchGot v q =>
      rintro rfl
      obtain ⟨rep, h⟩ := hq z _ ht hok.1
      cases h
    | record v o' =>
      rintro rfl
      obtain ⟨r', h, -⟩ := hok
      exact absurd h (hn z r' ha)
    | lookUp v r' =>
      rintro rfl
      exact absurd (enter_submits.1 hok) (hn z r' ha)
    | done rep =>
      intro (h : z = y)
      exact absurd hy (hn y r (h ▸ ha))
    | fetch v => trivial
    | poll v => trivial
  · cases List.mem_singleton.1 ht
    show Quiet u y o s.status (y, enter srv y.2.2)
    rw [enter_submits.2 hy]
    exact fun _ => rfl

theorem split_arrives {es1 es2 a b : List Move} {y : Arrival} (h : es1 ++ .arrive y :: es2 = a ++ b)
    (hy : ¬ Arrives es1 y) (ha : Arrives a y) : ∃ c, a = es1 ++ .arrive y :: c ∧ es2 = c ++ b := by
  rcases List.append_eq_append_iff.1 h with ⟨c, rfl, h'⟩ | ⟨c, rfl, -⟩
  · cases c with
    | nil => rw [List.append_nil] at ha; exact absurd ha hy
    | cons e c =>
      obtain ⟨h1, h2⟩ := List.cons.inj h'
      subst h1
      exact ⟨c, rfl, h2⟩
  · exact absurd (List.mem_append_left _ ha) hy

end VerifierTasks

/-- **C108** An exchange in its proper order is not disturbed: let the request object of a session have been handed
out, and let no other request for it be under way when a response for the session comes, the only one. Whatever
else is requested before and afterwards, of this and other sessions, in whatever order the steps are taken, with
handlers dropped and the session store found locked at any time: the response is accepted, unless the session
store was found locked; from the moment it has been accepted the session has the verdict on it, and whoever polls
its status afterwards is shown that, unless the session store was found locked. -/
theorem C108_kept (srv : Server) (σ : Store) (es1 es2 : List Move) (x y : Arrival) (u : Uuid)
    (r : AuthorizationResponse) (hd : DrawnOnce σ (es1 ++ .arrive y :: es2) u)
    (hx : Asks u x.2.2) (hg : Granted (run srv (begin σ) es1) x)
    (hq : ∀ z p, (z, p) ∈ (run srv (begin σ) es1).tasks → Asks u z.2.2 → ∃ rep, p = .done rep)
    (hy : Submits u r y.2.2) (hn : ∀ z r', Arrives (es1 ++ es2) z → ¬ Submits u r' z.2.2) :
    ∃ s o, (run srv (begin σ) es1).store.get u = some s ∧ Verdict srv.app.decrypt r o ∧
      (∀ rep, (y, .done rep) ∈ (run srv (begin σ) (es1 ++ .arrive y :: es2)).tasks →
        sent y rep = ⟨200, .json (.obj [])⟩ ∨
        ((∃ i, Move.step i true ∈ es1 ++ .arrive y :: es2) ∧ LockedOut y.2.2 (sent y rep))) ∧
      ∀ es3 es4, es2 = es3 ++ es4 → Granted (run srv (begin σ) (es1 ++ .arrive y :: es3)) y →
        (run srv (begin σ) (es1 ++ .arrive y :: es2)).store.get u = some { s with status := .complete o } ∧
        ∀ z rep, Polls u z.2.2 → ¬ Arrives (es1 ++ es3) z →
          (z, .done rep) ∈ (run srv (begin σ) (es1 ++ .arrive y :: es2)).tasks →
          (∃ doc body, StatusPage (.complete o) doc ∧ HeadOrDoc z.2.2 doc body ∧ sent z rep = ⟨200, body⟩) ∨
          ((∃ i, Move.step i true ∈ es1 ++ .arrive y :: es2) ∧ LockedOut z.2.2 (sent z rep)) := by
  have hn1 : ∀ z r', Arrives es1 z → ¬ Submits u r' z.2.2 := fun z r' h => hn z r' (List.mem_append_left _ h)
  have hey := enter_submits (srv := srv).2 hy
  obtain ⟨o, ho⟩ : ∃ o, ∀ s, o = VerifierApp.validator srv.app.decrypt s r := by
    cases r with
    | unencoded r => exact ⟨_, fun _ => rfl⟩
    | jwt j => exact ⟨_, fun _ => rfl⟩
  obtain ⟨s, hs, hget, hk⟩ := kept_begin (drawnOnce_prefix hd) hx hg hq hy hn1 o
  have hfresh : ∀ z, Arrives es2 z → (∀ r', ¬ Submits u r' z.2.2) ∧ ¬ (Begins z.2.2 ∧ z.1 = u) := by
    intro z hz
    refine ⟨fun r' => hn z r' (List.mem_append_right _ hz), fun hb => ?_⟩
    have h1 := holds_run srv σ es1 u
    have h2 : 1 ≤ holds (run srv (begin σ) es1) u := by simp [holds, hget, one]
    have h3 : z ∈ arrivals es2 := by
      clear hd hn
      induction es2 with
      | nil => cases hz
      | cons e es ih =>
        rcases List.mem_cons.1 hz with rfl | hz
        · exact List.mem_cons_self ..
        · have := ih hz
          cases e with
          | arrive _ => exact List.mem_cons_of_mem _ this
          | _ => exact this
    have h4 : 0 < (arrivals es2).countP (fun x => decide (Begins x.2.2 ∧ x.1 = u)) :=
      List.countP_pos_iff.2 ⟨z, h3, by simpa using hb⟩
    unfold DrawnOnce at hd
    rw [arrivals_append, List.countP_append] at hd
    simp only [arrivals, List.countP_cons] at hd
    cases hc : σ.get u with
    | none => rw [hc] at h1 hd; simp only [one, Option.isSome_none, Bool.false_eq_true, if_false] at h1 hd; omega
    | some s => rw [hc] at h1 hd; simp only [one, Option.isSome_some, if_true] at h1 hd; omega
  have hinv : Inv srv (next srv (run srv (begin σ) es1) (.arrive y)) := next_inv (run_inv srv σ es1) _
  have hrun : ∀ c, run srv (begin σ) (es1 ++ .arrive y :: c) =
      run srv (next srv (run srv (begin σ) es1) (.arrive y)) c := fun c => by rw [VerifierTasks.run_append]; rfl
  have later : ∀ c b, es2 = c ++ b → ∃ st, Kept u y s o (run srv (begin σ) (es1 ++ .arrive y :: c)) st := by
    intro c b hc
    obtain ⟨st, h, -⟩ := kept_run hs hy ho c hinv hk fun z hz => hfresh z (hc ▸ List.mem_append_left _ hz)
    exact ⟨st, by rw [hrun]; exact h⟩
  refine ⟨s, o, hget, (verdict_iff ..).1 (ho s).symm, fun rep hm => ?_, fun es3 es4 he hgr => ?_⟩
  · obtain ⟨-, ⟨a, b, τ, h1, h2, h3⟩ | h⟩ := C107_answers srv σ _ y rep hm
    · obtain ⟨c, rfl, hc⟩ := split_arrives h1 (fun h => hn1 y r h hy) h2
      obtain ⟨st, h4, -⟩ := later c b hc
      have := ((C82_served ..).2 h3).1
      rw [serve_lookUp hey, h4] at this
      exact .inl this.symm
    · exact .inr h
  · have fin : ∀ c b, es4 = c ++ b → (run srv (begin σ) (es1 ++ .arrive y :: (es3 ++ c))).store.get u =
        some { s with status := .complete o } := by
      intro c b hc
      obtain ⟨st, h⟩ := later es3 es4 he
      obtain ⟨rep, h1, h2⟩ := hgr
      have hst : st = .complete o := h.2.2 _ h1 rfl h2
      obtain ⟨st', h3, h4⟩ := kept_run hs hy ho c (run_inv srv σ _) h fun z hz =>
        hfresh z (by rw [he, hc]; exact List.mem_append_right _ (List.mem_append_left _ hz))
      rw [← VerifierTasks.run_append, List.append_assoc, List.cons_append] at h3
      rw [h3.1, h4 hst]
    refine ⟨by have := fin es4 [] (List.append_nil _).symm; rwa [← he] at this, fun z rep hz hnz hm => ?_⟩
    obtain ⟨-, ⟨a, b, τ, h1, h2, h3⟩ | h⟩ := C107_answers srv σ _ z rep hm
    · left
      have : ∃ c, a = es1 ++ .arrive y :: (es3 ++ c) ∧ es4 = c ++ b := by
        rw [he, show es1 ++ Move.arrive y :: (es3 ++ es4) = (es1 ++ .arrive y :: es3) ++ es4 by simp] at h1
        rcases List.append_eq_append_iff.1 h1 with ⟨c, rfl, rfl⟩ | ⟨c, h4, rfl⟩
        · exact ⟨c, by simp, rfl⟩
        · exfalso
          have : Arrives (es1 ++ .arrive y :: es3) z := h4 ▸ List.mem_append_left _ h2
          rcases List.mem_append.1 this with h | h
          · exact hnz (List.mem_append_left _ h)
          · rcases List.mem_cons.1 h with h | h
            · cases h
              have h' := enter_polls (srv := srv).2 hz
              rw [hey] at h'; cases h'
            · exact hnz (List.mem_append_right _ h)
      obtain ⟨c, rfl, hc⟩ := this
      have h4 := fin c b hc
      have h5 := ((C82_served ..).2 h3).1
      rw [serve_poll (enter_polls.2 hz), h4] at h5
      dsimp only at h5
      obtain ⟨body, h6, h7⟩ := headOrDoc z 200 (VerifierApp.statusJson (.complete o))
      exact ⟨_, body, statusPage_iff.2 rfl, h6, by rw [← h5, h7]⟩
    · exact .inr h

/-- The request object is retrieved, the response comes, the request object is retrieved a second time while the
response is dealt with, and then the status is polled. -/
example (app : VerifierApp.App) :
    let es3 := [.step 1 false, .arrive toyAsk, .step 2 false, .step 1 false]
    let es := [.arrive toyAsk, .step 0 false, .step 0 false] ++ .arrive toyResponse :: (es3 ++ [.arrive toyPoll, .step 3 false])
    let w := run (toyServer app) (begin routeStore) es
    ∃ o rep doc body, Verdict app.decrypt (.unencoded ⟨⟨[(c!"q", [.string c!"x"])]⟩, none⟩) o ∧
      w.store.get (buildId 5) = some { sessionSample 5 .sentRequest with status := .complete o } ∧
      (toyPoll, .done rep) ∈ w.tasks ∧ StatusPage (.complete o) doc ∧ HeadOrDoc toyPoll.2.2 doc body ∧
      sent toyPoll rep = ⟨200, body⟩ := by
  have e1 : enter (toyServer app) toyAsk.2.2 = .fetch (buildId 5) := enter_asks.2 toyAsks
  have e3 : enter (toyServer app) toyPoll.2.2 = .poll (buildId 5) := enter_polls.2 toyPolls
  have e2 : enter (toyServer app) toyResponse.2.2 = .lookUp (buildId 5) _ := enter_submits.2 toySubmits
  have hs : routeStore.get (buildId 5) = some (sessionSample 5 .sentRequestByReference) := routeKnown.2
  have hst : (sessionSample 5 .sentRequestByReference).status = .sentRequestByReference := rfl
  have hlt : Status.lt .sentRequestByReference .sentRequest = true := by decide
  have hlt' : Status.lt .sentRequest .sentRequest = false := by decide
  have hn : ∀ z, z = toyAsk ∨ z = toyPoll → ∀ r, ¬ Submits (buildId 5) r z.2.2 := by
    rintro z (rfl | rfl) r h
    · have := enter_submits (srv := toyServer app).2 h; rw [e1] at this; cases this
    · have := enter_submits (srv := toyServer app).2 h; rw [e3] at this; cases this
  dsimp only
  obtain ⟨s, o, h1, h2, -, h4⟩ := C108_kept (toyServer app) routeStore [.arrive toyAsk, .step 0 false, .step 0 false]
    ([.step 1 false, .arrive toyAsk, .step 2 false, .step 1 false] ++ [.arrive toyPoll, .step 3 false])
    toyAsk toyResponse (buildId 5) _
    (by unfold DrawnOnce; rw [hs]; decide)
    toyAsks
    ⟨⟨200, .jwt (sessionSample 5 .sentRequestByReference).jwt⟩,
      by simp [run, begin, next, step, e1, hs, hst, hlt, Store.getSession, Store.updateStatus], rfl⟩
    (by
      simp [run, begin, next, step, e1, hs, hst, hlt, Store.getSession, Store.updateStatus])
    toySubmits
    (by
      intro z r' h
      exact hn z (by simpa [Arrives] using h) r')
  obtain ⟨h5, h6⟩ := h4 _ _ rfl ⟨⟨200, .json (.obj [])⟩, by
    simp [run, begin, next, step, e1, e2, hs, hst, hlt, hlt', Store.getSession, Store.updateStatus, Store.get_insert], rfl⟩
  obtain ⟨rep, hr⟩ : ∃ rep, (toyPoll, .done rep) ∈ (run (toyServer app) (begin routeStore)
      ([.arrive toyAsk, .step 0 false, .step 0 false] ++ .arrive toyResponse ::
        ([.step 1 false, .arrive toyAsk, .step 2 false, .step 1 false] ++ [.arrive toyPoll, .step 3 false]))).tasks := by
    simp [run, begin, next, step, e1, e2, e3, hs, hst, hlt, hlt', Store.getSession, Store.updateStatus, Store.get_insert]
    exact ⟨_, .inr (.inr (.inr rfl))⟩
  rcases h6 toyPoll rep toyPolls (by simp [Arrives, toyPoll, toyAsk]) hr with ⟨doc, body, g1, g2, g3⟩ | ⟨⟨i, hi⟩, -⟩
  · refine ⟨o, rep, doc, body, h2, ?_, hr, g1, g2, g3⟩
    rw [h5]
    have : s = { sessionSample 5 .sentRequestByReference with status := .sentRequest } := by
      simpa [run, begin, next, step, e1, hs, hst, hlt, Store.getSession, Store.updateStatus, Store.get_insert, eq_comm] using h1
    subst this
    rfl
  · simp at hi

end Oid4vp
