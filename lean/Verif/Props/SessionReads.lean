import Verif.Props.Session
/-!
# C68: what the verifier hands out under any interleaving was stored under the id asked for
-/

set_option autoImplicit false

namespace Oid4vp

open Spec

/-- Everything known about what executions of a verifier that starts with nothing hand out. -/
structure Reads (w₀ : World) (ss : List Sched) : Prop where
  got : ∀ u s, .retrieveGot u s ∈ (w₀.run ss).1.tasks → .spawn (.retrieve u) ∈ ss ∧ WasStored w₀ ss u s
  retrieved : ∀ u jwt, .retrieved u jwt ∈ (w₀.run ss).2 →
    .spawn (.retrieve u) ∈ ss ∧ ∃ s, WasStored w₀ ss u s ∧ s.jwt = jwt
  polled : ∀ u st, .polled u st ∈ (w₀.run ss).2 →
    .spawn (.poll u) ∈ ss ∧ ∃ s, WasStored w₀ ss u s ∧ s.status = st
  initiated : ∀ s, .initiated s ∈ (w₀.run ss).2 → .spawn (.build s) ∈ ss ∧ WasStored w₀ ss s.uuid s

/-- Where a pending retrieval comes from. -/
theorem taskStep_retrieveGot {b : Bool} {σ : Store} {t : Task} {u : Uuid} {s : Session}
    (h : (taskStep b σ t).2.1 = .retrieveGot u s) : t = .start (.retrieve u) ∧ σ.get u = some s := by
  rcases t with op | ⟨v, s'⟩ | ⟨v, s', r, f⟩ | ⟨v, o⟩ | _
  · cases op with
    | build s' => cases h
    | poll v => cases h
    | remove v => cases h
    | verify v r f =>
      simp only [taskStep] at h
      cases hg : σ.getSession b v <;> rw [hg] at h <;> cases h
    | retrieve v =>
      simp only [taskStep] at h
      cases hg : σ.getSession b v with
      | error e => rw [hg] at h; cases h
      | ok s' =>
        rw [hg] at h
        simp only at h
        split at h
        · cases h; exact ⟨rfl, getSession_ok hg⟩
        · cases h
  · rw [step_retrieveGot] at h; cases h
  · cases h
  · cases h
  · cases h

/-- Where the JWTs handed out come from. -/
theorem taskStep_retrieved {b : Bool} {σ : Store} {t : Task} {u : Uuid} {jwt : Str}
    (h : .retrieved u jwt ∈ (taskStep b σ t).2.2) :
    (∃ s, t = .start (.retrieve u) ∧ σ.get u = some s ∧ s.jwt = jwt) ∨
    (∃ s, t = .retrieveGot u s ∧ s.jwt = jwt) := by
  have hres : ∀ (v : Uuid) (ev : VEvent) (x : Res Unit), (∀ a b, ev ≠ .retrieved a b) →
      VEvent.retrieved u jwt ∉ [resEvent v ev x] := by
    intro v ev x hev hm
    rw [List.mem_singleton] at hm
    cases x with
    | error e => cases hm
    | ok y => exact hev _ _ hm.symm
  rcases t with op | ⟨v, s'⟩ | ⟨v, s', r, f⟩ | ⟨v, o⟩ | _
  · cases op with
    | build s' => exact absurd h (hres _ _ _ (by intros; simp))
    | poll v =>
      simp only [taskStep] at h
      cases hg : σ.getSession b v <;> rw [hg] at h <;> simp at h
    | remove v => exact absurd h (hres _ _ _ (by intros; simp))
    | verify v r f =>
      simp only [taskStep] at h
      cases hg : σ.getSession b v <;> rw [hg] at h <;> simp at h
    | retrieve v =>
      simp only [taskStep] at h
      cases hg : σ.getSession b v with
      | error e => rw [hg] at h; simp at h
      | ok s' =>
        rw [hg] at h
        simp only at h
        split at h
        · simp at h
        · simp only [List.mem_singleton, VEvent.retrieved.injEq] at h
          obtain ⟨rfl, rfl⟩ := h
          exact .inl ⟨s', rfl, getSession_ok hg, rfl⟩
  · rw [step_retrieveGot] at h
    simp only at h
    cases hu : (σ.updateStatus b v .sentRequest).2 with
    | error e => rw [hu] at h; simp at h
    | ok x =>
      rw [hu] at h
      simp only [List.mem_cons, VEvent.retrieved.injEq, reduceCtorEq, List.not_mem_nil, or_false,
        false_or] at h
      obtain ⟨rfl, rfl⟩ := h
      exact .inr ⟨s', rfl, rfl⟩
  · simp [taskStep] at h
  · exact absurd h (hres _ _ _ (by intros; simp))
  · simp [taskStep] at h

/-- Where the statuses handed out come from. -/
theorem taskStep_polled {b : Bool} {σ : Store} {t : Task} {u : Uuid} {st : Status}
    (h : .polled u st ∈ (taskStep b σ t).2.2) :
    ∃ s, t = .start (.poll u) ∧ σ.get u = some s ∧ s.status = st := by
  have hres : ∀ (v : Uuid) (ev : VEvent) (x : Res Unit), (∀ a b, ev ≠ .polled a b) →
      VEvent.polled u st ∉ [resEvent v ev x] := by
    intro v ev x hev hm
    rw [List.mem_singleton] at hm
    cases x with
    | error e => cases hm
    | ok y => exact hev _ _ hm.symm
  rcases t with op | ⟨v, s'⟩ | ⟨v, s', r, f⟩ | ⟨v, o⟩ | _
  · cases op with
    | build s' => exact absurd h (hres _ _ _ (by intros; simp))
    | poll v =>
      simp only [taskStep] at h
      cases hg : σ.getSession b v with
      | error e => rw [hg] at h; simp at h
      | ok s' =>
        rw [hg] at h
        simp only [List.mem_singleton, VEvent.polled.injEq] at h
        obtain ⟨rfl, rfl⟩ := h
        exact ⟨s', rfl, getSession_ok hg, rfl⟩
    | remove v => exact absurd h (hres _ _ _ (by intros; simp))
    | verify v r f =>
      simp only [taskStep] at h
      cases hg : σ.getSession b v <;> rw [hg] at h <;> simp at h
    | retrieve v =>
      simp only [taskStep] at h
      cases hg : σ.getSession b v with
      | error e => rw [hg] at h; simp at h
      | ok s' => rw [hg] at h; simp only at h; split at h <;> simp at h
  · rw [step_retrieveGot] at h
    simp only at h
    cases hu : (σ.updateStatus b v .sentRequest).2 <;> rw [hu] at h <;> simp at h
  · simp [taskStep] at h
  · exact absurd h (hres _ _ _ (by intros; simp))
  · simp [taskStep] at h

/-- A session announced as built is in the store. -/
theorem taskStep_initiated {b : Bool} {σ : Store} {t : Task} {s : Session}
    (h : .initiated s ∈ (taskStep b σ t).2.2) :
    t = .start (.build s) ∧ (taskStep b σ t).1.get s.uuid = some s := by
  have hres : ∀ (v : Uuid) (ev : VEvent) (x : Res Unit), (∀ a, ev ≠ .initiated a) →
      VEvent.initiated s ∉ [resEvent v ev x] := by
    intro v ev x hev hm
    rw [List.mem_singleton] at hm
    cases x with
    | error e => cases hm
    | ok y => exact hev _ hm.symm
  rcases t with op | ⟨v, s'⟩ | ⟨v, s', r, f⟩ | ⟨v, o⟩ | _
  · cases op with
    | build s' =>
      cases b with
      | true => simp [taskStep, Store.initiate, resEvent] at h
      | false =>
        simp only [taskStep, Store.initiate, resEvent, Bool.false_eq_true, if_false, List.mem_singleton,
          VEvent.initiated.injEq] at h
        subst h
        refine ⟨rfl, ?_⟩
        simp only [taskStep]
        rw [initiate_get, if_pos ⟨rfl, rfl⟩]
    | poll v =>
      simp only [taskStep] at h
      cases hg : σ.getSession b v <;> rw [hg] at h <;> simp at h
    | remove v => exact absurd h (hres _ _ _ (by intros; simp))
    | verify v r f =>
      simp only [taskStep] at h
      cases hg : σ.getSession b v <;> rw [hg] at h <;> simp at h
    | retrieve v =>
      simp only [taskStep] at h
      cases hg : σ.getSession b v with
      | error e => rw [hg] at h; simp at h
      | ok s' => rw [hg] at h; simp only at h; split at h <;> simp at h
  · rw [step_retrieveGot] at h
    simp only at h
    cases hu : (σ.updateStatus b v .sentRequest).2 <;> rw [hu] at h <;> simp at h
  · simp [taskStep] at h
  · exact absurd h (hres _ _ _ (by intros; simp))
  · simp [taskStep] at h

theorem reads (ss : List Sched) : Reads ⟨[], []⟩ ss := by
  induction ss using snoc_induction with
  | h0 => refine ⟨?_, ?_, ?_, ?_⟩ <;> simp [World.run]
  | h1 ss x ih =>
    have spawned : ∀ op, Sched.spawn op ∈ ss → Sched.spawn op ∈ ss ++ [x] :=
      fun op h => List.mem_append_left _ h
    have htr := (traced ss).started
    obtain ⟨ig, ir, ip, ii⟩ := ih
    have hrun := World.run_snoc ⟨[], []⟩ ss x
    have hnow : ∀ u s, (World.run ⟨[], []⟩ ss).1.store.get u = some s →
        WasStored ⟨[], []⟩ (ss ++ [x]) u s := fun u s h => wasStored_snoc x (wasStored_now h)
    have hafter : ∀ u s, ((World.run ⟨[], []⟩ ss).1.next x).1.store.get u = some s →
        WasStored ⟨[], []⟩ (ss ++ [x]) u s := fun u s h => wasStored_now (by rw [hrun]; exact h)
    generalize hw : World.run ⟨[], []⟩ ss = p at *
    -- the effects of this decision
    have hx : (∀ u s, .retrieveGot u s ∈ (p.1.next x).1.tasks →
          .retrieveGot u s ∈ p.1.tasks ∨ (.start (.retrieve u) ∈ p.1.tasks ∧ p.1.store.get u = some s)) ∧
        (∀ u jwt, .retrieved u jwt ∈ (p.1.next x).2 →
          (∃ s, .start (.retrieve u) ∈ p.1.tasks ∧ p.1.store.get u = some s ∧ s.jwt = jwt) ∨
          (∃ s, .retrieveGot u s ∈ p.1.tasks ∧ s.jwt = jwt)) ∧
        (∀ u st, .polled u st ∈ (p.1.next x).2 →
          ∃ s, .start (.poll u) ∈ p.1.tasks ∧ p.1.store.get u = some s ∧ s.status = st) ∧
        (∀ s, .initiated s ∈ (p.1.next x).2 →
          .start (.build s) ∈ p.1.tasks ∧ (p.1.next x).1.store.get s.uuid = some s) := by
      cases x with
      | spawn op =>
        simp only [World.next, List.mem_append, List.mem_singleton, reduceCtorEq, or_false,
          List.not_mem_nil, false_imp_iff, implies_true, and_true]
        exact fun _ _ h => .inl h
      | abandon i =>
        simp only [World.next, List.not_mem_nil, false_imp_iff, implies_true, and_true]
        exact fun _ _ h => .inl (List.mem_of_mem_eraseIdx h)
      | step i b =>
        cases hi : p.1.tasks[i]? with
        | none =>
          simp only [World.next, hi, List.not_mem_nil, false_imp_iff, implies_true, and_true]
          exact fun _ _ h => .inl h
        | some t =>
          have hm := List.mem_of_getElem? hi
          rw [World.next_step hi]
          refine ⟨?_, ?_, ?_, ?_⟩
          · intro u s h
            rcases List.mem_or_eq_of_mem_set h with h | he
            · exact .inl h
            · obtain ⟨rfl, hg⟩ := taskStep_retrieveGot he.symm
              exact .inr ⟨hm, hg⟩
          · intro u jwt h
            rcases taskStep_retrieved h with ⟨s, rfl, hg, hj⟩ | ⟨s, rfl, hj⟩
            · exact .inl ⟨s, hm, hg, hj⟩
            · exact .inr ⟨s, hm, hj⟩
          · intro u st h
            obtain ⟨s, rfl, hg, hj⟩ := taskStep_polled h
            exact ⟨s, hm, hg, hj⟩
          · intro s h
            obtain ⟨rfl, hg⟩ := taskStep_initiated h
            exact ⟨hm, hg⟩
    obtain ⟨xg, xr, xp, xi⟩ := hx
    refine ⟨?_, ?_, ?_, ?_⟩ <;> rw [hrun] <;> simp only [List.mem_append]
    · intro u s h
      rcases xg u s h with h | ⟨h1, h2⟩
      · obtain ⟨h1, h2⟩ := ig u s h
        exact ⟨.inl h1, wasStored_snoc _ h2⟩
      · exact ⟨.inl (htr _ h1), hnow u s h2⟩
    · intro u jwt h
      rcases h with h | h
      · obtain ⟨h1, s, h2, h3⟩ := ir u jwt h
        exact ⟨.inl h1, s, wasStored_snoc _ h2, h3⟩
      · rcases xr u jwt h with ⟨s, h1, h2, h3⟩ | ⟨s, h1, h3⟩
        · exact ⟨.inl (htr _ h1), s, hnow u s h2, h3⟩
        · obtain ⟨h4, h5⟩ := ig u s h1
          exact ⟨.inl h4, s, wasStored_snoc _ h5, h3⟩
    · intro u st h
      rcases h with h | h
      · obtain ⟨h1, s, h2, h3⟩ := ip u st h
        exact ⟨.inl h1, s, wasStored_snoc _ h2, h3⟩
      · obtain ⟨s, h1, h2, h3⟩ := xp u st h
        exact ⟨.inl (htr _ h1), s, hnow u s h2, h3⟩
    · intro s h
      rcases h with h | h
      · obtain ⟨h1, h2⟩ := ii s h
        exact ⟨.inl h1, wasStored_snoc _ h2⟩
      · obtain ⟨h1, h2⟩ := xi s h
        exact ⟨.inl (htr _ h1), hafter _ _ h2⟩

/-- **C68** Under every interleaving, with any lock contention and any operation abandoned at any
point, a JWT handed out for an id is the JWT of a session that was stored under that id, and of a
session that was built with it. -/
theorem C68_retrieved_was_stored (ss : List Sched) (u : Uuid) (jwt : Str)
    (h : .retrieved u jwt ∈ (World.run ⟨[], []⟩ ss).2) :
    .spawn (.retrieve u) ∈ ss ∧ (∃ s, WasStored ⟨[], []⟩ ss u s ∧ s.jwt = jwt) ∧
      ∃ x, .spawn (.build x) ∈ ss ∧ x.uuid = u ∧ x.jwt = jwt := by
  obtain ⟨h1, s, ⟨a, b, rfl, h2⟩, h3⟩ := (reads ss).retrieved u jwt h
  refine ⟨h1, ⟨s, ⟨a, b, rfl, h2⟩, h3⟩, ?_⟩
  obtain ⟨h4, x, h5, h6⟩ := (traced a).id u s h2
  exact ⟨x, List.mem_append_left _ h5, by rw [← h6.1, h4], by rw [← h6.2.1, h3]⟩

/-- **C68** If every id is built at most once, every JWT handed out for an id is the one JWT that
was built for it: no retrieval ever sees another session's request. -/
theorem C68_one_request_per_id (ss : List Sched) (x : Session) (jwt : Str)
    (hu : ∀ x y, .spawn (.build x) ∈ ss → .spawn (.build y) ∈ ss → x.uuid = y.uuid → x = y)
    (hx : .spawn (.build x) ∈ ss) (h : .retrieved x.uuid jwt ∈ (World.run ⟨[], []⟩ ss).2) :
    jwt = x.jwt := by
  obtain ⟨-, -, y, hy, hid, hj⟩ := C68_retrieved_was_stored ss _ _ h
  rw [hu x y hx hy hid.symm]; exact hj.symm

/-- **C68** A status handed out for an id was the status of a session stored under that id; unless
a session is built as completed, a completed one carries an outcome a validator returned for that
id. -/
theorem C68_polled_was_stored (ss : List Sched) (u : Uuid) (st : Status)
    (h : .polled u st ∈ (World.run ⟨[], []⟩ ss).2) :
    .spawn (.poll u) ∈ ss ∧ (∃ s, WasStored ⟨[], []⟩ ss u s ∧ s.status = st) ∧
      ((∀ x o, .spawn (.build x) ∈ ss → x.status ≠ .complete o) → ∀ o, st = .complete o →
        ∃ s r f, .spawn (.verify u r f) ∈ ss ∧ o = f s r ∧ WasStored ⟨[], []⟩ ss u s) := by
  obtain ⟨h1, s, ⟨a, b, rfl, h2⟩, h3⟩ := (reads ss).polled u st h
  refine ⟨h1, ⟨s, ⟨a, b, rfl, h2⟩, h3⟩, ?_⟩
  intro hb o ho
  obtain ⟨s', r, f, k1, k2, ⟨a', b', rfl, k3⟩, -, -⟩ := C32_outcome_from_validator a u s o
    (fun x o hx => hb x o (List.mem_append_left _ hx)) h2 (by rw [h3, ho])
  exact ⟨s', r, f, List.mem_append_left _ k1, k2, a', b' ++ b, by simp, k3⟩

/-- **C68** A build that reports success has stored its session. -/
theorem C68_built_was_stored (ss : List Sched) (s : Session)
    (h : .initiated s ∈ (World.run ⟨[], []⟩ ss).2) :
    .spawn (.build s) ∈ ss ∧ WasStored ⟨[], []⟩ ss s.uuid s :=
  (reads ss).initiated s h

/-- Two sessions retrieved at the same time, the second finishing first; then a status. -/
example :
    let a := sessionSample 1 .sentRequestByReference
    let b : Session := { sessionSample 2 .sentRequestByReference with jwt := c!"other" }
    let ss : List Sched := [.spawn (.build a), .spawn (.build b), .step 0 false, .step 1 false,
      .spawn (.retrieve (buildId 1)), .spawn (.retrieve (buildId 2)), .step 2 false, .step 3 false,
      .step 3 false, .step 2 false, .spawn (.poll (buildId 2)), .step 4 false]
    (World.run ⟨[], []⟩ ss).2 = [.initiated a, .initiated b, .statusSet (buildId 2) .sentRequest,
      .retrieved (buildId 2) c!"other", .statusSet (buildId 1) .sentRequest,
      .retrieved (buildId 1) c!"a.b.c", .polled (buildId 2) .sentRequest] := rfl

end Oid4vp
