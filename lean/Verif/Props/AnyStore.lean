import Verif.Spec.AnyStore
import Verif.Props.SessionReads
/-!
# C88: the verifier over any session store
-/

set_option autoImplicit false

namespace Oid4vp

open Spec

/-! ## How the store is called -/

section Calls
variable {S : Type} (st : SessionStore S)

/-- **C88** Whatever the store does, each step of a running operation makes at most one call of it, the one
the operation is at, and is otherwise the step over the store itself. -/
theorem C88_step_calls (x : S) (l : List SessionStore.Call) (t : Task) :
    (st.logged.taskStep (x, l) t).1 = ((st.taskStep x t).1, l ++ callOf t) ∧
    (st.logged.taskStep (x, l) t).2 = (st.taskStep x t).2 := by
  cases t with
  | start op =>
    cases op with
    | build s => exact ⟨rfl, rfl⟩
    | poll u =>
      simp only [SessionStore.taskStep, SessionStore.logged, callOf]
      rcases st.getSession u x with ⟨y, e | s⟩ <;> exact ⟨rfl, rfl⟩
    | retrieve u =>
      simp only [SessionStore.taskStep, SessionStore.logged, callOf]
      rcases st.getSession u x with ⟨y, e | s⟩
      · exact ⟨rfl, rfl⟩
      · dsimp only
        split <;> exact ⟨rfl, rfl⟩
    | verify u r f =>
      simp only [SessionStore.taskStep, SessionStore.logged, callOf]
      rcases st.getSession u x with ⟨y, e | s⟩ <;> exact ⟨rfl, rfl⟩
    | remove u => exact ⟨rfl, rfl⟩
  | retrieveGot u s =>
    simp only [SessionStore.taskStep, SessionStore.logged, callOf]
    rcases st.updateStatus u .sentRequest x with ⟨y, e | ⟨⟩⟩ <;> exact ⟨rfl, rfl⟩
  | verifyGot u s r f => exact ⟨by simp [SessionStore.taskStep, callOf], rfl⟩
  | verifyDone u o => exact ⟨rfl, rfl⟩
  | finished => exact ⟨by simp [SessionStore.taskStep, callOf], rfl⟩

/-- **C88** Whatever the store does, polling looks the id up once and does nothing else. -/
theorem C88_poll_calls (u : Uuid) (x : S) (l : List SessionStore.Call) :
    (st.logged.poll u (x, l)).1.2 = l ++ [.getSession u] ∧
    ∀ t, (st.logged.poll u (x, l)).2 = .ok t →
      ∃ s, (st.getSession u x).2 = .ok s ∧ t = s.status := by
  simp only [SessionStore.poll, SessionStore.logged]
  rcases hh : st.getSession u x with ⟨y, e | s⟩
  · exact ⟨rfl, fun t h => by cases h⟩
  · exact ⟨rfl, fun t h => by cases h; exact ⟨s, rfl, rfl⟩⟩

/-- **C88** Whatever the store does, retrieval looks the id up once, and sets its status once, to
"sent", exactly if the session it was shown was still to be sent by reference. What it returns is
the JWT of that session, and it returns it only after the status was set. -/
theorem C88_retrieve_calls (u : Uuid) (x : S) (l : List SessionStore.Call) :
    (st.logged.retrieve u (x, l)).1.2 = l ++ .getSession u ::
      (match (st.getSession u x).2 with
      | .ok s => if s.status = .sentRequestByReference then [.updateStatus u .sentRequest] else []
      | .error _ => []) ∧
    ∀ jwt, (st.logged.retrieve u (x, l)).2 = .ok jwt ↔
      ∃ y s, st.getSession u x = (y, .ok s) ∧ jwt = s.jwt ∧
        (s.status = .sentRequestByReference → (st.updateStatus u .sentRequest y).2 = .ok ()) := by
  simp only [SessionStore.retrieve, SessionStore.logged]
  rcases hh : st.getSession u x with ⟨y, e | s⟩
  · refine ⟨rfl, fun jwt => ⟨fun h => (by cases h), ?_⟩⟩
    rintro ⟨y', s, h, -⟩; cases h
  · have hl : s.status.lt .sentRequest = true ↔ s.status = .sentRequestByReference := by
      cases hs : s.status <;> simp [Status.lt, Status.partialCmp, Status.variant] <;> decide
    dsimp only
    by_cases hst : s.status = .sentRequestByReference
    · rw [if_pos (hl.2 hst), if_pos hst]
      rcases hu : st.updateStatus u .sentRequest y with ⟨z, e | ⟨⟩⟩
      · refine ⟨by simp, fun jwt => ⟨fun h => (by cases h), ?_⟩⟩
        rintro ⟨y', s', h, -, h2⟩
        cases h
        have := h2 hst
        rw [hu] at this
        cases this
      · refine ⟨by simp, fun jwt => ⟨fun h => ?_, ?_⟩⟩
        · cases h; exact ⟨y, s, rfl, rfl, fun _ => by rw [hu]⟩
        · rintro ⟨y', s', h, rfl, -⟩; cases h; rfl
    · rw [if_neg (fun h => hst (hl.1 h)), if_neg hst]
      refine ⟨rfl, fun jwt => ⟨fun h => ?_, ?_⟩⟩
      · cases h; exact ⟨y, s, rfl, rfl, fun h => absurd h hst⟩
      · rintro ⟨y', s', h, rfl, -⟩; cases h; rfl

/-- **C88** Whatever the store does, verification looks the id up once and, if it is shown a session,
sets the status of that id once, to what the validator makes of that session and the response. It
succeeds exactly if both calls do. -/
theorem C88_verify_calls (u : Uuid) (r : AuthorizationResponse) (f : Validator) (x : S)
    (l : List SessionStore.Call) :
    (st.logged.verify u r f (x, l)).1.2 = l ++ .getSession u ::
      (match (st.getSession u x).2 with
      | .ok s => [.updateStatus u (.complete (f s r))]
      | .error _ => []) ∧
    ((st.logged.verify u r f (x, l)).2 = .ok () ↔
      ∃ y s, st.getSession u x = (y, .ok s) ∧
        (st.updateStatus u (.complete (f s r)) y).2 = .ok ()) := by
  simp only [SessionStore.verify, SessionStore.logged]
  rcases hh : st.getSession u x with ⟨y, e | s⟩
  · refine ⟨rfl, fun h => (by cases h), ?_⟩
    rintro ⟨y', s, h, -⟩; cases h
  · refine ⟨by simp, fun h => ⟨y, s, rfl, h⟩, ?_⟩
    rintro ⟨y', s', h, h2⟩; cases h; exact h2

/-- **C88** Whatever the store does, building calls it at most once: it hands over the session that
was made, with the id given, once everything else has succeeded. Building succeeds exactly if that
call does. -/
theorem C88_build_calls (v : Verifier) (b : RequestBuilder) (u : Uuid) (wm : WalletMetadata) (x : S)
    (l : List SessionStore.Call) :
    (st.logged.build v b u wm (x, l)).1.2 = l ++
      (match b.construct v u wm with
      | .ok (s, _) => [.initiate s]
      | .error _ => []) ∧
    (∀ s url, b.construct v u wm = .ok (s, url) → s.uuid = u) ∧
    ∀ url, (st.logged.build v b u wm (x, l)).2 = .ok url ↔
      ∃ s, b.construct v u wm = .ok (s, url) ∧ (st.initiate s x).2 = .ok () := by
  refine ⟨?_, ?_, ?_⟩
  · simp only [SessionStore.build, SessionStore.logged]
    rcases hh : b.construct v u wm with e | ⟨s, url⟩
    · simp
    · dsimp only
      rcases hi : st.initiate s x with ⟨y, e | ⟨⟩⟩ <;> rfl
  · intro s url h
    unfold RequestBuilder.construct at h
    repeat' split at h
    all_goals first
      | cases h; rfl
      | cases h
  · intro url
    simp only [SessionStore.build, SessionStore.logged]
    rcases hh : b.construct v u wm with e | ⟨s, url'⟩
    · refine ⟨fun h => (by cases h), ?_⟩
      rintro ⟨s, h, -⟩; cases h
    · dsimp only
      rcases hi : st.initiate s x with ⟨y, e | ⟨⟩⟩
      · refine ⟨fun h => (by cases h), ?_⟩
        rintro ⟨s', h, h2⟩; cases h; rw [hi] at h2; cases h2
      · refine ⟨fun h => (by cases h; exact ⟨s, rfl, by rw [hi]⟩), ?_⟩
        rintro ⟨s', h, h2⟩; cases h; rfl

/-- **C88** The same for requests over the Digital Credentials API. -/
theorem C88_build_dc_api_calls (v : Verifier) (b : RequestBuilder) (u : Uuid) (x : S)
    (l : List SessionStore.Call) :
    (st.logged.buildDcApi v b u (x, l)).1.2 = l ++
      (match b.constructDcApi v u with
      | .ok s => [.initiate s]
      | .error _ => []) ∧
    (∀ s, b.constructDcApi v u = .ok s → s.uuid = u) ∧
    ∀ p, (st.logged.buildDcApi v b u (x, l)).2 = .ok p ↔
      ∃ s, b.constructDcApi v u = .ok s ∧ (st.initiate s x).2 = .ok () ∧ p = (u, s.jwt) := by
  refine ⟨?_, ?_, ?_⟩
  · simp only [SessionStore.buildDcApi, SessionStore.logged]
    rcases hh : b.constructDcApi v u with e | s
    · simp
    · dsimp only
      rcases hi : st.initiate s x with ⟨y, e | ⟨⟩⟩ <;> rfl
  · intro s h
    unfold RequestBuilder.constructDcApi at h
    repeat' split at h
    all_goals first
      | cases h; rfl
      | cases h
  · intro p
    simp only [SessionStore.buildDcApi, SessionStore.logged]
    rcases hh : b.constructDcApi v u with e | s
    · refine ⟨fun h => (by cases h), ?_⟩
      rintro ⟨s, h, -⟩; cases h
    · dsimp only
      rcases hi : st.initiate s x with ⟨y, e | ⟨⟩⟩
      · refine ⟨fun h => (by cases h), ?_⟩
        rintro ⟨s', h, h2, -⟩; cases h; rw [hi] at h2; cases h2
      · refine ⟨fun h => (by cases h; exact ⟨s, rfl, by rw [hi], rfl⟩), ?_⟩
        rintro ⟨s', h, h2, rfl⟩; cases h; rfl

end Calls

/-! ## Any lawful store behaves as the bundled one -/

theorem Spec.SameEffects.refl (l : List VEvent) : SameEffects l l := by
  induction l with
  | nil => exact .nil
  | cons e l ih => exact .same ih

theorem Spec.SameEffects.append {a b c d : List VEvent} (h : SameEffects a b) (h' : SameEffects c d) :
    SameEffects (a ++ c) (b ++ d) := by
  induction h with
  | nil => exact h'
  | same _ ih => exact .same ih
  | failed _ ih => exact .failed ih

/-- An effect that is not a failure occurs on both sides. -/
theorem Spec.SameEffects.mem {a b : List VEvent} (h : SameEffects a b) {e : VEvent}
    (he : ∀ u x, e ≠ .failed u x) : e ∈ a ↔ e ∈ b := by
  induction h with
  | nil => rfl
  | same _ ih => simp [ih]
  | failed _ ih =>
    simp only [List.mem_cons, ih]
    constructor
    · rintro (h1 | h1)
      · exact absurd h1 (he _ _)
      · exact .inr h1
    · rintro (h1 | h1)
      · exact absurd h1 (he _ _)
      · exact .inr h1

/-- A stored session was built under its id. -/
theorem wasStored_built (ss : List Sched) (u : Uuid) (s : Session) (h : WasStored ⟨[], []⟩ ss u s) :
    ∃ b, .spawn (.build b) ∈ ss ∧ b.uuid = u ∧ SameRequest b s := by
  obtain ⟨a, c, rfl, h5⟩ := h
  obtain ⟨h6, x, h7, h8⟩ := (traced a).id u s h5
  exact ⟨x, List.mem_append_left _ h7, by rw [← h8.1, h6], h8⟩

section Simulation
variable {S : Type} {st : SessionStore S} {view : S → AMap}

theorem getSession_free {σ : Store} {u : Uuid} {s : Session} (h : σ.get u = some s) :
    σ.getSession false u = .ok s := by
  simp [Store.getSession, h]

/-- One step over a lawful store is a step over the bundled one. -/
theorem taskStep_simulated (hl : Lawful st view) {x : S} {σ : Store} (hσ : σ.Ok)
    (hv : view x = fun u => σ.get u) (t : Task) :
    ∃ busy, (st.taskStep x t).2.1 = (taskStep busy σ t).2.1 ∧
      SameEffects (st.taskStep x t).2.2 (taskStep busy σ t).2.2 ∧
      view (st.taskStep x t).1 = fun u => (taskStep busy σ t).1.get u := by
  have hget : ∀ u s, view x u = some s → σ.get u = some s := fun u s h => by rw [hv] at h; exact h
  cases t with
  | start op =>
    cases op with
    | build s =>
      simp only [SessionStore.taskStep]
      rcases hh : (st.initiate s x).2 with e | ⟨⟩
      · refine ⟨true, rfl, ?_, ?_⟩
        · simpa [taskStep, resEvent, Store.initiate] using .failed .nil
        · rw [hl.initiate_error s x e hh, hv]; rfl
      · refine ⟨false, rfl, ?_, ?_⟩
        · simpa [taskStep, resEvent, Store.initiate] using .same .nil
        · rw [hl.initiate_ok s x hh, hv]
          funext u
          simp only [taskStep, initiate_get, AMap.put, and_true]
    | poll u =>
      simp only [SessionStore.taskStep]
      have hk := hl.get_keeps u x
      rcases hh : st.getSession u x with ⟨y, e | s⟩
      · rw [hh] at hk
        refine ⟨true, rfl, ?_, by rw [hk, hv]; rfl⟩
        simpa [taskStep, Store.getSession] using .failed .nil
      · rw [hh] at hk
        have hs := hget u s (hl.get_ok u x s (by rw [hh]))
        refine ⟨false, rfl, ?_, by rw [hk, hv]; rfl⟩
        simp only [taskStep, getSession_free hs]
        exact .same .nil
    | retrieve u =>
      simp only [SessionStore.taskStep]
      have hk := hl.get_keeps u x
      rcases hh : st.getSession u x with ⟨y, e | s⟩
      · rw [hh] at hk
        refine ⟨true, rfl, ?_, by rw [hk, hv]; rfl⟩
        simpa [taskStep, Store.getSession] using .failed .nil
      · rw [hh] at hk
        have hs := hget u s (hl.get_ok u x s (by rw [hh]))
        refine ⟨false, ?_⟩
        simp only [taskStep, getSession_free hs]
        by_cases hc : s.status.lt .sentRequest = true
        · rw [if_pos hc, if_pos hc]; exact ⟨rfl, .nil, by rw [hk, hv]⟩
        · rw [if_neg hc, if_neg hc]; exact ⟨rfl, .same .nil, by rw [hk, hv]⟩
    | verify u r f =>
      simp only [SessionStore.taskStep]
      have hk := hl.get_keeps u x
      rcases hh : st.getSession u x with ⟨y, e | s⟩
      · rw [hh] at hk
        refine ⟨true, rfl, ?_, by rw [hk, hv]; rfl⟩
        simpa [taskStep, Store.getSession] using .failed .nil
      · rw [hh] at hk
        have hs := hget u s (hl.get_ok u x s (by rw [hh]))
        refine ⟨false, ?_⟩
        simp only [taskStep, getSession_free hs]
        exact ⟨trivial, .nil, by rw [hk, hv]⟩
    | remove u =>
      simp only [SessionStore.taskStep]
      rcases hh : (st.removeSession u x).2 with e | ⟨⟩
      · refine ⟨true, rfl, ?_, ?_⟩
        · simpa [taskStep, resEvent, Store.removeSession] using .failed .nil
        · rw [hl.remove_error u x e hh, hv]; rfl
      · obtain ⟨⟨s, hs⟩, hr⟩ := hl.remove_ok u x hh
        have hs := hget u s hs
        refine ⟨false, rfl, ?_, ?_⟩
        · simpa [taskStep, resEvent, Store.removeSession, hs] using .same .nil
        · rw [hr, hv]
          funext u'
          simp only [taskStep, Store.removeSession, Bool.false_eq_true, if_false, hs,
            Store.get_remove hσ, AMap.put]
  | retrieveGot u s =>
    rcases hh : st.updateStatus u .sentRequest x with ⟨y, e | ⟨⟩⟩
    · have hk := hl.update_error u .sentRequest x e (by rw [hh])
      rw [hh] at hk
      refine ⟨true, ?_⟩
      simp only [SessionStore.taskStep, hh, step_retrieveGot]
      exact ⟨trivial, .failed .nil, by rw [hk, hv]; rfl⟩
    · obtain ⟨s0, hs0, hk⟩ := hl.update_ok u .sentRequest x (by rw [hh])
      rw [hh] at hk
      have hs0 := hget u s0 hs0
      refine ⟨false, ?_⟩
      simp only [SessionStore.taskStep, hh, step_retrieveGot, updateStatus_result, hs0]
      refine ⟨trivial, .refl _, ?_⟩
      rw [hk, hv]
      funext u'
      simp only [updateStatus_get, AMap.put, and_true, hs0, Option.map_some]
  | verifyGot u s r f => exact ⟨false, rfl, .refl _, hv⟩
  | verifyDone u o =>
    simp only [SessionStore.taskStep]
    rcases hh : (st.updateStatus u (.complete o) x).2 with e | ⟨⟩
    · refine ⟨true, rfl, ?_, ?_⟩
      · simpa [taskStep, resEvent, Store.updateStatus] using .failed .nil
      · rw [hl.update_error u _ x e hh, hv]; rfl
    · obtain ⟨s0, hs0, hk⟩ := hl.update_ok u _ x hh
      have hs0 := hget u s0 hs0
      refine ⟨false, rfl, ?_, ?_⟩
      · simp only [taskStep, resEvent, updateStatus_result, hs0]
        exact .refl _
      · rw [hk, hv]
        funext u'
        simp only [taskStep, updateStatus_get, AMap.put, and_true, hs0, Option.map_some]
  | finished => exact ⟨false, rfl, .nil, hv⟩

/-- One scheduling decision over a lawful store is one over the bundled one. -/
theorem next_simulated (hl : Lawful st view) {w : SessionStore.World S} {v : World} (hσ : v.store.Ok)
    (ht : w.tasks = v.tasks) (hv : view w.store = fun u => v.store.get u) (m : SessionStore.Move) :
    ∃ s, SameMove m s ∧ (st.next w m).1.tasks = (v.next s).1.tasks ∧
      SameEffects (st.next w m).2 (v.next s).2 ∧
      (view (st.next w m).1.store = fun u => (v.next s).1.store.get u) ∧ (v.next s).1.store.Ok := by
  cases m with
  | spawn op => exact ⟨.spawn op, .spawn op, by simp [SessionStore.next, World.next, ht], .nil, hv, hσ⟩
  | abandon i =>
    exact ⟨.abandon i, .abandon i, by simp [SessionStore.next, World.next, ht], .nil, hv, hσ⟩
  | step i =>
    cases hi : v.tasks[i]? with
    | none =>
      refine ⟨.step i false, .step i false, ?_⟩
      simp only [SessionStore.next, World.next, ht, hi]
      exact ⟨trivial, .nil, hv, hσ⟩
    | some t =>
      obtain ⟨busy, h1, h2, h3⟩ := taskStep_simulated hl hσ hv t
      refine ⟨.step i busy, .step i busy, ?_⟩
      simp only [SessionStore.next, World.next, ht, hi, h1]
      exact ⟨trivial, h2, h3, taskStep_ok hσ busy t⟩

/-- **C88** (refinement) Whatever the verifier does over a lawful store, however operations
interleave and fail, it could have done over the bundled store, with the same scheduling: the same
operations are running, the same sessions are stored, and the effects differ at most in the reasons
of failures. -/
theorem C88_refines (hl : Lawful st view) (ms : List SessionStore.Move) (w : SessionStore.World S)
    (v : World) (hσ : v.store.Ok) (ht : w.tasks = v.tasks)
    (hv : view w.store = fun u => v.store.get u) :
    ∃ ss, SameMoves ms ss ∧ (st.run w ms).1.tasks = (v.run ss).1.tasks ∧
      SameEffects (st.run w ms).2 (v.run ss).2 ∧
      (view (st.run w ms).1.store = fun u => (v.run ss).1.store.get u) := by
  induction ms generalizing w v with
  | nil => exact ⟨[], .nil, ht, .nil, hv⟩
  | cons m ms ih =>
    obtain ⟨s, h1, h2, h3, h4, h5⟩ := next_simulated hl hσ ht hv m
    obtain ⟨ss, k1, k2, k3, k4⟩ := ih (st.next w m).1 (v.next s).1 h5 h2 h4
    exact ⟨s :: ss, .cons h1 k1, k2, h3.append k3, k4⟩

theorem Spec.SameMoves.spawn {ms : List SessionStore.Move} {ss : List Sched} (h : SameMoves ms ss)
    (op : Op) : .spawn op ∈ ms ↔ .spawn op ∈ ss := by
  induction h with
  | nil => simp
  | cons h1 _ ih => cases h1 <;> simp [ih]

/-- The same from an empty store. -/
theorem simulated_empty (hl : Lawful st view) {x : S} (hx : ∀ u, view x u = none)
    (ms : List SessionStore.Move) :
    ∃ ss, SameMoves ms ss ∧ SameEffects (st.run ⟨x, []⟩ ms).2 (World.run ⟨[], []⟩ ss).2 ∧
      ∀ u, view (st.run ⟨x, []⟩ ms).1.store u = (World.run ⟨[], []⟩ ss).1.store.get u := by
  obtain ⟨ss, h1, -, h3, h4⟩ := C88_refines hl ms ⟨x, []⟩ ⟨[], []⟩ List.nodup_nil rfl
    (by funext u; rw [hx]; rfl)
  exact ⟨ss, h1, h3, fun u => by rw [h4]⟩

/-- **C88** Over any lawful store that starts empty, a JWT handed out for an id belongs to a session
built under that id. -/
theorem C88_retrieved (hl : Lawful st view) {x : S} (hx : ∀ u, view x u = none)
    (ms : List SessionStore.Move) (u : Uuid) (jwt : Str)
    (h : .retrieved u jwt ∈ (st.run ⟨x, []⟩ ms).2) :
    .spawn (.retrieve u) ∈ ms ∧ ∃ s, .spawn (.build s) ∈ ms ∧ s.uuid = u ∧ s.jwt = jwt := by
  obtain ⟨ss, h1, h2, -⟩ := simulated_empty hl hx ms
  obtain ⟨k1, -, s, k2, k3, k4⟩ := C68_retrieved_was_stored ss u jwt ((h2.mem (by simp)).1 h)
  exact ⟨(h1.spawn _).2 k1, s, (h1.spawn _).2 k2, k3, k4⟩

/-- **C88** Over any lawful store that starts empty, a validator is only called with a session whose
request was built under the id of the response. -/
theorem C88_validated (hl : Lawful st view) {x : S} (hx : ∀ u, view x u = none)
    (ms : List SessionStore.Move) (u : Uuid) (s : Session) (r : AuthorizationResponse) (o : Outcome)
    (h : .validated u s r o ∈ (st.run ⟨x, []⟩ ms).2) :
    s.uuid = u ∧ ∃ b, .spawn (.build b) ∈ ms ∧ SameRequest b s := by
  obtain ⟨ss, h1, h2, -⟩ := simulated_empty hl hx ms
  obtain ⟨k1, -, b, k2, k3⟩ := C32_validator_called_with_session ss u s r o ((h2.mem (by simp)).1 h)
  exact ⟨k1, b, (h1.spawn _).2 k2, k3⟩

/-- **C88** Over any lawful store that starts empty, if no session is built as completed, the outcome
of a completed session was returned by a validator for that id, and a completed status handed out
for an id carries such an outcome. -/
theorem C88_outcome (hl : Lawful st view) {x : S} (hx : ∀ u, view x u = none)
    (ms : List SessionStore.Move) (u : Uuid) (o : Outcome)
    (hb : ∀ b o, .spawn (.build b) ∈ ms → b.status ≠ .complete o)
    (h : (∃ s, view (st.run ⟨x, []⟩ ms).1.store u = some s ∧ s.status = .complete o) ∨
      .polled u (.complete o) ∈ (st.run ⟨x, []⟩ ms).2) :
    ∃ s r f, .spawn (.verify u r f) ∈ ms ∧ o = f s r ∧
      ∃ b, .spawn (.build b) ∈ ms ∧ b.uuid = u ∧ SameRequest b s := by
  obtain ⟨ss, h1, h2, h3⟩ := simulated_empty hl hx ms
  have hb' : ∀ b o, .spawn (.build b) ∈ ss → b.status ≠ .complete o :=
    fun b o k => hb b o ((h1.spawn _).2 k)
  have built : ∀ s, WasStored ⟨[], []⟩ ss u s →
      ∃ b, .spawn (.build b) ∈ ms ∧ b.uuid = u ∧ SameRequest b s := by
    intro s hw
    obtain ⟨b, k1, k2, k3⟩ := wasStored_built ss u s hw
    exact ⟨b, (h1.spawn _).2 k1, k2, k3⟩
  rcases h with ⟨s, hs, hc⟩ | h
  · rw [h3] at hs
    obtain ⟨s', r, f, k1, k2, k3, -, -⟩ := C32_outcome_from_validator ss u s o hb' hs hc
    exact ⟨s', r, f, (h1.spawn _).2 k1, k2, built s' k3⟩
  · obtain ⟨-, -, k⟩ := C68_polled_was_stored ss u _ ((h2.mem (by simp)).1 h)
    obtain ⟨s, r, f, k1, k2, k3⟩ := k hb' o rfl
    exact ⟨s, r, f, (h1.spawn _).2 k1, k2, built s k3⟩

/-- **C88** Over any lawful store, a step of an operation about one session changes no other
session. -/
theorem C88_isolated (hl : Lawful st view) (w : SessionStore.World S) (i : Nat) (t : Task) (u : Uuid)
    (ht : w.tasks[i]? = some t) (h : taskAbout t ≠ some u) :
    view (st.next w (.step i)).1.store u = view w.store u := by
  simp only [SessionStore.next, ht]
  have put_ne : ∀ (A : AMap) (v : Uuid) (s : Option Session), v ≠ u → A.put v s u = A u :=
    fun A v s hne => if_neg (fun e => hne e.symm)
  cases t with
  | start op =>
    cases op with
    | build s =>
      have hne : s.uuid ≠ u := fun e => h (by simp [taskAbout, opAbout, e])
      simp only [SessionStore.taskStep]
      rcases hh : (st.initiate s w.store).2 with e | ⟨⟩
      · rw [hl.initiate_error s _ e hh]
      · rw [hl.initiate_ok s _ hh, put_ne _ _ _ hne]
    | poll v =>
      have hk := hl.get_keeps v w.store
      simp only [SessionStore.taskStep]
      rcases hh : st.getSession v w.store with ⟨y, e | s⟩ <;> rw [hh] at hk <;> simp only [hk]
    | retrieve v =>
      have hk := hl.get_keeps v w.store
      simp only [SessionStore.taskStep]
      rcases hh : st.getSession v w.store with ⟨y, e | s⟩ <;> rw [hh] at hk
      · simp only [hk]
      · dsimp only; split <;> simp only [hk]
    | verify v r f =>
      have hk := hl.get_keeps v w.store
      simp only [SessionStore.taskStep]
      rcases hh : st.getSession v w.store with ⟨y, e | s⟩ <;> rw [hh] at hk <;> simp only [hk]
    | remove v =>
      have hne : v ≠ u := fun e => h (by simp [taskAbout, opAbout, e])
      simp only [SessionStore.taskStep]
      rcases hh : (st.removeSession v w.store).2 with e | ⟨⟩
      · rw [hl.remove_error v _ e hh]
      · rw [(hl.remove_ok v _ hh).2, put_ne _ _ _ hne]
  | retrieveGot v s =>
    have hne : v ≠ u := fun e => h (by simp [taskAbout, e])
    simp only [SessionStore.taskStep]
    rcases hh : st.updateStatus v .sentRequest w.store with ⟨y, e | ⟨⟩⟩
    · have hk := hl.update_error v .sentRequest w.store e (by rw [hh])
      rw [hh] at hk
      simp only [hk]
    · obtain ⟨s0, -, hk⟩ := hl.update_ok v .sentRequest w.store (by rw [hh])
      rw [hh] at hk
      simp only [hk, put_ne _ _ _ hne]
  | verifyGot v s r f => rfl
  | verifyDone v o =>
    have hne : v ≠ u := fun e => h (by simp [taskAbout, e])
    simp only [SessionStore.taskStep]
    rcases hh : (st.updateStatus v (.complete o) w.store).2 with e | ⟨⟩
    · rw [hl.update_error v _ _ e hh]
    · obtain ⟨s0, -, hk⟩ := hl.update_ok v _ _ hh
      rw [hk, put_ne _ _ _ hne]
  | finished => rfl

end Simulation

/-! ## The bundled store is lawful -/

/-- What a store's contents show: the sessions, if every id occurs once. -/
def memoryView (x : {x : Store × List Bool // x.1.Ok}) : AMap := fun u => x.1.1.get u

/-- `SessionStore.memory` with the knowledge that every id occurs once. -/
def memoryOk : SessionStore {x : Store × List Bool // x.1.Ok} where
  initiate s x := (⟨(SessionStore.memory.initiate s x.1).1, initiate_ok x.2 _ _⟩,
    (SessionStore.memory.initiate s x.1).2)
  updateStatus u t x := (⟨(SessionStore.memory.updateStatus u t x.1).1, updateStatus_ok x.2 _ _ _⟩,
    (SessionStore.memory.updateStatus u t x.1).2)
  getSession u x := (⟨(SessionStore.memory.getSession u x.1).1, x.2⟩,
    (SessionStore.memory.getSession u x.1).2)
  removeSession u x := (⟨(SessionStore.memory.removeSession u x.1).1, removeSession_ok x.2 _ _⟩,
    (SessionStore.memory.removeSession u x.1).2)

/-- **C88** The bundled store is lawful, whenever its lock is taken. -/
theorem C88_memory_lawful : Lawful memoryOk memoryView where
  initiate_ok s x h := by
    obtain ⟨⟨σ, bs⟩, hx⟩ := x
    funext u
    change (σ.initiate (bs.headD false) s).2 = _ at h
    change (σ.initiate (bs.headD false) s).1.get u = if u = s.uuid then some s else σ.get u
    generalize bs.headD false = b at h ⊢
    cases b with
    | true => simp [Store.initiate] at h
    | false => simp [initiate_get]
  initiate_error s x e h := by
    obtain ⟨⟨σ, bs⟩, hx⟩ := x
    funext u
    change (σ.initiate (bs.headD false) s).2 = _ at h
    change (σ.initiate (bs.headD false) s).1.get u = σ.get u
    generalize bs.headD false = b at h ⊢
    cases b with
    | true => simp [initiate_get]
    | false => simp [Store.initiate] at h
  update_ok u t x h := by
    obtain ⟨⟨σ, bs⟩, hx⟩ := x
    change (σ.updateStatus (bs.headD false) u t).2 = _ at h
    change ∃ s, σ.get u = some s ∧ (fun u' => (σ.updateStatus (bs.headD false) u t).1.get u') =
      fun u' => if u' = u then some { s with status := t } else σ.get u'
    generalize bs.headD false = b at h ⊢
    rw [updateStatus_result] at h
    cases b with
    | true => simp at h
    | false =>
      cases hg : σ.get u with
      | none => rw [hg] at h; simp at h
      | some s =>
        refine ⟨s, rfl, ?_⟩
        funext u'
        simp [updateStatus_get, hg]
  update_error u t x e h := by
    obtain ⟨⟨σ, bs⟩, hx⟩ := x
    funext u'
    change (σ.updateStatus (bs.headD false) u t).2 = _ at h
    change (σ.updateStatus (bs.headD false) u t).1.get u' = σ.get u'
    generalize bs.headD false = b at h ⊢
    rw [updateStatus_result] at h
    rw [updateStatus_get]
    cases b with
    | true => simp
    | false =>
      cases hg : σ.get u with
      | none =>
        by_cases hu : u' = u
        · subst hu; simp [hg]
        · simp [hu]
      | some s => rw [hg] at h; simp at h
  get_ok u x s h := by
    obtain ⟨⟨σ, bs⟩, hx⟩ := x
    exact getSession_ok h
  get_keeps u x := rfl
  remove_ok u x h := by
    obtain ⟨⟨σ, bs⟩, hx⟩ := x
    change (σ.removeSession (bs.headD false) u).2 = _ at h
    change (∃ s, σ.get u = some s) ∧ (fun u' => (σ.removeSession (bs.headD false) u).1.get u') =
      fun u' => if u' = u then none else σ.get u'
    generalize bs.headD false = b at h ⊢
    cases b with
    | true => simp [Store.removeSession] at h
    | false =>
      cases hg : σ.get u with
      | none => simp [Store.removeSession, hg] at h
      | some s =>
        refine ⟨⟨s, rfl⟩, ?_⟩
        funext u'
        simp [Store.removeSession, hg, Store.get_remove hx]
  remove_error u x e h := by
    obtain ⟨⟨σ, bs⟩, hx⟩ := x
    funext u'
    change (σ.removeSession (bs.headD false) u).2 = _ at h
    change (σ.removeSession (bs.headD false) u).1.get u' = σ.get u'
    generalize bs.headD false = b at h ⊢
    cases b with
    | true => simp [Store.removeSession]
    | false =>
      cases hg : σ.get u with
      | none => simp [Store.removeSession, hg]
      | some s => simp [Store.removeSession, hg] at h

theorem memory_step (b : Bool) (σ : Store) (bs : List Bool) (t : Task) :
    SessionStore.memory.taskStep (σ, (callOf t).map (fun _ => b) ++ bs) t =
      (((taskStep b σ t).1, bs), (taskStep b σ t).2) := by
  cases t with
  | start op =>
    cases op with
    | build s => rfl
    | poll u =>
      simp only [SessionStore.taskStep, SessionStore.memory, taskStep, callOf, List.map_cons,
        List.map_nil, List.cons_append, List.nil_append,
        List.headD_cons, List.tail_cons]
      cases σ.getSession b u <;> rfl
    | retrieve u =>
      simp only [SessionStore.taskStep, SessionStore.memory, taskStep, callOf, List.map_cons,
        List.map_nil, List.cons_append, List.nil_append,
        List.headD_cons, List.tail_cons]
      cases σ.getSession b u with
      | error e => rfl
      | ok s => dsimp only; split <;> rfl
    | verify u r f =>
      simp only [SessionStore.taskStep, SessionStore.memory, taskStep, callOf, List.map_cons,
        List.map_nil, List.cons_append, List.nil_append,
        List.headD_cons, List.tail_cons]
      cases σ.getSession b u <;> rfl
    | remove u => rfl
  | retrieveGot u s =>
    simp only [SessionStore.taskStep, SessionStore.memory, taskStep, callOf, List.map_cons,
        List.map_nil, List.cons_append, List.nil_append,
      List.headD_cons, List.tail_cons]
    rcases σ.updateStatus b u .sentRequest with ⟨σ', e | ⟨⟩⟩ <;> rfl
  | verifyGot u s r f => rfl
  | verifyDone u o => rfl
  | finished => rfl

/-- **C88** Every execution of the verifier of the other theorems is one over the bundled store: there are
answers of `try_lock`, call by call, with which it takes the same course and uses up these answers. -/
theorem C88_memory_run (ss : List Sched) (w : World) : ∃ ms bs, SameMoves ms ss ∧
    ∀ rest, SessionStore.memory.run ⟨(w.store, bs ++ rest), w.tasks⟩ ms =
      (⟨((w.run ss).1.store, rest), (w.run ss).1.tasks⟩, (w.run ss).2) := by
  induction ss generalizing w with
  | nil => exact ⟨[], [], .nil, fun _ => rfl⟩
  | cons s ss ih =>
    obtain ⟨ms, bs, hm, hr⟩ := ih (w.next s).1
    have step : ∃ m l, SameMove m s ∧ ∀ rest, SessionStore.memory.next ⟨(w.store, l ++ rest), w.tasks⟩ m =
        (⟨((w.next s).1.store, rest), (w.next s).1.tasks⟩, (w.next s).2) := by
      cases s with
      | spawn op => exact ⟨.spawn op, [], .spawn op, fun _ => rfl⟩
      | abandon i => exact ⟨.abandon i, [], .abandon i, fun _ => rfl⟩
      | step i b =>
        cases ht : w.tasks[i]? with
        | none =>
          refine ⟨.step i, [], .step i b, fun rest => ?_⟩
          simp only [SessionStore.next, World.next, ht, List.nil_append]
        | some t =>
          refine ⟨.step i, (callOf t).map (fun _ => b), .step i b, fun rest => ?_⟩
          simp only [SessionStore.next, World.next, ht, memory_step]
    obtain ⟨m, l, h1, h2⟩ := step
    refine ⟨m :: ms, l ++ bs, .cons h1 hm, fun rest => ?_⟩
    simp only [SessionStore.run, World.run, List.append_assoc, h2, hr]

/-- The lost update of C31, over the bundled store. -/
example : ∃ ms bs, SameMoves ms (raceSample ++ [.step 1 false]) ∧
    (SessionStore.memory.run ⟨([], bs), []⟩ ms).1.store.1 =
      (World.run ⟨[], []⟩ (raceSample ++ [.step 1 false])).1.store := by
  obtain ⟨ms, bs, h1, h2⟩ := C88_memory_run (raceSample ++ [.step 1 false]) ⟨[], []⟩
  refine ⟨ms, bs, h1, ?_⟩
  have := h2 []
  rw [List.append_nil] at this
  rw [this]

/-- **C88** Run over the bundled store with no contention, this is the verifier of the other
theorems. -/
theorem C88_memory (u : Uuid) (r : AuthorizationResponse) (f : Validator) (v : Verifier)
    (b : RequestBuilder) (wm : WalletMetadata) (σ : Store) :
    SessionStore.memory.poll u (σ, []) = ((σ, []), pollStatus u σ) ∧
    SessionStore.memory.retrieve u (σ, []) = (((retrieve u σ).1, []), (retrieve u σ).2) ∧
    SessionStore.memory.verify u r f (σ, []) =
      (((verifyResponse u r f σ).1, []), (verifyResponse u r f σ).2) ∧
    SessionStore.memory.build v b u wm (σ, []) =
      (((b.buildWithSessionId v u wm false σ).1, []), (b.buildWithSessionId v u wm false σ).2) ∧
    SessionStore.memory.buildDcApi v b u (σ, []) =
      (((b.buildDcApi v u false σ).1, []), (b.buildDcApi v u false σ).2) := by
  refine ⟨?_, ?_, ?_, ?_, ?_⟩
  · simp only [SessionStore.poll, SessionStore.memory, pollStatus, List.headD_nil, List.tail_nil]
    cases σ.getSession false u <;> rfl
  · simp only [SessionStore.retrieve, SessionStore.memory, retrieve, List.headD_nil, List.tail_nil]
    cases σ.getSession false u with
    | error e => rfl
    | ok s =>
      dsimp only
      split
      · simp only [List.headD_nil, List.tail_nil]
        rcases σ.updateStatus false u .sentRequest with ⟨σ', e | ⟨⟩⟩ <;> rfl
      · rfl
  · simp only [SessionStore.verify, SessionStore.memory, verifyResponse, List.headD_nil, List.tail_nil]
    cases σ.getSession false u <;> rfl
  · simp only [SessionStore.build, SessionStore.memory, RequestBuilder.buildWithSessionId,
      List.headD_nil, List.tail_nil]
    rcases b.construct v u wm with e | ⟨s, url⟩
    · rfl
    · dsimp only
      rcases σ.initiate false s with ⟨σ', e | ⟨⟩⟩ <;> rfl
  · simp only [SessionStore.buildDcApi, SessionStore.memory, RequestBuilder.buildDcApi,
      List.headD_nil, List.tail_nil]
    rcases b.constructDcApi v u with e | s
    · rfl
    · dsimp only
      rcases σ.initiate false s with ⟨σ', e | ⟨⟩⟩ <;> rfl

/-! ## Cases -/

/-- A store that keeps every version of every session and is unavailable every third call. -/
def journal : SessionStore (Nat × List (Uuid × Option Session)) where
  initiate s x := if x.1 % 3 = 2 then ((x.1 + 1, x.2), .error .http)
    else ((x.1 + 1, (s.uuid, some s) :: x.2), .ok ())
  updateStatus u t x := if x.1 % 3 = 2 then ((x.1 + 1, x.2), .error .http)
    else match (x.2.find? (fun p => p.1 = u)).bind Prod.snd with
      | some s => ((x.1 + 1, (u, some { s with status := t }) :: x.2), .ok ())
      | none => ((x.1 + 1, x.2), .error .notFound)
  getSession u x := if x.1 % 3 = 2 then ((x.1 + 1, x.2), .error .http)
    else match (x.2.find? (fun p => p.1 = u)).bind Prod.snd with
      | some s => ((x.1 + 1, x.2), .ok s)
      | none => ((x.1 + 1, x.2), .error .notFound)
  removeSession u x := if x.1 % 3 = 2 then ((x.1 + 1, x.2), .error .http)
    else match (x.2.find? (fun p => p.1 = u)).bind Prod.snd with
      | some _ => ((x.1 + 1, (u, none) :: x.2), .ok ())
      | none => ((x.1 + 1, x.2), .error .notFound)

/-- The newest version counts. -/
def journalView (x : Nat × List (Uuid × Option Session)) : AMap := fun u =>
  (x.2.find? (fun p => p.1 = u)).bind Prod.snd

/-- That store is lawful, though quite unlike the bundled one. -/
theorem journal_lawful : Lawful journal journalView where
  initiate_ok s x h := by
    simp only [journal] at h ⊢
    split at h
    · cases h
    · rename_i hn
      rw [if_neg hn]
      funext u
      simp only [journalView, List.find?_cons, AMap.put]
      by_cases hu : u = s.uuid
      · simp [hu]
      · simp [hu, Ne.symm hu]
  initiate_error s x e h := by
    simp only [journal] at h ⊢
    split at h
    · rename_i hn; rw [if_pos hn]; rfl
    · cases h
  update_ok u t x h := by
    simp only [journal] at h ⊢
    split at h
    · cases h
    · rename_i hn
      rw [if_neg hn]
      cases hg : (x.2.find? (fun p => p.1 = u)).bind Prod.snd with
      | none => rw [hg] at h; cases h
      | some s =>
        refine ⟨s, hg, ?_⟩
        funext u'
        simp only [journalView, List.find?_cons, AMap.put]
        by_cases hu : u' = u
        · simp [hu]
        · simp [hu, Ne.symm hu]
  update_error u t x e h := by
    simp only [journal] at h ⊢
    split at h
    · rename_i hn; rw [if_pos hn]; rfl
    · rename_i hn
      rw [if_neg hn]
      cases hg : (x.2.find? (fun p => p.1 = u)).bind Prod.snd with
      | none => rfl
      | some s => rw [hg] at h; cases h
  get_ok u x s h := by
    simp only [journal] at h
    split at h
    · cases h
    · cases hg : (x.2.find? (fun p => p.1 = u)).bind Prod.snd with
      | none => rw [hg] at h; cases h
      | some s' => rw [hg] at h; cases h; exact hg
  get_keeps u x := by
    simp only [journal]
    split
    · rfl
    · cases hg : (x.2.find? (fun p => p.1 = u)).bind Prod.snd <;> rfl
  remove_ok u x h := by
    simp only [journal] at h ⊢
    split at h
    · cases h
    · rename_i hn
      rw [if_neg hn]
      cases hg : (x.2.find? (fun p => p.1 = u)).bind Prod.snd with
      | none => rw [hg] at h; cases h
      | some s =>
        refine ⟨⟨s, hg⟩, ?_⟩
        funext u'
        simp only [journalView, List.find?_cons, AMap.put]
        by_cases hu : u' = u
        · simp [hu]
        · simp [hu, Ne.symm hu]
  remove_error u x e h := by
    simp only [journal] at h ⊢
    split at h
    · rename_i hn; rw [if_pos hn]; rfl
    · rename_i hn
      rw [if_neg hn]
      cases hg : (x.2.find? (fun p => p.1 = u)).bind Prod.snd with
      | none => rfl
      | some s => rw [hg] at h; cases h

-- a session built, retrieved and verified over the journal; one poll meets it unavailable
example :
    let a := sessionSample 1 .sentRequestByReference
    let ms : List SessionStore.Move := [.spawn (.build a), .step 0, .spawn (.retrieve (buildId 1)),
      .step 1, .spawn (.poll (buildId 1)), .step 2, .step 1,
      .spawn (.verify (buildId 1) responseSample acceptAll), .step 3, .step 3,
      .spawn (.poll (buildId 2)), .step 4, .step 3, .spawn (.poll (buildId 1)), .step 5]
    (∀ u, journalView (0, []) u = none) ∧
    (journal.run ⟨(0, []), []⟩ ms).2 = [.initiated a, .failed (buildId 1) .http,
      .statusSet (buildId 1) .sentRequest, .retrieved (buildId 1) c!"a.b.c",
      .validated (buildId 1) (sessionSample 1 .sentRequest) responseSample (.success (.bool true)),
      .failed (buildId 2) .http, .statusSet (buildId 1) (.complete (.success (.bool true))),
      .polled (buildId 1) (.complete (.success (.bool true)))] := ⟨fun _ => rfl, rfl⟩

-- the calls made for a retrieval and a verification
example :
    let x : Nat × List (Uuid × Option Session) :=
      (0, [(buildId 1, some (sessionSample 1 .sentRequestByReference))])
    (journal.logged.retrieve (buildId 1) (x, [])).1.2 =
      [.getSession (buildId 1), .updateStatus (buildId 1) .sentRequest] ∧
    (journal.logged.verify (buildId 1) responseSample refuseAll (x, [])).1.2 =
      [.getSession (buildId 1), .updateStatus (buildId 1) (.complete (.failure c!"no"))] ∧
    (journal.logged.verify (buildId 7) responseSample refuseAll (x, [])).1.2 =
      [.getSession (buildId 7)] := ⟨rfl, rfl, rfl⟩

end Oid4vp
