import Verif.Spec.Session
import Verif.Props.Build
/-!
# C29–C34: the session store, concurrent operations, statuses
-/

set_option autoImplicit false

namespace Oid4vp

open Spec

/-! ## C29 -/

/-- Every id occurs once. -/
def Store.Ok (σ : Store) : Prop := (σ.map Prod.fst).Nodup

theorem Store.insert_keys (u : Uuid) (s : Session) (σ : Store) :
    ∀ k, k ∈ (σ.insert u s).map Prod.fst ↔ k = u ∨ k ∈ σ.map Prod.fst := by
  induction σ with
  | nil => intro k; simp [Store.insert]
  | cons p σ ih =>
    obtain ⟨k0, t⟩ := p
    intro k
    simp only [Store.insert]
    by_cases h : u = k0
    · subst h; simp
    · rw [if_neg h]
      simp only [List.map_cons, List.mem_cons, ih]
      constructor
      · rintro (h1 | h1 | h1)
        · exact .inr (.inl h1)
        · exact .inl h1
        · exact .inr (.inr h1)
      · rintro (h1 | h1 | h1)
        · exact .inr (.inl h1)
        · exact .inl h1
        · exact .inr (.inr h1)

theorem Store.insert_ok {σ : Store} (h : σ.Ok) (u : Uuid) (s : Session) : (σ.insert u s).Ok := by
  induction σ with
  | nil => simp [Store.insert, Store.Ok]
  | cons p σ ih =>
    obtain ⟨k0, t⟩ := p
    simp only [Store.Ok, List.map_cons, List.nodup_cons] at h
    simp only [Store.insert]
    by_cases he : u = k0
    · subst he
      rw [if_pos rfl]
      simpa [Store.Ok] using h
    · rw [if_neg he]
      simp only [Store.Ok, List.map_cons, List.nodup_cons]
      refine ⟨?_, ih h.2⟩
      intro hm
      rcases (Store.insert_keys u s σ k0).mp hm with h1 | h1
      · exact he h1.symm
      · exact h.1 h1

theorem Store.remove_keys (u : Uuid) (σ : Store) :
    ∀ k, k ∈ (σ.remove u).map Prod.fst → k ∈ σ.map Prod.fst := by
  induction σ with
  | nil => intro k h; exact h
  | cons p σ ih =>
    obtain ⟨k0, t⟩ := p
    intro k
    simp only [Store.remove]
    by_cases h : u = k0
    · rw [if_pos h]; intro hk; exact List.mem_cons_of_mem _ hk
    · rw [if_neg h]
      simp only [List.map_cons, List.mem_cons]
      rintro (h1 | h1)
      · exact .inl h1
      · exact .inr (ih k h1)

theorem Store.remove_ok {σ : Store} (h : σ.Ok) (u : Uuid) : (σ.remove u).Ok := by
  induction σ with
  | nil => exact h
  | cons p σ ih =>
    obtain ⟨k0, t⟩ := p
    simp only [Store.Ok, List.map_cons, List.nodup_cons] at h
    simp only [Store.remove]
    by_cases he : u = k0
    · rw [if_pos he]; exact h.2
    · rw [if_neg he]
      simp only [Store.Ok, List.map_cons, List.nodup_cons]
      exact ⟨fun hm => h.1 (Store.remove_keys u σ k0 hm), ih h.2⟩

theorem Store.get_none_of_key {u : Uuid} {σ : Store} (h : u ∉ σ.map Prod.fst) : σ.get u = none := by
  induction σ with
  | nil => rfl
  | cons p σ ih =>
    obtain ⟨k0, t⟩ := p
    simp only [List.map_cons, List.mem_cons, not_or] at h
    simp only [Store.get]
    rw [if_neg h.1, ih h.2]

theorem Store.get_remove {σ : Store} (h : σ.Ok) (u u' : Uuid) :
    (σ.remove u).get u' = if u' = u then none else σ.get u' := by
  by_cases hu : u' = u
  · rw [if_pos hu, hu]
    induction σ with
    | nil => rfl
    | cons p σ ih =>
      obtain ⟨k0, t⟩ := p
      simp only [Store.Ok, List.map_cons, List.nodup_cons] at h
      simp only [Store.remove]
      by_cases he : u = k0
      · rw [if_pos he, he]; exact Store.get_none_of_key h.1
      · rw [if_neg he]
        simp only [Store.get]
        rw [if_neg he]
        exact ih h.2
  · rw [if_neg hu, Store.get_remove_ne hu]

theorem storeStep_refines {σ : Store} (h : σ.Ok) (op : Bool × StoreOp) :
    (storeStep σ op).1.Ok ∧ (storeStep σ op).2 = (AMap.step (fun u => σ.get u) op).2 ∧
    (fun u => (storeStep σ op).1.get u) = (AMap.step (fun u => σ.get u) op).1 := by
  obtain ⟨busy, op⟩ := op
  cases busy with
  | true => cases op <;> exact ⟨h, rfl, rfl⟩
  | false =>
    cases op with
    | initiate s =>
      refine ⟨Store.insert_ok h _ _, rfl, ?_⟩
      funext u
      exact Store.get_insert s.uuid u s σ
    | update u st =>
      simp only [storeStep, Store.updateStatus, AMap.step, Bool.false_eq_true, if_false]
      cases hg : σ.get u with
      | none => exact ⟨h, rfl, rfl⟩
      | some s =>
        refine ⟨Store.insert_ok h _ _, rfl, ?_⟩
        funext u'
        exact Store.get_insert u u' _ σ
    | get u =>
      simp only [storeStep, Store.getSession, AMap.step, Bool.false_eq_true, if_false]
      cases hg : σ.get u with
      | none => exact ⟨h, rfl, rfl⟩
      | some s => exact ⟨h, rfl, rfl⟩
    | remove u =>
      simp only [storeStep, Store.removeSession, AMap.step, Bool.false_eq_true, if_false]
      cases hg : σ.get u with
      | none => exact ⟨h, rfl, rfl⟩
      | some s =>
        refine ⟨Store.remove_ok h _, rfl, ?_⟩
        funext u'
        exact Store.get_remove h u u'

theorem storeRun_refines {σ : Store} (h : σ.Ok) (ops : List (Bool × StoreOp)) :
    (storeRun σ ops).2 = (AMap.run (fun u => σ.get u) ops).2 ∧
    (fun u => (storeRun σ ops).1.get u) = (AMap.run (fun u => σ.get u) ops).1 := by
  induction ops generalizing σ with
  | nil => exact ⟨rfl, rfl⟩
  | cons op ops ih =>
    obtain ⟨h1, h2, h3⟩ := storeStep_refines h op
    obtain ⟨h4, h5⟩ := ih h1
    simp only [storeRun, AMap.run]
    rw [h4, h5, h2, h3]
    exact ⟨rfl, rfl⟩

/-- **C29** Over every history, with any lock contention, the store gives the answers of an
abstract map and ends with the contents of that map. -/
theorem C29_store_is_map (ops : List (Bool × StoreOp)) :
    (storeRun [] ops).2 = (AMap.run (fun _ => none) ops).2 ∧
    ∀ u, (storeRun [] ops).1.get u = (AMap.run (fun _ => none) ops).1 u := by
  obtain ⟨h1, h2⟩ := storeRun_refines (σ := []) List.nodup_nil ops
  exact ⟨h1, fun u => congrFun h2 u⟩

theorem AMap.run_last (u : Uuid) (A : AMap) (ops : List (Bool × StoreOp)) :
    (A.run ops).1 u = lastSession u (unlocked ops) (A u) := by
  induction ops generalizing A with
  | nil => rfl
  | cons op ops ih =>
    obtain ⟨busy, op⟩ := op
    simp only [AMap.run]
    rw [ih]
    cases busy with
    | true => rfl
    | false =>
      cases op with
      | initiate s =>
        simp only [AMap.step, AMap.put, unlocked, lastSession]
        congr 1
        by_cases h : s.uuid = u
        · rw [if_pos h, if_pos h.symm]
        · rw [if_neg h, if_neg (fun e => h e.symm)]
      | update u' st =>
        simp only [AMap.step, unlocked, lastSession]
        by_cases h : u' = u
        · subst h
          cases hg : A u' with
          | none => simp [hg]
          | some s => simp [AMap.put]
        · rw [if_neg h]
          cases hg : A u' with
          | none => rfl
          | some s => simp only [AMap.put]; rw [if_neg (fun e => h e.symm)]
      | get u' =>
        simp only [AMap.step, unlocked, lastSession]
        cases hg : A u' <;> rfl
      | remove u' =>
        simp only [AMap.step, unlocked, lastSession]
        by_cases h : u' = u
        · subst h
          cases hg : A u' with
          | none => simp [hg]
          | some s => simp [AMap.put]
        · rw [if_neg h]
          cases hg : A u' with
          | none => rfl
          | some s => simp only [AMap.put]; rw [if_neg (fun e => h e.symm)]

/-- **C29** Under each id the store holds the last session initiated, with the last status set
since then, unless it was removed. -/
theorem C29_last_session (ops : List (Bool × StoreOp)) (u : Uuid) :
    (storeRun [] ops).1.get u = lastSession u (unlocked ops) none := by
  rw [(C29_store_is_map ops).2, AMap.run_last]

/-- **C29** Operations on an unknown id fail and change nothing. -/
theorem C29_unknown_fails (σ : Store) (u : Uuid) (st : Status) (busy : Bool) (h : σ.get u = none) :
    (∃ e, σ.updateStatus busy u st = (σ, .error e)) ∧ (∃ e, σ.getSession busy u = .error e) ∧
    (∃ e, σ.removeSession busy u = (σ, .error e)) := by
  cases busy <;> simp [Store.updateStatus, Store.getSession, Store.removeSession, h]

/-! ## C30 -/

theorem updateStatus_get (busy : Bool) (u u' : Uuid) (st : Status) (σ : Store) :
    (σ.updateStatus busy u st).1.get u' =
      if u' = u ∧ busy = false then (σ.get u).map (fun s => { s with status := st }) else σ.get u' := by
  cases busy with
  | true => simp [Store.updateStatus]
  | false =>
    simp only [Store.updateStatus, Bool.false_eq_true, if_false, and_true]
    cases hg : σ.get u with
    | none =>
      by_cases h : u' = u
      · rw [if_pos h, h, hg]; rfl
      · rw [if_neg h]
    | some s =>
      simp only [Store.get_insert]
      rfl

theorem updateStatus_result (busy : Bool) (u : Uuid) (st : Status) (σ : Store) :
    (σ.updateStatus busy u st).2 =
      if busy then .error .locked else match σ.get u with
        | some _ => .ok ()
        | none => .error .notFound := by
  cases busy with
  | true => simp [Store.updateStatus]
  | false => simp only [Store.updateStatus, Bool.false_eq_true, if_false]; cases σ.get u <;> rfl

theorem initiate_get (busy : Bool) (s : Session) (u' : Uuid) (σ : Store) :
    (σ.initiate busy s).1.get u' = if u' = s.uuid ∧ busy = false then some s else σ.get u' := by
  cases busy with
  | true => simp [Store.initiate]
  | false => simp [Store.initiate, Store.get_insert]

theorem removeSession_get_ne (busy : Bool) {u u' : Uuid} (h : u' ≠ u) (σ : Store) :
    (σ.removeSession busy u).1.get u' = σ.get u' := by
  cases busy with
  | true => simp [Store.removeSession]
  | false =>
    simp only [Store.removeSession, Bool.false_eq_true, if_false]
    cases σ.get u with
    | none => rfl
    | some s => exact Store.get_remove_ne h σ

theorem removeSession_get (busy : Bool) {σ : Store} (h : σ.Ok) (u : Uuid) :
    (σ.removeSession busy u).1.get u = if busy then σ.get u else none := by
  cases busy with
  | true => simp [Store.removeSession]
  | false =>
    simp only [Store.removeSession, Bool.false_eq_true, if_false]
    cases hg : σ.get u with
    | none => exact hg
    | some s => rw [Store.get_remove h, if_pos rfl]

theorem updateStatus_ok {σ : Store} (h : σ.Ok) (busy : Bool) (u : Uuid) (st : Status) :
    (σ.updateStatus busy u st).1.Ok := by
  cases busy with
  | true => simpa [Store.updateStatus] using h
  | false =>
    simp only [Store.updateStatus, Bool.false_eq_true, if_false]
    cases σ.get u with
    | none => exact h
    | some s => exact Store.insert_ok h _ _

theorem removeSession_ok {σ : Store} (h : σ.Ok) (busy : Bool) (u : Uuid) :
    (σ.removeSession busy u).1.Ok := by
  cases busy with
  | true => simpa [Store.removeSession] using h
  | false =>
    simp only [Store.removeSession, Bool.false_eq_true, if_false]
    cases σ.get u with
    | none => exact h
    | some s => exact Store.remove_ok h _

theorem initiate_ok {σ : Store} (h : σ.Ok) (busy : Bool) (s : Session) : (σ.initiate busy s).1.Ok := by
  cases busy with
  | true => simpa [Store.initiate] using h
  | false => simpa [Store.initiate] using Store.insert_ok h _ _

/-- What a step of `retrieveGot` does, spelled out. -/
theorem step_retrieveGot (busy : Bool) (σ : Store) (u : Uuid) (s : Session) :
    taskStep busy σ (.retrieveGot u s) = ((σ.updateStatus busy u .sentRequest).1, .finished,
      match (σ.updateStatus busy u .sentRequest).2 with
      | .ok () => [.statusSet u .sentRequest, .retrieved u s.jwt]
      | .error e => [.failed u e]) := by
  simp only [taskStep]
  rcases hh : σ.updateStatus busy u .sentRequest with ⟨σ', _ | _⟩ <;> rfl

theorem taskStep_ok {σ : Store} (h : σ.Ok) (busy : Bool) (t : Task) : (taskStep busy σ t).1.Ok := by
  cases t with
  | start op =>
    cases op with
    | build s => exact initiate_ok h busy s
    | poll u => exact h
    | retrieve u =>
      simp only [taskStep]
      cases σ.getSession busy u with
      | error e => exact h
      | ok s => simp only; split <;> exact h
    | verify u r f =>
      simp only [taskStep]
      cases σ.getSession busy u <;> exact h
    | remove u => exact removeSession_ok h busy u
  | retrieveGot u s => rw [step_retrieveGot]; exact updateStatus_ok h busy u _
  | verifyGot u s r f => exact h
  | verifyDone u o => exact updateStatus_ok h busy u _
  | finished => exact h

/-- An operation about another session leaves a session alone, stays about that other session, and
has only effects about it. -/
theorem taskStep_other (busy : Bool) (σ : Store) (t : Task) (u : Uuid) (h : taskAbout t ≠ some u) :
    (taskStep busy σ t).1.get u = σ.get u ∧ taskAbout (taskStep busy σ t).2.1 ≠ some u ∧
    ∀ e ∈ (taskStep busy σ t).2.2, eventAbout e ≠ u := by
  have hres : ∀ (v : Uuid) (ev : VEvent) (r : Res Unit), v ≠ u → eventAbout ev ≠ u →
      ∀ e ∈ [resEvent v ev r], eventAbout e ≠ u := by
    intro v ev r hv hev e he
    rw [List.mem_singleton] at he
    subst he
    cases r with
    | error x => exact hv
    | ok x => exact hev
  cases t with
  | start op =>
    cases op with
    | build s =>
      have hne : s.uuid ≠ u := fun e => h (congrArg some e)
      refine ⟨?_, by simp [taskStep, taskAbout], hres _ _ _ hne hne⟩
      simp only [taskStep]
      rw [initiate_get, if_neg (fun hh => hne hh.1.symm)]
    | poll v =>
      have hne : v ≠ u := fun e => h (congrArg some e)
      refine ⟨rfl, by simp [taskStep, taskAbout], ?_⟩
      simp only [taskStep]
      cases σ.getSession busy v <;> simpa [eventAbout] using hne
    | retrieve v =>
      have hne : v ≠ u := fun e => h (congrArg some e)
      simp only [taskStep]
      cases σ.getSession busy v with
      | error e => refine ⟨rfl, by simp [taskAbout], by simpa [eventAbout] using hne⟩
      | ok s =>
        simp only
        split
        · exact ⟨rfl, h, by simp⟩
        · exact ⟨rfl, by simp [taskAbout], by simpa [eventAbout] using hne⟩
    | verify v r f =>
      have hne : v ≠ u := fun e => h (congrArg some e)
      simp only [taskStep]
      cases σ.getSession busy v with
      | error e => exact ⟨rfl, by simp [taskAbout], by simpa [eventAbout] using hne⟩
      | ok s => exact ⟨rfl, h, by simp⟩
    | remove v =>
      have hne : v ≠ u := fun e => h (congrArg some e)
      refine ⟨?_, by simp [taskStep, taskAbout], hres _ _ _ hne hne⟩
      exact removeSession_get_ne busy (Ne.symm hne) σ
  | retrieveGot v s =>
    have hne : v ≠ u := fun e => h (congrArg some e)
    rw [step_retrieveGot]
    refine ⟨?_, by simp [taskAbout], ?_⟩
    · rw [updateStatus_get, if_neg (fun hh => hne hh.1.symm)]
    · cases (σ.updateStatus busy v .sentRequest).2 <;> simpa [eventAbout] using hne
  | verifyGot v s r f =>
    have hne : v ≠ u := fun e => h (congrArg some e)
    exact ⟨rfl, h, by simpa [taskStep, eventAbout] using hne⟩
  | verifyDone v o =>
    have hne : v ≠ u := fun e => h (congrArg some e)
    refine ⟨?_, by simp [taskStep, taskAbout], hres _ _ _ hne hne⟩
    simp only [taskStep]
    rw [updateStatus_get, if_neg (fun hh => hne hh.1.symm)]
  | finished => exact ⟨rfl, h, by simp [taskStep]⟩

/-- What an operation does to its own session depends only on that session. -/
theorem taskStep_local (busy : Bool) {σ τ : Store} (hσ : σ.Ok) (hτ : τ.Ok) (t : Task) (u : Uuid)
    (h : σ.get u = τ.get u) (ht : taskAbout t = some u) :
    (taskStep busy σ t).1.get u = (taskStep busy τ t).1.get u ∧
    (taskStep busy σ t).2 = (taskStep busy τ t).2 := by
  have hget : σ.getSession busy u = τ.getSession busy u := by
    simp only [Store.getSession, h]
  have hupd : ∀ st, (σ.updateStatus busy u st).1.get u = (τ.updateStatus busy u st).1.get u ∧
      (σ.updateStatus busy u st).2 = (τ.updateStatus busy u st).2 := by
    intro st
    rw [updateStatus_get, updateStatus_get, updateStatus_result, updateStatus_result, h]
    exact ⟨rfl, rfl⟩
  cases t with
  | start op =>
    have hu : opAbout op = u := by simpa [taskAbout] using ht
    cases op with
    | build s =>
      simp only [opAbout] at hu
      simp only [taskStep]
      rw [initiate_get, initiate_get, h]
      refine ⟨rfl, ?_⟩
      cases busy <;> rfl
    | poll v =>
      simp only [opAbout] at hu
      subst hu
      simp only [taskStep, hget]
      exact ⟨h, trivial⟩
    | retrieve v =>
      simp only [opAbout] at hu
      subst hu
      simp only [taskStep, hget]
      cases τ.getSession busy v with
      | error e => exact ⟨h, rfl⟩
      | ok s => simp only; split <;> exact ⟨h, rfl⟩
    | verify v r f =>
      simp only [opAbout] at hu
      subst hu
      simp only [taskStep, hget]
      cases τ.getSession busy v <;> exact ⟨h, rfl⟩
    | remove v =>
      simp only [opAbout] at hu
      subst hu
      simp only [taskStep]
      rw [removeSession_get busy hσ, removeSession_get busy hτ, h]
      refine ⟨rfl, ?_⟩
      cases busy with
      | true => rfl
      | false =>
        simp only [Store.removeSession, Bool.false_eq_true, if_false, h]
        cases τ.get v <;> rfl
  | retrieveGot v s =>
    have hu : v = u := by simpa [taskAbout] using ht
    subst hu
    rw [step_retrieveGot, step_retrieveGot, (hupd _).2]
    exact ⟨(hupd _).1, rfl⟩
  | verifyGot v s r f => exact ⟨h, rfl⟩
  | verifyDone v o =>
    have hu : v = u := by simpa [taskAbout] using ht
    subst hu
    simp only [taskStep]
    rw [(hupd _).2]
    exact ⟨(hupd _).1, rfl⟩
  | finished => simp [taskAbout] at ht

theorem World.run_nil (w : World) : w.run [] = (w, []) := rfl

theorem World.run_append (w : World) (a b : List Sched) :
    w.run (a ++ b) = (((w.run a).1.run b).1, (w.run a).2 ++ ((w.run a).1.run b).2) := by
  induction a generalizing w with
  | nil => rfl
  | cons s a ih =>
    simp only [List.cons_append, World.run]
    rw [ih]
    simp only [List.append_assoc]

theorem World.run_snoc (w : World) (a : List Sched) (s : Sched) :
    w.run (a ++ [s]) = (((w.run a).1.next s).1, (w.run a).2 ++ ((w.run a).1.next s).2) := by
  rw [World.run_append]
  simp [World.run]

theorem World.next_ok {w : World} (h : w.store.Ok) (s : Sched) : (w.next s).1.store.Ok := by
  cases s with
  | spawn op => exact h
  | step i b =>
    simp only [World.next]
    cases w.tasks[i]? with
    | none => exact h
    | some t => exact taskStep_ok h b t
  | abandon i => exact h

/-- **C30** A step of an operation about one session never changes another session. -/
theorem C30_step_isolated (w : World) (i : Nat) (busy : Bool) (t : Task) (u : Uuid)
    (ht : w.tasks[i]? = some t) (h : taskAbout t ≠ some u) :
    (w.next (.step i busy)).1.store.get u = w.store.get u := by
  simp only [World.next, ht]
  exact (taskStep_other busy w.store t u h).1

theorem sameTasks_next {u : Uuid} {w w' : World} (hσ : w.store.Ok) (hτ : w'.store.Ok)
    (hs : w.store.get u = w'.store.get u) (ht : SameTasks u w.tasks w'.tasks) {s s' : Sched}
    (h : SameSched u s s') :
    (w.next s).1.store.get u = (w'.next s').1.store.get u ∧
    SameTasks u (w.next s).1.tasks (w'.next s').1.tasks ∧
    eventsOf u (w.next s).2 = eventsOf u (w'.next s').2 := by
  obtain ⟨hlen, hrel⟩ := ht
  cases s with
  | spawn op =>
    cases s' with
    | spawn op' =>
      refine ⟨hs, ⟨by simp [World.next, hlen], ?_⟩, rfl⟩
      intro i t t' hi hi'
      simp only [World.next, List.getElem?_append] at hi hi'
      rw [hlen] at hi
      split at hi
      · rename_i hlt
        rw [if_pos hlt] at hi'
        exact hrel i t t' hi hi'
      · rename_i hlt
        rw [if_neg hlt] at hi'
        cases hk : i - w'.tasks.length with
        | zero =>
          rw [hk] at hi hi'
          simp only [List.getElem?_cons_zero, Option.some.injEq] at hi hi'
          subst hi hi'
          rcases h with rfl | ⟨h1, h2⟩
          · exact .inl rfl
          · exact .inr ⟨by simpa [taskAbout] using h1, by simpa [taskAbout] using h2⟩
        | succ n => rw [hk] at hi; simp at hi
    | step => exact absurd h (by simp [SameSched])
    | abandon => exact absurd h (by simp [SameSched])
  | step i b =>
    cases s' with
    | spawn => exact absurd h (by simp [SameSched])
    | abandon => exact absurd h (by simp [SameSched])
    | step j c =>
      obtain ⟨rfl, rfl⟩ := h
      simp only [World.next]
      cases hi : w.tasks[i]? with
      | none =>
        have : w'.tasks[i]? = none := by
          rw [List.getElem?_eq_none_iff] at hi ⊢
          omega
        rw [this]
        exact ⟨hs, ⟨hlen, hrel⟩, rfl⟩
      | some t =>
        have hlt : i < w.tasks.length := (List.getElem?_eq_some_iff.mp hi).1
        cases hi' : w'.tasks[i]? with
        | none => rw [List.getElem?_eq_none_iff] at hi'; omega
        | some t' =>
          have hst := hrel i t t' hi hi'
          have key : (taskStep b w.store t).1.get u = (taskStep b w'.store t').1.get u ∧
              SameFor u (taskStep b w.store t).2.1 (taskStep b w'.store t').2.1 ∧
              eventsOf u (taskStep b w.store t).2.2 = eventsOf u (taskStep b w'.store t').2.2 := by
            by_cases hab : taskAbout t = some u
            · have : t = t' := by
                rcases hst with h | ⟨h, -⟩
                · exact h
                · exact absurd hab h
              subst this
              obtain ⟨h1, h2⟩ := taskStep_local b hσ hτ t u hs hab
              rw [h2]
              exact ⟨h1, .inl rfl, rfl⟩
            · have hab' : taskAbout t' ≠ some u := by
                rcases hst with h | ⟨-, h⟩
                · rw [← h]; exact hab
                · exact h
              obtain ⟨h1, h2, h3⟩ := taskStep_other b w.store t u hab
              obtain ⟨h1', h2', h3'⟩ := taskStep_other b w'.store t' u hab'
              refine ⟨by rw [h1, h1', hs], .inr ⟨h2, h2'⟩, ?_⟩
              rw [eventsOf, eventsOf, List.filter_eq_nil_iff.mpr (by simpa using h3),
                List.filter_eq_nil_iff.mpr (by simpa using h3')]
          refine ⟨key.1, ⟨by simp [hlen], ?_⟩, key.2.2⟩
          intro k x x' hx hx'
          simp only [List.getElem?_set] at hx hx'
          by_cases hk : i = k
          · subst hk
            rw [if_pos rfl, if_pos hlt] at hx
            rw [if_pos rfl, if_pos (by omega)] at hx'
            simp only [Option.some.injEq] at hx hx'
            subst hx hx'
            exact key.2.1
          · rw [if_neg hk] at hx hx'
            exact hrel k x x' hx hx'
  | abandon i =>
    cases s' with
    | spawn => exact absurd h (by simp [SameSched])
    | step => exact absurd h (by simp [SameSched])
    | abandon j =>
      simp only [SameSched] at h
      subst h
      refine ⟨hs, ⟨?_, ?_⟩, rfl⟩
      · simp [World.next, List.length_eraseIdx, hlen]
      · intro k x x' hx hx'
        simp only [World.next, List.getElem?_eraseIdx] at hx hx'
        split at hx
        · rename_i hk; rw [if_pos hk] at hx'; exact hrel k x x' hx hx'
        · rename_i hk; rw [if_neg hk] at hx'; exact hrel _ x x' hx hx'

/-- **C30** Non-interference: an observer of one session cannot tell two executions apart that
differ arbitrarily in what the operations on other sessions are and in the other stored sessions.
The stored session is the same and so are all effects and answers about it. -/
theorem C30_noninterference (u : Uuid) (ss ss' : List Sched) (w w' : World) (hσ : w.store.Ok)
    (hτ : w'.store.Ok) (hs : w.store.get u = w'.store.get u) (ht : SameTasks u w.tasks w'.tasks)
    (h : SameScheds u ss ss') :
    (w.run ss).1.store.get u = (w'.run ss').1.store.get u ∧
    eventsOf u (w.run ss).2 = eventsOf u (w'.run ss').2 := by
  induction ss generalizing ss' w w' with
  | nil =>
    cases ss' with
    | nil => exact ⟨hs, rfl⟩
    | cons => exact absurd h (by simp [SameScheds])
  | cons s ss ih =>
    cases ss' with
    | nil => exact absurd h (by simp [SameScheds])
    | cons s' ss' =>
      obtain ⟨h1, h2⟩ := h
      obtain ⟨k1, k2, k3⟩ := sameTasks_next hσ hτ hs ht h1
      obtain ⟨k4, k5⟩ := ih ss' _ _ (World.next_ok hσ s) (World.next_ok hτ s') k1 k2 h2
      simp only [World.run]
      refine ⟨k4, ?_⟩
      simp only [eventsOf, List.filter_append] at k3 k5 ⊢
      rw [k3, k5]

/-- An execution without operations about `u` leaves the session of `u` alone. -/
theorem C30_run_isolated (u : Uuid) (ss : List Sched) (w : World)
    (ht : ∀ t ∈ w.tasks, taskAbout t ≠ some u) (h : ∀ op, .spawn op ∈ ss → opAbout op ≠ u) :
    (w.run ss).1.store.get u = w.store.get u ∧ eventsOf u (w.run ss).2 = [] := by
  induction ss generalizing w with
  | nil => exact ⟨rfl, rfl⟩
  | cons s ss ih =>
    have hop : ∀ op, .spawn op ∈ ss → opAbout op ≠ u := fun op ho => h op (List.mem_cons_of_mem _ ho)
    have key : (w.next s).1.store.get u = w.store.get u ∧
        (∀ t ∈ (w.next s).1.tasks, taskAbout t ≠ some u) ∧ eventsOf u (w.next s).2 = [] := by
      cases s with
      | spawn op =>
        refine ⟨rfl, ?_, rfl⟩
        intro t hm
        simp only [World.next, List.mem_append, List.mem_singleton] at hm
        rcases hm with hm | rfl
        · exact ht t hm
        · intro e
          exact h op List.mem_cons_self (by simpa [taskAbout] using e)
      | step i b =>
        simp only [World.next]
        cases hi : w.tasks[i]? with
        | none => exact ⟨rfl, ht, rfl⟩
        | some t =>
          obtain ⟨h1, h2, h3⟩ := taskStep_other b w.store t u (ht t (List.mem_of_getElem? hi))
          refine ⟨h1, ?_, List.filter_eq_nil_iff.mpr (by simpa using h3)⟩
          intro x hx
          rcases List.mem_or_eq_of_mem_set hx with hx | rfl
          · exact ht x hx
          · exact h2
      | abandon i =>
        exact ⟨rfl, fun t hm => ht t (List.mem_of_mem_eraseIdx hm), rfl⟩
    obtain ⟨k1, k2, k3⟩ := key
    obtain ⟨k4, k5⟩ := ih _ k2 hop
    simp only [World.run]
    refine ⟨k4.trans k1, ?_⟩
    simp only [eventsOf, List.filter_append] at k3 k5 ⊢
    rw [k3, k5]; rfl

/-- All a step can do to the session of `u`: nothing, store a built session, remove it, or set its
status to sent (a retrieval) or complete (a verification). -/
theorem taskStep_at (busy : Bool) {σ : Store} (hσ : σ.Ok) (t : Task) (u : Uuid) :
    (taskStep busy σ t).1.get u = σ.get u ∨
    (∃ s, t = .start (.build s) ∧ s.uuid = u ∧ (taskStep busy σ t).1.get u = some s) ∨
    (t = .start (.remove u) ∧ (taskStep busy σ t).1.get u = none) ∨
    (∃ s, t = .retrieveGot u s ∧
      (taskStep busy σ t).1.get u = (σ.get u).map (fun s => { s with status := .sentRequest })) ∨
    (∃ o, t = .verifyDone u o ∧
      (taskStep busy σ t).1.get u = (σ.get u).map (fun s => { s with status := .complete o })) := by
  by_cases hab : taskAbout t = some u
  · cases t with
    | start op =>
      have hu : opAbout op = u := by simpa [taskAbout] using hab
      cases op with
      | build s =>
        simp only [opAbout] at hu
        simp only [taskStep]
        rw [initiate_get]
        cases busy with
        | true => left; simp
        | false => right; left; exact ⟨s, rfl, hu, by rw [if_pos ⟨hu.symm, rfl⟩]⟩
      | poll v => exact .inl rfl
      | retrieve v =>
        left
        simp only [taskStep]
        cases σ.getSession busy v with
        | error e => rfl
        | ok s => simp only; split <;> rfl
      | verify v r f =>
        left
        simp only [taskStep]
        cases σ.getSession busy v <;> rfl
      | remove v =>
        simp only [opAbout] at hu
        subst hu
        simp only [taskStep]
        rw [removeSession_get busy hσ]
        cases busy with
        | true => left; rfl
        | false => right; right; left; exact ⟨trivial, rfl⟩
    | retrieveGot v s =>
      have hu : v = u := by simpa [taskAbout] using hab
      subst hu
      rw [step_retrieveGot]
      simp only
      rw [updateStatus_get]
      cases busy with
      | true => left; simp
      | false => right; right; right; left; exact ⟨s, rfl, by simp⟩
    | verifyGot v s r f => exact .inl rfl
    | verifyDone v o =>
      have hu : v = u := by simpa [taskAbout] using hab
      subst hu
      simp only [taskStep]
      rw [updateStatus_get]
      cases busy with
      | true => left; simp
      | false => right; right; right; right; exact ⟨o, rfl, by simp⟩
    | finished => exact .inl rfl
  · exact .inl (taskStep_other busy σ t u hab).1

theorem noPendingBuild_next {u : Uuid} {w : World} {s : Sched} (h : NoPendingBuild u w.tasks)
    (hs : ∀ x, s = .spawn (.build x) → x.uuid ≠ u) : NoPendingBuild u (w.next s).1.tasks := by
  intro x hx
  cases s with
  | spawn op =>
    simp only [World.next, List.mem_append, List.mem_singleton, Task.start.injEq] at hx
    rcases hx with hx | rfl
    · exact h x hx
    · exact hs x rfl
  | step i b =>
    simp only [World.next] at hx
    cases hi : w.tasks[i]? with
    | none => rw [hi] at hx; exact h x hx
    | some t =>
      rw [hi] at hx
      rcases List.mem_or_eq_of_mem_set hx with hx | he
      · exact h x hx
      · -- a step never yields an operation that has not started
        exfalso
        cases t with
        | start op =>
          cases op with
          | build s => simp [taskStep] at he
          | poll v => simp [taskStep] at he
          | retrieve v =>
            simp only [taskStep] at he
            cases hg : w.store.getSession b v with
            | error e => rw [hg] at he; simp at he
            | ok s => rw [hg] at he; simp only at he; split at he <;> simp at he
          | verify v r f =>
            simp only [taskStep] at he
            cases hg : w.store.getSession b v <;> rw [hg] at he <;> simp at he
          | remove v => simp [taskStep] at he
        | retrieveGot v s => rw [step_retrieveGot] at he; simp at he
        | verifyGot v s r f => simp [taskStep] at he
        | verifyDone v o => simp [taskStep] at he
        | finished => simp [taskStep] at he
  | abandon i => exact h x (List.mem_of_mem_eraseIdx hx)

theorem World.next_step {w : World} {i : Nat} {b : Bool} {t : Task} (h : w.tasks[i]? = some t) :
    w.next (.step i b) = (⟨(taskStep b w.store t).1, w.tasks.set i (taskStep b w.store t).2.1⟩,
      (taskStep b w.store t).2.2) := by
  simp only [World.next, h]

theorem sameRequest_refl (s : Session) : SameRequest s s := ⟨rfl, rfl, rfl, rfl⟩

theorem sameRequest_trans {a b c : Session} (h : SameRequest a b) (h' : SameRequest b c) :
    SameRequest a c :=
  ⟨h'.1.trans h.1, h'.2.1.trans h.2.1, h'.2.2.1.trans h.2.2.1, h'.2.2.2.trans h.2.2.2⟩

theorem identity_next {u : Uuid} {w : World} (hσ : w.store.Ok) (h : NoPendingBuild u w.tasks) (s : Sched) :
    (w.store.get u = none → (w.next s).1.store.get u = none) ∧
    (∀ x, w.store.get u = some x → (w.next s).1.store.get u = none ∨
      ∃ y, (w.next s).1.store.get u = some y ∧ SameRequest x y) := by
  have same : ∀ w' : World, w'.store.get u = w.store.get u →
      (w.store.get u = none → w'.store.get u = none) ∧
      (∀ x, w.store.get u = some x → w'.store.get u = none ∨
        ∃ y, w'.store.get u = some y ∧ SameRequest x y) := by
    intro w' he
    rw [he]
    exact ⟨id, fun x hx => .inr ⟨x, hx, sameRequest_refl x⟩⟩
  cases s with
  | spawn op => exact same _ rfl
  | abandon i => exact same _ rfl
  | step i b =>
    cases hi : w.tasks[i]? with
    | none => exact same _ (by simp only [World.next, hi])
    | some t =>
      rw [World.next_step hi]
      rcases taskStep_at b hσ t u with he | ⟨x, rfl, hx, he⟩ | ⟨-, he⟩ | ⟨x, -, he⟩ | ⟨o, -, he⟩
      · exact same ⟨_, _⟩ he
      · exact absurd hx (h x (List.mem_of_getElem? hi))
      · exact ⟨fun _ => he, fun _ _ => .inl he⟩
      · simp only [he]
        refine ⟨fun hn => by rw [hn]; rfl, fun y hy => by
        rw [hy, Option.map_some]
        exact .inr ⟨_, rfl, rfl, rfl, rfl, rfl⟩⟩
      · simp only [he]
        refine ⟨fun hn => by rw [hn]; rfl, fun y hy => by
        rw [hy, Option.map_some]
        exact .inr ⟨_, rfl, rfl, rfl, rfl, rfl⟩⟩

/-- **C30** Under every interleaving, only building creates a session or changes its id, JWT,
request object or query. -/
theorem C30_only_build_changes_request (u : Uuid) (ss : List Sched) (w : World) (hσ : w.store.Ok)
    (hp : NoPendingBuild u w.tasks) (hb : NoBuild u ss) :
    (w.store.get u = none → (w.run ss).1.store.get u = none) ∧
    (∀ s, w.store.get u = some s → (w.run ss).1.store.get u = none ∨
      ∃ s', (w.run ss).1.store.get u = some s' ∧ SameRequest s s') := by
  induction ss generalizing w with
  | nil => exact ⟨id, fun s hs => .inr ⟨s, hs, sameRequest_refl s⟩⟩
  | cons s ss ih =>
    have hp' := noPendingBuild_next (s := s) hp (fun x hx => hb x (by rw [hx]; exact List.mem_cons_self))
    obtain ⟨h1, h2⟩ := identity_next hσ hp s
    obtain ⟨h3, h4⟩ := ih _ (World.next_ok hσ s) hp' (fun x hx => hb x (List.mem_cons_of_mem _ hx))
    simp only [World.run]
    refine ⟨fun hn => h3 (h1 hn), fun x hx => ?_⟩
    rcases h2 x hx with hn | ⟨y, hy, hxy⟩
    · exact .inl (h3 hn)
    · rcases h4 y hy with hn | ⟨z, hz, hyz⟩
      · exact .inl hn
      · exact .inr ⟨z, hz, sameRequest_trans hxy hyz⟩

/-! ## C31 -/

theorem lt_sentRequest (s : Status) : s.lt .sentRequest = true ↔ rank s = 0 := by
  cases s <;> simp [Status.lt, Status.partialCmp, Status.variant, rank] <;> decide

/-- A retrieval that has read the session of `u` and is about to set its status. -/
def PendingRetrieval (u : Uuid) (ts : List Task) : Prop := ∃ s, .retrieveGot u s ∈ ts

theorem pendingRetrieval_next {u : Uuid} {w : World} (h : ¬ PendingRetrieval u w.tasks)
    (hr : ∀ s, w.store.get u = some s → 1 ≤ rank s.status) (x : Sched) :
    ¬ PendingRetrieval u (w.next x).1.tasks := by
  rintro ⟨s, hs⟩
  cases x with
  | spawn op =>
    simp only [World.next, List.mem_append, List.mem_singleton] at hs
    rcases hs with hs | hs
    · exact h ⟨s, hs⟩
    · simp at hs
  | abandon i => exact h ⟨s, List.mem_of_mem_eraseIdx hs⟩
  | step i b =>
    cases hi : w.tasks[i]? with
    | none => simp only [World.next, hi] at hs; exact h ⟨s, hs⟩
    | some t =>
      rw [World.next_step hi] at hs
      rcases List.mem_or_eq_of_mem_set hs with hs | he
      · exact h ⟨s, hs⟩
      · cases t with
        | start op =>
          cases op with
          | build s => simp [taskStep] at he
          | poll v => simp [taskStep] at he
          | retrieve v =>
            simp only [taskStep] at he
            cases hg : w.store.getSession b v with
            | error e => rw [hg] at he; simp at he
            | ok s' =>
              rw [hg] at he
              simp only at he
              split at he
              · rename_i hlt
                simp only [Task.retrieveGot.injEq] at he
                obtain ⟨rfl, rfl⟩ := he
                have hz := (lt_sentRequest _).mp hlt
                have : w.store.get u = some s := by
                  simp only [Store.getSession] at hg
                  split at hg
                  · simp at hg
                  · cases hgg : w.store.get u with
                    | none => rw [hgg] at hg; simp at hg
                    | some y => rw [hgg] at hg; simp only [Except.ok.injEq] at hg; rw [hg]
                have := hr s this
                omega
              · simp at he
          | verify v r f =>
            simp only [taskStep] at he
            cases hg : w.store.getSession b v <;> rw [hg] at he <;> simp at he
          | remove v => simp [taskStep] at he
        | retrieveGot v s => rw [step_retrieveGot] at he; simp at he
        | verifyGot v s r f => simp [taskStep] at he
        | verifyDone v o => simp [taskStep] at he
        | finished => simp [taskStep] at he

theorem rank_le_three (s : Status) : rank s ≤ 3 := by cases s <;> simp [rank]

/-- One step: without a pending retrieval the rank only grows. -/
theorem rank_next {u : Uuid} {w : World} (hσ : w.store.Ok) (h : NoPendingBuild u w.tasks)
    (hr : ¬ PendingRetrieval u w.tasks) (x : Sched) {s s' : Session} (hs : w.store.get u = some s)
    (hs' : (w.next x).1.store.get u = some s') : rank s.status ≤ rank s'.status := by
  have same : w.store.get u = (w.next x).1.store.get u → rank s.status ≤ rank s'.status := by
    intro e
    rw [← e, hs] at hs'
    cases hs'
    exact Nat.le_refl _
  cases x with
  | spawn op => exact same rfl
  | abandon i => exact same rfl
  | step i b =>
    cases hi : w.tasks[i]? with
    | none => exact same (by simp only [World.next, hi])
    | some t =>
      have hm := List.mem_of_getElem? hi
      rw [World.next_step hi] at hs' same
      rcases taskStep_at b hσ t u with he | ⟨x, rfl, hx, he⟩ | ⟨-, he⟩ | ⟨x, rfl, he⟩ | ⟨o, rfl, he⟩
      · exact same he.symm
      · exact absurd hx (h x hm)
      · simp only at hs'; rw [he] at hs'; simp at hs'
      · exact absurd ⟨x, hm⟩ hr
      · simp only at hs'
        rw [he, hs] at hs'
        simp only [Option.map_some, Option.some.injEq] at hs'
        subst hs'
        exact rank_le_three _

/-- **C31** (partial: sessions whose request was passed by value, or has been retrieved already.)
Under every interleaving, a status of at least "sent" never goes backwards. Missing: a retrieval that
has read the status before the session was completed sets it back, see `C31_lost_update`. -/
theorem C31_never_backwards_partial (u : Uuid) (ss : List Sched) (w : World) (hσ : w.store.Ok)
    (hp : NoPendingBuild u w.tasks) (hb : NoBuild u ss) (hr : ¬ PendingRetrieval u w.tasks)
    (s s' : Session) (hs : w.store.get u = some s) (h1 : 1 ≤ rank s.status)
    (hs' : (w.run ss).1.store.get u = some s') : rank s.status ≤ rank s'.status := by
  induction ss generalizing w s with
  | nil =>
    have : some s = some s' := hs.symm.trans hs'
    cases this
    exact Nat.le_refl _
  | cons x ss ih =>
    have hp' := noPendingBuild_next (s := x) hp (fun y hy => hb y (by rw [hy]; exact List.mem_cons_self))
    have hb' : NoBuild u ss := fun y hy => hb y (List.mem_cons_of_mem _ hy)
    have hr' := pendingRetrieval_next hr (fun y hy => by rw [hs] at hy; cases hy; exact h1) x
    have hσ' := World.next_ok hσ x
    simp only [World.run] at hs'
    cases hm : (w.next x).1.store.get u with
    | none =>
      rw [(C30_only_build_changes_request u ss _ hσ' hp' hb').1 hm] at hs'
      simp at hs'
    | some y =>
      have hle := rank_next hσ hp hr x hs hm
      exact Nat.le_trans hle (ih _ hσ' hp' hb' hr' y hm (Nat.le_trans h1 hle) hs')

/-- **C31** Under every interleaving whatsoever, a request that has been sent never becomes
"to be sent by reference" again. -/
theorem C31_never_unsent (u : Uuid) (ss : List Sched) (w : World) (hσ : w.store.Ok)
    (hp : NoPendingBuild u w.tasks) (hb : NoBuild u ss) (s s' : Session)
    (hs : w.store.get u = some s) (h1 : s.status ≠ .sentRequestByReference)
    (hs' : (w.run ss).1.store.get u = some s') : s'.status ≠ .sentRequestByReference := by
  induction ss generalizing w s with
  | nil =>
    have : some s = some s' := hs.symm.trans hs'
    cases this
    exact h1
  | cons x ss ih =>
    have hp' := noPendingBuild_next (s := x) hp (fun y hy => hb y (by rw [hy]; exact List.mem_cons_self))
    have hb' : NoBuild u ss := fun y hy => hb y (List.mem_cons_of_mem _ hy)
    have hσ' := World.next_ok hσ x
    simp only [World.run] at hs'
    cases hm : (w.next x).1.store.get u with
    | none =>
      rw [(C30_only_build_changes_request u ss _ hσ' hp' hb').1 hm] at hs'
      simp at hs'
    | some y =>
      refine ih _ hσ' hp' hb' y hm ?_ hs'
      have same : w.store.get u = (w.next x).1.store.get u → y.status ≠ .sentRequestByReference := by
        intro e
        rw [← e, hs] at hm
        cases hm
        exact h1
      cases x with
      | spawn op => exact same rfl
      | abandon i => exact same rfl
      | step i b =>
        cases hi : w.tasks[i]? with
        | none => exact same (by simp only [World.next, hi])
        | some t =>
          rw [World.next_step hi] at hm same
          rcases taskStep_at b hσ t u with he | ⟨z, rfl, hx, he⟩ | ⟨-, he⟩ | ⟨z, -, he⟩ | ⟨o, -, he⟩
          · exact same he.symm
          · exact absurd hx (hp z (List.mem_of_getElem? hi))
          · simp only at hm; rw [he] at hm; simp at hm
          · simp only at hm
            rw [he, hs] at hm
            simp only [Option.map_some, Option.some.injEq] at hm
            subst hm
            simp
          · simp only at hm
            rw [he, hs] at hm
            simp only [Option.map_some, Option.some.injEq] at hm
            subst hm
            simp

/-- **C31** The only steps that can lower a status: a new session built under the id, or the end of
a retrieval that had read the session earlier. -/
theorem C31_only_stale_retrieval (w : World) (hσ : w.store.Ok) (x : Sched) (u : Uuid) (s s' : Session)
    (hs : w.store.get u = some s) (hs' : (w.next x).1.store.get u = some s')
    (hlt : rank s'.status < rank s.status) :
    ∃ i b t, x = .step i b ∧ w.tasks[i]? = some t ∧
      (t = .start (.build s') ∨ ((∃ s0, t = .retrieveGot u s0) ∧ s'.status = .sentRequest)) := by
  have same : w.store.get u = (w.next x).1.store.get u → False := by
    intro e
    rw [← e, hs] at hs'
    cases hs'
    omega
  cases x with
  | spawn op => exact (same rfl).elim
  | abandon i => exact (same rfl).elim
  | step i b =>
    cases hi : w.tasks[i]? with
    | none => exact (same (by simp only [World.next, hi])).elim
    | some t =>
      rw [World.next_step hi] at hs' same
      refine ⟨i, b, t, rfl, hi, ?_⟩
      simp only at hs' same
      rcases taskStep_at b hσ t u with he | ⟨z, rfl, -, he⟩ | ⟨-, he⟩ | ⟨z, rfl, he⟩ | ⟨o, -, he⟩
      · exact (same he.symm).elim
      · rw [he] at hs'; cases hs'; exact .inl rfl
      · rw [he] at hs'; simp at hs'
      · rw [he, hs] at hs'
        simp only [Option.map_some, Option.some.injEq] at hs'
        subst hs'
        exact .inr ⟨⟨_, rfl⟩, rfl⟩
      · rw [he, hs] at hs'
        simp only [Option.map_some, Option.some.injEq] at hs'
        subst hs'
        have := rank_le_three s.status
        simp only [rank] at hlt this
        omega

/-- **C31** Operations that run one at a time never lower a status, of any session. -/
theorem C31_sequential (σ : Store) (u v : Uuid) (r : AuthorizationResponse) (f : Validator)
    (s : Session) (hs : σ.get v = some s) :
    (∃ s', (retrieve u σ).1.get v = some s' ∧ rank s.status ≤ rank s'.status) ∧
    (∃ s', (verifyResponse u r f σ).1.get v = some s' ∧ rank s.status ≤ rank s'.status) := by
  have upd : ∀ st, (∀ x, σ.get u = some x → rank x.status ≤ rank st) →
      ∃ s', (σ.updateStatus false u st).1.get v = some s' ∧ rank s.status ≤ rank s'.status := by
    intro st hst
    rw [updateStatus_get]
    by_cases h : v = u
    · subst h
      rw [if_pos ⟨rfl, rfl⟩, hs]
      exact ⟨_, rfl, hst s hs⟩
    · rw [if_neg (fun hh => h hh.1)]
      exact ⟨s, hs, Nat.le_refl _⟩
  constructor
  · simp only [retrieve]
    cases hg : σ.getSession false u with
    | error e => exact ⟨s, hs, Nat.le_refl _⟩
    | ok x =>
      simp only
      split
      · rename_i hlt
        have hx : σ.get u = some x := by
          simp only [Store.getSession, Bool.false_eq_true, if_false] at hg
          cases hgg : σ.get u with
          | none => rw [hgg] at hg; simp at hg
          | some y => rw [hgg] at hg; simp only [Except.ok.injEq] at hg; rw [hg]
        obtain ⟨s', h1, h2⟩ := upd .sentRequest (fun y hy => by
          rw [hx] at hy; cases hy
          rw [(lt_sentRequest _).mp hlt]; exact Nat.zero_le _)
        rcases hu : σ.updateStatus false u .sentRequest with ⟨σ', _ | _⟩ <;>
          (rw [hu] at h1; exact ⟨s', h1, h2⟩)
      · exact ⟨s, hs, Nat.le_refl _⟩
  · simp only [verifyResponse]
    cases hg : σ.getSession false u with
    | error e => exact ⟨s, hs, Nat.le_refl _⟩
    | ok x => exact upd _ (fun y _ => rank_le_three _)

/-! ## C32 -/

theorem snoc_induction {α : Type} {P : List α → Prop} (h0 : P []) (h1 : ∀ l x, P l → P (l ++ [x])) :
    ∀ l, P l := by
  have : ∀ l : List α, P l.reverse := by
    intro l
    induction l with
    | nil => exact h0
    | cons x l ih => rw [List.reverse_cons]; exact h1 _ _ ih
  intro l
  have := this l.reverse
  rwa [List.reverse_reverse] at this

theorem wasStored_snoc {w : World} {ss : List Sched} {u : Uuid} {s : Session} (x : Sched)
    (h : WasStored w ss u s) : WasStored w (ss ++ [x]) u s := by
  obtain ⟨a, b, rfl, h⟩ := h
  exact ⟨a, b ++ [x], by simp, h⟩

theorem wasStored_now {w : World} {ss : List Sched} {u : Uuid} {s : Session}
    (h : (w.run ss).1.store.get u = some s) : WasStored w ss u s := ⟨ss, [], by simp, h⟩

theorem getSession_ok {busy : Bool} {u : Uuid} {σ : Store} {s : Session}
    (h : σ.getSession busy u = .ok s) : σ.get u = some s := by
  simp only [Store.getSession] at h
  split at h
  · simp at h
  · cases hg : σ.get u with
    | none => rw [hg] at h; simp at h
    | some y => rw [hg] at h; simp only [Except.ok.injEq] at h; rw [h]

/-- Everything known about the executions of a verifier that starts with nothing. -/
structure Traced (w₀ : World) (ss : List Sched) : Prop where
  ok : (w₀.run ss).1.store.Ok
  started : ∀ op, .start op ∈ (w₀.run ss).1.tasks → .spawn op ∈ ss
  got : ∀ u s r f, .verifyGot u s r f ∈ (w₀.run ss).1.tasks →
    .spawn (.verify u r f) ∈ ss ∧ WasStored w₀ ss u s
  done : ∀ u o, .verifyDone u o ∈ (w₀.run ss).1.tasks → ∃ s r, .validated u s r o ∈ (w₀.run ss).2
  validated : ∀ u s r o, .validated u s r o ∈ (w₀.run ss).2 →
    ∃ f, .spawn (.verify u r f) ∈ ss ∧ o = f s r ∧ WasStored w₀ ss u s
  id : ∀ u s, (w₀.run ss).1.store.get u = some s → s.uuid = u ∧ ∃ x, .spawn (.build x) ∈ ss ∧ SameRequest x s
  complete : (∀ s o, .spawn (.build s) ∈ ss → s.status ≠ .complete o) →
    ∀ u s o, (w₀.run ss).1.store.get u = some s → s.status = .complete o →
      ∃ s' r, .validated u s' r o ∈ (w₀.run ss).2

/-- What operation follows from a step. -/
theorem taskStep_next (b : Bool) (σ : Store) (t : Task) :
    (taskStep b σ t).2.1 = .finished ∨
    (∃ u s, (taskStep b σ t).2.1 = .retrieveGot u s) ∨
    (∃ u r f s, t = .start (.verify u r f) ∧ σ.get u = some s ∧ (taskStep b σ t).2.1 = .verifyGot u s r f) ∨
    (∃ u s r f, t = .verifyGot u s r f ∧ (taskStep b σ t).2.1 = .verifyDone u (f s r)) := by
  cases t with
  | start op =>
    cases op with
    | build s => exact .inl rfl
    | poll v => exact .inl rfl
    | retrieve v =>
      simp only [taskStep]
      cases σ.getSession b v with
      | error e => exact .inl rfl
      | ok s => simp only; split
                · exact .inr (.inl ⟨_, _, rfl⟩)
                · exact .inl rfl
    | verify v r f =>
      simp only [taskStep]
      cases hg : σ.getSession b v with
      | error e => exact .inl rfl
      | ok s => exact .inr (.inr (.inl ⟨v, r, f, s, rfl, getSession_ok hg, rfl⟩))
    | remove v => exact .inl rfl
  | retrieveGot v s => rw [step_retrieveGot]; exact .inl rfl
  | verifyGot v s r f => exact .inr (.inr (.inr ⟨v, s, r, f, rfl, rfl⟩))
  | verifyDone v o => exact .inl rfl
  | finished => exact .inl rfl

/-- The validator is only ever called by a verification that has read the session. -/
theorem taskStep_validated {b : Bool} {σ : Store} {t : Task} {u : Uuid} {s : Session}
    {r : AuthorizationResponse} {o : Outcome} (h : .validated u s r o ∈ (taskStep b σ t).2.2) :
    ∃ f, t = .verifyGot u s r f ∧ o = f s r := by
  have hres : ∀ (v : Uuid) (ev : VEvent) (x : Res Unit), (∀ a b c d, ev ≠ .validated a b c d) →
      VEvent.validated u s r o ∉ [resEvent v ev x] := by
    intro v ev x hev hm
    rw [List.mem_singleton] at hm
    cases x with
    | error e => cases hm
    | ok y => exact hev _ _ _ _ hm.symm
  cases t with
  | start op =>
    cases op with
    | build s' => exact absurd h (hres _ _ _ (by intros; simp))
    | poll v =>
      simp only [taskStep] at h
      cases hg : σ.getSession b v <;> rw [hg] at h <;> simp at h
    | retrieve v =>
      simp only [taskStep] at h
      cases hg : σ.getSession b v with
      | error e => rw [hg] at h; simp at h
      | ok s => rw [hg] at h; simp only at h; split at h <;> simp at h
    | verify v r' f =>
      simp only [taskStep] at h
      cases hg : σ.getSession b v <;> rw [hg] at h <;> simp at h
    | remove v => exact absurd h (hres _ _ _ (by intros; simp))
  | retrieveGot v s' =>
    rw [step_retrieveGot] at h
    simp only at h
    cases hu : (σ.updateStatus b v .sentRequest).2 <;> rw [hu] at h <;> simp at h
  | verifyGot v s' r' f =>
    simp only [taskStep, List.mem_singleton, VEvent.validated.injEq] at h
    obtain ⟨rfl, rfl, rfl, rfl⟩ := h
    exact ⟨f, rfl, rfl⟩
  | verifyDone v o' => exact absurd h (hres _ _ _ (by intros; simp))
  | finished => simp [taskStep] at h

theorem traced (ss : List Sched) : Traced ⟨[], []⟩ ss := by
  induction ss using snoc_induction with
  | h0 =>
    refine ⟨List.nodup_nil, ?_, ?_, ?_, ?_, ?_, ?_⟩ <;> simp [World.run, Store.get]
  | h1 ss x ih =>
    have spawned : ∀ op, Sched.spawn op ∈ ss → Sched.spawn op ∈ ss ++ [x] :=
      fun op h => List.mem_append_left _ h
    generalize hw : World.run ⟨[], []⟩ ss = p at ih
    have hrun : World.run ⟨[], []⟩ (ss ++ [x]) = ((p.1.next x).1, p.2 ++ (p.1.next x).2) := by
      rw [World.run_snoc, hw]
    -- what stays the same
    have hval : ∀ u s r o, VEvent.validated u s r o ∈ p.2 →
        VEvent.validated u s r o ∈ p.2 ++ (p.1.next x).2 := fun _ _ _ _ h => List.mem_append_left _ h
    have ihok := ih.ok
    have ihst := ih.started
    have ihgot := ih.got
    have ihdone := ih.done
    have ihv := ih.validated
    have ihid := ih.id
    have ihc := ih.complete
    rw [hw] at ihok ihst ihgot ihdone ihv ihid ihc
    have hstore : ∀ u s, p.1.store.get u = some s → WasStored ⟨[], []⟩ ss u s := fun u s h =>
      wasStored_now (by rw [hw]; exact h)
    have hb' : (∀ s o, .spawn (.build s) ∈ ss ++ [x] → s.status ≠ .complete o) →
        ∀ s o, .spawn (.build s) ∈ ss → s.status ≠ .complete o := fun hb s o h => hb s o (spawned _ h)
    cases x with
    | spawn op =>
      refine ⟨?_, ?_, ?_, ?_, ?_, ?_, ?_⟩ <;> rw [hrun] <;> simp only [World.next, List.append_nil]
      · exact ihok
      · intro op' h
        simp only [List.mem_append, List.mem_singleton, Task.start.injEq] at h
        rcases h with h | rfl
        · exact spawned _ (ihst op' h)
        · exact List.mem_append_right _ (List.mem_singleton.mpr rfl)
      · intro u s r f h
        simp only [List.mem_append, List.mem_singleton, reduceCtorEq, or_false] at h
        obtain ⟨h1, h2⟩ := ihgot u s r f h
        exact ⟨spawned _ h1, wasStored_snoc _ h2⟩
      · intro u o h
        simp only [List.mem_append, List.mem_singleton, reduceCtorEq, or_false] at h
        exact ihdone u o h
      · intro u s r o h
        obtain ⟨f, h1, h2, h3⟩ := ihv u s r o h
        exact ⟨f, spawned _ h1, h2, wasStored_snoc _ h3⟩
      · intro u s h
        obtain ⟨h1, y, h2, h3⟩ := ihid u s h
        exact ⟨h1, y, spawned _ h2, h3⟩
      · intro hb u s o h hc
        exact ihc (hb' hb) u s o h hc
    | abandon i =>
      refine ⟨?_, ?_, ?_, ?_, ?_, ?_, ?_⟩ <;> rw [hrun] <;> simp only [World.next, List.append_nil]
      · exact ihok
      · intro op' h
        exact spawned _ (ihst op' (List.mem_of_mem_eraseIdx h))
      · intro u s r f h
        obtain ⟨h1, h2⟩ := ihgot u s r f (List.mem_of_mem_eraseIdx h)
        exact ⟨spawned _ h1, wasStored_snoc _ h2⟩
      · intro u o h
        exact ihdone u o (List.mem_of_mem_eraseIdx h)
      · intro u s r o h
        obtain ⟨f, h1, h2, h3⟩ := ihv u s r o h
        exact ⟨f, spawned _ h1, h2, wasStored_snoc _ h3⟩
      · intro u s h
        obtain ⟨h1, y, h2, h3⟩ := ihid u s h
        exact ⟨h1, y, spawned _ h2, h3⟩
      · intro hb u s o h hc
        exact ihc (hb' hb) u s o h hc
    | step i b =>
      cases hi : p.1.tasks[i]? with
      | none =>
        have hn : p.1.next (.step i b) = (p.1, []) := by simp only [World.next, hi]
        refine ⟨?_, ?_, ?_, ?_, ?_, ?_, ?_⟩ <;> rw [hrun, hn] <;> simp only [List.append_nil]
        · exact ihok
        · intro op' h
          exact spawned _ (ihst op' h)
        · intro u s r f h
          obtain ⟨h1, h2⟩ := ihgot u s r f h
          exact ⟨spawned _ h1, wasStored_snoc _ h2⟩
        · exact ihdone
        · intro u s r o h
          obtain ⟨f, h1, h2, h3⟩ := ihv u s r o h
          exact ⟨f, spawned _ h1, h2, wasStored_snoc _ h3⟩
        · intro u s h
          obtain ⟨h1, y, h2, h3⟩ := ihid u s h
          exact ⟨h1, y, spawned _ h2, h3⟩
        · intro hb u s o h hc
          exact ihc (hb' hb) u s o h hc
      | some t =>
        have hm := List.mem_of_getElem? hi
        have hn := World.next_step (b := b) hi
        have hnext := taskStep_next b p.1.store t
        rw [hn] at hval
        simp only at hval
        refine ⟨?_, ?_, ?_, ?_, ?_, ?_, ?_⟩ <;> rw [hrun, hn] <;> simp only
        · exact taskStep_ok ihok b t
        · intro op' h
          rcases List.mem_or_eq_of_mem_set h with h | he
          · exact spawned _ (ihst op' h)
          · exfalso
            rcases hnext with h | ⟨_, _, h⟩ | ⟨_, _, _, _, _, _, h⟩ | ⟨_, _, _, _, _, h⟩ <;>
              rw [h] at he <;> simp at he
        · intro u s r f h
          rcases List.mem_or_eq_of_mem_set h with h | he
          · obtain ⟨h1, h2⟩ := ihgot u s r f h
            exact ⟨spawned _ h1, wasStored_snoc _ h2⟩
          · rcases hnext with h | ⟨_, _, h⟩ | ⟨u', r', f', s', rfl, hg, h⟩ | ⟨_, _, _, _, _, h⟩ <;>
              rw [h] at he <;> simp only [Task.verifyGot.injEq, reduceCtorEq] at he
            obtain ⟨rfl, rfl, rfl, rfl⟩ := he
            exact ⟨spawned _ (ihst _ hm), wasStored_snoc _ (hstore _ _ hg)⟩
        · intro u o h
          rcases List.mem_or_eq_of_mem_set h with h | he
          · obtain ⟨s, r, h1⟩ := ihdone u o h
            exact ⟨s, r, hval _ _ _ _ h1⟩
          · rcases hnext with h | ⟨_, _, h⟩ | ⟨_, _, _, _, _, _, h⟩ | ⟨u', s', r', f', rfl, h⟩ <;>
              rw [h] at he <;> simp only [Task.verifyDone.injEq, reduceCtorEq] at he
            obtain ⟨rfl, rfl⟩ := he
            exact ⟨s', r', List.mem_append_right _ (by simp [taskStep])⟩
        · intro u s r o h
          rcases List.mem_append.mp h with h | h
          · obtain ⟨f, h1, h2, h3⟩ := ihv u s r o h
            exact ⟨f, spawned _ h1, h2, wasStored_snoc _ h3⟩
          · obtain ⟨f, rfl, ho⟩ := taskStep_validated h
            obtain ⟨h1, h2⟩ := ihgot u s r f hm
            exact ⟨f, spawned _ h1, ho, wasStored_snoc _ h2⟩
        · intro u s h
          rcases taskStep_at b ihok t u with he | ⟨z, rfl, hx, he⟩ | ⟨-, he⟩ | ⟨z, -, he⟩ | ⟨o, -, he⟩
          · rw [he] at h
            obtain ⟨h1, y, h2, h3⟩ := ihid u s h
            exact ⟨h1, y, spawned _ h2, h3⟩
          · rw [he] at h
            cases h
            exact ⟨hx, _, spawned _ (ihst _ hm), sameRequest_refl _⟩
          · rw [he] at h; simp at h
          · rw [he] at h
            obtain ⟨y, hy, rfl⟩ := Option.map_eq_some_iff.mp h
            obtain ⟨h1, z', h2, h3⟩ := ihid u y hy
            exact ⟨h1, z', spawned _ h2, h3⟩
          · rw [he] at h
            obtain ⟨y, hy, rfl⟩ := Option.map_eq_some_iff.mp h
            obtain ⟨h1, z', h2, h3⟩ := ihid u y hy
            exact ⟨h1, z', spawned _ h2, h3⟩
        · intro hb u s o h hc
          rcases taskStep_at b ihok t u with he | ⟨z, rfl, hx, he⟩ | ⟨-, he⟩ | ⟨z, -, he⟩ | ⟨o', rfl, he⟩
          · rw [he] at h
            obtain ⟨s', r, h1⟩ := ihc (hb' hb) u s o h hc
            exact ⟨s', r, hval _ _ _ _ h1⟩
          · rw [he] at h
            cases h
            exact absurd hc (hb _ o (spawned _ (ihst _ hm)))
          · rw [he] at h; simp at h
          · rw [he] at h
            obtain ⟨y, hy, rfl⟩ := Option.map_eq_some_iff.mp h
            simp at hc
          · rw [he] at h
            obtain ⟨y, hy, rfl⟩ := Option.map_eq_some_iff.mp h
            simp only [Status.complete.injEq] at hc
            subst hc
            obtain ⟨s', r, h1⟩ := ihdone u _ hm
            exact ⟨s', r, hval _ _ _ _ h1⟩

/-- **C32** Under every interleaving, the outcome of a completed session was returned by a
validator of an operation for that id, called with a session that was stored under that id. -/
theorem C32_outcome_from_validator (ss : List Sched) (u : Uuid) (s : Session) (o : Outcome)
    (hb : ∀ x o, .spawn (.build x) ∈ ss → x.status ≠ .complete o)
    (hs : (World.run ⟨[], []⟩ ss).1.store.get u = some s) (hc : s.status = .complete o) :
    ∃ s' r f, .spawn (.verify u r f) ∈ ss ∧ o = f s' r ∧ WasStored ⟨[], []⟩ ss u s' ∧
      .validated u s' r o ∈ (World.run ⟨[], []⟩ ss).2 ∧ s'.uuid = u := by
  have ht := traced ss
  obtain ⟨s', r, h1⟩ := ht.complete hb u s o hs hc
  obtain ⟨f, h2, h3, h4⟩ := ht.validated u s' r o h1
  refine ⟨s', r, f, h2, h3, h4, h1, ?_⟩
  obtain ⟨a, b, -, h5⟩ := h4
  exact ((traced a).id u s' h5).1

/-- **C32** A validator is only called with a session that was stored under the id of the response,
and so never for an id under which nothing was built. -/
theorem C32_validator_called_with_session (ss : List Sched) (u : Uuid) (s : Session)
    (r : AuthorizationResponse) (o : Outcome) (h : .validated u s r o ∈ (World.run ⟨[], []⟩ ss).2) :
    s.uuid = u ∧ WasStored ⟨[], []⟩ ss u s ∧ ∃ x, .spawn (.build x) ∈ ss ∧ SameRequest x s := by
  obtain ⟨f, -, -, h4⟩ := (traced ss).validated u s r o h
  obtain ⟨a, b, rfl, h5⟩ := h4
  obtain ⟨h6, x, h7, h8⟩ := (traced a).id u s h5
  exact ⟨h6, ⟨a, b, rfl, h5⟩, x, List.mem_append_left _ h7, h8⟩

/-- **C32** If every id is built at most once, the validator sees exactly the request that is still
stored under the id. -/
theorem C32_validator_sees_stored_request (ss : List Sched) (u : Uuid) (s s' : Session)
    (r : AuthorizationResponse) (o : Outcome)
    (hu : ∀ x y, .spawn (.build x) ∈ ss → .spawn (.build y) ∈ ss → x.uuid = y.uuid → x = y)
    (h : .validated u s r o ∈ (World.run ⟨[], []⟩ ss).2)
    (hs : (World.run ⟨[], []⟩ ss).1.store.get u = some s') : SameRequest s s' := by
  obtain ⟨h1, -, x, hx, hxs⟩ := C32_validator_called_with_session ss u s r o h
  obtain ⟨h2, y, hy, hys⟩ := (traced ss).id u s' hs
  have : x = y := hu x y hx hy (by rw [← hxs.1, ← hys.1, h1, h2])
  subst this
  obtain ⟨a1, a2, a3, a4⟩ := hxs
  obtain ⟨b1, b2, b3, b4⟩ := hys
  exact ⟨b1.trans a1.symm, b2.trans a2.symm, b3.trans a3.symm, b4.trans a4.symm⟩

/-! ## C33 -/

/-- No running or later operation verifies a response for `u`. -/
def NoVerify (u : Uuid) (ts : List Task) (ss : List Sched) : Prop :=
  (∀ r f, .spawn (.verify u r f) ∉ ss) ∧ (∀ r f, .start (.verify u r f) ∉ ts) ∧
  (∀ s r f, .verifyGot u s r f ∉ ts) ∧ (∀ o, .verifyDone u o ∉ ts)

theorem taskStep_noStart {b : Bool} {σ : Store} {t : Task} {op : Op} :
    (taskStep b σ t).2.1 ≠ .start op := by
  rcases taskStep_next b σ t with h | ⟨_, _, h⟩ | ⟨_, _, _, _, _, _, h⟩ | ⟨_, _, _, _, _, h⟩ <;>
    rw [h] <;> simp

theorem noVerify_next {u : Uuid} {w : World} {x : Sched} {ss : List Sched}
    (h : NoVerify u w.tasks (x :: ss)) : NoVerify u (w.next x).1.tasks ss := by
  obtain ⟨h1, h2, h3, h4⟩ := h
  refine ⟨fun r f hm => h1 r f (List.mem_cons_of_mem _ hm), ?_⟩
  cases x with
  | spawn op =>
    simp only [World.next, List.mem_append, List.mem_singleton, not_or, Task.start.injEq, reduceCtorEq,
      not_false_eq_true, and_true]
    refine ⟨fun r f => ⟨h2 r f, ?_⟩, h3, h4⟩
    rintro rfl
    exact h1 r f List.mem_cons_self
  | abandon i =>
    exact ⟨fun r f hm => h2 r f (List.mem_of_mem_eraseIdx hm),
      fun s r f hm => h3 s r f (List.mem_of_mem_eraseIdx hm),
      fun o hm => h4 o (List.mem_of_mem_eraseIdx hm)⟩
  | step i b =>
    cases hi : w.tasks[i]? with
    | none => simp only [World.next, hi]; exact ⟨h2, h3, h4⟩
    | some t =>
      rw [World.next_step hi]
      have hm := List.mem_of_getElem? hi
      have hnext := taskStep_next b w.store t
      refine ⟨?_, ?_, ?_⟩
      · intro r f hh
        rcases List.mem_or_eq_of_mem_set hh with hh | he
        · exact h2 r f hh
        · exact taskStep_noStart he.symm
      · intro s r f hh
        rcases List.mem_or_eq_of_mem_set hh with hh | he
        · exact h3 s r f hh
        · rcases hnext with h | ⟨_, _, h⟩ | ⟨u', r', f', s', rfl, hg, h⟩ | ⟨_, _, _, _, _, h⟩ <;>
            rw [h] at he <;> simp only [Task.verifyGot.injEq, reduceCtorEq] at he
          obtain ⟨rfl, rfl, rfl, rfl⟩ := he
          exact h2 _ _ hm
      · intro o hh
        rcases List.mem_or_eq_of_mem_set hh with hh | he
        · exact h4 o hh
        · rcases hnext with h | ⟨_, _, h⟩ | ⟨_, _, _, _, _, _, h⟩ | ⟨u', s', r', f', rfl, h⟩ <;>
            rw [h] at he <;> simp only [Task.verifyDone.injEq, reduceCtorEq] at he
          obtain ⟨rfl, rfl⟩ := he
          exact h3 _ _ _ hm

/-- **C33** (partial.) Under every interleaving, a recorded outcome stays as long as no further
response for the session is verified and no retrieval had read the session before it was completed.
Missing: a further response replaces the outcome, see `C33_replay_overwrites`. -/
theorem C33_outcome_kept_partial (u : Uuid) (ss : List Sched) (w : World) (hσ : w.store.Ok)
    (hp : NoPendingBuild u w.tasks) (hb : NoBuild u ss) (hr : ¬ PendingRetrieval u w.tasks)
    (hv : NoVerify u w.tasks ss) (s s' : Session) (o : Outcome) (hs : w.store.get u = some s)
    (hc : s.status = .complete o) (hs' : (w.run ss).1.store.get u = some s') :
    s'.status = .complete o := by
  induction ss generalizing w s with
  | nil =>
    have : some s = some s' := hs.symm.trans hs'
    cases this
    exact hc
  | cons x ss ih =>
    have hp' := noPendingBuild_next (s := x) hp (fun y hy => hb y (by rw [hy]; exact List.mem_cons_self))
    have hb' : NoBuild u ss := fun y hy => hb y (List.mem_cons_of_mem _ hy)
    have hr' := pendingRetrieval_next hr (fun y hy => by rw [hs] at hy; cases hy; rw [hc]; simp [rank]) x
    have hσ' := World.next_ok hσ x
    have hv' := noVerify_next hv
    simp only [World.run] at hs'
    cases hm : (w.next x).1.store.get u with
    | none =>
      rw [(C30_only_build_changes_request u ss _ hσ' hp' hb').1 hm] at hs'
      simp at hs'
    | some y =>
      refine ih _ hσ' hp' hb' hr' hv' y hm ?_ hs'
      have same : w.store.get u = (w.next x).1.store.get u → y.status = .complete o := by
        intro e
        rw [← e, hs] at hm
        cases hm
        exact hc
      cases x with
      | spawn op => exact same rfl
      | abandon i => exact same rfl
      | step i b =>
        cases hi : w.tasks[i]? with
        | none => exact same (by simp only [World.next, hi])
        | some t =>
          have hmem := List.mem_of_getElem? hi
          rw [World.next_step hi] at hm same
          rcases taskStep_at b hσ t u with he | ⟨z, rfl, hx, he⟩ | ⟨-, he⟩ | ⟨z, rfl, he⟩ | ⟨o, rfl, he⟩
          · exact same he.symm
          · exact absurd hx (hp z hmem)
          · simp only at hm; rw [he] at hm; simp at hm
          · exact absurd ⟨z, hmem⟩ hr
          · exact absurd hmem (hv.2.2.2 _)

/-- **C33** (the opposite of the claim.) Whatever the status, also complete, a further response
replaces the recorded outcome by what the validator says about it. -/
theorem C33_replay_overwrites (σ : Store) (u : Uuid) (r : AuthorizationResponse) (f : Validator)
    (s : Session) (hs : σ.get u = some s) :
    verifyResponse u r f σ = ((verifyResponse u r f σ).1, .ok ()) ∧
    (verifyResponse u r f σ).1.get u = some { s with status := .complete (f s r) } := by
  have hg : σ.getSession false u = .ok s := by simp [Store.getSession, hs]
  simp only [verifyResponse, hg]
  refine ⟨?_, ?_⟩
  · have := updateStatus_result false u (.complete (f s r)) σ
    rw [hs] at this
    simp only [Bool.false_eq_true, if_false] at this
    rw [← this]
  · rw [updateStatus_get, if_pos ⟨rfl, rfl⟩, hs]
    rfl

/-- **C33** A validator that keeps the outcome of completed sessions gives the claim: then no
number of further responses changes it. -/
theorem C33_careful_validator (u : Uuid) (rs : List (AuthorizationResponse × Validator)) (σ : Store)
    (hf : ∀ r f, (r, f) ∈ rs → ∀ s o, s.status = .complete o → f s r = o) (s : Session) (o : Outcome)
    (hs : σ.get u = some s) (hc : s.status = .complete o) :
    (rs.foldl (fun σ p => (verifyResponse u p.1 p.2 σ).1) σ).get u = some s := by
  induction rs generalizing σ with
  | nil => exact hs
  | cons p rs ih =>
    obtain ⟨r, f⟩ := p
    refine ih _ (fun r' f' h => hf r' f' (List.mem_cons_of_mem _ h)) ?_
    rw [(C33_replay_overwrites σ u r f s hs).2, hf r f List.mem_cons_self s o hc, ← hc]

/-- The validator keeps the outcome of a session that it is given as complete. -/
def Careful (f : Validator) (r : AuthorizationResponse) : Prop :=
  ∀ s o, s.status = .complete o → f s r = o

/-- The running and later verifications for `u` have careful validators, and those that have read the
session already will record `o`. -/
def Settled (u : Uuid) (o : Outcome) (ts : List Task) (ss : List Sched) : Prop :=
  (∀ r f, .spawn (.verify u r f) ∈ ss → Careful f r) ∧ (∀ r f, .start (.verify u r f) ∈ ts → Careful f r) ∧
  (∀ s r f, .verifyGot u s r f ∈ ts → f s r = o) ∧ (∀ o', .verifyDone u o' ∈ ts → o' = o)

theorem settled_next {u : Uuid} {o : Outcome} {w : World} {x : Sched} {ss : List Sched} {s : Session}
    (hs : w.store.get u = some s) (hc : s.status = .complete o)
    (h : Settled u o w.tasks (x :: ss)) : Settled u o (w.next x).1.tasks ss := by
  obtain ⟨h1, h2, h3, h4⟩ := h
  refine ⟨fun r f hm => h1 r f (List.mem_cons_of_mem _ hm), ?_⟩
  cases x with
  | spawn op =>
    simp only [World.next, List.mem_append, List.mem_singleton, Task.start.injEq, reduceCtorEq, or_false]
    refine ⟨fun r f hm => ?_, h3, h4⟩
    rcases hm with hm | rfl
    · exact h2 r f hm
    · exact h1 r f List.mem_cons_self
  | abandon i =>
    exact ⟨fun r f hm => h2 r f (List.mem_of_mem_eraseIdx hm),
      fun s r f hm => h3 s r f (List.mem_of_mem_eraseIdx hm),
      fun o hm => h4 o (List.mem_of_mem_eraseIdx hm)⟩
  | step i b =>
    cases hi : w.tasks[i]? with
    | none => simp only [World.next, hi]; exact ⟨h2, h3, h4⟩
    | some t =>
      rw [World.next_step hi]
      have hm := List.mem_of_getElem? hi
      have hnext := taskStep_next b w.store t
      refine ⟨?_, ?_, ?_⟩
      · intro r f hh
        rcases List.mem_or_eq_of_mem_set hh with hh | he
        · exact h2 r f hh
        · exact absurd he.symm taskStep_noStart
      · intro s' r f hh
        rcases List.mem_or_eq_of_mem_set hh with hh | he
        · exact h3 s' r f hh
        · rcases hnext with h | ⟨_, _, h⟩ | ⟨u', r', f', s'', rfl, hg, h⟩ | ⟨_, _, _, _, _, h⟩ <;>
            rw [h] at he <;> simp only [Task.verifyGot.injEq, reduceCtorEq] at he
          obtain ⟨rfl, rfl, rfl, rfl⟩ := he
          rw [hs] at hg
          cases hg
          exact h2 _ _ hm _ _ hc
      · intro o' hh
        rcases List.mem_or_eq_of_mem_set hh with hh | he
        · exact h4 o' hh
        · rcases hnext with h | ⟨_, _, h⟩ | ⟨_, _, _, _, _, _, h⟩ | ⟨u', s', r', f', rfl, h⟩ <;>
            rw [h] at he <;> simp only [Task.verifyDone.injEq, reduceCtorEq] at he
          obtain ⟨rfl, rfl⟩ := he
          exact h3 _ _ _ hm

/-- **C33** Under every interleaving with any number of further responses, a recorded outcome stays if
the validators keep the outcome of completed sessions and no verification or retrieval had read the
session before it was completed (a verification that had may only record the same outcome). -/
theorem C33_careful_interleaved (u : Uuid) (ss : List Sched) (w : World) (hσ : w.store.Ok)
    (hp : NoPendingBuild u w.tasks) (hb : NoBuild u ss) (hr : ¬ PendingRetrieval u w.tasks)
    (s s' : Session) (o : Outcome) (hv : Settled u o w.tasks ss) (hs : w.store.get u = some s)
    (hc : s.status = .complete o) (hs' : (w.run ss).1.store.get u = some s') :
    s'.status = .complete o := by
  induction ss generalizing w s with
  | nil =>
    have : some s = some s' := hs.symm.trans hs'
    cases this
    exact hc
  | cons x ss ih =>
    have hp' := noPendingBuild_next (s := x) hp (fun y hy => hb y (by rw [hy]; exact List.mem_cons_self))
    have hb' : NoBuild u ss := fun y hy => hb y (List.mem_cons_of_mem _ hy)
    have hr' := pendingRetrieval_next hr (fun y hy => by rw [hs] at hy; cases hy; rw [hc]; simp [rank]) x
    have hσ' := World.next_ok hσ x
    have hv' := settled_next hs hc hv
    simp only [World.run] at hs'
    cases hm : (w.next x).1.store.get u with
    | none =>
      rw [(C30_only_build_changes_request u ss _ hσ' hp' hb').1 hm] at hs'
      simp at hs'
    | some y =>
      refine ih _ hσ' hp' hb' hr' y hv' hm ?_ hs'
      have same : w.store.get u = (w.next x).1.store.get u → y.status = .complete o := by
        intro e
        rw [← e, hs] at hm
        cases hm
        exact hc
      cases x with
      | spawn op => exact same rfl
      | abandon i => exact same rfl
      | step i b =>
        cases hi : w.tasks[i]? with
        | none => exact same (by simp only [World.next, hi])
        | some t =>
          have hmem := List.mem_of_getElem? hi
          rw [World.next_step hi] at hm same
          rcases taskStep_at b hσ t u with he | ⟨z, rfl, hx, he⟩ | ⟨-, he⟩ | ⟨z, rfl, he⟩ | ⟨o', rfl, he⟩
          · exact same he.symm
          · exact absurd hx (hp z hmem)
          · simp only at hm; rw [he] at hm; simp at hm
          · exact absurd ⟨z, hmem⟩ hr
          · simp only at hm
            rw [he, hs] at hm
            cases hm
            rw [hv.2.2.2 _ hmem]

/-! ## C34 -/

/-- **C34** Comparison is by position: sent-by-reference, sent, received, complete, and the
completed ones error, failure, success; payloads do not matter. -/
theorem C34_order (a b : Status) :
    a.partialCmp b = some (compare (position a) (position b)) ∧
    (a.eq b = true ↔ position a = position b) ∧ (a.lt b = true ↔ position a < position b) := by
  have hcmp : a.partialCmp b = some (compare (position a) (position b)) := by
    cases a with
    | complete o =>
      cases b with
      | complete o' =>
        simp only [Status.partialCmp, Outcome.partialCmp]
        cases o <;> cases o' <;> rfl
      | _ => cases o <;> rfl
    | _ =>
      cases b with
      | complete o' => cases o' <;> rfl
      | _ => rfl
  refine ⟨hcmp, ?_, ?_⟩
  · cases a with
    | complete o =>
      cases b with
      | complete o' => cases o <;> cases o' <;> simp [Status.eq, Outcome.eq, position, outcomeRank]
      | _ => cases o <;> simp [Status.eq, position, outcomeRank, rank, Status.variant]
    | _ =>
      cases b with
      | complete o' => cases o' <;> simp [Status.eq, position, outcomeRank, rank, Status.variant]
      | _ => simp [Status.eq, position, rank, Status.variant]
  · rw [Status.lt, hcmp]
    simp [Nat.compare_eq_lt]

/-- **C34** Outcomes: error < failure < success, ignoring payloads. -/
theorem C34_outcome_order (a b : Outcome) :
    a.partialCmp b = some (compare (outcomeRank a) (outcomeRank b)) ∧
    (a.eq b = true ↔ outcomeRank a = outcomeRank b) := by
  cases a <;> cases b <;>
    simp [Outcome.partialCmp, Outcome.ordering, outcomeRank, Outcome.eq]

/-- **C34** The comparison is a total order up to equality. -/
theorem C34_total_order (a b c : Status) :
    a.eq a = true ∧ (a.eq b = b.eq a) ∧ (a.eq b = true ↔ a.partialCmp b = some .eq) ∧
    (∃ x, a.partialCmp b = some x ∧ b.partialCmp a = some x.swap) ∧
    (a.lt b = true → b.lt c = true → a.lt c = true) ∧
    (a.eq b = true → b.eq c = true → a.eq c = true) ∧
    ((a.lt b = true ∧ ¬ a.eq b = true ∧ ¬ b.lt a = true) ∨ (¬ a.lt b = true ∧ a.eq b = true ∧ ¬ b.lt a = true) ∨
      (¬ a.lt b = true ∧ ¬ a.eq b = true ∧ b.lt a = true)) := by
  have hab := C34_order a b
  have hba := C34_order b a
  have hbc := C34_order b c
  have hac := C34_order a c
  have haa := C34_order a a
  refine ⟨haa.2.1.mpr rfl, ?_, ?_, ?_, ?_, ?_, ?_⟩
  · rw [Bool.eq_iff_iff, hab.2.1, hba.2.1]; exact ⟨Eq.symm, Eq.symm⟩
  · rw [hab.2.1, hab.1]; simp
  · exact ⟨_, hab.1, by rw [hba.1, Nat.compare_swap]⟩
  · rw [hab.2.2, hbc.2.2, hac.2.2]; exact Nat.lt_trans
  · rw [hab.2.1, hbc.2.1, hac.2.1]; exact Eq.trans
  · rw [hab.2.2, hab.2.1, hba.2.2]; omega

/-! ## Concrete executions -/

/-- A session. -/
def sessionSample (n : Nat) (st : Status) : Session := ⟨buildId n, st, c!"a.b.c", requestSampleObject, dcqlSample⟩

/-- A response. -/
def responseSample : AuthorizationResponse := .jwt c!"h.p.s"

/-- A validator that accepts. -/
def acceptAll : Validator := fun _ _ => .success (.bool true)
/-- A validator that refuses. -/
def refuseAll : Validator := fun _ _ => .failure c!"no"

-- store histories: contention and unknown ids answer with errors, the last status counts
example : (storeRun [] [(false, .initiate (sessionSample 1 .sentRequest)), (true, .remove (buildId 1)),
    (false, .update (buildId 2) .sentRequest), (false, .update (buildId 1) (.complete (.error c!"e"))),
    (false, .initiate (sessionSample 2 .sentRequest))]).1.get (buildId 1) =
    some (sessionSample 1 (.complete (.error c!"e"))) := by
  rw [C29_last_session]; rfl

/-- A retrieval and a verification of one session by reference, interleaved: the retrieval reads
first and writes last. -/
def raceSample : List Sched :=
  [.spawn (.build (sessionSample 1 .sentRequestByReference)), .step 0 false,
   .spawn (.retrieve (buildId 1)), .step 1 false,
   .spawn (.verify (buildId 1) responseSample acceptAll), .step 2 false, .step 2 false, .step 2 false]

/-- **C31** (the opposite of the claim.) Under one interleaving of a retrieval and a verification, a
completed session goes back to "sent" and its outcome is lost. -/
theorem C31_lost_update :
    ((World.run ⟨[], []⟩ raceSample).1.store.get (buildId 1)).map Session.status =
      some (.complete (.success (.bool true))) ∧
    ((World.run ⟨[], []⟩ (raceSample ++ [.step 1 false])).1.store.get (buildId 1)).map Session.status =
      some .sentRequest := by
  constructor <;> rfl

-- the hypotheses of the partial claim: a session passed by value, a retrieval and a verification
example : ∃ s s', (World.mk [(buildId 1, sessionSample 1 .sentRequest)] []).store.get (buildId 1) = some s ∧
    ((World.mk [(buildId 1, sessionSample 1 .sentRequest)] []).run (raceSample.drop 2)).1.store.get (buildId 1) = some s' ∧
    rank s.status ≤ rank s'.status :=
  ⟨_, _, rfl, rfl, C31_never_backwards_partial (buildId 1) (raceSample.drop 2)
    ⟨[(buildId 1, sessionSample 1 .sentRequest)], []⟩ (by simp [Store.Ok])
    (by simp [NoPendingBuild]) (by simp [NoBuild, raceSample]) (by simp [PendingRetrieval]) _ _ rfl (by decide) rfl⟩

-- a completed session's outcome comes from the validator
example : ∃ s' r f, .spawn (.verify (buildId 1) r f) ∈ raceSample ∧
    Outcome.success (.bool true) = f s' r ∧ s'.uuid = buildId 1 := by
  obtain ⟨s', r, f, h1, h2, -, -, h3⟩ := C32_outcome_from_validator raceSample (buildId 1)
    (sessionSample 1 (.complete (.success (.bool true)))) (.success (.bool true))
    (by intro x o h
        simp only [raceSample, List.mem_cons, Sched.spawn.injEq, Op.build.injEq, reduceCtorEq, List.not_mem_nil,
          or_false] at h
        subst h; simp [sessionSample]) rfl rfl
  exact ⟨s', r, f, h1, h2, h3⟩

/-- **C33** (the claim is false.) A replayed response turns a success into a failure. -/
theorem C33_not_once : ∃ (σ : Store) (u : Uuid) (s s' : Session) (r : AuthorizationResponse) (f : Validator),
    σ.get u = some s ∧ s.status = .complete (.success (.bool true)) ∧
    (verifyResponse u r f σ).1.get u = some s' ∧ s'.status = .complete (.failure c!"no") :=
  ⟨[(buildId 1, sessionSample 1 (.complete (.success (.bool true))))], buildId 1, _, _, responseSample,
    refuseAll, rfl, rfl, rfl, rfl⟩

/-- A validator that keeps outcomes and otherwise decides by the state of the response. -/
def carefulByState : Validator := fun s r => match s.status with
  | .complete o => o
  | _ => match r with
    | .unencoded ⟨_, some _⟩ => .success (.bool true)
    | _ => .failure c!"no"

theorem carefulByState_careful (r : AuthorizationResponse) : Careful carefulByState r := by
  intro s o h; simp only [carefulByState, h]

/-- Two responses verified at the same time: both read the session before either outcome is recorded. -/
def doubleSample : List Sched :=
  [.spawn (.build (sessionSample 1 .sentRequest)), .step 0 false,
   .spawn (.verify (buildId 1) (.unencoded ⟨⟨[]⟩, some ⟨c!"s"⟩⟩) carefulByState), .step 1 false,
   .spawn (.verify (buildId 1) (.jwt c!"x") carefulByState), .step 2 false,
   .step 1 false, .step 1 false]

/-- **C33** The proviso on earlier reads is needed: even with a careful validator, of two responses that
are verified at the same time the second replaces the recorded outcome of the first. -/
theorem C33_careful_race :
    (∀ r, Careful carefulByState r) ∧
    ((World.run ⟨[], []⟩ doubleSample).1.store.get (buildId 1)).map Session.status =
      some (.complete (.success (.bool true))) ∧
    ((World.run ⟨[], []⟩ (doubleSample ++ [.step 2 false, .step 2 false])).1.store.get (buildId 1)).map
      Session.status = some (.complete (.failure c!"no")) :=
  ⟨carefulByState_careful, rfl, rfl⟩

-- further responses, verified at the same time after the session is complete, change nothing
example : ∃ s', ((World.mk [(buildId 1, sessionSample 1 (.complete (.success (.bool true))))] []).run
      [.spawn (.verify (buildId 1) (.jwt c!"x") carefulByState),
       .spawn (.verify (buildId 1) (.jwt c!"y") carefulByState),
       .step 0 false, .step 1 false, .step 0 false, .step 1 false, .step 1 false, .step 0 false]).1.store.get
        (buildId 1) = some s' ∧ s'.status = .complete (.success (.bool true)) :=
  ⟨_, rfl, C33_careful_interleaved (buildId 1)
    [.spawn (.verify (buildId 1) (.jwt c!"x") carefulByState),
     .spawn (.verify (buildId 1) (.jwt c!"y") carefulByState),
     .step 0 false, .step 1 false, .step 0 false, .step 1 false, .step 1 false, .step 0 false]
    ⟨[(buildId 1, sessionSample 1 (.complete (.success (.bool true))))], []⟩ (by simp [Store.Ok])
    (by simp [NoPendingBuild]) (by simp [NoBuild]) (by simp [PendingRetrieval]) _ _ _
    ⟨by
      intro r f h
      simp only [List.mem_cons, Sched.spawn.injEq, Op.verify.injEq, reduceCtorEq, List.not_mem_nil,
        or_false, true_and] at h
      rcases h with ⟨rfl, rfl⟩ | ⟨rfl, rfl⟩ <;> exact carefulByState_careful _, by simp, by simp, by simp⟩
    rfl rfl rfl⟩

-- two executions that differ only in what happens to other sessions
example : SameScheds (buildId 1) (raceSample ++ [.spawn (.remove (buildId 2)), .step 3 false])
    (raceSample ++ [.spawn (.build (sessionSample 3 .sentRequest)), .step 3 false]) := by
  simp only [raceSample, List.cons_append, List.nil_append, SameScheds, SameSched, and_self, true_or, and_true,
    true_and]
  right
  constructor <;> decide

example : (Status.complete (.error c!"a")).eq (.complete (.error c!"b")) = true ∧
    Status.lt .receivedResponse (.complete (.error [])) = true := by decide

end Oid4vp
