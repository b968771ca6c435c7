import Verif.Spec.Observer
import Verif.Props.VerifierTasks
/-! # C112: what can be told about some sessions of the example verifier -/

set_option autoImplicit false

namespace Oid4vp
open Spec VerifierTasks
open VerifierHttp (Server Reply)

namespace Observer

/-- The session a handler is about to look at or to change. -/
def target (x : Arrival) : Point → Option Uuid
  | .create _ => some x.1
  | .fetch u => some u
  | .fetchGot u _ => some u
  | .poll u => some u
  | .lookUp u _ => some u
  | .record u _ => some u
  | .done _ => none

theorem target_enter {srv : Server} {x : Arrival} {u : Uuid} (h : target x (enter srv x.2.2) = some u) :
    Concerns u x := by
  cases he : enter srv x.2.2 with
  | create n =>
    rw [he] at h; simp only [target, Option.some.injEq] at h
    exact .inr (.inr (.inr ⟨(enter_of he).1, h⟩))
  | fetch v => rw [he] at h; cases h; exact .inl (enter_asks.mp he)
  | fetchGot v s => exact (enter_of he).elim
  | poll v => rw [he] at h; cases h; exact .inr (.inl (enter_polls.mp he))
  | lookUp v r => rw [he] at h; cases h; exact .inr (.inr (.inl ⟨r, enter_submits.mp he⟩))
  | record v o => exact (enter_of he).elim
  | done rep => rw [he] at h; cases h

/-- A request is about one session only. -/
theorem concerns_unique (srv : Server) {u v : Uuid} {x : Arrival} (hu : Concerns u x) (hv : Concerns v x) : u = v := by
  have hb : ∀ {w : Uuid} {front : Str}, Begins x.2.2 → ForSession front w x.2.2 →
      front ∈ [c!"/request/", c!"/status/", c!"/response/"] → False := by
    rintro w front ⟨_, hp⟩ ⟨_, _, ⟨hq, _⟩, _⟩ hf
    rw [hp] at hq
    simp only [List.mem_cons, List.not_mem_nil, or_false] at hf
    rcases hf with rfl | rfl | rfl <;> simp at hq
  rcases hu with h1 | h1 | ⟨r, h1⟩ | ⟨h1, h1'⟩ <;> rcases hv with h2 | h2 | ⟨r', h2⟩ | ⟨h2, h2'⟩
  case inr.inr.inr.inr.inr.inr => exact h1'.symm.trans h2'
  case inr.inr.inr.inl => exact (hb h1 h2.2 (by simp)).elim
  case inr.inr.inr.inr.inl => exact (hb h1 h2.2 (by simp)).elim
  case inr.inr.inr.inr.inr.inl => exact (hb h1 h2.2.1 (by simp)).elim
  case inl.inr.inr.inr => exact (hb h2 h1.2 (by simp)).elim
  case inr.inl.inr.inr.inr => exact (hb h2 h1.2 (by simp)).elim
  case inr.inr.inl.inr.inr.inr => exact (hb h2 h1.2.1 (by simp)).elim
  all_goals
    first | have h1 := (enter_asks (srv := srv)).mpr h1 | have h1 := (enter_polls (srv := srv)).mpr h1
          | have h1 := (enter_submits (srv := srv)).mpr h1
    first | have h2 := (enter_asks (srv := srv)).mpr h2 | have h2 := (enter_polls (srv := srv)).mpr h2
          | have h2 := (enter_submits (srv := srv)).mpr h2
    rw [h1] at h2
    cases h2
  all_goals rfl

/-- A step stays with its session. -/
theorem target_step (srv : Server) (b : Bool) (x : Arrival) (σ : Store) (p : Point) :
    target x (step srv b x σ p).2 = none ∨ target x (step srv b x σ p).2 = target x p := by
  cases p <;> simp only [step] <;> (repeat' split) <;> simp [target]

/-- A step leaves the other sessions alone. -/
theorem step_other (srv : Server) (b : Bool) (x : Arrival) (σ : Store) (p : Point) (u : Uuid)
    (h : target x p ≠ some u) : (step srv b x σ p).1.get u = σ.get u := by
  have hup : ∀ {v : Uuid} {st : Status} {τ : Store} {r : Res Unit}, v ≠ u →
      σ.updateStatus b v st = (τ, r) → τ.get u = σ.get u := by
    intro v st τ r hv hs
    have := updateStatus_get b v u st σ
    rw [hs] at this
    rw [this, if_neg (fun e => hv e.1.symm)]
  cases p with
  | create n =>
    simp only [step, create]
    split
    · rfl
    · rename_i s url hcon
      obtain ⟨_, _, _, _, _, _, _, _, _, _, _, _, hid⟩ := construct_ok hcon
      have hi := initiate_get b s u σ
      split <;> rename_i hs <;> rw [hs] at hi <;>
        exact hi.trans (if_neg fun e => h (by rw [target, e.1, hid]))
  | fetch v => simp only [step]; split <;> rfl
  | poll v => simp only [step]; split <;> rfl
  | lookUp v r => simp only [step]; split <;> rfl
  | fetchGot v s =>
    simp only [step]
    split <;> rename_i hs <;> exact hup (fun e => h (by rw [target, e])) hs
  | record v o =>
    simp only [step]
    split <;> rename_i hs <;> exact hup (fun e => h (by rw [target, e])) hs
  | done rep => rfl

/-- What a step does to its session, and where it leads, depends on that session alone. -/
theorem step_same (srv : Server) (b : Bool) (x : Arrival) (σ τ : Store) (p : Point)
    (h : ∀ u, target x p = some u → σ.get u = τ.get u) :
    (step srv b x σ p).2 = (step srv b x τ p).2 ∧
      ∀ u, target x p = some u → (step srv b x σ p).1.get u = (step srv b x τ p).1.get u := by
  cases p with
  | done rep => exact ⟨rfl, fun u hu => by cases hu⟩
  | create n =>
    have h := h x.1 rfl
    simp only [target, Option.some.injEq, forall_eq']
    simp only [step, create]
    split
    · exact ⟨by trivial, h⟩
    · rename_i s url hcon
      cases b with
      | true => simp [Store.initiate, h]
      | false =>
        have hi := initiate_get false s x.1 σ
        have hj := initiate_get false s x.1 τ
        simp only [Store.initiate] at hi hj ⊢
        simp only [Bool.false_eq_true, if_false] at hi hj ⊢
        refine ⟨by trivial, ?_⟩
        rw [hi, hj, h]
  | fetch v =>
    have h := h v rfl
    simp only [target, Option.some.injEq, forall_eq', step, Store.getSession, h]
    cases b <;> cases hv : τ.get v <;> simp [h, hv]
  | poll v =>
    have h := h v rfl
    simp only [target, Option.some.injEq, forall_eq', step, Store.getSession, h]
    cases b <;> cases hv : τ.get v <;> simp [h, hv]
  | lookUp v r =>
    have h := h v rfl
    simp only [target, Option.some.injEq, forall_eq', step, Store.getSession, h]
    cases b <;> cases hv : τ.get v <;> simp [h, hv]
  | fetchGot v s =>
    have h := h v rfl
    have h1 := updateStatus_get b v v .sentRequest σ
    have h2 := updateStatus_get b v v .sentRequest τ
    simp only [target, Option.some.injEq, forall_eq', step]
    have h3 := updateStatus_result b v .sentRequest σ
    have h4 := updateStatus_result b v .sentRequest τ
    rw [h] at h1 h3
    rw [← h2] at h1
    rw [← h4] at h3
    generalize σ.updateStatus b v .sentRequest = y at *
    generalize τ.updateStatus b v .sentRequest = z at *
    obtain ⟨y1, y2⟩ := y; obtain ⟨z1, z2⟩ := z
    simp only at h1 h3
    subst h3
    cases y2 <;> exact ⟨rfl, h1⟩
  | record v o =>
    have h := h v rfl
    have h1 := updateStatus_get b v v (.complete o) σ
    have h2 := updateStatus_get b v v (.complete o) τ
    simp only [target, Option.some.injEq, forall_eq', step]
    have h3 := updateStatus_result b v (.complete o) σ
    have h4 := updateStatus_result b v (.complete o) τ
    rw [h] at h1 h3
    rw [← h2] at h1
    rw [← h4] at h3
    generalize σ.updateStatus b v (.complete o) = y at *
    generalize τ.updateStatus b v (.complete o) = z at *
    obtain ⟨y1, y2⟩ := y; obtain ⟨z1, z2⟩ := z
    simp only at h1 h3
    subst h3
    cases y2 <;> exact ⟨rfl, h1⟩

/-- Two handlers an observer of the sessions cannot tell apart: the same one, about one of the sessions or none, or
two that are about none of them. -/
def Like (mine : Uuid → Prop) (s t : Arrival × Point) : Prop :=
  (s = t ∧ ∀ u, target s.1 s.2 = some u → mine u) ∨
    (Elsewhere mine s.1 ∧ Elsewhere mine t.1 ∧ ∀ u, mine u → target s.1 s.2 ≠ some u ∧ target t.1 t.2 ≠ some u)

/-- Two states an observer of the sessions cannot tell apart. -/
def LikeRunning (mine : Uuid → Prop) (w w' : Running) : Prop :=
  (∀ u, mine u → w.store.get u = w'.store.get u) ∧ List.Forall₂ (Like mine) w.tasks w'.tasks

theorem like_enter {mine : Uuid → Prop} (srv : Server) {x y : Arrival}
    (h : x = y ∨ (Elsewhere mine x ∧ Elsewhere mine y)) :
    Like mine (x, enter srv x.2.2) (y, enter srv y.2.2) := by
  rcases h with rfl | ⟨hx, hy⟩
  · by_cases hm : ∀ u, target x (enter srv x.2.2) = some u → mine u
    · exact .inl ⟨rfl, hm⟩
    · simp only [not_forall] at hm
      obtain ⟨v, hv, hn⟩ := hm
      have he : Elsewhere mine x := fun u hu hc => hn (concerns_unique srv hc (target_enter hv) ▸ hu)
      exact .inr ⟨he, he, fun u hu => ⟨fun e => he u hu (target_enter e), fun e => he u hu (target_enter e)⟩⟩
  · exact .inr ⟨hx, hy, fun u hu => ⟨fun e => hx u hu (target_enter e), fun e => hy u hu (target_enter e)⟩⟩

theorem forall₂_getElem? {α β : Type} {R : α → β → Prop} {l : List α} {m : List β} (h : List.Forall₂ R l m)
    (i : Nat) : (l[i]? = none ∧ m[i]? = none) ∨ ∃ a b, l[i]? = some a ∧ m[i]? = some b ∧ R a b := by
  induction h generalizing i with
  | nil => exact .inl ⟨by simp, by simp⟩
  | cons h _ ih =>
    cases i with
    | zero => exact .inr ⟨_, _, rfl, rfl, h⟩
    | succ i => simpa using ih i

theorem forall₂_set {α β : Type} {R : α → β → Prop} {l : List α} {m : List β} (h : List.Forall₂ R l m)
    (i : Nat) {a : α} {b : β} (hr : R a b) : List.Forall₂ R (l.set i a) (m.set i b) := by
  induction h generalizing i with
  | nil => exact .nil
  | cons h t ih =>
    cases i with
    | zero => exact .cons hr t
    | succ i => exact .cons h (ih i)

theorem forall₂_eraseIdx {α β : Type} {R : α → β → Prop} {l : List α} {m : List β} (h : List.Forall₂ R l m)
    (i : Nat) : List.Forall₂ R (l.eraseIdx i) (m.eraseIdx i) := by
  induction h generalizing i with
  | nil => exact .nil
  | cons h t ih =>
    cases i with
    | zero => exact t
    | succ i => exact .cons h (ih i)

theorem like_next {mine : Uuid → Prop} (srv : Server) {w w' : Running} {m m' : Move}
    (h : LikeRunning mine w w') (hm : LikeMove mine m m') :
    LikeRunning mine (next srv w m) (next srv w' m') := by
  obtain ⟨hs, ht⟩ := h
  cases m with
  | arrive x =>
    cases m' with
    | arrive y => exact ⟨hs, List.rel_append ht (.cons (like_enter srv hm) .nil)⟩
    | step j c => exact hm.elim
    | abandon j => exact hm.elim
  | abandon i =>
    cases m' with
    | arrive y => exact hm.elim
    | step j c => exact hm.elim
    | abandon j => cases hm; exact ⟨hs, forall₂_eraseIdx ht i⟩
  | step i b =>
    cases m' with
    | arrive y => exact hm.elim
    | abandon j => exact hm.elim
    | step j c =>
      obtain ⟨rfl, rfl⟩ := hm
      simp only [next]
      rcases forall₂_getElem? ht i with ⟨h1, h2⟩ | ⟨⟨x, p⟩, ⟨y, q⟩, h1, h2, hl⟩
      · rw [h1, h2]; exact ⟨hs, ht⟩
      · rw [h1, h2]
        rcases hl with ⟨e, hl⟩ | ⟨hx, hy, hl⟩
        · cases e
          have hss := step_same srv b x w.store w'.store p fun u hu => hs u (hl u hu)
          refine ⟨fun u hu => ?_, forall₂_set ht i (.inl ⟨?_, fun u hu => ?_⟩)⟩
          · by_cases ht : target x p = some u
            · exact hss.2 u ht
            · exact (step_other srv b x _ p u ht).trans ((hs u hu).trans (step_other srv b x _ p u ht).symm)
          · exact congrArg (Prod.mk x) hss.1
          · rcases target_step srv b x w.store p with e | e
            · simp only [e] at hu; cases hu
            · exact hl u (e ▸ hu)
        · refine ⟨fun u hu => ?_, forall₂_set ht i (.inr ⟨hx, hy, fun u hu => ⟨?_, ?_⟩⟩)⟩
          · exact (step_other srv b x _ p u (hl u hu).1).trans
              ((hs u hu).trans (step_other srv b y _ q u (hl u hu).2).symm)
          · rcases target_step srv b x w.store p with e | e
            · simp only [e]; simp
            · simp only [e]; exact (hl u hu).1
          · rcases target_step srv b y w'.store q with e | e
            · simp only [e]; simp
            · simp only [e]; exact (hl u hu).2

theorem like_run {mine : Uuid → Prop} (srv : Server) {es es' : List Move}
    (he : List.Forall₂ (LikeMove mine) es es') {w w' : Running} (h : LikeRunning mine w w') :
    LikeRunning mine (run srv w es) (run srv w' es') := by
  induction he generalizing w w' with
  | nil => exact h
  | cons hm _ ih => exact ih (like_next srv h hm)

end Observer

open Observer in
/-- **C112** The state of some sessions, and every answer to a request about one of them, are the same in any two
executions that begin with the same of these sessions and differ only in requests about none of them: whatever other
sessions there are, whatever is asked, delivered or begun for them, and however the handlers overlap. -/
theorem C112_noninterference (srv : Server) (mine : Uuid → Prop) (σ τ : Store) (es es' : List Move)
    (hσ : ∀ u, mine u → σ.get u = τ.get u) (he : List.Forall₂ (LikeMove mine) es es') :
    (∀ u, mine u → (run srv (begin σ) es).store.get u = (run srv (begin τ) es').store.get u) ∧
    ∀ (i : Nat) x u, mine u → Concerns u x → ∀ p,
      (run srv (begin σ) es).tasks[i]? = some (x, p) ↔ (run srv (begin τ) es').tasks[i]? = some (x, p) := by
  have h := like_run srv he (w := begin σ) (w' := begin τ) ⟨hσ, .nil⟩
  refine ⟨h.1, fun i x u hu hc p => ?_⟩
  rcases forall₂_getElem? h.2 i with ⟨h1, h2⟩ | ⟨a, b, h1, h2, ⟨e, _⟩ | ⟨ha, hb, _⟩⟩
  · rw [h1, h2]
  · rw [h1, h2, e]
  · rw [h1, h2]
    constructor
    · intro e; cases e; exact (ha u hu hc).elim
    · intro e; cases e; exact (hb u hu hc).elim

/-- A poll of another session, and a request for a new one with that id. -/
def otherPoll : Arrival :=
  (buildId 8, buildId 9, ⟨c!"GET", c!"/status/00000000-0000-0000-0000-000000000006", none, none, []⟩)

@[inherit_doc otherPoll]
def otherBegin : Arrival := (buildId 6, buildId 9, ⟨c!"POST", c!"/initiate", none, some c!"application/json", utf8 c!"{}"⟩)

/-- The session of `routeStore` and another one: its request object is fetched while the other session is polled in
one execution and begun anew in the other one, where there was none. The answers are the same in both. -/
example (app : VerifierApp.App) :
    let mine := fun u => u = buildId 5
    let both := Store.insert (buildId 6) (sessionSample 6 .sentRequest) routeStore
    let es := fun x => [.arrive toyAsk, .step 0 false, .arrive x, .step 1 false, .step 0 false, .arrive toyPoll, .step 2 false]
    (∀ u, mine u → both.get u = routeStore.get u) ∧ both ≠ routeStore ∧
      List.Forall₂ (LikeMove mine) (es otherPoll) (es otherBegin) ∧
    ∃ doc, (run (toyServer app) (begin both) (es otherPoll)).tasks[2]? = some (toyPoll, .done ⟨200, .json doc⟩) ∧
      (run (toyServer app) (begin routeStore) (es otherBegin)).tasks[2]? = some (toyPoll, .done ⟨200, .json doc⟩) := by
  intro mine both es
  have h1 : ∀ u, mine u → both.get u = routeStore.get u := by
    rintro u rfl
    rw [Store.get_insert, if_neg (by decide)]
  have hc6 : Concerns (buildId 6) otherPoll :=
    .inr (.inl ⟨by decide, c!"00000000-0000-0000-0000-000000000006",
      c!"00000000-0000-0000-0000-000000000006", ⟨rfl, by decide, by decide⟩,
      sessionOf_iff.1 (by decide +kernel), Uuid.parse_iff.1 (by decide +kernel)⟩)
  have hc6' : Concerns (buildId 6) otherBegin := .inr (.inr (.inr ⟨⟨rfl, rfl⟩, rfl⟩))
  have hne : buildId 5 ≠ buildId 6 := by decide
  have h3 : List.Forall₂ (LikeMove mine) (es otherPoll) (es otherBegin) := by
    refine .cons (.inl rfl) (.cons ⟨rfl, rfl⟩ (.cons (.inr ⟨?_, ?_⟩) (.cons ⟨rfl, rfl⟩ (.cons ⟨rfl, rfl⟩
      (.cons (.inl rfl) (.cons ⟨rfl, rfl⟩ .nil))))))
    · rintro v rfl hc
      exact hne (Observer.concerns_unique (toyServer app) hc hc6)
    · rintro v rfl hc
      exact hne (Observer.concerns_unique (toyServer app) hc hc6')
  have hp : (run (toyServer app) (begin both) (es otherPoll)).tasks[2]? =
      some (toyPoll, .done ⟨200, .json (VerifierApp.statusJson .sentRequest)⟩) := by
    have e1 : enter (toyServer app) toyAsk.2.2 = .fetch (buildId 5) := enter_asks.2 toyAsks
    have e2 : enter (toyServer app) toyPoll.2.2 = .poll (buildId 5) := enter_polls.2 toyPolls
    have e3 : enter (toyServer app) otherPoll.2.2 = .poll (buildId 6) := by
      rcases hc6 with h | h | ⟨r, h⟩ | h
      · exact absurd h.2.choose_spec.choose_spec.1.1 (by simp [otherPoll])
      · exact enter_polls.2 h
      · exact absurd h.1 (by decide)
      · exact absurd h.1.1 (by decide)
    have hs : both.get (buildId 5) = some (sessionSample 5 .sentRequestByReference) := by
      rw [h1 _ rfl]; exact routeKnown.2
    have hs6 : both.get (buildId 6) = some (sessionSample 6 .sentRequest) := by
      rw [Store.get_insert, if_pos rfl]
    have hst : (sessionSample 5 .sentRequestByReference).status = .sentRequestByReference := rfl
    have hlt : Status.lt .sentRequestByReference .sentRequest = true := by decide
    simp [es, run, begin, next, e1, e2, e3, step, Store.getSession, Store.updateStatus, hs, hs6, hst, hlt,
      Store.get_insert]
  refine ⟨h1, ?_, h3, _, hp, ?_⟩
  · intro e
    have : both.get (buildId 6) = routeStore.get (buildId 6) := by rw [e]
    rw [Store.get_insert, if_pos rfl] at this
    exact absurd this.symm (by decide +kernel)
  · exact ((C112_noninterference (toyServer app) mine both routeStore _ _ h1 h3).2 2 toyPoll _ rfl
      (.inr (.inl toyPolls)) _).1 hp

end Oid4vp
