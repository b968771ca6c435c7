import Verif.Spec.Serial
import Verif.Props.Session
import Verif.Model.VerifierApp
/-! # C118: operations that run at the same time and operations that run one after the other -/

set_option autoImplicit false

namespace Oid4vp
open Spec

theorem Ledger.run_snoc (l : Ledger) (ss : List Sched) (x : Sched) : l.run (ss ++ [x]) = (l.run ss).next x := by
  simp only [Ledger.run, List.foldl_append, List.foldl_cons, List.foldl_nil]

theorem map_eraseIdx {α β : Type} (f : α → β) : ∀ (l : List α) (i : Nat), (l.eraseIdx i).map f = (l.map f).eraseIdx i
  | [], _ => rfl
  | _ :: _, 0 => rfl
  | a :: l, i + 1 => congrArg (f a :: ·) (map_eraseIdx f l i)

theorem Ledger.next_world (l : Ledger) (x : Sched) : (l.next x).world = (l.world.next x).1 := by
  cases x with
  | spawn op => simp [Ledger.next, Ledger.world, World.next]
  | abandon i => simp [Ledger.next, Ledger.world, World.next, map_eraseIdx]
  | step i b =>
    simp only [Ledger.next, Ledger.world, World.next, List.getElem?_map]
    cases l.running[i]? with
    | none => rfl
    | some p => simp [List.map_set]

/-- **C118** Keeping a ledger changes nothing. -/
theorem C118_ledger (l : Ledger) (ss : List Sched) : (l.run ss).world = (l.world.run ss).1 := by
  induction ss using snoc_induction with
  | h0 => rfl
  | h1 ss x ih => rw [Ledger.run_snoc, Ledger.next_world, ih, World.run_snoc]

theorem inTurn_snoc (σ : Store) (ops : List Op) (op : Op) : inTurn σ (ops ++ [op]) =
    ((alone op (inTurn σ ops).1).1, (inTurn σ ops).2 ++ [(alone op (inTurn σ ops).1).2]) := by
  induction ops generalizing σ with
  | nil => rfl
  | cons o os ih => simp only [List.cons_append, inTurn, ih]

/-- A task is one of its operation's. -/
def Fits : Op × Task → Prop
  | (op, .start op') => op' = op
  | (op, .retrieveGot u _) => op = .retrieve u
  | (op, .verifyGot u _ r f) => op = .verify u r f
  | (op, .verifyDone u _) => ∃ r f, op = .verify u r f
  | (_, .finished) => True

theorem fits_step {op : Op} {t : Task} (b : Bool) (σ : Store) (h : Fits (op, t)) : Fits (op, (taskStep b σ t).2.1) := by
  cases t with
  | start op' =>
    cases h
    cases op with
    | build s => trivial
    | poll u => trivial
    | retrieve u =>
      simp only [taskStep]
      cases σ.getSession b u with
      | error e => trivial
      | ok s => simp only; split
                · rfl
                · trivial
    | verify u r f =>
      simp only [taskStep]
      cases σ.getSession b u with
      | error e => trivial
      | ok s => rfl
    | remove u => trivial
  | retrieveGot u s => rw [step_retrieveGot]; trivial
  | verifyGot u s r f => exact ⟨r, f, h⟩
  | verifyDone u o => trivial
  | finished => trivial

theorem fits_next {l : Ledger} (h : ∀ p ∈ l.running, Fits p) (x : Sched) : ∀ p ∈ (l.next x).running, Fits p := by
  cases x with
  | spawn op =>
    intro p hp
    rcases List.mem_append.mp hp with hp | hp
    · exact h p hp
    · cases List.mem_singleton.mp hp; rfl
  | abandon i => exact fun p hp => h p (List.mem_of_mem_eraseIdx hp)
  | step i b =>
    simp only [Ledger.next]
    cases hi : l.running[i]? with
    | none => exact h
    | some q =>
      intro p hp
      rcases List.mem_or_eq_of_mem_set hp with hp | rfl
      · exact h p hp
      · exact fits_step b _ (h q (List.mem_of_getElem? hi))

theorem fits_run (σ : Store) (ss : List Sched) : ∀ p ∈ ((Ledger.start σ).run ss).running, Fits p := by
  induction ss using snoc_induction with
  | h0 => intro p hp; cases hp
  | h1 ss x ih => rw [Ledger.run_snoc]; exact fits_next ih x

/-- A step that meets the lock changes nothing. -/
theorem taskStep_busy (σ : Store) (t : Task) : (taskStep true σ t).1 = σ := by
  cases t with
  | start op => cases op <;> rfl
  | _ => rfl

/-- A step either leaves the store alone and goes on, or ends the operation as if it were run alone now. -/
theorem step_alone {op : Op} {t : Task} {σ : Store} (h : Fits (op, t))
    (hr : ∀ u s s', t = .retrieveGot u s → σ.get u = some s' → s'.status = .sentRequestByReference ∧ s'.jwt = s.jwt)
    (hv : ∀ u r f o s', op = .verify u r f → t = .verifyDone u o → σ.get u = some s' → f s' r = o) :
    ((taskStep false σ t).1 = σ ∧ (AtEnd (taskStep false σ t).2.1 = false ∨ (taskStep false σ t).2.2 = [])) ∨
    (AtEnd (taskStep false σ t).2.1 = true ∧ (taskStep false σ t).1 = (alone op σ).1 ∧
      (taskStep false σ t).2.2.getLast? = some (alone op σ).2) := by
  have hlt : ∀ st : Status, st.lt .sentRequest = true ↔ st = .sentRequestByReference := by
    intro st; rw [lt_sentRequest]; cases st <;> simp [rank]
  cases t with
  | start op' =>
    cases h
    cases op with
    | build s => exact .inr ⟨rfl, rfl, rfl⟩
    | remove u => exact .inr ⟨rfl, rfl, rfl⟩
    | poll u =>
      refine .inr ⟨rfl, rfl, ?_⟩
      simp only [taskStep, alone, pollStatus]
      cases σ.getSession false u <;> rfl
    | retrieve u =>
      simp only [taskStep, alone, retrieve]
      cases hg : σ.getSession false u with
      | error e => exact .inr ⟨rfl, rfl, rfl⟩
      | ok s =>
        simp only
        by_cases hs : s.status.lt .sentRequest = true
        · simp only [hs, if_true]; exact .inl ⟨trivial, .inl rfl⟩
        · simp only [hs]; exact .inr ⟨rfl, rfl, rfl⟩
    | verify u r f =>
      simp only [taskStep, alone, verifyResponse]
      cases hg : σ.getSession false u with
      | error e =>
        refine .inr ⟨rfl, rfl, ?_⟩
        cases σ.get u <;> rfl
      | ok s => exact .inl ⟨rfl, .inl rfl⟩
  | retrieveGot u s =>
    cases h
    right
    cases hg : σ.get u with
    | none => simp [taskStep, alone, retrieve, Store.updateStatus, Store.getSession, hg, AtEnd]
    | some s' =>
      obtain ⟨h1, h2⟩ := hr u s s' rfl hg
      have h3 := (hlt s'.status).mpr h1
      simp [taskStep, alone, retrieve, Store.updateStatus, Store.getSession, hg, h3, h2, AtEnd]
  | verifyGot u s r f => exact .inl ⟨rfl, .inl rfl⟩
  | verifyDone u o =>
    obtain ⟨r, f, rfl⟩ := h
    right
    cases hg : σ.get u with
    | none => simp [taskStep, alone, verifyResponse, Store.updateStatus, Store.getSession, hg, AtEnd, resEvent]
    | some s' =>
      have := hv u r f o s' rfl rfl hg
      simp [taskStep, alone, verifyResponse, Store.updateStatus, Store.getSession, hg, AtEnd, resEvent, this]
  | finished => exact .inl ⟨rfl, .inr rfl⟩

/-- **C118** Operations that run at the same time, in any interleaving, do the same as if they were run one after
the other in the order in which they end, and end in the same way, unless one of them is overtaken: writes
what follows from a reading that does not hold any more. -/
theorem C118_in_turn (σ : Store) (ss : List Sched) (h : Never Overtaken (.start σ) ss) :
    inTurn σ (((Ledger.start σ).run ss).done.map Prod.fst) =
      (((Ledger.start σ).run ss).store, ((Ledger.start σ).run ss).done.map Prod.snd) := by
  induction ss using snoc_induction with
  | h0 => rfl
  | h1 ss x ih =>
    have ih := ih fun a i b e => h a i (b ++ [x]) (by simp [e])
    have hfit := fits_run σ ss
    have hlast : ∀ i, x = .step i false → ¬ Overtaken ((Ledger.start σ).run ss) i := fun i e => h ss i [] (by rw [e])
    rw [Ledger.run_snoc]
    generalize (Ledger.start σ).run ss = l at *
    cases x with
    | spawn op => exact ih
    | abandon i => exact ih
    | step i b =>
      simp only [Ledger.next]
      cases hi : l.running[i]? with
      | none => exact ih
      | some p =>
        obtain ⟨op, t⟩ := p
        cases b with
        | true => simpa [taskStep_busy] using ih
        | false =>
          have hno := hlast i rfl
          simp only [Overtaken, StaleRetrieval, not_or, not_exists, not_and] at hno
          obtain ⟨n1, n2, n3⟩ := hno
          rcases step_alone (op := op) (t := t) (σ := l.store) (hfit _ (List.mem_of_getElem? hi))
            (by rintro u s s' rfl hg
                exact ⟨Classical.not_not.mp (n1 op u s s' hi hg), Classical.not_not.mp (n2 op u s s' hi hg)⟩)
            (by rintro u r f o s' rfl rfl hg
                exact Classical.not_not.mp (n3 u r f o s' hi hg)) with ⟨h1, h2⟩ | ⟨h1, h2, h3⟩
          · rcases h2 with h2 | h2 <;> simp [h1, h2, ih]
          · simp only [h1, h2, h3, Bool.not_false, Bool.and_self, if_true, Option.toList_some, List.map_cons, List.map_nil,
              List.map_append, inTurn_snoc, ih]

/-- There was a session under this id, and if there is one now, it is for the same request as `s`. -/
def StillFor (σ : Store) (ss : List Sched) (u : Uuid) (s : Session) : Prop :=
  (∃ first, first <+: ss ∧ ((Ledger.start σ).run first).store.get u ≠ none) ∧
    ∀ s', ((Ledger.start σ).run ss).store.get u = some s' → SameRequest s s'

/-- What the tasks have read is for the request that is stored. -/
def ReadWell (σ : Store) (ss : List Sched) : Op × Task → Prop
  | (_, .retrieveGot u s) => StillFor σ ss u s
  | (_, .verifyGot u s _ _) => StillFor σ ss u s
  | (op, .verifyDone u o) => ∃ r f s, op = .verify u r f ∧ o = f s r ∧ StillFor σ ss u s
  | _ => True

theorem Ledger.run_ok {σ : Store} (hσ : σ.Ok) (ss : List Sched) : ((Ledger.start σ).run ss).store.Ok := by
  induction ss using snoc_induction with
  | h0 => exact hσ
  | h1 ss x ih =>
    rw [Ledger.run_snoc]
    have h := Ledger.next_world ((Ledger.start σ).run ss) x
    have hok := World.next_ok (w := ((Ledger.start σ).run ss).world) ih x
    rw [← h] at hok
    exact hok

theorem stillFor_next {σ : Store} (hσ : σ.Ok) {ss : List Sched} {x : Sched} (hf : FreshIds (.start σ) (ss ++ [x]))
    {u : Uuid} {s : Session} (h : StillFor σ ss u s) : StillFor σ (ss ++ [x]) u s := by
  obtain ⟨⟨first, h1, h2⟩, h3⟩ := h
  refine ⟨⟨first, h1.trans (List.prefix_append _ _), h2⟩, ?_⟩
  have hok := Ledger.run_ok hσ ss
  rw [Ledger.run_snoc]
  cases x with
  | spawn op => exact h3
  | abandon i => exact h3
  | step i b =>
    simp only [Ledger.next]
    cases hi : ((Ledger.start σ).run ss).running[i]? with
    | none => exact h3
    | some p =>
      obtain ⟨op, t⟩ := p
      cases b with
      | true => simpa only [taskStep_busy] using h3
      | false =>
        intro s' hs'
        simp only at hs'
        rcases taskStep_at false hok t u with he | ⟨x, rfl, hx, he⟩ | ⟨-, he⟩ | ⟨x, -, he⟩ | ⟨o, -, he⟩
        · exact h3 s' (he ▸ hs')
        · exact absurd (hf ss i [] op x rfl hi first h1) (hx ▸ h2)
        · rw [he] at hs'; cases hs'
        all_goals
          rw [he] at hs'
          obtain ⟨y, hy, rfl⟩ := Option.map_eq_some_iff.mp hs'
          obtain ⟨g1, g2, g3, g4⟩ := h3 y hy
          exact ⟨g1, g2, g3, g4⟩

theorem readWell_step {σ : Store} (hσ : σ.Ok) {ss : List Sched} {x : Sched} (hf : FreshIds (.start σ) (ss ++ [x]))
    {b : Bool} {op : Op} {t : Task} (hfit : Fits (op, t)) (h : ReadWell σ ss (op, t)) :
    ReadWell σ (ss ++ [x]) (op, (taskStep b ((Ledger.start σ).run ss).store t).2.1) := by
  have hread : ∀ {u s}, ((Ledger.start σ).run ss).store.getSession b u = .ok s → StillFor σ ss u s := fun hg => by
    have hg := getSession_ok hg
    refine ⟨⟨ss, List.prefix_refl _, by simp [hg]⟩, fun s' hs' => ?_⟩
    cases hg.symm.trans hs'
    exact sameRequest_refl _
  cases t with
  | start op' =>
    cases hfit
    cases op with
    | build s => trivial
    | poll u => trivial
    | retrieve u =>
      simp only [taskStep]
      cases hg : ((Ledger.start σ).run ss).store.getSession b u with
      | error e => trivial
      | ok s =>
        simp only
        split
        · exact stillFor_next hσ hf (hread hg)
        · trivial
    | verify u r f =>
      simp only [taskStep]
      cases hg : ((Ledger.start σ).run ss).store.getSession b u with
      | error e => trivial
      | ok s => exact stillFor_next hσ hf (hread hg)
    | remove u => trivial
  | retrieveGot u s => rw [step_retrieveGot]; trivial
  | verifyGot u s r f => exact ⟨r, f, s, hfit, rfl, stillFor_next hσ hf h⟩
  | verifyDone u o => trivial
  | finished => trivial

theorem readWell_later {σ : Store} (hσ : σ.Ok) {ss : List Sched} {x : Sched} (hf : FreshIds (.start σ) (ss ++ [x]))
    {p : Op × Task} (h : ReadWell σ ss p) : ReadWell σ (ss ++ [x]) p := by
  obtain ⟨op, t⟩ := p
  cases t with
  | start op' => trivial
  | retrieveGot u s => exact stillFor_next hσ hf h
  | verifyGot u s r f => exact stillFor_next hσ hf h
  | verifyDone u o =>
    obtain ⟨r, f, s, h1, h2, h3⟩ := h
    exact ⟨r, f, s, h1, h2, stillFor_next hσ hf h3⟩
  | finished => trivial

theorem freshIds_before {l : Ledger} {a b : List Sched} (h : FreshIds l (a ++ b)) : FreshIds l a := by
  rintro before i after op s rfl
  exact h before i (after ++ b) op s (by simp)

theorem readWell_run {σ : Store} (hσ : σ.Ok) (ss : List Sched) (hf : FreshIds (.start σ) ss) :
    ∀ p ∈ ((Ledger.start σ).run ss).running, ReadWell σ ss p := by
  induction ss using snoc_induction with
  | h0 => intro p hp; cases hp
  | h1 ss x ih =>
    have ih := ih (freshIds_before hf)
    have hfit := fits_run σ ss
    rw [Ledger.run_snoc]
    cases x with
    | spawn op =>
      intro p hp
      rcases List.mem_append.mp hp with hp | hp
      · exact readWell_later hσ hf (ih p hp)
      · cases List.mem_singleton.mp hp; trivial
    | abandon i => exact fun p hp => readWell_later hσ hf (ih p (List.mem_of_mem_eraseIdx hp))
    | step i b =>
      simp only [Ledger.next]
      cases hi : ((Ledger.start σ).run ss).running[i]? with
      | none => exact fun p hp => readWell_later hσ hf (ih p hp)
      | some q =>
        intro p hp
        rcases List.mem_or_eq_of_mem_set hp with hp | rfl
        · exact readWell_later hσ hf (ih p hp)
        · have hq := List.mem_of_getElem? hi
          exact readWell_step hσ hf (hfit q hq) (ih q hq)

/-- Each running operation was spawned. -/
theorem spawned_run (σ : Store) (ss : List Sched) : ∀ p ∈ ((Ledger.start σ).run ss).running, .spawn p.1 ∈ ss := by
  induction ss using snoc_induction with
  | h0 => intro p hp; cases hp
  | h1 ss x ih =>
    rw [Ledger.run_snoc]
    cases x with
    | spawn op =>
      intro p hp
      rcases List.mem_append.mp hp with hp | hp
      · exact List.mem_append_left _ (ih p hp)
      · cases List.mem_singleton.mp hp; simp
    | abandon i => exact fun p hp => List.mem_append_left _ (ih p (List.mem_of_mem_eraseIdx hp))
    | step i b =>
      simp only [Ledger.next]
      cases hi : ((Ledger.start σ).run ss).running[i]? with
      | none => exact fun p hp => List.mem_append_left _ (ih p hp)
      | some q =>
        intro p hp
        rcases List.mem_or_eq_of_mem_set hp with hp | rfl
        · exact List.mem_append_left _ (ih p hp)
        · exact List.mem_append_left _ (ih q (List.mem_of_getElem? hi))

/-- **C118** With fresh ids and validators that do not look at the status, stale retrievals are the only thing that
can make a difference. -/
theorem C118_only_stale_retrievals {σ : Store} (hσ : σ.Ok) (ss : List Sched) (hf : FreshIds (.start σ) ss)
    (hv : StatusUnseen ss) (hs : Never StaleRetrieval (.start σ) ss) :
    inTurn σ (((Ledger.start σ).run ss).done.map Prod.fst) =
      (((Ledger.start σ).run ss).store, ((Ledger.start σ).run ss).done.map Prod.snd) := by
  refine C118_in_turn σ ss ?_
  intro before i after e
  subst e
  have hread := readWell_run hσ before (freshIds_before hf)
  rintro (h | ⟨op, u, s, s', h1, h2, h3⟩ | ⟨u, r, f, o, s', h1, h2, h3⟩)
  · exact hs before i after rfl h
  · obtain ⟨-, g⟩ := hread _ (List.mem_of_getElem? h1)
    exact h3 (g s' h2).2.1
  · obtain ⟨r', f', s, e, rfl, -, g⟩ := hread _ (List.mem_of_getElem? h1)
    cases e
    exact h3 (hv u r f (List.mem_append_left _ (spawned_run σ before _ (List.mem_of_getElem? h1))) s s' (g s' h2)).symm

/-- **C118** So a verifier that passes its requests by value, and is never asked for one, does in every interleaving
what it does one after the other. -/
theorem C118_by_value {σ : Store} (hσ : σ.Ok) (ss : List Sched) (hf : FreshIds (.start σ) ss) (hv : StatusUnseen ss)
    (hr : ∀ u, .spawn (.retrieve u) ∉ ss) :
    inTurn σ (((Ledger.start σ).run ss).done.map Prod.fst) =
      (((Ledger.start σ).run ss).store, ((Ledger.start σ).run ss).done.map Prod.snd) := by
  refine C118_only_stale_retrievals hσ ss hf hv ?_
  rintro before i after rfl ⟨op, u, s, s', h, -⟩
  have hm := List.mem_of_getElem? h
  have h1 := fits_run σ before _ hm
  have h2 := spawned_run σ before _ hm
  simp only [Fits] at h1
  subst h1
  exact hr u (List.mem_append_left _ h2)

theorem two_orders {α : Type} {a b : α} {l : List α} (h : l.Perm [a, b]) : l = [a, b] ∨ l = [b, a] := by
  cases l with
  | nil => simp at h
  | cons x l =>
    have hx : x ∈ [a, b] := h.subset (by simp)
    rcases List.mem_cons.mp hx with rfl | hx
    · exact .inl (by rw [List.perm_singleton.mp h.cons_inv])
    · cases List.mem_singleton.mp hx
      exact .inr (by rw [List.perm_singleton.mp (h.trans (.swap _ _ _)).cons_inv])

/-- **C118** The validator of the example verifier does not look at the status. -/
theorem C118_example_validator (ss : List Sched)
    (h : ∀ u r f, .spawn (.verify u r f) ∈ ss → ∃ decrypt, f = VerifierApp.validator decrypt) : StatusUnseen ss := by
  intro u r f hm s s' _
  obtain ⟨d, rfl⟩ := h u r f hm
  rfl

/-- **C118** (A finding.) With a stale retrieval this is not so: a retrieval during which a response is verified leaves a
store, with the status that the request was sent, that these operations do not leave one after the other, in
either order. -/
theorem C118_stale_retrieval_differs (u : Uuid) (s : Session) (hs : s.status = .sentRequestByReference)
    (r : AuthorizationResponse) (f : Validator) :
    let l := (Ledger.start [(u, s)]).run [.spawn (.retrieve u), .spawn (.verify u r f), .step 0 false, .step 1 false,
      .step 1 false, .step 1 false, .step 0 false]
    (l.store.get u).map (·.status) = some .sentRequest ∧
    l.done.map Prod.fst = [.verify u r f, .retrieve u] ∧
    ∀ ops, ops.Perm [.retrieve u, .verify u r f] → ∃ o, ((inTurn [(u, s)] ops).1.get u).map (·.status) = some (.complete o) := by
  have hlt : s.status.lt .sentRequest = true := by rw [hs]; decide
  have hlt2 : ∀ o, (Status.complete o).lt .sentRequest = false := fun o => by
    rw [Bool.eq_false_iff, Ne, lt_sentRequest]; simp [rank]
  refine ⟨?_, ?_, ?_⟩
  · simp [Ledger.run, Ledger.start, Ledger.next, taskStep, Store.getSession, Store.get, Store.updateStatus, Store.insert, hlt]
  · simp [Ledger.run, Ledger.start, Ledger.next, taskStep, Store.getSession, Store.get, Store.updateStatus, Store.insert, hlt,
      AtEnd, resEvent]
  · intro ops hp
    rcases two_orders hp with rfl | rfl
    · refine ⟨f { s with status := .sentRequest } r, ?_⟩
      simp [inTurn, alone, retrieve, verifyResponse, Store.getSession, Store.get, Store.updateStatus, Store.insert, hlt]
    · refine ⟨f s r, ?_⟩
      simp [inTurn, alone, retrieve, verifyResponse, Store.getSession, Store.get, Store.updateStatus, Store.insert, hlt2]

theorem never_cons {bad : Ledger → Nat → Prop} {l : Ledger} {x : Sched} {ss : List Sched}
    (h1 : ∀ i, x = .step i false → ¬ bad l i) (h2 : Never bad (l.next x) ss) : Never bad l (x :: ss) := by
  rintro (_ | ⟨y, before⟩) i after e
  · cases e; exact h1 i rfl
  · cases e; exact h2 before i after rfl

/-- A session is built and two responses to it are verified at the same time; the one begun last ends first. -/
def serialSched (s : Session) (r : AuthorizationResponse) (f g : Validator) : List Sched :=
  [.spawn (.build s), .step 0 false, .spawn (.verify s.uuid r f), .spawn (.verify s.uuid r g), .step 1 false, .step 2 false,
   .step 1 false, .step 2 false, .step 2 false, .step 1 false]

theorem serialSched_fresh (s : Session) (r : AuthorizationResponse) (f g : Validator) :
    FreshIds (.start []) (serialSched s r f g) := by
  intro before i after op t e hi first hp
  rcases before with _ | ⟨x0, _ | ⟨x1, before⟩⟩
  · simp [serialSched] at e
  · obtain ⟨rfl, h⟩ := List.cons.inj e
    rcases List.prefix_cons_iff.mp hp with rfl | ⟨first', rfl, h'⟩
    · rfl
    · cases List.prefix_nil.mp h'; rfl
  · exfalso
    obtain ⟨h0, e1⟩ := List.cons.inj e
    obtain ⟨h1, e2⟩ := List.cons.inj e1
    clear e e1
    subst h0 h1
    rcases before with _ | ⟨x2, _ | ⟨x3, _ | ⟨x4, _ | ⟨x5, _ | ⟨x6, _ | ⟨x7, _ | ⟨x8, _ | ⟨x9, before⟩⟩⟩⟩⟩⟩⟩⟩ <;>
      simp at e2
    all_goals
      first
      | (obtain ⟨rfl, rfl, rfl, rfl, rfl, rfl, rfl, rfl, rfl⟩ := e2)
      | (obtain ⟨rfl, rfl, rfl, rfl, rfl, rfl, rfl, rfl⟩ := e2)
      | (obtain ⟨rfl, rfl, rfl, rfl, rfl, rfl, rfl⟩ := e2)
      | (obtain ⟨rfl, rfl, rfl, rfl, rfl, rfl⟩ := e2)
      | (obtain ⟨rfl, rfl, rfl, rfl, rfl⟩ := e2)
      | (obtain ⟨rfl, rfl, rfl, rfl⟩ := e2)
      | (obtain ⟨rfl, rfl, rfl⟩ := e2)
      | (obtain ⟨rfl, rfl⟩ := e2)
    all_goals simp [Ledger.run, Ledger.start, Ledger.next, taskStep, Store.initiate, Store.insert, Store.getSession, Store.get] at hi

/-- C118 by value: with validators that do not look at the status the outcome kept is that of the response that ended
last. -/
example (s : Session) (r : AuthorizationResponse) :
    let l := (Ledger.start []).run (serialSched s r (fun _ _ => .success .null) (fun _ _ => .failure []))
    l.done.map Prod.fst = [.build s, .verify s.uuid r (fun _ _ => .failure []), .verify s.uuid r (fun _ _ => .success .null)] ∧
    (inTurn [] (l.done.map Prod.fst)).1 = l.store := by
  intro l
  refine ⟨?_, ?_⟩
  · simp [l, serialSched, Ledger.run, Ledger.start, Ledger.next, taskStep, Store.initiate, Store.insert, Store.getSession,
      Store.get, Store.updateStatus, AtEnd, resEvent]
  · show (inTurn [] (((Ledger.start []).run _).done.map Prod.fst)).1 = _
    rw [C118_by_value (σ := []) (by simp [Store.Ok]) (serialSched s r (fun _ _ => .success .null) (fun _ _ => .failure []))
      (serialSched_fresh s r _ _) (by
        intro u r' f' h
        simp only [serialSched, List.mem_cons, Sched.spawn.injEq, reduceCtorEq, Op.verify.injEq, List.not_mem_nil, or_false,
          false_or] at h
        rcases h with ⟨-, -, rfl⟩ | ⟨-, -, rfl⟩ <;> intros <;> rfl) (by simp [serialSched])]

/-- C118: a retrieval that is not overtaken, during a verification of another session. -/
example (u v : Uuid) (h : u ≠ v) (s t : Session) (hs : s.status = .sentRequestByReference)
    (r : AuthorizationResponse) (f : Validator) :
    Never Overtaken (.start [(u, s), (v, t)]) [.spawn (.retrieve u), .spawn (.verify v r f), .step 0 false, .step 1 false,
      .step 1 false, .step 1 false, .step 0 false] := by
  have hlt : s.status.lt .sentRequest = true := by rw [hs]; decide
  have hlt' : Status.sentRequestByReference.lt .sentRequest = true := by decide
  refine never_cons nofun (never_cons nofun (never_cons ?_ (never_cons ?_ (never_cons ?_ (never_cons ?_ (never_cons ?_
    (by intro a i b e; simp at e)))))))
  all_goals
    rintro i ⟨⟩
    simp [Overtaken, StaleRetrieval, Ledger.start, Ledger.next, taskStep, Store.getSession, Store.get, Store.updateStatus,
      Store.insert, hlt, hlt', hs, h, h.symm]

end Oid4vp
