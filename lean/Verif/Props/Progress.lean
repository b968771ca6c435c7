import Verif.Props.VerifierKept
import Verif.Props.CliTasks
/-!
# Every handler comes to its end

Properties of `Model/VerifierTasks` and `Model/CliTasks`: a handler is done after a few steps of its own, whatever the
others do.
-/

set_option autoImplicit false

namespace Oid4vp
open Spec

namespace VerifierTasks
open VerifierHttp (Server)

/-- How many steps a handler still takes at most. -/
def ahead : Point → Nat
  | .fetch _ => 2
  | .lookUp _ _ => 2
  | .create _ => 1
  | .fetchGot _ _ => 1
  | .poll _ => 1
  | .record _ _ => 1
  | .done _ => 0

theorem ahead_zero {p : Point} (h : ahead p = 0) : ∃ rep, p = .done rep := by
  cases p <;> simp [ahead] at h
  exact ⟨_, rfl⟩

theorem ahead_enter (srv : Server) (c : WalletApp.Call) : ahead (enter srv c) ≤ 2 := by
  cases enter srv c <;> simp [ahead]

theorem ahead_step (srv : Server) (b : Bool) (x : Arrival) (σ : Store) (p : Point) :
    ahead (step srv b x σ p).2 ≤ ahead p - 1 := by
  rcases step_point srv b x σ p with ⟨rep, e⟩ | ⟨u, s, rfl, -, -, e⟩ | ⟨u, r, o, rfl, e⟩
  · rw [e]; exact Nat.zero_le _
  · rw [e]; exact Nat.le_refl _
  · rw [e]; exact Nat.le_refl _

theorem ahead_run (srv : Server) (i : Nat) (x : Arrival) (es : List Move) : ∀ (w : Running) (p : Point),
    w.tasks[i]? = some (x, p) → (∀ j, Move.abandon j ∈ es → i < j) →
    ∃ p', (run srv w es).tasks[i]? = some (x, p') ∧
      ahead p' ≤ ahead p - (es.count (.step i false) + es.count (.step i true)) := by
  induction es with
  | nil => intro w p h _; exact ⟨p, h, by simp⟩
  | cons e es ih =>
    intro w p h ha
    have ha' : ∀ j, Move.abandon j ∈ es → i < j := fun j hj => ha j (List.mem_cons_of_mem _ hj)
    have hi : i < w.tasks.length := (List.getElem?_eq_some_iff.1 h).1
    cases e with
    | arrive z =>
      obtain ⟨p', h1, h2⟩ := ih (next srv w (.arrive z)) p (by
        simp only [next]; rw [List.getElem?_append_left hi]; exact h) ha'
      exact ⟨p', h1, by simpa using h2⟩
    | abandon j =>
      have hj : i < j := ha j (List.mem_cons_self ..)
      obtain ⟨p', h1, h2⟩ := ih (next srv w (.abandon j)) p (by
        simp only [next]; rw [List.getElem?_eraseIdx_of_lt hj]; exact h) ha'
      exact ⟨p', h1, by simpa using h2⟩
    | step k b =>
      by_cases hk : k = i
      · subst hk
        obtain ⟨p', h1, h2⟩ := ih (next srv w (.step k b)) (step srv b x w.store p).2 (by
          simp only [next, h]; rw [List.getElem?_set_self hi]) ha'
        refine ⟨p', h1, ?_⟩
        have := ahead_step srv b x w.store p
        cases b <;> simp <;> omega
      · obtain ⟨p', h1, h2⟩ := ih (next srv w (.step k b)) p (by
          simp only [next]
          cases w.tasks[k]? with
          | none => exact h
          | some t => dsimp only; rw [List.getElem?_set_ne hk]; exact h) ha'
        refine ⟨p', h1, ?_⟩
        have e1 : (Move.step k b == Move.step i false) = false := by simp [hk]
        have e2 : (Move.step k b == Move.step i true) = false := by simp [hk]
        simp only [List.count_cons, e1, e2]
        simpa using h2

end VerifierTasks

/-- **C107** No handler waits for another one: after two steps of its own, the handler of a request is done, whatever
requests come and whatever the other handlers do in between, also when the session store is found locked. -/
theorem C107_progress (srv : VerifierHttp.Server) (σ : Store) (es1 es2 : List VerifierTasks.Move)
    (x : VerifierTasks.Arrival) (i : Nat) (hi : i = (VerifierTasks.run srv (VerifierTasks.begin σ) es1).tasks.length)
    (ha : ∀ j, VerifierTasks.Move.abandon j ∈ es2 → i < j)
    (hs : 2 ≤ es2.count (.step i false) + es2.count (.step i true)) :
    ∃ rep, (VerifierTasks.run srv (VerifierTasks.begin σ) (es1 ++ .arrive x :: es2)).tasks[i]? = some (x, .done rep) := by
  rw [VerifierTasks.run_append]
  obtain ⟨p, h1, h2⟩ := VerifierTasks.ahead_run srv i x es2
    (VerifierTasks.next srv (VerifierTasks.run srv (VerifierTasks.begin σ) es1) (.arrive x)) _
    (by simp only [VerifierTasks.next]; rw [hi, List.getElem?_concat_length]) ha
  have := VerifierTasks.ahead_enter srv x.2.2
  obtain ⟨rep, rfl⟩ := VerifierTasks.ahead_zero (p := p) (by omega)
  exact ⟨rep, h1⟩

/-- A poll whose handler takes its steps between those of others, the second with the store locked. -/
example (app : VerifierApp.App) : ∃ rep, (VerifierTasks.run (toyServer app) (VerifierTasks.begin routeStore)
    ([.arrive toyAsk] ++ .arrive toyPoll :: [.step 0 false, .step 1 false, .arrive toyResponse, .step 2 true,
      .abandon 2, .step 1 true])).tasks[1]? = some (toyPoll, .done rep) :=
  C107_progress _ _ _ _ _ 1 rfl (by simp) (by decide)

namespace CliTasks

/-- How many steps a handler still takes at most. -/
def aheadAfter : After → Nat
  | .answer _ => 0
  | .parse _ => 7
  | .notify _ _ => 2

/-- How many steps a handler still takes at most. -/
def ahead : Point → Nat
  | .fetch _ => 5
  | .fetchGot _ _ => 4
  | .fetched _ => 3
  | .tell k => aheadAfter k + 2
  | .print _ k => aheadAfter k + 1
  | .respond _ => 10
  | .parse _ => 7
  | .lookUp _ _ => 6
  | .judge _ _ => 5
  | .notify _ _ => 2
  | .record _ _ => 1
  | .done _ => 0

theorem ahead_zero {p : Point} (h : ahead p = 0) : ∃ rep, p = .done rep := by
  cases p <;> simp [ahead] at h
  exact ⟨_, rfl⟩

theorem ahead_enter (c : WalletApp.Call) : ahead (enter c) ≤ 10 := by
  unfold enter
  repeat' split
  all_goals simp [ahead]

theorem ahead_step (ord : MapOrder) (b : Bool) (c : WalletApp.Call) (w : Server) (p : Point) :
    ahead (step ord b c w p).2 ≤ ahead p - 1 := by
  cases p <;> simp only [step] <;> repeat' split
  all_goals first
    | simp [ahead, aheadAfter]; done
    | (rename_i k; cases k <;> simp [ahead, aheadAfter, After.go])

theorem ahead_run (ord : MapOrder) (i : Nat) (c : WalletApp.Call) (es : List Move) : ∀ (w : Server) (p : Point),
    w.tasks[i]? = some (c, p) → (∀ j, Move.abandon j ∈ es → i < j) → (run ord w es).exited = false →
    ∃ p', (run ord w es).tasks[i]? = some (c, p') ∧
      ahead p' ≤ ahead p - (es.count (.step i false) + es.count (.step i true)) := by
  have stays : ∀ (es : List Move) (w : Server), w.exited = true → (run ord w es).exited = true := by
    intro es
    induction es with
    | nil => intro w h; exact h
    | cons e es ih => intro w h; exact ih _ (by simp only [next, h, if_true])
  induction es with
  | nil => intro w p h _ _; exact ⟨p, h, by simp⟩
  | cons e es ih =>
    intro w p h ha hx
    have hwx : w.exited = false := by
      cases hw : w.exited with
      | false => rfl
      | true => rw [stays _ w hw] at hx; cases hx
    have ha' : ∀ j, Move.abandon j ∈ es → i < j := fun j hj => ha j (List.mem_cons_of_mem _ hj)
    have hi : i < w.tasks.length := (List.getElem?_eq_some_iff.1 h).1
    have hx' : (run ord (next ord w e) es).exited = false := hx
    cases e with
    | arrive z =>
      obtain ⟨p', h1, h2⟩ := ih (next ord w (.arrive z)) p (by
        simp only [next, hwx, Bool.false_eq_true, if_false]; rw [List.getElem?_append_left hi]; exact h) ha' hx'
      exact ⟨p', h1, by simpa using h2⟩
    | abandon j =>
      have hj : i < j := ha j (List.mem_cons_self ..)
      obtain ⟨p', h1, h2⟩ := ih (next ord w (.abandon j)) p (by
        simp only [next, hwx, Bool.false_eq_true, if_false]; rw [List.getElem?_eraseIdx_of_lt hj]; exact h) ha' hx'
      exact ⟨p', h1, by simpa using h2⟩
    | main =>
      obtain ⟨p', h1, h2⟩ := ih (next ord w .main) p (by
        simp only [next, hwx, Bool.false_eq_true, if_false]; exact h) ha' hx'
      exact ⟨p', h1, by simpa using h2⟩
    | exit =>
      obtain ⟨p', h1, h2⟩ := ih (next ord w .exit) p (by
        simp only [next, hwx, Bool.false_eq_true, if_false]; exact h) ha' hx'
      exact ⟨p', h1, by simpa using h2⟩
    | step k b =>
      by_cases hk : k = i
      · subst hk
        obtain ⟨p', h1, h2⟩ := ih (next ord w (.step k b)) (step ord b c w p).2 (by
          simp only [next, hwx, Bool.false_eq_true, if_false, h]; rw [List.getElem?_set_self hi]) ha' hx'
        refine ⟨p', h1, ?_⟩
        have := ahead_step ord b c w p
        cases b <;> simp <;> omega
      · obtain ⟨p', h1, h2⟩ := ih (next ord w (.step k b)) p (by
          simp only [next, hwx, Bool.false_eq_true, if_false]
          cases w.tasks[k]? with
          | none => exact h
          | some t => dsimp only; rw [List.getElem?_set_ne hk]; exact h) ha' hx'
        refine ⟨p', h1, ?_⟩
        have e1 : (Move.step k b == Move.step i false) = false := by simp [hk]
        have e2 : (Move.step k b == Move.step i true) = false := by simp [hk]
        simp only [List.count_cons, e1, e2]
        simpa using h2

end CliTasks

/-- **C106** No handler waits for another one: as long as the process has not ended, the handler of a request is done
after ten steps of its own, whatever requests come and whatever the other handlers do in between, also when the
session store is found locked. -/
theorem C106_progress (ord : MapOrder) (σ : Store) (es1 es2 : List CliTasks.Move) (c : WalletApp.Call) (i : Nat)
    (hi : i = (CliTasks.run ord (CliTasks.begin σ) es1).tasks.length)
    (ha : ∀ j, CliTasks.Move.abandon j ∈ es2 → i < j)
    (hs : 10 ≤ es2.count (.step i false) + es2.count (.step i true))
    (hx : (CliTasks.run ord (CliTasks.begin σ) (es1 ++ .arrive c :: es2)).exited = false) :
    ∃ rep, (CliTasks.run ord (CliTasks.begin σ) (es1 ++ .arrive c :: es2)).tasks[i]? = some (c, .done rep) := by
  have e : ∀ w, CliTasks.run ord w (es1 ++ .arrive c :: es2) =
      CliTasks.run ord (CliTasks.next ord (CliTasks.run ord w es1) (.arrive c)) es2 := by
    intro w; simp only [CliTasks.run, List.foldl_append, List.foldl_cons]
  rw [e] at hx ⊢
  have hx1 : (CliTasks.run ord (CliTasks.begin σ) es1).exited = false := by
    cases h : (CliTasks.run ord (CliTasks.begin σ) es1).exited with
    | false => rfl
    | true =>
      have stays : ∀ (es : List CliTasks.Move) (w : CliTasks.Server), w.exited = true →
          (CliTasks.run ord w es).exited = true := by
        intro es
        induction es with
        | nil => intro w h; exact h
        | cons e es ih => intro w h; exact ih _ (by simp only [CliTasks.next, h, if_true])
      rw [stays es2 _ (by simp only [CliTasks.next, h, if_true])] at hx
      cases hx
  obtain ⟨p, h1, h2⟩ := CliTasks.ahead_run ord i c es2
    (CliTasks.next ord (CliTasks.run ord (CliTasks.begin σ) es1) (.arrive c)) _
    (by
      simp only [CliTasks.next, hx1, Bool.false_eq_true, if_false]
      rw [hi, List.getElem?_concat_length]) ha hx
  have := CliTasks.ahead_enter c
  obtain ⟨rep, rfl⟩ := CliTasks.ahead_zero (p := p) (by omega)
  exact ⟨rep, h1⟩

/-- A response whose handler takes its steps while another one retrieves the request object. -/
example (ord : MapOrder) : ∃ rep, (CliTasks.run ord (CliTasks.begin routeStore)
    ([.arrive toyAsk.2.2] ++ .arrive toyResponse.2.2 :: [.step 1 false, .step 0 false, .step 1 false, .step 1 false,
      .step 1 false, .step 1 false, .step 0 true, .step 1 false, .step 1 false, .step 1 false, .step 1 false,
      .step 1 false])).tasks[1]? = some (toyResponse.2.2, .done rep) :=
  C106_progress _ _ _ _ _ 1 rfl (by simp) (by decide) (by
    have : ∀ (es : List CliTasks.Move) (w : CliTasks.Server), w.exited = false → CliTasks.Move.exit ∉ es →
        (CliTasks.run ord w es).exited = false := by
      intro es
      induction es with
      | nil => intro w h _; exact h
      | cons e es ih =>
        intro w h hn
        refine ih _ ?_ fun h => hn (List.mem_cons_of_mem _ h)
        have hstep : ∀ b c p, (CliTasks.step ord b c w p).1.exited = w.exited := by
          intro b c p
          cases p <;> simp only [CliTasks.step] <;> repeat' split
          all_goals rfl
        cases e with
        | exit => exact absurd (List.mem_cons_self ..) hn
        | step k b =>
          simp only [CliTasks.next, h, Bool.false_eq_true, if_false]
          cases w.tasks[k]? with
          | none => exact h
          | some t => obtain ⟨c, p⟩ := t; dsimp only; rw [hstep]; exact h
        | _ => simp only [CliTasks.next, h, Bool.false_eq_true, if_false]
    exact this _ _ rfl (by simp))

end Oid4vp
