import Verif.Props.Session
/-!
# C89: which statuses the sessions of a verifier have
-/

set_option autoImplicit false

namespace Oid4vp

open Spec

/-- Built by the library: for a wallet, or for the Digital Credentials API. -/
def FromBuilder (s : Session) : Prop :=
  (∃ v b wm url, RequestBuilder.construct v b s.uuid wm = .ok (s, url)) ∨
  ∃ v b, RequestBuilder.constructDcApi v b s.uuid = .ok s

/-- **C89** A session starts as "sent", or, exactly if its request is passed by reference, as "to be
sent by reference". -/
theorem C89_initial (v : Verifier) (b : RequestBuilder) (u : Uuid) (wm : WalletMetadata) (s : Session)
    (url : Url) (h : b.construct v u wm = .ok (s, url)) :
    s.status = match v.passByReference with
      | .no => .sentRequest
      | .at _ => .sentRequestByReference := by
  have key : ∀ jwt ind st, RequestBuilder.indirection v u jwt = .ok (ind, st) →
      st = match v.passByReference with
        | .no => .sentRequest
        | .at _ => .sentRequestByReference := by
    intro jwt ind st h
    unfold RequestBuilder.indirection at h
    cases hp : v.passByReference with
    | no => rw [hp] at h; cases h; rfl
    | «at» url =>
      rw [hp] at h
      dsimp only at h
      cases hu : url.pathPush u.print with
      | none => rw [hu] at h; cases h
      | some uri => rw [hu] at h; cases h; rfl
  unfold RequestBuilder.construct at h
  repeat' split at h
  all_goals first
    | (cases h; done)
    | (cases h; exact key _ _ _ (by assumption))

/-- **C89** A session for the Digital Credentials API starts as "sent". -/
theorem C89_initial_dc_api (v : Verifier) (b : RequestBuilder) (u : Uuid) (s : Session)
    (h : b.constructDcApi v u = .ok s) : s.status = .sentRequest := by
  unfold RequestBuilder.constructDcApi at h
  repeat' split at h
  all_goals first
    | (cases h; done)
    | (cases h; rfl)

/-- No stored session is "received", and none is about to be stored so. -/
structure NoneReceived (w : World) : Prop where
  stored : ∀ u s, w.store.get u = some s → s.status ≠ .receivedResponse
  pending : ∀ s, .start (.build s) ∈ w.tasks → s.status ≠ .receivedResponse

theorem taskStep_noneReceived {b : Bool} {σ : Store} (hσ : σ.Ok) {t : Task}
    (hs : ∀ u s, σ.get u = some s → s.status ≠ .receivedResponse)
    (ht : ∀ s, t = .start (.build s) → s.status ≠ .receivedResponse) :
    (∀ u s, (taskStep b σ t).1.get u = some s → s.status ≠ .receivedResponse) ∧
    (∀ u, .polled u .receivedResponse ∉ (taskStep b σ t).2.2) ∧
    (∀ s, (taskStep b σ t).2.1 ≠ .start (.build s)) := by
  have hupd : ∀ v st, st ≠ .receivedResponse →
      ∀ u s, (σ.updateStatus b v st).1.get u = some s → s.status ≠ .receivedResponse := by
    intro v st hne u s h
    rw [updateStatus_get] at h
    split at h
    · cases hg : σ.get v with
      | none => rw [hg] at h; cases h
      | some s0 => rw [hg] at h; cases h; exact hne
    · exact hs u s h
  have hev : ∀ (v : Uuid) (ev : VEvent) (r : Res Unit), (∀ u st, ev ≠ .polled u st) →
      ∀ u, .polled u .receivedResponse ∉ [resEvent v ev r] := by
    intro v ev r hne u hm
    rw [List.mem_singleton] at hm
    rcases r with e | ⟨⟩
    · cases hm
    · exact hne _ _ hm.symm
  cases t with
  | start op =>
    cases op with
    | build s0 =>
      refine ⟨fun u s h => ?_, hev _ _ _ (by simp), fun s h => by cases h⟩
      simp only [taskStep, initiate_get] at h
      split at h
      · injection h with h; exact h ▸ ht s0 rfl
      · exact hs u s h
    | poll v =>
      refine ⟨hs, fun u h => ?_, fun s h => by cases h⟩
      simp only [taskStep, List.mem_singleton] at h
      cases hg : σ.getSession b v with
      | error e => rw [hg] at h; cases h
      | ok s0 =>
        rw [hg] at h
        injection h with h1 h2
        exact hs v s0 (getSession_ok hg) h2.symm
    | retrieve v =>
      simp only [taskStep]
      cases hg : σ.getSession b v with
      | error e => exact ⟨hs, by simp, by simp⟩
      | ok s0 => dsimp only; split <;> exact ⟨hs, by simp, by simp⟩
    | verify v r f =>
      simp only [taskStep]
      cases hg : σ.getSession b v with
      | error e => exact ⟨hs, by simp, by simp⟩
      | ok s0 => exact ⟨hs, by simp, by simp⟩
    | remove v =>
      refine ⟨fun u s h => ?_, hev _ _ _ (by simp), fun s h => by cases h⟩
      simp only [taskStep] at h
      by_cases hu : u = v
      · subst hu
        rw [removeSession_get b hσ] at h
        split at h
        · exact hs u s h
        · cases h
      · rw [removeSession_get_ne b hu] at h; exact hs u s h
  | retrieveGot v s0 =>
    rw [step_retrieveGot]
    refine ⟨hupd v _ (by simp), ?_, by simp⟩
    intro u h
    rcases hr : (σ.updateStatus b v .sentRequest).2 with e | ⟨⟩ <;> rw [hr] at h <;> simp at h
  | verifyGot v s0 r f => exact ⟨hs, by simp [taskStep], by simp [taskStep]⟩
  | verifyDone v o => exact ⟨hupd v _ (by simp), hev _ _ _ (by simp), fun s h => by cases h⟩
  | finished => exact ⟨hs, by simp [taskStep], by simp [taskStep]⟩

theorem next_noneReceived {w : World} (hσ : w.store.Ok) (hw : NoneReceived w) (x : Sched)
    (hx : ∀ s, x = .spawn (.build s) → s.status ≠ .receivedResponse) :
    NoneReceived (w.next x).1 ∧ (∀ u, .polled u .receivedResponse ∉ (w.next x).2) := by
  cases x with
  | spawn op =>
    refine ⟨⟨hw.stored, ?_⟩, by simp [World.next]⟩
    intro s h
    simp only [World.next, List.mem_append, List.mem_singleton] at h
    rcases h with h | h
    · exact hw.pending s h
    · injection h with h; exact hx s (by rw [← h])
  | abandon i =>
    exact ⟨⟨hw.stored, fun s h => hw.pending s (List.mem_of_mem_eraseIdx h)⟩, by simp [World.next]⟩
  | step i b =>
    cases hi : w.tasks[i]? with
    | none => simp only [World.next, hi]; exact ⟨hw, by simp⟩
    | some t =>
      obtain ⟨h1, h2, h3⟩ := taskStep_noneReceived (b := b) hσ hw.stored (t := t)
        (fun s hs => hw.pending s (hs ▸ List.mem_of_getElem? hi))
      simp only [World.next, hi]
      refine ⟨⟨h1, ?_⟩, h2⟩
      intro s h
      rcases List.mem_or_eq_of_mem_set h with h | h
      · exact hw.pending s h
      · exact absurd h.symm (h3 s)

theorem run_noneReceived (ss : List Sched) (w : World) (hσ : w.store.Ok) (hw : NoneReceived w)
    (hb : ∀ s, .spawn (.build s) ∈ ss → s.status ≠ .receivedResponse) :
    NoneReceived (w.run ss).1 ∧ ∀ u, .polled u .receivedResponse ∉ (w.run ss).2 := by
  induction ss generalizing w with
  | nil => exact ⟨hw, by simp [World.run]⟩
  | cons x ss ih =>
    obtain ⟨h1, h2⟩ := next_noneReceived hσ hw x (fun s hs => hb s (hs ▸ List.mem_cons_self ..))
    have hok : (w.next x).1.store.Ok := by
      cases x with
      | spawn op => exact hσ
      | abandon i => exact hσ
      | step i b =>
        simp only [World.next]
        cases hi : w.tasks[i]? with
        | none => exact hσ
        | some t => exact taskStep_ok hσ b t
    obtain ⟨h3, h4⟩ := ih (w.next x).1 hok h1 (fun s hs => hb s (List.mem_cons_of_mem _ hs))
    refine ⟨h3, fun u h => ?_⟩
    simp only [World.run, List.mem_append] at h
    rcases h with h | h
    · exact h2 u h
    · exact h4 u h

/-- **C89** Under every interleaving, if the sessions are those the library builds, no session ever
has the status "received" and no poll reports it. -/
theorem C89_never_received (ss : List Sched) (hb : ∀ s, .spawn (.build s) ∈ ss → FromBuilder s) :
    (∀ u s, (World.run ⟨[], []⟩ ss).1.store.get u = some s →
      s.status = .sentRequestByReference ∨ s.status = .sentRequest ∨ ∃ o, s.status = .complete o) ∧
    ∀ u, .polled u .receivedResponse ∉ (World.run ⟨[], []⟩ ss).2 := by
  have hb' : ∀ s, .spawn (.build s) ∈ ss → s.status ≠ .receivedResponse := by
    intro s hs
    rcases hb s hs with ⟨v, b, wm, url, h⟩ | ⟨v, b, h⟩
    · rw [C89_initial v b _ wm s url h]; cases v.passByReference <;> simp
    · rw [C89_initial_dc_api v b _ s h]; simp
  obtain ⟨h1, h2⟩ := run_noneReceived ss ⟨[], []⟩ List.nodup_nil
    ⟨(fun _ _ h => nomatch h), (fun _ h => nomatch h)⟩ hb'
  refine ⟨fun u s h => ?_, h2⟩
  have := h1.stored u s h
  cases hst : s.status with
  | sentRequestByReference => exact .inl rfl
  | sentRequest => exact .inr (.inl rfl)
  | receivedResponse => exact absurd hst this
  | complete o => exact .inr (.inr ⟨o, rfl⟩)

-- a session the library builds
example : ∃ s, FromBuilder s ∧ s.uuid = buildId 7 ∧ s.status = .sentRequestByReference := by
  cases h : RequestBuilder.construct (buildVerifier (.at buildBase)) buildRequest (buildId 7) buildWallet with
  | error e => cases h
  | ok p =>
    obtain ⟨s, url⟩ := p
    have hu : s.uuid = buildId 7 := by cases h; rfl
    have hst : s.status = .sentRequestByReference := by cases h; rfl
    exact ⟨s, .inl ⟨_, _, _, url, by rw [hu]; exact h⟩, hu, hst⟩

-- such a session goes from "by reference" to "sent" to "complete"
example :
    (World.run ⟨[], []⟩ [.spawn (.build (sessionSample 7 .sentRequestByReference)), .step 0 false,
      .spawn (.poll (buildId 7)), .step 1 false, .spawn (.retrieve (buildId 7)), .step 2 false,
      .step 2 false, .spawn (.poll (buildId 7)), .step 3 false,
      .spawn (.verify (buildId 7) responseSample refuseAll), .step 4 false, .step 4 false,
      .step 4 false, .spawn (.poll (buildId 7)), .step 5 false]).2 =
      [.initiated (sessionSample 7 .sentRequestByReference),
        .polled (buildId 7) .sentRequestByReference, .statusSet (buildId 7) .sentRequest,
        .retrieved (buildId 7) c!"a.b.c", .polled (buildId 7) .sentRequest,
        .validated (buildId 7) (sessionSample 7 .sentRequest) responseSample (.failure c!"no"),
        .statusSet (buildId 7) (.complete (.failure c!"no")),
        .polled (buildId 7) (.complete (.failure c!"no"))] := rfl

end Oid4vp
