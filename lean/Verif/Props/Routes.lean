import Verif.Lemmas.Uuid
import Verif.Props.Session
import Verif.Props.Response
import Verif.Spec.Routes
/-!
# C60, C61: the routes of the example verifier
-/

set_option autoImplicit false

namespace Oid4vp
open Spec Example

theorem noUuid_iff {session : Str} : Uuid.parse session = none ↔ NoUuid session := by
  unfold NoUuid
  constructor
  · intro h u hu
    rw [Uuid.parse_iff.2 hu] at h; cases h
  · intro h
    cases hp : Uuid.parse session with
    | none => rfl
    | some u => exact absurd (Uuid.parse_iff.1 hp) (h u)

theorem uuidText_unique {s : Str} {u v : Uuid} (h : UuidText s u) (h' : UuidText s v) : u = v := by
  have := Uuid.parse_iff.2 h
  rw [Uuid.parse_iff.2 h'] at this
  exact (Option.some.inj this).symm

theorem utf8Dec_none {b : Bytes} : utf8Dec b = none ↔ ∀ t, b ≠ utf8 t := by
  constructor
  · rintro h t rfl
    rw [utf8Dec_utf8] at h; cases h
  · intro h
    cases hd : utf8Dec b with
    | none => rfl
    | some t => exact absurd (utf8Dec_eq_some.1 hd) (h t)

/-! ## C60 -/

/-- **C60** A path segment is read as a session id exactly if it is one of the texts of that id; the
text written into URLs is the hyphenated one in small letters. -/
theorem C60_session_id (session : Str) (u : Uuid) :
    (Uuid.parse session = some u ↔ UuidText session u) ∧
    (∃ a b c d e, UuidGroups a b c d e u ∧ u.print = hyphened a b c d e ∧
      ∀ x ∈ a ++ b ++ c ++ d ++ e, x ∈ c!"0123456789abcdef") :=
  ⟨Uuid.parse_iff, u.print_groups⟩

/-- A URN with digits of both cases. -/
example : Uuid.parse c!"urn:uuid:00000000-0000-0000-0000-0000000000Fa" = some ⟨⟨250, by decide⟩⟩ ∧
    Uuid.print ⟨⟨250, by decide⟩⟩ = c!"00000000-0000-0000-0000-0000000000fa" := by decide +kernel

/-- **C60** The answer to a request for a request object: 400 exactly if the path names no session id,
404 exactly if there is no such session, otherwise 200 with exactly the stored JWT. -/
theorem C60_fetch_answer (session : Str) (σ : Store) (n : Nat) (body : Option Str) :
    (getRequest session σ).2 = (n, body) ↔
      (NoUuid session ∧ n = 400 ∧ body = none) ∨
      (Unknown σ session ∧ n = 404 ∧ body = none) ∨
      (∃ u s, Known σ session u s ∧ n = 200 ∧ body = some s.jwt) := by
  cases hp : Uuid.parse session with
  | none =>
    have hn := noUuid_iff.1 hp
    have h1 : ¬Unknown σ session := fun ⟨u, hu, _⟩ => hn u hu
    have h2 : ¬∃ u s, Known σ session u s ∧ n = 200 ∧ body = some s.jwt :=
      fun ⟨u, s, hu, _⟩ => hn u hu.1
    simp only [getRequest, hp, Prod.mk.injEq, hn, h1, h2, true_and, false_and, or_false]
    constructor <;> rintro ⟨rfl, rfl⟩ <;> exact ⟨rfl, rfl⟩
  | some u =>
    have hu := Uuid.parse_iff.1 hp
    have hn : ¬NoUuid session := fun h => h u hu
    cases hg : σ.get u with
    | none =>
      have hk : Unknown σ session := ⟨u, hu, hg⟩
      have h2 : ¬∃ u s, Known σ session u s ∧ n = 200 ∧ body = some s.jwt := by
        rintro ⟨v, s, ⟨hv, hs⟩, _⟩
        rw [uuidText_unique hv hu, hg] at hs; cases hs
      simp only [getRequest, hp, retrieve, Store.getSession, Bool.false_eq_true, if_false, hg,
        Prod.mk.injEq, hn, hk, h2, true_and, false_and, or_false, false_or]
      constructor <;> rintro ⟨rfl, rfl⟩ <;> exact ⟨rfl, rfl⟩
    | some s =>
      have hk : ¬Unknown σ session := by
        rintro ⟨v, hv, hs⟩
        rw [uuidText_unique hv hu, hg] at hs; cases hs
      have h2 : (∃ u s, Known σ session u s ∧ n = 200 ∧ body = some s.jwt) ↔
          n = 200 ∧ body = some s.jwt := by
        constructor
        · rintro ⟨v, s', ⟨hv, hs⟩, h⟩
          rw [uuidText_unique hv hu, hg] at hs
          cases hs; exact h
        · intro h; exact ⟨u, s, ⟨hu, hg⟩, h⟩
      simp only [getRequest, hp, retrieve, Store.getSession, Bool.false_eq_true, if_false, hg,
        Store.updateStatus, hn, hk, h2, false_and, false_or]
      split <;> rename_i hh <;> split at hh <;> simp only [Prod.mk.injEq] at hh ⊢
      · obtain ⟨-, hh⟩ := hh; cases hh
      · obtain ⟨-, hh⟩ := hh; cases hh
      · obtain ⟨-, hh⟩ := hh
        simp only [Except.ok.injEq] at hh
        subst hh
        constructor <;> rintro ⟨rfl, rfl⟩ <;> exact ⟨rfl, rfl⟩
      · obtain ⟨-, hh⟩ := hh
        simp only [Except.ok.injEq] at hh
        subst hh
        constructor <;> rintro ⟨rfl, rfl⟩ <;> exact ⟨rfl, rfl⟩

/-- **C60** Fetching a request object changes nothing but the status of that session, from "sent by
reference" to "sent". -/
theorem C60_fetch_effect (session : Str) (σ : Store) :
    (∀ u s, Known σ session u s → s.status = .sentRequestByReference →
      Became σ (getRequest session σ).1 u { s with status := .sentRequest }) ∧
    ((∀ u s, Known σ session u s → s.status ≠ .sentRequestByReference) →
      Unchanged σ (getRequest session σ).1) := by
  have hlt : ∀ st : Status, st.lt .sentRequest = true ↔ st = .sentRequestByReference := by
    intro st
    cases st with
    | complete o => simp [Status.lt, Status.partialCmp, Status.variant]; decide
    | _ => decide
  constructor
  · rintro u s ⟨hu, hs⟩ hst
    have hp := Uuid.parse_iff.2 hu
    have hl := (hlt s.status).2 hst
    simp only [getRequest, hp, retrieve, Store.getSession, Bool.false_eq_true, if_false, hs, hl, if_true,
      Store.updateStatus]
    constructor
    · simp [Store.get_insert]
    · intro v hv; simp [Store.get_insert, hv]
  · intro h v
    cases hp : Uuid.parse session with
    | none => simp [getRequest, hp]
    | some u =>
      cases hg : σ.get u with
      | none => simp [getRequest, hp, retrieve, Store.getSession, hg]
      | some s =>
        have := h u s ⟨Uuid.parse_iff.1 hp, hg⟩
        have hl : s.status.lt .sentRequest = false := by
          rw [← Bool.not_eq_true, hlt]; exact this
        simp [getRequest, hp, retrieve, Store.getSession, hg, hl]

/-- **C60** A response is answered with 200 exactly if the path names a stored session and the body is
a response; then that session is complete with the validator's outcome, and nothing else changes. In
every other case nothing changes. -/
theorem C60_respond (f : Validator) (session : Str) (body : Bytes) (σ : Store) :
    ((postResponse f session body σ).2 = 200 ↔ ∃ u s r, Known σ session u s ∧ Carries body r) ∧
    (∀ u s r, Known σ session u s → Carries body r →
      Became σ (postResponse f session body σ).1 u { s with status := .complete (f s r) }) ∧
    ((postResponse f session body σ).2 ≠ 200 → (postResponse f session body σ).1 = σ) := by
  cases hd : utf8Dec body with
  | none =>
    have hc : ∀ r, ¬Carries body r := fun r hr => by
      obtain ⟨⟨t, ht⟩, -⟩ := hr
      exact utf8Dec_none.1 hd t ht
    simp [postResponse, hd, hc]
  | some t =>
    have ht := utf8Dec_eq_some.1 hd
    cases hp : Uuid.parse session with
    | none =>
      have hn := noUuid_iff.1 hp
      have hk : ∀ u s, ¬Known σ session u s := fun u s h => hn u h.1
      simp [postResponse, hd, hp, hk]
    | some u =>
      have hu := Uuid.parse_iff.1 hp
      cases hr : AuthorizationResponse.ofForm body with
      | error e =>
        have hc : ∀ r, ¬Carries body r := fun r h => by have := h.2; rw [hr] at this; cases this
        simp [postResponse, hd, hp, hr, hc]
      | ok r =>
        cases hg : σ.get u with
        | none =>
          have hk : ∀ v s, ¬Known σ session v s := by
            rintro v s ⟨hv, hs⟩
            rw [uuidText_unique hv hu, hg] at hs; cases hs
          simp [postResponse, hd, hp, hr, verifyResponse, Store.getSession, hg, hk]
        | some s =>
          simp only [postResponse, hd, hp, hr, verifyResponse, Store.getSession, hg, Bool.false_eq_true,
            if_false, Store.updateStatus, true_iff, ne_eq, not_true_eq_false, false_implies, and_true]
          refine ⟨⟨u, s, r, ⟨hu, hg⟩, ⟨t, ht⟩, hr⟩, ?_⟩
          rintro v s' r' ⟨hv, hs⟩ ⟨-, hr'⟩
          have := uuidText_unique hv hu
          subst this
          rw [hg] at hs; cases hs
          rw [hr] at hr'; cases hr'
          constructor
          · simp [Store.get_insert]
          · intro v hv; simp [Store.get_insert, hv]

/-- **C60** A refused response: 400 exactly if the path names no session id or the body is no response,
otherwise 500. -/
theorem C60_respond_refused (f : Validator) (session : Str) (body : Bytes) (σ : Store) :
    ((postResponse f session body σ).2 = 400 ↔ NoUuid session ∨ ∀ r, ¬Carries body r) ∧
    ((postResponse f session body σ).2 = 500 ↔ Unknown σ session ∧ ∃ r, Carries body r) := by
  cases hd : utf8Dec body with
  | none =>
    have hc : ∀ r, ¬Carries body r := fun r hr => by
      obtain ⟨⟨t, ht⟩, -⟩ := hr
      exact utf8Dec_none.1 hd t ht
    simp [postResponse, hd, hc]
  | some t =>
    have ht := utf8Dec_eq_some.1 hd
    cases hp : Uuid.parse session with
    | none =>
      have hn := noUuid_iff.1 hp
      have hk : ¬Unknown σ session := fun ⟨u, hu, _⟩ => hn u hu
      simp [postResponse, hd, hp, hn, hk]
    | some u =>
      have hu := Uuid.parse_iff.1 hp
      have hn : ¬NoUuid session := fun h => h u hu
      cases hr : AuthorizationResponse.ofForm body with
      | error e =>
        have hc : ∀ r, ¬Carries body r := fun r h => by have := h.2; rw [hr] at this; cases this
        simp [postResponse, hd, hp, hr, hc]
      | ok r =>
        have hc : Carries body r := ⟨⟨t, ht⟩, hr⟩
        have hc' : ¬∀ r, ¬Carries body r := fun h => h r hc
        cases hg : σ.get u with
        | none =>
          have hk : Unknown σ session := ⟨u, hu, hg⟩
          simp [postResponse, hd, hp, hr, verifyResponse, Store.getSession, hg, hk, hn, hc']
          exact ⟨r, hc⟩
        | some s =>
          have hk : ¬Unknown σ session := by
            rintro ⟨v, hv, hs⟩
            rw [uuidText_unique hv hu, hg] at hs; cases hs
          simp [postResponse, hd, hp, hr, verifyResponse, Store.getSession, hg, hk, hn, hc',
            Store.updateStatus]

/-- **C60** The answer to a status request: 400, 404, or 200 with the stored status. -/
theorem C60_status_answer (session : Str) (σ : Store) (n : Nat) (st : Option Status) :
    getStatus session σ = (n, st) ↔
      (NoUuid session ∧ n = 400 ∧ st = none) ∨
      (Unknown σ session ∧ n = 404 ∧ st = none) ∨
      (∃ u s, Known σ session u s ∧ n = 200 ∧ st = some s.status) := by
  cases hp : Uuid.parse session with
  | none =>
    have hn := noUuid_iff.1 hp
    have h1 : ¬Unknown σ session := fun ⟨u, hu, _⟩ => hn u hu
    have h2 : ∀ u s, ¬Known σ session u s := fun u s hu => hn u hu.1
    simp only [getStatus, hp, Prod.mk.injEq, hn, h1, h2, true_and, false_and, or_false, exists_false]
    constructor <;> rintro ⟨rfl, rfl⟩ <;> exact ⟨rfl, rfl⟩
  | some u =>
    have hu := Uuid.parse_iff.1 hp
    have hn : ¬NoUuid session := fun h => h u hu
    cases hg : σ.get u with
    | none =>
      have hk : Unknown σ session := ⟨u, hu, hg⟩
      have h2 : ∀ v s, ¬Known σ session v s := by
        rintro v s ⟨hv, hs⟩
        rw [uuidText_unique hv hu, hg] at hs; cases hs
      simp only [getStatus, hp, pollStatus, Store.getSession, Bool.false_eq_true, if_false, hg, Except.map,
        Prod.mk.injEq, hn, hk, h2, true_and, false_and, or_false, false_or, exists_false]
      constructor <;> rintro ⟨rfl, rfl⟩ <;> exact ⟨rfl, rfl⟩
    | some s =>
      have hk : ¬Unknown σ session := by
        rintro ⟨v, hv, hs⟩
        rw [uuidText_unique hv hu, hg] at hs; cases hs
      have h2 : (∃ u s, Known σ session u s ∧ n = 200 ∧ st = some s.status) ↔
          n = 200 ∧ st = some s.status := by
        constructor
        · rintro ⟨v, s', ⟨hv, hs⟩, h⟩
          rw [uuidText_unique hv hu, hg] at hs
          cases hs; exact h
        · intro h; exact ⟨u, s, ⟨hu, hg⟩, h⟩
      simp only [getStatus, hp, pollStatus, Store.getSession, Bool.false_eq_true, if_false, hg, Except.map,
        Prod.mk.injEq, hn, hk, h2, false_and, false_or]
      constructor <;> rintro ⟨rfl, rfl⟩ <;> exact ⟨rfl, rfl⟩

open VerifierApp in
theorem serve_append (app : App) (σ : Store) (cs cs' : List Call) :
    serve app σ (cs ++ cs') = serve app (serve app σ cs) cs' := by
  induction cs generalizing σ with
  | nil => rfl
  | cons c cs ih => cases c <;> simp only [List.cons_append, serve, ih]

theorem get_of_unchanged_or {σ σ' : Store} {u : Uuid} (h : σ' = σ) : σ'.get u = σ.get u := by rw [h]

theorem respond_none {app : VerifierApp.App} {session : Str} {b : Bytes} {σ : Store} {u : Uuid}
    (h : ∀ r, ¬Delivers u r (.respond session b)) :
    (VerifierApp.receive app session b σ).1.get u = σ.get u := by
  obtain ⟨h1, h2, h3⟩ := C60_respond (VerifierApp.validator app.decrypt) session b σ
  by_cases hc : (postResponse (VerifierApp.validator app.decrypt) session b σ).2 = 200
  · obtain ⟨v, s, r, hk, hr⟩ := h1.1 hc
    have hne : u ≠ v := by
      rintro rfl
      exact h r ⟨hk.1, hr⟩
    exact (h2 v s r hk hr).2 u hne
  · exact get_of_unchanged_or (h3 hc)

theorem respond_some {app : VerifierApp.App} {session : Str} {b : Bytes} {σ : Store} {u : Uuid}
    {r : AuthorizationResponse} {s : Session} (h : Delivers u r (.respond session b))
    (hs : σ.get u = some s) :
    (VerifierApp.receive app session b σ).1.get u =
      some { s with status := .complete (VerifierApp.validator app.decrypt s r) } :=
  ((C60_respond (VerifierApp.validator app.decrypt) session b σ).2.1 u s r ⟨h.1, hs⟩ h.2).1

theorem fetch_other {session : Str} {σ : Store} {u : Uuid} (h : ¬UuidText session u) :
    (getRequest session σ).1.get u = σ.get u := by
  obtain ⟨h1, h2⟩ := C60_fetch_effect session σ
  by_cases hk : ∃ v s, Known σ session v s ∧ s.status = .sentRequestByReference
  · obtain ⟨v, s, hk, hs⟩ := hk
    refine (h1 v s hk hs).2 u ?_
    rintro rfl
    exact h hk.1
  · exact h2 (fun v s hv hs => hk ⟨v, s, hv, hs⟩) u

theorem fetch_same {session : Str} {σ : Store} {u : Uuid} {s : Session} (h : UuidText session u)
    (hs : σ.get u = some s) : (getRequest session σ).1.get u =
      some { s with status := if s.status = .sentRequestByReference then .sentRequest else s.status } := by
  obtain ⟨h1, h2⟩ := C60_fetch_effect session σ
  by_cases hst : s.status = .sentRequestByReference
  · rw [if_pos hst]
    exact (h1 u s ⟨h, hs⟩ hst).1
  · rw [if_neg hst, h2 ?_ u, hs]
    intro v s' hv
    rw [uuidText_unique hv.1 h] at hv
    have := hv.2
    rw [hs] at this
    cases this
    exact hst

/-- What a call does to one session. -/
theorem call_effect (app : VerifierApp.App) (σ : Store) (c : VerifierApp.Call) (u : Uuid) (s : Session)
    (hs : σ.get u = some s) : ∃ st, (VerifierApp.serve app σ [c]).get u = some { s with status := st } := by
  cases c with
  | status t => exact ⟨s.status, hs⟩
  | fetch t =>
    by_cases h : UuidText t u
    · exact ⟨_, fetch_same h hs⟩
    · exact ⟨s.status, (fetch_other h).trans hs⟩
  | respond t b =>
    by_cases h : ∃ r, Delivers u r (.respond t b)
    · obtain ⟨r, h⟩ := h
      exact ⟨_, respond_some h hs⟩
    · exact ⟨s.status, (respond_none fun r hr => h ⟨r, hr⟩).trans hs⟩

/-- **C60** No history of calls loses a session or alters its request. -/
theorem C60_sessions_kept (app : VerifierApp.App) (cs : List VerifierApp.Call) (σ : Store) (u : Uuid)
    (s : Session) (hs : σ.get u = some s) : ∃ st, (VerifierApp.serve app σ cs).get u = some { s with status := st } := by
  induction cs generalizing σ s with
  | nil => exact ⟨s.status, hs⟩
  | cons c cs ih =>
    obtain ⟨st₁, h₁⟩ := call_effect app σ c u s hs
    obtain ⟨st₂, h₂⟩ := ih _ _ h₁
    refine ⟨st₂, ?_⟩
    rw [← serve_append] at h₂
    exact h₂

/-- **C60** No history of calls makes a session. -/
theorem C60_sessions_not_invented (app : VerifierApp.App) (cs : List VerifierApp.Call) (σ : Store)
    (u : Uuid) (hs : σ.get u = none) : (VerifierApp.serve app σ cs).get u = none := by
  induction cs generalizing σ with
  | nil => exact hs
  | cons c cs ih =>
    cases c with
    | status t => exact ih σ hs
    | fetch t =>
      refine ih _ ?_
      obtain ⟨h1, h2⟩ := C60_fetch_effect t σ
      by_cases hk : ∃ v s, Known σ t v s ∧ s.status = .sentRequestByReference
      · obtain ⟨v, s, hk, hst⟩ := hk
        rw [(h1 v s hk hst).2 u ?_, hs]
        rintro rfl
        rw [hk.2] at hs; cases hs
      · rw [h2 (fun v s hv hs => hk ⟨v, s, hv, hs⟩) u, hs]
    | respond t b =>
      refine ih _ ?_
      obtain ⟨h1, h2, h3⟩ := C60_respond (VerifierApp.validator app.decrypt) t b σ
      by_cases hc : (postResponse (VerifierApp.validator app.decrypt) t b σ).2 = 200
      · obtain ⟨v, s, r, hk, hr⟩ := h1.1 hc
        refine ((h2 v s r hk hr).2 u ?_).trans hs
        rintro rfl
        rw [hk.2] at hs; cases hs
      · exact (get_of_unchanged_or (h3 hc)).trans hs

theorem serve_cons (app : VerifierApp.App) (σ : Store) (c : VerifierApp.Call) (cs : List VerifierApp.Call) :
    VerifierApp.serve app σ (c :: cs) = VerifierApp.serve app (VerifierApp.serve app σ [c]) cs :=
  serve_append app σ [c] cs

theorem serve_noneDelivered {app : VerifierApp.App} {cs : List VerifierApp.Call} {u : Uuid}
    (hn : NoneDelivered u cs) {σ : Store} {s : Session} (hs : σ.get u = some s) :
    (VerifierApp.serve app σ cs).get u = some s ∧ (∀ c ∈ cs, ¬Fetches u c) ∨
    (VerifierApp.serve app σ cs).get u = some
      { s with status := if s.status = .sentRequestByReference then .sentRequest else s.status } ∧
      ∃ c ∈ cs, Fetches u c := by
  induction cs generalizing σ s with
  | nil => exact .inl ⟨hs, by simp⟩
  | cons c cs ih =>
    have hn' : NoneDelivered u cs := fun c hc => hn c (List.mem_cons_of_mem _ hc)
    have same : (VerifierApp.serve app σ [c]).get u = some s → ¬Fetches u c →
        (VerifierApp.serve app σ (c :: cs)).get u = some s ∧ (∀ c' ∈ c :: cs, ¬Fetches u c') ∨
        (VerifierApp.serve app σ (c :: cs)).get u = some
          { s with status := if s.status = .sentRequestByReference then .sentRequest else s.status } ∧
          ∃ c' ∈ c :: cs, Fetches u c' := by
      intro h1 h2
      rw [serve_cons]
      rcases ih hn' h1 with ⟨a, b⟩ | ⟨a, b, hb, hf⟩
      · exact .inl ⟨a, List.forall_mem_cons.2 ⟨h2, b⟩⟩
      · exact .inr ⟨a, b, List.mem_cons_of_mem _ hb, hf⟩
    cases c with
    | status t => exact same hs (by simp [Fetches])
    | respond t b =>
      exact same ((respond_none (hn _ List.mem_cons_self)).trans hs) (by simp [Fetches])
    | fetch t =>
      by_cases h : UuidText t u
      · refine .inr ⟨?_, _, List.mem_cons_self, h⟩
        rw [serve_cons]
        rcases ih hn' (fetch_same h hs) with ⟨a, -⟩ | ⟨a, -⟩
        · exact a
        · refine a.trans ?_
          by_cases hst : s.status = .sentRequestByReference
          · simp [hst]
          · simp [hst]
      · exact same ((fetch_other h).trans hs) h

/-- **C60** After any history of calls that delivers responses for a session, its status is the
outcome for the last one of them. -/
theorem C60_last_response_decides (app : VerifierApp.App) (cs : List VerifierApp.Call) (σ : Store)
    (u : Uuid) (s : Session) (hs : σ.get u = some s) (r : AuthorizationResponse)
    (hr : LastDelivered u r cs) : ∃ s', (VerifierApp.serve app σ cs).get u = some s' ∧
      s'.status = .complete (VerifierApp.validator app.decrypt s r) := by
  obtain ⟨pre, c, post, rfl, hd, hpost⟩ := hr
  obtain ⟨st₁, h₁⟩ := C60_sessions_kept app pre σ u s hs
  rw [serve_append, serve_cons]
  cases c with
  | status t => exact hd.elim
  | fetch t => exact hd.elim
  | respond t b =>
    have h₂ : (VerifierApp.serve app (VerifierApp.serve app σ pre) [.respond t b]).get u = _ :=
      respond_some hd h₁
    rcases serve_noneDelivered (app := app) hpost h₂ with ⟨a, -⟩ | ⟨a, -⟩
    · exact ⟨_, a, rfl⟩
    · refine ⟨_, a, ?_⟩
      simp only [reduceCtorEq, if_false]
      rfl

/-- **C60** After any history of calls that delivers no response for a session, the session is as it
was, except that one sent by reference has been sent if and only if its request was fetched. -/
theorem C60_no_response (app : VerifierApp.App) (cs : List VerifierApp.Call) (σ : Store)
    (u : Uuid) (s : Session) (hs : σ.get u = some s) (hn : NoneDelivered u cs) :
    (s.status = .sentRequestByReference ∧ (∃ c ∈ cs, Fetches u c) →
      (VerifierApp.serve app σ cs).get u = some { s with status := .sentRequest }) ∧
    (¬(s.status = .sentRequestByReference ∧ ∃ c ∈ cs, Fetches u c) →
      (VerifierApp.serve app σ cs).get u = some s) := by
  rcases serve_noneDelivered (app := app) hn hs with ⟨a, b⟩ | ⟨a, b⟩
  · refine ⟨?_, fun _ => a⟩
    rintro ⟨-, c, hc, hf⟩
    exact absurd hf (b c hc)
  · constructor
    · rintro ⟨h, -⟩
      rw [a, if_pos h]
    · intro h
      rw [a, if_neg fun h' => h ⟨h', b⟩]

/-- A store with one session, for the examples. -/
def routeStore : Store := Store.insert (buildId 5) (sessionSample 5 .sentRequestByReference) []

/-- The id of that session as text. -/
def routeId : Str := c!"00000000-0000-0000-0000-000000000005"

theorem routeId_text : UuidText routeId (buildId 5) := Uuid.parse_iff.1 (by decide +kernel)

theorem routeKnown : Known routeStore routeId (buildId 5) (sessionSample 5 .sentRequestByReference) :=
  ⟨routeId_text, by decide +kernel⟩

/-- A fetch, two responses in different spellings of the id, an unreadable response, and a status. -/
def routeCalls : List VerifierApp.Call :=
  [.fetch routeId, .respond c!"{00000000-0000-0000-0000-000000000005}" (utf8 c!"response=abc"),
   .respond c!"00000000000000000000000000000005" (utf8 c!"vp_token=%7B%22q%22%3A%5B%22x%22%5D%7D"),
   .respond routeId (utf8 c!"nonsense"), .status routeId]

theorem routeCalls_last :
    LastDelivered (buildId 5) (.unencoded ⟨⟨[(c!"q", [.string c!"x"])]⟩, none⟩) routeCalls := by
  refine ⟨routeCalls.take 2, _, _, rfl, ⟨Uuid.parse_iff.1 (by decide +kernel), ⟨_, rfl⟩, by decide +kernel⟩, ?_⟩
  intro c hc r hd
  simp only [List.mem_cons, List.not_mem_nil, or_false] at hc
  rcases hc with rfl | rfl
  · have h := hd.2.2
    rw [show AuthorizationResponse.ofForm (utf8 c!"nonsense") = .error .missing by decide +kernel] at h
    cases h
  · exact hd

/-- Known, unknown and malformed ids. -/
example : (∃ s, Known routeStore routeId (buildId 5) s) ∧
    Unknown routeStore c!"00000000-0000-0000-0000-00000000000A" ∧
    NoUuid c!"00000000-0000-0000-0000-00000000000g" :=
  ⟨⟨_, routeKnown⟩, ⟨buildId 10, Uuid.parse_iff.1 (by decide +kernel), by decide +kernel⟩,
    noUuid_iff.1 (by decide +kernel)⟩

/-! ## C61 -/

/-- **C61** Different statuses are reported by different documents. -/
theorem C61_status_documents_distinct (a b : Status)
    (h : VerifierApp.statusJson a = VerifierApp.statusJson b) : a = b := by
  cases a with
  | complete o =>
    cases b with
    | complete o' => cases o <;> cases o' <;> simp_all [VerifierApp.statusJson]
    | _ => cases o <;> simp_all [VerifierApp.statusJson]
  | _ =>
    cases b with
    | complete o' => cases o' <;> simp_all [VerifierApp.statusJson]
    | _ => simp_all [VerifierApp.statusJson]

theorem status_of_get {session : Str} {u : Uuid} {σ : Store} {s : Session} (h : UuidText session u)
    (hs : σ.get u = some s) :
    VerifierApp.status session σ = (200, some (VerifierApp.statusJson s.status)) := by
  have := (C60_status_answer session σ 200 (some s.status)).2 (.inr (.inr ⟨u, s, ⟨h, hs⟩, rfl, rfl⟩))
  simp only [VerifierApp.status, this, Option.map_some]

/-- **C61** A status request before any response reports that the session waits. -/
theorem C61_waiting_reported (app : VerifierApp.App) (cs : List VerifierApp.Call) (σ : Store)
    (session : Str) (u : Uuid) (s : Session) (hk : Known σ session u s)
    (hst : s.status = .sentRequestByReference) (hn : NoneDelivered u cs) :
    ∃ doc, VerifierApp.status session (VerifierApp.serve app σ cs) = (200, some doc) ∧
      ((∃ c ∈ cs, Fetches u c) → Member doc c!"status" (.str c!"sent_request")) ∧
      ((∀ c ∈ cs, ¬Fetches u c) → Member doc c!"status" (.str c!"sent_request_by_reference")) := by
  obtain ⟨h1, h2⟩ := C60_no_response app cs σ u s hk.2 hn
  by_cases hf : ∃ c ∈ cs, Fetches u c
  · refine ⟨_, status_of_get hk.1 (h1 ⟨hst, hf⟩), fun _ => ⟨_, rfl, by decide⟩, fun h => ?_⟩
    obtain ⟨c, hc, hf⟩ := hf
    exact absurd hf (h c hc)
  · refine ⟨_, status_of_get hk.1 (h2 fun h => hf h.2), fun h => absurd h hf, fun _ => ?_⟩
    rw [hst]
    exact ⟨_, rfl, by decide⟩

/-- **C61** After any history of calls whose last response for the session is a plain one, the status
document reports success and the number of its query ids. -/
theorem C61_plain_reported (app : VerifierApp.App) (cs : List VerifierApp.Call) (σ : Store)
    (session : Str) (u : Uuid) (s : Session) (hk : Known σ session u s) (r : UnencodedResponse)
    (hr : LastDelivered u (.unencoded r) cs) :
    ∃ doc, VerifierApp.status session (VerifierApp.serve app σ cs) = (200, some doc) ∧
      ReportsPlain doc r.vpToken.map.length := by
  obtain ⟨s', hs', hst⟩ := C60_last_response_decides app cs σ u s hk.2 _ hr
  refine ⟨_, status_of_get hk.1 hs', ?_⟩
  rw [hst]
  exact ⟨⟨⟨_, rfl, rfl⟩, ⟨_, rfl, rfl⟩⟩, _, ⟨_, rfl, rfl⟩, ⟨_, rfl, rfl⟩⟩

/-- The history above ends with such a document. -/
example (app : VerifierApp.App) : ∃ doc,
    VerifierApp.status c!"urn:uuid:00000000-0000-0000-0000-000000000005"
      (VerifierApp.serve app routeStore routeCalls) = (200, some doc) ∧ ReportsPlain doc 1 :=
  C61_plain_reported app routeCalls routeStore _ (buildId 5) _
    ⟨Uuid.parse_iff.1 (by decide +kernel), routeKnown.2⟩ _ routeCalls_last

/-- The first two calls only: an encrypted response. -/
example : LastDelivered (buildId 5) (.jwt c!"abc") (routeCalls.take 2) :=
  ⟨routeCalls.take 1, _, [], rfl, ⟨Uuid.parse_iff.1 (by decide +kernel), ⟨_, rfl⟩, by decide +kernel⟩,
    by simp⟩

/-- The first call only: no response, but the request was fetched. -/
example : NoneDelivered (buildId 5) (routeCalls.take 1) ∧
    ∃ c ∈ routeCalls.take 1, Fetches (buildId 5) c := by
  constructor
  · intro c hc r hd
    simp only [routeCalls, List.take, List.mem_cons, List.not_mem_nil, or_false] at hc
    subst hc
    exact hd
  · exact ⟨_, List.mem_cons_self, routeId_text⟩

/-- **C61** After any history of calls whose last response for the session is an encrypted one, the
status document reports success with the decrypted content, exactly if decryption gives JSON;
otherwise it reports an error. -/
theorem C61_encrypted_reported (app : VerifierApp.App) (cs : List VerifierApp.Call) (σ : Store)
    (session : Str) (u : Uuid) (s : Session) (hk : Known σ session u s) (jwe : Str)
    (hr : LastDelivered u (.jwt jwe) cs) :
    ∃ doc, VerifierApp.status session (VerifierApp.serve app σ cs) = (200, some doc) ∧
      (∀ b j, app.decrypt jwe = .ok b → jParseBytes b = .ok j → ReportsEncrypted doc j) ∧
      ((∀ b j, app.decrypt jwe = .ok b → jParseBytes b ≠ .ok j) → Completed doc c!"error") := by
  obtain ⟨s', hs', hst⟩ := C60_last_response_decides app cs σ u s hk.2 _ hr
  refine ⟨_, status_of_get hk.1 hs', ?_, ?_⟩
  · intro b j hb hj
    rw [hst]
    simp only [VerifierApp.validator, VerifierApp.decryptJwe, hb, hj]
    exact ⟨⟨⟨_, rfl, rfl⟩, ⟨_, rfl, rfl⟩⟩, _, ⟨_, rfl, rfl⟩, ⟨_, rfl, rfl⟩⟩
  · intro h
    have : ∃ e, VerifierApp.decryptJwe app.decrypt jwe = .error e := by
      unfold VerifierApp.decryptJwe
      cases hb : app.decrypt jwe with
      | error e => exact ⟨e, rfl⟩
      | ok b =>
        cases hj : jParseBytes b with
        | error e => exact ⟨e, hj⟩
        | ok j => exact absurd hj (h b j hb)
    obtain ⟨e, he⟩ := this
    rw [hst]
    simp only [VerifierApp.validator, he]
    exact ⟨⟨_, rfl, rfl⟩, ⟨_, rfl, rfl⟩⟩

/-- **C61** A gap of the example, stated as it is: an empty response is reported as a success for every
session, whatever was requested. -/
theorem C61_empty_response_accepted (app : VerifierApp.App) (σ : Store) (session : Str) (u : Uuid)
    (s : Session) (hk : Known σ session u s) :
    ∃ doc, VerifierApp.status session
        (VerifierApp.serve app σ [.respond session (utf8 c!"vp_token=%7B%7D")]) = (200, some doc) ∧
      ReportsPlain doc 0 := by
  refine C61_plain_reported app _ σ session u s hk ⟨⟨[]⟩, none⟩ ⟨[], _, [], rfl, ?_, by simp⟩
  exact ⟨hk.1, ⟨_, rfl⟩, by decide +kernel⟩

end Oid4vp
