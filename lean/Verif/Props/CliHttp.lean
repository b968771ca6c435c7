import Verif.Lemmas.UrlPath
import Verif.Spec.CliHttp
import Verif.Props.CliFlow
import Verif.Props.VerifierHttp
import Verif.Props.CacheFile
/-!
# C85: the command-line verifier as a program
-/

set_option autoImplicit false

namespace Oid4vp
open Spec CliHttp
open Cli (Display)
open WalletApp (Call)

namespace CliProgram

theorem verdict_iff {ord : MapOrder} {r : AuthorizationResponse} {o : Outcome} {d : Display} :
    CliVerdict ord r o d ↔ o = Cli.outcome ord r ∧ d = Cli.displayOf (Cli.outcome ord r) := by
  have hobj : ∀ (r : UnencodedResponse) (info : Json),
      ObjectOf [(c!"credentials_received", .int r.vpToken.map.length),
        (c!"credential_query_ids", .arr (((ord r.vpToken.map).map Prod.fst).map .str))] info ↔
      info = .obj [(c!"credential_query_ids", strsToJson ((ord r.vpToken.map).map Prod.fst)),
        (c!"credentials_received", .int r.vpToken.map.length)] := by
    intro r info
    rw [objectOf_iff (by simp [NoDupKeys])]
    rfl
  constructor
  · intro h
    cases h with
    | plain h1 h2 => subst h1; rw [hobj] at h2; subst h2; exact ⟨rfl, rfl⟩
    | encrypted h => subst h; exact ⟨rfl, rfl⟩
  · rintro ⟨rfl, rfl⟩
    cases r with
    | unencoded r => exact .plain rfl ((hobj _ _).2 rfl)
    | jwt j => exact .encrypted rfl

/-! ## The handlers -/

/-- What a handler leaves, displays and answers. -/
def Does (p : Store × List Display × Reply) (σ' : Store) (shown : List Display) (n : Nat) (b : Body) : Prop :=
  p.2 = (shown, ⟨n, b⟩) ∧ Unchanged p.1 σ'

theorem does_same {p : Store × List Display × Reply} {σ τ σ' : Store} {ds es : List Display} {n m : Nat}
    {b d : Body} (h : p = (τ, es, ⟨m, d⟩)) (hu : Unchanged σ τ) :
    Does p σ' ds n b ↔ ds = es ∧ n = m ∧ b = d ∧ Unchanged σ σ' := by
  subst h
  simp only [Does, Prod.mk.injEq, Reply.mk.injEq, unchanged_trans hu]
  constructor
  · rintro ⟨⟨rfl, rfl, rfl⟩, h⟩; exact ⟨rfl, rfl, rfl, h⟩
  · rintro ⟨rfl, rfl, rfl, h⟩; exact ⟨⟨rfl, rfl, rfl⟩, h⟩

theorem does_became {p : Store × List Display × Reply} {σ τ σ' : Store} {ds es : List Display} {n m : Nat}
    {b d : Body} {u : Uuid} {s : Session} (h : p = (τ, es, ⟨m, d⟩)) (hu : Became σ τ u s) :
    Does p σ' ds n b ↔ ds = es ∧ n = m ∧ b = d ∧ Became σ σ' u s := by
  subst h
  simp only [Does, Prod.mk.injEq, Reply.mk.injEq, became_trans hu]
  constructor
  · rintro ⟨⟨rfl, rfl, rfl⟩, h⟩; exact ⟨rfl, rfl, rfl, h⟩
  · rintro ⟨rfl, rfl, rfl, h⟩; exact ⟨⟨rfl, rfl, rfl⟩, h⟩

theorem retrieve_known {σ : Store} {t : Str} {u : Uuid} {s : Session} (h : Known σ t u s) :
    (retrieve u σ).2 = .ok s.jwt ∧
      (s.status = .sentRequestByReference → Became σ (retrieve u σ).1 u { s with status := .sentRequest }) ∧
      (s.status ≠ .sentRequestByReference → Unchanged σ (retrieve u σ).1) := by
  have hlt : ∀ st : Status, st.lt .sentRequest = true ↔ st = .sentRequestByReference := by
    intro st
    cases st with
    | complete o => simp [Status.lt, Status.partialCmp, Status.variant]; decide
    | _ => decide
  have hg := h.2
  cases hl : s.status.lt .sentRequest with
  | false =>
    have hn : s.status ≠ .sentRequestByReference := fun h => by rw [(hlt _).2 h] at hl; cases hl
    have hr : retrieve u σ = (σ, .ok s.jwt) := by simp [retrieve, Store.getSession, hg, hl]
    rw [hr]
    exact ⟨rfl, fun h => absurd h hn, fun _ => unchanged_refl σ⟩
  | true =>
    refine ⟨?_, fun _ => ⟨?_, fun v hv => ?_⟩, fun hn => absurd ((hlt _).1 hl) hn⟩
    · simp [retrieve, Store.getSession, hg, hl, Store.updateStatus]
    · simp [retrieve, Store.getSession, hg, hl, Store.updateStatus, Store.get_insert]
    · simp [retrieve, Store.getSession, hg, hl, Store.updateStatus, Store.get_insert, hv]

theorem fetch_undecodable {seg : Str} {σ : Store} (h : ∀ t, ¬ SegmentText seg t) :
    fetch seg σ = (σ, [], ⟨400, .none⟩) := by
  simp only [fetch, sessionOf_none.2 h]

theorem fetch_noId {seg t : Str} {σ : Store} (h : SegmentText seg t) (hn : NoUuid t) :
    fetch seg σ = (σ, [], ⟨500, .text c!"Error: Invalid session ID"⟩) := by
  simp only [fetch, sessionOf_iff.2 h, noUuid_iff.2 hn]; rfl

theorem fetch_unknown {seg t : Str} {σ : Store} (h : SegmentText seg t) (hn : Unknown σ t) :
    fetch seg σ = (σ, [], ⟨500, .text c!"Error: Failed to retrieve authorization request"⟩) := by
  obtain ⟨u, hu, hg⟩ := hn
  have : retrieve u σ = (σ, .error .notFound) := by simp [retrieve, Store.getSession, hg]
  simp only [fetch, sessionOf_iff.2 h, Uuid.parse_iff.2 hu, this]; rfl

theorem fetch_known {seg t : Str} {σ : Store} {u : Uuid} {s : Session} (h : SegmentText seg t)
    (hn : Known σ t u s) :
    ∃ τ, fetch seg σ = (τ, [.requestFetched], ⟨200, .jwt s.jwt⟩) ∧
      (s.status = .sentRequestByReference → Became σ τ u { s with status := .sentRequest }) ∧
      (s.status ≠ .sentRequestByReference → Unchanged σ τ) := by
  obtain ⟨h1, h2, h3⟩ := retrieve_known hn
  refine ⟨_, ?_, h2, h3⟩
  simp only [fetch, sessionOf_iff.2 h, Uuid.parse_iff.2 hn.1]
  rcases hr : retrieve u σ with ⟨τ, x⟩
  rw [hr] at h1
  cases h1; rfl

theorem fetch_means {c : Call} {seg : Str} {σ σ' : Store} {ds : List Display} {n : Nat} {b : Body}
    (hu : Under c!"/request/" c.path seg) : Does (fetch seg σ) σ' ds n b ↔ CliGets c σ σ' ds n b := by
  constructor
  · intro h
    cases hs : VerifierHttp.sessionOf seg with
    | none =>
      rw [sessionOf_none] at hs
      obtain ⟨rfl, rfl, rfl, h'⟩ := (does_same (fetch_undecodable hs) (unchanged_refl σ)).1 h
      exact .undecodable hu hs h'
    | some t =>
      rw [sessionOf_iff] at hs
      rcases session_cases σ t with hn | hn | ⟨u, s, hk⟩
      · obtain ⟨rfl, rfl, rfl, h'⟩ := (does_same (fetch_noId hs hn) (unchanged_refl σ)).1 h
        exact .noId hu hs hn h'
      · obtain ⟨rfl, rfl, rfl, h'⟩ := (does_same (fetch_unknown hs hn) (unchanged_refl σ)).1 h
        exact .unknown hu hs hn h'
      · obtain ⟨τ, e, h1, h2⟩ := fetch_known hs hk
        by_cases hst : s.status = .sentRequestByReference
        · obtain ⟨rfl, rfl, rfl, h'⟩ := (does_became e (h1 hst)).1 h
          exact .firstFetch hu hs hk hst h'
        · obtain ⟨rfl, rfl, rfl, h'⟩ := (does_same e (h2 hst)).1 h
          exact .fetch hu hs hk hst h'
  · have same : ∀ {seg'}, Under c!"/request/" c.path seg' → seg' = seg := by
      intro seg' h
      rw [← under_iff] at h hu
      rw [hu] at h; cases h; rfl
    intro h
    cases h with
    | undecodable hu' hs h =>
      cases same hu'
      exact (does_same (fetch_undecodable hs) (unchanged_refl σ)).2 ⟨rfl, rfl, rfl, h⟩
    | noId hu' hs hn h =>
      cases same hu'
      exact (does_same (fetch_noId hs hn) (unchanged_refl σ)).2 ⟨rfl, rfl, rfl, h⟩
    | unknown hu' hs hn h =>
      cases same hu'
      exact (does_same (fetch_unknown hs hn) (unchanged_refl σ)).2 ⟨rfl, rfl, rfl, h⟩
    | firstFetch hu' hs hk hst h =>
      cases same hu'
      obtain ⟨τ, e, h1, h2⟩ := fetch_known hs hk
      exact (does_became e (h1 hst)).2 ⟨rfl, rfl, rfl, h⟩
    | fetch hu' hs hk hst h =>
      cases same hu'
      obtain ⟨τ, e, h1, h2⟩ := fetch_known hs hk
      exact (does_same e (h2 hst)).2 ⟨rfl, rfl, rfl, h⟩

/-- What a handler does with a text that comes for a session id. -/
theorem respond_text {ord : MapOrder} {c : Call} {seg t b : Str} {σ : Store} (h : SegmentText seg t)
    (hl : c.body.length ≤ 2097152) (hb : c.body = utf8 b) :
    respond ord c seg σ = match Uuid.parse t with
        | none => (σ, [], failure c!"Invalid session ID")
        | some u => match AuthorizationResponse.ofForm c.body with
          | .error _ => (σ, [.responseReceived], failure c!"Failed to parse authorization response")
          | .ok r => match σ.get u with
            | none => (σ, [.responseReceived], failure c!"Failed to verify response")
            | some _ => match verifyResponse u r (fun _ r => Cli.outcome ord r) σ with
              | (σ, .error _) => (σ, [.responseReceived, Cli.displayOf (Cli.outcome ord r)],
                  failure c!"Failed to verify response")
              | (σ, .ok ()) => (σ, [.responseReceived, Cli.displayOf (Cli.outcome ord r)],
                  ⟨200, .json (.obj [])⟩) := by
  simp only [respond, sessionOf_iff.2 h]
  rw [if_neg (show ¬ VerifierHttp.maxBody < c.body.length from Nat.not_lt.2 hl),
    show utf8Dec c.body = some b by rw [hb, utf8Dec_utf8]]
  rfl

theorem respond_noId {ord : MapOrder} {c : Call} {seg t b : Str} {σ : Store} (h : SegmentText seg t)
    (hl : c.body.length ≤ 2097152) (hb : c.body = utf8 b) (hn : NoUuid t) :
    respond ord c seg σ = (σ, [], ⟨500, .text c!"Error: Invalid session ID"⟩) := by
  simp only [respond_text h hl hb, noUuid_iff.2 hn]; rfl

theorem respond_noResponse {ord : MapOrder} {c : Call} {seg t b : Str} {σ : Store} {u : Uuid}
    (h : SegmentText seg t) (hl : c.body.length ≤ 2097152) (hb : c.body = utf8 b) (hu : UuidText t u)
    (hn : ∀ r, ¬ Carries c.body r) : respond ord c seg σ =
      (σ, [.responseReceived], ⟨500, .text c!"Error: Failed to parse authorization response"⟩) := by
  cases hf : AuthorizationResponse.ofForm c.body with
  | ok r => exact absurd ⟨⟨b, hb⟩, hf⟩ (hn r)
  | error e => simp only [respond_text h hl hb, Uuid.parse_iff.2 hu, hf]; rfl

theorem respond_unknown {ord : MapOrder} {c : Call} {seg t : Str} {σ : Store} {r : AuthorizationResponse}
    (h : SegmentText seg t) (hl : c.body.length ≤ 2097152) (hu : Unknown σ t) (hr : Carries c.body r) :
    respond ord c seg σ = (σ, [.responseReceived], ⟨500, .text c!"Error: Failed to verify response"⟩) := by
  obtain ⟨⟨b, hb⟩, hf⟩ := hr
  obtain ⟨u, hu, hg⟩ := hu
  simp only [respond_text h hl hb, Uuid.parse_iff.2 hu, hf, hg]; rfl

theorem respond_taken {ord : MapOrder} {c : Call} {seg t : Str} {σ : Store} {u : Uuid} {s : Session}
    {r : AuthorizationResponse} (h : SegmentText seg t) (hl : c.body.length ≤ 2097152) (hu : Known σ t u s)
    (hr : Carries c.body r) : ∃ τ, respond ord c seg σ =
        (τ, [.responseReceived, Cli.displayOf (Cli.outcome ord r)], ⟨200, .json (.obj [])⟩) ∧
      Became σ τ u { s with status := .complete (Cli.outcome ord r) } := by
  obtain ⟨⟨b, hb⟩, hf⟩ := hr
  obtain ⟨hu, hg⟩ := hu
  simp only [respond_text h hl hb, Uuid.parse_iff.2 hu, hf, hg, verifyResponse, Store.getSession,
    Bool.false_eq_true, if_false, Store.updateStatus]
  refine ⟨_, rfl, ?_, fun v hv => ?_⟩
  · simp [Store.get_insert]
  · simp [Store.get_insert, hv]

theorem respond_means {ord : MapOrder} {c : Call} {seg : Str} {σ σ' : Store} {ds : List Display} {n : Nat}
    {b : Body} (hu : Under c!"/response/" c.path seg) :
    Does (respond ord c seg σ) σ' ds n b ↔ CliPosts ord c σ σ' ds n b := by
  have small : ∀ {k}, k ≤ 2097152 → ¬ VerifierHttp.maxBody < k := fun h h' => Nat.not_lt.2 h h'
  constructor
  · intro h
    cases hs : VerifierHttp.sessionOf seg with
    | none =>
      simp only [respond, hs] at h
      obtain ⟨rfl, rfl, rfl, h'⟩ := (does_same rfl (unchanged_refl σ)).1 h
      exact .undecodable hu (sessionOf_none.1 hs) h'
    | some t =>
      have ht := sessionOf_iff.1 hs
      by_cases hl : VerifierHttp.maxBody < c.body.length
      · simp only [respond, hs, if_pos hl] at h
        obtain ⟨rfl, rfl, rfl, h'⟩ := (does_same rfl (unchanged_refl σ)).1 h
        exact .large hu ht hl h'
      have hl' : c.body.length ≤ 2097152 := Nat.le_of_not_lt hl
      cases hd : utf8Dec c.body with
      | none =>
        simp only [respond, hs, if_neg hl, hd] at h
        obtain ⟨rfl, rfl, rfl, h'⟩ := (does_same rfl (unchanged_refl σ)).1 h
        exact .notText hu ht hl' (utf8Dec_none.1 hd) h'
      | some t' =>
        have hb := utf8Dec_eq_some.1 hd
        by_cases hn : NoUuid t
        · obtain ⟨rfl, rfl, rfl, h'⟩ := (does_same (respond_noId ht hl' hb hn) (unchanged_refl σ)).1 h
          exact .noId hu ht hl' hb hn h'
        obtain ⟨u, hun⟩ : ∃ u, UuidText t u := by
          by_contra h'; exact hn fun u hu => h' ⟨u, hu⟩
        by_cases hc : ∃ r, Carries c.body r
        · obtain ⟨r, hc⟩ := hc
          rcases session_cases σ t with h0 | h0 | ⟨u, s, hk⟩
          · exact absurd h0 hn
          · obtain ⟨rfl, rfl, rfl, h'⟩ := (does_same (respond_unknown ht hl' h0 hc) (unchanged_refl σ)).1 h
            exact .unknown hu ht hl' h0 hc h'
          · obtain ⟨τ, e, h1⟩ := respond_taken (ord := ord) ht hl' hk hc
            obtain ⟨rfl, rfl, rfl, h'⟩ := (does_became e h1).1 h
            exact .taken hu ht hl' hk hc (verdict_iff.2 ⟨rfl, rfl⟩) h' ((objectOf_iff (by simp [NoDupKeys])).2 rfl)
        · have hc' : ∀ r, ¬ Carries c.body r := fun r h' => hc ⟨r, h'⟩
          obtain ⟨rfl, rfl, rfl, h'⟩ := (does_same (respond_noResponse ht hl' hb hun hc') (unchanged_refl σ)).1 h
          exact .noResponse hu ht hl' hb hun hc' h'
  · have same : ∀ {seg'}, Under c!"/response/" c.path seg' → seg' = seg := by
      intro seg' h
      rw [← under_iff] at h hu
      rw [hu] at h; cases h; rfl
    intro h
    cases h with
    | undecodable hu' hs h =>
      cases same hu'
      simp only [respond, sessionOf_none.2 hs]; exact ⟨rfl, h⟩
    | large hu' ht hl h =>
      cases same hu'
      simp only [respond, sessionOf_iff.2 ht, if_pos (show VerifierHttp.maxBody < c.body.length from hl)]
      exact ⟨rfl, h⟩
    | notText hu' ht hl hb h =>
      cases same hu'
      simp only [respond, sessionOf_iff.2 ht, if_neg (small hl), utf8Dec_none.2 hb]; exact ⟨rfl, h⟩
    | noId hu' ht hl hb hn h =>
      cases same hu'
      rw [respond_noId ht hl hb hn]; exact ⟨rfl, h⟩
    | noResponse hu' ht hl hb hun hc h =>
      cases same hu'
      rw [respond_noResponse ht hl hb hun hc]; exact ⟨rfl, h⟩
    | unknown hu' ht hl hn hc h =>
      cases same hu'
      rw [respond_unknown ht hl hn hc]; exact ⟨rfl, h⟩
    | taken hu' ht hl hk hc hv h hd =>
      cases same hu'
      obtain ⟨τ, e, h1⟩ := respond_taken (ord := ord) ht hl hk hc
      obtain ⟨rfl, rfl⟩ := verdict_iff.1 hv
      rw [(objectOf_iff (by simp [NoDupKeys])).1 hd]
      exact (does_became e h1).2 ⟨rfl, rfl, rfl, h⟩

/-! ## The server -/

theorem gets_under {c : Call} {σ σ' : Store} {ds : List Display} {n : Nat} {b : Body}
    (h : CliGets c σ σ' ds n b) : ∃ seg, Under c!"/request/" c.path seg := by
  cases h <;> exact ⟨_, by assumption⟩

theorem posts_under {ord : MapOrder} {c : Call} {σ σ' : Store} {ds : List Display} {n : Nat} {b : Body}
    (h : CliPosts ord c σ σ' ds n b) : ∃ seg, Under c!"/response/" c.path seg := by
  cases h <;> exact ⟨_, by assumption⟩

theorem not_both {path seg seg' : Str} (h : Under c!"/request/" path seg) : ¬ Under c!"/response/" path seg' := by
  intro h'
  have := h.1.symm.trans h'.1
  simp at this

end CliProgram

/-- **C85** For every request and all stored sessions, the answer of the command-line verifier, what it displays
and the sessions afterwards are exactly those of the specification. -/
theorem C85_served (ord : MapOrder) (c : Call) (σ σ' : Store) (shown : List Display) (rep : Reply) :
    ((serve ord c σ).2 = (shown, rep) ∧ Unchanged (serve ord c σ).1 σ') ↔ CliServes ord c σ σ' shown rep := by
  unfold serve
  by_cases ho : c.method = c!"OPTIONS"
  · rw [if_pos ho]
    constructor
    · rintro ⟨h, h'⟩; cases h; exact .preflight ho h'
    · intro h
      cases h with
      | preflight _ h => exact ⟨rfl, h⟩
      | get hm => rw [ho] at hm; exact absurd hm (by decide)
      | head hm => rw [ho] at hm; exact absurd hm (by decide)
      | post hm => rw [ho] at hm; exact absurd hm (by decide)
      | otherMethod h => exact absurd ho h
      | nowhere h => exact absurd ho h
  rw [if_neg ho]
  cases h1 : VerifierHttp.segmentAfter c!"/request/" c.path with
  | some seg =>
    have hu := under_iff.1 h1
    by_cases hg : c.method = c!"GET"
    · simp only [if_pos hg]
      constructor
      · rintro ⟨h, h'⟩
        obtain ⟨n, b⟩ := rep
        exact .get hg ((CliProgram.fetch_means hu).1 ⟨h, h'⟩)
      · intro h
        cases h with
        | preflight hm => exact absurd hm ho
        | get _ h => exact (CliProgram.fetch_means hu).2 h
        | head hm => rw [hg] at hm; exact absurd hm (by decide)
        | post hm => rw [hg] at hm; exact absurd hm (by decide)
        | otherMethod _ h =>
          rcases h with ⟨-, h⟩ | ⟨h, -⟩
          · exact absurd (by simp [hg]) h
          · exact absurd h (CliProgram.not_both hu)
        | nowhere _ h => exact absurd hu (h _)
    by_cases hh : c.method = c!"HEAD"
    · simp only [if_neg hg, if_pos hh]
      constructor
      · rintro ⟨h, h'⟩
        cases h
        exact .head (body := (fetch seg σ).2.2.body) hh ((CliProgram.fetch_means hu).1 ⟨rfl, h'⟩)
      · intro h
        cases h with
        | preflight hm => exact absurd hm ho
        | get hm => exact absurd hm hg
        | head _ h =>
          obtain ⟨h, h'⟩ := (CliProgram.fetch_means hu).2 h
          generalize fetch seg σ = x at h h' ⊢
          obtain ⟨τ, ds, rep⟩ := x
          cases h
          exact ⟨rfl, h'⟩
        | post hm => rw [hh] at hm; exact absurd hm (by decide)
        | otherMethod _ h =>
          rcases h with ⟨-, h⟩ | ⟨h, -⟩
          · exact absurd (by simp [hh]) h
          · exact absurd h (CliProgram.not_both hu)
        | nowhere _ h => exact absurd hu (h _)
    · simp only [if_neg hg, if_neg hh]
      constructor
      · rintro ⟨h, h'⟩
        cases h
        exact .otherMethod ho (.inl ⟨hu, by simp [hg, hh]⟩) h'
      · intro h
        cases h with
        | preflight hm => exact absurd hm ho
        | get hm => exact absurd hm hg
        | head hm => exact absurd hm hh
        | post _ h =>
          obtain ⟨_, h⟩ := CliProgram.posts_under h
          exact absurd h (CliProgram.not_both hu)
        | otherMethod _ _ h => exact ⟨rfl, h⟩
        | nowhere _ h => exact absurd hu (h _)
  | none =>
    have hn := under_none.1 h1
    cases h2 : VerifierHttp.segmentAfter c!"/response/" c.path with
    | some seg =>
      have hu := under_iff.1 h2
      by_cases hp : c.method = c!"POST"
      · simp only [if_pos hp]
        constructor
        · rintro ⟨h, h'⟩
          obtain ⟨n, b⟩ := rep
          exact .post hp ((CliProgram.respond_means hu).1 ⟨h, h'⟩)
        · intro h
          cases h with
          | preflight hm => exact absurd hm ho
          | get hm => rw [hp] at hm; exact absurd hm (by decide)
          | head hm => rw [hp] at hm; exact absurd hm (by decide)
          | post _ h => exact (CliProgram.respond_means hu).2 h
          | otherMethod _ h =>
            rcases h with ⟨h, -⟩ | ⟨-, h⟩
            · exact absurd h (hn _)
            · exact absurd hp h
          | nowhere _ _ h => exact absurd hu (h _)
      · simp only [if_neg hp]
        constructor
        · rintro ⟨h, h'⟩
          cases h
          exact .otherMethod ho (.inr ⟨hu, hp⟩) h'
        · intro h
          cases h with
          | preflight hm => exact absurd hm ho
          | get _ h => obtain ⟨_, h⟩ := CliProgram.gets_under h; exact absurd h (hn _)
          | head _ h => obtain ⟨_, h⟩ := CliProgram.gets_under h; exact absurd h (hn _)
          | post hm => exact absurd hm hp
          | otherMethod _ _ h => exact ⟨rfl, h⟩
          | nowhere _ _ h => exact absurd hu (h _)
    | none =>
      have hn' := under_none.1 h2
      constructor
      · rintro ⟨h, h'⟩
        cases h
        exact .nowhere ho hn hn' h'
      · intro h
        cases h with
        | preflight hm => exact absurd hm ho
        | get _ h => obtain ⟨_, h⟩ := CliProgram.gets_under h; exact absurd h (hn _)
        | head _ h => obtain ⟨_, h⟩ := CliProgram.gets_under h; exact absurd h (hn _)
        | post _ h => obtain ⟨_, h⟩ := CliProgram.posts_under h; exact absurd h (hn' _)
        | otherMethod _ h =>
          rcases h with ⟨h, -⟩ | ⟨h, -⟩
          · exact absurd h (hn _)
          · exact absurd h (hn' _)
        | nowhere _ _ _ h => exact ⟨rfl, h⟩

/-! ## A run -/

namespace CliProgram

theorem serve_spec (ord : MapOrder) (c : Call) (σ : Store) :
    CliServes ord c σ (serve ord c σ).1 (serve ord c σ).2.1 (serve ord c σ).2.2 :=
  (C85_served ord c σ _ _ _).1 ⟨rfl, unchanged_refl _⟩

theorem serve_concludes {ord : MapOrder} {c : Call} {σ : Store} {u : Uuid} {s : Session}
    {r : AuthorizationResponse} (hs : σ.get u = some s) (h : Submits u r c) :
    ∃ τ, serve ord c σ =
        (τ, [.responseReceived, Cli.displayOf (Cli.outcome ord r)], ⟨200, .json (.obj [])⟩) ∧
      Became σ τ u { s with status := .complete (Cli.outcome ord r) } := by
  obtain ⟨hm, ⟨seg, t, hu, ht, hut⟩, hl, hc⟩ := h
  obtain ⟨τ, e, h1⟩ := CliProgram.respond_taken (ord := ord) ht hl ⟨hut, hs⟩ hc
  refine ⟨τ, ?_, h1⟩
  rw [serve, if_neg (by rw [hm]; decide)]
  have h0 : VerifierHttp.segmentAfter c!"/request/" c.path = none :=
    under_none.2 fun seg' h => not_both h hu
  simp only [h0, under_iff.2 hu, if_pos hm, e]

theorem gets_asks {c : Call} {σ σ' : Store} {ds : List Display} {n : Nat} {b : Body}
    (hm : c.method ∈ [c!"GET", c!"HEAD"]) (h : CliGets c σ σ' ds n b) :
    Told σ c ds ∧ (∀ v, OnlyFetched σ σ' v) ∧ ds.any final = false := by
  have hT : ¬ Tries c := by
    rintro ⟨h, -⟩
    rw [h] at hm
    revert hm; decide
  have none : ∀ {seg}, Under c!"/request/" c.path seg →
      (∀ t u, SegmentText seg t → UuidText t u → σ.get u = none) → Told σ c [] := by
    intro seg hu h
    refine .nothing ?_ hT
    rintro u ⟨-, seg', t, hu', ht, hut⟩
    rw [← under_iff] at hu hu'
    rw [hu] at hu'; cases hu'
    exact h t u ht hut
  cases h with
  | undecodable hu hs h => exact ⟨none hu fun t u ht _ => absurd ht (hs t), fun v => .inl (h v), rfl⟩
  | noId hu hs hn h =>
    exact ⟨none hu fun t u ht hut => by cases segmentText_unique hs ht; exact absurd hut (hn u),
      fun v => .inl (h v), rfl⟩
  | unknown hu hs hn h =>
    refine ⟨none hu fun t u ht hut => ?_, fun v => .inl (h v), rfl⟩
    cases segmentText_unique hs ht
    obtain ⟨u', hu', hg⟩ := hn
    cases uuidText_unique hut hu'
    exact hg
  | @firstFetch seg t u s hu hs hk hst h =>
    refine ⟨.fetched ⟨hm, seg, t, hu, hs, hk.1⟩ (by rw [hk.2]; simp), fun v => ?_, rfl⟩
    by_cases hv : v = u
    · subst hv; exact .inr ⟨s, hk.2, hst, h.1⟩
    · exact .inl (h.2 v hv)
  | @fetch seg t u s hu hs hk hst h =>
    exact ⟨.fetched ⟨hm, seg, t, hu, hs, hk.1⟩ (by rw [hk.2]; simp), fun v => .inl (h v), rfl⟩

theorem posts_tells {ord : MapOrder} {c : Call} {σ σ' : Store} {ds : List Display} {n : Nat} {b : Body}
    (hm : c.method = c!"POST") (h : CliPosts ord c σ σ' ds n b) (hc : ¬ Concludes σ c) :
    Told σ c ds ∧ (∀ v, OnlyFetched σ σ' v) ∧ ds.any final = false := by
  have hA : ∀ u, Asks u c → σ.get u = none := by
    rintro u ⟨h, -⟩
    rw [hm] at h
    exact absurd h (by decide)
  have same : ∀ {seg seg'}, Under c!"/response/" c.path seg → Under c!"/response/" c.path seg' → seg' = seg := by
    intro seg seg' h h'
    rw [← under_iff] at h h'
    rw [h] at h'; cases h'; rfl
  cases h with
  | undecodable hu hs h =>
    refine ⟨.nothing hA ?_, fun v => .inl (h v), rfl⟩
    rintro ⟨-, ⟨u, seg', t, hu', ht, -⟩, -⟩
    cases same hu hu'
    exact hs t ht
  | large hu ht hl h =>
    refine ⟨.nothing hA ?_, fun v => .inl (h v), rfl⟩
    rintro ⟨-, -, hl', -⟩
    exact absurd hl (Nat.not_lt.2 hl')
  | notText hu ht hl hb h =>
    refine ⟨.nothing hA ?_, fun v => .inl (h v), rfl⟩
    rintro ⟨-, -, -, t, ht⟩
    exact hb t ht
  | noId hu ht hl hb hn h =>
    refine ⟨.nothing hA ?_, fun v => .inl (h v), rfl⟩
    rintro ⟨-, ⟨u, seg', t, hu', ht', hut⟩, -⟩
    cases same hu hu'
    cases segmentText_unique ht ht'
    exact hn u hut
  | noResponse hu ht hl hb hun hr h =>
    exact ⟨.tried ⟨hm, ⟨_, _, _, hu, ht, hun⟩, hl, _, hb⟩, fun v => .inl (h v), rfl⟩
  | unknown hu ht hl hn hr h =>
    obtain ⟨u, hut, -⟩ := hn
    exact ⟨.tried ⟨hm, ⟨_, _, _, hu, ht, hut⟩, hl, hr.1⟩, fun v => .inl (h v), rfl⟩
  | taken hu ht hl hk hr hv h hd =>
    exact absurd ⟨_, _, by rw [hk.2]; simp, hm, ⟨_, _, hu, ht, hk.1⟩, hl, hr⟩ hc

theorem serve_tells {ord : MapOrder} {c : Call} {σ : Store} (hc : ¬ Concludes σ c) :
    Told σ c (serve ord c σ).2.1 ∧ (∀ v, OnlyFetched σ (serve ord c σ).1 v) ∧
      (serve ord c σ).2.1.any final = false := by
  have h := serve_spec ord c σ
  generalize (serve ord c σ).1 = σ' at h ⊢
  generalize (serve ord c σ).2.1 = ds at h ⊢
  generalize (serve ord c σ).2.2 = rep at h
  have silent : (∀ u, ¬ Asks u c) → ¬ Tries c → Unchanged σ σ' →
      Told σ c [] ∧ (∀ v, OnlyFetched σ σ' v) ∧ ([] : List Display).any final = false :=
    fun h1 h2 h3 => ⟨.nothing (fun u h => absurd h (h1 u)) h2, fun v => .inl (h3 v), rfl⟩
  cases h with
  | preflight hm h =>
    refine silent ?_ ?_ h
    · rintro u ⟨h, -⟩; rw [hm] at h; revert h; decide
    · rintro ⟨h, -⟩; rw [hm] at h; revert h; decide
  | get hm h => exact gets_asks (by simp [hm]) h
  | head hm h => exact gets_asks (by simp [hm]) h
  | post hm h => exact posts_tells hm h hc
  | otherMethod ho hu h =>
    refine silent ?_ ?_ h
    · rintro u ⟨hm, seg', t, hu', -⟩
      rcases hu with ⟨-, hm'⟩ | ⟨hu, -⟩
      · exact hm' hm
      · exact not_both hu' hu
    · rintro ⟨hm, ⟨u, seg', t, hu', -⟩, -⟩
      rcases hu with ⟨hu, -⟩ | ⟨-, hm'⟩
      · exact not_both hu hu'
      · exact hm' hm
  | nowhere ho h1 h2 h =>
    refine silent ?_ ?_ h
    · rintro u ⟨hm, seg', t, hu', -⟩; exact h1 _ hu'
    · rintro ⟨hm, ⟨u, seg', t, hu', -⟩, -⟩; exact h2 _ hu'

theorem told_congr {σ σ' : Store} (h : ∀ v, OnlyFetched σ σ' v) {c : Call} {ds : List Display}
    (ht : Told σ' c ds) : Told σ c ds := by
  cases ht with
  | fetched h1 h2 => exact .fetched h1 ((onlyFetched_stored (h _)).1 h2)
  | tried h => exact .tried h
  | nothing h1 h2 =>
    refine .nothing (fun u hu => ?_) h2
    by_contra hn
    exact (onlyFetched_stored (h u)).2 hn (h1 u hu)

theorem concludes_congr {σ σ' : Store} (h : ∀ v, OnlyFetched σ σ' v) {c : Call} (hc : Concludes σ' c) :
    Concludes σ c := by
  obtain ⟨u, r, h1, h2⟩ := hc
  exact ⟨u, r, (onlyFetched_stored (h u)).1 h1, h2⟩

theorem forall₂_told {σ σ' : Store} (h : ∀ v, OnlyFetched σ σ' v) {cs : List Call} {ds : List (List Display)}
    (ht : List.Forall₂ (Told σ') cs ds) : List.Forall₂ (Told σ) cs ds := by
  induction ht with
  | nil => exact .nil
  | cons h1 _ ih => exact .cons (told_congr h h1) ih

end CliProgram

/-- **C85** As long as no response is delivered for a stored session the program does not stop; for each
request, in order, it displays that a request object was fetched or that a response came, or nothing; and the
sessions are as they were except that requests may have been fetched. -/
theorem C85_waits (ord : MapOrder) (σ : Store) (calls : List Call) (h : ∀ c ∈ calls, ¬ Concludes σ c) :
    ∃ ds σ', List.Forall₂ (Told σ) calls ds ∧ run ord σ calls = (σ', ds.flatten, false) ∧
      ∀ v, OnlyFetched σ σ' v := by
  induction calls generalizing σ with
  | nil => exact ⟨[], σ, .nil, rfl, onlyFetched_refl σ⟩
  | cons c cs ih =>
    obtain ⟨h1, h2, h3⟩ := CliProgram.serve_tells (ord := ord) (h c List.mem_cons_self)
    rcases hs : serve ord c σ with ⟨τ, shown, rep⟩
    rw [hs] at h1 h2 h3
    obtain ⟨ds, σ', i1, i2, i3⟩ := ih τ fun c' hc' hd =>
      h c' (List.mem_cons_of_mem _ hc') (CliProgram.concludes_congr h2 hd)
    refine ⟨shown :: ds, σ', .cons h1 (CliProgram.forall₂_told h2 i1), ?_, fun v => onlyFetched_trans (h2 v) (i3 v)⟩
    simp only [run, hs, i2]
    rw [if_neg (by rw [h3]; simp)]
    rfl

/-- **C85** The first response delivered for a stored session ends the program, whatever comes after it: its
outcome is displayed last, after everything that was displayed for the requests before it, and stored in that
session; no other session gets an outcome. -/
theorem C85_stops (ord : MapOrder) (σ : Store) (pre post : List Call) (c : Call) (u : Uuid) (s : Session)
    (r : AuthorizationResponse) (hpre : ∀ c' ∈ pre, ¬ Concludes σ c') (hs : σ.get u = some s) (h : Submits u r c) :
    ∃ ds σ' o d, List.Forall₂ (Told σ) pre ds ∧ CliVerdict ord r o d ∧
      run ord σ (pre ++ c :: post) = (σ', ds.flatten ++ [.responseReceived, d], true) ∧
      σ'.get u = some { s with status := .complete o } ∧ ∀ v, v ≠ u → OnlyFetched σ σ' v := by
  have hfin : ∀ o : Outcome, final (Cli.displayOf o) = true := by intro o; cases o <;> rfl
  induction pre generalizing σ s with
  | nil =>
    obtain ⟨τ, e, h1⟩ := CliProgram.serve_concludes (ord := ord) hs h
    refine ⟨[], τ, _, _, .nil, CliProgram.verdict_iff.2 ⟨rfl, rfl⟩, ?_, h1.1, fun v hv => .inl (h1.2 v hv)⟩
    simp only [List.nil_append, run, e, List.flatten_nil]
    rw [if_pos (by simp [hfin])]
  | cons c' cs ih =>
    obtain ⟨h1, h2, h3⟩ := CliProgram.serve_tells (ord := ord) (hpre c' List.mem_cons_self)
    rcases he : serve ord c' σ with ⟨τ, shown, rep⟩
    rw [he] at h1 h2 h3
    obtain ⟨s', hs', hss⟩ : ∃ s', τ.get u = some s' ∧ ∀ o : Status, { s' with status := o } = { s with status := o } := by
      rcases h2 u with e | ⟨s0, e1, -, e3⟩
      · exact ⟨s, by rw [e, hs], fun _ => rfl⟩
      · rw [hs] at e1; cases e1
        exact ⟨_, e3, fun _ => rfl⟩
    obtain ⟨ds, σ', o, d, i1, i2, i3, i4, i5⟩ := ih τ s' (fun c0 hc0 hd =>
      hpre c0 (List.mem_cons_of_mem _ hc0) (CliProgram.concludes_congr h2 hd)) hs'
    refine ⟨shown :: ds, σ', o, d, .cons h1 (CliProgram.forall₂_told h2 i1), i2, ?_, by rw [i4, hss],
      fun v hv => onlyFetched_trans (h2 v) (i5 v hv)⟩
    simp only [List.cons_append, run, he, i3]
    rw [if_neg (by rw [h3]; simp)]
    simp

/-! ## The console -/

namespace CliProgram

theorem lines_append (l l' : List Str) : Lines (l ++ l') = Lines l ++ Lines l' := by
  simp [Lines]

theorem lines_cons (s : Str) (l : List Str) : Lines (s :: l) = line s ++ Lines l := rfl

theorem lines_nil : Lines [] = [] := rfl

theorem joinComma_intercalate (l : List Str) : joinComma l = List.intercalate c!", " l := by
  induction l with
  | nil => rfl
  | cons s l ih =>
    cases l with
    | nil => simp [joinComma, List.intercalate]
    | cons t l => simp [joinComma, ih, List.intercalate, List.intersperse]

theorem natStr_decimal (n : Nat) : natStr n = Decimal n := by
  rw [Decimal, natStr, digitsAux_toDigits _ _ (by omega)]
  exact Nat.toList_repr.symm

theorem preamble_lines (args : Args) : preamble args = Lines (FirstLines args) := by
  simp only [preamble, FirstLines, lines_cons, lines_nil, joinComma_intercalate, natStr_decimal, rule,
    List.append_assoc, List.append_nil]

theorem waitingText_lines (qr : Str → Option Str) (args : Args) (uuid : Uuid) (desc : Str) (url : Url) :
    waitingText qr args uuid desc url = Lines (WaitingLines qr args uuid desc url) := by
  unfold waitingText WaitingLines
  cases args.noQr with
  | true =>
    simp only [if_true, lines_append, lines_cons, lines_nil, statusText, List.append_assoc, List.append_nil,
      List.nil_append]
  | false =>
    cases qr url.print <;>
    simp only [Bool.false_eq_true, if_false, lines_append, lines_cons, lines_nil, statusText, List.append_assoc,
      List.append_nil, List.nil_append, Option.toList]

end CliProgram

/-- **C85** What is printed for a status: fixed lines, for a failure with the reason, for a success with a JSON
text that reads back as the information. -/
theorem C85_status_lines (d : Display)
    (hi : ∀ info, d = .success info → info.depth ≤ jsonMaxDepth ∧ info.NumOk) :
    ∃ l, StatusLines d l ∧ statusText d = Lines l := by
  cases d with
  | initializing => exact ⟨_, .initializing, rfl⟩
  | waitingForWallet => exact ⟨_, .waiting, rfl⟩
  | requestFetched => exact ⟨_, .fetched, rfl⟩
  | responseReceived => exact ⟨_, .received, rfl⟩
  | success info =>
    obtain ⟨h1, h2⟩ := hi info rfl
    refine ⟨_, .success (rawText_pretty h1 h2), ?_⟩
    simp only [statusText, CliProgram.lines_cons, CliProgram.lines_nil, List.append_assoc, List.append_nil]; rfl
  | failed reason =>
    refine ⟨_, .failed, ?_⟩
    simp only [statusText, CliProgram.lines_cons, CliProgram.lines_nil, List.append_assoc, List.append_nil]; rfl

namespace CliProgram

theorem pretty_items (l : List Str) (hl : ∀ s ∈ l, NoEscapes s) (s : Str) (hs : NoEscapes s) :
    newLine 2 ++ (jPretty 2 (.str s) ++ jPrettyL 1 (l.map .str)) ++ c!",\n" =
      '\n' :: Lines (ItemLines (s :: l) ++ [c!"  ],"]) := by
  induction l generalizing s with
  | nil =>
    simp only [List.map_nil, jPretty, jPrettyL, jPrint, jStr_plain hs, ItemLines, List.cons_append, List.nil_append,
      lines_cons, lines_nil, line]
    simp [newLine, List.replicate]
  | cons t l ih =>
    have := ih (fun x hx => hl x (List.mem_cons_of_mem _ hx)) t (hl t List.mem_cons_self)
    simp only [List.map_cons, jPrettyL]
    rw [ItemLines, List.cons_append, lines_cons]
    have e : newLine 2 ++ (jPretty 2 (.str s) ++ ',' :: (newLine (1 + 1) ++ (jPretty (1 + 1) (.str t) ++
        jPrettyL 1 (l.map .str)))) ++ c!",\n" = newLine 2 ++ (jPretty 2 (.str s) ++ ',' :: (newLine 2 ++
          (jPretty 2 (.str t) ++ jPrettyL 1 (l.map .str)) ++ c!",\n")) := by simp
    rw [e, this]
    simp only [jPretty, jPrint, jStr_plain hs, line]
    simp [newLine, List.replicate]

end CliProgram

/-- **C85** The information about a plain response, line by line, when its query ids need no escapes in JSON. -/
theorem C85_information (ids : List Str) (h : ∀ s ∈ ids, NoEscapes s) :
    statusText (.success (.obj [(c!"credential_query_ids", .arr (ids.map .str)),
      (c!"credentials_received", .int ids.length)])) = Lines ([c!"",
        c!"========================================", c!"[+] Status: SUCCESS",
        c!"========================================", c!"", c!"Verification completed successfully!", c!""] ++
        InfoLines ids ++ [c!""]) := by
  have key : line (jPretty 0 (.obj [(c!"credential_query_ids", .arr (ids.map .str)),
      (c!"credentials_received", .int ids.length)])) = Lines (InfoLines ids) := by
    have hn : jPrint (.int (ids.length : Int)) = Decimal ids.length := by
      rw [← CliProgram.natStr_decimal]; simp [jPrint, intStr]
    have h1 : jStr c!"credential_query_ids" = c!"\"credential_query_ids\"" := by decide
    have h2 : jStr c!"credentials_received" = c!"\"credentials_received\"" := by decide
    simp only [jPretty, jPrettyM, h1, h2, hn, InfoLines, CliProgram.lines_append, CliProgram.lines_cons,
      CliProgram.lines_nil]
    cases ids with
    | nil =>
      simp only [List.length_nil, Int.natCast_zero] at hn ⊢
      simp [jPretty, newLine, List.replicate, line, CliProgram.lines_cons, CliProgram.lines_nil]
    | cons s l =>
      have := CliProgram.pretty_items l (fun x hx => h x (List.mem_cons_of_mem _ hx)) s (h s List.mem_cons_self)
      rw [CliProgram.lines_append, CliProgram.lines_cons, CliProgram.lines_nil] at this
      rw [if_neg (by simp)]
      simp only [List.map_cons, jPretty, CliProgram.lines_append, CliProgram.lines_cons, CliProgram.lines_nil]
      simp only [jPretty] at this
      generalize newLine 2 ++ (jPrint (.str s) ++ jPrettyL 1 (l.map .str)) = x at this
      have e : ∀ y : Str, x ++ ',' :: '\n' :: y = x ++ c!",\n" ++ y := by simp
      generalize Decimal (s :: l).length = n
      simp only [newLine, List.replicate, line, List.cons_append, List.nil_append, List.append_assoc]
      rw [e, this]
      simp [line]
  simp only [statusText, key, CliProgram.lines_append, CliProgram.lines_cons, CliProgram.lines_nil, rule,
    List.append_assoc, List.append_nil]

/-- **C85** Everything the program prints. When it cannot start, only the first lines. Otherwise it goes on with
the session id, the description of what is asked for and the URL, then what it displays for the requests that
come, and its last words exactly if a response for its session was delivered. -/
theorem C85_program (qr : Str → Option Str) (ord : MapOrder) (args : Args) (uuid : Uuid) (nonce : Str)
    (calls : List Call) :
    ((∀ r, Cli.start args.publicUrl args.credential uuid nonce ≠ .ok r) →
      program qr ord args uuid nonce calls = Lines (FirstLines args)) ∧
    (∀ v σ url, Cli.start args.publicUrl args.credential uuid nonce = .ok (v, σ, url) →
      ∃ s q desc, StoredOne [] σ uuid s ∧ Cli.dcqlForTypes args.credential = .ok (q, desc) ∧
        ((∀ c ∈ calls, ∀ r, ¬ Submits uuid r c) →
          ∃ ds, List.Forall₂ (Told σ) calls ds ∧ program qr ord args uuid nonce calls =
            Lines (FirstLines args ++ WaitingLines qr args uuid desc url) ++ ds.flatten.flatMap statusText) ∧
        (∀ pre c r post, calls = pre ++ c :: post → (∀ c' ∈ pre, ∀ r, ¬ Submits uuid r c') → Submits uuid r c →
          ∃ ds o d, List.Forall₂ (Told σ) pre ds ∧ CliVerdict ord r o d ∧
            program qr ord args uuid nonce calls =
              Lines (FirstLines args ++ WaitingLines qr args uuid desc url) ++
                (ds.flatten ++ [.responseReceived, d]).flatMap statusText ++ Lines LastLines)) := by
  constructor
  · intro h
    rw [← CliProgram.preamble_lines]
    unfold program
    split
    · rename_i h1 _; exact absurd h1 (h _)
    · rfl
  · intro v σ url h
    obtain ⟨-, wm, q, desc, -, hq, hb⟩ := start_ok.1 h
    obtain ⟨s, hs, -⟩ := C23_build_stores_one _ _ _ _ _ _ _ _ hb
    have only : ∀ c, Concludes σ c → ∃ r, Submits uuid r c := by
      rintro c ⟨u, r, hu, hr⟩
      obtain ⟨s', hs'⟩ := Option.ne_none_iff_exists'.1 hu
      by_cases e : u = uuid
      · subst e; exact ⟨r, hr⟩
      · rw [hs.2.2 u e] at hu; exact absurd rfl hu
    refine ⟨s, q, desc, hs, hq, ?_, ?_⟩
    · intro hc
      obtain ⟨ds, σ', h1, h2, -⟩ := C85_waits ord σ calls fun c hc' hn => by
        obtain ⟨r, hr⟩ := only c hn
        exact hc c hc' r hr
      refine ⟨ds, h1, ?_⟩
      simp only [program, h, hq, h2, CliProgram.lines_append, CliProgram.preamble_lines, CliProgram.waitingText_lines,
        Bool.false_eq_true, if_false, List.append_nil]
    · rintro pre c r post rfl hpre hr
      obtain ⟨ds, σ', o, d, h1, h2, h3, -⟩ := C85_stops ord σ pre post c uuid s r (fun c hc' hn => by
        obtain ⟨r, hr⟩ := only c hn
        exact hpre c hc' r hr) hs.2.1 hr
      refine ⟨ds, o, d, h1, h2, ?_⟩
      simp only [program, h, hq, h3, CliProgram.lines_append, CliProgram.preamble_lines, CliProgram.waitingText_lines,
        if_true]
      rfl

/-! ## Cases -/

/-- A request without a body. -/
def cliGet (path : Str) : Call := ⟨c!"GET", path, none, none, []⟩

/-- A request with a body. -/
def cliPost (path body : Str) : Call := ⟨c!"POST", path, none, none, utf8 body⟩

-- a fetch, an unreadable response, one for no session, then an encrypted response; what follows is not served
example : (run id routeStore [cliGet (c!"/request/" ++ routeId), cliGet c!"/status/x",
      cliPost (c!"/response/" ++ routeId) c!"x=1", cliPost c!"/response/7" c!"response=a",
      cliPost (c!"/response/" ++ routeId) c!"response=a",
      cliGet (c!"/request/" ++ routeId)]).2 =
    ([.requestFetched, .responseReceived, .responseReceived,
      .failed c!"Encrypted responses (direct_post.jwt) not supported in this example"], true) := by
  decide +kernel

example : (serve id (cliGet (c!"/request/" ++ routeId)) routeStore).2.2 ≠ ⟨404, .none⟩ := by decide +kernel

example : (serve id (cliPost (c!"/response/" ++ routeId) c!"vp_token=%7B%22a%22%3A%5B%22p%22%5D%7D") routeStore).2 =
    ([.responseReceived, .success (.obj [(c!"credential_query_ids", .arr [.str c!"a"]),
      (c!"credentials_received", .int 1)])], ⟨200, .json (.obj [])⟩) := by decide +kernel

example : (serve id { cliGet (c!"/request/" ++ routeId) with method := c!"HEAD" } routeStore).2 =
    ([.requestFetched], ⟨200, .none⟩) := by decide +kernel

example : CliServes id (cliPost c!"/response/7" c!"response=a") routeStore routeStore []
    ⟨500, .text c!"Error: Invalid session ID"⟩ :=
  (C85_served _ _ _ _ _ _).1 ⟨by decide +kernel, fun _ => rfl⟩

-- two ids, as they are printed
example : Lines (InfoLines [c!"a", c!"b"]) =
    c!"{\n  \"credential_query_ids\": [\n    \"a\",\n    \"b\"\n  ],\n  \"credentials_received\": 2\n}\n" := by
  decide +kernel

-- the information that is displayed for responses can be read back
example : ∃ l, StatusLines (.success (.obj [(c!"credential_query_ids", .arr [.str c!"a"]),
      (c!"credentials_received", .int 1)])) l ∧ l.length = 9 := by
  obtain ⟨l, h, -⟩ := C85_status_lines (.success (.obj [(c!"credential_query_ids", .arr [.str c!"a"]),
    (c!"credentials_received", .int 1)])) (by rintro info ⟨⟩; exact ⟨by decide, by simp [Json.NumOk, Json.NumOkM, Json.NumOkL]⟩)
  cases h with
  | success h => exact ⟨_, .success h, rfl⟩

-- the program with an unknown type says no more than its first lines
example (qr : Str → Option Str) (calls : List Call) :
    program qr id ⟨3000, cliPublic, [c!"mdl", c!"pid"], true⟩ (buildId 3) c!"n" calls =
      Lines (FirstLines ⟨3000, cliPublic, [c!"mdl", c!"pid"], true⟩) := by
  refine (C85_program qr id _ _ _ calls).1 fun r hr => ?_
  obtain ⟨-, -, h⟩ := (C65_start_iff _ _ _ _ cliPublic_wf).1 ⟨r, hr⟩
  obtain ⟨i, f, h⟩ := h c!"pid" (by simp)
  simp [AsksFor, credentialTypes] at h

-- and with known types it waits
example (qr : Str → Option Str) : ∃ r desc url,
    program qr id ⟨3000, cliPublic, [c!"mdl"], true⟩ (buildId 3) c!"n" [cliGet c!"/"] =
      Lines (FirstLines ⟨3000, cliPublic, [c!"mdl"], true⟩ ++
        WaitingLines qr ⟨3000, cliPublic, [c!"mdl"], true⟩ (buildId 3) desc url) ++ r := by
  obtain ⟨⟨v, σ, url⟩, h⟩ : ∃ r, Cli.start cliPublic [c!"mdl"] (buildId 3) c!"n" = .ok r :=
    (C65_start_iff _ _ _ _ cliPublic_wf).2 ⟨.inl (by decide), by decide, by
      intro t ht
      simp only [List.mem_cons, List.not_mem_nil, or_false] at ht
      subst ht
      exact ⟨c!"mdl_0", .msoMDoc, by simp [AsksFor, credentialTypes]⟩⟩
  obtain ⟨s, q, desc, -, -, hw, -⟩ := (C85_program qr id ⟨3000, cliPublic, [c!"mdl"], true⟩ (buildId 3) c!"n"
    [cliGet c!"/"]).2 v σ url h
  obtain ⟨ds, -, e⟩ := hw (by
    intro c hc r hs
    simp only [List.mem_cons, List.not_mem_nil, or_false] at hc
    subst hc
    exact absurd hs.1 (by decide))
  exact ⟨_, desc, url, e⟩

end Oid4vp
