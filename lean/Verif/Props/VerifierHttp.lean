import Verif.Props.Routes
import Verif.Props.ExampleFlow
import Verif.Props.WalletStore
import Verif.Spec.VerifierHttp
/-!
# The example verifier as an HTTP server (C82)
-/

set_option autoImplicit false

namespace Oid4vp
open Spec Example VerifierHttp
open WalletApp (Call structText)
open VerifierApp (Pki Draw EncKey App)

/-! ## Paths -/

theorem pathDec_bytes (s : Bytes) : PathBytes s (pathDec s) := by
  match s with
  | [] => exact .nil
  | b :: bs =>
    rw [pathDec.eq_def]
    simp only
    split
    · next h =>
      have e := u8_toNat_eq h
      match bs with
      | [] => exact .self (fun _ h l q x y e => by cases e) .nil
      | [h] => exact .self (fun _ h l q x y e => by cases e) (pathDec_bytes [h])
      | h :: l :: rest =>
        simp only
        split
        · next x y hx hy =>
          rw [e, Nat.mul_comm]
          exact .octet ((hexVal_digit _ _).mp hx) ((hexVal_digit _ _).mp hy) (pathDec_bytes rest)
        · next hno =>
          refine .self ?_ (pathDec_bytes (h :: l :: rest))
          intro _ h' l' q x y e hx hy
          cases e
          exact hno x y ((hexVal_digit _ _).mpr hx) ((hexVal_digit _ _).mpr hy)
    · next h37 =>
      exact .self (fun e => absurd (by rw [e]; rfl) h37) (pathDec_bytes bs)

theorem pathBytes_fun {s t u : Bytes} (h : PathBytes s t) (h' : PathBytes s u) : t = u := by
  induction h generalizing u with
  | nil => cases h'; rfl
  | octet hx hy _ ih =>
    cases h' with
    | octet hx' hy' h' => rw [ih h', hexDigit_fun hx hx', hexDigit_fun hy hy']
    | self hn => exact absurd hy (hn rfl _ _ _ _ _ rfl hx)
  | self hn _ ih =>
    cases h' with
    | octet hx hy => exact absurd hy (hn rfl _ _ _ _ _ rfl hx)
    | self _ h' => rw [ih h']

theorem sessionOf_iff {seg t : Str} : sessionOf seg = some t ↔ SegmentText seg t := by
  unfold sessionOf SegmentText
  rw [utf8Dec_eq_some, ← C10_utf8_standard, ← C10_utf8_standard]
  constructor
  · intro h; rw [← h]; exact pathDec_bytes _
  · intro h; exact pathBytes_fun (pathDec_bytes _) h

theorem sessionOf_none {seg : Str} : sessionOf seg = none ↔ ∀ t, ¬ SegmentText seg t := by
  simp only [← sessionOf_iff]
  cases sessionOf seg <;> simp

theorem segmentText_unique {seg t t' : Str} (h : SegmentText seg t) (h' : SegmentText seg t') : t = t' := by
  rw [← sessionOf_iff] at h h'
  rw [h] at h'; exact Option.some.inj h'

theorem under_iff {front path seg : Str} : segmentAfter front path = some seg ↔ Under front path seg := by
  unfold segmentAfter Under Segment
  cases h : stripPrefix front path with
  | none =>
    simp only [reduceCtorEq, false_iff]
    rintro ⟨e, -⟩
    rw [stripPrefix_eq_some.2 e] at h; cases h
  | some s =>
    have e := stripPrefix_eq_some.1 h
    simp only [e, List.append_cancel_left_eq]
    by_cases hs : s = [] ∨ '/' ∈ s
    · rw [if_pos hs]
      simp only [reduceCtorEq, false_iff]
      rintro ⟨rfl, h1, h2⟩
      exact hs.elim h1 h2
    · rw [if_neg hs]
      rw [not_or] at hs
      simp only [Option.some.injEq]
      constructor
      · rintro rfl; exact ⟨rfl, hs⟩
      · exact fun h => h.1

theorem under_none {front path : Str} : segmentAfter front path = none ↔ ∀ seg, ¬ Under front path seg := by
  simp only [← under_iff]
  cases segmentAfter front path <;> simp

/-- **C82** The routes: `/initiate`, `/health`, and one segment, which is not empty, under `/request/`,
`/response/` and `/status/`. -/
theorem C82_routes (path seg : Str) :
    (routeOf path = some .initiate ↔ path = c!"/initiate") ∧ (routeOf path = some .health ↔ path = c!"/health") ∧
    (routeOf path = some (.request seg) ↔ Under c!"/request/" path seg) ∧
    (routeOf path = some (.response seg) ↔ Under c!"/response/" path seg) ∧
    (routeOf path = some (.status seg) ↔ Under c!"/status/" path seg) ∧
    (routeOf path = none ↔ ¬ ForGet path ∧ ¬ ForPost path) := by
  have hd : ∀ front seg, (front = c!"/request/" ∨ front = c!"/response/" ∨ front = c!"/status/") →
      Under front path seg → path ≠ c!"/initiate" ∧ path ≠ c!"/health" := by
    rintro front seg h ⟨rfl, -⟩
    rcases h with rfl | rfl | rfl <;> simp
  have h12 : ∀ s s', Under c!"/request/" path s → ¬ Under c!"/response/" path s' := by
    rintro s s' ⟨rfl, -⟩ ⟨h, -⟩; simp at h
  have h13 : ∀ s s', Under c!"/request/" path s → ¬ Under c!"/status/" path s' := by
    rintro s s' ⟨rfl, -⟩ ⟨h, -⟩; simp at h
  have h23 : ∀ s s', Under c!"/response/" path s → ¬ Under c!"/status/" path s' := by
    rintro s s' ⟨rfl, -⟩ ⟨h, -⟩; simp at h
  have one : ∀ front s s', Under front path s → Under front path s' → s = s' := by
    rintro front s s' ⟨e, -⟩ ⟨e', -⟩
    rw [e] at e'; exact List.append_cancel_left e'
  unfold routeOf ForGet ForPost
  by_cases hi : path = c!"/initiate"
  · have := fun f s h1 h2 => (hd f s h1 h2).1 hi
    rw [if_pos hi]
    simp [hi] at this ⊢
    simp [this]
  rw [if_neg hi]
  by_cases hh : path = c!"/health"
  · have := fun f s h1 h2 => (hd f s h1 h2).2 hh
    rw [if_pos hh]
    simp [hh] at this ⊢
    simp [this]
  rw [if_neg hh]
  cases h1 : segmentAfter c!"/request/" path with
  | some s =>
    have u := under_iff.1 h1
    simp only [Option.some.injEq, reduceCtorEq, Route.request.injEq, hi, hh, false_iff, false_or, not_and, not_not]
    refine ⟨trivial, trivial, ⟨by rintro rfl; exact u, one _ _ _ u⟩, h12 _ _ u, h13 _ _ u, ?_⟩
    exact fun h => absurd ⟨s, .inl u⟩ h
  | none =>
    rw [under_none] at h1
    cases h2 : segmentAfter c!"/response/" path with
    | some s =>
      have u := under_iff.1 h2
      simp only [Option.some.injEq, reduceCtorEq, Route.response.injEq, hi, hh, false_iff, false_or, not_and, not_not]
      refine ⟨trivial, trivial, h1 _, ⟨by rintro rfl; exact u, one _ _ _ u⟩, h23 _ _ u, fun _ => ⟨s, u⟩⟩
    | none =>
      rw [under_none] at h2
      cases h3 : segmentAfter c!"/status/" path with
      | some s =>
        have u := under_iff.1 h3
        simp only [Option.some.injEq, reduceCtorEq, Route.status.injEq, hi, hh, false_iff, false_or, not_and, not_not]
        refine ⟨trivial, trivial, h1 _, h2 _, ⟨by rintro rfl; exact u, one _ _ _ u⟩, ?_⟩
        exact fun h => absurd ⟨s, .inr u⟩ h
      | none =>
        rw [under_none] at h3
        simp only [reduceCtorEq, hi, hh, false_iff, false_or, true_iff]
        exact ⟨trivial, trivial, h1 _, h2 _, h3 _, by rintro ⟨s, h | h⟩; exacts [h1 s h, h3 s h],
          fun ⟨s, h⟩ => h2 s h⟩

example : ∀ r, routeOf c!"/request/" ≠ some r ∧ routeOf c!"//status/x" ≠ some r ∧ routeOf c!"/request/x/" ≠ some r := by
  have : routeOf c!"/request/" = none ∧ routeOf c!"//status/x" = none ∧ routeOf c!"/request/x/" = none := by
    decide
  simp [this]

/-! ## Bodies -/

theorem nonceBody_iff {body : Bytes} {n : Option Str} : initiateBody body = .ok n ↔ NonceBody body n := by
  have hn : [c!"nonce"].Nodup := by decide
  constructor
  · intro h
    unfold initiateBody at h
    split at h
    · cases h
    rename_i s hs
    split at h
    · cases h
    rename_i j r hj
    split at h
    · cases h
    rename_i m hm
    obtain ⟨w, t, e, hw, ht⟩ := RawJson.pJson_sound _ _ _ _ hj
    exact ⟨w, t, r, j, _, by rw [← e]; exact utf8Dec_eq_some.1 hs, hw, ht, fieldsOnce_means hn hm,
      (optional_means fun _ _ => text_means).1 h⟩
  · rintro ⟨w, t, rest, j, field, rfl, hw, ht, hf, ho⟩
    obtain ⟨m, hm, e⟩ := fieldsOnce_read hn hf
    rw [optional_congr (g := fun k => mget k m) (e _ (by simp)), ← optional_means (fun _ _ => text_means)] at ho
    have hj : (∃ m, j = .obj m) ∨ ∃ l, j = .arr l := by
      rcases hf with ⟨m, rfl, -⟩ | ⟨l, rfl, -⟩
      · exact .inl ⟨_, rfl⟩
      · exact .inr ⟨_, rfl⟩
    have hp : pJson jsonMaxDepth (w ++ t ++ rest) = .ok (j, rest) := RawJson.pJson_closed ht hj w rest hw
    simp only [initiateBody, utf8Dec_utf8, hp, hm, ho]

theorem nonceBody_none {body : Bytes} : (∃ e, initiateBody body = .error e) ↔ ∀ n, ¬ NonceBody body n := by
  simp only [← nonceBody_iff]
  cases initiateBody body <;> simp

example : NonceBody (utf8 c!" {\"nonce\": \"n-0S6\"} and more") (some c!"n-0S6") :=
  nonceBody_iff.1 (by decide +kernel)
example : ∀ n, ¬ NonceBody (utf8 c!"{\"nonce\": null, \"nonce\": null}") n :=
  nonceBody_none.1 ⟨.parse, by decide +kernel⟩

theorem verdict_iff {decrypt : Str → Res Bytes} {s : Session} {r : AuthorizationResponse} {o : Outcome} :
    VerifierApp.validator decrypt s r = o ↔ Verdict decrypt r o := by
  have h1 : ∀ n doc, ObjectOf [(c!"message", .str c!"Verification successful"), (c!"credentials_received", .int n)] doc ↔
      doc = .obj [(c!"credentials_received", .int n), (c!"message", .str c!"Verification successful")] := by
    intro n doc; rw [objectOf_iff (by simp [NoDupKeys])]; rfl
  have h2 : ∀ j doc, ObjectOf [(c!"message", .str c!"JARM response decrypted and verified"),
      (c!"decrypted_payload", j)] doc ↔ doc = .obj [(c!"decrypted_payload", j),
        (c!"message", .str c!"JARM response decrypted and verified")] := by
    intro n doc; rw [objectOf_iff (by simp [NoDupKeys])]; rfl
  cases r with
  | unencoded r =>
    constructor
    · rintro rfl; exact .plain ((h1 _ _).2 rfl)
    · rintro (h | h | h); rw [(h1 _ _).1 h]; rfl
  | jwt jwe =>
    have hd : ∀ j, VerifierApp.decryptJwe decrypt jwe = .ok j ↔ ∃ t, decrypt jwe = .ok (utf8 t) ∧ JsonText t j := by
      intro j
      simp only [VerifierApp.decryptJwe, ← jParse_iff]
      cases decrypt jwe with
      | error e => simp
      | ok b =>
        simp only [jParseBytes, Except.ok.injEq]
        cases hu : utf8Dec b with
        | none =>
          simp only [reduceCtorEq, false_iff]
          rintro ⟨t, rfl, -⟩
          exact utf8Dec_none.1 hu t rfl
        | some t =>
          rw [utf8Dec_eq_some] at hu
          subst hu
          constructor
          · intro h; exact ⟨t, rfl, h⟩
          · rintro ⟨t', e, h⟩
            have := congrArg utf8Dec e
            rw [utf8Dec_utf8, utf8Dec_utf8] at this
            cases this; exact h
    constructor
    · rintro rfl
      simp only [VerifierApp.validator]
      split
      · rename_i j hj
        obtain ⟨t, h3, h4⟩ := (hd j).1 hj
        exact .decrypted h3 h4 ((h2 _ _).2 rfl)
      · rename_i e he
        refine .undecryptable fun t j h3 h4 => ?_
        rw [(hd j).2 ⟨t, h3, h4⟩] at he; cases he
    · intro h
      cases h with
      | decrypted h3 h4 h5 =>
        simp only [VerifierApp.validator, (hd _).2 ⟨_, h3, h4⟩]
        rw [(h2 _ _).1 h5]
      | undecryptable h3 =>
        simp only [VerifierApp.validator]
        split
        · rename_i j hj
          obtain ⟨t, h4, h5⟩ := (hd j).1 hj
          exact absurd h5 (h3 t j h4)
        · rfl

theorem statusPage_iff {s : Status} {doc : Json} : StatusPage s doc ↔ doc = VerifierApp.statusJson s := by
  constructor
  · intro h
    cases h <;> rename_i h <;> rw [objectOf_iff (by simp [NoDupKeys])] at h <;> exact h
  · rintro rfl
    cases s with
    | complete o =>
      cases o with
      | error c => exact .error ((objectOf_iff (by simp [NoDupKeys])).2 rfl)
      | failure c => exact .failure ((objectOf_iff (by simp [NoDupKeys])).2 rfl)
      | success c => exact .success ((objectOf_iff (by simp [NoDupKeys])).2 rfl)
    | sentRequestByReference => exact .byReference ((objectOf_iff (by simp [NoDupKeys])).2 rfl)
    | sentRequest => exact .sent ((objectOf_iff (by simp [NoDupKeys])).2 rfl)
    | receivedResponse => exact .received ((objectOf_iff (by simp [NoDupKeys])).2 rfl)

theorem errorDoc_iff {m : Str} {doc : Json} : ErrorDoc m doc ↔ doc = .obj [(c!"error", .str m)] := by
  unfold ErrorDoc; rw [objectOf_iff (by simp [NoDupKeys])]; rfl

/-! ## Sessions -/

theorem session_cases (σ : Store) (t : Str) : NoUuid t ∨ Unknown σ t ∨ ∃ u s, Known σ t u s := by
  cases hp : Uuid.parse t with
  | none => exact .inl (noUuid_iff.1 hp)
  | some u =>
    have hu := Uuid.parse_iff.1 hp
    cases hg : σ.get u with
    | none => exact .inr (.inl ⟨u, hu, hg⟩)
    | some s => exact .inr (.inr ⟨u, s, hu, hg⟩)

theorem unchanged_refl (σ : Store) : Unchanged σ σ := fun _ => rfl

theorem unchanged_trans {σ τ σ' : Store} (h : Unchanged σ τ) : Unchanged τ σ' ↔ Unchanged σ σ' := by
  unfold Unchanged at *
  simp only [h]

theorem became_trans {σ τ σ' : Store} {u : Uuid} {s : Session} (h : Became σ τ u s) :
    Unchanged τ σ' ↔ Became σ σ' u s := by
  unfold Unchanged Became at *
  constructor
  · intro h'
    exact ⟨by rw [h', h.1], fun v hv => by rw [h', h.2 v hv]⟩
  · rintro ⟨h1, h2⟩ v
    by_cases hv : v = u
    · subst hv; rw [h1, h.1]
    · rw [h2 v hv, h.2 v hv]

theorem known_unique {σ : Store} {t : Str} {u u' : Uuid} {s s' : Session} (h : Known σ t u s)
    (h' : Known σ t u' s') : u = u' ∧ s = s' := by
  obtain ⟨a, b⟩ := h
  obtain ⟨a', b'⟩ := h'
  cases uuidText_unique a a'
  rw [b] at b'
  exact ⟨rfl, Option.some.inj b'⟩

theorem not_known_of_noUuid {σ : Store} {t : Str} (h : NoUuid t) : ∀ u s, ¬ Known σ t u s :=
  fun u _ hk => h u hk.1

theorem not_known_of_unknown {σ : Store} {t : Str} (h : Unknown σ t) : ∀ u s, ¬ Known σ t u s := by
  rintro u s ⟨hu, hs⟩
  obtain ⟨u', hu', hn⟩ := h
  cases uuidText_unique hu hu'
  rw [hs] at hn; cases hn

/-! ## Routes of a request -/

theorem under_request {path seg : Str} : Under c!"/request/" path seg ↔ routeOf path = some (.request seg) :=
  (C82_routes path seg).2.2.1.symm

theorem under_response {path seg : Str} : Under c!"/response/" path seg ↔ routeOf path = some (.response seg) :=
  (C82_routes path seg).2.2.2.1.symm

theorem under_status {path seg : Str} : Under c!"/status/" path seg ↔ routeOf path = some (.status seg) :=
  (C82_routes path seg).2.2.2.2.1.symm

theorem path_initiate {path : Str} : path = c!"/initiate" ↔ routeOf path = some .initiate :=
  (C82_routes path []).1.symm

theorem path_health {path : Str} : path = c!"/health" ↔ routeOf path = some .health :=
  (C82_routes path []).2.1.symm

/-! ## The handlers -/

/-- What a handler leaves and answers. -/
def Does (p : Store × Reply) (σ' : Store) (n : Nat) (b : Body) : Prop := p.2 = ⟨n, b⟩ ∧ Unchanged p.1 σ'

theorem does_same {p : Store × Reply} {σ τ σ' : Store} {n m : Nat} {b d : Body} (h : p = (τ, ⟨m, d⟩))
    (hu : Unchanged σ τ) : Does p σ' n b ↔ n = m ∧ b = d ∧ Unchanged σ σ' := by
  subst h
  simp only [Does, Reply.mk.injEq, unchanged_trans hu]
  constructor
  · rintro ⟨⟨rfl, rfl⟩, h⟩; exact ⟨rfl, rfl, h⟩
  · rintro ⟨rfl, rfl, h⟩; exact ⟨⟨rfl, rfl⟩, h⟩

theorem does_became {p : Store × Reply} {σ τ σ' : Store} {n m : Nat} {b d : Body} {u : Uuid} {s : Session}
    (h : p = (τ, ⟨m, d⟩)) (hu : Became σ τ u s) : Does p σ' n b ↔ n = m ∧ b = d ∧ Became σ σ' u s := by
  subst h
  simp only [Does, Reply.mk.injEq, became_trans hu]
  constructor
  · rintro ⟨⟨rfl, rfl⟩, h⟩; exact ⟨rfl, rfl, h⟩
  · rintro ⟨rfl, rfl, h⟩; exact ⟨⟨rfl, rfl⟩, h⟩

theorem fetch_undecodable {srv : Server} {c : Call} {seg : Str} {σ : Store} (h : ∀ t, ¬ SegmentText seg t) :
    fetch srv c seg σ = (σ, ⟨400, .none⟩) := by
  simp only [fetch, sessionOf_none.2 h]

theorem fetch_noId {srv : Server} {c : Call} {seg t : Str} {σ : Store} (h : SegmentText seg t) (hn : NoUuid t) :
    ∃ τ, fetch srv c seg σ = (τ, badId) ∧ Unchanged σ τ := by
  have h1 := (C60_fetch_answer t σ 400 none).2 (.inl ⟨hn, rfl, rfl⟩)
  have h2 := (C60_fetch_effect t σ).2 fun u s hk => absurd hk (not_known_of_noUuid hn u s)
  refine ⟨_, ?_, h2⟩
  simp only [fetch, sessionOf_iff.2 h]
  cases hg : getRequest t σ with | mk τ x => rw [hg] at h1; cases h1; rfl

theorem fetch_unknown {srv : Server} {c : Call} {seg t : Str} {σ : Store} (h : SegmentText seg t)
    (hn : Unknown σ t) :
    ∃ τ, fetch srv c seg σ = (τ, failure 404 (c!"Session not found: " ++ srv.detail c)) ∧ Unchanged σ τ := by
  have h1 := (C60_fetch_answer t σ 404 none).2 (.inr (.inl ⟨hn, rfl, rfl⟩))
  have h2 := (C60_fetch_effect t σ).2 fun u s hk => absurd hk (not_known_of_unknown hn u s)
  refine ⟨_, ?_, h2⟩
  simp only [fetch, sessionOf_iff.2 h]
  cases hg : getRequest t σ with | mk τ x => rw [hg] at h1; cases h1; rfl

theorem fetch_known {srv : Server} {c : Call} {seg t : Str} {σ : Store} {u : Uuid} {s : Session}
    (h : SegmentText seg t) (hn : Known σ t u s) :
    ∃ τ, fetch srv c seg σ = (τ, ⟨200, .jwt s.jwt⟩) ∧
      (s.status = .sentRequestByReference → Became σ τ u { s with status := .sentRequest }) ∧
      (s.status ≠ .sentRequestByReference → Unchanged σ τ) := by
  have h1 := (C60_fetch_answer t σ 200 (some s.jwt)).2 (.inr (.inr ⟨u, s, hn, rfl, rfl⟩))
  refine ⟨_, ?_, (C60_fetch_effect t σ).1 u s hn, fun hs => (C60_fetch_effect t σ).2 ?_⟩
  · simp only [fetch, sessionOf_iff.2 h]
    cases hg : getRequest t σ with | mk τ x => rw [hg] at h1; cases h1; rfl
  · intro u' s' hk
    rw [← (known_unique hn hk).2]; exact hs

theorem fetch_means {srv : Server} {c : Call} {seg : Str} {σ σ' : Store} {n : Nat} {b : Body}
    (hu : Under c!"/request/" c.path seg) : Does (fetch srv c seg σ) σ' n b ↔ VerifierGets srv c σ σ' n b := by
  have hr := under_request.1 hu
  constructor
  · intro h
    cases hs : sessionOf seg with
    | none =>
      rw [sessionOf_none] at hs
      obtain ⟨rfl, rfl, h'⟩ := (does_same (fetch_undecodable hs) (unchanged_refl σ)).1 h
      exact .undecodable (.inl hu) hs h'
    | some t =>
      rw [sessionOf_iff] at hs
      rcases session_cases σ t with hn | hn | ⟨u, s, hk⟩
      · obtain ⟨τ, e, hτ⟩ := fetch_noId (srv := srv) (c := c) (σ := σ) hs hn
        obtain ⟨rfl, rfl, h'⟩ := (does_same e hτ).1 h
        exact .noId (.inl hu) hs hn h' (errorDoc_iff.2 rfl)
      · obtain ⟨τ, e, hτ⟩ := fetch_unknown (srv := srv) (c := c) (σ := σ) hs hn
        obtain ⟨rfl, rfl, h'⟩ := (does_same e hτ).1 h
        exact .unknown (.inl hu) hs hn h' (errorDoc_iff.2 rfl)
      · obtain ⟨τ, e, h1, h2⟩ := fetch_known (srv := srv) (c := c) (σ := σ) hs hk
        by_cases hst : s.status = .sentRequestByReference
        · obtain ⟨rfl, rfl, h'⟩ := (does_became e (h1 hst)).1 h
          exact .firstFetch hu hs hk hst h'
        · obtain ⟨rfl, rfl, h'⟩ := (does_same e (h2 hst)).1 h
          exact .fetch hu hs hk hst h'
  · have same : ∀ {seg'}, Under c!"/request/" c.path seg' ∨ Under c!"/status/" c.path seg' → seg' = seg := by
      intro seg' h
      rw [under_request, under_status, hr] at h
      rcases h with h | h <;> cases h
      rfl
    intro h
    cases h with
    | health hp => rw [path_health, hr] at hp; cases hp
    | undecodable hu' hs h =>
      cases same hu'
      exact (does_same (fetch_undecodable hs) (unchanged_refl σ)).2 ⟨rfl, rfl, h⟩
    | noId hu' hs hn h hd =>
      cases same hu'
      obtain ⟨τ, e, hτ⟩ := fetch_noId (srv := srv) (c := c) (σ := σ) hs hn
      rw [errorDoc_iff.1 hd]
      exact (does_same e hτ).2 ⟨rfl, rfl, h⟩
    | unknown hu' hs hn h hd =>
      cases same hu'
      obtain ⟨τ, e, hτ⟩ := fetch_unknown (srv := srv) (c := c) (σ := σ) hs hn
      rw [errorDoc_iff.1 hd]
      exact (does_same e hτ).2 ⟨rfl, rfl, h⟩
    | firstFetch hu' hs hk hst h =>
      cases same (.inl hu')
      obtain ⟨τ, e, h1, h2⟩ := fetch_known (srv := srv) (c := c) (σ := σ) hs hk
      exact (does_became e (h1 hst)).2 ⟨rfl, rfl, h⟩
    | fetch hu' hs hk hst h =>
      cases same (.inl hu')
      obtain ⟨τ, e, h1, h2⟩ := fetch_known (srv := srv) (c := c) (σ := σ) hs hk
      exact (does_same e (h2 hst)).2 ⟨rfl, rfl, h⟩
    | status hu' => rw [under_status, hr] at hu'; cases hu'

theorem status_undecodable {srv : Server} {c : Call} {seg : Str} {σ : Store} (h : ∀ t, ¬ SegmentText seg t) :
    status srv c seg σ = ⟨400, .none⟩ := by
  simp only [status, sessionOf_none.2 h]

theorem status_noId {srv : Server} {c : Call} {seg t : Str} {σ : Store} (h : SegmentText seg t) (hn : NoUuid t) :
    status srv c seg σ = badId := by
  have h1 := (C60_status_answer t σ 400 none).2 (.inl ⟨hn, rfl, rfl⟩)
  simp only [status, sessionOf_iff.2 h, VerifierApp.status, h1]

theorem status_unknown {srv : Server} {c : Call} {seg t : Str} {σ : Store} (h : SegmentText seg t)
    (hn : Unknown σ t) : status srv c seg σ = failure 404 (c!"Session not found: " ++ srv.detail c) := by
  have h1 := (C60_status_answer t σ 404 none).2 (.inr (.inl ⟨hn, rfl, rfl⟩))
  simp only [status, sessionOf_iff.2 h, VerifierApp.status, h1]

theorem status_known {srv : Server} {c : Call} {seg t : Str} {σ : Store} {u : Uuid} {s : Session}
    (h : SegmentText seg t) (hn : Known σ t u s) :
    status srv c seg σ = ⟨200, .json (VerifierApp.statusJson s.status)⟩ := by
  have h1 := (C60_status_answer t σ 200 (some s.status)).2 (.inr (.inr ⟨u, s, hn, rfl, rfl⟩))
  simp only [status, sessionOf_iff.2 h, VerifierApp.status, h1]; rfl

theorem status_means {srv : Server} {c : Call} {seg : Str} {σ σ' : Store} {n : Nat} {b : Body}
    (hu : Under c!"/status/" c.path seg) :
    Does (σ, status srv c seg σ) σ' n b ↔ VerifierGets srv c σ σ' n b := by
  have hr := under_status.1 hu
  constructor
  · intro h
    cases hs : sessionOf seg with
    | none =>
      rw [sessionOf_none] at hs
      rw [status_undecodable hs] at h
      obtain ⟨rfl, rfl, h'⟩ := (does_same rfl (unchanged_refl σ)).1 h
      exact .undecodable (.inr hu) hs h'
    | some t =>
      rw [sessionOf_iff] at hs
      rcases session_cases σ t with hn | hn | ⟨u, s, hk⟩
      · rw [status_noId hs hn] at h
        obtain ⟨rfl, rfl, h'⟩ := (does_same rfl (unchanged_refl σ)).1 h
        exact .noId (.inr hu) hs hn h' (errorDoc_iff.2 rfl)
      · rw [status_unknown hs hn] at h
        obtain ⟨rfl, rfl, h'⟩ := (does_same rfl (unchanged_refl σ)).1 h
        exact .unknown (.inr hu) hs hn h' (errorDoc_iff.2 rfl)
      · rw [status_known hs hk] at h
        obtain ⟨rfl, rfl, h'⟩ := (does_same rfl (unchanged_refl σ)).1 h
        exact .status hu hs hk h' (statusPage_iff.2 rfl)
  · have same : ∀ {seg'}, Under c!"/request/" c.path seg' ∨ Under c!"/status/" c.path seg' → seg' = seg := by
      intro seg' h
      rw [under_request, under_status, hr] at h
      rcases h with h | h <;> cases h
      rfl
    intro h
    cases h with
    | health hp => rw [path_health, hr] at hp; cases hp
    | undecodable hu' hs h =>
      cases same hu'
      rw [status_undecodable hs]; exact ⟨rfl, h⟩
    | noId hu' hs hn h hd =>
      cases same hu'
      rw [status_noId hs hn, errorDoc_iff.1 hd]; exact ⟨rfl, h⟩
    | unknown hu' hs hn h hd =>
      cases same hu'
      rw [status_unknown hs hn, errorDoc_iff.1 hd]; exact ⟨rfl, h⟩
    | firstFetch hu' => rw [under_request, hr] at hu'; cases hu'
    | fetch hu' => rw [under_request, hr] at hu'; cases hu'
    | status hu' hs hk h hd =>
      cases same (.inr hu')
      rw [status_known hs hk, statusPage_iff.1 hd]; exact ⟨rfl, h⟩

theorem health_means {srv : Server} {c : Call} {σ σ' : Store} {n : Nat} {b : Body}
    (hp : c.path = c!"/health") : Does (σ, health) σ' n b ↔ VerifierGets srv c σ σ' n b := by
  have hr := path_health.1 hp
  have hd : ∀ doc, ObjectOf [(c!"status", .str c!"ok"), (c!"service", .str c!"verifier-conformance-adapter")] doc ↔
      doc = .obj [(c!"service", .str c!"verifier-conformance-adapter"), (c!"status", .str c!"ok")] := by
    intro doc; rw [objectOf_iff (by simp [NoDupKeys])]; rfl
  constructor
  · intro h
    obtain ⟨rfl, rfl, h'⟩ := (does_same rfl (unchanged_refl σ)).1 h
    exact .health hp h' ((hd _).2 rfl)
  · intro h
    cases h with
    | health _ h hdoc => rw [(hd _).1 hdoc]; exact ⟨rfl, h⟩
    | undecodable hu => rw [under_request, under_status, hr] at hu; rcases hu with hu | hu <;> cases hu
    | noId hu => rw [under_request, under_status, hr] at hu; rcases hu with hu | hu <;> cases hu
    | unknown hu => rw [under_request, under_status, hr] at hu; rcases hu with hu | hu <;> cases hu
    | firstFetch hu => rw [under_request, hr] at hu; cases hu
    | fetch hu => rw [under_request, hr] at hu; cases hu
    | status hu => rw [under_status, hr] at hu; cases hu

theorem initiate_otherType {srv : Server} {id drawn : Uuid} {c : Call} {σ : Store}
    (h : ∀ t, c.contentType = some t → srv.isJson t = false) : initiate srv id drawn c σ = (σ, ⟨415, .none⟩) := by
  have : c.contentType.any srv.isJson = false := by
    cases hc : c.contentType with
    | none => rfl
    | some t => simp [h t hc]
  rw [initiate, if_neg (by simp [this])]

theorem initiate_json {srv : Server} {id drawn : Uuid} {c : Call} {σ : Store} {t : Str}
    (h : c.contentType = some t) (ht : srv.isJson t = true) :
    initiate srv id drawn c σ = if maxBody < c.body.length then (σ, ⟨413, .none⟩)
      else match initiateBody c.body with
        | .error _ => (σ, ⟨if srv.badJson c.body then 400 else 422, .none⟩)
        | .ok nonce => match VerifierApp.initiate srv.app nonce id drawn.print σ with
          | (σ, .error _) => (σ, failure 500 (srv.detail c))
          | (σ, .ok (sid, auth, st)) => (σ, ⟨200, .json (.obj [(c!"authorization_url", .str auth),
              (c!"session_id", .str sid), (c!"status_url", .str st)])⟩) := by
  rw [initiate, if_pos (by simp [h, ht])]
  rfl

theorem startDoc_iff {sid auth st : Str} {doc : Json} :
    ObjectOf [(c!"session_id", .str sid), (c!"authorization_url", .str auth), (c!"status_url", .str st)] doc ↔
      doc = .obj [(c!"authorization_url", .str auth), (c!"session_id", .str sid), (c!"status_url", .str st)] := by
  rw [objectOf_iff (by simp [NoDupKeys])]; rfl

theorem initiate_means {srv : Server} {id drawn : Uuid} {c : Call} {σ σ' : Store} {n : Nat} {b : Body}
    (hp : c.path = c!"/initiate") :
    Does (initiate srv id drawn c σ) σ' n b ↔ VerifierPosts srv id drawn c σ σ' n b := by
  have hr := path_initiate.1 hp
  constructor
  · intro h
    by_cases ht : ∃ t, c.contentType = some t ∧ srv.isJson t = true
    · obtain ⟨t, hc, ht⟩ := ht
      rw [initiate_json hc ht] at h
      by_cases hl : maxBody < c.body.length
      · rw [if_pos hl] at h
        obtain ⟨rfl, rfl, h'⟩ := (does_same rfl (unchanged_refl σ)).1 h
        exact .largeJson hp hc ht hl h'
      · rw [if_neg hl] at h
        have hl' : c.body.length ≤ 2097152 := Nat.le_of_not_lt hl
        cases hb : initiateBody c.body with
        | error e =>
          simp only [hb] at h
          obtain ⟨rfl, rfl, h'⟩ := (does_same rfl (unchanged_refl σ)).1 h
          exact .unreadable hp hc ht hl' (nonceBody_none.1 ⟨e, hb⟩) h'
        | ok nonce =>
          simp only [hb] at h
          split at h
          · rename_i τ e he
            obtain ⟨rfl, rfl, h'⟩ := (does_same rfl (unchanged_refl τ)).1 h
            exact .notBegun hp hc ht hl' (nonceBody_iff.1 hb) he h' (errorDoc_iff.2 rfl)
          · rename_i τ sid auth st he
            obtain ⟨rfl, rfl, h'⟩ := (does_same rfl (unchanged_refl τ)).1 h
            exact .begun hp hc ht hl' (nonceBody_iff.1 hb) he h' (startDoc_iff.2 rfl)
    · have ht' : ∀ t, c.contentType = some t → srv.isJson t = false := by
        intro t hc
        by_contra h'
        exact ht ⟨t, hc, by simpa using h'⟩
      rw [initiate_otherType ht'] at h
      obtain ⟨rfl, rfl, h'⟩ := (does_same rfl (unchanged_refl σ)).1 h
      exact .otherType hp ht' h'
  · have small : ∀ {k}, k ≤ 2097152 → ¬ maxBody < k := fun h h' => Nat.not_lt.2 h h'
    intro h
    cases h with
    | otherType _ ht h => rw [initiate_otherType ht]; exact ⟨rfl, h⟩
    | largeJson _ hc ht hl h =>
      rw [initiate_json hc ht, if_pos (show maxBody < c.body.length from hl)]; exact ⟨rfl, h⟩
    | unreadable _ hc ht hl hb h =>
      obtain ⟨e, hb⟩ := nonceBody_none.2 hb
      rw [initiate_json hc ht, if_neg (small hl), hb]; exact ⟨rfl, h⟩
    | begun _ hc ht hl hb he h hd =>
      rw [initiate_json hc ht, if_neg (small hl), nonceBody_iff.2 hb, startDoc_iff.1 hd]
      simp only [he]; exact ⟨rfl, h⟩
    | notBegun _ hc ht hl hb he h hd =>
      rw [initiate_json hc ht, if_neg (small hl), nonceBody_iff.2 hb, errorDoc_iff.1 hd]
      simp only [he]; exact ⟨rfl, h⟩
    | undecodable hu => rw [under_response, hr] at hu; cases hu
    | large hu => rw [under_response, hr] at hu; cases hu
    | notText hu => rw [under_response, hr] at hu; cases hu
    | noId hu => rw [under_response, hr] at hu; cases hu
    | noResponse hu => rw [under_response, hr] at hu; cases hu
    | unknown hu => rw [under_response, hr] at hu; cases hu
    | taken hu => rw [under_response, hr] at hu; cases hu

theorem respond_text {srv : Server} {c : Call} {seg t b : Str} {σ : Store} (h : SegmentText seg t)
    (hl : c.body.length ≤ 2097152) (hb : c.body = utf8 b) :
    respond srv c seg σ = match postResponse (VerifierApp.validator srv.app.decrypt) t c.body σ with
        | (σ, 200) => (σ, ⟨200, .json (.obj [])⟩)
        | (σ, 500) => (σ, failure 500 (c!"Verification failed: " ++ srv.detail c))
        | (σ, _) => (σ, match Uuid.parse t with
          | none => badId
          | some _ => failure 400 (c!"Invalid authorization response: " ++ srv.detail c)) := by
  simp only [respond, sessionOf_iff.2 h, VerifierApp.receive]
  rw [if_neg (show ¬ maxBody < c.body.length from Nat.not_lt.2 hl), show utf8Dec c.body = some b by rw [hb, utf8Dec_utf8]]
  rfl

theorem respond_noId {srv : Server} {c : Call} {seg t b : Str} {σ : Store} (h : SegmentText seg t)
    (hl : c.body.length ≤ 2097152) (hb : c.body = utf8 b) (hn : NoUuid t) : respond srv c seg σ = (σ, badId) := by
  rw [respond_text h hl hb]
  have h1 := (C60_respond_refused (VerifierApp.validator srv.app.decrypt) t c.body σ).1.2 (.inl hn)
  have h2 := (C60_respond (VerifierApp.validator srv.app.decrypt) t c.body σ).2.2 (by rw [h1]; decide)
  cases hg : postResponse (VerifierApp.validator srv.app.decrypt) t c.body σ with
  | mk τ x =>
    rw [hg] at h1 h2
    cases h1; cases h2
    simp only [noUuid_iff.2 hn]

theorem respond_noResponse {srv : Server} {c : Call} {seg t b : Str} {σ : Store} {u : Uuid} (h : SegmentText seg t)
    (hl : c.body.length ≤ 2097152) (hb : c.body = utf8 b) (hu : UuidText t u) (hn : ∀ r, ¬ Carries c.body r) :
    respond srv c seg σ = (σ, failure 400 (c!"Invalid authorization response: " ++ srv.detail c)) := by
  rw [respond_text h hl hb]
  have h1 := (C60_respond_refused (VerifierApp.validator srv.app.decrypt) t c.body σ).1.2 (.inr hn)
  have h2 := (C60_respond (VerifierApp.validator srv.app.decrypt) t c.body σ).2.2 (by rw [h1]; decide)
  cases hg : postResponse (VerifierApp.validator srv.app.decrypt) t c.body σ with
  | mk τ x =>
    rw [hg] at h1 h2
    cases h1; cases h2
    simp only [Uuid.parse_iff.2 hu]

theorem respond_unknown {srv : Server} {c : Call} {seg t : Str} {σ : Store} {r : AuthorizationResponse}
    (h : SegmentText seg t) (hl : c.body.length ≤ 2097152) (hu : Unknown σ t) (hr : Carries c.body r) :
    respond srv c seg σ = (σ, failure 500 (c!"Verification failed: " ++ srv.detail c)) := by
  obtain ⟨⟨b, hb⟩, -⟩ := id hr
  rw [respond_text h hl hb]
  have h1 := (C60_respond_refused (VerifierApp.validator srv.app.decrypt) t c.body σ).2.2 ⟨hu, r, hr⟩
  have h2 := (C60_respond (VerifierApp.validator srv.app.decrypt) t c.body σ).2.2 (by rw [h1]; decide)
  cases hg : postResponse (VerifierApp.validator srv.app.decrypt) t c.body σ with
  | mk τ x =>
    rw [hg] at h1 h2
    cases h1; cases h2
    rfl

theorem respond_taken {srv : Server} {c : Call} {seg t : Str} {σ : Store} {u : Uuid} {s : Session}
    {r : AuthorizationResponse} (h : SegmentText seg t) (hl : c.body.length ≤ 2097152) (hu : Known σ t u s)
    (hr : Carries c.body r) : ∃ τ, respond srv c seg σ = (τ, ⟨200, .json (.obj [])⟩) ∧
      Became σ τ u { s with status := .complete (VerifierApp.validator srv.app.decrypt s r) } := by
  obtain ⟨⟨b, hb⟩, -⟩ := id hr
  rw [respond_text h hl hb]
  have h1 := (C60_respond (VerifierApp.validator srv.app.decrypt) t c.body σ).1.2 ⟨u, s, r, hu, hr⟩
  have h2 := (C60_respond (VerifierApp.validator srv.app.decrypt) t c.body σ).2.1 u s r hu hr
  refine ⟨_, ?_, h2⟩
  cases hg : postResponse (VerifierApp.validator srv.app.decrypt) t c.body σ with
  | mk τ x =>
    rw [hg] at h1
    cases h1
    rfl

theorem respond_means {srv : Server} {id drawn : Uuid} {c : Call} {seg : Str} {σ σ' : Store} {n : Nat} {b : Body}
    (hu : Under c!"/response/" c.path seg) :
    Does (respond srv c seg σ) σ' n b ↔ VerifierPosts srv id drawn c σ σ' n b := by
  have hr := under_response.1 hu
  constructor
  · intro h
    cases hs : sessionOf seg with
    | none =>
      simp only [respond, hs] at h
      obtain ⟨rfl, rfl, h'⟩ := (does_same rfl (unchanged_refl σ)).1 h
      exact .undecodable hu (sessionOf_none.1 hs) h'
    | some t =>
      have ht := sessionOf_iff.1 hs
      by_cases hl : maxBody < c.body.length
      · simp only [respond, hs, if_pos hl] at h
        obtain ⟨rfl, rfl, h'⟩ := (does_same rfl (unchanged_refl σ)).1 h
        exact .large hu ht hl h'
      have hl' : c.body.length ≤ 2097152 := Nat.le_of_not_lt hl
      cases hd : utf8Dec c.body with
      | none =>
        simp only [respond, hs, if_neg hl, hd] at h
        obtain ⟨rfl, rfl, h'⟩ := (does_same rfl (unchanged_refl σ)).1 h
        exact .notText hu ht hl' (utf8Dec_none.1 hd) h'
      | some t' =>
        have hb := utf8Dec_eq_some.1 hd
        by_cases hn : NoUuid t
        · rw [respond_noId ht hl' hb hn] at h
          obtain ⟨rfl, rfl, h'⟩ := (does_same rfl (unchanged_refl σ)).1 h
          exact .noId hu ht hl' hb hn h' (errorDoc_iff.2 rfl)
        obtain ⟨u, hun⟩ : ∃ u, UuidText t u := by
          by_contra h'; exact hn fun u hu => h' ⟨u, hu⟩
        by_cases hc : ∃ r, Carries c.body r
        · obtain ⟨r, hc⟩ := hc
          rcases session_cases σ t with h0 | h0 | ⟨u, s, hk⟩
          · exact absurd h0 hn
          · rw [respond_unknown ht hl' h0 hc] at h
            obtain ⟨rfl, rfl, h'⟩ := (does_same rfl (unchanged_refl σ)).1 h
            exact .unknown hu ht hl' h0 hc h' (errorDoc_iff.2 rfl)
          · obtain ⟨τ, e, h1⟩ := respond_taken (srv := srv) ht hl' hk hc
            obtain ⟨rfl, rfl, h'⟩ := (does_became e h1).1 h
            exact .taken hu ht hl' hk hc (verdict_iff.1 rfl) h' ((objectOf_iff (by simp [NoDupKeys])).2 rfl)
        · have hc' : ∀ r, ¬ Carries c.body r := fun r h' => hc ⟨r, h'⟩
          rw [respond_noResponse ht hl' hb hun hc'] at h
          obtain ⟨rfl, rfl, h'⟩ := (does_same rfl (unchanged_refl σ)).1 h
          exact .noResponse hu ht hl' hb hun hc' h' (errorDoc_iff.2 rfl)
  · have same : ∀ {seg'}, Under c!"/response/" c.path seg' → seg' = seg := by
      intro seg' h
      rw [under_response, hr] at h
      cases h; rfl
    have small : ∀ {k}, k ≤ 2097152 → ¬ maxBody < k := fun h h' => Nat.not_lt.2 h h'
    intro h
    cases h with
    | otherType hp => rw [path_initiate, hr] at hp; cases hp
    | largeJson hp => rw [path_initiate, hr] at hp; cases hp
    | unreadable hp => rw [path_initiate, hr] at hp; cases hp
    | begun hp => rw [path_initiate, hr] at hp; cases hp
    | notBegun hp => rw [path_initiate, hr] at hp; cases hp
    | undecodable hu' hs h =>
      cases same hu'
      simp only [respond, sessionOf_none.2 hs]; exact ⟨rfl, h⟩
    | large hu' ht hl h =>
      cases same hu'
      simp only [respond, sessionOf_iff.2 ht, if_pos (show maxBody < c.body.length from hl)]; exact ⟨rfl, h⟩
    | notText hu' ht hl hb h =>
      cases same hu'
      simp only [respond, sessionOf_iff.2 ht, if_neg (small hl), utf8Dec_none.2 hb]; exact ⟨rfl, h⟩
    | noId hu' ht hl hb hn h hd =>
      cases same hu'
      rw [respond_noId ht hl hb hn, errorDoc_iff.1 hd]; exact ⟨rfl, h⟩
    | noResponse hu' ht hl hb hun hc h hd =>
      cases same hu'
      rw [respond_noResponse ht hl hb hun hc, errorDoc_iff.1 hd]; exact ⟨rfl, h⟩
    | unknown hu' ht hl hn hc h hd =>
      cases same hu'
      rw [respond_unknown ht hl hn hc, errorDoc_iff.1 hd]; exact ⟨rfl, h⟩
    | taken hu' ht hl hk hc hv h hd =>
      cases same hu'
      obtain ⟨τ, e, h1⟩ := respond_taken (srv := srv) ht hl hk hc
      rw [verdict_iff.2 hv] at h1
      rw [(objectOf_iff (by simp [NoDupKeys])).1 hd]
      exact (does_became e h1).2 ⟨rfl, rfl, h⟩

/-! ## The server -/

theorem gets_forGet {srv : Server} {c : Call} {σ σ' : Store} {n : Nat} {b : Body}
    (h : VerifierGets srv c σ σ' n b) : ForGet c.path := by
  cases h with
  | health hp => exact .inl hp
  | undecodable hu => exact .inr ⟨_, hu⟩
  | noId hu => exact .inr ⟨_, hu⟩
  | unknown hu => exact .inr ⟨_, hu⟩
  | firstFetch hu => exact .inr ⟨_, .inl hu⟩
  | fetch hu => exact .inr ⟨_, .inl hu⟩
  | status hu => exact .inr ⟨_, .inr hu⟩

theorem posts_forPost {srv : Server} {id drawn : Uuid} {c : Call} {σ σ' : Store} {n : Nat} {b : Body}
    (h : VerifierPosts srv id drawn c σ σ' n b) : ForPost c.path := by
  cases h with
  | otherType hp => exact .inl hp
  | largeJson hp => exact .inl hp
  | unreadable hp => exact .inl hp
  | begun hp => exact .inl hp
  | notBegun hp => exact .inl hp
  | undecodable hu => exact .inr ⟨_, hu⟩
  | large hu => exact .inr ⟨_, hu⟩
  | notText hu => exact .inr ⟨_, hu⟩
  | noId hu => exact .inr ⟨_, hu⟩
  | noResponse hu => exact .inr ⟨_, hu⟩
  | unknown hu => exact .inr ⟨_, hu⟩
  | taken hu => exact .inr ⟨_, hu⟩

theorem forGet_not_forPost {path : Str} (h : ForGet path) : ¬ ForPost path := by
  intro h'
  rcases h with h | ⟨seg, h | h⟩ <;> rcases h' with h' | ⟨seg', h'⟩ <;>
    first
    | rw [path_health] at h
    | rw [under_request] at h
    | rw [under_status] at h
  all_goals first
    | rw [path_initiate, h] at h'
    | rw [under_response, h] at h'
  all_goals cases h'

theorem onGet_means {srv : Server} {id drawn : Uuid} {c : Call} {σ σ' : Store} {get : Store × Reply} {rep : Reply}
    (hf : ForGet c.path) (hg : ∀ n b, Does get σ' n b ↔ VerifierGets srv c σ σ' n b) (ho : c.method ≠ c!"OPTIONS") :
    ((onGet c.method σ get).2 = rep ∧ Unchanged (onGet c.method σ get).1 σ') ↔
      VerifierServes srv id drawn c σ σ' rep := by
  unfold onGet
  constructor
  · intro h
    split at h
    · rename_i hm
      exact .get hm ((hg _ _).1 h)
    · rename_i hm
      split at h
      · rename_i hm'
        obtain ⟨rfl, h⟩ := h
        exact .head (body := get.2.body) hm' ((hg _ _).1 ⟨rfl, h⟩)
      · rename_i hm'
        obtain ⟨rfl, h⟩ := h
        exact .otherMethod ho (.inl ⟨hf, by simp [hm, hm']⟩) h
  · intro h
    cases h with
    | preflight hm => exact absurd hm ho
    | get hm h => rw [if_pos hm]; exact (hg _ _).2 h
    | head hm h =>
      rw [if_neg (by rw [hm]; decide), if_pos hm]
      obtain ⟨h1, h2⟩ := (hg _ _).2 h
      exact ⟨by rw [h1], h2⟩
    | post hm h => exact absurd (posts_forPost h) (forGet_not_forPost hf)
    | otherMethod _ h hu =>
      rcases h with ⟨-, h⟩ | ⟨h, -⟩
      · simp only [List.mem_cons, List.not_mem_nil, or_false, not_or] at h
        rw [if_neg h.1, if_neg h.2]; exact ⟨rfl, hu⟩
      · exact absurd h (forGet_not_forPost hf)
    | nowhere _ h => exact absurd hf h

theorem onPost_means {srv : Server} {id drawn : Uuid} {c : Call} {σ σ' : Store} {post : Store × Reply} {rep : Reply}
    (hf : ForPost c.path) (hg : ∀ n b, Does post σ' n b ↔ VerifierPosts srv id drawn c σ σ' n b)
    (ho : c.method ≠ c!"OPTIONS") :
    ((if c.method = c!"POST" then post else (σ, ⟨405, .none⟩) : Store × Reply).2 = rep ∧
      Unchanged (if c.method = c!"POST" then post else (σ, ⟨405, .none⟩) : Store × Reply).1 σ') ↔
      VerifierServes srv id drawn c σ σ' rep := by
  have hng : ¬ ForGet c.path := fun h => forGet_not_forPost h hf
  constructor
  · intro h
    split at h
    · rename_i hm
      exact .post hm ((hg _ _).1 h)
    · rename_i hm
      obtain ⟨rfl, h⟩ := h
      exact .otherMethod ho (.inr ⟨hf, hm⟩) h
  · intro h
    cases h with
    | preflight hm => exact absurd hm ho
    | get hm h => exact absurd (gets_forGet h) hng
    | head hm h => exact absurd (gets_forGet h) hng
    | post hm h => rw [if_pos hm]; exact (hg _ _).2 h
    | otherMethod _ h hu =>
      rcases h with ⟨h, -⟩ | ⟨-, h⟩
      · exact absurd h hng
      · rw [if_neg h]; exact ⟨rfl, hu⟩
    | nowhere _ _ h => exact absurd hf h

/-- **C82** For every request and all stored sessions, the answer of the example verifier and the sessions
afterwards are exactly those of the specification. -/
theorem C82_served (srv : Server) (id drawn : Uuid) (c : Call) (σ σ' : Store) (rep : Reply) :
    ((serve srv id drawn c σ).2 = rep ∧ Unchanged (serve srv id drawn c σ).1 σ') ↔
      VerifierServes srv id drawn c σ σ' rep := by
  unfold serve
  by_cases ho : c.method = c!"OPTIONS"
  · rw [if_pos ho]
    constructor
    · rintro ⟨rfl, h⟩; exact .preflight ho h
    · intro h
      cases h with
      | preflight _ h => exact ⟨rfl, h⟩
      | get hm => rw [ho] at hm; exact absurd hm (by decide)
      | head hm => rw [ho] at hm; exact absurd hm (by decide)
      | post hm => rw [ho] at hm; exact absurd hm (by decide)
      | otherMethod h => exact absurd ho h
      | nowhere h => exact absurd ho h
  · rw [if_neg ho]
    cases hr : routeOf c.path with
    | none =>
      obtain ⟨h1, h2⟩ := (C82_routes c.path []).2.2.2.2.2.1 hr
      constructor
      · rintro ⟨rfl, h⟩; exact .nowhere ho h1 h2 h
      · intro h
        cases h with
        | preflight hm => exact absurd hm ho
        | get hm h => exact absurd (gets_forGet h) h1
        | head hm h => exact absurd (gets_forGet h) h1
        | post hm h => exact absurd (posts_forPost h) h2
        | otherMethod _ h =>
          rcases h with h | h
          · exact absurd h.1 h1
          · exact absurd h.1 h2
        | nowhere _ _ _ h => exact ⟨rfl, h⟩
    | some r =>
      cases r with
      | initiate =>
        have hp := path_initiate.2 hr
        exact onPost_means (.inl hp) (fun _ _ => initiate_means hp) ho
      | request seg =>
        have hu := under_request.2 hr
        exact onGet_means (.inr ⟨seg, .inl hu⟩) (fun _ _ => fetch_means hu) ho
      | response seg =>
        have hu := under_response.2 hr
        exact onPost_means (.inr ⟨seg, hu⟩) (fun _ _ => respond_means hu) ho
      | status seg =>
        have hu := under_status.2 hr
        exact onGet_means (.inr ⟨seg, .inr hu⟩) (fun _ _ => status_means hu) ho
      | health =>
        have hp := path_health.2 hr
        exact onGet_means (.inl hp) (fun _ _ => health_means hp) ho

/-! ## Sessions over time -/

theorem appInitiate_others {app : VerifierApp.App} {nonce : Option Str} {id : Uuid} {drawn : Str} {σ τ : Store}
    {r : Res (Str × Str × Str)} (h : VerifierApp.initiate app nonce id drawn σ = (τ, r)) (v : Uuid) (hv : v ≠ id) :
    τ.get v = σ.get v := by
  cases r with
  | ok r =>
    obtain ⟨url, hb, -⟩ := appInitiate_ok h
    obtain ⟨s, -, hs⟩ := build_ok hb
    exact hs.2.2 v hv
  | error e =>
    simp only [VerifierApp.initiate] at h
    split at h
    · rename_i σ1 e1 hb
      cases h
      rw [C23_failure_stores_nothing _ _ _ _ _ _ _ _ hb]
    · cases h

/-- The specification of what the server really does. -/
theorem serve_spec (srv : Server) (id drawn : Uuid) (c : Call) (σ : Store) :
    VerifierServes srv id drawn c σ (serve srv id drawn c σ).1 (serve srv id drawn c σ).2 :=
  (C82_served srv id drawn c σ _ _).1 ⟨rfl, unchanged_refl _⟩

theorem serve_submits {srv : Server} {id drawn : Uuid} {c : Call} {σ : Store} {u : Uuid} {s : Session}
    {r : AuthorizationResponse} (hs : σ.get u = some s) (h : Submits u r c) :
    ∃ o, Verdict srv.app.decrypt r o ∧
      (serve srv id drawn c σ).1.get u = some { s with status := .complete o } := by
  obtain ⟨hm, ⟨seg, t, hu, ht, hut⟩, hl, hc⟩ := h
  obtain ⟨τ, e, h1⟩ := respond_taken (srv := srv) ht hl ⟨hut, hs⟩ hc
  refine ⟨VerifierApp.validator srv.app.decrypt s r, verdict_iff.1 rfl, ?_⟩
  have : serve srv id drawn c σ = (τ, ⟨200, .json (.obj [])⟩) := by
    rw [serve, if_neg (by rw [hm]; decide), under_response.1 hu]
    simp only [if_pos hm, e]
  rw [this]
  exact h1.1

theorem serve_asks {srv : Server} {id drawn : Uuid} {c : Call} {σ : Store} {u : Uuid} {s : Session}
    (hs : σ.get u = some s) (h : Asks u c) (hst : s.status = .sentRequestByReference) :
    (serve srv id drawn c σ).1.get u = some { s with status := .sentRequest } := by
  obtain ⟨hm, seg, t, hu, ht, hut⟩ := h
  obtain ⟨τ, e, h1, -⟩ := fetch_known (srv := srv) (c := c) ht ⟨hut, hs⟩
  have : (serve srv id drawn c σ).1 = τ := by
    simp only [List.mem_cons, List.not_mem_nil, or_false] at hm
    rcases hm with hm | hm
    · rw [serve, if_neg (by rw [hm]; decide), under_request.1 hu]
      simp only [onGet, if_pos hm, e]
    · rw [serve, if_neg (by rw [hm]; decide), under_request.1 hu]
      simp only [onGet]
      rw [if_neg (by rw [hm]; decide), if_pos hm, e]
  rw [this]
  exact (h1 hst).1

/-- **C82** What a single request can do to a session: a new session is stored under the id that was drawn, a
session changes when a response for it is delivered or its request is asked for the first time; nothing else changes
anything. -/
theorem C82_effect (srv : Server) (id drawn : Uuid) (c : Call) (σ : Store) (u : Uuid)
    (hc : (serve srv id drawn c σ).1.get u ≠ σ.get u) :
    (Begins c ∧ id = u) ∨ (∃ s, σ.get u = some s ∧ ((∃ r, Submits u r c) ∨
      (Asks u c ∧ s.status = .sentRequestByReference))) := by
  have fin : ∀ {σ'}, Unchanged σ σ' → σ'.get u ≠ σ.get u →
      (Begins c ∧ id = u) ∨ (∃ s, σ.get u = some s ∧ ((∃ r, Submits u r c) ∨
      (Asks u c ∧ s.status = .sentRequestByReference))) := fun h h' => absurd (h u) h'
  have gets : ∀ {n b}, c.method ∈ [c!"GET", c!"HEAD"] → VerifierGets srv c σ (serve srv id drawn c σ).1 n b →
      (Begins c ∧ id = u) ∨ (∃ s, σ.get u = some s ∧ ((∃ r, Submits u r c) ∨
      (Asks u c ∧ s.status = .sentRequestByReference))) := by
    intro n b hm h
    cases h with
    | health _ h => exact fin h hc
    | undecodable _ _ h => exact fin h hc
    | noId _ _ _ h => exact fin h hc
    | unknown _ _ _ h => exact fin h hc
    | fetch _ _ _ _ h => exact fin h hc
    | status _ _ _ h => exact fin h hc
    | @firstFetch seg t u' s hu ht hk hst h =>
      by_cases e : u = u'
      · subst e
        exact .inr ⟨s, hk.2, .inr ⟨⟨hm, seg, t, hu, ht, hk.1⟩, hst⟩⟩
      · exact absurd (h.2 u e) hc
  have h := serve_spec srv id drawn c σ
  generalize (serve srv id drawn c σ).2 = rep at h
  cases h with
  | preflight _ h => exact fin h hc
  | get hm h => exact gets (by simp [hm]) h
  | head hm h => exact gets (by simp [hm]) h
  | otherMethod _ _ h => exact fin h hc
  | nowhere _ _ _ h => exact fin h hc
  | post hm h =>
    cases h with
    | otherType _ _ h => exact fin h hc
    | largeJson _ _ _ _ h => exact fin h hc
    | unreadable _ _ _ _ _ h => exact fin h hc
    | begun hp _ _ _ _ he h =>
      by_cases e : u = id
      · exact .inl ⟨⟨hm, hp⟩, e.symm⟩
      · exact absurd ((h u).trans (appInitiate_others he u e)) hc
    | notBegun hp _ _ _ _ he h =>
      by_cases e : u = id
      · exact .inl ⟨⟨hm, hp⟩, e.symm⟩
      · exact absurd ((h u).trans (appInitiate_others he u e)) hc
    | undecodable _ _ h => exact fin h hc
    | large _ _ _ h => exact fin h hc
    | notText _ _ _ _ h => exact fin h hc
    | noId _ _ _ _ _ h => exact fin h hc
    | noResponse _ _ _ _ _ _ h => exact fin h hc
    | unknown _ _ _ _ _ h => exact fin h hc
    | @taken seg t u' s r o doc hu ht hl hk hr hv h =>
      by_cases e : u = u'
      · subst e
        exact .inr ⟨s, hk.2, .inl ⟨r, hm, ⟨seg, t, hu, ht, hk.1⟩, hl, hr⟩⟩
      · exact absurd (h.2 u e) hc

theorem serve_quiet {srv : Server} {id drawn : Uuid} {c : Call} {σ : Store} {u : Uuid} {s : Session}
    (hs : σ.get u = some s) (hb : Begins c → id ≠ u) (h1 : ∀ r, ¬ Submits u r c)
    (h2 : ¬ (Asks u c ∧ s.status = .sentRequestByReference)) :
    (serve srv id drawn c σ).1.get u = some s := by
  by_contra hc
  rw [← hs] at hc
  rcases C82_effect srv id drawn c σ u hc with ⟨h, e⟩ | ⟨s', hs', h⟩
  · exact hb h e
  · rw [hs] at hs'; cases hs'
    rcases h with ⟨r, h⟩ | h
    · exact h1 r h
    · exact h2 h

theorem run_append (srv : Server) (σ : Store) (rs rs' : List (Uuid × Uuid × Call)) :
    run srv σ (rs ++ rs') = run srv (run srv σ rs) rs' := by
  induction rs generalizing σ with
  | nil => rfl
  | cons x rs ih => obtain ⟨id, drawn, c⟩ := x; exact ih _

theorem asks_not_submits {u u' : Uuid} {r : AuthorizationResponse} {c : Call} (h : Asks u c) : ¬ Submits u' r c := by
  rintro ⟨hm, -⟩
  obtain ⟨h, -⟩ := h
  rw [hm] at h
  revert h; decide

/-- **C82** While no response for the session is delivered, its status changes only from "sent by reference" to
"sent", when its request is asked for, whatever requests come in. -/
theorem C82_no_response (srv : Server) (rs : List (Uuid × Uuid × Call)) (σ : Store) (u : Uuid) (s : Session)
    (hs : σ.get u = some s) (hd : NotDrawn u rs) (hn : ∀ x ∈ rs, ∀ r, ¬ Submits u r x.2.2) :
    (s.status = .sentRequestByReference ∧ (∃ x ∈ rs, Asks u x.2.2) →
      (run srv σ rs).get u = some { s with status := .sentRequest }) ∧
    (¬ (s.status = .sentRequestByReference ∧ ∃ x ∈ rs, Asks u x.2.2) → (run srv σ rs).get u = some s) := by
  induction rs generalizing σ s with
  | nil => exact ⟨fun ⟨_, _, hx, _⟩ => absurd hx List.not_mem_nil, fun _ => hs⟩
  | cons x rs ih =>
    have hd' : NotDrawn u rs := fun y hy => hd y (List.mem_cons_of_mem _ hy)
    have hn' : ∀ y ∈ rs, ∀ r, ¬ Submits u r y.2.2 := fun y hy => hn y (List.mem_cons_of_mem _ hy)
    have hx := hn x (List.mem_cons_self ..)
    have hdx := hd x (List.mem_cons_self ..)
    obtain ⟨id, drawn, c⟩ := x
    by_cases ha : Asks u c ∧ s.status = .sentRequestByReference
    · have h1 := serve_asks (srv := srv) (id := id) (drawn := drawn) hs ha.1 ha.2
      have h2 := (ih _ _ h1 hd' hn').2 (by simp)
      refine ⟨fun _ => h2, fun h => absurd ⟨ha.2, _, List.mem_cons_self .., ha.1⟩ h⟩
    · have h1 := serve_quiet (srv := srv) (id := id) (drawn := drawn) hs hdx hx ha
      obtain ⟨h2, h3⟩ := ih _ _ h1 hd' hn'
      constructor
      · rintro ⟨hst, y, hy, hya⟩
        rcases List.mem_cons.1 hy with rfl | hy
        · exact absurd ⟨hya, hst⟩ ha
        · exact h2 ⟨hst, y, hy, hya⟩
      · intro h
        exact h3 fun ⟨hst, y, hy, hya⟩ => h ⟨hst, y, List.mem_cons_of_mem _ hy, hya⟩

theorem run_kept (srv : Server) (rs : List (Uuid × Uuid × Call)) (σ : Store) (u : Uuid) (s : Session)
    (hs : σ.get u = some s) (hd : NotDrawn u rs) : ∃ st, (run srv σ rs).get u = some { s with status := st } := by
  induction rs generalizing σ s with
  | nil => exact ⟨s.status, hs⟩
  | cons x rs ih =>
    have hd' : NotDrawn u rs := fun y hy => hd y (List.mem_cons_of_mem _ hy)
    have hdx := hd x (List.mem_cons_self ..)
    obtain ⟨id, drawn, c⟩ := x
    have key : ∃ st, (serve srv id drawn c σ).1.get u = some { s with status := st } := by
      by_cases h1 : ∃ r, Submits u r c
      · obtain ⟨r, h1⟩ := h1
        obtain ⟨o, -, h⟩ := serve_submits (srv := srv) (id := id) (drawn := drawn) hs h1
        exact ⟨_, h⟩
      · by_cases h2 : Asks u c ∧ s.status = .sentRequestByReference
        · exact ⟨_, serve_asks hs h2.1 h2.2⟩
        · exact ⟨s.status, serve_quiet hs hdx (fun r h => h1 ⟨r, h⟩) h2⟩
    obtain ⟨st, h⟩ := key
    obtain ⟨st', h'⟩ := ih _ _ h hd'
    exact ⟨st', h'⟩

/-- **C82** Whatever requests come in, the last response delivered for a session decides its outcome, and nothing
but its status changes. -/
theorem C82_last_response_decides (srv : Server) (pre post : List (Uuid × Uuid × Call)) (x : Uuid × Uuid × Call)
    (σ : Store) (u : Uuid) (s : Session) (r : AuthorizationResponse) (hs : σ.get u = some s)
    (hd : NotDrawn u (pre ++ x :: post)) (hx : Submits u r x.2.2) (hp : ∀ y ∈ post, ∀ r', ¬ Submits u r' y.2.2) :
    ∃ o, Verdict srv.app.decrypt r o ∧
      (run srv σ (pre ++ x :: post)).get u = some { s with status := .complete o } := by
  obtain ⟨st, h1⟩ := run_kept srv pre σ u s hs fun y hy => hd y (by simp [hy])
  obtain ⟨id, drawn, c⟩ := x
  obtain ⟨o, hv, h2⟩ := serve_submits (srv := srv) (id := id) (drawn := drawn) h1 hx
  refine ⟨o, hv, ?_⟩
  rw [run_append]
  exact (C82_no_response srv post _ u _ h2 (fun y hy => hd y (by simp [hy])) hp).2 (by simp)

/-- **C82** No request makes a session but those for a new one, under the id drawn for it. -/
theorem C82_not_invented (srv : Server) (rs : List (Uuid × Uuid × Call)) (σ : Store) (u : Uuid)
    (hs : σ.get u = none) (hd : NotDrawn u rs) : (run srv σ rs).get u = none := by
  induction rs generalizing σ with
  | nil => exact hs
  | cons x rs ih =>
    have hdx := hd x (List.mem_cons_self ..)
    obtain ⟨id, drawn, c⟩ := x
    refine ih _ ?_ fun y hy => hd y (List.mem_cons_of_mem _ hy)
    by_contra hc
    rcases C82_effect srv id drawn c σ u (by rw [hs]; exact hc) with ⟨h, e⟩ | ⟨s, h, -⟩
    · exact hdx h e
    · rw [hs] at h; cases h

/-! ## Findings -/

/-- **C82** HEAD is taken for a retrieval: the session counts as sent although the wallet got nothing. -/
theorem C82_head_counts_as_sent (srv : Server) (id drawn : Uuid) (c : Call) (σ : Store) (u : Uuid) (s : Session)
    (hm : c.method = c!"HEAD") (hu : ForSession c!"/request/" u c) (hs : σ.get u = some s)
    (hst : s.status = .sentRequestByReference) :
    (serve srv id drawn c σ).2 = ⟨200, .none⟩ ∧
      (serve srv id drawn c σ).1.get u = some { s with status := .sentRequest } := by
  refine ⟨?_, serve_asks hs ⟨by simp [hm], hu⟩ hst⟩
  obtain ⟨seg, t, hu, ht, hut⟩ := hu
  obtain ⟨τ, e, h1, -⟩ := fetch_known (srv := srv) (c := c) ht ⟨hut, hs⟩
  rw [serve, if_neg (by rw [hm]; decide), under_request.1 hu]
  simp only [onGet]
  rw [if_neg (by rw [hm]; decide), if_pos hm, e]

theorem last_segment {a b x y : Str} (hx : '/' ∉ x) (hy : '/' ∉ y) (h : a ++ '/' :: x = b ++ '/' :: y) :
    a = b ∧ x = y := by
  rw [List.append_eq_append_iff] at h
  rcases h with ⟨c, h1, h2⟩ | ⟨c, h1, h2⟩
  · cases c with
    | nil => simp only [List.append_nil, List.nil_append, List.cons.injEq, true_and] at h1 h2; exact ⟨h1.symm, h2⟩
    | cons d c =>
      simp only [List.cons_append, List.cons.injEq] at h2
      exact absurd (by rw [h2.2]; simp) hx
  · cases c with
    | nil => simp only [List.append_nil, List.nil_append, List.cons.injEq, true_and] at h1 h2; exact ⟨h1, h2.symm⟩
    | cons d c =>
      simp only [List.cons_append, List.cons.injEq] at h2
      exact absurd (by rw [h2.2]; simp) hy

theorem segmentText_self {t : Str} (h : '%' ∉ t) : SegmentText t t := by
  have key : ∀ b : Bytes, (37 : UInt8) ∉ b → PathBytes b b := by
    intro b
    induction b with
    | nil => exact fun _ => .nil
    | cons x b ih =>
      intro hb
      simp only [List.mem_cons, not_or] at hb
      exact .self (fun e => absurd e.symm hb.1) (ih hb.2)
  unfold SegmentText
  rw [← C10_utf8_standard]
  refine key _ fun hm => ?_
  simp only [utf8, List.mem_flatMap] at hm
  obtain ⟨c, hc, hm⟩ := hm
  have := utf8Char_ascii_mem (c := c) (d := '%') (by decide) hm
  subst this
  exact h hc

theorem uuid_segment (id : Uuid) : Segment id.print ∧ SegmentText id.print id.print ∧ UuidText id.print id := by
  refine ⟨⟨Uuid.print_ne_nil id, (Uuid.print_delims id).1⟩, segmentText_self ?_,
    Uuid.parse_iff.1 (Uuid.parse_print id)⟩
  obtain ⟨a, b, c, d, e, -, h, hx⟩ := Uuid.print_groups id
  rw [h]
  intro hm
  have no : '%' ∉ a ++ b ++ c ++ d ++ e := fun h' => absurd (hx _ h') (by decide)
  simp only [hyphened, List.mem_append, List.mem_cons, not_or] at hm no
  revert hm
  simp [no]

/-- **C82** The addresses that wallets get lead to the server if the public address has no directory; under any
other public address they are not found unless something in between changes the path. -/
theorem C82_addresses {u v : Url} {id : Uuid} {seg : Str} (h : SessionAddress u seg id v)
    (srv : Server) (i drawn : Uuid) (c : Call) (hc : c.path = v.path) (σ : Store) :
    ((u.path = [] ∨ ∃ last, u.path = '/' :: last ∧ '/' ∉ last) → ForSession ('/' :: (seg ++ ['/'])) id c) ∧
    ((∃ d dir last, u.path = d :: dir ++ '/' :: last ∧ '/' ∉ last) → c.method ≠ c!"OPTIONS" →
      (serve srv i drawn c σ).2 = ⟨404, .none⟩) := by
  obtain ⟨dir, last, hd, hl, rfl⟩ := h
  obtain ⟨hs1, hs2, hs3⟩ := uuid_segment id
  simp only at hc
  constructor
  · intro hu
    have : dir = [] := by
      rcases hu with hu | ⟨l, hu, hl'⟩
      · rcases hd with hd | ⟨-, hd⟩
        · rw [hu] at hd; simp at hd
        · exact hd
      · rcases hd with hd | ⟨-, hd⟩
        · rw [hu] at hd
          exact (last_segment (a := []) hl' hl hd).1.symm
        · exact hd
    subst this
    exact ⟨id.print, id.print, ⟨by rw [hc]; simp, hs1⟩, hs2, hs3⟩
  · rintro ⟨d, dir', l, hu, hl'⟩ hm
    have hdir : dir = d :: dir' := by
      rcases hd with hd | ⟨hd, -⟩
      · rw [hu] at hd
        exact (last_segment hl' hl hd).1.symm
      · rw [hu] at hd; simp at hd
    subst hdir
    have hc' : c.path = (d :: dir' ++ '/' :: seg) ++ '/' :: id.print := by rw [hc]; simp
    have hn : ∀ x seg', c.path = x ++ '/' :: seg' → '/' ∉ seg' → x = d :: dir' ++ '/' :: seg := by
      intro x seg' h h'
      rw [hc'] at h
      exact (last_segment hs1.2 h' h).1.symm
    have tail : ∀ x : Str, '/' ∉ x → '/' :: x ≠ d :: dir' ++ '/' :: seg := by
      intro x hx h
      simp only [List.cons_append, List.cons.injEq] at h
      exact hx (by rw [h.2]; simp)
    have hr : routeOf c.path = none := by
      refine (C82_routes c.path []).2.2.2.2.2.2 ⟨?_, ?_⟩
      · rintro (h | ⟨s, ⟨h, h'⟩ | ⟨h, h'⟩⟩)
        · have := hn [] c!"health" h (by decide)
          simp at this
        · exact tail c!"request" (by decide) (hn c!"/request" s h h'.2)
        · exact tail c!"status" (by decide) (hn c!"/status" s h h'.2)
      · rintro (h | ⟨s, h, h'⟩)
        · have := hn [] c!"initiate" h (by decide)
          simp at this
        · exact tail c!"response" (by decide) (hn c!"/response" s h h'.2)
    rw [serve, if_neg hm, hr]

/-- **C82** The status address that the verifier gives out is not found, if its public address has no path but `/`,
as addresses of a host have: the path of the status address has two slashes. -/
theorem C82_status_address_not_found {p : Pki} {rs : List Run} {draw : Draw} {w : Bool} {key : EncKey} {u : Url}
    {encrypted : Bool} {host : Str} {app : App} (hs : Started p rs draw w key u encrypted host app)
    {nonce : Option Str} {uuid : Uuid} {drawn : Str} {σ σ' : Store} {sid auth st : Str}
    (h : VerifierApp.initiate app nonce uuid drawn σ = (σ', .ok (sid, auth, st)))
    (hp : u.path = c!"/") (hq : u.query = none) (hf : u.fragment = none) :
    ∃ v, Url.parse st = some v ∧ ∀ (srv : Server) (i d : Uuid) (c : Call) (τ : Store), c.path = v.path →
      c.method = c!"GET" → serve srv i d c τ = (τ, ⟨404, .none⟩) := by
  have hw := hs.address
  have ha := host_authority hs.host
  have hwf : Url.WF { u with path := c!"//status/" ++ uuid.print } := by
    have hn : PathNorm (isSpecial u.scheme) (c!"//status" ++ '/' :: uuid.print) := by
      refine PathNorm.push ⟨[[], c!"status"], by simp, rfl, ?_⟩ (Uuid.print_seg _ uuid)
      cases isSpecial u.scheme <;> simp only [List.forall_mem_cons, List.not_mem_nil, false_implies,
        implies_true, and_true, SegOk.nil, true_and] <;> exact ⟨by decide, rfl, rfl⟩
    exact hw.withPath (r := c!"/status/" ++ uuid.print) (pathNorm_iff.mp (by simpa using hn))
  have hst : st = Url.print { u with path := c!"//status/" ++ uuid.print } := by
    obtain ⟨i, -, sub, base, -, -, rfl⟩ := start_app hs
    obtain ⟨url, -, hr⟩ := appInitiate_ok h
    simp only [Prod.mk.injEq] at hr
    rw [hr.2.2]
    have hg : ∀ t : Str, guardText u.authority t = [] := by
      intro t
      cases ha' : u.authority with
      | none => exact absurd ha' ha
      | some a => cases t <;> rfl
    simp only [Url.print, hp, hq, hf, optText, hg]
    simp
  refine ⟨_, by rw [hst]; exact Url.parse_print hwf, ?_⟩
  intro srv i d c τ hc hm
  have hr : routeOf c.path = none := by
    refine (C82_routes c.path []).2.2.2.2.2.2 ⟨?_, ?_⟩
    · rintro (h | ⟨s, ⟨h, -⟩ | ⟨h, -⟩⟩) <;> rw [hc] at h <;> simp at h
    · rintro (h | ⟨s, h, -⟩) <;> rw [hc] at h <;> simp at h
  rw [serve, if_neg (by rw [hm]; decide), hr]

/-- **C82** A verifier that has been started never fails to begin a session: a request for one is answered 500 never,
and 200 exactly if it is JSON of at most 2 MiB that is or begins with an object with an optional nonce. -/
theorem C82_begin {p : Pki} {rs : List Run} {draw : Draw} {w : Bool} {key : EncKey} {u : Url}
    {encrypted : Bool} {host : Str} {srv : Server} (hs : Started p rs draw w key u encrypted host srv.app)
    (id drawn : Uuid) (c : Call) (σ : Store) (hb : Begins c) :
    (serve srv id drawn c σ).2.status ≠ 500 ∧
    ((serve srv id drawn c σ).2.status = 200 ↔
      (∃ t, c.contentType = some t ∧ srv.isJson t = true) ∧ c.body.length ≤ 2097152 ∧ ∃ n, NonceBody c.body n) ∧
    ((serve srv id drawn c σ).2.status ≠ 200 → Unchanged σ (serve srv id drawn c σ).1) := by
  obtain ⟨hm, hp⟩ := hb
  have hnr : ∀ seg, ¬ Under c!"/response/" c.path seg := by
    rintro seg ⟨h, -⟩; rw [hp] at h; simp at h
  have h := serve_spec srv id drawn c σ
  generalize (serve srv id drawn c σ).2 = rep at h
  generalize (serve srv id drawn c σ).1 = τ at h
  cases h with
  | preflight hm' => rw [hm] at hm'; exact absurd hm' (by decide)
  | get hm' => rw [hm] at hm'; exact absurd hm' (by decide)
  | head hm' => rw [hm] at hm'; exact absurd hm' (by decide)
  | otherMethod _ h =>
    rcases h with ⟨h, -⟩ | ⟨-, h⟩
    · exact absurd (.inl hp) (forGet_not_forPost h)
    · exact absurd hm h
  | nowhere _ _ h => exact absurd (.inl hp) h
  | post _ h =>
    cases h with
    | otherType _ ht h =>
      refine ⟨by decide, ⟨fun h => absurd h (by decide), fun ⟨⟨t, h1, h2⟩, _⟩ => ?_⟩, fun _ => h⟩
      rw [ht t h1] at h2; cases h2
    | largeJson _ _ _ hl h =>
      exact ⟨by decide, ⟨fun h => absurd h (by decide), fun h => absurd h.2.1 (Nat.not_le.2 hl)⟩, fun _ => h⟩
    | unreadable _ _ _ _ hb h =>
      refine ⟨?_, ⟨?_, fun ⟨_, _, n, hn⟩ => absurd hn (hb n)⟩, fun _ => h⟩
      · dsimp only; split <;> decide
      · dsimp only; split <;> exact fun h => absurd h (by decide)
    | begun _ h1 h2 hl hb =>
      exact ⟨by simp, ⟨fun _ => ⟨⟨_, h1, h2⟩, hl, _, hb⟩, fun _ => rfl⟩, fun h => absurd rfl h⟩
    | @notBegun t n σ1 e doc _ _ _ _ _ he =>
      obtain ⟨r, hr⟩ := C62_initiate_succeeds hs n id drawn.print σ
      rw [he] at hr; cases hr
    | undecodable hu => exact absurd hu (hnr _)
    | large hu => exact absurd hu (hnr _)
    | notText hu => exact absurd hu (hnr _)
    | noId hu => exact absurd hu (hnr _)
    | noResponse hu => exact absurd hu (hnr _)
    | unknown hu => exact absurd hu (hnr _)
    | taken hu => exact absurd hu (hnr _)

/-! ## A server -/

/-- A server that knows one content type. -/
def toyServer (app : App) : Server where
  app := app
  isJson := fun t => t == c!"application/json"
  badJson := fun _ => true
  detail := fun _ => c!"detail"

/-- Requests for the session of `routeStore`, the id with an escape in it, and one for a new session. -/
def toyRequests : List (Uuid × Uuid × Call) :=
  [(buildId 8, buildId 9, ⟨c!"HEAD", c!"/request/" ++ routeId, none, none, []⟩),
   (buildId 8, buildId 9, ⟨c!"POST", c!"/initiate", none, some c!"application/json", utf8 c!"{}"⟩),
   (buildId 8, buildId 9, ⟨c!"POST", c!"/response/%300000000-0000-0000-0000-000000000005", none, none,
     utf8 c!"vp_token=%7B%22q%22%3A%5B%22x%22%5D%7D"⟩),
   (buildId 8, buildId 9, ⟨c!"GET", c!"/response/" ++ routeId, none, none, []⟩)]

theorem toySubmits : Submits (buildId 5) (.unencoded ⟨⟨[(c!"q", [.string c!"x"])]⟩, none⟩)
    ⟨c!"POST", c!"/response/%300000000-0000-0000-0000-000000000005", none, none,
     utf8 c!"vp_token=%7B%22q%22%3A%5B%22x%22%5D%7D"⟩ :=
  ⟨rfl, ⟨_, routeId, ⟨rfl, by simp, by decide⟩, sessionOf_iff.1 (by decide +kernel), routeId_text⟩, by decide +kernel,
    ⟨_, rfl⟩, by decide +kernel⟩

/-- The requests mean what they seem to. -/
example (app : App) : NotDrawn (buildId 5) toyRequests ∧
    (∃ o, Verdict app.decrypt (.unencoded ⟨⟨[(c!"q", [.string c!"x"])]⟩, none⟩) o ∧
      (run (toyServer app) routeStore toyRequests).get (buildId 5) =
        some { sessionSample 5 .sentRequestByReference with status := .complete o }) := by
  have hd : NotDrawn (buildId 5) toyRequests := by
    intro x hx _
    simp only [toyRequests, List.mem_cons, List.not_mem_nil, or_false] at hx
    rcases hx with rfl | rfl | rfl | rfl <;> decide
  refine ⟨hd, C82_last_response_decides (toyServer app) (toyRequests.take 2) (toyRequests.drop 3)
    (buildId 8, buildId 9, _) routeStore (buildId 5) _ _ routeKnown.2 hd toySubmits ?_⟩
  intro y hy r h
  simp only [toyRequests, List.drop, List.mem_cons, List.not_mem_nil, or_false] at hy
  subst hy
  exact absurd h.1 (by decide)

/-- Before the response: a first retrieval. -/
example (app : App) : (run (toyServer app) routeStore (toyRequests.take 1)).get (buildId 5) =
    some { sessionSample 5 .sentRequestByReference with status := .sentRequest } := by
  refine (C82_no_response (toyServer app) (toyRequests.take 1) routeStore (buildId 5) _ routeKnown.2 ?_ ?_).1
    ⟨rfl, _, List.mem_cons_self .., by decide, routeId, routeId, ⟨rfl, by decide, by decide⟩,
      sessionOf_iff.1 (by decide +kernel), routeId_text⟩
  · intro x hx _
    simp only [toyRequests, List.take, List.mem_cons, List.not_mem_nil, or_false] at hx
    subst hx; decide
  · intro x hx r h
    simp only [toyRequests, List.take, List.mem_cons, List.not_mem_nil, or_false] at hx
    subst hx
    exact absurd h.1 (by decide)

/-- A verifier that is started answers 200 to an empty object, even followed by something. -/
example : ∃ app, ∀ id drawn σ, (serve (toyServer app) id drawn
    ⟨c!"POST", c!"/initiate", none, some c!"application/json", utf8 c!"{} }"⟩ σ).2.status = 200 := by
  obtain ⟨app, hs⟩ := flowStarted false
  refine ⟨app, fun id drawn σ => ?_⟩
  exact (C82_begin (srv := toyServer app) hs id drawn _ σ ⟨rfl, rfl⟩).2.1.2
    ⟨⟨_, rfl, by simp [toyServer]⟩, by decide +kernel, none, nonceBody_iff.1 (by decide +kernel)⟩

/-- Its addresses of requests are found, those of statuses are not. -/
example : ∃ app sid auth st σ v, VerifierApp.initiate app none (buildId 5) c!"drawn" [] = (σ, .ok (sid, auth, st)) ∧
    ForSession c!"/request/" (buildId 5) ⟨c!"GET", c!"/request/" ++ (buildId 5).print, none, none, []⟩ ∧
    Url.parse st = some v ∧
    (serve (toyServer app) (buildId 6) (buildId 7) ⟨c!"GET", v.path, none, none, []⟩ σ).2 = ⟨404, .none⟩ := by
  obtain ⟨app, hs⟩ := flowStarted false
  obtain ⟨⟨sid, auth, st⟩, h⟩ := C62_initiate_succeeds hs none (buildId 5) c!"drawn" []
  have h' : VerifierApp.initiate app none (buildId 5) c!"drawn" [] =
    ((VerifierApp.initiate app none (buildId 5) c!"drawn" []).1, .ok (sid, auth, st)) := by rw [← h]
  obtain ⟨v, h1, h2⟩ := C82_status_address_not_found hs h' rfl rfl rfl
  refine ⟨app, sid, auth, st, _, v, h', ?_, h1, by rw [h2 _ _ _ _ _ rfl rfl]⟩
  exact (C82_addresses (u := flowUrl) (seg := c!"request") ⟨[], [], .inl rfl, by decide, rfl⟩ (toyServer app) (buildId 6)
    (buildId 7) ⟨c!"GET", c!"/request/" ++ (buildId 5).print, none, none, []⟩ rfl []).1 (.inr ⟨[], rfl, by decide⟩)

/-- The answers to some other requests. -/
example (app : App) (id drawn : Uuid) :
    (serve (toyServer app) id drawn ⟨c!"PUT", c!"/status/x", none, none, []⟩ routeStore).2 = ⟨405, .none⟩ ∧
    (serve (toyServer app) id drawn ⟨c!"OPTIONS", c!"/nowhere", none, none, []⟩ routeStore).2 = ⟨200, .none⟩ ∧
    (serve (toyServer app) id drawn ⟨c!"GET", c!"/status/", none, none, []⟩ routeStore).2 = ⟨404, .none⟩ ∧
    (serve (toyServer app) id drawn ⟨c!"GET", c!"/request/%FF", none, none, []⟩ routeStore).2 = ⟨400, .none⟩ ∧
    (serve (toyServer app) id drawn ⟨c!"GET", c!"/health", none, none, []⟩ routeStore).2 = health := by
  refine ⟨?_, ?_, ?_, ?_, ?_⟩ <;> rfl

end Oid4vp
