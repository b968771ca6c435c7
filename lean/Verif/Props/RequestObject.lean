import Verif.Spec.Request
import Verif.Props.Params
/-!
# C04, C05, C06: request objects
-/

set_option autoImplicit false

namespace Oid4vp

open Spec

theorem get_text {α : Type} [TypedParameter α] {f : Str → α}
    (h : ∀ j, TypedParameter.ofJson j = (strOfJson j).map f) (o : UntypedObject) (a : α) :
    UntypedObject.get α o = some (.ok a) ↔ ∃ s, HasText o (TypedParameter.key α) s ∧ f s = a := by
  simp only [UntypedObject.get, HasText]
  cases hg : mget (TypedParameter.key α) o with
  | none => simp
  | some j =>
    simp only [h, Option.some.injEq]
    rw [map_ok_iff]
    simp only [strOfJson_ok]

theorem get_none {α : Type} [TypedParameter α] (o : UntypedObject) :
    UntypedObject.get α o = none ↔ Absent o (TypedParameter.key α) := by
  simp only [UntypedObject.get, Absent]
  cases mget (TypedParameter.key α) o <;> simp

theorem transposeGet_ok {α : Type} {x : Option (Res α)} {y : Option α} :
    transposeGet x = .ok y ↔ x = y.map .ok := by
  cases x with
  | none => cases y <;> simp [transposeGet]
  | some r => cases r <;> cases y <;> simp [transposeGet]

theorem parsingError_ok {α : Type} {x : Option (Res α)} {a : α} :
    parsingError x = .ok a ↔ x = some (.ok a) := by
  cases x with
  | none => simp [parsingError]
  | some r => simp [parsingError]

theorem knownMode_iff {s : Str} {m : ResponseMode} :
    KnownMode s m ↔ ResponseMode.ofStr s = m ∧ ∀ t, m ≠ .unsupported t := by
  constructor
  · intro h; cases h <;> exact ⟨rfl, by simp⟩
  · rintro ⟨rfl, h⟩
    have hk := C03_known_names s
    cases hm : ResponseMode.ofStr s with
    | directPost => rw [hk.1.mp hm]; exact .directPost
    | directPostJwt => rw [hk.2.1.mp hm]; exact .directPostJwt
    | dcApi => rw [hk.2.2.1.mp hm]; exact .dcApi
    | dcApiJwt => rw [hk.2.2.2.1.mp hm]; exact .dcApiJwt
    | unsupported t => exact absurd hm (h t)

theorem getMode_iff {o : UntypedObject} {m : ResponseMode} :
    (UntypedObject.getOrDefault ResponseMode o = .ok m ∧ ∀ t, m ≠ .unsupported t) ↔ AsksMode o m := by
  simp only [UntypedObject.getOrDefault, AsksMode, HasText, Absent, TypedParameter.key]
  cases mget c!"response_mode" o with
  | none =>
    simp only [Except.ok.injEq, RDefault.dflt]
    constructor
    · rintro ⟨rfl, -⟩; exact .inl ⟨by trivial, rfl⟩
    · rintro (⟨-, rfl⟩ | ⟨s, h, -⟩)
      · exact ⟨rfl, by simp⟩
      · simp at h
  | some j =>
    simp only [TypedParameter.ofJson, reduceCtorEq, false_and, false_or, Option.some.injEq]
    rw [map_ok_iff]
    constructor
    · rintro ⟨⟨s, hs, h⟩, hu⟩
      exact ⟨s, strOfJson_ok.mp hs, knownMode_iff.mpr ⟨h, hu⟩⟩
    · rintro ⟨s, rfl, h⟩
      exact ⟨⟨s, rfl, (knownMode_iff.mp h).1⟩, (knownMode_iff.mp h).2⟩

theorem typeOf_iff {s : Str} {t : ResponseType} : TypeOf s t ↔ ResponseType.ofStr s = t := by
  have hk := C03_known_names s
  have hkeep := C03_response_type.1 s
  constructor
  · rintro (⟨h, rfl⟩ | ⟨h, rfl⟩ | ⟨h1, h2, rfl⟩)
    · exact hk.2.2.2.2.1.mpr h
    · exact hk.2.2.2.2.2.1.mpr h
    · simp only [ResponseType.ofStr]; rw [if_neg h1, if_neg h2]
  · rintro rfl
    cases h : ResponseType.ofStr s with
    | vpToken => exact .inl ⟨hk.2.2.2.2.1.mp h, rfl⟩
    | vpTokenIdToken => exact .inr (.inl ⟨hk.2.2.2.2.2.1.mp h, rfl⟩)
    | unsupported t =>
      rw [h] at hkeep
      have e : t = s := hkeep
      subst e
      refine .inr (.inr ⟨fun e => ?_, fun e => ?_, rfl⟩)
      · rw [hk.2.2.2.2.1.mpr e] at h; cases h
      · rw [hk.2.2.2.2.2.1.mpr e] at h; cases h

theorem contains_colon (s : Str) : contains c!":" s = true ↔ ':' ∈ s := by
  induction s with
  | nil => simp [contains, startsWith, stripPrefix]
  | cons c s ih =>
    simp only [contains, Bool.or_eq_true, ih, List.mem_cons]
    have : startsWith c!":" (c :: s) = true ↔ ':' = c := by
      rw [startsWith_iff]
      constructor
      · rintro ⟨r, h⟩; simp at h; exact h.1.symm
      · rintro rfl; exact ⟨s, rfl⟩
    rw [this]

theorem resolvePrefix_iff (c : ClientId) (p : Option ClientIdScheme) :
    c.resolvePrefix = p ↔ PrefixIs (some c) p := by
  have key : PrefixIs (some c) c.resolvePrefix := by
    simp only [ClientId.resolvePrefix]
    split
    · rename_i h
      rw [contains_colon] at h
      obtain ⟨a, b, hab, ha⟩ : ∃ a b, c.val = a ++ ':' :: b ∧ ':' ∉ a := by
        have := List.append_of_mem h
        cases hs : splitOnce ':' c.val with
        | none => exact absurd h (splitOnce_eq_none.mp hs)
        | some q => obtain ⟨a, b⟩ := q; have := splitOnce_eq_some.mp hs; exact ⟨a, b, this.1, this.2⟩
      rw [hab, splitOn_append ha]
      exact ⟨ha, b, hab⟩
    · rename_i h
      rw [contains_colon] at h
      exact h
  constructor
  · rintro rfl; exact key
  · intro hp
    generalize c.resolvePrefix = q at key
    cases p with
    | none =>
      cases q with
      | none => rfl
      | some q =>
        obtain ⟨-, r, hr⟩ := key
        simp only [PrefixIs] at hp
        rw [hr] at hp; simp at hp
    | some p =>
      obtain ⟨h1, r, hr⟩ := hp
      cases q with
      | none => simp only [PrefixIs] at key; rw [hr] at key; simp at key
      | some q =>
        obtain ⟨h2, r', hr'⟩ := key
        have e1 := splitOnce_append (b := r) h1
        have e2 := splitOnce_append (b := r') h2
        rw [← hr] at e1
        rw [← hr', e1] at e2
        simp only [Option.some.injEq, Prod.mk.injEq] at e2
        cases p; cases q; simp_all

theorem placeholder_url : Url.parse placeholderUri =
    some ⟨c!"https", some c!"example.com", c!"/", none, none⟩ := rfl

theorem returnAddress_ok {r1 : Option (Res RedirectUri)} {r2 : Option (Res ResponseUri)}
    {m : ResponseMode} {u : Url} :
    returnAddress r1 r2 m = .ok u ↔ (∀ t, m ≠ .unsupported t) ∧ r1 = none ∧
      ((IsDirectPost m ∧ r2 = some (.ok ⟨u⟩)) ∨
        (IsDcApi m ∧ r2 = none ∧ u = ⟨c!"https", some c!"example.com", c!"/", none, none⟩)) := by
  cases m <;> cases r1 <;> cases r2 <;>
    simp only [returnAddress, IsDirectPost, IsDcApi, map_ok_iff, placeholder_url, orErr, ne_eq,
      reduceCtorEq, not_false_eq_true, implies_true, true_and, false_and, and_false, or_self,
      or_false, false_or, or_true, Except.ok.injEq, Option.some.injEq, and_self,
      ResponseMode.unsupported.injEq, forall_eq']
  all_goals first
    | exact eq_comm
    | (constructor
       · rintro ⟨v, rfl, rfl⟩; rfl
       · rintro rfl; exact ⟨_, rfl, rfl⟩)

theorem responseUri_get {o : UntypedObject} {u : Url} :
    UntypedObject.get ResponseUri o = some (.ok ⟨u⟩) ↔
      ∃ s, HasText o c!"response_uri" s ∧ Url.parse s = some u := by
  simp only [UntypedObject.get, HasText, TypedParameter.key]
  cases mget c!"response_uri" o with
  | none => simp
  | some j =>
    simp only [TypedParameter.ofJson, Option.some.injEq]
    rw [map_ok_iff]
    constructor
    · rintro ⟨v, hv, h⟩
      cases h
      cases j <;> simp [Url.ofJson] at hv
      rename_i s
      refine ⟨s, rfl, ?_⟩
      cases hp : Url.parse s <;> simp_all [orErr]
    · rintro ⟨s, rfl, h⟩
      exact ⟨u, by simp [Url.ofJson, h, orErr], rfl⟩

theorem print_placeholder {u : Url} (h : u.WF) :
    u.print = c!"https://example.com/" ↔ u = ⟨c!"https", some c!"example.com", c!"/", none, none⟩ := by
  have hw : (⟨c!"https", some c!"example.com", c!"/", none, none⟩ : Url).WF :=
    Url.parse_wf placeholder_url
  constructor
  · intro e; exact Url.print_inj h hw (e.trans rfl)
  · rintro rfl; rfl

/-- Exactly which object results from parsing. -/
theorem ofObject_iff {o : UntypedObject} {a : RequestObject} :
    RequestObject.ofObject o = .ok a ↔ a.inner = o ∧ Absent o c!"redirect_uri" ∧ Reports o a ∧
      (IsDcApi a.responseMode → Absent o c!"response_uri" ∧ a.returnUri.WF) := by
  obtain ⟨inner, cid, sch, mode, rt, uri, nonce⟩ := a
  have hcid : ∀ x : Option ClientId, transposeGet (UntypedObject.get ClientId o) = .ok x ↔ ClientIdIs o x := by
    intro x
    rw [transposeGet_ok]
    cases x with
    | none => exact get_none (α := ClientId) o
    | some c =>
      rw [Option.map_some, get_text (f := .mk) (fun _ => rfl)]
      simp only [ClientIdIs]
      constructor
      · rintro ⟨s, h, rfl⟩; exact h
      · intro h; exact ⟨c.val, h, rfl⟩
  have hrt : ∀ x, parsingError (UntypedObject.get ResponseType o) = .ok x ↔
      ∃ s, HasText o c!"response_type" s ∧ TypeOf s x := by
    intro x
    rw [parsingError_ok, get_text (f := ResponseType.ofStr) (fun _ => rfl)]
    simp only [typeOf_iff]; rfl
  have hn : ∀ x : Nonce, parsingError (UntypedObject.get Nonce o) = .ok x ↔ HasText o c!"nonce" x.val := by
    intro x
    rw [parsingError_ok, get_text (f := .mk) (fun _ => rfl)]
    constructor
    · rintro ⟨s, h, rfl⟩; exact h
    · intro h; exact ⟨x.val, h, rfl⟩
  have hsch : ∀ x : Option ClientId, (match x with | some c => c.resolvePrefix | none => none) = sch ↔
      PrefixIs x sch := by
    intro x
    cases x with
    | none => simp [PrefixIs, eq_comm]
    | some c => exact resolvePrefix_iff c sch
  have hredirect : UntypedObject.get RedirectUri o = none ↔ Absent o c!"redirect_uri" := get_none o
  have hresponse : UntypedObject.get ResponseUri o = none ↔ Absent o c!"response_uri" := get_none o
  constructor
  · intro h
    simp only [RequestObject.ofObject] at h
    cases h1 : transposeGet (UntypedObject.get ClientId o) with
    | error e => rw [h1] at h; simp at h
    | ok x1 =>
      rw [h1] at h; simp only at h
      cases h2 : UntypedObject.getOrDefault ResponseMode o with
      | error e => rw [h2] at h; simp at h
      | ok x2 =>
        rw [h2] at h; simp only at h
        cases h3 : returnAddress (UntypedObject.get RedirectUri o) (UntypedObject.get ResponseUri o) x2 with
        | error e => rw [h3] at h; simp at h
        | ok x3 =>
          rw [h3] at h; simp only at h
          cases h4 : parsingError (UntypedObject.get ResponseType o) with
          | error e => rw [h4] at h; simp at h
          | ok x4 =>
            rw [h4] at h; simp only at h
            cases h5 : parsingError (UntypedObject.get Nonce o) with
            | error e => rw [h5] at h; simp at h
            | ok x5 =>
              rw [h5] at h
              simp only [Except.ok.injEq, RequestObject.mk.injEq] at h
              obtain ⟨rfl, rfl, h6, rfl, rfl, rfl, rfl⟩ := h
              obtain ⟨hu, hr1, hr2⟩ := returnAddress_ok.mp h3
              refine ⟨rfl, hredirect.mp hr1,
                ⟨(hcid _).mp h1, (hsch _).mp h6, getMode_iff.mp ⟨h2, hu⟩, (hrt _).mp h4,
                  (hn _).mp h5, ?_, ?_⟩, ?_⟩
              · intro hm
                rcases hr2 with ⟨-, hr⟩ | ⟨hm', -⟩
                · exact responseUri_get.mp hr
                · rcases hm with hm | hm <;> rcases hm' with hm' | hm' <;> simp_all
              · intro hm
                rcases hr2 with ⟨hm', -⟩ | ⟨-, -, rfl⟩
                · rcases hm with hm | hm <;> rcases hm' with hm' | hm' <;> simp_all
                · rfl
              · intro hm
                rcases hr2 with ⟨hm', -⟩ | ⟨-, hr, rfl⟩
                · rcases hm with hm | hm <;> rcases hm' with hm' | hm' <;> simp_all
                · exact ⟨hresponse.mp hr, Url.parse_wf placeholder_url⟩
  · rintro ⟨hi, hred, ⟨r1, r2, r3, r4, r5, r6, r7⟩, hdc⟩
    simp only at hi r1 r2 r3 r4 r5 r6 r7 hdc
    subst hi
    obtain ⟨hm, hu⟩ := getMode_iff.mpr r3
    have hret : returnAddress (UntypedObject.get RedirectUri inner) (UntypedObject.get ResponseUri inner) mode = .ok uri := by
      refine returnAddress_ok.mpr ⟨hu, hredirect.mpr hred, ?_⟩
      cases mode with
      | directPost => exact .inl ⟨.inl rfl, responseUri_get.mpr (r6 (.inl rfl))⟩
      | directPostJwt => exact .inl ⟨.inr rfl, responseUri_get.mpr (r6 (.inr rfl))⟩
      | dcApi =>
        obtain ⟨ha, hw⟩ := hdc (.inl rfl)
        exact .inr ⟨.inl rfl, hresponse.mpr ha, (print_placeholder hw).mp (r7 (.inl rfl))⟩
      | dcApiJwt =>
        obtain ⟨ha, hw⟩ := hdc (.inr rfl)
        exact .inr ⟨.inr rfl, hresponse.mpr ha, (print_placeholder hw).mp (r7 (.inr rfl))⟩
      | unsupported t => exact absurd rfl (hu t)
    simp only [RequestObject.ofObject, (hcid _).mpr r1, hm, hret, (hrt _).mpr r4, (hn _).mpr r5]
    have := (hsch cid).mpr r2
    cases cid <;> simp_all

/-- **C04** Parameters are accepted as a request object exactly under the stated conditions. -/
theorem C04_accepted_iff (o : UntypedObject) :
    (∃ a, RequestObject.ofObject o = .ok a) ↔ Acceptable o := by
  constructor
  · rintro ⟨a, h⟩
    obtain ⟨rfl, h1, h2, h3⟩ := ofObject_iff.mp h
    refine ⟨?_, h1, ⟨a.responseMode, h2.mode, ?_⟩, ?_, ⟨_, h2.nonce⟩⟩
    · have := h2.clientId
      cases hc : a.clientId with
      | none => rw [hc] at this; exact .inl this
      | some c => rw [hc] at this; exact .inr ⟨_, this⟩
    · have := (getMode_iff.mpr h2.mode).2
      cases hm : a.responseMode with
      | directPost =>
        obtain ⟨s, hs⟩ := h2.directPost (.inl hm)
        exact .inl ⟨.inl rfl, s, _, hs⟩
      | directPostJwt =>
        obtain ⟨s, hs⟩ := h2.directPost (.inr hm)
        exact .inl ⟨.inr rfl, s, _, hs⟩
      | dcApi => exact .inr ⟨.inl rfl, (h3 (.inl hm)).1⟩
      | dcApiJwt => exact .inr ⟨.inr rfl, (h3 (.inr hm)).1⟩
      | unsupported t => exact absurd hm (this t)
    · obtain ⟨s, hs, -⟩ := h2.responseType; exact ⟨s, hs⟩
  · rintro ⟨hc, hr, ⟨m, hm, hmode⟩, ⟨t, ht⟩, ⟨n, hn⟩⟩
    obtain ⟨cid, hcid⟩ : ∃ cid, ClientIdIs o cid := by
      rcases hc with hc | ⟨s, hs⟩
      · exact ⟨none, hc⟩
      · exact ⟨some ⟨s⟩, hs⟩
    obtain ⟨sch, hsch⟩ : ∃ sch, PrefixIs cid sch := by
      cases cid with
      | none => exact ⟨none, rfl⟩
      | some c => exact ⟨_, (resolvePrefix_iff c _).mp rfl⟩
    rcases hmode with ⟨hd, s, u, hs, hu⟩ | ⟨hd, ha⟩
    · refine ⟨⟨o, cid, sch, m, _, u, ⟨n⟩⟩, ofObject_iff.mpr ⟨rfl, hr,
        ⟨hcid, hsch, hm, ⟨t, ht, typeOf_iff.mpr rfl⟩, hn, fun _ => ⟨s, hs, hu⟩, ?_⟩, ?_⟩⟩
      · intro h
        rcases hd with hd | hd <;> rcases h with h | h <;> simp_all
      · intro h
        rcases hd with hd | hd <;> rcases h with h | h <;> simp_all
    · refine ⟨⟨o, cid, sch, m, _, ⟨c!"https", some c!"example.com", c!"/", none, none⟩, ⟨n⟩⟩,
        ofObject_iff.mpr ⟨rfl, hr,
        ⟨hcid, hsch, hm, ⟨t, ht, typeOf_iff.mpr rfl⟩, hn, ?_, fun _ => rfl⟩,
          fun _ => ⟨ha, Url.parse_wf placeholder_url⟩⟩⟩
      intro h
      rcases hd with hd | hd <;> rcases h with h | h <;> simp_all

/-- **C04** The return address: the `response_uri` for the direct_post modes, a fixed address
otherwise. -/
theorem C04_return_address {o : UntypedObject} {a : RequestObject}
    (h : RequestObject.ofObject o = .ok a) :
    (IsDirectPost a.responseMode → ∃ s, HasText o c!"response_uri" s ∧ Url.parse s = some a.returnUri) ∧
    (IsDcApi a.responseMode → a.returnUri.print = c!"https://example.com/") ∧
    (IsDirectPost a.responseMode ∨ IsDcApi a.responseMode) := by
  obtain ⟨-, -, h2, -⟩ := ofObject_iff.mp h
  refine ⟨h2.directPost, h2.dcApi, ?_⟩
  have := (getMode_iff.mpr h2.mode).2
  cases hm : a.responseMode with
  | unsupported t => exact absurd hm (this t)
  | _ => simp [IsDirectPost, IsDcApi]

/-- **C05** What the accessors of a parsed request object report is what its parameters say,
and the parameters are kept unchanged. -/
theorem C05_accessors_agree {o : UntypedObject} {a : RequestObject}
    (h : RequestObject.ofObject o = .ok a) : a.toObject = o ∧ Reports a.toObject a := by
  obtain ⟨rfl, -, h2, -⟩ := ofObject_iff.mp h
  exact ⟨rfl, h2⟩

/-- **C05** Whether an ID token is asked for is what the parameters say. -/
theorem C05_id_token {o : UntypedObject} {a : RequestObject} (h : RequestObject.ofObject o = .ok a) :
    IdTokenAsked o a.isIdTokenRequested := by
  obtain ⟨rfl, -, h2, -⟩ := ofObject_iff.mp h
  obtain ⟨s, hs, ht⟩ := h2.responseType
  simp only [RequestObject.isIdTokenRequested]
  rcases ht with ⟨rfl, ht⟩ | ⟨rfl, ht⟩ | ⟨h1, h3, ht⟩
  · rw [ht]; exact hs
  · rw [ht]; exact hs
  · rw [ht]; exact ⟨s, hs, h1, h3⟩

/-- **C05** Converting a parsed request object to parameters and parsing again gives the same
object. -/
theorem C05_reparse {o : UntypedObject} {a : RequestObject}
    (h : RequestObject.ofObject o = .ok a) : RequestObject.ofObject a.toObject = .ok a := by
  rw [(C05_accessors_agree h).1, h]

/-- Parameters of an ordinary request. -/
def requestSample : UntypedObject :=
  [(c!"client_id", .str c!"x509_san_dns:verifier.example"), (c!"nonce", .str c!"n"),
   (c!"response_type", .str c!"vp_token"), (c!"response_uri", .str c!"https://verifier.example/r")]

/-- The request object of these parameters. -/
def requestSampleObject : RequestObject :=
  { inner := requestSample, clientId := some ⟨c!"x509_san_dns:verifier.example"⟩,
    clientIdScheme := some ⟨c!"x509_san_dns"⟩, responseMode := .directPost, responseType := .vpToken,
    returnUri := ⟨c!"https", some c!"verifier.example", c!"/r", none, none⟩, nonce := ⟨c!"n"⟩ }

theorem requestSample_ok : RequestObject.ofObject requestSample = .ok requestSampleObject := by decide

example : Acceptable requestSample := (C04_accepted_iff _).mp ⟨_, requestSample_ok⟩
example : ¬ Acceptable (mdel c!"nonce" requestSample) := fun h => by
  obtain ⟨s, hs⟩ := h.nonce
  simp [HasText, requestSample, mdel, mget] at hs

/-! ## C06 -/

/-- The parameters the accessors stand for. -/
def accessorKeys : List Str :=
  [c!"client_id", c!"response_mode", c!"response_type", c!"response_uri", c!"nonce"]

/-- **C06 (partial)** After an edit that leaves the parameters behind the accessors alone, the
accessors still report what the parameters say.

Missing: the claim for all edits; it is false, see `C06_stale_after_edit`. -/
theorem C06_accessors_after_edit_partial {o : UntypedObject} {a : RequestObject}
    (h : RequestObject.ofObject o = .ok a) (f : UntypedObject → UntypedObject)
    (hf : ∀ k ∈ accessorKeys, mget k (f o) = mget k o) :
    Reports (a.edit f).toObject (a.edit f) := by
  obtain ⟨rfl, -, ⟨r1, r2, r3, r4, r5, r6, r7⟩, -⟩ := ofObject_iff.mp h
  simp only [accessorKeys, List.mem_cons, List.not_mem_nil, or_false, forall_eq_or_imp,
    forall_eq] at hf
  obtain ⟨k1, k2, k3, k4, k5⟩ := hf
  refine ⟨?_, r2, ?_, ?_, ?_, ?_, r7⟩
  · simp only [RequestObject.edit, RequestObject.toObject]
    cases hc : a.clientId with
    | none => rw [hc] at r1; exact k1.trans r1
    | some c => rw [hc] at r1; exact k1.trans r1
  · rcases r3 with ⟨ha, hm⟩ | ⟨s, hs, hm⟩
    · exact .inl ⟨k2.trans ha, hm⟩
    · exact .inr ⟨s, k2.trans hs, hm⟩
  · obtain ⟨s, hs, ht⟩ := r4; exact ⟨s, k3.trans hs, ht⟩
  · exact k5.trans r5
  · intro hm
    obtain ⟨s, hs, ht⟩ := r6 hm
    exact ⟨s, k4.trans hs, ht⟩

/-- **C06** After any edit the accessors still report what the parameters said *before* the
edit. -/
theorem C06_accessors_report_old {o : UntypedObject} {a : RequestObject}
    (h : RequestObject.ofObject o = .ok a) (f : UntypedObject → UntypedObject) :
    Reports o (a.edit f) ∧ (a.edit f).toObject = f o := by
  obtain ⟨rfl, -, ⟨r1, r2, r3, r4, r5, r6, r7⟩, -⟩ := ofObject_iff.mp h
  exact ⟨⟨r1, r2, r3, r4, r5, r6, r7⟩, rfl⟩

/-- **C06** Exactly which edits keep the accessors in agreement (of those that keep out `redirect_uri` and,
for the Digital Credentials API, `response_uri`): the edits after which reading the parameters again
gives the edited object. -/
theorem C06_agree_iff {o : UntypedObject} {a : RequestObject} (h : RequestObject.ofObject o = .ok a)
    (f : UntypedObject → UntypedObject) (hr : Absent (f o) c!"redirect_uri")
    (hu : IsDcApi a.responseMode → Absent (f o) c!"response_uri") :
    Reports (a.edit f).toObject (a.edit f) ↔ RequestObject.ofObject (f o) = .ok (a.edit f) := by
  obtain ⟨rfl, -, -, hd⟩ := ofObject_iff.mp h
  rw [ofObject_iff]
  exact ⟨fun hrep => ⟨rfl, hr, hrep, fun hm => ⟨hu hm, (hd hm).2⟩⟩, fun h => h.2.2.1⟩

/-- **C06** The claim for all edits is false: overwriting the nonce of a parsed object leaves
the accessor with the old one. -/
theorem C06_stale_after_edit :
    ¬ ∀ (o : UntypedObject) (a : RequestObject) (f : UntypedObject → UntypedObject),
      RequestObject.ofObject o = .ok a → Reports (a.edit f).toObject (a.edit f) := by
  intro h
  have := (h _ _ (mset c!"nonce" (.str c!"m")) requestSample_ok).nonce
  revert this
  simp only [HasText]
  decide

-- writing out the default response mode changes a parameter but keeps the accessors in agreement
example : Reports (requestSampleObject.edit (mset c!"response_mode" (.str c!"direct_post"))).toObject
    (requestSampleObject.edit (mset c!"response_mode" (.str c!"direct_post"))) :=
  (C06_agree_iff requestSample_ok _ (by simp only [Absent]; decide)
    (by rintro (h | h) <;> cases h)).mpr (by decide)

example : ∀ k ∈ accessorKeys, mget k (mset c!"state" (.str c!"s") requestSample) =
    mget k requestSample := by decide

end Oid4vp
