import Verif.Lemmas.JsonWf
import Verif.Lemmas.FormB
import Verif.Lemmas.Url
import Verif.Props.FormText
import Verif.Props.Params
import Verif.Props.Validate
import Verif.Spec.Response
/-!
# C28, C35, C36, C37, C69: responses and their submission
-/

set_option autoImplicit false

namespace Oid4vp

/-! ## VP tokens as text -/

theorem itemOf_iff {j : Json} {i : VpTokenItem} : VpTokenItem.ofJson j = .ok i ↔ ItemOf j i := by
  constructor
  · intro h
    cases j with
    | str s => simp only [VpTokenItem.ofJson, Except.ok.injEq] at h; subst h; exact .string s
    | obj m =>
      simp only [VpTokenItem.ofJson, Except.ok.injEq] at h
      subst h
      exact .jsonObject _ _ (by rw [Json.norm])
    | _ => simp [VpTokenItem.ofJson] at h
  · intro h
    cases h with
    | string s => rfl
    | jsonObject m m' hm =>
      rw [Json.norm, Json.obj.injEq] at hm
      simp [VpTokenItem.ofJson, hm]

theorem member_iff {p : Str × Json} {q : Str × List VpTokenItem} :
    VpToken.memberOfJson p = .ok q ↔
      q.1 = p.1 ∧ ∃ l, p.2 = .arr l ∧ List.Forall₂ ItemOf l q.2 := by
  obtain ⟨k, j⟩ := p
  obtain ⟨k', is⟩ := q
  simp only [VpToken.memberOfJson, map_ok_iff, Prod.mk.injEq]
  constructor
  · rintro ⟨l, h, rfl, rfl⟩
    cases j with
    | arr js =>
      refine ⟨rfl, js, rfl, ?_⟩
      have := mapR_eq_ok.mp h
      exact this.imp fun _ _ h => itemOf_iff.mp h
    | _ => simp [vecOfJson] at h
  · rintro ⟨rfl, l, rfl, h⟩
    exact ⟨is, mapR_eq_ok.mpr (h.imp fun _ _ h => itemOf_iff.mpr h), rfl, rfl⟩

theorem mget_eq_none_iff {α : Type} {k : Str} {l : List (Str × α)} :
    mget k l = none ↔ ∀ p ∈ l, p.1 ≠ k := by
  induction l with
  | nil => simp [mget]
  | cons p l ih =>
    obtain ⟨k', v⟩ := p
    by_cases h : k' = k
    · subst h; simp [mget]
    · have h' : k ≠ k' := fun e => h e.symm
      simp only [mget, if_neg h', ih, List.mem_cons, forall_eq_or_imp]
      simp [h]

theorem mapR_last {α β : Type} {f : Str × α → Res (Str × β)} {m : List (Str × α)}
    {l : List (Str × β)} (hf : ∀ p q, f p = .ok q → q.1 = p.1)
    (h : List.Forall₂ (fun a b => f a = .ok b) m l) (k : Str) (x : β) :
    mget k l.reverse = some x ↔ ∃ before after v, m = before ++ (k, v) :: after ∧
      (∀ p ∈ after, p.1 ≠ k) ∧ f (k, v) = .ok (k, x) := by
  induction h with
  | nil => simp
  | @cons p q m l hpq hml ih =>
    have hkeys : (∀ p ∈ m, p.1 ≠ k) ↔ mget k l.reverse = none := by
      rw [mget_eq_none_iff]
      clear ih
      induction hml with
      | nil => simp
      | cons h1 _ ih2 =>
        rw [List.forall_mem_cons, ih2, ← hf _ _ h1]
        simp [and_comm, or_imp, forall_and]
    rw [List.reverse_cons, mget_append]
    cases hg : mget k l.reverse with
    | some y =>
      rw [hg] at ih
      simp only [Option.some_or]
      rw [ih]
      constructor
      · rintro ⟨b, a, v, rfl, h2, h3⟩; exact ⟨p :: b, a, v, rfl, h2, h3⟩
      · rintro ⟨b, a, v, h1, h2, h3⟩
        cases b with
        | nil =>
          simp only [List.nil_append, List.cons.injEq] at h1
          obtain ⟨_, rfl⟩ := h1
          rw [hkeys.mp h2] at hg; simp at hg
        | cons p' b =>
          simp only [List.cons_append, List.cons.injEq] at h1
          exact ⟨b, a, v, h1.2, h2, h3⟩
    | none =>
      have hn := hkeys.mpr hg
      simp only [Option.none_or]
      obtain ⟨k1, v1⟩ := p
      obtain ⟨k2, x2⟩ := q
      have := hf _ _ hpq
      simp only at this
      subst this
      constructor
      · intro h
        by_cases hk : k = k2
        · subst hk
          simp only [mget, if_true, Option.some.injEq] at h
          subst h
          exact ⟨[], m, v1, rfl, hn, hpq⟩
        · simp [mget, hk] at h
      · rintro ⟨b, a, v, h1, h2, h3⟩
        cases b with
        | nil =>
          simp only [List.nil_append, List.cons.injEq, Prod.mk.injEq] at h1
          obtain ⟨⟨rfl, rfl⟩, rfl⟩ := h1
          rw [hpq] at h3
          simp only [Except.ok.injEq, Prod.mk.injEq, true_and] at h3
          simp [mget, h3]
        | cons p' b =>
          simp only [List.cons_append, List.cons.injEq] at h1
          exact absurd rfl (hn (k, v) (by rw [h1.2]; simp))

theorem forall₂_exists {α β : Type} {R : α → β → Prop} {l : List α}
    (h : ∀ a ∈ l, ∃ b, R a b) : ∃ l', List.Forall₂ R l l' := by
  induction l with
  | nil => exact ⟨[], .nil⟩
  | cons a l ih =>
    obtain ⟨b, hb⟩ := h a (by simp)
    obtain ⟨l', hl⟩ := ih (fun a ha => h a (List.mem_cons_of_mem _ ha))
    exact ⟨b :: l', .cons hb hl⟩

theorem forall₂_left {α β : Type} {R : α → β → Prop} {l : List α} {l' : List β}
    (h : List.Forall₂ R l l') : ∀ a ∈ l, ∃ b, R a b := by
  induction h with
  | nil => simp
  | cons h1 _ ih => simp only [List.mem_cons, forall_eq_or_imp]; exact ⟨⟨_, h1⟩, ih⟩

/-- Reading the JSON value of a VP token. -/
theorem tokenDoc_iff {j : Json} {t : VpToken} : VpToken.ofJson j = .ok t ↔ TokenDoc j t := by
  have key : ∀ m l, mapR VpToken.memberOfJson m = .ok l → ∀ k is,
      (mget k (mofList l) = some is ↔ ∃ before after js, m = before ++ (k, .arr js) :: after ∧
        (∀ p ∈ after, p.1 ≠ k) ∧ List.Forall₂ ItemOf js is) := by
    intro m l h k is
    rw [mget_mofList, mapR_last (fun p q h => (member_iff.mp h).1) (mapR_eq_ok.mp h)]
    constructor
    · rintro ⟨b, a, v, h1, h2, h3⟩
      obtain ⟨_, js, rfl, h4⟩ := member_iff.mp h3
      exact ⟨b, a, js, h1, h2, h4⟩
    · rintro ⟨b, a, js, h1, h2, h3⟩
      exact ⟨b, a, _, h1, h2, member_iff.mpr ⟨rfl, js, rfl, h3⟩⟩
  unfold TokenDoc
  constructor
  · intro h
    cases j with
    | obj m =>
      simp only [VpToken.ofJson] at h
      cases hm : mapR VpToken.memberOfJson m with
      | error e => simp [hm] at h
      | ok l =>
        simp only [hm, Except.ok.injEq] at h
        subst h
        refine ⟨m, rfl, mofList_sorted _, ?_, key m l hm⟩
        intro p hpm
        obtain ⟨q, hq⟩ := forall₂_left (mapR_eq_ok.mp hm) p hpm
        obtain ⟨_, js, h1, h2⟩ := member_iff.mp hq
        exact ⟨js, h1, forall₂_left h2⟩
    | _ => simp [VpToken.ofJson] at h
  · rintro ⟨m, rfl, hs, h1, h2⟩
    simp only [VpToken.ofJson]
    obtain ⟨l, hl⟩ := forall₂_exists (l := m) (R := fun a b => VpToken.memberOfJson a = .ok b) (by
      intro p hpm
      obtain ⟨js, h3, h4⟩ := h1 p hpm
      obtain ⟨is, hi⟩ := forall₂_exists h4
      exact ⟨(p.1, is), member_iff.mpr ⟨rfl, js, h3, hi⟩⟩)
    have hm := mapR_ok hl
    rw [hm]
    simp only [Except.ok.injEq]
    obtain ⟨tm⟩ := t
    simp only [VpToken.mk.injEq]
    refine map_ext (mofList_sorted _) hs fun k => ?_
    apply Option.ext
    intro is
    rw [key m l hm k is]
    exact (h2 k is).symm

/-- Reading the text of a VP token. -/
theorem tokenText_iff {s : Str} {t : VpToken} : VpToken.ofText s = .ok t ↔ TokenText s t := by
  unfold VpToken.ofText TokenText
  cases hp : jParseRaw s with
  | error e => simp
  | ok j =>
    simp only [tokenDoc_iff, TokenDoc, Except.ok.injEq]

/-! ## Reading form bodies -/

theorem valuesOf_eq (b : Bytes) (k : Str) :
    AuthorizationRequest.valuesOf k (formParseB b) = formValues b k := by
  unfold AuthorizationRequest.valuesOf formValues
  induction formParseB b with
  | nil => rfl
  | cons p l ih =>
    by_cases h : p.1 = k <;> simp [h, ih]

theorem formReq_ok {k v : Str} {b : Bytes} :
    formReq k (formParseB b) = .ok v ↔ formValues b k = [v] := by
  unfold formReq
  rw [valuesOf_eq]
  match formValues b k with
  | [] => simp
  | [x] => simp
  | x :: y :: l => simp

theorem formOpt_ok {k : Str} {o : Option Str} {b : Bytes} :
    formOpt k (formParseB b) = .ok o ↔ formValues b k = o.toList := by
  unfold formOpt
  rw [valuesOf_eq]
  match formValues b k with
  | [] => cases o <;> simp
  | [x] => cases o <;> simp
  | x :: y :: l => cases o <;> simp

/-- **C37** A form body is read as a JWT response exactly if it has exactly one `response`
parameter, and the response is that parameter. -/
theorem C37_jwt_iff (b : Bytes) (r : Str) :
    AuthorizationResponse.ofForm b = .ok (.jwt r) ↔ formValues b c!"response" = [r] := by
  rw [← formReq_ok]
  simp only [AuthorizationResponse.ofForm]
  cases formReq c!"response" (formParseB b) with
  | ok v => simp
  | error e =>
    simp only [reduceCtorEq, iff_false]
    cases formReq c!"vp_token" (formParseB b) with
    | error e => simp
    | ok t =>
      simp only
      cases formOpt c!"state" (formParseB b) with
      | error e => simp
      | ok st => simp only; cases VpToken.ofText t <;> simp

/-- **C37** Otherwise it is accepted exactly as an unencoded response with exactly one
`vp_token`, which is the JSON text of that token, and at most one `state`. -/
theorem C37_unencoded_iff (b : Bytes) (u : UnencodedResponse) :
    AuthorizationResponse.ofForm b = .ok (.unencoded u) ↔
      (∀ r, formValues b c!"response" ≠ [r]) ∧
      (∃ s, formValues b c!"vp_token" = [s] ∧ TokenText s u.vpToken) ∧
      formValues b c!"state" = (u.state.map State.val).toList := by
  have hr : (∀ r, formValues b c!"response" ≠ [r]) ↔
      ∀ r, formReq c!"response" (formParseB b) ≠ .ok r := by
    simp only [ne_eq, formReq_ok]
  rw [hr]
  simp only [← formReq_ok, ← formOpt_ok, ← tokenText_iff]
  simp only [AuthorizationResponse.ofForm]
  cases formReq c!"response" (formParseB b) with
  | ok v => simp
  | error e =>
    cases formReq c!"vp_token" (formParseB b) with
    | error e => simp
    | ok t =>
      cases formOpt c!"state" (formParseB b) with
      | error e => simp
      | ok st =>
        obtain ⟨tok, ust⟩ := u
        simp only [Except.ok.injEq, exists_eq_left']
        cases VpToken.ofText t with
        | error e => simp
        | ok tok' =>
          rcases st with _ | st
          · rcases ust with _ | ⟨ust⟩ <;> simp
          · rcases ust with _ | ust
            · simp
            · cases ust; simp

/-- **C37** A body that is neither is refused. -/
theorem C37_otherwise_refused (b : Bytes)
    (h1 : ∀ r, formValues b c!"response" ≠ [r])
    (h2 : ¬ ∃ s t, formValues b c!"vp_token" = [s] ∧ TokenText s t ∧
      (formValues b c!"state").length ≤ 1) :
    ∃ e, AuthorizationResponse.ofForm b = .error e := by
  cases h : AuthorizationResponse.ofForm b with
  | error e => exact ⟨e, rfl⟩
  | ok r =>
    exfalso
    cases r with
    | jwt r => exact h1 r ((C37_jwt_iff b r).mp h)
    | unencoded u =>
      obtain ⟨_, ⟨s, h3, h4⟩, h5⟩ := (C37_unencoded_iff b u).mp h
      refine h2 ⟨s, _, h3, h4, ?_⟩
      rw [h5]
      cases u.state <;> simp

/-- **C37** The encoding of an unencoded response is never read as a JWT response. -/
theorem C37_unencoded_never_jwt (ord : MapOrder) (u : UnencodedResponse) (r : Str) :
    AuthorizationResponse.ofForm (utf8 (u.toForm ord)) ≠ .ok (.jwt r) := by
  intro h
  have := (C37_jwt_iff _ _).mp h
  simp only [formValues, formParseB_utf8, UnencodedResponse.toForm, formParse_formSer,
    UnencodedResponse.fields] at this
  rcases hs : u.state with _ | s <;> simp [hs] at this

/-- A body with both kinds of parameters is a JWT response; a repeated `response` makes it an
unencoded one. -/
example : AuthorizationResponse.ofForm (utf8 c!"vp_token=%7B%7D&response=abc") = .ok (.jwt c!"abc") ∧
    AuthorizationResponse.ofForm (utf8 c!"response=a&vp_token=%7B%7D&response=abc&state=x+y") =
      .ok (.unencoded ⟨⟨[]⟩, some ⟨c!"x y"⟩⟩) ∧
    AuthorizationResponse.ofForm (utf8 c!"vp_token=%7B%22a%22%3A1%7D") = .error .parse := by
  decide +kernel

/-! ## What is posted is what is read -/

theorem toJson_depth {l : List (Str × List VpTokenItem)} {n : Nat} :
    (VpToken.toJson ⟨l⟩).depth ≤ n + 2 ↔
      ∀ p ∈ l, ∀ m, VpTokenItem.jsonObject m ∈ p.2 → (Json.obj m).depth ≤ n := by
  simp only [VpToken.toJson, Json.depth, Nat.add_le_add_iff_right, depthM_le, List.mem_map,
    forall_exists_index, and_imp, forall_apply_eq_imp_iff₂, depthL_le,
    show n + 2 = (n + 1) + 1 from rfl]
  constructor
  · intro h p hp m hm
    exact h p hp _ hm
  · intro h p hp i hi
    cases i with
    | string s => simp [VpTokenItem.toJson, Json.depth]
    | jsonObject m => exact h p hp m hi

theorem numOkL_of {l : List Json} (h : ∀ j ∈ l, j.NumOk) : Json.NumOkL l := by
  induction l with
  | nil => simp [Json.NumOkL]
  | cons j l ih =>
    exact ⟨h j (by simp), ih fun j hj => h j (List.mem_cons_of_mem _ hj)⟩

theorem numOkM_of {m : List (Str × Json)} (h : ∀ p ∈ m, p.2.NumOk) : Json.NumOkM m := by
  induction m with
  | nil => simp [Json.NumOkM]
  | cons j l ih =>
    obtain ⟨k, j⟩ := j
    exact ⟨h (k, j) (by simp), ih fun j hj => h j (List.mem_cons_of_mem _ hj)⟩

theorem toJson_numOk {l : List (Str × List VpTokenItem)}
    (h : ∀ p ∈ l, ∀ m, VpTokenItem.jsonObject m ∈ p.2 → (Json.obj m).WF FltLit) :
    (VpToken.toJson ⟨l⟩).NumOk := by
  simp only [VpToken.toJson, Json.NumOk]
  refine numOkM_of ?_
  simp only [List.mem_map, forall_exists_index, and_imp, forall_apply_eq_imp_iff₂, Json.NumOk]
  intro p hp
  refine numOkL_of ?_
  simp only [List.mem_map, forall_exists_index, and_imp, forall_apply_eq_imp_iff₂]
  intro i hi
  cases i with
  | string s => simp [VpTokenItem.toJson, Json.NumOk]
  | jsonObject m => exact numOk_of_WF _ (h p hp m hi)

/-- Reading the text of a token, whatever the order its members were written in. -/
theorem ofText_text {ord : MapOrder} (ho : ord.Fair) {t : VpToken} (hp : t.Proper)
    (hd : t.NestedAtMost 125) : VpToken.ofText (t.text ord) = .ok t := by
  obtain ⟨hs, hw⟩ := hp
  have hmem : ∀ p, p ∈ ord t.map ↔ p ∈ t.map := fun p => (ho t.map).mem_iff
  have hn : (VpToken.toJson ⟨ord t.map⟩).NumOk :=
    toJson_numOk fun p hp => hw p ((hmem p).mp hp)
  have hdep : (VpToken.toJson ⟨ord t.map⟩).depth ≤ jsonMaxDepth :=
    toJson_depth.mpr fun p hp => hd p ((hmem p).mp hp)
  simp only [VpToken.ofText, VpToken.text, jParseRaw_jPrint hdep hn]
  simp only [VpToken.toJson, VpToken.ofJson]
  have : mapR VpToken.memberOfJson
      ((ord t.map).map (fun p => (p.1, Json.arr (p.2.map VpTokenItem.toJson)))) =
      .ok (ord t.map) := by
    refine mapR_map_eq_self.mpr fun p hp => ?_
    refine member_iff.mpr ⟨rfl, _, rfl, ?_⟩
    rw [List.forall₂_map_left_iff]
    refine List.forall₂_same.mpr fun i hi => ?_
    cases i with
    | string s => exact .string s
    | jsonObject m => exact .jsonObject _ _ (norm_of_WF _ (hw p ((hmem p).mp hp) m hi))
  rw [this]
  simp only [mofList_perm hs (ho t.map)]

theorem ofText_deep {ord : MapOrder} (ho : ord.Fair) {t : VpToken} (hp : t.Proper)
    (hd : ¬ t.NestedAtMost 125) : VpToken.ofText (t.text ord) = .error .recursion := by
  obtain ⟨_, hw⟩ := hp
  have hmem : ∀ p, p ∈ ord t.map ↔ p ∈ t.map := fun p => (ho t.map).mem_iff
  have hn : (VpToken.toJson ⟨ord t.map⟩).NumOk :=
    toJson_numOk fun p hp => hw p ((hmem p).mp hp)
  have hdep : jsonMaxDepth < (VpToken.toJson ⟨ord t.map⟩).depth := by
    rw [← Nat.not_le]
    intro h
    exact hd fun p hp => toJson_depth.mp h p ((hmem p).mpr hp)
  simp only [VpToken.ofText, VpToken.text, jParseRaw_deep hdep hn]

theorem ofForm_jwt (s : Str) : AuthorizationResponse.ofForm (utf8 (jwtToForm s)) = .ok (.jwt s) := by
  rw [C37_jwt_iff, formValues, formParseB_utf8, jwtToForm, formParse_formSer]
  simp

theorem ofForm_unencoded (ord : MapOrder) (u : UnencodedResponse) :
    AuthorizationResponse.ofForm (utf8 (u.toForm ord)) =
      (VpToken.ofText (u.vpToken.text ord)).map fun t => .unencoded ⟨t, u.state⟩ := by
  obtain ⟨t, st⟩ := u
  simp only [AuthorizationResponse.ofForm, formParseB_utf8, UnencodedResponse.toForm,
    formParse_formSer, UnencodedResponse.fields]
  rcases st with _ | ⟨st⟩ <;>
    simp [formReq, formOpt, AuthorizationRequest.valuesOf] <;>
    cases VpToken.ofText (t.text ord) <;> rfl

/-- The calls of `submit_response`. -/
theorem submit_calls (ord : MapOrder) (w : Wallet) (a : RequestObject) (r : AuthorizationResponse)
    (q : HttpRequest) : q ∈ (w.submitResponse ord a r).1 ↔ w.uriOk a.returnUri.print = true ∧
      ((∃ u, a.responseMode = .directPost ∧ r = .unencoded u ∧
          q = postRequest a.returnUri (u.toForm ord)) ∨
       (∃ s, a.responseMode = .directPostJwt ∧ r = .jwt s ∧
          q = postRequest a.returnUri (jwtToForm s))) := by
  unfold Wallet.submitResponse
  cases hm : a.responseMode <;> cases r <;> simp [postAndRead] <;>
    by_cases hu : w.uriOk a.returnUri.print = true <;> simp [hu]

/-- **C28** Whatever the wallet posts for a JWT response is read by the verifier as that
response. -/
theorem C28_jwt_read_back (ord : MapOrder) (w : Wallet) (a : RequestObject) (s : Str)
    (q : HttpRequest) (h : q ∈ (w.submitResponse ord a (.jwt s)).1) :
    AuthorizationResponse.ofForm q.body = .ok (.jwt s) := by
  obtain ⟨_, ⟨u, _, h2, _⟩ | ⟨s', _, h2, rfl⟩⟩ := (submit_calls _ _ _ _ _).mp h
  · simp at h2
  · cases h2; exact ofForm_jwt s

/-- **C28** Whatever the wallet posts for an unencoded response is read by the verifier as
that response, whatever order the presentations are enumerated in, exactly if no presentation
nests deeper than the JSON reader's limit allows. -/
theorem C28_unencoded_read_back (ord : MapOrder) (ho : ord.Fair) (w : Wallet) (a : RequestObject)
    (u : UnencodedResponse) (hp : u.vpToken.Proper) (q : HttpRequest)
    (h : q ∈ (w.submitResponse ord a (.unencoded u)).1) :
    AuthorizationResponse.ofForm q.body = .ok (.unencoded u) ↔ u.vpToken.NestedAtMost 125 := by
  obtain ⟨_, ⟨u', _, h2, rfl⟩ | ⟨s', _, h2, rfl⟩⟩ := (submit_calls _ _ _ _ _).mp h
  · cases h2
    simp only [postRequest, ofForm_unencoded]
    by_cases hd : u.vpToken.NestedAtMost 125
    · simp only [ofText_text ho hp hd, hd, iff_true]; rfl
    · simp only [ofText_deep ho hp hd, hd, iff_false]; simp [Except.map]
  · simp at h2

/-- **C28** A response that nests deeper is refused by the verifier, never misread. -/
theorem C28_too_deep_refused (ord : MapOrder) (ho : ord.Fair) (w : Wallet) (a : RequestObject)
    (u : UnencodedResponse) (hp : u.vpToken.Proper) (q : HttpRequest)
    (h : q ∈ (w.submitResponse ord a (.unencoded u)).1) (hd : ¬ u.vpToken.NestedAtMost 125) :
    AuthorizationResponse.ofForm q.body = .error .recursion := by
  obtain ⟨_, ⟨u', _, h2, rfl⟩ | ⟨s', _, h2, rfl⟩⟩ := (submit_calls _ _ _ _ _).mp h
  · cases h2
    simp only [postRequest, ofForm_unencoded, ofText_deep ho hp hd, Except.map]
  · simp at h2

/-- **C28** A response made with a state is posted with that state, one made without is posted without. -/
theorem C28_state_posted (ord : MapOrder) (w : Wallet) (a : RequestObject) (t : VpToken) (s : State) (q : HttpRequest) :
    (q ∈ (w.submitResponse ord a (.unencoded (.withState t s))).1 →
      ∃ v, Spec.FormList q.body [(c!"vp_token", v), (c!"state", s.val)]) ∧
    (q ∈ (w.submitResponse ord a (.unencoded (.new t))).1 → ∃ v, Spec.FormList q.body [(c!"vp_token", v)]) := by
  constructor <;> intro h <;>
    obtain ⟨_, ⟨u', _, h2, rfl⟩ | ⟨s', _, h2, rfl⟩⟩ := (submit_calls _ _ _ _ _).mp h
  · cases h2
    refine ⟨t.text ord, (C10_form_body _ _).mp ?_⟩
    simp only [postRequest, formParseB_utf8, UnencodedResponse.toForm, formParse_formSer]
    rfl
  · cases h2
  · cases h2
    refine ⟨t.text ord, (C10_form_body _ _).mp ?_⟩
    simp only [postRequest, formParseB_utf8, UnencodedResponse.toForm, formParse_formSer]
    rfl
  · cases h2

/-- A response with two credentials, one of them a JSON object. -/
def submitSample : UnencodedResponse :=
  ⟨⟨[(c!"id & 1", [.string c!"eyJ+a=~", .jsonObject [(c!"x", .arr [.int (-3), .str c!"é\""])]]),
     (c!"pid", [])]⟩, some ⟨c!"st=1&vp_token"⟩⟩

theorem submitSample_proper : submitSample.vpToken.Proper := by
  refine ⟨by simp [submitSample, Sorted]; decide, ?_⟩
  intro p hp m hm
  simp [submitSample] at hp
  rcases hp with rfl | rfl
  · simp at hm; subst hm; simp [Json.WF, Json.WFM, Json.WFL, Sorted]
  · simp at hm

theorem submitSample_nested : submitSample.vpToken.NestedAtMost 125 := by
  intro p hp m hm
  simp [submitSample] at hp
  rcases hp with rfl | rfl
  · simp at hm; subst hm; decide
  · simp at hm

/-! ## C69: the JSON form -/

theorem stateDoc_iff {o : Option Json} {s : Option State} :
    StateDoc o s ↔ (match o with
      | none => s = none
      | some .null => s = none
      | some (.str x) => s = some ⟨x⟩
      | some _ => False) := by
  constructor
  · rintro (_ | _ | _) <;> rfl
  · cases o with
    | none => rintro rfl; exact .absent
    | some j => cases j <;> simp <;> rintro rfl <;> constructor

theorem fieldOpt_state {m : List (Str × Json)} {s : Option State} :
    (∃ x, fieldOpt c!"state" strOfJson m = .ok x ∧ x.map State.mk = s) ↔
      StateDoc (mget c!"state" m) s := by
  rw [stateDoc_iff]
  unfold fieldOpt
  cases mget c!"state" m with
  | none => simp [eq_comm]
  | some j => cases j <;> simp [strOfJson, Except.map, eq_comm]

theorem unencoded_ofJson {j : Json} {u : UnencodedResponse} :
    UnencodedResponse.ofJson j = .ok u ↔ PlainDoc j u := by
  have main : ∀ m : List (Str × Json), (∀ r, structFields [c!"vp_token", c!"state"] j = .ok r → r = m) →
      structFields [c!"vp_token", c!"state"] j = .ok m →
      (UnencodedResponse.ofJson j = .ok u ↔ ∃ tok, mget c!"vp_token" m = some tok ∧
        TokenDoc tok u.vpToken ∧ StateDoc (mget c!"state" m) u.state) := by
    intro m _ hm
    simp only [UnencodedResponse.ofJson, hm, fieldReq]
    cases mget c!"vp_token" m with
    | none => simp
    | some tok =>
      simp only [Option.some.injEq, exists_eq_left', ← tokenDoc_iff, ← fieldOpt_state]
      cases VpToken.ofJson tok with
      | error e => simp
      | ok t =>
        cases fieldOpt c!"state" strOfJson m with
        | error e => simp
        | ok x => obtain ⟨t', s'⟩ := u; simp
  cases j with
  | obj m =>
    rw [main m (by rintro r ⟨⟩; rfl) rfl]
    constructor
    · rintro ⟨tok, h1, h2, h3⟩; exact .obj m tok u h1 h2 h3
    · rintro (⟨_, tok, _, h1, h2, h3⟩ | _); exact ⟨tok, h1, h2, h3⟩
  | arr l =>
    match l with
    | [tok, st] =>
      rw [main [(c!"vp_token", tok), (c!"state", st)] (by rintro r ⟨⟩; rfl) rfl]
      constructor
      · rintro ⟨t, h1, h2, h3⟩
        cases h1
        exact .arr tok st u h2 h3
      · intro h
        cases h with
        | arr _ _ _ h1 h2 => exact ⟨tok, rfl, h1, h2⟩
    | [] => constructor <;> intro h <;> cases h
    | [_] => constructor <;> intro h <;> cases h
    | _ :: _ :: _ :: _ =>
      constructor
      · intro h
        simp [UnencodedResponse.ofJson, structFields] at h
      · intro h; cases h
  | _ => constructor <;> intro h <;> cases h

theorem jwt_ofJson {j : Json} {s : Str} :
    (∃ m, structFields [c!"response"] j = .ok m ∧ fieldReq c!"response" strOfJson m = .ok s) ↔
      JwtDoc j s := by
  have hstr : ∀ o : Option Json, (match o with
      | none => .error .missing
      | some j => strOfJson j) = (.ok s : Res Str) ↔ o = some (.str s) := by
    rintro (_ | j)
    · simp
    · cases j <;> simp [strOfJson]
  constructor
  · rintro ⟨m, h1, h2⟩
    cases j with
    | obj m' =>
      cases h1
      exact .obj _ _ ((hstr _).1 h2)
    | arr l =>
      match l, h1, h2 with
      | [x], h1, h2 =>
        cases h1
        have := (hstr (some x)).1 h2
        cases this
        exact .arr s
      | [], h1, _ => cases h1
      | _ :: _ :: _, h1, _ => simp [structFields] at h1
    | _ => cases h1
  · rintro (⟨m, _, h⟩ | _)
    · exact ⟨m, rfl, (hstr _).2 h⟩
    · exact ⟨_, rfl, rfl⟩

/-- **C69** A JSON value is read as an unencoded response exactly if it is the document of one. -/
theorem C69_plain_iff (j : Json) (u : UnencodedResponse) :
    AuthorizationResponse.ofJson j = .ok (.unencoded u) ↔ PlainDoc j u := by
  rw [← unencoded_ofJson]
  unfold AuthorizationResponse.ofJson
  cases UnencodedResponse.ofJson j with
  | ok r => simp
  | error e =>
    simp only [reduceCtorEq, iff_false]
    cases structFields [c!"response"] j with
    | error e => simp
    | ok m => cases hx : fieldReq c!"response" strOfJson m <;> simp [hx, Except.map]

/-- **C69** It is read as a JWT response exactly if it is the document of one and not of an unencoded
response. -/
theorem C69_jwt_iff (j : Json) (s : Str) :
    AuthorizationResponse.ofJson j = .ok (.jwt s) ↔ JwtDoc j s ∧ ∀ u, ¬PlainDoc j u := by
  simp only [← unencoded_ofJson, ← jwt_ofJson]
  unfold AuthorizationResponse.ofJson
  cases UnencodedResponse.ofJson j with
  | ok r => simp
  | error e =>
    simp only [reduceCtorEq, not_false_eq_true, implies_true, and_true]
    cases structFields [c!"response"] j with
    | error e => simp
    | ok m => cases hx : fieldReq c!"response" strOfJson m <;> simp [hx, Except.map]

/-- **C69** What is written for a response is read back as that response. -/
theorem C69_roundtrip (r : AuthorizationResponse) (h : ∀ u, r = .unencoded u → u.vpToken.Proper) :
    AuthorizationResponse.ofJson r.toJson = .ok r := by
  cases r with
  | jwt s =>
    refine (C69_jwt_iff _ _).2 ⟨.obj _ _ rfl, fun u hu => ?_⟩
    cases hu with
    | obj _ _ _ h1 => cases h1
  | unencoded u =>
    have ht := h u rfl
    have h1 : VpToken.ofJson u.vpToken.toJson = .ok u.vpToken :=
      vpToken_roundtrip ht.1 fun p hp m hm => wf_mono (fun _ _ => trivial) _ (ht.2 p hp m hm)
    refine (C69_plain_iff _ _).2 (.obj _ u.vpToken.toJson u ?_ (tokenDoc_iff.1 h1) ?_)
    · obtain ⟨t, _ | s⟩ := u <;> rfl
    · obtain ⟨t, _ | s⟩ := u
      · exact .absent
      · exact .string s.val

/-- **C69** The two written forms never coincide. -/
theorem C69_forms_differ (u : UnencodedResponse) (s : Str) :
    AuthorizationResponse.toJson (.unencoded u) ≠ AuthorizationResponse.toJson (.jwt s) := by
  obtain ⟨t, _ | st⟩ := u <;> (intro h; cases h)

/-- **C69** (a disagreement between the two readers) Parameters of both kinds are a JWT response in a
form, and an unencoded response in JSON. -/
theorem C69_both_kinds :
    AuthorizationResponse.ofForm (utf8 c!"response=abc&vp_token=%7B%7D") = .ok (.jwt c!"abc") ∧
      AuthorizationResponse.ofJson (.obj [(c!"response", .str c!"abc"), (c!"vp_token", .obj [])]) =
        .ok (.unencoded ⟨⟨[]⟩, none⟩) := by
  decide +kernel

/-- Documents of both kinds; the sample is one of the tokens covered. -/
example : submitSample.vpToken.Proper ∧ JwtDoc (.obj [(c!"response", .str c!"abc")]) c!"abc" ∧
    PlainDoc (UnencodedResponse.toJson submitSample) submitSample := by
  refine ⟨submitSample_proper, .obj _ _ rfl, (C69_plain_iff _ _).1 ?_⟩
  exact C69_roundtrip (.unencoded submitSample) (by rintro u ⟨⟩; exact submitSample_proper)

/-! ## Submitting -/

/-- **C35** `submit_response` makes an HTTP request only for the kind of response the mode
asks for, and then exactly one: a form POST to the request's return address, with the version
preference header. -/
theorem C35_one_post (ord : MapOrder) (w : Wallet) (a : RequestObject) (r : AuthorizationResponse)
    (hk : KindFor a r) (hu : w.uriOk a.returnUri.print = true) :
    ∃ q, (w.submitResponse ord a r).1 = [q] ∧ q.method = c!"POST" ∧ q.uri = a.returnUri.print ∧
      q.headers = [(c!"prefer", c!"OID4VP-1.0.0"),
        (c!"content-type", c!"application/x-www-form-urlencoded")] ∧
      (∀ s, r = .jwt s → formParseB q.body = [(c!"response", s)]) ∧
      (∀ u, r = .unencoded u → ∃ t, formParseB q.body =
        (c!"vp_token", t) :: (u.state.toList.map fun s => (c!"state", s.val))) := by
  rcases hk with ⟨hm, u, rfl⟩ | ⟨hm, s, rfl⟩
  · refine ⟨postRequest a.returnUri (u.toForm ord), by
      simp [Wallet.submitResponse, hm, postAndRead, hu], rfl, rfl, ?_, ?_, ?_⟩
    · rfl
    · simp
    · rintro u' h
      cases h
      refine ⟨u.vpToken.text ord, ?_⟩
      rcases hs : u.state with _ | s <;>
        simp [postRequest, formParseB_utf8, UnencodedResponse.toForm, formParse_formSer,
          UnencodedResponse.fields, hs]
  · refine ⟨postRequest a.returnUri (jwtToForm s), by
      simp [Wallet.submitResponse, hm, postAndRead, hu], rfl, rfl, ?_, ?_, ?_⟩
    · rfl
    · rintro s' h; cases h; simp [postRequest, formParseB_utf8, jwtToForm, formParse_formSer]
    · simp

/-- **C35** In the Digital Credentials API modes there is no HTTP request and no redirect. -/
theorem C35_dc_api (ord : MapOrder) (w : Wallet) (a : RequestObject) (r : AuthorizationResponse)
    (h : DcApiMode a) : w.submitResponse ord a r = ([], .ok none) := by
  rcases h with h | h <;> simp [Wallet.submitResponse, h]

/-- **C35** In every other case (another combination, or a return address the HTTP library
does not accept) the submission fails without any HTTP request. -/
theorem C35_otherwise_refused (ord : MapOrder) (w : Wallet) (a : RequestObject)
    (r : AuthorizationResponse) (h1 : ¬ (KindFor a r ∧ w.uriOk a.returnUri.print = true))
    (h2 : ¬ DcApiMode a) : ∃ e, w.submitResponse ord a r = ([], .error e) := by
  unfold DcApiMode at h2
  unfold KindFor at h1
  unfold Wallet.submitResponse
  cases hm : a.responseMode <;> cases r <;> simp [hm, postAndRead] at h1 h2 ⊢ <;>
    simp [h1]

/-- **C35** An error of the HTTP client is reported as such. -/
theorem C35_http_error (ord : MapOrder) (w : Wallet) (a : RequestObject)
    (r : AuthorizationResponse) (q : HttpRequest) (h : q ∈ (w.submitResponse ord a r).1)
    (e : Err) (he : w.http q = .error e) : (w.submitResponse ord a r).2 = .error e := by
  obtain ⟨hu, ⟨u, hm, rfl, rfl⟩ | ⟨s, hm, rfl, rfl⟩⟩ := (submit_calls _ _ _ _ _).mp h <;>
    simp [Wallet.submitResponse, hm, postAndRead, hu, he]

/-! ## The redirect -/

theorem isWhite_iff (c : Char) : isWhite c = true ↔ c.toNat ∈ whiteSpace := by
  simp only [isWhite, whiteSpace, Bool.or_eq_true, Bool.and_eq_true, decide_eq_true_eq,
    List.mem_cons, List.not_mem_nil, or_false]
  omega

theorem blank_iff (s : Str) : s.all isWhite = true ↔ Blank s := by
  simp [Blank, List.all_eq_true, isWhite_iff]

theorem success_iff (r : HttpResponse) : r.isSuccess = true ↔ Success r := by
  simp only [HttpResponse.isSuccess, Success, Bool.and_eq_true, decide_eq_true_eq]
  omega

theorem skipWs_mem {s : Str} {c : Char} {cs : Str} (h : skipWs s = c :: cs) : c ∈ s := by
  induction s with
  | nil => simp [skipWs] at h
  | cons x xs ih =>
    rw [skipWs] at h
    by_cases hx : isWs x = true
    · rw [if_pos hx] at h; exact List.mem_cons_of_mem _ (ih h)
    · rw [if_neg hx] at h; cases h; simp

/-- White space alone is not a JSON document. -/
theorem jParse_blank {s : Str} (h : Blank s) : jParse s = .error .parse := by
  have : ∀ sub, pVal sub s = .error .parse := by
    intro sub
    unfold pVal
    cases hs : skipWs s with
    | nil => rfl
    | cons c cs =>
      have hc := h c (skipWs_mem hs)
      have ne : ∀ d : Char, d.toNat ∉ whiteSpace → c ≠ d := by
        rintro d hd rfl; exact hd hc
      have hdig : isDigit c = false := by
        simp only [whiteSpace, List.mem_cons, List.not_mem_nil, or_false] at hc
        simp only [isDigit, Bool.and_eq_false_iff, decide_eq_false_iff_not]
        omega
      simp only [ne 'n' (by decide), ne 't' (by decide), ne 'f' (by decide), ne '"' (by decide),
        ne '[' (by decide), ne '{' (by decide), if_false, pNum, ne '-' (by decide), pUNum,
        spanDigits, hdig]
      simp
  have : pJson jsonMaxDepth s = .error .parse := this _
  simp only [jParse, jParseRaw, this]

theorem redirectsTo_iff {j : Json} {s : Str} :
    (j.get? c!"redirect_uri").bind Json.asStr? = some s ↔ RedirectsTo j s := by
  unfold RedirectsTo
  cases j with
  | obj m =>
    simp only [Json.get?, Json.obj.injEq, exists_eq_left']
    cases mget c!"redirect_uri" m with
    | none => simp
    | some v => cases v <;> simp [Json.asStr?]
  | _ => simp [Json.get?]

theorem bodyJson_iff {r : HttpResponse} {j : Json} {text : Str} (hb : utf8Dec r.body = some text) :
    BodyJson r j ↔ jParse text = .ok j := by
  unfold BodyJson
  constructor
  · rintro ⟨t, h1, h2⟩
    rw [h1, utf8Dec_utf8] at hb
    cases hb; exact h2
  · exact fun h => ⟨text, utf8Dec_eq_some.mp hb, h⟩

theorem redirectOf_some {r : HttpResponse} {u : Url} : redirectOf r = .ok (some u) ↔
    Success r ∧ ∃ j s, BodyJson r j ∧ RedirectsTo j s ∧ Url.parse s = some u := by
  rw [← success_iff]
  unfold redirectOf
  cases hb : utf8Dec r.body with
  | none =>
    simp only [reduceCtorEq, false_iff, not_and, not_exists]
    rintro _ j s ⟨t, h1, _⟩
    rw [h1, utf8Dec_utf8] at hb; cases hb
  | some text =>
    simp only [bodyJson_iff hb, ← redirectsTo_iff]
    by_cases hs : r.isSuccess = true
    · simp only [hs, if_true, true_and]
      by_cases hw : text.all isWhite = true
      · have := jParse_blank ((blank_iff _).mp hw)
        simp [hw, this]
      · rw [if_neg hw]
        cases jParse text with
        | error e => simp
        | ok j =>
          simp only [Except.ok.injEq, exists_and_left, exists_eq_left']
          cases (j.get? c!"redirect_uri").bind Json.asStr? with
          | none => simp
          | some s => simp only [Option.some.injEq, exists_eq_left']; cases Url.parse s <;> simp
    · simp [hs]

theorem redirectOf_none {r : HttpResponse} : redirectOf r = .ok none ↔
    Success r ∧ ((∃ text, r.body = utf8 text ∧ Blank text) ∨
      ∃ j, BodyJson r j ∧ ∀ s, ¬ RedirectsTo j s) := by
  rw [← success_iff]
  unfold redirectOf
  cases hb : utf8Dec r.body with
  | none =>
    simp only [reduceCtorEq, false_iff, not_and, not_or, not_exists]
    intro _
    constructor
    · rintro t h1; rw [h1, utf8Dec_utf8] at hb; cases hb
    · rintro j ⟨t, h1, _⟩; rw [h1, utf8Dec_utf8] at hb; cases hb
  | some text =>
    have hbl : (∃ text, r.body = utf8 text ∧ Blank text) ↔ Blank text := by
      rw [utf8Dec_eq_some.mp hb]
      constructor
      · rintro ⟨t, h1, h2⟩; rw [utf8_inj h1]; exact h2
      · exact fun h => ⟨text, rfl, h⟩
    rw [hbl]
    simp only [bodyJson_iff hb, ← redirectsTo_iff, ← blank_iff]
    by_cases hs : r.isSuccess = true
    · simp only [hs, if_true, true_and]
      by_cases hw : text.all isWhite = true
      · simp [hw]
      · rw [if_neg hw]
        simp only [hw, Bool.false_eq_true, false_or]
        cases jParse text with
        | error e => simp
        | ok j =>
          simp only [Except.ok.injEq, exists_eq_left']
          cases (j.get? c!"redirect_uri").bind Json.asStr? with
          | none => simp
          | some s => simp only; cases Url.parse s <;> simp
    · simp [hs]

theorem submit_result (ord : MapOrder) (w : Wallet) (a : RequestObject) (r : AuthorizationResponse)
    (q : HttpRequest) (h : q ∈ (w.submitResponse ord a r).1) (resp : HttpResponse)
    (hr : w.http q = .ok resp) : (w.submitResponse ord a r).2 = redirectOf resp := by
  obtain ⟨hu, ⟨u, hm, rfl, rfl⟩ | ⟨s, hm, rfl, rfl⟩⟩ := (submit_calls _ _ _ _ _).mp h <;>
    simp [Wallet.submitResponse, hm, postAndRead, hu, hr]

/-- **C36** After the POST a URL is returned exactly if the server answered 2xx with a UTF-8
JSON object whose `redirect_uri` is a string that is a valid URL, and it is that URL. -/
theorem C36_redirect_iff (ord : MapOrder) (w : Wallet) (a : RequestObject)
    (r : AuthorizationResponse) (q : HttpRequest) (h : q ∈ (w.submitResponse ord a r).1)
    (resp : HttpResponse) (hr : w.http q = .ok resp) (u : Url) :
    (w.submitResponse ord a r).2 = .ok (some u) ↔
      Success resp ∧ ∃ j s, BodyJson resp j ∧ RedirectsTo j s ∧ Url.parse s = some u := by
  rw [submit_result ord w a r q h resp hr, redirectOf_some]

/-- **C36** Nothing is returned exactly if the server answered 2xx with a blank body or with a
JSON document without a string `redirect_uri`. -/
theorem C36_none_iff (ord : MapOrder) (w : Wallet) (a : RequestObject)
    (r : AuthorizationResponse) (q : HttpRequest) (h : q ∈ (w.submitResponse ord a r).1)
    (resp : HttpResponse) (hr : w.http q = .ok resp) :
    (w.submitResponse ord a r).2 = .ok none ↔
      Success resp ∧ ((∃ text, resp.body = utf8 text ∧ Blank text) ∨
        ∃ j, BodyJson resp j ∧ ∀ s, ¬ RedirectsTo j s) := by
  rw [submit_result ord w a r q h resp hr, redirectOf_none]

/-- **C36** Every other answer is an error. -/
theorem C36_otherwise_error (ord : MapOrder) (w : Wallet) (a : RequestObject)
    (r : AuthorizationResponse) (q : HttpRequest) (h : q ∈ (w.submitResponse ord a r).1)
    (resp : HttpResponse) (hr : w.http q = .ok resp)
    (h1 : ¬ (Success resp ∧ ∃ j s u, BodyJson resp j ∧ RedirectsTo j s ∧ Url.parse s = some u))
    (h2 : ¬ (Success resp ∧ ((∃ text, resp.body = utf8 text ∧ Blank text) ∨
        ∃ j, BodyJson resp j ∧ ∀ s, ¬ RedirectsTo j s))) :
    ∃ e, (w.submitResponse ord a r).2 = .error e := by
  cases hres : (w.submitResponse ord a r).2 with
  | error e => exact ⟨e, rfl⟩
  | ok o =>
    exfalso
    cases o with
    | none => exact h2 ((C36_none_iff ord w a r q h resp hr).mp hres)
    | some u =>
      obtain ⟨hs, j, s, h3, h4, h5⟩ := (C36_redirect_iff ord w a r q h resp hr u).mp hres
      exact h1 ⟨hs, j, s, u, h3, h4, h5⟩

/-- **C36** A URL is only ever returned after a POST: without an HTTP request there is none. -/
theorem C36_no_post_no_redirect (ord : MapOrder) (w : Wallet) (a : RequestObject)
    (r : AuthorizationResponse) (u : Url) (h : (w.submitResponse ord a r).2 = .ok (some u)) :
    ∃ q resp, (w.submitResponse ord a r).1 = [q] ∧ w.http q = .ok resp := by
  unfold Wallet.submitResponse at h ⊢
  cases hm : a.responseMode <;> cases r <;> simp [hm, postAndRead] at h ⊢ <;>
    by_cases hu : w.uriOk a.returnUri.print = true <;> simp [hu] at h ⊢ <;>
    (revert h; cases w.http _ <;> simp)

/-! ### Samples -/

/-- A wallet whose server answers every POST with the given status and body. -/
def answering (status : Nat) (body : Bytes) : Wallet :=
  { walletSample with http := fun _ => .ok ⟨status, body⟩ }

/-- A request object asking for an unencrypted POST. -/
def postSample : RequestObject := { requestSampleObject with responseMode := .directPost }

/-- The hypotheses of C28, C35 and C36 hold for a wallet posting the sample response, and the
outcome is a redirect. -/
example : (answering 200 (utf8 c!" {\"redirect_uri\": \"https://v.example/done?x=1\"}")).submitResponse id
      postSample (.unencoded submitSample) =
    ([postRequest postSample.returnUri (submitSample.toForm id)],
      .ok (Url.parse c!"https://v.example/done?x=1")) := by
  decide +kernel

example : ((answering 204 (utf8 c!" \n")).submitResponse List.reverse postSample
      (.unencoded submitSample)).2 = .ok none ∧
    ((answering 200 (utf8 c!"{\"redirect_uri\": 1}")).submitResponse id postSample
      (.unencoded submitSample)).2 = .ok none ∧
    ((answering 200 (utf8 c!"{\"redirect_uri\": \"nope\"}")).submitResponse id postSample
      (.unencoded submitSample)).2 = .error .parse ∧
    ((answering 302 (utf8 c!"{\"redirect_uri\": \"https://v.example/\"}")).submitResponse id
      postSample (.unencoded submitSample)).2 = .error .http ∧
    ((answering 200 [255]).submitResponse id postSample (.unencoded submitSample)).2 =
      .error .decode ∧
    ((answering 200 []).submitResponse id postSample (.jwt c!"a.b.c")) = ([], .error .mismatch) := by
  decide +kernel

/-- Whatever the order, the sample is read back. -/
example : ∀ q ∈ ((answering 200 []).submitResponse List.reverse postSample
      (.unencoded submitSample)).1,
    AuthorizationResponse.ofForm q.body = .ok (.unencoded submitSample) :=
  fun q h => (C28_unencoded_read_back List.reverse (fun l => l.reverse_perm) _ _ _
    submitSample_proper q h).mpr submitSample_nested

end Oid4vp
