import Verif.Spec.WalletApp
import Verif.Props.EndpointAnswer
import Verif.Props.UrlText
/-!
# C78 The HTTP surface of the example wallet
-/

set_option autoImplicit false

namespace Oid4vp
open Spec Example WalletApp AuthorizationRequest

theorem fieldIs_iff {k : Str} {l : List (Str × Str)} {o : Option Str} :
    FieldIs k l o ↔ formOpt k l = .ok o := by
  have h : FieldIs k l o ↔ valuesOf k l = o.toList := by
    cases o with
    | none => exact valuesOf_nil.symm
    | some v => exact valuesOf_single.symm
  rw [h]
  unfold formOpt
  cases valuesOf k l with
  | nil => cases o <;> simp
  | cons v t =>
    cases t with
    | nil => cases o <;> simp
    | cons w t => cases o <;> simp

/-- **C78** The parameters are read iff none of the nine is given twice; other fields are ignored, and
an empty value is a value. -/
theorem C78_parameters (l : List (Str × Str)) (p : Params) : paramsOf l = .ok p ↔ ParamsIn l p := by
  constructor
  · intro h
    unfold paramsOf at h
    repeat' (split at h; · cases h)
    cases h
    constructor <;> exact fieldIs_iff.mpr ‹_›
  · intro h
    unfold paramsOf
    simp only [fieldIs_iff.mp h.1, fieldIs_iff.mp h.2, fieldIs_iff.mp h.3, fieldIs_iff.mp h.4,
      fieldIs_iff.mp h.5, fieldIs_iff.mp h.6, fieldIs_iff.mp h.7, fieldIs_iff.mp h.8, fieldIs_iff.mp h.9]

theorem perm_mset {α : Type} {k : Str} {v : α} {m : List (Str × α)} (h : mget k m = none) :
    (mset k v m).Perm ((k, v) :: m) := by
  induction m with
  | nil => exact .refl _
  | cons p m ih =>
    obtain ⟨k', v'⟩ := p
    simp only [mget] at h
    split at h
    · cases h
    · rename_i hk
      simp only [mset, if_neg hk]
      split
      · exact .refl _
      · exact ((ih h).cons _).trans (.swap _ _ _)

theorem perm_foldl_mset {α : Type} (l : List (Str × α)) : ∀ m : List (Str × α),
    NoDupKeys (m ++ l) → (l.foldl (fun m p => mset p.1 p.2 m) m).Perm (m ++ l) := by
  induction l with
  | nil => intro m _; simp
  | cons p l ih =>
    intro m h
    have h1 : (m ++ p :: l).Perm ((p :: m) ++ l) := List.perm_middle
    have hn : NoDupKeys ((p :: m) ++ l) := (h1.map Prod.fst).nodup_iff.mp h
    have hg : mget p.1 m = none := by
      cases hm : mget p.1 m with
      | none => rfl
      | some v =>
        simp only [NoDupKeys, List.cons_append, List.map_cons, List.nodup_cons, List.map_append,
          List.mem_append] at hn
        exact absurd (Or.inl (List.mem_map.mpr ⟨_, mem_of_mget hm, rfl⟩)) hn.1
    have h2 := (perm_mset (v := p.2) hg).append_right l
    simp only [List.foldl_cons]
    exact (ih _ ((h2.map Prod.fst).nodup_iff.mpr hn)).trans (h2.trans h1.symm)

theorem objectOf_iff {l : List (Str × Json)} {doc : Json} (h : NoDupKeys l) :
    ObjectOf l doc ↔ doc = .obj (mofList l) := by
  constructor
  · rintro ⟨m, rfl, hs, hp⟩
    rw [mofList_perm hs hp.symm]
  · rintro rfl
    exact ⟨_, rfl, mofList_sorted _, perm_foldl_mset l [] h⟩

theorem answerDoc_iff {d : Str} {ans : Answer} {status : Nat} {doc : Json} :
    AnswerDoc d ans status doc ↔ status = answerStatus ans ∧ doc = answerJson d ans := by
  constructor
  · intro h
    cases h with
    | done h => exact ⟨rfl, (objectOf_iff (by simp [NoDupKeys])).mp h⟩
    | goOn h => exact ⟨rfl, (objectOf_iff (by simp [NoDupKeys])).mp h⟩
    | failed h => exact ⟨rfl, (objectOf_iff (by simp [NoDupKeys])).mp h⟩
    | failedWithState h => exact ⟨rfl, (objectOf_iff (by simp [NoDupKeys])).mp h⟩
  · rintro ⟨rfl, rfl⟩
    cases ans with
    | success r =>
      cases r with
      | none => exact .done ((objectOf_iff (by simp [NoDupKeys])).mpr rfl)
      | some a => exact .goOn ((objectOf_iff (by simp [NoDupKeys])).mpr rfl)
    | failure s e st =>
      cases st with
      | none => exact .failed ((objectOf_iff (by simp [NoDupKeys])).mpr rfl)
      | some t => exact .failedWithState ((objectOf_iff (by simp [NoDupKeys])).mpr rfl)

theorem announcement_iff {endpoint : Url} {doc : Json} :
    ObjectOf (announcement endpoint.print) doc ↔ doc = metadataJson endpoint := by
  rw [objectOf_iff (by simp [NoDupKeys, announcement])]
  exact Iff.rfl

theorem holderKey_iff {x y : Bytes} {doc : Json} :
    ObjectOf (holderKey x y) doc ↔ doc = .obj (publicJwk x y) := by
  rw [objectOf_iff (by simp [NoDupKeys, holderKey])]
  exact Iff.rfl

theorem page_iff {app : App} {path : Str} {doc : Json} :
    Page app path doc ↔ getDocument app path = some doc := by
  constructor
  · intro h
    cases h with
    | metadata h => rw [announcement_iff] at h; subst h; rfl
    | keys h1 h2 =>
      rw [holderKey_iff] at h1; subst h1
      rw [objectOf_iff (by simp [NoDupKeys])] at h2; subst h2; rfl
    | health hp h =>
      rw [objectOf_iff (by simp [NoDupKeys])] at h; subst h
      rcases hp with rfl | rfl <;> rfl
    | config h => rw [objectOf_iff (by simp [NoDupKeys])] at h; subst h; rfl
    | credentials h => rw [objectOf_iff (by simp [NoDupKeys])] at h; subst h; rfl
  · intro h
    unfold getDocument at h
    split at h
    · rename_i hp; cases h; rw [hp]; exact .metadata (announcement_iff.mpr rfl)
    split at h
    · rename_i hp; cases h; rw [hp]
      exact .keys (holderKey_iff.mpr rfl) ((objectOf_iff (by simp [NoDupKeys])).mpr rfl)
    split at h
    · rename_i hp; cases h; exact .health (.inl hp) ((objectOf_iff (by simp [NoDupKeys])).mpr rfl)
    split at h
    · rename_i hp; cases h; rw [hp]; exact .config ((objectOf_iff (by simp [NoDupKeys])).mpr rfl)
    split at h
    · rename_i hp; cases h; rw [hp]; exact .credentials ((objectOf_iff (by simp [NoDupKeys])).mpr rfl)
    split at h
    · rename_i hp; cases h; exact .health (.inr hp) ((objectOf_iff (by simp [NoDupKeys])).mpr rfl)
    cases h

theorem queryFields_iff {q : Option Str} {l : List (Str × Str)} :
    QueryFields q l ↔ l = formParse (unwrapOr [] q) := by
  simp only [QueryFields]
  cases q with
  | none => simp [unwrapOr, formParse_nil]
  | some t =>
    simp only [reduceCtorEq, false_and, false_or, Option.some.injEq, exists_eq_left', ← C10_form_text,
      unwrapOr]
    exact eq_comm

theorem unreadable_iff {l : List (Str × Str)} :
    (∀ p, ¬ ParamsIn l p) ↔ ∃ e, paramsOf l = .error e := by
  simp only [← C78_parameters]
  cases paramsOf l <;> simp

theorem authorize_eq {ord : MapOrder} {app : App} {p : Params} {reqs : List HttpRequest} {ans : Answer}
    {status : Nat} {doc : Json} (h1 : Handles ord app.adapter p reqs ans)
    (h2 : AnswerDoc (app.describe p ans) ans status doc) :
    authorize ord app p = (reqs, ⟨status, some doc⟩) := by
  rw [answerDoc_iff] at h2
  obtain ⟨rfl, rfl⟩ := h2
  simp only [authorize, (C77_endpoint ..).mpr h1]

theorem authorize_means (ord : MapOrder) (app : App) (p : Params) : ∃ reqs ans status doc,
    authorize ord app p = (reqs, ⟨status, some doc⟩) ∧ Handles ord app.adapter p reqs ans ∧
      AnswerDoc (app.describe p ans) ans status doc :=
  ⟨(app.adapter.process ord p).1, (app.adapter.process ord p).2, _, _, rfl,
    (C77_endpoint ..).mp rfl, answerDoc_iff.mpr ⟨rfl, rfl⟩⟩

theorem notPage_authorize {app : App} : getDocument app c!"/authorize" = none := rfl

theorem gets_of {ord : MapOrder} {app : App} {c : Call} {reqs : List HttpRequest} {status : Nat}
    {doc : Option Json} (h : Gets ord app c reqs status doc) :
    WalletApp.get ord app c = (reqs, ⟨status, doc⟩) := by
  unfold WalletApp.get
  cases h with
  | unreadable hp hq hn =>
    rw [if_pos hp, authorizeGet]
    rw [queryFields_iff] at hq; subst hq
    obtain ⟨e, he⟩ := unreadable_iff.mp hn
    rw [he]
  | authorized hp hq hr h1 h2 =>
    rw [if_pos hp, authorizeGet]
    rw [queryFields_iff] at hq; subst hq
    rw [(C78_parameters ..).mpr hr]
    exact authorize_eq h1 h2
  | page h =>
    rw [page_iff] at h
    split
    · rename_i hp; rw [hp, notPage_authorize] at h; cases h
    · rw [h]
  | nowhere hp hn =>
    simp only [page_iff, ← Option.eq_none_iff_forall_ne_some] at hn
    rw [if_neg hp, hn]

theorem gets_exists (ord : MapOrder) (app : App) (c : Call) :
    Gets ord app c (WalletApp.get ord app c).1 (WalletApp.get ord app c).2.status
      (WalletApp.get ord app c).2.document := by
  unfold WalletApp.get
  by_cases hp : c.path = c!"/authorize"
  · rw [if_pos hp, authorizeGet]
    cases hr : paramsOf (formParse (unwrapOr [] c.query)) with
    | error e => exact .unreadable hp (queryFields_iff.mpr rfl) (unreadable_iff.mpr ⟨e, hr⟩)
    | ok p =>
      obtain ⟨reqs, ans, status, doc, h0, h1, h2⟩ := authorize_means ord app p
      simp only [h0]
      exact .authorized hp (queryFields_iff.mpr rfl) ((C78_parameters ..).mp hr) h1 h2
  · rw [if_neg hp]
    cases hd : getDocument app c.path with
    | some j => exact .page (page_iff.mpr hd)
    | none => exact .nowhere hp (by simp [page_iff, hd])

theorem formType_iff {c : Call} : FormType c ↔ isForm c.contentType = true := by
  unfold isForm FormType
  cases c.contentType with
  | none => simp
  | some t => simp [Option.isSome_iff_exists, stripPrefix_eq_some]

/-- **C78** The server of the example wallet does exactly this with a request. -/
theorem C78_served (ord : MapOrder) (app : App) (c : Call) (reqs : List HttpRequest) (rep : Reply) :
    serve ord app c = (reqs, rep) ↔ Served ord app c reqs rep := by
  have e : (1024 * 1024 : Nat) = 1048576 := rfl
  constructor
  · intro h
    unfold serve at h
    rw [e] at h
    split at h
    · cases h; exact .tooLarge ‹_›
    have hs : c.body.length ≤ 1048576 := Nat.le_of_not_lt ‹_›
    split at h
    · cases h; exact .preflight hs ‹_›
    rename_i hO
    have hg := gets_exists ord app c
    split at h
    · rw [h] at hg; exact .get hs ‹_› hg
    rename_i hG
    split at h
    · cases h; exact .head hs ‹_› hg
    rename_i hH
    have hm : c.method ∉ [c!"OPTIONS", c!"GET", c!"HEAD"] := by
      simp only [List.mem_cons, List.not_mem_nil, or_false, not_or]
      exact ⟨hO, hG, hH⟩
    split at h
    · rename_i hp
      split at h
      · rename_i hP
        unfold authorizePost at h
        split at h
        · rename_i hf
          rw [← formType_iff] at hf
          split at h
          · rename_i er; cases h
            exact .unreadable hs hP hp hf ((C10_form_body ..).mp rfl) (unreadable_iff.mpr ⟨_, er⟩)
          · rename_i p hr
            obtain ⟨reqs', ans, status, doc, h0, h1, h2⟩ := authorize_means ord app p
            rw [h0] at h; cases h
            exact .authorized hs hP hp hf ((C10_form_body ..).mp rfl) ((C78_parameters ..).mp hr) h1 h2
        · rename_i hf
          cases h
          exact .otherType hs hP hp (by rw [formType_iff]; exact hf)
      · cases h; exact .otherMethod hs hm (.inl ⟨hp, ‹_›⟩)
    · rename_i hp
      split at h
      · rename_i hd; cases h; exact .otherMethod hs hm (.inr ⟨_, page_iff.mpr hd⟩)
      · rename_i hd; cases h; exact .nowhere hs hm hp (by simp [page_iff, hd])
  · intro h
    unfold serve
    rw [e]
    have neg : ∀ {n : Nat}, n ≤ 1048576 → ¬ 1048576 < n := fun h => Nat.not_lt.mpr h
    cases h with
    | tooLarge h => rw [if_pos h]
    | preflight hs h => rw [if_neg (neg hs), if_pos h]
    | get hs h hg => rw [if_neg (neg hs), if_neg (by rw [h]; decide), if_pos h, gets_of hg]
    | head hs h hg =>
      rw [if_neg (neg hs), if_neg (by rw [h]; decide), if_neg (by rw [h]; decide), if_pos h, gets_of hg]
    | otherType hs h hp hf =>
      rw [formType_iff] at hf
      rw [if_neg (neg hs), if_neg (by rw [h]; decide), if_neg (by rw [h]; decide),
        if_neg (by rw [h]; decide), if_pos hp, if_pos h, authorizePost, if_neg hf]
    | unreadable hs h hp hf hl hn =>
      rw [formType_iff] at hf
      rw [← C10_form_body] at hl; subst hl
      obtain ⟨er, hr⟩ := unreadable_iff.mp hn
      rw [if_neg (neg hs), if_neg (by rw [h]; decide), if_neg (by rw [h]; decide),
        if_neg (by rw [h]; decide), if_pos hp, if_pos h, authorizePost, if_pos hf, hr]
    | authorized hs h hp hf hl hr h1 h2 =>
      rw [formType_iff] at hf
      rw [← C10_form_body] at hl; subst hl
      rw [if_neg (neg hs), if_neg (by rw [h]; decide), if_neg (by rw [h]; decide),
        if_neg (by rw [h]; decide), if_pos hp, if_pos h, authorizePost, if_pos hf,
        (C78_parameters ..).mpr hr]
      exact authorize_eq h1 h2
    | otherMethod hs hm h =>
      simp only [List.mem_cons, List.not_mem_nil, or_false, not_or] at hm
      rw [if_neg (neg hs), if_neg hm.1, if_neg hm.2.1, if_neg hm.2.2]
      rcases h with ⟨hp, h⟩ | ⟨doc, h⟩
      · rw [if_pos hp, if_neg h]
      · rw [page_iff] at h
        rw [if_neg (by intro hp; rw [hp, notPage_authorize] at h; cases h), h]
    | nowhere hs hm hp hn =>
      simp only [List.mem_cons, List.not_mem_nil, or_false, not_or] at hm
      simp only [page_iff, ← Option.eq_none_iff_forall_ne_some] at hn
      rw [if_neg (neg hs), if_neg hm.1, if_neg hm.2.1, if_neg hm.2.2, if_neg hp, hn]

theorem queryFields_url {r : AuthorizationRequest} {e url : Url} (hu : r.toUrl e = .ok url) :
    ∃ l, r.fields = .ok l ∧ QueryFields url.query l := by
  unfold toUrl at hu
  cases hf : r.fields with
  | error e => rw [hf] at hu; cases hu
  | ok l =>
    rw [hf] at hu; cases hu
    exact ⟨l, rfl, queryFields_iff.mpr (formParse_formSer l).symm⟩

/-- **C78** A request by value or by reference, rendered as a URL for any endpoint, is understood by the
wallet when its query arrives at the wallet's endpoint. -/
theorem C78_url_taken {r : AuthorizationRequest} {e url : Url} {w : Adapter} {own : List (Str × Str)}
    (hr : IndirectionRep r.indirection) (hd : ∀ o, r.indirection ≠ .direct o)
    (hu : r.toUrl e = .ok url) (ho : OwnFields w.endpoint own)
    (hn : ∀ k ∈ [c!"client_id", c!"request", c!"request_uri"], NoParam k own) :
    ∃ l p, QueryFields url.query l ∧ ParamsIn l p ∧ TakenFor w p r := by
  obtain ⟨l, hf, hq⟩ := queryFields_url hu
  simp only [List.mem_cons, List.not_mem_nil, or_false, forall_eq_or_imp, forall_eq, ← valuesOf_nil] at hn
  obtain ⟨n1, n2, n3⟩ := hn
  have e2 : ∀ {l : List (Str × Str)} {v : Str}, valuesOf c!"request" l = [v] →
      OnlyParam c!"request" (own ++ l) v := by
    intro l v h
    rw [← valuesOf_single, valuesOf_append, n2, h]; rfl
  have e3 : ∀ {l : List (Str × Str)} {v : Str}, valuesOf c!"request_uri" l = [v] →
      OnlyParam c!"request_uri" (own ++ l) v := by
    intro l v h
    rw [← valuesOf_single, valuesOf_append, n3, h]; rfl
  have e4 : ∀ {l : List (Str × Str)}, valuesOf c!"request" l = [] →
      ¬ ∃ v, OnlyParam c!"request" (own ++ l) v := by
    rintro l h ⟨v, hv⟩
    rw [← valuesOf_single, valuesOf_append, n2, h] at hv; cases hv
  have e1 : ∀ {l : List (Str × Str)} {c : Option Str}, valuesOf c!"client_id" l = c.toList →
      MeansClientId (own ++ l) c := by
    intro l c h
    rw [← clientId_iff, valuesOf_append, n1, h]; rfl
  obtain ⟨c, i⟩ := r
  cases i with
  | direct o => exact absurd rfl (hd o)
  | byValue jwt =>
    cases c with
    | none =>
      cases hf
      refine ⟨_, { request := some jwt }, hq, ?_, own, ho, e1 rfl, e2 rfl⟩
      constructor <;> exact fieldIs_iff.mpr rfl
    | some c =>
      cases hf
      refine ⟨_, { clientId := some c, request := some jwt }, hq, ?_, own, ho, e1 rfl, e2 rfl⟩
      constructor <;> exact fieldIs_iff.mpr rfl
  | byReference u =>
    have hp := Url.parse_print hr
    cases c with
    | none =>
      cases hf
      refine ⟨_, { requestUri := some u.print }, hq, ?_, own, ho, e1 rfl, e4 rfl, _, e3 rfl, hp⟩
      constructor <;> exact fieldIs_iff.mpr rfl
    | some c =>
      cases hf
      refine ⟨_, { clientId := some c, requestUri := some u.print }, hq, ?_, own, ho, e1 rfl, e4 rfl, _,
        e3 rfl, hp⟩
      constructor <;> exact fieldIs_iff.mpr rfl

/-- The members of a request object the wallet takes from its address. -/
def takenMembers : List Str :=
  [c!"response_type", c!"nonce", c!"state", c!"response_mode", c!"response_uri", c!"dcql_query",
    c!"request_uri"]

theorem lastParam_iff_mem {l : List (Str × Str)} (hn : NoDupKeys l) {k v : Str} :
    LastParam k l v ↔ (k, v) ∈ l := by
  constructor
  · rintro ⟨a, b, rfl, -⟩; simp
  · intro h
    obtain ⟨a, b, rfl⟩ := List.append_of_mem h
    refine ⟨a, b, rfl, fun w hw => ?_⟩
    simp only [NoDupKeys, List.map_append, List.map_cons] at hn
    rw [List.nodup_append] at hn
    have h2 := hn.2.1
    rw [List.nodup_cons] at h2
    exact h2.1 (List.mem_map.mpr ⟨_, hw, rfl⟩)

theorem filterMap_keys (l : List (Str × Option Str)) :
    List.Sublist ((l.filterMap fun q => q.2.map fun v => (q.1, v)).map Prod.fst) (l.map Prod.fst) := by
  induction l with
  | nil => exact .refl _
  | cons p l ih =>
    obtain ⟨k, o⟩ := p
    cases o with
    | none => exact ih.cons _
    | some v => exact ih.cons_cons _

theorem handed_nodup (p : Params) : NoDupKeys (handed p) :=
  (filterMap_keys _).nodup (by simp)

theorem onlyParam_of_mem {l : List (Str × Str)} (hn : NoDupKeys l) {k v : Str} (h : (k, v) ∈ l) :
    OnlyParam k l v := by
  obtain ⟨a, b, rfl⟩ := List.append_of_mem h
  simp only [NoDupKeys, List.map_append, List.map_cons] at hn
  rw [List.nodup_append, List.nodup_cons] at hn
  refine ⟨a, b, rfl, fun w hw => ?_, fun w hw => hn.2.1.1 (List.mem_map.mpr ⟨_, hw, rfl⟩)⟩
  exact hn.2.2 k (List.mem_map.mpr ⟨_, hw, rfl⟩) k (List.mem_cons_self ..) rfl

/-- The text under `k`. -/
def textAt (k : Str) (o : UntypedObject) : Option Str := (mget k o).bind Json.asStr?

theorem fieldIs_textAt {l : List (Str × Str)} {o : UntypedObject} (k : Str)
    (ho : o = l.map (fun p => (p.1, Json.str p.2))) (hs : Sorted o) : FieldIs k l (textAt k o) := by
  unfold textAt
  cases hg : mget k o with
  | none => exact (noParam_of_mget ho hs).mpr hg
  | some j =>
    have hm := mem_of_mget hg
    rw [ho] at hm
    obtain ⟨q, -, e⟩ := List.mem_map.mp hm
    simp only [Prod.mk.injEq] at e
    rw [← e.2] at hg ⊢
    exact (onlyParam_of_mget ho hs).mpr hg

theorem textAt_iff {l : List (Str × Str)} {o : UntypedObject} {k : Str} {j : Json}
    (ho : o = l.map (fun p => (p.1, Json.str p.2))) :
    (∃ v, textAt k o = some v ∧ j = .str v) ↔ mget k o = some j := by
  unfold textAt
  cases hg : mget k o with
  | none => simp
  | some j' =>
    have hm := mem_of_mget hg
    rw [ho] at hm
    obtain ⟨q, -, e⟩ := List.mem_map.mp hm
    simp only [Prod.mk.injEq] at e
    rw [← e.2]
    simp [Json.asStr?, eq_comm]

theorem fieldIs_cons {k k' v : Str} {l : List (Str × Str)} {o : Option Str} (h : k ≠ k') :
    FieldIs k ((k', v) :: l) o ↔ FieldIs k l o := by
  simp only [fieldIs_iff, formOpt, valuesOf_cons, if_neg (Ne.symm h)]

/-- **C78** Of a request with direct parameters the wallet sees only the parameters it knows. -/
theorem C78_url_direct {c : Option Str} {o : UntypedObject} {e url : Url} {w : Adapter}
    (hs : Sorted o) (hr : Renderable (.direct o))
    (hu : AuthorizationRequest.toUrl ⟨c, .direct o⟩ e = .ok url) (hq : w.endpoint.query = none) :
    ∃ l p o', QueryFields url.query l ∧ ParamsIn l p ∧ TakenFor w p ⟨c, .direct o'⟩ ∧ Sorted o' ∧
      ∀ k j, mget k o' = some j ↔ k ∈ takenMembers ∧ mget k o = some j := by
  obtain ⟨l, hf, hl⟩ := queryFields_url hu
  obtain ⟨h1, h2, h3, h4⟩ := hr
  obtain ⟨l', hl'⟩ := formMembers_exists h1
  have ho := formMembers_texts h1 hl'
  rw [fields_eq] at hf
  simp only [indirectionFields, hl', Except.map, Except.ok.injEq] at hf
  have hF := fun k => fieldIs_textAt k ho hs
  have hno : FieldIs c!"client_id" l' none := (noParam_of_mget ho hs).mpr h2
  let p : Params := ⟨c, none, textAt c!"request_uri" o, textAt c!"response_type" o, textAt c!"nonce" o,
    textAt c!"state" o, textAt c!"response_mode" o, textAt c!"response_uri" o, textAt c!"dcql_query" o⟩
  have hreq : FieldIs c!"request" l' none := (noParam_of_mget ho hs).mpr h3
  have hP : ParamsIn l p := by
    rw [← hf]
    cases c with
    | none =>
      exact ⟨hno, hreq, hF _, hF _, hF _, hF _, hF _, hF _, hF _⟩
    | some c =>
      refine ⟨?_, ?_, ?_, ?_, ?_, ?_, ?_, ?_, ?_⟩
      · refine ⟨[], l', rfl, by simp [NoParam], hno⟩
      · exact (fieldIs_cons (by decide)).mpr hreq
      all_goals exact (fieldIs_cons (by decide)).mpr (hF _)
  have hmem : ∀ k v, (k, v) ∈ handed p ↔ (k = c!"client_id" ∧ c = some v) ∨
      (k ∈ takenMembers ∧ textAt k o = some v) := by
    intro k v
    simp only [handed, p, List.mem_filterMap, List.mem_cons, List.not_mem_nil, or_false, takenMembers,
      Option.map_eq_some_iff, Prod.mk.injEq]
    constructor
    · rintro ⟨q, hq, v', h5, rfl, rfl⟩
      rcases hq with rfl | rfl | rfl | rfl | rfl | rfl | rfl | rfl | rfl <;> simp_all
    · rintro (⟨rfl, h5⟩ | ⟨hk, h5⟩)
      · exact ⟨_, .inl rfl, v, h5, rfl, rfl⟩
      · rcases hk with rfl | rfl | rfl | rfl | rfl | rfl | rfl <;>
          exact ⟨(_, _), by simp; tauto, v, h5, rfl, rfl⟩
  have hcid : MeansClientId (handed p) c := by
    rw [← clientId_iff]
    cases c with
    | none =>
      rw [Option.toList, valuesOf_nil]
      intro v hv
      rcases (hmem _ _).mp hv with h | ⟨h, -⟩
      · cases h.2
      · revert h; decide
    | some c =>
      rw [Option.toList, valuesOf_single]
      exact onlyParam_of_mem (handed_nodup p) ((hmem _ _).mpr (.inl ⟨rfl, rfl⟩))
  have hR : ¬ ∃ v, OnlyParam c!"request" (handed p) v := by
    rintro ⟨v, a, b, h, -⟩
    have : (c!"request", v) ∈ handed p := by rw [h]; simp
    rcases (hmem _ _).mp this with h | ⟨h, -⟩
    · exact absurd h.1 (by decide)
    · revert h; decide
  have hU : ¬ ∃ s u, OnlyParam c!"request_uri" (handed p) s ∧ Url.parse s = some u := by
    rintro ⟨s, u, ⟨a, b, h, -⟩, hu⟩
    have : (c!"request_uri", s) ∈ handed p := by rw [h]; simp
    rcases (hmem _ _).mp this with h | ⟨-, h⟩
    · exact absurd h.1 (by decide)
    · exact h4 s u ((textAt_iff ho).mp ⟨s, h, rfl⟩) hu
  have hM := (indirection_iff (handed p) _).mp rfl
  revert hM
  generalize indirectionOfFields _ = i
  intro hM
  cases i with
  | byValue j => exact absurd ⟨j, hM⟩ hR
  | byReference u => obtain ⟨-, s, h5, h6⟩ := hM; exact absurd ⟨s, u, h5, h6⟩ hU
  | direct o' =>
    refine ⟨l, p, o', hl, hP, ⟨[], .inl ⟨hq, rfl⟩, hcid, hM⟩, hM.2.2.1, fun k j => ?_⟩
    rw [hM.2.2.2]
    simp only [lastParam_iff_mem (handed_nodup p), hmem, ← textAt_iff ho]
    constructor
    · rintro ⟨hk, v, h | ⟨h, h'⟩, rfl⟩
      · exact absurd h.1 hk
      · exact ⟨h, v, h', rfl⟩
    · rintro ⟨hk, v, h, rfl⟩
      exact ⟨by rintro rfl; revert hk; decide, v, .inr ⟨hk, h⟩, rfl⟩

/-- **C78** HEAD does everything GET does, including the presentation. -/
theorem C78_head_acts (ord : MapOrder) (app : App) (c : Call) :
    (serve ord app { c with method := c!"HEAD" }).1 = (serve ord app { c with method := c!"GET" }).1 ∧
    (serve ord app { c with method := c!"HEAD" }).2.status =
      (serve ord app { c with method := c!"GET" }).2.status := by
  have hg : WalletApp.get ord app { c with method := c!"HEAD" } =
      WalletApp.get ord app { c with method := c!"GET" } := rfl
  simp only [serve, hg]
  by_cases h : 1024 * 1024 < c.body.length
  · simp [h]
  · simp only [h, if_false]
    exact ⟨rfl, rfl⟩

/-- **C78** The address of the endpoint is the public address with `/authorize` after it. The server
answers at that path iff the public address has no path, not even `/`. -/
theorem C78_endpoint_address {scheme auth path whole : Str}
    (hu : UrlText (scheme ++ c!"://" ++ auth ++ path) ⟨scheme, some auth, whole, none, none⟩)
    (hw : whole = path ∨ (path = [] ∧ whole = c!"/")) (host port : Str) :
    ∃ u, endpointOf (some (scheme ++ c!"://" ++ auth ++ path)) host port = some u ∧
      u = ⟨scheme, some auth, path ++ c!"/authorize", none, none⟩ ∧
      ∀ ord app c, c.path = u.path → c.method = c!"GET" → c.body.length ≤ 1048576 →
        (serve ord app c = ([], ⟨404, none⟩) ↔ path ≠ []) := by
  refine ⟨_, ?_, rfl, ?_⟩
  · have h := Url.parse_wf ((C70_url_iff _ _).mpr hu)
    have hp : path = [] ∨ ∃ q, path = '/' :: q ∧ hierPath (isSpecial scheme) q = '/' :: q := by
      rcases hw with rfl | hw
      · rcases h.path_auth (by simp) with e | ⟨q, e⟩
        · exact .inl e
        · exact .inr ⟨q, e, h.path_ok q e⟩
      · exact .inl hw.1
    have ha : SegOk (isSpecial scheme) c!"authorize" := by
      cases isSpecial scheme <;> exact ⟨by decide, rfl, rfl⟩
    have hr : ∃ r, path ++ c!"/authorize" = '/' :: r ∧ hierPath (isSpecial scheme) r = '/' :: r := by
      rcases hp with rfl | ⟨q, rfl, hq⟩
      · exact ⟨c!"authorize", rfl, pathNorm_iff.mp (PathNorm.single ha)⟩
      · exact ⟨q ++ c!"/authorize", rfl, pathNorm_iff.mp ((pathNorm_iff.mpr hq).push ha)⟩
    obtain ⟨r, e, hr⟩ := hr
    have := Url.parse_print (h.withPath hr)
    simp only [Url.print, authText, guardText, optText, List.append_nil, List.nil_append] at this
    rw [endpointOf, unwrapOr, e, ← this]
    simp [← e]
  · intro ord app c hc hm hl
    have hs : serve ord app c = WalletApp.get ord app c := by
      have hn : ¬ 1024 * 1024 < c.body.length := Nat.not_lt.mpr hl
      rw [serve, if_neg hn, if_neg (by rw [hm]; decide), if_pos hm]
    rw [hs]
    simp only at hc
    constructor
    · rintro h rfl
      rw [WalletApp.get, if_pos (show c.path = c!"/authorize" from hc), authorizeGet] at h
      split at h
      · cases h
      · rename_i p _
        obtain ⟨reqs, ans, status, doc, h0, -⟩ := authorize_means ord app p
        rw [h0] at h; cases h
    · intro hne
      have h6 : c.path ≠ c!"/authorize" := by
        rw [hc]; intro h
        exact hne (List.append_cancel_right (bs := c!"/authorize") (as := path) (cs := []) h)
      have h7 : c.path.getLast? = some 'e' := by rw [hc]; simp
      have h8 : getDocument app c.path = none := by
        have hx : ∀ {t : Str}, t.getLast? ≠ some 'e' → c.path ≠ t := by
          rintro t ht rfl; exact ht h7
        rw [getDocument, if_neg (hx (by decide)), if_neg (hx (by decide)), if_neg (hx (by decide)),
          if_neg (hx (by decide)), if_neg (hx (by decide)), if_neg (hx (by decide))]
      rw [WalletApp.get, if_neg h6, h8]

/-- **C78** Without a public address the endpoint is at the address the server listens on, by HTTP. -/
theorem C78_endpoint_default {host port auth : Str} (ha : AuthorityText c!"http" true (host ++ c!":" ++ port) auth)
    (hc : ∀ c ∈ host ++ port, VisibleBut c!"/\\?#" c) :
    endpointOf none host port = some ⟨c!"http", some auth, c!"/authorize", none, none⟩ := by
  have hv : ∀ c ∈ host ++ c!":" ++ port, VisibleBut c!"/\\?#" c := by
    intro c h
    simp only [List.mem_append, List.mem_singleton] at h hc
    rcases h with (h | rfl) | h
    · exact hc c (.inl h)
    · constructor <;> decide
    · exact hc c (.inr h)
  have hg : ∀ c ∈ visible, 32 < c.toNat ∧ c ∉ c!"\t\n\x0d" := by decide
  rw [endpointOf, unwrapOr, C70_url_iff]
  have hall : ∀ c ∈ c!"http" ++ c!":" ++ (c!"//" ++ (host ++ c!":" ++ port) ++ '/' :: c!"authorize"), c ∈ visible := by
    intro c h
    simp only [List.mem_append] at h
    rcases h with (h | h) | (h | h) | h
    · revert c; decide
    · revert c; decide
    · revert c; decide
    · exact (hv c (by simpa [or_assoc] using h)).1
    · revert c; decide
  refine ⟨c!"http", c!"//" ++ (host ++ c!":" ++ port) ++ '/' :: c!"authorize", none, none, ?_, ?_, ?_, ?_, ?_,
    ⟨true, ⟨fun _ => ⟨80, .http⟩, fun _ => rfl⟩, .none⟩, .none⟩
  · refine ⟨[], c!"http" ++ c!":" ++ (c!"//" ++ (host ++ c!":" ++ port) ++ '/' :: c!"authorize"), [], by simp,
      by simp, ?_, ?_⟩
    · rintro c (h | h)
      · exact (hg c (hall c (List.mem_of_mem_head? h))).1
      · exact (hg c (hall c (List.mem_of_getLast? h))).1
    · rw [List.filter_eq_self.mpr]
      · simp [marked]
      · intro c h; simpa using (hg c (hall c h)).2
  · exact ⟨⟨'h', c!"ttp", rfl, by decide, by decide⟩, rfl, by simp [LowerOf]; decide⟩
  · simp only [List.mem_append]
    rintro ((h | h) | h)
    · revert h; decide
    · exact (hv '?' (by simpa [or_assoc] using h)).2 (by decide)
    · revert h; decide
  · simp only [List.mem_append, marked]
    rintro (((h | h) | h) | h)
    · revert h; decide
    · exact (hv '#' (by simpa [or_assoc] using h)).2 (by decide)
    · revert h; decide
    · cases h
  · refine .webPath ⟨80, .http⟩ (by simp [Separator]) ?_ ha (.inl rfl) ?_
    · rintro c h (rfl | ⟨-, rfl⟩)
      · exact (hv '/' h).2 (by decide)
      · exact (hv '\\' h).2 (by decide)
    · refine ⟨[c!"authorize"], [c!"authorize"], [c!"authorize"], .one (by simp [Separator]), ⟨rfl, ?_⟩, ?_, rfl⟩
      · have hk : ∀ s : Str, (∀ c ∈ s, PathKept c) → Escaped PathKept s s := by
          intro s
          induction s with
          | nil => exact fun _ => .nil
          | cons c s ih => exact fun h => .keep (h c (by simp)) (ih (fun x hx => h x (by simp [hx])))
        rintro p hp
        simp only [List.zip_cons_cons, List.zip_nil_left, List.mem_singleton] at hp
        subst hp
        exact hk _ (by simp only [PathKept, VisibleBut]; decide)
      · refine .file (l := []) .root ?_ ?_
        · simp [DotText]
        · rintro ⟨a, b, ha, hb, h⟩
          rcases ha with rfl | rfl | rfl <;> simp at h

/-- The example wallet as a server, with a peer that serves the sample request. -/
def serverSample : App where
  adapter := adapterAt [] (peerSample 200 c!"{\"redirect_uri\":\"https://v.example/done\"}")
  publicUrl := ⟨c!"https", some c!"w.example", c!"/", none, none⟩
  version := c!"0.1.0"
  x := [1]
  y := [2]
  describe _ _ := c!"?"

/-- C78: a call with a query; unknown fields are ignored. -/
example : Served id serverSample ⟨c!"GET", c!"/authorize",
      some c!"request_uri=https%3A%2F%2Fv.example%2Fq&extra=1&extra=2", none, []⟩
    [⟨c!"GET", c!"https://v.example/q", [(c!"prefer", c!"OID4VP-1.0.0")], []⟩,
      ⟨c!"POST", c!"https://v.example/r", [(c!"content-type", c!"application/x-www-form-urlencoded")],
        utf8 c!"vp_token=%7B%22m%22%3A%5B%22MDL%22%5D%7D&state=s"⟩,
      ⟨c!"GET", c!"https://v.example/done", [], []⟩]
    ⟨200, some (.obj [(c!"redirect_uri", .str c!"https://v.example/done")])⟩ := by
  rw [← C78_served]; decide +kernel

/-- C78: a form whose request is missing; the state is echoed. -/
example : Served id serverSample ⟨c!"POST", c!"/authorize", none,
      some c!"application/x-www-form-urlencoded; charset=utf-8", utf8 c!"state=s%20t&nonce="⟩ []
    ⟨400, some (.obj [(c!"error", .str c!"invalid_request"), (c!"error_description", .str c!"?"),
      (c!"state", .str c!"s t")])⟩ := by
  rw [← C78_served]; decide +kernel

/-- C78: a field given twice, and a form under another content type. -/
example : Served id serverSample ⟨c!"POST", c!"/authorize", none,
      some c!"application/x-www-form-urlencoded", utf8 c!"state=s&state=s"⟩ [] ⟨422, none⟩ ∧
    Served id serverSample ⟨c!"GET", c!"/authorize", some c!"state=s&state=s", none, []⟩ [] ⟨400, none⟩ ∧
    Served id serverSample ⟨c!"POST", c!"/authorize", none, some c!"text/plain", utf8 c!"state=s"⟩ []
      ⟨415, none⟩ := by
  simp only [← C78_served]; decide +kernel

/-- C78: a page, the same page by other methods, and no page. -/
example : Served id serverSample ⟨c!"GET", c!"/debug/credentials", none, none, []⟩ []
      ⟨200, some (.obj [(c!"count", .int 3), (c!"formats", .arr [.str c!"dc+sd-jwt", .str c!"vc+sd-jwt"])])⟩ ∧
    Served id serverSample ⟨c!"HEAD", c!"/debug/credentials", none, none, []⟩ [] ⟨200, none⟩ ∧
    Served id serverSample ⟨c!"POST", c!"/debug/credentials", none, none, []⟩ [] ⟨405, none⟩ ∧
    Served id serverSample ⟨c!"GET", c!"/authorize/", none, none, []⟩ [] ⟨404, none⟩ := by
  simp only [← C78_served]; decide +kernel

/-- C78: what `C78_url_taken` and `C78_url_direct` say about concrete requests. -/
example : ∃ l p, QueryFields (some c!"client_id=a&request_uri=https%3A%2F%2Fv.example%2Fq") l ∧
    ParamsIn l p ∧ TakenFor (adapterAt c!"a=1" (peerSample 200 [])) p
      ⟨some c!"a", .byReference ⟨c!"https", some c!"v.example", c!"/q", none, none⟩⟩ :=
  C78_url_taken (e := ⟨c!"openid4vp", none, [], none, none⟩)
    (url := ⟨c!"openid4vp", none, [], some c!"client_id=a&request_uri=https%3A%2F%2Fv.example%2Fq", none⟩)
    (own := [(c!"a", c!"1")]) (Url.parse_wf (s := c!"https://v.example/q") (by decide +kernel))
    (by intro o h; cases h) (by decide +kernel) (ownFields_iff.mpr (by decide +kernel))
    (by simp only [← valuesOf_nil]; decide +kernel)

example : ∃ l p o', QueryFields (some c!"client_id=a&nonce=n&scope=x") l ∧ ParamsIn l p ∧
    TakenFor { adapterSample with endpoint := ⟨c!"https", some c!"w.example", c!"/authorize", none, none⟩ } p
      ⟨some c!"a", .direct o'⟩ ∧ mget c!"nonce" o' = some (.str c!"n") ∧ mget c!"scope" o' = none := by
  obtain ⟨l, p, o', h1, h2, h3, -, h5⟩ := C78_url_direct (c := some c!"a")
    (o := [(c!"nonce", .str c!"n"), (c!"scope", .str c!"x")]) (e := ⟨c!"openid4vp", none, [], none, none⟩)
    (url := ⟨c!"openid4vp", none, [], some c!"client_id=a&nonce=n&scope=x", none⟩)
    (w := { adapterSample with endpoint := ⟨c!"https", some c!"w.example", c!"/authorize", none, none⟩ })
    (by simp [Sorted]; decide) ⟨by simp, rfl, rfl, by intro s u h; cases h⟩ (by decide +kernel) rfl
  refine ⟨l, p, o', h1, h2, h3, (h5 _ _).mpr (by decide), Option.eq_none_iff_forall_ne_some.mpr ?_⟩
  intro j hj
  have := ((h5 _ _).mp hj).1
  revert this; decide

/-- C78: with a public address ending in `/` the announced endpoint is not served. -/
example : endpointOf (some c!"https://w.example/") [] [] =
      some ⟨c!"https", some c!"w.example", c!"//authorize", none, none⟩ ∧
    endpointOf none c!"0.0.0.0" c!"3000" =
      some ⟨c!"http", some c!"0.0.0.0:3000", c!"/authorize", none, none⟩ ∧
    Served id serverSample ⟨c!"GET", c!"//authorize", none, none, []⟩ [] ⟨404, none⟩ := by
  simp only [← C78_served]; decide +kernel

end Oid4vp
