import Verif.Spec.RequestUrl
import Verif.Props.RequestObject
import Verif.Props.Codec
import Verif.Lemmas.Form
/-!
# C07, C08, C09: request URLs
-/

set_option autoImplicit false

namespace Oid4vp

open Spec AuthorizationRequest

theorem valuesOf_nil {k : Str} {l : List (Str × Str)} : valuesOf k l = [] ↔ NoParam k l := by
  simp only [valuesOf, List.map_eq_nil_iff, List.filter_eq_nil_iff, NoParam, decide_eq_true_eq]
  constructor
  · intro h v hv; exact h _ hv rfl
  · rintro h ⟨k', v⟩ hp rfl; exact h v hp

theorem valuesOf_append (k : Str) (a b : List (Str × Str)) :
    valuesOf k (a ++ b) = valuesOf k a ++ valuesOf k b := by simp [valuesOf]

theorem valuesOf_cons (k k' v : Str) (l : List (Str × Str)) :
    valuesOf k ((k', v) :: l) = if k' = k then v :: valuesOf k l else valuesOf k l := by
  by_cases h : k' = k <;> simp [valuesOf, h]

theorem valuesOf_single {k v : Str} {l : List (Str × Str)} : valuesOf k l = [v] ↔ OnlyParam k l v := by
  constructor
  · intro h
    induction l with
    | nil => simp [valuesOf] at h
    | cons p l ih =>
      obtain ⟨k', v'⟩ := p
      rw [valuesOf_cons] at h
      split at h
      · rename_i hk
        subst hk
        simp only [List.cons.injEq] at h
        obtain ⟨rfl, h⟩ := h
        exact ⟨[], l, rfl, by simp [NoParam], valuesOf_nil.mp h⟩
      · rename_i hk
        obtain ⟨a, b, rfl, ha, hb⟩ := ih h
        refine ⟨(k', v') :: a, b, rfl, ?_, hb⟩
        intro w hw
        rcases List.mem_cons.mp hw with hw | hw
        · simp only [Prod.mk.injEq] at hw; exact hk hw.1.symm
        · exact ha w hw
  · rintro ⟨a, b, rfl, ha, hb⟩
    rw [valuesOf_append, valuesOf_cons, valuesOf_nil.mpr ha, valuesOf_nil.mpr hb]
    simp

theorem onlyParam_unique {k v w : Str} {l : List (Str × Str)} (h : OnlyParam k l v)
    (h' : OnlyParam k l w) : v = w := by
  rw [← valuesOf_single] at h h'
  rw [h] at h'
  simpa using h'

theorem valuesOf_filter {k c : Str} (h : k ≠ c) (l : List (Str × Str)) :
    valuesOf k (l.filter (fun p => p.1 ≠ c)) = valuesOf k l := by
  simp only [valuesOf, List.filter_filter]
  congr 1
  apply List.filter_congr
  intro p _
  by_cases hp : p.1 = k
  · simp [hp, h]
  · simp [hp]

theorem mget_textMap (l : List (Str × Str)) (k : Str) (j : Json) :
    mget k (mofList (l.map (fun p => (p.1, Json.str p.2)))) = some j ↔
      ∃ v, LastParam k l v ∧ j = .str v := by
  have key : ∀ l : List (Str × Str), mget k (l.map (fun p => (p.1, Json.str p.2))) = some j ↔
      ∃ v, (∃ a b, l = a ++ (k, v) :: b ∧ NoParam k a) ∧ j = .str v := by
    intro l
    induction l with
    | nil => simp
    | cons p l ih =>
      obtain ⟨k', v'⟩ := p
      simp only [List.map_cons, mget]
      by_cases h : k = k'
      · subst h
        simp only [if_true, Option.some.injEq]
        constructor
        · rintro rfl
          exact ⟨v', ⟨[], l, rfl, by simp [NoParam]⟩, rfl⟩
        · rintro ⟨v, ⟨a, b, hab, ha⟩, rfl⟩
          cases a with
          | nil => simp at hab; simp [hab]
          | cons q a =>
            simp only [List.cons_append, List.cons.injEq] at hab
            exact absurd (by rw [← hab.1]; simp) (ha v')
      · rw [if_neg h, ih]
        constructor
        · rintro ⟨v, ⟨a, b, rfl, ha⟩, rfl⟩
          refine ⟨v, ⟨(k', v') :: a, b, rfl, ?_⟩, rfl⟩
          intro w hw
          rcases List.mem_cons.mp hw with hw | hw
          · simp only [Prod.mk.injEq] at hw; exact h hw.1
          · exact ha w hw
        · rintro ⟨v, ⟨a, b, hab, ha⟩, rfl⟩
          cases a with
          | nil => simp at hab; exact absurd hab.1.1.symm h
          | cons q a =>
            simp only [List.cons_append, List.cons.injEq] at hab
            exact ⟨v, ⟨a, b, hab.2, fun w hw => ha w (List.mem_cons_of_mem _ hw)⟩, rfl⟩
  rw [mget_mofList, ← List.map_reverse, key]
  constructor
  · rintro ⟨v, ⟨a, b, h, ha⟩, rfl⟩
    refine ⟨v, ⟨b.reverse, a.reverse, ?_, ?_⟩, rfl⟩
    · have := congrArg List.reverse h
      simpa using this
    · intro w hw; exact ha w (by simpa using hw)
  · rintro ⟨v, ⟨a, b, rfl, hb⟩, rfl⟩
    exact ⟨v, ⟨b.reverse, a.reverse, by simp, fun w hw => hb w (by simpa using hw)⟩, rfl⟩

theorem lastParam_filter {k c v : Str} {l : List (Str × Str)} :
    LastParam k (l.filter (fun p => p.1 ≠ c)) v ↔ k ≠ c ∧ LastParam k l v := by
  induction l with
  | nil => simp [LastParam]
  | cons p l ih =>
    have step : ∀ (q : Str × Str) (l : List (Str × Str)),
        LastParam k (q :: l) v ↔ LastParam k l v ∨ (q = (k, v) ∧ NoParam k l) := by
      intro q l
      constructor
      · rintro ⟨a, b, h, hb⟩
        cases a with
        | nil => simp at h; exact .inr ⟨h.1, h.2 ▸ hb⟩
        | cons x a => simp at h; exact .inl ⟨a, b, h.2, hb⟩
      · rintro (⟨a, b, rfl, hb⟩ | ⟨rfl, hb⟩)
        · exact ⟨q :: a, b, rfl, hb⟩
        · exact ⟨[], l, rfl, hb⟩
    have hno : k ≠ c → (NoParam k (l.filter (fun p => p.1 ≠ c)) ↔ NoParam k l) := by
      intro hk
      rw [← valuesOf_nil, ← valuesOf_nil, valuesOf_filter hk]
    rw [List.filter_cons]
    by_cases hp : p.1 ≠ c
    · rw [if_pos (by simpa using hp), step, step, ih]
      constructor
      · rintro (h | ⟨rfl, h⟩)
        · exact ⟨h.1, .inl h.2⟩
        · exact ⟨hp, .inr ⟨rfl, (hno hp).mp h⟩⟩
      · rintro ⟨hk, h | ⟨rfl, h⟩⟩
        · exact .inl ⟨hk, h⟩
        · exact .inr ⟨rfl, (hno hp).mpr h⟩
    · rw [if_neg (by simpa using hp), ih, step]
      constructor
      · rintro ⟨hk, h⟩; exact ⟨hk, .inl h⟩
      · rintro ⟨hk, h | ⟨rfl, h⟩⟩
        · exact ⟨hk, h⟩
        · exact absurd hk hp

theorem indirection_iff (l : List (Str × Str)) (i : RequestIndirection) :
    indirectionOfFields (l.filter (fun p => p.1 ≠ c!"client_id")) = i ↔ MeansIndirection l i := by
  have e1 : valuesOf c!"request" (l.filter (fun p => p.1 ≠ c!"client_id")) = valuesOf c!"request" l :=
    valuesOf_filter (by decide) l
  have e2 : valuesOf c!"request_uri" (l.filter (fun p => p.1 ≠ c!"client_id")) =
      valuesOf c!"request_uri" l := valuesOf_filter (by decide) l
  have hold : ∀ o, mofList ((l.filter (fun p => p.1 ≠ c!"client_id")).map
      (fun p => (p.1, Json.str p.2))) = o ↔ HoldsParams l o := by
    intro o
    have h1 : HoldsParams l (mofList ((l.filter (fun p => p.1 ≠ c!"client_id")).map
      (fun p => (p.1, Json.str p.2)))) := by
      refine ⟨mofList_sorted _, fun k j => ?_⟩
      rw [mget_textMap]
      constructor
      · rintro ⟨v, h, rfl⟩
        have := lastParam_filter.mp h
        exact ⟨this.1, v, this.2, rfl⟩
      · rintro ⟨hk, v, h, rfl⟩
        exact ⟨v, lastParam_filter.mpr ⟨hk, h⟩, rfl⟩
    constructor
    · rintro rfl; exact h1
    · intro h2
      refine map_ext h1.1 h2.1 fun k => ?_
      refine Option.ext fun j => ?_
      rw [h1.2, h2.2]
  simp only [indirectionOfFields, e1, e2]
  by_cases hreq : ∃ v, OnlyParam c!"request" l v
  · obtain ⟨v, hv⟩ := hreq
    rw [valuesOf_single.mpr hv]
    simp only
    cases i with
    | byValue jwt =>
      simp only [MeansIndirection, RequestIndirection.byValue.injEq]
      exact ⟨fun e => e ▸ hv, fun h => onlyParam_unique hv h⟩
    | byReference u =>
      simp only [MeansIndirection, reduceCtorEq, false_iff]
      exact fun h => h.1 ⟨v, hv⟩
    | direct o =>
      simp only [MeansIndirection, reduceCtorEq, false_iff]
      exact fun h => h.1 ⟨v, hv⟩
  · have hne : ∀ v, valuesOf c!"request" l ≠ [v] := fun v hv => hreq ⟨v, valuesOf_single.mp hv⟩
    split
    · rename_i v hv; exact absurd hv (hne v)
    by_cases huri : ∃ s u, OnlyParam c!"request_uri" l s ∧ Url.parse s = some u
    · obtain ⟨s, u, hs, hu⟩ := huri
      rw [valuesOf_single.mpr hs]
      simp only [hu]
      cases i with
      | byValue jwt =>
        simp only [MeansIndirection, reduceCtorEq, false_iff]
        exact fun h => hreq ⟨_, h⟩
      | byReference u' =>
        simp only [MeansIndirection, RequestIndirection.byReference.injEq]
        constructor
        · rintro rfl; exact ⟨hreq, s, hs, hu⟩
        · rintro ⟨-, s', hs', hu'⟩
          rw [onlyParam_unique hs' hs, hu] at hu'
          exact Option.some.inj hu'
      | direct o =>
        simp only [MeansIndirection, reduceCtorEq, false_iff]
        exact fun h => h.2.1 ⟨s, u, hs, hu⟩
    · generalize hD : mofList ((l.filter (fun p => p.1 ≠ c!"client_id")).map
        (fun p => (p.1, Json.str p.2))) = D at hold
      refine (iff_of_eq (congrArg (· = i) (Eq.trans (by
        split
        · rename_i s hs
          cases hp : Url.parse s with
          | none => rfl
          | some u => exact absurd ⟨s, u, valuesOf_single.mp hs, hp⟩ huri
        · rfl) (rfl : RequestIndirection.direct D = .direct D)))).trans ?_
      cases i with
      | byValue jwt =>
        simp only [MeansIndirection, reduceCtorEq, false_iff]
        exact fun h => hreq ⟨_, h⟩
      | byReference u' =>
        simp only [MeansIndirection, reduceCtorEq, false_iff]
        exact fun h => huri (by obtain ⟨-, s, h1, h2⟩ := h; exact ⟨s, _, h1, h2⟩)
      | direct o =>
        simp only [MeansIndirection, RequestIndirection.direct.injEq]
        rw [hold]
        exact ⟨fun h => ⟨hreq, huri, h⟩, fun h => h.2.2⟩

theorem clientId_iff (l : List (Str × Str)) (c : Option Str) :
    valuesOf c!"client_id" l = c.toList ↔ MeansClientId l c := by
  cases c with
  | none => exact valuesOf_nil
  | some c => exact valuesOf_single

/-- **C09** A query string parses as a request exactly if `client_id` is absent or given once;
the request is by value exactly if there is exactly one `request` parameter, otherwise by
reference exactly if there is exactly one `request_uri` that is a URL, otherwise direct with the
other parameters, the last of duplicates winning. -/
theorem C09_query_meaning (q : Str) (r : AuthorizationRequest) :
    fromQueryParams q = .ok r ↔
      MeansClientId (formParse q) r.clientId ∧ MeansIndirection (formParse q) r.indirection := by
  obtain ⟨c, i⟩ := r
  simp only [← clientId_iff, ← indirection_iff, fromQueryParams]
  generalize valuesOf c!"client_id" (formParse q) = vs
  match vs, c with
  | [], none => simp
  | [], some c => simp
  | [v], none => simp
  | [v], some c => simp
  | v :: w :: vs, none => simp
  | v :: w :: vs, some c => simp

/-- **C09** The only refused query strings are those with a repeated `client_id`. -/
theorem C09_refused_iff (q : Str) :
    (∃ e, fromQueryParams q = .error e) ↔
      ∃ a b c v w, formParse q = a ++ (c!"client_id", v) :: (b ++ (c!"client_id", w) :: c) := by
  have split : ∀ (l : List (Str × Str)) (v : Str) (vs : List Str),
      valuesOf c!"client_id" l = v :: vs → ∃ a b, l = a ++ (c!"client_id", v) :: b ∧
        valuesOf c!"client_id" b = vs := by
    intro l
    induction l with
    | nil => intro v vs h; simp [valuesOf] at h
    | cons p l ih =>
      intro v vs h
      obtain ⟨k', v'⟩ := p
      rw [valuesOf_cons] at h
      split at h
      · rename_i hk
        subst hk
        simp only [List.cons.injEq] at h
        obtain ⟨rfl, h⟩ := h
        exact ⟨[], l, rfl, h⟩
      · obtain ⟨a, b, rfl, h'⟩ := ih v vs h
        exact ⟨_ :: a, b, rfl, h'⟩
  simp only [fromQueryParams]
  constructor
  · rintro ⟨e, h⟩
    match hv : valuesOf c!"client_id" (formParse q) with
    | [] => rw [hv] at h; simp at h
    | [v] => rw [hv] at h; simp at h
    | v :: w :: vs =>
      obtain ⟨a, b, hab, hb⟩ := split _ _ _ hv
      obtain ⟨b', c, rfl, -⟩ := split _ _ _ hb
      exact ⟨a, b', c, v, w, hab⟩
  · rintro ⟨a, b, c, v, w, h⟩
    have : ∃ xs, valuesOf c!"client_id" (formParse q) = xs ∧ 2 ≤ xs.length := by
      refine ⟨_, rfl, ?_⟩
      rw [h, valuesOf_append, valuesOf_cons, if_pos rfl, valuesOf_append, valuesOf_cons, if_pos rfl]
      simp; omega
    obtain ⟨xs, hx, hl⟩ := this
    rw [hx]
    match xs, hl with
    | _ :: _ :: _, _ => exact ⟨_, rfl⟩

example : fromQueryParams c!"client_id=v&request_uri=https%3A%2F%2Fv%2Fr&request=a.b.c" =
    .ok ⟨some c!"v", .byValue c!"a.b.c"⟩ := by decide
example : fromQueryParams c!"nonce=1&request=a&request=b&nonce=2" =
    .ok ⟨none, .direct [(c!"nonce", .str c!"2"), (c!"request", .str c!"b")]⟩ := by decide

/-! ## C08 -/

/-- **C08** A request URL is accepted exactly if it has a query that parses and its authority
and path are those of the endpoint; no authority counts as the empty one. -/
theorem C08_endpoint_check (url endpoint : Url) (r : AuthorizationRequest) :
    fromUrl url endpoint = .ok r ↔
      ∃ q, url.query = some q ∧ url.authority.getD [] = endpoint.authority.getD [] ∧
        url.path = endpoint.path ∧ fromQueryParams q = .ok r := by
  have hd : ∀ u : Url, u.authority.getD [] = u.authorityStr := by
    intro u; rw [Url.authorityStr]; cases u.authority <;> rfl
  rw [hd, hd]
  simp only [fromUrl]
  cases url.query with
  | none => simp
  | some q =>
    by_cases h1 : url.authorityStr = endpoint.authorityStr
    · by_cases h2 : url.path = endpoint.path
      · simp [h1, h2]
      · simp [h1, h2]
    · simp [h1]

/-- **C08** The schemes and fragments of the URL and of the endpoint, and the query of the
endpoint, play no part. -/
theorem C08_scheme_ignored (url endpoint : Url) (s s' : Str) (f f' q : Option Str) :
    fromUrl { url with scheme := s, fragment := f }
      { endpoint with scheme := s', fragment := f', query := q } = fromUrl url endpoint := rfl

example : fromUrl ⟨c!"https", some c!"w.example", c!"/auth", some c!"request=j", none⟩
    ⟨c!"openid4vp", some c!"w.example", c!"/auth", none, none⟩ = .ok ⟨none, .byValue c!"j"⟩ := by decide
example : fromUrl ⟨c!"https", some c!"evil.example", c!"/auth", some c!"request=j", none⟩
    ⟨c!"https", some c!"w.example", c!"/auth", none, none⟩ = .error .wrongEndpoint := by decide

/-! ## C07 -/

theorem formMembers_cons (k s : Str) (o : UntypedObject) :
    formMembers ((k, .str s) :: o) = match formMembers o with
      | .error e => .error e
      | .ok l => .ok ((k, s) :: l) := by
  simp only [formMembers, mapR, formValue, Except.map]
  cases mapR _ o <;> rfl

theorem formMembers_texts {o : UntypedObject} {l : List (Str × Str)}
    (h : ∀ p ∈ o, ∃ s, p.2 = Json.str s) (hl : formMembers o = .ok l) :
    o = l.map (fun p => (p.1, Json.str p.2)) := by
  induction o generalizing l with
  | nil => simp [formMembers, mapR] at hl; simp [← hl]
  | cons p o ih =>
    obtain ⟨k, j⟩ := p
    obtain ⟨s, hs⟩ := h _ (List.mem_cons_self ..)
    simp only at hs
    subst hs
    rw [formMembers_cons] at hl
    cases hr : formMembers o with
    | error e => rw [hr] at hl; simp at hl
    | ok l' =>
      have := ih (fun p hp => h p (List.mem_cons_of_mem _ hp)) hr
      rw [hr] at hl
      simp only [Except.ok.injEq] at hl
      rw [← hl, this]
      rfl

theorem formMembers_exists {o : UntypedObject} (h : ∀ p ∈ o, ∃ s, p.2 = Json.str s) :
    ∃ l, formMembers o = .ok l := by
  induction o with
  | nil => exact ⟨[], rfl⟩
  | cons p o ih =>
    obtain ⟨k, j⟩ := p
    obtain ⟨s, hs⟩ := h _ (List.mem_cons_self ..)
    simp only at hs
    subst hs
    obtain ⟨l, hl⟩ := ih (fun p hp => h p (List.mem_cons_of_mem _ hp))
    refine ⟨(k, s) :: l, ?_⟩
    rw [formMembers_cons, hl]

theorem noParam_of_mget {k : Str} {l : List (Str × Str)} {o : UntypedObject}
    (ho : o = l.map (fun p => (p.1, Json.str p.2))) (hs : Sorted o) :
    NoParam k l ↔ mget k o = none := by
  constructor
  · intro h
    refine mget_none_of_notMem fun v hv => ?_
    rw [ho] at hv
    obtain ⟨p, hp, e⟩ := List.mem_map.mp hv
    simp only [Prod.mk.injEq] at e
    exact h p.2 (by rw [← e.1]; exact hp)
  · intro h v hv
    have : (k, Json.str v) ∈ o := by rw [ho]; exact List.mem_map.mpr ⟨_, hv, rfl⟩
    rw [mget_of_mem hs this] at h
    simp at h

theorem onlyParam_of_mget {k v : Str} {l : List (Str × Str)} {o : UntypedObject}
    (ho : o = l.map (fun p => (p.1, Json.str p.2))) (hs : Sorted o) :
    OnlyParam k l v ↔ mget k o = some (.str v) := by
  constructor
  · rintro ⟨a, b, rfl, -, -⟩
    refine mget_of_mem hs ?_
    rw [ho]; simp
  · intro h
    have hm := mem_of_mget h
    rw [ho] at hm
    obtain ⟨⟨k', v'⟩, hp, e⟩ := List.mem_map.mp hm
    simp only [Prod.mk.injEq, Json.str.injEq] at e
    obtain ⟨rfl, rfl⟩ := e
    obtain ⟨a, b, rfl⟩ := List.append_of_mem hp
    have hnd := sorted_nodup hs
    rw [ho] at hnd
    simp only [NoDupKeys, List.map_map, List.map_append, List.map_cons] at hnd
    rw [List.nodup_append] at hnd
    obtain ⟨-, h2, h3⟩ := hnd
    refine ⟨a, b, rfl, fun w hw => ?_, fun w hw => ?_⟩
    · exact h3 k' (List.mem_map.mpr ⟨_, hw, rfl⟩) k' (by simp) rfl
    · rw [List.nodup_cons] at h2
      exact h2.1 (List.mem_map.mpr ⟨_, hw, rfl⟩)

theorem lastParam_of_mget {k : Str} {j : Json} {l : List (Str × Str)} {o : UntypedObject}
    (ho : o = l.map (fun p => (p.1, Json.str p.2))) (hs : Sorted o) :
    mget k o = some j ↔ ∃ v, LastParam k l v ∧ j = .str v := by
  rw [← mget_textMap, ← ho, mofList_self hs]

/-- With a leading parameter of another name. -/
theorem onlyParam_cons {k k' v' v : Str} {l : List (Str × Str)} (h : k ≠ k') :
    OnlyParam k ((k', v') :: l) v ↔ OnlyParam k l v := by
  rw [← valuesOf_single, ← valuesOf_single, valuesOf_cons, if_neg (fun e => h e.symm)]

theorem lastParam_cons {k k' v' v : Str} {l : List (Str × Str)} (h : k ≠ k') :
    LastParam k ((k', v') :: l) v ↔ LastParam k l v := by
  constructor
  · rintro ⟨a, b, hab, hb⟩
    cases a with
    | nil => simp at hab; exact absurd hab.1.1.symm h
    | cons x a => simp at hab; exact ⟨a, b, hab.2, hb⟩
  · rintro ⟨a, b, rfl, hb⟩; exact ⟨_ :: a, b, rfl, hb⟩

theorem means_cons {v : Str} {l : List (Str × Str)} {i : RequestIndirection} :
    MeansIndirection ((c!"client_id", v) :: l) i ↔ MeansIndirection l i := by
  have h1 : ∀ w, OnlyParam c!"request" ((c!"client_id", v) :: l) w ↔ OnlyParam c!"request" l w :=
    fun w => onlyParam_cons (by decide)
  have h2 : ∀ w, OnlyParam c!"request_uri" ((c!"client_id", v) :: l) w ↔
      OnlyParam c!"request_uri" l w := fun w => onlyParam_cons (by decide)
  have h3 : ∀ o, HoldsParams ((c!"client_id", v) :: l) o ↔ HoldsParams l o := by
    intro o
    simp only [HoldsParams]
    refine and_congr Iff.rfl (forall_congr' fun k => forall_congr' fun j => ?_)
    refine iff_congr Iff.rfl (and_congr_right fun hk => ?_)
    exact exists_congr fun w => and_congr (lastParam_cons hk) Iff.rfl
  cases i <;> simp only [MeansIndirection, h1, h2, h3]

/-- The indirection as form fields. -/
def indirectionFields : RequestIndirection → Res (List (Str × Str))
  | .byValue jwt => .ok [(c!"request", jwt)]
  | .byReference uri => .ok [(c!"request_uri", uri.print)]
  | .direct o => formMembers o

theorem fields_eq (r : AuthorizationRequest) : r.fields =
    (indirectionFields r.indirection).map
      (fun l => (match r.clientId with | some c => [(c!"client_id", c)] | none => []) ++ l) := by
  obtain ⟨c, i⟩ := r
  cases i with
  | byValue j => rfl
  | byReference u => rfl
  | direct o =>
    simp only [fields, indirectionFields]
    cases formMembers o <;> rfl

/-- What was written is what is read, for the indirection. -/
theorem means_own {i : RequestIndirection} (hr : IndirectionRep i) {l : List (Str × Str)}
    (hl : indirectionFields i = .ok l) :
    (NoParam c!"client_id" l ∧ MeansIndirection l i) ↔ Renderable i := by
  cases i with
  | byValue jwt =>
    simp only [indirectionFields, Except.ok.injEq] at hl
    subst hl
    simp only [Renderable, iff_true, MeansIndirection]
    refine ⟨fun v hv => ?_, ⟨[], [], rfl, by simp [NoParam], by simp [NoParam]⟩⟩
    simp only [List.mem_singleton, Prod.mk.injEq] at hv
    exact absurd hv.1 (by decide)
  | byReference uri =>
    simp only [indirectionFields, Except.ok.injEq] at hl
    subst hl
    simp only [Renderable, iff_true, MeansIndirection]
    refine ⟨fun v hv => ?_, ?_, ⟨uri.print, ⟨[], [], rfl, by simp [NoParam], by simp [NoParam]⟩,
      Url.parse_print hr⟩⟩
    · simp only [List.mem_singleton, Prod.mk.injEq] at hv
      exact absurd hv.1 (by decide)
    · rintro ⟨v, hv⟩
      rw [← valuesOf_single] at hv
      rw [valuesOf_cons, if_neg (by decide)] at hv
      simp [valuesOf] at hv
  | direct o =>
    simp only [indirectionFields] at hl
    simp only [IndirectionRep] at hr
    simp only [Renderable, MeansIndirection]
    constructor
    · rintro ⟨hc, hreq, huri, hs, hp⟩
      have hstr : ∀ p ∈ o, ∃ s, p.2 = Json.str s := by
        intro p hp'
        obtain ⟨-, v, -, h⟩ := (hp p.1 p.2).mp (mget_of_mem hs hp')
        exact ⟨v, h⟩
      have ho := formMembers_texts hstr hl
      refine ⟨hstr, (noParam_of_mget ho hs).mp hc, ?_, ?_⟩
      · cases hg : mget c!"request" o with
        | none => rfl
        | some j =>
          obtain ⟨s, hs'⟩ := hstr _ (mem_of_mget hg)
          simp only at hs'
          subst hs'
          exact absurd ⟨s, (onlyParam_of_mget ho hs).mpr hg⟩ hreq
      · intro s u hg hu
        exact huri ⟨s, u, (onlyParam_of_mget ho hs).mpr hg, hu⟩
    · rintro ⟨hstr, hc, hreq, huri⟩
      have ho := formMembers_texts hstr hl
      refine ⟨(noParam_of_mget ho hr).mpr hc, ?_, ?_, hr, fun k j => ?_⟩
      · rintro ⟨v, hv⟩
        rw [(onlyParam_of_mget ho hr).mp hv] at hreq
        simp at hreq
      · rintro ⟨s, u, hs, hu⟩
        exact huri s u ((onlyParam_of_mget ho hr).mp hs) hu
      · rw [lastParam_of_mget ho hr]
        constructor
        · rintro ⟨v, hv, rfl⟩
          refine ⟨?_, v, hv, rfl⟩
          rintro rfl
          obtain ⟨a, b, rfl, -⟩ := hv
          exact (noParam_of_mget ho hr).mpr hc v (by simp)
        · rintro ⟨-, h⟩; exact h

/-- **C07** A request rendered as a URL for an endpoint and parsed against that endpoint comes
back unchanged, exactly if it is by value, by reference, or direct with parameters a URL can
carry. -/
theorem C07_url_roundtrip (r : AuthorizationRequest) (endpoint : Url)
    (hr : IndirectionRep r.indirection) :
    (∃ url, r.toUrl endpoint = .ok url ∧ fromUrl url endpoint = .ok r) ↔
      Renderable r.indirection := by
  have main : ∀ l, indirectionFields r.indirection = .ok l →
      ((∃ url, r.toUrl endpoint = .ok url ∧ fromUrl url endpoint = .ok r) ↔
        Renderable r.indirection) := by
    intro l hl
    rw [← means_own hr hl]
    simp only [toUrl, fields_eq, hl, Except.map, Except.ok.injEq, exists_eq_left']
    rw [C08_endpoint_check]
    simp only [Url.setQuery, Option.some.injEq, exists_eq_left', Url.authorityStr, true_and]
    rw [C09_query_meaning, formParse_formSer]
    cases r.clientId with
    | none => simp [MeansClientId]
    | some c =>
      simp only [List.singleton_append, means_cons, MeansClientId]
      refine and_congr ?_ Iff.rfl
      rw [← valuesOf_single, valuesOf_cons, if_pos rfl, ← valuesOf_nil]
      simp
  cases hi : indirectionFields r.indirection with
  | ok l => exact main l hi
  | error e =>
    simp only [toUrl, fields_eq, hi, Except.map, reduceCtorEq, false_and, exists_false, false_iff]
    intro h
    obtain ⟨c, i⟩ := r
    cases i with
    | byValue j => simp [indirectionFields] at hi
    | byReference u => simp [indirectionFields] at hi
    | direct o =>
      obtain ⟨l, hl⟩ := formMembers_exists h.1
      simp only [indirectionFields] at hi
      rw [hl] at hi; simp at hi

/-- **C07** The URL of a request is the endpoint with another query: scheme, authority, path and
fragment are those of the endpoint. -/
theorem C07_url_elsewhere {r : AuthorizationRequest} {endpoint url : Url}
    (h : r.toUrl endpoint = .ok url) :
    url.scheme = endpoint.scheme ∧ url.authority = endpoint.authority ∧ url.path = endpoint.path ∧
      url.fragment = endpoint.fragment ∧ url.query ≠ none := by
  simp only [toUrl] at h
  cases hf : r.fields with
  | error e => rw [hf] at h; simp at h
  | ok l =>
    rw [hf] at h
    simp only [Except.ok.injEq] at h
    rw [← h]
    exact ⟨rfl, rfl, rfl, rfl, by simp [Url.setQuery]⟩

theorem intStr_text (i : Int) : IntegerText i (intStr i) := by
  have hd := natStr_digits i.natAbs
  refine ⟨natStr i.natAbs, ⟨⟨natStr_ne_nil _, fun c hc => (digit_iff c).mpr (hd c hc)⟩, ?_⟩, ?_⟩
  · obtain ⟨c, r, e, h⟩ := natStr_head i.natAbs
    rw [e]
    simp only [List.head?_cons, Option.some.injEq]
    rintro rfl
    rw [(h rfl).2]
  · rw [decimal_eq hd, natStr_val, intStr]
    by_cases hi : i < 0
    · rw [if_pos hi]; exact .inr ⟨hi, rfl, by omega⟩
    · rw [if_neg hi]; exact .inl ⟨by omega, rfl, by omega⟩

theorem formValue_text {j : Json} {s : Str} (h : formValue j = .ok s) : FormValue j s := by
  cases j with
  | null => simp [formValue] at h
  | arr l => simp [formValue] at h
  | obj o => simp [formValue] at h
  | str t => simpa [formValue, FormValue, eq_comm] using h
  | flt t => simpa [formValue, FormValue, eq_comm] using h
  | bool b => cases b <;> simpa [formValue, FormValue, eq_comm] using h
  | int i => simp only [formValue, Except.ok.injEq] at h; rw [← h]; exact intStr_text i

theorem formMembers_ok {o : UntypedObject} {l : List (Str × Str)} (h : formMembers o = .ok l) :
    l.map Prod.fst = o.map Prod.fst ∧
      ∀ p ∈ (o.map Prod.snd).zip (l.map Prod.snd), FormValue p.1 p.2 := by
  have h' := mapR_eq_ok.mp h
  clear h
  induction h' with
  | nil => simp
  | @cons a b _ _ h1 _ ih =>
    obtain ⟨s, hs, rfl⟩ := map_ok_iff.mp h1
    refine ⟨by simp [ih.1], ?_⟩
    intro p hp
    simp only [List.map_cons, List.zip_cons_cons, List.mem_cons] at hp
    rcases hp with rfl | hp
    · exact formValue_text hs
    · exact ih.2 p hp

/-- **C07** The query of the URL holds the fields of the request, also of one that does not
survive. -/
theorem C07_url_query {r : AuthorizationRequest} {endpoint url : Url}
    (h : r.toUrl endpoint = .ok url) :
    ∃ l, RequestFields r l ∧ url.query = some (formText l) := by
  simp only [toUrl] at h
  cases hf : r.fields with
  | error e => rw [hf] at h; simp at h
  | ok l =>
    rw [hf] at h
    simp only [Except.ok.injEq] at h
    refine ⟨l, ?_, by rw [← h, Url.setQuery, C10_form_standard]⟩
    rw [fields_eq] at hf
    obtain ⟨rest, hr, rfl⟩ := map_ok_iff.mp hf
    refine ⟨rest, ?_, ?_⟩
    · cases r.clientId <;> rfl
    · cases hi : r.indirection with
      | byValue jwt => rw [hi] at hr; simpa [indirectionFields, eq_comm] using hr
      | byReference u => rw [hi] at hr; simpa [indirectionFields, eq_comm] using hr
      | direct o => rw [hi] at hr; exact formMembers_ok hr

/-- **C07** There is no URL exactly for direct parameters among which is a null, an array or an
object. -/
theorem C07_url_fails (r : AuthorizationRequest) (endpoint : Url) :
    (∃ url, r.toUrl endpoint = .ok url) ↔
      ∀ o, r.indirection = .direct o → ∀ p ∈ o, ∃ s, FormValue p.2 s := by
  constructor
  · rintro ⟨url, h⟩ o ho p hp
    obtain ⟨l, ⟨rest, -, hr⟩, -⟩ := C07_url_query h
    rw [ho] at hr
    obtain ⟨h1, h2⟩ := hr
    clear h ho
    induction o generalizing rest with
    | nil => cases hp
    | cons q o ih =>
      cases rest with
      | nil => simp at h1
      | cons s rest =>
        simp only [List.map_cons, List.cons.injEq, List.zip_cons_cons, List.mem_cons,
          forall_eq_or_imp] at h1 h2
        rcases List.mem_cons.mp hp with rfl | hp
        · exact ⟨_, h2.1⟩
        · exact ih hp rest h1.2 h2.2
  · intro h
    have key : ∀ o : UntypedObject, (∀ p ∈ o, ∃ s, FormValue p.2 s) → ∃ l, formMembers o = .ok l := by
      intro o ho
      induction o with
      | nil => exact ⟨[], rfl⟩
      | cons p o ih =>
        obtain ⟨l, hl⟩ := ih fun q hq => ho q (List.mem_cons_of_mem _ hq)
        have : ∃ s, formValue p.2 = .ok s := by
          obtain ⟨s, hs⟩ := ho p (by simp)
          match hj : p.2 with
          | .null => rw [hj] at hs; cases hs
          | .arr _ => rw [hj] at hs; cases hs
          | .obj _ => rw [hj] at hs; cases hs
          | .str _ => exact ⟨_, rfl⟩
          | .flt _ => exact ⟨_, rfl⟩
          | .int _ => exact ⟨_, rfl⟩
          | .bool true => exact ⟨_, rfl⟩
          | .bool false => exact ⟨_, rfl⟩
        obtain ⟨s, hs⟩ := this
        refine ⟨(p.1, s) :: l, ?_⟩
        exact mapR_eq_ok.mpr (.cons (by simp [hs, Except.map]) (mapR_eq_ok.mp hl))
    have : ∃ l, indirectionFields r.indirection = .ok l := by
      cases hi : r.indirection with
      | byValue jwt => exact ⟨_, rfl⟩
      | byReference u => exact ⟨_, rfl⟩
      | direct o => exact key o (h o hi)
    obtain ⟨l, hl⟩ := this
    rw [toUrl, fields_eq, hl]
    exact ⟨_, rfl⟩

/-- A request with a number and a truth value has a URL, in which they are texts. -/
example : (AuthorizationRequest.mk (some c!"c") (.direct [(c!"a", .bool true), (c!"b", .int (-12))])).toUrl
    ⟨c!"https", some c!"w.example", c!"/", some c!"x", some c!"f"⟩ =
    .ok ⟨c!"https", some c!"w.example", c!"/", some c!"client_id=c&a=true&b=-12", some c!"f"⟩ := by decide

/-- **C07** The same through the text of the URL. -/
theorem C07_url_text_roundtrip (r : AuthorizationRequest) (endpoint : Url)
    (hr : IndirectionRep r.indirection) (hi : Renderable r.indirection) (he : endpoint.WF) :
    ∃ url url', r.toUrl endpoint = .ok url ∧ Url.parse url.print = some url' ∧
      fromUrl url' endpoint = .ok r := by
  obtain ⟨url, h1, h2⟩ := (C07_url_roundtrip r endpoint hr).mpr hi
  refine ⟨url, url, h1, Url.parse_print ?_, h2⟩
  simp only [toUrl] at h1
  cases hf : r.fields with
  | error e => rw [hf] at h1; simp at h1
  | ok l =>
    rw [hf] at h1
    simp only [Except.ok.injEq] at h1
    rw [← h1]
    exact Url.setQuery_wf he (formSer_queryKeep _ l)

/-- **C07** Two different requests never have the same URL. -/
theorem C07_url_injective {r r' : AuthorizationRequest} {endpoint url : Url}
    (hr : IndirectionRep r.indirection) (hi : Renderable r.indirection)
    (hr' : IndirectionRep r'.indirection) (hi' : Renderable r'.indirection)
    (h : r.toUrl endpoint = .ok url) (h' : r'.toUrl endpoint = .ok url) : r = r' := by
  obtain ⟨u, h1, h2⟩ := (C07_url_roundtrip r endpoint hr).mpr hi
  obtain ⟨u', h1', h2'⟩ := (C07_url_roundtrip r' endpoint hr').mpr hi'
  rw [h] at h1; rw [h'] at h1'
  cases h1; cases h1'
  rw [h2] at h2'
  exact Except.ok.inj h2'

example : IndirectionRep (.direct requestSample) ∧ ¬ Renderable (.direct requestSample) ∧
    Renderable (.direct (mdel c!"client_id" requestSample)) := by
  refine ⟨by simp [IndirectionRep, requestSample, Sorted]; decide, ?_, ?_⟩
  · intro h; exact absurd h.2.1 (by decide)
  · refine ⟨?_, by decide, by decide, ?_⟩
    · simp [requestSample, mdel]
    · intro s u h; exact absurd h (by simp [requestSample, mdel, mget])

end Oid4vp
