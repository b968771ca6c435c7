import Verif.Spec.Beside
import Verif.Props.Decision
import Verif.Props.RequestUrl
/-!
# C11, C90: what stands beside a request object
-/

set_option autoImplicit false

namespace Oid4vp

open Spec AuthorizationRequest

theorem fromQueryParams_error {q : Str} {e : Err} (h : fromQueryParams q = .error e) : e = .parse := by
  simp only [fromQueryParams] at h
  split at h
  · exact nomatch h
  · exact nomatch h
  · cases h; rfl

theorem means_same {l l' : List (Str × Str)} (h : SameNamed l l') {i : RequestIndirection}
    (hi : MeansIndirection l i) : MeansIndirection l' i := by
  cases h with
  | value jwt h1 h2 =>
    cases i with
    | byValue j => rw [onlyParam_unique hi h1]; exact h2
    | byReference u => exact absurd ⟨jwt, h1⟩ hi.1
    | direct o => exact absurd ⟨jwt, h1⟩ hi.1
  | reference s s' uri n n' h h' p p' =>
    cases i with
    | byValue j => exact absurd hi (n j)
    | byReference u =>
      obtain ⟨-, t, ht, hu⟩ := hi
      rw [onlyParam_unique ht h, p] at hu
      cases hu
      exact ⟨fun ⟨v, hv⟩ => n' v hv, s', h', p'⟩
    | direct o => exact absurd ⟨s, uri, h, p⟩ hi.2.1
  | direct n n' p p' hl =>
    cases i with
    | byValue j => exact absurd hi (n j)
    | byReference u =>
      obtain ⟨-, t, ht, hu⟩ := hi
      rw [p t ht] at hu
      exact nomatch hu
    | direct o =>
      refine ⟨fun ⟨v, hv⟩ => n' v hv, ?_, hi.2.2.1, fun k j => ?_⟩
      · rintro ⟨s, uri, hs, hu⟩
        rw [p' s hs] at hu
        exact nomatch hu
      · rw [hi.2.2.2 k j]
        constructor
        · rintro ⟨hk, v, hv, rfl⟩; exact ⟨hk, v, (hl k v hk).mp hv, rfl⟩
        · rintro ⟨hk, v, hv, rfl⟩; exact ⟨hk, v, (hl k v hk).mpr hv, rfl⟩

theorem means_client {l l' : List (Str × Str)} (h : SameOuterClient l l') {c : Option Str}
    (hc : MeansClientId l c) : MeansClientId l' c := by
  cases c with
  | none => exact h.1.mp hc
  | some c => exact (h.2 c).mp hc

theorem SameNamed.symm {l l' : List (Str × Str)} (h : SameNamed l l') : SameNamed l' l := by
  cases h with
  | value jwt h1 h2 => exact .value jwt h2 h1
  | reference s s' uri n n' h h' p p' => exact .reference s' s uri n' n h' h p' p
  | direct n n' p p' hl => exact .direct n' n p' p (fun k v hk => (hl k v hk).symm)

/-- **C90** Two URLs for the same endpoint with the same outer client identifier that name the same request
are the same to a wallet: it does the same and decides the same, whatever else is in their queries, in
whatever order, and whatever their schemes and fragments. -/
theorem C90_beside_ignored (w : Wallet) (url url' : Url) (q q' : Str)
    (ha : url.authority = url'.authority) (hp : url.path = url'.path)
    (hq : url.query = some q) (hq' : url'.query = some q')
    (hc : SameOuterClient (formParse q) (formParse q')) (hr : SameNamed (formParse q) (formParse q')) :
    w.validateRequest url = w.validateRequest url' := by
  have hc' : SameOuterClient (formParse q') (formParse q) :=
    ⟨hc.1.symm, fun c => (hc.2 c).symm⟩
  have he : fromQueryParams q = fromQueryParams q' := by
    cases h : fromQueryParams q with
    | ok r =>
      obtain ⟨h1, h2⟩ := (C09_query_meaning q r).mp h
      exact ((C09_query_meaning q' r).mpr ⟨means_client hc h1, means_same hr h2⟩).symm
    | error e =>
      cases h' : fromQueryParams q' with
      | error e' => rw [fromQueryParams_error h, fromQueryParams_error h']
      | ok r =>
        obtain ⟨h1, h2⟩ := (C09_query_meaning q' r).mp h'
        rw [(C09_query_meaning q r).mpr ⟨means_client hc' h1, means_same (SameNamed.symm hr) h2⟩] at h
        exact nomatch h
  have hf : ∀ e, fromUrl url e = fromUrl url' e := by
    intro e
    have ha' : url.authorityStr = url'.authorityStr := by rw [Url.authorityStr, Url.authorityStr, ha]
    simp only [fromUrl, hq, hq', ha', hp, he]
  rw [Wallet.validateRequest, Wallet.validateRequest, hf]

/-- **C90** Nothing but the JWT decides what is asked for: two wallets (with the same JWS library) that are given
the same JWT by whatever requests read the same request object from it. -/
theorem C90_object_of_jwt {w w' : Wallet} (hs : w.ssiHeader = w'.ssiHeader) {r r' : AuthorizationRequest}
    {a a' : RequestObject} {j : Str} (h : ResolvesTo w r a (some j)) (h' : ResolvesTo w' r' a' (some j)) :
    a = a' := by
  obtain ⟨o, ho, ha⟩ := h.params
  obtain ⟨o', ho', ha'⟩ := h'.params
  have hoo : o = o' := by
    have h1 := decodeUnverified_ok.mpr ho
    rw [hs, decodeUnverified_ok.mpr ho'] at h1
    cases h1
    rfl
  subst hoo
  have h1 := isRequest_iff.mpr ha
  rw [isRequest_iff.mpr ha'] at h1
  cases h1
  rfl

/-- **C90** All that a client identifier outside a typed JWT can do is to have the request refused, namely if
there is another one inside. -/
theorem C90_outer_client_only_refuses (w : Wallet) (i : RequestIndirection) (x : Str) (a : RequestObject)
    (hd : ∀ o, i ≠ .direct o) (ht : ∀ j, JwtOf w i (some j) → TypedAsRequest j) :
    (AuthorizationRequest.validate w ⟨some x, i⟩).2 = .ok a ↔
      (AuthorizationRequest.validate w ⟨none, i⟩).2 = .ok a ∧ (a.clientId = none ∨ a.clientId = some ⟨x⟩) := by
  rw [C87_accepted_iff, C87_accepted_iff]
  have key : ∀ c c' jwt, ResolvesTo w ⟨c, i⟩ a jwt → ResolvesTo w ⟨c', i⟩ a jwt := by
    intro c c' jwt h
    obtain ⟨h1, h2, o, ho, ha⟩ := h
    cases jwt with
    | none =>
      obtain ⟨d, h, -⟩ := ho
      exact absurd h (hd d)
    | some j =>
      exact ⟨h1, fun j' e => .inl (by cases e; exact ht j h1), o, ho, ha⟩
  constructor
  · rintro ⟨m, jwt, ⟨h1, h2, h3⟩, hv, hsc⟩
    refine ⟨⟨m, jwt, ⟨key _ _ _ h1, h2, h3⟩, hv, fun _ _ h => nomatch h⟩, ?_⟩
    cases hcid : a.clientId with
    | none => exact .inl rfl
    | some y => exact .inr (by rw [hsc x y rfl hcid])
  · rintro ⟨⟨m, jwt, ⟨h1, h2, h3⟩, hv, -⟩, hor⟩
    refine ⟨m, jwt, ⟨key _ _ _ h1, h2, h3⟩, hv, ?_⟩
    intro x' y hx hy
    cases hx
    rcases hor with h | h
    · rw [h] at hy; exact nomatch hy
    · rw [h] at hy; cases hy; rfl

/-- **C11** The exception from the check of the type cannot be used for other clients: if a JWT without the type
of request objects is accepted, then it has no client identifier or that of a redirect address, and it was the
method for these that accepted it. -/
theorem C11_untyped_clients (w : Wallet) (r : AuthorizationRequest) (a : RequestObject) (j : Str)
    (h : (r.validate w).2 = .ok a) (hj : JwtOf w r.indirection (some j)) (ht : ¬ TypedAsRequest j) :
    ∃ t, r.clientId = some (c!"redirect_uri:" ++ t) ∧
      ((a.clientId = none ∧ verifyCalls (r.validate w).1 = [(.preregistered, a, some j)]) ∨
       (a.clientId = some ⟨c!"redirect_uri:" ++ t⟩ ∧
          verifyCalls (r.validate w).1 = [(.redirectUri, a, some j)])) := by
  obtain ⟨m, jwt, hr, hv, hs⟩ := (C87_accepted_iff w r a).mp h
  have hjwt : jwt = some j := by
    have hsrc := hr.resolves.source
    generalize r.indirection = i at hsrc hj
    cases i with
    | byValue k => simp only [JwtOf] at hsrc hj; rw [hsrc, hj]
    | byReference u =>
      obtain ⟨b, hb, rfl⟩ := hsrc
      obtain ⟨b', hb', he⟩ := hj
      obtain ⟨resp, h1, -, -, h2, -⟩ := hb
      obtain ⟨resp', h1', -, -, h2', -⟩ := hb'
      rw [h1] at h1'
      cases h1'
      rw [h2] at h2'
      cases h2'
      exact he.symm
    | direct o => exact nomatch hj
  subst hjwt
  have hcalls : verifyCalls (r.validate w).1 = [(m, a, some j)] := by
    obtain ⟨f, hf, h1, -⟩ := C87_effects w r
    rw [h1 m a _ hr]
    generalize r.2 = ind at hf
    cases hf <;> rfl
  rcases hr.resolves.typed j rfl with h | ⟨⟨t, hc⟩, -⟩
  · exact absurd h ht
  refine ⟨t, hc, ?_⟩
  rw [hcalls]
  cases hcid : a.clientId with
  | none =>
    refine .inl ⟨rfl, ?_⟩
    have := hr.method
    rw [hcid] at this
    rw [C12_method_unique this .absent]
  | some y =>
    refine .inr ?_
    have hy := hs _ y hc hcid
    obtain ⟨y⟩ := y
    simp only at hy
    subst hy
    refine ⟨rfl, ?_⟩
    have := hr.method
    rw [hcid] at this
    rw [C12_method_unique this (.redirectUri t)]

/-- **C90** (a finding) Whatever the URL says about how to fetch (`request_uri_method`), a wallet only makes `GET`
requests without a body. -/
theorem C90_only_get (w : Wallet) (url : Url) (r : HttpRequest)
    (h : r ∈ httpCalls (w.validateRequest url).1) : r.method = c!"GET" ∧ r.body = [] := by
  simp only [Wallet.validateRequest] at h
  split at h
  · simp [httpCalls] at h
  · rename_i req _
    rw [C17_one_get] at h
    split at h
    · split at h
      · simp only [List.mem_singleton] at h
        subst h
        exact ⟨rfl, rfl⟩
      · exact nomatch h
    · exact nomatch h

/-! ## Cases -/

/-- A URL for the endpoint of the sample wallet. -/
def besideUrl (q : Str) : Url := ⟨c!"openid4vp", some [], [], some q, none⟩

-- parameters beside the JWT, another order, a request_uri and a fragment
example (w : Wallet) : w.validateRequest (besideUrl c!"client_id=c&request=a.b.c&nonce=evil&nonce=x") =
    w.validateRequest { besideUrl c!"request_uri=https%3A%2F%2Fx.y%2F&request=a.b.c&client_id=c" with
      fragment := some c!"f" } := by
  refine C90_beside_ignored w _ _ _ _ rfl rfl rfl rfl ⟨?_, fun c => ?_⟩ (.value c!"a.b.c" ?_ ?_)
  · rw [← valuesOf_nil, ← valuesOf_nil]; decide
  · rw [← valuesOf_single, ← valuesOf_single]; exact Iff.rfl
  · exact valuesOf_single.mp (by decide)
  · exact valuesOf_single.mp (by decide)

-- by reference: the method asked for makes no difference
example (w : Wallet) (m : Str) (hm : m = c!"post" ∨ m = c!"get") :
    w.validateRequest (besideUrl (c!"request_uri=https%3A%2F%2Fx.y%2F&request_uri_method=" ++ m)) =
      w.validateRequest (besideUrl c!"request_uri=https%3A%2F%2Fx.y") := by
  rcases hm with rfl | rfl
  all_goals
    refine C90_beside_ignored w _ _ _ _ rfl rfl rfl rfl ⟨?_, fun c => ?_⟩
      (.reference c!"https://x.y/" c!"https://x.y" ⟨c!"https", some c!"x.y", c!"/", none, none⟩
        (fun v => ?_) (fun v => ?_) ?_ ?_ (by decide) (by decide))
    · rw [← valuesOf_nil, ← valuesOf_nil]; decide
    · rw [← valuesOf_single, ← valuesOf_single]; exact Iff.rfl
    · rw [← valuesOf_single]; exact fun h => nomatch h
    · rw [← valuesOf_single]; exact fun h => nomatch h
    · exact valuesOf_single.mp (by decide)
    · exact valuesOf_single.mp (by decide)

-- the sample is accepted without client_id outside, so with its own one, and with no other
example (x : Str) : (AuthorizationRequest.validate walletSample
      (byValueSample (some x) jwsHeaderSample explicitSample)).2 = .ok explicitObject ↔
    x = c!"x509_san_dns:verifier.example" := by
  have ht : ∀ j, JwtOf walletSample (byValueSample none jwsHeaderSample explicitSample).indirection (some j) →
      TypedAsRequest j := fun j h => by cases h; exact typed_sample _
  have key : ∀ x, _ := fun x => C90_outer_client_only_refuses walletSample
    (byValueSample none jwsHeaderSample explicitSample).indirection x explicitObject (fun _ h => nomatch h) ht
  have h0 := ((key c!"x509_san_dns:verifier.example").mp validate_sample).1
  refine (key x).trans ⟨?_, ?_⟩
  · rintro ⟨-, h | h⟩
    · exact nomatch h
    · exact (congrArg ClientId.val (Option.some.inj h)).symm
  · rintro rfl
    exact ⟨h0, .inr rfl⟩

theorem untyped_accepted : (AuthorizationRequest.validate walletSample
    (byValueSample (some c!"redirect_uri:https://v.example/") jwsHeaderUntyped anonymousSample)).2 =
      .ok anonymousObject := by
  refine (C12_accepted_iff _ _ _).mpr ⟨_, .preregistered, resolve_ok.mpr ⟨rfl,
    ⟨_, compactJws_payload rfl anonymousSample_wf (by decide), anonymousSample_ok⟩,
    fun _ e => .inr (by cases e; exact ⟨⟨_, rfl⟩, _, compactJws_header jwsHeaderUntyped_wf (by decide)⟩)⟩,
    metadata_sample.2, .absent, rfl, ?_⟩
  exact fun x y _ h => nomatch h

-- an untyped JWT is accepted, as one without client identifier
example : ∃ jwt, verifyCalls (AuthorizationRequest.validate walletSample
    (byValueSample (some c!"redirect_uri:https://v.example/") jwsHeaderUntyped anonymousSample)).1 =
      [(.preregistered, anonymousObject, some jwt)] := by
  obtain ⟨t, -, h | h⟩ := C11_untyped_clients _ _ _ _ untyped_accepted rfl (by
    rintro ⟨m, hm, ht⟩
    have h1 := jwsHeader_ok.mpr hm
    rw [jwsHeader_ok.mpr (compactJws_header jwsHeaderUntyped_wf (by decide))] at h1
    cases h1
    exact absurd ht (by decide))
  · exact ⟨_, h.2⟩
  · exact nomatch h.1

end Oid4vp
