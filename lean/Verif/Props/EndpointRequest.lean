import Verif.Props.Endpoint
/-!
# What the example wallet's endpoint takes for the request: C58, C59
-/

set_option autoImplicit false

namespace Oid4vp
open Example Spec AuthorizationRequest

/-! ## C58 -/

theorem valuesOf_optPair (k k' : Str) (o : Option Str) :
    valuesOf k (optPair k' o) = if k' = k then o.toList else [] := by
  cases o with
  | none => simp [valuesOf, optPair]
  | some v => simp only [optPair, valuesOf_cons]; split <;> rfl

theorem filter_optPair (c k : Str) (o : Option Str) (h : k ≠ c) :
    (optPair k o).filter (fun p => decide (p.1 ≠ c)) = optPair k o := by
  cases o <;> simp [optPair, h]

theorem filter_optPair_self (c : Str) (o : Option Str) :
    (optPair c o).filter (fun p => decide (p.1 ≠ c)) = [] := by
  cases o <;> simp [optPair]

/-- The fields other than `client_id`. -/
theorem pairs_rest (p : Params) : p.pairs.filter (fun q => q.1 ≠ c!"client_id") =
    optPair c!"request" p.request ++
    (optPair c!"request_uri" p.requestUri ++ (optPair c!"response_type" p.responseType ++
    (optPair c!"nonce" p.nonce ++ (optPair c!"state" p.state ++
    (optPair c!"response_mode" p.responseMode ++ (optPair c!"response_uri" p.responseUri ++
    optPair c!"dcql_query" p.dcqlQuery)))))) := by
  simp only [Params.pairs, List.filter_append]
  rw [filter_optPair_self, filter_optPair _ _ _ (by decide), filter_optPair _ _ _ (by decide),
    filter_optPair _ _ _ (by decide), filter_optPair _ _ _ (by decide), filter_optPair _ _ _ (by decide),
    filter_optPair _ _ _ (by decide), filter_optPair _ _ _ (by decide), filter_optPair _ _ _ (by decide)]
  rfl

theorem direct_members (a b c d e f g : Option Str) :
    mofList ((optPair c!"request_uri" a ++ (optPair c!"response_type" b ++ (optPair c!"nonce" c ++
      (optPair c!"state" d ++ (optPair c!"response_mode" e ++ (optPair c!"response_uri" f ++
      optPair c!"dcql_query" g)))))).map (fun p => (p.1, Json.str p.2))) =
    member c!"dcql_query" g ++ member c!"nonce" c ++ member c!"request_uri" a ++
      member c!"response_mode" e ++ member c!"response_type" b ++ member c!"response_uri" f ++
      member c!"state" d := by
  rcases a with _ | a <;> rcases b with _ | b <;> rcases c with _ | c <;> rcases d with _ | d <;>
    rcases e with _ | e <;> rcases f with _ | f <;> rcases g with _ | g <;> rfl

/-- **C58** The URL the endpoint rebuilds parses to the request its parameters describe. -/
theorem C58_request_of_params (endpoint : Url) (p : Params)
    (he : endpoint.query = none ∨ endpoint.query = some []) :
    fromUrl (buildRequestUrl endpoint p) endpoint = .ok (described p) := by
  have hq : buildRequestUrl endpoint p = endpoint.setQuery (formSer p.pairs) := by
    rcases he with he | he <;> simp only [buildRequestUrl, he]
  rw [hq, C08_endpoint_check]
  refine ⟨formSer p.pairs, rfl, rfl, rfl, ?_⟩
  simp only [fromQueryParams, formParse_formSer]
  have hc : valuesOf c!"client_id" p.pairs = p.clientId.toList := by
    simp only [Params.pairs, valuesOf_append, valuesOf_optPair]
    simp
  have hi : indirectionOfFields (p.pairs.filter (fun q => q.1 ≠ c!"client_id")) =
      (described p).indirection := by
    rw [pairs_rest]
    have h1 : ∀ l, valuesOf c!"request" (optPair c!"request" p.request ++
        (optPair c!"request_uri" p.requestUri ++ (optPair c!"response_type" p.responseType ++
        (optPair c!"nonce" p.nonce ++ (optPair c!"state" p.state ++
        (optPair c!"response_mode" p.responseMode ++ (optPair c!"response_uri" p.responseUri ++
        l))))))) = p.request.toList ++ valuesOf c!"request" l := by
      intro l
      simp only [valuesOf_append, valuesOf_optPair]
      simp
    have h2 : ∀ l, valuesOf c!"request_uri" (optPair c!"request" p.request ++
        (optPair c!"request_uri" p.requestUri ++ (optPair c!"response_type" p.responseType ++
        (optPair c!"nonce" p.nonce ++ (optPair c!"state" p.state ++
        (optPair c!"response_mode" p.responseMode ++ (optPair c!"response_uri" p.responseUri ++
        l))))))) = p.requestUri.toList ++ valuesOf c!"request_uri" l := by
      intro l
      simp only [valuesOf_append, valuesOf_optPair]
      simp
    have h3 : valuesOf c!"request" (optPair c!"dcql_query" p.dcqlQuery) = [] := by
      rw [valuesOf_optPair]; rfl
    have h4 : valuesOf c!"request_uri" (optPair c!"dcql_query" p.dcqlQuery) = [] := by
      rw [valuesOf_optPair]; rfl
    simp only [indirectionOfFields, h1, h2, h3, h4, List.append_nil, described]
    cases hr : p.request with
    | some j => rfl
    | none =>
      have hd := direct_members p.requestUri p.responseType p.nonce p.state p.responseMode
        p.responseUri p.dcqlQuery
      cases hu : p.requestUri with
      | none =>
        rw [hu] at hd
        exact congrArg RequestIndirection.direct hd
      | some s =>
        rw [hu] at hd
        cases hp : Url.parse s with
        | some u => simp [hp]
        | none =>
          simp only [Option.toList_none, Option.toList_some, Option.bind_some, hp]
          exact congrArg RequestIndirection.direct hd
  rw [hi, hc]
  cases hcid : p.clientId with
  | none => simp [described, hcid]
  | some c => simp [described, hcid]

example : described { clientId := some c!"x", nonce := some c!"n", requestUri := some c!"nonsense" } =
    ⟨some c!"x", .direct [(c!"nonce", .str c!"n"), (c!"request_uri", .str c!"nonsense")]⟩ := by decide

/-- **C58** A request given as plain parameters is never answered with a response: its
`dcql_query`, if any, is a text, not the object it encodes. -/
theorem C58_plain_parameters_never_answered (ord : MapOrder) (w : Adapter) (p : Params)
    (he : w.endpoint.query = none ∨ w.endpoint.query = some [])
    (h1 : p.request = none) (h2 : p.requestUri.bind Url.parse = none) :
    (w.process ord p).1 = [] ∧ ∃ st, (w.process ord p).2 = .failure 400 c!"invalid_request" st := by
  have hind : (described p).indirection = .direct (member c!"dcql_query" p.dcqlQuery ++
      member c!"nonce" p.nonce ++
      member c!"request_uri" p.requestUri ++ member c!"response_mode" p.responseMode ++
      member c!"response_type" p.responseType ++ member c!"response_uri" p.responseUri ++
      member c!"state" p.state) := by simp only [described, h1, h2]
  have hmem : ∀ (k : Str) (v : Option Str) (l : List (Str × Json)), c!"dcql_query" ≠ k →
      mget c!"dcql_query" (member k v ++ l) = mget c!"dcql_query" l := by
    intro k v l hk
    cases v with
    | none => rfl
    | some v => simp [member, mget, hk]
  have hbase : mget c!"dcql_query" (member c!"dcql_query" p.dcqlQuery ++ member c!"nonce" p.nonce ++
        member c!"request_uri" p.requestUri ++ member c!"response_mode" p.responseMode ++
        member c!"response_type" p.responseType ++ member c!"response_uri" p.responseUri ++
        member c!"state" p.state) = p.dcqlQuery.map .str := by
    cases p.dcqlQuery with
    | some q => rfl
    | none =>
      simp only [List.append_assoc, show member c!"dcql_query" none = [] from rfl, List.nil_append]
      rw [hmem _ _ _ (by decide), hmem _ _ _ (by decide), hmem _ _ _ (by decide),
        hmem _ _ _ (by decide), hmem _ _ _ (by decide)]
      have := hmem c!"state" p.state [] (by decide)
      rw [List.append_nil] at this
      rw [this]; rfl
  generalize (member c!"dcql_query" p.dcqlQuery ++ member c!"nonce" p.nonce ++
        member c!"request_uri" p.requestUri ++ member c!"response_mode" p.responseMode ++
        member c!"response_type" p.responseType ++ member c!"response_uri" p.responseUri ++
        member c!"state" p.state) = d at hind hbase
  have htr : ((described p).resolve w.wallet).1 = [] := by simp only [resolve, hind]
  simp only [Adapter.process, C58_request_of_params w.endpoint p he]
  cases hr : (described p).resolve w.wallet with
  | mk tr res =>
    rw [hr] at htr
    simp only at htr
    subst htr
    cases res with
    | error e => exact ⟨rfl, _, rfl⟩
    | ok aj =>
      obtain ⟨a, j⟩ := aj
      obtain ⟨hj, ⟨o, ho, ha⟩, -⟩ := resolve_ok.mp
        (show ((described p).resolve w.wallet).2 = .ok (a, j) by rw [hr])
      rw [hind] at hj
      simp only [JwtOf] at hj
      subst hj
      obtain ⟨d', hd', rfl⟩ := ho
      rw [hind] at hd'
      cases hd'
      have hin := (C05_accessors_agree ha).1
      have hdq : mget c!"dcql_query" a.inner = p.dcqlQuery.map .str := by
        rw [show a.inner = _ from hin]
        cases (described p).clientId with
        | none => exact hbase
        | some c => simp only; rw [mget_mset_ne (by decide)]; exact hbase
      have hda : a.dcqlQuery = none ∨ ∃ e, a.dcqlQuery = some (.error e) := by
        simp only [RequestObject.dcqlQuery, UntypedObject.get]
        rw [show TypedParameter.key DcqlQuery = c!"dcql_query" from rfl, hdq]
        cases p.dcqlQuery with
        | none => exact .inl rfl
        | some q => exact .inr ⟨_, rfl⟩
      simp only [Adapter.respond]
      rcases hda with h | ⟨e, h⟩ <;> rw [h] <;> exact ⟨rfl, _, rfl⟩

-- C58: an otherwise complete request as plain parameters
example : adapterSample.process id {
      clientId := some c!"x"
      responseType := some c!"vp_token"
      nonce := some c!"n"
      responseMode := some c!"direct_post"
      responseUri := some c!"https://v.example/r"
      dcqlQuery := some c!"{\"credentials\":[{\"id\":\"m\",\"format\":\"mso_mdoc\"}]}" } =
    ([], .failure 400 c!"invalid_request" none) := by decide +kernel

/-! ## C59 -/

theorem respond_params (ord : MapOrder) (w : Adapter) (a : RequestObject) {p p' : Params}
    (h : p.state = p'.state) : w.respond ord a p = w.respond ord a p' := by
  simp only [Adapter.respond, stateToEcho, h]

/-- **C59** Requests by value that differ only in the signature are processed alike, whatever
the signatures are, as long as they are base64url. -/
theorem C59_signature_ignored (ord : MapOrder) (w : Adapter) (p : Params) (h b g g' : Str)
    (he : w.endpoint.query = none ∨ w.endpoint.query = some [])
    (hh : '.' ∉ h) (hb : '.' ∉ b)
    (hg : ∃ s, b64Dec .url g = some s) (hg' : ∃ s, b64Dec .url g' = some s) :
    w.process ord { p with request := some (h ++ '.' :: (b ++ '.' :: g)) } =
      w.process ord { p with request := some (h ++ '.' :: (b ++ '.' :: g')) } := by
  have key : ∀ g, (∃ s, b64Dec .url g = some s) → ∀ l,
      (resolveJwt w.wallet.ssiHeader l (h ++ '.' :: (b ++ '.' :: g))).map Prod.fst =
      (resolveJwt w.wallet.ssiHeader l (h ++ '.' :: (b ++ '.' :: []))).map Prod.fst := by
    rintro g ⟨s, hs⟩ l
    have hsp : ∀ g : Str, splitJws (h ++ '.' :: (b ++ '.' :: g)) = .ok (h, b, g) := by
      intro g
      simp only [splitJws, splitOnce_append hh, splitOnce_append hb]
    have hnil : b64url [] = .ok [] := by decide
    have hs' : b64url g = .ok s := by simp [b64url, hs, orErr]
    have hv : validateRequestObjectTyp (h ++ '.' :: (b ++ '.' :: g)) l =
        validateRequestObjectTyp (h ++ '.' :: (b ++ '.' :: [])) l := by
      simp only [validateRequestObjectTyp, jwsHeader, hsp]
    have hd : decodeUnverified w.wallet.ssiHeader (h ++ '.' :: (b ++ '.' :: g)) =
        decodeUnverified w.wallet.ssiHeader (h ++ '.' :: (b ++ '.' :: [])) := by
      simp only [decodeUnverified, hsp, hnil, hs']
    simp only [resolveJwt, hv, hd]
    cases validateRequestObjectTyp (h ++ '.' :: (b ++ '.' :: [])) l with
    | error e => rfl
    | ok u =>
      simp only
      cases decodeUnverified w.wallet.ssiHeader (h ++ '.' :: (b ++ '.' :: [])) with
      | error e => rfl
      | ok o =>
        simp only
        cases RequestObject.ofObject o <;> rfl
  have heq := fun l => (key g hg l).trans (key g' hg' l).symm
  simp only [Adapter.process, C58_request_of_params w.endpoint _ he, described, resolve,
    isRedirectUriPrefix]
  have h1 := heq (match p.clientId with
    | some c => startsWith c!"redirect_uri:" c
    | none => false)
  generalize resolveJwt w.wallet.ssiHeader _ (h ++ '.' :: (b ++ '.' :: g)) = x at h1 ⊢
  generalize resolveJwt w.wallet.ssiHeader _ (h ++ '.' :: (b ++ '.' :: g')) = y at h1 ⊢
  rcases x with _ | ⟨a, j⟩ <;> rcases y with _ | ⟨a', j'⟩ <;> simp only [Except.map,
    Except.error.injEq, Except.ok.injEq, reduceCtorEq] at h1 ⊢
  subst h1
  exact congrArg (fun o : List HttpRequest × Answer => (httpOf [] ++ o.1, o.2)) (respond_params ord w a rfl)

-- C59: a request with a nonsense signature is answered
example : (posts (adapterSample.process id { request := some (compactJws jwsHeaderSample
    (redirectSample c!"direct_post" c!"https://v.example/r") []) }).1).length = 1 := by decide +kernel

end Oid4vp
