import Verif.Spec.EndpointAnswer
import Verif.Props.EndpointRequest
import Verif.Props.FormText
/-!
# What the example wallet's endpoint does, completely: C77
-/

set_option autoImplicit false

namespace Oid4vp
open Example Spec AuthorizationRequest

theorem splitOn_join (c : Char) (a b : Str) :
    splitOn c (a ++ c :: b) = splitOn c a ++ splitOn c b := by
  induction a with
  | nil => simp [splitOn]
  | cons x xs ih =>
    by_cases hx : x = c
    · subst hx; simp [splitOn, ih]
    · have hne := splitOn_ne_nil c xs
      simp only [List.cons_append, splitOn, hx, if_false, ih]
      cases h : splitOn c xs with
      | nil => exact absurd h hne
      | cons y ys => simp

theorem formParse_join (a b : Str) : formParse (a ++ '&' :: b) = formParse a ++ formParse b := by
  simp only [formParse, splitOn_join, List.filter_append, List.map_append]

theorem pairs_handed (p : Params) : p.pairs = handed p := by
  obtain ⟨a, b, c, d, e, f, g, h, i⟩ := p
  cases a <;> cases b <;> cases c <;> cases d <;> cases e <;> cases f <;> cases g <;> cases h <;>
    cases i <;> rfl

theorem formParse_nil : formParse [] = [] := by decide

theorem ownFields_iff {e : Url} {own : List (Str × Str)} :
    OwnFields e own ↔ own = (match e.query with | none => [] | some q => formParse q) := by
  simp only [OwnFields]
  cases e.query with
  | none => simp
  | some q =>
    simp only [reduceCtorEq, false_and, false_or, Option.some.injEq, exists_eq_left', ← C10_form_text]
    exact eq_comm

theorem buildRequestUrl_query (e : Url) (p : Params) :
    ∃ q, buildRequestUrl e p = e.setQuery q ∧
      formParse q = (match e.query with | none => [] | some q => formParse q) ++ handed p := by
  refine ⟨_, rfl, ?_⟩
  rw [← pairs_handed]
  cases e.query with
  | none => simp [formParse_formSer]
  | some q =>
    cases q with
    | nil => simp [formParse_formSer, formParse_nil]
    | cons c q =>
      cases hp : p.pairs with
      | nil => simp
      | cons x l => simp only; rw [formParse_join, formParse_formSer]

/-- **C77** A call is taken for the request of the endpoint's own fields and the parameters, whether
the endpoint's address has a query or not. -/
theorem C77_taken_for (w : Adapter) (p : Params) (r : AuthorizationRequest) :
    fromUrl (buildRequestUrl w.endpoint p) w.endpoint = .ok r ↔ TakenFor w p r := by
  obtain ⟨q, h1, h2⟩ := buildRequestUrl_query w.endpoint p
  rw [C08_endpoint_check, h1]
  simp only [TakenFor, ownFields_iff, exists_eq_left, ← h2, ← C09_query_meaning]
  constructor
  · rintro ⟨q', h3, -, -, h4⟩
    cases h3; exact h4
  · intro h; exact ⟨q, rfl, rfl, rfl, h⟩

theorem fetchesOf_iff {w : Wallet} {r : AuthorizationRequest} {l : List HttpRequest} :
    FetchesOf w r l ↔ httpOf (r.resolve w).1 = l := by
  constructor
  · intro h
    cases h with
    | one h1 h2 => simp only [resolve, h1, h2, if_true]; rfl
    | none h1 =>
      simp only [resolve]
      cases hi : r.indirection with
      | byValue _ => rfl
      | direct _ => rfl
      | byReference u => simp only [h1 u hi]; rfl
  · rintro rfl
    simp only [resolve]
    cases hi : r.indirection with
    | byValue _ => exact .none (by rw [hi]; simp)
    | direct _ => exact .none (by rw [hi]; simp)
    | byReference u =>
      by_cases hu : w.uriOk u.print = true
      · simp only [hu, if_true]; exact .one hi hu
      · simp only [hu]; refine .none fun u' h => ?_
        rw [hi] at h; cases h; simpa using hu

theorem goTo_iff {w : Adapter} {resp : HttpResponse} {s : Str} :
    GoTo w resp s ↔ w.verifierRedirect resp = some s := by
  simp only [GoTo, Adapter.verifierRedirect]
  cases w.text resp with
  | none => simp
  | some t =>
  simp only [Option.some.injEq, exists_and_left, exists_eq_left']
  cases jParse t with
  | error e => simp
  | ok j =>
    cases j with
    | obj m =>
      simp only [Except.ok.injEq, Json.obj.injEq, exists_eq_left', Json.get?]
      cases mget c!"redirect_uri" m with
      | none => simp
      | some v => cases v <;> simp [Json.asStr?]
    | _ => simp [Json.get?]

theorem succeeded_iff {resp : HttpResponse} : Succeeded resp ↔ resp.isSuccess = true := by
  simp [Succeeded, HttpResponse.isSuccess]

theorem afterSending_iff {w : Adapter} {a : RequestObject} {body : Str} {st : Option Str}
    {more : List HttpRequest} {ans : Answer} :
    AfterSending w st (Sends a body) more ans ↔
      w.post a.returnUri body st = (Sends a body :: more, ans) := by
  have hreq : adapterPost a.returnUri body = Sends a body := rfl
  constructor
  · intro h
    cases h with
    | unsent h => simp only [Adapter.post, hreq, h]
    | refused h h1 => simp only [Adapter.post, hreq, h]; rw [if_neg (by rwa [← succeeded_iff])]
    | @done resp h h1 h2 =>
      simp only [Adapter.post, hreq, h]; rw [if_pos (succeeded_iff.mp h1)]
      have : w.verifierRedirect resp = none := by
        cases hv : w.verifierRedirect resp with
        | none => rfl
        | some s => exact absurd (goTo_iff.mpr hv) (h2 s)
      rw [this]
    | goOn h h1 h2 =>
      simp only [Adapter.post, hreq, h]; rw [if_pos (succeeded_iff.mp h1), goTo_iff.mp h2]
  · intro h
    simp only [Adapter.post, hreq] at h
    split at h
    · cases h; exact .unsent (by assumption)
    · rename_i resp hh
      split at h
      · rename_i hs
        split at h
        · rename_i ad ht
          cases h; exact .goOn hh (succeeded_iff.mpr hs) (goTo_iff.mpr ht)
        · rename_i ht
          cases h; refine .done hh (succeeded_iff.mpr hs) fun s hg => ?_
          rw [goTo_iff.mp hg] at ht; cases ht
      · rename_i hs
        cases h; exact .refused hh (by rw [succeeded_iff]; exact hs)

theorem willing_iff {w : Adapter} {a : RequestObject} {sel : Selection} :
    Willing w a sel ↔ w.selectCredentials a = .ok sel := by
  simp only [Willing, Adapter.selectCredentials]
  cases w.consent with
  | false => simp
  | true =>
    cases a.dcqlQuery with
    | none => simp
    | some r => cases r <;> simp

theorem audienceOf_iff {a : RequestObject} {aud : Str} : AudienceOf a aud ↔ aud = audience a := by
  simp only [AudienceOf, audience]
  cases a.clientId <;> simp

theorem echoedState_iff {a : RequestObject} {p : Params} {st : Option Str} :
    EchoedState a p st ↔ st = stateToEcho a p := by
  simp only [EchoedState, stateToEcho]
  cases a.state with
  | none => simp
  | some r => cases r <;> simp

/-- The keys in the metadata of `a` are proper. -/
def ProperKeys (a : RequestObject) : Prop :=
  ∀ cm keys key, mget c!"client_metadata" a.inner = some (.obj cm) → KeyList cm keys →
    FirstWith SuitableKey keys key → ProperKey key

theorem metadataKeys_iff {a : RequestObject} {cm : ClientMetadata} {keys : List (List (Str × Json))} :
    (a.clientMetadata = .ok cm ∧ cm.jwks = some (.ok ⟨keys⟩)) ↔
      mget c!"client_metadata" a.inner = some (.obj cm.val) ∧ KeyList cm.val keys := by
  rw [← resolve_keys]
  refine and_congr_left fun hk => ?_
  simp only [RequestObject.clientMetadata, ClientMetadata.resolve]
  cases hg : UntypedObject.get ClientMetadata a.inner with
  | none =>
    constructor
    · intro h; cases h
    · intro h; cases h; cases hk
  | some r => exact Iff.rfl

theorem keyFor_iff {w : Adapter} {a : RequestObject} (hp : ProperKeys a) {info : EncryptionJwkInfo} :
    verifierKey w.jose a = .ok info ↔
      ∃ key, KeyFor w a key ∧ info = ⟨key, c!"ECDH-ES", kidOf key⟩ := by
  have hv : verifierKey w.jose a = .ok info ↔ ∃ cm keys, (a.clientMetadata = .ok cm ∧
      cm.jwks = some (.ok ⟨keys⟩)) ∧ findEncryptionJwk w.jose keys = .ok info := by
    simp only [verifierKey]
    cases a.clientMetadata with
    | error e => simp
    | ok cm =>
      simp only
      cases hj : parsingError cm.jwks with
      | error e =>
        simp only [reduceCtorEq, Except.ok.injEq, false_iff]
        rintro ⟨cm', keys, ⟨rfl, h⟩, -⟩
        rw [parsingError_ok.mpr h] at hj; cases hj
      | ok jwks =>
        obtain ⟨keys⟩ := jwks
        have hj' := parsingError_ok.mp hj
        simp only
        constructor
        · intro h; exact ⟨cm, keys, ⟨rfl, hj'⟩, h⟩
        · rintro ⟨cm', keys', ⟨h1, h2⟩, h3⟩
          cases h1; rw [hj'] at h2; cases h2; exact h3
  rw [hv]
  constructor
  · rintro ⟨cm, keys, h1, h2⟩
    have hk := metadataKeys_iff.mp h1
    obtain ⟨key, h3, h4, h5, h6, h7⟩ :=
      (C38_first_suitable w.jose keys (fun k h => hp _ _ _ hk.1 hk.2 h) info).mp h2
    refine ⟨key, ⟨cm.val, keys, hk.1, hk.2, h3, h4⟩, ?_⟩
    obtain ⟨x, y, z⟩ := info
    simp only at h5 h6 h7
    rw [h5, h6, h7]
  · rintro ⟨key, ⟨cm, keys, h1, h2, h3, h4⟩, rfl⟩
    refine ⟨⟨cm⟩, keys, metadataKeys_iff.mpr ⟨h1, h2⟩, ?_⟩
    exact (C38_first_suitable w.jose keys (fun k h => hp _ _ _ h1 h2 h) _).mpr ⟨key, h3, h4, rfl, rfl, rfl⟩

theorem keyFor_fun {w : Adapter} {a : RequestObject} (hp : ProperKeys a) {k k' : List (Str × Json)}
    (h : KeyFor w a k) (h' : KeyFor w a k') : k = k' := by
  have e := (keyFor_iff hp).mpr ⟨k, h, rfl⟩
  rw [(keyFor_iff hp).mpr ⟨k', h', rfl⟩] at e
  injection e with e; injection e with e; exact e.symm

theorem sealed_iff {w : Adapter} {key : List (Str × Json)} {tok : VpToken} {st : Option Str} {jwe : Str} :
    JweBuilder.build w.jose {
      payload := some (responsePayload tok (st.map .mk)), recipientKey := some key,
      alg := some c!"ECDH-ES", enc := none, kid := kidOf key } = .ok jwe ↔ Sealed w key tok st jwe := by
  have hst' : (st.map State.mk).map State.val = st := by cases st <;> rfl
  simp only [JweBuilder.build, payload_eq, kidOf_eq, unwrapOr, ecdhEs, ne_eq,
    not_true_eq_false, if_false, hst', Sealed]
  by_cases hc : ∀ m ∈ encPayload tok.toJson st, w.jose.claimOk m.1 m.2 = true
  · rw [if_pos (by simpa [List.all_eq_true] using hc)]
    rw [and_iff_right hc]
    cases kidOf key <;> exact Iff.rfl
  · rw [if_neg (by simpa [List.all_eq_true] using hc)]
    exact ⟨fun h => (by cases h), fun h => absurd h.1 hc⟩

theorem postJwt_eq {w : Adapter} {a : RequestObject} (hp : ProperKeys a) {key : List (Str × Json)}
    (hk : KeyFor w a key) (tok : VpToken) (st : Option Str) :
    w.postJwt a tok st = match JweBuilder.build w.jose {
      payload := some (responsePayload tok (st.map .mk)), recipientKey := some key,
      alg := some c!"ECDH-ES", enc := none, kid := kidOf key } with
      | .error _ => ([], .failure 500 c!"encryption_error" st)
      | .ok jwe => w.post a.returnUri (jwtToForm jwe) st := by
  have e := (keyFor_iff hp).mpr ⟨key, hk, rfl⟩
  obtain ⟨cm, keys, h1, h2, h3, h4⟩ := hk
  have hj : joseJwk w.jose key = .ok key := (joseJwk_ok (hp _ _ _ h1 h2 h3)).mpr ⟨h4, rfl⟩
  simp only [Adapter.postJwt, e, hj]
  cases JweBuilder.build w.jose _ <;> rfl

/-- What is done for a request object. -/
theorem responds_iff {ord : MapOrder} {w : Adapter} {p : Params} {a : RequestObject} (hp : ProperKeys a)
    {reqs : List HttpRequest} {ans : Answer} :
    Responds ord w p a reqs ans ↔ w.respond ord a p = (reqs, ans) := by
  constructor
  · intro h
    have hq : ∀ {sel}, Willing w a sel → w.respond ord a p =
        (if !redirectCheck a then ([], .failure 400 c!"invalid_request" p.state)
        else match a.responseMode with
          | .directPost => w.post a.returnUri (UnencodedResponse.toForm ord
              ⟨buildVpToken w.holder sel a.nonce.val (audience a), (stateToEcho a p).map .mk⟩) (stateToEcho a p)
          | .directPostJwt => w.postJwt a (buildVpToken w.holder sel a.nonce.val (audience a)) (stateToEcho a p)
          | _ => ([], .failure 400 c!"unsupported_response_mode" p.state)) := by
      intro sel hw
      have hs := willing_iff.mp hw
      obtain ⟨-, q, hd, -⟩ := hw
      simp only [Adapter.respond, hd, hs]
      rfl
    cases h with
    | noQuery h =>
      simp only [Adapter.respond]
      cases hd : a.dcqlQuery with
      | none => rfl
      | some r => cases r with
        | error e => rfl
        | ok q => exact absurd hd (h q)
    | denied h1 h2 =>
      simp only [Adapter.respond, h1]
      cases hs : w.selectCredentials a with
      | error e => rfl
      | ok sel => exact absurd (willing_iff.mpr hs) (h2 sel)
    | wrongAddress h1 h2 h3 =>
      rw [hq h1]
      have : redirectCheck a = false := by
        cases hr : redirectCheck a with
        | false => rfl
        | true => exact absurd (redirectCheck_iff.mp hr _ h2) h3
      simp only [this]; rfl
    | otherMode h1 h2 h3 h4 =>
      rw [hq h1, redirectCheck_iff.mpr h2]
      cases hm : a.responseMode <;> simp_all
    | plain h1 h2 h3 h4 h5 h6 =>
      rw [hq h1, redirectCheck_iff.mpr h2, h3]
      rw [audienceOf_iff.mp h4, echoedState_iff.mp h5] at h6
      rw [audienceOf_iff.mp h4, echoedState_iff.mp h5]
      simpa using afterSending_iff.mp h6
    | noKey h1 h2 h3 h4 h5 =>
      rw [hq h1, redirectCheck_iff.mpr h2, h3]
      rw [echoedState_iff.mp h4]
      simp only [Bool.not_true, Bool.false_eq_true, if_false, Adapter.postJwt]
      cases hv : verifierKey w.jose a with
      | error e => rfl
      | ok info =>
        obtain ⟨key, hk, -⟩ := (keyFor_iff hp).mp hv
        exact absurd hk (h5 key)
    | unsealed h1 h2 h3 h4 h5 h6 h7 =>
      rw [hq h1, redirectCheck_iff.mpr h2, h3]
      rw [audienceOf_iff.mp h4, echoedState_iff.mp h5] at h7
      rw [echoedState_iff.mp h5]
      simp only [Bool.not_true, Bool.false_eq_true, if_false, postJwt_eq hp h6]
      cases hb : JweBuilder.build w.jose _ with
      | error e => rfl
      | ok jwe => exact absurd (sealed_iff.mp hb) (h7 jwe)
    | encrypted h1 h2 h3 h4 h5 h6 h7 h8 =>
      rw [hq h1, redirectCheck_iff.mpr h2, h3]
      rw [audienceOf_iff.mp h4, echoedState_iff.mp h5] at h7
      rw [echoedState_iff.mp h5] at h8
      simp only [Bool.not_true, Bool.false_eq_true, if_false, postJwt_eq hp h6, sealed_iff.mpr h7]
      rw [jwtToForm, C10_form_standard]
      exact afterSending_iff.mp h8
  · intro h
    simp only [Adapter.respond] at h
    cases hd : a.dcqlQuery with
    | none => rw [hd] at h; cases h; exact .noQuery (by simp [hd])
    | some rq =>
      cases rq with
      | error e => rw [hd] at h; cases h; exact .noQuery (by simp [hd])
      | ok q =>
        simp only [hd] at h
        cases hs : w.selectCredentials a with
        | error e =>
          rw [hs] at h; cases h
          refine .denied hd fun sel hw => ?_
          rw [willing_iff.mp hw] at hs; cases hs
        | ok sel =>
          have hw := willing_iff.mpr hs
          simp only [hs] at h
          cases hr : redirectCheck a with
          | false =>
            rw [hr] at h; cases h
            have : ∃ u, RedirectClient a u ∧ a.returnUri.print ≠ u := by
              apply Classical.byContradiction
              intro hn
              have : redirectCheck a = true := redirectCheck_iff.mpr fun u hu =>
                Classical.byContradiction fun hne => hn ⟨u, hu, hne⟩
              rw [hr] at this; cases this
            obtain ⟨u, h1, h2⟩ := this
            exact .wrongAddress hw h1 h2
          | true =>
            have hrc := redirectCheck_iff.mp hr
            simp only [hr, Bool.not_true, Bool.false_eq_true, if_false] at h
            have haud := audienceOf_iff (a := a).mpr rfl
            have hst := echoedState_iff (a := a) (p := p).mpr rfl
            have hsend : ∀ body st, ∃ more, (w.post a.returnUri body st).1 = Sends a body :: more := by
              intro body st
              simp only [Adapter.post]
              split
              · exact ⟨_, rfl⟩
              · split
                · split <;> exact ⟨_, rfl⟩
                · exact ⟨_, rfl⟩
            cases hm : a.responseMode with
            | directPost =>
              simp only [hm] at h
              have h' := h
              obtain ⟨more, h3⟩ := hsend (UnencodedResponse.toForm ord
                ⟨buildVpToken w.holder sel a.nonce.val (audience a), (stateToEcho a p).map .mk⟩) (stateToEcho a p)
              rw [h] at h3; cases h3
              exact .plain hw hrc hm haud hst (afterSending_iff.mpr h')
            | directPostJwt =>
              simp only [hm] at h
              cases hv : verifierKey w.jose a with
              | error e =>
                simp only [Adapter.postJwt, hv] at h; cases h
                refine .noKey hw hrc hm hst fun key hk => ?_
                rw [(keyFor_iff hp).mpr ⟨key, hk, rfl⟩] at hv; cases hv
              | ok info =>
                obtain ⟨key, hk, -⟩ := (keyFor_iff hp).mp hv
                rw [postJwt_eq hp hk] at h
                cases hb : JweBuilder.build w.jose {
                    payload := some (responsePayload (buildVpToken w.holder sel a.nonce.val (audience a))
                      ((stateToEcho a p).map .mk)), recipientKey := some key,
                    alg := some c!"ECDH-ES", enc := none, kid := kidOf key } with
                | error e =>
                  rw [hb] at h; cases h
                  refine .unsealed hw hrc hm haud hst hk fun jwe hj => ?_
                  rw [sealed_iff.mpr hj] at hb; cases hb
                | ok jwe =>
                  rw [hb] at h
                  simp only [jwtToForm, C10_form_standard] at h
                  have h' := h
                  obtain ⟨more, h3⟩ := hsend (formText [(c!"response", jwe)]) (stateToEcho a p)
                  rw [h] at h3; cases h3
                  exact .encrypted hw hrc hm haud hst hk (sealed_iff.mp hb) (afterSending_iff.mpr h')
            | _ =>
              simp only [hm] at h; cases h
              exact .otherMode hw hrc (by simp [hm]) (by simp [hm])

/-- **C77** For every call of the endpoint: exactly the requests made, in their order, and the answer
given. -/
theorem C77_endpoint (ord : MapOrder) (w : Adapter) (p : Params) (reqs : List HttpRequest) (ans : Answer) :
    w.process ord p = (reqs, ans) ↔ Handles ord w p reqs ans := by
  have hproper : ∀ {r a jwt}, TakenFor w p r → (r.resolve w.wallet).2 = .ok (a, jwt) → ProperKeys a := by
    intro r a jwt h1 h2
    exact obtains_proper (p := p) ⟨r, (r.resolve w.wallet).1, jwt, (C77_taken_for w p r).mpr h1, by rw [← h2]⟩
  constructor
  · intro h
    simp only [Adapter.process] at h
    cases hu : fromUrl (buildRequestUrl w.endpoint p) w.endpoint with
    | error e =>
      rw [hu] at h; cases h
      refine .notUnderstood fun r hr => ?_
      rw [(C77_taken_for w p r).mpr hr] at hu; cases hu
    | ok r =>
      have ht := (C77_taken_for w p r).mp hu
      have hf := fetchesOf_iff (w := w.wallet) (r := r).mpr rfl
      simp only [hu] at h
      cases hr : r.resolve w.wallet with
      | mk tr res =>
        rw [hr] at h hf
        cases res with
        | error e => cases h; exact .notObtained ht hf (by rw [hr]; simp)
        | ok x =>
          obtain ⟨a, jwt⟩ := x
          cases h
          have hr2 : (r.resolve w.wallet).2 = .ok (a, jwt) := by rw [hr]
          exact .obtained ht hf hr2 ((responds_iff (hproper ht hr2)).mpr rfl)
  · intro h
    cases h with
    | notUnderstood h =>
      simp only [Adapter.process]
      cases hu : fromUrl (buildRequestUrl w.endpoint p) w.endpoint with
      | error e => rfl
      | ok r => exact absurd ((C77_taken_for w p r).mp hu) (h r)
    | @notObtained r _ h1 h2 h3 =>
      simp only [Adapter.process, (C77_taken_for w p _).mpr h1]
      rw [fetchesOf_iff] at h2
      cases hr : r.resolve w.wallet with
      | mk tr res =>
        rw [hr] at h2 h3
        cases res with
        | error e => cases h2; rfl
        | ok x => exact absurd rfl (h3 x)
    | @obtained r _ _ a jwt _ h1 h2 h3 h4 =>
      have h5 := (responds_iff (hproper h1 h3)).mp h4
      simp only [Adapter.process, (C77_taken_for w p _).mpr h1]
      rw [fetchesOf_iff] at h2
      cases hr : r.resolve w.wallet with
      | mk tr res =>
        rw [hr] at h2 h3
        cases h3
        simp only [h5, ← h2]

/-- A wallet whose endpoint has a query of its own, and whose peers answer as `http` says. -/
def adapterAt (query : Str) (http : HttpRequest → Res HttpResponse) : Adapter :=
  { adapterSample with
    wallet := { walletSample with http := http }
    endpoint := ⟨c!"https", some c!"w.example", c!"/authorize", some query, none⟩ }

/-- A peer that serves the sample request and answers the response with a status and a body. -/
def peerSample (status : Nat) (body : Str) : HttpRequest → Res HttpResponse := fun r =>
  if r.method = c!"GET" then
    .ok ⟨200, utf8 (compactJws jwsHeaderSample (redirectSample c!"direct_post" c!"https://v.example/r") [1])⟩
  else .ok ⟨status, utf8 body⟩

/-- C77: the endpoint has fields of its own, the request object is fetched, the response is sent, and the
verifier's address is visited. -/
example : Handles id (adapterAt c!"a=1" (peerSample 200 c!"{\"redirect_uri\":\"https://v.example/done\"}"))
    { requestUri := some c!"https://v.example/q" }
    [⟨c!"GET", c!"https://v.example/q", [(c!"prefer", c!"OID4VP-1.0.0")], []⟩,
      ⟨c!"POST", c!"https://v.example/r", [(c!"content-type", c!"application/x-www-form-urlencoded")],
        utf8 c!"vp_token=%7B%22m%22%3A%5B%22MDL%22%5D%7D&state=s"⟩,
      ⟨c!"GET", c!"https://v.example/done", [], []⟩] (.success (some c!"https://v.example/done")) := by
  rw [← C77_endpoint]; decide +kernel

/-- C77: the body of the verifier's answer breaks off; that is a success without an address to go to. -/
example : Handles id { adapterAt [] (peerSample 200 c!"{\"redirect_uri\":\"https://v.example/done\"}") with
      text := fun _ => none }
    { requestUri := some c!"https://v.example/q" }
    [⟨c!"GET", c!"https://v.example/q", [(c!"prefer", c!"OID4VP-1.0.0")], []⟩,
      ⟨c!"POST", c!"https://v.example/r", [(c!"content-type", c!"application/x-www-form-urlencoded")],
        utf8 c!"vp_token=%7B%22m%22%3A%5B%22MDL%22%5D%7D&state=s"⟩] (.success none) := by
  rw [← C77_endpoint]; decide +kernel

/-- C77: the verifier refuses the response; the state is echoed. -/
example : Handles id (adapterAt [] (peerSample 400 c!"{\"redirect_uri\":\"https://v.example/done\"}"))
    { requestUri := some c!"https://v.example/q" }
    [⟨c!"GET", c!"https://v.example/q", [(c!"prefer", c!"OID4VP-1.0.0")], []⟩,
      ⟨c!"POST", c!"https://v.example/r", [(c!"content-type", c!"application/x-www-form-urlencoded")],
        utf8 c!"vp_token=%7B%22m%22%3A%5B%22MDL%22%5D%7D&state=s"⟩]
    (.failure 502 c!"verifier_error" (some c!"s")) := by
  rw [← C77_endpoint]; decide +kernel

/-- C77: a `request_uri` in the endpoint's own query makes the one in the parameters a duplicate. -/
example : Handles id (adapterAt c!"request_uri=x" (peerSample 200 []))
    { requestUri := some c!"https://v.example/q" } [] (.failure 400 c!"invalid_request" none) := by
  rw [← C77_endpoint]; decide +kernel

end Oid4vp
