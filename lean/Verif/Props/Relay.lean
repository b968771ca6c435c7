import Verif.Spec.Relay
import Verif.Props.ExampleFlow
import Verif.Props.EndpointAnswer
/-! # C104: a request taken over by someone else -/

set_option autoImplicit false

namespace Oid4vp
open Spec Example VerifierApp

theorem obtains_reports {w : Adapter} {p : Params} {a : RequestObject} (h : Obtains w p a) :
    Absent a.inner c!"redirect_uri" ∧ Reports a.inner a := by
  obtain ⟨r, tr, jwt, -, hr⟩ := h
  obtain ⟨-, ⟨o, -, ha⟩, -⟩ := resolve_ok.mp (show (r.resolve w.wallet).2 = .ok (a, jwt) by rw [hr])
  obtain ⟨rfl, h1, h2, -⟩ := ofObject_iff.mp ha
  exact ⟨h1, h2⟩

theorem same_client {a a' : RequestObject} (h : Reports a.inner a) (h' : Reports a'.inner a')
    (hs : AskAlike a a') : a'.clientId = a.clientId := by
  have c1 := h.clientId
  have c2 := h'.clientId
  have hk := hs c!"client_id" (by decide)
  simp only [ClientIdIs, HasText, Absent, hk] at c1 c2
  revert c1 c2
  cases a.clientId with
  | none =>
    cases a'.clientId with
    | none => intros; rfl
    | some c => intro c1 c2; simp only at c1 c2; rw [c1] at c2; cases c2
  | some d =>
    cases a'.clientId with
    | none => intro c1 c2; simp only at c1 c2; rw [c1] at c2; cases c2
    | some c =>
      intro c1 c2
      simp only at c1 c2
      rw [c1] at c2
      cases c; cases d
      simp only [Option.some.injEq, Json.str.injEq] at c2
      rw [c2]

theorem same_nonce {a a' : RequestObject} (h : Reports a.inner a) (h' : Reports a'.inner a')
    (hs : AskAlike a a') : a'.nonce.val = a.nonce.val := by
  have c1 := h.nonce
  have c2 := h'.nonce
  have hk := hs c!"nonce" (by decide)
  simp only [HasText, hk] at c1 c2
  rw [c1] at c2
  simp only [Option.some.injEq, Json.str.injEq] at c2
  exact c2.symm

theorem same_query {a a' : RequestObject} (hs : AskAlike a a') : a'.dcqlQuery = a.dcqlQuery := by
  have hk := hs c!"dcql_query" (by decide)
  show UntypedObject.get DcqlQuery a'.inner = UntypedObject.get DcqlQuery a.inner
  simp only [UntypedObject.get]
  rw [show mget (TypedParameter.key DcqlQuery) a'.inner = mget (TypedParameter.key DcqlQuery) a.inner from hk]

theorem same_state {a a' : RequestObject} (hs : AskAlike a a') : a'.state = a.state := by
  have hk := hs c!"state" (by decide)
  show UntypedObject.get State a'.inner = UntypedObject.get State a.inner
  simp only [UntypedObject.get]
  rw [show mget (TypedParameter.key State) a'.inner = mget (TypedParameter.key State) a.inner from hk]

/-- **C104** What is presented, for whom and with which state, depends on four members of the request object
only, and on the state beside it. -/
theorem C104_content {w : Adapter} {p p' : Params} {a a' : RequestObject} (h : Obtains w p a)
    (h' : Obtains w p' a') (hs : AskAlike a a') (hp : p'.state = p.state) :
    (∀ sel, Willing w a' sel ↔ Willing w a sel) ∧ (∀ tok, TokenFor w a' tok ↔ TokenFor w a tok) ∧
    (∀ st, EchoedState a' p' st ↔ EchoedState a p st) ∧ ∀ u, RedirectClient a' u ↔ RedirectClient a u := by
  have r := (obtains_reports h).2
  have r' := (obtains_reports h').2
  have e1 := same_client r r' hs
  have e2 := same_nonce r r' hs
  have e3 := same_query hs
  have e4 := same_state hs
  refine ⟨fun sel => ?_, fun tok => ?_, fun st => ?_, fun u => ?_⟩
  · simp only [Willing, e3]
  · simp only [TokenFor, AudienceOf, e1, e2, e3]
  · simp only [EchoedState, e4, hp]
  · simp only [RedirectClient, e1]

/-- **C104** A request in plain mode whose client is not a redirect address is answered by a wallet that is
willing: to the address the request object names. -/
theorem C104_answered (ord : MapOrder) {w : Adapter} {p : Params} {a : RequestObject} (h : Obtains w p a)
    {sel : Selection} (hw : Willing w a sel) (hc : ∀ u, ¬RedirectClient a u) (hm : a.responseMode = .directPost) :
    ∃ tok st, TokenFor w a tok ∧ EchoedState a p st ∧
      posts (w.process ord p).1 = [⟨c!"POST", a.returnUri.print,
        [(c!"content-type", c!"application/x-www-form-urlencoded")],
        utf8 (UnencodedResponse.toForm ord ⟨tok, st.map .mk⟩)⟩] := by
  obtain ⟨hcons, q, hq, hsel⟩ := hw
  obtain ⟨r, tr, jwt, hu, hr⟩ := h
  have hrp := resolve_posts w.wallet r
  rw [hr] at hrp
  have hred : redirectCheck a = true := redirectCheck_iff.mpr fun u hu => absurd hu (hc u)
  refine ⟨buildVpToken w.holder sel a.nonce.val (audience a), stateToEcho a p,
    ⟨q, sel, audience a, hq, hsel, audienceOf_iff.mpr rfl, rfl⟩, echoedState_iff.mpr rfl, ?_⟩
  simp only [Adapter.process, hu, hr, posts_append, hrp, List.nil_append]
  simp only [Adapter.respond, Adapter.selectCredentials, hq, hcons, hsel, hred, Bool.not_true,
    Bool.false_eq_true, if_false, hm]
  exact post_posts _ _ _ _

/-- A request object that the wallet is willing to answer came in a token. -/
theorem willing_fine {w : Adapter} {p : Params} {a : RequestObject} (h : Obtains w p a)
    {sel : Selection} (hw : Willing w a sel) : Fine 127 (.obj a.inner) := by
  obtain ⟨r, tr, jwt, hu, hr⟩ := h
  obtain ⟨-, ⟨o, ho, ha⟩, -⟩ := resolve_ok.mp (show (r.resolve w.wallet).2 = .ok (a, jwt) by rw [hr])
  have hin : a.inner = o := (C05_accessors_agree ha).1
  cases jwt with
  | none =>
    exfalso
    obtain ⟨d, hd, rfl⟩ := ho
    obtain ⟨q, -, -, -, hq⟩ := (C08_endpoint_check _ _ _).mp hu
    have hm := ((C09_query_meaning q r).mp hq).2
    rw [hd] at hm
    obtain ⟨-, x, hx, -⟩ := hw
    obtain ⟨j, hj, hjx⟩ : ∃ j, mget c!"dcql_query" a.inner = some j ∧ TypedParameter.ofJson (α := DcqlQuery) j = .ok x := by
      have hx : UntypedObject.get DcqlQuery a.inner = some (.ok x) := hx
      simp only [UntypedObject.get] at hx
      have hk : TypedParameter.key DcqlQuery = c!"dcql_query" := rfl
      rw [hk] at hx
      cases hg : mget c!"dcql_query" a.inner with
      | none => rw [hg] at hx; cases hx
      | some j => rw [hg] at hx; exact ⟨j, rfl, by simpa using hx⟩
    rw [hin] at hj
    have hj' : mget c!"dcql_query" d = some j := by
      cases hc : r.clientId with
      | none => rw [hc] at hj; exact hj
      | some c =>
        rw [hc] at hj
        simp only at hj
        rwa [mget_mset_ne (by decide)] at hj
    obtain ⟨-, v, -, rfl⟩ := (hm.2.2.2 _ _).mp hj'
    cases hjx
  | some jwt =>
    obtain ⟨-, -, -, -, -, -, bytes, -, -, -, -, -, hj⟩ := ho
    rw [hin]
    simp only [jParseBytes] at hj
    split at hj
    · exact jParse_wf hj
    · cases hj

/-- **C104** (A finding.) Nobody has to be the client: whatever signature it bears, a token with a request
object that is the one of some request, but with an address of someone's choice, makes the wallet send that
very answer in plain to that address, unless the client is a redirect address. -/
theorem C104_diverted (ord : MapOrder) {w : Adapter} (he : w.endpoint.query = none ∨ w.endpoint.query = some [])
    {p : Params} {a : RequestObject} (h : Obtains w p a) {sel : Selection} (hw : Willing w a sel)
    (hc : ∀ u, ¬RedirectClient a u) {addr : Url} (ha : addr.WF) {o' : UntypedObject}
    (hd : Diverted a.inner addr.print o') {jwt : Str} {sig : Bytes} (hj : Poses w.wallet.ssiHeader jwt o' sig)
    {p' : Params} (hr : p'.request = some jwt) (hp : p'.state = p.state) :
    ∃ tok st, TokenFor w a tok ∧ EchoedState a p st ∧
      posts (w.process ord p').1 = [⟨c!"POST", addr.print,
        [(c!"content-type", c!"application/x-www-form-urlencoded")],
        utf8 (UnencodedResponse.toForm ord ⟨tok, st.map .mk⟩)⟩] := by
  obtain ⟨hred, hrep⟩ := obtains_reports h
  obtain ⟨h1, h2, h3⟩ := hd
  have keep : ∀ k, k ≠ c!"response_mode" → k ≠ c!"response_uri" → mget k o' = mget k a.inner := h3
  let a' : RequestObject := { a with inner := o', responseMode := .directPost, returnUri := addr }
  have hof : RequestObject.ofObject o' = .ok a' := by
    refine ofObject_iff.mpr ⟨rfl, ?_, ⟨?_, hrep.scheme, .inr ⟨_, h1, .directPost⟩, ?_, ?_, fun _ => ⟨_, h2, Url.parse_print ha⟩, ?_⟩, ?_⟩
    · simp only [Absent, keep c!"redirect_uri" (by decide) (by decide)]; exact hred
    · have := hrep.clientId
      simp only [ClientIdIs, HasText, Absent, keep c!"client_id" (by decide) (by decide)] at this ⊢
      exact this
    · have := hrep.responseType
      simp only [HasText, keep c!"response_type" (by decide) (by decide)] at this ⊢
      exact this
    · have := hrep.nonce
      simp only [HasText, keep c!"nonce" (by decide) (by decide)] at this ⊢
      exact this
    · rintro (h | h) <;> cases h
    · rintro (h | h) <;> cases h
  have hob : Obtains w p' a' := by
    have hres : ((described p').resolve w.wallet).2 = .ok (a', some jwt) := by
      refine resolve_ok.mpr ⟨?_, ⟨_, hj.payload, hof⟩, ?_⟩
      · simp only [described, hr]
        rfl
      · rintro jwt ⟨⟩; exact .inl hj.typ
    refine ⟨described p', ((described p').resolve w.wallet).1, some jwt, C58_request_of_params w.endpoint p' he, ?_⟩
    rw [← hres]
  have hs : AskAlike a a' := by
    intro k hk
    refine keep k ?_ ?_ <;> rintro rfl <;> revert hk <;> decide
  obtain ⟨e1, e2, e3, e4⟩ := C104_content h hob hs hp
  obtain ⟨tok, st, t1, t2, t3⟩ := C104_answered ord hob ((e1 sel).mpr hw) (fun u hu => hc u ((e4 u).mp hu)) rfl
  exact ⟨tok, st, (e2 tok).mp t1, (e3 st).mp t2, t3⟩

/-- **C104** Such a token can be made by anyone who saw the request, without any key: for every address and
with any signature. -/
theorem C104_anyone {w : Adapter} {p : Params} {a : RequestObject} (h : Obtains w p a) {sel : Selection}
    (hw : Willing w a sel) {hd : List (Str × Json)} (hh : Takeable w.wallet.ssiHeader hd) (addr : Str) (sig : Bytes) :
    ∃ o' jwt, Diverted a.inner addr o' ∧ Poses w.wallet.ssiHeader jwt o' sig := by
  obtain ⟨alg, halg⟩ := hh.taken
  have hf : Fine 127 (.obj (mset c!"response_uri" (.str addr)
      (mset c!"response_mode" (.str c!"direct_post") a.inner))) :=
    fine_mset (fine_mset (willing_fine h hw) (fine_str _ _)) (fine_str _ _)
  refine ⟨_, compactJws hd _ sig, ⟨?_, ?_, ?_⟩, ⟨_, compactJws_header hh.proper.1 hh.proper.2, hh.typ⟩,
    compactJws_payload halg hf.1 hf.2, _, _, compactJws_parts _ _ _⟩
  · rw [mget_mset_ne (by decide), mget_mset_self]
  · rw [mget_mset_self]
  · intro k h1 h2
    rw [mget_mset_ne h2, mget_mset_ne h1]

/-- **C104** A client that is a redirect address is safe from this: whatever else is changed in the request,
an answer goes to that address or is not sent. -/
theorem C104_bound (ord : MapOrder) {w : Adapter} {p p' : Params} {a a' : RequestObject} {u : Str}
    (h : Obtains w p a) (h' : Obtains w p' a') (hs : AskAlike a a') (hc : RedirectClient a u) :
    ∀ req ∈ posts (w.process ord p').1, req.uri = u := by
  have e := same_client (obtains_reports h).2 (obtains_reports h').2 hs
  refine C56_own_address_only ord w p' h' (u := u) ?_
  simp only [RedirectClient, e]
  exact hc

/-- **C104** (A finding.) With the example verifier: whoever begins a session gets, by means of a token of
their own making, the presentation of the wallet's PID sent in plain to their address, bound to the nonce and
the client identifier of the verifier; and when they hand it to the verifier, it reports success for their
session. This is so whether or not the verifier asked for encryption. -/
theorem C104_relayed {p : Pki} {rs : List Run} {draw : Draw} {w : Bool} {key : EncKey} {u : Url}
    {encrypted : Bool} {host : Str} {app : App} (hs : Started p rs draw w key u encrypted host app)
    {nonce : Option Str} {uuid : Uuid} {drawn : Str} {σ σ' : Store} {sid auth st : Str}
    (h : initiate app nonce uuid drawn σ = (σ', .ok (sid, auth, st)))
    {a : Adapter} {c : Credential} (hw : ReadyWallet a c)
    (hk : encrypted = true → (Json.obj key.jwk).WF FltLit ∧ (Json.obj key.jwk).depth ≤ 100)
    {prm : Params} (hp : Refers u uuid sid σ' a prm) {ord : MapOrder} (ho : ord.Fair)
    {addr : Url} (ha : addr.WF) (sig : Bytes) :
    ∃ jwt pres body, (∃ hh b, JwsParts jwt hh b (b64Enc .url sig)) ∧
      Presents a.holder (unwrapOr drawn nonce) (c!"x509_san_dns:" ++ host) c.raw pres ∧
      posts (a.process ord { request := some jwt, state := prm.state }).1 = [⟨c!"POST", addr.print,
        [(c!"content-type", c!"application/x-www-form-urlencoded")], body⟩] ∧
      Carries body (.unencoded ⟨pidToken pres, prm.state.map .mk⟩) ∧
      ∀ pre post, NoneDelivered uuid post → ∃ doc,
        status sid (serve app σ' (pre ++ .respond sid body :: post)) = (200, some doc) ∧
        ReportsPlain doc 1 := by
  obtain ⟨s, -, -, hsid, hst, hpid, -, -, -, hget⟩ := C62_initiate hs h
  obtain ⟨addr', haddr, huri⟩ := hp.uri
  have hob := app_obtained hs h hst.2.1 hk hw.endpoint hp.noRequest huri
    (hp.reached _ _ haddr hget) (ready_header hw)
  have hwill : Willing a s.requestObject _ := ⟨hw.consent, pidAsked, hpid.query, pid_match hw.pid⟩
  have hnc : ∀ x, ¬RedirectClient s.requestObject x := by
    rintro x ⟨c, hc, hv⟩
    rw [hpid.clientId] at hc
    cases hc
    simp at hv
  have hhdr : Takeable a.wallet.ssiHeader [(c!"alg", .str c!"ES256"),
      (c!"typ", .str c!"oauth-authz-req+jwt"), (c!"x5c", .arr [])] := by
    refine ⟨⟨?_, by decide⟩, by decide, _, hw.header []⟩
    simp only [Json.WF, Json.WFM, Json.WFL, Sorted, and_true]
    decide
  obtain ⟨o', jwt, hd, hj⟩ := C104_anyone hob hwill hhdr addr.print sig
  obtain ⟨tok, st', t1, t2, t3⟩ := C104_diverted ord hw.endpoint hob hwill hnc ha hd hj
    (p' := { request := some jwt, state := prm.state }) rfl rfl
  have haud : audience s.requestObject = c!"x509_san_dns:" ++ host := by
    simp only [audience, hpid.clientId]
  have est : st' = prm.state := by
    rw [echoedState_iff.mp t2]
    exact noState_echo hpid.state
  have etok : tok = pidToken (presentation a.holder (unwrapOr drawn nonce) (c!"x509_san_dns:" ++ host) c.raw) := by
    obtain ⟨q, sel, aud, h1, h2, h3, rfl⟩ := t1
    rw [hpid.query] at h1; cases h1
    rw [pid_match hw.pid] at h2; cases h2
    rw [audienceOf_iff.mp h3, haud, hpid.nonce]
    rfl
  subst est etok
  have hbody : Carries (utf8 (UnencodedResponse.toForm ord ⟨pidToken (presentation a.holder
      (unwrapOr drawn nonce) (c!"x509_san_dns:" ++ host) c.raw), prm.state.map .mk⟩))
      (.unencoded ⟨pidToken (presentation a.holder
        (unwrapOr drawn nonce) (c!"x509_san_dns:" ++ host) c.raw), prm.state.map .mk⟩) := by
    refine ⟨⟨_, rfl⟩, ?_⟩
    obtain ⟨h1, h2⟩ := pidToken_proper (presentation a.holder (unwrapOr drawn nonce)
      (c!"x509_san_dns:" ++ host) c.raw)
    rw [ofForm_unencoded, ofText_text ho h1 h2]
    rfl
  refine ⟨jwt, _, _, hj.signature, presents _ _ _ _ hw.clock, t3, hbody, fun pre post hpost => ?_⟩
  have hdel : Delivers uuid _ (.respond sid _) := ⟨hsid, hbody⟩
  exact C61_plain_reported app _ σ' sid uuid s ⟨hsid, hst.2.1⟩ _ ⟨pre, _, post, rfl, hdel, hpost⟩

/-! ## Cases -/

/-- The answer to session 5, which was to be encrypted, goes in plain to another address, and is then a
success of session 5. -/
example (ord : MapOrder) (ho : ord.Fair) : ∃ app σ sid auth st wjwt jwt body doc,
    Started cachePki [] (cacheDraw 9) true flowKey flowUrl true c!"a.b" app ∧
    initiate app (some c!"n-1") (buildId 5) c!"drawn" [] = (σ, .ok (sid, auth, st)) ∧
    posts ((flowWallet wjwt).process ord { request := some jwt, state := some c!"xyz" }).1 = [⟨c!"POST",
      c!"https://evil.example/in", [(c!"content-type", c!"application/x-www-form-urlencoded")], body⟩] ∧
    status sid (serve app σ [.respond sid body]) = (200, some doc) ∧ ReportsPlain doc 1 := by
  obtain ⟨app, hs⟩ := flowStarted true
  obtain ⟨⟨sid, auth, st⟩, h⟩ := C62_initiate_succeeds hs (some c!"n-1") (buildId 5) c!"drawn" []
  have h1 : initiate app (some c!"n-1") (buildId 5) c!"drawn" [] =
    ((initiate app (some c!"n-1") (buildId 5) c!"drawn" []).1, .ok (sid, auth, st)) := by rw [← h]
  generalize (initiate app (some c!"n-1") (buildId 5) c!"drawn" []).1 = σ at h1
  obtain ⟨s, -, -, -, -, -, -, -, -, hget⟩ := C62_initiate hs h1
  obtain ⟨jwt, pres, body, -, -, h2, -, h3⟩ := C104_relayed hs h1 (flowReady s.jwt)
    (fun _ => (flowKeyWorks s.jwt).proper) (flowRefers hget) ho
    (addr := ⟨c!"https", some c!"evil.example", c!"/in", none, none⟩)
    (Url.parse_wf (s := c!"https://evil.example/in") (by decide)) [1, 2]
  obtain ⟨doc, h4, h5⟩ := h3 [] [] (by simp [NoneDelivered])
  exact ⟨app, σ, sid, auth, st, s.jwt, jwt, body, doc, hs, h1, h2, h4, h5⟩

end Oid4vp
