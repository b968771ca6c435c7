import Verif.Spec.Shown
import Verif.Props.Moved
import Verif.Props.CliFlow
/-! # C120: what can be done with the request URL of a session -/

set_option autoImplicit false

namespace Oid4vp
open Spec Example VerifierApp

/-- What follows the last `/` is determined. -/
theorem afterSlash_unique : ∀ {a b s t : Str}, a ++ '/' :: s = b ++ '/' :: t → '/' ∉ s → '/' ∉ t → s = t
  | [], [], _, _, h, _, _ => by simpa using h
  | [], y :: b, s, t, h, hs, _ => by
    simp only [List.nil_append, List.cons_append, List.cons.injEq] at h
    exact absurd (h.2 ▸ hs) (by simp)
  | x :: a, [], s, t, h, _, ht => by
    simp only [List.nil_append, List.cons_append, List.cons.injEq] at h
    exact absurd (h.2 ▸ ht) (by simp)
  | x :: a, y :: b, s, t, h, hs, ht => by
    simp only [List.cons_append, List.cons.injEq] at h
    exact afterSlash_unique h.2 hs ht

/-- A URL that a wallet reads as a reference shows what follows the last `/` of the path. -/
theorem shows_of_reference {url endpoint addr : Url} {c : Option Str}
    (h : AuthorizationRequest.fromUrl url endpoint = .ok ⟨c, .byReference addr⟩) {dir x : Str}
    (hp : addr.path = dir ++ '/' :: x) (hx : '/' ∉ x) (t : Str) : ShowsId url t ↔ t = x := by
  obtain ⟨q, hq, -, -, hr⟩ := (C08_endpoint_check _ _ _).1 h
  obtain ⟨-, -, s, hs, hparse⟩ := (C09_query_meaning q _).1 hr
  constructor
  · rintro ⟨q', l, s', addr', dir', hq', hl, hs', hp', he, ht⟩
    rw [hq] at hq'; cases hq'
    have hl' := (C10_form_text q l).2 hl
    rw [← hl'] at hs'
    rw [onlyParam_unique hs' hs, hparse] at hp'; cases hp'
    exact afterSlash_unique (he.symm.trans hp) ht hx
  · rintro rfl
    exact ⟨q, _, s, addr, dir, hq, (C10_form_text q _).1 rfl, hs, hparse, hp, hx⟩

theorem emptyBody_carries : Carries emptyBody (.unencoded ⟨⟨[]⟩, none⟩) := ⟨⟨_, rfl⟩, by decide +kernel⟩

/-- **C120** The request URL that the example verifier makes shows the id of its session, and no other text. -/
theorem C120_shown {p : Pki} {rs : List Run} {draw : Draw} {w : Bool} {key : EncKey} {u : Url}
    {encrypted : Bool} {host : Str} {app : App} (hs : Started p rs draw w key u encrypted host app)
    {nonce : Option Str} {uuid : Uuid} {drawn : Str} {σ σ' : Store} {sid auth st : Str}
    (h : initiate app nonce uuid drawn σ = (σ', .ok (sid, auth, st))) (t : Str) :
    TextShowsId auth t ↔ t = sid := by
  obtain ⟨s, url, addr, -, -, -, hurl, haddr, hfrom, -⟩ := C62_initiate hs h
  obtain ⟨_, -, hr⟩ := appInitiate_ok h
  simp only [Prod.mk.injEq] at hr
  obtain ⟨dir, last, -, -, rfl⟩ := haddr
  have hx : '/' ∉ uuid.print := (Uuid.print_delims uuid).1
  have := shows_of_reference hfrom (dir := dir ++ c!"/request") (x := uuid.print) (by simp) hx
  rw [hr.1, ← this t]
  exact ⟨fun ⟨url', h1, h2⟩ => by rw [hurl] at h1; cases h1; exact h2, fun h => ⟨url, hurl, h⟩⟩

/-- **C120** (a finding) Whoever has seen the request URL can read the presentation that the wallet encrypted to the
verifier: asked for the status of the session that the URL shows, the verifier answers with the decrypted response. -/
theorem C120_encrypted_read {p : Pki} {rs : List Run} {draw : Draw} {w : Bool} {key : EncKey} {u : Url}
    {host : Str} {app : App} (hs : Started p rs draw w key u true host app)
    {nonce : Option Str} {uuid : Uuid} {drawn : Str} {σ σ' : Store} {sid auth st : Str}
    (h : initiate app nonce uuid drawn σ = (σ', .ok (sid, auth, st)))
    {a : Adapter} {c : Credential} (hw : ReadyWallet a c) (hk : KeyWorks key a.jose)
    {prm : Params} (hp : Refers u uuid sid σ' a prm) {ord : MapOrder} :
    ∃ pres addr body, Presents a.holder (unwrapOr drawn nonce) (c!"x509_san_dns:" ++ host) c.raw pres ∧
      posts (a.process ord prm).1 = [⟨c!"POST", addr,
        [(c!"content-type", c!"application/x-www-form-urlencoded")], body⟩] ∧
      ∀ t, TextShowsId auth t → ∀ pre post, NoneDelivered uuid post → ∃ doc,
        status t (serve app σ' (pre ++ .respond sid body :: post)) = (200, some doc) ∧
        ReportsEncrypted doc (pidContent pres prm.state) := by
  obtain ⟨pres, addr, body, jwe, h1, -, h2, -, h3⟩ := C62_encrypted (ord := ord) hs h hw hk hp
  exact ⟨pres, _, body, h1, h2, fun t ht => by rw [(C120_shown hs h t).1 ht]; exact h3⟩

/-- **C120** (a finding) Whoever has seen the request URL can have the verifier report success without any credential,
before the wallet has answered as well as afterwards, whatever was asked for and however it was to be answered. -/
theorem C120_forged {p : Pki} {rs : List Run} {draw : Draw} {w : Bool} {key : EncKey} {u : Url}
    {encrypted : Bool} {host : Str} {app : App} (hs : Started p rs draw w key u encrypted host app)
    {nonce : Option Str} {uuid : Uuid} {drawn : Str} {σ σ' : Store} {sid auth st : Str}
    (h : initiate app nonce uuid drawn σ = (σ', .ok (sid, auth, st))) (t : Str) (ht : TextShowsId auth t)
    (pre post : List Call) (hpost : NoneDelivered uuid post) :
    ∃ doc, status sid (serve app σ' (pre ++ .respond t emptyBody :: post)) = (200, some doc) ∧
      ReportsPlain doc 0 := by
  rw [(C120_shown hs h t).1 ht]
  obtain ⟨s, -, -, hsid, hst, -⟩ := C62_initiate hs h
  exact C61_plain_reported app _ σ' sid uuid s ⟨hsid, hst.2.1⟩ ⟨⟨[]⟩, none⟩
    ⟨pre, _, post, rfl, ⟨hsid, emptyBody_carries⟩, hpost⟩

/-- **C120** The URL that the CLI verifier shows on the screen shows the id of its session, and no other text. -/
theorem C120_cli_shown (p : Url) (types : List Str) (uuid : Uuid) (nonce : Str) (v : Verifier) (σ : Store)
    (url : Url) (hp : p.WF) (h : Cli.start p types uuid nonce = .ok (v, σ, url)) (t : Str) :
    ShowsId url t ↔ t = uuid.print := by
  obtain ⟨s, q, d, -, -, -, -, -, -, -, -, -, -, -, -, -, -, hfrom, -⟩ := C65_request p types uuid nonce v σ url hp h
  have e : ∀ x : Str, c!"/request/" ++ x = c!"/request" ++ '/' :: x := fun _ => rfl
  rw [e] at hfrom
  exact shows_of_reference hfrom (dir := c!"/request") (x := uuid.print) rfl (Uuid.print_delims uuid).1 t

/-- **C120** (a finding) Whoever has seen the URL on the screen and is first to post to the session it shows ends the
CLI verifier with success and no credential; what the wallet posts afterwards is not looked at. -/
theorem C120_cli_forged (p : Url) (types : List Str) (uuid : Uuid) (nonce : Str) (v : Verifier) (σ : Store)
    (url : Url) (hp : p.WF) (h : Cli.start p types uuid nonce = .ok (v, σ, url)) (t : Str) (ht : ShowsId url t)
    (ord : MapOrder) (ho : ord.Fair) (d : Cli.Display) (pre post : List Cli.Call)
    (hpre : ∀ c' ∈ pre, ∀ u r, ¬CliDelivers σ u r c') :
    (Cli.serve ord ⟨σ, d, false⟩ (pre ++ .respond t emptyBody :: post)).complete = true ∧
      (Cli.serve ord ⟨σ, d, false⟩ (pre ++ .respond t emptyBody :: post)).display =
        .success (.obj [(c!"credential_query_ids", .arr []), (c!"credentials_received", .int 0)]) := by
  rw [(C120_cli_shown p types uuid nonce v σ url hp h t).1 ht]
  obtain ⟨s, q, d', hst, -⟩ := C65_request p types uuid nonce v σ url hp h
  have hg := hst.2.1
  obtain ⟨h1, h2, -⟩ := C65_first_response_decides ord ⟨σ, d, false⟩ pre post (.respond uuid.print emptyBody) uuid
    (.unencoded ⟨⟨[]⟩, none⟩) rfl hpre
    ⟨Uuid.parse_iff.1 (Uuid.parse_print uuid), emptyBody_carries, by rw [hg]; simp⟩
  refine ⟨h1, h2.trans ?_⟩
  obtain ⟨ids, hids, he⟩ := (C65_outcome ord ho).1 ⟨⟨[]⟩, none⟩
  rw [he]
  have : ids = [] := by simpa using hids
  subst this
  rfl

/-- A session, the text its URL shows, the encrypted answer of the wallet read with that text, and the result replaced
with it. -/
example (ord : MapOrder) : ∃ app σ sid auth st body doc doc' pres t,
    Started cachePki [] (cacheDraw 9) true flowKey flowUrl true c!"a.b" app ∧
    initiate app none (buildId 5) c!"drawn" [] = (σ, .ok (sid, auth, st)) ∧ TextShowsId auth t ∧
    Presents toyHolder c!"drawn" c!"x509_san_dns:a.b" c!"jwt~disclosure~" pres ∧
    status t (serve app σ [.fetch sid, .respond sid body]) = (200, some doc) ∧
    ReportsEncrypted doc (pidContent pres (some c!"xyz")) ∧
    status sid (serve app σ [.fetch sid, .respond sid body, .respond t emptyBody]) = (200, some doc') ∧
    ReportsPlain doc' 0 := by
  obtain ⟨app, hs⟩ := flowStarted true
  obtain ⟨⟨sid, auth, st⟩, h⟩ := C62_initiate_succeeds hs none (buildId 5) c!"drawn" []
  have h' : initiate app none (buildId 5) c!"drawn" [] =
    ((initiate app none (buildId 5) c!"drawn" []).1, .ok (sid, auth, st)) := by rw [← h]
  obtain ⟨s, -, -, -, -, -, -, -, -, hget⟩ := C62_initiate hs h'
  obtain ⟨pres, addr, body, hpres, -, h2⟩ :=
    C120_encrypted_read (ord := ord) hs h' (flowReady s.jwt) (flowKeyWorks s.jwt) (flowRefers hget)
  have ht := (C120_shown hs h' sid).2 rfl
  obtain ⟨doc, h3, h4⟩ := h2 sid ht [.fetch sid] [] (by simp [NoneDelivered])
  obtain ⟨doc', h5, h6⟩ := C120_forged hs h' sid ht [.fetch sid, .respond sid body] [] (by simp [NoneDelivered])
  exact ⟨app, _, sid, auth, st, body, doc, doc', pres, sid, hs, h', ht, hpres, h3, h4, h5, h6⟩

/-- The CLI verifier, ended after the request was fetched. -/
example : ∃ v σ url t, Cli.start cliPublic [c!"mdl"] (buildId 3) c!"n" = .ok (v, σ, url) ∧ ShowsId url t ∧
    (Cli.serve id ⟨σ, .waitingForWallet, false⟩ [.fetch t, .respond t emptyBody, .respond t (utf8 c!"response=a")]).display =
      .success (.obj [(c!"credential_query_ids", .arr []), (c!"credentials_received", .int 0)]) := by
  obtain ⟨⟨v, σ, url⟩, h⟩ : ∃ r, Cli.start cliPublic [c!"mdl"] (buildId 3) c!"n" = .ok r :=
    (C65_start_iff _ _ _ _ cliPublic_wf).2 ⟨.inl (by decide), by decide, by
      intro t ht
      simp only [List.mem_cons, List.not_mem_nil, or_false] at ht
      subst ht
      exact ⟨c!"mdl_0", .msoMDoc, by simp [AsksFor, credentialTypes]⟩⟩
  have ht := (C120_cli_shown _ _ _ _ v σ url cliPublic_wf h _).2 rfl
  exact ⟨v, σ, url, _, h, ht, (C120_cli_forged _ _ _ _ v σ url cliPublic_wf h _ ht id (fun _ => .refl _) _
    [.fetch (buildId 3).print] [.respond (buildId 3).print (utf8 c!"response=a")] (by
      intro c hc
      simp only [List.mem_cons, List.not_mem_nil, or_false] at hc
      subst hc
      exact fun _ _ h => h)).2⟩

end Oid4vp
