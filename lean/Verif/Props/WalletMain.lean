import Verif.Props.CliHttp
import Verif.Props.Shipped
import Verif.Props.VerifierMain
import Verif.Props.WalletApp
import Verif.Spec.WalletMain
/-!
# C123: the start of the example wallet
-/

set_option autoImplicit false

namespace Oid4vp

open Spec Example WalletApp WalletMain

theorem publicText_iff {args : Args} {t : Str} : PublicText args t ↔ publicText args = t := by
  unfold PublicText publicText
  cases args.publicUrl with
  | some s => simp
  | none => simp [CliProgram.natStr_decimal, eq_comm]

theorem config_endpoint (args : Args) : endpointOf args.publicUrl args.host (natStr args.port.toNat) =
    Url.parse (publicText args ++ c!"/authorize") := by
  unfold endpointOf publicText
  cases args.publicUrl <;> rfl

theorem config_ok {args : Args} {c : Config} : config args = .ok c ↔
    Url.parse (publicText args ++ c!"/authorize") = some c.endpoint ∧ Url.parse (publicText args) = some c.publicUrl := by
  unfold config
  rw [config_endpoint]
  obtain ⟨e, u⟩ := c
  cases Url.parse (publicText args ++ c!"/authorize") with
  | none => simp
  | some e' => cases Url.parse (publicText args) with
    | none => simp
    | some u' => simp

theorem embedded_loads : loadStore embeddedText = .ok [embeddedCredential] := (C80_store_file _ _).2 C80_embedded

theorem main_ok {parts : Parts} {args : Args} {app : App} {out : List Str} :
    WalletMain.main parts args = .ok (app, out) ↔ ∃ c, config args = .ok c ∧
      parts.socket (args.host ++ ':' :: natStr args.port.toNat) = true ∧
      app = appOf parts args c [embeddedCredential] ∧ out = WalletMain.banner c 1 := by
  unfold WalletMain.main
  rw [embedded_loads]
  cases config args with
  | error e => simp
  | ok c =>
    cases parts.socket (args.host ++ ':' :: natStr args.port.toNat) with
    | false => simp
    | true => simp [eq_comm]

/-- **C123** The program starts exactly if the public address and the public address with `/authorize` after
it are addresses and host and port are those of a socket. -/
theorem C123_starts_iff (parts : Parts) (args : Args) {t : Str} (ht : PublicText args t) :
    (∃ app out, WalletLaunched parts args app out) ↔
      (∃ u, UrlText t u) ∧ (∃ e, UrlText (t ++ c!"/authorize") e) ∧
      parts.socket (args.host ++ c!":" ++ Decimal args.port.toNat) = true := by
  rw [publicText_iff] at ht
  subst ht
  have hsock : args.host ++ c!":" ++ Decimal args.port.toNat = args.host ++ ':' :: natStr args.port.toNat := by
    simp [CliProgram.natStr_decimal]
  rw [hsock]
  simp only [WalletLaunched, main_ok, config_ok, ← C70_url_iff]
  constructor
  · rintro ⟨_, _, c, ⟨h1, h2⟩, h3, -⟩
    exact ⟨⟨_, h2⟩, ⟨_, h1⟩, h3⟩
  · rintro ⟨⟨u, h1⟩, ⟨e, h2⟩, h3⟩
    exact ⟨_, _, ⟨e, u⟩, ⟨h2, h1⟩, h3, rfl, rfl⟩

/-! ## The box -/

theorem boxShows_boxed {out : List Str} {label value : Str} {c : Char}
    (h : out.filter (fun l => l[3]? == some c) = [boxed label value]) (hc : label.head? = some c) :
    BoxShows out label value := by
  have hf : boxed label value = c!"║  " ++ label ++ value ++ List.replicate (40 - value.length) ' ' ++ c!" ║" := by
    simp [boxed, pad40]
  refine ⟨⟨List.replicate (40 - value.length) ' ', fun c h => (List.mem_replicate.mp h).2, ?_⟩, ?_⟩
  · rw [← hf]
    have : boxed label value ∈ out.filter (fun l => l[3]? == some c) := by rw [h]; simp
    exact (List.mem_filter.mp this).1
  · intro t ht
    refine ⟨List.replicate (40 - value.length) ' ', fun c h => (List.mem_replicate.mp h).2, ?_⟩
    have := only_of_filter h ht (by
      cases label with
      | nil => cases hc
      | cons a r => cases hc; rfl)
    rw [hf] at this
    simpa using this

/-- **C123** What a started wallet is: it holds the embedded credentials, presents unless it was told not
to, and its authorization endpoint is the public address with `/authorize` after it. That is the address in
the box and in the metadata it serves; the public address in the box is written without the slashes it
ends in, and the number of credentials is 1. -/
theorem C123_started {parts : Parts} {args : Args} {app : App} {out : List Str}
    (h : WalletLaunched parts args app out) {t : Str} (ht : PublicText args t) :
    Shipped app.adapter ∧ (app.adapter.consent = true ↔ args.noAutoConsent = false) ∧
    UrlText (t ++ c!"/authorize") app.adapter.endpoint ∧ UrlText t app.publicUrl ∧
    BoxShows out c!"Authorization:        " app.adapter.endpoint.print ∧
    (∃ base, WithoutSlashes app.publicUrl.print base ∧ BoxShows out c!"Public URL:           " base) ∧
    BoxShows out c!"Mock Credentials:     " c!"1" ∧
    ∀ ord c, Visit c c!"/.well-known/openid-configuration" → ∃ doc, WalletApp.serve ord app c = ([], ⟨200, some doc⟩) ∧
      Member doc c!"authorization_endpoint" (.str app.adapter.endpoint.print) := by
  rw [publicText_iff] at ht
  subst ht
  obtain ⟨c, hc, -, rfl, rfl⟩ := main_ok.1 h
  obtain ⟨h1, h2⟩ := config_ok.1 hc
  refine ⟨shipped_iff.2 rfl, ?_, (C70_url_iff _ _).1 h1, (C70_url_iff _ _).1 h2,
    boxShows_boxed (c := 'A') rfl rfl, ⟨_, trim_without _, boxShows_boxed (c := 'P') rfl rfl⟩,
    boxShows_boxed (c := 'M') rfl rfl, ?_⟩
  · show (!args.noAutoConsent) = true ↔ _
    cases args.noAutoConsent <;> simp
  · rintro ord c' ⟨hm, hp, hb⟩
    refine ⟨metadataJson c.endpoint, ?_, ?_⟩
    · have hl : ¬ 1024 * 1024 < c'.body.length := by rw [hb]; simp
      rw [WalletApp.serve, if_neg hl, if_neg (by rw [hm]; decide), if_pos hm, WalletApp.get,
        if_neg (by rw [hp]; decide), hp]
      rfl
    · exact ⟨_, rfl, rfl⟩

/-! ## The addresses -/

theorem visit_get {ord : MapOrder} {app : App} {c : Call} {path : Str} (h : Visit c path) :
    WalletApp.serve ord app c = WalletApp.get ord app c := by
  obtain ⟨hm, -, hb⟩ := h
  have hl : ¬ 1024 * 1024 < c.body.length := by rw [hb]; simp
  rw [WalletApp.serve, if_neg hl, if_neg (by rw [hm]; decide), if_pos hm]

theorem visit_authorize {ord : MapOrder} {app : App} {c : Call} {path : Str} (h : Visit c (path ++ c!"/authorize")) :
    WalletApp.serve ord app c = ([], ⟨404, none⟩) ↔ path ≠ [] := by
  rw [visit_get h]
  have hc := h.2.1
  constructor
  · rintro hd rfl
    rw [WalletApp.get, if_pos (show c.path = c!"/authorize" from hc), authorizeGet] at hd
    split at hd
    · cases hd
    · rename_i p _
      obtain ⟨reqs, ans, status, doc, h0, -⟩ := authorize_means ord app p
      rw [h0] at hd; cases hd
  · intro hne
    have h6 : c.path ≠ c!"/authorize" := by
      rw [hc]; intro h
      exact hne (List.append_cancel_right (bs := c!"/authorize") (as := path) (cs := []) h)
    have h7 : c.path.getLast? = some 'e' := by rw [hc]; simp
    have h8 : getDocument app c.path = none := by
      have hx : ∀ {t : Str}, t.getLast? ≠ some 'e' → c.path ≠ t := by
        rintro t ht rfl; exact ht h7
      rw [getDocument, if_neg (hx (by decide)), if_neg (hx (by decide)), if_neg (hx (by decide)),
        if_neg (hx (by decide)), if_neg (hx (by decide)), if_neg (hx (by decide))]
    rw [WalletApp.get, if_neg h6, h8]

theorem visit_page {ord : MapOrder} {app : App} {c : Call} {path page : Str} (h : Visit c (path ++ page))
    (hp : page = c!"/.well-known/openid-configuration" ∨ page = c!"/.well-known/jwks.json") :
    (∃ doc, WalletApp.serve ord app c = ([], ⟨200, some doc⟩)) ↔ path = [] := by
  rw [visit_get h]
  have hc := h.2.1
  constructor
  · rintro ⟨doc, hd⟩
    by_contra hne
    have hx : ∀ t ∈ [c!"/authorize", c!"/.well-known/openid-configuration", c!"/.well-known/jwks.json", c!"/health",
        c!"/debug/config", c!"/debug/credentials", c!"/"], c.path ≠ t := by
      intro t ht e
      have hl : t.length ≤ page.length ∨ ¬ page <:+ t := by
        clear e
        revert t
        rcases hp with rfl | rfl <;> decide
      rw [hc] at e
      rcases hl with hl | hl
      · have h1 := congrArg List.length e
        have h2 := List.length_pos_of_ne_nil hne
        rw [List.length_append] at h1
        omega
      · exact hl ⟨path, e⟩
    simp only [List.mem_cons, List.not_mem_nil, or_false, forall_eq_or_imp, forall_eq] at hx
    obtain ⟨x1, x2, x3, x4, x5, x6, x7⟩ := hx
    rw [WalletApp.get, if_neg x1, getDocument, if_neg x2, if_neg x3, if_neg x4, if_neg x5, if_neg x6, if_neg x7] at hd
    cases hd
  · rintro rfl
    rcases hp with rfl | rfl
    · refine ⟨metadataJson app.adapter.endpoint, ?_⟩
      rw [WalletApp.get, if_neg (by rw [hc]; decide), hc]
      rfl
    · refine ⟨jwksJson app.x app.y, ?_⟩
      rw [WalletApp.get, if_neg (by rw [hc]; decide), hc]
      rfl

theorem shown_base {scheme auth path whole base : Str} (ha : auth ≠ []) (hs : '/' ∉ auth)
    (hw : whole = path ∨ (path = [] ∧ whole = c!"/")) (hb : WithoutSlashes path base) :
    WithoutSlashes (Url.print ⟨scheme, some auth, whole, none, none⟩) (scheme ++ c!"://" ++ auth ++ base) := by
  have hp : Url.print ⟨scheme, some auth, whole, none, none⟩ = scheme ++ c!"://" ++ auth ++ whole := by
    have : guardText (some auth) whole = [] := by cases whole <;> rfl
    simp [Url.print, this, authText, optText]
  obtain ⟨⟨n, hn⟩, hne⟩ := hb
  refine ⟨?_, ?_⟩
  · rcases hw with rfl | ⟨rfl, rfl⟩
    · exact ⟨n, by rw [hp, hn]; simp⟩
    · obtain ⟨rfl, -⟩ := List.append_eq_nil_iff.1 hn.symm
      exact ⟨1, by rw [hp]; simp⟩
  · intro e he
    rcases List.eq_nil_or_concat base with rfl | ⟨b, c, rfl⟩
    · rw [List.append_nil] at he
      obtain ⟨a, x, rfl⟩ := (List.eq_nil_or_concat auth).resolve_left ha
      rw [List.concat_eq_append, ← List.append_assoc] at he
      have := List.append_inj_right' he rfl
      cases this
      simp at hs
    · rw [List.concat_eq_append, ← List.append_assoc] at he
      have := List.append_inj_right' he rfl
      cases this
      exact hne b (by simp)

/-- **C123** For a public address without query and fragment: the addresses that are listed are those of the
public address without the slashes it ends in, while the authorization endpoint that is announced keeps
them, so the two are the same exactly if the address does not end in a slash. The server answers at the
listed address exactly if the path has only slashes, but at the announced one only if there is no path at
all. -/
theorem C123_addresses {parts : Parts} {args : Args} {app : App} {out : List Str}
    (h : WalletLaunched parts args app out) {t scheme auth path : Str} (ht : PublicText args t)
    (hp : PlainAddress t scheme auth path) :
    ∃ base, WithoutSlashes path base ∧
      (∀ page ∈ [c!"/authorize", c!"/.well-known/openid-configuration", c!"/.well-known/jwks.json"],
        ListsAddress out (scheme ++ c!"://" ++ auth ++ base ++ page)) ∧
      app.adapter.endpoint = ⟨scheme, some auth, path ++ c!"/authorize", none, none⟩ ∧
      (app.adapter.endpoint.print = scheme ++ c!"://" ++ auth ++ base ++ c!"/authorize" ↔
        ∀ e, path ≠ e ++ ['/']) ∧
      (∀ ord c, Visit c (base ++ c!"/authorize") →
        (WalletApp.serve ord app c = ([], ⟨404, none⟩) ↔ ∃ x ∈ path, x ≠ '/')) ∧
      (∀ ord c, Visit c (path ++ c!"/authorize") →
        (WalletApp.serve ord app c = ([], ⟨404, none⟩) ↔ path ≠ [])) ∧
      ∀ ord c page, page = c!"/.well-known/openid-configuration" ∨ page = c!"/.well-known/jwks.json" →
        Visit c (base ++ page) →
        ((∃ doc, WalletApp.serve ord app c = ([], ⟨200, some doc⟩)) ↔ ∀ x ∈ path, x = '/') := by
  obtain ⟨rfl, hauth, whole, hu, hw⟩ := hp
  rw [publicText_iff] at ht
  obtain ⟨c, hc, -, rfl, rfl⟩ := main_ok.1 h
  obtain ⟨h1, h2⟩ := config_ok.1 hc
  obtain ⟨u, he, rfl, -⟩ := C78_endpoint_address hu hw args.host []
  rw [ht] at h1 h2
  rw [show endpointOf (some (scheme ++ c!"://" ++ auth ++ path)) args.host [] =
    Url.parse (scheme ++ c!"://" ++ auth ++ path ++ c!"/authorize") from rfl, h1] at he
  have he := Option.some.inj he
  have hpub : c.publicUrl = ⟨scheme, some auth, whole, none, none⟩ := by
    have := (C70_url_iff _ _).2 hu
    rw [h2] at this
    exact Option.some.inj this
  have hslash : '/' ∉ auth := ((Url.parse_wf ((C70_url_iff _ _).2 hu)).auth_delims rfl).1
  have hb := trim_without path
  generalize trimEndChar '/' path = base at hb
  have htrim : trimEndChar '/' c.publicUrl.print = scheme ++ c!"://" ++ auth ++ base := by
    rw [hpub]
    exact without_unique (trim_without _) (shown_base hauth hslash hw hb)
  have hbase : base = [] ↔ ∀ x ∈ path, x = '/' := by
    obtain ⟨⟨n, hn⟩, hne⟩ := hb
    constructor
    · rintro rfl x hx
      rw [hn] at hx
      exact (List.mem_replicate.1 (by simpa using hx)).2
    · intro hx
      rcases List.eq_nil_or_concat base with rfl | ⟨b, y, rfl⟩
      · rfl
      · have := hx y (by rw [hn]; simp)
        exact absurd (by rw [this]; simp) (hne b)
  refine ⟨base, hb, ?_, he, ?_, ?_, fun ord c' hv => visit_authorize hv, ?_⟩
  · intro page hpage
    unfold ListsAddress WalletMain.banner
    rw [htrim]
    simp only [List.mem_cons, List.not_mem_nil, or_false] at hpage
    rcases hpage with rfl | rfl | rfl <;> simp
  · show c.endpoint.print = _ ↔ _
    rw [he]
    have hpr : Url.print ⟨scheme, some auth, path ++ c!"/authorize", none, none⟩ =
        scheme ++ c!"://" ++ auth ++ path ++ c!"/authorize" := by
      have : guardText (some auth) (path ++ c!"/authorize") = [] := by cases path <;> rfl
      simp [Url.print, this, authText, optText]
    rw [hpr, List.append_left_inj, List.append_right_inj]
    constructor
    · intro e
      rw [e]
      exact hb.2
    · intro hn
      exact without_unique ⟨⟨0, by simp⟩, hn⟩ hb
  · intro ord c' hv
    rw [visit_authorize hv, ne_eq, hbase]
    simp
  · intro ord c' page hpage hv
    rw [visit_page hv hpage, hbase]

/-! ## With the example verifier -/

/-- **C123** (A finding.) The program of the wallet, started with whatever arguments, never answers the example
verifier: asked with the parameters of a session, it answers 400 and sends nothing. -/
theorem C123_program_denies {p : VerifierApp.Pki} {rs : List Run} {draw : VerifierApp.Draw} {w : Bool} {key : VerifierApp.EncKey} {u : Url}
    {encrypted : Bool} {host : Str} {vapp : VerifierApp.App}
    (hs : Started p rs draw w key u encrypted host vapp)
    {nonce : Option Str} {uuid : Uuid} {drawn : Str} {σ σ' : Store} {sid auth st : Str}
    (hi : VerifierApp.initiate vapp nonce uuid drawn σ = (σ', .ok (sid, auth, st)))
    (hk : encrypted = true → (Json.obj key.jwk).WF FltLit ∧ (Json.obj key.jwk).depth ≤ 100)
    {parts : Parts} {args : Args} {app : App} {out : List Str} (h : WalletLaunched parts args app out)
    (hw : OpensRequests app.adapter) {c : Call} (hc : Visit c c!"/authorize") {fields : List (Str × Str)} {prm : Params}
    (hq : QueryFields c.query fields) (hprm : ParamsIn fields prm) (hr : Refers u uuid sid σ' app.adapter prm)
    (ord : MapOrder) :
    ∃ reqs doc, WalletApp.serve ord app c = (reqs, ⟨400, some doc⟩) ∧ posts reqs = [] ∧
      Member doc c!"error" (.str c!"access_denied") := by
  have hship : Shipped app.adapter := by
    obtain ⟨c, -, -, rfl, -⟩ := main_ok.1 h
    exact shipped_iff.2 rfl
  obtain ⟨h1, h2⟩ := (C122_shipped hs hi hk hw hship hr ord).1
  rw [queryFields_iff] at hq
  subst hq
  refine ⟨_, answerJson (app.describe prm (app.adapter.process ord prm).2) (app.adapter.process ord prm).2, ?_, h1, ?_⟩
  · rw [visit_get hc, WalletApp.get, if_pos hc.2.1, authorizeGet, (C78_parameters ..).mpr hprm]
    simp only [authorize, h2]
    rfl
  · rw [h2]
    exact ⟨_, rfl, rfl⟩

/-! ## Cases -/

/-- The parts of the sample wallet. -/
def toyParts (jwt : Str) : Parts where
  wallet := e2eWallet jwt
  lower := id
  holder := toyHolder
  jose := ⟨fun _ => true, fun _ _ => true, fun _ _ m => .ok (jPrint (.obj m))⟩
  text := fun r => some (utf8Lossy r.body)
  version := c!"0.1.0"
  x := []
  y := []
  describe := fun _ _ => []
  socket := fun s => s = c!"0.0.0.0:3000"

/-- The default arguments, with this public address. -/
def toyArgs (publicUrl : Option Str) : Args := ⟨3000, c!"0.0.0.0", publicUrl, false⟩

theorem toySocket (jwt : Str) (publicUrl : Option Str) : (toyParts jwt).socket
    ((toyArgs publicUrl).host ++ c!":" ++ Decimal (toyArgs publicUrl).port.toNat) = true := by
  have h : c!"0.0.0.0" ++ c!":" ++ Decimal (3000 : UInt16).toNat = c!"0.0.0.0:3000" := by decide +kernel
  exact decide_eq_true h

/-- Started with `https://w.example/`: the announced endpoint is `https://w.example//authorize`, where nothing is
served; the listed one is `https://w.example/authorize`. -/
example (jwt : Str) : ∃ app out,
    WalletLaunched (toyParts jwt) (toyArgs (some c!"https://w.example/")) app out ∧
    PlainAddress c!"https://w.example/" c!"https" c!"w.example" c!"/" ∧
    app.adapter.endpoint.print = c!"https://w.example//authorize" ∧
    ListsAddress out c!"https://w.example/authorize" ∧
    (∀ ord c, Visit c c!"//authorize" → WalletApp.serve ord app c = ([], ⟨404, none⟩)) ∧
    ∀ ord c, Visit c c!"/authorize" → WalletApp.serve ord app c ≠ ([], ⟨404, none⟩) := by
  have ht : PublicText (toyArgs (some c!"https://w.example/")) c!"https://w.example/" := .inl rfl
  have hu : UrlText c!"https://w.example/" ⟨c!"https", some c!"w.example", c!"/", none, none⟩ :=
    (C70_url_iff _ _).1 (by decide +kernel)
  have hp : PlainAddress c!"https://w.example/" c!"https" c!"w.example" c!"/" :=
    ⟨rfl, by decide, c!"/", hu, .inl rfl⟩
  obtain ⟨app, out, h⟩ := (C123_starts_iff (toyParts jwt) _ ht).2 ⟨⟨_, hu⟩,
    ⟨⟨c!"https", some c!"w.example", c!"//authorize", none, none⟩, (C70_url_iff _ _).1 (by decide +kernel)⟩,
    toySocket _ _⟩
  obtain ⟨base, hb, h1, h2, -, h3, h4, -⟩ := C123_addresses h ht hp
  have hbase : base = [] := without_unique hb ⟨⟨1, rfl⟩, by simp⟩
  subst hbase
  refine ⟨app, out, h, hp, by rw [h2]; rfl, h1 c!"/authorize" (by simp), fun ord c hv => (h4 ord c hv).2 (by simp),
    fun ord c hv hc => ?_⟩
  obtain ⟨x, hx, hne⟩ := (h3 ord c hv).1 hc
  exact hne (by simpa using hx)

/-- Started without a public address; host `::` instead does not start. -/
example (jwt : Str) : (∃ app out, WalletLaunched (toyParts jwt) (toyArgs none) app out ∧
      app.adapter.endpoint.print = c!"http://0.0.0.0:3000/authorize") ∧
    ¬∃ app out, WalletLaunched (toyParts jwt) { toyArgs none with host := c!"::" } app out := by
  have ht : PublicText (toyArgs none) c!"http://0.0.0.0:3000" := publicText_iff.2 (by decide +kernel)
  have hu : UrlText c!"http://0.0.0.0:3000" ⟨c!"http", some c!"0.0.0.0:3000", c!"/", none, none⟩ :=
    (C70_url_iff _ _).1 (by decide +kernel)
  constructor
  · obtain ⟨app, out, h⟩ := (C123_starts_iff (toyParts jwt) _ ht).2 ⟨⟨_, hu⟩,
      ⟨⟨c!"http", some c!"0.0.0.0:3000", c!"/authorize", none, none⟩, (C70_url_iff _ _).1 (by decide +kernel)⟩,
      toySocket _ _⟩
    obtain ⟨_, -, -, h2, -⟩ := C123_addresses h ht ⟨rfl, by decide, c!"/", hu, .inr ⟨rfl, rfl⟩⟩
    exact ⟨app, out, h, by rw [h2]; rfl⟩
  · rw [C123_starts_iff (t := c!"http://:::3000") _ _ (publicText_iff.2 (by decide +kernel))]
    rintro ⟨⟨u, hu⟩, -⟩
    rw [← C70_url_iff] at hu
    have : Url.parse c!"http://:::3000" = none := by decide +kernel
    rw [this] at hu
    cases hu

/-- The two programs: a session, its request address given to the wallet's endpoint. -/
example (ord : MapOrder) : ∃ vapp σ sid auth st jwt app out c reqs doc,
    Started cachePki [] (cacheDraw 9) true flowKey flowUrl true c!"a.b" vapp ∧
    VerifierApp.initiate vapp none (buildId 5) c!"drawn" [] = (σ, .ok (sid, auth, st)) ∧
    WalletLaunched (toyParts jwt) (toyArgs (some c!"https://wallet")) app out ∧
    Visit c c!"/authorize" ∧ WalletApp.serve ord app c = (reqs, ⟨400, some doc⟩) ∧ posts reqs = [] ∧
    Member doc c!"error" (.str c!"access_denied") := by
  obtain ⟨vapp, hs⟩ := flowStarted true
  obtain ⟨⟨sid, auth, st⟩, h⟩ := C62_initiate_succeeds hs none (buildId 5) c!"drawn" []
  have h' : VerifierApp.initiate vapp none (buildId 5) c!"drawn" [] =
    ((VerifierApp.initiate vapp none (buildId 5) c!"drawn" []).1, .ok (sid, auth, st)) := by rw [← h]
  obtain ⟨s, -, -, hsid, -, -, -, -, -, hget⟩ := C62_initiate hs h'
  have hr := flowRefers hget
  have ht : PublicText (toyArgs (some c!"https://wallet")) c!"https://wallet" := .inl rfl
  have hu : UrlText c!"https://wallet" ⟨c!"https", some c!"wallet", c!"/", none, none⟩ :=
    (C70_url_iff _ _).1 (by decide +kernel)
  obtain ⟨app, out, hl⟩ := (C123_starts_iff (toyParts s.jwt) _ ht).2 ⟨⟨_, hu⟩,
    ⟨⟨c!"https", some c!"wallet", c!"/authorize", none, none⟩, (C70_url_iff _ _).1 (by decide +kernel)⟩,
    toySocket _ _⟩
  have happ : app.adapter = shippedWallet s.jwt := by
    obtain ⟨_, -, -, he, -⟩ := C123_addresses hl ht ⟨rfl, by decide, c!"/", hu, .inr ⟨rfl, rfl⟩⟩
    obtain ⟨c, hc, -, rfl, -⟩ := main_ok.1 hl
    have he : c.endpoint = _ := he
    simp only [appOf, shippedWallet, flowWallet, toyParts, toyArgs, he]
    rfl
  let c : Call := ⟨c!"GET", c!"/authorize", some (formSer (flowParams (buildId 5)).pairs), none, []⟩
  have hprm : paramsOf (formParse (formSer (flowParams (buildId 5)).pairs)) = .ok (flowParams (buildId 5)) := by
    decide +kernel
  obtain ⟨reqs, doc, h1, h2, h3⟩ := C123_program_denies hs h' (fun _ => (flowKeyWorks s.jwt).proper) hl
    (by rw [happ]; exact shippedWallet_opens s.jwt) (c := c) ⟨rfl, rfl, rfl⟩ (queryFields_iff.2 rfl)
    ((C78_parameters ..).1 hprm) (by rw [happ]; exact ⟨hr.noRequest, hr.uri, hr.reached⟩) ord
  exact ⟨vapp, _, sid, auth, st, s.jwt, app, out, c, reqs, doc, hs, h', hl, ⟨rfl, rfl, rfl⟩, h1, h2, h3⟩

end Oid4vp
