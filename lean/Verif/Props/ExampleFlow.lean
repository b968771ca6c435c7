import Verif.Spec.ExampleFlow
import Verif.Props.CertCache
import Verif.Props.CliFlow
import Verif.Props.Endpoint
import Verif.Props.EndpointRequest
import Verif.Props.Jwe
import Verif.Props.Routes
import Verif.Props.UrlJoin
/-!
# C62: a presentation from the example wallet to the example verifier
-/

set_option autoImplicit false

namespace Oid4vp
open Spec Example VerifierApp

/-! ## The started verifier -/

/-- The default parameters of the verifier. -/
def appDefaults (encrypted : Bool) (key : EncKey) : UntypedObject :=
  [(c!"client_metadata", .obj (clientMetadata (if encrypted then some (publishedJwk key.jwk) else none)).val),
   (c!"response_mode", .str (if encrypted then c!"direct_post.jwt" else c!"direct_post")),
   (c!"response_type", .str c!"vp_token")]

/-- The verifier of the program. -/
def appVerifier (p : Pki) (i : Identity p) (host : Str) (sub base : Url) (encrypted : Bool) (key : EncKey) :
    Verifier :=
  ⟨sanClient p.x509 (prefixedId ClientIdScheme.x509SanDns host) [i.cert] i.key, appDefaults encrypted key,
    .at base, sub⟩

theorem buildVerifier_eq (client : Client) (sub base : Url) (encrypted : Bool) (key : EncKey) :
    VerifierApp.buildVerifier client sub base encrypted key =
      .ok ⟨client, appDefaults encrypted key, .at base, sub⟩ := by
  cases encrypted <;> rfl

/-- The address of the assumed wallet. -/
def demoUrl : Url :=
  ⟨c!"https", some c!"demo.certification.openid.net", c!"/test/a/my-verifier-oid4vp1/authorize", none, none⟩

theorem demoUrl_parse : Url.parse walletEndpoint = some demoUrl := by decide +kernel

theorem rsplit_path {path d l : Str} (h : rsplitOnce '/' path = some (d, l)) :
    path = d ++ '/' :: l ∧ '/' ∉ l := rsplitOnce_eq_some.1 h

theorem beside_resolves {base : Url} (hw : base.WF) (hh : Hierarchical base) {seg : Str} (hne : seg ≠ [])
    (hs : SegOk (isSpecial base.scheme) seg) (hcol : ':' ∉ seg) :
    ∃ v, Resolves base seg v ∧ Beside base seg v := by
  have hch : ∀ c ∈ seg, isGraphic c = true ∧ c ≠ '?' ∧ c ≠ '#' := fun c hc =>
    ⟨pathKeep_graphic (hs.1 c hc).2, pathKeep_delim (hs.1 c hc).2⟩
  have hsl : '/' ∉ seg := by
    intro hm
    have := (hs.1 _ hm).1
    rw [isSlash_slash] at this; cases this
  have hcl : Cleaned seg seg := by
    rw [cleaned_iff]
    refine (urlInput_id (fun c hc => (isGraphic_gt (hch c hc).1).1) ?_ ?_).symm
    · intro c hc; exact (isGraphic_gt (hch c (List.mem_of_mem_head? hc)).1).2
    · intro c hc; exact (isGraphic_gt (hch c (List.mem_of_mem_getLast? hc)).1).2
  obtain ⟨dir, hd⟩ := dirText_exists (base_path hw hh)
  have hpath : ∃ d last, (base.path = d ++ '/' :: last ∨ (base.path = [] ∧ d = [])) ∧ '/' ∉ last ∧
      hierPath (isSpecial base.scheme) (dir ++ seg) = d ++ '/' :: seg := by
    rcases base_path hw hh with hp | ⟨r, hp, hr⟩
    · rw [hp] at hd
      rcases hd with ⟨-, rfl⟩ | ⟨last, h, -⟩
      · exact ⟨[], [], .inr ⟨hp, rfl⟩, by simp, pathNorm_iff.mp (PathNorm.single hs)⟩
      · cases h
    · rw [hp] at hd
      rcases hd with ⟨h, -⟩ | ⟨last, h, h5, h6⟩
      · cases h
      · have hn := pathNorm_iff.mpr hr
        rw [← hp] at hn
        rcases h6 with rfl | h6
        · refine ⟨[], last, .inl (by rw [hp, h]; rfl), h5, pathNorm_iff.mp (PathNorm.single hs)⟩
        · obtain ⟨d', rfl⟩ := List.getLast?_eq_some_iff.mp h6
          have e : base.path = ('/' :: d') ++ '/' :: last := by rw [hp, h]; simp
          rw [e] at hn
          have := pathNorm_iff.mp (hn.beside h5 hs)
          refine ⟨'/' :: d', last, .inl e, h5, ?_⟩
          rw [List.append_assoc, List.singleton_append]
          exact this
  obtain ⟨d, last, h1, h2, h3⟩ := hpath
  refine ⟨{ base with path := d ++ '/' :: seg, query := none, fragment := none }, ?_, d, last, h1, h2, rfl⟩
  refine .noScheme hcl ?_ ⟨seg, none, none, isSpecial base.scheme, by simp [marked], fun hm => (hch _ hm).2.1 rfl,
    ?_, (special_iff _).symm, .inl hh, rfl, .beside hne ?_ hd ?_, ?_, .none⟩
  · rintro w n r - e
    exact hcol (by rw [e]; simp)
  · simpa [marked] using fun hm => (hch _ hm).2.2 rfl
  · intro c hc
    rw [separator_iff, (hs.1 c (List.mem_of_mem_head? hc)).1]; simp
  · rw [pathText_iff, h3]
  · rw [if_neg (by simp [hne])]; exact .none

theorem join_ok {u : Url} {seg : Str} (hw : u.WF) (ha : u.authority ≠ none) (hne : seg ≠ [])
    (hs : SegOk (isSpecial u.scheme) seg) (hcol : ':' ∉ seg) :
    ∃ v, orErr .parse (u.join seg) = .ok v ∧ Beside u seg v := by
  obtain ⟨v, h1, h2⟩ := beside_resolves hw (.inl ha) hne hs hcol
  exact ⟨v, by rw [(C110_resolves hw _ _).mpr h1]; rfl, h2⟩

theorem beside_path {u v : Url} {seg : Str} (h : Beside u seg v) :
    ∃ dir, v = { u with path := dir ++ '/' :: seg, query := none, fragment := none } ∧
      ('?' ∈ dir → '?' ∈ u.path) ∧ ('#' ∈ dir → '#' ∈ u.path) ∧
      (dir = [] ∨ ∃ l, u.path = dir ++ '/' :: l) := by
  obtain ⟨dir, last, h1, h2, rfl⟩ := h
  refine ⟨dir, rfl, ?_, ?_, ?_⟩ <;> rcases h1 with h1 | ⟨h1, rfl⟩
  · intro h; rw [h1]; simp [h]
  · simp
  · intro h; rw [h1]; simp [h]
  · simp
  · exact .inr ⟨_, h1⟩
  · exact .inl rfl

theorem beside_wf {u v : Url} {seg : Str} (hw : u.WF) (ha : u.authority ≠ none)
    (hs : SegOk (isSpecial u.scheme) seg) (h : Beside u seg v) : v.WF := by
  obtain ⟨dir, last, h1, h2, rfl⟩ := h
  have hp : ∃ r, dir ++ '/' :: seg = '/' :: r ∧ hierPath (isSpecial u.scheme) r = '/' :: r := by
    rcases h1 with h1 | ⟨h1, rfl⟩
    · rcases hw.path_auth ha with h | ⟨q, h⟩
      · rw [h] at h1; simp at h1
      · have := pathNorm_iff.mpr (hw.path_ok q h)
        rw [← h, h1] at this
        have := PathNorm.beside this h2 hs
        obtain ⟨l, -, e, -⟩ := id this
        refine ⟨_, e, ?_⟩
        rw [e] at this
        exact pathNorm_iff.mp this
    · exact ⟨seg, rfl, pathNorm_iff.mp (PathNorm.single hs)⟩
  obtain ⟨r, e, hr⟩ := hp
  rw [e]
  have := hw.withPath hr
  exact ⟨this.scheme_ok, this.auth_ok, this.path_ok, this.path_auth, this.path_opaque,
    fun _ hn => absurd rfl (hn r), by simp, by simp, this.special⟩

theorem host_authority {u : Url} {h : Str} (hu : HostIs u h) : u.authority ≠ none := by
  obtain ⟨_, _, ha, -⟩ := hu
  rw [ha]; simp

/-- What the program runs with. -/
theorem start_app {p : Pki} {rs : List Run} {draw : Draw} {w : Bool} {key : EncKey} {u : Url}
    {encrypted : Bool} {h : Str} {app : App} (hs : Started p rs draw w key u encrypted h app) :
    ∃ i : Identity p, i.key.alg = .ok c!"ES256" ∧ ∃ sub base, Beside u c!"response" sub ∧
      Beside u c!"request" base ∧
      app = ⟨appVerifier p i h sub base encrypted key, walletMetadata demoUrl, u, key.decrypt⟩ := by
  have hder : ∀ c der, p.x509.toDer c = .ok der → p.x509.fromDer der = some c := by
    intro c der h1
    obtain ⟨b, h2, h3⟩ := hs.der c
    rw [h1] at h2; cases h2; exact h3
  have hf := runs_files (p := p) rs [] [] (fun _ _ h => by simp [mget] at h)
  rw [List.nil_append] at hf
  have hx := (run_once hf ⟨h, draw, w⟩).2
  have hst := hs.started
  simp only [start, hostStr_of hs.host, demoUrl_parse] at hst
  simp only at hx
  generalize getOrGenerate p draw w h (runs p [] rs).1 = g at hst hx
  obtain ⟨f2, ri⟩ := g
  cases ri with
  | error e => simp at hst
  | ok i =>
    obtain ⟨r', hr', hd, der, pkcs8, c, h1, h2, h3, h4, h5⟩ := hx i rfl
    have hc : i.cert = c := by
      rcases h5 with h5 | h5
      · exact h5
      · rw [hder _ _ h4] at h5; exact (Option.some.inj h5).symm
    have hsan := hs.names r' hr' der pkcs8 c h1 h2
    have hdns : dnsNames p.x509 i.cert = [h] := by
      rw [hc, dnsNames, hsan, hd]; rfl
    have ha := host_authority hs.host
    obtain ⟨sub, hsub, hb1⟩ := join_ok (seg := c!"response") hs.address ha (by decide)
      (by cases isSpecial u.scheme <;> exact ⟨by decide, by decide, by decide⟩) (by decide)
    obtain ⟨base, hbase, hb2⟩ := join_ok (seg := c!"request") hs.address ha (by decide)
      (by cases isSpecial u.scheme <;> exact ⟨by decide, by decide, by decide⟩) (by decide)
    simp only [sanClientNew, hdns, hsub, hbase, buildVerifier_eq, Except.ok.injEq] at hst
    exact ⟨i, hs.es256 _ _ h3, sub, base, hb1, hb2, hst.symm⟩

theorem addressOf_beside {u base v : Url} {seg : Str} {id : Uuid} (hne : seg ≠ [])
    (hb : Beside u seg base) (h : AddressOf base id v) : SessionAddress u seg id v := by
  obtain ⟨dir, last, h1, h2, rfl⟩ := hb
  refine ⟨dir, last, h1, h2, ?_⟩
  rcases h with rfl | ⟨h, -⟩
  · simp
  · exfalso
    have := congrArg List.length h
    simp only [List.length_append, List.length_cons, List.length_nil] at this
    exact hne (List.length_eq_zero_iff.1 (by omega))

/-- The builder of a request. -/
def appBuilder (p : Pki) (i : Identity p) (host : Str) (sub base : Url) (encrypted : Bool) (key : EncKey)
    (nonce : Str) : RequestBuilder :=
  ((RequestBuilder.new (appVerifier p i host sub base encrypted key)).withDcqlQuery
    pidQuery).withRequestParameter (Nonce.mk nonce)

theorem appParams (p : Pki) (i : Identity p) (host : Str) (sub base : Url) (encrypted : Bool) (key : EncKey)
    (nonce : Str) : appBuilder p i host sub base encrypted key nonce = ⟨some pidQuery,
      [(c!"client_metadata",
          .obj (clientMetadata (if encrypted then some (publishedJwk key.jwk) else none)).val),
        (c!"nonce", .str nonce),
        (c!"response_mode", .str (if encrypted then c!"direct_post.jwt" else c!"direct_post")),
        (c!"response_type", .str c!"vp_token")]⟩ := rfl

theorem demoWallet : SupportsPrefix (walletMetadata demoUrl).inner c!"x509_san_dns" ∧
    HasText (walletMetadata demoUrl).inner c!"authorization_endpoint" walletEndpoint := by
  refine ⟨.inr ⟨[c!"x509_san_dns"], ?_, by simp⟩, ?_⟩
  · decide +kernel
  · show mget _ _ = _
    decide +kernel

theorem pid_read : DcqlQuery.ofJson pidQuery.toJson = .ok pidAsked := by decide +kernel

theorem publishedJwk_fine {n : Nat} {jwk : List (Str × Json)} (h : Fine (n + 1) (.obj jwk)) :
    Fine (n + 1) (.obj (publishedJwk jwk)) :=
  fine_mset (fine_mset (fine_mset h (fine_str _ _)) (fine_str _ _)) (fine_str _ _)

theorem formats_fine {n : Nat} : Fine (n + 2) formats.toJson := by
  refine fine_formats ?_
  intro e he
  rcases mem_formats_insert he with rfl | h
  · exact fine_nil n
  · cases h

theorem metadata_fine {encrypted : Bool} {key : EncKey}
    (hk : encrypted = true → (Json.obj key.jwk).WF FltLit ∧ (Json.obj key.jwk).depth ≤ 100) :
    Fine 103 (.obj (clientMetadata (if encrypted then some (publishedJwk key.jwk) else none)).val) := by
  cases encrypted with
  | false => exact fine_mset (fine_nil 102) formats_fine
  | true =>
    refine fine_mset (fine_mset (fine_nil 102) formats_fine) ?_
    show Fine 102 (.obj (mset c!"keys" (.arr ([publishedJwk key.jwk].map .obj)) []))
    refine fine_mset (fine_nil 101) (fine_arr ?_)
    rintro x hx
    simp only [List.mem_cons, List.not_mem_nil, or_false] at hx
    rw [hx]
    exact publishedJwk_fine (n := 99) (hk rfl)

theorem app_writable {p : Pki} {i : Identity p} {host : Str} {sub base : Url} {encrypted : Bool} {key : EncKey}
    {nonce : Str}
    (hk : encrypted = true → (Json.obj key.jwk).WF FltLit ∧ (Json.obj key.jwk).depth ≤ 100) :
    Writable (appBuilder p i host sub base encrypted key nonce) := by
  have hall : Fine 104 (.obj (appBuilder p i host sub base encrypted key nonce).params) := by
    show Fine 104 (.obj (mset c!"client_metadata"
      (.obj (clientMetadata (if encrypted then some (publishedJwk key.jwk) else none)).val)
      (mset c!"nonce" (.str nonce) (mset c!"response_mode"
        (.str (if encrypted then c!"direct_post.jwt" else c!"direct_post"))
        (mset c!"response_type" (.str c!"vp_token") [])))))
    exact fine_mset (fine_mset (fine_mset (fine_mset (fine_nil 103) (fine_str _ _)) (fine_str _ _))
      (fine_str _ _)) (metadata_fine hk)
  refine ⟨hall.1, Nat.le_trans hall.2 (by decide), ?_⟩
  rintro q' ⟨⟩ c hc
  have hc : c = ((CredentialQuery.new c!"pid" (.other c!"dc+sd-jwt")).setMeta
      [(c!"vct_values", strsToJson [c!"urn:eudi:pid:1"])]) := by simpa [pidQuery, DcqlQuery.new] using hc
  subst hc
  have hm : Fine 123 (.obj [(c!"vct_values", strsToJson [c!"urn:eudi:pid:1"])]) :=
    fine_mset (m := []) (fine_nil 122) fine_strs
  exact ⟨hm.1, hm.2, by rintro l ⟨⟩⟩

theorem appInitiate_ok {app : App} {nonce : Option Str} {uuid : Uuid} {drawn : Str} {σ σ' : Store}
    {r : Str × Str × Str} (h : initiate app nonce uuid drawn σ = (σ', .ok r)) :
    ∃ url, RequestBuilder.buildWithSessionId app.verifier
        (((RequestBuilder.new app.verifier).withDcqlQuery pidQuery).withRequestParameter
          (Nonce.mk (unwrapOr drawn nonce))) uuid app.walletMetadata false σ = (σ', .ok url) ∧
      r = (uuid.print, url.print, app.publicUrl.print ++ (c!"/status/" ++ uuid.print)) := by
  simp only [initiate] at h
  generalize RequestBuilder.buildWithSessionId _ _ _ _ _ _ = b at h
  obtain ⟨σ1, e | url⟩ := b
  · simp at h
  · simp only [Prod.mk.injEq, Except.ok.injEq] at h
    obtain ⟨rfl, rfl⟩ := h
    exact ⟨url, rfl, rfl⟩

theorem app_subWf {u sub : Url} {h seg : Str} (hw : u.WF) (hu : HostIs u h) (hs : ∀ sp, SegOk sp seg)
    (hb : Beside u seg sub) : sub.WF := beside_wf hw (host_authority hu) (hs _) hb

theorem response_seg (sp : Bool) : SegOk sp c!"response" := by
  cases sp <;> exact ⟨by decide, rfl, rfl⟩

theorem request_seg (sp : Bool) : SegOk sp c!"request" := by
  cases sp <;> exact ⟨by decide, rfl, rfl⟩

/-- **C62** The verifier, once started, can always begin a session. -/
theorem C62_initiate_succeeds {p : Pki} {rs : List Run} {draw : Draw} {w : Bool} {key : EncKey} {u : Url}
    {encrypted : Bool} {host : Str} {app : App} (hs : Started p rs draw w key u encrypted host app)
    (nonce : Option Str) (uuid : Uuid) (drawn : Str) (σ : Store) :
    ∃ r, (initiate app nonce uuid drawn σ).2 = .ok r := by
  obtain ⟨i, halg, sub, base, hb1, hb2, rfl⟩ := start_app hs
  have hsub := app_subWf hs.address hs.host response_seg hb1
  have hgen : ∀ a, ∃ jwt, (appVerifier p i host sub base encrypted key).client.generate a = .ok jwt := by
    intro a
    obtain ⟨d, hd, -⟩ := hs.der i.cert
    exact ⟨_, show x5cGenerate p.x509 [i.cert] i.key a = .ok _ by
      simp only [x5cGenerate, halg, mapR, hd]; rfl⟩
  have hB : Buildable (appVerifier p i host sub base encrypted key)
      (appBuilder p i host sub base encrypted key (unwrapOr drawn nonce)) (walletMetadata demoUrl) := by
    rw [appParams]
    have hp : ∀ {seg v}, Beside u seg v → HasPath v := by
      rintro seg v ⟨d, l, -, -, rfl⟩
      exact .inl (host_authority hs.host)
    refine ⟨by simp, ⟨?_, ⟨_, rfl⟩, ⟨_, rfl⟩, ?_⟩, demoWallet.1, ?_, ⟨_, _, demoWallet.2, demoUrl_parse⟩⟩
    · show mget c!"redirect_uri" _ = none
      rfl
    · cases encrypted with
      | false => exact ⟨_, .directPost, rfl, .directPost, .inl ⟨.inl rfl, hp hb1⟩⟩
      | true => exact ⟨_, .directPostJwt, rfl, .directPostJwt, .inl ⟨.inr rfl, hp hb1⟩⟩
    · rintro b ⟨⟩; exact hp hb2
  obtain ⟨url, hurl⟩ := (C23_succeeds_iff _ _ uuid _ false σ hsub hgen).2 ⟨rfl, hB⟩
  refine ⟨(uuid.print, url.print, u.print ++ (c!"/status/" ++ uuid.print)), ?_⟩
  simp only [initiate]
  generalize hg : RequestBuilder.buildWithSessionId _ _ _ _ _ _ = b
  have : b.2 = .ok url := by rw [← hg]; exact hurl
  obtain ⟨σ1, e | url'⟩ := b
  · cases this
  · cases this; rfl

/-- **C62** What the verifier assumes of wallets, as it is written. -/
theorem C62_wallet_metadata (endpoint : Url) : (VerifierApp.walletMetadata endpoint).toObject = [
    (c!"authorization_endpoint", .str endpoint.print),
    (c!"client_id_prefixes_supported", .arr [.str c!"x509_san_dns"]),
    (c!"vp_formats_supported", .obj [(c!"dc+sd-jwt", .obj [])])] := rfl

/-- **C62** What beginning a session does and answers: one session is stored, whose request asks for a
PID with the given or drawn nonce, for the client identifier of the host, to be answered at the address
of the session; the URL refers to the session for a wallet at the conformance suite, and the request
can be fetched. -/
theorem C62_initiate {p : Pki} {rs : List Run} {draw : Draw} {w : Bool} {key : EncKey} {u : Url}
    {encrypted : Bool} {host : Str} {app : App} (hs : Started p rs draw w key u encrypted host app)
    {nonce : Option Str} {uuid : Uuid} {drawn : Str} {σ σ' : Store} {sid auth st : Str}
    (h : initiate app nonce uuid drawn σ = (σ', .ok (sid, auth, st))) :
    ∃ s url addr, UuidText sid uuid ∧ StoredOne σ σ' uuid s ∧
      PidRequest key u encrypted host (unwrapOr drawn nonce) uuid s ∧
      Url.parse auth = some url ∧ SessionAddress u c!"request" uuid addr ∧
      AuthorizationRequest.fromUrl url demoUrl = .ok ⟨some (c!"x509_san_dns:" ++ host), .byReference addr⟩ ∧
      (getRequest sid σ').2 = (200, some s.jwt) := by
  obtain ⟨i, halg, sub, base, hb1, hb2, rfl⟩ := start_app hs
  obtain ⟨url, hb, hr⟩ := appInitiate_ok h
  simp only [Prod.mk.injEq] at hr
  clear h
  obtain ⟨h1, h2, -⟩ := hr
  rw [h1, h2]
  clear h1 h2
  have hsub := app_subWf hs.address hs.host response_seg hb1
  have hsid : UuidText uuid.print uuid := Uuid.parse_iff.1 (Uuid.parse_print uuid)
  change RequestBuilder.buildWithSessionId (appVerifier p i host sub base encrypted key)
    (appBuilder p i host sub base encrypted key (unwrapOr drawn nonce)) uuid _ false σ = _ at hb
  obtain ⟨s, hst, hf⟩ := C23_build_stores_one _ _ _ _ _ _ _ _ hb
  obtain ⟨s', hs', hsq, ho⟩ := C24_own_values_win _ _ _ _ _ _ _ _ hsub hb
  rw [hst.2.1] at hs'; cases hs'
  obtain ⟨s', ep, hs', hep, hprint, -, hr⟩ := C25_url_refers_to_session _ _ _ _ _ _ _ _
    (by rintro b ⟨⟩; exact app_subWf hs.address hs.host request_seg hb2) hb
  rw [hst.2.1] at hs'; cases hs'
  obtain ⟨uri, ha, -, hfrom, hret⟩ := hr _ rfl
  rw [appParams] at hsq ho
  simp only [Option.some.injEq] at hsq
  obtain ⟨-, -, hrep, -⟩ := ofObject_iff.mp hf.object
  have hmode : s.requestObject.responseMode = if encrypted then .directPostJwt else .directPost := by
    rcases hrep.mode with ⟨h1, -⟩ | ⟨t, h1, h2⟩
    · rw [Absent, ho.others _ (by decide)] at h1; cases h1
    · rw [HasText, ho.others _ (by decide)] at h1
      cases h1
      generalize s.requestObject.responseMode = m at h2
      cases encrypted <;> cases h2 <;> rfl
  have hru := ho.responseUri (by rw [hmode]; cases encrypted; exacts [.inl rfl, .inr rfl])
  refine ⟨s, url, uri, hsid, hst, ?_, hprint, addressOf_beside (by decide) hb2 ha, ?_, ?_⟩
  · refine ⟨by rw [hf.status]; rfl, ho.clientIdField, ?_, ?_, ?_, hmode, ?_, ?_⟩
    · have hq : mget c!"dcql_query" s.requestObject.inner = some pidQuery.toJson := by rw [ho.query, ← hsq]
      show UntypedObject.get DcqlQuery s.requestObject.inner = _
      simp only [UntypedObject.get]
      rw [show TypedParameter.key DcqlQuery = c!"dcql_query" from rfl, hq]
      exact congrArg some pid_read
    · have h1 := hrep.nonce
      rw [HasText, ho.others _ (by decide)] at h1
      have h2 : some (Json.str (unwrapOr drawn nonce)) = some (.str s.requestObject.nonce.val) := h1
      simp only [Option.some.injEq, Json.str.injEq] at h2
      rw [h2]
    · show UntypedObject.get State s.requestObject.inner = none
      simp only [UntypedObject.get]
      rw [show TypedParameter.key State = c!"state" from rfl, ho.others _ (by decide)]
      rfl
    · have h1 := hru.1
      rw [hst.1] at h1
      exact addressOf_beside (by decide) hb1 h1
    · refine ⟨_, by rw [ho.others _ (by decide)]; rfl, ?_⟩
      cases encrypted with
      | false => rfl
      | true => exact .inl ⟨_, rfl, rfl⟩
  · have hu : ep.val = demoUrl := by
      have := (endpoint_get (walletMetadata demoUrl).inner demoUrl).2 ⟨_, demoWallet.2, demoUrl_parse⟩
      rw [show UntypedObject.get AuthorizationEndpoint (walletMetadata demoUrl).inner = some (.ok ep) from hep] at this
      simp only [Option.some.injEq, Except.ok.injEq] at this
      rw [this]
    rw [← hu, hfrom]
    rfl
  · exact (C60_fetch_answer _ _ _ _).2 (.inr (.inr ⟨uuid, s, ⟨hsid, hst.2.1⟩, rfl, rfl⟩))

/-! ## The wallet's side -/

theorem pid_answers {lower : Str → Str} {c : Credential} :
    (∀ q ∈ pidAsked.credentials.vec, Answers lower q c) ↔ IsPid lower c := by
  simp only [pidAsked, List.mem_cons, List.not_mem_nil, or_false, forall_eq, Answers, IsPid, AsksVct]
  constructor
  · rintro ⟨h1, h2, -⟩
    obtain ⟨v, hv, hm⟩ := h2 [.str c!"urn:eudi:pid:1"] rfl
    simp only [List.mem_cons, Json.str.injEq, List.not_mem_nil, or_false] at hm
    rw [hm] at hv
    exact ⟨h1, hv⟩
  · rintro ⟨h1, h2⟩
    refine ⟨h1, ?_, ?_, ?_⟩
    · intro l hl
      simp only [mget, if_true, Option.some.injEq, Json.arr.injEq] at hl
      exact ⟨_, h2, by rw [← hl]; simp⟩
    · intro h
      exact absurd rfl (h [.str c!"urn:eudi:pid:1"])
    · rintro ⟨h, -⟩
      exact absurd rfl (h [.str c!"urn:eudi:pid:1"])

theorem pid_match {lower : Str → Str} {store : List Credential} {c : Credential}
    (h : FirstPid lower store c) : matchQuery lower store pidAsked = .ok [(c!"pid", [c.raw])] := by
  obtain ⟨before, after, h1, h2, h3⟩ := h
  have hall : ∀ c', Answers lower (pidAsked.credentials.vec.head (by simp [pidAsked])) c' ↔ IsPid lower c' := by
    intro c'
    rw [← pid_answers]
    simp [pidAsked]
  have hm : matchCredentialQuery lower store (pidAsked.credentials.vec.head (by simp [pidAsked])) = .ok c :=
    match_ok.2 ⟨before, after, h1, (hall c).2 h2, fun c' hc' h => h3 c' hc' ((hall c').1 h)⟩
  have hm : matchCredentialQuery lower store {
      id := c!"pid", format := .dcSdJwt,
      metaMap := [(c!"vct_values", .arr [.str c!"urn:eudi:pid:1"])],
      claims := none, claimSets := none, trustedAuthorities := none, requireBinding := none,
      multiple := none } = .ok c := hm
  simp only [matchQuery, pidAsked, matchLoop, hm]
  rfl

theorem pidToken_proper (pres : Str) : (pidToken pres).Proper ∧ (pidToken pres).NestedAtMost 125 := by
  simp [pidToken, VpToken.Proper, VpToken.NestedAtMost, Sorted]

theorem presents (h : Holder) (nonce aud raw : Str) (ht : ∀ t, -(2 ^ 63) ≤ h.now t ∧ h.now t < 2 ^ 64) :
    Presents h nonce aud raw (presentation h nonce aud raw) := by
  rcases C55_all_texts h nonce aud raw with ⟨s, hs, rfl⟩ | ⟨h1, h2⟩
  · obtain ⟨kb, h1, h2, h3⟩ := C55_fresh_binding h nonce aud s hs (ht _)
    exact .inr ⟨s, kb, hs, rfl, h2.2.2, h1, h3⟩
  · exact .inl ⟨h1, h2⟩

/-- The wallet has the request object of the session. -/
theorem app_obtained {p : Pki} {rs : List Run} {draw : Draw} {w : Bool} {key : EncKey} {u : Url}
    {encrypted : Bool} {host : Str} {app : App} (hs : Started p rs draw w key u encrypted host app)
    {nonce : Option Str} {uuid : Uuid} {drawn : Str} {σ σ' : Store} {r : Str × Str × Str}
    (h : initiate app nonce uuid drawn σ = (σ', .ok r)) {s : Session} (hget : σ'.get uuid = some s)
    (hk : encrypted = true → (Json.obj key.jwk).WF FltLit ∧ (Json.obj key.jwk).depth ≤ 100)
    {a : Adapter} {prm : Params} {addr : Url}
    (hend : a.endpoint.query = none ∨ a.endpoint.query = some [])
    (hreq : prm.request = none) (huri : prm.requestUri.bind Url.parse = some addr)
    (hfetch : Fetched a.wallet addr s.jwt)
    (hhdr : ∀ ders, a.wallet.ssiHeader (utf8 (jPrint (.obj (x5cMembers c!"ES256" ders)))) =
      .ok (c!"ES256", true)) :
    Obtains a prm s.requestObject := by
  obtain ⟨i, halg, sub, base, hb1, hb2, rfl⟩ := start_app hs
  obtain ⟨url, hb, -⟩ := appInitiate_ok h
  clear h
  change RequestBuilder.buildWithSessionId (appVerifier p i host sub base encrypted key)
    (appBuilder p i host sub base encrypted key (unwrapOr drawn nonce)) uuid _ false σ = _ at hb
  obtain ⟨s', hc, hst⟩ := build_ok hb
  have hss := hst.2.1
  rw [hget] at hss; cases hss
  obtain ⟨o, ps, ind, ep', hp, -, -, ho, hg, -, -, -, -⟩ := construct_ok hc
  obtain ⟨rfl, -, hrep, -⟩ := ofObject_iff.mp ho
  obtain ⟨hwf, hd⟩ := prepare_writable hp (app_writable hk)
  obtain ⟨h1, h2⟩ := x5cGenerate_reads (x := p.x509) halg hg hhdr hwf hd
  have hres : ((described prm).resolve a.wallet).2 = .ok (s.requestObject, some s.jwt) := by
    refine resolve_ok.mpr ⟨?_, ⟨_, h2, ho⟩, ?_⟩
    · simp only [described, hreq, huri]
      exact ⟨_, hfetch, rfl⟩
    · rintro jwt ⟨⟩; exact .inl h1
  refine ⟨described prm, ((described prm).resolve a.wallet).1, some s.jwt,
    C58_request_of_params a.endpoint prm hend, ?_⟩
  rw [← hres]

theorem pidContent_eq (pres : Str) (st : Option Str) :
    Json.obj (encPayload (pidToken pres).toJson st) = pidContent pres st := rfl

theorem pidContent_fine (pres : Str) (st : Option Str) : Fine 3 (pidContent pres st) := by
  have h : Fine 2 (.obj [(c!"pid", .arr [.str pres])]) :=
    fine_mset (m := []) (fine_nil 1) (fine_arr (l := [pres]) (f := .str) fun _ _ => fine_str _ _)
  have h' : Fine 3 (.obj [(c!"vp_token", .obj [(c!"pid", .arr [.str pres])])]) :=
    fine_mset (m := []) (fine_nil 2) h
  cases st with
  | none => exact h'
  | some x => exact fine_mset (k := c!"state") (j := .str x) h' (fine_str _ _)

theorem redirect_ok {a : RequestObject} {host : Str} (h : a.clientId = some ⟨c!"x509_san_dns:" ++ host⟩) :
    redirectCheck a = true := by
  rw [redirectCheck_iff]
  rintro x ⟨c, hc, hv⟩
  rw [h] at hc
  cases hc
  simp at hv

theorem ready_header {a : Adapter} {c : Credential} (hw : ReadyWallet a c) (ders : List Bytes) :
    a.wallet.ssiHeader (utf8 (jPrint (.obj (x5cMembers c!"ES256" ders)))) = .ok (c!"ES256", true) := by
  have := hw.header (ders.map (b64EncPad .std))
  rw [List.map_map] at this
  exact this

theorem noState_echo {a : RequestObject} {prm : Params} (h : a.state = none) : stateToEcho a prm = prm.state := by
  simp only [stateToEcho, h]

/-- **C62** From the example wallet to the example verifier, unencrypted: a wallet with a PID that is
given the request of a session sends one response, to the address of the session, with a presentation
of its first PID bound to the nonce and the client identifier; whatever happened before and whatever
else happens that is not another response, the verifier then reports success with one credential. -/
theorem C62_plain {p : Pki} {rs : List Run} {draw : Draw} {w : Bool} {key : EncKey} {u : Url}
    {host : Str} {app : App} (hs : Started p rs draw w key u false host app)
    {nonce : Option Str} {uuid : Uuid} {drawn : Str} {σ σ' : Store} {sid auth st : Str}
    (h : initiate app nonce uuid drawn σ = (σ', .ok (sid, auth, st)))
    {a : Adapter} {c : Credential} (hw : ReadyWallet a c) {prm : Params} (hp : Refers u uuid sid σ' a prm)
    {ord : MapOrder} (ho : ord.Fair) :
    ∃ pres addr body, Presents a.holder (unwrapOr drawn nonce) (c!"x509_san_dns:" ++ host) c.raw pres ∧
      SessionAddress u c!"response" uuid addr ∧
      posts (a.process ord prm).1 = [⟨c!"POST", addr.print,
        [(c!"content-type", c!"application/x-www-form-urlencoded")], body⟩] ∧
      Carries body (.unencoded ⟨pidToken pres, prm.state.map .mk⟩) ∧
      ∀ pre post, NoneDelivered uuid post → ∃ doc,
        status sid (serve app σ' (pre ++ .respond sid body :: post)) = (200, some doc) ∧
        ReportsPlain doc 1 := by
  obtain ⟨s, -, -, hsid, hst, hpid, -, -, -, hget⟩ := C62_initiate hs h
  obtain ⟨addr, haddr, huri⟩ := hp.uri
  have hob := app_obtained hs h hst.2.1 (by simp) hw.endpoint hp.noRequest huri
    (hp.reached _ _ haddr hget) (ready_header hw)
  obtain ⟨r, tr, jwt, hu, hr⟩ := hob
  have hrp := resolve_posts a.wallet r
  rw [hr] at hrp
  have hmode : s.requestObject.responseMode = .directPost := by rw [hpid.mode]; rfl
  have haud : audience s.requestObject = c!"x509_san_dns:" ++ host := by
    simp only [audience, hpid.clientId]
  have hbody : Carries (utf8 (UnencodedResponse.toForm ord ⟨pidToken (presentation a.holder
      (unwrapOr drawn nonce) (c!"x509_san_dns:" ++ host) c.raw), prm.state.map .mk⟩))
      (.unencoded ⟨pidToken (presentation a.holder
        (unwrapOr drawn nonce) (c!"x509_san_dns:" ++ host) c.raw), prm.state.map .mk⟩) := by
    refine ⟨⟨_, rfl⟩, ?_⟩
    obtain ⟨h1, h2⟩ := pidToken_proper (presentation a.holder (unwrapOr drawn nonce)
      (c!"x509_san_dns:" ++ host) c.raw)
    rw [ofForm_unencoded, ofText_text ho h1 h2]
    rfl
  refine ⟨_, s.requestObject.returnUri, _, presents _ _ _ _ hw.clock, hpid.address, ?_, hbody, ?_⟩
  · simp only [Adapter.process, hu, hr, posts_append, hrp, List.nil_append]
    simp only [Adapter.respond, Adapter.selectCredentials, hpid.query, hw.consent, pid_match hw.pid,
      redirect_ok hpid.clientId, Bool.not_true, Bool.false_eq_true, if_false, hmode, haud,
      noState_echo hpid.state, hpid.nonce]
    exact post_posts _ _ _ _
  · intro pre post hpost
    have hd : Delivers uuid _ (.respond sid _) := ⟨hsid, hbody⟩
    exact C61_plain_reported app _ σ' sid uuid s ⟨hsid, hst.2.1⟩ _ ⟨pre, _, post, rfl, hd, hpost⟩

/-- **C62** (A finding.) A verifier that asks for encrypted responses is content with plain ones: whatever
plain response is the last delivered for the session, it is reported as a success. -/
theorem C62_downgrade {p : Pki} {rs : List Run} {draw : Draw} {w : Bool} {key : EncKey} {u : Url}
    {host : Str} {app : App} (hs : Started p rs draw w key u true host app)
    {nonce : Option Str} {uuid : Uuid} {drawn : Str} {σ σ' : Store} {sid auth st : Str}
    (h : initiate app nonce uuid drawn σ = (σ', .ok (sid, auth, st))) :
    (∃ s, StoredOne σ σ' uuid s ∧ s.requestObject.responseMode = .directPostJwt) ∧
    ∀ r cs, LastDelivered uuid (.unencoded r) cs →
      ∃ doc, status sid (serve app σ' cs) = (200, some doc) ∧ ReportsPlain doc r.vpToken.map.length := by
  obtain ⟨s, -, -, hsid, hst, hpid, -⟩ := C62_initiate hs h
  exact ⟨⟨s, hst, hpid.mode⟩, fun r cs hr => C61_plain_reported app cs σ' sid uuid s ⟨hsid, hst.2.1⟩ r hr⟩

/-- **C62** The same with an encrypted response: the verifier reports exactly what the wallet
encrypted. -/
theorem C62_encrypted {p : Pki} {rs : List Run} {draw : Draw} {w : Bool} {key : EncKey} {u : Url}
    {host : Str} {app : App} (hs : Started p rs draw w key u true host app)
    {nonce : Option Str} {uuid : Uuid} {drawn : Str} {σ σ' : Store} {sid auth st : Str}
    (h : initiate app nonce uuid drawn σ = (σ', .ok (sid, auth, st)))
    {a : Adapter} {c : Credential} (hw : ReadyWallet a c) (hk : KeyWorks key a.jose)
    {prm : Params} (hp : Refers u uuid sid σ' a prm) {ord : MapOrder} :
    ∃ pres addr body jwe, Presents a.holder (unwrapOr drawn nonce) (c!"x509_san_dns:" ++ host) c.raw pres ∧
      SessionAddress u c!"response" uuid addr ∧
      posts (a.process ord prm).1 = [⟨c!"POST", addr.print,
        [(c!"content-type", c!"application/x-www-form-urlencoded")], body⟩] ∧
      Carries body (.jwt jwe) ∧
      ∀ pre post, NoneDelivered uuid post → ∃ doc,
        status sid (serve app σ' (pre ++ .respond sid body :: post)) = (200, some doc) ∧
        ReportsEncrypted doc (pidContent pres prm.state) := by
  obtain ⟨s, -, -, hsid, hst, hpid, -, -, -, hget⟩ := C62_initiate hs h
  obtain ⟨addr, haddr, huri⟩ := hp.uri
  have hob := app_obtained hs h hst.2.1 (fun _ => hk.proper) hw.endpoint hp.noRequest huri
    (hp.reached _ _ haddr hget) (ready_header hw)
  obtain ⟨r, tr, jwt, hu, hr⟩ := hob
  have hrp := resolve_posts a.wallet r
  rw [hr] at hrp
  have hmode : s.requestObject.responseMode = .directPostJwt := by rw [hpid.mode]; rfl
  have haud : audience s.requestObject = c!"x509_san_dns:" ++ host := by
    simp only [audience, hpid.clientId]
  obtain ⟨cm, hcm, hkeys⟩ := hpid.keys
  simp only [if_true] at hkeys
  have hpub : Fine 100 (.obj (publishedJwk key.jwk)) := publishedJwk_fine (n := 99) hk.proper
  have hprop : ProperKey (publishedJwk key.jwk) := ⟨hpub.1, Nat.le_trans hpub.2 (by decide)⟩
  have hsuit : SuitableKey (publishedJwk key.jwk) := by
    refine ⟨?_, ?_, ?_⟩
    · rw [Says, publishedJwk, mget_mset_ne (by decide), mget_mset_self]
    · rw [Says, publishedJwk, mget_mset_ne (by decide), mget_mset_ne (by decide), mget_mset_ne (by decide),
        hk.curve]
    · intro t ht
      rw [Says, publishedJwk, mget_mset_ne (by decide), mget_mset_ne (by decide), mget_mset_self] at ht
      simp only [Option.some.injEq, Json.str.injEq] at ht
      exact ht.symm
  have hfirst : FirstWith SuitableKey [publishedJwk key.jwk] (publishedJwk key.jwk) :=
    ⟨[], [], rfl, hsuit, by simp⟩
  have honly : ∀ k, FirstWith SuitableKey [publishedJwk key.jwk] k → ProperKey k := by
    rintro k ⟨b, r, h1, -, -⟩
    have : k ∈ [publishedJwk key.jwk] := by rw [h1]; simp
    simp only [List.mem_cons, List.not_mem_nil, or_false] at this
    rw [this]; exact hprop
  obtain ⟨hres, hjwks⟩ := resolve_keys (cm := ⟨cm⟩).mpr ⟨hcm, hkeys⟩
  have hmeta : s.requestObject.clientMetadata = .ok ⟨cm⟩ := by
    simp only [ClientMetadata.resolve] at hres
    simp only [RequestObject.clientMetadata]
    cases hg : UntypedObject.get ClientMetadata s.requestObject.inner with
    | none =>
      simp only [UntypedObject.get] at hg
      rw [show TypedParameter.key ClientMetadata = c!"client_metadata" from rfl, hcm] at hg
      cases hg
    | some x => rw [hg] at hres; exact hres
  have hfind : findEncryptionJwk a.jose [publishedJwk key.jwk] =
      .ok ⟨publishedJwk key.jwk, c!"ECDH-ES", kidOf (publishedJwk key.jwk)⟩ :=
    (C38_first_suitable a.jose _ honly _).mpr ⟨_, hfirst, hk.accepted, rfl, rfl, rfl⟩
  have hjose : joseJwk a.jose (publishedJwk key.jwk) = .ok (publishedJwk key.jwk) :=
    (joseJwk_ok hprop).mpr ⟨hk.accepted, rfl⟩
  generalize hpres : presentation a.holder (unwrapOr drawn nonce) (c!"x509_san_dns:" ++ host) c.raw = pres
  obtain ⟨jwe, henc, hdec⟩ := hk.works (encPayload (pidToken pres).toJson prm.state)
  have hkid : kidOf (publishedJwk key.jwk) = some c!"enc-key-1" := by
    rw [kidOf, publishedJwk, mget_mset_self]
  have hbuild : JweBuilder.build a.jose {
      payload := some (responsePayload (pidToken pres) (prm.state.map .mk))
      recipientKey := some (publishedJwk key.jwk)
      alg := some c!"ECDH-ES"
      enc := none
      kid := kidOf (publishedJwk key.jwk) } = .ok jwe := by
    have hst' : (prm.state.map State.mk).map State.val = prm.state := by cases prm.state <;> rfl
    have hcl : (encPayload (pidToken pres).toJson prm.state).all (fun q => a.jose.claimOk q.1 q.2) = true := by
      cases prm.state with
      | none => simp [encPayload, (hk.claims (pidToken pres).toJson .null).1]
      | some x => simp [encPayload, (hk.claims (pidToken pres).toJson (.str x)).1,
          (hk.claims (pidToken pres).toJson (.str x)).2]
    simp only [JweBuilder.build, payload_eq, hst', hcl, if_true, unwrapOr, ecdhEs, ne_eq, not_true_eq_false,
      if_false, hkid]
    exact henc
  have hbody : Carries (utf8 (jwtToForm jwe)) (.jwt jwe) := ⟨⟨_, rfl⟩, ofForm_jwt jwe⟩
  refine ⟨pres, s.requestObject.returnUri, _, jwe, hpres ▸ presents _ _ _ _ hw.clock, hpid.address, ?_,
    hbody, ?_⟩
  · simp only [Adapter.process, hu, hr, posts_append, hrp, List.nil_append]
    simp only [Adapter.respond, Adapter.selectCredentials, hpid.query, hw.consent, pid_match hw.pid,
      redirect_ok hpid.clientId, Bool.not_true, Bool.false_eq_true, if_false, hmode, haud,
      noState_echo hpid.state, hpid.nonce, Adapter.postJwt, verifierKey, hmeta, parsingError_ok.mpr hjwks, hfind, hjose]
    have htok : buildVpToken a.holder [(c!"pid", [c.raw])] (unwrapOr drawn nonce)
        (c!"x509_san_dns:" ++ host) = pidToken pres := by rw [← hpres]; rfl
    rw [htok, hbuild]
    exact post_posts _ _ _ _
  · intro pre post hpost
    obtain ⟨doc, h1, h2, -⟩ := C61_encrypted_reported app (pre ++ .respond sid (utf8 (jwtToForm jwe)) :: post)
      σ' sid uuid s ⟨hsid, hst.2.1⟩ jwe ⟨pre, _, post, rfl, ⟨hsid, hbody⟩, hpost⟩
    have hf := pidContent_fine pres prm.state
    refine ⟨doc, h1, h2 (utf8 (jPrint (pidContent pres prm.state))) _ ?_ ?_⟩
    · obtain ⟨i, -, sub, base, -, -, rfl⟩ := start_app hs
      exact hdec
    · exact jParseBytes_jPrint (Nat.le_trans hf.2 (by decide)) hf.1

/-- **C62** (a finding) The query kept in the session is not the query that its own request object
contains: the format it names as unknown is a known one. -/
theorem C62_stored_query_differs {p : Pki} {rs : List Run} {draw : Draw} {w : Bool} {key : EncKey} {u : Url}
    {encrypted : Bool} {host : Str} {app : App} (hs : Started p rs draw w key u encrypted host app)
    {nonce : Option Str} {uuid : Uuid} {drawn : Str} {σ σ' : Store} {sid auth st : Str}
    (h : initiate app nonce uuid drawn σ = (σ', .ok (sid, auth, st))) :
    ∃ s q, σ'.get uuid = some s ∧ s.requestObject.dcqlQuery = some (.ok q) ∧ q ≠ s.dcqlQuery := by
  obtain ⟨s, -, -, -, hst, hpid, -⟩ := C62_initiate hs h
  refine ⟨s, pidAsked, hst.2.1, hpid.query, ?_⟩
  obtain ⟨i, -, sub, base, hb1, -, rfl⟩ := start_app hs
  obtain ⟨url, hb, -⟩ := appInitiate_ok h
  obtain ⟨s', hs', hsq, -⟩ := C24_own_values_win _ _ _ _ _ _ _ _
    (app_subWf hs.address hs.host response_seg hb1) hb
  rw [hst.2.1] at hs'; cases hs'
  have hq : some pidQuery = some s.dcqlQuery := hsq
  simp only [Option.some.injEq] at hq
  rw [← hq]
  decide

/-- **C62** (a finding) With a public address whose path ends in `/`, as that of a host alone does, the
status address has an empty path segment. -/
theorem C62_status_address {p : Pki} {rs : List Run} {draw : Draw} {w : Bool} {key : EncKey} {u : Url}
    {encrypted : Bool} {host : Str} {app : App} (hs : Started p rs draw w key u encrypted host app)
    {nonce : Option Str} {uuid : Uuid} {drawn : Str} {σ σ' : Store} {sid auth st : Str}
    (h : initiate app nonce uuid drawn σ = (σ', .ok (sid, auth, st)))
    {x : Str} (hp : u.path = x ++ ['/']) (hq : u.query = none) (hf : u.fragment = none) :
    ∃ y, st = y ++ (c!"//status/" ++ uuid.print) := by
  obtain ⟨i, -, sub, base, -, -, rfl⟩ := start_app hs
  obtain ⟨url, -, hr⟩ := appInitiate_ok h
  simp only [Prod.mk.injEq] at hr
  rw [hr.2.2]
  refine ⟨u.scheme ++ ':' :: (authText u.authority ++ x), ?_⟩
  have hg : ∀ t : Str, guardText u.authority t = [] := by
    intro t
    cases ha : u.authority with
    | none => exact absurd ha (host_authority hs.host)
    | some a => cases t <;> rfl
  simp only [Url.print, hp, hq, hf, optText, hg]
  simp

/-! ## A whole flow -/

/-- A public address. -/
def flowUrl : Url := ⟨c!"https", some c!"a.b", c!"/", none, none⟩

/-- A key pair for a toy encryption, which encodes only. -/
def flowKey : EncKey where
  jwk := [(c!"crv", .str c!"P-256"), (c!"kty", .str c!"EC")]
  decrypt := fun jwe => .ok (utf8 jwe)

/-- The verifier, started. -/
theorem flowStarted (encrypted : Bool) :
    ∃ app, Started cachePki [] (cacheDraw 9) true flowKey flowUrl encrypted c!"a.b" app := by
  have hn : ∀ r ∈ ([] : List Run) ++ [⟨c!"a.b", cacheDraw 9, true⟩], DrawsName cachePki r := by
    intro r hr
    simp only [List.nil_append, List.mem_cons, List.not_mem_nil, or_false] at hr
    subst hr
    rintro der pkcs8 c ⟨⟩ ⟨⟩
    rfl
  have hstart : ∃ app, (start cachePki (cacheDraw 9) true flowKey flowUrl encrypted
      (runs cachePki [] []).1).2 = .ok app := by
    cases encrypted <;> exact ⟨_, rfl⟩
  obtain ⟨app, happ⟩ := hstart
  refine ⟨app, fun c => ⟨_, rfl, rfl⟩, hn, ?_, ?_, ?_, happ⟩
  · intro b s hb
    simp only [cachePki] at hb
    split at hb
    · cases hb; rfl
    · cases hb
  · exact Url.parse_wf (s := c!"https://a.b/") (by decide)
  · exact ⟨[], [], rfl, by decide, by decide, by decide, .inl rfl, .inl rfl, .inl (by decide)⟩

/-- A PID: an SD-JWT with one disclosure. -/
def flowPid : Credential :=
  ⟨c!"1", .dcSdJwt, some c!"urn:eudi:pid:1", none, c!"jwt~disclosure~", []⟩

/-- A wallet with another credential and the PID, whose HTTP client reaches the verifier. -/
def flowWallet (jwt : Str) : Adapter where
  wallet := e2eWallet jwt
  endpoint := ⟨c!"https", some c!"wallet", c!"/authorize", none, none⟩
  consent := true
  store := [{ flowPid with vct := some c!"other" }, flowPid]
  lower := id
  holder := toyHolder
  jose := ⟨fun _ => true, fun _ _ => true, fun _ _ m => .ok (jPrint (.obj m))⟩
  text := fun r => some (utf8Lossy r.body)

theorem flowReady (jwt : Str) : ReadyWallet (flowWallet jwt) flowPid := by
  refine ⟨rfl, ⟨[{ flowPid with vct := some c!"other" }], [], rfl, ⟨.inl rfl, rfl⟩, ?_⟩,
    fun _ => ⟨(by decide : -(2 ^ 63) ≤ (1700000000 : Int)), (by decide : (1700000000 : Int) < 2 ^ 64)⟩,
    fun _ => rfl, .inl rfl⟩
  intro c' hc'
  simp only [List.mem_cons, List.not_mem_nil, or_false] at hc'
  subst hc'
  rintro ⟨-, h⟩
  revert h
  decide

theorem flowKeyWorks (jwt : Str) : KeyWorks flowKey (flowWallet jwt).jose where
  proper := by
    have h : Fine 100 (.obj flowKey.jwk) :=
      fine_mset (k := c!"crv") (m := [(c!"kty", .str c!"EC")]) (fine_mset (m := []) (fine_nil 99) (fine_str _ _))
        (fine_str _ _)
    exact h
  curve := rfl
  accepted := rfl
  claims := fun _ _ => ⟨rfl, rfl⟩
  works := fun _ => ⟨_, rfl, rfl⟩

/-- The parameters the wallet gets. -/
def flowParams (id : Uuid) : Params where
  clientId := some c!"x509_san_dns:a.b"
  requestUri := some (Url.print { flowUrl with path := c!"/request/" ++ id.print })
  state := some c!"xyz"

theorem flowRefers {σ : Store} {sid jwt : Str} (h : (getRequest sid σ).2 = (200, some jwt)) :
    Refers flowUrl (buildId 5) sid σ (flowWallet jwt) (flowParams (buildId 5)) := by
  refine ⟨rfl, ⟨{ flowUrl with path := c!"/request/" ++ (buildId 5).print }, ⟨[], [], .inl rfl, by decide, rfl⟩,
    by decide +kernel⟩, ?_⟩
  intro addr jwt' _ h'
  rw [h] at h'
  simp only [Prod.mk.injEq, Option.some.injEq, true_and] at h'
  subst h'
  exact ⟨⟨200, utf8 jwt⟩, rfl, (by decide : 200 ≤ 200), (by decide : 200 < 300), utf8Dec_utf8 _, rfl⟩

/-- The whole flow without encryption: one POST, and success with one credential. -/
example (ord : MapOrder) (ho : ord.Fair) : ∃ app σ sid auth st jwt body addr doc,
    Started cachePki [] (cacheDraw 9) true flowKey flowUrl false c!"a.b" app ∧
    initiate app (some c!"n-1") (buildId 5) c!"drawn" [] = (σ, .ok (sid, auth, st)) ∧
    posts ((flowWallet jwt).process ord (flowParams (buildId 5))).1 = [⟨c!"POST", addr,
      [(c!"content-type", c!"application/x-www-form-urlencoded")], body⟩] ∧
    status sid (serve app σ [.fetch sid, .respond sid body, .status sid]) = (200, some doc) ∧
    ReportsPlain doc 1 := by
  obtain ⟨app, hs⟩ := flowStarted false
  obtain ⟨⟨sid, auth, st⟩, h⟩ := C62_initiate_succeeds hs (some c!"n-1") (buildId 5) c!"drawn" []
  have h' : initiate app (some c!"n-1") (buildId 5) c!"drawn" [] =
    ((initiate app (some c!"n-1") (buildId 5) c!"drawn" []).1, .ok (sid, auth, st)) := by rw [← h]
  obtain ⟨s, -, -, -, -, -, -, -, -, hget⟩ := C62_initiate hs h'
  obtain ⟨pres, addr, body, -, -, h1, -, h2⟩ := C62_plain hs h' (flowReady s.jwt) (flowRefers hget) ho
  obtain ⟨doc, h3, h4⟩ := h2 [.fetch sid] [.status sid] (by
    intro c hc r
    simp only [List.mem_cons, List.not_mem_nil, or_false] at hc
    subst hc
    exact id)
  exact ⟨app, _, sid, auth, st, s.jwt, body, _, doc, hs, h', h1, h3, h4⟩

/-- The whole flow with encryption. -/
example (ord : MapOrder) : ∃ app σ sid auth st jwt body addr doc pres,
    Started cachePki [] (cacheDraw 9) true flowKey flowUrl true c!"a.b" app ∧
    initiate app none (buildId 5) c!"drawn" [] = (σ, .ok (sid, auth, st)) ∧
    posts ((flowWallet jwt).process ord (flowParams (buildId 5))).1 = [⟨c!"POST", addr,
      [(c!"content-type", c!"application/x-www-form-urlencoded")], body⟩] ∧
    Presents toyHolder c!"drawn" c!"x509_san_dns:a.b" c!"jwt~disclosure~" pres ∧
    status sid (serve app σ [.fetch sid, .respond sid body]) = (200, some doc) ∧
    ReportsEncrypted doc (pidContent pres (some c!"xyz")) := by
  obtain ⟨app, hs⟩ := flowStarted true
  obtain ⟨⟨sid, auth, st⟩, h⟩ := C62_initiate_succeeds hs none (buildId 5) c!"drawn" []
  have h' : initiate app none (buildId 5) c!"drawn" [] =
    ((initiate app none (buildId 5) c!"drawn" []).1, .ok (sid, auth, st)) := by rw [← h]
  obtain ⟨s, -, -, -, -, -, -, -, -, hget⟩ := C62_initiate hs h'
  obtain ⟨pres, addr, body, jwe, hpres, -, h1, -, h2⟩ :=
    C62_encrypted (ord := ord) hs h' (flowReady s.jwt) (flowKeyWorks s.jwt) (flowRefers hget)
  obtain ⟨doc, h3, h4⟩ := h2 [.fetch sid] [] (by simp [NoneDelivered])
  exact ⟨app, _, sid, auth, st, s.jwt, body, _, doc, pres, hs, h', h1, hpres, h3, h4⟩

end Oid4vp
