import Verif.Props.Cli
import Verif.Props.EndToEnd
import Verif.Props.Endpoint
import Verif.Props.Routes
import Verif.Spec.CliFlow
/-!
# C65: the request of the command-line verifier
-/

set_option autoImplicit false

namespace Oid4vp
open Spec Cli

theorem setPath_cases (p : Url) (x : Str) :
    (HasPath p ∧ setPath x p = { p with path := x }) ∨ (¬HasPath p ∧ setPath x p = p) := by
  obtain ⟨sch, auth, path, q, f⟩ := p
  cases auth with
  | some a => exact .inl ⟨.inl (Option.some_ne_none a), rfl⟩
  | none =>
    cases path with
    | nil =>
      refine .inr ⟨?_, rfl⟩
      rintro (h | ⟨_, h⟩)
      · exact h rfl
      · cases h
    | cons c cs =>
      by_cases hc : c = '/'
      · subst hc; exact .inl ⟨.inr ⟨cs, rfl⟩, rfl⟩
      · refine .inr ⟨?_, ?_⟩
        · rintro (h | ⟨_, h⟩)
          · exact h rfl
          · simp only [List.cons.injEq] at h; exact hc h.1
        · unfold setPath
          split
          · rename_i h
            simp only [List.cons.injEq] at h; exact absurd h.1 hc
          · rfl
          · rename_i h; cases h

theorem setPath_at {p : Url} (h : HasPath p) (x : Str) : setPath x p = { p with path := x } := by
  rcases setPath_cases p x with h' | h'
  · exact h'.2
  · exact absurd h h'.1

theorem setPath_hasPath {p : Url} {c : Str} : HasPath (setPath ('/' :: c) p) ↔ HasPath p := by
  rcases setPath_cases p ('/' :: c) with ⟨h, he⟩ | ⟨h, he⟩ <;> rw [he]
  exact ⟨fun _ => h, fun _ => .inr ⟨c, rfl⟩⟩

theorem setPath_wf {p : Url} {x : Str} (h : p.WF) (hx : ∀ sp, hierPath sp x = '/' :: x) :
    (setPath ('/' :: x) p).WF := by
  rcases setPath_cases p ('/' :: x) with ⟨hp, he⟩ | ⟨hp, he⟩ <;> rw [he]
  · exact h.withPath (hx _)
  · exact h

/-- The program's verifier. -/
def cliVerifier (p : Url) : Verifier :=
  ⟨redirectUriClient (responseUri p),
    [(c!"response_mode", .str c!"direct_post"), (c!"response_type", .str c!"vp_token")],
    .at (setPath c!"/request" p), responseUri p⟩

theorem verifier_ok (p : Url) : verifier p = .ok (cliVerifier p) := rfl

theorem cliParams (p : Url) (q : DcqlQuery) (nonce : Str) (types : List Str) :
    requestBuilder (cliVerifier p) q nonce types = ⟨some q,
      [(c!"client_metadata", .obj (clientMetadata types).val), (c!"nonce", .str nonce),
        (c!"response_mode", .str c!"direct_post"), (c!"response_type", .str c!"vp_token")]⟩ := rfl

theorem start_ok {p : Url} {types : List Str} {uuid : Uuid} {nonce : Str} {v : Verifier} {σ : Store} {url : Url} :
    start p types uuid nonce = .ok (v, σ, url) ↔ v = cliVerifier p ∧ ∃ wm q d, walletMetadata = .ok wm ∧
      dcqlForTypes types = .ok (q, d) ∧
      (requestBuilder (cliVerifier p) q nonce types).buildWithSessionId (cliVerifier p) uuid wm false [] =
        (σ, .ok url) := by
  simp only [start, verifier_ok]
  cases hw : walletMetadata with
  | error e => simp
  | ok wm =>
    cases hq : dcqlForTypes types with
    | error e => simp
    | ok qd =>
      obtain ⟨q, d⟩ := qd
      simp only [Except.ok.injEq, Prod.mk.injEq]
      rcases hb : (requestBuilder (cliVerifier p) q nonce types).buildWithSessionId (cliVerifier p) uuid wm
        false [] with ⟨σ', e | url'⟩
      · simp only [reduceCtorEq, false_iff, not_and, not_exists]
        rintro rfl wm' q' d' rfl ⟨rfl, rfl⟩
        rw [hb]; simp
      · simp only [Except.ok.injEq, Prod.mk.injEq]
        constructor
        · rintro ⟨rfl, rfl, rfl⟩; exact ⟨rfl, _, _, _, rfl, ⟨rfl, rfl⟩, hb⟩
        · rintro ⟨rfl, _, _, _, rfl, ⟨rfl, rfl⟩, h⟩
          rw [hb] at h
          simp only [Prod.mk.injEq, Except.ok.injEq] at h
          exact ⟨rfl, h.1, h.2⟩

theorem responseUri_wf {p : Url} (h : p.WF) : (responseUri p).WF :=
  setPath_wf h (by decide)

/-- The address of the assumed wallet. -/
def openid4vpUrl : Url := ⟨c!"openid4vp", some [], [], none, none⟩

theorem cliWallet : ∃ wm, walletMetadata = .ok wm ∧ SupportsPrefix wm.inner c!"redirect_uri" ∧
    (HasText wm.inner c!"authorization_endpoint" c!"openid4vp://" ∧
      Url.parse c!"openid4vp://" = some openid4vpUrl) := by
  refine ⟨_, rfl, .inr ⟨[c!"redirect_uri"], ?_, by simp⟩, ?_, by decide +kernel⟩
  · decide +kernel
  · show mget _ _ = _
    decide +kernel

/-- **C65** With a well-formed public address, the program shows a request exactly if addresses can be
made below the public address, at least one type is given and all types are known. -/
theorem C65_start_iff (p : Url) (types : List Str) (uuid : Uuid) (nonce : Str) (hp : p.WF) :
    (∃ r, start p types uuid nonce = .ok r) ↔ HasPath p ∧ types ≠ [] ∧ ∀ t ∈ types, KnownType t := by
  obtain ⟨wm, hwm, hpre, hep⟩ := cliWallet
  have hcl : ∀ a, ∃ jwt, (cliVerifier p).client.generate a = .ok jwt := fun a => ⟨_, rfl⟩
  have hsub : (cliVerifier p).submissionEndpoint.WF := responseUri_wf hp
  constructor
  · rintro ⟨⟨v, σ, url⟩, h⟩
    obtain ⟨-, wm', q, d, hwm', hq, hb⟩ := start_ok.1 h
    have hB := ((C23_succeeds_iff (cliVerifier p) (requestBuilder (cliVerifier p) q nonce types) uuid wm' false []
      hsub hcl).1 ⟨url, by rw [hb]⟩).2
    refine ⟨?_, (C63_succeeds_iff types).1 ⟨_, hq⟩⟩
    exact setPath_hasPath.1 (hB.reference _ rfl)
  · rintro ⟨h1, h2⟩
    obtain ⟨⟨q, d⟩, hq⟩ := (C63_succeeds_iff types).2 h2
    have hB : Buildable (cliVerifier p) (requestBuilder (cliVerifier p) q nonce types) wm := by
      rw [cliParams]
      refine ⟨by simp, ⟨?_, ⟨_, rfl⟩, ⟨nonce, rfl⟩, ⟨_, .directPost, rfl, ?_, .inl ⟨.inl rfl, ?_⟩⟩⟩, ?_, ?_, ?_⟩
      · show mget c!"redirect_uri" _ = none
        rfl
      · exact .directPost
      · exact setPath_hasPath.2 h1
      · exact hpre
      · rintro base ⟨⟩
        exact setPath_hasPath.2 h1
      · exact ⟨_, _, hep⟩
    obtain ⟨url, hurl⟩ := (C23_succeeds_iff (cliVerifier p) (requestBuilder (cliVerifier p) q nonce types) uuid wm
      false [] hsub hcl).2 ⟨rfl, hB⟩
    refine ⟨(cliVerifier p, ((requestBuilder (cliVerifier p) q nonce types).buildWithSessionId (cliVerifier p) uuid wm
      false []).1, url), start_ok.2 ⟨rfl, wm, q, d, hwm, hq, ?_⟩⟩
    rw [← hurl]

theorem addressOf_path {p u : Url} {x : Str} {id : Uuid} (hx : x ≠ ['/'])
    (h : AddressOf { p with path := x } id u) : u = { p with path := x ++ '/' :: id.print } := by
  rcases h with h | ⟨h, -⟩
  · exact h
  · exact absurd h hx

/-- The header of the request objects. -/
def cliHeader : List (Str × Json) := [(c!"alg", .str c!"none"), (c!"typ", .str c!"oauth-authz-req+jwt")]

/-- **C65** What is shown and stored: one session, sent by reference, whose request object has the
client identifier `redirect_uri:` followed by the response address, the given nonce, the query for the
types and the metadata for them, response mode `direct_post`, response type `vp_token`, a response
address for the session below the public address, and no other parameter. The JWT is the request
object with an empty signature. The URL shown refers to the session, and fetching the request there
gives the JWT. -/
theorem C65_request (p : Url) (types : List Str) (uuid : Uuid) (nonce : Str) (v : Verifier) (σ : Store)
    (url : Url) (hp : p.WF) (h : start p types uuid nonce = .ok (v, σ, url)) :
    ∃ s q d, StoredOne [] σ uuid s ∧ s.status = .sentRequestByReference ∧ s.dcqlQuery = q ∧
      dcqlForTypes types = .ok (q, d) ∧
      mget c!"client_id" s.requestObject.inner =
        some (.str (c!"redirect_uri:" ++ Url.print { p with path := c!"/response" })) ∧
      s.requestObject.returnUri = { p with path := c!"/response/" ++ uuid.print } ∧
      mget c!"response_uri" s.requestObject.inner = some (.str s.requestObject.returnUri.print) ∧
      mget c!"dcql_query" s.requestObject.inner = some q.toJson ∧
      mget c!"nonce" s.requestObject.inner = some (.str nonce) ∧
      mget c!"client_metadata" s.requestObject.inner = some (.obj (clientMetadata types).val) ∧
      mget c!"response_mode" s.requestObject.inner = some (.str c!"direct_post") ∧
      mget c!"response_type" s.requestObject.inner = some (.str c!"vp_token") ∧
      (∀ k, mget k s.requestObject.inner ≠ none → k ∈ [c!"client_id", c!"response_uri", c!"dcql_query",
        c!"nonce", c!"client_metadata", c!"response_mode", c!"response_type"]) ∧
      s.jwt = compactJws cliHeader s.requestObject.toObject [] ∧
      AuthorizationRequest.fromUrl url openid4vpUrl =
        .ok ⟨some (c!"redirect_uri:" ++ Url.print { p with path := c!"/response" }),
          .byReference { p with path := c!"/request/" ++ uuid.print }⟩ ∧
      (retrieve uuid σ).2 = .ok s.jwt := by
  have hpath := ((C65_start_iff p types uuid nonce hp).1 ⟨_, h⟩).1
  obtain ⟨rfl, wm, q, d, hwm, hq, hb⟩ := start_ok.1 h
  have hsub : (cliVerifier p).submissionEndpoint.WF := responseUri_wf hp
  have href : ∀ base, (cliVerifier p).passByReference = .at base → base.WF := by
    rintro base ⟨⟩; exact setPath_wf hp (by decide)
  obtain ⟨s, hs, hf⟩ := C23_build_stores_one _ _ _ _ _ _ _ _ hb
  obtain ⟨s', hs', hsq, ho⟩ := C24_own_values_win _ _ _ _ _ _ _ _ hsub hb
  rw [hs.2.1] at hs'; cases hs'
  obtain ⟨s', ep, hs', hep, -, -, hr⟩ := C25_url_refers_to_session _ _ _ _ _ _ _ _ href hb
  rw [hs.2.1] at hs'; cases hs'
  obtain ⟨uri, ha, -, hfrom, hret⟩ := hr _ rfl
  have hslash : ∀ x : Str, c!"/response/" ++ x = c!"/response" ++ '/' :: x := fun _ => rfl
  have hslash' : ∀ x : Str, c!"/request/" ++ x = c!"/request" ++ '/' :: x := fun _ => rfl
  have hresp : responseUri p = { p with path := c!"/response" } := setPath_at hpath _
  rw [cliParams] at hsq ho
  simp only [Option.some.injEq] at hsq
  have hmode : s.requestObject.responseMode = .directPost := by
    obtain ⟨-, -, hrep, -⟩ := ofObject_iff.mp hf.object
    rcases hrep.mode with ⟨h1, -⟩ | ⟨t, h1, h2⟩
    · rw [Absent, ho.others _ (by decide)] at h1; cases h1
    · rw [HasText, ho.others _ (by decide)] at h1
      cases h1
      generalize s.requestObject.responseMode = m at h2
      cases h2; rfl
  have hru := ho.responseUri (.inl hmode)
  refine ⟨s, q, d, hs, by rw [hf.status]; rfl, hsq.symm, hq, ?_, ?_, hru.2, ?_, ?_, ?_, ?_, ?_, ?_, ?_, ?_, hret⟩
  · rw [ho.clientId, ← hresp]; rfl
  · have := hru.1
    rw [hs.1] at this
    rw [show (cliVerifier p).submissionEndpoint = { p with path := c!"/response" } from hresp] at this
    rw [addressOf_path (by decide) this, ← hslash]
  · rw [ho.query, hsq]
  · rw [ho.others _ (by decide)]; rfl
  · rw [ho.others _ (by decide)]; rfl
  · rw [ho.others _ (by decide)]; rfl
  · rw [ho.others _ (by decide)]; rfl
  · intro k hk
    by_cases hown : k ∈ ownKeys
    · simp only [ownKeys, List.mem_cons, List.not_mem_nil, or_false] at hown
      rcases hown with rfl | rfl | rfl <;> simp
    · rw [ho.others _ hown] at hk
      cases hm : mget k (_ : UntypedObject) with
      | none => exact absurd hm hk
      | some j =>
        have := mem_of_mget hm
        simp only [List.mem_cons, Prod.mk.injEq, List.not_mem_nil, or_false] at this
        rcases this with ⟨rfl, -⟩ | ⟨rfl, -⟩ | ⟨rfl, -⟩ | ⟨rfl, -⟩ <;> simp
  · have := hf.signed
    simp only [cliVerifier, redirectUriClient, Except.ok.injEq] at this
    rw [← this]; rfl
  · have hu : ep.val = openid4vpUrl := by
      obtain ⟨wm', hwm', -, h1, h2⟩ := cliWallet
      rw [hwm] at hwm'; cases hwm'
      have := (endpoint_get wm.inner openid4vpUrl).2 ⟨_, h1, h2⟩
      rw [hep] at this
      simp only [Option.some.injEq, Except.ok.injEq] at this
      rw [this]
    rw [setPath_at hpath] at ha
    rw [addressOf_path (by decide) ha, hu, ← hslash'] at hfrom
    rw [hfrom, ← hresp]
    rfl

/-! ## The wallet's side -/

theorem fine_mofList {n : Nat} {l : List (Str × Json)} (h : ∀ e ∈ l, Fine n e.2) :
    Fine (n + 1) (.obj (mofList l)) := by
  have key : ∀ (l m : List (Str × Json)), (∀ e ∈ l, Fine n e.2) → Fine (n + 1) (.obj m) →
      Fine (n + 1) (.obj (l.foldl (fun m e => mset e.1 e.2 m) m)) := by
    intro l
    induction l with
    | nil => intro m _ hm; exact hm
    | cons e l ih =>
      intro m hl hm
      exact ih _ (fun x hx => hl x (List.mem_cons_of_mem _ hx)) (fine_mset hm (hl e List.mem_cons_self))
  exact key l [] h (fine_nil n)

theorem fine_formats {n : Nat} {m : ClaimFormatMap} (h : ∀ e ∈ m, Fine n e.2.toJson) :
    Fine (n + 1) m.toJson := by
  refine fine_mofList ?_
  intro e he
  obtain ⟨x, hx, rfl⟩ := List.mem_map.mp he
  exact h x hx

theorem mem_formats_insert {d : ClaimFormatDesignation} {p : ClaimFormatPayload} {m : ClaimFormatMap}
    {e : ClaimFormatDesignation × ClaimFormatPayload} (h : e ∈ m.insert d p) : e = (d, p) ∨ e ∈ m := by
  induction m with
  | nil => simpa [ClaimFormatMap.insert] using h
  | cons x m ih =>
    obtain ⟨d', p'⟩ := x
    simp only [ClaimFormatMap.insert] at h
    split at h
    · rcases List.mem_cons.mp h with h | h
      · exact .inl h
      · exact .inr (List.mem_cons_of_mem _ h)
    · rcases List.mem_cons.mp h with h | h
      · exact .inr (by rw [h]; exact List.mem_cons_self)
      · rcases ih h with h | h
        · exact .inl h
        · exact .inr (List.mem_cons_of_mem _ h)

theorem fine_formatsFor (types : List Str) : ∀ e ∈ formatsFor types, Fine 2 e.2.toJson := by
  have hins : ∀ (d : ClaimFormatDesignation) (p : ClaimFormatPayload) (m : ClaimFormatMap),
      (∀ e ∈ m, Fine 2 e.2.toJson) → Fine 2 p.toJson → ∀ e ∈ m.insert d p, Fine 2 e.2.toJson := by
    intro d p m hm hp e he
    rcases mem_formats_insert he with rfl | h
    · exact hp
    · exact hm e h
  have hone : ∀ (k : Str) (l : List Str), Fine 2 (.obj [(k, strsToJson l)]) := fun k l =>
    fine_mset (m := []) (k := k) (fine_nil 1) fine_strs
  have h0 : Fine 2 (ClaimFormatPayload.toJson (.other (.obj []))) := fine_nil 1
  have h1 : Fine 2 (ClaimFormatPayload.toJson (.proofTypeValues ldpProofTypes)) := hone _ _
  have hstep : ∀ (t : Str) (m : ClaimFormatMap), (∀ e ∈ m, Fine 2 e.2.toJson) →
      ∀ e ∈ addFormats t m, Fine 2 e.2.toJson := by
    intro t m hm
    unfold addFormats
    split
    · exact hins _ _ _ hm h0
    · split
      · exact hins _ _ _ hm h1
      · split
        · exact hins _ _ _ hm (hone _ _)
        · split
          · exact hins _ _ _ hm (hone _ _)
          · split
            · exact hins _ _ _ (hins _ _ _ hm h0) h1
            · exact hm
  have key : ∀ (ts : List Str) (m : ClaimFormatMap), (∀ e ∈ m, Fine 2 e.2.toJson) →
      ∀ e ∈ ts.foldl (fun m t => addFormats t m) m, Fine 2 e.2.toJson := by
    intro ts
    induction ts with
    | nil => intro m hm; exact hm
    | cons t ts ih => intro m hm; exact ih _ (hstep t m hm)
  exact key types [] (by simp)

theorem cli_writable {p : Url} {q : DcqlQuery} {d nonce : Str} {types : List Str}
    (hq : dcqlForTypes types = .ok (q, d)) : Writable (requestBuilder (cliVerifier p) q nonce types) := by
  have hcm : Fine 4 (.obj (clientMetadata types).val) :=
    fine_mset (fine_nil 3) (fine_formats (fine_formatsFor types))
  have hall : Fine 5 (.obj (requestBuilder (cliVerifier p) q nonce types).params) := by
    show Fine 5 (.obj (mset c!"client_metadata" (.obj (clientMetadata types).val)
      (mset c!"nonce" (.str nonce) (mset c!"response_mode" (.str c!"direct_post")
        (mset c!"response_type" (.str c!"vp_token") [])))))
    exact fine_mset (fine_mset (fine_mset (fine_mset (fine_nil 4) (fine_str _ _)) (fine_str _ _))
      (fine_str _ _)) hcm
  refine ⟨hall.1, Nat.le_trans hall.2 (by decide), ?_⟩
  rintro q' ⟨⟩ c hc
  have := (dcqlForTypes_ok hq).2.2.2.2 c hc
  simp only [cliQueries, List.mem_cons, List.not_mem_nil, or_false] at this
  have h0 : Fine 123 (.obj []) := fine_nil 122
  rcases this with rfl | rfl | rfl | rfl
  · exact ⟨h0.1, h0.2, by rintro l ⟨⟩⟩
  · exact ⟨h0.1, h0.2, by rintro l ⟨⟩⟩
  · exact ⟨h0.1, h0.2, by rintro l ⟨⟩⟩
  · have hm : Fine 123 (.obj (CredentialQuery.metaMap Cli.mdlQuery)) :=
      fine_mset (m := []) (fine_nil 122) (fine_str _ _)
    refine ⟨hm.1, hm.2, ?_⟩
    rintro l ⟨⟩ k hk
    simp only [List.mem_cons, List.not_mem_nil, or_false] at hk
    rcases hk with rfl | rfl <;> exact ⟨by simp [mdlClaim, ClaimsQuery.new, PathOk], by rintro vs ⟨⟩⟩

/-- **C65** A wallet at `openid4vp://` that supports the prefix `redirect_uri`, reaches the program
and accepts the unsigned request of this client validates the URL shown, as exactly the request
object of the stored session. -/
theorem C65_validated (p : Url) (types : List Str) (uuid : Uuid) (nonce : Str) (v : Verifier) (σ : Store)
    (url : Url) (w : Wallet) (hp : p.WF) (h : start p types uuid nonce = .ok (v, σ, url))
    (hend : w.metadata.endpoint.val = openid4vpUrl)
    (hpre : SupportsPrefix w.metadata.inner c!"redirect_uri") (hserve : Serves v σ w)
    (halg : ∃ alg, w.ssiHeader (utf8 (jPrint (.obj cliHeader))) = .ok (alg, true))
    (hver : ∀ a jwt, RedirectClient a (Url.print { p with path := c!"/response" }) →
      w.verifier .redirectUri a (some jwt) = .ok ()) :
    ∃ s u, σ.get uuid = some s ∧ Url.parse url.print = some u ∧
      (w.validateRequest u).2 = .ok s.requestObject := by
  have hpath := ((C65_start_iff p types uuid nonce hp).1 ⟨_, h⟩).1
  obtain ⟨rfl, wm, q, d, hwm, hq, hb⟩ := start_ok.1 h
  obtain ⟨wm', hwm', -, he1, he2⟩ := cliWallet
  rw [hwm] at hwm'; cases hwm'
  have hid : (cliVerifier p).client.id.val = c!"redirect_uri:" ++ Url.print { p with path := c!"/response" } := by
    rw [← setPath_at hpath]; rfl
  obtain ⟨alg, halg⟩ := halg
  refine built_validated (cliVerifier p) _ uuid wm false [] σ url w .redirectUri (responseUri_wf hp) ?_ hb ?_
    (cli_writable hq) hserve ?_ ?_ ?_
  · rintro base ⟨⟩; exact setPath_wf hp (by decide)
  · refine ⟨⟨_, he1, by rw [he2, hend]⟩, hpre, ?_⟩
    intro m hm
    refine .inr ⟨_, rfl, ?_⟩
    rintro (rfl | rfl)
    all_goals
      rcases hm with ⟨-, h⟩ | ⟨t, h1, h2⟩
      · cases h
      · cases h1; cases h2
  · exact ⟨(by decide : ':' ∉ c!"redirect_uri"), _, rfl⟩
  · exact .redirectUri _
  · intro a jwt ha hw hd hg
    simp only [cliVerifier, redirectUriClient, Except.ok.injEq] at hg
    subst hg
    have hj : unsignedJwt a = compactJws cliHeader a.toObject [] := rfl
    rw [hj]
    have hhd : (Json.obj cliHeader).WF FltLit ∧ (Json.obj cliHeader).depth ≤ jsonMaxDepth :=
      (fine_mset (m := [(c!"typ", .str c!"oauth-authz-req+jwt")]) (k := c!"alg") (n := jsonMaxDepth - 1)
        (fine_mset (m := []) (fine_nil _) (fine_str _ _)) (fine_str _ _) : Fine jsonMaxDepth (.obj cliHeader))
    exact ⟨⟨_, compactJws_header hhd.1 hhd.2, rfl⟩, compactJws_payload halg hw hd,
      hver a _ ⟨_, ha, hid⟩⟩

/-- **C65** (a finding) The client identifier names the response address without the session id,
which is never the address the request asks to be answered at. -/
theorem C65_client_id_is_not_the_return_address (p : Url) (types : List Str) (uuid : Uuid) (nonce : Str)
    (v : Verifier) (σ : Store) (url : Url) (hp : p.WF) (h : start p types uuid nonce = .ok (v, σ, url)) :
    ∃ s c, σ.get uuid = some s ∧ RedirectClient s.requestObject c ∧ s.requestObject.returnUri.print ≠ c := by
  obtain ⟨s, q, d, hs, -, -, -, hc, hr, -⟩ := C65_request p types uuid nonce v σ url hp h
  obtain ⟨rfl, wm, q, d, hwm, hq, hb⟩ := start_ok.1 h
  have hpath := ((C65_start_iff p types uuid nonce hp).1 ⟨_, h⟩).1
  obtain ⟨s', hs', -, ho⟩ := C24_own_values_win _ _ _ _ _ _ _ _ (responseUri_wf hp) hb
  rw [hs.2.1] at hs'; cases hs'
  refine ⟨s, Url.print { p with path := c!"/response" }, hs.2.1, ⟨_, ho.clientIdField, ?_⟩, ?_⟩
  · rw [← setPath_at hpath]; rfl
  · rw [hr]
    intro he
    have := congrArg List.length he
    have hg : ∀ t : Str, guardText p.authority (c!"/response" ++ t) = [] := by
      intro t; cases p.authority <;> rfl
    have hg0 := hg []
    rw [List.append_nil] at hg0
    simp only [Url.print, hg0, List.length_append, List.length_cons, List.length_nil] at this
    omega

/-- **C65** (a finding) The example wallet, once it has the request of the program, answers it with an
error and sends nothing. -/
theorem C65_example_wallet_refuses (p : Url) (types : List Str) (uuid : Uuid) (nonce : Str)
    (v : Verifier) (σ : Store) (url : Url) (hp : p.WF) (h : start p types uuid nonce = .ok (v, σ, url))
    (ord : MapOrder) (w : Example.Adapter) (prm : Example.Params) (s : Session) (hs : σ.get uuid = some s)
    (ha : Obtains w prm s.requestObject) :
    posts (w.process ord prm).1 = [] ∧ ∃ e, (w.process ord prm).2 = .failure 400 e prm.state := by
  obtain ⟨s', c, hs', hc, hne⟩ :=
    C65_client_id_is_not_the_return_address p types uuid nonce v σ url hp h
  rw [hs] at hs'; cases hs'
  exact C56_mismatch_refused ord w prm ha hc hne

/-! ## The server -/

theorem onlyFetched_refl (σ : Store) (v : Uuid) : OnlyFetched σ σ v := .inl rfl

theorem onlyFetched_trans {σ σ' σ'' : Store} {v : Uuid} (h : OnlyFetched σ σ' v) (h' : OnlyFetched σ' σ'' v) :
    OnlyFetched σ σ'' v := by
  rcases h with h | ⟨s, h1, h2, h3⟩
  · rcases h' with h' | ⟨s, h1', h2', h3'⟩
    · exact .inl (h'.trans h)
    · exact .inr ⟨s, by rw [← h, h1'], h2', h3'⟩
  · rcases h' with h' | ⟨t, h1', h2', h3'⟩
    · exact .inr ⟨s, h1, h2, h'.trans h3⟩
    · rw [h3] at h1'; cases h1'; cases h2'

theorem onlyFetched_stored {σ σ' : Store} {v : Uuid} (h : OnlyFetched σ σ' v) :
    σ'.get v ≠ none ↔ σ.get v ≠ none := by
  rcases h with h | ⟨s, h1, -, h3⟩
  · rw [h]
  · rw [h1, h3]; simp

theorem retrieve_onlyFetched (u : Uuid) (σ : Store) (v : Uuid) : OnlyFetched σ (retrieve u σ).1 v := by
  have hlt : ∀ st : Status, st.lt .sentRequest = true ↔ st = .sentRequestByReference := by
    intro st
    cases st with
    | complete o => simp [Status.lt, Status.partialCmp, Status.variant]; decide
    | _ => decide
  cases hg : σ.get u with
  | none => left; simp [retrieve, Store.getSession, hg]
  | some s =>
    cases hl : s.status.lt .sentRequest with
    | false => left; simp [retrieve, Store.getSession, hg, hl]
    | true =>
      by_cases hv : v = u
      · subst hv
        exact .inr ⟨s, hg, (hlt _).1 hl, by
          simp [retrieve, Store.getSession, hg, hl, Store.updateStatus, Store.get_insert]⟩
      · left; simp [retrieve, Store.getSession, hg, hl, Store.updateStatus, Store.get_insert, hv]

/-- One call. -/
def cliStep (ord : MapOrder) (a : App) : Call → App
  | .fetch s => (Cli.getRequest s a).1
  | .respond s b => (Cli.postResponse ord s b a).1

theorem cli_serve_cons (ord : MapOrder) (a : App) (c : Call) (cs : List Call) :
    Cli.serve ord a (c :: cs) = if a.complete then a else Cli.serve ord (cliStep ord a c) cs := by
  cases c <;> rfl

theorem cli_serve_complete (ord : MapOrder) (a : App) (cs : List Call) (h : a.complete = true) :
    Cli.serve ord a cs = a := by
  cases cs with
  | nil => rfl
  | cons c cs => rw [cli_serve_cons, if_pos h]

theorem cliDelivers_congr {σ σ' : Store} (h : ∀ v, OnlyFetched σ σ' v) (u : Uuid)
    (r : AuthorizationResponse) (c : Call) : CliDelivers σ' u r c ↔ CliDelivers σ u r c := by
  cases c with
  | fetch s => exact Iff.rfl
  | respond s b => simp only [CliDelivers, onlyFetched_stored (h u)]

theorem cliStep_none {ord : MapOrder} {a : App} {c : Call} (h : ∀ u r, ¬CliDelivers a.store u r c) :
    (cliStep ord a c).complete = a.complete ∧ (∀ v, OnlyFetched a.store (cliStep ord a c).store v) ∧
      (cliStep ord a c).display ∈ [a.display, .requestFetched, .responseReceived] := by
  cases c with
  | fetch s =>
    simp only [cliStep, Cli.getRequest]
    cases hp : Uuid.parse s with
    | none => exact ⟨rfl, fun v => .inl rfl, by simp⟩
    | some u =>
      have := retrieve_onlyFetched u a.store
      rcases hr : retrieve u a.store with ⟨σ, e | jwt⟩ <;> rw [hr] at this <;> simp only [hr] <;>
        exact ⟨trivial, this, by simp⟩
  | respond s b =>
    simp only [cliStep, Cli.postResponse]
    cases hd : utf8Dec b with
    | none => exact ⟨rfl, fun v => .inl rfl, by simp⟩
    | some t =>
      cases hp : Uuid.parse s with
      | none => exact ⟨rfl, fun v => .inl rfl, by simp⟩
      | some u =>
        cases hf : AuthorizationResponse.ofForm b with
        | error e => exact ⟨rfl, fun v => .inl rfl, by simp⟩
        | ok r =>
          cases hg : a.store.get u with
          | none => simp only [hg]; exact ⟨trivial, fun v => .inl rfl, by simp⟩
          | some x =>
            exact absurd ⟨Uuid.parse_iff.1 hp, ⟨⟨t, utf8Dec_eq_some.1 hd⟩, hf⟩, by rw [hg]; simp⟩ (h u r)

theorem cliStep_delivers {ord : MapOrder} {a : App} {c : Call} {u : Uuid} {r : AuthorizationResponse}
    (h : CliDelivers a.store u r c) :
    (cliStep ord a c).complete = true ∧ (cliStep ord a c).display = displayOf (Cli.outcome ord r) ∧
      (∃ s, a.store.get u = some s ∧
        (cliStep ord a c).store.get u = some { s with status := .complete (Cli.outcome ord r) }) ∧
      ∀ v, v ≠ u → (cliStep ord a c).store.get v = a.store.get v := by
  cases c with
  | fetch s => exact h.elim
  | respond s b =>
    obtain ⟨hu, ⟨⟨t, ht⟩, hr⟩, hs⟩ := h
    obtain ⟨x, hx⟩ := Option.ne_none_iff_exists'.1 hs
    have hd : utf8Dec b = some t := by rw [ht, utf8Dec_utf8]
    simp only [cliStep, Cli.postResponse, hd, Uuid.parse_iff.2 hu, hr, hx, verifyResponse, Store.getSession,
      Bool.false_eq_true, if_false, Store.updateStatus, Option.some.injEq, exists_eq_left', Store.get_insert,
      if_true, true_and]
    intro v hv
    rw [if_neg hv]

/-- **C65** As long as no response is delivered for a stored session, the program does not stop, the
sessions are as they were except that requests may have been fetched, and no result is displayed. -/
theorem C65_no_response (ord : MapOrder) (a : App) (calls : List Call) (hc : a.complete = false)
    (h : ∀ c ∈ calls, ∀ u r, ¬CliDelivers a.store u r c) :
    (Cli.serve ord a calls).complete = false ∧
      (∀ v, OnlyFetched a.store (Cli.serve ord a calls).store v) ∧
      (Cli.serve ord a calls).display ∈ [a.display, .requestFetched, .responseReceived] := by
  induction calls generalizing a with
  | nil => exact ⟨hc, onlyFetched_refl _, by simp [Cli.serve]⟩
  | cons c cs ih =>
    obtain ⟨h1, h2, h3⟩ := cliStep_none (ord := ord) (h c List.mem_cons_self)
    obtain ⟨i1, i2, i3⟩ := ih (cliStep ord a c) (h1.trans hc) (fun c' hc' u r hd =>
      h c' (List.mem_cons_of_mem _ hc') u r ((cliDelivers_congr h2 u r c').1 hd))
    rw [cli_serve_cons, if_neg (by rw [hc]; simp)]
    refine ⟨i1, fun v => onlyFetched_trans (h2 v) (i2 v), ?_⟩
    simp only [List.mem_cons, List.not_mem_nil, or_false] at i3 h3 ⊢
    rcases i3 with i3 | i3
    · rw [i3]; exact h3
    · exact .inr i3

theorem cli_serve_append (ord : MapOrder) (a : App) (xs ys : List Call) :
    Cli.serve ord a (xs ++ ys) = Cli.serve ord (Cli.serve ord a xs) ys := by
  induction xs generalizing a with
  | nil => rfl
  | cons c cs ih =>
    rw [List.cons_append, cli_serve_cons, cli_serve_cons]
    split
    · rename_i hc; rw [cli_serve_complete ord a ys hc]
    · exact ih _

/-- **C65** The first response delivered for a stored session decides: whatever was called before and
is called afterwards, the program stops with the outcome of that response displayed and stored in that
session, and no other session has an outcome it did not have. -/
theorem C65_first_response_decides (ord : MapOrder) (a : App) (pre post : List Call) (c : Call) (u : Uuid)
    (r : AuthorizationResponse) (hc : a.complete = false)
    (hpre : ∀ c' ∈ pre, ∀ u r, ¬CliDelivers a.store u r c') (h : CliDelivers a.store u r c) :
    (Cli.serve ord a (pre ++ c :: post)).complete = true ∧
      (Cli.serve ord a (pre ++ c :: post)).display = displayOf (Cli.outcome ord r) ∧
      (∃ s, a.store.get u = some s ∧ (Cli.serve ord a (pre ++ c :: post)).store.get u =
        some { s with status := .complete (Cli.outcome ord r) }) ∧
      ∀ v, v ≠ u → OnlyFetched a.store (Cli.serve ord a (pre ++ c :: post)).store v := by
  obtain ⟨h1, h2, -⟩ := C65_no_response ord a pre hc hpre
  obtain ⟨i1, i2, ⟨s, i3, i4⟩, i5⟩ :=
    cliStep_delivers (ord := ord) ((cliDelivers_congr h2 u r c).2 h)
  rw [cli_serve_append, cli_serve_cons, if_neg (by rw [h1]; simp), cli_serve_complete _ _ _ i1]
  refine ⟨i1, i2, ?_, fun v hv => ?_⟩
  · rcases h2 u with e | ⟨s', e1, -, e3⟩
    · exact ⟨s, by rw [← e, i3], i4⟩
    · rw [e3] at i3; cases i3
      exact ⟨s', e1, i4⟩
  · rcases h2 v with e | ⟨s', e1, e2, e3⟩
    · exact .inl ((i5 v hv).trans e)
    · exact .inr ⟨s', e1, e2, (i5 v hv).trans e3⟩

/-- **C65** The answer to a request for a request object: 200 with the stored JWT exactly if the path
names a stored session, and then the console says that the request was fetched; otherwise 500, and the
console is as before. -/
theorem C65_fetch_answer (session : Str) (a : App) :
    (∀ u s, Known a.store session u s →
      (Cli.getRequest session a).2 = (200, some s.jwt) ∧
        (Cli.getRequest session a).1.display = .requestFetched) ∧
    ((∀ u s, ¬Known a.store session u s) →
      (Cli.getRequest session a).2 = (500, none) ∧ (Cli.getRequest session a).1.display = a.display) := by
  constructor
  · rintro u s ⟨hu, hs⟩
    simp only [Cli.getRequest, Uuid.parse_iff.2 hu, retrieve, Store.getSession, Bool.false_eq_true, if_false, hs,
      Store.updateStatus]
    split <;> rename_i hh <;> split at hh <;> simp_all
  · intro hk
    cases hp : Uuid.parse session with
    | none => simp [Cli.getRequest, hp]
    | some u =>
      have hu := Uuid.parse_iff.1 hp
      cases hg : a.store.get u with
      | none => simp [Cli.getRequest, hp, retrieve, Store.getSession, hg]
      | some s => exact absurd ⟨hu, hg⟩ (hk u s)

/-- **C65** The answer to a posted response: 200 exactly if it delivers a response for a stored session;
otherwise 400 if the body is not text, and 500 if it is. -/
theorem C65_respond_answer (ord : MapOrder) (session : Str) (body : Bytes) (a : App) :
    ((Cli.postResponse ord session body a).2 = 200 ↔
      ∃ u r, CliDelivers a.store u r (.respond session body)) ∧
    ((Cli.postResponse ord session body a).2 = 400 ↔ ∀ t, body ≠ utf8 t) ∧
    ((Cli.postResponse ord session body a).2 = 500 ↔ (∃ t, body = utf8 t) ∧
      ∀ u r, ¬CliDelivers a.store u r (.respond session body)) := by
  cases hd : utf8Dec body with
  | none =>
    have h := utf8Dec_none.1 hd
    have hc : ∀ u r, ¬CliDelivers a.store u r (.respond session body) := by
      rintro u r ⟨-, ⟨⟨t, ht⟩, -⟩, -⟩
      exact h t ht
    simp only [Cli.postResponse, hd]
    refine ⟨?_, ?_, ?_⟩
    · simp [hc]
    · simp only [true_iff]; exact h
    · simp only [Nat.reduceEqDiff, false_iff, not_and]
      rintro ⟨t, ht⟩; exact absurd ht (h t)
  | some t =>
    have ht := utf8Dec_eq_some.1 hd
    have hn : ¬∀ t, body ≠ utf8 t := fun h => h t ht
    have he : ∃ t, body = utf8 t := ⟨t, ht⟩
    cases hp : Uuid.parse session with
    | none =>
      have hc : ∀ u r, ¬CliDelivers a.store u r (.respond session body) := by
        rintro u r ⟨hu, -⟩
        exact noUuid_iff.1 hp u hu
      simp [Cli.postResponse, hd, hp, hn, he, hc]
    | some u =>
      have hu := Uuid.parse_iff.1 hp
      cases hr : AuthorizationResponse.ofForm body with
      | error e =>
        have hc : ∀ u r, ¬CliDelivers a.store u r (.respond session body) := by
          rintro u r ⟨-, ⟨-, h⟩, -⟩
          rw [hr] at h; cases h
        simp [Cli.postResponse, hd, hp, hr, hn, he, hc]
      | ok r =>
        cases hg : a.store.get u with
        | none =>
          have hc : ∀ u r, ¬CliDelivers a.store u r (.respond session body) := by
            rintro v r ⟨hv, -, h⟩
            rw [uuidText_unique hv hu, hg] at h; exact h rfl
          simp [Cli.postResponse, hd, hp, hr, hg, hn, he, hc]
        | some s =>
          have hc : CliDelivers a.store u r (.respond session body) :=
            ⟨hu, ⟨⟨t, ht⟩, hr⟩, by rw [hg]; simp⟩
          simp only [Cli.postResponse, hd, hp, hr, hg, verifyResponse, Store.getSession, Bool.false_eq_true,
            if_false, Store.updateStatus]
          refine ⟨?_, ?_, ?_⟩
          · simp only [true_iff]; exact ⟨u, r, hc⟩
          · simp only [Nat.reduceEqDiff, false_iff]; exact hn
          · simp only [Nat.reduceEqDiff, false_iff, not_and]
            intro _ h; exact h u r hc

/-- **C65** What is displayed: for a plain response success with each of its query ids once and their
number and nothing else, for an encrypted response a failure with a fixed reason. -/
theorem C65_outcome (ord : MapOrder) (hord : MapOrder.Fair ord) :
    (∀ r, ∃ ids : List Str, (ids.Perm (r.vpToken.map.map Prod.fst)) ∧
      Cli.outcome ord (.unencoded r) = .success (.obj [(c!"credential_query_ids", .arr (ids.map .str)),
        (c!"credentials_received", .int ids.length)])) ∧
    (∀ j, Cli.outcome ord (.jwt j) =
      .failure c!"Encrypted responses (direct_post.jwt) not supported in this example") ∧
    (∀ info, displayOf (.success info) = .success info) ∧ ∀ reason, displayOf (.failure reason) = .failed reason := by
  refine ⟨fun r => ⟨(ord r.vpToken.map).map Prod.fst, (hord _).map _, ?_⟩, fun j => rfl, fun _ => rfl, fun _ => rfl⟩
  rw [List.length_map, (hord _).length_eq]
  rfl

/-- A public address, and the request shown for two types. -/
def cliPublic : Url := ⟨c!"http", some c!"localhost:3000", c!"/", none, none⟩

theorem cliPublic_wf : cliPublic.WF :=
  Url.parse_wf (s := c!"http://localhost:3000/") (by decide +kernel)

example : ∃ r, start cliPublic [c!"mdl", c!"jwt_vc"] (buildId 3) c!"n" = .ok r :=
  (C65_start_iff _ _ _ _ cliPublic_wf).2 ⟨.inl (by decide), by decide, by
    intro t ht
    simp only [List.mem_cons, List.not_mem_nil, or_false] at ht
    rcases ht with rfl | rfl
    · exact ⟨c!"mdl_0", .msoMDoc, by simp [AsksFor, credentialTypes]⟩
    · exact ⟨c!"jwt_vc_0", .jwtVcJson, by simp [AsksFor, credentialTypes]⟩⟩

example : ¬∃ r, start cliPublic [c!"mdl", c!"pid"] (buildId 3) c!"n" = .ok r := by
  rw [C65_start_iff _ _ _ _ cliPublic_wf]
  rintro ⟨-, -, h⟩
  obtain ⟨id, f, h⟩ := h c!"pid" (by simp)
  simp [AsksFor, credentialTypes] at h

/-- A wallet that accepts unsigned requests of redirect address clients and gets `jwt` over HTTP. -/
def cliSampleWallet (jwt : Str) : Wallet where
  metadata := { e2eMetadata with
    inner := [(c!"client_id_prefixes_supported", .arr [.str c!"redirect_uri"])] }
  http := fun _ => .ok ⟨200, utf8 jwt⟩
  verifier m _ _ := if m = .redirectUri then .ok () else .error .unsupported
  uriOk := fun _ => true
  ssiHeader := fun _ => .ok (c!"none", true)

-- every request the program shows for a well-formed address is validated by this wallet
example (p : Url) (types : List Str) (uuid : Uuid) (nonce : Str) (v : Verifier) (σ : Store) (url : Url)
    (hp : p.WF) (h : start p types uuid nonce = .ok (v, σ, url)) : ∃ s u, σ.get uuid = some s ∧
      Url.parse url.print = some u ∧ ((cliSampleWallet s.jwt).validateRequest u).2 = .ok s.requestObject := by
  obtain ⟨s, q, d, hs, -⟩ := C65_request p types uuid nonce v σ url hp h
  obtain ⟨s', u, h1, h2, h3⟩ := C65_validated p types uuid nonce v σ url (cliSampleWallet s.jwt) hp h rfl
    (.inr ⟨[c!"redirect_uri"], rfl, by simp⟩) (by
      intro base id uri jwt _ _ hret
      obtain ⟨s', hs', rfl⟩ := retrieve_jwt hret
      rw [e2e_only hs id s' hs']
      exact ⟨⟨200, utf8 s.jwt⟩, rfl, (by decide : 200 ≤ 200), (by decide : 200 < 300), utf8Dec_utf8 _, rfl⟩)
    ⟨_, rfl⟩ (fun _ _ _ => rfl)
  rw [e2e_only hs uuid s' h1] at h3
  exact ⟨s, u, hs.2.1, h2, h3⟩

/-- A fetch, an unreadable response, a response and another one: the first readable one decides. -/
example (ord : MapOrder) : ∃ r, (Cli.serve ord ⟨routeStore, .waitingForWallet, false⟩
      [.fetch routeId, .respond routeId (utf8 c!"x=1"), .respond routeId (utf8 c!"response=a"),
        .respond routeId (utf8 c!"vp_token=%7B%7D")]).display = .failed r := by
  obtain ⟨-, h, -⟩ := C65_first_response_decides ord ⟨routeStore, .waitingForWallet, false⟩
    [.fetch routeId, .respond routeId (utf8 c!"x=1")] [.respond routeId (utf8 c!"vp_token=%7B%7D")]
    (.respond routeId (utf8 c!"response=a")) (buildId 5) (.jwt c!"a") rfl (by
      intro c hc
      simp only [List.mem_cons, List.not_mem_nil, or_false] at hc
      rcases hc with rfl | rfl
      · exact fun _ _ h => h
      · rintro u r ⟨-, ⟨-, h⟩, -⟩
        have : AuthorizationResponse.ofForm (utf8 c!"x=1") = .error .missing := by decide +kernel
        rw [this] at h; cases h)
    ⟨routeKnown.1, ⟨⟨_, rfl⟩, by decide +kernel⟩, by decide +kernel⟩
  exact ⟨_, h⟩

/-- C65 on a stored session, on another and on bytes that are no text. -/
example : (Cli.getRequest routeId ⟨routeStore, .waitingForWallet, false⟩).2.1 = 200 ∧
    (Cli.getRequest c!"no id" ⟨routeStore, .waitingForWallet, false⟩).2 = (500, none) ∧
    (Cli.postResponse id c!"no id" [0xFF] ⟨routeStore, .waitingForWallet, false⟩).2 = 400 := by
  decide +kernel

end Oid4vp
