import Verif.Props.Example
import Verif.Props.Jwe
import Verif.Props.RequestUrl
import Verif.Props.Codec
/-!
# The example wallet's presentations and authorization endpoint: C55–C57
-/

set_option autoImplicit false

namespace Oid4vp
open Example Spec

/-! ## C55 -/

theorem splitOn_disclosures (ds : List Str) (b : Str) (h : ∀ d ∈ ds, '~' ∉ d) (hb : '~' ∉ b) :
    splitOn '~' (ds.flatMap (fun d => d ++ ['~']) ++ b) = ds ++ [b] := by
  induction ds with
  | nil => simpa using splitOn_of_notMem hb
  | cons d ds ih =>
    have : (d :: ds).flatMap (fun d => d ++ ['~']) ++ b =
        d ++ '~' :: (ds.flatMap (fun d => d ++ ['~']) ++ b) := by simp
    rw [this, splitOn_append (h d (by simp)), ih (fun x hx => h x (by simp [hx]))]
    rfl

theorem joinWith_tilde (i : Str) (ds : List Str) :
    joinWith '~' (i :: ds) ++ ['~'] = i ++ '~' :: ds.flatMap (fun d => d ++ ['~']) := by
  induction ds generalizing i with
  | nil => simp [joinWith]
  | cons d ds ih =>
    rw [joinWith, List.append_assoc, List.cons_append, ih d]
    · simp
    · simp

theorem presentation_sdJwt (h : Holder) (nonce aud : Str) (s : SdJwt) (hs : s.Proper) :
    presentation h nonce aud s.text = s.front ++ keyBindingJwt h s.front nonce aud := by
  have : splitOn '~' s.text = (s.issuer :: s.disclosures) ++ [s.binding] := by
    rw [SdJwt.text, SdJwt.front, List.append_assoc, List.cons_append,
      splitOn_append hs.1, splitOn_disclosures _ _ hs.2.1 hs.2.2]
    rfl
  simp only [presentation, this]
  rw [if_pos (by simp), List.dropLast_concat, joinWith_tilde]
  rfl

/-- Every text is an SD-JWT or has no separator. -/
theorem sdJwt_or_plain (s : Str) : '~' ∉ s ∨ ∃ sd : SdJwt, sd.Proper ∧ s = sd.text := by
  by_cases h : '~' ∈ s
  · right
    have hparts : ∀ p ∈ splitOn '~' s, '~' ∉ p := by
      clear h
      induction s with
      | nil => simp [splitOn]
      | cons c s ih =>
        intro p hp
        simp only [splitOn] at hp
        split at hp
        · rcases List.mem_cons.1 hp with rfl | hp
          · simp
          · exact ih p hp
        · rename_i hc
          cases hq : splitOn '~' s with
          | nil => exact absurd hq (splitOn_ne_nil _ _)
          | cons q qs =>
            rw [hq] at hp ih
            rcases List.mem_cons.1 hp with rfl | hp
            · have := ih q (by simp)
              simp only [List.mem_cons, not_or]
              exact ⟨fun e => hc e.symm, this⟩
            · exact ih p (by simp [hp])
    have hlen : 2 ≤ (splitOn '~' s).length := by
      cases hq : splitOn '~' s with
      | nil => exact absurd hq (splitOn_ne_nil _ _)
      | cons q qs =>
        cases qs with
        | cons x xs => simp
        | nil =>
          have := joinWith_splitOn '~' s
          rw [hq] at this
          simp only [joinWith] at this
          subst this
          exact absurd h (hparts q (by rw [hq]; simp))
    have hj := joinWith_splitOn '~' s
    cases hq : splitOn '~' s with
    | nil => exact absurd hq (splitOn_ne_nil _ _)
    | cons i rest =>
      rw [hq] at hlen hparts hj
      have hrest : rest ≠ [] := by rintro rfl; simp at hlen
      obtain ⟨ds, b, rfl⟩ : ∃ ds b, rest = ds ++ [b] :=
        ⟨_, _, (List.dropLast_concat_getLast hrest).symm⟩
      refine ⟨⟨i, ds, b⟩, ⟨hparts i (by simp), fun d hd => hparts d (by simp [hd]),
        hparts b (by simp)⟩, ?_⟩
      rw [← hj]
      simp only [SdJwt.text, SdJwt.front]
      clear hj hq hparts hlen hrest
      induction ds generalizing i with
      | nil => simp [joinWith]
      | cons d ds ih =>
        have := ih d
        simp only [List.cons_append] at this ⊢
        rw [joinWith, this]
        · simp
        · simp
  · exact .inl h

theorem kbPayload_eq (h : Holder) (front nonce aud : Str) :
    kbPayload h front nonce aud = .obj [(c!"aud", .str aud), (c!"iat", .int (h.now front)),
      (c!"nonce", .str nonce), (c!"sd_hash", .str (b64Enc .url (h.sha256 (utf8 front))))] := rfl

theorem keyBinding_bound (h : Holder) (front nonce aud : Str)
    (hn : -(2 ^ 63) ≤ h.now front ∧ h.now front < 2 ^ 64) :
    BoundTo h front nonce aud (keyBindingJwt h front nonce aud) := by
  refine ⟨b64Enc .url (utf8 (jPrint kbHeader)), b64Enc .url (utf8 (jPrint (kbPayload h front nonce aud))),
    by simp [keyBindingJwt], ⟨_, b64Dec_b64Enc _ _, ?_⟩, ⟨_, b64Dec_b64Enc _ _, ?_⟩⟩
  · exact jParse_jPrint (by decide) (by
      simp [kbHeader, Json.WF, Json.WFM, Sorted]; decide)
  · rw [kbPayload_eq]
    exact jParse_jPrint (by
        simp [Json.depth, Json.depthM]; decide) (by
      simp only [Json.WF, Json.WFM]
      exact ⟨by simp [Sorted]; decide, trivial, hn, trivial, trivial, trivial⟩)

theorem keyBinding_no_tilde (h : Holder) (front nonce aud : Str) :
    '~' ∉ keyBindingJwt h front nonce aud := by
  have hb : ∀ b, '~' ∉ b64Enc .url b := b64Enc_not_mem (by decide)
  simp [keyBindingJwt, hb]

/-- **C55** The presentation of an SD-JWT is its issuer JWT and disclosures, unchanged and in
order, followed by a new key-binding JWT in place of the old one; that JWT is signed by the
holder over its own header and payload, and its payload has exactly nonce, audience, time and the
hash of everything before it. (Times are 64-bit integers.) -/
theorem C55_fresh_binding (h : Holder) (nonce aud : Str) (s : SdJwt) (hs : s.Proper)
    (hn : -(2 ^ 63) ≤ h.now s.front ∧ h.now s.front < 2 ^ 64) :
    ∃ kb, presentation h nonce aud s.text = SdJwt.text { s with binding := kb } ∧
      SdJwt.Proper { s with binding := kb } ∧ BoundTo h s.front nonce aud kb :=
  ⟨keyBindingJwt h s.front nonce aud, presentation_sdJwt h nonce aud s hs,
    ⟨hs.1, hs.2.1, keyBinding_no_tilde _ _ _ _⟩, keyBinding_bound _ _ _ _ hn⟩

/-- **C55** Every text with the separator is such an SD-JWT, and any other credential is
presented as it is. -/
theorem C55_all_texts (h : Holder) (nonce aud : Str) (c : Str) :
    (∃ s : SdJwt, s.Proper ∧ c = s.text) ∨ ('~' ∉ c ∧ presentation h nonce aud c = c) := by
  rcases sdJwt_or_plain c with hc | hs
  · refine .inr ⟨hc, ?_⟩
    simp [presentation, splitOn_of_notMem hc]
  · exact .inl hs

/-- **C55** The old key-binding JWT has no influence. -/
theorem C55_old_binding_irrelevant (h : Holder) (nonce aud : Str) (s : SdJwt) (b : Str)
    (hs : s.Proper) (hb : '~' ∉ b) :
    presentation h nonce aud (SdJwt.text { s with binding := b }) = presentation h nonce aud s.text := by
  rw [presentation_sdJwt h nonce aud s hs, presentation_sdJwt h nonce aud { s with binding := b } ⟨hs.1, hs.2.1, hb⟩]
  rfl

/-- **C55** The token has an entry for exactly the selected ids, with a presentation of each
selected credential in order. -/
theorem C55_token (h : Holder) (sel : Selection) (nonce aud : Str) (id : Str) :
    mget id (buildVpToken h sel nonce aud).map =
      (mget id sel).map (fun l => l.map (fun c => .string (presentation h nonce aud c))) := by
  simp only [buildVpToken]
  exact mget_map (fun l : List Str => l.map (fun c => VpTokenItem.string (presentation h nonce aud c))) id sel

/-- A holder whose hash and signature are the identity. -/
def toyHolder : Holder := ⟨id, id, fun _ => 1700000000⟩

/-- C55 on an SD-JWT with two disclosures and an old key-binding JWT. -/
example : SdJwt.Proper ⟨c!"eyJ.e30.AA", [c!"WyJh", c!"WyJi"], c!"old"⟩ ∧
    SdJwt.text ⟨c!"eyJ.e30.AA", [c!"WyJh", c!"WyJi"], c!"old"⟩ = c!"eyJ.e30.AA~WyJh~WyJi~old" ∧
    c!"eyJ.e30.AA~WyJh~WyJi~" <+: presentation toyHolder c!"n" c!"v" c!"eyJ.e30.AA~WyJh~WyJi~old" := by
  refine ⟨⟨by decide, by decide, by decide⟩, by decide, ?_⟩
  rw [show c!"eyJ.e30.AA~WyJh~WyJi~old" = SdJwt.text ⟨c!"eyJ.e30.AA", [c!"WyJh", c!"WyJi"], c!"old"⟩
    by decide, presentation_sdJwt _ _ _ _ ⟨by decide, by decide, by decide⟩]
  exact List.prefix_append _ _

/-! ## C56, C57 -/

theorem posts_append (a b : List HttpRequest) : posts (a ++ b) = posts a ++ posts b := by
  simp [posts]

theorem resolve_posts (w : Wallet) (r : AuthorizationRequest) : posts (httpOf (r.resolve w).1) = [] := by
  simp only [AuthorizationRequest.resolve]
  cases r.indirection with
  | byValue _ => rfl
  | direct _ => rfl
  | byReference u =>
    by_cases hu : w.uriOk u.print = true
    · simp only [hu, if_true]; rfl
    · simp only [hu]; rfl

theorem post_posts (w : Adapter) (u : Url) (body : Str) (st : Option Str) :
    posts (w.post u body st).1 = [adapterPost u body] := by
  simp only [Adapter.post]
  split
  · rfl
  · split
    · split <;> rfl
    · rfl

theorem member_wf {m : List (Str × Json)} {k : Str} {j : Json} {n : Nat}
    (h : (Json.obj m).WF FltLit ∧ (Json.obj m).depth ≤ n + 1) (hg : mget k m = some j) :
    j.WF FltLit ∧ j.depth ≤ n := by
  have hm := mem_of_mget hg
  simp only [Json.WF, Json.depth] at h
  exact ⟨wfM_iff.mp h.1.2 _ hm, depthM_le.mp (Nat.le_of_succ_le_succ h.2) _ hm⟩

theorem element_wf {l : List Json} {j : Json} {n : Nat}
    (h : (Json.arr l).WF FltLit ∧ (Json.arr l).depth ≤ n + 1) (hg : j ∈ l) :
    j.WF FltLit ∧ j.depth ≤ n := by
  simp only [Json.WF, Json.depth] at h
  exact ⟨wfL_iff.mp h.1 _ hg, depthL_le.mp (Nat.le_of_succ_le_succ h.2) _ hg⟩

/-- The keys in the metadata of a request object that was read are proper. -/
theorem obtains_proper {w : Adapter} {p : Params} {a : RequestObject} (h : Obtains w p a) :
    ∀ cm keys key, mget c!"client_metadata" a.inner = some (.obj cm) → KeyList cm keys →
      FirstWith SuitableKey keys key → ProperKey key := by
  intro cm keys key hcm hk hf
  obtain ⟨r, tr, jwt, hu, hr⟩ := h
  obtain ⟨-, ⟨o, ho, ha⟩, -⟩ := resolve_ok.mp (show (r.resolve w.wallet).2 = .ok (a, jwt) by rw [hr])
  have hin : a.inner = o := (C05_accessors_agree ha).1
  rw [hin] at hcm
  cases jwt with
  | none =>
    obtain ⟨d, hd, rfl⟩ := ho
    obtain ⟨q, -, -, -, hq⟩ := (C08_endpoint_check _ _ _).mp hu
    have hm := ((C09_query_meaning q r).mp hq).2
    rw [hd] at hm
    have hcm' : mget c!"client_metadata" d = some (.obj cm) := by
      cases hc : r.clientId with
      | none => rw [hc] at hcm; exact hcm
      | some c =>
        rw [hc] at hcm
        simp only at hcm
        rwa [mget_mset_ne (by decide)] at hcm
    obtain ⟨-, v, -, hv⟩ := (hm.2.2.2 _ _).mp hcm'
    cases hv
  | some jwt =>
    obtain ⟨-, -, -, -, -, -, bytes, -, -, -, -, -, hj⟩ := ho
    have hw : (Json.obj o).WF FltLit ∧ (Json.obj o).depth ≤ 127 := by
      simp only [jParseBytes] at hj
      split at hj
      · exact jParse_wf hj
      · cases hj
    have h1 := member_wf (n := 126) hw hcm
    have hks : (Json.arr (keys.map .obj)).WF FltLit ∧ (Json.arr (keys.map .obj)).depth ≤ 125 := by
      rcases hk with ⟨m, h2, h3⟩ | h2
      · have h4 := member_wf (n := 125) h1 h2
        have h5 := member_wf (n := 124) h4 h3
        exact ⟨h5.1, Nat.le_succ_of_le h5.2⟩
      · have h4 := member_wf (n := 125) h1 h2
        have h5 := element_wf (n := 124) h4 (j := .arr (keys.map .obj)) (by simp)
        exact ⟨h5.1, Nat.le_succ_of_le h5.2⟩
    obtain ⟨b, e, rfl, -, -⟩ := hf
    have h6 := element_wf (n := 124) hks (j := .obj key) (by simp)
    exact ⟨h6.1, Nat.le_trans h6.2 (by decide)⟩

/-- What `respond` sends. -/
theorem respond_posts (ord : MapOrder) (w : Adapter) (a : RequestObject) (p : Params)
    (hp : ∀ cm keys key, mget c!"client_metadata" a.inner = some (.obj cm) → KeyList cm keys →
      FirstWith SuitableKey keys key → ProperKey key) :
    posts (w.respond ord a p).1 = [] ∨
      ∃ body, posts (w.respond ord a p).1 = [adapterPost a.returnUri body] ∧ w.consent = true ∧
        redirectCheck a = true ∧ BodyFor ord w p a body := by
  simp only [Adapter.respond]
  cases hd : a.dcqlQuery with
  | none => exact .inl rfl
  | some rq =>
    cases rq with
    | error e => exact .inl rfl
    | ok q =>
      simp only
      cases hs : w.selectCredentials a with
      | error e => exact .inl rfl
      | ok sel =>
        have hsel : w.consent = true ∧ matchQuery w.lower w.store q = .ok sel := by
          simp only [Adapter.selectCredentials] at hs
          split at hs
          · cases hs
          · rename_i hc
            rw [hd] at hs
            exact ⟨by simpa using hc, hs⟩
        simp only
        by_cases hr : redirectCheck a = true
        · simp only [hr, Bool.not_true, Bool.false_eq_true, if_false]
          have haud : AudienceOf a (audience a) := by
            simp only [audience]
            cases hc : a.clientId with
            | none => exact .inr ⟨hc, rfl⟩
            | some c => exact .inl ⟨c, hc, rfl⟩
          have hst : EchoedState a p (stateToEcho a p) := by
            simp only [stateToEcho]
            split
            · rename_i s he
              exact .inl ⟨s, he, rfl⟩
            · rename_i he
              exact .inr ⟨fun s h => he s h, rfl⟩
          have htok : TokenFor w a (buildVpToken w.holder sel a.nonce.val (audience a)) :=
            ⟨q, sel, _, hd, hsel.2, haud, rfl⟩
          generalize buildVpToken w.holder sel a.nonce.val (audience a) = tok at htok ⊢
          generalize stateToEcho a p = st at hst ⊢
          cases hm : a.responseMode with
          | directPost =>
            simp only
            refine .inr ⟨_, post_posts _ _ _ _, hsel.1, trivial, tok, st, htok, hst, .inl ⟨hm, rfl⟩⟩
          | directPostJwt =>
            simp only [Adapter.postJwt, verifierKey]
            cases hcm : a.clientMetadata with
            | error e => exact .inl rfl
            | ok cm =>
              simp only
              cases hj : parsingError cm.jwks with
              | error e => exact .inl rfl
              | ok jwks =>
                obtain ⟨keys⟩ := jwks
                simp only
                cases hk : findEncryptionJwk w.jose keys with
                | error e => exact .inl rfl
                | ok info =>
                  have hcm' : ClientMetadata.resolve a = .ok cm := by
                    simp only [RequestObject.clientMetadata] at hcm
                    simp only [ClientMetadata.resolve]
                    cases hg : UntypedObject.get ClientMetadata a.inner with
                    | none => rw [hg] at hcm; cases hcm
                    | some r => rw [hg] at hcm; exact hcm
                  have hck := resolve_keys.mp ⟨hcm', parsingError_ok.mp hj⟩
                  obtain ⟨key, h1, h2, h3, h4, h5⟩ :=
                    (C38_first_suitable w.jose keys (fun k hk => hp _ _ _ hck.1 hck.2 hk) info).mp hk
                  have hprop := hp _ _ _ hck.1 hck.2 h1
                  have hjj : joseJwk w.jose info.jwk = .ok key := by
                    rw [h3]; exact (joseJwk_ok hprop).mpr ⟨h2, rfl⟩
                  simp only [hjj]
                  cases hb : JweBuilder.build w.jose {
                      payload := some (responsePayload tok (st.map .mk)), recipientKey := some key,
                      alg := some info.alg, enc := none, kid := info.kid } with
                  | error e => exact .inl rfl
                  | ok jwe =>
                    refine .inr ⟨_, post_posts _ _ _ _, hsel.1, trivial, tok, st, htok, hst,
                      .inr ⟨hm, cm.val, keys, key, jwe, hck.1, hck.2, h1, ?_, rfl⟩⟩
                    simp only [JweBuilder.build, payload_eq, h4, h5, kidOf_eq, unwrapOr, ecdhEs, ne_eq,
                      not_true_eq_false, if_false] at hb
                    split at hb
                    · have hst' : (st.map State.mk).map State.val = st := by cases st <;> rfl
                      rw [hst'] at hb
                      cases hkid : kidOf key with
                      | none => rw [hkid] at hb; exact hb
                      | some k => rw [hkid] at hb; exact hb
                    · cases hb
          | _ => exact .inl rfl
        · simp only [hr]
          exact .inl rfl

theorem redirectCheck_iff {a : RequestObject} :
    redirectCheck a = true ↔ ∀ u, RedirectClient a u → a.returnUri.print = u := by
  simp only [redirectCheck, RedirectClient]
  cases hc : a.clientId with
  | none => simp
  | some c =>
    simp only [Option.some.injEq, exists_eq_left']
    cases hs : stripPrefix c!"redirect_uri:" c.val with
    | none =>
      simp only [true_iff]
      intro u hu
      rw [hu, stripPrefix_append] at hs; cases hs
    | some e =>
      rw [stripPrefix_eq_some] at hs
      simp only [decide_eq_true_eq]
      constructor
      · rintro rfl u hu
        rw [hs] at hu
        exact List.append_cancel_left hu
      · intro h; exact h e hs

/-- **C57** Whatever the parameters, the wallet sends at most one response, and only with
consent: to the return address of the request object it obtained, with a body that holds, plain
or encrypted to the verifier's first suitable key as the request object asks, the token made from
the first answering credentials of the store, bound to the nonce and client identifier of that
request object, and the state. -/
theorem C57_one_response (ord : MapOrder) (w : Adapter) (p : Params) :
    posts (w.process ord p).1 = [] ∨
      ∃ a body, Obtains w p a ∧ w.consent = true ∧ BodyFor ord w p a body ∧
        posts (w.process ord p).1 = [⟨c!"POST", a.returnUri.print,
          [(c!"content-type", c!"application/x-www-form-urlencoded")], utf8 body⟩] := by
  simp only [Adapter.process]
  cases hu : AuthorizationRequest.fromUrl (buildRequestUrl w.endpoint p) w.endpoint with
  | error e => exact .inl rfl
  | ok r =>
    simp only
    have hrp := resolve_posts w.wallet r
    cases hr : r.resolve w.wallet with
    | mk tr res =>
      rw [hr] at hrp
      cases res with
      | error e => exact .inl hrp
      | ok aj =>
        obtain ⟨a, jwt⟩ := aj
        have hob : Obtains w p a := ⟨r, tr, jwt, hu, hr⟩
        simp only [posts_append, hrp, List.nil_append]
        rcases respond_posts ord w a p (obtains_proper hob) with h | ⟨body, h1, h2, h3, h4⟩
        · exact .inl h
        · exact .inr ⟨a, body, hob, h2, h4, h1⟩

/-- **C56** If the client identifier of the request object is a redirect address, a response is
sent to that very address or not at all. -/
theorem C56_own_address_only (ord : MapOrder) (w : Adapter) (p : Params) {a : RequestObject} {u : Str}
    (ha : Obtains w p a) (hc : RedirectClient a u) :
    ∀ req ∈ posts (w.process ord p).1, req.uri = u := by
  obtain ⟨r, tr, jwt, hu, hr⟩ := ha
  have hrp := resolve_posts w.wallet r
  rw [hr] at hrp
  simp only [Adapter.process, hu, hr, posts_append, hrp, List.nil_append]
  rcases respond_posts ord w a p (obtains_proper ⟨r, tr, jwt, hu, hr⟩) with h | ⟨body, h1, h2, h3, h4⟩
  · rw [h]; simp
  · rw [h1]
    intro req hreq
    simp only [List.mem_singleton] at hreq
    subst hreq
    exact redirectCheck_iff.mp h3 u hc

/-- **C56** With another return address the wallet refuses. -/
theorem C56_mismatch_refused (ord : MapOrder) (w : Adapter) (p : Params) {a : RequestObject} {u : Str}
    (ha : Obtains w p a) (hc : RedirectClient a u) (hne : a.returnUri.print ≠ u) :
    posts (w.process ord p).1 = [] ∧ ∃ e, (w.process ord p).2 = .failure 400 e p.state := by
  refine ⟨?_, ?_⟩
  · obtain ⟨r, tr, jwt, hu, hr⟩ := ha
    have hrp := resolve_posts w.wallet r
    rw [hr] at hrp
    simp only [Adapter.process, hu, hr, posts_append, hrp, List.nil_append]
    rcases respond_posts ord w a p (obtains_proper ⟨r, tr, jwt, hu, hr⟩) with h | ⟨body, h1, h2, h3, h4⟩
    · exact h
    · exact absurd (redirectCheck_iff.mp h3 u hc) hne
  · obtain ⟨r, tr, jwt, hu, hr⟩ := ha
    have hck : redirectCheck a = false := by
      rw [← Bool.not_eq_true]; exact fun h => hne (redirectCheck_iff.mp h u hc)
    simp only [Adapter.process, hu, hr, Adapter.respond]
    cases hd : a.dcqlQuery with
    | none => exact ⟨_, rfl⟩
    | some rq =>
      cases rq with
      | error e => exact ⟨_, rfl⟩
      | ok q =>
        simp only
        cases hs : w.selectCredentials a with
        | error e => exact ⟨_, rfl⟩
        | ok sel => simp [hck]

/-- The parameters of a request by a redirect address for a mobile document, with the response to
go to `u`. -/
def redirectSample (mode u : Str) : UntypedObject :=
  [(c!"client_id", .str c!"redirect_uri:https://v.example/r"),
   (c!"client_metadata", .obj [(c!"jwks", .obj [(c!"keys", .arr [.obj encKey])])]),
   (c!"dcql_query", .obj [(c!"credentials", .arr [.obj [(c!"format", .str c!"mso_mdoc"),
      (c!"id", .str c!"m"), (c!"meta", .obj [(c!"doctype_value", .str c!"org.iso.18013.5.1.mDL")])]])]),
   (c!"nonce", .str c!"n"), (c!"response_mode", .str mode),
   (c!"response_type", .str c!"vp_token"), (c!"response_uri", .str u), (c!"state", .str c!"s")]

/-- The same as parameters of the endpoint. -/
def paramsSample (mode u : Str) : Params :=
  { request := some (compactJws jwsHeaderSample (redirectSample mode u) [1, 2, 3]) }

/-- A wallet with the sample store; the verifier answers with a redirect. -/
def adapterSample : Adapter where
  wallet := { walletSample with http := fun _ => .ok ⟨200, utf8 c!"{\"redirect_uri\":\"https://v.example/done\"}"⟩ }
  endpoint := ⟨c!"https", some c!"w.example", c!"/authorize", none, none⟩
  consent := true
  store := credStore
  lower := lowerText
  holder := toyHolder
  jose := toyJose
  text := fun r => some (utf8Lossy r.body)

-- C57: the plain response goes out, and then the redirect is followed
example : adapterSample.process id (paramsSample c!"direct_post" c!"https://v.example/r") =
    ([⟨c!"POST", c!"https://v.example/r", [(c!"content-type", c!"application/x-www-form-urlencoded")],
        utf8 c!"vp_token=%7B%22m%22%3A%5B%22MDL%22%5D%7D&state=s"⟩,
      ⟨c!"GET", c!"https://v.example/done", [], []⟩], .success (some c!"https://v.example/done")) := by
  decide +kernel

-- C57: an encrypted response
example : (posts (adapterSample.process id (paramsSample c!"direct_post.jwt" c!"https://v.example/r")).1).map
    HttpRequest.uri = [c!"https://v.example/r"] := by decide +kernel

-- C57: no consent, no response
example : (({ adapterSample with consent := false }).process id
    (paramsSample c!"direct_post" c!"https://v.example/r")) = ([], .failure 400 c!"access_denied" none) := by
  decide +kernel

-- C56: a different address in the request
example : adapterSample.process id (paramsSample c!"direct_post" c!"https://evil.example/r") =
    ([], .failure 400 c!"invalid_request" none) := by decide +kernel

end Oid4vp
