import Verif.Spec.Disclosure
import Verif.Props.EndpointAnswer
import Verif.Props.ReadParams
import Verif.Props.JsonGrammar
import Verif.Props.Response
/-! # C111: what leaves the example wallet -/

set_option autoImplicit false

namespace Oid4vp
open Spec Example

theorem matchLoop_sorted {lower : Str → Str} {store : List Credential} {qs : List CredentialQuery}
    {s s' : Selection} (h : matchLoop lower store qs s = .ok s') (hs : Sorted s) : Sorted s' := by
  induction qs generalizing s with
  | nil => cases h; exact hs
  | cons q qs ih =>
    simp only [matchLoop] at h
    split at h
    · cases h
    · exact ih h (sorted_mset hs)

theorem matchQuery_sorted {lower : Str → Str} {store : List Credential} {q : DcqlQuery} {s : Selection}
    (h : matchQuery lower store q = .ok s) : Sorted s := by
  simp only [matchQuery] at h
  split at h
  · cases h
  · rename_i hl
    split at h
    · cases h
    · cases h; exact matchLoop_sorted hl (by simp [Sorted])

theorem presents_presentation (h : Holder) (hn : ∀ s, -(2 ^ 63) ≤ h.now s ∧ h.now s < 2 ^ 64) (nonce aud raw : Str) :
    Presents h nonce aud raw (presentation h nonce aud raw) := by
  rcases C55_all_texts h nonce aud raw with ⟨s, hs, rfl⟩ | ⟨h1, h2⟩
  · obtain ⟨kb, h1, h2, h3⟩ := C55_fresh_binding h nonce aud s hs (hn _)
    exact .inr ⟨s, kb, hs, rfl, h2.2.2, h1, h3⟩
  · exact .inl ⟨h1, h2⟩

/-- The members of the token made from a selection. -/
def tokenMembers (w : Adapter) (sel : Selection) (nonce aud : Str) : List (Str × Json) :=
  sel.map (fun p => (p.1, .arr (p.2.map (fun c => .str (presentation w.holder nonce aud c)))))

theorem toJson_members (w : Adapter) (sel : Selection) (nonce aud : Str) :
    (buildVpToken w.holder sel nonce aud).toJson = .obj (tokenMembers w sel nonce aud) := by
  simp only [buildVpToken, VpToken.toJson, tokenMembers, List.map_map, Json.obj.injEq]
  refine List.map_congr_left fun p _ => ?_
  simp [VpTokenItem.toJson]

theorem members_disclosed {w : Adapter} (hn : ∀ s, -(2 ^ 63) ≤ w.holder.now s ∧ w.holder.now s < 2 ^ 64)
    {o : UntypedObject} {a : RequestObject} (ha : RequestObject.ofObject o = .ok a) {sel : Selection} {aud : Str}
    (hw : Willing w a sel) (haud : AudienceOf a aud) : Disclosed w o (tokenMembers w sel a.nonce.val aud) := by
  obtain ⟨-, q, hq, hsel⟩ := hw
  obtain ⟨hin, hrep⟩ := C05_accessors_agree ha
  obtain ⟨j, hj, hjq⟩ := ((C05_state_and_query a).2.2.2 q).mp hq
  rw [hin] at hj hrep
  refine ⟨j, q, a.nonce.val, aud, hj, hjq, hrep.nonce, ?_, fun id => ?_⟩
  · have hc := hrep.clientId
    rcases haud with ⟨c, h1, rfl⟩ | ⟨h1, rfl⟩
    · rw [h1] at hc; exact .inl hc
    · rw [h1] at hc; exact .inr ⟨hc, rfl⟩
  · obtain ⟨h1, h2⟩ := C53_selection w.lower w.store q hsel id
    have hm : mget id (tokenMembers w sel a.nonce.val aud) =
        (mget id sel).map (fun l => .arr (l.map (fun c => .str (presentation w.holder a.nonce.val aud c)))) :=
      mget_map (fun l : List Str => Json.arr (l.map (fun c => .str (presentation w.holder a.nonce.val aud c)))) id sel
    rw [hm]
    refine ⟨by rw [Option.map_eq_none_iff]; exact h2, fun v hv => ?_⟩
    obtain ⟨l, hl, rfl⟩ := Option.map_eq_some_iff.mp hv
    refine ⟨l.map (presentation w.holder a.nonce.val aud), by simp [Function.comp_def], ?_⟩
    rw [List.forall₂_map_right_iff]
    refine (h1 l hl).2.imp ?_
    rintro k raw ⟨c, hc, rfl⟩
    exact ⟨c, hc, presents_presentation w.holder hn _ _ _⟩

theorem text_members {ord : MapOrder} (ho : ord.Fair) {w : Adapter} {sel : Selection} (hs : Sorted sel)
    (nonce aud : Str) :
    JsonText ((buildVpToken w.holder sel nonce aud).text ord) (.obj (tokenMembers w sel nonce aud)) := by
  have hplain : ∀ p ∈ ord (buildVpToken w.holder sel nonce aud).map, ∀ m, VpTokenItem.jsonObject m ∉ p.2 := by
    intro p hp m
    have hp := (ho _).mem_iff.mp hp
    simp only [buildVpToken, List.mem_map] at hp
    obtain ⟨x, -, rfl⟩ := hp
    simp
  have hn : (VpToken.toJson ⟨ord (buildVpToken w.holder sel nonce aud).map⟩).NumOk :=
    toJson_numOk fun p hp m hm => absurd hm (hplain p hp m)
  have hd : (VpToken.toJson ⟨ord (buildVpToken w.holder sel nonce aud).map⟩).depth ≤ jsonMaxDepth :=
    toJson_depth (n := 125) |>.mpr fun p hp m hm => absurd hm (hplain p hp m)
  rw [← C73_json_text, VpToken.text, jParse_jPrint_norm hd hn, ← toJson_members]
  have hm : Sorted ((buildVpToken w.holder sel nonce aud).map.map
      (fun p => (p.1, Json.arr (p.2.map VpTokenItem.toJson)))) := 
    sorted_map (fun l : List VpTokenItem => Json.arr (l.map VpTokenItem.toJson))
      (sorted_map (fun l : List Str => l.map fun c => VpTokenItem.string (presentation w.holder nonce aud c)) hs)
  simp only [VpToken.toJson, Json.norm, Except.ok.injEq, Json.obj.injEq]
  rw [normM_of_WF (P := FltLit), mofList_perm hm ((ho _).map _)]
  rw [wfM_iff]
  intro p hp
  simp only [List.mem_map] at hp
  obtain ⟨x, hx, rfl⟩ := hp
  simp only [Json.WF, wfL_iff, List.mem_map]
  rintro j ⟨i, hi, rfl⟩
  cases i with
  | string s => simp [VpTokenItem.toJson, Json.WF]
  | jsonObject m => exact absurd hi (hplain x hx m)

/-- What the endpoint sends, in terms of the request object. -/
theorem responds_sends {ord : MapOrder} (ho : ord.Fair) {w : Adapter}
    (hn : ∀ s, -(2 ^ 63) ≤ w.holder.now s ∧ w.holder.now s < 2 ^ 64) {p : Params}
    {o : UntypedObject} {a : RequestObject} (ha : RequestObject.ofObject o = .ok a) (hby : AskedBy w p o)
    {reqs : List HttpRequest} {ans : Answer} (h : Responds ord w p a reqs ans) :
    ∀ req ∈ reqs, MereVisit req ∨ TheResponse w p req := by
  obtain ⟨hin, hrep⟩ := C05_accessors_agree ha
  have hst : ∀ st, EchoedState a p st → StateWith o p st := by
    have hs := (C05_state_and_query a).2.1
    rw [hin] at hs
    rintro st (⟨s, h1, rfl⟩ | ⟨h1, rfl⟩)
    · exact .inl ⟨s.val, (hs s).mp h1, rfl⟩
    · exact .inr ⟨fun s h => h1 ⟨s⟩ ((hs ⟨s⟩).mpr h), rfl⟩
  rw [hin] at hrep
  have hmore : ∀ {st req more ans}, AfterSending w st req more ans → ∀ r ∈ more, MereVisit r := by
    intro st req more ans h
    cases h with
    | goOn => intro r hr; simp only [List.mem_singleton] at hr; subst hr; exact ⟨rfl, rfl⟩
    | _ => intro r hr; cases hr
  have hsend : ∀ {sel st body}, Willing w a sel → (∀ u, RedirectClient a u → a.returnUri.print = u) →
      IsDirectPost a.responseMode → EchoedState a p st → DisclosingBody w o st (utf8 body) →
      TheResponse w p (Sends a body) := by
    intro sel st body hw hu hm he hc
    obtain ⟨s, h1, h2⟩ := hrep.directPost hm
    refine ⟨hw.1, rfl, o, st, s, a.returnUri, hby, hst st he, h1, h2, rfl, fun t ht => hu t ?_, hc⟩
    have := hrep.clientId
    cases hcl : a.clientId with
    | none => rw [hcl] at this; simp only [ClientIdIs, Absent] at this; rw [HasText, this] at ht; cases ht
    | some c =>
      rw [hcl] at this
      simp only [ClientIdIs, HasText] at this
      rw [HasText, this] at ht
      exact ⟨c, hcl, by simpa using ht⟩
  cases h with
  | plain hw hu hm haud he hafter =>
    intro req hreq
    rcases List.mem_cons.mp hreq with rfl | hreq
    · refine .inr (hsend hw hu (.inl hm) he ?_)
      refine .plain (hm ▸ hrep.mode) ((C10_form_body _ _).mp ?_)
        (text_members ho (matchQuery_sorted hw.2.choose_spec.2) _ _) (members_disclosed hn ha hw haud)
      rw [formParseB_utf8, UnencodedResponse.toForm, formParse_formSer]
      rename_i st _
      cases st <;> rfl
    · exact .inl (hmore hafter _ hreq)
  | encrypted hw hu hm haud he hk hs hafter =>
    intro req hreq
    rcases List.mem_cons.mp hreq with rfl | hreq
    · refine .inr (hsend hw hu (.inr hm) he ?_)
      obtain ⟨cm, keys, h1, h2, h3, -⟩ := hk
      obtain ⟨-, hs⟩ := hs
      rw [toJson_members] at hs
      refine .encrypted (hm ▸ hrep.mode) ((C10_form_body _ _).mp ?_) ⟨cm, keys, hin ▸ h1, h2, h3⟩ hs
        (members_disclosed hn ha hw haud)
      rw [formParseB_utf8, ← C10_form_standard, formParse_formSer]
    · exact .inl (hmore hafter _ hreq)
  | _ => intro req hreq; cases hreq

/-- **C111** Everything that leaves the example wallet: visits, which disclose nothing, and the response. It is made
with consent only, goes to the address the request object names (of a redirect client, its own), and holds the
state and, for each credential query and nothing else, the first credential of the store that answers it, bound to
nonce and client; in the mode the request object asks for, encrypted to the key it names. -/
theorem C111_what_leaves {ord : MapOrder} (ho : ord.Fair) (w : Adapter)
    (hn : ∀ s, -(2 ^ 63) ≤ w.holder.now s ∧ w.holder.now s < 2 ^ 64) (p : Params) :
    ∀ req ∈ (w.process ord p).1, MereVisit req ∨ TheResponse w p req := by
  have h := (C77_endpoint ord w p _ _).mp (show w.process ord p = ((w.process ord p).1, (w.process ord p).2) from rfl)
  generalize (w.process ord p).1 = reqs at h
  generalize (w.process ord p).2 = ans at h
  have hfetch : ∀ {r l}, FetchesOf w.wallet r l → ∀ req ∈ l, MereVisit req := by
    intro r l h
    cases h with
    | one => intro r hr; simp only [List.mem_singleton] at hr; subst hr; exact ⟨rfl, rfl⟩
    | none => intro r hr; cases hr
  cases h with
  | notUnderstood => intro req hreq; cases hreq
  | notObtained _ h => exact fun req hreq => .inl (hfetch h req hreq)
  | obtained h1 h2 h3 h4 =>
    intro req hreq
    rcases List.mem_append.mp hreq with hreq | hreq
    · exact .inl (hfetch h2 req hreq)
    · obtain ⟨g1, ⟨o, g2, g3⟩, -⟩ := resolve_ok.mp h3
      exact responds_sends ho hn g3 ⟨_, _, h1, g1, g2⟩ h4 req hreq

/-- A call has at most one request object, so that there is no doubt what is disclosed to whom. -/
theorem askedBy_unique {w : Adapter} {p : Params} {o o' : UntypedObject} (h : AskedBy w p o) (h' : AskedBy w p o') :
    o = o' := by
  obtain ⟨r, jwt, h1, h2, h3⟩ := h
  obtain ⟨r', jwt', h1', h2', h3'⟩ := h'
  have hr : r = r' := Except.ok.inj (((C77_taken_for w p r).mpr h1).symm.trans ((C77_taken_for w p r').mpr h1'))
  subst hr
  have hj : jwt = jwt' := by
    cases hi : r.indirection with
    | byValue j => rw [hi] at h2 h2'; exact h2.trans h2'.symm
    | direct d => rw [hi] at h2 h2'; exact h2.trans h2'.symm
    | byReference u =>
      rw [hi] at h2 h2'
      obtain ⟨b, hb, rfl⟩ := h2
      obtain ⟨b', hb', rfl⟩ := h2'
      obtain ⟨x, hx1, -, -, hx2, -⟩ := hb
      obtain ⟨y, hy1, -, -, hy2, -⟩ := hb'
      rw [hx1] at hy1; cases hy1
      rw [hx2] at hy2; exact hy2
  subst hj
  cases jwt with
  | some j => exact Except.ok.inj ((decodeUnverified_ok.mpr h3).symm.trans (decodeUnverified_ok.mpr h3'))
  | none =>
    obtain ⟨d, hd, rfl⟩ := h3
    obtain ⟨d', hd', rfl⟩ := h3'
    rw [hd] at hd'; cases hd'; rfl

-- C111: the response of the sample wallet, plain or encrypted, is one to its request object
example (mode : Str) (hm : mode = c!"direct_post" ∨ mode = c!"direct_post.jwt") :
    ∃ req ∈ (adapterSample.process id (paramsSample mode c!"https://v.example/r")).1,
      TheResponse adapterSample (paramsSample mode c!"https://v.example/r") req := by
  have hn : ∀ s, -(2 ^ 63) ≤ adapterSample.holder.now s ∧ adapterSample.holder.now s < 2 ^ 64 := fun _ => by
    simp [adapterSample, toyHolder]
  have hp : ∃ req ∈ (adapterSample.process id (paramsSample mode c!"https://v.example/r")).1,
      req.method = c!"POST" := by rcases hm with rfl | rfl <;> decide +kernel
  obtain ⟨req, h1, h2⟩ := hp
  refine ⟨req, h1, (C111_what_leaves (ord := id) (fun _ => List.Perm.refl _) adapterSample hn _ req h1).resolve_left ?_⟩
  rintro ⟨h, -⟩
  rw [h2] at h
  exact absurd h (by decide)

theorem keyFor_unique {w : Adapter} {a : RequestObject} {k k' : List (Str × Json)} (h : KeyFor w a k)
    (h' : KeyFor w a k') : k = k' := by
  obtain ⟨cm, keys, h1, h2, h3, -⟩ := h
  obtain ⟨cm', keys', h1', h2', h3', -⟩ := h'
  rw [h1] at h1'; cases h1'
  have := (jwks_iff.mpr h2).symm.trans (jwks_iff.mpr h2')
  simp only [Option.some.injEq, Except.ok.injEq, JWKs.mk.injEq] at this
  subst this
  exact firstWith_unique h3 h3'

/-- **C111** The response is made whenever it can be: with consent, for a request object whose every credential
query is answered by a credential of the store, whose response address is the one of a redirect client, if it is
one, and whose mode is a plain response, or an encrypted one with a key and contents that `josekit` takes. There is
one response. -/
theorem C111_responds {ord : MapOrder} (ho : ord.Fair) {w : Adapter}
    (hn : ∀ s, -(2 ^ 63) ≤ w.holder.now s ∧ w.holder.now s < 2 ^ 64) {p : Params} {a : RequestObject} {q : DcqlQuery}
    {j : Json} (ha : Obtains w p a) (hc : w.consent = true) (hj : mget c!"dcql_query" a.inner = some j)
    (hq : IsQuery j q) (hk : ∀ k ∈ q.credentials.vec, ∃ c ∈ w.store, Answers w.lower k c)
    (hu : ∀ u, RedirectClient a u → a.returnUri.print = u)
    (hm : a.responseMode = .directPost ∨ (a.responseMode = .directPostJwt ∧
      ∃ key, KeyFor w a key ∧ (∀ n v, w.jose.claimOk n v = true) ∧
        ∀ payload, ∃ jwe, w.jose.encrypt key (encHeader c!"A128GCM" (kidOf key)) payload = .ok jwe)) :
    ∃ req, posts (w.process ord p).1 = [req] ∧ TheResponse w p req := by
  have hone : ∃ req ∈ (w.process ord p).1, req.method = c!"POST" := by
    have h := (C77_endpoint ord w p _ _).mp
      (show w.process ord p = ((w.process ord p).1, (w.process ord p).2) from rfl)
    generalize (w.process ord p).1 = reqs at h
    generalize (w.process ord p).2 = ans at h
    obtain ⟨r, tr, jwt, hr, hres⟩ := ha
    have hr' : ∀ r', TakenFor w p r' → r' = r := fun r' h =>
      Except.ok.inj (((C77_taken_for w p r').mpr h).symm.trans hr)
    have hdq : a.dcqlQuery = some (.ok q) := ((C05_state_and_query a).2.2.2 q).mpr ⟨j, hj, hq⟩
    cases h with
    | notUnderstood h => exact absurd ((C77_taken_for w p r).mp hr) (h r)
    | notObtained h1 _ h3 => rw [hr' _ h1, hres] at h3; exact absurd rfl (h3 (a, jwt))
    | obtained h1 h2 h3 h4 =>
      rw [hr' _ h1, hres] at h3
      cases h3
      have hin : ∀ {l : List HttpRequest} {body more}, ∃ req ∈ l ++ Sends a body :: more, req.method = c!"POST" :=
        ⟨_, List.mem_append_right _ (List.mem_cons_self ..), rfl⟩
      cases h4 with
      | noQuery h => exact absurd hdq (h q)
      | denied _ h =>
        cases hs : matchQuery w.lower w.store q with
        | ok sel => exact absurd ⟨hc, q, hdq, hs⟩ (h sel)
        | error e =>
          rcases (C53_fails_iff w.lower w.store q).mp ⟨e, hs⟩ with h | ⟨k, h1, h2⟩
          · exact absurd h hq.choose_spec.2.1.choose_spec.2.2
          · obtain ⟨c, hc1, hc2⟩ := hk k h1
            exact absurd hc2 (h2 c hc1)
      | wrongAddress _ h1 h2 => exact absurd (hu _ h1) h2
      | otherMode _ _ h1 h2 => exact absurd hm (by simp [h1, h2])
      | plain => exact hin
      | noKey _ _ h1 _ h2 =>
        rcases hm with hm | ⟨-, key, hm, -⟩
        · rw [hm] at h1; cases h1
        · exact absurd hm (h2 key)
      | unsealed _ _ h1 _ _ hkey h2 =>
        rcases hm with hm | ⟨-, key, hm, h3, h4⟩
        · rw [hm] at h1; cases h1
        · cases keyFor_unique hkey hm
          obtain ⟨jwe, hjwe⟩ := h4 _
          exact absurd ⟨fun m _ => h3 _ _, hjwe⟩ (h2 jwe)
      | encrypted => exact hin
  obtain ⟨req, h1, h2⟩ := hone
  have hp : req ∈ posts (w.process ord p).1 := List.mem_filter.mpr ⟨h1, by simp [h2]⟩
  rcases C57_one_response ord w p with h | ⟨a', body, -, -, -, h⟩
  · rw [h] at hp; cases hp
  · rw [h] at hp ⊢
    cases List.mem_singleton.mp hp
    refine ⟨_, rfl, (C111_what_leaves ho w hn p _ h1).resolve_left ?_⟩
    rintro ⟨h, -⟩
    exact absurd (show c!"POST" = c!"GET" from h) (by decide)

-- C111: for the sample wallet and request the hypotheses hold, in both modes
example (mode : Str) (hm : mode = c!"direct_post" ∨ mode = c!"direct_post.jwt") (ord : MapOrder) (ho : ord.Fair) :
    ∃ req, posts (adapterSample.process ord (paramsSample mode c!"https://v.example/r")).1 = [req] ∧
      TheResponse adapterSample (paramsSample mode c!"https://v.example/r") req := by
  have hr : ∃ a, RequestObject.ofObject (redirectSample mode c!"https://v.example/r") = .ok a ∧
      (((AuthorizationRequest.fromUrl (buildRequestUrl adapterSample.endpoint
        (paramsSample mode c!"https://v.example/r")) adapterSample.endpoint).toOption.map
          (fun r => (r.resolve adapterSample.wallet).2.toOption.map Prod.fst)) = some (some a)) ∧
      a.clientId = some ⟨c!"redirect_uri:https://v.example/r"⟩ ∧ a.returnUri.print = c!"https://v.example/r" ∧
      (a.responseMode = .directPost ∨ a.responseMode = .directPostJwt) := by
    rcases hm with rfl | rfl <;> exact ⟨_, rfl, by decide +kernel⟩
  obtain ⟨a, h1, h2, h3, h4, h5⟩ := hr
  obtain ⟨hin, -⟩ := C05_accessors_agree h1
  have hob : Obtains adapterSample (paramsSample mode c!"https://v.example/r") a := by
    cases hf : AuthorizationRequest.fromUrl (buildRequestUrl adapterSample.endpoint
        (paramsSample mode c!"https://v.example/r")) adapterSample.endpoint with
    | error e => rw [hf] at h2; cases h2
    | ok r =>
      rw [hf] at h2
      cases hs : r.resolve adapterSample.wallet with
      | mk tr res => cases res with
        | error e => simp [Except.toOption, hs] at h2
        | ok x =>
          simp only [Except.toOption, hs, Option.map_some, Option.some.injEq] at h2
          exact ⟨r, tr, x.2, hf, by rw [hs, ← h2]⟩
  refine C111_responds ho (fun s => by simp [adapterSample, toyHolder]) (q := .new ⟨[mdlQuery c!"m"]⟩) hob rfl
    (by rw [show a.inner = redirectSample mode c!"https://v.example/r" from hin]; rfl)
    (query_means.mp (by decide +kernel)) ?_ ?_ ?_
  · intro k hk
    simp only [DcqlQuery.new, List.mem_singleton] at hk
    subst hk
    obtain ⟨x, y, e, h, -⟩ := match_ok.mp (show matchCredentialQuery lowerText credStore (mdlQuery c!"m") =
      .ok mdlCred by decide +kernel)
    exact ⟨mdlCred, by simp [adapterSample, credStore], h⟩
  · rintro u ⟨c, hc, hu⟩
    rw [h3] at hc; cases hc
    rw [h4]; exact List.append_cancel_left (as := c!"redirect_uri:") hu
  · rcases h5 with h5 | h5
    · exact .inl h5
    · refine .inr ⟨h5, encKey, ⟨[(c!"jwks", .obj [(c!"keys", .arr [.obj encKey])])], [encKey], ?_,
        .inl ⟨_, rfl, rfl⟩, ⟨[], [], rfl, (suitable_iff _).mp (by decide), by simp⟩, rfl⟩, fun _ _ => rfl,
        fun _ => ⟨_, rfl⟩⟩
      rw [show a.inner = redirectSample mode c!"https://v.example/r" from hin]; rfl

/-- The client metadata of a verifier that reads A256GCM only. -/
def oneEncMetadata : UntypedObject :=
  [(c!"encrypted_response_enc_values_supported", .arr [.str c!"A256GCM"]),
   (c!"jwks", .obj [(c!"keys", .arr [.obj encKey])])]

/-- A request of such a verifier. -/
def oneEncRequest : UntypedObject :=
  mset c!"client_metadata" (.obj oneEncMetadata) (redirectSample c!"direct_post.jwt" c!"https://v.example/r")

/-- **C111** The content encryption algorithms the verifier announces are not looked at: to a verifier that
announces A256GCM only, the response is encrypted with A128GCM. -/
theorem C111_announced_enc_unused : ∃ (w : Adapter) (p : Params) (o cm key : UntypedObject) (payload : List (Str × Json))
    (jwe : Str), AskedBy w p o ∧ mget c!"client_metadata" o = some (.obj cm) ∧
      (∀ e, FirstEnc cm e ↔ e = c!"A256GCM") ∧ RecipientKey o key ∧
      w.jose.encrypt key (encHeader c!"A128GCM" (kidOf key)) payload = .ok jwe ∧
      (posts (w.process id p).1).map HttpRequest.body = [utf8 (formText [(c!"response", jwe)])] := by
  refine ⟨adapterSample, { request := some (compactJws jwsHeaderSample oneEncRequest [1, 2, 3]) }, oneEncRequest,
    oneEncMetadata, encKey, encPayload (.obj [(c!"m", .arr [.str c!"MDL"])]) (some c!"s"), _,
    ⟨⟨none, .byValue (compactJws jwsHeaderSample oneEncRequest [1, 2, 3])⟩, _,
      (C77_taken_for _ _ _).mp (by decide +kernel), rfl, decodeUnverified_ok.mp (by decide +kernel)⟩, by decide, ?_,
    ⟨oneEncMetadata, [encKey], by decide, .inl ⟨_, rfl, rfl⟩, ⟨[], [], rfl, (suitable_iff _).mp (by decide), by simp⟩⟩,
    rfl, by decide +kernel⟩
  intro e
  have hm : mget c!"encrypted_response_enc_values_supported" oneEncMetadata = some (.arr [.str c!"A256GCM"]) := by decide
  simp only [FirstEnc, hm, reduceCtorEq, false_and, false_or, Option.some.injEq, Json.arr.injEq]
  constructor
  · rintro ⟨l, h1, ⟨rfl, -⟩ | ⟨rest, rfl⟩⟩
    · cases h1
    · simp only [List.map_cons, List.cons.injEq, Json.str.injEq] at h1
      exact h1.1.symm
  · rintro rfl
    exact ⟨[c!"A256GCM"], rfl, .inr ⟨[], rfl⟩⟩

/-! ## Credentials nobody asked for -/

theorem matchCredential_raw {lower : Str → Str} {store store' : List Credential} {k : CredentialQuery}
    (h : ∀ raw, (∃ c, FirstAnswer lower store k c ∧ c.raw = raw) ↔ ∃ c, FirstAnswer lower store' k c ∧ c.raw = raw) :
    (matchCredentialQuery lower store' k).map Credential.raw = (matchCredentialQuery lower store k).map Credential.raw := by
  simp only [← match_ok] at h
  have herr : ∀ {st e}, matchCredentialQuery lower st k = .error e → e = .notFound := by
    intro st e he
    obtain ⟨t, -, ht⟩ := match_find lower st k
    rw [ht] at he
    cases hf : st.find? t with
    | none => rw [hf] at he; cases he; rfl
    | some c => rw [hf] at he; cases he
  cases h1 : matchCredentialQuery lower store k with
  | error e =>
    cases h2 : matchCredentialQuery lower store' k with
    | error e' => rw [herr h1, herr h2]
    | ok c =>
      obtain ⟨c', hc', -⟩ := (h c.raw).mpr ⟨c, h2, rfl⟩
      rw [h1] at hc'; cases hc'
  | ok c =>
    obtain ⟨c', hc', hr⟩ := (h c.raw).mp ⟨c, h1, rfl⟩
    rw [hc', Except.map, Except.map, hr]

theorem matchLoop_raw {lower : Str → Str} {store store' : List Credential} {qs : List CredentialQuery}
    (h : ∀ k ∈ qs, ∀ raw, (∃ c, FirstAnswer lower store k c ∧ c.raw = raw) ↔
      ∃ c, FirstAnswer lower store' k c ∧ c.raw = raw) (s : Selection) :
    matchLoop lower store' qs s = matchLoop lower store qs s := by
  induction qs generalizing s with
  | nil => rfl
  | cons q qs ih =>
    have hq := matchCredential_raw (h q (by simp))
    have ih := ih (fun k hk => h k (by simp [hk]))
    simp only [matchLoop]
    cases h1 : matchCredentialQuery lower store q with
    | error e =>
      cases h2 : matchCredentialQuery lower store' q with
      | error e' => rw [h1, h2] at hq; cases hq; rfl
      | ok c => rw [h1, h2] at hq; cases hq
    | ok c =>
      cases h2 : matchCredentialQuery lower store' q with
      | error e' => rw [h1, h2] at hq; cases hq
      | ok c' =>
        rw [h1, h2] at hq
        simp only [Except.map, Except.ok.injEq] at hq
        simp only [hq, ih]

/-- **C111** What the endpoint does depends on the store only by the texts of the credentials it is asked for: two
stores in which each query of the request object is answered first by credentials of the same text, or by none, are
not told apart, by the verifier or by the caller. -/
theorem C111_only_the_answers (ord : MapOrder) (w : Adapter) (p : Params) (store : List Credential)
    (h : ∀ o j q k, AskedBy w p o → mget c!"dcql_query" o = some j → IsQuery j q → k ∈ q.credentials.vec →
      ∀ raw, (∃ c, FirstAnswer w.lower w.store k c ∧ c.raw = raw) ↔
        ∃ c, FirstAnswer w.lower store k c ∧ c.raw = raw) :
    ({ w with store := store }).process ord p = w.process ord p := by
  simp only [Adapter.process]
  cases hr : AuthorizationRequest.fromUrl (buildRequestUrl w.endpoint p) w.endpoint with
  | error e => rfl
  | ok r =>
    cases ht : r.resolve w.wallet with
    | mk tr res => cases res with
      | error e => simp only [ht]
      | ok x =>
        obtain ⟨a, jwt⟩ := x
        have hres : ({ w with store := store }).respond ord a p = w.respond ord a p := by
          have hsel : ({ w with store := store }).selectCredentials a = w.selectCredentials a := by
            simp only [Adapter.selectCredentials]
            cases hq : a.dcqlQuery with
            | none => rfl
            | some rq => cases rq with
              | error e => rfl
              | ok q =>
                obtain ⟨g1, ⟨o, g2, g3⟩, -⟩ := resolve_ok.mp (show (r.resolve w.wallet).2 = .ok (a, jwt) by rw [ht])
                obtain ⟨j, hj, hjq⟩ := ((C05_state_and_query a).2.2.2 q).mp hq
                rw [(C05_accessors_agree g3).1] at hj
                simp only [matchQuery]
                rw [matchLoop_raw (h o j q · ⟨r, jwt, (C77_taken_for w p r).mp hr, g1, g2⟩ hj hjq ·)]
          simp only [Adapter.respond, hsel]
          rfl
        simp only [ht, hres]

theorem firstAnswer_filter {lower : Str → Str} {k : CredentialQuery} {t : Credential → Bool}
    (ht : ∀ c, Answers lower k c → t c = true) (store : List Credential) (c : Credential) :
    FirstAnswer lower (store.filter t) k c ↔ FirstAnswer lower store k c := by
  induction store with
  | nil => rfl
  | cons x l ih =>
    have hcons : ∀ (x : Credential) (l : List Credential), FirstAnswer lower (x :: l) k c ↔
        (Answers lower k x ∧ c = x) ∨ (¬ Answers lower k x ∧ FirstAnswer lower l k c) := by
      intro x l
      constructor
      · rintro ⟨b, a, e, h1, h2⟩
        cases b with
        | nil => cases e; exact .inl ⟨h1, rfl⟩
        | cons y b =>
          cases e
          exact .inr ⟨h2 _ (by simp), b, a, rfl, h1, fun c' hc' => h2 c' (by simp [hc'])⟩
      · rintro (⟨h1, rfl⟩ | ⟨h1, b, a, rfl, h2, h3⟩)
        · exact ⟨[], l, rfl, h1, by simp⟩
        · exact ⟨x :: b, a, rfl, h2, by simpa using ⟨h1, h3⟩⟩
    rw [hcons]
    by_cases hx : Answers lower k x
    · rw [List.filter_cons_of_pos (ht x hx), hcons]
      simp [hx]
    · cases htx : t x with
      | true => rw [List.filter_cons_of_pos htx, hcons, ih]
      | false =>
        rw [List.filter_cons_of_neg (by simp [htx]), ih]
        simp [hx]

open Classical in
/-- **C111** Credentials that answer no query of the request object leave no trace: with them or without them, the
endpoint sends the same requests and gives the same answer. -/
theorem C111_unasked (ord : MapOrder) (w : Adapter) (p : Params) (store : List Credential)
    (h : store.filter (fun c => Wanted w p c) = w.store.filter (fun c => Wanted w p c)) :
    ({ w with store := store }).process ord p = w.process ord p := by
  refine C111_only_the_answers ord w p store fun o j q k ho hj hq hk raw => ?_
  have hf := fun (l : List Credential) => firstAnswer_filter (k := k) (lower := w.lower)
    (t := fun c => Wanted w p c) (fun c hc => by simpa using ⟨o, j, q, k, ho, hj, hq, hk, hc⟩) l
  simp only [← hf w.store, ← hf store, h]

theorem askedBy_sample : AskedBy adapterSample (paramsSample c!"direct_post" c!"https://v.example/r")
    (redirectSample c!"direct_post" c!"https://v.example/r") :=
  ⟨⟨none, .byValue (compactJws jwsHeaderSample (redirectSample c!"direct_post" c!"https://v.example/r") [1, 2, 3])⟩,
    _, (C77_taken_for _ _ _).mp (by decide +kernel), rfl, decodeUnverified_ok.mp (by decide +kernel)⟩

-- C111: of the sample store only the mobile document is asked for, and the rest may as well be absent
example (ord : MapOrder) :
    ({ adapterSample with store := [mdlCred] }).process ord (paramsSample c!"direct_post" c!"https://v.example/r") =
      adapterSample.process ord (paramsSample c!"direct_post" c!"https://v.example/r") := by
  classical
  have hnot : ∀ c, c = pidCred ∨ c = gymCred →
      ¬ Wanted adapterSample (paramsSample c!"direct_post" c!"https://v.example/r") c := by
    rintro c hc ⟨o, j, q, k, h1, h2, h3, h4, h5⟩
    cases askedBy_unique h1 askedBy_sample
    cases h2
    have h3 := query_means.mpr h3
    have hq : (DcqlQuery.ofJson (.obj [(c!"credentials", .arr [.obj [(c!"format", .str c!"mso_mdoc"),
        (c!"id", .str c!"m"), (c!"meta", .obj [(c!"doctype_value", .str c!"org.iso.18013.5.1.mDL")])]])])) =
        .ok (DcqlQuery.new ⟨[mdlQuery c!"m"]⟩) := by decide +kernel
    cases hq.symm.trans h3
    simp only [DcqlQuery.new, List.mem_singleton] at h4
    subst h4
    refine match_error.mp ⟨.notFound, ?_⟩ c (List.mem_singleton_self c) h5
    rcases hc with rfl | rfl <;> decide +kernel
  refine C111_unasked ord adapterSample _ [mdlCred] ?_
  have h1 := hnot pidCred (.inl rfl)
  have h2 := hnot gymCred (.inr rfl)
  simp only [show adapterSample.store = [pidCred, gymCred, mdlCred] from rfl, List.filter, h1, h2, decide_false]

-- C111: with the mobile document gone the wallet declines, so the hypothesis is needed
example : ({ adapterSample with store := [pidCred] }).process id (paramsSample c!"direct_post" c!"https://v.example/r") =
    ([], .failure 400 c!"access_denied" none) := by decide +kernel

end Oid4vp
