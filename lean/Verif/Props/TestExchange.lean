import Verif.Props.EndToEnd
import Verif.Props.Routes
import Verif.Spec.TestExchange
/-!
# C91: a whole exchange between a verifier and a wallet
-/

set_option autoImplicit false

namespace Oid4vp
open Spec TestExchange AuthorizationRequest RequestBuilder

/-! ## Paths of addresses -/

theorem dropWhile_all {p : Char → Bool} {a b : Str} (h : ∀ c ∈ a, p c = true)
    (hb : ∀ c x, b = c :: x → p c = false) : (a ++ b).dropWhile p = b := by
  induction a with
  | nil =>
    cases b with
    | nil => rfl
    | cons c x => rw [List.nil_append, List.dropWhile_cons_of_neg (by rw [hb c x rfl]; decide)]
  | cons c a ih =>
    rw [List.cons_append, List.dropWhile_cons_of_pos (h c (.head _))]
    exact ih fun c hc => h c (.tail _ hc)

theorem takeWhile_all {p : Char → Bool} {a b : Str} (h : ∀ c ∈ a, p c = true)
    (hb : ∀ c x, b = c :: x → p c = false) : (a ++ b).takeWhile p = a := by
  induction a with
  | nil =>
    cases b with
    | nil => rfl
    | cons c x => rw [List.nil_append, List.takeWhile_cons_of_neg (by rw [hb c x rfl]; decide)]
  | cons c a ih =>
    rw [List.cons_append, List.takeWhile_cons_of_pos (h c (.head _)), ih fun c hc => h c (.tail _ hc)]

theorem split_while (p : Char → Bool) (s : Str) :
    ∃ a b, s = a ++ b ∧ (∀ c ∈ a, p c = true) ∧ ∀ c x, b = c :: x → p c = false := by
  induction s with
  | nil => exact ⟨[], [], rfl, (fun _ h => nomatch h), fun _ _ h => nomatch h⟩
  | cons c s ih =>
    cases hc : p c with
    | false => exact ⟨[], c :: s, rfl, (fun _ h => nomatch h), fun _ _ h => by cases h; exact hc⟩
    | true =>
      obtain ⟨a, b, rfl, ha, hb⟩ := ih
      refine ⟨c :: a, b, rfl, ?_, hb⟩
      intro x hx
      rcases List.mem_cons.mp hx with rfl | hx
      · exact hc
      · exact ha x hx

theorem uriPath_iff {uri p : Str} : UriPathIs uri p ↔ uriPath uri = p ∧ p ≠ [] := by
  constructor
  · rintro ⟨scheme, auth, r, rest, rfl, hs, ha, hr, hrest, hp⟩
    have hsp : splitOnce ':' (scheme ++ c!"://" ++ auth ++ r ++ rest) =
        some (scheme, '/' :: '/' :: (auth ++ (r ++ rest))) := by
      have := splitOnce_append (c := ':') (a := scheme) (b := '/' :: '/' :: (auth ++ (r ++ rest))) hs
      simpa using this
    have hd : (auth ++ (r ++ rest)).dropWhile (fun c => decide (c ≠ '/' ∧ c ≠ '?' ∧ c ≠ '#')) = r ++ rest := by
      refine dropWhile_all (fun c hc => by simpa using ha c hc) ?_
      intro c x hx
      rcases hp with ⟨rfl, -⟩ | ⟨-, y, rfl⟩
      · rcases hrest with rfl | ⟨z, rfl | rfl⟩
        · cases hx
        · cases hx; decide
        · cases hx; decide
      · cases hx; decide
    have ht : (r ++ rest).takeWhile (fun c => decide (c ≠ '?' ∧ c ≠ '#')) = r := by
      refine takeWhile_all (fun c hc => by simpa using hr c hc) ?_
      intro c x hx
      rcases hrest with rfl | ⟨z, rfl | rfl⟩
      · cases hx
      · cases hx; decide
      · cases hx; decide
    have hu : uriPath (scheme ++ c!"://" ++ auth ++ r ++ rest) = match r with
        | [] => ['/']
        | p => p := by
      rw [uriPath, hsp]
      simp only [hd, ht]
      cases r <;> rfl
    rw [hu]
    rcases hp with ⟨rfl, rfl⟩ | ⟨rfl, y, rfl⟩
    · exact ⟨rfl, by decide⟩
    · exact ⟨rfl, by simp⟩
  · rintro ⟨h, hne⟩
    rw [uriPath] at h
    split at h
    · rename_i scheme r hsp
      obtain ⟨hu, hs⟩ := splitOnce_eq_some.mp hsp
      obtain ⟨auth, y, rfl, ha, hy⟩ := split_while (fun c => decide (c ≠ '/' ∧ c ≠ '?' ∧ c ≠ '#')) r
      rw [dropWhile_all ha hy] at h
      obtain ⟨z, rest, rfl, hz, hrest⟩ := split_while (fun c => decide (c ≠ '?' ∧ c ≠ '#')) y
      rw [takeWhile_all hz hrest] at h
      refine ⟨scheme, auth, z, rest, by rw [hu]; simp, hs, fun c hc => by simpa using ha c hc,
        fun c hc => by simpa using hz c hc, ?_, ?_⟩
      · cases rest with
        | nil => exact .inl rfl
        | cons c x =>
          have := hrest c x rfl
          simp only [decide_eq_false_iff_not, not_and_or, not_not] at this
          rcases this with rfl | rfl
          · exact .inr ⟨x, .inl rfl⟩
          · exact .inr ⟨x, .inr rfl⟩
      · cases z with
        | nil => exact .inl ⟨rfl, h.symm⟩
        | cons c x =>
          have h1 := hy c (x ++ rest) rfl
          have h2 := hz c (.head _)
          simp only [decide_eq_false_iff_not, not_and_or, not_not] at h1
          rcases h1 with rfl | rfl | rfl
          · exact .inr ⟨h.symm, x, rfl⟩
          · exact absurd h2 (by decide)
          · exact absurd h2 (by decide)
    · exact absurd h.symm hne

/-! ## The network of the test -/

/-- **C91** What the network of the test answers and does: it answers 200 without a body exactly if the
request is posted for a stored session, which then is complete with the validator's outcome; otherwise
nothing changes. -/
theorem C91_network (f : Validator) (σ : Store) (q : HttpRequest) :
    (∀ resp, (execute f σ q).2 = .ok resp ↔
      resp = ⟨200, []⟩ ∧ ∃ u s r, PostedFor q u r ∧ σ.get u = some s) ∧
    (∀ u s r, PostedFor q u r → σ.get u = some s →
      Became σ (execute f σ q).1 u { s with status := .complete (f s r) }) ∧
    ((∀ u s r, PostedFor q u r → σ.get u ≠ some s) → (execute f σ q).1 = σ) := by
  have hpost : ∀ u r, PostedFor q u r ↔ ∃ id, stripPrefix c!"/submission/" (uriPath q.uri) = some id ∧
      Uuid.parse id = some u ∧ AuthorizationResponse.ofForm q.body = .ok r := by
    intro u r
    simp only [PostedFor, uriPath_iff, stripPrefix_eq_some, Uuid.parse_iff]
    constructor
    · rintro ⟨id, ⟨h1, -⟩, h2, h3⟩; exact ⟨id, h1, h2, h3⟩
    · rintro ⟨id, h1, h2, h3⟩; exact ⟨id, ⟨h1, by simp⟩, h2, h3⟩
  by_cases hex : ∃ u r, PostedFor q u r
  · obtain ⟨u, r, hq⟩ := hex
    have huniq : ∀ u' r', PostedFor q u' r' → u' = u ∧ r' = r := by
      intro u' r' h'
      obtain ⟨id, a1, a2, a3⟩ := (hpost u r).mp hq
      obtain ⟨id', b1, b2, b3⟩ := (hpost u' r').mp h'
      rw [a1] at b1; cases b1
      rw [a2] at b2; rw [a3] at b3
      cases b2; cases b3; exact ⟨rfl, rfl⟩
    obtain ⟨id, h1, h2, h3⟩ := (hpost u r).mp hq
    cases hg : σ.get u with
    | none =>
      have he : execute f σ q = (σ, .error .notFound) := by
        simp only [execute, h1, h2, h3, verifyResponse, Store.getSession, hg, Bool.false_eq_true, if_false]
      rw [he]
      refine ⟨fun resp => ⟨(fun h => nomatch h), ?_⟩, ?_, fun _ => rfl⟩
      · rintro ⟨-, u', s', r', h', hs'⟩
        obtain ⟨rfl, rfl⟩ := huniq u' r' h'
        rw [hg] at hs'; cases hs'
      · intro u' s' r' h' hs'
        obtain ⟨rfl, rfl⟩ := huniq u' r' h'
        rw [hg] at hs'; cases hs'
    | some s =>
      have he : execute f σ q = (σ.insert u { s with status := .complete (f s r) }, .ok ⟨200, []⟩) := by
        simp only [execute, h1, h2, h3, verifyResponse, Store.getSession, hg, Bool.false_eq_true, if_false,
          Store.updateStatus]
      rw [he]
      refine ⟨fun resp => ⟨fun h => ⟨by cases h; rfl, u, s, r, hq, hg⟩, fun h => by rw [h.1]⟩, ?_, ?_⟩
      · intro u' s' r' h' hs'
        obtain ⟨rfl, rfl⟩ := huniq u' r' h'
        rw [hg] at hs'; cases hs'
        constructor
        · simp [Store.get_insert]
        · intro v hv; simp [Store.get_insert, hv]
      · intro h; exact absurd hg (h u s r hq)
  · have he : ∃ e, execute f σ q = (σ, .error e) := by
      rw [execute]
      cases h1 : stripPrefix c!"/submission/" (uriPath q.uri) with
      | none => exact ⟨_, rfl⟩
      | some id =>
        cases h2 : Uuid.parse id with
        | none => exact ⟨.parse, by simp only [h2]⟩
        | some u =>
          cases h3 : AuthorizationResponse.ofForm q.body with
          | error e => exact ⟨e, by simp only [h2]⟩
          | ok r => exact absurd ⟨u, r, (hpost u r).mpr ⟨id, h1, h2, h3⟩⟩ hex
    obtain ⟨e, he⟩ := he
    rw [he]
    refine ⟨fun resp => ⟨(fun h => nomatch h), ?_⟩, ?_, fun _ => rfl⟩
    · rintro ⟨-, u', s', r', h', -⟩; exact absurd ⟨u', r', h'⟩ hex
    · intro u' s' r' h' _; exact absurd ⟨u', r', h'⟩ hex

/-! ## The exchange -/

/-- The path of the address of a session. -/
theorem address_path {base uri : Url} {u : Uuid} (hw : uri.WF) (ha : AddressOf base u uri)
    (hauth : base.authority ≠ none) (hp : base.path = c!"/submission") :
    UriPathIs uri.print (c!"/submission/" ++ u.print) := by
  have hpath : uri.path = c!"/submission/" ++ u.print ∧ uri.authority = base.authority := by
    rcases ha with rfl | ⟨h, -⟩
    · refine ⟨?_, rfl⟩
      simp [hp]
    · rw [hp] at h; exact absurd h (by decide)
  obtain ⟨a, hau⟩ := Option.ne_none_iff_exists'.mp hauth
  have hau' : uri.authority = some a := by rw [hpath.2, hau]
  refine ⟨uri.scheme, a, uri.path, optText '?' uri.query ++ optText '#' uri.fragment, ?_, ?_, ?_, ?_, ?_, ?_⟩
  · simp [Url.print, hau', authText, guardText]
  · intro hm
    have := hw.scheme_chars _ hm
    revert this; decide
  · intro c hc
    obtain ⟨h1, h2, h3⟩ := hw.auth_delims hau'
    exact ⟨fun e => h1 (e ▸ hc), fun e => h2 (e ▸ hc), fun e => h3 (e ▸ hc)⟩
  · intro c hc
    exact (hw.path_chars c hc).2
  · cases uri.query with
    | some q => exact .inr ⟨_, .inl rfl⟩
    | none =>
      cases uri.fragment with
      | some q => exact .inr ⟨_, .inr rfl⟩
      | none => exact .inl rfl
  · refine .inr ⟨hpath.1.symm, _, hpath.1⟩

/-- **C91** Submitting a response for a stored session over the network of the test: one request is
made, nothing is returned, and the session is complete with what the validator says of that session and
that response, while the other sessions are as they were. -/
theorem C91_submitted (ord : MapOrder) (ho : ord.Fair) (w : Wallet) (f : Validator) (σ : Store) (u : Uuid)
    (s : Session) (base : Url) (r : AuthorizationResponse) (hw : ∀ q, w.http q = (execute f σ q).2)
    (hs : σ.get u = some s) (hwf : s.requestObject.returnUri.WF)
    (haddr : AddressOf base u s.requestObject.returnUri) (hauth : base.authority ≠ none)
    (hpath : base.path = c!"/submission") (hk : KindFor s.requestObject r)
    (hr : ∀ t, r = .unencoded t → t.vpToken.Proper ∧ t.vpToken.NestedAtMost 125)
    (hu : w.uriOk s.requestObject.returnUri.print = true) :
    ∃ q, w.submitResponse ord s.requestObject r = ([q], .ok none) ∧ PostedFor q u r ∧
      Became σ (after f σ [q]) u { s with status := .complete (f s r) } := by
  obtain ⟨q, hq, -, huri, -⟩ := C35_one_post ord w s.requestObject r hk hu
  have hmem : q ∈ (w.submitResponse ord s.requestObject r).1 := by rw [hq]; exact .head _
  have hform : AuthorizationResponse.ofForm q.body = .ok r := by
    cases r with
    | jwt j => exact C28_jwt_read_back ord w s.requestObject j q hmem
    | unencoded t =>
      obtain ⟨h1, h2⟩ := hr t rfl
      exact (C28_unencoded_read_back ord ho w s.requestObject t h1 q hmem).mpr h2
  have hpost : PostedFor q u r :=
    ⟨u.print, by rw [huri]; exact address_path hwf haddr hauth hpath, Uuid.parse_iff.mp u.parse_print, hform⟩
  obtain ⟨h1, h2, -⟩ := C91_network f σ q
  have hok := (h1 ⟨200, []⟩).mpr ⟨rfl, u, s, r, hpost, hs⟩
  refine ⟨q, Prod.ext hq ?_, hpost, h2 u s r hpost hs⟩
  refine (C36_none_iff ord w s.requestObject r q hmem ⟨200, []⟩ (by rw [hw, hok])).mpr ⟨rfl, .inl ⟨[], rfl, ?_⟩⟩
  intro c hc; cases hc

/-- **C91** The end-to-end test for all requests, responses and validators: the request that a verifier
with a DID client builds by value is validated by the wallet, without any HTTP request, as the request
object of the stored session, the status of which is "sent"; a response of the kind that the request
asks for is then delivered, and the status is what the validator says of that session and response. The
hypotheses on the signatures are those of C22. -/
theorem C91_exchange (v : Verifier) (b : RequestBuilder) (uuid : Uuid) (wm : WalletMetadata) (busy : Bool)
    (σ σ' : Store) (url : Url) (ssi : Ssi) (resolver : Str → Res Jwk) (trusted : List Str)
    (uriOk : Str → Bool) (f : Validator) (s : Signer) (did frag alg : Str) (key : Jwk)
    (hsub : v.submissionEndpoint.WF) (hauth : v.submissionEndpoint.authority ≠ none)
    (hpath : v.submissionEndpoint.path = c!"/submission") (hval : v.passByReference = .no)
    (hbuild : buildWithSessionId v b uuid wm busy σ = (σ', .ok url))
    (hmatch : Matching v b wm (wallet ssi resolver trusted wm uriOk f σ')) (hwr : Writable b)
    (hnew : didClientNew (did ++ '#' :: frag) s resolver = .ok v.client) (hone : '#' ∉ did)
    (hfrag : '#' ∉ frag) (halg : s.alg = .ok alg) (hlist : AlgListed wm alg)
    (htrust : did ∈ trusted) (hkey : s.jwk = .ok key)
    (hhdr : ∀ kid, ssi.header (utf8 (jPrint (.obj (didMembers alg kid)))) = .ok (alg, true))
    (hsig : ∀ msg, ssi.verify alg msg key (s.sign msg) = true) :
    ∃ x u, StoredOne σ σ' uuid x ∧ pollStatus uuid σ' = .ok .sentRequest ∧
      Url.parse url.print = some u ∧
      (let w := wallet ssi resolver trusted wm uriOk f σ'
       httpCalls (w.validateRequest u).1 = [] ∧ (w.validateRequest u).2 = .ok x.requestObject ∧
       ∀ ord r, ord.Fair → KindFor x.requestObject r →
        (∀ t, r = .unencoded t → t.vpToken.Proper ∧ t.vpToken.NestedAtMost 125) →
        uriOk x.requestObject.returnUri.print = true →
        ∃ q, w.submitResponse ord x.requestObject r = ([q], .ok none) ∧
          Became σ' (after f σ' [q]) uuid { x with status := .complete (f x r) } ∧
          pollStatus uuid (after f σ' [q]) = .ok (.complete (f x r))) := by
  obtain ⟨x, hx, hfresh⟩ := C23_build_stores_one v b uuid wm busy σ σ' url hbuild
  obtain ⟨x', hx', -, hown⟩ := C24_own_values_win v b uuid wm busy σ σ' url hsub hbuild
  rw [hx.2.1] at hx'; cases hx'
  obtain ⟨x', u, hx', hprint, hok⟩ := C27_did v b uuid wm busy σ σ' url
    (wallet ssi resolver trusted wm uriOk f σ') ssi.verify resolver (some trusted) s did frag alg key hsub
    (fun base h => by rw [hval] at h; cases h) hbuild hmatch hwr
    (fun base _ _ _ h => by rw [hval] at h; cases h) hnew hone hfrag halg hlist
    (fun l h => by cases h; exact htrust) hkey hhdr hsig (fun _ _ => rfl)
  rw [hx.2.1] at hx'; cases hx'
  obtain ⟨x', ep, hx', hep, hprint', hbyval, -⟩ := C25_url_refers_to_session v b uuid wm busy σ σ' url
    (fun base h => by rw [hval] at h; cases h) hbuild
  rw [hx.2.1] at hx'; cases hx'
  have hu : u = url := by rw [hprint'] at hprint; exact (Option.some.inj hprint).symm
  subst hu
  have hstat : x.status = .sentRequest := by
    have := hfresh.status
    rw [hval] at this
    simpa using this
  refine ⟨x, u, hx, ?_, hprint', ?_, hok, ?_⟩
  · simp only [pollStatus, Store.getSession, hx.2.1, Bool.false_eq_true, if_false, Except.map, hstat]
  · obtain ⟨t, h1, h2⟩ := hmatch.endpoint
    obtain ⟨t', h1', h2'⟩ := (endpoint_get wm.inner ep.val).mp hep
    rw [HasText] at h1 h1'
    rw [h1] at h1'
    simp only [Option.some.injEq, Json.str.injEq] at h1'
    rw [← h1', h2] at h2'
    have hep' : (wallet ssi resolver trusted wm uriOk f σ').metadata.authorizationEndpoint.val = ep.val :=
      Option.some.inj h2'
    simp only [Wallet.validateRequest, hep', hbyval hval, C17_one_get]
  · intro ord r ho hk hr hu
    have hd : IsDirectPost x.requestObject.responseMode := by
      rcases hk with ⟨h, -⟩ | ⟨h, -⟩
      · rw [h]; exact .inl rfl
      · rw [h]; exact .inr rfl
    have haddr := (hown.responseUri hd).1
    rw [hx.1] at haddr
    have hwf : x.requestObject.returnUri.WF := by
      obtain ⟨-, -, hrep, -⟩ := ofObject_iff.mp hfresh.object
      obtain ⟨t, -, ht⟩ := hrep.directPost hd
      exact Url.parse_wf ht
    obtain ⟨q, h1, -, h2⟩ := C91_submitted ord ho (wallet ssi resolver trusted wm uriOk f σ') f σ' uuid x
      v.submissionEndpoint r (fun _ => rfl) hx.2.1 hwf haddr hauth hpath hk hr hu
    refine ⟨q, h1, h2, ?_⟩
    simp only [pollStatus, Store.getSession, h2.1, Bool.false_eq_true, if_false, Except.map]

/-- **C91** A response of another kind than the request asks for is not delivered to any session. -/
theorem C91_other_kind (ord : MapOrder) (w : Wallet) (f : Validator) (σ : Store) (a : RequestObject)
    (r : AuthorizationResponse) (hk : ¬ KindFor a r) : after f σ (w.submitResponse ord a r).1 = σ := by
  by_cases hd : DcApiMode a
  · rw [C35_dc_api ord w a r hd]; rfl
  · obtain ⟨e, he⟩ := C35_otherwise_refused ord w a r (fun h => hk h.1) hd
    rw [he]; rfl

theorem after_append (f : Validator) (σ : Store) (xs ys : List HttpRequest) :
    after f σ (xs ++ ys) = after f (after f σ xs) ys := List.foldl_append

/-- Requests keep a session, except for its status, which they leave alone unless posted for it. -/
theorem after_keeps (f : Validator) (qs : List HttpRequest) : ∀ (σ : Store) (u : Uuid) (s : Session),
    σ.get u = some s → ∃ st, (after f σ qs).get u = some { s with status := st } ∧
      ((∀ q ∈ qs, ∀ r, ¬ PostedFor q u r) → st = s.status) := by
  induction qs with
  | nil => intro σ u s hs; exact ⟨s.status, hs, fun _ => rfl⟩
  | cons q qs ih =>
    intro σ u s hs
    obtain ⟨-, h2, h3⟩ := C91_network f σ q
    have hcase : (∃ r, PostedFor q u r ∧ (execute f σ q).1.get u = some { s with status := .complete (f s r) }) ∨
        (execute f σ q).1.get u = some s := by
      by_cases hex : ∃ u' s' r, PostedFor q u' r ∧ σ.get u' = some s'
      · obtain ⟨u', s', r, hp, hs'⟩ := hex
        have hb := h2 u' s' r hp hs'
        by_cases hu : u = u'
        · subst hu
          rw [hs] at hs'; cases hs'
          exact .inl ⟨r, hp, hb.1⟩
        · right; rw [hb.2 u hu]; exact hs
      · right
        rw [h3 fun u' s' r hp hs' => hex ⟨u', s', r, hp, hs'⟩]; exact hs
    rcases hcase with ⟨r, hp, hg⟩ | hg
    · obtain ⟨st, h, -⟩ := ih _ u _ hg
      exact ⟨st, h, fun hn => absurd hp (hn q (.head _) r)⟩
    · obtain ⟨st, h, hst⟩ := ih _ u _ hg
      exact ⟨st, h, fun hn => hst fun q hq => hn q (.tail _ hq)⟩

/-- **C91** After any number of HTTP requests, by whatever wallets and for whatever sessions, a session
is complete with the outcome for the last response posted for it. -/
theorem C91_last_decides (f : Validator) (σ : Store) (pre post : List HttpRequest) (q : HttpRequest)
    (u : Uuid) (s : Session) (r : AuthorizationResponse) (hs : σ.get u = some s) (hq : PostedFor q u r)
    (hpost : ∀ q' ∈ post, ∀ r', ¬ PostedFor q' u r') :
    ∃ st, pollStatus u (after f σ (pre ++ q :: post)) = .ok (.complete (f { s with status := st } r)) := by
  obtain ⟨st, h1, -⟩ := after_keeps f pre σ u s hs
  obtain ⟨-, h2, -⟩ := C91_network f (after f σ pre) q
  have h3 := (h2 u _ r hq h1).1
  obtain ⟨st', h4, h5⟩ := after_keeps f post _ u _ h3
  refine ⟨st, ?_⟩
  have hget : (after f σ (pre ++ q :: post)).get u =
      some { s with status := .complete (f { s with status := st } r) } := by
    rw [after_append]
    have := h5 hpost
    subst this
    exact h4
  simp only [pollStatus, Store.getSession, hget, Bool.false_eq_true, if_false, Except.map]

/-- **C91** A session for which nothing is posted keeps its status. -/
theorem C91_untouched (f : Validator) (σ : Store) (qs : List HttpRequest) (u : Uuid) (s : Session)
    (hs : σ.get u = some s) (hn : ∀ q ∈ qs, ∀ r, ¬ PostedFor q u r) : (after f σ qs).get u = some s := by
  obtain ⟨st, h, hst⟩ := after_keeps f qs σ u s hs
  rw [h, hst hn]

/-- **C91** The wallet of the test, if none of its algorithm names contains `none`, only accepts requests
of the DIDs that it trusts, signed with a key of theirs; the request is what was signed. -/
theorem C91_only_trusted (ssi : Ssi) (resolver : Str → Res Jwk) (trusted : List Str) (wm : WalletMetadata)
    (uriOk : Str → Bool) (f : Validator) (σ : Store) (url : Url) (a : RequestObject)
    (hn : ∀ alg, AlgListed wm alg → ¬ MentionsNone alg)
    (h : ((wallet ssi resolver trusted wm uriOk f σ).validateRequest url).2 = .ok a) :
    ∃ did frag key jwt r, a.clientId = some ⟨c!"decentralized_identifier:" ++ did⟩ ∧ did ∈ trusted ∧
      resolver (did ++ '#' :: frag) = .ok key ∧ SignedBy ssi jwt key ∧
      AuthorizationRequest.fromUrl url wm.authorizationEndpoint.val = .ok r ∧
      ParamsOf (wallet ssi resolver trusted wm uriOk f σ) r a.inner (some jwt) := by
  simp only [Wallet.validateRequest] at h
  cases hr : fromUrl url (wallet ssi resolver trusted wm uriOk f σ).metadata.authorizationEndpoint.val with
  | error e => rw [hr] at h; cases h
  | ok r =>
    rw [hr] at h
    obtain ⟨m, jwt, -, hm, hv, -, hp⟩ := C12_right_method_once _ r a h
    change requestVerifier ssi resolver trusted wm m a jwt = .ok () at hv
    cases hm' : m with
    | decentralizedIdentifier =>
      subst hm'
      cases jwt with
      | none => cases hv
      | some jwt =>
        obtain ⟨m', alg, -, -, -, did, frag, c, key, -, -, hc, hu, ht, hk, hs⟩ :=
          C19_did_sound_without_none ssi resolver (some trusted) wm a jwt hn hv
        rw [hc] at hm
        cases hm with
        | did t =>
          rcases hu with hu | ⟨-, hu⟩
          · refine ⟨did, frag, key, jwt, r, ?_, ht _ rfl, hk, hs, hr, hp⟩
            rw [hc]; congr 1; exact congrArg ClientId.mk hu
          · exact absurd rfl (hu t)
    | _ => subst hm'; cases hv

/-! ## A concrete exchange -/

/-- The metadata of the wallet of the test (tests/jwt_vc.rs:66-86). -/
def testMetadata : WalletMetadata where
  inner := [(c!"authorization_endpoint", .str c!"openid4vp:"),
    (c!"client_id_prefixes_supported", .arr [.str c!"decentralized_identifier"]),
    (c!"request_object_signing_alg_values_supported", .arr [.str c!"ES256"]),
    (c!"response_types_supported", .arr [.str c!"vp_token"]),
    (c!"vp_formats_supported", .obj [(c!"jwt_vc_json", .obj [(c!"alg_values_supported", .arr [.str c!"ES256"])])])]
  endpoint := ⟨⟨c!"openid4vp", none, [], none, none⟩⟩
  formats := ⟨[]⟩

/-- The client of the test, with the toy signatures. -/
def testClient : Client :=
  didClient (prefixedId ClientIdScheme.decentralizedIdentifier c!"did:ex:1") c!"did:ex:1#k" toySigner

/-- The verifier of the test (tests/jwt_vc.rs:52-60). -/
def testVerifier : Verifier :=
  ⟨testClient, [], .no, ⟨c!"http", some c!"example.com", c!"/submission", none, none⟩⟩

/-- A validator that tells responses apart. -/
def testValidator : Validator := fun s r => match r with
  | .unencoded t => .success (.str (s.jwt ++ unwrapOr [] (t.state.map (·.val))))
  | .jwt _ => .failure c!"encrypted"

theorem testVerifier_wf : testVerifier.submissionEndpoint.WF :=
  Url.parse_wf (s := c!"http://example.com/submission") rfl

theorem test_built (u : Uuid) (σ : Store) :
    ∃ σ' url, buildWithSessionId testVerifier buildRequest u testMetadata false σ = (σ', .ok url) := by
  have hb := buildable_sample .no (.inl rfl)
  obtain ⟨url, h⟩ := (C23_succeeds_iff testVerifier buildRequest u testMetadata false σ testVerifier_wf
    (fun _ => ⟨_, rfl⟩)).mpr ⟨rfl, hb.query, ⟨rfl, ⟨_, rfl⟩, ⟨_, rfl⟩, _, _, rfl, .directPost, .inl ⟨.inl rfl, .inl (by
      simp [testVerifier])⟩⟩, .inr ⟨[c!"decentralized_identifier"], rfl, List.mem_singleton.mpr rfl⟩, (by rintro _ ⟨⟩), ⟨_, _, rfl, rfl⟩⟩
  exact ⟨_, url, by rw [← h]⟩

theorem test_matching (w : Wallet) (hw : w.metadata = testMetadata) :
    Matching testVerifier buildRequest testMetadata w := by
  refine ⟨⟨_, rfl, by rw [hw]; rfl⟩, by
    rw [hw]; exact .inr ⟨[c!"decentralized_identifier"], rfl, List.mem_singleton.mpr rfl⟩, ?_⟩
  intro m hm
  have := (e2e_matching testClient .no [] (.head _)).metadata m hm
  rcases this with h | h
  · exact .inl h
  · obtain ⟨cm, h, -⟩ := h
    exact absurd h (by simp [buildRequest, mget])

-- the test: a presentation with a state, for every session id
example (id : Uuid) : ∃ σ' url x u q,
    buildWithSessionId testVerifier buildRequest id testMetadata false [] = (σ', .ok url) ∧
    Url.parse url.print = some u ∧
    ((wallet toySsi (fun _ => .ok []) [c!"did:ex:1"] testMetadata (fun _ => true) testValidator σ').validateRequest
      u).2 = .ok x ∧
    (wallet toySsi (fun _ => .ok []) [c!"did:ex:1"] testMetadata (fun _ => true) testValidator σ').submitResponse
      (fun l => l.reverse) x (.unencoded ⟨⟨[(c!"did-key-id", [.string c!"a.b.c"])]⟩, some ⟨c!"st"⟩⟩) = ([q], .ok none) ∧
    ∃ j, pollStatus id (after testValidator σ' [q]) = .ok (.complete (.success j)) := by
  obtain ⟨σ', url, h⟩ := test_built id []
  obtain ⟨x, u, hx, -, hp, -, hv, hr⟩ := C91_exchange testVerifier buildRequest id testMetadata false [] σ' url toySsi
    (fun _ => .ok []) [c!"did:ex:1"] (fun _ => true) testValidator toySigner c!"did:ex:1" c!"k" c!"ES256" []
    testVerifier_wf (by simp [testVerifier]) rfl rfl h (test_matching _ rfl) e2e_writable rfl (by decide) (by decide)
    rfl ⟨[c!"ES256"], rfl, .head _⟩ (.head _) rfl (fun _ => rfl) (by simp [toySsi, toySigner])
  have hmode : x.requestObject.responseMode = .directPost := by
    obtain ⟨x', hx', hf⟩ := C23_build_stores_one _ _ _ _ _ _ _ _ h
    obtain ⟨x'', hx'', -, hown⟩ := C24_own_values_win _ _ _ _ _ _ _ _ testVerifier_wf h
    rw [hx.2.1] at hx''; cases hx''
    have := hx'.2.1
    rw [hx.2.1] at this; cases this
    obtain ⟨-, -, hrep, -⟩ := ofObject_iff.mp hf.object
    have hm : mget c!"response_mode" x.requestObject.inner = some (.str c!"direct_post") :=
      hown.others c!"response_mode" (by decide)
    rcases hrep.mode with ⟨ha, -⟩ | ⟨t, ht, hmode⟩
    · rw [Absent] at ha; rw [hm] at ha; cases ha
    · rw [HasText] at ht; rw [hm] at ht; cases ht
      generalize x.requestObject.responseMode = m at hmode ⊢
      cases hmode; rfl
  obtain ⟨q, h1, -, h2⟩ := hr (fun l => l.reverse) (.unencoded ⟨⟨[(c!"did-key-id", [.string c!"a.b.c"])]⟩, some ⟨c!"st"⟩⟩)
    (fun l => l.reverse_perm) (.inl ⟨hmode, _, rfl⟩)
    (by rintro t ⟨⟩; simp [VpToken.Proper, VpToken.NestedAtMost, Sorted]) rfl
  exact ⟨σ', url, _, u, q, h, hp, hv, h1, _, h2⟩

end Oid4vp
