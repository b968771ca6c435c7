import Verif.Props.UrlJoin
import Verif.Spec.HttpClient
import Verif.Props.UrlText
import Verif.Props.Response
import Verif.Props.Validate
/-!
# C86: the HTTP client that comes with the library
-/

set_option autoImplicit false

namespace Oid4vp
open Spec HttpClient

theorem httpScheme_iff {u : Url} : httpScheme u = true ↔ WebAddress u := by
  simp [httpScheme, WebAddress]

theorem location_iff {h : List (Str × Bytes)} {v : Bytes} : location h = some v ↔
    ∃ before after, h = before ++ (c!"location", v) :: after ∧ ∀ p ∈ before, p.1 ≠ c!"location" := by
  simp only [location, Option.map_eq_some_iff, Prod.exists, List.find?_eq_some_iff_append,
    decide_eq_true_eq, Bool.not_eq_true', decide_eq_false_iff_not]
  constructor
  · rintro ⟨k, w, ⟨rfl, as, bs, rfl, h⟩, rfl⟩
    exact ⟨as, bs, rfl, fun p hp => h p hp⟩
  · rintro ⟨as, bs, rfl, h⟩
    exact ⟨_, v, ⟨rfl, as, bs, rfl, fun p hp => h p hp⟩, rfl⟩

theorem sendsTo_iff {net : Net} {a : Answer} {cur next : Url} (hw : cur.WF) (r : HttpRequest) : SendsTo net a cur next ↔
    (redirected a.status r).isSome = true ∧ (location a.headers).bind (net.join cur) = some next := by
  have h1 : (redirected a.status r).isSome = true ↔ a.status ∈ [301, 302, 303, 307, 308] := by
    unfold redirected
    split
    · simp; omega
    · split
      · simp; omega
      · simp; omega
  have h2 : ∀ v, net.join cur v = some next ↔
      ∃ text, v = utf8 text ∧ Resolves cur text next ∧ net.usable next = true := by
    intro v
    rw [Net.join]
    constructor
    · intro h
      split at h
      · next s hs =>
        split at h
        · next u hu =>
          split at h
          · next hk =>
            cases h
            exact ⟨s, utf8Dec_eq_some.1 hs, (C110_resolves hw _ _).mp hu, hk⟩
          · cases h
        · cases h
      · cases h
    · rintro ⟨s, rfl, hr, hk⟩
      rw [utf8Dec_eq_some.2 rfl]
      dsimp only
      rw [(C110_resolves hw _ _).mpr hr]
      dsimp only
      rw [if_pos hk]
  rw [h1, SendsTo]
  simp only [Option.bind_eq_some_iff, location_iff, h2]
  constructor
  · rintro ⟨hst, x, t, y, h3, h4, h5⟩
    exact ⟨hst, utf8 t, ⟨x, y, h3, h4⟩, t, rfl, h5⟩
  · rintro ⟨hst, v, ⟨x, y, h3, h4⟩, t, rfl, h5⟩
    exact ⟨hst, x, t, y, h3, h4, h5⟩

theorem sendsTo_wf {net : Net} {a : Answer} {cur next : Url} (hw : cur.WF) (h : SendsTo net a cur next) : next.WF := by
  obtain ⟨-, -, t, -, -, -, h, -⟩ := h
  exact C110_wf hw h

/-! ## Addresses -/

theorem bare_iff (a b : Str) : Bare a b ↔ b = bare a := by
  rw [bare]
  constructor
  · rintro ⟨h1, rfl | ⟨u, rfl⟩⟩
    · rw [rsplitOnce_eq_none.2 h1]
    · rw [List.append_assoc, List.singleton_append, rsplitOnce_eq_some.2 ⟨rfl, h1⟩]
  · intro h
    split at h
    · next u x hs =>
      obtain ⟨h1, h2⟩ := rsplitOnce_eq_some.1 hs
      subst h
      exact ⟨h2, .inr ⟨u, by rw [h1]; simp⟩⟩
    · next hs =>
      subst h
      exact ⟨rsplitOnce_eq_none.1 hs, .inl rfl⟩

theorem web_special {u : Url} (h : WebAddress u) : isSpecial u.scheme = true := by
  rcases h with h | h <;> rw [h] <;> rfl

theorem referer_iff {cur : Url} (hw : cur.WF) (hs : WebAddress cur) (next : Url) (v : Str) :
    RefererIs next cur v ↔ referer next cur = some v := by
  cases ha : cur.authority with
  | none => exact absurd ha (hw.special (web_special hs)).1
  | some a =>
    rw [referer, RefererIs, Stripped]
    simp only [ha, bare_iff]
    constructor
    · rintro ⟨h1, _, _, h2, rfl, rfl⟩
      cases h2
      rw [if_neg (fun h => h1 ⟨h.2, h.1⟩)]
      rfl
    · intro h
      split at h
      · cases h
      · next hn =>
        cases h
        exact ⟨fun h => hn ⟨h.2, h.1⟩, a, _, rfl, rfl, rfl⟩

theorem hostPort_of {u : Url} {h : Str} {p : Nat} (hp : ServerOf u h p) : hostPort u = some (h, some p) := by
  obtain ⟨auth, ds, t, ha, hb, ht, hd⟩ := hp
  rw [bare_iff, marked_colon] at hb
  simp only [hostPort, ha, ← hb, splitPort_hostText ht]
  rcases hd with ⟨h1, h2⟩ | ⟨ds', rfl, hne, hn⟩
  · rw [portOf_iff] at h2
    cases ds with
    | none => rw [h2]
    | some ds =>
      have : ds = [] := h1
      subst this
      rw [h2]
  · cases ds' with
    | nil => exact absurd rfl hne
    | cons d ds => simp only [((number10_iff _ _).mp hn).2]

theorem place_exists {u : Url} (hw : u.WF) (hs : WebAddress u) : ∃ h p, ServerOf u h p := by
  have hsp := web_special hs
  cases ha : u.authority with
  | none => exact absurd ha (hw.special hsp).1
  | some a =>
    have := hw.auth_ok a ha
    rw [← authorityText_iff, hsp] at this
    obtain ⟨user, host, port, user', host', port', h1, h2, -, -, h5, h6, -⟩ := this
    have hb : Bare a (host ++ marked c!":" port) := by
      refine ⟨h2, ?_⟩
      cases user with
      | none => exact .inl (by rw [h1]; rfl)
      | some w => exact .inr ⟨w, by rw [h1]; simp⟩
    obtain ⟨d, hd⟩ := (special_iff _).mpr hsp
    have : ∃ p, ((port.getD [] = [] ∧ PortOf u.scheme p) ∨
        ∃ ds, port = some ds ∧ ds ≠ [] ∧ NumberIn 10 ds p) := by
      cases h6 with
      | none => exact ⟨d, .inl ⟨rfl, hd⟩⟩
      | empty => exact ⟨d, .inl ⟨rfl, hd⟩⟩
      | same hne hn _ => exact ⟨_, .inr ⟨_, rfl, hne, hn⟩⟩
      | other hne hn _ _ => exact ⟨_, .inr ⟨_, rfl, hne, hn⟩⟩
    obtain ⟨p, hp⟩ := this
    exact ⟨host, p, a, port, host', ha, hb, h5, hp⟩

theorem crossHost_iff {u v : Url} (hu : u.WF) (hus : WebAddress u) (hv : v.WF) (hvs : WebAddress v) :
    crossHost u v = true ↔ ¬ SameServer u v := by
  obtain ⟨h, p, h1⟩ := place_exists hu hus
  obtain ⟨k, q, h2⟩ := place_exists hv hvs
  rw [crossHost, hostPort_of h1, hostPort_of h2, bne_iff_ne, ne_eq, not_iff_not]
  constructor
  · intro e
    simp only [Option.some.injEq, Prod.mk.injEq] at e
    obtain ⟨rfl, rfl⟩ := e
    exact ⟨h, p, h1, h2⟩
  · rintro ⟨h', p', h3, h4⟩
    rw [← hostPort_of h1, ← hostPort_of h2, hostPort_of h3, hostPort_of h4]

theorem mem_dropHeaders {names : List Str} {h : List (Str × Str)} {k v : Str} :
    (k, v) ∈ dropHeaders names h ↔ (k, v) ∈ h ∧ k ∉ names := by
  simp [dropHeaders]

theorem mem_nextHeaders {cur next : Url} (hc : cur.WF) (hcs : WebAddress cur) (hn : next.WF) (hns : WebAddress next)
    {h : List (Str × Str)} {k v : Str} :
    (k, v) ∈ nextHeaders cur next h ↔
      ((k = c!"referer" ∧ RefererIs next cur v) ∨
        ((k, v) ∈ h ∧ (k = c!"referer" → ∀ w, ¬ RefererIs next cur w))) ∧
      (¬ SameServer next cur → k ∉ secretNames) := by
  have hs : ∀ k : Str, k ∉ sensitiveHeaders ↔ k ∉ secretNames := by
    intro k; simp only [sensitiveHeaders, secretNames, List.mem_cons, List.not_mem_nil, or_false, not_or]
    grind
  simp only [referer_iff hc hcs, ← crossHost_iff hn hns hc hcs]
  unfold nextHeaders
  have key : ∀ l : List (Str × Str), (k, v) ∈ (if crossHost next cur = true then dropHeaders sensitiveHeaders l else l) ↔
      (k, v) ∈ l ∧ (crossHost next cur = true → k ∉ secretNames) := by
    intro l
    cases hx : crossHost next cur with
    | false => simp
    | true => simp only [if_true, mem_dropHeaders, hs, true_imp_iff]
  dsimp only
  rw [key]
  refine and_congr_left fun _ => ?_
  cases referer next cur with
  | none => simp
  | some w =>
    simp only [List.mem_append, mem_dropHeaders, List.mem_singleton, Prod.mk.injEq, Option.some.injEq]
    constructor
    · rintro (⟨h1, h2⟩ | ⟨h1, h2⟩)
      · exact .inr ⟨h1, fun e => absurd e h2⟩
      · exact .inl ⟨h1, h2.symm⟩
    · rintro (⟨h1, h2⟩ | ⟨h1, h2⟩)
      · exact .inr ⟨h1, h2.symm⟩
      · exact .inl ⟨h1, fun e => h2 e w rfl⟩

theorem nextRequest {status : Nat} {cur next : Url} {r r' : HttpRequest} (hc : cur.WF) (hcs : WebAddress cur)
    (hn : next.WF) (hns : WebAddress next) (h : redirected status r = some r') : NextRequest status cur next r
      { r' with uri := next.print, headers := nextHeaders cur next r'.headers } := by
  unfold redirected at h
  have hb : ∀ k : Str, k ∉ contentHeaders ↔ k ∉ bodyNames := by
    intro k; simp only [contentHeaders, bodyNames, List.mem_cons, List.not_mem_nil, or_false, not_or]
    grind
  split at h
  · rename_i hst
    cases h
    have hm : status ∈ [301, 302, 303] := by simpa using hst
    refine ⟨rfl, fun h => ?_, fun _ => ⟨rfl, rfl⟩, fun k v => ?_⟩
    · simp at h; omega
    · rw [mem_nextHeaders hc hcs hn hns]
      simp only [mem_dropHeaders, hb]
      constructor
      · rintro ⟨h1 | ⟨⟨h1, h2⟩, h3⟩, h4⟩
        · exact ⟨.inl h1, h4⟩
        · exact ⟨.inr ⟨h1, h3, fun _ => h2⟩, h4⟩
      · rintro ⟨h1 | ⟨h1, h3, h2⟩, h4⟩
        · exact ⟨.inl h1, h4⟩
        · exact ⟨.inr ⟨⟨h1, h2 hm⟩, h3⟩, h4⟩
  · rename_i hno
    split at h
    · cases h
      have hm : status ∉ [301, 302, 303] := by simpa using hno
      refine ⟨rfl, fun _ => ⟨rfl, rfl⟩, fun h => absurd h hm, fun k v => ?_⟩
      rw [mem_nextHeaders hc hcs hn hns]
      simp only [hm, false_imp_iff, and_true]
    · cases h

theorem chain_run (net : Net) (fuel n : Nat) (u : Url) (hu : u.WF) (hus : WebAddress u) (r : HttpRequest)
    (hl : n + fuel = net.limit) :
    ∃ v z, Redirects net n u r (chain net fuel n u r).1 v z ∧ (chain net fuel n u r).1.length ≤ fuel + 1 ∧
      (∀ res, (chain net fuel n u r).2 = res → Outcome net (n + (chain net fuel n u r).1.length - 1) v z
        (match res with
          | .error e => .error e
          | .ok a => match a.body with
            | .error e => .error e
            | .ok b => .ok ⟨a.status, a.headers, b⟩)) := by
  induction fuel generalizing n u r with
  | zero =>
    refine ⟨u, r, ?_⟩
    unfold chain
    cases hs : net.send n r with
    | error e =>
      refine ⟨.last, by simp, ?_⟩
      rintro res rfl
      exact .failed hs
    | ok a =>
      simp only
      split
      · rename_i r' next h1 h2
        refine ⟨.last, by simp, ?_⟩
        rintro res rfl
        exact .stopped hs ((sendsTo_iff hu r).2 ⟨by rw [h1]; rfl, h2⟩) (.inr hl)
      · rename_i hno
        refine ⟨.last, by simp, ?_⟩
        rintro res rfl
        have hns : ∀ next, ¬ SendsTo net a u next := by
          intro next h
          obtain ⟨h1, h2⟩ := (sendsTo_iff hu r).1 h
          obtain ⟨r', h1⟩ := Option.isSome_iff_exists.1 h1
          exact hno _ _ h1 h2
        cases hb : a.body with
        | error e => simp only [hb]; exact .broken hs hns hb
        | ok b => simp only [hb]; exact .answered hs hns hb
  | succ fuel ih =>
    unfold chain
    cases hs : net.send n r with
    | error e =>
      refine ⟨u, r, .last, by simp, ?_⟩
      rintro res rfl
      exact .failed hs
    | ok a =>
      simp only
      split
      · rename_i r' next h1 h2
        have hst := (sendsTo_iff (net := net) hu r).2 ⟨by rw [h1]; rfl, h2⟩
        have hnw := sendsTo_wf hu hst
        by_cases hw : httpScheme next = true
        · simp only [hw, if_true]
          obtain ⟨v, z, h3, h4, h5⟩ := ih (n + 1) next hnw (httpScheme_iff.1 hw)
            { r' with uri := next.print, headers := nextHeaders u next r'.headers } (by omega)
          refine ⟨v, z, .step hs hst (httpScheme_iff.1 hw) (nextRequest hu hus hnw (httpScheme_iff.1 hw) h1) h3, ?_, ?_⟩
          · simpa using h4
          · intro res hres
            have := h5 res hres
            simp only [List.length_cons]
            rwa [show ∀ k, n + (k + 1) - 1 = n + 1 + k - 1 from fun k => by omega]
        · refine ⟨u, r, ?_⟩
          rw [if_neg hw]
          refine ⟨.last, by simp, ?_⟩
          rintro res rfl
          exact .stopped hs hst (.inl fun h => hw (httpScheme_iff.2 h))
      · rename_i hno
        refine ⟨u, r, .last, by simp, ?_⟩
        rintro res rfl
        have hns : ∀ next, ¬ SendsTo net a u next := by
          intro next h
          obtain ⟨h1, h2⟩ := (sendsTo_iff hu r).1 h
          obtain ⟨r', h1⟩ := Option.isSome_iff_exists.1 h1
          exact hno _ _ h1 h2
        cases hb : a.body with
        | error e => simp only [hb]; exact .broken hs hns hb
        | ok b => simp only [hb]; exact .answered hs hns hb

/-- **C86** A call of the client with an address of the web: the requests it makes follow from one
another by redirects, the first being the one it was given; there are at most as many redirects as
allowed; and it ends with the answer to the last request, which is passed on with its status, headers and body
unchanged, or with an error. -/
theorem C86_run (net : Net) (r : HttpRequest) (u : Url) (hu : UrlText r.uri u) (hw : WebAddress u) :
    ∃ v z, Redirects net 0 u { r with uri := u.print } (execute net r).1 v z ∧
      (execute net r).1.length ≤ net.limit + 1 ∧
      Outcome net ((execute net r).1.length - 1) v z (execute net r).2 := by
  obtain ⟨v, z, h1, h2, h3⟩ := chain_run net net.limit 0 u (Url.parse_wf ((C70_url_iff _ _).2 hu)) hw { r with uri := u.print } (by omega)
  refine ⟨v, z, ?_⟩
  simp only [execute, (C70_url_iff _ _).2 hu, httpScheme_iff.2 hw, if_true]
  refine ⟨h1, h2, ?_⟩
  have := h3 _ rfl
  rwa [Nat.zero_add] at this

/-- **C86** With any other address nothing is sent. -/
theorem C86_other_address (net : Net) (r : HttpRequest) (h : ∀ u, UrlText r.uri u → ¬ WebAddress u) :
    (execute net r).1 = [] ∧ ∀ a, (execute net r).2 ≠ .ok a := by
  unfold execute
  cases hp : Url.parse r.uri with
  | none => simp
  | some u =>
    have hn : ¬ httpScheme u = true := fun hh => h u ((C70_url_iff _ _).1 hp) (httpScheme_iff.1 hh)
    simp [hn]

theorem redirects_get {net : Net} {n : Nat} {u v : Url} {r z : HttpRequest} {l : List HttpRequest}
    (h : Redirects net n u r l v z) (i : Nat) (q : HttpRequest) (hq : l[i]? = some q) :
    (q.method = r.method ∧ q.body = r.body ∧
        ∀ j < i, ∃ x a, l[j]? = some x ∧ net.send (n + j) x = .ok a ∧ a.status ∈ [307, 308]) ∨
      (q.method = c!"GET" ∧ q.body = [] ∧
        ∃ j < i, ∃ x a, l[j]? = some x ∧ net.send (n + j) x = .ok a ∧ a.status ∈ [301, 302, 303]) := by
  induction h generalizing i with
  | last =>
    cases i with
    | zero => cases hq; exact .inl ⟨rfl, rfl, fun j hj => absurd hj (by omega)⟩
    | succ i => simp at hq
  | @step n u r a next r' l v z hs hst hw hn hr ih =>
    cases i with
    | zero => cases hq; exact .inl ⟨rfl, rfl, fun j hj => absurd hj (by omega)⟩
    | succ i =>
      rw [List.getElem?_cons_succ] at hq
      have hcase : a.status ∈ [301, 302, 303] ∨ a.status ∈ [307, 308] := by
        have := hst.1
        simp only [List.mem_cons, List.not_mem_nil, or_false] at this ⊢
        omega
      rcases ih i hq with ⟨hm, hb, hall⟩ | ⟨hm, hb, j, hj, x, b, h1, h2, h3⟩
      · rcases hcase with hc | hc
        · obtain ⟨g1, g2⟩ := hn.get hc
          exact .inr ⟨hm.trans g1, hb.trans g2, 0, by omega, r, a, rfl, hs, hc⟩
        · obtain ⟨g1, g2⟩ := hn.again hc
          refine .inl ⟨hm.trans g1, hb.trans g2, fun j hj => ?_⟩
          cases j with
          | zero => exact ⟨r, a, rfl, hs, hc⟩
          | succ j =>
            obtain ⟨x, b, h1, h2, h3⟩ := hall j (by omega)
            exact ⟨x, b, h1, by rw [← h2]; congr 1; omega, h3⟩
      · exact .inr ⟨hm, hb, j + 1, by omega, x, b, h1, by rw [← h2]; congr 1; omega, h3⟩

theorem run_or_none (net : Net) (r : HttpRequest) : (execute net r).1 = [] ∨ ∃ u v z,
    UrlText r.uri u ∧ WebAddress u ∧
    Redirects net 0 u { r with uri := u.print } (execute net r).1 v z := by
  by_cases h : ∃ u, UrlText r.uri u ∧ WebAddress u
  · obtain ⟨u, hu, hw⟩ := h
    obtain ⟨v, z, h1, -⟩ := C86_run net r u hu hw
    exact .inr ⟨u, v, z, hu, hw, h1⟩
  · exact .inl (C86_other_address net r (fun u hu hw => h ⟨u, hu, hw⟩)).1

/-- **C86** What the client was given to send leaves with the first request, and again only as long
as every answer so far was a redirect 307 or 308; after another redirect only `GET`s without body are
sent. -/
theorem C86_body (net : Net) (r : HttpRequest) (i : Nat) (q : HttpRequest)
    (hq : (execute net r).1[i]? = some q) :
    (q.method = r.method ∧ q.body = r.body ∧
        ∀ j < i, ∃ x a, (execute net r).1[j]? = some x ∧ net.send j x = .ok a ∧ a.status ∈ [307, 308]) ∨
      (q.method = c!"GET" ∧ q.body = [] ∧ ∃ j < i, ∃ x a, (execute net r).1[j]? = some x ∧
        net.send j x = .ok a ∧ a.status ∈ [301, 302, 303]) := by
  rcases run_or_none net r with h | ⟨u, v, z, -, -, h⟩
  · rw [h] at hq; simp at hq
  · have := redirects_get h i q hq
    simpa only [Nat.zero_add] using this

/-- **C86** If the first answer is not a redirect, exactly one request is made, the given one. -/
theorem C86_no_redirect (net : Net) (r : HttpRequest) (u : Url) (a : Answer) (hu : UrlText r.uri u)
    (hw : WebAddress u) (hs : net.send 0 { r with uri := u.print } = .ok a)
    (hn : a.status ∉ [301, 302, 303, 307, 308] ∨ ∀ p ∈ a.headers, p.1 ≠ c!"location") :
    execute net r = ([{ r with uri := u.print }], match a.body with
      | .error e => .error e
      | .ok b => .ok ⟨a.status, a.headers, b⟩) := by
  have hno : ∀ next, ¬ SendsTo net a u next := by
    rintro next ⟨h1, x, w, y, h2, -⟩
    rcases hn with h | h
    · exact h h1
    · exact h (c!"location", utf8 w) (by rw [h2]; simp) rfl
  obtain ⟨v, z, h1, h2, h3⟩ := C86_run net r u hu hw
  cases h1' : (execute net r).1 with
  | nil => rw [h1'] at h1; cases h1
  | cons x l =>
    rw [h1'] at h1 h3
    cases h1 with
    | last =>
      refine Prod.ext h1' ?_
      simp only [List.length_cons, List.length_nil, Nat.zero_add, Nat.sub_self] at h3
      generalize hres : (execute net r).2 = res at h3
      cases h3 with
      | failed h => rw [hs] at h; cases h
      | stopped h hst => rw [hs] at h; cases h; exact absurd hst (hno _)
      | broken h _ hb => rw [hs] at h; cases h; simp only [hb]
      | answered h _ hb => rw [hs] at h; cases h; simp only [hb]
    | step h hst => rw [hs] at h; cases h; exact absurd hst (hno _)

theorem redirects_header {net : Net} {n : Nat} {u v : Url} {r z : HttpRequest} {l : List HttpRequest}
    (h : Redirects net n u r l v z) (k t : Str) (hk : k ∉ bodyNames) (hs : k ∉ secretNames)
    (hr : k ≠ c!"referer") (hm : (k, t) ∈ r.headers) : ∀ q ∈ l, (k, t) ∈ q.headers := by
  induction h with
  | last => simpa using hm
  | step _ _ _ hn _ ih =>
    intro q hq
    rcases List.mem_cons.1 hq with rfl | hq
    · exact hm
    · exact ih ((hn.headers k t).2 ⟨.inr ⟨hm, fun e => absurd e hr, fun _ => hk⟩, fun _ => hs⟩) q hq

/-- **C86** The library's mark for the version of the protocol is on every request. -/
theorem C86_version_mark (net : Net) (r : HttpRequest) (h : (c!"prefer", c!"OID4VP-1.0.0") ∈ r.headers)
    (q : HttpRequest) (hq : q ∈ (execute net r).1) : (c!"prefer", c!"OID4VP-1.0.0") ∈ q.headers := by
  rcases run_or_none net r with h0 | ⟨u, v, z, -, -, hrun⟩
  · rw [h0] at hq; simp at hq
  · exact redirects_header hrun _ _ (by decide) (by decide) (by decide) h q hq

theorem redirects_head {net : Net} {n : Nat} {u v : Url} {r z : HttpRequest} {l : List HttpRequest}
    (h : Redirects net n u r l v z) : ∃ t, l = r :: t := by
  cases h <;> exact ⟨_, rfl⟩

theorem redirects_secret {net : Net} {n : Nat} {u v : Url} {r z : HttpRequest} {l : List HttpRequest}
    (h : Redirects net n u r l v z) (hu : u.WF) (hus : WebAddress u) (hr : r.uri = u.print) (i : Nat) (q : HttpRequest)
    (hq : l[i]? = some q) (k t : Str) (hk : k ∈ secretNames) (hm : (k, t) ∈ q.headers) :
    (k, t) ∈ r.headers ∧ ∀ j ≤ i, ∃ x w, l[j]? = some x ∧ UrlText x.uri w ∧ SameServer u w := by
  have refl : ∀ {u : Url}, u.WF → WebAddress u → SameServer u u := by
    intro u hu hus
    obtain ⟨a, b, h⟩ := place_exists hu hus
    exact ⟨a, b, h, h⟩
  have first : ∀ {u : Url} {r : HttpRequest}, u.WF → WebAddress u → r.uri = u.print →
      ∃ w, UrlText r.uri w ∧ SameServer u w := by
    intro u r hu hus hr
    exact ⟨u, by rw [hr]; exact (C70_url_iff _ _).1 (Url.parse_print hu), refl hu hus⟩
  induction h generalizing i with
  | last =>
    cases i with
    | zero =>
      cases hq
      refine ⟨hm, fun j hj => ?_⟩
      obtain rfl : j = 0 := by omega
      obtain ⟨w, hw⟩ := first hu hus hr
      exact ⟨_, w, rfl, hw⟩
    | succ i => simp at hq
  | @step n u r a next r' l v z hs hst hw hn hrun ih =>
    obtain ⟨w0, hw0⟩ := first hu hus hr
    cases i with
    | zero =>
      cases hq
      refine ⟨hm, fun j hj => ?_⟩
      obtain rfl : j = 0 := by omega
      exact ⟨_, w0, rfl, hw0⟩
    | succ i =>
      rw [List.getElem?_cons_succ] at hq
      have hnw := sendsTo_wf hu hst
      obtain ⟨h1, h2⟩ := ih hnw hw hn.uri i hq
      obtain ⟨h3, h4⟩ := (hn.headers k t).1 h1
      have hsame : SameServer next u := by
        by_contra hc
        exact h4 hc hk
      refine ⟨?_, fun j hj => ?_⟩
      · rcases h3 with ⟨rfl, -⟩ | h3
        · exact absurd hk (by decide)
        · exact h3.1
      · cases j with
        | zero => exact ⟨_, w0, rfl, hw0⟩
        | succ j =>
          obtain ⟨x, w, h5, h6, h7⟩ := h2 j (by omega)
          refine ⟨x, w, h5, h6, ?_⟩
          obtain ⟨a, b, g1, g2⟩ := hsame
          obtain ⟨c, d, g3, g4⟩ := h7
          have e := (hostPort_of g1).symm.trans (hostPort_of g3)
          simp only [Option.some.injEq, Prod.mk.injEq] at e
          obtain ⟨rfl, rfl⟩ := e
          exact ⟨a, b, g2, g4⟩

/-- **C86** Credentials stay at the host: a header with a secret is on a request only if it was on the given one, and
then that request and all before it went to the host and port of the first. -/
theorem C86_secrets_stay (net : Net) (r : HttpRequest) (u : Url) (hu : UrlText r.uri u) (i : Nat) (q : HttpRequest)
    (hq : (execute net r).1[i]? = some q) (k t : Str) (hk : k ∈ secretNames) (hm : (k, t) ∈ q.headers) :
    (k, t) ∈ r.headers ∧
      ∀ j ≤ i, ∃ x w, (execute net r).1[j]? = some x ∧ UrlText x.uri w ∧ SameServer u w := by
  rcases run_or_none net r with h | ⟨u', v, z, hu', hw, h⟩
  · rw [h] at hq; simp at hq
  · obtain rfl := C70_url_unique hu hu'
    exact redirects_secret h (Url.parse_wf ((C70_url_iff _ _).2 hu)) hw rfl i q hq k t hk hm

theorem redirects_referer {net : Net} {n : Nat} {u v : Url} {r z : HttpRequest} {l : List HttpRequest}
    (h : Redirects net n u r l v z) (hu : u.WF) (hr : r.uri = u.print) (i : Nat) (q : HttpRequest)
    (hq : l[i]? = some q) (t : Str) (hm : (c!"referer", t) ∈ q.headers) :
    (c!"referer", t) ∈ r.headers ∨
      ∃ j < i, ∃ x y w w', l[j]? = some x ∧ l[j + 1]? = some y ∧ UrlText x.uri w ∧ UrlText y.uri w' ∧
        RefererIs w' w t := by
  induction h generalizing i with
  | last =>
    cases i with
    | zero => cases hq; exact .inl hm
    | succ i => simp at hq
  | @step n u r a next r' l v z hs hst hw hn hrun ih =>
    cases i with
    | zero => cases hq; exact .inl hm
    | succ i =>
      rw [List.getElem?_cons_succ] at hq
      have hnw := sendsTo_wf hu hst
      rcases ih hnw hn.uri i hq with h1 | ⟨j, hj, x, y, w, w', h1, h2, h3⟩
      · obtain ⟨⟨-, h3⟩ | h3, -⟩ := (hn.headers _ t).1 h1
        · obtain ⟨l', rfl⟩ := redirects_head hrun
          refine .inr ⟨0, by omega, r, r', u, next, rfl, rfl, ?_, ?_, h3⟩
          · rw [hr]; exact (C70_url_iff _ _).1 (Url.parse_print hu)
          · rw [hn.uri]; exact (C70_url_iff _ _).1 (Url.parse_print hnw)
        · exact .inl h3.1
      · exact .inr ⟨j + 1, by omega, x, y, w, w', h1, h2, h3⟩

/-- **C86** Where a request comes from is told only by the address of an earlier request, without its
credentials and its fragment, and first to an address that is not unprotected while that one is protected. -/
theorem C86_referer (net : Net) (r : HttpRequest) (i : Nat) (q : HttpRequest)
    (hq : (execute net r).1[i]? = some q) (t : Str) (hm : (c!"referer", t) ∈ q.headers) :
    (c!"referer", t) ∈ r.headers ∨
      ∃ j < i, ∃ x y w w', (execute net r).1[j]? = some x ∧ (execute net r).1[j + 1]? = some y ∧
        UrlText x.uri w ∧ UrlText y.uri w' ∧ RefererIs w' w t := by
  rcases run_or_none net r with h | ⟨u, v, z, hu, hw, h⟩
  · rw [h] at hq; simp at hq
  · exact redirects_referer h (Url.parse_wf ((C70_url_iff _ _).2 hu)) rfl i q hq t hm

/-- **C86** A `location` that neither begins with a scheme nor with two separators leads to the same scheme and
authority. -/
theorem C86_relative_location {net : Net} {a : Answer} {cur next : Url} {text t : Str} {before after : List (Str × Bytes)}
    (h : SendsTo net a cur next) (ha : a.headers = before ++ (c!"location", utf8 text) :: after)
    (hb : ∀ p ∈ before, p.1 ≠ c!"location") (ht : Cleaned text t)
    (hn : ∀ written name rest, SchemeText written name → t ≠ written ++ c!":" ++ rest)
    (h2 : ∀ c d r, t = c :: d :: r → ¬ (Separator true c ∧ Separator true d)) :
    next.scheme = cur.scheme ∧ next.authority = cur.authority := by
  obtain ⟨-, b', text', a', h3, h4, h5, -⟩ := h
  have h6 := location_iff.2 ⟨before, after, ha, hb⟩
  rw [location_iff.2 ⟨b', a', h3, h4⟩] at h6
  have : text' = text := utf8_inj (Option.some.inj h6)
  subst this
  exact C110_same_place h5 ht hn h2

/-! ## What this means for a wallet that uses the client -/

theorem ofObject_returnUri_wf {o : UntypedObject} {a : RequestObject}
    (h : RequestObject.ofObject o = .ok a) : a.returnUri.WF := by
  obtain ⟨rfl, -, h2, h3⟩ := ofObject_iff.mp h
  have := (getMode_iff.mpr h2.mode).2
  cases hm : a.responseMode with
  | directPost => exact Url.parse_wf (h2.directPost (.inl hm)).choose_spec.2
  | directPostJwt => exact Url.parse_wf (h2.directPost (.inr hm)).choose_spec.2
  | dcApi => exact (h3 (.inl hm)).2
  | dcApiJwt => exact (h3 (.inr hm)).2
  | unsupported t => exact absurd hm (this t)

/-- **C86** When a wallet with this client submits a response, whatever carries the response on the
network is a `POST` of exactly what the library sends. The first request goes to the return address, and another
one is made only after answers 307 or 308 to all before it. -/
theorem C86_presentation_goes (net : Net) (ord : MapOrder) (w : Wallet) (a : RequestObject)
    (o : UntypedObject) (ha : RequestObject.ofObject o = .ok a) (r : AuthorizationResponse)
    (i : Nat) (q : HttpRequest) (hq : (OnNetwork net (w.submitResponse ord a r).1)[i]? = some q)
    (hb : q.body ≠ []) :
    (∃ p, (w.submitResponse ord a r).1 = [p] ∧ q.method = c!"POST" ∧ q.body = p.body) ∧
      (i = 0 → q.uri = a.returnUri.print) ∧
      ∀ j < i, ∃ x ans, (OnNetwork net (w.submitResponse ord a r).1)[j]? = some x ∧
        net.send j x = .ok ans ∧ ans.status ∈ [307, 308] := by
  have hl : (w.submitResponse ord a r).1 = [] ∨ ∃ t, (w.submitResponse ord a r).1 = [postRequest a.returnUri t] := by
    unfold Wallet.submitResponse
    split <;> try exact .inl rfl
    all_goals
      unfold postAndRead
      split
      · exact .inr ⟨_, rfl⟩
      · exact .inl rfl
  rcases hl with h | ⟨t, h⟩
  · rw [h] at hq; simp [OnNetwork] at hq
  · rw [h] at hq ⊢
    simp only [OnNetwork, List.flatMap_cons, List.flatMap_nil, List.append_nil] at hq ⊢
    rcases C86_body net _ i q hq with ⟨h1, h2, h3⟩ | ⟨-, h2, -⟩
    · refine ⟨⟨_, rfl, h1, h2⟩, ?_, h3⟩
      rintro rfl
      rcases run_or_none net (postRequest a.returnUri t) with h0 | ⟨u, v, z, hu, -, hr⟩
      · rw [h0] at hq; simp at hq
      · obtain ⟨l, hl⟩ := redirects_head hr
        rw [hl] at hq
        cases hq
        have hwf := (ofObject_returnUri_wf ha)
        rw [← C70_url_iff, show (postRequest a.returnUri t).uri = a.returnUri.print from rfl,
          Url.parse_print hwf] at hu
        cases hu
        rfl
    · exact absurd h2 hb

/-- **C86** (a finding) If the return address answers with a redirect 307 or 308, the response is
posted to the address it names, whatever that is. -/
theorem C86_presentation_forwarded (net : Net) (r : HttpRequest) (u next : Url) (a : Answer)
    (hu : UrlText r.uri u) (hw : WebAddress u) (hs : net.send 0 { r with uri := u.print } = .ok a)
    (hst : a.status = 307 ∨ a.status = 308) (hto : SendsTo net a u next) (hn : WebAddress next)
    (hl : 0 < net.limit) :
    ∃ q, (execute net r).1[1]? = some q ∧ q.uri = next.print ∧ q.method = r.method ∧ q.body = r.body := by
  obtain ⟨v, z, h1, h2, h3⟩ := C86_run net r u hu hw
  replace hu := Url.parse_wf ((C70_url_iff _ _).2 hu)
  obtain ⟨l, hl'⟩ := redirects_head h1
  rw [hl'] at h1 h3 ⊢
  have uniq : ∀ x, SendsTo net a u x → x = next := fun x hx =>
    Option.some.inj ((((sendsTo_iff hu r).1 hx).2).symm.trans ((sendsTo_iff hu r).1 hto).2)
  cases h1 with
  | last =>
    exfalso
    simp only [List.length_cons, List.length_nil, Nat.zero_add, Nat.sub_self] at h3
    generalize (execute net r).2 = res at h3
    cases h3 with
    | failed h => rw [hs] at h; cases h
    | stopped h hst' hor =>
      rw [hs] at h; cases h
      rw [uniq _ hst'] at hor
      rcases hor with h | h
      · exact h hn
      · omega
    | broken h h' => rw [hs] at h; cases h; exact h' _ hto
    | answered h h' => rw [hs] at h; cases h; exact h' _ hto
  | step h hst' _ hnr hr =>
    rw [hs] at h; cases h
    obtain rfl := uniq _ hst'
    obtain ⟨t, rfl⟩ := redirects_head hr
    obtain ⟨g1, g2⟩ := hnr.again (by simpa using hst)
    exact ⟨_, rfl, hnr.uri, g1, g2⟩

/-- **C86** The request object that a wallet with this client takes for a request by reference is the
text it was given at the end of the redirects, whatever the address there. -/
theorem C86_fetched_from (net : Net) (w : Wallet) (hh : w.http = asHttp net) (uri : Url) (hwf : uri.WF)
    (body : Str) (h : Fetched w uri body) :
    ∃ l v z a, Redirects net 0 uri ⟨c!"GET", uri.print, [(c!"prefer", c!"OID4VP-1.0.0")], []⟩ l v z ∧
      net.send (l.length - 1) z = .ok a ∧ 200 ≤ a.status ∧ a.status < 300 ∧ a.body = .ok (utf8 body) := by
  obtain ⟨resp, h1, h2, h3, h4, -⟩ := h
  rw [hh, asHttp] at h1
  have hu : UrlText uri.print uri := (C70_url_iff _ _).1 (Url.parse_print hwf)
  generalize hr : (⟨c!"GET", uri.print, [(c!"prefer", c!"OID4VP-1.0.0")], []⟩ : HttpRequest) = r at h1
  have huri : r.uri = uri.print := by rw [← hr]
  by_cases hw : WebAddress uri
  · obtain ⟨v, z, g1, -, g3⟩ := C86_run net r uri (by rw [huri]; exact hu) hw
    have hre : ({ r with uri := uri.print } : HttpRequest) = r := by rw [← hr]
    rw [hre] at g1
    split at h1
    · cases h1
    · rename_i res he
      cases h1
      rw [he] at g3
      generalize (execute net r).1 = l at g1 g3
      cases g3 with
      | @answered a b hs hns hb =>
        refine ⟨_, v, z, a, g1, hs, h2, h3, ?_⟩
        rw [hb, ← utf8Dec_eq_some.1 h4]
  · have := (C86_other_address net r (fun u' hu' hw' => by
      rw [huri] at hu'
      exact hw (C70_url_unique hu hu' ▸ hw'))).2
    split at h1
    · cases h1
    · rename_i res he
      exact absurd he (this res)

/-! ## Cases -/

/-- Two addresses. -/
def clientUrls : Url × Url :=
  (⟨c!"https", some c!"verifier.example", c!"/post", none, none⟩,
   ⟨c!"https", some c!"other.example", c!"/", none, none⟩)

/-- A network in which the first address answers with the given status and sends on to the second one, which
answers `200`. -/
def clientNet (status : Nat) : Net where
  send := fun _ r => if r.uri = clientUrls.1.print
    then .ok ⟨status, [(c!"date", [1]), (c!"location", utf8 c!"//other.example")], .ok []⟩
    else .ok ⟨200, [], .ok (utf8 c!"{}")⟩
  usable := fun _ => true
  limit := 10

/-- A response of a wallet. -/
def clientPost : HttpRequest := postRequest clientUrls.1 c!"vp_token=x"

/-- With 307 it is posted to both addresses, with 303 only to the first. -/
example : execute (clientNet 307) clientPost = ([clientPost, { clientPost with
      uri := c!"https://other.example/"
      headers := clientPost.headers ++ [(c!"referer", c!"https://verifier.example/post")] }],
      .ok ⟨200, [], utf8 c!"{}"⟩) ∧
    execute (clientNet 303) clientPost = ([clientPost, ⟨c!"GET", c!"https://other.example/",
      [(c!"prefer", c!"OID4VP-1.0.0"), (c!"referer", c!"https://verifier.example/post")], []⟩],
      .ok ⟨200, [], utf8 c!"{}"⟩) ∧
    execute (clientNet 204) clientPost =
      ([clientPost], .ok ⟨204, [(c!"date", [1]), (c!"location", utf8 c!"//other.example")], []⟩) := by
  refine ⟨rfl, rfl, rfl⟩

/-- The hypotheses of the theorems hold for it. -/
example : UrlText clientPost.uri clientUrls.1 ∧ WebAddress clientUrls.1 ∧
    SendsTo (clientNet 307) ⟨307, [(c!"date", [1]), (c!"location", utf8 c!"//other.example")], .ok []⟩ clientUrls.1 clientUrls.2 ∧
    (c!"prefer", c!"OID4VP-1.0.0") ∈ clientPost.headers := by
  refine ⟨(C70_url_iff _ _).1 (by decide), .inr rfl,
    ⟨by decide, [(c!"date", [1])], c!"//other.example", [], rfl, by simp, ?_, rfl⟩, by decide⟩
  rw [← C110_resolves (Url.parse_wf (s := c!"https://verifier.example/post") (by decide +kernel))]
  decide +kernel

/-- A request with a secret and with credentials in its address: the secret follows to another path of the host and to
its port written out, not to another host, where the credentials do not show either. -/
def secretRequest : HttpRequest := ⟨c!"GET", c!"https://u:p@verifier.example/a#f", [(c!"cookie", c!"1")], []⟩

def secretNet : Net where
  send := fun i _ => if i = 0 then .ok ⟨302, [(c!"location", utf8 c!"b?c")], .ok []⟩
    else if i = 1 then .ok ⟨302, [(c!"location", utf8 c!"https:https://verifier.example:443/d")], .ok []⟩
    else if i = 2 then .ok ⟨302, [(c!"location", utf8 c!"https://verifier.example:443/d#g")], .ok []⟩
    else if i = 3 then .ok ⟨302, [(c!"location", utf8 c!"http://verifier.example/e")], .ok []⟩
    else .ok ⟨200, [], .ok []⟩
  usable := fun _ => true
  limit := 10

example : (execute secretNet secretRequest).1.map (fun q => (q.uri, q.headers)) =
    [(c!"https://u:p@verifier.example/a#f", [(c!"cookie", c!"1")]),
     (c!"https://u:p@verifier.example/b?c", [(c!"cookie", c!"1"), (c!"referer", c!"https://verifier.example/a")]),
     (c!"https://u:p@verifier.example/https://verifier.example:443/d",
       [(c!"cookie", c!"1"), (c!"referer", c!"https://verifier.example/b?c")]),
     (c!"https://verifier.example/d#g",
       [(c!"cookie", c!"1"), (c!"referer", c!"https://verifier.example/https://verifier.example:443/d")]),
     (c!"http://verifier.example/e", [(c!"referer", c!"https://verifier.example/https://verifier.example:443/d")])] := by
  decide +kernel

/-- Such a `location`; and host and port of an address. -/
example : SendsTo secretNet ⟨302, [(c!"location", utf8 c!"b?c")], .ok []⟩
      ⟨c!"https", some c!"u:p@verifier.example", c!"/a", none, some c!"f"⟩
      ⟨c!"https", some c!"u:p@verifier.example", c!"/b", some c!"c", none⟩ ∧
    SameServer ⟨c!"https", some c!"u:p@verifier.example", c!"/a", none, none⟩
      ⟨c!"wss", some c!"verifier.example:443", c!"/", none, none⟩ ∧
    ¬ SameServer ⟨c!"https", some c!"verifier.example", c!"/", none, none⟩
      ⟨c!"http", some c!"verifier.example", c!"/", none, none⟩ := by
  have hh : HostText true c!"verifier.example" c!"verifier.example" := (hostText_iff _ _ _).mpr (by decide +kernel)
  refine ⟨⟨by decide, [], c!"b?c", [], rfl, by simp, ?_, rfl⟩, ⟨c!"verifier.example", 443, ?_, ?_⟩, ?_⟩
  · rw [← C110_resolves (Url.parse_wf (s := c!"https://u:p@verifier.example/a#f") (by decide +kernel))]
    decide +kernel
  · exact ⟨_, none, _, rfl, ⟨by decide, .inr ⟨c!"u:p", rfl⟩⟩, hh, .inl ⟨rfl, .https⟩⟩
  · exact ⟨_, some c!"443", _, rfl, ⟨by decide, .inl rfl⟩, hh,
      .inr ⟨_, rfl, by decide, (number10_iff _ _).mpr (by decide)⟩⟩
  · rintro ⟨h, p, h1, h2⟩
    have e1 := hostPort_of h1
    have e2 := hostPort_of h2
    rw [← e2] at e1
    revert e1
    decide

/-- Ten redirects are followed, and an eleventh is an error. -/
def loopNet (n : Nat) : Net := { clientNet 302 with
  send := fun i _ => if i < n then .ok ⟨302, [(c!"location", utf8 c!"//other.example")], .ok []⟩ else .ok ⟨200, [], .ok []⟩ }

example : (execute (loopNet 10) clientPost).1.length = 11 ∧ (execute (loopNet 10) clientPost).2 = .ok ⟨200, [], []⟩ ∧
    (execute (loopNet 11) clientPost).1.length = 11 ∧ (execute (loopNet 11) clientPost).2 = .error .http := by
  refine ⟨rfl, rfl, rfl, rfl⟩

/-- A request object fetched from `verifier.example` that comes from `other.example`. -/
example : Fetched { walletSample with http := asHttp (clientNet 302), uriOk := fun _ => true } clientUrls.1 c!"{}" :=
  ⟨⟨200, utf8 c!"{}"⟩, rfl, by decide, by decide, by decide, rfl⟩

/-- A network in which every address sends on to `other.example` with 308, once. -/
def forwardNet : Net := { clientNet 308 with
  send := fun i _ => if i = 0 then .ok ⟨308, [(c!"location", utf8 c!"//other.example")], .ok []⟩ else .ok ⟨200, [], .ok []⟩ }

/-- A wallet that submits the sample response there: it is posted twice. -/
example : RequestObject.ofObject explicitSample = .ok explicitObject ∧
    (OnNetwork forwardNet ((answering 200 []).submitResponse id explicitObject
      (.unencoded submitSample)).1).map (fun q => (q.method, q.uri, decide (q.body = []))) =
    [(c!"POST", explicitObject.returnUri.print, false), (c!"POST", c!"https://other.example/", false)] :=
  ⟨explicitSample_ok, by decide +kernel⟩

end Oid4vp
