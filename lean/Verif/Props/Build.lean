import Verif.Spec.Build
import Verif.Props.RequestUrl
import Verif.Props.Dcql
/-!
# C23–C26: building authorization requests
-/

set_option autoImplicit false

namespace Oid4vp

open Spec RequestBuilder

/-! ## The store as a map -/

theorem Store.get_insert (u u' : Uuid) (s : Session) (σ : Store) :
    (σ.insert u s).get u' = if u' = u then some s else σ.get u' := by
  induction σ with
  | nil => simp [Store.insert, Store.get]
  | cons p σ ih =>
    obtain ⟨k, t⟩ := p
    simp only [Store.insert]
    by_cases h : u = k
    · subst h
      rw [if_pos rfl]
      simp only [Store.get]
      by_cases h' : u' = u <;> simp [h']
    · rw [if_neg h]
      simp only [Store.get, ih]
      by_cases h1 : u' = k
      · subst h1
        rw [if_pos rfl, if_pos rfl, if_neg (Ne.symm h)]
      · rw [if_neg h1, if_neg h1]

theorem Store.get_remove_ne {u u' : Uuid} (h : u' ≠ u) (σ : Store) :
    (σ.remove u).get u' = σ.get u' := by
  induction σ with
  | nil => rfl
  | cons p σ ih =>
    obtain ⟨k, t⟩ := p
    simp only [Store.remove]
    by_cases h1 : u = k
    · subst h1
      rw [if_pos rfl]
      simp only [Store.get]
      rw [if_neg h]
    · rw [if_neg h1]
      simp only [Store.get, ih]

/-! ## The parts of building -/

theorem Url.pathPush_address {base v : Url} {id : Uuid} (hw : base.WF)
    (h : base.pathPush id.print = some v) : AddressOf base id v := by
  obtain ⟨hn, hv⟩ := Url.pathPush_eq h
  rcases hv with ⟨hl, rfl⟩ | ⟨hl, rfl⟩
  · right
    have : base.path = ['/'] := by
      cases ha : base.authority with
      | none =>
        obtain ⟨q, hq⟩ := hn ha
        rw [hq] at hl ⊢
        simp only [List.length_cons, Nat.add_eq_right, List.length_eq_zero_iff] at hl
        rw [hl]
      | some a =>
        rcases hw.path_auth (by rw [ha]; exact Option.some_ne_none a) with h0 | ⟨q, hq⟩
        · rw [h0] at hl; simp at hl
        · rw [hq] at hl ⊢
          simp only [List.length_cons, Nat.add_eq_right, List.length_eq_zero_iff] at hl
          rw [hl]
    refine ⟨this, ?_⟩
    rw [this, List.singleton_append]
  · left
    rfl

theorem Url.pathPush_uuid_wf {base v : Url} {id : Uuid} (hw : base.WF)
    (h : base.pathPush id.print = some v) : v.WF :=
  Url.pathPush_wf hw h (Uuid.print_seg _ id)

theorem prepare_ok {v : Verifier} {b : RequestBuilder} {uuid : Uuid} {o : UntypedObject}
    {q : DcqlQuery} (h : prepare v b uuid = .ok (o, q)) :
    b.dcqlQuery = some q ∧
    ∃ mode base, base = mset c!"dcql_query" q.toJson (mset c!"client_id" (.str v.client.id.val) b.params) ∧
      UntypedObject.get ResponseMode base = some (.ok mode) ∧
      ((IsDirectPost mode ∧ ∃ uri, v.submissionEndpoint.pathPush uuid.print = some uri ∧
          o = mset c!"response_uri" (.str uri.print) base) ∨ (IsDcApi mode ∧ o = base)) := by
  simp only [prepare] at h
  cases hq : b.dcqlQuery with
  | none => rw [hq] at h; simp at h
  | some q' =>
    rw [hq] at h; simp only at h
    have hbase : UntypedObject.put q' (UntypedObject.put v.client.id b.params) =
        mset c!"dcql_query" q'.toJson (mset c!"client_id" (.str v.client.id.val) b.params) := by
      rw [put_eq (t := q') (j := q'.toJson) rfl, put_eq (t := v.client.id) (j := .str v.client.id.val) rfl]
      rfl
    rw [hbase] at h
    generalize hb : mset c!"dcql_query" q'.toJson (mset c!"client_id" (.str v.client.id.val) b.params) = base at h
    cases h1 : parsingError (UntypedObject.get ResponseType base) with
    | error e => rw [h1] at h; simp at h
    | ok rt =>
      rw [h1] at h; simp only at h
      cases h2 : parsingError (UntypedObject.get ResponseMode base) with
      | error e => rw [h2] at h; simp at h
      | ok mode =>
        rw [h2] at h; simp only at h
        cases h3 : setResponseUri v.submissionEndpoint uuid mode base with
        | error e => rw [h3] at h; simp at h
        | ok o' =>
          rw [h3] at h
          simp only [Except.ok.injEq, Prod.mk.injEq] at h
          obtain ⟨rfl, rfl⟩ := h
          refine ⟨rfl, mode, base, hb.symm, parsingError_ok.mp h2, ?_⟩
          have hdp : ∀ m, (m = .directPost ∨ m = .directPostJwt) → mode = m →
              (match v.submissionEndpoint.pathPush uuid.print with
                | none => .error .parse
                | some uri => .ok (UntypedObject.put (ResponseUri.mk uri) base) : Res UntypedObject) = .ok o' →
              ∃ uri, v.submissionEndpoint.pathPush uuid.print = some uri ∧
                o' = mset c!"response_uri" (.str uri.print) base := by
            intro m _ _ hm
            cases hp : v.submissionEndpoint.pathPush uuid.print with
            | none => rw [hp] at hm; simp at hm
            | some uri =>
              rw [hp] at hm
              simp only [Except.ok.injEq] at hm
              refine ⟨uri, rfl, ?_⟩
              rw [← hm]
              exact put_eq (t := ResponseUri.mk uri) (j := .str uri.print) rfl base
          cases mode with
          | directPost => exact .inl ⟨.inl rfl, hdp _ (.inl rfl) rfl h3⟩
          | directPostJwt => exact .inl ⟨.inr rfl, hdp _ (.inr rfl) rfl h3⟩
          | dcApi => simp only [setResponseUri, Except.ok.injEq] at h3; exact .inr ⟨.inl rfl, h3.symm⟩
          | dcApiJwt => simp only [setResponseUri, Except.ok.injEq] at h3; exact .inr ⟨.inr rfl, h3.symm⟩
          | unsupported t => simp [setResponseUri] at h3

theorem indirection_ok {v : Verifier} {uuid : Uuid} {jwt : Str} {ind : RequestIndirection} {st : Status}
    (h : indirection v uuid jwt = .ok (ind, st)) :
    (v.passByReference = .no ∧ ind = .byValue jwt ∧ st = .sentRequest) ∨
    ∃ base uri, v.passByReference = .at base ∧ base.pathPush uuid.print = some uri ∧
      ind = .byReference uri ∧ st = .sentRequestByReference := by
  simp only [indirection] at h
  cases hp : v.passByReference with
  | no =>
    rw [hp] at h
    simp only [Except.ok.injEq, Prod.mk.injEq] at h
    exact .inl ⟨rfl, h.1.symm, h.2.symm⟩
  | «at» base =>
    rw [hp] at h; simp only at h
    cases hu : base.pathPush uuid.print with
    | none => rw [hu] at h; simp at h
    | some uri =>
      rw [hu] at h
      simp only [Except.ok.injEq, Prod.mk.injEq] at h
      exact .inr ⟨base, uri, rfl, hu, h.1.symm, h.2.symm⟩

theorem construct_ok {v : Verifier} {b : RequestBuilder} {uuid : Uuid} {wm : WalletMetadata}
    {s : Session} {url : Url} (h : construct v b uuid wm = .ok (s, url)) :
    ∃ o ps ind ep, prepare v b uuid = .ok (o, s.dcqlQuery) ∧
      UntypedObject.getOrDefault ClientIdPrefixesSupported wm.inner = .ok ps ∧
      v.client.pre ∈ ps.val ∧ RequestObject.ofObject o = .ok s.requestObject ∧
      v.client.generate s.requestObject = .ok s.jwt ∧
      indirection v uuid s.jwt = .ok (ind, s.status) ∧
      UntypedObject.get AuthorizationEndpoint wm.inner = some (.ok ep) ∧
      (AuthorizationRequest.mk (some v.client.id.val) ind).toUrl ep.val = .ok url ∧ s.uuid = uuid := by
  simp only [construct] at h
  cases h1 : prepare v b uuid with
  | error e => rw [h1] at h; simp at h
  | ok p =>
    obtain ⟨o, q⟩ := p
    rw [h1] at h; simp only at h
    cases h2 : UntypedObject.getOrDefault ClientIdPrefixesSupported wm.inner with
    | error e => rw [h2] at h; simp at h
    | ok ps =>
      rw [h2] at h; simp only at h
      split at h
      · rename_i hc
        cases h3 : RequestObject.ofObject o with
        | error e => rw [h3] at h; simp at h
        | ok aro =>
          rw [h3] at h; simp only at h
          cases h4 : v.client.generate aro with
          | error e => rw [h4] at h; simp at h
          | ok jwt =>
            rw [h4] at h; simp only at h
            cases h5 : indirection v uuid jwt with
            | error e => rw [h5] at h; simp at h
            | ok p =>
              obtain ⟨ind, st⟩ := p
              rw [h5] at h; simp only at h
              cases h6 : parsingError (UntypedObject.get AuthorizationEndpoint wm.inner) with
              | error e => rw [h6] at h; simp at h
              | ok ep =>
                rw [h6] at h; simp only at h
                cases h7 : (AuthorizationRequest.mk (some v.client.id.val) ind).toUrl ep.val with
                | error e => rw [h7] at h; simp at h
                | ok u =>
                  rw [h7] at h
                  simp only [Except.ok.injEq, Prod.mk.injEq] at h
                  obtain ⟨rfl, rfl⟩ := h
                  exact ⟨o, ps, ind, ep, rfl, rfl, List.contains_iff_mem.mp hc, h3, h4, h5,
                    parsingError_ok.mp h6, h7, rfl⟩
      · simp at h

theorem constructDcApi_ok {v : Verifier} {b : RequestBuilder} {uuid : Uuid} {s : Session}
    (h : constructDcApi v b uuid = .ok s) :
    ∃ o, prepare v b uuid = .ok (o, s.dcqlQuery) ∧ RequestObject.ofObject o = .ok s.requestObject ∧
      v.client.generate s.requestObject = .ok s.jwt ∧ s.status = .sentRequest ∧ s.uuid = uuid := by
  simp only [constructDcApi] at h
  cases h1 : prepare v b uuid with
  | error e => rw [h1] at h; simp at h
  | ok p =>
    obtain ⟨o, q⟩ := p
    rw [h1] at h; simp only at h
    cases h3 : RequestObject.ofObject o with
    | error e => rw [h3] at h; simp at h
    | ok aro =>
      rw [h3] at h; simp only at h
      cases h4 : v.client.generate aro with
      | error e => rw [h4] at h; simp at h
      | ok jwt =>
        rw [h4] at h
        simp only [Except.ok.injEq] at h
        subst h
        exact ⟨o, rfl, h3, h4, rfl, rfl⟩

theorem build_ok {v : Verifier} {b : RequestBuilder} {uuid : Uuid} {wm : WalletMetadata} {busy : Bool}
    {σ σ' : Store} {url : Url} (h : buildWithSessionId v b uuid wm busy σ = (σ', .ok url)) :
    ∃ s, construct v b uuid wm = .ok (s, url) ∧ StoredOne σ σ' uuid s := by
  simp only [buildWithSessionId] at h
  cases h1 : construct v b uuid wm with
  | error e => rw [h1] at h; simp at h
  | ok p =>
    obtain ⟨s, u⟩ := p
    rw [h1] at h
    have hid : s.uuid = uuid := by
      obtain ⟨_, _, _, _, _, _, _, _, _, _, _, _, hu⟩ := construct_ok h1
      exact hu
    cases busy with
    | true => simp [Store.initiate] at h
    | false =>
      simp only [Store.initiate, Bool.false_eq_true, if_false, Prod.mk.injEq, Except.ok.injEq] at h
      obtain ⟨rfl, rfl⟩ := h
      refine ⟨s, rfl, hid, ?_, ?_⟩
      · rw [Store.get_insert, if_pos hid.symm]
      · intro id' hne
        rw [Store.get_insert, if_neg (by rw [hid]; exact hne)]

theorem buildDcApi_ok {v : Verifier} {b : RequestBuilder} {uuid u : Uuid} {jwt : Str} {busy : Bool}
    {σ σ' : Store} (h : buildDcApi v b uuid busy σ = (σ', .ok (u, jwt))) :
    ∃ s, constructDcApi v b uuid = .ok s ∧ StoredOne σ σ' uuid s ∧ u = uuid ∧ jwt = s.jwt := by
  simp only [buildDcApi] at h
  cases h1 : constructDcApi v b uuid with
  | error e => rw [h1] at h; simp at h
  | ok s =>
    rw [h1] at h
    have hid : s.uuid = uuid := by
      obtain ⟨_, _, _, _, _, hu⟩ := constructDcApi_ok h1
      exact hu
    cases busy with
    | true => simp [Store.initiate] at h
    | false =>
      simp only [Store.initiate, Bool.false_eq_true, if_false, Prod.mk.injEq, Except.ok.injEq] at h
      obtain ⟨rfl, rfl, rfl⟩ := h
      refine ⟨s, rfl, ⟨hid, ?_, ?_⟩, rfl, rfl⟩
      · rw [Store.get_insert, if_pos hid.symm]
      · intro id' hne
        rw [Store.get_insert, if_neg (by rw [hid]; exact hne)]

/-! ## C23 -/

/-- **C23** Building stores exactly one session, holding what was built, with the right initial
status. -/
theorem C23_build_stores_one (v : Verifier) (b : RequestBuilder) (uuid : Uuid) (wm : WalletMetadata)
    (busy : Bool) (σ σ' : Store) (url : Url)
    (h : buildWithSessionId v b uuid wm busy σ = (σ', .ok url)) :
    ∃ s, StoredOne σ σ' uuid s ∧ Fresh v b s (v.passByReference ≠ .no) := by
  obtain ⟨s, hc, hs⟩ := build_ok h
  obtain ⟨o, ps, ind, ep, hp, -, -, ho, hg, hi, -, -, -⟩ := construct_ok hc
  refine ⟨s, hs, hg, (prepare_ok hp).1, ?_, C05_reparse ho⟩
  rcases indirection_ok hi with ⟨h1, -, h2⟩ | ⟨base, uri, h1, -, -, h2⟩
  · rw [h2, h1]; rfl
  · rw [h2, h1]; rfl

/-- **C23** If building fails, the store is unchanged. -/
theorem C23_failure_stores_nothing (v : Verifier) (b : RequestBuilder) (uuid : Uuid)
    (wm : WalletMetadata) (busy : Bool) (σ σ' : Store) (e : Err)
    (h : buildWithSessionId v b uuid wm busy σ = (σ', .error e)) : σ' = σ := by
  simp only [buildWithSessionId] at h
  cases h1 : construct v b uuid wm with
  | error e' => rw [h1] at h; simp only [Prod.mk.injEq] at h; exact h.1.symm
  | ok p =>
    rw [h1] at h
    cases busy with
    | true => simp only [Store.initiate, if_true, Prod.mk.injEq] at h; exact h.1.symm
    | false => simp [Store.initiate] at h

/-- **C23** The same for requests over the Digital Credentials API: one session is stored and its
JWT is returned, or nothing is stored. -/
theorem C23_dc_api (v : Verifier) (b : RequestBuilder) (uuid : Uuid) (busy : Bool) (σ σ' : Store) :
    (∀ u jwt, buildDcApi v b uuid busy σ = (σ', .ok (u, jwt)) →
      ∃ s, StoredOne σ σ' uuid s ∧ Fresh v b s false ∧ u = uuid ∧ jwt = s.jwt) ∧
    (∀ e, buildDcApi v b uuid busy σ = (σ', .error e) → σ' = σ) := by
  constructor
  · intro u jwt h
    obtain ⟨s, hc, hs, hu, hj⟩ := buildDcApi_ok h
    obtain ⟨o, hp, ho, hg, hst, -⟩ := constructDcApi_ok hc
    exact ⟨s, hs, ⟨hg, (prepare_ok hp).1, hst, C05_reparse ho⟩, hu, hj⟩
  · intro e h
    simp only [buildDcApi] at h
    cases h1 : constructDcApi v b uuid with
    | error e' => rw [h1] at h; simp only [Prod.mk.injEq] at h; exact h.1.symm
    | ok p =>
      rw [h1] at h
      cases busy with
      | true => simp only [Store.initiate, if_true, Prod.mk.injEq] at h; exact h.1.symm
      | false => simp [Store.initiate] at h

theorem hasPath_iff (u : Url) (seg : Str) : (∃ v, u.pathPush seg = some v) ↔ HasPath u := by
  constructor
  · rintro ⟨v, hv⟩
    have := (Url.pathPush_eq hv).1
    by_cases ha : u.authority = none
    · exact .inr (this ha)
    · exact .inl ha
  · intro h
    obtain ⟨sch, auth, path, q, f⟩ := u
    cases auth with
    | some a => exact ⟨_, rfl⟩
    | none =>
      rcases h with h | ⟨r, h⟩
      · exact absurd rfl h
      · simp only at h; subst h; exact ⟨_, rfl⟩

theorem supportsPrefix_iff (wm : WalletMetadata) (p : ClientIdScheme) :
    (∃ ps, UntypedObject.getOrDefault ClientIdPrefixesSupported wm.inner = .ok ps ∧ p ∈ ps.val) ↔
      SupportsPrefix wm.inner p.val := by
  rw [prefixes_getOrDefault]
  have hmem : ∀ l : List Str, p ∈ l.map ClientIdScheme.mk ↔ p.val ∈ l := by
    intro l
    simp only [List.mem_map]
    constructor
    · rintro ⟨x, hx, rfl⟩; exact hx
    · intro hx; exact ⟨p.val, hx, rfl⟩
  simp only [SupportsPrefix, Absent, readPrefixes]
  cases mget c!"client_id_prefixes_supported" wm.inner with
  | none =>
    constructor
    · rintro ⟨ps, hps, hp⟩
      cases hps
      exact .inl ⟨rfl, by simpa using (hmem _).mp hp⟩
    · rintro (⟨-, h⟩ | ⟨l, h, -⟩)
      · exact ⟨_, rfl, (hmem _).mpr (by simp [h])⟩
      · simp at h
  | some j =>
    constructor
    · rintro ⟨ps, hps, hp⟩
      obtain ⟨l, hl, rfl⟩ := map_ok_iff.mp hps
      exact .inr ⟨l, by rw [strsOfJson_ok.mp hl]; rfl, (hmem _).mp hp⟩
    · rintro (⟨h, -⟩ | ⟨l, h, hp⟩)
      · simp at h
      · simp only [Option.some.injEq] at h
        subst h
        have : strsOfJson (.arr (l.map .str)) = .ok l := strsOfJson_ok.mpr rfl
        exact ⟨_, by simp only [this]; rfl, (hmem _).mpr hp⟩

theorem endpoint_get (o : UntypedObject) (u : Url) :
    UntypedObject.get AuthorizationEndpoint o = some (.ok ⟨u⟩) ↔
      ∃ s, HasText o c!"authorization_endpoint" s ∧ Url.parse s = some u := by
  simp only [UntypedObject.get, HasText]
  have hk : TypedParameter.key AuthorizationEndpoint = c!"authorization_endpoint" := rfl
  rw [hk]
  cases mget c!"authorization_endpoint" o with
  | none => simp
  | some j =>
    simp only [Option.some.injEq, TypedParameter.ofJson]
    constructor
    · intro h
      obtain ⟨u', hu', he⟩ := map_ok_iff.mp h
      cases he
      cases j with
      | str t =>
        refine ⟨t, rfl, ?_⟩
        simp only [Url.ofJson] at hu'
        cases hp : Url.parse t with
        | none => rw [hp] at hu'; simp [orErr] at hu'
        | some x => rw [hp] at hu'; simp only [orErr, Except.ok.injEq] at hu'; rw [hu']
      | _ => simp [Url.ofJson] at hu'
    · rintro ⟨t, rfl, ht⟩
      simp [Url.ofJson, ht, orErr, Except.map]

/-- **C23** A request is built exactly when the parameters, the wallet's metadata and the
verifier's addresses allow it and the store can be used (for a client whose signing works). -/
theorem C23_succeeds_iff (v : Verifier) (b : RequestBuilder) (uuid : Uuid) (wm : WalletMetadata)
    (busy : Bool) (σ : Store) (hw : v.submissionEndpoint.WF)
    (hg : ∀ a, ∃ jwt, v.client.generate a = .ok jwt) :
    (∃ url, (buildWithSessionId v b uuid wm busy σ).2 = .ok url) ↔ busy = false ∧ Buildable v b wm := by
  constructor
  · rintro ⟨url, h⟩
    have h' : buildWithSessionId v b uuid wm busy σ =
        ((buildWithSessionId v b uuid wm busy σ).1, .ok url) := by rw [← h]
    obtain ⟨s, hc, hs⟩ := build_ok h'
    refine ⟨?_, ?_⟩
    · cases busy with
      | false => rfl
      | true => simp only [buildWithSessionId, hc, Store.initiate, if_true] at h; simp at h
    · obtain ⟨o, ps, ind, ep, hp, hps, hmem, ho, -, hi, hep, -, -⟩ := construct_ok hc
      obtain ⟨hq, mode, base, hbase, hmode, hcase⟩ := prepare_ok hp
      obtain ⟨rfl, hredir, hrep, hdc⟩ := ofObject_iff.mp ho
      have hmget : ∀ k, k ≠ c!"response_uri" → k ≠ c!"client_id" → k ≠ c!"dcql_query" →
          mget k s.requestObject.inner = mget k b.params := by
        intro k hk h1 h2
        have : mget k base = mget k b.params := by
          rw [hbase, mget_mset_ne h2, mget_mset_ne h1]
        rw [← this]
        rcases hcase with ⟨-, uri, -, ho'⟩ | ⟨-, ho'⟩
        · rw [ho']; exact mget_mset_ne hk _ _
        · rw [ho']
      refine ⟨by rw [hq]; simp, ⟨?_, ?_, ?_, ?_⟩, (supportsPrefix_iff wm _).mp ⟨ps, hps, hmem⟩, ?_, ?_⟩
      · rw [Absent, ← hmget _ (by decide) (by decide) (by decide)]; exact hredir
      · obtain ⟨t, ht, -⟩ := hrep.responseType
        exact ⟨t, by rw [HasText, ← hmget _ (by decide) (by decide) (by decide)]; exact ht⟩
      · exact ⟨_, by rw [HasText, ← hmget _ (by decide) (by decide) (by decide)]; exact hrep.nonce⟩
      · obtain ⟨t, ht, hm⟩ := (get_text (f := ResponseMode.ofStr) (fun _ => rfl) _ _).mp hmode
        have ht' : HasText base c!"response_mode" t := ht
        have htp : HasText b.params c!"response_mode" t := by
          rw [HasText, hbase, mget_mset_ne (by decide), mget_mset_ne (by decide)] at ht'
          exact ht'
        refine ⟨t, mode, htp, ?_, ?_⟩
        · refine knownMode_iff.mpr ⟨hm, ?_⟩
          rintro t' rfl
          rcases hcase with ⟨h | h, -⟩ | ⟨h | h, -⟩ <;> simp at h
        · rcases hcase with ⟨h, uri, hpush, -⟩ | ⟨h, ho'⟩
          · exact .inl ⟨h, (hasPath_iff _ _).mp ⟨_, hpush⟩⟩
          · refine .inr ⟨h, ?_⟩
            have hmode' : s.requestObject.responseMode = mode := by
              have ht2 : HasText s.requestObject.inner c!"response_mode" t := by rw [ho']; exact ht'
              rcases hrep.mode with ⟨ha, -⟩ | ⟨t', h1, h2⟩
              · rw [Absent, ht2] at ha; simp at ha
              · rw [HasText, ht2] at h1
                simp only [Option.some.injEq, Json.str.injEq] at h1
                subst h1
                rw [← (knownMode_iff.mp h2).1, hm]
            have := (hdc (by rw [hmode']; exact h)).1
            rw [Absent, ho', hbase, mget_mset_ne (by decide), mget_mset_ne (by decide)] at this
            exact this
      · intro base' hb'
        rcases indirection_ok hi with ⟨hno, -⟩ | ⟨base'', uri, h1, h2, -⟩
        · rw [hno] at hb'; simp at hb'
        · rw [hb'] at h1; cases h1; exact (hasPath_iff _ _).mp ⟨_, h2⟩
      · obtain ⟨t, ht, hp⟩ := (endpoint_get wm.inner ep.val).mp hep
        exact ⟨t, ep.val, ht, hp⟩
  · rintro ⟨rfl, ⟨hq, ⟨hredir, ⟨trt, hrt⟩, ⟨tn, hn⟩, t, m, hmt, hkm, hcase⟩, hsup, href, t', ep, hep, hpep⟩⟩
    cases hq' : b.dcqlQuery with
    | none => exact absurd hq' hq
    | some q =>
      generalize hb : mset c!"dcql_query" q.toJson (mset c!"client_id" (.str v.client.id.val) b.params) = base
      have hput : UntypedObject.put q (UntypedObject.put v.client.id b.params) = base := by
        rw [put_eq (t := q) (j := q.toJson) rfl, put_eq (t := v.client.id) (j := .str v.client.id.val) rfl]
        exact hb
      have hbk : ∀ k, k ≠ c!"client_id" → k ≠ c!"dcql_query" → mget k base = mget k b.params := by
        intro k h1 h2; rw [← hb, mget_mset_ne h2, mget_mset_ne h1]
      have h1 : UntypedObject.get ResponseType base = some (.ok (ResponseType.ofStr trt)) :=
        (get_text (f := ResponseType.ofStr) (fun _ => rfl) _ _).mpr
          ⟨trt, (hbk _ (by decide) (by decide)).trans hrt, rfl⟩
      have h2 : UntypedObject.get ResponseMode base = some (.ok m) :=
        (get_text (f := ResponseMode.ofStr) (fun _ => rfl) _ _).mpr
          ⟨t, (hbk _ (by decide) (by decide)).trans hmt, (knownMode_iff.mp hkm).1⟩
      have hprep : ∃ o, prepare v b uuid = .ok (o, q) ∧ Acceptable o := by
        have hgen : ∀ o, setResponseUri v.submissionEndpoint uuid m base = .ok o →
            (∀ k, k ≠ c!"response_uri" → mget k o = mget k base) →
            ((IsDirectPost m ∧ ∃ s u, HasText o c!"response_uri" s ∧ Url.parse s = some u) ∨
              (IsDcApi m ∧ Absent o c!"response_uri")) →
            ∃ o, prepare v b uuid = .ok (o, q) ∧ Acceptable o := by
          intro o ho hk hr
          refine ⟨o, ?_, ?_, ?_, ⟨m, .inr ⟨t, ?_, hkm⟩, hr⟩, ⟨trt, ?_⟩, ⟨tn, ?_⟩⟩
          · simp only [prepare, hq', hput, h1, h2, parsingError, ho]
          · refine .inr ⟨v.client.id.val, ?_⟩
            rw [HasText, hk _ (by decide), ← hb, mget_mset_ne (by decide), mget_mset_self]
          · rw [Absent, hk _ (by decide), hbk _ (by decide) (by decide)]; exact hredir
          · rw [HasText, hk _ (by decide), hbk _ (by decide) (by decide)]; exact hmt
          · rw [HasText, hk _ (by decide), hbk _ (by decide) (by decide)]; exact hrt
          · rw [HasText, hk _ (by decide), hbk _ (by decide) (by decide)]; exact hn
        rcases hcase with ⟨hd, hpath⟩ | ⟨hd, habs⟩
        · obtain ⟨uri, huri⟩ := (hasPath_iff v.submissionEndpoint uuid.print).mpr hpath
          have hp := put_eq (t := ResponseUri.mk uri) (j := .str uri.print) rfl base
          refine hgen (mset c!"response_uri" (.str uri.print) base) ?_ (fun k hk => mget_mset_ne hk _ _)
            (.inl ⟨hd, uri.print, uri, by rw [HasText, mget_mset_self], Url.parse_print (Url.pathPush_uuid_wf hw huri)⟩)
          rcases hd with rfl | rfl <;> simp only [setResponseUri, huri, hp] <;> rfl
        · refine hgen base ?_ (fun _ _ => rfl) (.inr ⟨hd, by
            rw [Absent, hbk _ (by decide) (by decide)]; exact habs⟩)
          rcases hd with rfl | rfl <;> rfl
      obtain ⟨o, hprep, hacc⟩ := hprep
      obtain ⟨a, ha⟩ := (C04_accepted_iff o).mpr hacc
      obtain ⟨jwt, hj⟩ := hg a
      obtain ⟨ps, hps, hmem⟩ := (supportsPrefix_iff wm _).mpr hsup
      have hep' := (endpoint_get wm.inner ep).mpr ⟨t', hep, hpep⟩
      have hind : ∃ ind st, indirection v uuid jwt = .ok (ind, st) ∧
          ∃ url, (AuthorizationRequest.mk (some v.client.id.val) ind).toUrl ep = .ok url := by
        cases hpr : v.passByReference with
        | no => exact ⟨.byValue jwt, .sentRequest, by simp only [indirection, hpr], _, rfl⟩
        | «at» u =>
          obtain ⟨uri, huri⟩ := (hasPath_iff u uuid.print).mpr (href u hpr)
          exact ⟨.byReference uri, .sentRequestByReference, by simp only [indirection, hpr, huri], _, rfl⟩
      obtain ⟨ind, st, hi, url, hurl⟩ := hind
      refine ⟨url, ?_⟩
      simp only [buildWithSessionId, construct, hprep, hps, List.contains_iff_mem.mpr hmem, if_true, ha, hj,
        hi, hep', parsingError, hurl, Store.initiate, Bool.false_eq_true, if_false]

/-! ## C24 -/

theorem ownValues_of {v : Verifier} {b : RequestBuilder} {uuid : Uuid} {o : UntypedObject} {s : Session}
    (hw : v.submissionEndpoint.WF) (hp : prepare v b uuid = .ok (o, s.dcqlQuery))
    (ho : RequestObject.ofObject o = .ok s.requestObject) (hu : s.uuid = uuid) :
    OwnValues v b.params s := by
  obtain ⟨-, mode, base, hbase, hmode, hcase⟩ := prepare_ok hp
  obtain ⟨rfl, -, hrep, hdc⟩ := ofObject_iff.mp ho
  subst hu
  -- the mode of the object is the mode that was read
  have hmget : ∀ k, k ≠ c!"response_uri" → mget k s.requestObject.inner = mget k base := by
    intro k hk
    rcases hcase with ⟨-, uri, -, ho'⟩ | ⟨-, ho'⟩
    · rw [ho']; exact mget_mset_ne hk _ _
    · rw [ho']
  have hmode' : s.requestObject.responseMode = mode := by
    obtain ⟨t, ht, hm⟩ := (get_text (f := ResponseMode.ofStr) (fun _ => rfl) _ _).mp hmode
    have ht' : mget c!"response_mode" s.requestObject.inner = some (.str t) :=
      (hmget _ (by decide)).trans ht
    rcases hrep.mode with ⟨ha, -⟩ | ⟨t', h1, h2⟩
    · rw [Absent, ht'] at ha; simp at ha
    · rw [HasText, ht'] at h1
      simp only [Option.some.injEq, Json.str.injEq] at h1
      subst h1
      rw [← (knownMode_iff.mp h2).1, hm]
  have hcid : mget c!"client_id" s.requestObject.inner = some (.str v.client.id.val) := by
    rw [hmget _ (by decide), hbase, mget_mset_ne (by decide), mget_mset_self]
  refine ⟨hcid, ?_, ?_, ?_, ?_, ?_⟩
  · have := hrep.clientId
    cases hc : s.requestObject.clientId with
    | none => rw [hc] at this; simp only [ClientIdIs, Absent, hcid] at this; simp at this
    | some c =>
      rw [hc] at this
      simp only [ClientIdIs, HasText, hcid, Option.some.injEq, Json.str.injEq] at this
      rw [show v.client.id = c from by
        cases hv : v.client.id; cases c; rw [hv] at this; simp only at this; rw [this]]
  · rw [hmget _ (by decide), hbase, mget_mset_self]
  · intro hdp
    rw [hmode'] at hdp
    rcases hcase with ⟨-, uri, hpush, ho'⟩ | ⟨hd, -⟩
    · have hr : mget c!"response_uri" s.requestObject.inner = some (.str uri.print) := by
        rw [ho', mget_mset_self]
      obtain ⟨t, h1, h2⟩ := hrep.directPost (by rw [hmode']; exact hdp)
      rw [HasText, hr] at h1
      simp only [Option.some.injEq, Json.str.injEq] at h1
      subst h1
      rw [Url.parse_print (Url.pathPush_uuid_wf hw hpush)] at h2
      simp only [Option.some.injEq] at h2
      rw [← h2]
      exact ⟨Url.pathPush_address hw hpush, hr⟩
    · rcases hdp with rfl | rfl <;> rcases hd with h | h <;> simp at h
  · intro hd
    exact (hdc hd).1
  · intro k hk
    simp only [ownKeys, List.mem_cons, List.not_mem_nil, or_false, not_or] at hk
    rw [hmget k hk.2.2, hbase, mget_mset_ne hk.2.1, mget_mset_ne hk.1]

/-- **C24** In every request built, client_id, dcql_query and response_uri are the verifier's own,
and every other parameter is the one the caller (or the defaults) gave. -/
theorem C24_own_values_win (v : Verifier) (b : RequestBuilder) (uuid : Uuid) (wm : WalletMetadata)
    (busy : Bool) (σ σ' : Store) (url : Url) (hw : v.submissionEndpoint.WF)
    (h : buildWithSessionId v b uuid wm busy σ = (σ', .ok url)) :
    ∃ s, σ'.get uuid = some s ∧ b.dcqlQuery = some s.dcqlQuery ∧ OwnValues v b.params s := by
  obtain ⟨s, hc, hs⟩ := build_ok h
  obtain ⟨o, ps, ind, ep, hp, -, -, ho, -, -, -, -, hu⟩ := construct_ok hc
  exact ⟨s, hs.2.1, (prepare_ok hp).1, ownValues_of hw hp ho hu⟩

/-- **C24** The same over the Digital Credentials API. -/
theorem C24_own_values_win_dc_api (v : Verifier) (b : RequestBuilder) (uuid : Uuid) (busy : Bool)
    (σ σ' : Store) (p : Uuid × Str) (hw : v.submissionEndpoint.WF)
    (h : buildDcApi v b uuid busy σ = (σ', .ok p)) :
    ∃ s, σ'.get uuid = some s ∧ b.dcqlQuery = some s.dcqlQuery ∧ OwnValues v b.params s := by
  obtain ⟨u, jwt⟩ := p
  obtain ⟨s, hc, hs, -⟩ := buildDcApi_ok h
  obtain ⟨o, hp, ho, -, -, hu⟩ := constructDcApi_ok hc
  exact ⟨s, hs.2.1, (prepare_ok hp).1, ownValues_of hw hp ho hu⟩

/-- **C24** What the caller gives for client_id and dcql_query, and with a direct_post mode for
response_uri, has no influence at all on what is built. -/
theorem C24_caller_values_ignored (v : Verifier) (q : Option DcqlQuery) (params params' : UntypedObject)
    (uuid : Uuid) (wm : WalletMetadata) (busy : Bool) (σ : Store) (hs : Sorted params)
    (hs' : Sorted params')
    (he : ∀ k, k ≠ c!"client_id" → k ≠ c!"dcql_query" →
      (k = c!"response_uri" → ¬ (HasText params c!"response_mode" c!"direct_post" ∨
        HasText params c!"response_mode" c!"direct_post.jwt")) → mget k params = mget k params') :
    buildWithSessionId v ⟨q, params⟩ uuid wm busy σ = buildWithSessionId v ⟨q, params'⟩ uuid wm busy σ ∧
    buildDcApi v ⟨q, params⟩ uuid busy σ = buildDcApi v ⟨q, params'⟩ uuid busy σ := by
  have key : prepare v ⟨q, params⟩ uuid = prepare v ⟨q, params'⟩ uuid := by
    simp only [prepare]
    cases q with
    | none => rfl
    | some q =>
      have hput : ∀ p : UntypedObject, UntypedObject.put q (UntypedObject.put v.client.id p) =
          mset c!"dcql_query" q.toJson (mset c!"client_id" (.str v.client.id.val) p) := by
        intro p
        rw [put_eq (t := q) (j := q.toJson) rfl, put_eq (t := v.client.id) (j := .str v.client.id.val) rfl]
        rfl
      simp only [hput]
      generalize hb : mset c!"dcql_query" q.toJson (mset c!"client_id" (.str v.client.id.val) params) = base
      generalize hb' : mset c!"dcql_query" q.toJson (mset c!"client_id" (.str v.client.id.val) params') = base'
      have hsb : Sorted base := by rw [← hb]; exact sorted_mset (sorted_mset hs)
      have hsb' : Sorted base' := by rw [← hb']; exact sorted_mset (sorted_mset hs')
      have hbk : ∀ k, (k = c!"response_uri" → ¬ (HasText params c!"response_mode" c!"direct_post" ∨
          HasText params c!"response_mode" c!"direct_post.jwt")) → mget k base = mget k base' := by
        intro k hk
        rw [← hb, ← hb', mget_mset, mget_mset, mget_mset, mget_mset]
        by_cases h1 : k = c!"dcql_query"
        · rw [if_pos h1, if_pos h1]
        · by_cases h2 : k = c!"client_id"
          · rw [if_neg h1, if_neg h1, if_pos h2, if_pos h2]
          · rw [if_neg h1, if_neg h1, if_neg h2, if_neg h2]
            exact he k h2 h1 hk
      have hrt : UntypedObject.get ResponseType base = UntypedObject.get ResponseType base' := by
        simp only [UntypedObject.get]
        rw [hbk (TypedParameter.key ResponseType) (fun h => absurd h (by decide))]
      have hrm : UntypedObject.get ResponseMode base = UntypedObject.get ResponseMode base' := by
        simp only [UntypedObject.get]
        rw [hbk (TypedParameter.key ResponseMode) (fun h => absurd h (by decide))]
      rw [hrt, hrm]
      cases parsingError (UntypedObject.get ResponseType base') with
      | error e => rfl
      | ok rt =>
        cases hm : parsingError (UntypedObject.get ResponseMode base') with
        | error e => rfl
        | ok mode =>
          simp only
          have hset : setResponseUri v.submissionEndpoint uuid mode base =
              setResponseUri v.submissionEndpoint uuid mode base' := by
            have hdp : ∀ uri : Url, UntypedObject.put (ResponseUri.mk uri) base =
                UntypedObject.put (ResponseUri.mk uri) base' := by
              intro uri
              rw [put_eq (t := ResponseUri.mk uri) (j := .str uri.print) rfl,
                put_eq (t := ResponseUri.mk uri) (j := .str uri.print) rfl]
              refine map_ext (sorted_mset hsb) (sorted_mset hsb') ?_
              intro k
              rw [mget_mset, mget_mset]
              by_cases h1 : k = TypedParameter.key ResponseUri
              · rw [if_pos h1, if_pos h1]
              · rw [if_neg h1, if_neg h1]
                exact hbk k (fun h => absurd h h1)
            have htext : ∃ t, HasText params c!"response_mode" t ∧ ResponseMode.ofStr t = mode := by
              have := parsingError_ok.mp hm
              rw [← hrm] at this
              obtain ⟨t, ht, hm'⟩ := (get_text (f := ResponseMode.ofStr) (fun _ => rfl) _ _).mp this
              refine ⟨t, ?_, hm'⟩
              have ht' : mget c!"response_mode" base = some (.str t) := ht
              rw [← hb, mget_mset_ne (by decide), mget_mset_ne (by decide)] at ht'
              exact ht'
            have hdc : IsDcApi mode → base = base' := by
              intro hd
              refine map_ext hsb hsb' ?_
              intro k
              refine hbk k ?_
              rintro -
              obtain ⟨t, ht, hm'⟩ := htext
              rintro (h | h)
              · rw [HasText] at h ht
                rw [h] at ht
                simp only [Option.some.injEq, Json.str.injEq] at ht
                subst ht
                rw [← hm'] at hd
                rcases hd with hd | hd <;> revert hd <;> decide
              · rw [HasText] at h ht
                rw [h] at ht
                simp only [Option.some.injEq, Json.str.injEq] at ht
                subst ht
                rw [← hm'] at hd
                rcases hd with hd | hd <;> revert hd <;> decide
            cases mode with
            | directPost => simp only [setResponseUri, hdp]
            | directPostJwt => simp only [setResponseUri, hdp]
            | dcApi => rw [hdc (.inl rfl)]
            | dcApiJwt => rw [hdc (.inr rfl)]
            | unsupported t => rfl
          rw [hset]
  simp only [buildWithSessionId, construct, buildDcApi, constructDcApi, key, and_self]

/-! ## C25 -/

/-- **C25** The URL handed to the wallet refers to the stored session: parsed against the wallet's
endpoint (also from its text) it carries the client's id and either the stored JWT or the address
of the session, for which retrieval returns the stored JWT. -/
theorem C25_url_refers_to_session (v : Verifier) (b : RequestBuilder) (uuid : Uuid)
    (wm : WalletMetadata) (busy : Bool) (σ σ' : Store) (url : Url)
    (hw : ∀ base, v.passByReference = .at base → base.WF)
    (h : buildWithSessionId v b uuid wm busy σ = (σ', .ok url)) :
    ∃ s ep, σ'.get uuid = some s ∧ UntypedObject.get AuthorizationEndpoint wm.inner = some (.ok ep) ∧
      Url.parse url.print = some url ∧
      (v.passByReference = .no →
        AuthorizationRequest.fromUrl url ep.val = .ok ⟨some v.client.id.val, .byValue s.jwt⟩) ∧
      (∀ base, v.passByReference = .at base → ∃ uri, AddressOf base uuid uri ∧ uri.WF ∧
        AuthorizationRequest.fromUrl url ep.val = .ok ⟨some v.client.id.val, .byReference uri⟩ ∧
        (retrieve uuid σ').2 = .ok s.jwt) := by
  obtain ⟨s, hc, hs⟩ := build_ok h
  obtain ⟨o, ps, ind, ep, -, -, -, -, -, hi, hep, hurl, hu⟩ := construct_ok hc
  have hepw : ep.val.WF := by
    simp only [UntypedObject.get] at hep
    cases hg : mget (TypedParameter.key AuthorizationEndpoint) wm.inner with
    | none => rw [hg] at hep; simp at hep
    | some j =>
      rw [hg] at hep
      simp only [Option.some.injEq, TypedParameter.ofJson] at hep
      obtain ⟨u, hu, rfl⟩ := map_ok_iff.mp hep
      cases j with
      | str t =>
        simp only [Url.ofJson] at hu
        cases hp : Url.parse t with
        | none => rw [hp] at hu; simp [orErr] at hu
        | some u' =>
          rw [hp] at hu
          simp only [orErr, Except.ok.injEq] at hu
          rw [← hu]; exact Url.parse_wf hp
      | _ => simp [Url.ofJson] at hu
  have hrep : IndirectionRep ind ∧ Renderable ind := by
    rcases indirection_ok hi with ⟨-, rfl, -⟩ | ⟨base, uri, h1, h2, rfl, -⟩
    · exact ⟨trivial, trivial⟩
    · exact ⟨Url.pathPush_uuid_wf (hw base h1) h2, trivial⟩
  have hfrom : AuthorizationRequest.fromUrl url ep.val = .ok ⟨some v.client.id.val, ind⟩ := by
    obtain ⟨u', h1, h2⟩ := (C07_url_roundtrip ⟨some v.client.id.val, ind⟩ ep.val hrep.1).mpr hrep.2
    rw [hurl] at h1
    cases h1
    exact h2
  have hprint : Url.parse url.print = some url := by
    obtain ⟨u', u'', h1, h2, -⟩ := C07_url_text_roundtrip ⟨some v.client.id.val, ind⟩ ep.val hrep.1 hrep.2 hepw
    rw [hurl] at h1
    cases h1
    refine Url.parse_print ?_
    simp only [AuthorizationRequest.toUrl] at hurl
    cases hf : (AuthorizationRequest.mk (some v.client.id.val) ind).fields with
    | error e => rw [hf] at hurl; simp at hurl
    | ok l =>
      rw [hf] at hurl
      simp only [Except.ok.injEq] at hurl
      rw [← hurl]
      exact Url.setQuery_wf hepw (formSer_queryKeep _ l)
  have hret : (retrieve uuid σ').2 = .ok s.jwt := by
    have hg : σ'.getSession false uuid = .ok s := by
      simp [Store.getSession, hs.2.1]
    simp only [retrieve, hg]
    split
    · simp [Store.updateStatus, hs.2.1]
    · rfl
  refine ⟨s, ep, hs.2.1, hep, hprint, ?_, ?_⟩
  · intro hno
    rcases indirection_ok hi with ⟨-, rfl, -⟩ | ⟨base, uri, h1, -⟩
    · exact hfrom
    · rw [hno] at h1; simp at h1
  · intro base hat
    rcases indirection_ok hi with ⟨hno, -⟩ | ⟨base', uri, h1, h2, rfl, -⟩
    · rw [hno] at hat; simp at hat
    · rw [hat] at h1
      cases h1
      exact ⟨uri, Url.pathPush_address (hw base hat) h2, Url.pathPush_uuid_wf (hw base hat) h2,
        hfrom, hret⟩

/-! ## C26 -/

theorem address_inj {base u : Url} {i i' : Uuid} (h : AddressOf base i u) (h' : AddressOf base i' u) :
    i = i' := by
  have hslash : ∀ i : Uuid, '/' ∉ i.print := fun i => (Uuid.print_delims i).1
  have hp : u.path = base.path ++ '/' :: i.print ∨ (base.path = ['/'] ∧ u.path = '/' :: i.print) := by
    rcases h with rfl | ⟨hb, rfl⟩
    · exact .inl rfl
    · exact .inr ⟨hb, rfl⟩
  have hp' : u.path = base.path ++ '/' :: i'.print ∨ (base.path = ['/'] ∧ u.path = '/' :: i'.print) := by
    rcases h' with rfl | ⟨hb, rfl⟩
    · exact .inl rfl
    · exact .inr ⟨hb, rfl⟩
  apply Uuid.print_inj
  rcases hp with hp | ⟨hb, hp⟩ <;> rcases hp' with hp' | ⟨hb', hp'⟩
  · rw [hp] at hp'
    simpa using List.append_cancel_left hp'
  · rw [hp, hb'] at hp'
    simp only [List.singleton_append, List.cons.injEq, true_and] at hp'
    exact absurd (hp' ▸ hslash i') (by simp)
  · rw [hp, hb] at hp'
    simp only [List.singleton_append, List.cons.injEq, true_and] at hp'
    exact absurd (hp' ▸ hslash i) (by simp)
  · rw [hp] at hp'
    simpa using hp'

/-- **C26** Sessions with different ids of the same verifier have different response_uri texts. -/
theorem C26_distinct_response_uri (v : Verifier) (b b' : RequestBuilder) (i i' : Uuid)
    (wm wm' : WalletMetadata) (busy busy' : Bool) (σ σ' τ τ' : Store) (url url' : Url)
    (hw : v.submissionEndpoint.WF) (hne : i ≠ i')
    (h : buildWithSessionId v b i wm busy σ = (σ', .ok url))
    (h' : buildWithSessionId v b' i' wm' busy' τ = (τ', .ok url')) :
    ∃ s s', σ'.get i = some s ∧ τ'.get i' = some s' ∧
      (IsDirectPost s.requestObject.responseMode → IsDirectPost s'.requestObject.responseMode →
        mget c!"response_uri" s.requestObject.inner ≠ mget c!"response_uri" s'.requestObject.inner) := by
  obtain ⟨s, hs, -, ho⟩ := C24_own_values_win v b i wm busy σ σ' url hw h
  obtain ⟨s', hs', -, ho'⟩ := C24_own_values_win v b' i' wm' busy' τ τ' url' hw h'
  have hu : s.uuid = i := by
    obtain ⟨t, ht, -⟩ := C23_build_stores_one v b i wm busy σ σ' url h
    rw [ht.2.1] at hs; cases hs; exact ht.1
  have hu' : s'.uuid = i' := by
    obtain ⟨t, ht, -⟩ := C23_build_stores_one v b' i' wm' busy' τ τ' url' h'
    rw [ht.2.1] at hs'; cases hs'; exact ht.1
  refine ⟨s, s', hs, hs', ?_⟩
  intro hd hd' heq
  obtain ⟨ha, hr⟩ := ho.responseUri hd
  obtain ⟨ha', hr'⟩ := ho'.responseUri hd'
  rw [hr, hr'] at heq
  simp only [Option.some.injEq, Json.str.injEq] at heq
  have hwf : ∀ {x : Uuid} {u : Url}, AddressOf v.submissionEndpoint x u →
      v.submissionEndpoint.pathPush x.print = some u → u.WF :=
    fun _ hp => Url.pathPush_uuid_wf hw hp
  -- both addresses are well-formed, so equal texts are equal addresses
  have hw1 : s.requestObject.returnUri.WF := by
    obtain ⟨-, -, hrep, -⟩ := ofObject_iff.mp ((C23_build_stores_one v b i wm busy σ σ' url h).elim
      (fun t ht => by
        have := ht.1.2.1; rw [hs] at this; cases this; exact ht.2.object))
    obtain ⟨t, -, ht⟩ := hrep.directPost hd
    exact Url.parse_wf ht
  have hw2 : s'.requestObject.returnUri.WF := by
    obtain ⟨-, -, hrep, -⟩ := ofObject_iff.mp ((C23_build_stores_one v b' i' wm' busy' τ τ' url' h').elim
      (fun t ht => by
        have := ht.1.2.1; rw [hs'] at this; cases this; exact ht.2.object))
    obtain ⟨t, -, ht⟩ := hrep.directPost hd'
    exact Url.parse_wf ht
  have := Url.print_inj hw1 hw2 heq
  rw [this] at ha
  rw [hu] at ha; rw [hu'] at ha'
  exact hne (address_inj ha ha')

/-- **C26** Sessions with different ids of the same verifier have different request_uri values,
and the URLs handed to the wallets differ. -/
theorem C26_distinct_request_uri (v : Verifier) (base : Url) (b b' : RequestBuilder) (i i' : Uuid)
    (wm wm' : WalletMetadata) (busy busy' : Bool) (σ σ' τ τ' : Store) (url url' : Url)
    (hw : base.WF) (hb : v.passByReference = .at base) (hne : i ≠ i')
    (h : buildWithSessionId v b i wm busy σ = (σ', .ok url))
    (h' : buildWithSessionId v b' i' wm' busy' τ = (τ', .ok url')) :
    ∃ ep ep' uri uri', AuthorizationRequest.fromUrl url ep = .ok ⟨some v.client.id.val, .byReference uri⟩ ∧
      AuthorizationRequest.fromUrl url' ep' = .ok ⟨some v.client.id.val, .byReference uri'⟩ ∧
      uri ≠ uri' ∧ uri.print ≠ uri'.print ∧ url ≠ url' := by
  have hw' : ∀ base', v.passByReference = .at base' → base'.WF := by
    intro base' hb'
    rw [hb] at hb'; cases hb'; exact hw
  obtain ⟨s, ep, -, -, -, -, h1⟩ := C25_url_refers_to_session v b i wm busy σ σ' url hw' h
  obtain ⟨s', ep', -, -, -, -, h1'⟩ := C25_url_refers_to_session v b' i' wm' busy' τ τ' url' hw' h'
  obtain ⟨uri, ha, hwu, hf, -⟩ := h1 base hb
  obtain ⟨uri', ha', hwu', hf', -⟩ := h1' base hb
  have hun : uri ≠ uri' := by
    rintro rfl; exact hne (address_inj ha ha')
  refine ⟨ep.val, ep'.val, uri, uri', hf, hf', hun, fun e => hun (Url.print_inj hwu hwu' e), ?_⟩
  rintro rfl
  obtain ⟨q, hq, -, -, hp⟩ := (C08_endpoint_check _ _ _).mp hf
  obtain ⟨q', hq', -, -, hp'⟩ := (C08_endpoint_check _ _ _).mp hf'
  rw [hq] at hq'
  cases hq'
  rw [hp] at hp'
  simp only [Except.ok.injEq, AuthorizationRequest.mk.injEq, RequestIndirection.byReference.injEq,
    true_and] at hp'
  exact hun hp'

/-! ## A concrete verifier, wallet and request -/

/-- A client whose JWT is a fixed text. -/
def buildClient : Client := ⟨⟨c!"x509_san_dns:v.example"⟩, ⟨c!"x509_san_dns"⟩, fun _ => .ok c!"a.b.c"⟩

/-- A verifier that passes requests by value or by reference. -/
def buildVerifier (r : ByReference) : Verifier :=
  ⟨buildClient, [], r, ⟨c!"https", some c!"v.example", c!"/submit", none, none⟩⟩

/-- Where its requests are fetched. -/
def buildBase : Url := ⟨c!"https", some c!"v.example", c!"/", none, none⟩

/-- A request for the query of `dcqlSample`; the caller tries to set client_id and response_uri. -/
def buildRequest : RequestBuilder :=
  ⟨some dcqlSample, [(c!"client_id", .str c!"mallory"), (c!"nonce", .str c!"n"),
    (c!"response_mode", .str c!"direct_post"), (c!"response_type", .str c!"vp_token"),
    (c!"response_uri", .str c!"https://mallory.example/")]⟩

/-- The metadata of a wallet. -/
def buildWallet : WalletMetadata :=
  ⟨[(c!"authorization_endpoint", .str c!"openid4vp://"),
    (c!"client_id_prefixes_supported", .arr [.str c!"x509_san_dns"])],
   ⟨⟨c!"openid4vp", some [], [], none, none⟩⟩, ⟨[]⟩⟩

/-- Two session ids. -/
def buildId (n : Nat) : Uuid := ⟨n % 2 ^ 128, Nat.mod_lt _ (by decide)⟩

theorem buildable_sample (r : ByReference) (hr : r = .no ∨ r = .at buildBase) :
    Buildable (buildVerifier r) buildRequest buildWallet := by
  refine ⟨by simp [buildRequest], ⟨rfl, ⟨_, rfl⟩, ⟨_, rfl⟩, _, _, rfl, .directPost, .inl ⟨.inl rfl, .inl (by
    simp [buildVerifier])⟩⟩, .inr ⟨[c!"x509_san_dns"], rfl, List.mem_singleton.mpr rfl⟩, ?_, ⟨_, _, rfl, rfl⟩⟩
  intro base hb
  rcases hr with rfl | rfl
  · simp [buildVerifier] at hb
  · simp only [buildVerifier, ByReference.at.injEq] at hb
    rw [← hb]; exact .inl (by simp [buildBase])

theorem buildVerifier_wf (r : ByReference) : (buildVerifier r).submissionEndpoint.WF :=
  Url.parse_wf (s := c!"https://v.example/submit") rfl

theorem buildBase_wf : buildBase.WF := Url.parse_wf (s := c!"https://v.example/") rfl

/-- Both ways of passing the request succeed, for every session id. -/
theorem build_sample (r : ByReference) (hr : r = .no ∨ r = .at buildBase) (u : Uuid) (σ : Store) :
    ∃ σ' url, buildWithSessionId (buildVerifier r) buildRequest u buildWallet false σ = (σ', .ok url) := by
  obtain ⟨url, h⟩ := (C23_succeeds_iff (buildVerifier r) buildRequest u buildWallet false σ
    (buildVerifier_wf r) (fun _ => ⟨_, rfl⟩)).mpr ⟨rfl, buildable_sample r hr⟩
  exact ⟨_, url, by rw [← h]⟩

-- the stored session's client_id and response_uri are the verifier's, not the caller's
example : ∃ σ' url s, buildWithSessionId (buildVerifier .no) buildRequest (buildId 7) buildWallet false [] =
    (σ', .ok url) ∧ σ'.get (buildId 7) = some s ∧ s.status = .sentRequest ∧
    mget c!"client_id" s.requestObject.inner = some (.str c!"x509_san_dns:v.example") := by
  obtain ⟨σ', url, h⟩ := build_sample .no (.inl rfl) (buildId 7) []
  obtain ⟨s, hs, hf⟩ := C23_build_stores_one _ _ _ _ _ _ _ _ h
  obtain ⟨s', hs', -, ho⟩ := C24_own_values_win _ _ _ _ _ _ _ _ (buildVerifier_wf _) h
  rw [hs.2.1] at hs'; cases hs'
  exact ⟨σ', url, s, h, hs.2.1, hf.status, ho.clientId⟩

-- by reference the request_uri of two sessions differ
example : ∃ σ' τ' url url' uri uri', buildWithSessionId (buildVerifier (.at buildBase)) buildRequest (buildId 7)
    buildWallet false [] = (σ', .ok url) ∧
    buildWithSessionId (buildVerifier (.at buildBase)) buildRequest (buildId 8) buildWallet false σ' =
      (τ', .ok url') ∧ uri ≠ uri' ∧ (∃ ep, AuthorizationRequest.fromUrl url ep =
        .ok ⟨some c!"x509_san_dns:v.example", .byReference uri⟩) ∧ (∃ ep, AuthorizationRequest.fromUrl url' ep =
        .ok ⟨some c!"x509_san_dns:v.example", .byReference uri'⟩) := by
  obtain ⟨σ', url, h⟩ := build_sample (.at buildBase) (.inr rfl) (buildId 7) []
  obtain ⟨τ', url', h'⟩ := build_sample (.at buildBase) (.inr rfl) (buildId 8) σ'
  obtain ⟨ep, ep', uri, uri', h1, h2, h3, -, -⟩ := C26_distinct_request_uri _ buildBase _ _ _ _ _ _ _ _ _ _ _ _ _ _
    buildBase_wf rfl (by decide) h h'
  exact ⟨σ', τ', url, url', uri, uri', h, h', h3, ⟨ep, h1⟩, ⟨ep', h2⟩⟩

-- a taken lock or a wallet that does not support the prefix stores nothing
example : buildWithSessionId (buildVerifier .no) buildRequest (buildId 7) buildWallet true [] = ([], .error .locked) := by
  rfl
example : buildWithSessionId (buildVerifier .no) buildRequest (buildId 7)
    { buildWallet with inner := [(c!"authorization_endpoint", .str c!"openid4vp://")] } false [] =
    ([], .error .unsupported) := by rfl

end Oid4vp
