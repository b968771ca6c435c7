import Verif.Spec.Holdings
import Verif.Props.Relay
import Verif.Props.Monotone
/-! # C117: what the refusals of the example wallet tell of its holdings -/

set_option autoImplicit false

namespace Oid4vp
open Spec Example

/-- **C117** Without the user's consent nothing that the wallet does depends on the credentials it has. -/
theorem C117_without_consent (ord : MapOrder) (w : Adapter) (hc : w.consent = false) (store : List Credential)
    (p : Params) : ({ w with store := store }).process ord p = w.process ord p := by
  have hres : ∀ a, ({ w with store := store }).respond ord a p = w.respond ord a p := fun a => by
    simp only [Adapter.respond, Adapter.selectCredentials, hc, Bool.not_false, if_true]
  simp only [Adapter.process, hres]

theorem query_nonempty {j : Json} {q : DcqlQuery} (h : IsQuery j q) : q.credentials.vec ≠ [] :=
  (C46_parsed_nonempty (query_means.mpr h)).1.1

theorem query_in {a : RequestObject} {j : Json} {q : DcqlQuery} (hj : mget c!"dcql_query" a.inner = some j)
    (hq : IsQuery j q) : a.dcqlQuery = some (.ok q) := ((C05_state_and_query a).2.2.2 q).mpr ⟨j, hj, hq⟩

theorem willing_iff_holds {w : Adapter} {a : RequestObject} {j : Json} {q : DcqlQuery}
    (hj : mget c!"dcql_query" a.inner = some j) (hq : IsQuery j q) (hc : w.consent = true) : (∃ sel, Willing w a sel) ↔ HoldsAll w q := by
  have hd := query_in hj hq
  have hf := C53_fails_iff w.lower w.store q
  constructor
  · rintro ⟨sel, -, q', hq', hm⟩ k hk
    cases hd.symm.trans hq'
    obtain ⟨-, -, -, c, hc, ha, -⟩ := C53_every_query_answered _ _ _ hm k hk
    exact ⟨c, hc, ha⟩
  · intro h
    cases hm : matchQuery w.lower w.store q with
    | ok sel => exact ⟨sel, hc, q, hd, hm⟩
    | error e =>
      rcases hf.mp ⟨e, hm⟩ with h0 | ⟨k, hk, hn⟩
      · exact absurd h0 (query_nonempty hq)
      · obtain ⟨c, hc', ha⟩ := h k hk
        exact absurd ha (hn c hc')

/-- **C117** (A finding.) The answer to a request that cannot be answered tells the caller whether the wallet has the
credentials asked for, although nothing is sent but what fetches the request. -/
theorem C117_refusal_tells (ord : MapOrder) (w : Adapter) (p : Params) {a : RequestObject} {j : Json} {q : DcqlQuery}
    (h : Obtains w p a) (hj : mget c!"dcql_query" a.inner = some j) (hq : IsQuery j q) (hc : w.consent = true) (hu : Unanswerable a) :
    ∃ e, (w.process ord p).2 = .failure 400 e p.state ∧ (e = c!"access_denied" ↔ ¬ HoldsAll w q) ∧
      ∀ req ∈ (w.process ord p).1, MereVisit req := by
  rw [← willing_iff_holds hj hq hc]
  obtain ⟨r, tr, jwt, h1, h2⟩ := h
  have hh := (C77_endpoint ord w p _ _).mp (show w.process ord p = ((w.process ord p).1, (w.process ord p).2) from rfl)
  generalize (w.process ord p).1 = reqs at hh ⊢
  generalize (w.process ord p).2 = ans at hh ⊢
  have hfetch : ∀ {r l}, FetchesOf w.wallet r l → ∀ req ∈ l, MereVisit req := by
    intro r l h
    cases h with
    | one => intro r hr; simp only [List.mem_singleton] at hr; subst hr; exact ⟨rfl, rfl⟩
    | none => intro r hr; cases hr
  have hsame : ∀ r', TakenFor w p r' → r' = r := fun r' h' =>
    Except.ok.inj (((C77_taken_for w p r').mpr h').symm.trans h1)
  have hno : ∀ {P : Prop}, (∀ u, RedirectClient a u → a.returnUri.print = u) →
      (a.responseMode = .directPost ∨ a.responseMode = .directPostJwt) → P := fun g1 g2 => by
    rcases hu with ⟨g3, g4⟩ | ⟨u, g3, g4⟩
    · exact absurd g2 (by simp [g3, g4])
    · exact absurd (g1 u g3) g4
  cases hh with
  | notUnderstood g => exact absurd ((C77_taken_for w p r).mp h1) (g r)
  | notObtained g1 g2 g3 => cases hsame _ g1; exact absurd (congrArg Prod.snd h2) (g3 _)
  | @obtained r' fetched reqs' a' jwt' ans' g1 g2 g3 g4 =>
    cases hsame _ g1
    cases g3.symm.trans (congrArg Prod.snd h2)
    have hne : c!"access_denied" ≠ c!"invalid_request" ∧ c!"access_denied" ≠ c!"unsupported_response_mode" := by decide
    cases g4 with
    | noQuery g => exact absurd (query_in hj hq) (g q)
    | denied _ g =>
      refine ⟨_, rfl, iff_of_true rfl fun ⟨sel, hs⟩ => g sel hs, ?_⟩
      simpa using hfetch g2
    | wrongAddress g _ _ =>
      refine ⟨_, rfl, iff_of_false (fun e => hne.1 e.symm) (fun n => n ⟨_, g⟩), ?_⟩
      simpa using hfetch g2
    | otherMode g _ _ _ =>
      refine ⟨_, rfl, iff_of_false (fun e => hne.2 e.symm) (fun n => n ⟨_, g⟩), ?_⟩
      simpa using hfetch g2
    | plain _ g g' => exact hno g (.inl g')
    | noKey _ g g' => exact hno g (.inr g')
    | unsealed _ g g' => exact hno g (.inr g')
    | encrypted _ g g' => exact hno g (.inr g')

theorem respond_denied (ord : MapOrder) {w : Adapter} {a : RequestObject} {q : DcqlQuery} {e : Err} (p : Params)
    (hd : a.dcqlQuery = some (.ok q)) (hc : w.consent = true) (hm : matchQuery w.lower w.store q = .error e) :
    w.respond ord a p = ([], .failure 400 c!"access_denied" p.state) := by
  simp only [Adapter.respond, Adapter.selectCredentials, hd, hc, hm, Bool.not_true, Bool.false_eq_true, if_false]

theorem respond_unanswered (ord : MapOrder) {w : Adapter} {a : RequestObject} {q : DcqlQuery} {sel : Selection}
    (p : Params) (hd : a.dcqlQuery = some (.ok q)) (hc : w.consent = true) (hu : Unanswerable a)
    (hm : matchQuery w.lower w.store q = .ok sel) :
    w.respond ord a p =
      ([], .failure 400 (if redirectCheck a then c!"unsupported_response_mode" else c!"invalid_request") p.state) := by
  simp only [Adapter.respond, Adapter.selectCredentials, hd, hc, hm, Bool.not_true, Bool.false_eq_true, if_false]
  by_cases hr : redirectCheck a = true
  · simp only [hr, Bool.not_true, Bool.false_eq_true, if_false, if_true]
    rcases hu with ⟨g1, g2⟩ | ⟨u, g1, g2⟩
    · split
      · exact absurd ‹_› g1
      · exact absurd ‹_› g2
      · rfl
    · exact absurd (redirectCheck_iff.mp hr u g1) g2
  · simp only [hr, Bool.not_false, if_true, if_false, Bool.false_eq_true]

theorem matched_iff {w : Adapter} {a : RequestObject} {j : Json} {q : DcqlQuery}
    (hj : mget c!"dcql_query" a.inner = some j) (hq : IsQuery j q) (hc : w.consent = true) :
    (∃ sel, matchQuery w.lower w.store q = .ok sel) ↔ HoldsAll w q := by
  rw [← willing_iff_holds hj hq hc]
  constructor
  · rintro ⟨sel, h⟩; exact ⟨sel, hc, q, query_in hj hq, h⟩
  · rintro ⟨sel, -, q', hq', hm⟩
    cases (query_in hj hq).symm.trans hq'
    exact ⟨sel, hm⟩

/-- **C117** Nothing more is told: two stores that both have what is asked for, or both have not, are not told
apart by a request that cannot be answered. -/
theorem C117_nothing_more (ord : MapOrder) (w : Adapter) (p : Params) {a : RequestObject} {j : Json} {q : DcqlQuery}
    (h : Obtains w p a) (hj : mget c!"dcql_query" a.inner = some j) (hq : IsQuery j q) (hu : Unanswerable a)
    (store : List Credential) (hs : HoldsAll { w with store := store } q ↔ HoldsAll w q) :
    ({ w with store := store }).process ord p = w.process ord p := by
  by_cases hc : w.consent = true
  case neg => exact C117_without_consent ord w (by simpa using hc) store p
  obtain ⟨r, tr, jwt, h1, h2⟩ := h
  have hd := query_in hj hq
  have hmm := (matched_iff (w := { w with store := store }) hj hq hc).trans (hs.trans (matched_iff hj hq hc).symm)
  have hres : ({ w with store := store }).respond ord a p = w.respond ord a p := by
    rcases hm : matchQuery w.lower w.store q with e | sel
    · rcases hm' : matchQuery w.lower store q with e' | sel'
      · rw [respond_denied ord p hd hc hm, respond_denied ord (w := { w with store := store }) p hd hc hm']
      · obtain ⟨s, hs⟩ := hmm.mp ⟨sel', hm'⟩; cases hm.symm.trans hs
    · obtain ⟨sel', hm'⟩ := hmm.mpr ⟨sel, hm⟩
      rw [respond_unanswered ord p hd hc hu hm, respond_unanswered ord (w := { w with store := store }) p hd hc hu hm']
  simp only [Adapter.process, h1, h2, hres]

/-- **C117** In particular the values of claims and what is presented are not told: for stores of credentials of the
same formats, types and names of claims, the wallet does the same. -/
theorem C117_not_values (ord : MapOrder) (w : Adapter) (p : Params) {a : RequestObject} {j : Json} {q : DcqlQuery}
    (h : Obtains w p a) (hj : mget c!"dcql_query" a.inner = some j) (hq : IsQuery j q) (hu : Unanswerable a)
    {store : List Credential} (hs : List.Forall₂ LooksLike store w.store) :
    ({ w with store := store }).process ord p = w.process ord p := by
  refine C117_nothing_more ord w p h hj hq hu store ?_
  have key : ∀ {k : CredentialQuery} {c d : Credential}, LooksLike c d → (Answers w.lower k c ↔ Answers w.lower k d) := by
    rintro k c d ⟨h1, h2, h3, h4⟩
    simp only [Answers, h1, h2, h3, h4]
  refine forall₂_congr fun k _ => ?_
  clear h hj hq hu
  dsimp only
  generalize w.store = st at hs
  induction hs with
  | nil => rfl
  | cons hcd _ ih =>
    simp only [List.mem_cons, exists_eq_or_imp, key hcd, ih]

/-- What is read from the probe. -/
def probeObject (query : Json) : RequestObject :=
  { inner := probe query, clientId := none, clientIdScheme := none, responseMode := .dcApi,
    responseType := .vpToken, returnUri := ⟨c!"https", some c!"example.com", c!"/", none, none⟩, nonce := ⟨c!"n"⟩ }

theorem probe_read (query : Json) : RequestObject.ofObject (probe query) = .ok (probeObject query) := rfl

/-- **C117** (A finding.) Anyone who can call the wallet's endpoint can ask it what it has: a token with any signature
that asks for an answer over the Digital Credentials API makes the wallet send nothing at all, and tell whether
it has the credentials. -/
theorem C117_probe (ord : MapOrder) (w : Adapter) (hc : w.consent = true)
    (he : w.endpoint.query = none ∨ w.endpoint.query = some []) {hd : List (Str × Json)}
    (hh : Takeable w.wallet.ssiHeader hd) (sig : Bytes) {j : Json} {q : DcqlQuery} (hf : Fine 126 j) (hq : IsQuery j q)
    (p : Params) (hr : p.request = some (compactJws hd (probe j) sig)) :
    w.process ord p = ([], .failure 400 c!"access_denied" p.state) ∧ ¬ HoldsAll w q ∨
    w.process ord p = ([], .failure 400 c!"unsupported_response_mode" p.state) ∧ HoldsAll w q := by
  obtain ⟨alg, halg⟩ := hh.taken
  have hfine : Fine 127 (.obj (probe j)) :=
    fine_mset (k := c!"dcql_query") (fine_mset (k := c!"nonce") (fine_mset (k := c!"response_mode")
      (fine_mset (k := c!"response_type") (fine_nil _) (fine_str _ c!"vp_token")) (fine_str _ c!"dc_api"))
      (fine_str _ c!"n")) hf
  have hres : ((described p).resolve w.wallet) =  ([], .ok (probeObject j, some (compactJws hd (probe j) sig))) := by
    have hval : ((described p).resolve w.wallet).2 = .ok (probeObject j, some (compactJws hd (probe j) sig)) := by
      refine resolve_ok.mpr ⟨?_, ⟨_, compactJws_payload halg hfine.1 hfine.2, probe_read j⟩, ?_⟩
      · simp only [described, hr]
        rfl
      · rintro jwt ⟨⟩; exact .inl ⟨_, compactJws_header hh.proper.1 hh.proper.2, hh.typ⟩
    refine Prod.ext ?_ hval
    simp only [described, hr, AuthorizationRequest.resolve]
  have hmat := matched_iff (w := w) (a := probeObject j) (j := j) rfl hq hc
  have hdq := query_in (a := probeObject j) rfl hq
  have hproc : w.process ord p = (w.respond ord (probeObject j) p) := by
    simp only [Adapter.process, C58_request_of_params w.endpoint p he, hres]
    rfl
  rw [hproc]
  cases hm : matchQuery w.lower w.store q with
  | error e =>
    refine .inl ⟨respond_denied ord p hdq hc hm, fun hall => ?_⟩
    obtain ⟨sel, hs⟩ := hmat.mpr hall
    cases hm.symm.trans hs
  | ok sel =>
    exact .inr ⟨respond_unanswered ord p hdq hc (.inl ⟨nofun, nofun⟩) hm, hmat.mp ⟨sel, hm⟩⟩

/-- **C117** (A finding.) So the caller learns of any type whether the wallet has a credential of it: this is what the
answer to the probe with a query for that type alone depends on. -/
theorem C117_probe_type (w : Adapter) {q : DcqlQuery} {k : CredentialQuery} (hq : q.credentials.vec = [k]) {v : Str}
    (hk : AsksVct k [.str v]) :
    HoldsAll w q ↔ ∃ c ∈ w.store, SameFormat w.lower c.format k.format ∧ c.vct = some v := by
  have hv : ∀ l, AsksVct k l ↔ l = [.str v] := fun l => by
    constructor
    · intro h
      simp only [AsksVct] at h hk
      rw [hk] at h
      cases h; rfl
    · rintro rfl; exact hk
  have hno : ¬ NoType k := fun h => h.1 _ hk
  simp only [HoldsAll, hq, List.mem_singleton, forall_eq, Answers, hv, hno, false_implies, and_true,
    Json.str.injEq, exists_eq_right]

/-- The sample wallet takes a header with `alg` and `typ` alone. -/
theorem flowTakes (jwt : Str) : Takeable (flowWallet jwt).wallet.ssiHeader [(c!"alg", .str c!"ES256"),
    (c!"typ", .str c!"oauth-authz-req+jwt"), (c!"x5c", .arr [])] := by
  refine ⟨⟨?_, by decide⟩, by decide, _, (flowReady jwt).header []⟩
  simp only [Json.WF, Json.WFM, Json.WFL, Sorted, and_true]
  decide

theorem pid_fine : Fine 126 VerifierApp.pidQuery.toJson := by
  refine fine_query fun c hc => ?_
  obtain rfl : c = (CredentialQuery.new c!"pid" (.other c!"dc+sd-jwt")).setMeta
      [(c!"vct_values", strsToJson [c!"urn:eudi:pid:1"])] := by simpa [VerifierApp.pidQuery, DcqlQuery.new] using hc
  have hm : Fine 123 (.obj [(c!"vct_values", strsToJson [c!"urn:eudi:pid:1"])]) :=
    fine_mset (m := []) (fine_nil 122) fine_strs
  exact ⟨hm.1, hm.2, by rintro l ⟨⟩⟩

/-- The call with the probe for the PID, under any signature. -/
def pidProbe (sig : Bytes) : Params :=
  { request := some (compactJws [(c!"alg", .str c!"ES256"), (c!"typ", .str c!"oauth-authz-req+jwt"), (c!"x5c", .arr [])]
      (probe VerifierApp.pidQuery.toJson) sig) }

/-- C117: a wallet with the PID, probed for the PID. -/
example (ord : MapOrder) (sig : Bytes) : (flowWallet []).process ord (pidProbe sig) =
    ([], .failure 400 c!"unsupported_response_mode" none) := by
  rcases C117_probe ord (flowWallet []) rfl (.inl rfl) (flowTakes []) sig (j := VerifierApp.pidQuery.toJson)
      (q := pidAsked) pid_fine (query_means.mp pid_read) (pidProbe sig) rfl with h | h
  · exact absurd ((C117_probe_type (k := pidAsked.credentials.vec.head (by decide)) (v := c!"urn:eudi:pid:1") _ rfl
      rfl).mpr ⟨flowPid, by decide, .inl rfl, rfl⟩) h.2
  · exact h.1

/-- C117: the same wallet without the PID. -/
example (ord : MapOrder) (sig : Bytes) : ({ flowWallet [] with store := [] }).process ord (pidProbe sig) =
    ([], .failure 400 c!"access_denied" none) := by
  rcases C117_probe ord { flowWallet [] with store := [] } rfl (.inl rfl) (flowTakes []) sig (j := VerifierApp.pidQuery.toJson)
      (q := pidAsked) pid_fine (query_means.mp pid_read) (pidProbe sig) rfl with h | h
  · exact h.1
  · obtain ⟨c, hc, -⟩ := h.2 _ (List.mem_singleton.mpr rfl)
    cases hc

/-- C117: credentials that look alike. -/
example : List.Forall₂ LooksLike [{ pidCred with raw := c!"OTHER~", claims := [(c!"family_name", .str c!"Roe")] }]
    [pidCred] := by
  refine .cons ⟨rfl, rfl, rfl, fun n => ?_⟩ .nil
  simp [pidCred]

end Oid4vp
