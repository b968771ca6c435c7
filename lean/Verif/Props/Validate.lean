import Verif.Spec.Validate
import Verif.Props.RequestUrl
import Verif.Lemmas.Base64
/-!
# C11–C18: validation of requests by a wallet
-/

set_option autoImplicit false

namespace Oid4vp

open Spec AuthorizationRequest

/-! ## JWS -/

theorem splitJws_ok {jwt h b g : Str} : splitJws jwt = .ok (h, b, g) ↔ JwsParts jwt h b g := by
  simp only [splitJws, JwsParts]
  cases h1 : splitOnce '.' jwt with
  | none =>
    simp only [reduceCtorEq, false_iff]
    rintro ⟨rfl, -, -⟩
    exact splitOnce_eq_none.mp h1 (by simp)
  | some p =>
    obtain ⟨x, r⟩ := p
    obtain ⟨rfl, hx⟩ := splitOnce_eq_some.mp h1
    simp only
    cases h2 : splitOnce '.' r with
    | none =>
      simp only [reduceCtorEq, false_iff]
      rintro ⟨e, hh, -⟩
      have := splitOnce_append (b := b ++ '.' :: g) hh
      rw [← e, h1] at this
      simp only [Option.some.injEq, Prod.mk.injEq] at this
      rw [this.2] at h2
      exact splitOnce_eq_none.mp h2 (by simp)
    | some q =>
      obtain ⟨y, z⟩ := q
      obtain ⟨rfl, hy⟩ := splitOnce_eq_some.mp h2
      simp only [Except.ok.injEq, Prod.mk.injEq]
      constructor
      · rintro ⟨rfl, rfl, rfl⟩; exact ⟨rfl, hx, hy⟩
      · rintro ⟨e, hh, hb⟩
        have := splitOnce_append (b := b ++ '.' :: g) hh
        rw [← e, h1] at this
        simp only [Option.some.injEq, Prod.mk.injEq] at this
        obtain ⟨rfl, this⟩ := this
        have h3 := splitOnce_append (b := g) hb
        rw [← this, h2] at h3
        simp only [Option.some.injEq, Prod.mk.injEq] at h3
        exact ⟨rfl, h3.1, h3.2⟩

theorem b64url_ok {s : Str} {b : Bytes} : b64url s = .ok b ↔ b64Dec .url s = some b := by
  simp only [b64url]
  cases b64Dec .url s <;> simp [orErr]

theorem jsonMap_ok {b : Bytes} {m : List (Str × Json)} :
    jsonMap b = .ok m ↔ jParseBytes b = .ok (.obj m) := by
  simp only [jsonMap]
  cases jParseBytes b with
  | error e => simp
  | ok j => cases j <;> simp

theorem jwsHeader_ok {jwt : Str} {m : List (Str × Json)} : jwsHeader jwt = .ok m ↔ JwsHeader jwt m := by
  simp only [jwsHeader, JwsHeader]
  cases h1 : splitJws jwt with
  | error e =>
    simp only [reduceCtorEq, false_iff]
    rintro ⟨h, b, g, bytes, hp, -⟩
    rw [splitJws_ok.mpr hp] at h1; simp at h1
  | ok p =>
    obtain ⟨h, b, g⟩ := p
    simp only
    constructor
    · intro hm
      cases h2 : b64url h with
      | error e => rw [h2] at hm; simp at hm
      | ok bytes =>
        rw [h2] at hm
        exact ⟨h, b, g, bytes, splitJws_ok.mp h1, b64url_ok.mp h2, jsonMap_ok.mp hm⟩
    · rintro ⟨h', b', g', bytes, hp, hd, hj⟩
      rw [splitJws_ok.mpr hp] at h1
      cases h1
      rw [b64url_ok.mpr hd]
      exact jsonMap_ok.mpr hj

theorem decodeUnverified_ok {hdr : SsiHeader} {jwt : Str} {o : UntypedObject} :
    decodeUnverified hdr jwt = .ok o ↔ JwsPayload hdr jwt o := by
  simp only [decodeUnverified, JwsPayload]
  cases h1 : splitJws jwt with
  | error e =>
    simp only [reduceCtorEq, false_iff]
    rintro ⟨h, b, g, hb, alg, enc, bytes, hp, -⟩
    rw [splitJws_ok.mpr hp] at h1; simp at h1
  | ok p =>
    obtain ⟨h, b, g⟩ := p
    simp only
    constructor
    · intro hm
      cases h2 : b64url g with
      | error e => rw [h2] at hm; simp at hm
      | ok sig =>
        rw [h2] at hm; simp only at hm
        cases h3 : b64url h with
        | error e => rw [h3] at hm; simp at hm
        | ok hb =>
          rw [h3] at hm; simp only at hm
          cases h4 : hdr hb with
          | error e => rw [h4] at hm; simp at hm
          | ok q =>
            obtain ⟨alg, enc⟩ := q
            rw [h4] at hm; simp only at hm
            refine ⟨h, b, g, hb, alg, enc, ?_⟩
            cases enc with
            | true =>
              simp only [if_true] at hm ⊢
              cases h5 : b64url b with
              | error e => rw [h5] at hm; simp at hm
              | ok bytes =>
                rw [h5] at hm
                exact ⟨bytes, splitJws_ok.mp h1, b64url_ok.mp h3, h4, b64url_ok.mp h5,
                  ⟨sig, b64url_ok.mp h2⟩, jsonMap_ok.mp hm⟩
            | false =>
              exact ⟨utf8 b, splitJws_ok.mp h1, b64url_ok.mp h3, h4, by simp,
                ⟨sig, b64url_ok.mp h2⟩, jsonMap_ok.mp hm⟩
    · rintro ⟨h', b', g', hb, alg, enc, bytes, hp, hd, hh, he, ⟨sig, hs⟩, hj⟩
      rw [splitJws_ok.mpr hp] at h1
      cases h1
      rw [b64url_ok.mpr hs, b64url_ok.mpr hd]
      simp only [hh]
      cases enc with
      | true =>
        simp only [if_true] at he ⊢
        rw [b64url_ok.mpr he]
        exact jsonMap_ok.mpr hj
      | false =>
        simp only [Bool.false_eq_true, if_false] at he ⊢
        subst he
        exact jsonMap_ok.mpr hj

/-! ## C11 -/

/-- The `typ` check passes exactly if the header is a JSON object and either says that the JWT
is a request object or the check is lenient. -/
theorem validateTyp_ok {jwt : Str} {lenient : Bool} :
    validateRequestObjectTyp jwt lenient = .ok () ↔
      TypedAsRequest jwt ∨ (lenient = true ∧ ∃ m, JwsHeader jwt m) := by
  simp only [validateRequestObjectTyp, TypedAsRequest]
  cases h1 : jwsHeader jwt with
  | error e =>
    have hn : ∀ m, ¬ JwsHeader jwt m := by
      intro m hm; rw [jwsHeader_ok.mpr hm] at h1; simp at h1
    simp only [reduceCtorEq, false_iff, not_or, not_exists, not_and]
    exact ⟨fun m hm => absurd hm (hn m), fun _ m hm => hn m hm⟩
  | ok m =>
    have hm := jwsHeader_ok.mp h1
    have hu : ∀ m', JwsHeader jwt m' → m' = m := by
      intro m' h'; rw [jwsHeader_ok.mpr h'] at h1; exact Except.ok.inj h1
    have hex : (∃ m, JwsHeader jwt m ∧ mget c!"typ" m = some (.str c!"oauth-authz-req+jwt")) ↔
        mget c!"typ" m = some (.str c!"oauth-authz-req+jwt") := by
      constructor
      · rintro ⟨m', h', ht⟩; rw [← hu m' h']; exact ht
      · exact fun ht => ⟨m, hm, ht⟩
    rw [hex]
    have hex2 : (∃ m, JwsHeader jwt m) := ⟨m, hm⟩
    simp only [hex2, and_true]
    have hbind : ∀ t, (mget c!"typ" m).bind Json.asStr? = some t ↔ mget c!"typ" m = some (.str t) := by
      intro t
      cases mget c!"typ" m with
      | none => simp
      | some j => cases j <;> simp [Json.asStr?]
    cases hb : (mget c!"typ" m).bind Json.asStr? with
    | none =>
      have : mget c!"typ" m ≠ some (.str c!"oauth-authz-req+jwt") := by
        intro e; rw [(hbind _).mpr e] at hb; simp at hb
      cases lenient <;> simp [this]
    | some t =>
      have ht := (hbind t).mp hb
      by_cases e : t = requestObjectTyp
      · subst e
        simp only [if_pos]
        simp only [ht]
        simp [requestObjectTyp]
      · have hne : mget c!"typ" m ≠ some (.str c!"oauth-authz-req+jwt") := by
          intro e'; rw [ht] at e'; simp only [Option.some.injEq, Json.str.injEq] at e'
          exact e e'
        simp only [if_neg e]
        cases lenient <;> simp [hne]

theorem isRedirectUriPrefix_iff {r : AuthorizationRequest} :
    r.isRedirectUriPrefix = true ↔ ∃ t, r.clientId = some (c!"redirect_uri:" ++ t) := by
  simp only [isRedirectUriPrefix]
  cases r.clientId with
  | none => simp
  | some c =>
    simp only [Option.some.injEq]
    rw [startsWith_iff]

theorem resolveJwt_ok {hdr : SsiHeader} {lenient : Bool} {jwt : Str} {a : RequestObject}
    {j : Option Str} :
    resolveJwt hdr lenient jwt = .ok (a, j) ↔ j = some jwt ∧
      (TypedAsRequest jwt ∨ (lenient = true ∧ ∃ m, JwsHeader jwt m)) ∧
      ∃ o, JwsPayload hdr jwt o ∧ RequestObject.ofObject o = .ok a := by
  rw [← validateTyp_ok]
  simp only [resolveJwt]
  cases validateRequestObjectTyp jwt lenient with
  | error e => simp
  | ok u =>
    simp only [true_and]
    simp only [← decodeUnverified_ok]
    cases decodeUnverified hdr jwt with
    | error e => simp
    | ok o =>
      simp only [Except.ok.injEq, exists_eq_left']
      cases RequestObject.ofObject o with
      | error e => simp
      | ok a' =>
        simp only [Except.ok.injEq, Prod.mk.injEq]
        constructor
        · rintro ⟨rfl, rfl⟩; exact ⟨rfl, rfl⟩
        · rintro ⟨rfl, rfl⟩; exact ⟨rfl, rfl⟩

/-- Exactly when, and to what, a request resolves. -/
theorem resolve_ok {w : Wallet} {r : AuthorizationRequest} {a : RequestObject} {j : Option Str} :
    (r.resolve w).2 = .ok (a, j) ↔ JwtOf w r.indirection j ∧
      (∃ o, ParamsOf w r o j ∧ RequestObject.ofObject o = .ok a) ∧
      ∀ jwt, j = some jwt → TypedAsRequest jwt ∨
        ((∃ t, r.clientId = some (c!"redirect_uri:" ++ t)) ∧ ∃ m, JwsHeader jwt m) := by
  obtain ⟨c, i⟩ := r
  rw [← isRedirectUriPrefix_iff]
  simp only [resolve]
  cases i with
  | byValue jwt =>
    simp only [JwtOf]
    rw [resolveJwt_ok]
    constructor
    · rintro ⟨rfl, ht, o, ho, ha⟩
      refine ⟨rfl, ⟨o, ho, ha⟩, ?_⟩
      rintro _ ⟨⟩; exact ht
    · rintro ⟨rfl, ⟨o, ho, ha⟩, ht⟩
      exact ⟨rfl, ht _ rfl, o, ho, ha⟩
  | byReference uri =>
    simp only [JwtOf, Fetched]
    by_cases hu : w.uriOk uri.print = true
    · rw [if_pos hu]
      have hf : fetchRequest uri = ⟨c!"GET", uri.print, [(c!"prefer", c!"OID4VP-1.0.0")], []⟩ := rfl
      rw [hf]
      cases hh : w.http ⟨c!"GET", uri.print, [(c!"prefer", c!"OID4VP-1.0.0")], []⟩ with
      | error e => simp
      | ok resp =>
        simp only [Except.ok.injEq, exists_eq_left', hu, and_true]
        cases hb : utf8Dec resp.body with
        | none => simp
        | some body =>
          simp only
          cases hs : resp.isSuccess with
          | false =>
            have : ¬ (200 ≤ resp.status ∧ resp.status < 300) := by
              intro ⟨h1, h2⟩
              simp [HttpResponse.isSuccess, h1, h2] at hs
            simp only [Bool.false_eq_true, if_false, reduceCtorEq, false_iff]
            rintro ⟨⟨b, ⟨h1, h2, -⟩, -⟩, -⟩
            exact this ⟨h1, h2⟩
          | true =>
            simp only [HttpResponse.isSuccess, Bool.and_eq_true, decide_eq_true_eq] at hs
            simp only [if_true]
            rw [resolveJwt_ok]
            constructor
            · rintro ⟨rfl, ht, o, ho, ha⟩
              refine ⟨⟨body, ⟨hs.1, hs.2, rfl⟩, rfl⟩, ⟨o, ho, ha⟩, ?_⟩
              rintro _ ⟨⟩; exact ht
            · rintro ⟨⟨b, ⟨-, -, hb'⟩, rfl⟩, ⟨o, ho, ha⟩, ht⟩
              cases hb'
              exact ⟨rfl, ht _ rfl, o, ho, ha⟩
    · rw [if_neg hu]
      simp [hu]
  | direct d =>
    simp only [JwtOf]
    have hput : ∀ c : Str, UntypedObject.put (ClientId.mk c) d = mset c!"client_id" (.str c) d :=
      fun c => put_eq rfl d
    cases c with
    | none =>
      simp only [ParamsOf]
      cases hof : RequestObject.ofObject d with
      | error e =>
        simp only [reduceCtorEq, false_iff]
        rintro ⟨rfl, ⟨o, ⟨d', hd, rfl⟩, ho⟩, -⟩
        cases hd
        rw [hof] at ho; simp at ho
      | ok a' =>
        simp only [Except.ok.injEq, Prod.mk.injEq]
        constructor
        · rintro ⟨rfl, rfl⟩
          exact ⟨rfl, ⟨d, ⟨d, rfl, rfl⟩, hof⟩, by simp⟩
        · rintro ⟨rfl, ⟨o, ⟨d', hd, rfl⟩, ho⟩, -⟩
          cases hd
          rw [hof] at ho
          exact ⟨Except.ok.inj ho, rfl⟩
    | some c =>
      simp only [ParamsOf, hput]
      cases hof : RequestObject.ofObject (mset c!"client_id" (.str c) d) with
      | error e =>
        simp only [reduceCtorEq, false_iff]
        rintro ⟨rfl, ⟨o, ⟨d', hd, rfl⟩, ho⟩, -⟩
        cases hd
        rw [hof] at ho; simp at ho
      | ok a' =>
        simp only [Except.ok.injEq, Prod.mk.injEq]
        constructor
        · rintro ⟨rfl, rfl⟩
          exact ⟨rfl, ⟨_, ⟨d, rfl, rfl⟩, hof⟩, by simp⟩
        · rintro ⟨rfl, ⟨o, ⟨d', hd, rfl⟩, ho⟩, -⟩
          cases hd
          rw [hof] at ho
          exact ⟨Except.ok.inj ho, rfl⟩

/-- **C11** A request passed as a JWT, by value or by reference, resolves only if the protected
header of the JWT is a JSON object with the right `typ`, unless the client_id outside the JWT
starts with `redirect_uri:`; even then the header must be a JSON object. -/
theorem C11_typ_required (w : Wallet) (r : AuthorizationRequest) (a : RequestObject)
    (j : Option Str) (h : (r.resolve w).2 = .ok (a, j)) (hi : ∀ d, r.indirection ≠ .direct d) :
    ∃ jwt, j = some jwt ∧ JwtOf w r.indirection (some jwt) ∧ (∃ m, JwsHeader jwt m) ∧
      (TypedAsRequest jwt ∨ ∃ t, r.clientId = some (c!"redirect_uri:" ++ t)) := by
  obtain ⟨h1, -, h3⟩ := resolve_ok.mp h
  have : ∃ jwt, j = some jwt := by
    cases hi' : r.indirection with
    | byValue j => rw [hi'] at h1; exact ⟨_, h1⟩
    | byReference u => rw [hi'] at h1; obtain ⟨b, -, hb⟩ := h1; exact ⟨_, hb⟩
    | direct d => exact absurd hi' (hi d)
  obtain ⟨jwt, rfl⟩ := this
  refine ⟨jwt, rfl, h1, ?_, ?_⟩
  · rcases h3 jwt rfl with ⟨m, hm, -⟩ | ⟨-, hm⟩
    · exact ⟨m, hm⟩
    · exact hm
  · rcases h3 jwt rfl with h | ⟨h, -⟩
    · exact .inl h
    · exact .inr h

/-! ## Compact JWS for the examples -/

/-- The compact JWS with the given header, payload and signature. -/
def compactJws (h p : List (Str × Json)) (sig : Bytes) : Str :=
  b64Enc .url (utf8 (jPrint (.obj h))) ++ '.' ::
    (b64Enc .url (utf8 (jPrint (.obj p))) ++ '.' :: b64Enc .url sig)

theorem compactJws_parts (h p : List (Str × Json)) (sig : Bytes) :
    JwsParts (compactJws h p sig) (b64Enc .url (utf8 (jPrint (.obj h))))
      (b64Enc .url (utf8 (jPrint (.obj p)))) (b64Enc .url sig) :=
  ⟨rfl, b64Enc_no_dot _ _, b64Enc_no_dot _ _⟩

theorem compactJws_header {h p : List (Str × Json)} {sig : Bytes} (hw : (Json.obj h).WF FltLit)
    (hd : (Json.obj h).depth ≤ jsonMaxDepth) : JwsHeader (compactJws h p sig) h :=
  ⟨_, _, _, _, compactJws_parts h p sig, b64Dec_b64Enc _ _, jParseBytes_jPrint hd hw⟩

theorem compactJws_payload {hdr : SsiHeader} {h p : List (Str × Json)} {sig : Bytes} {alg : Str}
    (hh : hdr (utf8 (jPrint (.obj h))) = .ok (alg, true)) (hw : (Json.obj p).WF FltLit)
    (hd : (Json.obj p).depth ≤ jsonMaxDepth) : JwsPayload hdr (compactJws h p sig) p :=
  ⟨_, _, _, _, alg, true, _, compactJws_parts h p sig, b64Dec_b64Enc _ _, hh, b64Dec_b64Enc _ _,
    ⟨sig, b64Dec_b64Enc _ _⟩, jParseBytes_jPrint hd hw⟩

/-- A header of a request object. -/
def jwsHeaderSample : List (Str × Json) :=
  [(c!"alg", .str c!"ES256"), (c!"typ", .str c!"oauth-authz-req+jwt")]

theorem jwsHeaderSample_wf : (Json.obj jwsHeaderSample).WF FltLit := by
  simp only [jwsHeaderSample, Json.WF, Json.WFM, Sorted, and_true]
  decide

/-- A header that does not say what the JWT is. -/
def jwsHeaderUntyped : List (Str × Json) := [(c!"alg", .str c!"ES256")]

theorem jwsHeaderUntyped_wf : (Json.obj jwsHeaderUntyped).WF FltLit := by
  simp only [jwsHeaderUntyped, Json.WF, Json.WFM, Sorted, and_true]
  decide

/-- Parameters of an ordinary request with an explicit response mode. -/
def explicitSample : UntypedObject :=
  mset c!"response_mode" (.str c!"direct_post") requestSample

/-- The same without client_id. -/
def anonymousSample : UntypedObject := mdel c!"client_id" explicitSample

theorem explicitSample_wf : (Json.obj explicitSample).WF FltLit := by
  have : explicitSample =
    [(c!"client_id", .str c!"x509_san_dns:verifier.example"), (c!"nonce", .str c!"n"),
     (c!"response_mode", .str c!"direct_post"), (c!"response_type", .str c!"vp_token"),
     (c!"response_uri", .str c!"https://verifier.example/r")] := by decide
  rw [this]
  simp only [Json.WF, Json.WFM, Sorted, and_true]
  decide

theorem anonymousSample_wf : (Json.obj anonymousSample).WF FltLit := by
  have : anonymousSample =
    [(c!"nonce", .str c!"n"),
     (c!"response_mode", .str c!"direct_post"), (c!"response_type", .str c!"vp_token"),
     (c!"response_uri", .str c!"https://verifier.example/r")] := by decide
  rw [this]
  simp only [Json.WF, Json.WFM, Sorted, and_true]
  decide

/-- The request object of these parameters. -/
def explicitObject : RequestObject := { requestSampleObject with inner := explicitSample }

/-- The request object without client_id. -/
def anonymousObject : RequestObject :=
  { requestSampleObject with inner := anonymousSample, clientId := none, clientIdScheme := none }

theorem explicitSample_ok : RequestObject.ofObject explicitSample = .ok explicitObject := by decide
theorem anonymousSample_ok : RequestObject.ofObject anonymousSample = .ok anonymousObject := by decide

/-- A wallet that supports `x509_san_dns` and whose verification methods accept everything. -/
def walletSample : Wallet where
  metadata := ⟨[(c!"client_id_prefixes_supported",
      .arr [.str c!"x509_san_dns", .str c!"redirect_uri", .str c!"origin"])],
    ⟨⟨c!"openid4vp", some [], [], none, none⟩⟩, ⟨[]⟩⟩
  http := fun _ => .ok ⟨200, utf8 (compactJws jwsHeaderSample explicitSample [1, 2, 3])⟩
  verifier := fun _ _ _ => .ok ()
  uriOk := fun _ => true
  ssiHeader := fun _ => .ok (c!"ES256", true)

/-- A request by value. -/
def byValueSample (c : Option Str) (h p : List (Str × Json)) : AuthorizationRequest :=
  ⟨c, .byValue (compactJws h p [1, 2, 3])⟩

theorem typed_sample (p : List (Str × Json)) : TypedAsRequest (compactJws jwsHeaderSample p [1, 2, 3]) :=
  ⟨_, compactJws_header jwsHeaderSample_wf (by decide), by decide⟩

theorem resolve_sample (c : Option Str) : ((byValueSample c jwsHeaderSample explicitSample).resolve
    walletSample).2 =
    .ok (explicitObject, some (compactJws jwsHeaderSample explicitSample [1, 2, 3])) :=
  resolve_ok.mpr ⟨rfl, ⟨_, compactJws_payload rfl explicitSample_wf (by decide), explicitSample_ok⟩,
    fun _ e => .inl (by cases e; exact typed_sample _)⟩

theorem resolve_anonymous (c : Option Str) : ((byValueSample c jwsHeaderSample anonymousSample).resolve
    walletSample).2 =
    .ok (anonymousObject, some (compactJws jwsHeaderSample anonymousSample [1, 2, 3])) :=
  resolve_ok.mpr ⟨rfl, ⟨_, compactJws_payload rfl anonymousSample_wf (by decide), anonymousSample_ok⟩,
    fun _ e => .inl (by cases e; exact typed_sample _)⟩

-- a JWT without `typ` resolves if the outer client_id starts with `redirect_uri:` …
example : ((byValueSample (some c!"redirect_uri:https://v.example/") jwsHeaderUntyped
    explicitSample).resolve walletSample).2 =
    .ok (explicitObject, some (compactJws jwsHeaderUntyped explicitSample [1, 2, 3])) :=
  resolve_ok.mpr ⟨rfl, ⟨_, compactJws_payload rfl explicitSample_wf (by decide), explicitSample_ok⟩,
    fun _ e => .inr (by
      cases e
      exact ⟨⟨_, rfl⟩, _, compactJws_header jwsHeaderUntyped_wf (by decide)⟩)⟩

-- … and does not otherwise
example (c : Option Str) (hc : ∀ t, c ≠ some (c!"redirect_uri:" ++ t)) (p : RequestObject × Option Str) :
    ((byValueSample c jwsHeaderUntyped explicitSample).resolve walletSample).2 ≠ .ok p := by
  intro h
  obtain ⟨jwt, -, hj, -, ht⟩ := C11_typ_required _ _ p.1 p.2 h (by simp [byValueSample])
  simp only [JwtOf, byValueSample, Option.some.injEq] at hj
  subst hj
  rcases ht with ⟨m, hm, hmt⟩ | ⟨t, ht⟩
  · have : m = jwsHeaderUntyped := by
      have h1 := jwsHeader_ok.mpr hm
      rw [jwsHeader_ok.mpr (compactJws_header jwsHeaderUntyped_wf (by decide))] at h1
      exact (Except.ok.inj h1).symm
    subst this
    revert hmt; decide
  · exact hc t ht

/-! ## C12 -/

theorem methodFor_iff {c : Option ClientId} {p : Option ClientIdScheme} (hp : PrefixIs c p)
    {m : VerifyMethod} : selectMethod p = some m → MethodFor c m := by
  intro h
  cases p with
  | none =>
    simp only [selectMethod, Option.some.injEq] at h
    subst h
    cases c with
    | none => exact .absent
    | some c => exact .plain hp
  | some p =>
    cases c with
    | none => simp [PrefixIs] at hp
    | some c =>
      obtain ⟨hc, t, ht⟩ := hp
      obtain ⟨cv⟩ := c
      simp only at ht
      subst ht
      obtain ⟨p⟩ := p
      simp only [selectMethod] at h hc
      by_cases h1 : p = ClientIdScheme.decentralizedIdentifier
      · rw [if_pos h1] at h; cases h; subst h1; exact .did t
      by_cases h2 : p = ClientIdScheme.openidFederation
      · rw [if_neg h1, if_pos h2] at h; cases h; subst h2; exact .federation t
      by_cases h3 : p = ClientIdScheme.redirectUri
      · rw [if_neg h1, if_neg h2, if_pos h3] at h; cases h; subst h3; exact .redirectUri t
      by_cases h4 : p = ClientIdScheme.verifierAttestation
      · rw [if_neg h1, if_neg h2, if_neg h3, if_pos h4] at h; cases h; subst h4; exact .attestation t
      by_cases h5 : p = ClientIdScheme.x509SanDns
      · rw [if_neg h1, if_neg h2, if_neg h3, if_neg h4, if_pos h5] at h; cases h; subst h5
        exact .sanDns t
      by_cases h6 : p = ClientIdScheme.x509Hash
      · rw [if_neg h1, if_neg h2, if_neg h3, if_neg h4, if_neg h5, if_pos h6] at h; cases h
        subst h6; exact .hash t
      by_cases h7 : p = ClientIdScheme.origin
      · rw [if_neg h1, if_neg h2, if_neg h3, if_neg h4, if_neg h5, if_neg h6, if_pos h7] at h
        cases h
      rw [if_neg h1, if_neg h2, if_neg h3, if_neg h4, if_neg h5, if_neg h6, if_neg h7] at h
      cases h
      refine .other t hc ?_
      simp only [knownPrefixes, List.mem_cons, List.not_mem_nil, or_false, not_or]
      exact ⟨h1, h2, h3, h4, h5, h6, h7⟩

theorem methodFor_select {c : Option ClientId} {m : VerifyMethod} (h : MethodFor c m) :
    ∃ p, PrefixIs c p ∧ selectMethod p = some m := by
  cases h with
  | absent => exact ⟨none, by simp [PrefixIs], rfl⟩
  | plain h => exact ⟨none, h, rfl⟩
  | did t => exact ⟨some ⟨c!"decentralized_identifier"⟩, ⟨by decide, t, rfl⟩, by decide⟩
  | federation t => exact ⟨some ⟨c!"openid_federation"⟩, ⟨by decide, t, rfl⟩, by decide⟩
  | redirectUri t => exact ⟨some ⟨c!"redirect_uri"⟩, ⟨by decide, t, rfl⟩, by decide⟩
  | attestation t => exact ⟨some ⟨c!"verifier_attestation"⟩, ⟨by decide, t, rfl⟩, by decide⟩
  | sanDns t => exact ⟨some ⟨c!"x509_san_dns"⟩, ⟨by decide, t, rfl⟩, by decide⟩
  | hash t => exact ⟨some ⟨c!"x509_hash"⟩, ⟨by decide, t, rfl⟩, by decide⟩
  | @other p t hc hk =>
    refine ⟨some ⟨p⟩, ⟨hc, t, rfl⟩, ?_⟩
    simp only [knownPrefixes, List.mem_cons, List.not_mem_nil, or_false, not_or] at hk
    obtain ⟨h1, h2, h3, h4, h5, h6, h7⟩ := hk
    exact (if_neg h1).trans ((if_neg h2).trans ((if_neg h3).trans ((if_neg h4).trans
      ((if_neg h5).trans ((if_neg h6).trans (if_neg h7))))))

theorem prefixIs_unique {c : Option ClientId} {p p' : Option ClientIdScheme} (hp : PrefixIs c p)
    (hp' : PrefixIs c p') : p = p' := by
  cases c with
  | none => simp only [PrefixIs] at hp hp'; rw [hp, hp']
  | some c => rw [← (resolvePrefix_iff c p).mpr hp, (resolvePrefix_iff c p').mpr hp']

theorem resolve_trace (w : Wallet) (r : AuthorizationRequest) :
    (r.resolve w).1 = match r.indirection with
      | .byReference uri => if w.uriOk uri.print then [.http (fetchRequest uri)] else []
      | _ => [] := by
  simp only [resolve]
  cases r.indirection with
  | byValue j => rfl
  | byReference u => simp only; split <;> rfl
  | direct d => rfl

theorem verifyCalls_append (a b : List Event) : verifyCalls (a ++ b) = verifyCalls a ++ verifyCalls b := by
  induction a with
  | nil => rfl
  | cons e a ih => cases e <;> simp [verifyCalls, ih]

theorem httpCalls_append (a b : List Event) : httpCalls (a ++ b) = httpCalls a ++ httpCalls b := by
  induction a with
  | nil => rfl
  | cons e a ih => cases e <;> simp [httpCalls, ih]

theorem resolve_noVerify (w : Wallet) (r : AuthorizationRequest) : verifyCalls (r.resolve w).1 = [] := by
  rw [resolve_trace]
  split
  · split <;> rfl
  · rfl

/-- The effects and the result of validation, in terms of the parts. -/
theorem validate_eq (w : Wallet) (r : AuthorizationRequest) :
    r.validate w = ((r.resolve w).1 ++ (match (r.resolve w).2 with
        | .error _ => []
        | .ok (a, jwt) => (verifyRequest w a jwt).1),
      match (r.resolve w).2 with
      | .error e => .error e
      | .ok (a, jwt) => match (verifyRequest w a jwt).2 with
        | .error e => .error e
        | .ok () => match transposeGet (UntypedObject.get ClientId a.inner) with
          | .error e => .error e
          | .ok inner => match r.clientId, inner with
            | some x, some y => if x ≠ y.val then .error .mismatch else .ok a
            | _, _ => .ok a) := by
  simp only [validate]
  cases hr : r.resolve w with
  | mk tr res =>
    cases res with
    | error e => simp
    | ok p =>
      obtain ⟨a, jwt⟩ := p
      simp only
      cases hv : verifyRequest w a jwt with
      | mk tr' res' =>
        cases res' with
        | error e => rfl
        | ok u => rfl

theorem verifyRequest_ok {w : Wallet} {a : RequestObject} {jwt : Option Str}
    (h : (verifyRequest w a jwt).2 = .ok ()) :
    validateAgainstMetadata w.metadata a = .ok () ∧ ∃ m, selectMethod a.clientIdScheme = some m ∧
      (verifyRequest w a jwt).1 = [.verify m a jwt] ∧ w.verifier m a jwt = .ok () := by
  simp only [verifyRequest] at h ⊢
  cases hv : validateAgainstMetadata w.metadata a with
  | error e => rw [hv] at h; simp at h
  | ok u =>
    rw [hv] at h
    simp only at h ⊢
    cases hs : selectMethod a.clientIdScheme with
    | none => rw [hs] at h; simp at h
    | some m => rw [hs] at h; simp only at h; exact ⟨trivial, m, rfl, rfl, h⟩

/-- What a successful validation went through. -/
theorem validate_ok {w : Wallet} {r : AuthorizationRequest} {a : RequestObject}
    (h : (r.validate w).2 = .ok a) : ∃ jwt, (r.resolve w).2 = .ok (a, jwt) ∧
      (r.validate w).1 = (r.resolve w).1 ++ (verifyRequest w a jwt).1 ∧
      (verifyRequest w a jwt).2 = .ok () ∧
      (∀ x, r.clientId = some x → ∀ y, UntypedObject.get ClientId a.inner = some (.ok y) → x = y.val) := by
  rw [validate_eq] at h ⊢
  simp only at h ⊢
  cases hr : (r.resolve w).2 with
  | error e => rw [hr] at h; simp at h
  | ok p =>
    obtain ⟨a', jwt⟩ := p
    rw [hr] at h
    simp only at h ⊢
    cases hv : (verifyRequest w a' jwt).2 with
    | error e => rw [hv] at h; simp at h
    | ok u =>
      rw [hv] at h
      simp only at h
      cases ht : transposeGet (UntypedObject.get ClientId a'.inner) with
      | error e => rw [ht] at h; simp at h
      | ok inner =>
        rw [ht] at h
        simp only at h
        have ht' := transposeGet_ok.mp ht
        cases hc : r.clientId with
        | none =>
          rw [hc] at h
          simp only [Except.ok.injEq] at h
          subst h
          exact ⟨jwt, rfl, rfl, hv, by simp⟩
        | some x =>
          rw [hc] at h
          cases inner with
          | none =>
            simp only [Except.ok.injEq] at h
            subst h
            refine ⟨jwt, rfl, rfl, hv, ?_⟩
            intro x _ y hy; rw [hy] at ht'; simp at ht'
          | some y =>
            simp only at h
            split at h
            · simp at h
            · rename_i hxy
              simp only [Except.ok.injEq] at h
              subst h
              refine ⟨jwt, rfl, rfl, hv, ?_⟩
              intro x' hx' y' hy'
              rw [hy'] at ht'
              simp only [Option.map_some, Option.some.injEq, Except.ok.injEq] at ht' hx'
              subst ht'; subst hx'
              exact not_not.mp hxy

theorem resolve_reports {w : Wallet} {r : AuthorizationRequest} {a : RequestObject} {j : Option Str}
    (h : (r.resolve w).2 = .ok (a, j)) : Reports a.inner a ∧ RequestObject.ofObject a.inner = .ok a := by
  obtain ⟨-, ⟨o, -, ho⟩, -⟩ := resolve_ok.mp h
  have := C05_accessors_agree ho
  exact ⟨this.2, C05_reparse ho⟩

/-- **C12** If validation returns a request object, then exactly one verification method was
called: the one the client_id of that object asks for, with that object and the JWT it came from,
and it returned success. -/
theorem C12_right_method_once (w : Wallet) (r : AuthorizationRequest) (a : RequestObject)
    (h : (r.validate w).2 = .ok a) :
    ∃ m jwt, verifyCalls (r.validate w).1 = [(m, a, jwt)] ∧ MethodFor a.clientId m ∧
      w.verifier m a jwt = .ok () ∧ JwtOf w r.indirection jwt ∧ ParamsOf w r a.inner jwt := by
  obtain ⟨jwt, hr, htr, hv, -⟩ := validate_ok h
  obtain ⟨-, m, hm, htr', hok⟩ := verifyRequest_ok hv
  obtain ⟨h1, ⟨o, ho, ha⟩, -⟩ := resolve_ok.mp hr
  obtain ⟨rfl, -, hrep, -⟩ := ofObject_iff.mp ha
  refine ⟨m, jwt, ?_, methodFor_iff hrep.scheme hm, hok, h1, ho⟩
  rw [htr, htr', verifyCalls_append, resolve_noVerify]
  rfl

/-- **C12** Conversely a request is accepted if it resolves, passes the checks against the
wallet's metadata, the method its client_id asks for accepts it, and the client_id outside, if
there are both, is the one inside. -/
theorem C12_accepted_iff (w : Wallet) (r : AuthorizationRequest) (a : RequestObject) :
    (r.validate w).2 = .ok a ↔ ∃ jwt m, (r.resolve w).2 = .ok (a, jwt) ∧
      validateAgainstMetadata w.metadata a = .ok () ∧ MethodFor a.clientId m ∧
      w.verifier m a jwt = .ok () ∧
      (∀ x y, r.clientId = some x → a.clientId = some y → x = y.val) := by
  constructor
  · intro h
    obtain ⟨jwt, hr, -, hv, hc⟩ := validate_ok h
    obtain ⟨h1, m, hm, -, hok⟩ := verifyRequest_ok hv
    have hrep := (resolve_reports hr).1
    refine ⟨jwt, m, hr, h1, methodFor_iff hrep.scheme hm, hok, ?_⟩
    intro x y hx hy
    have hcid := hrep.clientId
    rw [hy] at hcid
    exact hc x hx y ((get_text (f := .mk) (fun _ => rfl) _ _).mpr ⟨y.val, hcid, rfl⟩)
  · rintro ⟨jwt, m, hr, h1, hm, hok, hc⟩
    have hrep := (resolve_reports hr).1
    obtain ⟨p, hp, hs⟩ := methodFor_select hm
    rw [prefixIs_unique hp hrep.scheme] at hs
    rw [validate_eq, hr]
    simp only [verifyRequest, h1, hs, hok]
    have hcid := hrep.clientId
    cases hac : a.clientId with
    | none =>
      rw [hac] at hcid
      rw [(get_none (α := ClientId) a.inner).mpr hcid]
      cases r.clientId <;> rfl
    | some y =>
      rw [hac] at hcid
      rw [(get_text (α := ClientId) (f := .mk) (fun _ => rfl) _ _).mpr ⟨y.val, hcid, rfl⟩]
      cases hx : r.clientId with
      | none => rfl
      | some x =>
        have := hc x y hx hac
        simp [transposeGet, this]

/-- **C12** The method for a client_id is determined by it. -/
theorem C12_method_unique {c : Option ClientId} {m m' : VerifyMethod} (h : MethodFor c m)
    (h' : MethodFor c m') : m = m' := by
  obtain ⟨p, hp, hs⟩ := methodFor_select h
  obtain ⟨p', hp', hs'⟩ := methodFor_select h'
  rw [prefixIs_unique hp hp', hs'] at hs
  exact (Option.some.inj hs).symm

/-- The wallet's checks pass for the sample. -/
theorem metadata_sample : validateAgainstMetadata walletSample.metadata explicitObject = .ok () ∧
    validateAgainstMetadata walletSample.metadata anonymousObject = .ok () := by decide

theorem validate_sample : ((byValueSample (some c!"x509_san_dns:verifier.example") jwsHeaderSample
    explicitSample).validate walletSample).2 = .ok explicitObject := by
  refine (C12_accepted_iff _ _ _).mpr ⟨_, _, resolve_sample _, metadata_sample.1,
    .sanDns c!"verifier.example", rfl, ?_⟩
  rintro x y ⟨⟩ ⟨⟩; rfl

example : ∃ jwt, verifyCalls ((byValueSample (some c!"x509_san_dns:verifier.example") jwsHeaderSample
    explicitSample).validate walletSample).1 = [(.x509SanDns, explicitObject, jwt)] := by
  obtain ⟨m, jwt, h, hm, -⟩ := C12_right_method_once _ _ _ validate_sample
  rw [C12_method_unique hm (.sanDns c!"verifier.example")] at h
  exact ⟨jwt, h⟩

/-! ## C13 -/

theorem checkPrefix_ok {wm : WalletMetadata} {a : RequestObject} (h : checkPrefix wm a = .ok ()) :
    ∀ p, a.clientIdScheme = some p → ∃ l, readPrefixes wm = .ok l ∧ p.val ∈ l := by
  intro p hp
  simp only [checkPrefix, hp, prefixes_getOrDefault] at h
  cases hl : readPrefixes wm with
  | error e => rw [hl] at h; simp [Except.map] at h
  | ok l =>
    rw [hl] at h
    simp only [Except.map] at h
    split at h
    · rename_i hc
      refine ⟨l, rfl, ?_⟩
      rw [List.contains_iff_mem, List.mem_map] at hc
      obtain ⟨s, hs, rfl⟩ := hc
      exact hs
    · simp at h

theorem validateAgainstMetadata_ok {wm : WalletMetadata} {a : RequestObject}
    (h : validateAgainstMetadata wm a = .ok ()) :
    checkPrefix wm a = .ok () ∧ ∃ cm mode b, ClientMetadata.resolve a = .ok cm ∧
      UntypedObject.get ResponseMode a.inner = some (.ok mode) ∧ mode.isJarm = .ok b ∧
      (b = true → checkEncryption wm cm = .ok ()) := by
  simp only [validateAgainstMetadata] at h
  cases h1 : checkPrefix wm a with
  | error e => rw [h1] at h; simp at h
  | ok u =>
    rw [h1] at h; simp only at h
    cases h2 : ClientMetadata.resolve a with
    | error e => rw [h2] at h; simp at h
    | ok cm =>
      rw [h2] at h; simp only at h
      cases h3 : parsingError (UntypedObject.get ResponseMode a.inner) with
      | error e => rw [h3] at h; simp at h
      | ok mode =>
        rw [h3] at h; simp only at h
        cases h4 : mode.isJarm with
        | error e => rw [h4] at h; simp at h
        | ok b =>
          rw [h4] at h
          refine ⟨rfl, cm, mode, b, rfl, parsingError_ok.mp h3, h4, ?_⟩
          rintro rfl
          simpa using h

/-- Validation without a verification method being called cannot succeed. -/
theorem validate_noCall {w : Wallet} {r : AuthorizationRequest} {a : RequestObject} {jwt : Option Str}
    (hr : (r.resolve w).2 = .ok (a, jwt)) (hv : verifyCalls (verifyRequest w a jwt).1 = []) :
    (∀ a', (r.validate w).2 ≠ .ok a') ∧ verifyCalls (r.validate w).1 = [] := by
  constructor
  · intro a' h
    obtain ⟨jwt', hr', -, hv', -⟩ := validate_ok h
    rw [hr] at hr'
    simp only [Except.ok.injEq, Prod.mk.injEq] at hr'
    obtain ⟨rfl, rfl⟩ := hr'
    obtain ⟨-, m, -, htr, -⟩ := verifyRequest_ok hv'
    rw [htr] at hv
    simp [verifyCalls] at hv
  · rw [validate_eq, hr]
    simp only [verifyCalls_append, resolve_noVerify, hv]
    rfl

/-- A client_id whose prefix is not among the prefixes the wallet announces (only
`pre-registered` if it announces none) is refused before any verification method is called. -/
theorem unsupported_prefix_refused (w : Wallet) (r : AuthorizationRequest) (a : RequestObject)
    (jwt : Option Str) (hr : (r.resolve w).2 = .ok (a, jwt)) (p : ClientIdScheme)
    (hp : PrefixIs a.clientId (some p))
    (hn : ∀ l, readPrefixes w.metadata = .ok l → p.val ∉ l) :
    (∀ a', (r.validate w).2 ≠ .ok a') ∧ verifyCalls (r.validate w).1 = [] := by
  refine validate_noCall hr ?_
  have hrep := (resolve_reports hr).1
  have hsch : a.clientIdScheme = some p := by
    cases hc : a.clientId with
    | none => rw [hc] at hp; simp [PrefixIs] at hp
    | some c =>
      have h1 := hrep.scheme
      rw [hc] at hp h1
      rw [← (resolvePrefix_iff c _).mpr h1, (resolvePrefix_iff c _).mpr hp]
  simp only [verifyRequest]
  cases hv : validateAgainstMetadata w.metadata a with
  | error e => rfl
  | ok u =>
    obtain ⟨l, hl, hmem⟩ := checkPrefix_ok (validateAgainstMetadata_ok hv).1 p hsch
    exact absurd hmem (hn l hl)

/-- **C13** A client_id with the prefix `origin` is always refused, before any verification
method is called. -/
theorem C13_origin_refused (w : Wallet) (r : AuthorizationRequest) (a : RequestObject)
    (jwt : Option Str) (hr : (r.resolve w).2 = .ok (a, jwt)) (t : Str)
    (hp : a.clientId = some ⟨c!"origin:" ++ t⟩) :
    (∀ a', (r.validate w).2 ≠ .ok a') ∧ verifyCalls (r.validate w).1 = [] := by
  refine validate_noCall hr ?_
  have hrep := (resolve_reports hr).1
  have hsch : a.clientIdScheme = some ⟨c!"origin"⟩ := by
    have h1 := hrep.scheme
    rw [hp] at h1
    rw [← (resolvePrefix_iff _ _).mpr h1, resolvePrefix_iff]
    exact ⟨by decide, t, rfl⟩
  simp only [verifyRequest]
  cases hv : validateAgainstMetadata w.metadata a with
  | error e => rfl
  | ok u =>
    have hsel : selectMethod (some ⟨c!"origin"⟩) = none := by decide
    simp only [hsch, hsel]
    rfl

-- the sample is refused by a wallet that announces other prefixes, or none
example (w : Wallet) (hw : w.metadata.inner = []) (hs : w.ssiHeader = walletSample.ssiHeader)
    (a : RequestObject) :
    ((byValueSample none jwsHeaderSample explicitSample).validate w).2 ≠ .ok a := by
  have hr : ((byValueSample none jwsHeaderSample explicitSample).resolve w).2 = _ :=
    resolve_ok.mpr ⟨rfl, ⟨_, compactJws_payload (by rw [hs]; rfl) explicitSample_wf (by decide),
      explicitSample_ok⟩, fun _ e => .inl (by cases e; exact typed_sample _)⟩
  refine (unsupported_prefix_refused w _ _ _ hr ⟨c!"x509_san_dns"⟩
    ⟨by decide, c!"verifier.example", rfl⟩ ?_).1 a
  intro l hl
  simp only [readPrefixes, hw, mget, Except.ok.injEq] at hl
  subst hl; decide

-- a wallet that lists `origin` still refuses it
example (t : Str) : ∀ a, (AuthorizationRequest.validate walletSample ⟨some (c!"origin:" ++ t), .direct anonymousSample⟩).2 ≠
    .ok a := by
  have hof : ∃ a, RequestObject.ofObject (mset c!"client_id" (.str (c!"origin:" ++ t)) anonymousSample) = .ok a ∧
      a.clientId = some ⟨c!"origin:" ++ t⟩ := by
    exact ⟨_, rfl, rfl⟩
  obtain ⟨a, ha, hc⟩ := hof
  exact (C13_origin_refused walletSample ⟨some (c!"origin:" ++ t), .direct anonymousSample⟩ a none
    (resolve_ok.mpr ⟨rfl, ⟨_, ⟨_, rfl, rfl⟩, ha⟩, by simp⟩) t hc).1

/-! ## C14 -/

/-- **C14 (partial)** If validation of a request with a client_id outside the request object
succeeds, the object carries the same client_id or none.

Missing: that the object always carries it. An object without client_id is accepted, see
`C14_inner_absent_accepted`; it is then verified as pre-registered. For direct requests the full
claim holds, see `C14_direct`. -/
theorem C14_client_id_matches_partial (w : Wallet) (r : AuthorizationRequest) (a : RequestObject)
    (h : (r.validate w).2 = .ok a) (x : Str) (hx : r.clientId = some x) :
    a.clientId = some ⟨x⟩ ∨ (a.clientId = none ∧ ∃ jwt,
      verifyCalls (r.validate w).1 = [(.preregistered, a, some jwt)]) := by
  obtain ⟨m, jwt, hcalls, hm, -, hj, hparams⟩ := C12_right_method_once w r a h
  obtain ⟨jwt', hr, -, -, heq⟩ := validate_ok h
  have hrep := (resolve_reports hr).1
  have hcid := hrep.clientId
  cases hc : a.clientId with
  | none =>
    right
    refine ⟨rfl, ?_⟩
    rw [hc] at hm hcid
    cases hm
    cases jwt with
    | some j => exact ⟨j, hcalls⟩
    | none =>
      obtain ⟨d, -, ho⟩ := hparams
      rw [hx] at ho
      simp only [ClientIdIs, Absent, ho] at hcid
      rw [mget_mset_self] at hcid
      simp at hcid
  | some c =>
    left
    rw [hc] at hcid
    have := heq x hx c ((get_text (f := .mk) (fun _ => rfl) _ _).mpr ⟨c.val, hcid, rfl⟩)
    rw [this]

/-- **C14** Direct requests always carry the outer client_id. -/
theorem C14_direct (w : Wallet) (r : AuthorizationRequest) (a : RequestObject)
    (h : (r.validate w).2 = .ok a) (x : Str) (hx : r.clientId = some x) (d : UntypedObject)
    (hd : r.indirection = .direct d) : a.clientId = some ⟨x⟩ := by
  rcases C14_client_id_matches_partial w r a h x hx with h1 | ⟨-, jwt, h1⟩
  · exact h1
  · obtain ⟨m, j, hcalls, -, -, hj, -⟩ := C12_right_method_once w r a h
    rw [hcalls] at h1
    simp only [List.cons.injEq, Prod.mk.injEq, and_true, true_and] at h1
    rw [hd] at hj
    simp only [JwtOf] at hj
    rw [hj] at h1; simp at h1

/-- **C14** is false without `partial`: a wallet accepts a JWT without client_id for any client_id
outside, and treats it as pre-registered. -/
theorem C14_inner_absent_accepted : ¬ ∀ (w : Wallet) (r : AuthorizationRequest) (a : RequestObject)
    (x : Str), (r.validate w).2 = .ok a → r.clientId = some x → a.clientId = some ⟨x⟩ := by
  intro h
  have := h walletSample (byValueSample (some c!"x509_san_dns:verifier.example") jwsHeaderSample
    anonymousSample) anonymousObject _ ((C12_accepted_iff _ _ _).mpr ⟨_, _, resolve_anonymous _,
      metadata_sample.2, .absent, rfl, by simp [anonymousObject]⟩) rfl
  simp [anonymousObject] at this

/-! ## C15 -/

theorem checkSupported_ok {offered : List Str} {o : UntypedObject} {k : Str}
    (h : checkSupported offered ((mget k o).map strsOfJson) = .ok ()) :
    ListedIfAny o k (· ∈ offered) := by
  intro j hj
  rw [hj] at h
  simp only [Option.map_some] at h
  cases hl : strsOfJson j with
  | error e => rw [hl] at h; simp [checkSupported] at h
  | ok l =>
    rw [hl] at h
    simp only [checkSupported] at h
    split at h
    · rename_i ha
      obtain ⟨v, hv, hv'⟩ := List.any_eq_true.mp ha
      exact ⟨l, strsOfJson_ok.mp hl, v, by simpa using hv', hv⟩
    · simp at h

theorem encryptionAlgs_mem {jwks : JWKs} {v : Str} : v ∈ encryptionAlgs jwks ↔
    ∃ key ∈ jwks.keys, mget c!"use" key = some (.str c!"enc") ∧ mget c!"alg" key = some (.str v) := by
  have hb : ∀ (o : Option Json) (t : Str), o.bind Json.asStr? = some t ↔ o = some (.str t) := by
    intro o t
    cases o with
    | none => simp
    | some j => cases j <;> simp [Json.asStr?]
  simp only [encryptionAlgs, List.mem_filterMap, List.mem_filter, decide_eq_true_eq]
  constructor
  · rintro ⟨key, ⟨hk, hu⟩, ha⟩; exact ⟨key, hk, (hb _ _).mp hu, (hb _ _).mp ha⟩
  · rintro ⟨key, hk, hu, ha⟩; exact ⟨key, ⟨hk, (hb _ _).mpr hu⟩, (hb _ _).mpr ha⟩

theorem jwks_keys {j : Json} {jwks : JWKs} (h0 : TypedParameter.ofJson j = (.ok jwks : Res JWKs)) :
    ∃ ks : List Json, ((∃ m, j = .obj m ∧ mget c!"keys" m = some (.arr ks)) ∨ j = .arr [.arr ks]) ∧
      ks = jwks.keys.map .obj := by
  simp only [TypedParameter.ofJson] at h0
  obtain ⟨m, hm, h1⟩ := bind_ok_iff.mp h0
  obtain ⟨keys, hk, h2⟩ := bind_ok_iff.mp h1
  clear h0 h1
  cases h2
  obtain ⟨jk, hg, hv⟩ := fieldReq_ok hk
  have hv' : ∃ ks, jk = .arr ks ∧ ks = keys.map .obj := by
    cases jk with
    | arr ks =>
      refine ⟨ks, rfl, ?_⟩
      simp only [vecOfJson] at hv
      clear hk hg
      induction ks generalizing keys with
      | nil => simp [mapR] at hv; simp [← hv]
      | cons x xs ih =>
        simp only [mapR] at hv
        cases hx : objOfJson x with
        | error e => rw [hx] at hv; simp at hv
        | ok y =>
          rw [hx] at hv; simp only at hv
          cases hxs : mapR objOfJson xs with
          | error e => rw [hxs] at hv; simp at hv
          | ok ys =>
            rw [hxs] at hv
            simp only [Except.ok.injEq] at hv
            subst hv
            simp [objOfJson_ok.mp hx, ih ys hxs]
    | _ => simp [vecOfJson] at hv
  obtain ⟨ks, rfl, hks⟩ := hv'
  refine ⟨ks, ?_, hks⟩
  cases j with
  | obj m' =>
    simp only [structFields, Except.ok.injEq] at hm
    subst hm
    exact .inl ⟨m', rfl, hg⟩
  | arr l =>
    simp only [structFields] at hm
    split at hm
    · rename_i hlen
      simp only [Except.ok.injEq] at hm
      subst hm
      match l, hlen with
      | [x], _ =>
        simp only [List.zip_cons_cons, List.zip_nil_right, mget, if_true, Option.some.injEq] at hg
        rw [hg]
        exact .inr rfl
    · simp at hm
  | _ => simp [structFields] at hm

/-- **C15** If a request that asks for an encrypted response is accepted, its client metadata has
a key for encryption that names an algorithm, and for each list of algorithms the wallet
announces some value the verifier offers is in it. -/
theorem C15_encryption_requirements (w : Wallet) (r : AuthorizationRequest) (a : RequestObject)
    (h : (r.validate w).2 = .ok a) (hm : a.responseMode = .directPostJwt ∨ a.responseMode = .dcApiJwt) :
    ∃ cm, mget c!"client_metadata" a.inner = some (.obj cm) ∧ (∃ v, OffersAlg cm v) ∧
      ListedIfAny w.metadata.inner c!"authorization_encryption_alg_values_supported" (OffersAlg cm) ∧
      ListedIfAny w.metadata.inner c!"authorization_encryption_enc_values_supported" (OffersEnc cm) := by
  obtain ⟨jwt, hr, -, hv, -⟩ := validate_ok h
  obtain ⟨hva, -⟩ := verifyRequest_ok hv
  obtain ⟨-, cm, mode, b, hcm, hmode, hj, henc⟩ := validateAgainstMetadata_ok hva
  have hrep := (resolve_reports hr).1
  -- the mode in the parameters is the mode of the object
  have hb : b = true := by
    obtain ⟨s, hs, hm'⟩ := (get_text (f := ResponseMode.ofStr) (fun _ => rfl) _ _).mp hmode
    have := (getMode_iff.mpr hrep.mode).1
    simp only [UntypedObject.getOrDefault] at this
    rw [show mget (TypedParameter.key ResponseMode) a.inner = some (.str s) from hs] at this
    simp only [TypedParameter.ofJson, strOfJson, Except.map, Except.ok.injEq] at this
    rw [← hm', this] at hj
    rcases hm with hm | hm <;> rw [hm] at hj <;> simp only [ResponseMode.isJarm, Except.ok.injEq] at hj <;>
      exact hj.symm
  have he := henc hb
  simp only [checkEncryption] at he
  cases hk : parsingError (UntypedObject.get JWKs cm.val) with
  | error e => rw [hk] at he; simp at he
  | ok jwks =>
    rw [hk] at he; simp only at he
    have hk' := parsingError_ok.mp hk
    -- the key set is present, so the client metadata is
    have hjw : ∃ jj, mget c!"jwks" cm.val = some jj ∧ TypedParameter.ofJson jj = (.ok jwks : Res JWKs) := by
      simp only [UntypedObject.get] at hk'
      cases hg : mget (TypedParameter.key JWKs) cm.val with
      | none => rw [hg] at hk'; simp at hk'
      | some jj => rw [hg] at hk'; exact ⟨jj, rfl, by simpa using hk'⟩
    obtain ⟨jj, hjj, hjo⟩ := hjw
    obtain ⟨ks, hks, hke⟩ := jwks_keys hjo
    have hin : ∀ key ∈ jwks.keys, KeyIn cm.val key := by
      intro key hkey
      refine ⟨ks, by rw [hke]; exact List.mem_map.mpr ⟨key, hkey, rfl⟩, ?_⟩
      rcases hks with ⟨m, rfl, hm'⟩ | rfl
      · exact .inl ⟨m, hjj, hm'⟩
      · exact .inr hjj
    have hoff : ∀ v, v ∈ encryptionAlgs jwks → OffersAlg cm.val v := by
      intro v hv'
      obtain ⟨key, h1, h2, h3⟩ := encryptionAlgs_mem.mp hv'
      exact ⟨key, hin key h1, h2, h3⟩
    have hcmv : mget c!"client_metadata" a.inner = some (.obj cm.val) := by
      simp only [ClientMetadata.resolve, UntypedObject.get] at hcm
      cases hg : mget (TypedParameter.key ClientMetadata) a.inner with
      | none =>
        rw [hg] at hcm
        simp only [Except.ok.injEq] at hcm
        subst hcm
        simp [mget] at hjj
      | some jc =>
        rw [hg] at hcm
        simp only [TypedParameter.ofJson] at hcm
        obtain ⟨m, hm1, rfl⟩ := map_ok_iff.mp hcm
        rw [objOfJson_ok.mp hm1]
    refine ⟨cm.val, hcmv, ?_⟩
    split at he
    · simp at he
    · rename_i hne
      have hne' : encryptionAlgs jwks ≠ [] := by simpa using hne
      have ha : ((UntypedObject.get AuthorizationEncryptionAlgValuesSupported w.metadata.inner).map
          (fun r => r.map (·.val))) =
          (mget c!"authorization_encryption_alg_values_supported" w.metadata.inner).map strsOfJson := by
        simp only [UntypedObject.get, TypedParameter.key, TypedParameter.ofJson]
        cases mget c!"authorization_encryption_alg_values_supported" w.metadata.inner with
        | none => rfl
        | some j => simp only [Option.map_some]; cases strsOfJson j <;> rfl
      have hen : ((UntypedObject.get AuthorizationEncryptionEncValuesSupported w.metadata.inner).map
          (fun r => r.map (·.val))) =
          (mget c!"authorization_encryption_enc_values_supported" w.metadata.inner).map strsOfJson := by
        simp only [UntypedObject.get, TypedParameter.key, TypedParameter.ofJson]
        cases mget c!"authorization_encryption_enc_values_supported" w.metadata.inner with
        | none => rfl
        | some j => simp only [Option.map_some]; cases strsOfJson j <;> rfl
      rw [ha, hen] at he
      cases h1 : checkSupported (encryptionAlgs jwks)
          ((mget c!"authorization_encryption_alg_values_supported" w.metadata.inner).map strsOfJson) with
      | error e => rw [h1] at he; simp at he
      | ok u =>
        rw [h1] at he; simp only at he
        cases h2 : transposeGet (UntypedObject.get EncryptedResponseEncValuesSupported cm.val) with
        | error e => rw [h2] at he; simp at he
        | ok enc =>
          rw [h2] at he; simp only at he
          refine ⟨?_, ?_, ?_⟩
          · cases hq : encryptionAlgs jwks with
            | nil => exact absurd hq hne'
            | cons v vs => exact ⟨v, hoff v (by rw [hq]; simp)⟩
          · intro j hj'
            obtain ⟨l, hl, v, hv1, hv2⟩ := checkSupported_ok h1 j hj'
            exact ⟨l, hl, v, hv1, hoff v hv2⟩
          · intro j hj'
            obtain ⟨l, hl, v, hv1, hv2⟩ := checkSupported_ok he j hj'
            refine ⟨l, hl, v, hv1, ?_⟩
            have h2' := transposeGet_ok.mp h2
            simp only [UntypedObject.get] at h2'
            cases hg : mget (TypedParameter.key EncryptedResponseEncValuesSupported) cm.val with
            | none =>
              rw [hg] at h2'
              cases enc with
              | some x => simp at h2'
              | none =>
                left
                refine ⟨hg, ?_⟩
                simpa [unwrapOr, RDefault.dflt] using hv2
            | some je =>
              rw [hg] at h2'
              cases enc with
              | none => simp at h2'
              | some x =>
                right
                simp only [Option.map_some, Option.some.injEq, TypedParameter.ofJson] at h2'
                obtain ⟨le, hle, rfl⟩ := map_ok_iff.mp h2'
                refine ⟨le, ?_, hv2⟩
                rw [strsOfJson_ok.mp hle] at hg
                exact hg

/-- Parameters of a request for an encrypted response. -/
def encryptedSample : UntypedObject :=
  mset c!"response_mode" (.str c!"direct_post.jwt") (mset c!"client_metadata" (.obj [(c!"jwks",
    .obj [(c!"keys", .arr [.obj [(c!"alg", .str c!"ECDH-ES"), (c!"use", .str c!"enc")]])])])
    requestSample)

/-- Its request object. -/
def encryptedObject : RequestObject :=
  { requestSampleObject with inner := encryptedSample, responseMode := .directPostJwt }

-- a wallet that announces A128GCM and not the key's algorithm refuses it; announcing both accepts
example :
    let w (algs : List Json) : Wallet := { walletSample with metadata := { walletSample.metadata with
      inner := [(c!"authorization_encryption_alg_values_supported", .arr algs),
        (c!"authorization_encryption_enc_values_supported", .arr [.str c!"A128GCM"]),
        (c!"client_id_prefixes_supported", .arr [.str c!"x509_san_dns"])] } }
    (AuthorizationRequest.validate (w [.str c!"ECDH-ES"]) ⟨none, .direct encryptedSample⟩).2 =
      .ok encryptedObject ∧
    (AuthorizationRequest.validate (w [.str c!"RSA-OAEP"]) ⟨none, .direct encryptedSample⟩).2 =
      .error .unsupported := by
  decide

/-! ## C16 -/

/-- **C16 (partial)** Whether parameters are accepted *as a request object* does not depend on
writing the default response mode explicitly.

Missing: the same for validation by a wallet; it is false, see `C16_missing_mode_refused`. -/
theorem C16_default_mode_object_partial (o : UntypedObject) (h : Absent o c!"response_mode") :
    (∃ a, RequestObject.ofObject o = .ok a) ↔
      ∃ a, RequestObject.ofObject (mset c!"response_mode" (.str c!"direct_post") o) = .ok a := by
  rw [C04_accepted_iff, C04_accepted_iff]
  have other : ∀ k, k ≠ c!"response_mode" →
      mget k (mset c!"response_mode" (.str c!"direct_post") o) = mget k o :=
    fun k hk => mget_mset_ne hk _ _
  have e1 := other c!"client_id" (by decide)
  have e2 := other c!"redirect_uri" (by decide)
  have e3 := other c!"response_uri" (by decide)
  have e4 := other c!"response_type" (by decide)
  have e5 := other c!"nonce" (by decide)
  have hm : ∀ m, AsksMode o m ↔ AsksMode (mset c!"response_mode" (.str c!"direct_post") o) m := by
    intro m
    simp only [AsksMode, Absent, HasText, mget_mset_self] at h ⊢
    rw [h]
    constructor
    · rintro (⟨-, rfl⟩ | ⟨s, hs, -⟩)
      · exact .inr ⟨_, rfl, .directPost⟩
      · simp at hs
    · rintro (⟨hs, -⟩ | ⟨s, hs, hk⟩)
      · simp at hs
      · simp only [Option.some.injEq, Json.str.injEq] at hs
        subst hs
        cases hk
        exact .inl ⟨rfl, rfl⟩
  constructor
  · rintro ⟨h1, h2, ⟨m, h3, h4⟩, h5, h6⟩
    refine ⟨by simpa only [Absent, HasText, e1] using h1, e2.trans h2, ⟨m, (hm m).mp h3, ?_⟩,
      by simpa only [HasText, e4] using h5, by simpa only [HasText, e5] using h6⟩
    simpa only [Absent, HasText, e3] using h4
  · rintro ⟨h1, h2, ⟨m, h3, h4⟩, h5, h6⟩
    refine ⟨by simpa only [Absent, HasText, e1] using h1, e2.symm.trans h2, ⟨m, (hm m).mpr h3, ?_⟩,
      by simpa only [HasText, e4] using h5, by simpa only [HasText, e5] using h6⟩
    simpa only [Absent, HasText, e3] using h4

/-- **C16** Validation refuses every request object without an explicit response mode, and calls
no verification method. -/
theorem C16_missing_mode_refused (w : Wallet) (r : AuthorizationRequest) (a : RequestObject)
    (jwt : Option Str) (hr : (r.resolve w).2 = .ok (a, jwt))
    (h : Absent a.inner c!"response_mode") :
    (∀ a', (r.validate w).2 ≠ .ok a') ∧ verifyCalls (r.validate w).1 = [] := by
  refine validate_noCall hr ?_
  simp only [verifyRequest]
  cases hv : validateAgainstMetadata w.metadata a with
  | error e => rfl
  | ok u =>
    obtain ⟨-, cm, mode, b, -, hmode, -⟩ := validateAgainstMetadata_ok hv
    rw [(get_none (α := ResponseMode) a.inner).mpr h] at hmode
    simp at hmode

/-- **C16** is false for validation: the sample with the default mode written out is accepted,
without it it is refused. -/
theorem C16_validation_depends :
    Absent requestSample c!"response_mode" ∧
    (AuthorizationRequest.validate walletSample ⟨none, .direct (mset c!"response_mode"
      (.str c!"direct_post") requestSample)⟩).2 = .ok explicitObject ∧
    (AuthorizationRequest.validate walletSample ⟨none, .direct requestSample⟩).2 = .error .missing :=
  ⟨by rfl, by decide⟩

/-! ## C17 -/

/-- **C17** Validation of a request by reference issues exactly one GET to the request_uri with
the version preference header (none if the address is not one the HTTP library can use); requests
by value and direct requests issue none. -/
theorem C17_one_get (w : Wallet) (r : AuthorizationRequest) :
    httpCalls (r.validate w).1 = match r.indirection with
      | .byReference uri => if w.uriOk uri.print = true then
          [⟨c!"GET", uri.print, [(c!"prefer", c!"OID4VP-1.0.0")], []⟩] else []
      | _ => [] := by
  have hv : ∀ a jwt, httpCalls (verifyRequest w a jwt).1 = [] := by
    intro a jwt
    simp only [verifyRequest]
    split
    · rfl
    · split <;> rfl
  rw [validate_eq]
  simp only [httpCalls_append, resolve_trace]
  have : httpCalls (match (r.resolve w).2 with
      | .error _ => []
      | .ok (a, jwt) => (verifyRequest w a jwt).1) = [] := by
    split
    · rfl
    · exact hv _ _
  rw [this, List.append_nil]
  cases r.indirection with
  | byReference uri => simp only; split <;> rfl
  | _ => rfl

/-- **C17** If the answer is a transport error, not a success status or not UTF-8, validation
fails and no verification method is called. -/
theorem C17_bad_answer_refused (w : Wallet) (r : AuthorizationRequest) (uri : Url)
    (hi : r.indirection = .byReference uri) (hf : ∀ body, ¬ Fetched w uri body) :
    (∀ a, (r.validate w).2 ≠ .ok a) ∧ verifyCalls (r.validate w).1 = [] := by
  have hn : ∀ p, (r.resolve w).2 ≠ .ok p := by
    rintro ⟨a, j⟩ h
    obtain ⟨h1, -⟩ := resolve_ok.mp h
    rw [hi] at h1
    obtain ⟨body, hb, -⟩ := h1
    exact hf body hb
  cases hr : (r.resolve w).2 with
  | ok p => exact absurd hr (hn p)
  | error e =>
    constructor
    · intro a h
      obtain ⟨jwt, hr', -⟩ := validate_ok h
      rw [hr] at hr'; simp at hr'
    · rw [validate_eq, hr]
      simp only [verifyCalls_append, resolve_noVerify]
      rfl

/-- A request by reference. -/
def byReferenceSample : AuthorizationRequest :=
  ⟨none, .byReference ⟨c!"https", some c!"v.example", c!"/r", none, none⟩⟩

theorem validate_reference : (byReferenceSample.validate walletSample).2 = .ok explicitObject := by
  refine (C12_accepted_iff _ _ _).mpr ⟨_, _, resolve_ok.mpr ⟨⟨_, ⟨_, rfl, by decide, by decide,
    utf8Dec_utf8 _, rfl⟩, rfl⟩, ⟨_, compactJws_payload rfl explicitSample_wf (by decide),
    explicitSample_ok⟩, fun _ e => .inl (by cases e; exact typed_sample _)⟩, metadata_sample.1,
    .sanDns c!"verifier.example", rfl, ?_⟩
  rintro x y ⟨⟩

example : httpCalls (byReferenceSample.validate walletSample).1 =
    [⟨c!"GET", c!"https://v.example/r", [(c!"prefer", c!"OID4VP-1.0.0")], []⟩] := by
  rw [C17_one_get]; rfl

-- a status of 404 is refused
example : ∀ a, (byReferenceSample.validate { walletSample with
    http := fun _ => .ok ⟨404, []⟩ }).2 ≠ .ok a :=
  (C17_bad_answer_refused _ _ _ rfl (by
    rintro body ⟨resp, hr, -, hs, -⟩
    cases hr
    revert hs; decide)).1

/-! ## C18 -/

/-- **C18** With the default verification methods no request is accepted. -/
theorem C18_default_rejects (w : Wallet) (hw : w.verifier = defaultVerifier)
    (r : AuthorizationRequest) (a : RequestObject) : (r.validate w).2 ≠ .ok a := by
  intro h
  obtain ⟨m, jwt, -, -, hok, -⟩ := C12_right_method_once w r a h
  rw [hw] at hok
  simp [defaultVerifier] at hok

/-- **C18** The same starting from a URL. -/
theorem C18_default_rejects_url (w : Wallet) (hw : w.verifier = defaultVerifier)
    (url : Url) (a : RequestObject) : (w.validateRequest url).2 ≠ .ok a := by
  intro h
  simp only [Wallet.validateRequest] at h
  cases hf : fromUrl url w.metadata.authorizationEndpoint.val with
  | error e => rw [hf] at h; simp at h
  | ok r => rw [hf] at h; exact C18_default_rejects w hw r a h

-- the wallet of the examples accepts a request that it refuses with the default methods
example : ∀ a, (AuthorizationRequest.validate { walletSample with verifier := defaultVerifier }
    byReferenceSample).2 ≠ .ok a := fun a => C18_default_rejects _ rfl _ a

end Oid4vp
