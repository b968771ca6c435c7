import Verif.Spec.Authentic
import Verif.Props.EndToEnd
import Verif.Props.Signed
import Verif.Props.Decision
/-! # C97: requests that a wallet accepts come from the client they name -/

set_option autoImplicit false

namespace Oid4vp

open Spec AuthorizationRequest

theorem cut_unique {h h' b b' : Str} (e : h ++ '.' :: b = h' ++ '.' :: b') (n : '.' ∉ h) (n' : '.' ∉ h') :
    h = h' ∧ b = b' := by
  have := splitOnce_append (b := b) n
  rw [e, splitOnce_append n'] at this
  simp only [Option.some.injEq, Prod.mk.injEq] at this
  exact ⟨this.1.symm, this.2.symm⟩

theorem parts_unique {jwt h b g h' b' g' : Str} (p : JwsParts jwt h b g) (p' : JwsParts jwt h' b' g') :
    h = h' ∧ b = b' ∧ g = g' := by
  obtain ⟨e, n, n1⟩ := p
  obtain ⟨e', n', n1'⟩ := p'
  rw [e] at e'
  obtain ⟨h1, h2⟩ := cut_unique e' n n'
  obtain ⟨h3, h4⟩ := cut_unique h2 n1 n1'
  exact ⟨h1, h3, h4⟩

/-- Tokens over the same signed bytes have the same payload. -/
theorem payload_of_signed {hdr : SsiHeader} {jwt jwt' : Str} {msg : Bytes} {o o' : UntypedObject}
    (s : SignedText jwt msg) (s' : SignedText jwt' msg) (p : JwsPayload hdr jwt o)
    (p' : JwsPayload hdr jwt' o') : o = o' := by
  obtain ⟨h, b, g, hp, rfl⟩ := s
  obtain ⟨h', b', g', hp', e⟩ := s'
  obtain ⟨rfl, rfl⟩ := cut_unique (utf8_inj e) hp.2.1 hp'.2.1
  obtain ⟨h1, b1, g1, hb, alg, enc, bytes, q, d1, d2, d3, -, d4⟩ := p
  obtain ⟨h2, b2, g2, hb', alg', enc', bytes', q', d1', d2', d3', -, d4'⟩ := p'
  obtain ⟨rfl, rfl, -⟩ := parts_unique hp q
  obtain ⟨rfl, rfl, -⟩ := parts_unique hp' q'
  rw [d1, Option.some.injEq] at d1'
  subst d1'
  rw [d2] at d2'
  simp only [Except.ok.injEq, Prod.mk.injEq] at d2'
  obtain ⟨rfl, rfl⟩ := d2'
  have : bytes = bytes' := by
    cases enc with
    | true =>
      simp only [if_true] at d3 d3'
      rw [d3, Option.some.injEq] at d3'
      exact d3'
    | false =>
      simp only [Bool.false_eq_true, if_false] at d3 d3'
      rw [d3, d3']
  subst this
  rw [d4, Except.ok.injEq, Json.obj.injEq] at d4'
  exact d4'

/-- If the token that was accepted has the signed bytes of one that was made, the request is the same. -/
theorem oneOf_of_made {w : Wallet} {r : AuthorizationRequest} {a : RequestObject} {jwt : Str} {msg : Bytes}
    {c : Client} {asked : RequestObject → Prop} (hr : (r.resolve w).2 = .ok (a, some jwt))
    (hs : SignedText jwt msg) (hm : MadeFor c asked msg)
    (hread : ∀ a' jwt', asked a' → c.generate a' = .ok jwt' → JwsPayload w.ssiHeader jwt' a'.toObject) :
    OneOf asked a := by
  obtain ⟨a', jwt', h1, h2, h3⟩ := hm
  obtain ⟨-, ⟨o, ho, hoa⟩, -⟩ := resolve_ok.mp hr
  have ha := (C05_accessors_agree hoa).1
  have := payload_of_signed hs h3 ho (hread a' jwt' h1 h2)
  subst this
  exact ⟨a', h1, ha, hoa⟩

/-- **C97** DID clients. Let a client of a DID make tokens for some request objects. Then a wallet that uses DID
verification (and lists no algorithm called `none`) accepts under the client's identifier only these request
objects, whoever sends the request, by value or by reference, and whatever the network answers, unless the token
that it got is a forgery. -/
theorem C97_did (w : Wallet) (verify : Str → Bytes → Jwk → Bytes → Bool) (resolver : Str → Res Jwk)
    (trusted : Option (List Str)) (s : Signer) (did frag alg : Str) (client : Client)
    (asked : RequestObject → Prop) (r : AuthorizationRequest) (a : RequestObject)
    (hnew : didClientNew (did ++ '#' :: frag) s resolver = .ok client) (hfrag : '#' ∉ frag)
    (halg : s.alg = .ok alg)
    (hhdr : ∀ kid, w.ssiHeader (utf8 (jPrint (.obj (didMembers alg kid)))) = .ok (alg, true))
    (hver : ∀ a jwt, w.verifier .decentralizedIdentifier a (some jwt) =
      didVerify ⟨w.ssiHeader, verify⟩ resolver trusted w.metadata a jwt)
    (hnone : ∀ a, w.verifier .decentralizedIdentifier a none ≠ .ok ())
    (hn : ∀ alg, AlgListed w.metadata alg → ¬ MentionsNone alg)
    (hasked : ∀ a, asked a → WithinJson a)
    (h : (r.validate w).2 = .ok a) (hid : a.clientId = some client.id) :
    OneOf asked a ∨ ∃ jwt, JwtOf w r.indirection (some jwt) ∧ ForgedDid verify resolver did client asked jwt := by
  obtain ⟨jwt, m, hr, -, hm, hv, -⟩ := (C12_accepted_iff w r a).mp h
  obtain ⟨did', frag', -, hvm, hf', -, -, hci, -, hg⟩ := (C72_did_client _ s resolver client).mp hnew
  have hd : did' = did ∧ frag' = frag := by
    have h1 := rsplitOnce_eq_some.mpr ⟨show did ++ '#' :: frag = did ++ '#' :: frag from rfl, hfrag⟩
    have h2 := rsplitOnce_eq_some.mpr ⟨show did ++ '#' :: frag = did' ++ '#' :: frag' by rw [hvm]; simp, hf'⟩
    rw [h1] at h2
    simp only [Option.some.injEq, Prod.mk.injEq] at h2
    exact ⟨h2.1.symm, h2.2.symm⟩
  obtain ⟨rfl, rfl⟩ := hd
  have hmd : m = .decentralizedIdentifier := by
    refine C12_method_unique hm ?_
    rw [hid, show client.id = ⟨c!"decentralized_identifier:" ++ did'⟩ from congrArg ClientId.mk hci]
    exact .did did'
  subst hmd
  cases jwt with
  | none => exact absurd hv (hnone a)
  | some jwt =>
    rw [hver] at hv
    obtain ⟨m', alg', -, -, -, d, f, c, key, -, -, hc, hu, -, hk, hs⟩ :=
      C19_did_sound_without_none _ resolver trusted w.metadata a jwt hn hv
    rw [hid, Option.some.injEq] at hc
    subst hc
    have hdd : d = did' := by
      rw [hci] at hu
      rcases hu with hu | ⟨-, hu⟩
      · exact (List.append_cancel_left (as := c!"decentralized_identifier:") hu).symm
      · exact absurd rfl (hu did')
    subst hdd
    obtain ⟨h1, b1, g1, hb, sig, alg1, enc, payload, j, hp, -, hsg, -, hvs, -, -⟩ := hs
    by_cases hmade : MadeFor client asked (utf8 (h1 ++ '.' :: b1))
    case neg =>
      exact .inr ⟨jwt, (resolve_ok.mp hr).1, f, key, alg1, _, sig, hk, ⟨h1, b1, g1, hp, rfl, hsg⟩, hvs, hmade⟩
    refine .inl (oneOf_of_made hr ⟨h1, b1, g1, hp, rfl⟩ hmade ?_)
    intro a' jwt' hx hgen
    obtain ⟨hw, hdp⟩ := hasked a' hx
    rw [hg] at hgen
    simp only [didClient, halg, Except.ok.injEq] at hgen
    subst hgen
    exact (makeJwt_reads (s := s) (didMembers_wf alg _) (didMembers_depth _ _) rfl (hhdr _) hw hdp).2

/-- **C97** x509_hash clients. The same for a wallet that uses x509_hash verification, unless the token that it
got is a forgery for the client's certificate, or carries another certificate with the same hash. -/
theorem C97_hash (w : Wallet) (x : X509) (sv : SigVerifier) (roots : Option (List x.Cert)) (s : Signer)
    (leaf : x.Cert) (rest : List x.Cert) (alg : Str) (der : Bytes) (client : Client)
    (asked : RequestObject → Prop) (r : AuthorizationRequest) (a : RequestObject)
    (hnew : hashClientNew x (leaf :: rest) s = .ok client) (halg : s.alg = .ok alg)
    (hder : x.toDer leaf = .ok der) (hfrom : x.fromDer der = some leaf)
    (hhdr : ∀ ders, w.ssiHeader (utf8 (jPrint (.obj (x5cMembers alg ders)))) = .ok (alg, true))
    (hver : ∀ a jwt, w.verifier .x509Hash a (some jwt) = x509HashVerify x sv roots w.metadata a jwt)
    (hnone : ∀ a, w.verifier .x509Hash a none ≠ .ok ())
    (hasked : ∀ a, asked a → WithinJson a)
    (h : (r.validate w).2 = .ok a) (hid : a.clientId = some client.id) :
    OneOf asked a ∨ ∃ jwt, JwtOf w r.indirection (some jwt) ∧ (ForgedCert x sv leaf client asked jwt ∨
      ∃ d c, Carried x jwt d c ∧ d ≠ der ∧ x.sha256 d = x.sha256 der) := by
  obtain ⟨jwt, m, hr, -, hm, hv, -⟩ := (C12_accepted_iff w r a).mp h
  obtain ⟨der', hder', hci, -, hg⟩ := (C72_hash_client x leaf rest s client).mp hnew
  rw [hder, Except.ok.injEq] at hder'
  subst hder'
  have hmd : m = .x509Hash := by
    refine C12_method_unique hm ?_
    rw [hid, show client.id = ⟨c!"x509_hash:" ++ base64 base64Url (x.sha256 der)⟩ from congrArg ClientId.mk hci]
    exact .hash _
  subst hmd
  cases jwt with
  | none => exact absurd hv (hnone a)
  | some jwt =>
    rw [hver] at hv
    obtain ⟨cid, m', alg', d, c, hc, hmh, -, -, hl, hu, hs⟩ := (C21_accepted_iff x sv roots w.metadata a jwt).mp hv
    rw [hid, Option.some.injEq] at hc
    subst hc
    have hsame : x.sha256 d = x.sha256 der := by
      rw [hci] at hu
      rcases hu with hu | ⟨-, hu⟩
      · have := List.append_cancel_left (as := c!"x509_hash:") hu
        have e : b64Enc .url (x.sha256 der) = b64Enc .url (x.sha256 d) := by
          rw [C52_base64_rfc4648, C52_base64_rfc4648]; exact this
        exact (b64Enc_inj e).symm
      · exact absurd rfl (hu _)
    by_cases hdd : d = der
    case neg => exact .inr ⟨jwt, (resolve_ok.mp hr).1, .inr ⟨d, c, ⟨m', hmh, hl⟩, hdd, hsame⟩⟩
    subst hdd
    obtain ⟨t, n, l, -, -, hfc⟩ := hl
    rw [hfrom, Option.some.injEq] at hfc
    subst hfc
    obtain ⟨h1, b1, g1, sig, k, hp, hsg, hk, hvs⟩ := hs
    by_cases hmade : MadeFor client asked (utf8 (h1 ++ '.' :: b1))
    case neg =>
      exact .inr ⟨jwt, (resolve_ok.mp hr).1, .inl ⟨alg', k, _, sig, hk, ⟨h1, b1, g1, hp, rfl, hsg⟩, hvs, hmade⟩⟩
    refine .inl (oneOf_of_made hr ⟨h1, b1, g1, hp, rfl⟩ hmade ?_)
    intro a' jwt' hx hgen
    obtain ⟨hw, hdp⟩ := hasked a' hx
    rw [hg] at hgen
    exact (x5cGenerate_reads halg hgen hhdr hw hdp).2

/-- **C97** x509_san_dns clients. The same for a wallet that uses x509_san_dns verification, unless the token that
it got is a forgery for a certificate that it carries and that names the host, whosever it is. -/
theorem C97_san (w : Wallet) (x : X509) (sv : SigVerifier) (roots : Option (List x.Cert)) (s : Signer)
    (leaf : x.Cert) (rest : List x.Cert) (alg host : Str) (client : Client)
    (asked : RequestObject → Prop) (r : AuthorizationRequest) (a : RequestObject)
    (hnew : sanClientNew x (leaf :: rest) s = .ok client) (halg : s.alg = .ok alg)
    (hhost : client.id.val = c!"x509_san_dns:" ++ host)
    (hhdr : ∀ ders, w.ssiHeader (utf8 (jPrint (.obj (x5cMembers alg ders)))) = .ok (alg, true))
    (hver : ∀ a jwt, w.verifier .x509SanDns a (some jwt) = x509SanVerify x sv roots w.metadata a jwt)
    (hnone : ∀ a, w.verifier .x509SanDns a none ≠ .ok ())
    (hasked : ∀ a, asked a → WithinJson a)
    (h : (r.validate w).2 = .ok a) (hid : a.clientId = some client.id) :
    OneOf asked a ∨ ∃ jwt, JwtOf w r.indirection (some jwt) ∧ ∃ d c, Carried x jwt d c ∧ NamesHost x c host ∧
      ForgedCert x sv c client asked jwt := by
  obtain ⟨jwt, m, hr, -, hm, hv, -⟩ := (C12_accepted_iff w r a).mp h
  obtain ⟨n, -, -, -, hg⟩ := (C72_san_client x leaf rest s client).mp hnew
  have hmd : m = .x509SanDns := by
    refine C12_method_unique hm ?_
    rw [hid, show client.id = ⟨c!"x509_san_dns:" ++ host⟩ from congrArg ClientId.mk hhost]
    exact .sanDns _
  subst hmd
  cases jwt with
  | none => exact absurd hv (hnone a)
  | some jwt =>
    rw [hver] at hv
    obtain ⟨cid, m', alg', d, c, host', hc, hmh, -, -, hl, hu, hnm, hs⟩ :=
      (C20_accepted_iff x sv roots w.metadata a jwt).mp hv
    rw [hid, Option.some.injEq] at hc
    subst hc
    have hh : host' = host := by
      rw [hhost] at hu
      rcases hu with hu | ⟨-, hu⟩
      · exact (List.append_cancel_left (as := c!"x509_san_dns:") hu).symm
      · exact absurd rfl (hu _)
    subst hh
    obtain ⟨h1, b1, g1, sig, k, hp, hsg, hk, hvs⟩ := hs
    by_cases hmade : MadeFor client asked (utf8 (h1 ++ '.' :: b1))
    case neg =>
      exact .inr ⟨jwt, (resolve_ok.mp hr).1, d, c, ⟨m', hmh, hl⟩, hnm,
        alg', k, _, sig, hk, ⟨h1, b1, g1, hp, rfl, hsg⟩, hvs, hmade⟩
    refine .inl (oneOf_of_made hr ⟨h1, b1, g1, hp, rfl⟩ hmade ?_)
    intro a' jwt' hx hgen
    obtain ⟨hw, hdp⟩ := hasked a' hx
    rw [hg] at hgen
    exact (x5cGenerate_reads halg hgen hhdr hw hdp).2

theorem accepted_by_value {w : Wallet} {o : UntypedObject} {a : RequestObject} {jwt : Str} {m : VerifyMethod}
    {c : Option Str} (ht : TypedAsRequest jwt) (hp : JwsPayload w.ssiHeader jwt o)
    (ho : RequestObject.ofObject o = .ok a) (hf : FitsWallet w.metadata.inner a)
    (hm : MethodFor a.clientId m) (hv : w.verifier m a (some jwt) = .ok ())
    (hc : ∀ x y, c = some x → a.clientId = some y → x = y.val) :
    (AuthorizationRequest.validate w ⟨c, .byValue jwt⟩).2 = .ok a :=
  (C87_accepted_iff w _ a).mpr ⟨m, some jwt,
    ⟨resolvesTo_iff.mp (resolve_ok.mpr ⟨rfl, ⟨o, hp, ho⟩, fun _ e => .inl (by cases e; exact ht)⟩), hf, hm⟩, hv, hc⟩

/-- **C97** (a finding) For x509_san_dns clients the exception takes no forgery: anyone who has a key and a certificate that names the host, be it made by themselves, makes any
wallet with x509_san_dns verification accept any request object it can use under the identifier of the host,
whatever trust anchors the wallet gives. -/
theorem C97_san_any_certificate (w : Wallet) (x : X509) (sv : SigVerifier) (roots : Option (List x.Cert))
    (s : Signer) (cert : x.Cert) (der : Bytes) (alg host : Str) (k : sv.Key) (a : RequestObject)
    (hname : NamesHost x cert host) (hder : x.toDer cert = .ok der) (hfrom : x.fromDer der = some cert)
    (halg : s.alg = .ok alg) (hlist : AlgListed w.metadata alg)
    (hkey : sv.fromSpki (x.spki cert) alg = some k) (hsig : ∀ msg, sv.verify k msg (s.sign msg) = true)
    (hhdr : ∀ ders, w.ssiHeader (utf8 (jPrint (.obj (x5cMembers alg ders)))) = .ok (alg, true))
    (hver : ∀ a jwt, w.verifier .x509SanDns a (some jwt) = x509SanVerify x sv roots w.metadata a jwt)
    (ha : RequestObject.ofObject a.toObject = .ok a) (hw : WithinJson a)
    (hid : a.clientId = some ⟨c!"x509_san_dns:" ++ host⟩) (hf : FitsWallet w.metadata.inner a) :
    ∃ jwt, x5cGenerate x [cert] s a = .ok jwt ∧
      (AuthorizationRequest.validate w ⟨some (c!"x509_san_dns:" ++ host), .byValue jwt⟩).2 = .ok a := by
  have hgen : x5cGenerate x [cert] s a = .ok (makeJwt (.obj (x5cMembers alg [der])) a s) := by
    simp only [x5cGenerate, halg, mapR, hder]
    rfl
  refine ⟨_, hgen, ?_⟩
  obtain ⟨ht, hp⟩ := x5cGenerate_reads halg hgen hhdr hw.1 hw.2
  refine accepted_by_value ht hp ha hf (m := .x509SanDns) (by rw [hid]; exact .sanDns host) ?_ ?_
  · rw [hver, C20_accepted_iff]
    refine ⟨_, x5cMembers alg [der], alg, der, cert, host, hid, ?_, rfl, hlist, ?_, .inl rfl, hname, ?_⟩
    · rw [makeJwt_eq]
      exact compactJws_header (x5cMembers_wf _ _).1 (Nat.le_trans (x5cMembers_wf _ _).2 (by decide))
    · exact ⟨b64Enc .std der, b64PadLen der.length, [], rfl, b64Dec_b64Enc _ _, hfrom⟩
    · rw [makeJwt_eq]
      exact ⟨_, _, _, _, k, compactJws_parts _ _ _, b64Dec_b64Enc _ _, hkey, hsig _⟩
  · intro a' b ha' hb
    rw [hid] at hb
    cases ha'
    cases hb
    rfl

/-! ## Cases -/

/-- Parameters of a request under the given client identifier. -/
def authSample (id : Str) : UntypedObject := mset c!"client_id" (.str id) explicitSample

/-- A wallet whose DID and certificate keys accept the one message given, signed by itself. -/
def authWallet (only : Bytes) : Wallet :=
  { e2eWallet [] with
    verifier := fun m a j => match m, j with
      | .decentralizedIdentifier, some j =>
        didVerify ⟨fun _ => .ok (c!"ES256", true), fun _ msg _ sig => msg == sig && msg == only⟩
          (fun _ => .ok []) (some [c!"did:ex:1"]) e2eMetadata a j
      | .x509SanDns, some j =>
        x509SanVerify toyX509 ⟨Unit, fun _ _ => some (), fun _ msg sig => msg == sig && msg == only⟩ none e2eMetadata a j
      | .x509Hash, some j =>
        x509HashVerify toyX509 ⟨Unit, fun _ _ => some (), fun _ msg sig => msg == sig && msg == only⟩ none e2eMetadata a j
      | _, _ => .error .unsupported }

theorem authWallet_did (only : Bytes) (a : RequestObject) (j : Str) :
    (authWallet only).verifier .decentralizedIdentifier a (some j) =
      didVerify ⟨fun _ => .ok (c!"ES256", true), fun _ msg _ sig => msg == sig && msg == only⟩
          (fun _ => .ok []) (some [c!"did:ex:1"]) e2eMetadata a j := rfl

theorem authWallet_hash (only : Bytes) (a : RequestObject) (j : Str) :
    (authWallet only).verifier .x509Hash a (some j) =
      x509HashVerify toyX509 ⟨Unit, fun _ _ => some (), fun _ msg sig => msg == sig && msg == only⟩ none e2eMetadata a j :=
  rfl

theorem authSample_wf (id : Str) : (Json.obj (authSample id)).WF FltLit ∧ (Json.obj (authSample id)).depth ≤ 127 := by
  have : authSample id =
    [(c!"client_id", .str id), (c!"nonce", .str c!"n"),
     (c!"response_mode", .str c!"direct_post"), (c!"response_type", .str c!"vp_token"),
     (c!"response_uri", .str c!"https://verifier.example/r")] := rfl
  rw [this]
  constructor
  · simp only [Json.WF, Json.WFM, Sorted, and_true]
    decide
  · simp [Json.depth, Json.depthM]

/-- The request object of these parameters under the identifier of a client. -/
def askedBy (c : Client) : RequestObject :=
  { explicitObject with inner := authSample c.id.val, clientId := some c.id, clientIdScheme := some c.pre }

theorem askedBy_fits (c : Client) (t : Str) (hid : c.id.val = c.pre.val ++ ':' :: t) (hp : ':' ∉ c.pre.val)
    (hm : c.pre.val ∈ [c!"decentralized_identifier", c!"x509_hash", c!"x509_san_dns"]) :
    FitsWallet e2eMetadata.inner (askedBy c) where
  pre p h := by
    have : PrefixIs (askedBy c).clientId (some c.pre) := ⟨hp, t, hid⟩
    have := prefixIs_unique h this
    injection this with this
    subst this
    exact .inr ⟨_, rfl, hm⟩
  mode := by
    intro h
    have e : mget c!"response_mode" (askedBy c).inner = some (.str c!"direct_post") := rfl
    simp only [Absent, e] at h
    cases h
  metadata := .inl ⟨rfl, by rintro (h | h) <;> cases h⟩

/-- The DID client of the cases. -/
def authClient : Client :=
  didClient (prefixedId ClientIdScheme.decentralizedIdentifier c!"did:ex:1") c!"did:ex:1#k" toySigner

/-- The x509_hash client of the cases. -/
def authHashClient : Client :=
  hashClient toyX509 (prefixedId ClientIdScheme.x509Hash (b64Enc .url [2, 1])) [[1, 2], [3]] toySigner

theorem made_of_only {c : Client} {a : RequestObject} {m : List (Str × Json)} {s : Signer} {msg sig : Bytes}
    (hg : c.generate a = .ok (makeJwt (.obj m) a s))
    (h : (msg == sig && msg == signingInput (b64Enc .url (utf8 (jPrint (.obj m))))
      (b64Enc .url (utf8 (jPrint (.obj a.toObject))))) = true) : MadeFor c (· = a) msg := by
  simp only [Bool.and_eq_true, beq_iff_eq] at h
  refine ⟨a, _, rfl, hg, _, _, _, (makeJwt_eq m a s).symm ▸ compactJws_parts _ _ _, h.2⟩

theorem askedBy_ok : RequestObject.ofObject (askedBy authClient).toObject = .ok (askedBy authClient) ∧
    RequestObject.ofObject (askedBy authHashClient).toObject = .ok (askedBy authHashClient) := by
  constructor <;> decide

theorem e2e_no_none (alg : Str) (h : AlgListed e2eMetadata alg) : ¬ MentionsNone alg := by
  obtain ⟨l, hl, hm⟩ := h
  have e : mget c!"request_object_signing_alg_values_supported" e2eMetadata.inner =
    some (.arr [.str c!"ES256"]) := rfl
  rw [e] at hl
  match l, hl, hm with
  | [x], hl, hm =>
    simp only [Option.some.injEq, Json.arr.injEq, List.map_cons, List.map_nil, List.cons.injEq, Json.str.injEq,
      and_true] at hl
    simp only [List.mem_singleton] at hm
    subst hl hm
    rintro ⟨a, b, h⟩
    exact absurd (contains_iff.mpr ⟨a, b, h⟩) (by decide)

/-- A token of the DID client is accepted, and nothing else under its identifier. -/
example : let w := authWallet (signingInput (b64Enc .url (utf8 (jPrint (.obj (didMembers c!"ES256" c!"did:ex:1#k")))))
      (b64Enc .url (utf8 (jPrint (.obj (askedBy authClient).toObject)))))
    (∃ r, (AuthorizationRequest.validate w r).2 = .ok (askedBy authClient)) ∧
    ∀ r a, (AuthorizationRequest.validate w r).2 = .ok a → a.clientId = some authClient.id →
      OneOf (· = askedBy authClient) a := by
  intro w
  have hnew : didClientNew (c!"did:ex:1" ++ '#' :: c!"k") toySigner (fun _ => .ok []) = .ok authClient := rfl
  have hgen : authClient.generate (askedBy authClient) =
    .ok (makeJwt (.obj (didMembers c!"ES256" c!"did:ex:1#k")) (askedBy authClient) toySigner) := rfl
  have hread := makeJwt_reads (hdr := fun _ => .ok (c!"ES256", true)) (s := toySigner) (a := askedBy authClient)
    (didMembers_wf c!"ES256" c!"did:ex:1#k") (didMembers_depth _ _) rfl rfl
    (authSample_wf _).1 (authSample_wf _).2
  constructor
  · refine ⟨⟨none, .byValue _⟩, accepted_by_value (m := .decentralizedIdentifier) hread.1 hread.2
      askedBy_ok.1 (askedBy_fits authClient c!"did:ex:1" rfl (by decide) (by decide)) (.did _) ?_ (by simp)⟩
    rw [authWallet_did]
    rw [C19_accepted_iff]
    refine ⟨didMembers c!"ES256" c!"did:ex:1#k", c!"ES256", ?_, rfl, ⟨[c!"ES256"], rfl, by simp⟩, .inr
      ⟨c!"did:ex:1", c!"k", _, [], rfl, by decide, rfl, .inl rfl, by simp, rfl, ?_⟩⟩
    · rw [makeJwt_eq]
      exact compactJws_header (didMembers_wf _ _) (didMembers_depth _ _)
    · rw [makeJwt_eq]
      exact ⟨_, _, _, _, _, c!"ES256", true, _, _, compactJws_parts _ _ _, b64Dec_b64Enc _ _, b64Dec_b64Enc _ _, rfl,
        by simp [toySigner, signingInput], b64Dec_b64Enc _ _,
        jParseBytes_jPrint (authSample_wf _).2 (authSample_wf _).1⟩
  · intro r a h hid
    rcases C97_did w (fun _ msg _ sig => msg == sig && msg == _) (fun _ => .ok []) (some [c!"did:ex:1"]) toySigner
      c!"did:ex:1" c!"k" c!"ES256" authClient (· = askedBy authClient) r a hnew (by decide) rfl (fun _ => rfl) (fun _ _ => rfl)
      (fun _ h => nomatch h) e2e_no_none (by rintro a rfl; exact authSample_wf _) h hid with
      h | ⟨jwt, -, frag, key, alg, msg, sig, -, -, hv, hn⟩
    · exact h
    · exact absurd (made_of_only hgen hv) hn

/-- The same of the x509_hash client. -/
example : let w := authWallet (signingInput (b64Enc .url (utf8 (jPrint (.obj (x5cMembers c!"ES256" [[1, 2], [3]])))))
      (b64Enc .url (utf8 (jPrint (.obj (askedBy authHashClient).toObject)))))
    (∃ r, (AuthorizationRequest.validate w r).2 = .ok (askedBy authHashClient)) ∧
    ∀ r a, (AuthorizationRequest.validate w r).2 = .ok a → a.clientId = some authHashClient.id →
      OneOf (· = askedBy authHashClient) a := by
  intro w
  have hgen : authHashClient.generate (askedBy authHashClient) =
    .ok (makeJwt (.obj (x5cMembers c!"ES256" [[1, 2], [3]])) (askedBy authHashClient) toySigner) := rfl
  have hread := makeJwt_reads (hdr := fun _ => .ok (c!"ES256", true)) (s := toySigner) (a := askedBy authHashClient)
    (x5cMembers_wf c!"ES256" [[1, 2], [3]]).1 (Nat.le_trans (x5cMembers_wf _ _).2 (by decide)) rfl rfl
    (authSample_wf _).1 (authSample_wf _).2
  constructor
  · refine ⟨⟨none, .byValue _⟩, accepted_by_value (m := .x509Hash) hread.1 hread.2
      askedBy_ok.2 (askedBy_fits authHashClient _ rfl (by decide) (by decide)) (.hash _) ?_ (by simp)⟩
    rw [authWallet_hash]
    rw [C21_accepted_iff]
    refine ⟨_, x5cMembers c!"ES256" [[1, 2], [3]], c!"ES256", [1, 2], [1, 2], rfl, ?_, rfl,
      ⟨[c!"ES256"], rfl, by simp⟩, ?_, .inl (by decide), ?_⟩
    · rw [makeJwt_eq]
      exact compactJws_header (x5cMembers_wf _ _).1 (Nat.le_trans (x5cMembers_wf _ _).2 (by decide))
    · exact ⟨b64Enc .std [1, 2], b64PadLen 2, _, rfl, b64Dec_b64Enc _ _, rfl⟩
    · rw [makeJwt_eq]
      exact ⟨_, _, _, _, (), compactJws_parts _ _ _, b64Dec_b64Enc _ _, rfl, by simp [toySigner, signingInput]⟩
  · intro r a h hid
    rcases C97_hash w toyX509 ⟨Unit, fun _ _ => some (), fun _ msg sig => msg == sig && msg == _⟩ none toySigner
      [1, 2] [[3]] c!"ES256" [1, 2] authHashClient (· = askedBy authHashClient) r a rfl rfl rfl rfl (fun _ => rfl) (fun _ _ => rfl)
      (fun _ h => nomatch h) (by rintro a rfl; exact authSample_wf _) h hid with
      h | ⟨jwt, -, ⟨alg, k, msg, sig, -, -, hv, hn⟩ | ⟨d, c, -, hne, he⟩⟩
    · exact h
    · exact absurd (made_of_only hgen hv) hn
    · exact absurd (List.reverse_injective he) hne

/-- The x509_san_dns client of the cases. -/
def authSanClient : Client :=
  sanClient toyX509 (prefixedId ClientIdScheme.x509SanDns c!"verifier.example") [[1, 2]] toySigner

/-- Nothing but the request object asked for is accepted if no certificate of the host signs anything else. -/
example (r : AuthorizationRequest) (a : RequestObject) :
    let w := authWallet (signingInput (b64Enc .url (utf8 (jPrint (.obj (x5cMembers c!"ES256" [[1, 2]])))))
      (b64Enc .url (utf8 (jPrint (.obj (askedBy authSanClient).toObject)))))
    (AuthorizationRequest.validate w r).2 = .ok a → a.clientId = some authSanClient.id →
      OneOf (· = askedBy authSanClient) a := by
  intro w h hid
  have hgen : authSanClient.generate (askedBy authSanClient) =
    .ok (makeJwt (.obj (x5cMembers c!"ES256" [[1, 2]])) (askedBy authSanClient) toySigner) := rfl
  rcases C97_san w toyX509 ⟨Unit, fun _ _ => some (), fun _ msg sig => msg == sig && msg == _⟩ none toySigner
      [1, 2] [] c!"ES256" c!"verifier.example" authSanClient (· = askedBy authSanClient) r a rfl rfl rfl
      (fun _ => rfl) (fun _ _ => rfl) (fun _ h => nomatch h) (by rintro a rfl; exact authSample_wf _) h hid with
    h | ⟨jwt, -, d, c, -, -, alg, k, msg, sig, -, -, hv, hn⟩
  · exact h
  · exact absurd (made_of_only hgen hv) hn

/-- Another certificate than the client's is as good. -/
example : ∃ jwt, x5cGenerate toyX509 [[66]] toySigner (askedBy authSanClient) = .ok jwt ∧
    (AuthorizationRequest.validate (e2eWallet [])
      ⟨some (c!"x509_san_dns:" ++ c!"verifier.example"), .byValue jwt⟩).2 = .ok (askedBy authSanClient) :=
  C97_san_any_certificate (e2eWallet []) toyX509 toyVerifier none toySigner [66] [66] c!"ES256" c!"verifier.example" ()
    _ ⟨_, List.mem_cons_of_mem _ (List.mem_singleton.mpr rfl), by simp⟩ rfl rfl rfl ⟨[c!"ES256"], rfl, by simp⟩ rfl
    (by simp [toyVerifier, toySigner]) (fun _ => rfl) (fun _ _ => rfl) (by decide) (authSample_wf _) rfl
    (askedBy_fits authSanClient c!"verifier.example" rfl (by decide) (by decide))

end Oid4vp
