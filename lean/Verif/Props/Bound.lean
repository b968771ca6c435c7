import Verif.Spec.Bound
import Verif.Props.Delivery
import Verif.Props.IsoLayout
import Verif.Props.Session
import Verif.Props.Sha256
/-! # C105: a presentation that is bound to the session transcript is good for one session -/

set_option autoImplicit false

namespace Oid4vp

open Spec

/-- The hash function gives texts of 32 bytes, as SHA-256 does. -/
def Gives32 (sha : Bytes → Bytes) : Prop := ∀ m, (sha m).length = 32

theorem redirectInfo_eq {c n u : Str} {t : Option Bytes} (hc : ShortText c) (hn : ShortText n) (ht : ShortBytes t)
    (hu : ShortText u) : redirectInfo c n t u = handoverInfo c n t u :=
  (C71_redirect_hash id hc hn ht hu).symm

theorem dcApiInfo_eq {o n : Str} {t : Option Bytes} (ho : ShortText o) (hn : ShortText n) (ht : ShortBytes t) :
    dcApiInfo o n t = dcApiHandoverInfo o n t :=
  (C71_dc_api_hash id ho hn ht).symm

theorem thumb_short {sha : Bytes → Bytes} (hsha : Gives32 sha) {a : RequestObject} {t : Option Bytes}
    (h : ThumbFor sha a t) : ShortBytes t := by
  intro x hx
  subst hx
  rcases h with ⟨-, h⟩ | ⟨-, h⟩
  · have hf : ∀ ks : List (List (Str × Json)), ∀ x, findThumbprint sha ks = some x → x.length < 2 ^ 64 := by
      intro ks
      induction ks with
      | nil => intro x h; cases h
      | cons k ks ih =>
        intro x h
        unfold findThumbprint at h
        split at h
        · exact ih x h
        · split at h
          · rename_i t ht
            cases h
            simp only [computeJwkThumbprint] at ht
            split at ht
            · cases ht
            · cases ht
              rw [hsha]
              decide
          · exact ih x h
    simp only [getEncryptionJwkThumbprint] at h
    split at h
    · cases h
    · split at h
      · cases h
      · exact hf _ _ h.symm
  · cases h

theorem transcript_inj {i : Str} {x y : Bytes} (hi : i = c!"OpenID4VPHandover" ∨ i = c!"OpenID4VPDCAPIHandover")
    (hx : x.length = 32) (hy : y.length = 32) (h : transcript i x = transcript i y) : x = y := by
  have hx' : x.length < 2 ^ 64 := by rw [hx]; decide
  have hy' : y.length < 2 ^ 64 := by rw [hy]; decide
  rcases hi with rfl | rfl
  · have := C44_transcript_injective (Handover.mk x) (Handover.mk y) hx' hy'
      (by rw [(C71_transcript x hx').1, (C71_transcript y hy').1, h])
    exact congrArg Handover.infoHash this
  · have := C44_transcript_injective (DcApiHandover.mk x) (DcApiHandover.mk y) hx' hy'
      (by rw [(C71_transcript x hx').2.2.1, (C71_transcript y hy').2.2.1, h])
    exact congrArg DcApiHandover.infoHash this

/-- **C105** The transcript of a request is what the library gives for its parts. -/
theorem C105_library (sha : Bytes → Bytes) (hsha : Gives32 sha) (a : RequestObject) (hs : ShortTexts a) (tr : Bytes) :
    (RedirectTranscript sha a tr ↔ IsDirectPost a.responseMode ∧ ∃ cid t, a.clientId = some cid ∧ ThumbFor sha a t ∧
      (SessionTranscript.mk (Handover.new sha cid.val a.nonce.val t a.returnUri.print)).toCborBytes = .ok tr) ∧
    ∀ origin, ShortText origin → (DcApiTranscript sha origin a tr ↔ IsDcApi a.responseMode ∧ ∃ t, ThumbFor sha a t ∧
      (SessionTranscript.mk (DcApiHandover.new sha origin a.nonce.val t)).toCborBytes = .ok tr) := by
  obtain ⟨hc, hn, hu⟩ := hs
  rw [← utf8Text_eq] at hn hu
  have hl : ∀ m, (sha m).length < 2 ^ 64 := fun m => by rw [hsha]; decide
  constructor
  · constructor
    · rintro ⟨m, ⟨hm, cid, t, h1, h2, rfl⟩, rfl⟩
      refine ⟨hm, cid, t, h1, h2, ?_⟩
      rw [redirectInfo_eq (by have := hc cid h1; rwa [← utf8Text_eq] at this) hn (thumb_short hsha h2) hu]
      exact (C71_transcript _ (hl _)).1
    · rintro ⟨hm, cid, t, h1, h2, h3⟩
      refine ⟨_, ⟨hm, cid, t, h1, h2, rfl⟩, ?_⟩
      rw [redirectInfo_eq (by have := hc cid h1; rwa [← utf8Text_eq] at this) hn (thumb_short hsha h2) hu]
      have := (C71_transcript (sha (handoverInfo cid.val a.nonce.val t a.returnUri.print)) (hl _)).1
      rw [show Handover.mk _ = Handover.new sha cid.val a.nonce.val t a.returnUri.print from rfl, h3,
        Except.ok.injEq] at this
      exact this
  · intro origin ho
    constructor
    · rintro ⟨m, ⟨hm, t, h2, rfl⟩, rfl⟩
      refine ⟨hm, t, h2, ?_⟩
      rw [dcApiInfo_eq ho hn (thumb_short hsha h2)]
      exact (C71_transcript _ (hl _)).2.2.1
    · rintro ⟨hm, t, h2, h3⟩
      refine ⟨_, ⟨hm, t, h2, rfl⟩, ?_⟩
      rw [dcApiInfo_eq ho hn (thumb_short hsha h2)]
      have := (C71_transcript (sha (dcApiHandoverInfo origin a.nonce.val t)) (hl _)).2.2.1
      rw [show DcApiHandover.mk _ = DcApiHandover.new sha origin a.nonce.val t from rfl, h3, Except.ok.injEq] at this
      exact this

theorem thumb_exists (sha : Bytes → Bytes) (a : RequestObject) : ∃ t, ThumbFor sha a t := by
  by_cases h : AsksEncrypted a
  · exact ⟨_, .inl ⟨h, rfl⟩⟩
  · exact ⟨_, .inr ⟨h, rfl⟩⟩

theorem thumb_unique {sha : Bytes → Bytes} {a : RequestObject} {t t' : Option Bytes} (h : ThumbFor sha a t)
    (h' : ThumbFor sha a t') : t = t' := by
  rcases h with ⟨h, rfl⟩ | ⟨h, rfl⟩ <;> rcases h' with ⟨h', rfl⟩ | ⟨h', rfl⟩
  · rfl
  · exact absurd h h'
  · exact absurd h' h
  · rfl

/-- **C105** A request that is answered by a post and names its client has exactly one transcript. -/
theorem C105_one (sha : Bytes → Bytes) (a : RequestObject) (hm : IsDirectPost a.responseMode)
    (hc : a.clientId ≠ none) : ∃ tr, RedirectTranscript sha a tr ∧ ∀ tr', RedirectTranscript sha a tr' → tr' = tr := by
  obtain ⟨cid, hc⟩ := Option.ne_none_iff_exists'.mp hc
  obtain ⟨t, ht⟩ := thumb_exists sha a
  refine ⟨_, ⟨_, ⟨hm, cid, t, hc, ht, rfl⟩, rfl⟩, ?_⟩
  rintro tr' ⟨m, ⟨-, cid', t', hc', ht', rfl⟩, rfl⟩
  rw [hc, Option.some.injEq] at hc'
  rw [hc', thumb_unique ht ht']

/-- **C105** Requests with the same transcript have the same client, nonce, return address and thumbprint, unless
what was hashed for them is a collision. -/
theorem C105_binds (sha : Bytes → Bytes) (hsha : Gives32 sha) (a a' : RequestObject) (hs : ShortTexts a)
    (hs' : ShortTexts a') (tr : Bytes) (h : RedirectTranscript sha a tr) (h' : RedirectTranscript sha a' tr) :
    SameBinding sha a a' ∨ HashesCollide sha a a' := by
  obtain ⟨m, hm, rfl⟩ := h
  obtain ⟨m', hm', e⟩ := h'
  have he := transcript_inj (.inl rfl) (hsha _) (hsha _) e
  by_cases hmm : m = m'
  case neg => exact .inr ⟨m, m', hm, hm', hmm, he⟩
  subst hmm
  obtain ⟨-, cid, t, h1, h2, rfl⟩ := hm
  obtain ⟨-, cid', t', h1', h2', e⟩ := hm'
  obtain ⟨hc, hn, hu⟩ := hs
  obtain ⟨hc', hn', hu'⟩ := hs'
  replace hc := hc cid h1
  replace hc' := hc' cid' h1'
  rw [← utf8Text_eq] at hc hn hu hc' hn' hu'
  rw [redirectInfo_eq hc hn (thumb_short hsha h2) hu, redirectInfo_eq hc' hn' (thumb_short hsha h2') hu'] at e
  obtain ⟨e1, e2, e3, e4⟩ := handoverInfo_inj hc hn (thumb_short hsha h2) hu hc' hn' (thumb_short hsha h2') hu' e
  refine .inl ⟨?_, ?_, e4, t, h2, e3 ▸ h2'⟩
  · rw [h1, h1', show cid = cid' from congrArg ClientId.mk e1]
  · exact congrArg Nonce.mk e2

/-- **C105** The transcripts of the two flows are different. -/
theorem C105_flows (sha : Bytes → Bytes) (hsha : Gives32 sha) (a a' : RequestObject) (origin : Str) (tr : Bytes)
    (h : RedirectTranscript sha a tr) : ¬ DcApiTranscript sha origin a' tr := by
  rintro ⟨m', -, e⟩
  obtain ⟨m, -, rfl⟩ := h
  have h1 := (C71_transcript (sha m) (by rw [hsha]; decide)).1
  have h2 := (C71_transcript (sha m') (by rw [hsha]; decide)).2.2.1
  rw [(C44_transcript_layout _ (hsha _)).1, Except.ok.injEq] at h1
  rw [(C44_transcript_layout _ (hsha _)).2, Except.ok.injEq] at h2
  rw [← h1, ← h2] at e
  have := congrArg (fun l => l[4]?) e
  simp at this

theorem built_wf {v : Verifier} {b : RequestBuilder} {s : Session} (h : Built v b s)
    (hd : IsDirectPost s.requestObject.responseMode) : s.requestObject.returnUri.WF := by
  obtain ⟨-, -, hrep, -⟩ := ofObject_iff.mp (built_object h)
  obtain ⟨t, -, ht⟩ := hrep.directPost hd
  exact Url.parse_wf ht

/-- **C105** Two sessions of a verifier have the same transcript only if they have the same id (and nonce),
whatever else was given to the builder. -/
theorem C105_sessions (sha : Bytes → Bytes) (hsha : Gives32 sha) (v : Verifier) (hsub : v.submissionEndpoint.WF)
    (b b' : RequestBuilder) (s s' : Session) (hb : Built v b s) (hb' : Built v b' s')
    (hs : ShortTexts s.requestObject) (hs' : ShortTexts s'.requestObject) (tr : Bytes)
    (h : RedirectTranscript sha s.requestObject tr) (h' : RedirectTranscript sha s'.requestObject tr) :
    (s.uuid = s'.uuid ∧ s.requestObject.nonce = s'.requestObject.nonce) ∨
      HashesCollide sha s.requestObject s'.requestObject := by
  have hd : IsDirectPost s.requestObject.responseMode := by obtain ⟨m, hm, -⟩ := h; exact hm.1
  have hd' : IsDirectPost s'.requestObject.responseMode := by obtain ⟨m, hm, -⟩ := h'; exact hm.1
  refine (C105_binds sha hsha _ _ hs hs' tr h h').imp_left ?_
  rintro ⟨-, hn, hu, -⟩
  refine ⟨?_, hn⟩
  have ha := ((built_own hsub hb).2.responseUri hd).1
  have ha' := ((built_own hsub hb').2.responseUri hd').1
  rw [Url.print_inj (built_wf hb hd) (built_wf hb' hd') hu] at ha
  exact address_inj ha ha'

theorem built_new {v : Verifier} {b : RequestBuilder} {s : Session} (h : Built v b s) (o : Outcome) :
    s.status ≠ .complete o := by
  cases h with
  | link uuid wm busy σ σ' url hb hs =>
    obtain ⟨s', hst, hf⟩ := C23_build_stores_one v b uuid wm busy σ σ' url hb
    rw [hst.2.1, Option.some.injEq] at hs
    subst hs
    rw [hf.status]
    split <;> simp
  | dcApi uuid busy σ σ' p hb hs =>
    obtain ⟨u, jwt⟩ := p
    obtain ⟨s', hst, hf, -⟩ := (C23_dc_api v b uuid busy σ σ').1 u jwt hb
    rw [hst.2.1, Option.some.injEq] at hs
    subst hs
    rw [hf.status]
    simp

/-- **C105** Let the validators of a verifier find a success only in responses that are signed over the transcript
of the session, and let a device sign only transcripts of requests which its wallet accepted. Then, however the
calls of the verifier are interleaved and whatever responses anyone delivers for whatever sessions, a success is
recorded for a session only if a wallet accepted a request with the verifier's client identifier and the nonce of
that session, the answer to which goes to the address of that session and to nobody else; or what was hashed is a
collision. -/
theorem C105_bound (sha : Bytes → Bytes) (hsha : Gives32 sha) (v : Verifier) (hsub : v.submissionEndpoint.WF)
    (ss : List Sched) (signed : Bytes → AuthorizationResponse → Prop) (accepted : RequestObject → Prop)
    (hbuilt : ∀ x, .spawn (.build x) ∈ ss → (∃ b, Built v b x) ∧ ShortTexts x.requestObject)
    (haccepted : ∀ a, accepted a → ShortTexts a)
    (hcareful : ∀ u r f s i, .spawn (.verify u r f) ∈ ss → f s r = .success i →
      ∃ tr, RedirectTranscript sha s.requestObject tr ∧ signed tr r)
    (hdevice : ∀ u r f tr, .spawn (.verify u r f) ∈ ss → signed tr r → ∃ a, accepted a ∧ RedirectTranscript sha a tr)
    (u : Uuid) (s : Session) (i : Json) (hs : (World.run ⟨[], []⟩ ss).1.store.get u = some s)
    (hc : s.status = .complete (.success i)) :
    ∃ x r f tr a, .spawn (.build x) ∈ ss ∧ x.uuid = u ∧ .spawn (.verify u r f) ∈ ss ∧ signed tr r ∧ accepted a ∧
      RedirectTranscript sha a tr ∧
      ((a.clientId = some v.client.id ∧ a.nonce = x.requestObject.nonce ∧
          AddressOf v.submissionEndpoint u x.requestObject.returnUri ∧
          a.returnUri.print = x.requestObject.returnUri.print ∧
          ∀ (w : Wallet) (ord : MapOrder) (r' : AuthorizationResponse), ∀ q ∈ (w.submitResponse ord a r').1,
            q.method = c!"POST" ∧ q.uri = x.requestObject.returnUri.print) ∨
        HashesCollide sha a x.requestObject) := by
  obtain ⟨s', r, f, h1, h2, -, h4, h5⟩ := C32_outcome_from_validator ss u s _
    (fun x o hx => by obtain ⟨⟨b, hb⟩, -⟩ := hbuilt x hx; exact built_new hb o) hs hc
  obtain ⟨-, -, x, hx, hsame⟩ := C32_validator_called_with_session ss u s' r _ h4
  obtain ⟨⟨b, hb⟩, hshort⟩ := hbuilt x hx
  obtain ⟨tr, htr, hsig⟩ := hcareful u r f s' i h1 h2.symm
  obtain ⟨a, ha, hatr⟩ := hdevice u r f tr h1 hsig
  have hro : s'.requestObject = x.requestObject := hsame.2.2.1
  rw [hro] at htr
  have hxu : x.uuid = u := by rw [← h5, hsame.1]
  have hd : IsDirectPost x.requestObject.responseMode := by obtain ⟨m, hm, -⟩ := htr; exact hm.1
  obtain ⟨-, hown⟩ := built_own hsub hb
  refine ⟨x, r, f, tr, a, hx, hxu, h1, hsig, ha, hatr, ?_⟩
  refine (C105_binds sha hsha a x.requestObject (haccepted a ha) hshort tr hatr htr).imp_left ?_
  rintro ⟨e1, e2, e3, -⟩
  refine ⟨by rw [e1, hown.clientIdField], e2, hxu ▸ (hown.responseUri hd).1, e3, ?_⟩
  intro w ord r' q hq
  obtain ⟨-, ⟨t, -, -, rfl⟩ | ⟨t, -, -, rfl⟩⟩ := (submit_calls _ _ _ _ _).mp hq
  · exact ⟨rfl, e3⟩
  · exact ⟨rfl, e3⟩

/-- **C105** Over the Digital Credentials API requests have the same transcript for an origin exactly if they have
the same nonce and thumbprint, unless what was hashed is a collision: the id of the session plays no part. -/
theorem C105_dc_api (sha : Bytes → Bytes) (hsha : Gives32 sha) (a a' : RequestObject) (origin origin' : Str)
    (hs : ShortTexts a) (hs' : ShortTexts a') (ho : ShortText origin) (ho' : ShortText origin') (tr : Bytes)
    (h : DcApiTranscript sha origin a tr) (hm' : IsDcApi a'.responseMode) :
    (DcApiTranscript sha origin' a' tr →
      (origin = origin' ∧ a.nonce = a'.nonce ∧ ∃ t, ThumbFor sha a t ∧ ThumbFor sha a' t) ∨
        ∃ m m', DcApiText sha origin a m ∧ DcApiText sha origin' a' m' ∧ m ≠ m' ∧ sha m = sha m') ∧
    (origin = origin' → a.nonce = a'.nonce → (∃ t, ThumbFor sha a t ∧ ThumbFor sha a' t) →
      DcApiTranscript sha origin' a' tr) := by
  obtain ⟨m, hm, rfl⟩ := h
  constructor
  · rintro ⟨m', hm', e⟩
    have he := transcript_inj (.inr rfl) (hsha _) (hsha _) e
    by_cases hmm : m = m'
    case neg => exact .inr ⟨m, m', hm, hm', hmm, he⟩
    subst hmm
    obtain ⟨-, t, h2, rfl⟩ := hm
    obtain ⟨-, t', h2', e⟩ := hm'
    obtain ⟨-, hn, -⟩ := hs
    obtain ⟨-, hn', -⟩ := hs'
    rw [← utf8Text_eq] at hn hn'
    rw [dcApiInfo_eq ho hn (thumb_short hsha h2), dcApiInfo_eq ho' hn' (thumb_short hsha h2')] at e
    obtain ⟨e1, e2, e3⟩ := dcApiHandoverInfo_inj ho hn (thumb_short hsha h2) ho' hn' (thumb_short hsha h2') e
    exact .inl ⟨e1, congrArg Nonce.mk e2, t, h2, e3 ▸ h2'⟩
  · rintro rfl hn ⟨t, ht, ht'⟩
    obtain ⟨-, t1, h1, rfl⟩ := hm
    rw [thumb_unique h1 ht, hn]
    exact ⟨_, ⟨hm', t, ht', rfl⟩, rfl⟩

/-- **C105** So over the Digital Credentials API all sessions that are built from the same parameters, by any
verifiers and for any session ids, have the same transcripts: only the nonce tells them apart. -/
theorem C105_dc_api_sessions (sha : Bytes → Bytes) (v v' : Verifier) (hsub : v.submissionEndpoint.WF)
    (hsub' : v'.submissionEndpoint.WF) (b : RequestBuilder) (s s' : Session) (hb : Built v b s) (hb' : Built v' b s')
    (origin : Str) (tr : Bytes) (h : DcApiTranscript sha origin s.requestObject tr) :
    DcApiTranscript sha origin s'.requestObject tr := by
  have ho := (built_own hsub hb).2.others
  have ho' := (built_own hsub' hb').2.others
  have hr := (ofObject_iff.mp (built_object hb)).2.2.1
  have hr' := (ofObject_iff.mp (built_object hb')).2.2.1
  have hall : ∀ k, k ∉ ownKeys → mget k s.requestObject.inner = mget k s'.requestObject.inner := fun k hk =>
    (ho k hk).trans (ho' k hk).symm
  have hn : s.requestObject.nonce = s'.requestObject.nonce := by
    have h1 : mget c!"nonce" s.requestObject.inner = _ := hr.nonce
    have h2 : mget c!"nonce" s'.requestObject.inner = _ := hr'.nonce
    rw [hall _ (by decide), h2] at h1
    simp only [Option.some.injEq, Json.str.injEq] at h1
    exact congrArg Nonce.mk h1.symm
  have hm : s.requestObject.responseMode = s'.requestObject.responseMode := by
    have h2 := hr'.mode
    have e := hall c!"response_mode" (by decide)
    unfold AsksMode Absent HasText at h2
    rw [← e] at h2
    have hu1 := (getMode_iff.mpr hr.mode).1
    have hu2 := (getMode_iff (o := s.requestObject.inner) |>.mpr h2).1
    rw [hu1, Except.ok.injEq] at hu2
    exact hu2
  have ht : getEncryptionJwkThumbprint sha s.requestObject = getEncryptionJwkThumbprint sha s'.requestObject := by
    unfold getEncryptionJwkThumbprint
    have : s.requestObject.clientMetadata = s'.requestObject.clientMetadata := by
      unfold RequestObject.clientMetadata UntypedObject.get
      rw [show mget (TypedParameter.key ClientMetadata) s.requestObject.inner = _ from
        hall c!"client_metadata" (by decide)]
      rfl
    rw [this]
  obtain ⟨m, ⟨hd, t, h1, rfl⟩, rfl⟩ := h
  refine ⟨_, ⟨hm ▸ hd, t, ?_, rfl⟩, by rw [hn]⟩
  unfold ThumbFor AsksEncrypted at h1 ⊢
  rwa [← hm, ← ht]

/-! ## A concrete verifier -/

/-- A transcript in place of a signature over it. -/
def asResponse (tr : Bytes) : AuthorizationResponse := .jwt (tr.map fun b => Char.ofNat b.toNat)

open Classical in
/-- A validator that accepts a response only if it is the transcript of the session (in place of a signature). -/
noncomputable def namesTranscript (sha : Bytes → Bytes) : Validator := fun s r =>
  if ∃ tr, RedirectTranscript sha s.requestObject tr ∧ r = asResponse tr then
    .success (.bool true) else .failure c!"no"

/-- Two sessions are built and a response is delivered for the first one. -/
noncomputable def boundRun (sha : Bytes → Bytes) (x y : Session) (r : AuthorizationResponse) : List Sched :=
  [.spawn (.build x), .step 0 false, .spawn (.build y), .step 1 false,
   .spawn (.verify (buildId 7) r (namesTranscript sha)), .step 2 false, .step 2 false, .step 2 false]

theorem boundRun_status (sha : Bytes → Bytes) (x y : Session) (r : AuthorizationResponse) (hx : x.uuid = buildId 7)
    (hy : y.uuid = buildId 8) : ∃ s s', (World.run ⟨[], []⟩ (boundRun sha x y r)).1.store.get (buildId 7) = some s ∧
      s'.requestObject = x.requestObject ∧ s.status = .complete (namesTranscript sha s' r) := by
  obtain ⟨u, st, jwt, ro, q⟩ := x
  obtain ⟨u', st', jwt', ro', q'⟩ := y
  subst hx hy
  exact ⟨_, _, rfl, rfl, rfl⟩

/-- What is needed of the two sessions. -/
def BoundSample (n : Nat) (x : Session) : Prop :=
  Built (buildVerifier .no) buildRequest x ∧ x.uuid = buildId n ∧ IsDirectPost x.requestObject.responseMode ∧
    ShortTexts x.requestObject ∧ x.requestObject.nonce.val = c!"n" ∧
    x.requestObject.clientId = some ⟨c!"x509_san_dns:v.example"⟩

theorem boundSample_7 : ∃ x, BoundSample 7 x :=
  ⟨_, .link (buildId 7) buildWallet false [] _ _ rfl rfl, rfl, .inl rfl,
    ⟨fun cid h => by cases h; decide, by decide, by decide⟩, rfl, rfl⟩

theorem boundSample_8 : ∃ x, BoundSample 8 x :=
  ⟨_, .link (buildId 8) buildWallet false [] _ _ rfl rfl, rfl, .inl rfl,
    ⟨fun cid h => by cases h; decide, by decide, by decide⟩, rfl, rfl⟩

theorem boundRun_ops {sha : Bytes → Bytes} {x y : Session} {r : AuthorizationResponse} {op : Op}
    (h : .spawn op ∈ boundRun sha x y r) : op = .build x ∨ op = .build y ∨
      op = .verify (buildId 7) r (namesTranscript sha) := by
  simpa [boundRun] using h

theorem namesTranscript_success {sha : Bytes → Bytes} {s : Session} {r : AuthorizationResponse} :
    (∃ i, namesTranscript sha s r = .success i) ↔
      ∃ tr, RedirectTranscript sha s.requestObject tr ∧ r = asResponse tr := by
  unfold namesTranscript
  split
  · rename_i h; simp [h]
  · rename_i h; simp [h]

theorem asResponse_inj {l l' : Bytes} (h : asResponse l = asResponse l') : l = l' := by
  have h := AuthorizationResponse.jwt.inj h
  revert h
  apply List.map_injective_iff.mpr
  intro b b' hbb
  have : (Char.ofNat b.toNat).toNat = (Char.ofNat b'.toNat).toNat := congrArg Char.toNat hbb
  have hb := b.toNat_lt
  have hb' := b'.toNat_lt
  rw [char_toNat_ofNat (by omega), char_toNat_ofNat (by omega)] at this
  exact UInt8.toNat_inj.mp this

-- the hash of the program gives 32 bytes
example : Gives32 sha256 := C94_length

/-- A request over the Digital Credentials API. -/
def dcApiRequest : RequestBuilder :=
  ⟨some dcqlSample, mset c!"response_mode" (.str c!"dc_api.jwt") (mdel c!"response_uri" sealedRequest.params)⟩

-- sessions for different ids over the Digital Credentials API with the same transcript
example (sha : Bytes → Bytes) : ∃ s s' tr, Built (buildVerifier .no) dcApiRequest s ∧
    Built (buildVerifier .no) dcApiRequest s' ∧ s.uuid = buildId 7 ∧ s'.uuid = buildId 8 ∧
    DcApiTranscript sha c!"https://v.example" s.requestObject tr ∧
    DcApiTranscript sha c!"https://v.example" s'.requestObject tr := by
  have h1 : ∃ s, Built (buildVerifier .no) dcApiRequest s ∧ s.uuid = buildId 7 ∧ IsDcApi s.requestObject.responseMode :=
    ⟨_, .dcApi (buildId 7) false [] _ _ rfl rfl, rfl, .inr rfl⟩
  have h2 : ∃ s, Built (buildVerifier .no) dcApiRequest s ∧ s.uuid = buildId 8 :=
    ⟨_, .dcApi (buildId 8) false [] _ _ rfl rfl, rfl⟩
  obtain ⟨s, hb, hu, hd⟩ := h1
  obtain ⟨s', hb', hu'⟩ := h2
  obtain ⟨t, ht⟩ := thumb_exists sha s.requestObject
  have h : DcApiTranscript sha c!"https://v.example" s.requestObject _ := ⟨_, ⟨hd, t, ht, rfl⟩, rfl⟩
  exact ⟨s, s', _, hb, hb', hu, hu', h,
    C105_dc_api_sessions sha _ _ (buildVerifier_wf _) (buildVerifier_wf _) _ s s' hb hb' _ _ h⟩

-- with two sessions for the same nonce, the answer to the first one completes it; the answer to the second one
-- (whose address is another one) does not complete the first one, unless the hashes collide
example (sha : Bytes → Bytes) (hsha : Gives32 sha) (x y : Session) (hx : BoundSample 7 x) (hy : BoundSample 8 y) :
    (∃ tr s, RedirectTranscript sha x.requestObject tr ∧
      (World.run ⟨[], []⟩ (boundRun sha x y (asResponse tr))).1.store.get (buildId 7) =
        some s ∧ s.status = .complete (.success (.bool true))) ∧
    ∀ tr s i, RedirectTranscript sha y.requestObject tr →
      (World.run ⟨[], []⟩ (boundRun sha x y (asResponse tr))).1.store.get (buildId 7) =
        some s → s.status = .complete (.success i) → HashesCollide sha y.requestObject x.requestObject := by
  obtain ⟨hbx, hux, hdx, hsx, -, hcx⟩ := hx
  obtain ⟨hby, huy, hdy, hsy, -, hcy⟩ := hy
  constructor
  · obtain ⟨tr, htr, -⟩ := C105_one sha x.requestObject hdx (by rw [hcx]; simp)
    obtain ⟨s, s', h1, h2, h3⟩ := boundRun_status sha x y (asResponse tr) hux huy
    refine ⟨tr, s, htr, h1, ?_⟩
    rw [h3]
    unfold namesTranscript
    rw [h2, if_pos ⟨tr, htr, rfl⟩]
  · intro tr s i htr hs hc
    have k1 : ∀ z, .spawn (.build z) ∈ boundRun sha x y (asResponse tr) →
        (∃ b, Built (buildVerifier .no) b z) ∧ ShortTexts z.requestObject := fun z hz => by
      rcases boundRun_ops hz with h | h | h
      · cases h; exact ⟨⟨_, hbx⟩, hsx⟩
      · cases h; exact ⟨⟨_, hby⟩, hsy⟩
      · cases h
    have k2 : ∀ u r f s i, .spawn (.verify u r f) ∈ boundRun sha x y (asResponse tr) → f s r = .success i →
        ∃ t, RedirectTranscript sha s.requestObject t ∧ r = asResponse t := fun u r f s i hv hf => by
      rcases boundRun_ops hv with h | h | h
      · cases h
      · cases h
      · simp only [Op.verify.injEq] at h
        rw [h.2.2] at hf
        exact namesTranscript_success.mp ⟨i, hf⟩
    have k3 : ∀ u r f t, .spawn (.verify u r f) ∈ boundRun sha x y (asResponse tr) → r = asResponse t →
        ∃ a, a = y.requestObject ∧ RedirectTranscript sha a t := fun u r f t hv hsig => by
      rcases boundRun_ops hv with h | h | h
      · cases h
      · cases h
      · simp only [Op.verify.injEq] at h
        rw [h.2.1] at hsig
        exact ⟨_, rfl, asResponse_inj hsig ▸ htr⟩
    obtain ⟨x', r, f, tr', a, hx', hu', -, -, rfl, -, h⟩ := C105_bound sha hsha (buildVerifier .no)
      (buildVerifier_wf _) (boundRun sha x y (asResponse tr)) (fun t r => r = asResponse t) (· = y.requestObject)
      k1 (fun a ha => ha ▸ hsy) k2 k3 (buildId 7) s i hs hc
    have hxx : x' = x := by
      rcases boundRun_ops hx' with h | h | h
      · exact Op.build.inj h
      · rw [Op.build.inj h, huy] at hu'; exact absurd hu' (by decide)
      · cases h
    rw [hxx] at h
    refine h.resolve_left ?_
    rintro ⟨-, -, haddr, hprint, -⟩
    have ha := ((built_own (buildVerifier_wf .no) hby).2.responseUri hdy).1
    rw [Url.print_inj (built_wf hby hdy) (built_wf hbx hdx) hprint, huy] at ha
    exact absurd (address_inj ha haddr) (by decide)

end Oid4vp
