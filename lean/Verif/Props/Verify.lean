import Verif.Spec.Verify
import Verif.Props.Validate
import Verif.Props.Codec
/-!
# C19–C22: the bundled verification methods and clients
-/

set_option autoImplicit false

namespace Oid4vp

open Spec

theorem headerStr_ok {k : Str} {m : List (Str × Json)} {s : Str} :
    headerStr k m = .ok s ↔ mget k m = some (.str s) := by
  simp only [headerStr]
  cases mget k m with
  | none => simp
  | some j => cases j <;> simp

theorem checkAlg_ok {wm : WalletMetadata} {alg : Str} : checkAlg wm alg = .ok () ↔ AlgListed wm alg := by
  simp only [checkAlg, AlgListed, UntypedObject.get]
  have hk : TypedParameter.key RequestObjectSigningAlgValuesSupported =
    c!"request_object_signing_alg_values_supported" := rfl
  rw [hk]
  cases mget c!"request_object_signing_alg_values_supported" wm.inner with
  | none => simp [parsingError]
  | some j =>
    simp only [TypedParameter.ofJson, parsingError, Option.some.injEq]
    cases hj : strsOfJson j with
    | error e =>
      simp only [Except.map, reduceCtorEq, false_iff]
      rintro ⟨l, rfl, -⟩
      have : strsOfJson (.arr (l.map .str)) = .ok l := strsOfJson_ok.mpr rfl
      rw [this] at hj
      simp at hj
    | ok l =>
      have hl : j = .arr (l.map .str) := strsOfJson_ok.mp hj
      subst hl
      simp only [Except.map, Json.arr.injEq]
      have hinj : ∀ l' : List Str, l.map Json.str = l'.map Json.str ↔ l = l' := by
        intro l'
        constructor
        · intro e
          exact List.map_injective_iff.mpr (fun a b h => Json.str.inj h) e
        · rintro rfl; rfl
      constructor
      · intro h
        split at h
        · rename_i hc; exact ⟨l, rfl, by simpa using hc⟩
        · simp at h
      · rintro ⟨l', e, hm⟩
        rw [hinj] at e
        subst e
        rw [if_pos (by simpa using hm)]

theorem stripClientPrefix_iff {pre : Str} {c : ClientId} {rest : Str} :
    stripClientPrefix pre c = rest ↔ Unprefixed pre c.val rest := by
  simp only [stripClientPrefix, Unprefixed]
  have happ : ∀ t, pre ++ [':'] ++ t = pre ++ ':' :: t := by simp
  cases h : stripPrefix (pre ++ [':']) c.val with
  | none =>
    have hn : ∀ t, c.val ≠ pre ++ ':' :: t := by
      intro t e
      rw [← happ] at e
      rw [stripPrefix_eq_some.mpr e] at h
      simp at h
    simp only
    constructor
    · intro e; exact .inr ⟨e, hn⟩
    · rintro (e | ⟨e, -⟩)
      · exact absurd e (hn _)
      · exact e
  | some s =>
    have hs := stripPrefix_eq_some.mp h
    rw [happ] at hs
    simp only
    constructor
    · rintro rfl; exact .inl hs
    · rintro (e | ⟨-, hn⟩)
      · rw [hs] at e
        simpa using List.append_cancel_left e
      · exact absurd hs (hn s)

theorem contains_iff {n s : Str} : contains n s = true ↔ ∃ a b, s = a ++ n ++ b := by
  induction s with
  | nil =>
    simp only [contains, startsWith_iff]
    constructor
    · rintro ⟨r, e⟩; exact ⟨[], r, by simpa using e⟩
    · rintro ⟨a, b, e⟩
      have := congrArg List.length e
      simp only [List.length_nil, List.length_append] at this
      have ha : a = [] := List.length_eq_zero_iff.mp (by omega)
      subst ha
      exact ⟨b, by simpa using e⟩
  | cons x xs ih =>
    simp only [contains, Bool.or_eq_true, startsWith_iff, ih]
    constructor
    · rintro (⟨r, e⟩ | ⟨a, b, e⟩)
      · exact ⟨[], r, by simpa using e⟩
      · exact ⟨x :: a, b, by simp [e]⟩
    · rintro ⟨a, b, e⟩
      cases a with
      | nil => exact .inl ⟨b, by simpa using e⟩
      | cons y a =>
        simp only [List.cons_append, List.cons.injEq] at e
        exact .inr ⟨a, b, e.2⟩

theorem decodeVerify_ok {ssi : Ssi} {jwt : Str} {key : Jwk} :
    (∃ j, decodeVerify ssi jwt key = .ok j) ↔ SignedBy ssi jwt key := by
  simp only [decodeVerify, SignedBy]
  cases h1 : splitJws jwt with
  | error e =>
    simp only [reduceCtorEq, exists_false, false_iff]
    rintro ⟨h, b, g, _, _, _, _, _, _, hp, -⟩
    rw [splitJws_ok.mpr hp] at h1; simp at h1
  | ok p =>
    obtain ⟨h, b, g⟩ := p
    simp only
    constructor
    · rintro ⟨j, hj⟩
      cases h2 : b64url g with
      | error e => rw [h2] at hj; simp at hj
      | ok sig =>
        rw [h2] at hj; simp only at hj
        cases h3 : b64url h with
        | error e => rw [h3] at hj; simp at hj
        | ok hb =>
          rw [h3] at hj; simp only at hj
          cases h4 : ssi.header hb with
          | error e => rw [h4] at hj; simp at hj
          | ok q =>
            obtain ⟨alg, enc⟩ := q
            rw [h4] at hj; simp only at hj
            cases h5 : (if enc then b64url b else (.ok (utf8 b) : Res Bytes)) with
            | error e => rw [h5] at hj; simp at hj
            | ok payload =>
              rw [h5] at hj; simp only at hj
              split at hj
              · rename_i hv
                refine ⟨h, b, g, hb, sig, alg, enc, payload, j, splitJws_ok.mp h1, b64url_ok.mp h3,
                  b64url_ok.mp h2, h4, hv, ?_, hj⟩
                cases enc with
                | true => simpa [b64url_ok] using h5
                | false =>
                  simp only [Bool.false_eq_true, if_false, Except.ok.injEq] at h5 ⊢
                  exact h5.symm
              · simp at hj
    · rintro ⟨h', b', g', hb, sig, alg, enc, payload, j, hp, hh, hg, hhd, hv, he, hj⟩
      rw [splitJws_ok.mpr hp] at h1
      cases h1
      refine ⟨j, ?_⟩
      rw [b64url_ok.mpr hg, b64url_ok.mpr hh]
      simp only [hhd]
      have h5 : (if enc then b64url b else (.ok (utf8 b) : Res Bytes)) = .ok payload := by
        cases enc with
        | true => simpa [b64url_ok] using he
        | false => simp only [Bool.false_eq_true, if_false] at he ⊢; rw [he]
      rw [h5]
      exact (if_pos hv).trans hj

/-! ## C19 -/

/-- **C19** Exactly when DID verification accepts: the algorithm is listed, and either its name
contains `none` or the request is genuine. -/
theorem C19_accepted_iff (ssi : Ssi) (resolver : Str → Res Jwk) (trusted : Option (List Str))
    (wm : WalletMetadata) (a : RequestObject) (jwt : Str) :
    didVerify ssi resolver trusted wm a jwt = .ok () ↔
      ∃ m alg, JwsHeader jwt m ∧ mget c!"alg" m = some (.str alg) ∧ AlgListed wm alg ∧
        (MentionsNone alg ∨ DidGenuine ssi resolver trusted a.clientId m jwt) := by
  simp only [didVerify]
  cases h1 : jwsHeader jwt with
  | error e =>
    simp only [reduceCtorEq, false_iff]
    rintro ⟨m, alg, hm, -⟩
    rw [jwsHeader_ok.mpr hm] at h1; simp at h1
  | ok m =>
    have hm : ∀ m', JwsHeader jwt m' ↔ m' = m := by
      intro m'
      rw [← jwsHeader_ok, h1]
      exact ⟨fun e => (Except.ok.inj e).symm, fun e => by rw [e]⟩
    simp only [hm, exists_and_left, exists_eq_left]
    cases h2 : headerStr c!"alg" m with
    | error e =>
      simp only [reduceCtorEq, false_iff]
      rintro ⟨alg, ha, -⟩
      rw [headerStr_ok.mpr ha] at h2; simp at h2
    | ok alg =>
      have ha := headerStr_ok.mp h2
      simp only [ha, Option.some.injEq, Json.str.injEq, exists_eq_left']
      rw [← checkAlg_ok]
      cases h3 : checkAlg wm alg with
      | error e => simp
      | ok u =>
        simp only [true_and]
        rw [MentionsNone, ← contains_iff]
        cases h4 : contains c!"none" alg with
        | true => simp
        | false =>
          simp only [Bool.false_eq_true, if_false, false_or, DidGenuine]
          cases h5 : headerStr c!"kid" m with
          | error e =>
            simp only [reduceCtorEq, false_iff]
            rintro ⟨did, frag, c, key, hk, -⟩
            rw [headerStr_ok.mpr hk] at h5; simp at h5
          | ok kid =>
            have hk := headerStr_ok.mp h5
            simp only [hk, Option.some.injEq, Json.str.injEq]
            cases hc : a.clientId with
            | none => simp
            | some cid =>
              simp only [Option.some.injEq]
              cases h6 : splitOnce '#' kid with
              | none =>
                simp only [reduceCtorEq, false_iff]
                rintro ⟨did, frag, c, key, rfl, -⟩
                exact splitOnce_eq_none.mp h6 (by simp)
              | some p =>
                obtain ⟨did, frag⟩ := p
                obtain ⟨rfl, hd⟩ := splitOnce_eq_some.mp h6
                simp only
                have huniq : ∀ did' frag', did ++ '#' :: frag = did' ++ '#' :: frag' → '#' ∉ did' →
                    did' = did ∧ frag' = frag := by
                  intro did' frag' e hd'
                  have := splitOnce_append (b := frag') hd'
                  rw [← e, h6] at this
                  simp only [Option.some.injEq, Prod.mk.injEq] at this
                  exact ⟨this.1.symm, this.2.symm⟩
                by_cases h7 : stripClientPrefix ClientIdScheme.decentralizedIdentifier cid = did
                · rw [if_neg (not_not.mpr h7)]
                  have h7' := stripClientPrefix_iff.mp h7
                  by_cases htr : ∀ l, trusted = some l → did ∈ l
                  rotate_left
                  · rw [if_pos (by
                      cases trusted with
                      | none => simp at htr
                      | some l => simpa using htr)]
                    simp only [reduceCtorEq, false_iff]
                    rintro ⟨did', frag', c, key, he, hd', rfl, -, htr', -⟩
                    obtain ⟨rfl, rfl⟩ := huniq did' frag' he hd'
                    exact htr htr'
                  · rw [if_neg (by
                      cases trusted with
                      | none => simp
                      | some l => simpa using htr)]
                    cases h8 : resolver (did ++ '#' :: frag) with
                    | error e =>
                      simp only [reduceCtorEq, false_iff]
                      rintro ⟨did', frag', c, key, he, hd', rfl, -, -, hres, -⟩
                      rw [← he, h8] at hres; simp at hres
                    | ok key =>
                      simp only
                      constructor
                      · intro h
                        refine ⟨did, frag, cid, key, rfl, hd, rfl, h7', htr, h8, ?_⟩
                        rw [← decodeVerify_ok]
                        cases h9 : decodeVerify ssi jwt key with
                        | error e => rw [h9] at h; simp at h
                        | ok j => exact ⟨j, rfl⟩
                      · rintro ⟨did', frag', c, key', he, hd', rfl, -, -, hres, hsig⟩
                        rw [← he, h8] at hres
                        cases hres
                        obtain ⟨j, hj⟩ := decodeVerify_ok.mpr hsig
                        rw [hj]
                · rw [if_pos h7]
                  simp only [reduceCtorEq, false_iff]
                  rintro ⟨did', frag', c, key, he, hd', rfl, hun, -⟩
                  obtain ⟨rfl, rfl⟩ := huniq did' frag' he hd'
                  exact h7 (stripClientPrefix_iff.mpr hun)

/-- **C19 (partial)** If DID verification accepts a request whose algorithm name does not contain
`none`, the signature verifies under the key resolved for its kid, the kid's DID is the one in the
client_id, it is trusted when a list is given, and the algorithm is one the wallet lists.

Missing: requests whose algorithm name contains `none`; they are accepted unsigned if the wallet
lists the name, see `C19_none_accepted`. -/
theorem C19_did_sound_partial (ssi : Ssi) (resolver : Str → Res Jwk) (trusted : Option (List Str))
    (wm : WalletMetadata) (a : RequestObject) (jwt : Str) (m : List (Str × Json)) (alg : Str)
    (h : didVerify ssi resolver trusted wm a jwt = .ok ()) (hm : JwsHeader jwt m)
    (halg : mget c!"alg" m = some (.str alg)) (hn : ¬ MentionsNone alg) :
    AlgListed wm alg ∧ DidGenuine ssi resolver trusted a.clientId m jwt := by
  obtain ⟨m', alg', hm', ha', hl, hg⟩ := (C19_accepted_iff _ _ _ _ _ _).mp h
  have : m' = m := by
    have h1 := jwsHeader_ok.mpr hm'
    rw [jwsHeader_ok.mpr hm] at h1
    exact (Except.ok.inj h1).symm
  subst this
  rw [halg] at ha'
  simp only [Option.some.injEq, Json.str.injEq] at ha'
  subst ha'
  rcases hg with hg | hg
  · exact absurd hg hn
  · exact ⟨hl, hg⟩

/-- **C19** A wallet none of whose algorithm names contains `none` only accepts genuine requests. -/
theorem C19_did_sound_without_none (ssi : Ssi) (resolver : Str → Res Jwk)
    (trusted : Option (List Str)) (wm : WalletMetadata) (a : RequestObject) (jwt : Str)
    (hw : ∀ alg, AlgListed wm alg → ¬ MentionsNone alg)
    (h : didVerify ssi resolver trusted wm a jwt = .ok ()) :
    ∃ m alg, JwsHeader jwt m ∧ mget c!"alg" m = some (.str alg) ∧ AlgListed wm alg ∧
      DidGenuine ssi resolver trusted a.clientId m jwt := by
  obtain ⟨m, alg, hm, ha, hl, hg⟩ := (C19_accepted_iff _ _ _ _ _ _).mp h
  rcases hg with hg | hg
  · exact absurd hg (hw alg hl)
  · exact ⟨m, alg, hm, ha, hl, hg⟩

/-- A header with the algorithm `none`. -/
def noneHeader : List (Str × Json) := [(c!"alg", .str c!"none")]

theorem noneHeader_wf : (Json.obj noneHeader).WF FltLit := by
  simp only [noneHeader, Json.WF, Json.WFM, Sorted, and_true]
  decide

/-- Wallet metadata that lists the given algorithms. -/
def listing (algs : List Str) : WalletMetadata :=
  ⟨[(c!"request_object_signing_alg_values_supported", .arr (algs.map .str))],
    ⟨⟨c!"openid4vp", some [], [], none, none⟩⟩, ⟨[]⟩⟩

theorem listing_listed {algs : List Str} {alg : Str} : AlgListed (listing algs) alg ↔ alg ∈ algs := by
  simp only [AlgListed, listing, mget, if_true, Option.some.injEq, Json.arr.injEq]
  constructor
  · rintro ⟨l, e, h⟩
    have : algs = l := List.map_injective_iff.mpr (fun a b h => Json.str.inj h) e
    rw [this]; exact h
  · intro h; exact ⟨algs, rfl, h⟩

/-- **C19** is false without `partial`: an unsigned request is accepted by a wallet that lists
`none`, whatever the client_id, the resolver and the trusted DIDs. -/
theorem C19_none_accepted (ssi : Ssi) (resolver : Str → Res Jwk) (trusted : Option (List Str))
    (a : RequestObject) (p : List (Str × Json)) (sig : Bytes) :
    didVerify ssi resolver trusted (listing [c!"ES256", c!"none"]) a
      (compactJws noneHeader p sig) = .ok () :=
  (C19_accepted_iff _ _ _ _ _ _).mpr ⟨_, c!"none", compactJws_header noneHeader_wf (by decide),
    by decide, listing_listed.mpr (by simp), .inl ⟨[], [], rfl⟩⟩

/-! ## C20, C21 -/

theorem trimEndChar_spec (c : Char) (s : Str) : ∃ n, s = trimEndChar c s ++ List.replicate n c := by
  have key : ∀ l : Str, ∃ n, l = List.replicate n c ++ l.dropWhile (· == c) := by
    intro l
    induction l with
    | nil => exact ⟨0, rfl⟩
    | cons x xs ih =>
      by_cases h : x = c
      · subst h
        obtain ⟨n, hn⟩ := ih
        refine ⟨n + 1, ?_⟩
        rw [List.dropWhile_cons, if_pos (by simp), List.replicate_succ, List.cons_append, ← hn]
      · exact ⟨0, by simp [h]⟩
  obtain ⟨n, hn⟩ := key s.reverse
  refine ⟨n, ?_⟩
  have := congrArg List.reverse hn
  rw [List.reverse_reverse, List.reverse_append, List.reverse_replicate] at this
  exact this

theorem leafCert_ok {x : X509} {m : List (Str × Json)} {der : Bytes} {c : x.Cert} :
    leafCert x m = .ok (der, c) ↔ LeafIs x m der c := by
  have hfirst : ∀ s, x5cFirst m = .ok s ↔ ∃ rest, mget c!"x5c" m = some (.arr (.str s :: rest)) := by
    intro s
    simp only [x5cFirst]
    cases mget c!"x5c" m with
    | none => simp
    | some j =>
      cases j with
      | arr l =>
        cases l with
        | nil => simp
        | cons y ys => cases y <;> simp
      | _ => simp
  have hout : leafCert x m = .ok (der, c) ↔ ∃ s, x5cFirst m = .ok s ∧
      b64Dec .std (trimEndChar '=' s) = some der ∧ x.fromDer der = some c := by
    simp only [leafCert]
    cases x5cFirst m with
    | error e => simp
    | ok s =>
      simp only [Except.ok.injEq, exists_eq_left']
      cases b64Dec .std (trimEndChar '=' s) with
      | none => simp
      | some d =>
        simp only [Option.some.injEq]
        cases hx : x.fromDer d with
        | none =>
          simp only [reduceCtorEq, false_iff, not_and]
          rintro rfl; rw [hx]; simp
        | some c' =>
          simp only [Except.ok.injEq, Prod.mk.injEq]
          constructor
          · rintro ⟨rfl, rfl⟩; exact ⟨rfl, hx⟩
          · rintro ⟨rfl, e⟩; rw [hx] at e; exact ⟨rfl, Option.some.inj e⟩
  rw [hout, LeafIs]
  constructor
  · rintro ⟨s, hs, hd, hc⟩
    obtain ⟨rest, hr⟩ := (hfirst s).mp hs
    obtain ⟨n, hn⟩ := trimEndChar_spec '=' s
    exact ⟨trimEndChar '=' s, n, rest, by rw [← hn]; exact hr, hd, hc⟩
  · rintro ⟨t, n, rest, hr, hd, hc⟩
    refine ⟨_, (hfirst _).mpr ⟨rest, hr⟩, ?_, hc⟩
    rw [trimEndChar_replicate, trimEndChar_of_notMem]
    · exact hd
    · rw [← b64Enc_b64Dec hd]; exact b64Enc_no_eq _ _

theorem dnsNames_mem {x : X509} {c : x.Cert} {host : Str} :
    host ∈ dnsNames x c ↔ NamesHost x c host := by
  simp only [dnsNames, NamesHost, List.mem_filterMap, List.mem_flatten, id_eq]
  constructor
  · rintro ⟨g, ⟨names, ⟨o, ho, rfl⟩, hg⟩, he⟩
    cases g with
    | dns n => simp only [Option.some.injEq] at he; subst he; exact ⟨names, ho, hg⟩
    | other => simp at he
  · rintro ⟨names, ho, hg⟩
    exact ⟨_, ⟨names, ⟨_, ho, rfl⟩, hg⟩, rfl⟩

theorem checkCertSig_ok {x : X509} {v : SigVerifier} {c : x.Cert} {alg jwt h b g : Str}
    (hp : JwsParts jwt h b g) : checkCertSig x v c alg h b g = .ok () ↔ CertSigned x v c alg jwt := by
  simp only [checkCertSig, CertSigned]
  have huniq : ∀ h' b' g', JwsParts jwt h' b' g' → h' = h ∧ b' = b ∧ g' = g := by
    intro h' b' g' hp'
    have h1 := splitJws_ok.mpr hp'
    rw [splitJws_ok.mpr hp] at h1
    simp only [Except.ok.injEq, Prod.mk.injEq] at h1
    exact ⟨h1.1.symm, h1.2.1.symm, h1.2.2.symm⟩
  constructor
  · intro hc
    cases h1 : v.fromSpki (x.spki c) alg with
    | none => rw [h1] at hc; simp at hc
    | some k =>
      rw [h1] at hc; simp only at hc
      cases h2 : b64url g with
      | error e => rw [h2] at hc; simp at hc
      | ok sig =>
        rw [h2] at hc; simp only at hc
        split at hc
        · rename_i hv
          exact ⟨h, b, g, sig, k, hp, b64url_ok.mp h2, rfl, hv⟩
        · simp at hc
  · rintro ⟨h', b', g', sig, k, hp', hg, hk, hv⟩
    obtain ⟨rfl, rfl, rfl⟩ := huniq _ _ _ hp'
    rw [hk, b64url_ok.mpr hg]
    exact if_pos hv

/-- The common part of both methods: header, algorithm, leaf certificate. -/
theorem x509_common {x : X509} {wm : WalletMetadata} {a : RequestObject} {jwt : Str}
    (f : ClientId → Bytes → x.Cert → Str → Str → Str → Str → Res Unit) :
    (match a.clientId with
      | none => .error .missing
      | some cid => match splitJws jwt with
        | .error e => .error e
        | .ok (h, b, g) => match jwsHeader jwt with
          | .error e => .error e
          | .ok m => match headerStr c!"alg" m with
            | .error e => .error e
            | .ok alg => match checkAlg wm alg with
              | .error e => .error e
              | .ok () => match leafCert x m with
                | .error e => .error e
                | .ok (der, c) => f cid der c alg h b g : Res Unit) = .ok () ↔
      ∃ cid m alg der c h b g, a.clientId = some cid ∧ JwsParts jwt h b g ∧ JwsHeader jwt m ∧
        mget c!"alg" m = some (.str alg) ∧ AlgListed wm alg ∧ LeafIs x m der c ∧
        f cid der c alg h b g = .ok () := by
  simp only [← splitJws_ok, ← jwsHeader_ok, ← headerStr_ok, ← checkAlg_ok, ← leafCert_ok]
  constructor
  · intro hh
    cases hc : a.clientId with
    | none => rw [hc] at hh; simp at hh
    | some cid =>
      rw [hc] at hh; simp only at hh
      cases h1 : splitJws jwt with
      | error e => rw [h1] at hh; simp at hh
      | ok p =>
        obtain ⟨h, b, g⟩ := p
        rw [h1] at hh; simp only at hh
        cases h2 : jwsHeader jwt with
        | error e => rw [h2] at hh; simp at hh
        | ok m =>
          rw [h2] at hh; simp only at hh
          cases h3 : headerStr c!"alg" m with
          | error e => rw [h3] at hh; simp at hh
          | ok alg =>
            rw [h3] at hh; simp only at hh
            cases h4 : checkAlg wm alg with
            | error e => rw [h4] at hh; simp at hh
            | ok u =>
              rw [h4] at hh; simp only at hh
              cases h5 : leafCert x m with
              | error e => rw [h5] at hh; simp at hh
              | ok q =>
                obtain ⟨der, c⟩ := q
                rw [h5] at hh
                exact ⟨cid, m, alg, der, c, h, b, g, rfl, rfl, rfl, h3, h4, h5, hh⟩
  · rintro ⟨cid, m, alg, der, c, h, b, g, h0, h1, h2, h3, h4, h5, h6⟩
    rw [h0, h1, h2]
    simp only [h3, h4, h5]
    exact h6

/-- **C20** Exactly when x509_san_dns verification accepts. -/
theorem C20_accepted_iff (x : X509) (v : SigVerifier) (roots : Option (List x.Cert))
    (wm : WalletMetadata) (a : RequestObject) (jwt : Str) :
    x509SanVerify x v roots wm a jwt = .ok () ↔
      ∃ cid m alg der c host, a.clientId = some cid ∧ JwsHeader jwt m ∧
        mget c!"alg" m = some (.str alg) ∧ AlgListed wm alg ∧ LeafIs x m der c ∧
        Unprefixed c!"x509_san_dns" cid.val host ∧ NamesHost x c host ∧ CertSigned x v c alg jwt := by
  refine (x509_common (x := x) (fun cid _ c alg h b g =>
    if (dnsNames x c).contains (stripClientPrefix ClientIdScheme.x509SanDns cid) then
      checkCertSig x v c alg h b g
    else .error .mismatch)).trans ?_
  constructor
  · rintro ⟨cid, m, alg, der, c, h, b, g, h0, h1, h2, h3, h4, h5, h6⟩
    split at h6
    · rename_i hn
      exact ⟨cid, m, alg, der, c, _, h0, h2, h3, h4, h5, stripClientPrefix_iff.mp rfl,
        dnsNames_mem.mp (List.contains_iff_mem.mp hn), (checkCertSig_ok h1).mp h6⟩
    · simp at h6
  · rintro ⟨cid, m, alg, der, c, host, h0, h2, h3, h4, h5, hu, hn, hs⟩
    obtain ⟨h, b, g, sig, k, h1, _⟩ := id hs
    refine ⟨cid, m, alg, der, c, h, b, g, h0, h1, h2, h3, h4, h5, ?_⟩
    have hu' : stripClientPrefix ClientIdScheme.x509SanDns cid = host := stripClientPrefix_iff.mpr hu
    rw [hu', if_pos (by simpa using dnsNames_mem.mpr hn)]
    exact (checkCertSig_ok h1).mpr hs

/-- **C20** The trust anchors do not influence the decision. -/
theorem C20_roots_ignored (x : X509) (v : SigVerifier) (roots roots' : Option (List x.Cert))
    (wm : WalletMetadata) (a : RequestObject) (jwt : Str) :
    x509SanVerify x v roots wm a jwt = x509SanVerify x v roots' wm a jwt ∧
      x509HashVerify x v roots wm a jwt = x509HashVerify x v roots' wm a jwt := ⟨rfl, rfl⟩

/-- **C21** Exactly when x509_hash verification accepts. -/
theorem C21_accepted_iff (x : X509) (v : SigVerifier) (roots : Option (List x.Cert))
    (wm : WalletMetadata) (a : RequestObject) (jwt : Str) :
    x509HashVerify x v roots wm a jwt = .ok () ↔
      ∃ cid m alg der c, a.clientId = some cid ∧ JwsHeader jwt m ∧
        mget c!"alg" m = some (.str alg) ∧ AlgListed wm alg ∧ LeafIs x m der c ∧
        Unprefixed c!"x509_hash" cid.val (Spec.base64 B64.url.alphabet (x.sha256 der)) ∧
        CertSigned x v c alg jwt := by
  refine (x509_common (x := x) (fun cid der c alg h b g =>
    if b64Enc .url (x.sha256 der) = stripClientPrefix ClientIdScheme.x509Hash cid then
      checkCertSig x v c alg h b g
    else .error .mismatch)).trans ?_
  simp only [← C52_base64_rfc4648]
  constructor
  · rintro ⟨cid, m, alg, der, c, h, b, g, h0, h1, h2, h3, h4, h5, h6⟩
    split at h6
    · rename_i hn
      exact ⟨cid, m, alg, der, c, h0, h2, h3, h4, h5, stripClientPrefix_iff.mp hn.symm,
        (checkCertSig_ok h1).mp h6⟩
    · simp at h6
  · rintro ⟨cid, m, alg, der, c, h0, h2, h3, h4, h5, hu, hs⟩
    obtain ⟨h, b, g, sig, k, h1, _⟩ := id hs
    refine ⟨cid, m, alg, der, c, h, b, g, h0, h1, h2, h3, h4, h5, ?_⟩
    have hu' : stripClientPrefix ClientIdScheme.x509Hash cid = _ := stripClientPrefix_iff.mpr hu
    rw [if_pos hu'.symm]
    exact (checkCertSig_ok h1).mpr hs

/-- **C20** With the bundled P-256 verifier only ES256 signatures are accepted, by either
method, and they verify under the key read from the certificate. -/
theorem C20_p256_only_es256 {K S : Type} (readKey : Bytes → Option K) (readSig : Bytes → Option S)
    (check : K → Bytes → S → Bool) (x : X509) (c : x.Cert) (alg jwt : Str)
    (h : CertSigned x (p256Verifier readKey readSig check) c alg jwt) :
    alg = c!"ES256" ∧ ∃ h' b g sig k s, JwsParts jwt h' b g ∧ b64Dec .url g = some sig ∧
      readKey (x.spki c) = some k ∧ readSig sig = some s ∧
      check k (utf8 (h' ++ '.' :: b)) s = true := by
  obtain ⟨h', b, g, sig, k, hp, hg, hk, hv⟩ := h
  simp only [p256Verifier] at k hk hv
  split at hk
  · simp at hk
  · rename_i ha
    refine ⟨not_not.mp ha, ?_⟩
    cases hs : readSig sig with
    | none => rw [hs] at hv; simp at hv
    | some s => rw [hs] at hv; exact ⟨h', b, g, sig, k, s, hp, hg, hk, hs, hv⟩

/-! ## C22 -/

theorem makeJwt_eq (m : List (Str × Json)) (body : RequestObject) (s : Signer) :
    makeJwt (.obj m) body s = compactJws m body.toObject (s.sign (signingInput
      (b64Enc .url (utf8 (jPrint (.obj m)))) (b64Enc .url (utf8 (jPrint (.obj body.toObject)))))) := rfl

/-- The header of the DID client. -/
def didMembers (alg vm : Str) : List (Str × Json) :=
  [(c!"alg", .str alg), (c!"kid", .str vm), (c!"typ", .str requestObjectTyp)]

theorem didMembers_wf (alg vm : Str) : (Json.obj (didMembers alg vm)).WF FltLit := by
  simp only [didMembers, Json.WF, Json.WFM, Sorted, and_true, List.forall_mem_cons,
    List.not_mem_nil, false_imp_iff, implies_true]
  decide

theorem didMembers_depth (alg vm : Str) : (Json.obj (didMembers alg vm)).depth ≤ jsonMaxDepth := by
  have : (Json.obj (didMembers alg vm)).depth = 1 := rfl
  rw [this]; decide

/-- **C22** A request object signed by the DID client is accepted by DID verification, for a
verification method with one `#` and a wallet that lists the algorithm. The hypotheses on `ssi`
say that it reads the header the client wrote and verifies what the signer signed. -/
theorem C22_did_accepted (ssi : Ssi) (resolver : Str → Res Jwk) (trusted : Option (List Str))
    (wm : WalletMetadata) (s : Signer) (did frag alg jwt : Str) (key : Jwk) (client : Client)
    (a : RequestObject)
    (hnew : didClientNew (did ++ '#' :: frag) s resolver = .ok client) (hone : '#' ∉ did)
    (hfrag : '#' ∉ frag)
    (hid : a.clientId = some client.id) (hgen : client.generate a = .ok jwt)
    (hwf : (Json.obj a.toObject).WF FltLit) (hd : (Json.obj a.toObject).depth < 128)
    (halg : s.alg = .ok alg) (hlist : AlgListed wm alg)
    (htrust : ∀ l, trusted = some l → did ∈ l)
    (hkey : s.jwk = .ok key)
    (hhdr : ∀ kid, ssi.header (utf8 (jPrint (.obj (didMembers alg kid)))) = .ok (alg, true))
    (hsig : ∀ msg, ssi.verify alg msg key (s.sign msg) = true) :
    didVerify ssi resolver trusted wm a jwt = .ok () := by
  simp only [didClientNew] at hnew
  rw [rsplitOnce_eq_some.mpr ⟨rfl, hfrag⟩] at hnew
  simp only at hnew
  cases hr : resolver (did ++ '#' :: frag) with
  | error e => rw [hr] at hnew; simp at hnew
  | ok k =>
    rw [hr, hkey] at hnew
    simp only at hnew
    split at hnew
    · simp at hnew
    · rename_i he
      have he := not_not.mp he
      subst he
      cases hnew
      simp only [didClient, halg, Except.ok.injEq] at hgen hid
      rw [show didHeader alg (did ++ '#' :: frag) = .obj (didMembers alg (did ++ '#' :: frag)) from rfl,
        makeJwt_eq] at hgen
      rw [C19_accepted_iff]
      refine ⟨didMembers alg (did ++ '#' :: frag), alg, ?_, by rfl, hlist, .inr ?_⟩
      · rw [← hgen]
        exact compactJws_header (didMembers_wf _ _) (didMembers_depth _ _)
      · refine ⟨did, frag, _, k, by rfl, hone, hid, .inl rfl, htrust, hr, ?_⟩
        rw [← hgen]
        exact ⟨_, _, _, _, _, alg, true, _, _, compactJws_parts _ _ _, b64Dec_b64Enc _ _,
          b64Dec_b64Enc _ _, hhdr _, hsig _, b64Dec_b64Enc _ _,
          jParseBytes_jPrint (Nat.le_of_lt_succ hd) hwf⟩

/-- **C22** With a second `#` in the verification method the client is still built, but what it
signs is refused (unless the algorithm name contains `none`): the client cuts at the last `#`, the
verification at the first. -/
theorem C22_did_two_hashes (ssi : Ssi) (resolver : Str → Res Jwk) (trusted : Option (List Str))
    (wm : WalletMetadata) (s : Signer) (did mid frag alg jwt : Str) (client : Client)
    (a : RequestObject)
    (hnew : didClientNew (did ++ '#' :: (mid ++ '#' :: frag)) s resolver = .ok client)
    (hone : '#' ∉ did) (hfrag : '#' ∉ frag)
    (hid : a.clientId = some client.id) (hgen : client.generate a = .ok jwt)
    (halg : s.alg = .ok alg) (hnone : ¬ MentionsNone alg) :
    didVerify ssi resolver trusted wm a jwt ≠ .ok () := by
  intro h
  simp only [didClientNew] at hnew
  rw [show did ++ '#' :: (mid ++ '#' :: frag) = (did ++ '#' :: mid) ++ '#' :: frag by simp] at hnew
  rw [rsplitOnce_eq_some.mpr ⟨rfl, hfrag⟩] at hnew
  simp only at hnew
  cases hr : resolver ((did ++ '#' :: mid) ++ '#' :: frag) with
  | error e => rw [hr] at hnew; simp at hnew
  | ok k =>
    rw [hr] at hnew
    simp only at hnew
    cases hk : s.jwk with
    | error e => rw [hk] at hnew; simp at hnew
    | ok own =>
      rw [hk] at hnew
      simp only at hnew
      split at hnew
      · simp at hnew
      · cases hnew
        simp only [didClient, halg, Except.ok.injEq] at hgen hid
        rw [show didHeader alg ((did ++ '#' :: mid) ++ '#' :: frag) =
          .obj (didMembers alg ((did ++ '#' :: mid) ++ '#' :: frag)) from rfl, makeJwt_eq] at hgen
        have hh : JwsHeader jwt (didMembers alg ((did ++ '#' :: mid) ++ '#' :: frag)) := by
          rw [← hgen]; exact compactJws_header (didMembers_wf _ _) (didMembers_depth _ _)
        obtain ⟨-, did', frag', c, key, hkid, hd', hc, hun, -⟩ :=
          C19_did_sound_partial _ _ _ _ _ _ _ alg h hh rfl hnone
        rw [hid] at hc
        cases hc
        have hkid' : did ++ '#' :: (mid ++ '#' :: frag) = did' ++ '#' :: frag' := by
          have : mget c!"kid" (didMembers alg ((did ++ '#' :: mid) ++ '#' :: frag)) =
            some (.str ((did ++ '#' :: mid) ++ '#' :: frag)) := rfl
          rw [this] at hkid
          simp only [Option.some.injEq, Json.str.injEq] at hkid
          rw [← hkid]; simp
        have h1 := splitOnce_append (b := mid ++ '#' :: frag) hone
        rw [hkid', splitOnce_append (b := frag') hd'] at h1
        simp only [Option.some.injEq, Prod.mk.injEq] at h1
        rw [h1.1] at hun
        rcases hun with hun | ⟨-, hn⟩
        · simp only [prefixedId] at hun
          have := List.append_cancel_left (as := c!"decentralized_identifier") hun
          simp at this
        · exact hn _ rfl

/-- The header of the x509 clients. -/
def x5cMembers (alg : Str) (ders : List Bytes) : List (Str × Json) :=
  [(c!"alg", .str alg), (c!"typ", .str requestObjectTyp),
    (c!"x5c", .arr (ders.map (fun d => .str (b64EncPad .std d))))]

theorem x5cMembers_wf (alg : Str) (ders : List Bytes) :
    (Json.obj (x5cMembers alg ders)).WF FltLit ∧ (Json.obj (x5cMembers alg ders)).depth ≤ 2 := by
  have h : Json.WFL FltLit (ders.map (fun d => .str (b64EncPad .std d))) ∧
      Json.depthL (ders.map (fun d => .str (b64EncPad .std d))) = 0 := by
    induction ders with
    | nil => simp [Json.WFL, Json.depthL]
    | cons d ds ih => simp [Json.WFL, Json.depthL, Json.WF, Json.depth, ih]
  constructor
  · simp only [x5cMembers, Json.WF, Json.WFM, Sorted, and_true, h, List.forall_mem_cons,
      List.not_mem_nil, false_imp_iff, implies_true]
    decide
  · simp [x5cMembers, Json.depth, Json.depthM, h]

/-- The header, the leaf and the signature of what both x509 clients sign. -/
theorem x5cGenerate_spec {x : X509} {v : SigVerifier} {leaf : x.Cert} {rest : List x.Cert} {s : Signer}
    {a : RequestObject} {alg jwt : Str} {k : v.Key} (halg : s.alg = .ok alg)
    (hgen : x5cGenerate x (leaf :: rest) s a = .ok jwt)
    (hder : ∀ c d, x.toDer c = .ok d → x.fromDer d = some c)
    (hkey : v.fromSpki (x.spki leaf) alg = some k)
    (hsig : ∀ msg, v.verify k msg (s.sign msg) = true) :
    ∃ m der, JwsHeader jwt m ∧ mget c!"alg" m = some (.str alg) ∧ x.toDer leaf = .ok der ∧
      LeafIs x m der leaf ∧ CertSigned x v leaf alg jwt := by
  simp only [x5cGenerate, halg] at hgen
  simp only [mapR] at hgen
  cases hd : x.toDer leaf with
  | error e => rw [hd] at hgen; simp at hgen
  | ok der =>
    rw [hd] at hgen; simp only at hgen
    cases hds : mapR x.toDer rest with
    | error e => rw [hds] at hgen; simp at hgen
    | ok ders =>
      rw [hds] at hgen
      simp only [Except.ok.injEq] at hgen
      rw [show x5cHeader alg (der :: ders) = .obj (x5cMembers alg (der :: ders)) from rfl,
        makeJwt_eq] at hgen
      refine ⟨x5cMembers alg (der :: ders), der, ?_, rfl, rfl, ?_, ?_⟩
      · rw [← hgen]
        exact compactJws_header (x5cMembers_wf _ _).1
          (Nat.le_trans (x5cMembers_wf _ _).2 (by decide))
      · exact ⟨b64Enc .std der, b64PadLen der.length,
          ders.map (fun d => .str (b64EncPad .std d)), rfl, b64Dec_b64Enc _ _, hder _ _ hd⟩
      · rw [← hgen]
        exact ⟨_, _, _, _, k, compactJws_parts _ _ _, b64Dec_b64Enc _ _, hkey, hsig _⟩

/-- **C22** A request object signed by the x509_san_dns client is accepted by x509_san_dns
verification of a wallet that lists the algorithm. The hypotheses say that a certificate is read
back from its DER form and that the signature check of the leaf's key accepts what the signer
signs. -/
theorem C22_san_accepted (x : X509) (v : SigVerifier) (roots : Option (List x.Cert))
    (wm : WalletMetadata) (s : Signer) (leaf : x.Cert) (rest : List x.Cert) (alg jwt : Str)
    (client : Client) (a : RequestObject) (k : v.Key)
    (hnew : sanClientNew x (leaf :: rest) s = .ok client)
    (hid : a.clientId = some client.id) (hgen : client.generate a = .ok jwt)
    (halg : s.alg = .ok alg) (hlist : AlgListed wm alg)
    (hder : ∀ c d, x.toDer c = .ok d → x.fromDer d = some c)
    (hkey : v.fromSpki (x.spki leaf) alg = some k)
    (hsig : ∀ msg, v.verify k msg (s.sign msg) = true) :
    x509SanVerify x v roots wm a jwt = .ok () := by
  simp only [sanClientNew] at hnew
  cases hn : dnsNames x leaf with
  | nil => rw [hn] at hnew; simp at hnew
  | cons n ns =>
    rw [hn] at hnew
    simp only [Except.ok.injEq] at hnew
    subst hnew
    obtain ⟨m, der, hm, ha, -, hl, hs⟩ := x5cGenerate_spec halg hgen hder hkey hsig
    rw [C20_accepted_iff]
    exact ⟨_, m, alg, der, leaf, n, hid, hm, ha, hlist, hl, .inl rfl,
      dnsNames_mem.mp (by rw [hn]; simp), hs⟩

/-- **C22** The same for the x509_hash client. -/
theorem C22_hash_accepted (x : X509) (v : SigVerifier) (roots : Option (List x.Cert))
    (wm : WalletMetadata) (s : Signer) (leaf : x.Cert) (rest : List x.Cert) (alg jwt : Str)
    (client : Client) (a : RequestObject) (k : v.Key)
    (hnew : hashClientNew x (leaf :: rest) s = .ok client)
    (hid : a.clientId = some client.id) (hgen : client.generate a = .ok jwt)
    (halg : s.alg = .ok alg) (hlist : AlgListed wm alg)
    (hder : ∀ c d, x.toDer c = .ok d → x.fromDer d = some c)
    (hkey : v.fromSpki (x.spki leaf) alg = some k)
    (hsig : ∀ msg, v.verify k msg (s.sign msg) = true) :
    x509HashVerify x v roots wm a jwt = .ok () := by
  simp only [hashClientNew] at hnew
  cases hd : x.toDer leaf with
  | error e => rw [hd] at hnew; simp at hnew
  | ok der =>
    rw [hd] at hnew
    simp only [Except.ok.injEq] at hnew
    subst hnew
    obtain ⟨m, der', hm, ha, hd', hl, hs⟩ := x5cGenerate_spec halg hgen hder hkey hsig
    rw [hd] at hd'
    cases hd'
    rw [C21_accepted_iff]
    refine ⟨_, m, alg, der, leaf, hid, hm, ha, hlist, hl, .inl ?_, hs⟩
    rw [← C52_base64_rfc4648]
    rfl

/-- **C22** The x509 clients cannot be built from an empty certificate chain: the constructors
panic. -/
theorem C22_empty_chain_panics (x : X509) (s : Signer) :
    sanClientNew x [] s = .error .panic ∧ hashClientNew x [] s = .error .panic := ⟨rfl, rfl⟩

/-! ### Examples -/

/-- A signature scheme in which the signature is the message. -/
def toySsi : Ssi := ⟨fun _ => .ok (c!"ES256", true), fun _ msg _ sig => msg == sig⟩

/-- Its signer. -/
def toySigner : Signer := ⟨.ok c!"ES256", .ok [], id⟩

/-- Certificates that are their own DER form. -/
def toyX509 : X509 where
  Cert := Bytes
  fromDer := some
  toDer := .ok
  sanExts _ := [none, some [.other, .dns c!"verifier.example"]]
  spki := id
  sha256 b := b.reverse

/-- The signature check for these certificates. -/
def toyVerifier : SigVerifier := ⟨Unit, fun _ _ => some (), fun _ msg sig => msg == sig⟩

-- what the DID client signs is accepted, also with a list of trusted DIDs …
example : ∃ client jwt, didClientNew c!"did:ex:1#k" toySigner (fun _ => .ok []) = .ok client ∧
    client.generate { explicitObject with clientId := some client.id } = .ok jwt ∧
    didVerify toySsi (fun _ => .ok []) (some [c!"did:ex:1"]) (listing [c!"ES256"])
      { explicitObject with clientId := some client.id } jwt = .ok () :=
  ⟨_, _, rfl, rfl, C22_did_accepted toySsi _ _ _ toySigner c!"did:ex:1" c!"k" c!"ES256" _ [] _ _ rfl
    (by decide) (by decide) rfl rfl explicitSample_wf (by decide) rfl (listing_listed.mpr (by simp))
    (by simp) rfl (fun _ => rfl) (by simp [toySsi, toySigner])⟩

-- … and refused if the DID is not in the list or the client_id names another DID
example (jwt : Str) (h : didVerify toySsi (fun _ => .ok []) (some []) (listing [c!"ES256"])
    explicitObject jwt = .ok ()) : False := by
  obtain ⟨m, alg, -, -, -, did, frag, c, key, -, -, -, -, ht, -⟩ := C19_did_sound_without_none _ _ _ _ _ _
    (by
      intro alg ha
      rw [listing_listed] at ha
      simp only [List.mem_singleton] at ha
      subst ha
      rw [MentionsNone, ← contains_iff]
      decide) h
  exact absurd (ht [] rfl) (by simp)

-- what the x509 clients sign is accepted
example : ∃ client jwt, sanClientNew toyX509 [[1, 2], [3]] toySigner = .ok client ∧
    client.generate explicitObject = .ok jwt ∧
    x509SanVerify toyX509 toyVerifier none (listing [c!"ES256"]) explicitObject jwt = .ok () :=
  ⟨_, _, rfl, rfl, C22_san_accepted toyX509 toyVerifier _ _ toySigner [1, 2] [[3]] c!"ES256" _ _ _ ()
    rfl rfl rfl rfl (listing_listed.mpr (by simp)) (by rintro c d ⟨⟩; rfl) rfl
    (by simp [toyVerifier, toySigner])⟩

example : ∃ client jwt, hashClientNew toyX509 [[1, 2], [3]] toySigner = .ok client ∧
    client.generate { explicitObject with clientId := some client.id } = .ok jwt ∧
    x509HashVerify toyX509 toyVerifier none (listing [c!"ES256"])
      { explicitObject with clientId := some client.id } jwt = .ok () :=
  ⟨_, _, rfl, rfl, C22_hash_accepted toyX509 toyVerifier _ _ toySigner [1, 2] [[3]] c!"ES256" _ _ _ ()
    rfl rfl rfl rfl (listing_listed.mpr (by simp)) (by rintro c d ⟨⟩; rfl) rfl
    (by simp [toyVerifier, toySigner])⟩

-- a request for another host is refused
example (jwt : Str) : x509SanVerify toyX509 toyVerifier none (listing [c!"ES256"])
    { explicitObject with clientId := some ⟨c!"x509_san_dns:other.example"⟩ } jwt ≠ .ok () := by
  rw [Ne, C20_accepted_iff]
  rintro ⟨cid, m, alg, der, c, host, hc, -, -, -, -, hu, hn, -⟩
  simp only [Option.some.injEq] at hc
  subst hc
  have hh : host = c!"other.example" := by
    rw [← stripClientPrefix_iff (c := ⟨c!"x509_san_dns:other.example"⟩)] at hu
    rw [← hu]; decide
  rw [← dnsNames_mem, hh] at hn
  revert hn
  show ¬ c!"other.example" ∈ [c!"verifier.example"]
  decide

-- a client whose verification method has two `#`
example : ∃ client, didClientNew c!"did:ex:1#a#k" toySigner (fun _ => .ok []) = .ok client ∧
    ∃ jwt, client.generate { explicitObject with clientId := some client.id } = .ok jwt ∧
    didVerify toySsi (fun _ => .ok []) none (listing [c!"ES256"])
      { explicitObject with clientId := some client.id } jwt ≠ .ok () :=
  ⟨_, rfl, _, rfl, C22_did_two_hashes toySsi _ _ _ toySigner c!"did:ex:1" c!"a" c!"k" c!"ES256" _ _ _ rfl
    (by decide) (by decide) rfl rfl rfl (by rw [MentionsNone, ← contains_iff]; decide)⟩

end Oid4vp
