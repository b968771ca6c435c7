import Verif.Spec.Signed
import Verif.Props.Verify
import Verif.Props.Codec
/-!
# C72: what the bundled clients sign
-/

set_option autoImplicit false

namespace Oid4vp

open Spec

theorem jsonPart_of {j : Json} (h : j.WF FltLit) (hd : j.depth < 128) :
    JsonPart j (b64Enc .url (utf8 (jPrint j))) :=
  ⟨jPrint j, jParse_jPrint (Nat.le_of_lt_succ hd) h, by
    rw [C52_base64_rfc4648, C10_utf8_standard]; rfl⟩

theorem signedToken_of {h p : Json} {sign : Bytes → Bytes} (hh : h.WF FltLit) (hhd : h.depth < 128)
    (hp : p.WF FltLit) (hpd : p.depth < 128) :
    SignedToken sign h p (b64Enc .url (utf8 (jPrint h)) ++ '.' :: (b64Enc .url (utf8 (jPrint p)) ++ '.' ::
      b64Enc .url (sign (signingInput (b64Enc .url (utf8 (jPrint h))) (b64Enc .url (utf8 (jPrint p))))))) := by
  refine ⟨_, _, jsonPart_of hh hhd, jsonPart_of hp hpd, ?_⟩
  generalize b64Enc .url (utf8 (jPrint h)) = a
  generalize b64Enc .url (utf8 (jPrint p)) = b
  rw [signingInput, C10_utf8_standard, C52_base64_rfc4648]
  simp [B64.alphabet]

theorem chainDer_iff {x : X509} {chain : List x.Cert} {ders : List Bytes} :
    mapR x.toDer chain = .ok ders ↔ ChainDer x chain ders := by
  induction chain generalizing ders with
  | nil => cases ders <;> simp [mapR, ChainDer]
  | cons c cs ih =>
    simp only [mapR]
    cases hc : x.toDer c with
    | error e =>
      simp only [reduceCtorEq, false_iff]
      rintro ⟨hl, hz⟩
      cases ders with
      | nil => simp at hl
      | cons d ds =>
        have := hz (c, d) (by simp)
        rw [hc] at this; simp at this
    | ok d =>
      cases hm : mapR x.toDer cs with
      | error e =>
        simp only [reduceCtorEq, false_iff]
        rintro ⟨hl, hz⟩
        cases ders with
        | nil => simp at hl
        | cons d' ds =>
          have := ih.mpr ⟨by simpa using hl, fun p hp => hz p (by simp [hp])⟩
          rw [hm] at this; simp at this
      | ok ds =>
        simp only [Except.ok.injEq]
        constructor
        · rintro rfl
          obtain ⟨h1, h2⟩ := ih.mp hm
          refine ⟨by simp [h1], ?_⟩
          intro p hp
          simp only [List.zip_cons_cons, List.mem_cons] at hp
          rcases hp with rfl | hp
          · exact hc
          · exact h2 p hp
        · rintro ⟨hl, hz⟩
          cases ders with
          | nil => simp at hl
          | cons d' ds' =>
            have h1 := hz (c, d') (by simp)
            rw [hc] at h1
            have h2 := ih.mpr ⟨by simpa using hl, fun p hp => hz p (by simp [hp])⟩
            rw [hm] at h2
            cases h1; cases h2; rfl

/-- The DNS name a general name holds. -/
def dnsOf : GeneralName → Option Str
  | .dns n => some n
  | .other => none

theorem dnsNames_eq (x : X509) (c : x.Cert) :
    dnsNames x c = ((x.sanExts c).filterMap fun o => o).flatten.filterMap dnsOf := by
  have : ∀ l : List GeneralName, l.filterMap (fun g => match g with
      | .dns n => some n
      | .other => none) = l.filterMap dnsOf := by
    intro l
    induction l with
    | nil => rfl
    | cons g l ih => cases g <;> simp only [List.filterMap_cons, dnsOf, ih]
  exact this _

theorem firstDns_iff {x : X509} {c : x.Cert} {n : Str} :
    FirstDns x c n ↔ ∃ rest, dnsNames x c = n :: rest := by
  have none_iff : ∀ l : List GeneralName, (∀ m, GeneralName.dns m ∉ l) ↔
      l.filterMap dnsOf = [] := by
    intro l
    induction l with
    | nil => simp
    | cons g l ih =>
      cases g with
      | dns m =>
        simp only [List.filterMap_cons, dnsOf, reduceCtorEq, iff_false]; exact fun h => h m (by simp)
      | other => simpa [List.filterMap_cons, dnsOf] using ih
  simp only [FirstDns, dnsNames_eq]
  generalize x.sanExts c = exts
  induction exts with
  | nil => simp
  | cons o exts ih =>
    cases o with
    | none =>
      simp only [List.filterMap_cons]
      refine Iff.trans ?_ ih
      constructor
      · rintro ⟨before, names, after, a, b, h1, h2, h3, h4⟩
        cases before with
        | nil => simp at h1
        | cons o before =>
          simp only [List.cons_append, List.cons.injEq] at h1
          exact ⟨before, names, after, a, b, h1.2, h2, fun l hl => h3 l (by simp [hl]), h4⟩
      · rintro ⟨before, names, after, a, b, h1, h2, h3, h4⟩
        refine ⟨none :: before, names, after, a, b, by simp [h1], h2, ?_, h4⟩
        intro l hl
        exact h3 l (by simpa using hl)
    | some l =>
      simp only [List.filterMap_cons, List.flatten_cons, List.filterMap_append]
      by_cases hl : ∀ m, GeneralName.dns m ∉ l
      · rw [(none_iff l).mp hl, List.nil_append]
        refine Iff.trans ?_ ih
        constructor
        · rintro ⟨before, names, after, a, b, h1, h2, h3, h4⟩
          cases before with
          | nil =>
            simp only [List.nil_append, List.cons.injEq, Option.some.injEq] at h1
            exact absurd (by rw [h1.1, h2]; simp) (hl n)
          | cons o before =>
            simp only [List.cons_append, List.cons.injEq] at h1
            exact ⟨before, names, after, a, b, h1.2, h2, fun l hl => h3 l (by simp [hl]), h4⟩
        · rintro ⟨before, names, after, a, b, h1, h2, h3, h4⟩
          refine ⟨some l :: before, names, after, a, b, by simp [h1], h2, ?_, h4⟩
          intro l' hl'
          rcases List.mem_cons.mp hl' with e | h
          · cases e; exact hl
          · exact h3 l' h
      · constructor
        · rintro ⟨before, names, after, a, b, h1, h2, h3, h4⟩
          cases before with
          | nil =>
            simp only [List.nil_append, List.cons.injEq, Option.some.injEq] at h1
            rw [h1.1, h2, List.filterMap_append, (none_iff a).mp h4]
            exact ⟨_, rfl⟩
          | cons o before =>
            simp only [List.cons_append, List.cons.injEq] at h1
            exact absurd (h3 l (by simp [h1.1])) hl
        · rintro ⟨rest, hr⟩
          clear ih
          have key : ∀ l : List GeneralName, (¬ ∀ m, GeneralName.dns m ∉ l) →
              ∃ a m b, l = a ++ .dns m :: b ∧ ∀ m', GeneralName.dns m' ∉ a := by
            intro l
            induction l with
            | nil => intro h; exact absurd (by simp) h
            | cons g l ih =>
              intro h
              cases g with
              | dns m => exact ⟨[], m, l, rfl, by simp⟩
              | other =>
                obtain ⟨a, m, b, rfl, ha⟩ := ih (by simpa using h)
                exact ⟨.other :: a, m, b, rfl, by simpa using ha⟩
          obtain ⟨a, m, b, rfl, ha⟩ := key l hl
          rw [List.filterMap_append, (none_iff a).mp ha] at hr
          simp only [List.filterMap_cons, dnsOf, List.nil_append, List.cons_append, List.cons.injEq] at hr
          obtain ⟨rfl, -⟩ := hr
          exact ⟨[], _, exts, a, b, rfl, rfl, by simp, ha⟩

/-- **C72** The x509_san_dns client exists exactly for a chain whose first certificate has a DNS name,
and it is identified by the first one. -/
theorem C72_san_client (x : X509) (leaf : x.Cert) (rest : List x.Cert) (s : Signer) (client : Client) :
    sanClientNew x (leaf :: rest) s = .ok client ↔
      ∃ n, FirstDns x leaf n ∧ client.id.val = c!"x509_san_dns:" ++ n ∧
        client.pre.val = c!"x509_san_dns" ∧ client.generate = x5cGenerate x (leaf :: rest) s := by
  simp only [firstDns_iff, sanClientNew]
  cases hd : dnsNames x leaf with
  | nil => simp
  | cons n ns =>
    simp only [Except.ok.injEq, List.cons.injEq]
    constructor
    · rintro rfl; exact ⟨n, ⟨ns, rfl, rfl⟩, rfl, rfl, rfl⟩
    · rintro ⟨n', ⟨ns', rfl, rfl⟩, h1, h2, h3⟩
      obtain ⟨⟨id⟩, ⟨pre⟩, gen⟩ := client
      simp only at h1 h2 h3
      subst h1 h2 h3
      rfl

/-- **C72** The x509_hash client exists exactly for a chain whose first certificate has a DER form, and
it is identified by its hash. -/
theorem C72_hash_client (x : X509) (leaf : x.Cert) (rest : List x.Cert) (s : Signer) (client : Client) :
    hashClientNew x (leaf :: rest) s = .ok client ↔
      ∃ der, x.toDer leaf = .ok der ∧
        client.id.val = c!"x509_hash:" ++ base64 base64Url (x.sha256 der) ∧
        client.pre.val = c!"x509_hash" ∧ client.generate = x5cGenerate x (leaf :: rest) s := by
  simp only [hashClientNew]
  cases hd : x.toDer leaf with
  | error e => simp
  | ok der =>
    simp only [Except.ok.injEq, exists_eq_left']
    rw [C52_base64_rfc4648]
    constructor
    · rintro rfl; exact ⟨rfl, rfl, rfl⟩
    · rintro ⟨h1, h2, h3⟩
      obtain ⟨⟨id⟩, ⟨pre⟩, gen⟩ := client
      simp only at h1 h2 h3
      subst h1 h2 h3
      rfl

/-- **C72** The DID client exists exactly if its verification method names a key that is the signer's,
and it is identified by what precedes the last `#`. -/
theorem C72_did_client (vm : Str) (s : Signer) (resolver : Str → Res Jwk) (client : Client) :
    didClientNew vm s resolver = .ok client ↔
      ∃ did frag key, vm = did ++ c!"#" ++ frag ∧ '#' ∉ frag ∧ resolver vm = .ok key ∧ s.jwk = .ok key ∧
        client.id.val = c!"decentralized_identifier:" ++ did ∧
        client.pre.val = c!"decentralized_identifier" ∧
        client.generate = (didClient client.id vm s).generate := by
  simp only [didClientNew]
  constructor
  · intro h
    cases hv : rsplitOnce '#' vm with
    | none => rw [hv] at h; simp at h
    | some p =>
      obtain ⟨did, frag⟩ := p
      rw [hv] at h
      simp only at h
      obtain ⟨e, hf⟩ := rsplitOnce_eq_some.mp hv
      cases hr : resolver vm with
      | error e => rw [hr] at h; simp at h
      | ok key =>
        rw [hr] at h; simp only at h
        cases hk : s.jwk with
        | error e => rw [hk] at h; simp at h
        | ok own =>
          rw [hk] at h; simp only at h
          split at h
          · simp at h
          · rename_i hne
            have hne := not_not.mp hne
            simp only [Except.ok.injEq] at h
            subst h
            exact ⟨did, frag, key, by simp [e], hf, rfl, by rw [hne], rfl, rfl, rfl⟩
  · rintro ⟨did, frag, key, e, hf, hr, hk, h1, h2, h3⟩
    have hv : rsplitOnce '#' vm = some (did, frag) := rsplitOnce_eq_some.mpr ⟨by simpa using e, hf⟩
    rw [hv, hr, hk]
    simp only [ne_eq, not_true_eq_false, if_false, Except.ok.injEq]
    obtain ⟨⟨id⟩, ⟨pre⟩, gen⟩ := client
    simp only at h1 h2 h3
    subst h1 h2 h3
    rfl

/-- **C72** The x509 clients sign exactly if the algorithm is known and every certificate has a DER form;
the token has that header, the parameters of the request as payload, and a signature over both. -/
theorem C72_cert_token (x : X509) (chain : List x.Cert) (s : Signer) (a : RequestObject)
    (hw : (Json.obj a.toObject).WF FltLit) (hd : (Json.obj a.toObject).depth < 128) :
    (∀ jwt, x5cGenerate x chain s a = .ok jwt → ∃ alg ders, s.alg = .ok alg ∧ ChainDer x chain ders ∧
      SignedToken s.sign (certHeader alg ders) (.obj a.toObject) jwt) ∧
    ((∃ jwt, x5cGenerate x chain s a = .ok jwt) ↔ (∃ alg, s.alg = .ok alg) ∧ ∃ ders, ChainDer x chain ders) := by
  simp only [← chainDer_iff, x5cGenerate]
  cases halg : s.alg with
  | error e => simp
  | ok alg =>
    cases hm : mapR x.toDer chain with
    | error e => simp
    | ok ders =>
      simp only [Except.ok.injEq, exists_eq', and_true]
      rintro jwt rfl
      refine ⟨alg, ders, rfl, rfl, ?_⟩
      have e : x5cHeader alg ders = certHeader alg ders := by
        have hp : (fun d => Json.str (b64EncPad .std d)) = fun d => .str (base64Padded d) :=
          funext fun d => by rw [C52_base64_padded]
        simp only [x5cHeader, certHeader, requestObjectTyp]
        rw [hp]
      have hwf := x5cMembers_wf alg ders
      have e' : x5cHeader alg ders = .obj (x5cMembers alg ders) := rfl
      rw [← e', e] at hwf
      rw [makeJwt, e]
      exact signedToken_of hwf.1 (Nat.lt_of_le_of_lt hwf.2 (by decide)) hw hd

/-- **C72** The DID client signs exactly if the algorithm is known; the token names the verification
method. -/
theorem C72_did_token (id : ClientId) (vm : Str) (s : Signer) (a : RequestObject)
    (hw : (Json.obj a.toObject).WF FltLit) (hd : (Json.obj a.toObject).depth < 128) :
    (∀ jwt, (didClient id vm s).generate a = .ok jwt → ∃ alg, s.alg = .ok alg ∧
      SignedToken s.sign (didKeyHeader alg vm) (.obj a.toObject) jwt) ∧
    ((∃ jwt, (didClient id vm s).generate a = .ok jwt) ↔ ∃ alg, s.alg = .ok alg) := by
  simp only [didClient]
  cases halg : s.alg with
  | error e => simp
  | ok alg =>
    simp only [Except.ok.injEq, exists_eq', exists_eq_left', and_true]
    rintro jwt rfl
    exact signedToken_of (didMembers_wf alg vm) (Nat.lt_of_le_of_lt (didMembers_depth alg vm) (by decide))
      hw hd

/-- A certificate with names of several kinds, one unreadable extension, and a chain of two. -/
example : FirstDns toyX509 [1, 2] c!"verifier.example" ∧
    ∃ jwt, x5cGenerate toyX509 [[1, 2], [3]] toySigner requestSampleObject = .ok jwt :=
  ⟨firstDns_iff.mpr ⟨_, rfl⟩, _, rfl⟩

/-- A DID whose path has a `#`: the identifier ends at the last one. -/
example : ∃ client jwt, didClientNew c!"did:ex:1#a#k" toySigner (fun _ => .ok []) = .ok client ∧
    client.id.val = c!"decentralized_identifier:did:ex:1#a" ∧ client.generate requestSampleObject = .ok jwt :=
  ⟨_, _, rfl, rfl, rfl⟩

end Oid4vp
