import Verif.Lemmas.JsonWf
import Verif.Props.Params
import Verif.Props.Validate
import Verif.Spec.Jwe
import Verif.Spec.Response
/-!
# C38–C42: encrypted responses and key thumbprints
-/

set_option autoImplicit false

namespace Oid4vp
open Spec

/-! ## C38 -/

theorem jwkStr_eq {k s : Str} {m : List (Str × Json)} : jwkStr k m = some s ↔ Says m k s := by
  unfold jwkStr Says
  cases mget k m with
  | none => simp
  | some j => cases j <;> simp [Json.asStr?]

theorem jwkStr_none {k : Str} {m : List (Str × Json)} : jwkStr k m = none ↔ ∀ s, ¬ Says m k s := by
  simp only [← jwkStr_eq]
  cases jwkStr k m <;> simp

theorem kidOf_eq (m : List (Str × Json)) : jwkStr c!"kid" m = kidOf m := by
  unfold jwkStr kidOf
  cases mget c!"kid" m with
  | none => rfl
  | some j => cases j <;> rfl

theorem suitable_iff (m : List (Str × Json)) : jwkSuitable m = true ↔ SuitableKey m := by
  simp only [jwkSuitable, SuitableKey, ForEncryption, Bool.and_eq_true, Bool.or_eq_true,
    decide_eq_true_eq, and_assoc]
  refine and_congr jwkStr_eq (and_congr jwkStr_eq ?_)
  rw [jwkStr_none, jwkStr_eq]
  constructor
  · rintro (h | h) s hs
    · simp only [Says] at h hs; rw [h] at hs; simpa using hs.symm
    · exact absurd hs (h s)
  · intro h
    by_cases hs : ∃ s, Says m c!"use" s
    · obtain ⟨s, hs⟩ := hs
      left; rw [← h s hs]; exact hs
    · right; exact fun s hs' => hs ⟨s, hs'⟩

theorem joseJwk_ok {jk : Josekit} {m m' : List (Str × Json)} (hp : ProperKey m) :
    joseJwk jk m = .ok m' ↔ jk.jwkOk m = true ∧ m' = m := by
  simp only [joseJwk, jParse_jPrint hp.2 hp.1]
  by_cases h : jk.jwkOk m = true <;> simp [h, eq_comm]

theorem firstWith_cons {P : List (Str × Json) → Prop} {k key : List (Str × Json)}
    {ks : List (List (Str × Json))} :
    FirstWith P (k :: ks) key ↔ (P k ∧ key = k) ∨ (¬ P k ∧ FirstWith P ks key) := by
  constructor
  · rintro ⟨b, a, h1, h2, h3⟩
    cases b with
    | nil => simp only [List.nil_append, List.cons.injEq] at h1; exact .inl ⟨h1.1 ▸ h2, h1.1.symm⟩
    | cons x b =>
      simp only [List.cons_append, List.cons.injEq] at h1
      obtain ⟨rfl, h1⟩ := h1
      exact .inr ⟨h3 _ (by simp), b, a, h1, h2, fun q hq => h3 q (List.mem_cons_of_mem _ hq)⟩
  · rintro (⟨h1, rfl⟩ | ⟨h1, b, a, h2, h3, h4⟩)
    · exact ⟨[], ks, rfl, h1, by simp⟩
    · refine ⟨k :: b, a, by rw [h2]; rfl, h3, ?_⟩
      intro q hq
      rcases List.mem_cons.mp hq with rfl | hq
      · exact h1
      · exact h4 q hq

theorem firstWith_nil {P : List (Str × Json) → Prop} {key : List (Str × Json)} :
    ¬ FirstWith P [] key := by
  rintro ⟨b, a, h, -⟩; simp at h

theorem firstWith_unique {P : List (Str × Json) → Prop} {ks : List (List (Str × Json))}
    {k k' : List (Str × Json)} (h : FirstWith P ks k) (h' : FirstWith P ks k') : k = k' := by
  induction ks with
  | nil => exact absurd h firstWith_nil
  | cons x xs ih =>
    rcases firstWith_cons.mp h with ⟨h1, rfl⟩ | ⟨h1, h2⟩ <;>
    rcases firstWith_cons.mp h' with ⟨h3, rfl⟩ | ⟨h3, h4⟩
    · rfl
    · exact absurd h1 h3
    · exact absurd h3 h1
    · exact ih h2 h4

theorem firstWith_exists {P : List (Str × Json) → Prop} {ks : List (List (Str × Json))} :
    (∃ k, FirstWith P ks k) ↔ ∃ k ∈ ks, P k := by
  induction ks with
  | nil => simp [firstWith_nil]
  | cons x xs ih =>
    simp only [firstWith_cons, List.mem_cons, exists_eq_or_imp]
    rw [← ih]
    by_cases hx : P x
    · simp [hx]
    · simp [hx]

theorem find_eq {jk : Josekit} {keys : List (List (Str × Json))} :
    findEncryptionJwk jk keys = match keys.find? jwkSuitable with
      | none => .error .missing
      | some m => (joseJwk jk m).map fun j => ⟨j, c!"ECDH-ES", jwkStr c!"kid" m⟩ := by
  induction keys with
  | nil => rfl
  | cons m ms ih =>
    rw [findEncryptionJwk, List.find?_cons]
    by_cases h : jwkSuitable m = true
    · rw [if_pos h, h]; simp only; cases joseJwk jk m <;> rfl
    · rw [if_neg h, ih]; simp [h]

theorem find_first {keys : List (List (Str × Json))} {m : List (Str × Json)} :
    keys.find? jwkSuitable = some m ↔ FirstWith SuitableKey keys m := by
  induction keys with
  | nil => simp [firstWith_nil]
  | cons k ks ih =>
    rw [List.find?_cons, firstWith_cons, ← suitable_iff, ← ih]
    by_cases h : jwkSuitable k = true <;> simp [h, eq_comm]

/-- **C38** Key selection returns the first suitable key, with its algorithm and its textual
`kid`; it succeeds exactly if there is a suitable key and the first one is a key the JOSE
library can read. -/
theorem C38_first_suitable (jk : Josekit) (keys : List (List (Str × Json)))
    (hp : ∀ key, FirstWith SuitableKey keys key → ProperKey key) (info : EncryptionJwkInfo) :
    findEncryptionJwk jk keys = .ok info ↔
      ∃ key, FirstWith SuitableKey keys key ∧ jk.jwkOk key = true ∧ info.jwk = key ∧
        info.alg = c!"ECDH-ES" ∧ info.kid = kidOf key := by
  rw [find_eq]
  cases hf : keys.find? jwkSuitable with
  | none =>
    simp only [reduceCtorEq, false_iff, not_exists, not_and]
    intro key hk
    rw [find_first.mpr hk] at hf; simp at hf
  | some m =>
    have hm := find_first.mp hf
    simp only [map_ok_iff, joseJwk_ok (hp m hm)]
    obtain ⟨j, alg, kid⟩ := info
    constructor
    · rintro ⟨x, ⟨h1, rfl⟩, h2⟩
      simp only [EncryptionJwkInfo.mk.injEq] at h2
      exact ⟨x, hm, h1, h2.1.symm, h2.2.1.symm, by rw [← kidOf_eq]; exact h2.2.2.symm⟩
    · rintro ⟨key, h1, h2, h3, h4, h5⟩
      have := firstWith_unique h1 hm
      subst this
      simp only at h3 h4 h5
      subst h3 h4 h5
      exact ⟨j, ⟨h2, rfl⟩, by rw [kidOf_eq]⟩

/-- **C38** Without a suitable key, and only then, selection reports that there is none. -/
theorem C38_none_iff (jk : Josekit) (keys : List (List (Str × Json)))
    (hp : ∀ key, FirstWith SuitableKey keys key → ProperKey key) :
    findEncryptionJwk jk keys = .error .missing ↔ ∀ key ∈ keys, ¬ SuitableKey key := by
  rw [find_eq]
  cases hf : keys.find? jwkSuitable with
  | none =>
    simp only [true_iff]
    intro key hk hs
    have := List.find?_eq_none.mp hf key hk
    exact this ((suitable_iff key).mpr hs)
  | some m =>
    have hm := find_first.mp hf
    simp only [joseJwk, jParse_jPrint (hp m hm).2 (hp m hm).1]
    constructor
    · by_cases h : jk.jwkOk m = true <;> simp [h, Except.map]
    · intro h
      obtain ⟨b, a, rfl, h2, -⟩ := hm
      exact absurd h2 (h m (by simp))

/-- **C38** Keys that are not suitable never influence the result. -/
theorem C38_others_irrelevant (jk : Josekit) (before after : List (List (Str × Json)))
    (key : List (Str × Json)) (h : ¬ SuitableKey key) :
    findEncryptionJwk jk (before ++ key :: after) = findEncryptionJwk jk (before ++ after) := by
  have hk : jwkSuitable key = false := by
    rw [← Bool.not_eq_true]; exact fun hs => h ((suitable_iff key).mp hs)
  rw [find_eq, find_eq]
  simp only [List.find?_append, List.find?_cons, hk]

/-- **C38** Neither do keys after the first suitable one. -/
theorem C38_later_irrelevant (jk : Josekit) (before after after' : List (List (Str × Json)))
    (key : List (Str × Json)) (h : SuitableKey key) :
    findEncryptionJwk jk (before ++ key :: after) = findEncryptionJwk jk (before ++ key :: after') := by
  rw [find_eq, find_eq]
  simp only [List.find?_append, List.find?_cons, (suitable_iff key).mpr h]

/-- An RSA key, a signature key, an encryption key with and one without `use`. -/
def rsaKey : List (Str × Json) :=
  [(c!"alg", .str c!"RSA-OAEP"), (c!"e", .str c!"AQAB"), (c!"kty", .str c!"RSA"),
   (c!"n", .str c!"nnn"), (c!"use", .str c!"enc")]
def sigKey : List (Str × Json) :=
  [(c!"alg", .str c!"ECDH-ES"), (c!"crv", .str c!"P-256"), (c!"kty", .str c!"EC"),
   (c!"use", .str c!"sig"), (c!"x", .str c!"sx"), (c!"y", .str c!"sy")]
def encKey : List (Str × Json) :=
  [(c!"alg", .str c!"ECDH-ES"), (c!"crv", .str c!"P-256"), (c!"kid", .str c!"k1"),
   (c!"kty", .str c!"EC"), (c!"use", .str c!"enc"), (c!"x", .str c!"ex"), (c!"y", .str c!"ey")]
def anyKey : List (Str × Json) :=
  [(c!"alg", .str c!"ECDH-ES"), (c!"crv", .str c!"P-256"), (c!"kty", .str c!"EC"),
   (c!"x", .str c!"ax"), (c!"y", .str c!"ay")]

/-- A JOSE library that reads every key and writes down what it is asked to encrypt. -/
def toyJose : Josekit where
  jwkOk := fun _ => true
  claimOk := fun _ _ => true
  encrypt := fun key header payload => .ok (jPrint (.arr [.obj key, .obj header, .obj payload]))

example : findEncryptionJwk toyJose [rsaKey, sigKey, encKey, anyKey] =
    .ok ⟨encKey, c!"ECDH-ES", some c!"k1"⟩ := by decide +kernel
example : findEncryptionJwk toyJose [rsaKey, sigKey] = .error .missing := by decide +kernel
example : ¬ SuitableKey sigKey ∧ SuitableKey encKey ∧ SuitableKey anyKey := by
  simp only [← suitable_iff]; decide

/-- **C38** The first suitable key being unreadable is an error, although a readable key
follows. -/
theorem C38_unreadable_key_aborts :
    findEncryptionJwk { toyJose with jwkOk := fun m => decide (m = encKey) } [anyKey, encKey] =
      .error .parse := by decide +kernel

/-! ## C39 -/

theorem jwks_iff {cm : UntypedObject} {keys : List (List (Str × Json))} :
    UntypedObject.get JWKs cm = some (.ok ⟨keys⟩) ↔ KeyList cm keys := by
  simp only [UntypedObject.get, KeyList]
  cases hg : mget (TypedParameter.key JWKs) cm with
  | none =>
    simp
  | some j =>
    simp only [Option.some.injEq]
    constructor
    · intro h
      obtain ⟨ks, h1, h2⟩ := jwks_keys h
      subst h2
      rcases h1 with ⟨m, rfl, hm⟩ | rfl
      · exact .inl ⟨m, rfl, hm⟩
      · exact .inr rfl
    · have hv : vecOfJson objOfJson (.arr (keys.map .obj)) = .ok keys :=
        vec_roundtrip.mpr fun x _ => rfl
      rintro (⟨m, rfl, hm⟩ | rfl)
      · simp only [TypedParameter.ofJson, structFields]
        refine bind_ok_iff.mpr ⟨_, rfl, bind_ok_iff.mpr ⟨keys, ?_, rfl⟩⟩
        rw [fieldReq_roundtrip (j := .arr (keys.map .obj)) hm]
        exact hv
      · simp only [TypedParameter.ofJson, structFields]
        refine bind_ok_iff.mpr ⟨_, rfl, bind_ok_iff.mpr ⟨keys, ?_, rfl⟩⟩
        rw [fieldReq_roundtrip (j := .arr (keys.map .obj)) (by simp [mget])]
        exact hv

theorem encValues_iff {cm : UntypedObject} {e : Str} :
    (∃ v, ClientMetadata.encValues ⟨cm⟩ = .ok v ∧ chosenEnc v.val = e) ↔ FirstEnc cm e := by
  simp only [ClientMetadata.encValues, UntypedObject.get, FirstEnc]
  cases hg : mget (TypedParameter.key EncryptedResponseEncValuesSupported) cm with
  | none =>
    simp [RDefault.dflt, chosenEnc, eq_comm]
  | some j =>
    simp only [TypedParameter.ofJson, map_ok_iff, reduceCtorEq, false_and, false_or,
      Option.some.injEq]
    constructor
    · rintro ⟨v, ⟨l, hl, rfl⟩, h⟩
      refine ⟨l, strsOfJson_ok.mp hl, ?_⟩
      cases l with
      | nil => exact .inl ⟨rfl, h.symm⟩
      | cons x xs => simp only [chosenEnc] at h; exact .inr ⟨xs, by rw [h]⟩
    · rintro ⟨l, rfl, h⟩
      refine ⟨⟨l⟩, ⟨l, strsOfJson_ok.mpr rfl, rfl⟩, ?_⟩
      rcases h with ⟨rfl, rfl⟩ | ⟨rest, rfl⟩ <;> rfl

theorem header_eq (e : Str) (kid : Option Str) : jweHeader c!"ECDH-ES" e kid = encHeader e kid := by
  rcases kid with _ | k <;> rfl

theorem payload_eq (t : VpToken) (s : Option State) :
    responsePayload t s = .obj (encPayload t.toJson (s.map State.val)) := by
  rcases s with _ | ⟨s⟩ <;> rfl

theorem resolve_keys {a : RequestObject} {cm : ClientMetadata} {keys : List (List (Str × Json))} :
    (ClientMetadata.resolve a = .ok cm ∧ cm.jwks = some (.ok ⟨keys⟩)) ↔
      mget c!"client_metadata" a.inner = some (.obj cm.val) ∧ KeyList cm.val keys := by
  rw [ClientMetadata.jwks, jwks_iff]
  refine and_congr_left fun hk => ?_
  simp only [ClientMetadata.resolve, UntypedObject.get]
  cases hg : mget (TypedParameter.key ClientMetadata) a.inner with
  | none =>
    simp only [Except.ok.injEq, reduceCtorEq, iff_false]
    rintro rfl
    simp [KeyList] at hk
  | some j =>
    simp only [TypedParameter.ofJson, map_ok_iff, Option.some.injEq]
    constructor
    · rintro ⟨m, hm, rfl⟩; exact objOfJson_ok.mp hm
    · rintro rfl; exact ⟨cm.val, objOfJson_ok.mpr rfl, rfl⟩

/-- **C39** The encrypted response is an encryption, to the first suitable key the verifier
announces, of a JSON object with exactly `vp_token` and, if given, `state`; the protected header
has exactly `alg` ECDH-ES, the first announced `enc` (A128GCM if none is announced), the key's
`kid` if it has one, and `typ` JWT. It is built whenever these exist and the JOSE library accepts
key and claims and encrypts. -/
theorem C39_encrypted_response_iff (jk : Josekit) (a : RequestObject) (t : VpToken)
    (s : Option State) (r : AuthorizationResponse)
    (hp : ∀ cm keys key, mget c!"client_metadata" a.inner = some (.obj cm) → KeyList cm keys →
      FirstWith SuitableKey keys key → ProperKey key) :
    buildEncryptedResponse jk a t s = .ok r ↔
      ∃ cm keys key enc jwe, mget c!"client_metadata" a.inner = some (.obj cm) ∧
        KeyList cm keys ∧ FirstWith SuitableKey keys key ∧ jk.jwkOk key = true ∧
        FirstEnc cm enc ∧
        (∀ p ∈ encPayload t.toJson (s.map State.val), jk.claimOk p.1 p.2 = true) ∧
        jk.encrypt key (encHeader enc (kidOf key)) (encPayload t.toJson (s.map State.val)) = .ok jwe ∧
        r = .jwt jwe := by
  have hbuild : ∀ key enc jwe, JweBuilder.build jk {
        payload := some (responsePayload t s), recipientKey := some key, alg := some c!"ECDH-ES",
        enc := some enc, kid := kidOf key } = .ok jwe ↔
      (∀ p ∈ encPayload t.toJson (s.map State.val), jk.claimOk p.1 p.2 = true) ∧
      jk.encrypt key (encHeader enc (kidOf key)) (encPayload t.toJson (s.map State.val)) = .ok jwe := by
    intro key enc jwe
    simp only [JweBuilder.build, payload_eq, kidOf_eq, unwrapOr, ecdhEs, ne_eq, not_true_eq_false,
      if_false, header_eq]
    by_cases hc : ∀ p ∈ encPayload t.toJson (s.map State.val), jk.claimOk p.1 p.2 = true
    · rw [if_pos (List.all_eq_true.mpr hc), and_iff_right hc]
      cases kidOf key <;> rfl
    · rw [if_neg (fun h => hc (List.all_eq_true.mp h))]
      exact ⟨fun h => by simp at h, fun h => absurd h.1 hc⟩
  simp only [buildEncryptedResponse]
  constructor
  · intro h
    cases hcm : ClientMetadata.resolve a with
    | error e => rw [hcm] at h; simp at h
    | ok cm =>
      rw [hcm] at h; simp only at h
      cases hj : parsingError cm.jwks with
      | error e => rw [hj] at h; simp at h
      | ok jwks =>
        rw [hj] at h; simp only at h
        obtain ⟨keys⟩ := jwks
        have hcmk := resolve_keys.mp ⟨hcm, parsingError_ok.mp hj⟩
        cases hf : findEncryptionJwk jk keys with
        | error e => rw [hf] at h; simp at h
        | ok info =>
          rw [hf] at h; simp only at h
          obtain ⟨key, h1, h2, h3, h4, h5⟩ :=
            (C38_first_suitable jk keys (fun k => hp _ _ k hcmk.1 hcmk.2) info).mp hf
          have hpk := hp _ _ key hcmk.1 hcmk.2 h1
          rw [h3, h4, h5] at h
          cases he : cm.encValues with
          | error e => rw [he] at h; simp at h
          | ok encs =>
            rw [he] at h; simp only [(joseJwk_ok hpk).mpr ⟨h2, rfl⟩] at h
            cases hb : JweBuilder.build jk {
                payload := some (responsePayload t s), recipientKey := some key,
                alg := some c!"ECDH-ES", enc := some (chosenEnc encs.val), kid := kidOf key } with
            | error e => rw [hb] at h; simp at h
            | ok jwe =>
              rw [hb] at h; simp only [Except.ok.injEq] at h
              obtain ⟨hc1, hc2⟩ := (hbuild _ _ _).mp hb
              exact ⟨cm.val, keys, key, chosenEnc encs.val, jwe, hcmk.1, hcmk.2, h1, h2,
                encValues_iff.mp ⟨encs, he, rfl⟩, hc1, hc2, h.symm⟩
  · rintro ⟨cm, keys, key, enc, jwe, h1, h2, h3, h4, h5, h6, h7, rfl⟩
    obtain ⟨hcm, hj⟩ := (resolve_keys (cm := ⟨cm⟩)).mpr ⟨h1, h2⟩
    have hpk := hp _ _ key h1 h2 h3
    obtain ⟨encs, he, rfl⟩ := encValues_iff.mpr h5
    have hf := (C38_first_suitable jk keys (fun k => hp _ _ k h1 h2)
      ⟨key, c!"ECDH-ES", kidOf key⟩).mpr ⟨key, h3, h4, rfl, rfl, rfl⟩
    simp only [hcm, parsingError_ok.mpr hj, hf, he, (joseJwk_ok hpk).mpr ⟨h4, rfl⟩,
      (hbuild _ _ _).mpr ⟨h6, h7⟩]

/-- **C39** Whoever decrypts the payload reads exactly the presentation and the state. -/
theorem C39_payload_read_back (t : VpToken) (s : Option State) (ht : t.Proper) :
    UnencodedResponse.ofJson (.obj (encPayload t.toJson (s.map State.val))) = .ok ⟨t, s⟩ := by
  have h1 : VpToken.ofJson t.toJson = .ok t :=
    vpToken_roundtrip ht.1 fun p hp m hm => wf_mono (fun _ _ => trivial) _ (ht.2 p hp m hm)
  rcases s with _ | ⟨s⟩ <;>
    simp [UnencodedResponse.ofJson, encPayload, structFields, fieldReq, fieldOpt, mget, h1,
      strOfJson, Except.map]

/-- A request for an encrypted response, announcing these keys and content encryption
algorithms. -/
def jwtSample (keys : List (List (Str × Json))) (encs : List Str) : UntypedObject :=
  [(c!"client_id", .str c!"x509_san_dns:verifier.example"),
   (c!"client_metadata", .obj [
      (c!"encrypted_response_enc_values_supported", .arr (encs.map .str)),
      (c!"jwks", .obj [(c!"keys", .arr (keys.map .obj))])]),
   (c!"nonce", .str c!"n"), (c!"response_mode", .str c!"direct_post.jwt"),
   (c!"response_type", .str c!"vp_token"), (c!"response_uri", .str c!"https://verifier.example/r")]

/-- Its request object. -/
def jwtObject (keys : List (List (Str × Json))) (encs : List Str) : RequestObject :=
  { requestSampleObject with inner := jwtSample keys encs, responseMode := .directPostJwt }

theorem jwtSample_ok (keys : List (List (Str × Json))) (encs : List Str) :
    RequestObject.ofObject (jwtSample keys encs) = .ok (jwtObject keys encs) := by rfl

/-- A presentation. -/
def tokenSample : VpToken := ⟨[(c!"pid", [.string c!"eyJ~"])]⟩

-- the encryption is asked for with the second key, the first announced enc, and state
example : buildEncryptedResponse toyJose (jwtObject [rsaKey, encKey] [c!"A256GCM", c!"A128GCM"])
      tokenSample (some ⟨c!"st"⟩) =
    .ok (.jwt (jPrint (.arr [.obj encKey, .obj (encHeader c!"A256GCM" (some c!"k1")),
      .obj (encPayload tokenSample.toJson (some c!"st"))]))) := by decide +kernel

-- without announced values A128GCM is used, without a kid none is sent
example : buildEncryptedResponse toyJose (jwtObject [anyKey] []) tokenSample none =
    .ok (.jwt (jPrint (.arr [.obj anyKey, .obj [(c!"alg", .str c!"ECDH-ES"),
      (c!"enc", .str c!"A128GCM"), (c!"typ", .str c!"JWT")],
      .obj [(c!"vp_token", tokenSample.toJson)]]))) := by decide +kernel

/-! ## C40 -/

theorem firstEnc_offered {cm : UntypedObject} {e v : Str} (h : FirstEnc cm e)
    (ho : OffersEnc cm v) : OffersEnc cm e := by
  rcases h with ⟨h1, h2⟩ | ⟨l, h1, ⟨rfl, h3⟩ | ⟨rest, rfl⟩⟩
  · exact .inl ⟨h1, h2⟩
  · rcases ho with ⟨h4, -⟩ | ⟨l', h4, h5⟩
    · rw [h1] at h4; simp at h4
    · rw [h1] at h4
      cases l' with
      | nil => simp at h5
      | cons x xs => simp at h4
  · exact .inr ⟨_, h1, by simp⟩

theorem keyList_in {cm : UntypedObject} {keys : List (List (Str × Json))} (h : KeyList cm keys)
    {key : List (Str × Json)} (hk : key ∈ keys) : KeyIn cm key :=
  ⟨keys.map .obj, List.mem_map.mpr ⟨key, hk, rfl⟩, h⟩

/-- **C40 (partial)** If a wallet that lists content encryption algorithms accepts a request for
an encrypted response, then the encrypted response uses a listed algorithm, provided the wallet
lists all of the algorithms the verifier announces or the verifier announces just one; and it is
encrypted to a key that validation took into account, provided all announced keys state their
use. Missing, and false (see below): the same without the provisos. -/
theorem C40_supported_partial (w : Wallet) (r : AuthorizationRequest) (a : RequestObject)
    (h : (r.validate w).2 = .ok a)
    (hm : a.responseMode = .directPostJwt ∨ a.responseMode = .dcApiJwt)
    (jk : Josekit) (t : VpToken) (s : Option State) (resp : AuthorizationResponse)
    (hp : ∀ cm keys key, mget c!"client_metadata" a.inner = some (.obj cm) → KeyList cm keys →
      FirstWith SuitableKey keys key → ProperKey key)
    (hb : buildEncryptedResponse jk a t s = .ok resp) :
    ∃ cm key enc kid payload jwe, mget c!"client_metadata" a.inner = some (.obj cm) ∧
      resp = .jwt jwe ∧ jk.encrypt key (encHeader enc kid) payload = .ok jwe ∧ KeyIn cm key ∧
      (∀ l : List Str, mget c!"authorization_encryption_enc_values_supported" w.metadata.inner =
          some (.arr (l.map .str)) →
        ((∀ v, OffersEnc cm v → v ∈ l) ∨ (∀ v v', OffersEnc cm v → OffersEnc cm v' → v = v')) →
        enc ∈ l) ∧
      ((∀ key', KeyIn cm key' → ∃ u, Says key' c!"use" u) → Says key c!"use" c!"enc") := by
  obtain ⟨cm, hcm, -, -, henc⟩ := C15_encryption_requirements w r a h hm
  obtain ⟨cm', keys, key, enc, jwe, h1, h2, h3, h4, h5, h6, h7, h8⟩ :=
    (C39_encrypted_response_iff jk a t s resp hp).mp hb
  have : cm' = cm := by rw [hcm] at h1; simpa using h1.symm
  subst this
  have hin : KeyIn cm' key := by
    obtain ⟨b, af, rfl, -⟩ := h3
    exact keyList_in h2 (by simp)
  refine ⟨cm', key, enc, _, _, jwe, hcm, h8, h7, hin, ?_, ?_⟩
  · intro l hl hprov
    obtain ⟨l', hl', v, hv, ho⟩ := henc _ hl
    have hll : l' = l := by
      simp only [Json.arr.injEq] at hl'
      exact (List.map_injective_iff.mpr (fun a b h => by simpa using h) hl').symm
    subst hll
    have he := firstEnc_offered h5 ho
    rcases hprov with hall | hone
    · exact hall enc he
    · rw [hone enc v he ho]; exact hv
  · intro hall
    obtain ⟨u, hu⟩ := hall key hin
    obtain ⟨b, af, -, ⟨-, -, hfor⟩, -⟩ := h3
    rw [← hfor u hu]; exact hu

theorem firstEnc_unique {cm : UntypedObject} {e e' : Str} (h : FirstEnc cm e) (h' : FirstEnc cm e') :
    e = e' := by
  have inj : ∀ l l' : List Str, l.map Json.str = l'.map Json.str → l = l' := fun l l' h =>
    List.map_injective_iff.mpr (fun a b h => by simpa using h) h
  rcases h with ⟨h1, h2⟩ | ⟨l, h1, h2⟩ <;> rcases h' with ⟨g1, g2⟩ | ⟨l', g1, g2⟩
  · rw [h2, g2]
  · rw [h1] at g1; cases g1
  · rw [h1] at g1; cases g1
  · rw [h1] at g1
    have := inj l l' (Json.arr.inj (Option.some.inj g1))
    subst this
    rcases h2 with ⟨rfl, h2⟩ | ⟨r, rfl⟩ <;> rcases g2 with ⟨g2, g3⟩ | ⟨r', g2⟩
    · rw [h2, g3]
    · cases g2
    · cases g2
    · cases g2; rfl

/-- **C40** Exactly when a response is encrypted with an algorithm from a list, and exactly when to a key
that is announced for encryption: it is the first announced algorithm (A128GCM if none is announced),
and the first suitable key, on which that depends. -/
theorem C40_exactly_when (jk : Josekit) (a : RequestObject) (t : VpToken) (s : Option State)
    (resp : AuthorizationResponse)
    (hp : ∀ cm keys key, mget c!"client_metadata" a.inner = some (.obj cm) → KeyList cm keys →
      FirstWith SuitableKey keys key → ProperKey key)
    (hb : buildEncryptedResponse jk a t s = .ok resp) :
    ∃ cm keys key enc jwe, mget c!"client_metadata" a.inner = some (.obj cm) ∧ KeyList cm keys ∧
      resp = .jwt jwe ∧
      jk.encrypt key (encHeader enc (kidOf key)) (encPayload t.toJson (s.map State.val)) = .ok jwe ∧
      (∀ l : List Str, enc ∈ l ↔ ∃ v, FirstEnc cm v ∧ v ∈ l) ∧
      (Says key c!"use" c!"enc" ↔ ∃ k u, FirstWith SuitableKey keys k ∧ Says k c!"use" u) := by
  obtain ⟨cm, keys, key, enc, jwe, h1, h2, h3, -, h5, -, h7, h8⟩ :=
    (C39_encrypted_response_iff jk a t s resp hp).mp hb
  refine ⟨cm, keys, key, enc, jwe, h1, h2, h8, h7, fun l => ⟨fun h => ⟨enc, h5, h⟩, ?_⟩, ?_⟩
  · rintro ⟨v, hv, hl⟩
    rw [firstEnc_unique h5 hv]; exact hl
  · constructor
    · intro h; exact ⟨key, _, h3, h⟩
    · rintro ⟨k, u, hk, hu⟩
      have : k = key := firstWith_unique hk h3
      subst this
      obtain ⟨b, af, -, ⟨-, -, hfor⟩, -⟩ := h3
      rw [← hfor u hu]; exact hu

/-- A wallet that supports only A256GCM and ECDH-ES. -/
def pickyWallet (algs encs : List Str) : Wallet :=
  { walletSample with
    metadata := { walletSample.metadata with
      inner := [(c!"authorization_encryption_alg_values_supported", .arr (algs.map .str)),
        (c!"authorization_encryption_enc_values_supported", .arr (encs.map .str)),
        (c!"client_id_prefixes_supported", .arr [.str c!"x509_san_dns"])] } }

/-- **C40** is false in general: a wallet that supports only A256GCM accepts a request that
announces A128GCM and A256GCM, and then encrypts with A128GCM. -/
theorem C40_unsupported_enc_used :
    (AuthorizationRequest.validate (pickyWallet [c!"ECDH-ES"] [c!"A256GCM"])
      ⟨none, .direct (jwtSample [encKey] [c!"A128GCM", c!"A256GCM"])⟩).2 =
        .ok (jwtObject [encKey] [c!"A128GCM", c!"A256GCM"]) ∧
    buildEncryptedResponse toyJose (jwtObject [encKey] [c!"A128GCM", c!"A256GCM"]) tokenSample none =
      .ok (.jwt (jPrint (.arr [.obj encKey, .obj (encHeader c!"A128GCM" (some c!"k1")),
        .obj (encPayload tokenSample.toJson none)]))) := by decide +kernel

/-- Another key agreement with a wrapped content key. -/
def wrapKey : List (Str × Json) :=
  [(c!"alg", .str c!"ECDH-ES+A256KW"), (c!"crv", .str c!"P-256"), (c!"kty", .str c!"EC"),
   (c!"use", .str c!"enc"), (c!"x", .str c!"wx"), (c!"y", .str c!"wy")]

/-- **C40** is false in general: a wallet that supports only ECDH-ES+A256KW accepts a request
because of the second key and encrypts to the first one (which validation did not look at, as it
does not state its use) with ECDH-ES. -/
theorem C40_unconsidered_key_used :
    (AuthorizationRequest.validate (pickyWallet [c!"ECDH-ES+A256KW"] [c!"A128GCM"])
      ⟨none, .direct (jwtSample [anyKey, wrapKey] [c!"A128GCM"])⟩).2 =
        .ok (jwtObject [anyKey, wrapKey] [c!"A128GCM"]) ∧
    buildEncryptedResponse toyJose (jwtObject [anyKey, wrapKey] [c!"A128GCM"]) tokenSample none =
      .ok (.jwt (jPrint (.arr [.obj anyKey, .obj (encHeader c!"A128GCM" none),
        .obj (encPayload tokenSample.toJson none)]))) := by decide +kernel

/-- Conversely, a key that can be used for encryption but does not state its use is not enough
for validation. -/
theorem C40_usable_key_refused :
    (AuthorizationRequest.validate (pickyWallet [c!"ECDH-ES"] [c!"A128GCM"])
      ⟨none, .direct (jwtSample [anyKey] [c!"A128GCM"])⟩).2 = .error .missing ∧
    SuitableKey anyKey :=
  ⟨by decide +kernel, by rw [← suitable_iff]; decide⟩

end Oid4vp
