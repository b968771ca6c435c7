import Verif.Props.Jwe
/-!
# C41, C42: key thumbprints
-/

set_option autoImplicit false

namespace Oid4vp
open Spec

theorem jsonStr_eq {k s : Str} {m : List (Str × Json)} :
    jsonStr k (.obj m) = some s ↔ Says m k s := by
  unfold jsonStr Says
  simp only [Json.get?]
  cases mget k m with
  | none => simp
  | some j => cases j <;> simp [Json.asStr?]

theorem says_unique {m : List (Str × Json)} {k s s' : Str} (h : Says m k s) (h' : Says m k s') :
    s = s' := by
  unfold Says at h h'; rw [h] at h'; simpa using h'

theorem input_ok {m : List (Str × Json)} {s : Str} :
    thumbprintInput (.obj m) = .ok s ↔ ∃ r, HasRequired m r ∧ s = r.text := by
  constructor
  · intro h
    simp only [thumbprintInput] at h
    cases h0 : jsonStr c!"kty" (.obj m) with
    | none => rw [h0] at h; simp at h
    | some kty =>
      rw [h0] at h; simp only at h
      by_cases he : kty = c!"EC"
      · rw [if_pos he] at h
        subst he
        cases h1 : jsonStr c!"crv" (.obj m) with
        | none => rw [h1] at h; simp at h
        | some crv =>
          rw [h1] at h; simp only at h
          cases h2 : jsonStr c!"x" (.obj m) with
          | none => rw [h2] at h; simp at h
          | some x =>
            rw [h2] at h; simp only at h
            cases h3 : jsonStr c!"y" (.obj m) with
            | none => rw [h3] at h; simp at h
            | some y =>
              rw [h3] at h; simp only [Except.ok.injEq] at h
              exact ⟨.ec crv x y, ⟨jsonStr_eq.mp h0, jsonStr_eq.mp h1, jsonStr_eq.mp h2,
                jsonStr_eq.mp h3⟩, h.symm⟩
      · rw [if_neg he] at h
        by_cases hr : kty = c!"RSA"
        · rw [if_pos hr] at h
          subst hr
          cases h1 : jsonStr c!"e" (.obj m) with
          | none => rw [h1] at h; simp at h
          | some e =>
            rw [h1] at h; simp only at h
            cases h2 : jsonStr c!"n" (.obj m) with
            | none => rw [h2] at h; simp at h
            | some n =>
              rw [h2] at h; simp only [Except.ok.injEq] at h
              exact ⟨.rsa e n, ⟨jsonStr_eq.mp h0, jsonStr_eq.mp h1, jsonStr_eq.mp h2⟩, h.symm⟩
        · rw [if_neg hr] at h; simp at h
  · rintro ⟨r, hr, rfl⟩
    cases r with
    | ec crv x y =>
      obtain ⟨h0, h1, h2, h3⟩ := hr
      simp only [thumbprintInput, jsonStr_eq.mpr h0, jsonStr_eq.mpr h1, jsonStr_eq.mpr h2,
        jsonStr_eq.mpr h3, if_true, Required.text]
    | rsa e n =>
      obtain ⟨h0, h1, h2⟩ := hr
      have hne : ¬ (c!"RSA" = c!"EC") := by decide
      simp only [thumbprintInput, jsonStr_eq.mpr h0, jsonStr_eq.mpr h1, jsonStr_eq.mpr h2,
        if_true, if_neg hne, Required.text]

theorem required_unique {m : List (Str × Json)} {r r' : Required} (h : HasRequired m r)
    (h' : HasRequired m r') : r = r' := by
  cases r <;> cases r' <;> simp only [HasRequired] at h h'
  · rw [says_unique h.2.1 h'.2.1, says_unique h.2.2.1 h'.2.2.1, says_unique h.2.2.2 h'.2.2.2]
  · exact absurd (says_unique h.1 h'.1) (by decide)
  · exact absurd (says_unique h.1 h'.1) (by decide)
  · rw [says_unique h.2.1 h'.2.1, says_unique h.2.2 h'.2.2]

/-! ## C42 -/

/-- **C42** A thumbprint can be computed exactly for a key with all the required members of its
type. -/
theorem C42_defined_iff (sha : Bytes → Bytes) (m : List (Str × Json)) :
    (∃ t, computeJwkThumbprint sha (.obj m) = .ok t) ↔ ∃ r, HasRequired m r := by
  simp only [computeJwkThumbprint]
  constructor
  · rintro ⟨t, h⟩
    cases hi : thumbprintInput (.obj m) with
    | error e => rw [hi] at h; simp at h
    | ok s => obtain ⟨r, hr, -⟩ := input_ok.mp hi; exact ⟨r, hr⟩
  · rintro ⟨r, hr⟩
    rw [input_ok.mpr ⟨r, hr, rfl⟩]; exact ⟨_, rfl⟩

/-- **C42** The thumbprint is the hash of the text of the required members. -/
theorem C42_hashed (sha : Bytes → Bytes) (m : List (Str × Json)) (t : Bytes) :
    computeJwkThumbprint sha (.obj m) = .ok t ↔
      ∃ r, HasRequired m r ∧ t = sha (r.text.flatMap String.utf8EncodeChar) := by
  simp only [computeJwkThumbprint, ← C10_utf8_standard]
  constructor
  · intro h
    cases hi : thumbprintInput (.obj m) with
    | error e => rw [hi] at h; simp at h
    | ok s =>
      rw [hi] at h
      obtain ⟨r, hr, rfl⟩ := input_ok.mp hi
      exact ⟨r, hr, (Except.ok.inj h).symm⟩
  · rintro ⟨r, hr, rfl⟩
    rw [input_ok.mpr ⟨r, hr, rfl⟩]

/-- **C42** Keys with the same type and required members have the same thumbprint, whatever
other members they have and in whatever order. -/
theorem C42_depends_only_on_required (sha : Bytes → Bytes) (m m' : List (Str × Json))
    (r : Required) (h : HasRequired m r) (h' : HasRequired m' r) :
    computeJwkThumbprint sha (.obj m) = computeJwkThumbprint sha (.obj m') := by
  simp only [computeJwkThumbprint, input_ok.mpr ⟨r, h, rfl⟩, input_ok.mpr ⟨r, h', rfl⟩]

theorem quote_cut {a b c d : Str} (ha : '"' ∉ a) (hb : '"' ∉ b)
    (h : a ++ '"' :: c = b ++ '"' :: d) : a = b ∧ c = d := by
  have h1 := splitOnce_append (b := c) ha
  have h2 := splitOnce_append (b := d) hb
  rw [h, h2] at h1
  simp only [Option.some.injEq, Prod.mk.injEq] at h1
  exact ⟨h1.1.symm, h1.2.symm⟩

/-- **C42 (partial)** Keys whose required members have no quotes in them (but possibly in the
last one) have the same hash input only if they have the same type and required members.
Missing, and false (see below): the same for all members. -/
theorem C42_injective_partial (m m' : List (Str × Json)) (r r' : Required) (s : Str)
    (h : HasRequired m r) (h' : HasRequired m' r') (hq : r.Quotefree) (hq' : r'.Quotefree)
    (hs : thumbprintInput (.obj m) = .ok s) (hs' : thumbprintInput (.obj m') = .ok s) : r = r' := by
  have e : r.text = r'.text := by
    rw [input_ok.mpr ⟨r, h, rfl⟩] at hs
    rw [input_ok.mpr ⟨r', h', rfl⟩] at hs'
    simp only [Except.ok.injEq] at hs hs'
    rw [hs, hs']
  cases r <;> cases r' <;> simp only [Required.text, Required.Quotefree] at e hq hq'
  · rename_i crv x y crv' x' y'
    simp only [List.cons_append, List.nil_append, List.append_assoc, List.cons.injEq, true_and] at e
    obtain ⟨rfl, e1⟩ := quote_cut hq.1 hq'.1 e
    replace e1 := List.append_cancel_left (as := c!",\"kty\":\"EC\",\"x\":\"") e1
    obtain ⟨rfl, e2⟩ := quote_cut hq.2 hq'.2 e1
    replace e2 := List.append_cancel_left (as := c!",\"y\":\"") e2
    rw [show y = y' from List.append_cancel_right e2]
  · simp at e
  · simp at e
  · rename_i ex n ex' n'
    simp only [List.cons_append, List.nil_append, List.append_assoc, List.cons.injEq, true_and] at e
    obtain ⟨rfl, e1⟩ := quote_cut hq hq' e
    replace e1 := List.append_cancel_left (as := c!",\"kty\":\"RSA\",\"n\":\"") e1
    rw [show n = n' from List.append_cancel_right e1]

/-- **C42 (partial)** The same for the thumbprints themselves, unless what was hashed for them is a
collision of the hash function. Missing, and false (see below): the same for all members. -/
theorem C42_binds_partial (sha : Bytes → Bytes) (m m' : List (Str × Json)) (r r' : Required) (t : Bytes)
    (h : HasRequired m r) (h' : HasRequired m' r') (hq : r.Quotefree) (hq' : r'.Quotefree)
    (ht : computeJwkThumbprint sha (.obj m) = .ok t) (ht' : computeJwkThumbprint sha (.obj m') = .ok t) :
    r = r' ∨ (r.text ≠ r'.text ∧
      sha (r.text.flatMap String.utf8EncodeChar) = sha (r'.text.flatMap String.utf8EncodeChar)) := by
  obtain ⟨r1, h1, e1⟩ := (C42_hashed sha m t).mp ht
  obtain ⟨r2, h2, e2⟩ := (C42_hashed sha m' t).mp ht'
  cases required_unique h h1
  cases required_unique h' h2
  by_cases e : r.text = r'.text
  · exact .inl (C42_injective_partial m m' r r' r.text h h' hq hq' (input_ok.mpr ⟨r, h, rfl⟩)
      (input_ok.mpr ⟨r', h', e⟩))
  · exact .inr ⟨e, e1.symm.trans e2⟩

theorem text_quotes (r : Required) (r' : Required) (e : r.text = r'.text) (hq : r.NoQuotes) : r'.NoQuotes := by
  have hc := congrArg (List.count '"') e
  cases r <;> cases r' <;> simp only [Required.text, Required.NoQuotes] at e hq hc ⊢
  · simp only [List.count_append, List.count_eq_zero.mpr hq.1, List.count_eq_zero.mpr hq.2.1,
      List.count_eq_zero.mpr hq.2.2] at hc
    rw [← List.count_eq_zero, ← List.count_eq_zero, ← List.count_eq_zero]
    omega
  · simp at e
  · simp at e
  · simp only [List.count_append, List.count_eq_zero.mpr hq.1, List.count_eq_zero.mpr hq.2] at hc
    rw [← List.count_eq_zero, ← List.count_eq_zero]
    omega

/-- **C42** It is enough that one of the two keys has no quotes in its members, as every genuine key: then no other
key, made up of whatever texts, has the same hash input. -/
theorem C42_honest_key (m m' : List (Str × Json)) (r r' : Required) (s : Str)
    (h : HasRequired m r) (h' : HasRequired m' r') (hq : r.NoQuotes)
    (hs : thumbprintInput (.obj m) = .ok s) (hs' : thumbprintInput (.obj m') = .ok s) : r = r' := by
  have e : r.text = r'.text := by
    rw [input_ok.mpr ⟨r, h, rfl⟩] at hs
    rw [input_ok.mpr ⟨r', h', rfl⟩] at hs'
    simp only [Except.ok.injEq] at hs hs'
    rw [hs, hs']
  have hq' := text_quotes r r' e hq
  refine C42_injective_partial m m' r r' s h h' ?_ ?_ hs hs'
  · cases r with
    | ec => exact ⟨hq.1, hq.2.1⟩
    | rsa => exact hq.1
  · cases r' with
    | ec => exact ⟨hq'.1, hq'.2.1⟩
    | rsa => exact hq'.1

/-- **C42** So the thumbprint of such a key is that of no key with other required members, unless the hash function
collides. -/
theorem C42_honest_key_binds (sha : Bytes → Bytes) (m m' : List (Str × Json)) (r r' : Required) (t : Bytes)
    (h : HasRequired m r) (h' : HasRequired m' r') (hq : r.NoQuotes)
    (ht : computeJwkThumbprint sha (.obj m) = .ok t) (ht' : computeJwkThumbprint sha (.obj m') = .ok t) :
    r = r' ∨ (r.text ≠ r'.text ∧
      sha (r.text.flatMap String.utf8EncodeChar) = sha (r'.text.flatMap String.utf8EncodeChar)) := by
  obtain ⟨r1, h1, e1⟩ := (C42_hashed sha m t).mp ht
  obtain ⟨r2, h2, e2⟩ := (C42_hashed sha m' t).mp ht'
  cases required_unique h h1
  cases required_unique h' h2
  by_cases e : r.text = r'.text
  · exact .inl (C42_honest_key m m' r r' r.text h h' hq (input_ok.mpr ⟨r, h, rfl⟩) (input_ok.mpr ⟨r', h', e⟩))
  · exact .inr ⟨e, e1.symm.trans e2⟩

/-- An elliptic curve key. -/
def ecKey (x y : Str) : List (Str × Json) :=
  [(c!"crv", .str c!"P-256"), (c!"kty", .str c!"EC"), (c!"x", .str x), (c!"y", .str y)]

/-- **C42** is false for texts with quotes: these keys differ in both coordinates but have the
same thumbprint, whatever the hash function. -/
theorem C42_collision (sha : Bytes → Bytes) :
    computeJwkThumbprint sha (.obj (ecKey c!"B\",\"y\":\"C" c!"D")) =
      computeJwkThumbprint sha (.obj (ecKey c!"B" c!"C\",\"y\":\"D")) := by
  have : thumbprintInput (.obj (ecKey c!"B\",\"y\":\"C" c!"D")) =
      thumbprintInput (.obj (ecKey c!"B" c!"C\",\"y\":\"D")) := by decide +kernel
  simp only [computeJwkThumbprint, this]

theorem plain_esc {s : Str} (h : Plain s) : s.flatMap jEsc = s := by
  induction s with
  | nil => rfl
  | cons c s ih =>
    have hc := h c (by simp)
    have h1 : jEsc c = [c] := by
      unfold jEsc
      rw [if_neg hc.1, if_neg hc.2.1, if_neg (by omega), if_neg (by omega), if_neg (by omega),
        if_neg (by omega), if_neg (by omega), if_neg (by omega)]
    rw [List.flatMap_cons, h1, ih (fun c hc => h c (List.mem_cons_of_mem _ hc))]
    rfl

/-- **C42** For members that need no escapes the hash input is the JSON text of the object of
the required members in lexicographic order (RFC 7638, section 3). -/
theorem C42_canonical_json (m : List (Str × Json)) (r : Required) (h : HasRequired m r)
    (hp : r.AllPlain) : thumbprintInput (.obj m) = .ok (jPrint r.json) := by
  rw [input_ok.mpr ⟨r, h, rfl⟩]
  cases r with
  | ec crv x y =>
    simp only [Required.AllPlain] at hp
    simp only [Required.text, Required.json, jPrint, jPrintM, jStr, plain_esc hp.1, plain_esc hp.2.1,
      plain_esc hp.2.2, Except.ok.injEq]
    simp [List.append_assoc, show (c!"crv").flatMap jEsc = c!"crv" by decide,
      show (c!"kty").flatMap jEsc = c!"kty" by decide, show (c!"EC").flatMap jEsc = c!"EC" by decide,
      show (c!"x").flatMap jEsc = c!"x" by decide, show (c!"y").flatMap jEsc = c!"y" by decide]
  | rsa e n =>
    simp only [Required.AllPlain] at hp
    simp only [Required.text, Required.json, jPrint, jPrintM, jStr, plain_esc hp.1, plain_esc hp.2,
      Except.ok.injEq]
    simp [List.append_assoc, show (c!"e").flatMap jEsc = c!"e" by decide,
      show (c!"kty").flatMap jEsc = c!"kty" by decide, show (c!"RSA").flatMap jEsc = c!"RSA" by decide,
      show (c!"n").flatMap jEsc = c!"n" by decide]

example : HasRequired encKey (.ec c!"P-256" c!"ex" c!"ey") ∧ HasRequired rsaKey (.rsa c!"AQAB" c!"nnn") ∧
    thumbprintInput (.obj encKey) =
      .ok c!"{\"crv\":\"P-256\",\"kty\":\"EC\",\"x\":\"ex\",\"y\":\"ey\"}" := by
  refine ⟨⟨rfl, rfl, rfl, rfl⟩, ⟨rfl, rfl, rfl⟩, by decide +kernel⟩

-- C42: no key has the hash input of this one, but keys with its coordinates
example (m : List (Str × Json)) (r : Required) (h : HasRequired m r)
    (hs : thumbprintInput (.obj m) = thumbprintInput (.obj encKey)) : r = .ec c!"P-256" c!"ex" c!"ey" := by
  have hr : HasRequired encKey (.ec c!"P-256" c!"ex" c!"ey") := ⟨rfl, rfl, rfl, rfl⟩
  have hi := input_ok.mpr ⟨_, hr, rfl⟩
  exact (C42_honest_key encKey m _ r _ hr h (by unfold Required.NoQuotes; decide) hi (hs.trans hi)).symm

/-! ## C41 -/

theorem thumb_step {sha : Bytes → Bytes} {k : List (Str × Json)} {ks : List (List (Str × Json))} :
    (ThumbKey k → ∃ t, computeJwkThumbprint sha (.obj k) = .ok t ∧
      findThumbprint sha (k :: ks) = some t) ∧
    (¬ ThumbKey k → findThumbprint sha (k :: ks) = findThumbprint sha ks) := by
  have huse : ForEncryption k ↔ (mget c!"use" k).bind Json.asStr? = some c!"enc" ∨
      (mget c!"use" k).bind Json.asStr? = none := by
    have h := @jwkStr_eq c!"use" c!"enc" k
    have h2 := @jwkStr_none c!"use" k
    unfold jwkStr at h h2
    rw [h, h2]
    unfold ForEncryption
    constructor
    · intro hf
      by_cases hs : ∃ s, Says k c!"use" s
      · obtain ⟨s, hs⟩ := hs; left; rw [← hf s hs]; exact hs
      · right; exact fun s hs' => hs ⟨s, hs'⟩
    · rintro (h | h) s hs
      · exact says_unique hs h
      · exact absurd hs (h s)
  have hdef := C42_defined_iff sha k
  constructor
  · rintro ⟨h1, h2⟩
    obtain ⟨t, ht⟩ := hdef.mpr h2
    refine ⟨t, ht, ?_⟩
    rcases huse.mp h1 with h | h <;> simp [findThumbprint, h, ht]
  · intro h
    by_cases h1 : ForEncryption k
    · have h2 : ¬ ∃ t, computeJwkThumbprint sha (.obj k) = .ok t :=
        fun ht => h ⟨h1, hdef.mp ht⟩
      cases hc : computeJwkThumbprint sha (.obj k) with
      | ok t => exact absurd ⟨t, hc⟩ h2
      | error e => rcases huse.mp h1 with h | h <;> simp [findThumbprint, h, hc]
    · have hn : ¬ ((mget c!"use" k).bind Json.asStr? = some c!"enc" ∨
          (mget c!"use" k).bind Json.asStr? = none) := fun hh => h1 (huse.mpr hh)
      rw [findThumbprint]
      cases hu : (mget c!"use" k).bind Json.asStr? with
      | none => exact absurd (.inr hu) hn
      | some u =>
        have : u ≠ c!"enc" := fun e => hn (.inl (by rw [hu, e]))
        simp [this]

theorem find_thumb {sha : Bytes → Bytes} {keys : List (List (Str × Json))} {t : Bytes} :
    findThumbprint sha keys = some t ↔
      ∃ key, FirstWith ThumbKey keys key ∧ computeJwkThumbprint sha (.obj key) = .ok t := by
  induction keys with
  | nil => simp [findThumbprint, firstWith_nil]
  | cons k ks ih =>
    simp only [firstWith_cons]
    obtain ⟨hs1, hs2⟩ := @thumb_step sha k ks
    by_cases h : ThumbKey k
    · obtain ⟨t', h1, h2⟩ := hs1 h
      rw [h2]
      simp only [Option.some.injEq, h, true_and, not_true_eq_false, false_and, or_false, exists_eq_left,
        h1, Except.ok.injEq]
    · rw [hs2 h, ih]; simp [h]

theorem find_thumb_none {sha : Bytes → Bytes} {keys : List (List (Str × Json))} :
    findThumbprint sha keys = none ↔ ∀ key ∈ keys, ¬ ThumbKey key := by
  constructor
  · intro h key hk ht
    obtain ⟨k, hf⟩ := firstWith_exists.mpr ⟨key, hk, ht⟩
    obtain ⟨b, a, h1, h2, h3⟩ := hf
    obtain ⟨t, hc⟩ := (C42_defined_iff sha k).mpr h2.2
    rw [find_thumb.mpr ⟨k, ⟨b, a, h1, h2, h3⟩, hc⟩] at h
    simp at h
  · intro h
    cases hf : findThumbprint sha keys with
    | none => rfl
    | some t =>
      obtain ⟨k, ⟨b, a, rfl, h2, -⟩, -⟩ := find_thumb.mp hf
      exact absurd h2 (h k (by simp))

/-- **C41** The thumbprint in the handover is that of the first key of the verifier which is for
encryption and has the required members of its type; it is absent if there is no such key. -/
theorem C41_thumbprint_of_first (sha : Bytes → Bytes) (a : RequestObject) (cm : UntypedObject)
    (keys : List (List (Str × Json))) (hcm : mget c!"client_metadata" a.inner = some (.obj cm))
    (hk : KeyList cm keys) :
    (∀ t, getEncryptionJwkThumbprint sha a = some t ↔
      ∃ key, FirstWith ThumbKey keys key ∧ computeJwkThumbprint sha (.obj key) = .ok t) ∧
    (getEncryptionJwkThumbprint sha a = none ↔ ∀ key ∈ keys, ¬ ThumbKey key) := by
  have h1 : a.clientMetadata = .ok ⟨cm⟩ := by
    have hg : UntypedObject.get ClientMetadata a.inner = some (.ok ⟨cm⟩) := by
      have hg' : mget (TypedParameter.key ClientMetadata) a.inner = some (.obj cm) := hcm
      simp only [UntypedObject.get, hg', TypedParameter.ofJson, objOfJson]
      rfl
    simp only [RequestObject.clientMetadata, hg]
  have h2 : parsingError (ClientMetadata.jwks ⟨cm⟩) = .ok ⟨keys⟩ :=
    parsingError_ok.mpr (jwks_iff.mpr hk)
  simp only [getEncryptionJwkThumbprint, h1, h2]
  exact ⟨fun t => find_thumb, find_thumb_none⟩

/-- **C41 (partial)** The thumbprint in the handover is that of the key the response is
encrypted to, if the announced keys that are candidates for the thumbprint are exactly those that
are suitable for the encryption (for instance if the verifier announces only one key for
encryption, and this is one for ECDH-ES on P-256). Missing, and false (see below): the same for
other key sets. -/
theorem C41_same_key_partial (sha : Bytes → Bytes) (jk : Josekit) (a : RequestObject)
    (t : VpToken) (s : Option State) (r : AuthorizationResponse) (cm : UntypedObject)
    (keys : List (List (Str × Json))) (hcm : mget c!"client_metadata" a.inner = some (.obj cm))
    (hk : KeyList cm keys) (hp : ∀ key ∈ keys, ProperKey key)
    (hsame : ∀ k ∈ keys, ThumbKey k ↔ SuitableKey k)
    (hb : buildEncryptedResponse jk a t s = .ok r) :
    ∃ key header payload jwe th, r = .jwt jwe ∧ jk.encrypt key header payload = .ok jwe ∧
      computeJwkThumbprint sha (.obj key) = .ok th ∧ getEncryptionJwkThumbprint sha a = some th := by
  have hkeys : ∀ cm' keys', mget c!"client_metadata" a.inner = some (.obj cm') → KeyList cm' keys' →
      keys' = keys := by
    intro cm' keys' h1 h2
    have : cm' = cm := by rw [hcm] at h1; simpa using h1.symm
    subst this
    have h3 := jwks_iff.mpr hk
    rw [jwks_iff.mpr h2] at h3
    simpa using h3
  obtain ⟨cm', keys', key, enc, jwe, h1, h2, h3, h4, h5, h6, h7, h8⟩ :=
    (C39_encrypted_response_iff jk a t s r (by
      intro cm' keys' key h1 h2 h3
      obtain ⟨b, af, h4, -⟩ := h3
      refine hp key ?_
      rw [← hkeys cm' keys' h1 h2, h4]; simp)).mp hb
  have := hkeys cm' keys' h1 h2
  subst this
  have hf : FirstWith ThumbKey keys' key := by
    obtain ⟨b, af, rfl, hs, hn⟩ := h3
    exact ⟨b, af, rfl, (hsame key (by simp)).mpr hs, fun k hkb ht =>
      hn k hkb ((hsame k (by simp [hkb])).mp ht)⟩
  obtain ⟨-, -, -, ht, -⟩ := id hf
  obtain ⟨th, hth⟩ := (C42_defined_iff sha key).mpr ht.2
  exact ⟨key, _, _, jwe, th, h8, h7, hth,
    ((C41_thumbprint_of_first sha a cm keys' hcm hk).1 th).mpr ⟨key, hf, hth⟩⟩

/-- **C41** Exactly when the handover commits to a key: the first candidate for the thumbprint has
the same hash as it. (In particular if it is that candidate.) -/
theorem C41_commits_iff (sha : Bytes → Bytes) (a : RequestObject) (cm : UntypedObject)
    (keys : List (List (Str × Json))) (hcm : mget c!"client_metadata" a.inner = some (.obj cm))
    (hk : KeyList cm keys) (key : List (Str × Json)) (r : Required) (hr : HasRequired key r) :
    (∃ t, computeJwkThumbprint sha (.obj key) = .ok t ∧ getEncryptionJwkThumbprint sha a = some t) ↔
      ∃ first r', FirstWith ThumbKey keys first ∧ HasRequired first r' ∧
        sha (r'.text.flatMap String.utf8EncodeChar) = sha (r.text.flatMap String.utf8EncodeChar) := by
  constructor
  · rintro ⟨t, hc, hg⟩
    obtain ⟨f, hf, ht⟩ := ((C41_thumbprint_of_first sha a cm keys hcm hk).1 t).mp hg
    obtain ⟨r', hr', e⟩ := (C42_hashed sha f _).mp ht
    obtain ⟨r2, hr2, e2⟩ := (C42_hashed sha key _).mp hc
    cases required_unique hr hr2
    exact ⟨f, r', hf, hr', e.symm.trans e2⟩
  · rintro ⟨f, r', hf, hr', e⟩
    exact ⟨_, (C42_hashed sha key _).mpr ⟨r, hr, rfl⟩,
      ((C41_thumbprint_of_first sha a cm keys hcm hk).1 _).mpr
        ⟨f, hf, (C42_hashed sha f _).mpr ⟨r', hr', e.symm⟩⟩⟩

-- one key for encryption and one for signatures
example : (∀ k ∈ [sigKey, encKey], ThumbKey k ↔ SuitableKey k) := by
  intro k hk
  simp only [List.mem_cons, List.not_mem_nil, or_false] at hk
  rcases hk with rfl | rfl
  · have h1 : ¬ ForEncryption sigKey := fun h => absurd (h c!"sig" rfl) (by decide)
    exact ⟨fun h => absurd h.1 h1, fun h => absurd h.2.2 h1⟩
  · have h1 : SuitableKey encKey := by rw [← suitable_iff]; decide
    exact ⟨fun _ => h1, fun _ => ⟨h1.2.2, .ec c!"P-256" c!"ex" c!"ey", rfl, rfl, rfl, rfl⟩⟩

example : getEncryptionJwkThumbprint id (jwtObject [sigKey, encKey] []) =
    some (utf8 c!"{\"crv\":\"P-256\",\"kty\":\"EC\",\"x\":\"ex\",\"y\":\"ey\"}") := by decide +kernel

/-- **C41** is false in general: this request is accepted by the wallet, the handover commits to
the RSA key (or to the key for another key agreement), the response is encrypted to the other
key. Stated with the hash input in place of the hash. -/
theorem C41_other_key_committed :
    ((AuthorizationRequest.validate (pickyWallet [c!"ECDH-ES"] [c!"A128GCM"])
        ⟨none, .direct (jwtSample [rsaKey, encKey] [c!"A128GCM"])⟩).2 =
        .ok (jwtObject [rsaKey, encKey] [c!"A128GCM"]) ∧
      computeJwkThumbprint id (.obj rsaKey) =
        .ok (utf8 c!"{\"e\":\"AQAB\",\"kty\":\"RSA\",\"n\":\"nnn\"}") ∧
      getEncryptionJwkThumbprint id (jwtObject [rsaKey, encKey] [c!"A128GCM"]) =
        some (utf8 c!"{\"e\":\"AQAB\",\"kty\":\"RSA\",\"n\":\"nnn\"}") ∧
      findEncryptionJwk toyJose [rsaKey, encKey] = .ok ⟨encKey, c!"ECDH-ES", some c!"k1"⟩) ∧
    (getEncryptionJwkThumbprint id (jwtObject [wrapKey, encKey] [c!"A128GCM"]) =
        some (utf8 c!"{\"crv\":\"P-256\",\"kty\":\"EC\",\"x\":\"wx\",\"y\":\"wy\"}") ∧
      findEncryptionJwk toyJose [wrapKey, encKey] = .ok ⟨encKey, c!"ECDH-ES", some c!"k1"⟩) := by
  decide +kernel

end Oid4vp
