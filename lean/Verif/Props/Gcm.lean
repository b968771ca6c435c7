import Verif.Lemmas.Gcm
import Verif.Props.EcdhEs

/-! # Galois/counter mode (C127) -/

set_option autoImplicit false

namespace Oid4vp

open Gcm Spec Spec.Gcm

/-! ## The hash -/

theorem blocksOf_spec (f : Nat) (b : Bytes) (h : b.length ≤ f) :
    (∀ x ∈ blocksOf f b, x.length = 16) ∧ FilledUp b (blocksOf f b).flatten := by
  induction f generalizing b with
  | zero =>
    have : b = [] := List.length_eq_zero_iff.1 (by omega)
    subst this
    exact ⟨by simp [blocksOf], 0, by decide, by simp [blocksOf], by simp [blocksOf]⟩
  | succ f ih =>
    rw [blocksOf]
    by_cases hb : b = []
    · subst hb
      exact ⟨by simp, 0, by decide, by simp, by simp⟩
    have hpos : 0 < b.length := List.length_pos_iff.2 hb
    rw [if_neg (by simpa using hb)]
    obtain ⟨h1, z, hz, h2, h3⟩ := ih (b.drop 16) (by rw [List.length_drop]; omega)
    have hl : (b.take 16 ++ List.replicate (16 - b.length) 0).length = 16 := by
      rw [List.length_append, List.length_take, List.length_replicate]; omega
    refine ⟨?_, ?_⟩
    · intro x hx
      rcases List.mem_cons.1 hx with rfl | hx
      · exact hl
      · exact h1 x hx
    · rw [List.flatten_cons]
      by_cases hs : b.length < 16
      · have hd : b.drop 16 = [] := List.drop_eq_nil_of_le (by omega)
        have hz0 : z = 0 := by
          rw [h2, hd, List.nil_append, List.length_replicate] at h3
          omega
        rw [h2, hd, hz0]
        refine ⟨16 - b.length, by omega, ?_, ?_⟩
        · rw [List.take_of_length_le (by omega)]; simp
        · rw [List.length_append, hl]; simp
      · refine ⟨z, hz, ?_, ?_⟩
        · rw [h2, Nat.sub_eq_zero_of_le (by omega), List.replicate_zero, List.append_nil, ← List.append_assoc,
            List.take_append_drop]
        · rw [List.length_append, hl]
          omega

theorem filledUp_unique {b p q : Bytes} (hp : FilledUp b p) (hq : FilledUp b q) : p = q := by
  obtain ⟨y, hy, rfl, h1⟩ := hp
  obtain ⟨z, hz, rfl, h2⟩ := hq
  rw [List.length_append, List.length_replicate] at h1 h2
  have : y = z := by omega
  rw [this]

theorem flatten_length {bs : List Bytes} (h : ∀ b ∈ bs, b.length = 16) : bs.flatten.length = 16 * bs.length := by
  induction bs with
  | nil => rfl
  | cons b bs ih =>
    rw [List.flatten_cons, List.length_append, h b (by simp), ih (fun x hx => h x (by simp [hx])), List.length_cons]
    omega

theorem block_flatten {bs : List Bytes} (h : ∀ b ∈ bs, b.length = 16) (i : Nat) (hi : i < bs.length) :
    block bs.flatten i = bs.getD i [] := by
  induction bs generalizing i with
  | nil => simp at hi
  | cons b bs ih =>
    have hb : b.length = 16 := h b (by simp)
    cases i with
    | zero => rw [block, List.flatten_cons, Nat.mul_zero, List.drop_zero, List.take_left' hb]; rfl
    | succ i =>
      rw [List.getD_cons_succ, ← ih (fun x hx => h x (by simp [hx])) i (by simpa using hi), block, block,
        List.flatten_cons, Nat.mul_succ, Nat.add_comm, ← List.drop_drop, List.drop_left' hb]

/-- **C127** The hash that is computed, and only it, is the one of SP 800-38D over the field of `2 ^ 128`
elements. -/
theorem C127_ghash_iff {h : Bytes} (hh : h.length = 16) {bs : List Bytes} (hb : ∀ b ∈ bs, b.length = 16) (y : Bytes) :
    IsGhash h bs.flatten y ↔ y = ofBits 16 (ghash (bits h) bs) := by
  have hbh : (bits h).length = 128 := by rw [bits_length, hh]
  obtain ⟨g1, g2⟩ := ghash_from (bits h) (List.replicate 128 false) hbh (by rw [List.length_replicate]) bs hb
  rw [lp_replicate, map_zero, zero_mul, zero_add] at g2
  have hn : bs.flatten.length / 16 = bs.length := by rw [flatten_length hb]; omega
  have hs : Gcm.φ (∑ i ∈ Finset.range (bs.flatten.length / 16),
      element (block bs.flatten i) * element h ^ (bs.flatten.length / 16 - i)) = Gcm.φ (lp (ghash (bits h) bs)) := by
    rw [ghash, g2, hn, map_sum]
    apply Finset.sum_congr rfl
    intro i hi
    rw [block_flatten hb i (Finset.mem_range.1 hi), map_mul, map_pow, element_eq hh]
  constructor
  · rintro ⟨hy, hd⟩
    have := φ_eq.2 hd
    rw [hs, element_eq hy] at this
    have e := lp_unique (by rw [bits_length, hy]) g1 this
    have e' := ofBits_bits y
    rw [hy, e] at e'
    exact e'.symm
  · rintro rfl
    refine ⟨ofBits_length _ _, φ_eq.1 ?_⟩
    rw [hs, element_eq (ofBits_length _ _), bits_ofBits (k := 16) (l := ghash (bits h) bs) g1]

/-! ## Counter mode -/

theorem ctr_length (e : Bytes → Fin 16 → UInt8) (iv : Bytes) (f n : Nat) (t : Bytes) (h : t.length ≤ f) :
    (ctr e iv f n t).length = t.length := by
  induction f generalizing n t with
  | zero => rw [ctr]; simp; omega
  | succ f ih =>
    rw [ctr]
    by_cases ht : t = []
    · subst ht; rfl
    have hpos : 0 < t.length := List.length_pos_iff.2 ht
    rw [if_neg (by simpa using ht), List.length_append, List.length_zipWith, List.length_take, List.length_ofFn,
      ih _ _ (by rw [List.length_drop]; omega), List.length_drop]
    omega

theorem ctr_getD (e : Bytes → Fin 16 → UInt8) (iv : Bytes) (f n : Nat) (t : Bytes) (h : t.length ≤ f) (i : Nat)
    (hi : i < t.length) :
    (ctr e iv f n t).getD i 0 = t.getD i 0 ^^^ e (iv ++ beBytes 4 (n + i / 16)) (Fin.ofNat 16 i) := by
  induction f generalizing n t i with
  | zero => omega
  | succ f ih =>
    have ht : t ≠ [] := by rintro rfl; simp at hi
    have hl : (List.zipWith (· ^^^ ·) (t.take 16) (List.ofFn (e (iv ++ beBytes 4 n)))).length = min 16 t.length := by
      rw [List.length_zipWith, List.length_take, List.length_ofFn]; omega
    rw [ctr, if_neg (by simpa using ht)]
    by_cases h16 : i < 16
    · rw [List.getD_append _ _ _ _ (by rw [hl]; omega), List.getD_eq_getElem _ _ (by rw [hl]; omega),
        List.getElem_zipWith, List.getElem_take, List.getElem_ofFn, List.getD_eq_getElem _ _ hi,
        Nat.div_eq_of_lt h16, Nat.add_zero]
      congr 2
      apply Fin.ext
      exact (Nat.mod_eq_of_lt h16).symm
    · rw [List.getD_append_right _ _ _ _ (by rw [hl]; omega), hl, Nat.min_eq_left (by omega),
        ih _ _ (by rw [List.length_drop]; omega) _ (by rw [List.length_drop]; omega)]
      have e1 : n + 1 + (i - 16) / 16 = n + i / 16 := by omega
      have e2 : Fin.ofNat 16 (i - 16) = Fin.ofNat 16 i := by
        apply Fin.ext
        show (i - 16) % 16 = i % 16
        omega
      rw [e1, e2]
      congr 1
      simp only [List.getD_eq_getElem?_getD, List.getElem?_drop]
      congr 2
      omega

theorem eq_of_getD {x y : Bytes} (hl : x.length = y.length) (h : ∀ i < x.length, x.getD i 0 = y.getD i 0) : x = y := by
  apply List.ext_getElem hl
  intro i h1 h2
  have := h i h1
  rwa [List.getD_eq_getElem _ _ h1, List.getD_eq_getElem _ _ h2] at this

/-! ## Encryption and decryption -/

theorem hashed_blocks (aad ct : Bytes) : ∀ b ∈ hashed aad ct, b.length = 16 := by
  intro b hb
  rw [hashed, List.mem_append, List.mem_append, List.mem_singleton] at hb
  rcases hb with hb | hb | rfl
  · exact (blocksOf_spec _ _ (le_refl _)).1 b hb
  · exact (blocksOf_spec _ _ (le_refl _)).1 b hb
  · rw [List.length_append, beBytes_length, beBytes_length]

theorem tag_iff (e : Bytes → Fin 16 → UInt8) (iv aad ct tag : Bytes) :
    (tag.length = 16 ∧ ∃ a c h s, FilledUp aad a ∧ FilledUp ct c ∧ (h = List.ofFn (e (List.replicate 16 0))) ∧
      IsGhash h (a ++ c ++ (Sha.bigEndian 8 (8 * aad.length) ++ Sha.bigEndian 8 (8 * ct.length))) s ∧
      ∀ i < 16, tag.getD i 0 = s.getD i 0 ^^^ e (iv ++ Sha.bigEndian 4 1) (Fin.ofNat 16 i)) ↔
    tag = tagOf e iv aad ct := by
  have hflat : (hashed aad ct).flatten = (blocksOf aad.length aad).flatten ++ (blocksOf ct.length ct).flatten ++
      (beBytes 8 (8 * aad.length) ++ beBytes 8 (8 * ct.length)) := by
    rw [hashed, List.flatten_append, List.flatten_append, List.append_assoc]; simp
  have hgl : (ghash (bits (List.ofFn (e (List.replicate 16 0)))) (hashed aad ct)).length = 128 :=
    (ghash_from _ _ (by rw [bits_length, List.length_ofFn]) (by rw [List.length_replicate]) _ (hashed_blocks aad ct)).1
  have htag : tagOf e iv aad ct = List.zipWith (· ^^^ ·)
      (ofBits 16 (ghash (bits (List.ofFn (e (List.replicate 16 0)))) (hashed aad ct)))
      (List.ofFn (e (iv ++ beBytes 4 1))) := by
    have := ofBits_bits (List.zipWith (· ^^^ ·)
      (ofBits 16 (ghash (bits (List.ofFn (e (List.replicate 16 0)))) (hashed aad ct)))
      (List.ofFn (e (iv ++ beBytes 4 1))))
    rw [bits_xor, bits_ofBits (k := 16) hgl, List.length_zipWith, ofBits_length, List.length_ofFn, Nat.min_self] at this
    exact this
  have hat : ∀ i < 16, (tagOf e iv aad ct).getD i 0 =
      (ofBits 16 (ghash (bits (List.ofFn (e (List.replicate 16 0)))) (hashed aad ct))).getD i 0 ^^^
        e (iv ++ beBytes 4 1) (Fin.ofNat 16 i) := by
    intro i hi
    rw [htag, List.getD_eq_getElem _ _ (by rw [List.length_zipWith, ofBits_length, List.length_ofFn]; omega),
      List.getElem_zipWith, List.getElem_ofFn, List.getD_eq_getElem _ _ (by rw [ofBits_length]; exact hi)]
    congr 2
    apply Fin.ext
    exact (Nat.mod_eq_of_lt hi).symm
  have htl : (tagOf e iv aad ct).length = 16 := ofBits_length _ _
  have hA := (blocksOf_spec aad.length aad (le_refl _)).2
  have hC := (blocksOf_spec ct.length ct (le_refl _)).2
  simp only [shaBytes_eq]
  constructor
  · rintro ⟨h1, a, c, h, s, ha, hc, rfl, hg, ht⟩
    rw [filledUp_unique ha hA, filledUp_unique hc hC, ← hflat,
      C127_ghash_iff (by rw [List.length_ofFn]) (hashed_blocks aad ct)] at hg
    subst hg
    apply eq_of_getD (by rw [h1, htl])
    intro i hi
    rw [h1] at hi
    rw [ht i hi, hat i hi]
  · rintro rfl
    refine ⟨htl, _, _, _, _, hA, hC, rfl, ?_, hat⟩
    rw [← hflat, C127_ghash_iff (by rw [List.length_ofFn]) (hashed_blocks aad ct)]

theorem isGcm_iff {enc : Str} : Gcm.isGcm enc = true ↔ enc ∈ gcmNames := by
  simp [Gcm.isGcm, gcmNames, or_assoc]

theorem gcm_iff (e : Bytes → Fin 16 → UInt8) (iv aad plain ct tag : Bytes) :
    IsGcm e iv aad plain ct tag ↔ iv.length = 12 ∧ ct = ctr e iv plain.length 2 plain ∧ tag = tagOf e iv aad ct := by
  rw [← tag_iff, IsGcm]
  have hc : (ct.length = plain.length ∧ ∀ i < plain.length,
      ct.getD i 0 = plain.getD i 0 ^^^ e (iv ++ Sha.bigEndian 4 (2 + i / 16)) (Fin.ofNat 16 i)) ↔
      ct = ctr e iv plain.length 2 plain := by
    constructor
    · rintro ⟨h1, h2⟩
      apply eq_of_getD (by rw [h1, ctr_length _ _ _ _ _ (le_refl _)])
      intro i hi
      rw [h1] at hi
      rw [h2 i hi, ctr_getD _ _ _ _ _ (le_refl _) i hi, shaBytes_eq]
    · rintro rfl
      refine ⟨ctr_length _ _ _ _ _ (le_refl _), fun i hi => ?_⟩
      rw [ctr_getD _ _ _ _ _ (le_refl _) i hi, shaBytes_eq]
  rw [← hc]
  exact ⟨fun ⟨h1, h2, h3, h4, h5⟩ => ⟨h1, ⟨h2, h4⟩, h3, h5⟩, fun ⟨h1, ⟨h2, h4⟩, h3, h5⟩ => ⟨h1, h2, h3, h4, h5⟩⟩

theorem ctr_twice (e : Bytes → Fin 16 → UInt8) (iv x y : Bytes) :
    y = ctr e iv x.length 2 x ↔ x = ctr e iv y.length 2 y := by
  have key : ∀ x y : Bytes, y = ctr e iv x.length 2 x → x = ctr e iv y.length 2 y := by
    rintro x y rfl
    have hl := ctr_length e iv x.length 2 x (le_refl _)
    apply eq_of_getD (by rw [ctr_length _ _ _ _ _ (le_refl _), hl])
    intro i hi
    rw [ctr_getD _ _ _ _ _ (le_refl _) i (by rw [hl]; exact hi), ctr_getD _ _ _ _ _ (le_refl _) i hi,
      UInt8.xor_assoc, UInt8.xor_self, UInt8.xor_zero]
  exact ⟨key x y, key y x⟩

/-- **C127** What is encrypted under a GCM name: exactly the text and the tag of SP 800-38D. -/
theorem C127_lock_iff (c : Cipher) (other : EcdhEs.Aead) {enc : Str} (he : enc ∈ gcmNames)
    (key iv aad plain ct tag : Bytes) :
    (Gcm.aead c other).lock enc key iv aad plain = .ok (ct, tag) ↔ IsGcm (c key) iv aad plain ct tag := by
  rw [gcm_iff]
  simp only [Gcm.aead, isGcm_iff.2 he, if_true]
  split
  · rename_i hiv
    simp only [Except.ok.injEq, Prod.mk.injEq]
    constructor
    · rintro ⟨rfl, rfl⟩; exact ⟨hiv, rfl, rfl⟩
    · rintro ⟨-, rfl, rfl⟩; exact ⟨rfl, rfl⟩
  · rename_i hiv
    simp [hiv]

/-- **C127** What is decrypted under a GCM name: exactly what encrypts to the text and the tag. Any other text
or tag, any other authenticated data is refused. -/
theorem C127_unlock_iff (c : Cipher) (other : EcdhEs.Aead) {enc : Str} (he : enc ∈ gcmNames)
    (key iv aad plain ct tag : Bytes) :
    (Gcm.aead c other).unlock enc key iv aad ct tag = .ok plain ↔ IsGcm (c key) iv aad plain ct tag := by
  rw [gcm_iff, ctr_twice]
  simp only [Gcm.aead, isGcm_iff.2 he, if_true]
  split
  · rename_i hiv
    split
    · rename_i ht
      simp only [Except.ok.injEq]
      constructor
      · rintro rfl; exact ⟨hiv, rfl, ht⟩
      · rintro ⟨-, rfl, -⟩; rfl
    · rename_i ht
      simp [ht]
  · rename_i hiv
    simp [hiv]

/-- AES with the key of zeros, at the blocks of the test cases. -/
def zeroKey : Cipher := fun _ b i =>
  let at' (l : List UInt8) := l.getD i.val 0
  if b = List.replicate 16 0 then
    at' [0x66, 0xe9, 0x4b, 0xd4, 0xef, 0x8a, 0x2c, 0x3b, 0x88, 0x4c, 0xfa, 0x59, 0xca, 0x34, 0x2b, 0x2e]
  else if b = List.replicate 15 0 ++ [1] then
    at' [0x58, 0xe2, 0xfc, 0xce, 0xfa, 0x7e, 0x30, 0x61, 0x36, 0x7f, 0x1d, 0x57, 0xa4, 0xe7, 0x45, 0x5a]
  else if b = List.replicate 15 0 ++ [2] then
    at' [0x03, 0x88, 0xda, 0xce, 0x60, 0xb6, 0xa3, 0x92, 0xf3, 0x28, 0xc2, 0xb9, 0x71, 0xb2, 0xfe, 0x78]
  else 0

/-- No other content encryptions. -/
def noOther : EcdhEs.Aead := ⟨fun _ _ _ _ _ => .error .parse, fun _ _ _ _ _ _ => .error .parse⟩

/- Test case 1 of the specification of GCM: no text, the key of zeros. -/
set_option maxRecDepth 100000 in
example : IsGcm (zeroKey []) (List.replicate 12 0) [] [] []
    [0x58, 0xe2, 0xfc, 0xce, 0xfa, 0x7e, 0x30, 0x61, 0x36, 0x7f, 0x1d, 0x57, 0xa4, 0xe7, 0x45, 0x5a] :=
  (C127_lock_iff zeroKey noOther (enc := c!"A128GCM") (by decide) [] _ _ _ _ _).1 (by rfl)

/- Test case 2: a block of zeros. -/
set_option maxRecDepth 100000 in
example : IsGcm (zeroKey []) (List.replicate 12 0) [] (List.replicate 16 0)
    [0x03, 0x88, 0xda, 0xce, 0x60, 0xb6, 0xa3, 0x92, 0xf3, 0x28, 0xc2, 0xb9, 0x71, 0xb2, 0xfe, 0x78]
    [0xab, 0x6e, 0x47, 0xd4, 0x2c, 0xec, 0x13, 0xbd, 0xf5, 0x3a, 0x67, 0xb2, 0x12, 0x57, 0xbd, 0xdf] :=
  (C127_lock_iff zeroKey noOther (enc := c!"A128GCM") (by decide) [] _ _ _ _ _).1 (by rfl)

/-- **C127** The content encryptions open what they lock, if those other than GCM do: what C126 takes for
granted, for every block cipher. -/
theorem C127_opens (c : Cipher) {other : EcdhEs.Aead} (ho : Opens other) : Opens (Gcm.aead c other) := by
  intro enc key iv aad plain ct tag h
  by_cases he : enc ∈ gcmNames
  · rw [C127_lock_iff c other he] at h
    exact (C127_unlock_iff c other he _ _ _ _ _ _).2 h
  · have hn : ¬ Gcm.isGcm enc = true := fun g => he (isGcm_iff.1 g)
    simp only [Gcm.aead, hn, Bool.false_eq_true, if_false] at h ⊢
    exact ho _ _ _ _ _ _ _ h

/-- **C127** With a vector of 96 bits, everything is encrypted. -/
theorem C127_locks (c : Cipher) (other : EcdhEs.Aead) {enc : Str} (he : enc ∈ gcmNames) (key aad plain : Bytes)
    {iv : Bytes} (hiv : iv.length = 12) : ∃ r, (Gcm.aead c other).lock enc key iv aad plain = .ok r := by
  simp only [Gcm.aead, isGcm_iff.2 he, if_true, hiv]
  exact ⟨_, rfl⟩

/-- **C127** The example verifier reads what the library encrypts to it (C126), for every block cipher: no
assumption about the content encryption is left. -/
theorem C127_key_works {d e : Nat} {Q E : CurvePoint} (hQ : KeyPair d Q) (hE : KeyPair e E) (c : Cipher)
    {other : EcdhEs.Aead} (ho : Opens other) {iv : Bytes} (hiv : iv.length = 12)
    {jwkOk : List (Str × Json) → Bool} {claimOk : Str → Json → Bool}
    (hok : jwkOk (VerifierApp.publishedJwk (EcdhEs.jwkFor d)) = true)
    (hclaims : ∀ j st, claimOk c!"vp_token" j = true ∧ claimOk c!"state" st = true) :
    KeyWorks (EcdhEs.generated (Gcm.aead c other) d) (EcdhEs.josekit jwkOk claimOk (Gcm.aead c other) e iv) :=
  C126_key_works hQ hE (C127_opens c ho)
    (fun ck aad plain _ => C127_locks c other (by decide) ck aad plain hiv) hok hclaims

/-- **C127** The whole encrypted flow between the two examples (C62), for every block cipher. -/
theorem C127_flow {d e : Nat} {Q E : CurvePoint} (hQ : KeyPair d Q) (hE : KeyPair e E) (c : Cipher)
    {other : EcdhEs.Aead} (ho : Opens other) {iv : Bytes} (hiv : iv.length = 12)
    {jwkOk : List (Str × Json) → Bool} {claimOk : Str → Json → Bool}
    (hok : jwkOk (VerifierApp.publishedJwk (EcdhEs.jwkFor d)) = true)
    (hclaims : ∀ j st, claimOk c!"vp_token" j = true ∧ claimOk c!"state" st = true)
    {p : VerifierApp.Pki} {rs : List Run} {draw : VerifierApp.Draw} {w : Bool} {u : Url} {host : Str}
    {app : VerifierApp.App} (hs : Started p rs draw w (EcdhEs.generated (Gcm.aead c other) d) u true host app)
    {nonce : Option Str} {uuid : Uuid} {drawn : Str} {σ σ' : Store} {sid auth st : Str}
    (h : VerifierApp.initiate app nonce uuid drawn σ = (σ', .ok (sid, auth, st)))
    {ad : Example.Adapter} {cr : Example.Credential} (hw : ReadyWallet ad cr)
    (hj : ad.jose = EcdhEs.josekit jwkOk claimOk (Gcm.aead c other) e iv)
    {prm : Example.Params} (hp : Refers u uuid sid σ' ad prm) {ord : MapOrder} :
    ∃ pres addr body jwe, Presents ad.holder (unwrapOr drawn nonce) (c!"x509_san_dns:" ++ host) cr.raw pres ∧
      SessionAddress u c!"response" uuid addr ∧
      posts (ad.process ord prm).1 = [⟨c!"POST", addr.print,
        [(c!"content-type", c!"application/x-www-form-urlencoded")], body⟩] ∧
      Carries body (.jwt jwe) ∧
      ∀ pre post, NoneDelivered uuid post → ∃ doc,
        VerifierApp.status sid (VerifierApp.serve app σ' (pre ++ .respond sid body :: post)) = (200, some doc) ∧
        ReportsEncrypted doc (pidContent pres prm.state) :=
  C126_flow hQ hE (C127_opens c ho) (fun ck aad plain _ => C127_locks c other (by decide) ck aad plain hiv) hok hclaims
    hs h hw hj hp

/-! ## Cases -/

theorem noOther_opens : Opens noOther := by
  intro enc key iv aad plain ct tag h
  cases h

/- A text of the wrong tag is refused. -/
set_option maxRecDepth 100000 in
example : (Gcm.aead zeroKey noOther).unlock c!"A256GCM" [] (List.replicate 12 0) [] []
    [0x59, 0xe2, 0xfc, 0xce, 0xfa, 0x7e, 0x30, 0x61, 0x36, 0x7f, 0x1d, 0x57, 0xa4, 0xe7, 0x45, 0x5a] = .error .decode := by
  decide +kernel

/- A vector of another length is refused. -/
example : (Gcm.aead zeroKey noOther).lock c!"A128GCM" [] [1, 2, 3] [] [] = .error .parse := by decide

/- A key that works, with secrets 3 and 5. -/
example : KeyWorks (EcdhEs.generated (Gcm.aead zeroKey noOther) 3)
    (EcdhEs.josekit (fun _ => true) (fun _ _ => true) (Gcm.aead zeroKey noOther) 5 (List.replicate 12 7)) :=
  C127_key_works (keyPair_small (d := 3) (by decide) (by decide +kernel))
    (keyPair_small (d := 5) (by decide) (by decide +kernel)) zeroKey noOther_opens (by decide) rfl (fun _ _ => ⟨rfl, rfl⟩)

/-- The wallet with GCM. -/
def gcmWallet (jwt : Str) : Example.Adapter :=
  { flowWallet jwt with
    jose := EcdhEs.josekit (fun _ => true) (fun _ _ => true) (Gcm.aead zeroKey noOther) 5 (List.replicate 12 7) }

/- The whole flow. -/
example (ord : MapOrder) : ∃ app σ sid auth st jwt body addr doc pres,
    Started cachePki [] (cacheDraw 9) true (EcdhEs.generated (Gcm.aead zeroKey noOther) 3) flowUrl true c!"a.b" app ∧
    VerifierApp.initiate app none (buildId 5) c!"drawn" [] = (σ, .ok (sid, auth, st)) ∧
    posts ((gcmWallet jwt).process ord (flowParams (buildId 5))).1 = [⟨c!"POST", addr,
      [(c!"content-type", c!"application/x-www-form-urlencoded")], body⟩] ∧
    VerifierApp.status sid (VerifierApp.serve app σ [.fetch sid, .respond sid body]) = (200, some doc) ∧
    ReportsEncrypted doc (pidContent pres (some c!"xyz")) := by
  obtain ⟨app, hs⟩ := ecStarted (EcdhEs.generated (Gcm.aead zeroKey noOther) 3)
  obtain ⟨⟨sid, auth, st⟩, h⟩ := C62_initiate_succeeds hs none (buildId 5) c!"drawn" []
  have h' : VerifierApp.initiate app none (buildId 5) c!"drawn" [] =
    ((VerifierApp.initiate app none (buildId 5) c!"drawn" []).1, .ok (sid, auth, st)) := by rw [← h]
  obtain ⟨s, -, -, -, -, -, -, -, -, hget⟩ := C62_initiate hs h'
  have hr := flowRefers hget
  have hw := flowReady s.jwt
  obtain ⟨pres, addr, body, jwe, hpres, -, h1, -, h2⟩ :=
    C127_flow (ord := ord) (keyPair_small (d := 3) (by decide) (by decide +kernel))
      (keyPair_small (d := 5) (by decide) (by decide +kernel)) zeroKey noOther_opens (iv := List.replicate 12 7)
      (by decide) (jwkOk := fun _ => true) (claimOk := fun _ _ => true) rfl (fun _ _ => ⟨rfl, rfl⟩) hs h'
      (ad := gcmWallet s.jwt) ⟨hw.consent, hw.pid, hw.clock, hw.header, hw.endpoint⟩ rfl
      ⟨hr.noRequest, hr.uri, hr.reached⟩
  obtain ⟨doc, h3, h4⟩ := h2 [.fetch sid] [] (by simp [NoneDelivered])
  exact ⟨app, _, sid, auth, st, s.jwt, body, _, doc, pres, hs, h', h1, h3, h4⟩

end Oid4vp
