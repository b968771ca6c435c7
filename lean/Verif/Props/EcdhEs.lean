import Verif.Spec.EcdhEs
import Verif.Props.P256Verifier
import Verif.Props.ExampleFlow

/-!
# C126: what is encrypted to the verifier's key is what the verifier reads
-/

set_option autoImplicit false

namespace Oid4vp

open Spec HolderKey EcdhEs

/-! ## Key agreement -/

theorem agree_iff {d : Nat} {Q E : CurvePoint} {q : P256.Pt} (hQ : KeyPair d Q) (hE : P256.Rep q E) (z : Bytes) :
    agree d q = some z ↔ Shared Q E z := by
  have hrep : P256.Rep (P256.mul d q) (d • E) := P256.mul_rep (order_lt hQ.2.1) hE
  rw [agree]
  revert hrep
  generalize P256.mul d q = r
  intro hrep
  constructor
  · intro h
    cases r with
    | inf => simp only [reduceCtorEq] at h
    | aff x y =>
      simp only [Option.some.injEq] at h
      have hc : HasCoordinates (d • E) x y := hrep
      have hb : beNat z = x := by rw [← h]; exact is256 (field_lt hc.1)
      have hl : z.length = 32 := by rw [← h]; exact beBytes_length 32 x
      exact ⟨d, x, y, hQ, hc, hl, hb⟩
  · rintro ⟨d', x, y, hd, hc, hl, hz⟩
    have e := C124_one_secret hd hQ
    subst e
    have : r = .aff x y := P256.Rep.unique hrep (q' := .aff x y) hc
    subst this
    subst hz
    simp only [Option.some.injEq]
    rw [← hl]; exact beBytes_beNat z

/-- The product of two secrets is no multiple of the order. -/
theorem product_ne_zero {d e : Nat} (hd : 1 ≤ d ∧ d < groupOrder) (he : 1 ≤ e ∧ e < groupOrder) :
    d • (e • P256.G) ≠ 0 := by
  intro h
  rw [smul_smul] at h
  have h1 : (d * e) % P256.n = 0 := by
    have : ((d * e) % P256.n) • P256.G = 0 • P256.G := by
      rw [zero_nsmul, ← h]
      exact P256.smul_congr (Nat.mod_mod _ _)
    exact P256.secret_unique (Nat.mod_lt _ (by decide +kernel)) (by decide +kernel) this
  rcases (Nat.Prime.dvd_mul P256.n_prime).1 (Nat.dvd_of_mod_eq_zero h1) with h2 | h2
  · have := Nat.le_of_dvd hd.1 h2
    rw [P256.n_eq] at this; omega
  · have := Nat.le_of_dvd he.1 h2
    rw [P256.n_eq] at this; omega

theorem coordinates_of_ne {P : CurvePoint} (h : P ≠ 0) {q : P256.Pt} (hq : P256.Rep q P) :
    ∃ x y, q = .aff x y ∧ HasCoordinates P x y := by
  cases q with
  | inf => exact absurd hq h
  | aff x y => exact ⟨x, y, rfl, hq⟩

/-- **C126** Two keys have exactly one shared secret, and both owners come to it. -/
theorem C126_shared {d e : Nat} {Q E : CurvePoint} (hQ : KeyPair d Q) (hE : KeyPair e E) :
    ∃ z, ∀ z', (Shared Q E z' ↔ z' = z) ∧ (Shared E Q z' ↔ z' = z) := by
  obtain ⟨hd1, hd2, G, hG, rfl⟩ := hQ
  obtain ⟨he1, he2, G', hG', rfl⟩ := hE
  cases P256.base_unique hG
  cases P256.base_unique hG'
  have hd : KeyPair d (d • P256.G) := ⟨hd1, hd2, _, hG, rfl⟩
  have he : KeyPair e (e • P256.G) := ⟨he1, he2, _, hG, rfl⟩
  have rd := P256.mul_rep (order_lt hd2) P256.base_rep
  have re := P256.mul_rep (order_lt he2) P256.base_rep
  have r1 := P256.mul_rep (order_lt hd2) re
  have r2 := P256.mul_rep (order_lt he2) rd
  have hcomm : e • d • P256.G = d • e • P256.G := smul_comm _ _ _
  rw [hcomm] at r2
  have hq := P256.Rep.unique r2 r1
  obtain ⟨x, y, hx, -⟩ := coordinates_of_ne (product_ne_zero ⟨hd1, hd2⟩ ⟨he1, he2⟩) r1
  refine ⟨beBytes 32 x, fun z' => ⟨?_, ?_⟩⟩
  · rw [← agree_iff hd re, agree, hx]
    simp only [Option.some.injEq, eq_comm]
  · rw [← agree_iff he rd, agree, hq, hx]
    simp only [Option.some.injEq, eq_comm]

/-! ## Key derivation -/

theorem shaBytes_eq (n x : Nat) : Sha.bigEndian n x = beBytes n x := by
  induction n generalizing x with
  | zero => rfl
  | succ n ih =>
    rw [Sha.bigEndian, beBytes, ih]
    congr 2
    apply UInt8.toNat_inj.1
    simp

theorem rounds_eq (msg : Bytes) : ∀ (fuel i : Nat), rounds msg fuel i =
    ((List.range fuel).map fun j => sha256 (beBytes 4 (j + i) ++ msg)).flatten
  | 0, _ => rfl
  | fuel + 1, i => by
    rw [rounds, rounds_eq msg fuel (i + 1), List.range_succ_eq_map, List.map_cons, List.flatten_cons, List.map_map]
    simp only [Nat.zero_add, Function.comp_def, Nat.succ_eq_add_one, Nat.add_assoc, Nat.add_comm 1 i]

/-- The bytes hashed after the number of the round. -/
theorem kdf_message (z : Bytes) (enc : Str) (apu apv : Bytes) (len i : Nat) :
    Sha.bigEndian 4 i ++ z ++ (lengthAnd (utf8 enc) ++ lengthAnd apu ++ lengthAnd apv ++ Sha.bigEndian 4 (8 * len)) =
      beBytes 4 i ++ (z ++ (counted (utf8 enc) ++ (counted apu ++ (counted apv ++ beBytes 4 (8 * len))))) := by
  simp only [lengthAnd, counted, shaBytes_eq, List.append_assoc]

/-- **C126** The derived key is the one of RFC 7518 §4.6.2. -/
theorem C126_kdf_iff (z : Bytes) (enc : Str) (apu apv : Bytes) (len : Nat) (key : Bytes) :
    DerivedKey z enc apu apv len key ↔ key = kdf z enc apu apv len := by
  rw [kdf, rounds_eq]
  generalize hf : (len + 31) / 32 = f
  constructor
  · rintro ⟨hs, h1, h2, rfl, h3⟩
    congr 2
    apply List.ext_getElem?
    intro i
    have hl : hs.length = f := by omega
    by_cases hi : i < f
    · rw [List.getElem?_map, List.getElem?_range hi]
      have h4 := h3 i hs[i] (List.getElem?_eq_getElem (by omega))
      rw [kdf_message, C94_is_sha256] at h4
      rw [List.getElem?_eq_getElem (by omega), h4]; rfl
    · rw [List.getElem?_eq_none (by omega), List.getElem?_eq_none (by simpa using hi)]
  · intro h
    refine ⟨_, ?_, ?_, h, ?_⟩
    · simp only [List.length_map, List.length_range]; omega
    · simp only [List.length_map, List.length_range]; omega
    · intro i h' hi
      rw [List.getElem?_map] at hi
      by_cases hlt : i < f
      · rw [List.getElem?_range hlt] at hi
        cases hi
        rw [kdf_message, C94_is_sha256]
      · rw [List.getElem?_eq_none (by simpa using hlt)] at hi
        cases hi

theorem keyLen_iff (enc : Str) (len : Nat) : keyLen enc = some len ↔ (enc, len) ∈ contentEncryptions := by
  simp only [contentEncryptions, List.mem_cons, Prod.mk.injEq, List.not_mem_nil, or_false]
  constructor
  · intro h
    rw [keyLen] at h
    split at h
    · rename_i he; cases h; simp [he]
    split at h
    · rename_i he; cases h; simp [he]
    split at h
    · rename_i he; cases h; simp [he]
    split at h
    · rename_i he; cases h; simp [he]
    split at h
    · rename_i he; cases h; simp [he]
    split at h
    · rename_i he; cases h; simp [he]
    · cases h
  · rintro (⟨rfl, rfl⟩ | ⟨rfl, rfl⟩ | ⟨rfl, rfl⟩ | ⟨rfl, rfl⟩ | ⟨rfl, rfl⟩ | ⟨rfl, rfl⟩) <;> rfl

theorem jwkStr_says {k s : Str} {m : List (Str × Json)} : jwkStr k m = some s ↔ Says m k s := by
  rw [jwkStr, Says]
  cases mget k m with
  | none => simp
  | some j => cases j <;> simp [Json.asStr?]

theorem party_iff (k : Str) (hd : List (Str × Json)) (b : Bytes) : party k hd = some b ↔ PartyInfo hd k b := by
  rw [party, PartyInfo]
  simp only [Says]
  cases mget k hd with
  | none => simp [eq_comm]
  | some j => cases j <;> simp

theorem readJwk_iff (m : List (Str × Json)) (q : P256.Pt) :
    readJwk m = some q ↔ ∃ Q, JwkOf Q m ∧ P256.Rep q Q := by
  constructor
  · intro h
    rw [readJwk] at h
    split at h
    · rename_i hk
      split at h
      · rename_i x y hx hy
        split at h
        · rename_i hc
          simp only [Option.some.injEq] at h
          obtain ⟨Q, hQ⟩ := onCurve_iff.1 hc.2.2
          obtain ⟨xs, hxs, hx⟩ := Option.bind_eq_some_iff.1 hx
          obtain ⟨ys, hys, hy⟩ := Option.bind_eq_some_iff.1 hy
          refine ⟨Q, ⟨jwkStr_says.1 hk.1, jwkStr_says.1 hk.2, x, y, hc.1, hc.2.1, ?_, ?_, hQ⟩, ?_⟩
          · rw [b64Enc_b64Dec hx]; exact jwkStr_says.1 hxs
          · rw [b64Enc_b64Dec hy]; exact jwkStr_says.1 hys
          · rw [← h]; exact hQ
        · cases h
      · cases h
    · cases h
  · rintro ⟨Q, ⟨h1, h2, x, y, hx, hy, h3, h4, hQ⟩, hr⟩
    have e : q = .aff (beNat x) (beNat y) := P256.Rep.unique hr (q' := .aff (beNat x) (beNat y)) hQ
    rw [readJwk, if_pos ⟨jwkStr_says.2 h1, jwkStr_says.2 h2⟩, jwkStr_says.2 h3, jwkStr_says.2 h4]
    simp only [Option.bind_some, b64Dec_b64Enc]
    rw [if_pos ⟨hx, hy, onCurve_iff.2 ⟨Q, hQ⟩⟩, e]

/-! ## Reading a JWE -/

theorem contentKey_iff {hd : List (Str × Json)} {enc : Str} {z ck : Bytes} : contentKey hd enc z = some ck ↔
    ∃ len apu apv, (enc, len) ∈ contentEncryptions ∧ PartyInfo hd c!"apu" apu ∧ PartyInfo hd c!"apv" apv ∧
      DerivedKey z enc apu apv len ck := by
  simp only [← keyLen_iff, ← party_iff, C126_kdf_iff]
  rw [contentKey]
  cases keyLen enc <;> cases party c!"apu" hd <;> cases party c!"apv" hd <;> simp [eq_comm]

theorem unwrap_iff {d : Nat} {Q : CurvePoint} (hQ : KeyPair d Q) (a : Aead) (kid : Option Str) (h : Str)
    (hd : List (Str × Json)) (iv ct tag plain : Bytes) :
    unwrap a kid d h hd iv ct tag = .ok plain ↔ ∃ enc key, Says hd c!"alg" c!"ECDH-ES" ∧
      (∀ k, kid = some k → Says hd c!"kid" k) ∧ mget c!"zip" hd = none ∧ mget c!"crit" hd = none ∧
      ContentKey Q hd enc key ∧ a.unlock enc key iv (utf8 h) ct tag = .ok plain := by
  have hkid : (kid = none ∨ jwkStr c!"kid" hd = kid) ↔ ∀ k, kid = some k → Says hd c!"kid" k := by
    cases kid with
    | none => simp
    | some k => simp [jwkStr_says]
  rw [unwrap]
  constructor
  · intro g
    split at g
    · rename_i hc
      split at g
      · rename_i epk hepk
        split at g
        · cases g
        rename_i q hq
        split at g
        · cases g
        rename_i enc henc
        split at g
        · cases g
        rename_i z hz
        split at g
        · cases g
        rename_i ck hck
        obtain ⟨E, hE, hrep⟩ := (readJwk_iff _ _).1 hq
        obtain ⟨len, apu, apv, h1, h2, h3, h4⟩ := contentKey_iff.1 hck
        exact ⟨enc, ck, jwkStr_says.1 hc.1, hkid.1 hc.2.1, hc.2.2.1, hc.2.2.2,
          ⟨epk, E, z, len, apu, apv, hepk, hE, (agree_iff hQ hrep z).1 hz, jwkStr_says.1 henc, h1, h2, h3, h4⟩, g⟩
      · cases g
    · cases g
  · rintro ⟨enc, key, h1, h2, h3, h4, ⟨epk, E, z, len, apu, apv, hepk, hE, hz, henc, h5, h6, h7, h8⟩, g⟩
    have hrep : ∃ q, P256.Rep q E := by
      obtain ⟨-, -, x, y, -, -, -, -, hc⟩ := hE
      exact ⟨.aff (beNat x) (beNat y), hc⟩
    obtain ⟨q, hrep⟩ := hrep
    rw [if_pos ⟨jwkStr_says.2 h1, hkid.2 h2, h3, h4⟩, hepk]
    simp only
    rw [(readJwk_iff _ _).2 ⟨E, hE, hrep⟩]
    simp only
    rw [jwkStr_says.2 henc]
    simp only
    rw [(agree_iff hQ hrep z).2 hz]
    simp only
    rw [contentKey_iff.2 ⟨len, apu, apv, h5, h6, h7, h8⟩]
    exact g

theorem jParseBytes_ok {b : Bytes} {j : Json} : jParseBytes b = .ok j ↔ ∃ t, b = utf8 t ∧ jParse t = .ok j := by
  rw [jParseBytes]
  constructor
  · intro h
    cases hu : utf8Dec b with
    | none => rw [hu] at h; cases h
    | some t => rw [hu] at h; exact ⟨t, utf8Dec_eq_some.1 hu, h⟩
  · rintro ⟨t, rfl, h⟩
    rw [utf8Dec_utf8]; exact h

theorem compact_text (p i c t : Str) : p ++ c!".." ++ i ++ c!"." ++ c ++ c!"." ++ t =
    joinWith '.' [p, [], i, c, t] := by
  simp [joinWith]

/-- **C126** Decryption with the secret of a key gives exactly what the JWE says to the owner of the key: five
parts, the second empty, a header with `alg` ECDH-ES, the key's `kid` if it has one, and a point of the curve
as `epk`, and the content key derived from the shared secret. -/
theorem C126_decrypt_iff {d : Nat} {Q : CurvePoint} (hQ : KeyPair d Q) (a : Aead) (kid : Option Str) (jwe : Str)
    (plain : Bytes) : decrypt a kid d jwe = .ok plain ↔ SaysTo a Q kid jwe plain := by
  constructor
  · intro h
    rw [decrypt] at h
    split at h
    · rename_i p i c t hs
      split at h
      · rename_i hb iv ct tag h1 h2 h3 h4
        split at h
        · rename_i hd hj
          obtain ⟨text, rfl, hj'⟩ := jParseBytes_ok.1 hj
          obtain ⟨enc, key, g⟩ := (unwrap_iff hQ a kid p hd iv ct tag plain).1 h
          refine ⟨p, hd, iv, ct, tag, enc, key, ⟨text, ?_, (b64Enc_b64Dec h1).symm, hj'⟩, g⟩
          rw [compact_text, b64Enc_b64Dec h2, b64Enc_b64Dec h3, b64Enc_b64Dec h4, ← hs]
          exact (joinWith_splitOn '.' jwe).symm
        · cases h
      · cases h
    · cases h
  · rintro ⟨p, hd, iv, ct, tag, enc, key, ⟨text, rfl, rfl, hj⟩, g⟩
    have hs : splitOn '.' (joinWith '.' [b64Enc .url (utf8 text), [], b64Enc .url iv, b64Enc .url ct, b64Enc .url tag]) =
        [b64Enc .url (utf8 text), [], b64Enc .url iv, b64Enc .url ct, b64Enc .url tag] := by
      apply splitOn_joinWith (by simp)
      intro x hx
      simp only [List.mem_cons, List.not_mem_nil, or_false] at hx
      rcases hx with rfl | rfl | rfl | rfl | rfl
      · exact b64Enc_no_dot _ _
      · simp
      · exact b64Enc_no_dot _ _
      · exact b64Enc_no_dot _ _
      · exact b64Enc_no_dot _ _
    rw [decrypt, compact_text, hs]
    simp only [b64Dec_b64Enc]
    rw [jParseBytes_ok.2 ⟨text, rfl, hj⟩]
    exact (unwrap_iff hQ a kid _ hd iv ct tag plain).2 ⟨enc, key, g⟩

/-! ## Writing a JWE -/

theorem jwkFor_of {d : Nat} {Q : CurvePoint} (hQ : KeyPair d Q) : JwkOf Q (jwkFor d) := by
  obtain ⟨-, -, x, y, h1, h2, h3, h4, h5⟩ := coordinates_jwk hQ
  exact ⟨rfl, rfl, x, y, h1, h2, h3, h4, h5⟩

/-- The header with the one-time key in its place. -/
theorem withEpk_eq (enc : Str) (kid : Option Str) (k : List (Str × Json)) :
    mset c!"epk" (.obj k) (encHeader enc kid) =
      [(c!"alg", .str c!"ECDH-ES"), (c!"enc", .str enc), (c!"epk", .obj k)] ++
        kid.toList.map (fun k => (c!"kid", .str k)) ++ [(c!"typ", .str c!"JWT")] := by
  cases kid <;> rfl

theorem withEpk_fine (enc : Str) (kid : Option Str) (d : Nat) :
    Fine 100 (.obj (mset c!"epk" (.obj (jwkFor d)) (encHeader enc kid))) := by
  have hk : Fine 99 (.obj (jwkFor d)) :=
    fine_mset (k := c!"crv") (fine_mset (k := c!"kty") (fine_mset (k := c!"x") (fine_mset (k := c!"y") (m := [])
      (fine_nil 98) (fine_str _ _)) (fine_str _ _)) (fine_str _ _)) (fine_str _ _)
  refine fine_mset ?_ hk
  cases kid with
  | none =>
    exact fine_mset (k := c!"alg") (fine_mset (k := c!"enc") (fine_mset (k := c!"typ") (m := [])
      (fine_nil 99) (fine_str _ _)) (fine_str _ _)) (fine_str _ _)
  | some k =>
    exact fine_mset (k := c!"alg") (fine_mset (k := c!"enc") (fine_mset (k := c!"kid") (fine_mset (k := c!"typ")
      (m := []) (fine_nil 99) (fine_str _ _)) (fine_str _ _)) (fine_str _ _)) (fine_str _ _)

/-- **C126** What the wallet encrypts to a key, with any one-time secret and initialization vector, is what
the owner of the key reads, whether or not they insist on the `kid`. -/
theorem C126_reads {d e : Nat} {Q E : CurvePoint} (hQ : KeyPair d Q) (hE : KeyPair e E) {a : Aead} (ha : Opens a)
    {key : List (Str × Json)} (hkey : JwkOf Q key) {iv : Bytes} {enc : Str} {kid : Option Str}
    {payload : List (Str × Json)} {jwe : Str} (h : encrypt a e iv key (encHeader enc kid) payload = .ok jwe)
    {own : Option Str} (hown : own = none ∨ own = kid) :
    decrypt a own d jwe = .ok (utf8 (jPrint (.obj payload))) := by
  rw [C126_decrypt_iff hQ]
  have henc : jwkStr c!"enc" (encHeader enc kid) = some enc := by cases kid <;> rfl
  rw [encrypt, henc] at h
  split at h
  · cases h
  rename_i q hq
  obtain ⟨Q', hQ', hrep⟩ := (readJwk_iff _ _).1 hq
  have hqq : P256.Rep q Q := by
    obtain ⟨-, -, x, y, hx, hy, h1, h2, hc⟩ := hkey
    obtain ⟨-, -, x', y', hx', hy', h1', h2', hc'⟩ := hQ'
    rw [h1] at h1'; rw [h2] at h2'
    have ex := b64Enc_inj (Json.str.inj (Option.some.inj h1'))
    have ey := b64Enc_inj (Json.str.inj (Option.some.inj h2'))
    rw [← ex, ← ey] at hc'
    have := P256.Rep.unique hrep (q' := .aff (beNat x) (beNat y)) hc'
    rw [this]; exact hc
  simp only at h
  split at h
  · cases h
  rename_i z hz
  split at h
  · cases h
  rename_i ck hck
  split at h
  · cases h
  rename_i ct tag hl
  simp only [Except.ok.injEq] at h
  have hfine := withEpk_fine enc kid e
  obtain ⟨z0, hz0⟩ := C126_shared hQ hE
  have hzE := (agree_iff hE hqq z).1 hz
  have hzQ : Shared Q E z := ((hz0 z).1).2 (((hz0 z).2).1 hzE)
  obtain ⟨len, apu, apv, c1, c2, c3, c4⟩ := contentKey_iff.1 hck
  have hm : ∀ k, k ≠ c!"epk" → mget k (mset c!"epk" (.obj (jwkFor e)) (encHeader enc kid)) =
      mget k (encHeader enc kid) := fun k hk => mget_mset_ne hk _ _
  have hp : ∀ k b, k ≠ c!"epk" → PartyInfo (encHeader enc kid) k b →
      PartyInfo (mset c!"epk" (.obj (jwkFor e)) (encHeader enc kid)) k b := by
    intro k b hk hb
    simp only [PartyInfo, Says, hm k hk]; exact hb
  refine ⟨_, _, iv, ct, tag, enc, ck, ⟨_, ?_, rfl, jParse_jPrint (Nat.le_trans hfine.2 (by decide)) hfine.1⟩,
    ?_, ?_, ?_, ?_, ⟨jwkFor e, E, z, len, apu, apv, mget_mset_self _ _ _, jwkFor_of hE, hzQ, ?_, c1,
      hp _ _ (by decide) c2, hp _ _ (by decide) c3, c4⟩, ha _ _ _ _ _ _ _ hl⟩
  · rw [compact_text]; exact h.symm
  · rw [Says, hm _ (by decide)]; cases kid <;> rfl
  · intro k hk
    rcases hown with ho | ho
    · rw [ho] at hk; cases hk
    · rw [Says, hm _ (by decide), ← ho, hk]; rfl
  · rw [hm _ (by decide)]; cases kid <;> rfl
  · rw [hm _ (by decide)]; cases kid <;> rfl
  · rw [Says, hm _ (by decide)]; cases kid <;> rfl

/-- **C126** It is encrypted whenever the content encryption is a known one that takes the key. -/
theorem C126_encrypts {d e : Nat} {Q E : CurvePoint} (hQ : KeyPair d Q) (hE : KeyPair e E) {a : Aead} {enc : Str}
    {len : Nat} (henc : (enc, len) ∈ contentEncryptions) {iv : Bytes}
    (hl : ∀ ck aad plain, ck.length = len → ∃ r, a.lock enc ck iv aad plain = .ok r)
    {key : List (Str × Json)} (hkey : JwkOf Q key) (kid : Option Str) (payload : List (Str × Json)) :
    ∃ jwe, encrypt a e iv key (encHeader enc kid) payload = .ok jwe := by
  have hrep : ∃ q, P256.Rep q Q := by
    obtain ⟨-, -, x, y, -, -, -, -, hc⟩ := hkey
    exact ⟨.aff (beNat x) (beNat y), hc⟩
  obtain ⟨q, hrep⟩ := hrep
  obtain ⟨z, hz⟩ := C126_shared hQ hE
  have hz' := (agree_iff hE hrep z).2 (((hz z).2).2 rfl)
  have he : jwkStr c!"enc" (encHeader enc kid) = some enc := by cases kid <;> rfl
  have hk : contentKey (encHeader enc kid) enc z = some (kdf z enc [] [] len) :=
    contentKey_iff.2 ⟨len, [], [], henc, .inl ⟨by cases kid <;> rfl, rfl⟩, .inl ⟨by cases kid <;> rfl, rfl⟩,
      (C126_kdf_iff _ _ _ _ _ _).2 rfl⟩
  have hlen : (kdf z enc [] [] len).length = len := by
    obtain ⟨hs, h1, h2, h3, h4⟩ := (C126_kdf_iff z enc [] [] len _).2 rfl
    have h5 : ∀ h ∈ hs, h.length = 32 := by
      intro h hh
      obtain ⟨i, hi⟩ := List.mem_iff_getElem?.1 hh
      have := h4 i h hi
      rw [C94_is_sha256] at this
      rw [this]; exact C94_length _
    have h6 : hs.flatten.length = 32 * hs.length := by
      clear h1 h2 h3 h4 hz hz' hk
      induction hs with
      | nil => rfl
      | cons x l ih =>
        rw [List.flatten_cons, List.length_append, h5 x (by simp), ih (fun y hy => h5 y (by simp [hy])),
          List.length_cons]
        omega
    rw [h3, List.length_take, h6]; omega
  obtain ⟨⟨ct, tag⟩, hr⟩ := hl (kdf z enc [] [] len) (utf8 (b64Enc .url (utf8 (jPrint (.obj
    (mset c!"epk" (.obj (jwkFor e)) (encHeader enc kid))))))) (utf8 (jPrint (.obj payload))) hlen
  rw [encrypt, (readJwk_iff _ _).2 ⟨Q, hkey, hrep⟩]
  simp only
  rw [he]
  simp only
  rw [hz']
  simp only
  rw [hk]
  simp only
  rw [hr]
  exact ⟨_, rfl⟩

/-! ## The example verifier -/

theorem published_of {d : Nat} {Q : CurvePoint} (hQ : KeyPair d Q) :
    JwkOf Q (VerifierApp.publishedJwk (jwkFor d)) := by
  obtain ⟨-, -, x, y, h1, h2, h3, h4, h5⟩ := jwkFor_of hQ
  exact ⟨rfl, rfl, x, y, h1, h2, h3, h4, h5⟩

/-- **C126** A generated key of the example verifier works: what is assumed of it in C62, C120 and C122
follows from its being a key pair, for every one-time secret and initialization vector of the wallet, if
the content encryption A128GCM takes keys of 16 bytes and opens what it closes, and the JOSE library accepts
the published key and the claims. -/
theorem C126_key_works {d e : Nat} {Q E : CurvePoint} (hQ : KeyPair d Q) (hE : KeyPair e E) {a : Aead}
    (ha : Opens a) {iv : Bytes}
    (hl : ∀ ck aad plain, ck.length = 16 → ∃ r, a.lock c!"A128GCM" ck iv aad plain = .ok r)
    {jwkOk : List (Str × Json) → Bool} {claimOk : Str → Json → Bool}
    (hok : jwkOk (VerifierApp.publishedJwk (jwkFor d)) = true)
    (hclaims : ∀ j st, claimOk c!"vp_token" j = true ∧ claimOk c!"state" st = true) :
    KeyWorks (generated a d) (josekit jwkOk claimOk a e iv) where
  proper := by
    have hk : Fine 100 (.obj (jwkFor d)) :=
      fine_mset (k := c!"crv") (fine_mset (k := c!"kty") (fine_mset (k := c!"x") (fine_mset (k := c!"y") (m := [])
        (fine_nil 99) (fine_str _ _)) (fine_str _ _)) (fine_str _ _)) (fine_str _ _)
    exact hk
  curve := rfl
  accepted := hok
  claims := hclaims
  works := by
    intro m
    obtain ⟨jwe, h⟩ := C126_encrypts hQ hE (a := a) (enc := c!"A128GCM") (len := 16) (by decide) hl (published_of hQ)
      (some c!"enc-key-1") m
    exact ⟨jwe, h, C126_reads hQ hE ha (published_of hQ) h (.inr rfl)⟩

/-- **C126** Whatever request names the example verifier's key first among the suitable ones: the encrypted
response the library builds for it is read by the example verifier, which reports exactly the token and the
state. -/
theorem C126_answer {d e : Nat} {Q E : CurvePoint} (hQ : KeyPair d Q) (hE : KeyPair e E) {a : Aead}
    (ha : Opens a) {iv : Bytes} {jwkOk : List (Str × Json) → Bool} {claimOk : Str → Json → Bool}
    {req : RequestObject} {t : VpToken} {s : Option State} {r : AuthorizationResponse}
    (hk : ∀ cm keys key, mget c!"client_metadata" req.inner = some (.obj cm) → KeyList cm keys →
      FirstWith SuitableKey keys key → key = VerifierApp.publishedJwk (jwkFor d))
    (hp : (Json.obj (encPayload t.toJson (s.map State.val))).WF FltLit ∧
      (Json.obj (encPayload t.toJson (s.map State.val))).depth ≤ 127)
    (h : buildEncryptedResponse (josekit jwkOk claimOk a e iv) req t s = .ok r) :
    ∃ jwe, r = .jwt jwe ∧ (generated a d).decrypt jwe = .ok (utf8 (jPrint (.obj (encPayload t.toJson (s.map State.val))))) ∧
      ∀ session, VerifierApp.validator (generated a d).decrypt session r =
        .success (.obj [(c!"decrypted_payload", .obj (encPayload t.toJson (s.map State.val))),
          (c!"message", .str c!"JARM response decrypted and verified")]) := by
  have hfine : Fine 100 (.obj (VerifierApp.publishedJwk (jwkFor d))) :=
    publishedJwk_fine (n := 99) (fine_mset (k := c!"crv") (fine_mset (k := c!"kty") (fine_mset (k := c!"x")
      (fine_mset (k := c!"y") (m := []) (fine_nil 99) (fine_str _ _)) (fine_str _ _)) (fine_str _ _)) (fine_str _ _))
  obtain ⟨cm, keys, key, enc, jwe, h1, h2, h3, -, -, -, h7, rfl⟩ := (C39_encrypted_response_iff _ req t s r (by
    intro cm keys key g1 g2 g3
    rw [hk cm keys key g1 g2 g3]
    exact ⟨hfine.1, Nat.le_trans hfine.2 (by decide)⟩)).1 h
  have hkey := hk cm keys key h1 h2 h3
  subst hkey
  have hd : (generated a d).decrypt jwe = .ok (utf8 (jPrint (.obj (encPayload t.toJson (s.map State.val))))) :=
    C126_reads hQ hE ha (published_of hQ) h7 (.inr (by
      rw [kidOf, VerifierApp.publishedJwk, mget_mset_self]))
  refine ⟨jwe, rfl, hd, fun session => ?_⟩
  simp only [VerifierApp.validator, VerifierApp.decryptJwe, hd]
  rw [jParseBytes_jPrint hp.2 hp.1]

/-- **C126** The whole flow of C62 with the arithmetic in place: whatever secret the example verifier drew,
and whatever one-time secret and initialization vector the wallet draws, the verifier reports exactly what
the wallet encrypted. -/
theorem C126_flow {d e : Nat} {Q E : CurvePoint} (hQ : KeyPair d Q) (hE : KeyPair e E) {a : Aead}
    (ha : Opens a) {iv : Bytes}
    (hl : ∀ ck aad plain, ck.length = 16 → ∃ r, a.lock c!"A128GCM" ck iv aad plain = .ok r)
    {jwkOk : List (Str × Json) → Bool} {claimOk : Str → Json → Bool}
    (hok : jwkOk (VerifierApp.publishedJwk (jwkFor d)) = true)
    (hclaims : ∀ j st, claimOk c!"vp_token" j = true ∧ claimOk c!"state" st = true)
    {p : VerifierApp.Pki} {rs : List Run} {draw : VerifierApp.Draw} {w : Bool} {u : Url} {host : Str}
    {app : VerifierApp.App} (hs : Started p rs draw w (generated a d) u true host app)
    {nonce : Option Str} {uuid : Uuid} {drawn : Str} {σ σ' : Store} {sid auth st : Str}
    (h : VerifierApp.initiate app nonce uuid drawn σ = (σ', .ok (sid, auth, st)))
    {ad : Example.Adapter} {c : Example.Credential} (hw : ReadyWallet ad c)
    (hj : ad.jose = josekit jwkOk claimOk a e iv)
    {prm : Example.Params} (hp : Refers u uuid sid σ' ad prm) {ord : MapOrder} :
    ∃ pres addr body jwe, Presents ad.holder (unwrapOr drawn nonce) (c!"x509_san_dns:" ++ host) c.raw pres ∧
      SessionAddress u c!"response" uuid addr ∧
      posts (ad.process ord prm).1 = [⟨c!"POST", addr.print,
        [(c!"content-type", c!"application/x-www-form-urlencoded")], body⟩] ∧
      Carries body (.jwt jwe) ∧
      ∀ pre post, NoneDelivered uuid post → ∃ doc,
        VerifierApp.status sid (VerifierApp.serve app σ' (pre ++ .respond sid body :: post)) = (200, some doc) ∧
        ReportsEncrypted doc (pidContent pres prm.state) :=
  C62_encrypted hs h hw (by rw [hj]; exact C126_key_works hQ hE ha hl hok hclaims) hp

/-! ## Cases -/

/-- A content encryption that leaves the text as it is and hashes it with the key. -/
def openAead : Aead where
  lock _ ck iv aad plain := .ok (plain, sha256 (ck ++ iv ++ aad ++ plain))
  unlock _ ck iv aad ct tag := if tag = sha256 (ck ++ iv ++ aad ++ ct) then .ok ct else .error .decode

theorem openAead_opens : Opens openAead := by
  intro enc key iv aad plain ct tag h
  simp only [openAead, Except.ok.injEq, Prod.mk.injEq] at h
  obtain ⟨rfl, rfl⟩ := h
  simp [openAead]

theorem keyPair_small {d : Nat} (h1 : 1 ≤ d) (h2 : d < P256.n) : KeyPair d (d • P256.G) :=
  ⟨h1, by rw [← P256.n_eq]; exact h2, P256.G, P256.G_base, rfl⟩

/-- Both sides of an agreement, with different secrets. -/
example : ∃ z, Shared (3 • P256.G) (5 • P256.G) z ∧ Shared (5 • P256.G) (3 • P256.G) z := by
  obtain ⟨z, hz⟩ := C126_shared (keyPair_small (d := 3) (by decide) (by decide +kernel))
    (keyPair_small (d := 5) (by decide) (by decide +kernel))
  exact ⟨z, (hz z).1.2 rfl, (hz z).2.2 rfl⟩

/-- A response to the verifier. -/
example : ∃ jwe, encrypt openAead 5 [1, 2, 3] (VerifierApp.publishedJwk (jwkFor 3))
      (encHeader c!"A256GCM" (some c!"enc-key-1")) [(c!"vp_token", .obj [])] = .ok jwe ∧
    (generated openAead 3).decrypt jwe = .ok (utf8 c!"{\"vp_token\":{}}") := by
  have h3 := keyPair_small (d := 3) (by decide) (by decide +kernel)
  have h5 := keyPair_small (d := 5) (by decide) (by decide +kernel)
  obtain ⟨jwe, h⟩ := C126_encrypts h3 h5 (a := openAead) (enc := c!"A256GCM") (len := 32) (iv := [1, 2, 3]) (by decide)
    (fun _ _ _ _ => ⟨_, rfl⟩) (published_of h3) (some c!"enc-key-1") [(c!"vp_token", .obj [])]
  exact ⟨jwe, h, C126_reads h3 h5 openAead_opens (published_of h3) h (.inr rfl)⟩

/-- The numbers of RFC 7518, appendix C: the secret of the ephemeral key, the key of the other side, the
agreed secret and the derived key. -/
example : ((b64Dec .url c!"0_NxaRPUMQoAJt50Gz8YiTr8gRTwyEaCumd-MToTmIo").bind fun d =>
    (readJwk [(c!"crv", .str c!"P-256"), (c!"kty", .str c!"EC"),
      (c!"x", .str c!"weNJy2HscCSM6AEDTDg04biOvhFhyyWvOHQfeF_PxMQ"),
      (c!"y", .str c!"e8lnCO-AlStT-NJVX-crhB7QRYhiix03illJOVAOyck")]).bind fun q =>
    (agree (beNat d) q).bind fun z =>
    (contentKey [(c!"apu", .str c!"QWxpY2U"), (c!"apv", .str c!"Qm9i")] c!"A128GCM" z).map fun k =>
      (beNat z, b64Enc .url k)) =
    some (0x9e56d91d817135d372834283bf84269cfb316ea3da806a48f6daa7798cfe90c4, c!"VqqN6vgjbSBcIijNcacQGg") := by
  decide +kernel

/-- The verifier, started with any key. -/
theorem ecStarted (key : VerifierApp.EncKey) :
    ∃ app, Started cachePki [] (cacheDraw 9) true key flowUrl true c!"a.b" app := by
  obtain ⟨app0, h0⟩ := flowStarted true
  have hstart : ∃ app, (VerifierApp.start cachePki (cacheDraw 9) true key flowUrl true
      (runs cachePki [] []).1).2 = .ok app := ⟨_, rfl⟩
  obtain ⟨app, happ⟩ := hstart
  exact ⟨app, h0.der, h0.names, h0.es256, h0.address, h0.host, happ⟩

/-- The wallet with this key agreement. -/
def ecWallet (jwt : Str) : Example.Adapter :=
  { flowWallet jwt with jose := josekit (fun _ => true) (fun _ _ => true) openAead 5 [1, 2, 3] }

/-- The whole flow. -/
example (ord : MapOrder) : ∃ app σ sid auth st jwt body addr doc pres,
    Started cachePki [] (cacheDraw 9) true (generated openAead 3) flowUrl true c!"a.b" app ∧
    VerifierApp.initiate app none (buildId 5) c!"drawn" [] = (σ, .ok (sid, auth, st)) ∧
    posts ((ecWallet jwt).process ord (flowParams (buildId 5))).1 = [⟨c!"POST", addr,
      [(c!"content-type", c!"application/x-www-form-urlencoded")], body⟩] ∧
    VerifierApp.status sid (VerifierApp.serve app σ [.fetch sid, .respond sid body]) = (200, some doc) ∧
    ReportsEncrypted doc (pidContent pres (some c!"xyz")) := by
  obtain ⟨app, hs⟩ := ecStarted (generated openAead 3)
  obtain ⟨⟨sid, auth, st⟩, h⟩ := C62_initiate_succeeds hs none (buildId 5) c!"drawn" []
  have h' : VerifierApp.initiate app none (buildId 5) c!"drawn" [] =
    ((VerifierApp.initiate app none (buildId 5) c!"drawn" []).1, .ok (sid, auth, st)) := by rw [← h]
  obtain ⟨s, -, -, -, -, -, -, -, -, hget⟩ := C62_initiate hs h'
  have hr := flowRefers hget
  have hw := flowReady s.jwt
  obtain ⟨pres, addr, body, jwe, hpres, -, h1, -, h2⟩ :=
    C126_flow (ord := ord) (keyPair_small (d := 3) (by decide) (by decide +kernel))
      (keyPair_small (d := 5) (by decide) (by decide +kernel)) openAead_opens (iv := [1, 2, 3])
      (fun _ _ _ _ => ⟨_, rfl⟩) (jwkOk := fun _ => true) (claimOk := fun _ _ => true) rfl (fun _ _ => ⟨rfl, rfl⟩) hs h'
      (ad := ecWallet s.jwt) ⟨hw.consent, hw.pid, hw.clock, hw.header, hw.endpoint⟩ rfl
      ⟨hr.noRequest, hr.uri, hr.reached⟩
  obtain ⟨doc, h3, h4⟩ := h2 [.fetch sid] [] (by simp [NoneDelivered])
  exact ⟨app, _, sid, auth, st, s.jwt, body, _, doc, pres, hs, h', h1, h3, h4⟩

/-- A response that the library builds, computed, and that the verifier reads, but not one with another
secret. -/
example : (match buildEncryptedResponse (josekit (fun _ => true) (fun _ _ => true) openAead 5 [1, 2, 3])
      (jwtObject [rsaKey, VerifierApp.publishedJwk (jwkFor 3)] [c!"A256GCM"]) tokenSample none with
    | .ok (.jwt jwe) =>
      decide ((generated openAead 3).decrypt jwe = .ok (utf8 (jPrint (.obj (encPayload tokenSample.toJson none))))) &&
        decide ((generated openAead 4).decrypt jwe = .error .decode)
    | _ => false) = true := by
  decide +kernel

end Oid4vp
