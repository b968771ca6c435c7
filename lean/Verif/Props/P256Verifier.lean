import Verif.Model.P256Verifier
import Verif.Props.BundledSigner
import Verif.Props.HolderKey

/-!
# C125: the bundled P-256 verifier and signer check and make ES256 signatures
-/

set_option autoImplicit false

namespace Oid4vp

open Spec HolderKey

theorem p256_verify {K S : Type} (readKey : Bytes → Option K) (readSig : Bytes → Option S)
    (check : K → Bytes → S → Bool) (k : K) (msg sig : Bytes) :
    (p256Verifier readKey readSig check).verify k msg sig = true ↔
      ∃ s, readSig sig = some s ∧ check k msg s = true := by
  simp only [p256Verifier]
  cases readSig sig with
  | none => simp
  | some s => simp

theorem p256_fromSpki {K S : Type} (readKey : Bytes → Option K) (readSig : Bytes → Option S)
    (check : K → Bytes → S → Bool) (spki : Bytes) (alg : Str) (k : K) :
    (p256Verifier readKey readSig check).fromSpki spki alg = some k ↔ alg = c!"ES256" ∧ readKey spki = some k := by
  simp only [p256Verifier]
  by_cases h : alg = c!"ES256"
  · simp [h]
  · simp [h]

/-! ## Checking -/

theorem readSig_iff {sig : Bytes} {r s : Nat} : P256.readSig sig = some (r, s) ↔
    sig.length = 64 ∧ beNat (sig.take 32) = r ∧ beNat (sig.drop 32) = s ∧ 1 ≤ r ∧ r < groupOrder ∧ 1 ≤ s ∧
      s < groupOrder := by
  rw [P256.readSig, ← P256.n_eq]
  split
  · rename_i hl
    simp only [Nat.succ_le_iff]
    split
    · rename_i h
      simp only [Option.some.injEq, Prod.mk.injEq]
      constructor
      · rintro ⟨rfl, rfl⟩
        exact ⟨hl, rfl, rfl, h⟩
      · rintro ⟨-, h1, h2, -⟩
        exact ⟨h1, h2⟩
    · rename_i h
      simp only [reduceCtorEq, false_iff]
      rintro ⟨-, rfl, rfl, h'⟩
      exact h h'
  · rename_i hl
    simp [hl]

theorem inverse_mod {s : Nat} (h1 : 1 ≤ s) (h2 : s < groupOrder) : s * P256.inv s P256.n % groupOrder = 1 := by
  rw [← P256.n_eq] at h2 ⊢
  have hs0 : (s : ZMod groupOrder) ≠ 0 := by
    rw [Ne, P256.ocast_zero, Nat.mod_eq_of_lt h2]
    omega
  have hw : (s : ZMod groupOrder) * ((P256.inv s P256.n : ℕ) : ZMod groupOrder) = 1 := by
    rw [P256.ocast_inv]; exact mul_inv_cancel₀ hs0
  rw [← Nat.cast_mul, ← Nat.cast_one, P256.ocast_iff] at hw
  rw [hw]
  decide +kernel

theorem inverse_unique {s w w' : Nat} (h : s * w % groupOrder = 1) (h' : s * w' % groupOrder = 1) (e : Nat) :
    e * w % groupOrder = e * w' % groupOrder := by
  rw [← P256.n_eq] at *
  have one : ∀ {a : Nat}, a % P256.n = 1 → (a : ZMod groupOrder) = 1 := by
    intro a ha
    rw [← P256.ocast_mod, ha, Nat.cast_one]
  have h1 := one h
  have h2 := one h'
  rw [← P256.ocast_iff]
  push_cast at h1 h2 ⊢
  linear_combination (e : ZMod groupOrder) * (w' : ZMod groupOrder) * h1 -
    (e : ZMod groupOrder) * (w : ZMod groupOrder) * h2

theorem check_iff {Q : CurvePoint} {q : P256.Pt} (hq : P256.Rep q Q) (msg : Bytes) {r s : Nat}
    (hr : 1 ≤ r ∧ r < groupOrder) (hs : 1 ≤ s ∧ s < groupOrder) :
    P256.check q msg (r, s) = true ↔ IsSignature Q (beNat (sha256 msg)) r s := by
  have hn : ∀ a, a % P256.n < 2 ^ 256 := fun a => lt_trans (Nat.mod_lt _ (by decide +kernel)) P256.n_lt
  have hw := inverse_mod hs.1 hs.2
  have hrep := P256.add_rep (P256.mul_rep (hn (beNat (sha256 msg) * P256.inv s P256.n)) P256.base_rep)
    (P256.mul_rep (hn (r * P256.inv s P256.n)) hq)
  have hall : IsSignature Q (beNat (sha256 msg)) r s ↔ ∃ x y,
      HasCoordinates ((beNat (sha256 msg) * P256.inv s P256.n % P256.n) • P256.G +
        (r * P256.inv s P256.n % P256.n) • Q) x y ∧ x % P256.n = r := by
    rw [P256.n_eq]
    constructor
    · rintro ⟨-, -, -, -, G, w, x, y, hG, h1, h2, h3⟩
      rw [P256.base_unique hG, inverse_unique h1 hw, inverse_unique h1 hw r] at h2
      rw [P256.n_eq] at h2
      exact ⟨x, y, h2, h3⟩
    · rintro ⟨x, y, h2, h3⟩
      rw [← P256.n_eq] at h2
      refine ⟨hr.1, hr.2, hs.1, hs.2, P256.G, P256.inv s P256.n, x, y, P256.G_base, hw, ?_, h3⟩
      rw [← P256.n_eq]; exact h2
  rw [hall]
  simp only [P256.check]
  revert hrep
  generalize P256.add _ _ = t
  intro hrep
  cases t with
  | inf =>
    simp only [Bool.false_eq_true, false_iff]
    rintro ⟨x, y, h, -⟩
    exact P256.coordinates_ne_zero h hrep
  | aff x y =>
    simp only [beq_iff_eq]
    constructor
    · exact fun h => ⟨x, y, hrep, h⟩
    · rintro ⟨x', y', h, e⟩
      have := P256.Rep.unique (q := .aff x y) (q' := .aff x' y') hrep h
      rw [(P256.Pt.aff.inj this).1]
      exact e

/-- **C125** The bundled verifier accepts exactly the ES256 signatures for its key. -/
theorem C125_verify_iff {Q : CurvePoint} {x y : Nat} (hQ : HasCoordinates Q x y)
    (other : Bytes → Option P256.Pt) (msg sig : Bytes) :
    (P256.verifier other).verify (P256.Pt.aff x y) msg sig = true ↔ Es256On Q msg sig := by
  refine (p256_verify (P256.readKey other) P256.readSig P256.check _ msg sig).trans ?_
  rw [Es256On]
  have hd : ∀ P : Bytes → Prop, (∃ digest, Sha.Hash msg digest ∧ P digest) ↔ P (sha256 msg) := by
    intro P
    simp [C94_is_sha256]
  rw [hd]
  constructor
  · rintro ⟨⟨r, s⟩, h, hc⟩
    obtain ⟨hl, h1, h2, h3, h4, h5, h6⟩ := readSig_iff.1 h
    rw [check_iff (q := .aff x y) hQ msg ⟨h3, h4⟩ ⟨h5, h6⟩] at hc
    rw [h1, h2]
    exact ⟨hl, hc⟩
  · rintro ⟨hl, hs⟩
    exact ⟨_, readSig_iff.2 ⟨hl, rfl, rfl, hs.1, hs.2.1, hs.2.2.1, hs.2.2.2.1⟩,
      (check_iff (q := .aff x y) hQ msg ⟨hs.1, hs.2.1⟩ ⟨hs.2.2.1, hs.2.2.2.1⟩).2 hs⟩

/-! ## Keys -/

theorem onCurve_iff {x y : Nat} : P256.onCurve x y = true ↔ ∃ Q, HasCoordinates Q x y := by
  have key : x < P256.p → y < P256.p → ((y * y + 3 * x) % P256.p = (x * x * x + P256.b) % P256.p ↔
      curve.Nonsingular (x : ZMod fieldPrime) (y : ZMod fieldPrime)) := by
    intro _ _
    rw [← WeierstrassCurve.Affine.equation_iff_nonsingular_of_Δ_ne_zero P256.disc_ne,
      WeierstrassCurve.Affine.equation_iff, P256.p_eq, ← ZMod.natCast_eq_natCast_iff']
    simp only [curve]
    rw [show (41058363725152142129326129780047268409114441015993725554835256314039467401291 : ℕ) = P256.b
      by decide +kernel]
    push_cast
    constructor
    · intro h; linear_combination h
    · intro h; linear_combination h
  simp only [P256.onCurve, Bool.and_eq_true, decide_eq_true_eq, beq_iff_eq]
  constructor
  · rintro ⟨⟨h1, h2⟩, h3⟩
    have hn := (key h1 h2).1 h3
    rw [P256.p_eq] at h1 h2
    exact ⟨.some _ _ hn, h1, h2, hn, rfl⟩
  · rintro ⟨Q, h1, h2, hn, -⟩
    rw [← P256.p_eq] at h1 h2
    exact ⟨⟨h1, h2⟩, (key h1 h2).2 hn⟩

theorem spki_parts {x y spki : Bytes} (h : SpkiWith x y spki) : spki.length = 91 ∧
    spki.take 27 = P256.spkiHead ++ [4] ∧ (spki.drop 27).take 32 = x ∧ spki.drop 59 = y := by
  obtain ⟨hx, hy, rfl⟩ := h
  have e : tlv 0x30 (tlv 0x30 (tlv 6 [0x2a, 0x86, 0x48, 0xce, 0x3d, 2, 1] ++
      tlv 6 [0x2a, 0x86, 0x48, 0xce, 0x3d, 3, 1, 7]) ++ tlv 3 (0 :: 4 :: (x ++ y))) =
      (P256.spkiHead ++ [4]) ++ (x ++ y) := by
    have hl : (0 :: 4 :: (x ++ y) : Bytes).length = 66 := by simp [hx, hy]
    simp only [tlv, hl, List.length_append, List.length_cons, List.length_nil]
    rfl
  have hh : (P256.spkiHead ++ [4]).length = 27 := rfl
  rw [e]
  refine ⟨by simp [hx, hy, P256.spkiHead], List.take_left' hh, ?_, ?_⟩
  · rw [List.drop_left' hh, List.take_left' hx]
  · rw [show 59 = 27 + 32 from rfl, ← List.drop_drop, List.drop_left' hh, List.drop_left' hx]

/-- **C125** From an uncompressed key the bundled verifier is made exactly for ES256 and the coordinates of
a point of the curve, and the key is that point. -/
theorem C125_key_iff {x y spki : Bytes} (h : SpkiWith x y spki) (other : Bytes → Option P256.Pt) (alg : Str)
    (q : P256.Pt) : (P256.verifier other).fromSpki spki alg = some q ↔
      alg = c!"ES256" ∧ q = .aff (beNat x) (beNat y) ∧ ∃ Q, HasCoordinates Q (beNat x) (beNat y) := by
  obtain ⟨h1, h2, h3, h4⟩ := spki_parts h
  refine (p256_fromSpki (P256.readKey other) P256.readSig P256.check spki alg q).trans ?_
  rw [P256.readKey, if_pos ⟨h1, h2⟩, ← onCurve_iff]
  simp only [h3, h4]
  by_cases hc : P256.onCurve (beNat x) (beNat y) = true
  · simp [hc, eq_comm]
  · simp [hc]

/-- **C125** A request object passes the signature check of a certificate with an uncompressed key exactly
if it says ES256 and has an ES256 signature, over its first two parts, for that key. -/
theorem C125_certificate_iff (x509 : X509) (other : Bytes → Option P256.Pt) (c : x509.Cert) (alg jwt : Str)
    {Q : CurvePoint} (hQ : SpkiOf Q (x509.spki c)) :
    CertSigned x509 (P256.verifier other) c alg jwt ↔ alg = c!"ES256" ∧ ∃ h b g sig,
      JwsParts jwt h b g ∧ b64Dec .url g = some sig ∧ Es256 Q (h ++ '.' :: b) sig := by
  obtain ⟨x, y, hs, hc⟩ := hQ
  constructor
  · rintro ⟨h, b, g, sig, k, h1, h2, h3, h4⟩
    obtain ⟨ha, rfl, -⟩ := (C125_key_iff hs other alg k).1 h3
    exact ⟨ha, h, b, g, sig, h1, h2, (C125_verify_iff hc other _ _).1 h4⟩
  · rintro ⟨ha, h, b, g, sig, h1, h2, h3⟩
    exact ⟨h, b, g, sig, _, h1, h2, (C125_key_iff hs other alg _).2 ⟨ha, rfl, _, hc⟩,
      (C125_verify_iff hc other _ _).2 h3⟩

/-! ## Signing -/

/-- **C125** The bundled signer: the JWK it gives is the one of its public key, and each of its signatures
(but where the crate panics) is an ES256 signature for that key. -/
theorem C125_signer {d : Nat} {Q : CurvePoint} (hQ : KeyPair d Q) {k : Bytes → Nat} (hk : ∀ m, k m < 2 ^ 256) :
    JwkOf Q (P256.signer d k).jwk ∧ ∀ msg, (P256.signer d k).sign msg ≠ [] → Es256On Q msg ((P256.signer d k).sign msg) := by
  constructor
  · obtain ⟨-, -, x, y, hx, hy, h1, h2, h3⟩ := coordinates_jwk hQ
    exact ⟨rfl, rfl, x, y, hx, hy, h1, h2, h3⟩
  · intro msg hne
    rcases signBytes_on (hk msg) hQ msg with h | h
    · exact absurd h hne
    · exact h

set_option maxRecDepth 100000 in
theorem double_base : P256.mul 2 P256.base = .aff
    0x7cf27b188d034f7e8a52380304b51ac3c08969e277f21b35a60b48fc47669978
    0x07775510db8ed040293d9ac69f7430dbba7dade63ce982299e04b79d227873d1 := by decide +kernel

set_option maxRecDepth 100000 in
theorem one_base : P256.mul 1 P256.base = P256.base := by decide +kernel

/-- **C125** For every key and digest one of the one-time numbers 1 and 2 gives a signature. -/
theorem C125_can_sign {d : Nat} (h1 : 1 ≤ d) (h2 : d < groupOrder) (e : Nat) :
    P256.sign d 1 e ≠ none ∨ P256.sign d 2 e ≠ none := by
  rw [← P256.n_eq] at h2
  have hd : (d : ZMod groupOrder) ≠ 0 := by
    rw [Ne, P256.ocast_zero, Nat.mod_eq_of_lt h2]
    omega
  by_contra hc
  rw [not_or, not_not, not_not] at hc
  have case : ∀ k x y, P256.mul k P256.base = .aff x y → x % P256.n ≠ 0 → (k : ZMod groupOrder) ≠ 0 →
      P256.sign d k e = none →
      (e : ZMod groupOrder) + (x : ZMod groupOrder) * (d : ZMod groupOrder) = 0 := by
    intro k x y hm hx hk hs
    rw [P256.sign, hm] at hs
    simp only at hs
    split at hs
    · rename_i h
      rcases h with h | h
      · exact absurd h hx
      · have : ((P256.inv k P256.n * (e + x % P256.n * d) % P256.n : ℕ) : ZMod groupOrder) = 0 := by
          rw [h, Nat.cast_zero]
        rw [P256.ocast_mod, Nat.cast_mul, P256.ocast_inv, Nat.cast_add, Nat.cast_mul, P256.ocast_mod] at this
        exact (mul_eq_zero.1 this).resolve_left (inv_ne_zero hk)
    · cases hs
  have c1 := case 1 P256.gx P256.gy one_base (by decide +kernel) (by rw [Ne, P256.ocast_zero]; decide +kernel) hc.1
  have c2 := case 2 _ _ double_base (by decide +kernel) (by rw [Ne, P256.ocast_zero]; decide +kernel) hc.2
  have : ((P256.gx : ZMod groupOrder) -
      ((0x7cf27b188d034f7e8a52380304b51ac3c08969e277f21b35a60b48fc47669978 : ℕ) : ZMod groupOrder)) *
      (d : ZMod groupOrder) = 0 := by linear_combination c1 - c2
  rcases mul_eq_zero.1 this with h | h
  · rw [sub_eq_zero, P256.ocast_iff] at h
    exact absurd h (by decide +kernel)
  · exact hd h

/-- **C125** What the certificate clients sign with the bundled signer is accepted by the bundled verifier
exactly in the wallets that list ES256: nothing is assumed of the signatures any more than that the crate
does not panic, and of the certificate than that its key is the signer's. -/
theorem C125_bundled {d : Nat} {Q : CurvePoint} (hQ : KeyPair d Q) {k : Bytes → Nat} (hk : ∀ m, k m < 2 ^ 256)
    (hp : ∀ m, P256.sign d (k m) (beNat (sha256 m)) ≠ none) (other : Bytes → Option P256.Pt)
    (x509 : X509) (roots : Option (List x509.Cert)) (wm : WalletMetadata) (leaf : x509.Cert)
    (rest : List x509.Cert) (jwt : Str) (client : Client) (a : RequestObject)
    (hid : a.clientId = some client.id) (hgen : client.generate a = .ok jwt)
    (hder : ∀ c d, x509.toDer c = .ok d → x509.fromDer d = some c) (hspki : SpkiOf Q (x509.spki leaf)) :
    (sanClientNew x509 (leaf :: rest) (P256.signer d k).signer = .ok client →
      (x509SanVerify x509 (P256.verifier other) roots wm a jwt = .ok () ↔ AlgListed wm c!"ES256")) ∧
    (hashClientNew x509 (leaf :: rest) (P256.signer d k).signer = .ok client →
      (x509HashVerify x509 (P256.verifier other) roots wm a jwt = .ok () ↔ AlgListed wm c!"ES256")) := by
  obtain ⟨x, y, hs, hc⟩ := hspki
  have hkey := (C125_key_iff hs other c!"ES256" _).2 ⟨rfl, rfl, _, hc⟩
  replace hkey := (p256_fromSpki (P256.readKey other) P256.readSig P256.check _ _ _).1 hkey
  refine C93_certificate_iff (P256.readKey other) P256.readSig P256.check x509 roots wm _ _ _ leaf rest jwt client a
    (.aff (beNat x) (beNat y)) hid hgen hder hkey.2 ?_
  intro msg
  have hne : (P256.signer d k).sign msg ≠ [] := by
    show signBytes d (k msg) msg ≠ []
    rw [signBytes]
    cases h : P256.sign d (k msg) (beNat (sha256 msg)) with
    | none => exact absurd h (hp msg)
    | some p => simp [beBytes]
  have hv := (C125_verify_iff hc other _ _).2 ((C125_signer hQ hk).2 msg hne)
  exact (p256_verify (P256.readKey other) P256.readSig P256.check _ _ _).1 hv

/-! ## Examples -/

/-- The subject public key info of a secret. -/
def spkiFor (d : Nat) : Bytes :=
  tlv 0x30 (tlv 0x30 (tlv 6 [0x2a, 0x86, 0x48, 0xce, 0x3d, 2, 1] ++ tlv 6 [0x2a, 0x86, 0x48, 0xce, 0x3d, 3, 1, 7]) ++
    tlv 3 (0 :: 4 :: ((coordinates d).1 ++ (coordinates d).2)))

theorem spkiFor_of {d : Nat} {Q : CurvePoint} (hQ : KeyPair d Q) : SpkiOf Q (spkiFor d) := by
  obtain ⟨-, -, x, y, hx, hy, h1, h2, h3⟩ := coordinates_jwk hQ
  have h1' : b64Enc .url (coordinates d).1 = b64Enc .url x := by simpa [WalletApp.publicJwk, mget] using h1
  have h2' : b64Enc .url (coordinates d).2 = b64Enc .url y := by simpa [WalletApp.publicJwk, mget] using h2
  refine ⟨x, y, ⟨hx, hy, ?_⟩, h3⟩
  rw [spkiFor, b64Enc_inj h1', b64Enc_inj h2']

/-- One-time numbers with which the signer never fails. -/
def safeK (d : Nat) (m : Bytes) : Nat := if P256.sign d 1 (beNat (sha256 m)) = none then 2 else 1

theorem safeK_small (d : Nat) (m : Bytes) : safeK d m < 2 ^ 256 := by
  have h : safeK d m ≤ 2 := by unfold safeK; split <;> omega
  exact lt_of_le_of_lt h (by decide +kernel)

theorem safeK_signs {d : Nat} {Q : CurvePoint} (hQ : KeyPair d Q) (m : Bytes) :
    P256.sign d (safeK d m) (beNat (sha256 m)) ≠ none := by
  unfold safeK
  split
  · rename_i h
    exact (C125_can_sign hQ.1 hQ.2.1 _).resolve_left (fun h' => h' h)
  · rename_i h
    exact h

/-- Certificates with the key of the secret in the example wallet. -/
def keyX509 : X509 := { toyX509 with spki := fun _ => spkiFor secretNumber }

-- C125 with a real key: the request is accepted by the wallets that list ES256, and by no others
example : ∃ client jwt, sanClientNew keyX509 [[1, 2], [3]] (P256.signer secretNumber (safeK secretNumber)).signer =
      .ok client ∧ client.generate explicitObject = .ok jwt ∧
    ∀ l, (x509SanVerify keyX509 (P256.verifier fun _ => none) none (listing l) explicitObject jwt = .ok () ↔
      c!"ES256" ∈ l) := by
  refine ⟨_, _, rfl, rfl, fun l => ?_⟩
  rw [← listing_listed]
  exact (C125_bundled keyPair_secret (safeK_small _) (safeK_signs keyPair_secret) _ keyX509 none _
    [1, 2] [[3]] _ _ _ rfl rfl (by rintro c d ⟨⟩; rfl) (spkiFor_of keyPair_secret)).1 rfl

-- a key that is not on the curve is refused
example : (P256.verifier fun _ => none).fromSpki (tlv 0x30 (tlv 0x30 (tlv 6 [0x2a, 0x86, 0x48, 0xce, 0x3d, 2, 1] ++
    tlv 6 [0x2a, 0x86, 0x48, 0xce, 0x3d, 3, 1, 7]) ++
    tlv 3 (0 :: 4 :: (List.replicate 32 1 ++ List.replicate 32 1)))) c!"ES256" = none := by
  decide +kernel

end Oid4vp
