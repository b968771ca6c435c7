import Verif.Lemmas.P256
import Verif.Lemmas.Cbor
import Verif.Model.HolderKey
import Verif.Props.Authentic
import Verif.Props.Sha256
import Verif.Props.WalletMain
import Verif.Spec.HolderKey

/-!
# C124: the holder key of the example wallet
-/

set_option autoImplicit false

namespace Oid4vp

open Spec Example WalletApp WalletMain HolderKey

/-! ## Any key -/

/-- **C124** Whatever the secret, the digest and the one-time number (of at most 256 bits): what signing
returns is a signature on that digest for the public key of the secret. -/
theorem C124_signs {d k e r s : Nat} {Q : CurvePoint} (hk : k < 2 ^ 256) (hQ : KeyPair d Q)
    (h : P256.sign d k e = some (r, s)) : IsSignature Q e r s := by
  obtain ⟨-, -, G, hG, rfl⟩ := hQ
  rw [P256.base_unique hG]
  exact P256.sign_correct hk h

/-- **C124** A public key has one secret. -/
theorem C124_one_secret {d d' : Nat} {Q : CurvePoint} (h : KeyPair d Q) (h' : KeyPair d' Q) : d = d' := by
  obtain ⟨-, h1, G, hG, rfl⟩ := h
  obtain ⟨-, h2, G', hG', e⟩ := h'
  rw [P256.base_unique hG, P256.base_unique hG'] at e
  rw [← P256.n_eq] at h1 h2
  exact P256.secret_unique h1 h2 e

theorem is256 {x : Nat} (h : x < 2 ^ 256) : beNat (beBytes 32 x) = x :=
  beNat_beBytes 32 x (by rw [show (256 : Nat) ^ 32 = 2 ^ 256 by decide +kernel]; exact h)

theorem order_lt {x : Nat} (h : x < groupOrder) : x < 2 ^ 256 := by
  rw [← P256.n_eq] at h
  exact lt_trans h P256.n_lt

theorem field_lt {x : Nat} (h : x < fieldPrime) : x < 2 ^ 256 := by
  rw [← P256.p_eq] at h
  exact lt_trans h P256.p_lt

/-- The written signature. -/
theorem signBytes_on {d k : Nat} {Q : CurvePoint} (hk : k < 2 ^ 256) (hQ : KeyPair d Q) (msg : Bytes) :
    signBytes d k msg = [] ∨ Es256On Q msg (signBytes d k msg) := by
  rw [signBytes]
  cases h : P256.sign d k (beNat (sha256 msg)) with
  | none => exact .inl rfl
  | some p =>
    obtain ⟨r, s⟩ := p
    have hs := C124_signs hk hQ h
    have hl : (beBytes 32 r).length = 32 := beBytes_length 32 r
    refine .inr ⟨?_, sha256 msg, (C94_is_sha256 _ _).2 rfl, ?_⟩
    · simp [beBytes_length]
    · simp only
      rw [List.take_left' hl, List.drop_left' hl, is256 (order_lt hs.2.1), is256 (order_lt hs.2.2.2.1)]
      exact hs

/-- The written public key. -/
theorem coordinates_jwk {d : Nat} {Q : CurvePoint} (hQ : KeyPair d Q) :
    JwkOf Q (publicJwk (coordinates d).1 (coordinates d).2) := by
  obtain ⟨h1, h2, G, hG, rfl⟩ := hQ
  rw [P256.base_unique hG]
  have hrep : P256.Rep (P256.mul d P256.base) (d • P256.G) := P256.mul_rep (order_lt h2) P256.base_rep
  rw [coordinates]
  revert hrep
  generalize P256.mul d P256.base = q
  intro hrep
  cases q with
  | inf =>
    have h0 : d • P256.G = 0 • P256.G := by rw [zero_nsmul]; exact hrep
    have := P256.secret_unique (by rw [P256.n_eq]; exact h2) (by decide +kernel) h0
    omega
  | aff x y =>
    refine ⟨rfl, rfl, beBytes 32 x, beBytes 32 y, beBytes_length _ _, beBytes_length _ _, rfl, rfl, ?_⟩
    rw [is256 (field_lt hrep.1), is256 (field_lt hrep.2.1)]
    exact hrep

/-- **C124** Whatever the secret: the JWK the wallet publishes is the one of its public key, and the key
binding it puts after the issuer's JWT and the disclosures of an SD-JWT has an ES256 signature for that key
over its first two parts, whatever nonce, audience, clock and one-time numbers (except where the signing
crate panics, which is written as an empty signature). -/
theorem C124_presents {d : Nat} {Q : CurvePoint} (hQ : KeyPair d Q) {k : Bytes → Nat} (hk : ∀ m, k m < 2 ^ 256)
    (now : Str → Int) :
    JwkOf Q (publicJwk (coordinates d).1 (coordinates d).2) ∧
    ∀ (s : SdJwt) (nonce aud : Str), s.Proper → ∃ input sig,
      presentation (holder d k now) nonce aud s.text = s.front ++ (input ++ '.' :: b64Enc .url sig) ∧
      (sig = [] ↔ P256.sign d (k (utf8 input)) (beNat (sha256 (utf8 input))) = none) ∧
      (sig ≠ [] → Es256 Q input sig) := by
  refine ⟨coordinates_jwk hQ, fun s nonce aud hs => ?_⟩
  rw [presentation_sdJwt _ _ _ s hs]
  refine ⟨_, _, rfl, ?_, ?_⟩
  · show signBytes d (k _) _ = [] ↔ _
    rw [signBytes]
    cases h : P256.sign d (k _) _ with
    | none => simp
    | some p => simp [beBytes]
  · intro hne
    rcases signBytes_on (hk _) hQ _ with h | h
    · exact absurd h hne
    · exact h

/-! ## The key in the code -/

/-- The number of the secret. -/
def secretNumber : Nat := beNat ((b64Dec .url secretText).getD [])

theorem secret_eq : secret = .ok secretNumber := by decide +kernel

theorem secret_range : 1 ≤ secretNumber ∧ secretNumber < P256.n := by decide +kernel

/-- The coordinates in the embedded credential. -/
def cnfX : Str := c!"CwNSKWddEnzdysuBW0aiQ2rvJl8UDL6o51qXeuw1goY"
/-- The coordinates in the embedded credential. -/
def cnfY : Str := c!"ENlE62SxzskwGMu3Poq0SDNRCxR7P4thyoxdURDonHs"

set_option maxRecDepth 100000 in
theorem public_computed : (b64Enc .url (coordinates secretNumber).1, b64Enc .url (coordinates secretNumber).2) =
    (cnfX, cnfY) := by decide +kernel

theorem keyPair_secret : KeyPair secretNumber (secretNumber • P256.G) :=
  ⟨secret_range.1, by rw [← P256.n_eq]; exact secret_range.2, P256.G, P256.G_base, rfl⟩

/-- The payload of the embedded issuer's JWT. -/
def embeddedPayload : Str := (((embeddedSdJwt.issuer.dropWhile (· ≠ '.')).drop 1).takeWhile (· ≠ '.'))
/-- Its members. -/
def embeddedMembers : List (Str × Json) :=
  match (b64Dec .url embeddedPayload).bind utf8Dec with
  | none => []
  | some t => match jParse t with
    | .ok (.obj m) => m
    | _ => []
/-- Its text. -/
def embeddedPayloadText : Str := ((b64Dec .url embeddedPayload).bind utf8Dec).getD []

theorem embedded_payload : Payload embeddedSdJwt.issuer embeddedMembers :=
  ⟨embeddedSdJwt.issuer.takeWhile (· ≠ '.'), embeddedPayload, c!"MOCK_SD_JWT_SIG", embeddedPayloadText,
    by decide +kernel, by decide +kernel, by decide +kernel, by decide +kernel, by decide +kernel, by decide +kernel⟩

/-- The key in it. -/
def embeddedJwk : List (Str × Json) :=
  [(c!"crv", .str c!"P-256"), (c!"kty", .str c!"EC"), (c!"x", .str cnfX), (c!"y", .str cnfY)]

theorem embedded_cnf : mget c!"cnf" embeddedMembers = some (.obj [(c!"jwk", .obj embeddedJwk)]) := by
  decide +kernel

theorem embedded_bound : BoundToKey (secretNumber • P256.G) embeddedSdJwt.issuer := by
  refine ⟨_, _, _, embedded_payload, embedded_cnf, rfl, rfl, rfl, ?_⟩
  obtain ⟨-, -, x, y, hx, hy, h1, h2, h3⟩ := coordinates_jwk keyPair_secret
  have e := public_computed
  rw [Prod.mk.injEq] at e
  have h1' : b64Enc .url (coordinates secretNumber).1 = b64Enc .url x := by
    simpa [publicJwk, mget] using h1
  have h2' : b64Enc .url (coordinates secretNumber).2 = b64Enc .url y := by
    simpa [publicJwk, mget] using h2
  refine ⟨x, y, hx, hy, ?_, ?_, h3⟩
  · rw [← h1', e.1]; rfl
  · rw [← h2', e.2]; rfl

theorem embedded_proper : embeddedSdJwt.Proper := ⟨by decide +kernel, by decide +kernel, by decide +kernel⟩

/-- **C124** The secret in the source is a key, and every credential of the embedded file is bound to its
public key, the one the wallet publishes. -/
theorem C124_bound : ∃ d Q, secret = .ok d ∧ KeyPair d Q ∧
    ∀ store, loadStore embeddedText = .ok store → store ≠ [] ∧ ∀ c ∈ store, ∃ s : SdJwt,
      s.Proper ∧ c.raw = s.text ∧ BoundToKey Q s.issuer := by
  refine ⟨secretNumber, _, secret_eq, keyPair_secret, fun store h => ?_⟩
  rw [embedded_loads] at h
  cases h
  refine ⟨by simp, fun c hc => ?_⟩
  rw [List.mem_singleton] at hc
  subst hc
  exact ⟨embeddedSdJwt, embedded_proper, rfl, embedded_bound⟩

theorem jwks_served {ord : MapOrder} {app : App} {c : Call} (hv : Visit c c!"/.well-known/jwks.json") :
    WalletApp.serve ord app c = ([], ⟨200, some (jwksJson app.x app.y)⟩) := by
  rw [visit_get hv, WalletApp.get, if_neg (by rw [hv.2.1]; decide), hv.2.1]
  rfl

/-- **C124** The wallet as it starts with that secret: the one key it serves at `/.well-known/jwks.json` is
the key its credentials are bound to, and each of its presentations of one of them ends in a key binding
with a signature for that key. -/
theorem C124_wallet {parts : Parts} {args : Args} {app : App} {out : List Str} {d : Nat} {k : Bytes → Nat}
    {now : Str → Int} (hd : secret = .ok d) (hk : ∀ m, k m < 2 ^ 256)
    (h : WalletLaunched (withKey d k now parts) args app out) :
    ∃ Q, KeyPair d Q ∧
      (∀ ord c, Visit c c!"/.well-known/jwks.json" → ∃ jwk, JwkOf Q jwk ∧
        WalletApp.serve ord app c = ([], ⟨200, some (.obj [(c!"keys", .arr [.obj jwk])])⟩)) ∧
      app.adapter.store ≠ [] ∧
      ∀ c ∈ app.adapter.store, ∃ s : SdJwt, s.Proper ∧ c.raw = s.text ∧ BoundToKey Q s.issuer ∧
        ∀ nonce aud, ∃ input sig,
          presentation app.adapter.holder nonce aud c.raw = s.front ++ (input ++ '.' :: b64Enc .url sig) ∧
          (sig = [] ↔ P256.sign d (k (utf8 input)) (beNat (sha256 (utf8 input))) = none) ∧
          (sig ≠ [] → Es256 Q input sig) := by
  obtain ⟨c, hc, -, rfl, rfl⟩ := main_ok.1 h
  rw [secret_eq] at hd
  obtain rfl : secretNumber = d := by injection hd
  have hQ := keyPair_secret
  obtain ⟨hj, hp⟩ := C124_presents hQ hk now
  refine ⟨_, hQ, ?_, by simp [appOf], ?_⟩
  · intro ord c' hv
    refine ⟨_, hj, ?_⟩
    rw [jwks_served hv]
    simp only [appOf, withKey, jwksJson]
  · intro c' hc'
    simp only [appOf, List.mem_singleton] at hc'
    subst hc'
    exact ⟨embeddedSdJwt, embedded_proper, rfl, embedded_bound, fun nonce aud =>
      hp embeddedSdJwt nonce aud embedded_proper⟩

/-! ## The issuer's signature -/

theorem issuer_unique {s s' : SdJwt} (hs : s.Proper) (hs' : s'.Proper) (e : s.text = s'.text) :
    s.issuer = s'.issuer := by
  have h1 : splitOnce '~' s.text = some (s.issuer, s.disclosures.flatMap (fun d => d ++ ['~']) ++ s.binding) := by
    rw [SdJwt.text, SdJwt.front, List.append_assoc, List.cons_append]
    exact splitOnce_append hs.1
  have h2 : splitOnce '~' s'.text = some (s'.issuer, s'.disclosures.flatMap (fun d => d ++ ['~']) ++ s'.binding) := by
    rw [SdJwt.text, SdJwt.front, List.append_assoc, List.cons_append]
    exact splitOnce_append hs'.1
  rw [e, h2] at h1
  injection h1 with h1
  injection h1 with h1 _
  exact h1.symm

theorem last_cut {a a' b b' : Str} (h : '.' ∉ b) (h' : '.' ∉ b') (e : a ++ '.' :: b = a' ++ '.' :: b') : b = b' := by
  have e' := congrArg List.reverse e
  simp only [List.reverse_append, List.reverse_cons, List.append_assoc, List.singleton_append] at e'
  have := cut_unique e' (by simpa using h) (by simpa using h')
  exact List.reverse_injective this.1

/-- **C124** The issuer's JWT in the embedded credential has a signature for no key at all. -/
theorem C124_issuer_unsigned {store : List Credential} (h : loadStore embeddedText = .ok store)
    {c : Credential} (hc : c ∈ store) {s : SdJwt} (hs : s.Proper) (e : c.raw = s.text) (Q : CurvePoint) :
    ¬ SignedFor Q s.issuer := by
  rw [embedded_loads] at h
  cases h
  rw [List.mem_singleton] at hc
  subst hc
  rw [← issuer_unique embedded_proper hs e]
  rintro ⟨input, sig, e1, hl, -⟩
  have e2 : embeddedSdJwt.issuer = (embeddedSdJwt.issuer.takeWhile (· ≠ '.') ++ '.' :: embeddedPayload) ++
      '.' :: c!"MOCK_SD_JWT_SIG" := by decide +kernel
  have e3 := last_cut (by decide) (b64Enc_no_dot _ _) (e2.symm.trans e1)
  have e4 := b64Dec_b64Enc .url sig
  rw [← e3] at e4
  have e5 : ∀ b, b64Dec .url c!"MOCK_SD_JWT_SIG" = some b → b.length ≠ 64 := by
    have : (b64Dec .url c!"MOCK_SD_JWT_SIG").all (fun b => decide (b.length ≠ 64)) = true := by decide +kernel
    intro b hb
    rw [hb] at this
    simpa using this
  exact e5 _ e4 hl

/-! ## Examples -/

/-- The one-time number 1 for every message. -/
def oneK : Bytes → Nat := fun _ => 1

theorem one_small : 1 < 2 ^ 256 := by decide +kernel

set_option maxRecDepth 100000 in
/-- The signing case of C124: the secret of the source signs a digest. -/
example : (P256.sign secretNumber 1 (beNat (sha256 (utf8 c!"abc")))).isSome = true := by decide +kernel

/-- C124 for the wallet that starts: its hypotheses are met. -/
example : ∃ app out, secret = .ok secretNumber ∧ (∀ m, oneK m < 2 ^ 256) ∧
    WalletLaunched (withKey secretNumber oneK (fun _ => 1700000000) (toyParts [])) (toyArgs none) app out := by
  have : (WalletMain.main (withKey secretNumber oneK (fun _ => 1700000000) (toyParts [])) (toyArgs none)).toOption.isSome = true := by
    decide +kernel
  cases h : WalletMain.main (withKey secretNumber oneK (fun _ => 1700000000) (toyParts [])) (toyArgs none) with
  | error e => rw [h] at this; cases this
  | ok r => exact ⟨r.1, r.2, secret_eq, fun _ => one_small, h⟩

/-- A key is bound to a secret: the one of the source is not the secret of the base point. -/
example : ¬ KeyPair 1 (secretNumber • P256.G) := fun h =>
  absurd (C124_one_secret h keyPair_secret) (by decide +kernel)

/-- A key binding for the shipped credential with a signature that is not the empty one. -/
example : (splitOn '.' (keyBindingJwt (holder secretNumber oneK (fun _ => 1700000000)) embeddedSdJwt.front c!"n-0S6"
    c!"redirect_uri:https://v.example/cb")).getLast?.map List.length = some 86 := by decide +kernel

end Oid4vp
