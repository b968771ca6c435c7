import Verif.Lemmas.Sha256
import Verif.Props.Thumbprint
import Verif.Props.Signed
import Verif.Props.Verify
import Verif.Props.Iso

/-! # C94: SHA-256

The hash used for handovers, key thumbprints, client identifiers and key-binding tokens.
-/

set_option autoImplicit false

namespace Oid4vp

open Spec Spec.Sha

/-- **C94** The hash is the function of FIPS 180-4: for every message
there is exactly one hash, and this is it. -/
theorem C94_is_sha256 (m d : Bytes) : Sha.Hash m d ↔ d = sha256 m := by
  have hk : Sha256.k.map UInt32.toBitVec = (List.range' 0 64).map fun t => (Sha256.k.getD t 0).toBitVec := by
    decide +kernel
  have hblocks : ∀ (K : Nat → BitVec 32), (∀ t < 64, K t = (Sha256.k.getD t 0).toBitVec) →
      digestOf (hashAfter K (Sha256.vars Sha256.init) (Sha256.pad m) ((Sha256.pad m).length / 64)) =
        sha256 m := by
    intro K hK
    obtain ⟨n, hn⟩ : 64 ∣ (Sha256.pad m).length := (Sha256.pad_padded m).choose_spec.2.1
    have hK' : Sha256.k.map UInt32.toBitVec = (List.range' 0 64).map K := by
      rw [hk]
      refine (List.map_congr_left fun t ht => hK t ?_).symm
      have := List.mem_range'_1.mp ht
      omega
    rw [hn, Nat.mul_div_cancel_left _ (by decide), sha256, Sha256.bytes_digestOf,
      Sha256.blocks_hashAfter K (Sha256.vars Sha256.init) (Sha256.pad m) hK' n 0 Sha256.init _ ?_ rfl]
    · rw [Nat.zero_add]
    · rw [Sha256.words_wordAt (16 * n) _ (by rw [hn]; omega), List.range_eq_range']
  constructor
  · rintro ⟨K, H0, p, hK, ⟨ha, hb, hc, hd, he, hf, hg, hh⟩, hp, rfl⟩
    have hp' : p = Sha256.pad m := Sha256.padded_unique hp (Sha256.pad_padded m)
    have hH : H0 = Sha256.vars Sha256.init := by
      obtain ⟨h1, h2, h3, h4, h5, h6, h7, h8⟩ := Sha256.init_roots
      cases H0
      simp only [Sha256.vars, Vars.mk.injEq]
      exact ⟨Sha256.rootBits_unique ha h1, Sha256.rootBits_unique hb h2, Sha256.rootBits_unique hc h3,
        Sha256.rootBits_unique hd h4, Sha256.rootBits_unique he h5, Sha256.rootBits_unique hf h6,
        Sha256.rootBits_unique hg h7, Sha256.rootBits_unique hh h8⟩
    rw [hH, hp']
    exact hblocks K fun t ht => Sha256.rootBits_unique (hK t ht) (Sha256.k_roots t ht)
  · rintro rfl
    exact ⟨_, Sha256.vars Sha256.init, Sha256.pad m, Sha256.k_roots, Sha256.init_roots, Sha256.pad_padded m,
      (hblocks _ fun _ _ => rfl).symm⟩

/-- **C94** The hash of any message has 32 bytes. -/
theorem C94_length (m : Bytes) : (sha256 m).length = 32 := rfl

/-- **C94** Different messages of fewer than 2^61 bytes are different when padded, so they are hashed
differently unless the compression of different blocks collides. -/
theorem C94_padding (m m' p : Bytes) (hl : m.length < 2 ^ 61) (hl' : m'.length < 2 ^ 61)
    (h : Padded m p) (h' : Padded m' p) : m = m' := by
  obtain ⟨z, hp, -, -⟩ := h
  obtain ⟨z', hp', -, -⟩ := h'
  rw [hp] at hp'
  obtain ⟨h1, h2⟩ := List.append_inj' hp' (by rw [Sha256.bigEndian_length, Sha256.bigEndian_length])
  have hlen := Sha256.bigEndian_inj (by omega) (by omega) h2
  exact (List.append_inj h1 (by omega)).1

-- a message of 56 bytes needs a second block: 63 bytes of zeros and 1 bit
example : Padded (List.replicate 56 1)
    (List.replicate 56 1 ++ 0x80 :: List.replicate 63 0 ++ [0, 0, 0, 0, 0, 0, 1, 0xC0]) :=
  ⟨63, rfl, ⟨2, rfl⟩, fun z' h => by simp only [List.length_replicate] at h; omega⟩

/-- **C94** Every message has a padded form. -/
theorem C94_padded (m : Bytes) : ∃ p, Padded m p := ⟨_, Sha256.pad_padded m⟩

/-- **C94** The transcript of a redirect flow ends with the SHA-256 hash of what it commits to, and has
56 bytes whatever that is. -/
theorem C94_transcript (clientId nonce responseUri : Str) (thumb : Option Bytes) :
    ∃ d, Sha.Hash (handoverInfo clientId nonce thumb responseUri) d ∧ d.length = 32 ∧
      (SessionTranscript.mk (Handover.new sha256 clientId nonce thumb responseUri)).toCborBytes =
        .ok ([0x83, 0xF6, 0xF6, 0x82, 0x71] ++ utf8 c!"OpenID4VPHandover" ++ [0x58, 0x20] ++ d) :=
  ⟨_, (C94_is_sha256 _ _).mpr rfl, C94_length _, (C44_transcript_layout _ (C94_length _)).1⟩

/-- **C94** The same in the Digital Credentials API flow. -/
theorem C94_dc_api_transcript (origin nonce : Str) (thumb : Option Bytes) :
    ∃ d, Sha.Hash (dcApiHandoverInfo origin nonce thumb) d ∧ d.length = 32 ∧
      (SessionTranscript.mk (DcApiHandover.new sha256 origin nonce thumb)).toCborBytes =
        .ok ([0x83, 0xF6, 0xF6, 0x82, 0x76] ++ utf8 c!"OpenID4VPDCAPIHandover" ++ [0x58, 0x20] ++ d) :=
  ⟨_, (C94_is_sha256 _ _).mpr rfl, C94_length _, (C44_transcript_layout _ (C94_length _)).2⟩

/-- **C94** A thumbprint is the SHA-256 hash of the required members, and has 32 bytes. -/
theorem C94_thumbprint (m : List (Str × Json)) (t : Bytes) :
    computeJwkThumbprint sha256 (.obj m) = .ok t ↔
      ∃ r, HasRequired m r ∧ t.length = 32 ∧ Sha.Hash (r.text.flatMap String.utf8EncodeChar) t := by
  rw [C42_hashed]
  simp only [C94_is_sha256]
  constructor
  · rintro ⟨r, h, rfl⟩; exact ⟨r, h, C94_length _, rfl⟩
  · rintro ⟨r, h, -, rfl⟩; exact ⟨r, h, rfl⟩

theorem b64Enc_length_43 (a : B64) (b : Bytes) (h : b.length = 32) : (b64Enc a b).length = 43 := by
  have : ∀ n (b : Bytes), b.length = 3 * n + 2 → (b64Enc a b).length = 4 * n + 3 := by
    intro n
    induction n with
    | zero => intro b h; match b, h with | [x, y], _ => rfl
    | succ n ih =>
      intro b h
      match b, h with
      | x :: y :: z :: r, h =>
        simp only [b64Enc, List.length_cons] at h ⊢
        rw [ih r (by omega)]
        omega
  exact this 10 b h

/-- **C94** The client identifier of an `x509_hash` client is the prefix and the base64url form, 43
characters, of the SHA-256 hash of the first certificate. -/
theorem C94_hash_client (x : X509) (hx : x.sha256 = sha256) (leaf : x.Cert) (rest : List x.Cert) (s : Signer)
    (client : Client) (h : hashClientNew x (leaf :: rest) s = .ok client) :
    ∃ der d t, x.toDer leaf = .ok der ∧ Sha.Hash der d ∧ client.id.val = c!"x509_hash:" ++ t ∧
      t = base64 base64Url d ∧ t.length = 43 := by
  obtain ⟨der, hd, hid, -, -⟩ := (C72_hash_client x leaf rest s client).mp h
  refine ⟨der, sha256 der, _, hd, (C94_is_sha256 _ _).mpr rfl, hx ▸ hid, rfl, ?_⟩
  have := C52_base64_rfc4648 .url (sha256 der)
  rw [show B64.url.alphabet = base64Url from rfl] at this
  rw [← this]
  exact b64Enc_length_43 _ _ (C94_length _)

/-- **C94** A wallet that accepts by `x509_hash` has compared the client identifier with the SHA-256 hash of
the certificate in the request, and the identifier after the prefix has 43 characters. -/
theorem C94_hash_verified (x : X509) (hx : x.sha256 = sha256) (v : SigVerifier) (roots : Option (List x.Cert))
    (wm : WalletMetadata) (a : RequestObject) (jwt : Str) (h : x509HashVerify x v roots wm a jwt = .ok ()) :
    ∃ cid m der c d t, a.clientId = some cid ∧ JwsHeader jwt m ∧ LeafIs x m der c ∧ Sha.Hash der d ∧
      Unprefixed c!"x509_hash" cid.val t ∧ t = base64 base64Url d ∧ t.length = 43 := by
  obtain ⟨cid, m, alg, der, c, h1, h2, -, -, h3, h4, -⟩ := (C21_accepted_iff x v roots wm a jwt).mp h
  rw [hx] at h4
  refine ⟨cid, m, der, c, sha256 der, _, h1, h2, h3, (C94_is_sha256 _ _).mpr rfl, h4, rfl, ?_⟩
  rw [← C52_base64_rfc4648]
  exact b64Enc_length_43 _ _ (C94_length _)

/-- Certificates that are their own DER form, with the real hash. -/
def shaX509 : X509 := { toyX509 with sha256 := sha256 }

-- a client, its identifier, and a request of it that the wallet accepts
example : ∃ client jwt, hashClientNew shaX509 [[1, 2], [3]] toySigner = .ok client ∧
    client.id.val = c!"x509_hash:" ++ base64 base64Url (sha256 [1, 2]) ∧
    client.generate { explicitObject with clientId := some client.id } = .ok jwt ∧
    x509HashVerify shaX509 toyVerifier none (listing [c!"ES256"])
      { explicitObject with clientId := some client.id } jwt = .ok () :=
  ⟨_, _, rfl, congrArg (c!"x509_hash:" ++ ·) (C52_base64_rfc4648 .url (sha256 [1, 2])), rfl,
    C22_hash_accepted shaX509 toyVerifier _ _ toySigner [1, 2] [[3]] c!"ES256" _ _ _ ()
    rfl rfl rfl rfl (listing_listed.mpr (by simp)) (by rintro c d ⟨⟩; rfl) rfl
    (by simp [toyVerifier, toySigner])⟩

/-! ## Known values -/

/-- A text of hexadecimal digits as bytes. -/
def unhex : Str → Bytes
  | a :: b :: s => UInt8.ofNat (hexVal a * 16 + hexVal b) :: unhex s
  | _ => []
where hexVal (c : Char) : Nat := if c.toNat < 58 then c.toNat - 48 else c.toNat - 87

-- the examples of FIPS 180-4: one block, two blocks, the empty message
example : sha256 (utf8 c!"abc") =
    unhex c!"ba7816bf8f01cfea414140de5dae2223b00361a396177a9cb410ff61f20015ad" := by decide +kernel
example : sha256 (utf8 c!"abcdbcdecdefdefgefghfghighijhijkijkljklmklmnlmnomnopnopq") =
    unhex c!"248d6a61d20638b8e5c026930c3e6039a33ce45964ff2167f6ecedd419db06c1" := by decide +kernel
example : sha256 [] =
    unhex c!"e3b0c44298fc1c149afbf4c8996fb92427ae41e4649b934ca495991b7852b855" := by decide +kernel

/-- The key of the examples in OID4VP 1.0, appendix B.2.6 (src/core/iso_18013_7/mod.rs:691-699). -/
def vectorKey : Json := .obj
  [(c!"alg", .str c!"ECDH-ES"), (c!"crv", .str c!"P-256"), (c!"kid", .str c!"1"), (c!"kty", .str c!"EC"),
   (c!"use", .str c!"enc"), (c!"x", .str c!"DxiH5Q4Yx3UrukE2lWCErq8N8bqC9CHLLrAwLz5BmE0"),
   (c!"y", .str c!"XtLM4-3h5o3HUH0MHVJV0kyq0iBlrBwlh8qEDMZ4-Pc")]

def vectorThumbprint : Option Bytes := (computeJwkThumbprint sha256 vectorKey).toOption

/-- The example transcript of OID4VP 1.0, appendix B.2.6.1 (src/core/iso_18013_7/mod.rs:759-792). -/
example : (SessionTranscript.mk (Handover.new sha256 c!"x509_san_dns:example.com"
      c!"exc7gBkxjx1rdc9udRrveKvSsJIq80avlXeLHhGwqtA" vectorThumbprint c!"https://example.com/response")).toCborBytes =
    .ok (unhex c!"83f6f682714f70656e494434565048616e646f7665725820048bc053c00442af9b8eed494cefdd9d95240d254b046b11b68013722aad38ac") := by
  refine ((C44_transcript_layout _ (C94_length _)).1).trans (congrArg _ ?_)
  decide +kernel

/-- The example handover of OID4VP 1.0, appendix B.2.6.2 (src/core/iso_18013_7/mod.rs:839-871). -/
example : handoverBytes (DcApiHandover.new sha256 c!"https://example.com"
      c!"exc7gBkxjx1rdc9udRrveKvSsJIq80avlXeLHhGwqtA" vectorThumbprint) =
    unhex c!"82764f70656e4944345650444341504948616e646f7665725820fbece366f4212f9762c74cfdbf83b8c69e371d5d68cea09cb4c48ca6daab761a" := by
  decide +kernel

end Oid4vp
