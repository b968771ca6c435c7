import Verif.Lemmas.CborRead
/-!
# Handovers and session transcripts: C43, C44

The hash function is a parameter `sha`; nothing is assumed about it except, where said, that
its results have 32 bytes. Lengths are below `2 ^ 64`, as every length in the program is.
-/

set_option autoImplicit false

namespace Oid4vp

open Spec

/-- These two inputs are different and have the same hash. (That there are such inputs is known of every hash
function, so the theorems name them.) -/
def Collide (sha : Bytes → Bytes) (a b : Bytes) : Prop := a ≠ b ∧ sha a = sha b

/-- The length of a text in bytes is a length. -/
def ShortText (s : Str) : Prop := (utf8 s).length < 2 ^ 64

instance (s : Str) : Decidable (ShortText s) := inferInstanceAs (Decidable (_ < _))

/-- The length of optional bytes is a length. -/
def ShortBytes (b : Option Bytes) : Prop := ∀ x, b = some x → x.length < 2 ^ 64

theorem thumbprintCbor_inj {a b : Option Bytes} (h : thumbprintCbor a = thumbprintCbor b) :
    a = b := by
  cases a <;> cases b <;> simp_all [thumbprintCbor]

theorem thumbprintCbor_small {b : Option Bytes} (h : ShortBytes b) : (thumbprintCbor b).Small := by
  cases b with
  | none => trivial
  | some x => exact h x rfl

/-- The bytes hashed in the redirect flow determine the four inputs. -/
theorem handoverInfo_inj {c n u c' n' u' : Str} {t t' : Option Bytes}
    (hc : ShortText c) (hn : ShortText n) (ht : ShortBytes t) (hu : ShortText u)
    (hc' : ShortText c') (hn' : ShortText n') (ht' : ShortBytes t') (hu' : ShortText u')
    (h : handoverInfo c n t u = handoverInfo c' n' t' u') : c = c' ∧ n = n' ∧ t = t' ∧ u = u' := by
  have := cborEnc_inj (r := []) (r' := []) (c := .array [.text c, .text n, thumbprintCbor t, .text u])
    (c' := .array [.text c', .text n', thumbprintCbor t', .text u'])
    ⟨by simp, hc, hn, thumbprintCbor_small ht, hu, trivial⟩
    ⟨by simp, hc', hn', thumbprintCbor_small ht', hu', trivial⟩
    (by simpa [handoverInfo] using h)
  simp only [Cbor.array.injEq, List.cons.injEq, Cbor.text.injEq, and_true] at this
  exact ⟨this.1, this.2.1, thumbprintCbor_inj this.2.2.1, this.2.2.2⟩

/-- The bytes hashed for the Digital Credentials API determine the three inputs. -/
theorem dcApiHandoverInfo_inj {o n o' n' : Str} {t t' : Option Bytes}
    (ho : ShortText o) (hn : ShortText n) (ht : ShortBytes t)
    (ho' : ShortText o') (hn' : ShortText n') (ht' : ShortBytes t')
    (h : dcApiHandoverInfo o n t = dcApiHandoverInfo o' n' t') : o = o' ∧ n = n' ∧ t = t' := by
  have := cborEnc_inj (r := []) (r' := []) (c := .array [.text o, .text n, thumbprintCbor t])
    (c' := .array [.text o', .text n', thumbprintCbor t'])
    ⟨by simp, ho, hn, thumbprintCbor_small ht, trivial⟩
    ⟨by simp, ho', hn', thumbprintCbor_small ht', trivial⟩
    (by simpa [dcApiHandoverInfo] using h)
  simp only [Cbor.array.injEq, List.cons.injEq, Cbor.text.injEq, and_true] at this
  exact ⟨this.1, this.2.1, thumbprintCbor_inj this.2.2⟩

/-- The bytes hashed in the two flows differ: one array has four elements, the other three. -/
theorem info_ne (c n u o n' : Str) (t t' : Option Bytes) :
    handoverInfo c n t u ≠ dcApiHandoverInfo o n' t' := by
  intro h
  have h1 := congrArg List.head? h
  simp [handoverInfo, dcApiHandoverInfo, cborEnc, cborHead] at h1

/-! ## C43 -/

/-- C43: equal redirect-flow handovers come from equal client id, nonce, thumbprint and
response address, or what was hashed for them is a collision of the hash function. -/
theorem C43_redirect_binds (sha : Bytes → Bytes) {c n u c' n' u' : Str} {t t' : Option Bytes}
    (hc : ShortText c) (hn : ShortText n) (ht : ShortBytes t) (hu : ShortText u)
    (hc' : ShortText c') (hn' : ShortText n') (ht' : ShortBytes t') (hu' : ShortText u')
    (h : Handover.new sha c n t u = Handover.new sha c' n' t' u') :
    (c = c' ∧ n = n' ∧ t = t' ∧ u = u') ∨ Collide sha (handoverInfo c n t u) (handoverInfo c' n' t' u') := by
  by_cases e : handoverInfo c n t u = handoverInfo c' n' t' u'
  · exact .inl (handoverInfo_inj hc hn ht hu hc' hn' ht' hu' e)
  · exact .inr ⟨e, by simpa [Handover.new] using h⟩

/-- C43: the same for the Digital Credentials API. -/
theorem C43_dc_api_binds (sha : Bytes → Bytes) {o n o' n' : Str} {t t' : Option Bytes}
    (ho : ShortText o) (hn : ShortText n) (ht : ShortBytes t)
    (ho' : ShortText o') (hn' : ShortText n') (ht' : ShortBytes t')
    (h : DcApiHandover.new sha o n t = DcApiHandover.new sha o' n' t') :
    (o = o' ∧ n = n' ∧ t = t') ∨ Collide sha (dcApiHandoverInfo o n t) (dcApiHandoverInfo o' n' t') := by
  by_cases e : dcApiHandoverInfo o n t = dcApiHandoverInfo o' n' t'
  · exact .inl (dcApiHandoverInfo_inj ho hn ht ho' hn' ht' e)
  · exact .inr ⟨e, by simpa [DcApiHandover.new] using h⟩

/-- C43: even the hashes of the two flows coincide only on a collision of what was hashed. -/
theorem C43_flows_separated (sha : Bytes → Bytes) (c n u o n' : Str) (t t' : Option Bytes)
    (h : (Handover.new sha c n t u).infoHash = (DcApiHandover.new sha o n' t').infoHash) :
    Collide sha (handoverInfo c n t u) (dcApiHandoverInfo o n' t') :=
  ⟨info_ne c n u o n' t t', by simpa [Handover.new, DcApiHandover.new] using h⟩

/-- C43 with the encoding itself for a hash: no collisions, so different nonces give different
handovers, also where text moves from one field to the next. -/
example : Handover.new id c!"x509_san_dns:a" c!"bc" none c!"https://a/" ≠
    Handover.new id c!"x509_san_dns:ab" c!"c" none c!"https://a/" := by
  intro h
  rcases C43_redirect_binds id (by decide) (by decide) (by intro x hx; cases hx) (by decide)
    (by decide) (by decide) (by intro x hx; cases hx) (by decide) h with h | ⟨h, h'⟩
  · exact absurd h.1 (by decide)
  · exact h h'

/-- A missing thumbprint and an empty one are told apart. -/
example : DcApiHandover.new id c!"https://a" c!"n" none ≠
    DcApiHandover.new id c!"https://a" c!"n" (some []) := by decide

/-! ## C44 -/

/-- A handover whose hash has a length. -/
def ShortHash {H : Type} [IsHandover H] (h : H) : Prop := (IsHandover.hash h).length < 2 ^ 64

/-- Building a handover from a hash and reading the hash are inverse, and the identifier is
short; true of both kinds. -/
class LawfulHandover (H : Type) [IsHandover H] : Prop where
  ofHash_hash : ∀ h : H, IsHandover.ofHash (IsHandover.hash h) = h
  ident_short : ShortText (IsHandover.ident H)

instance : LawfulHandover Handover := ⟨fun _ => rfl, by unfold ShortText; decide⟩
instance : LawfulHandover DcApiHandover := ⟨fun _ => rfl, by unfold ShortText; decide⟩

/-- C44: an encoded handover decodes to itself and nothing after it is read. -/
theorem C44_handover_roundtrip {H : Type} [IsHandover H] [LawfulHandover H] (h : H)
    (rest : Bytes) (hs : ShortHash h) :
    handoverOfBytes H (handoverBytes h ++ rest) = .ok (h, rest) := by
  simp only [handoverOfBytes, handoverBytes,
    cborReadArray_enc [.text (IsHandover.ident H), .bytes (IsHandover.hash h)] rest (by decide : 2 < 2 ^ 64)]
  simp only [List.length_cons, List.length_nil, cborEncL, List.append_assoc, List.append_nil,
    cborReadText_enc _ _ (LawfulHandover.ident_short (H := H)), cborReadBytes_enc _ _ hs]
  simp [LawfulHandover.ofHash_hash, cborMore]

theorem cborMore_text {b r : Bytes} {s : Str} (h : cborReadText b = .ok (s, r)) :
    cborMore none b = .ok (some none) := by
  simp only [cborReadText, cborReadPieces] at h
  split at h
  · cases h
  · rename_i hp
    split at hp
    · cases hp
    · rename_i m a r' ht
      refine cborMore_typed (Nat.lt_succ_self _) ht ?_
      rintro ⟨rfl, _⟩
      rw [if_neg (by decide)] at hp
      cases hp

theorem cborMore_bytes {b r x : Bytes} (h : cborReadBytes b = .ok (x, r)) :
    cborMore none b = .ok (some none) := by
  simp only [cborReadBytes] at h
  split at h
  · cases h
  · rename_i m a r' ht
    refine cborMore_typed (Nat.lt_succ_self _) ht ?_
    rintro ⟨rfl, _⟩
    rw [if_neg (by decide), if_neg (by decide)] at h
    cases h

theorem cborMore_unit {b r : Bytes} (h : cborReadUnit b = .ok r) : cborMore none b = .ok (some none) := by
  simp only [cborReadUnit] at h
  split at h
  · cases h
  · rename_i m a r' ht
    refine cborMore_typed (Nat.lt_succ_self _) ht ?_
    rintro ⟨rfl, rfl⟩
    rw [if_neg (by simp)] at h
    cases h

theorem cborMore_array {b r : Bytes} {n : Option Nat} (h : cborReadArray b = .ok (n, r)) :
    cborMore none b = .ok (some none) := by
  simp only [cborReadArray] at h
  split at h
  · cases h
  · rename_i m a r' ht
    refine cborMore_typed (Nat.lt_succ_self _) ht ?_
    rintro ⟨rfl, _⟩
    rw [if_neg (by decide)] at h
    cases h

theorem cborMore_some {n : Option Nat} {b : Bytes} {n' : Option Nat} (h : cborMore n b = .ok (some n')) :
    n = n'.map (· + 1) := by
  cases n with
  | none =>
    simp only [cborMore] at h
    split at h
    · cases h
    · split at h <;> cases h
      rfl
  | some n => cases n <;> cases h; rfl

/-- What reading a handover goes through. -/
theorem handover_steps {H : Type} [IsHandover H] {b rest : Bytes} {h : H} :
    handoverOfBytes H b = .ok (h, rest) ↔ ∃ n r r', cborReadArray b = .ok (n, r) ∧ (∀ k, n = some k → 2 ≤ k) ∧
      cborReadText r = .ok (IsHandover.ident H, r') ∧
      ∃ x, cborReadBytes r' = .ok (x, rest) ∧ h = IsHandover.ofHash x := by
  simp only [handoverOfBytes]
  constructor
  · intro hb
    split at hb
    · cases hb
    · rename_i n r hr
      split at hb
      · cases hb
      · cases hb
      · rename_i n' hn
        split at hb
        · cases hb
        · rename_i t r' ht
          split at hb
          · cases hb
          · rename_i hid
            split at hb
            · cases hb
            · cases hb
            · rename_i n'' hn'
              split at hb
              · cases hb
              · rename_i x r'' hx
                simp only [Except.ok.injEq, Prod.mk.injEq] at hb
                obtain ⟨rfl, rfl⟩ := hb
                have hid : t = IsHandover.ident H := by
                  by_contra hne; exact hid hne
                subst hid
                refine ⟨n, r, r', hr, ?_, ht, x, hx, rfl⟩
                rintro k rfl
                have h1 := cborMore_some hn
                have h2 := cborMore_some hn'
                subst h2
                cases n'' with
                | none => cases h1
                | some j => simp only [Option.map_some, Option.some.injEq] at h1; omega
  · rintro ⟨n, r, r', hr, hn, ht, x, hx, rfl⟩
    rw [hr]
    simp only
    cases n with
    | none => simp [cborMore_text ht, ht, cborMore_bytes hx, hx]
    | some n =>
      obtain ⟨n, rfl⟩ : ∃ m, n = m + 2 := ⟨n - 2, by have := hn n rfl; omega⟩
      simp [cborMore, ht, hx]

/-- C44: bytes are read as a handover exactly if they begin with a handover item with the identifier
of the kind: an array, of at least two elements or of indefinite length, whose first elements are a text
and a byte string, each possibly tagged, in pieces or with a longer head than needed, or instead of the byte
string an array of numbers below 256. The hash is the byte string, and what follows it is not read. -/
theorem C44_handover_read_iff {b rest x : Bytes} :
    (handoverOfBytes Handover b = .ok (⟨x⟩, rest) ↔
      ∃ w, HandoverItem c!"OpenID4VPHandover" w x ∧ b = w ++ rest) ∧
    (handoverOfBytes DcApiHandover b = .ok (⟨x⟩, rest) ↔
      ∃ w, HandoverItem c!"OpenID4VPDCAPIHandover" w x ∧ b = w ++ rest) := by
  have key : ∀ {H : Type} [IsHandover H] (h : H), (∀ y, h = IsHandover.ofHash y ↔ x = y) →
      (handoverOfBytes H b = .ok (h, rest) ↔ ∃ w, HandoverItem (IsHandover.ident H) w x ∧ b = w ++ rest) := by
    intro H _ h hh
    rw [handover_steps]
    constructor
    · rintro ⟨n, r, r', hr, hn, ht, y, hy, e⟩
      obtain rfl := (hh y).1 e
      obtain ⟨i, hi, rfl⟩ := cborReadText_iff.1 ht
      obtain ⟨z, hz, rfl⟩ := cborReadBytes_iff.1 hy
      rcases cborReadArray_iff.1 hr with ⟨t, g, k, rfl, ht, hg, rfl⟩ | ⟨rfl, w, hw, rfl⟩
      · exact ⟨_, ⟨_, i, z, .inl ⟨t, g, k, ht, hg, hn k rfl, rfl⟩, hi, hz, rfl⟩, by simp⟩
      · exact ⟨_, ⟨w, i, z, .inr hw, hi, hz, rfl⟩, by simp⟩
    · rintro ⟨w, ⟨a, i, z, ha, hi, hz, rfl⟩, rfl⟩
      rcases ha with ⟨t, g, k, ht, hg, hk, rfl⟩ | ha
      · refine ⟨some k, i ++ (z ++ rest), z ++ rest, cborReadArray_iff.2 (.inl ⟨t, g, k, rfl, ht, hg, by simp⟩),
          ?_, cborReadText_iff.2 ⟨i, hi, rfl⟩, x, cborReadBytes_iff.2 ⟨z, hz, rfl⟩, (hh x).2 rfl⟩
        rintro j ⟨⟩; exact hk
      · refine ⟨none, i ++ (z ++ rest), z ++ rest, cborReadArray_iff.2 (.inr ⟨rfl, a, ha, by simp⟩),
          ?_, cborReadText_iff.2 ⟨i, hi, rfl⟩, x, cborReadBytes_iff.2 ⟨z, hz, rfl⟩, (hh x).2 rfl⟩
        rintro j ⟨⟩
  constructor
  · exact key (Handover.mk x) (by intro y; simp [IsHandover.ofHash])
  · exact key (DcApiHandover.mk x) (by intro y; simp [IsHandover.ofHash])

/-- C44: no bytes are read as a handover of both kinds. -/
theorem C44_never_confused (b : Bytes) {h : Handover} {h' : DcApiHandover} {r r' : Bytes}
    (hb : handoverOfBytes Handover b = .ok (h, r))
    (hb' : handoverOfBytes DcApiHandover b = .ok (h', r')) : False := by
  obtain ⟨n, s, s', e, _, et, _⟩ := handover_steps.1 hb
  obtain ⟨m, u, u', e', _, et', _⟩ := handover_steps.1 hb'
  rw [e] at e'
  simp only [Except.ok.injEq, Prod.mk.injEq] at e'
  obtain ⟨rfl, rfl⟩ := e'
  rw [et] at et'
  simp only [Except.ok.injEq, Prod.mk.injEq] at et'
  exact absurd et'.1 (by decide)

/-- C44: an encoded handover of one kind is refused as the other with a mismatch. -/
theorem C44_other_kind_refused (h : Handover) (h' : DcApiHandover) (rest : Bytes) :
    handoverOfBytes DcApiHandover (handoverBytes h ++ rest) = .error .mismatch ∧
      handoverOfBytes Handover (handoverBytes h' ++ rest) = .error .mismatch := by
  constructor
  · simp only [handoverOfBytes, handoverBytes, cborReadArray_enc [.text (IsHandover.ident Handover), .bytes (IsHandover.hash h)] rest
        (by decide : 2 < 2 ^ 64)]
    simp only [List.length_cons, List.length_nil, cborEncL, List.append_assoc, List.append_nil,
      cborReadText_enc _ _ (LawfulHandover.ident_short (H := Handover))]
    rfl
  · simp only [handoverOfBytes, handoverBytes, cborReadArray_enc [.text (IsHandover.ident DcApiHandover), .bytes (IsHandover.hash h')] rest
        (by decide : 2 < 2 ^ 64)]
    simp only [List.length_cons, List.length_nil, cborEncL, List.append_assoc, List.append_nil,
      cborReadText_enc _ _ (LawfulHandover.ident_short (H := DcApiHandover))]
    rfl

theorem handoverBytes_dec {H : Type} [IsHandover H] [LawfulHandover H] (h : H) (hs : ShortHash h) :
    cborDec cborMaxDepth (handoverBytes h) =
      .ok (.array [.text (IsHandover.ident H), .bytes (IsHandover.hash h)], []) := by
  have := cborDec_enc (.array [.text (IsHandover.ident H), .bytes (IsHandover.hash h)])
    cborMaxDepth [] ⟨by simp, LawfulHandover.ident_short, hs, trivial⟩ (by decide : 2 ≤ 256)
  rwa [List.append_nil] at this

/-- C44: `to_cbor_bytes` of a transcript succeeds with the bytes of the CBOR array
`[null, null, handover]`, which are also what its serialiser writes. -/
theorem C44_transcript_bytes {H : Type} [IsHandover H] [LawfulHandover H] (h : H)
    (hs : ShortHash h) :
    (SessionTranscript.mk h).toCborBytes = .ok ([0x83, 0xF6, 0xF6] ++ handoverBytes h) ∧
      (SessionTranscript.mk h).serialize = [0x83, 0xF6, 0xF6] ++ handoverBytes h := by
  constructor
  · simp only [SessionTranscript.toCborBytes, handoverBytes_dec h hs]
    rw [cborEnc]
    simp only [cborEncL, List.append_nil]
    rfl
  · rfl

/-- C44: the transcript decodes to itself. -/
theorem C44_transcript_roundtrip {H : Type} [IsHandover H] [LawfulHandover H] (h : H)
    (rest : Bytes) (hs : ShortHash h) :
    SessionTranscript.ofBytes H ([0x83, 0xF6, 0xF6] ++ handoverBytes h ++ rest) = .ok (⟨h⟩, rest) := by
  have e1 : cborReadArray ([0x83, 0xF6, 0xF6] ++ handoverBytes h ++ rest) =
      .ok (some 3, [0xF6, 0xF6] ++ (handoverBytes h ++ rest)) := by
    rw [List.append_assoc]; rfl
  have e2 : ∀ b : Bytes, cborOptUnit (some 3) ([0xF6, 0xF6] ++ b) = .ok (some 2, [0xF6] ++ b) := fun _ => rfl
  have e3 : ∀ b : Bytes, cborOptUnit (some 2) ([0xF6] ++ b) = .ok (some 1, b) := fun _ => rfl
  simp only [SessionTranscript.ofBytes, e1, e2, e3, cborMore, C44_handover_roundtrip h rest hs]

theorem cborOptUnit_none {b r : Bytes} {n : Option Nat} : cborOptUnit none b = .ok (n, r) ↔
    n = none ∧ ∃ u, (NullOf u ∨ u = [breakByte]) ∧ b = u ++ r := by
  simp only [cborOptUnit]
  constructor
  · intro h
    split at h
    · cases h
    · rename_i hm
      cases h
      simp only [cborMore] at hm
      split at hm
      · cases hm
      · rename_i m a r hp
        split at hm
        · rename_i h7
          obtain ⟨rfl, rfl⟩ := h7
          obtain ⟨_, rfl⟩ := cborPull_open.1 hp
          exact ⟨rfl, [breakByte], .inr rfl, rfl⟩
        · cases hm
    · rename_i n' hm
      split at h
      · cases h
      · rename_i r' hu
        cases h
        have := cborMore_some hm
        obtain ⟨w, hw, rfl⟩ := cborReadUnit_iff.1 hu
        refine ⟨?_, w, .inl hw, rfl⟩
        cases n with
        | none => rfl
        | some j => cases this
  · rintro ⟨rfl, u, hu | rfl, rfl⟩
    · have := cborReadUnit_iff.2 ⟨u, hu, (rfl : u ++ r = u ++ r)⟩
      simp only [cborMore_unit this, this]
    · simp [cborMore, cborPull_break]

theorem cborOptUnit_some {b r : Bytes} {k : Nat} {n : Option Nat} : cborOptUnit (some k) b = .ok (n, r) ↔
    (k = 0 ∧ n = some 0 ∧ b = r) ∨ ∃ u j, k = j + 1 ∧ n = some j ∧ NullOf u ∧ b = u ++ r := by
  cases k with
  | zero =>
    simp only [cborOptUnit, cborMore, reduceCtorEq, if_false, Except.ok.injEq, Prod.mk.injEq, true_and]
    constructor
    · rintro ⟨rfl, rfl⟩; exact .inl ⟨rfl, rfl⟩
    · rintro (⟨rfl, rfl⟩ | ⟨u, j, h, _⟩)
      · exact ⟨rfl, rfl⟩
      · cases h
  | succ k =>
    simp only [cborOptUnit, cborMore]
    constructor
    · intro h
      split at h
      · cases h
      · rename_i r' hu
        cases h
        obtain ⟨w, hw, rfl⟩ := cborReadUnit_iff.1 hu
        exact .inr ⟨w, k, rfl, rfl, hw, rfl⟩
    · rintro (⟨h, _⟩ | ⟨u, j, h, rfl, hu, rfl⟩)
      · omega
      · obtain rfl : k = j := by omega
        rw [cborReadUnit_iff.2 ⟨u, hu, rfl⟩]

theorem cborMore_handover {H : Type} [IsHandover H] {b r : Bytes} {h : H}
    (hb : handoverOfBytes H b = .ok (h, r)) : cborMore none b = .ok (some none) := by
  obtain ⟨n, s, s', e, _⟩ := handover_steps.1 hb
  exact cborMore_array e

/-- C44: bytes are read as a transcript exactly if they begin with a transcript item with the
identifier of the kind: an array that says that it has at least three elements, of which the first two
are `null` or `undefined` and the third is a handover; or an array of indefinite length in which each of
the first two may also be a break. -/
theorem C44_transcript_read_iff {b rest x : Bytes} :
    (SessionTranscript.ofBytes Handover b = .ok (⟨⟨x⟩⟩, rest) ↔
      ∃ w, TranscriptItem c!"OpenID4VPHandover" w x ∧ b = w ++ rest) ∧
    (SessionTranscript.ofBytes DcApiHandover b = .ok (⟨⟨x⟩⟩, rest) ↔
      ∃ w, TranscriptItem c!"OpenID4VPDCAPIHandover" w x ∧ b = w ++ rest) := by
  have key : ∀ {H : Type} [IsHandover H] (h : H),
      (∀ b, handoverOfBytes H b = .ok (h, rest) ↔
        ∃ w, HandoverItem (IsHandover.ident H) w x ∧ b = w ++ rest) →
      (SessionTranscript.ofBytes H b = .ok (⟨h⟩, rest) ↔
        ∃ w, TranscriptItem (IsHandover.ident H) w x ∧ b = w ++ rest) := by
    intro H _ h hh
    simp only [SessionTranscript.ofBytes]
    constructor
    · intro hb
      split at hb
      · cases hb
      · rename_i n r hr
        split at hb
        · cases hb
        · rename_i n1 r1 h1
          split at hb
          · cases hb
          · rename_i n2 r2 h2
            split at hb
            · cases hb
            · cases hb
            · rename_i n3 h3
              split at hb
              · cases hb
              · rename_i h' r3 h4
                simp only [Except.ok.injEq, Prod.mk.injEq, SessionTranscript.mk.injEq] at hb
                obtain ⟨rfl, rfl⟩ := hb
                obtain ⟨w, hw, rfl⟩ := (hh _).1 h4
                have e3 := cborMore_some h3
                rcases cborReadArray_iff.1 hr with ⟨t, g, k, rfl, ht, hg, rfl⟩ | ⟨rfl, a, ha, rfl⟩
                · rcases cborOptUnit_some.1 h1 with ⟨rfl, rfl, rfl⟩ | ⟨u, j, rfl, rfl, hu, rfl⟩
                  · rcases cborOptUnit_some.1 h2 with ⟨_, rfl, _⟩ | ⟨_, _, h, _⟩
                    · cases n3 <;> simp at e3
                    · omega
                  · rcases cborOptUnit_some.1 h2 with ⟨_, rfl, _⟩ | ⟨v, i, rfl, rfl, hv, rfl⟩
                    · cases n3 <;> simp at e3
                    · refine ⟨_, ⟨_, u, v, w, rfl, hw, .inl ⟨⟨t, g, _, ht, hg, ?_, rfl⟩, hu, hv⟩⟩, by simp⟩
                      cases n3 <;> simp at e3
                      omega
                · obtain ⟨rfl, u, hu, rfl⟩ := cborOptUnit_none.1 h1
                  obtain ⟨rfl, v, hv, rfl⟩ := cborOptUnit_none.1 h2
                  exact ⟨_, ⟨a, u, v, w, rfl, hw, .inr ⟨ha, hu, hv⟩⟩, by simp⟩
    · rintro ⟨w, ⟨a, u, v, y, rfl, hy, hc⟩, rfl⟩
      have h4 := (hh (y ++ rest)).2 ⟨y, hy, rfl⟩
      rcases hc with ⟨⟨t, g, n, ht, hg, hn, rfl⟩, hu, hv⟩ | ⟨ha, hu, hv⟩
      · obtain ⟨n, rfl⟩ : ∃ m, n = m + 3 := ⟨n - 3, by omega⟩
        rw [cborReadArray_iff.2 (.inl ⟨t, g, n + 3, rfl, ht, hg,
          (by simp : t ++ g ++ u ++ v ++ y ++ rest = t ++ g ++ (u ++ (v ++ (y ++ rest))))⟩)]
        simp only [cborOptUnit_some.2 (.inr ⟨u, n + 2, rfl, rfl, hu, rfl⟩),
          cborOptUnit_some.2 (.inr ⟨v, n + 1, rfl, rfl, hv, rfl⟩), cborMore, h4]
      · rw [cborReadArray_iff.2 (.inr ⟨rfl, a, ha,
          (by simp : a ++ u ++ v ++ y ++ rest = a ++ (u ++ (v ++ (y ++ rest))))⟩)]
        simp only [cborOptUnit_none.2 ⟨rfl, u, hu, rfl⟩, cborOptUnit_none.2 ⟨rfl, v, hv, rfl⟩,
          cborMore_handover h4, h4]
  exact ⟨key (Handover.mk x) fun b => C44_handover_read_iff.1,
    key (DcApiHandover.mk x) fun b => C44_handover_read_iff.2⟩

/-- C44 on a tagged array of indefinite length with a break for the first element, `undefined` for the
second, and a handover whose identifier and hash are in pieces: it is read. -/
example : SessionTranscript.ofBytes Handover
      ([0xD8, 0x18, 0x9F, 0xFF, 0xF7, 0x9F, 0x7F, 0x66] ++ utf8 c!"OpenID" ++ [0x78, 0x0B] ++
        utf8 c!"4VPHandover" ++ [0xFF, 0x5F, 0x5F, 0x41, 7, 0xFF, 0x42, 8, 9, 0xFF, 0xFF, 0xFF]) =
      .ok (⟨⟨[7, 8, 9]⟩⟩, [0xFF, 0xFF]) := by
  decide +kernel

/-- C44 on a text cut inside a letter, on `null` as a floating-point number, and on a break for the
identifier: they are refused. -/
example : cborReadText [0x7F, 0x61, 0xC3, 0x61, 0xA9, 0xFF] = .error .decode ∧
    cborReadText [0x7F, 0x62, 0xC3, 0xA9, 0xFF] = .ok (c!"é", []) ∧
    cborReadUnit [0xF9, 0x00, 0x16] = .error .decode ∧
    handoverOfBytes Handover [0x9F, 0xFF] = .error .decode := by
  decide +kernel

/-- C44 on arrays of numbers in place of the byte string: 7, 200 in two forms and a big number with leading
zeros are read; 256, a negative number and a big number of two bytes are not. -/
example : cborReadBytes [0x84, 7, 0x18, 200, 0xD8, 0x40, 0x19, 0, 200, 0xC2, 0x43, 0, 0, 5, 1] =
      .ok ([7, 200, 200, 5], [1]) ∧
    cborReadBytes [0x9F, 7, 0xC2, 0x40, 0xFF, 1] = .ok ([7, 0], [1]) ∧
    cborReadBytes [0x81, 0x19, 1, 0] = .error .decode ∧ cborReadBytes [0x81, 0x20] = .error .decode ∧
    cborReadBytes [0x81, 0xC2, 0x42, 1, 0] = .error .decode ∧ cborReadBytes [0x82, 1] = .error .decode ∧
    cborReadBytes [0x81, 0xC3, 0x40] = .error .decode := by
  decide +kernel

/-- C44 on an array of two: it is refused although a handover follows. -/
example : SessionTranscript.ofBytes Handover
      ([0x82, 0xF6, 0xF6] ++ handoverBytes (Handover.mk (List.replicate 32 7))) = .error .decode := by
  decide +kernel

/-- C44: with a hash of 32 bytes the whole transcript is, byte for byte, the array of three,
two nulls, the array of two, the identifier as text and the hash as a byte string. -/
theorem C44_transcript_layout (x : Bytes) (hx : x.length = 32) :
    (SessionTranscript.mk (Handover.mk x)).toCborBytes =
        .ok ([0x83, 0xF6, 0xF6, 0x82, 0x71] ++ utf8 c!"OpenID4VPHandover" ++ [0x58, 0x20] ++ x) ∧
      (SessionTranscript.mk (DcApiHandover.mk x)).toCborBytes =
        .ok ([0x83, 0xF6, 0xF6, 0x82, 0x76] ++ utf8 c!"OpenID4VPDCAPIHandover" ++ [0x58, 0x20] ++ x) := by
  constructor
  · rw [(C44_transcript_bytes (Handover.mk x) (by simp [ShortHash, IsHandover.hash, hx])).1]
    simp only [handoverBytes, cborEnc, cborEncL, IsHandover.hash, hx, List.append_nil]
    rfl
  · rw [(C44_transcript_bytes (DcApiHandover.mk x) (by simp [ShortHash, IsHandover.hash, hx])).1]
    simp only [handoverBytes, cborEnc, cborEncL, IsHandover.hash, hx, List.append_nil]
    rfl

/-- C44: different handovers have different transcripts. -/
theorem C44_transcript_injective {H : Type} [IsHandover H] [LawfulHandover H] (h h' : H)
    (hs : ShortHash h) (hs' : ShortHash h')
    (e : (SessionTranscript.mk h).toCborBytes = (SessionTranscript.mk h').toCborBytes) : h = h' := by
  rw [(C44_transcript_bytes h hs).1, (C44_transcript_bytes h' hs').1] at e
  simp only [Except.ok.injEq] at e
  have e1 := C44_transcript_roundtrip h [] hs
  rw [e, C44_transcript_roundtrip h' [] hs'] at e1
  simp only [Except.ok.injEq, Prod.mk.injEq, SessionTranscript.mk.injEq, and_true] at e1
  exact e1.symm

/-- C44 on a handover with a 32-byte hash. -/
example : ShortHash (Handover.mk (List.replicate 32 7)) ∧
    handoverOfBytes Handover (handoverBytes (Handover.mk (List.replicate 32 7))) =
      .ok (Handover.mk (List.replicate 32 7), []) := by
  refine ⟨by simp [ShortHash, IsHandover.hash], ?_⟩
  have := C44_handover_roundtrip (Handover.mk (List.replicate 32 7)) [] (by simp [ShortHash, IsHandover.hash])
  rwa [List.append_nil] at this

end Oid4vp
