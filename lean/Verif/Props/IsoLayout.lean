import Verif.Spec.Iso
import Verif.Props.Iso
import Verif.Props.Codec
/-!
# C71: handovers and transcripts have the layout of the standard
-/

set_option autoImplicit false

namespace Oid4vp

open Spec

theorem itemHead_eq (m n : Nat) (h : n < 2 ^ 64) : cborHead m n = itemHead m n := by
  simp only [cborHead, itemHead, Nat.mul_comm m 32]
  by_cases h0 : n < 24
  · simp [h0]
  · rw [if_neg h0, if_neg h0]
    by_cases h1 : n < 256
    · simp [h1, bigEndian_eq]
    · by_cases h2 : n < 65536
      · simp [h1, h2, bigEndian_eq]
      · by_cases h3 : n < 4294967296
        · simp [h1, h2, h3, bigEndian_eq]
        · have h4 : n < 18446744073709551616 := h
          simp [h1, h2, h3, h4, bigEndian_eq]

theorem cborEnc_text {s : Str} (h : ShortText s) : cborEnc (.text s) = textItem s := by
  rw [cborEnc, itemHead_eq _ _ h, utf8Text_eq]; rfl

theorem cborEnc_bytes {b : Bytes} (h : b.length < 2 ^ 64) : cborEnc (.bytes b) = bytesItem b := by
  rw [cborEnc, itemHead_eq _ _ h]; rfl

theorem cborEnc_thumbprint {t : Option Bytes} (h : ShortBytes t) :
    cborEnc (thumbprintCbor t) = optItem t := by
  cases t with
  | none => rfl
  | some b => exact cborEnc_bytes (h b rfl)

/-- **C71** A redirect-flow handover is the hash of the standard's `OpenID4VPHandoverInfo`. -/
theorem C71_redirect_hash (sha : Bytes → Bytes) {c n u : Str} {t : Option Bytes}
    (hc : ShortText c) (hn : ShortText n) (ht : ShortBytes t) (hu : ShortText u) :
    (Handover.new sha c n t u).infoHash = sha (redirectInfo c n t u) := by
  have : handoverInfo c n t u = redirectInfo c n t u := by
    simp only [handoverInfo, cborEnc.eq_def (.array _), cborEncL, cborEnc_text hc, cborEnc_text hn, cborEnc_text hu,
      cborEnc_thumbprint ht, redirectInfo, arrayItem]
    rw [itemHead_eq _ _ (by simp)]
    simp
  rw [Handover.new, this]

/-- **C71** A Digital Credentials API handover is the hash of the standard's
`OpenID4VPDCAPIHandoverInfo`. -/
theorem C71_dc_api_hash (sha : Bytes → Bytes) {o n : Str} {t : Option Bytes}
    (ho : ShortText o) (hn : ShortText n) (ht : ShortBytes t) :
    (DcApiHandover.new sha o n t).infoHash = sha (dcApiInfo o n t) := by
  have : dcApiHandoverInfo o n t = dcApiInfo o n t := by
    simp only [dcApiHandoverInfo, cborEnc.eq_def (.array _), cborEncL, cborEnc_text ho, cborEnc_text hn,
      cborEnc_thumbprint ht, dcApiInfo, arrayItem]
    rw [itemHead_eq _ _ (by simp)]
    simp
  rw [DcApiHandover.new, this]

theorem handoverBytes_item {H : Type} [IsHandover H] [LawfulHandover H] (h : H) (hs : ShortHash h) :
    handoverBytes h = arrayItem [textItem (IsHandover.ident H), bytesItem (IsHandover.hash h)] := by
  simp only [handoverBytes, cborEnc.eq_def (.array _), cborEncL, cborEnc_text (LawfulHandover.ident_short (H := H)),
    cborEnc_bytes hs, arrayItem]
  rw [itemHead_eq _ _ (by simp)]
  simp

/-- **C71** The bytes of a transcript, written either way, are the standard's `SessionTranscript` with
the identifier of the flow and the hash. -/
theorem C71_transcript (b : Bytes) (hb : b.length < 2 ^ 64) :
    (SessionTranscript.mk (Handover.mk b)).toCborBytes = .ok (transcript c!"OpenID4VPHandover" b) ∧
    (SessionTranscript.mk (Handover.mk b)).serialize = transcript c!"OpenID4VPHandover" b ∧
    (SessionTranscript.mk (DcApiHandover.mk b)).toCborBytes =
      .ok (transcript c!"OpenID4VPDCAPIHandover" b) ∧
    (SessionTranscript.mk (DcApiHandover.mk b)).serialize = transcript c!"OpenID4VPDCAPIHandover" b := by
  have e : ∀ x : Bytes, arrayItem [nullItem, nullItem, x] = [0x83, 0xF6, 0xF6] ++ x := by
    intro x
    simp only [arrayItem, nullItem, List.flatten_cons, List.flatten_nil, List.append_nil]
    rfl
  have h1 := C44_transcript_bytes (Handover.mk b) hb
  have h2 := C44_transcript_bytes (DcApiHandover.mk b) hb
  rw [handoverBytes_item (Handover.mk b) hb, ← e] at h1
  rw [handoverBytes_item (DcApiHandover.mk b) hb, ← e] at h2
  exact ⟨h1.1, h1.2, h2.1, h2.2⟩

/-- Lengths on both sides of the change from one to two bytes. -/
example : itemHead 3 23 = [0x77] ∧ itemHead 3 24 = [0x78, 24] ∧ itemHead 2 255 = [0x58, 255] ∧
    itemHead 2 256 = [0x59, 1, 0] ∧ itemHead 4 65536 = [0x9a, 0, 1, 0, 0] := by decide

/-- The information of a request without encryption. -/
example : ShortText c!"x509_san_dns:v" ∧ redirectInfo c!"a" c!"é" none c!"u" =
    [0x84, 0x61, 0x61, 0x62, 0xc3, 0xa9, 0xf6, 0x61, 0x75] := by decide +kernel

end Oid4vp
