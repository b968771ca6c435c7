import Verif.Model.Basic
/-!
# Layout of handovers (OpenID4VP 1.0, appendix B.2.6) in CBOR (RFC 8949, section 4.2.1)

Nothing here refers to the model's encoder.
-/

set_option autoImplicit false

namespace Oid4vp.Spec

/-- The number as `k` bytes, most significant first. -/
def bigEndian (k n : Nat) : Bytes := (List.range k).reverse.map fun i => UInt8.ofNat (n / 256 ^ i % 256)

/-- Initial byte and argument of a data item in the shortest form: arguments below 24 are part of the
initial byte, others follow it in 1, 2, 4 or 8 bytes. -/
def itemHead (major n : Nat) : Bytes :=
  if n < 24 then [UInt8.ofNat (32 * major + n)]
  else match [(24, 1), (25, 2), (26, 4), (27, 8)].find? (fun p => n < 256 ^ p.2) with
    | some (info, k) => UInt8.ofNat (32 * major + info) :: bigEndian k n
    | none => []

/-- The UTF-8 bytes of a text. -/
def utf8Text (s : Str) : Bytes := s.flatMap String.utf8EncodeChar

/-- A text string. -/
def textItem (s : Str) : Bytes := itemHead 3 (utf8Text s).length ++ utf8Text s

/-- A byte string. -/
def bytesItem (b : Bytes) : Bytes := itemHead 2 b.length ++ b

/-- An array of items. -/
def arrayItem (l : List Bytes) : Bytes := itemHead 4 l.length ++ l.flatten

/-- `null`. -/
def nullItem : Bytes := [0xF6]

/-- Bytes, or `null` in their absence. -/
def optItem : Option Bytes → Bytes
  | some b => bytesItem b
  | none => nullItem

/-- `OpenID4VPHandoverInfo = [clientId, nonce, jwkThumbprint, responseUri]`. -/
def redirectInfo (clientId nonce : Str) (thumbprint : Option Bytes) (responseUri : Str) : Bytes :=
  arrayItem [textItem clientId, textItem nonce, optItem thumbprint, textItem responseUri]

/-- `OpenID4VPDCAPIHandoverInfo = [origin, nonce, jwkThumbprint]`. -/
def dcApiInfo (origin nonce : Str) (thumbprint : Option Bytes) : Bytes :=
  arrayItem [textItem origin, textItem nonce, optItem thumbprint]

/-- `SessionTranscript = [DeviceEngagementBytes, EReaderKeyBytes, Handover]`, the first two `null`, and
`Handover = [identifier, hash]`. -/
def transcript (identifier : Str) (hash : Bytes) : Bytes :=
  arrayItem [nullItem, nullItem, arrayItem [textItem identifier, bytesItem hash]]

end Oid4vp.Spec
