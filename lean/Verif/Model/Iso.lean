import Verif.Model.AuthRequest
/-!
# ISO 18013-7 handovers and session transcripts (src/core/iso_18013_7/mod.rs)
-/

set_option autoImplicit false

namespace Oid4vp

/-! ## CBOR (crate `ciborium`), the part that is used -/

/-- `ciborium::Value`, restricted to the constructors the library builds. -/
inductive Cbor where
  | null
  | text (s : Str)
  | bytes (b : Bytes)
  | array (l : List Cbor)
deriving Repr

/-- `n` as `k` big-endian bytes. -/
def beBytes : Nat → Nat → Bytes
  | 0, _ => []
  | k + 1, n => beBytes k (n / 256) ++ [UInt8.ofNat (n % 256)]

/-- Value of big-endian bytes. -/
def beNat (b : Bytes) : Nat := b.foldl (fun n x => n * 256 + x.toNat) 0

/-- Head of a data item: major type and argument, shortest form
(`ciborium_ll::Encoder`). Arguments are lengths, below `2 ^ 64`. -/
def cborHead (major n : Nat) : Bytes :=
  if n < 24 then [UInt8.ofNat (major * 32 + n)]
  else if n < 256 then UInt8.ofNat (major * 32 + 24) :: beBytes 1 n
  else if n < 65536 then UInt8.ofNat (major * 32 + 25) :: beBytes 2 n
  else if n < 4294967296 then UInt8.ofNat (major * 32 + 26) :: beBytes 4 n
  else UInt8.ofNat (major * 32 + 27) :: beBytes 8 n

mutual
/-- `ciborium::into_writer` (`cbor_to_bytes`, src/core/iso_18013_7/mod.rs:364-368). -/
def cborEnc : Cbor → Bytes
  | .null => [UInt8.ofNat 0xF6]
  | .text s => cborHead 3 (utf8 s).length ++ utf8 s
  | .bytes b => cborHead 2 b.length ++ b
  | .array l => cborHead 4 l.length ++ cborEncL l
/-- `cborEnc` on the elements of an array. -/
def cborEncL : List Cbor → Bytes
  | [] => []
  | c :: cs => cborEnc c ++ cborEncL cs
end

/-- Take exactly `n` bytes. -/
def takeN (n : Nat) (b : Bytes) : Res (Bytes × Bytes) :=
  if n ≤ b.length then .ok (b.take n, b.drop n) else .error .decode

/-- Read a head (`ciborium_ll::Decoder::pull`): major type, argument and the rest. Any argument is
accepted, also in longer than shortest form. The argument is missing where the length is indefinite,
and for the break that ends what has indefinite length (major type 7). Major type 7 with an argument
of 2, 4 or 8 bytes is a floating-point number, for which the major type is given as 8. -/
def cborPull : Bytes → Res (Nat × Option Nat × Bytes)
  | [] => .error .decode
  | b :: bs =>
    let major := b.toNat / 32
    let arg := b.toNat % 32
    if arg < 24 then .ok (major, some arg, bs)
    else if arg = 31 then
      if major = 0 ∨ major = 1 ∨ major = 6 then .error .decode else .ok (major, none, bs)
    else
      match (if arg = 24 then some 1 else if arg = 25 then some 2
        else if arg = 26 then some 4 else if arg = 27 then some 8 else none) with
      | none => .error .decode
      | some k => match takeN k bs with
        | .error e => .error e
        | .ok (x, r) => .ok (if major = 7 ∧ k ≠ 1 then 8 else major, some (beNat x), r)

/-- A head with an argument. -/
def cborReadHead (b : Bytes) : Res (Nat × Nat × Bytes) :=
  match cborPull b with
  | .error e => .error e
  | .ok (_, none, _) => .error .decode
  | .ok (major, some n, r) => .ok (major, n, r)

/-- The head of a value that is read as a given type: `ciborium` skips the tags (major type 6) before
it. The first argument bounds the number of heads read. -/
def cborTyped : Nat → Bytes → Res (Nat × Option Nat × Bytes)
  | 0, _ => .error .decode
  | fuel + 1, b =>
    match cborPull b with
    | .error e => .error e
    | .ok (major, a, r) => if major = 6 then cborTyped fuel r else .ok (major, a, r)

/-- The pieces of a string of indefinite length (`ciborium_ll::Segments`): strings of definite length,
or again of indefinite length, up to the break. The second argument is the number of strings of
indefinite length inside the first that are open. -/
def cborPieces (major : Nat) : Nat → Nat → Bytes → Res (List Bytes × Bytes)
  | 0, _, _ => .error .decode
  | fuel + 1, d, b =>
    match cborPull b with
    | .error e => .error e
    | .ok (m, a, r) =>
      if m = 7 ∧ a = none then
        match d with
        | 0 => .ok ([], r)
        | d + 1 => cborPieces major fuel d r
      else if m = major then
        match a with
        | none => cborPieces major fuel (d + 1) r
        | some n => match takeN n r with
          | .error e => .error e
          | .ok (x, r) => match cborPieces major fuel d r with
            | .error e => .error e
            | .ok (l, r) => .ok (x :: l, r)
      else .error .decode

/-- The pieces of a string after its head (`ciborium_ll::Decoder::bytes`, `text`). -/
def cborBody (major : Nat) (a : Option Nat) (r : Bytes) : Res (List Bytes × Bytes) :=
  match a with
  | none => cborPieces major (r.length + 1) 0 r
  | some n => match takeN n r with
    | .error e => .error e
    | .ok (x, r) => .ok ([x], r)

/-- Read a string of the major type, as its pieces. -/
def cborReadPieces (major : Nat) (b : Bytes) : Res (List Bytes × Bytes) :=
  match cborTyped (b.length + 1) b with
  | .error e => .error e
  | .ok (m, a, r) => if m = major then cborBody major a r else .error .decode

/-- Each piece of a text is UTF-8 by itself. -/
def utf8Pieces : List Bytes → Option Str
  | [] => some []
  | x :: l => match utf8Dec x with
    | none => none
    | some s => match utf8Pieces l with
      | none => none
      | some t => some (s ++ t)

/-- Read a text string (`deserialize_string`). -/
def cborReadText (b : Bytes) : Res (Str × Bytes) :=
  match cborReadPieces 3 b with
  | .error e => .error e
  | .ok (l, r) => match utf8Pieces l with
    | none => .error .decode
    | some s => .ok (s, r)

/-- Read the head of an array: the number of elements, if it is said. -/
def cborReadArray (b : Bytes) : Res (Option Nat × Bytes) :=
  match cborTyped (b.length + 1) b with
  | .error e => .error e
  | .ok (major, a, r) => if major = 4 then .ok (a, r) else .error .decode

/-- Is there another element (`next_element`)? If so, what remains to be read after it is an array
of the returned number of elements. -/
def cborMore : Option Nat → Bytes → Res (Option (Option Nat))
  | some 0, _ => .ok none
  | some (n + 1), _ => .ok (some (some n))
  | none, b => match cborPull b with
    | .error e => .error e
    | .ok (major, a, _) => if major = 7 ∧ a = none then .ok none else .ok (some none)

/-- Read a number as `u8` (`deserialize_u8`): a non-negative integer, or a big number (tag 2, then directly a
byte string), below 256. Other tags are skipped; a negative big number (tag 3) is refused. The first argument
bounds the number of heads read. -/
def cborReadU8 : Nat → Bytes → Res (UInt8 × Bytes)
  | 0, _ => .error .decode
  | fuel + 1, b =>
    match cborPull b with
    | .error e => .error e
    | .ok (_, none, _) => .error .decode
    | .ok (major, some n, r) =>
      if major = 0 then
        if n < 256 then .ok (UInt8.ofNat n, r) else .error .decode
      else if major = 6 then
        if n = 2 then
          match cborPull r with
          | .error e => .error e
          | .ok (m, a, r) =>
            if m = 2 then
              match cborBody 2 a r with
              | .error e => .error e
              | .ok (l, r) =>
                if beNat l.flatten < 256 then .ok (UInt8.ofNat (beNat l.flatten), r) else .error .decode
            else .error .decode
        else if n = 3 then .error .decode
        else cborReadU8 fuel r
      else .error .decode

/-- Read the elements of an array as `u8` up to its end. The first argument bounds their number. -/
def cborReadNumbers : Nat → Option Nat → Bytes → Res (Bytes × Bytes)
  | 0, _, _ => .error .decode
  | fuel + 1, n, b =>
    match cborMore n b with
    | .error e => .error e
    | .ok none => .ok ([], if n = none then b.drop 1 else b)
    | .ok (some n) => match cborReadU8 (b.length + 1) b with
      | .error e => .error e
      | .ok (x, r) => match cborReadNumbers fuel n r with
        | .error e => .error e
        | .ok (xs, r) => .ok (x :: xs, r)

/-- Read a byte string (`deserialize_byte_buf` for `serde_bytes::ByteBuf`): a byte string, or an array of
numbers below 256. -/
def cborReadBytes (b : Bytes) : Res (Bytes × Bytes) :=
  match cborTyped (b.length + 1) b with
  | .error e => .error e
  | .ok (m, a, r) =>
    if m = 2 then
      match cborBody 2 a r with
      | .error e => .error e
      | .ok (l, r) => .ok (l.flatten, r)
    else if m = 4 then cborReadNumbers (r.length + 1) a r
    else .error .decode

/-- Read `null` (or `undefined`) as `()`. -/
def cborReadUnit (b : Bytes) : Res Bytes :=
  match cborTyped (b.length + 1) b with
  | .error e => .error e
  | .ok (major, a, r) => if major = 7 ∧ (a = some 22 ∨ a = some 23) then .ok r else .error .decode

/-- `ciborium::from_reader::<Value>`, with the nesting depth as fuel (the crate's recursion
limit is 256). Simplified: only the constructors of `Cbor`, with definite lengths. -/
def cborDec : Nat → Bytes → Res (Cbor × Bytes)
  | 0, _ => .error .recursion
  | fuel + 1, b =>
    match cborReadHead b with
    | .error e => .error e
    | .ok (major, n, r) =>
      if major = 2 then
        match takeN n r with
        | .error e => .error e
        | .ok (x, r) => .ok (.bytes x, r)
      else if major = 3 then
        match takeN n r with
        | .error e => .error e
        | .ok (x, r) => match utf8Dec x with
          | none => .error .decode
          | some s => .ok (.text s, r)
      else if major = 4 then
        let rec elems : Nat → Bytes → Res (List Cbor × Bytes)
          | 0, r => .ok ([], r)
          | k + 1, r => match cborDec fuel r with
            | .error e => .error e
            | .ok (c, r) => match elems k r with
              | .error e => .error e
              | .ok (cs, r) => .ok (c :: cs, r)
        match elems n r with
        | .error e => .error e
        | .ok (l, r) => .ok (.array l, r)
      else if major = 7 ∧ (n = 22 ∨ n = 23) then .ok (.null, r)
      else .error .decode

/-- Recursion limit of `ciborium::from_reader`. -/
def cborMaxDepth : Nat := 256

/-! ## Handovers -/

/-- `HANDOVER_TYPE_IDENTIFIER` (src/core/iso_18013_7/mod.rs:7). -/
def handoverId : Str := c!"OpenID4VPHandover"

/-- `DC_API_HANDOVER_TYPE_IDENTIFIER` (src/core/iso_18013_7/mod.rs:10). -/
def dcApiHandoverId : Str := c!"OpenID4VPDCAPIHandover"

/-- `Handover` (src/core/iso_18013_7/mod.rs:20-24). -/
structure Handover where
  infoHash : Bytes
deriving DecidableEq, Repr

/-- `DcApiHandover` (src/core/iso_18013_7/mod.rs:149-151). -/
structure DcApiHandover where
  infoHash : Bytes
deriving DecidableEq, Repr

/-- The thumbprint entry (src/core/iso_18013_7/mod.rs:44-47,165-168). -/
def thumbprintCbor : Option Bytes → Cbor
  | some b => .bytes b
  | none => .null

/-- `OpenID4VPHandoverInfo` as bytes (src/core/iso_18013_7/mod.rs:49-58). -/
def handoverInfo (clientId nonce : Str) (thumb : Option Bytes) (responseUri : Str) : Bytes :=
  cborEnc (.array [.text clientId, .text nonce, thumbprintCbor thumb, .text responseUri])

/-- `OpenID4VPDCAPIHandoverInfo` as bytes (src/core/iso_18013_7/mod.rs:170-178). -/
def dcApiHandoverInfo (origin nonce : Str) (thumb : Option Bytes) : Bytes :=
  cborEnc (.array [.text origin, .text nonce, thumbprintCbor thumb])

/-- `Handover::new` (src/core/iso_18013_7/mod.rs:37-64); encoding into a vector cannot
fail. -/
def Handover.new (sha : Bytes → Bytes) (clientId nonce : Str) (thumb : Option Bytes)
    (responseUri : Str) : Handover := ⟨sha (handoverInfo clientId nonce thumb responseUri)⟩

/-- `DcApiHandover::new` (src/core/iso_18013_7/mod.rs:163-184). -/
def DcApiHandover.new (sha : Bytes → Bytes) (origin nonce : Str) (thumb : Option Bytes) :
    DcApiHandover := ⟨sha (dcApiHandoverInfo origin nonce thumb)⟩

/-- The two kinds of handover: identifier, hash, and construction from a hash. -/
class IsHandover (H : Type) where
  ident : Str
  hash : H → Bytes
  ofHash : Bytes → H

/-- (src/core/iso_18013_7/mod.rs:83-138) -/
instance : IsHandover Handover := ⟨handoverId, Handover.infoHash, Handover.mk⟩
/-- (src/core/iso_18013_7/mod.rs:203-257) -/
instance : IsHandover DcApiHandover := ⟨dcApiHandoverId, DcApiHandover.infoHash, DcApiHandover.mk⟩

/-- `to_cbor_bytes` of both kinds (src/core/iso_18013_7/mod.rs:74-80,194-200), and their
`Serialize` (src/core/iso_18013_7/mod.rs:83-95,203-214), which writes the same bytes. -/
def handoverBytes {H : Type} [IsHandover H] (h : H) : Bytes :=
  cborEnc (.array [.text (IsHandover.ident H), .bytes (IsHandover.hash h)])

/-- `Deserialize` of both kinds (src/core/iso_18013_7/mod.rs:97-138,216-257): an array,
the identifier, the hash; further elements of the array are left unread. -/
def handoverOfBytes (H : Type) [IsHandover H] (b : Bytes) : Res (H × Bytes) :=
  match cborReadArray b with
  | .error e => .error e
  | .ok (n, r) => match cborMore n r with
    | .error e => .error e
    | .ok none => .error .decode
    | .ok (some n) => match cborReadText r with
      | .error e => .error e
      | .ok (t, r) =>
        if t ≠ IsHandover.ident H then .error .mismatch
        else match cborMore n r with
          | .error e => .error e
          | .ok none => .error .decode
          | .ok (some _) => match cborReadBytes r with
            | .error e => .error e
            | .ok (x, r) => .ok (IsHandover.ofHash x, r)

/-- `SessionTranscript` (src/core/iso_18013_7/mod.rs:268-270). -/
structure SessionTranscript (H : Type) where
  handover : H
deriving DecidableEq, Repr

/-- `SessionTranscript::to_cbor_bytes` (src/core/iso_18013_7/mod.rs:293-305): serialise the
handover, read it back as a CBOR value, put it in the array. -/
def SessionTranscript.toCborBytes {H : Type} [IsHandover H] (s : SessionTranscript H) :
    Res Bytes :=
  match cborDec cborMaxDepth (handoverBytes s.handover) with
  | .error e => .error e
  | .ok (c, _) => .ok (cborEnc (.array [.null, .null, c]))

/-- `Serialize for SessionTranscript` (src/core/iso_18013_7/mod.rs:316-328), as bytes. -/
def SessionTranscript.serialize {H : Type} [IsHandover H] (s : SessionTranscript H) : Bytes :=
  cborHead 4 3 ++ (cborEnc .null ++ (cborEnc .null ++ handoverBytes s.handover))

/-- An optional element that is read as `()`: `seq.next_element::<()>()?`. At the end of an array of
indefinite length its break is consumed. -/
def cborOptUnit (n : Option Nat) (b : Bytes) : Res (Option Nat × Bytes) :=
  match cborMore n b with
  | .error e => .error e
  | .ok none => .ok (n, if n = none then b.drop 1 else b)
  | .ok (some n) => match cborReadUnit b with
    | .error e => .error e
    | .ok r => .ok (n, r)

/-- `Deserialize for SessionTranscript` (src/core/iso_18013_7/mod.rs:330-361). -/
def SessionTranscript.ofBytes (H : Type) [IsHandover H] (b : Bytes) :
    Res (SessionTranscript H × Bytes) :=
  match cborReadArray b with
  | .error e => .error e
  | .ok (n, r) => match cborOptUnit n r with
    | .error e => .error e
    | .ok (n, r) => match cborOptUnit n r with
      | .error e => .error e
      | .ok (n, r) => match cborMore n r with
        | .error e => .error e
        | .ok none => .error .decode
        | .ok (some _) => match handoverOfBytes H r with
          | .error e => .error e
          | .ok (h, r) => .ok (⟨h⟩, r)

/-! ## JWK thumbprints -/

/-- A string member of a JSON value: `get(k).and_then(as_str)`. -/
def jsonStr (k : Str) (j : Json) : Option Str := (j.get? k).bind Json.asStr?

/-- The canonical JSON of `compute_jwk_thumbprint` (src/core/iso_18013_7/mod.rs:427-466).
The texts are placed between quotes without escaping. -/
def thumbprintInput (jwk : Json) : Res Str :=
  match jsonStr c!"kty" jwk with
  | none => .error .missing
  | some kty =>
    if kty = c!"EC" then
      match jsonStr c!"crv" jwk with
      | none => .error .missing
      | some crv => match jsonStr c!"x" jwk with
        | none => .error .missing
        | some x => match jsonStr c!"y" jwk with
          | none => .error .missing
          | some y => .ok (c!"{\"crv\":\"" ++ crv ++ c!"\",\"kty\":\"EC\",\"x\":\"" ++ x
              ++ c!"\",\"y\":\"" ++ y ++ c!"\"}")
    else if kty = c!"RSA" then
      match jsonStr c!"e" jwk with
      | none => .error .missing
      | some e => match jsonStr c!"n" jwk with
        | none => .error .missing
        | some n => .ok (c!"{\"e\":\"" ++ e ++ c!"\",\"kty\":\"RSA\",\"n\":\"" ++ n ++ c!"\"}")
    else .error .unsupported

/-- `compute_jwk_thumbprint` (src/core/iso_18013_7/mod.rs:427-470). -/
def computeJwkThumbprint (sha : Bytes → Bytes) (jwk : Json) : Res Bytes :=
  match thumbprintInput jwk with
  | .error e => .error e
  | .ok s => .ok (sha (utf8 s))

/-- The `find_map` over the keys (src/core/iso_18013_7/mod.rs:391-406): the first key that
is for encryption (or does not say) and whose thumbprint can be computed. -/
def findThumbprint (sha : Bytes → Bytes) : List (List (Str × Json)) → Option Bytes
  | [] => none
  | k :: ks =>
    match (match (mget c!"use" k).bind Json.asStr? with
      | some u => if u = c!"enc" then some () else none
      | none => some ()) with
    | none => findThumbprint sha ks
    | some () => match computeJwkThumbprint sha (.obj k) with
      | .ok t => some t
      | .error _ => findThumbprint sha ks

/-- `get_encryption_jwk_thumbprint` (src/core/iso_18013_7/mod.rs:383-407). -/
def getEncryptionJwkThumbprint (sha : Bytes → Bytes) (a : RequestObject) : Option Bytes :=
  match a.clientMetadata with
  | .error _ => none
  | .ok cm => match parsingError cm.jwks with
    | .error _ => none
    | .ok jwks => findThumbprint sha jwks.keys

end Oid4vp
