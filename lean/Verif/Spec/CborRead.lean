import Verif.Spec.Iso
/-!
# Which bytes are CBOR items of a given kind (RFC 8949, sections 3 and 3.2)

Heads in any of their forms, tags before an item, strings in pieces, and arrays whose end is marked.
Nothing here refers to the model's decoder.
-/

set_option autoImplicit false

namespace Oid4vp.Spec

/-- Initial byte and argument of an item, not necessarily in the shortest form. -/
inductive Head : Bytes → Nat → Nat → Prop
  | small {major n : Nat} (h : n < 24) : Head [UInt8.ofNat (32 * major + n)] major n
  | long {major n info k : Nat} (hk : (info, k) ∈ [(24, 1), (25, 2), (26, 4), (27, 8)]) (h : n < 256 ^ k) :
      Head (UInt8.ofNat (32 * major + info) :: bigEndian k n) major n

/-- Any number of tags. -/
inductive Tags : Bytes → Prop
  | nil : Tags []
  | cons {t w : Bytes} {n : Nat} (h : Head t 6 n) (hw : Tags w) : Tags (t ++ w)

/-- Initial byte of an item of indefinite length. -/
def openByte (major : Nat) : UInt8 := UInt8.ofNat (32 * major + 31)

/-- The break that ends it. -/
def breakByte : UInt8 := 0xFF

/-- The strings inside a string of indefinite length, and their contents. -/
inductive Pieces (major : Nat) : Bytes → List Bytes → Prop
  | nil : Pieces major [] []
  | piece {h x w : Bytes} {l : List Bytes} (hh : Head h major x.length) (hw : Pieces major w l) :
      Pieces major (h ++ x ++ w) (x :: l)
  | group {v w : Bytes} {l l' : List Bytes} (hv : Pieces major v l) (hw : Pieces major w l') :
      Pieces major (openByte major :: v ++ breakByte :: w) (l ++ l')

/-- A string of the major type, in one piece or in several. -/
inductive StringItem (major : Nat) : Bytes → List Bytes → Prop
  | whole {t h x : Bytes} (ht : Tags t) (hh : Head h major x.length) : StringItem major (t ++ h ++ x) [x]
  | pieces {t v : Bytes} {l : List Bytes} (ht : Tags t) (hv : Pieces major v l) :
      StringItem major (t ++ openByte major :: v ++ [breakByte]) l

/-- A string without tags, in one piece or in several. -/
inductive BareString (major : Nat) : Bytes → List Bytes → Prop
  | whole {h x : Bytes} (hh : Head h major x.length) : BareString major (h ++ x) [x]
  | pieces {v : Bytes} {l : List Bytes} (hv : Pieces major v l) :
      BareString major (openByte major :: v ++ [breakByte]) l

/-- Any number of tags that do not announce a big number. -/
inductive OtherTags : Bytes → Prop
  | nil : OtherTags []
  | cons {t w : Bytes} {n : Nat} (h : Head t 6 n) (hn : n ≠ 2 ∧ n ≠ 3) (hw : OtherTags w) : OtherTags (t ++ w)

/-- A number that is a byte, as an integer or as a big number: its last byte after any number of zeros. -/
inductive ByteNumber : Bytes → UInt8 → Prop
  | plain {t h : Bytes} {x : UInt8} (ht : OtherTags t) (hh : Head h 0 x.toNat) : ByteNumber (t ++ h) x
  | big {t h w : Bytes} {l : List Bytes} {k : Nat} {x : UInt8} (ht : OtherTags t) (hh : Head h 6 2)
      (hw : BareString 2 w l) (hv : l.flatten = List.replicate k 0 ++ [x] ∨ l.flatten = [] ∧ x = 0) :
      ByteNumber (t ++ h ++ w) x

/-- Numbers that are bytes, one after another. -/
inductive ByteNumbers : Bytes → Bytes → Prop
  | nil : ByteNumbers [] []
  | cons {w v x : Bytes} {b : UInt8} (hw : ByteNumber w b) (hv : ByteNumbers v x) : ByteNumbers (w ++ v) (b :: x)

/-- A byte string, or an array of numbers that are bytes. -/
inductive BytesOf : Bytes → Bytes → Prop
  | string {w : Bytes} {l : List Bytes} (h : StringItem 2 w l) : BytesOf w l.flatten
  | sized {t h v x : Bytes} (ht : Tags t) (hh : Head h 4 x.length) (hv : ByteNumbers v x) : BytesOf (t ++ h ++ v) x
  | marked {t v x : Bytes} (ht : Tags t) (hv : ByteNumbers v x) : BytesOf (t ++ openByte 4 :: v ++ [breakByte]) x

/-- A text string: every piece is UTF-8. -/
def TextOf (w : Bytes) (s : Str) : Prop :=
  ∃ l : List Str, StringItem 3 w (l.map utf8Text) ∧ s = l.flatten

/-- `null` or `undefined`. -/
def NullOf (w : Bytes) : Prop :=
  ∃ t v, Tags t ∧ v ∈ [[0xF6], [0xF7], [0xF8, 0x16], [0xF8, 0x17]] ∧ w = t ++ v

/-- The beginning of an array that says that it has at least `k` elements. -/
def SizedArray (k : Nat) (w : Bytes) : Prop := ∃ t h n, Tags t ∧ Head h 4 n ∧ k ≤ n ∧ w = t ++ h

/-- The beginning of an array of indefinite length. -/
def OpenArray (w : Bytes) : Prop := ∃ t, Tags t ∧ w = t ++ [openByte 4]

/-- A handover with the identifier and the hash; more elements may follow in the array. -/
def HandoverItem (identifier : Str) (w hash : Bytes) : Prop :=
  ∃ a i b, (SizedArray 2 a ∨ OpenArray a) ∧ TextOf i identifier ∧ BytesOf b hash ∧ w = a ++ i ++ b

/-- A transcript whose third element is a handover. Where the length is indefinite, a break is taken
for a missing element, and reading goes on after it. -/
def TranscriptItem (identifier : Str) (w hash : Bytes) : Prop :=
  ∃ a u v b, w = a ++ u ++ v ++ b ∧ HandoverItem identifier b hash ∧
    ((SizedArray 3 a ∧ NullOf u ∧ NullOf v) ∨
     (OpenArray a ∧ (NullOf u ∨ u = [breakByte]) ∧ (NullOf v ∨ v = [breakByte])))

end Oid4vp.Spec
