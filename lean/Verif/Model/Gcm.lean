import Verif.Model.EcdhEs

/-! # AES-GCM over a block cipher

The content encryptions `A128GCM`, `A192GCM` and `A256GCM` of the crate `josekit`, which the calls at
src/core/jwe.rs:140 and examples/verifier-conformance-adapter/crypto/jwe.rs:17 reach, after NIST SP 800-38D.
The block cipher is a parameter, and so are the other content encryptions.
-/

set_option autoImplicit false

namespace Oid4vp
namespace Gcm

/-- A block cipher: key, block, and the 16 bytes of the result (AES, inside `josekit`, src/core/jwe.rs:140).
A parameter of the model. -/
abbrev Cipher := Bytes → Bytes → Fin 16 → UInt8

/-- The bits of a byte, the most significant first (arithmetic inside `josekit`, src/core/jwe.rs:140). -/
def byteBits (b : UInt8) : List Bool :=
  [b.toNat.testBit 7, b.toNat.testBit 6, b.toNat.testBit 5, b.toNat.testBit 4, b.toNat.testBit 3,
    b.toNat.testBit 2, b.toNat.testBit 1, b.toNat.testBit 0]

/-- The bits of bytes (arithmetic inside `josekit`, src/core/jwe.rs:140). -/
def bits (b : Bytes) : List Bool := b.flatMap byteBits

/-- The byte of eight bits (arithmetic inside `josekit`, src/core/jwe.rs:140). -/
def ofByteBits (l : List Bool) : UInt8 := UInt8.ofNat (l.foldl (fun n b => 2 * n + b.toNat) 0)

/-- The bytes of bits (arithmetic inside `josekit`, src/core/jwe.rs:140). -/
def ofBits : Nat → List Bool → Bytes
  | 0, _ => []
  | k + 1, l => ofByteBits (l.take 8) :: ofBits k (l.drop 8)

/-- Adding blocks (arithmetic inside `josekit`, src/core/jwe.rs:140). -/
def add (x y : List Bool) : List Bool := List.zipWith xor x y

/-- The polynomial `1 + X + X² + X⁷` (arithmetic inside `josekit`, src/core/jwe.rs:140). -/
def red : List Bool := true :: true :: true :: false :: false :: false :: false :: true :: List.replicate 120 false

/-- Multiplying a block by `X` (SP 800-38D §6.3, step 3; inside `josekit`, src/core/jwe.rs:140). -/
def mulX (v : List Bool) : List Bool :=
  if v.getLast? = some true then add (false :: v.dropLast) red else false :: v.dropLast

/-- Multiplying blocks (SP 800-38D §6.3; inside `josekit`, src/core/jwe.rs:140). -/
def mul : List Bool → List Bool → List Bool
  | [], _ => List.replicate 128 false
  | b :: x, v => add (if b then v else List.replicate 128 false) (mul x (mulX v))

/-- Hashing blocks (SP 800-38D §6.4; inside `josekit`, src/core/jwe.rs:140). -/
def ghash (h : List Bool) (blocks : List Bytes) : List Bool :=
  blocks.foldl (fun y x => mul (add y (bits x)) h) (List.replicate 128 false)

/-- Bytes in blocks of 16, the last filled with zeros (SP 800-38D §7.1, steps 4 and 5; inside `josekit`,
src/core/jwe.rs:140). -/
def blocksOf : Nat → Bytes → List Bytes
  | 0, _ => []
  | f + 1, b =>
    if b.isEmpty then []
    else (b.take 16 ++ List.replicate (16 - b.length) 0) :: blocksOf f (b.drop 16)

/-- The blocks that are hashed (SP 800-38D §7.1, step 5; inside `josekit`, src/core/jwe.rs:140). -/
def hashed (aad ct : Bytes) : List Bytes :=
  blocksOf aad.length aad ++ (blocksOf ct.length ct ++ [beBytes 8 (8 * aad.length) ++ beBytes 8 (8 * ct.length)])

/-- Counter mode from the counter `n` on (SP 800-38D §6.5; inside `josekit`, src/core/jwe.rs:140). -/
def ctr (e : Bytes → Fin 16 → UInt8) (iv : Bytes) : Nat → Nat → Bytes → Bytes
  | 0, _, _ => []
  | f + 1, n, text =>
    if text.isEmpty then []
    else List.zipWith (· ^^^ ·) (text.take 16) (List.ofFn (e (iv ++ beBytes 4 n))) ++ ctr e iv f (n + 1) (text.drop 16)

/-- The tag (SP 800-38D §7.1, steps 5 and 6; inside `josekit`, src/core/jwe.rs:140). -/
def tagOf (e : Bytes → Fin 16 → UInt8) (iv aad ct : Bytes) : Bytes :=
  ofBits 16 (add (ghash (bits (List.ofFn (e (List.replicate 16 0)))) (hashed aad ct))
    (bits (List.ofFn (e (iv ++ beBytes 4 1)))))

/-- The content encryptions that are GCM (RFC 7518 §5.3; the `enc` of src/core/jwe.rs:109,129). -/
def isGcm (enc : Str) : Bool := enc = c!"A128GCM" || enc = c!"A192GCM" || enc = c!"A256GCM"

/-- The content encryptions (inside `josekit`, src/core/jwe.rs:140,
examples/verifier-conformance-adapter/crypto/jwe.rs:17), those other than GCM being `other`. The crate also
checks the length of the key; here keys come from `EcdhEs.contentKey`, which gives them the length of `enc`. -/
def aead (c : Cipher) (other : EcdhEs.Aead) : EcdhEs.Aead where
  lock enc ck iv aad plain :=
    if isGcm enc then
      if iv.length = 12 then
        let ct := ctr (c ck) iv plain.length 2 plain
        .ok (ct, tagOf (c ck) iv aad ct)
      else .error .parse
    else other.lock enc ck iv aad plain
  unlock enc ck iv aad ct tag :=
    if isGcm enc then
      if iv.length = 12 then
        if tag = tagOf (c ck) iv aad ct then .ok (ctr (c ck) iv ct.length 2 ct) else .error .decode
      else .error .parse
    else other.unlock enc ck iv aad ct tag

end Gcm
end Oid4vp
