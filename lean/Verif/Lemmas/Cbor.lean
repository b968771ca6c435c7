import Verif.Lemmas.Utf8
import Verif.Model.Iso
/-!
# Lemmas on CBOR
-/

set_option autoImplicit false

namespace Oid4vp

theorem beBytes_length (k n : Nat) : (beBytes k n).length = k := by
  induction k generalizing n with
  | zero => rfl
  | succ k ih => simp [beBytes, ih]

theorem beNat_append (b : Bytes) (x : UInt8) : beNat (b ++ [x]) = beNat b * 256 + x.toNat := by
  simp [beNat, List.foldl_append]

theorem beNat_beBytes (k n : Nat) (h : n < 256 ^ k) : beNat (beBytes k n) = n := by
  induction k generalizing n with
  | zero => simp at h; subst h; rfl
  | succ k ih =>
    rw [beBytes, beNat_append, ih (n / 256) (by rw [Nat.pow_succ] at h; omega)]
    have : (UInt8.ofNat (n % 256)).toNat = n % 256 := by
      simp
    rw [this]; omega

theorem takeN_append (a b : Bytes) : takeN a.length (a ++ b) = .ok (a, b) := by
  simp [takeN]

theorem takeN_beBytes (k n : Nat) (b : Bytes) : takeN k (beBytes k n ++ b) = .ok (beBytes k n, b) := by
  have := takeN_append (beBytes k n) b
  rwa [beBytes_length] at this

theorem ofNat_toNat {n : Nat} (h : n < 256) : (UInt8.ofNat n).toNat = n := by
  simp; omega

theorem cborPull_cborHead (major n : Nat) (rest : Bytes) (hm : major < 7) (hn : n < 2 ^ 64) :
    cborPull (cborHead major n ++ rest) = .ok (major, some n, rest) := by
  have h7 : major ≠ 7 := by omega
  unfold cborHead
  split
  · rename_i h
    simp only [List.cons_append, List.nil_append, cborPull, ofNat_toNat (show major * 32 + n < 256 by omega)]
    rw [show (major * 32 + n) / 32 = major by omega, show (major * 32 + n) % 32 = n by omega]
    simp [h]
  · split
    · rename_i h
      simp only [List.cons_append, cborPull, ofNat_toNat (show major * 32 + 24 < 256 by omega)]
      rw [show (major * 32 + 24) / 32 = major by omega, show (major * 32 + 24) % 32 = 24 by omega]
      simp [takeN_beBytes, h7, beNat_beBytes 1 n (by simpa using h)]
    · split
      · rename_i h
        simp only [List.cons_append, cborPull, ofNat_toNat (show major * 32 + 25 < 256 by omega)]
        rw [show (major * 32 + 25) / 32 = major by omega, show (major * 32 + 25) % 32 = 25 by omega]
        simp [takeN_beBytes, h7, beNat_beBytes 2 n (by simpa using h)]
      · split
        · rename_i h
          simp only [List.cons_append, cborPull, ofNat_toNat (show major * 32 + 26 < 256 by omega)]
          rw [show (major * 32 + 26) / 32 = major by omega, show (major * 32 + 26) % 32 = 26 by omega]
          simp [takeN_beBytes, h7, beNat_beBytes 4 n (by simpa using h)]
        · simp only [List.cons_append, cborPull, ofNat_toNat (show major * 32 + 27 < 256 by omega)]
          rw [show (major * 32 + 27) / 32 = major by omega, show (major * 32 + 27) % 32 = 27 by omega]
          simp [takeN_beBytes, h7, beNat_beBytes 8 n (by simpa using hn)]

theorem cborReadHead_cborHead (major n : Nat) (rest : Bytes) (hm : major < 7) (hn : n < 2 ^ 64) :
    cborReadHead (cborHead major n ++ rest) = .ok (major, n, rest) := by
  simp only [cborReadHead, cborPull_cborHead major n rest hm hn]

theorem cborTyped_cborHead (fuel major n : Nat) (rest : Bytes) (hm : major < 6) (hn : n < 2 ^ 64) :
    cborTyped (fuel + 1) (cborHead major n ++ rest) = .ok (major, some n, rest) := by
  simp only [cborTyped, cborPull_cborHead major n rest (by omega) hn]
  rw [if_neg (by omega)]

theorem cborReadText_enc (s : Str) (rest : Bytes) (h : (utf8 s).length < 2 ^ 64) :
    cborReadText (cborEnc (.text s) ++ rest) = .ok (s, rest) := by
  simp only [cborReadText, cborReadPieces, cborBody, cborEnc, List.append_assoc, cborTyped_cborHead _ 3 _ _ (by decide) h,
    if_true, takeN_append, utf8Pieces, utf8Dec_utf8, List.append_nil]

theorem cborReadBytes_enc (b : Bytes) (rest : Bytes) (h : b.length < 2 ^ 64) :
    cborReadBytes (cborEnc (.bytes b) ++ rest) = .ok (b, rest) := by
  simp only [cborReadBytes, cborBody, cborEnc, List.append_assoc,
    cborTyped_cborHead _ 2 _ _ (by decide) h, if_true, takeN_append, List.flatten_cons, List.flatten_nil,
    List.append_nil]

theorem cborReadArray_enc (l : List Cbor) (rest : Bytes) (h : l.length < 2 ^ 64) :
    cborReadArray (cborEnc (.array l) ++ rest) = .ok (some l.length, cborEncL l ++ rest) := by
  simp only [cborReadArray, cborEnc, List.append_assoc, cborTyped_cborHead _ 4 _ _ (by decide) h,
    if_true]

theorem cborReadUnit_enc (rest : Bytes) : cborReadUnit (cborEnc .null ++ rest) = .ok rest := by
  rfl

mutual
/-- All lengths fit. -/
def Cbor.Small : Cbor → Prop
  | .null => True
  | .text s => (utf8 s).length < 2 ^ 64
  | .bytes b => b.length < 2 ^ 64
  | .array l => l.length < 2 ^ 64 ∧ Cbor.SmallL l
/-- All lengths fit. -/
def Cbor.SmallL : List Cbor → Prop
  | [] => True
  | c :: cs => Cbor.Small c ∧ Cbor.SmallL cs
end

mutual
/-- Nesting depth. -/
def Cbor.depth : Cbor → Nat
  | .array l => Cbor.depthL l + 1
  | .null | .text _ | .bytes _ => 1
/-- Nesting depth. -/
def Cbor.depthL : List Cbor → Nat
  | [] => 0
  | c :: cs => max (Cbor.depth c) (Cbor.depthL cs)
end

mutual
theorem cborDec_enc (c : Cbor) (fuel : Nat) (rest : Bytes) (hs : c.Small) (hd : c.depth ≤ fuel) :
    cborDec fuel (cborEnc c ++ rest) = .ok (c, rest) := by
  match c, fuel with
  | .null, 0 => simp [Cbor.depth] at hd
  | .text _, 0 => simp [Cbor.depth] at hd
  | .bytes _, 0 => simp [Cbor.depth] at hd
  | .array _, 0 => simp [Cbor.depth] at hd
  | .null, fuel + 1 =>
    have : cborReadHead (cborEnc .null ++ rest) = .ok (7, 22, rest) := rfl
    simp only [cborDec, this]
    rfl
  | .text s, fuel + 1 =>
    simp only [Cbor.Small] at hs
    simp only [cborDec, cborEnc, List.append_assoc, cborReadHead_cborHead 3 _ _ (by decide) hs,
      takeN_append, utf8Dec_utf8]
    rfl
  | .bytes b, fuel + 1 =>
    simp only [Cbor.Small] at hs
    simp only [cborDec, cborEnc, List.append_assoc, cborReadHead_cborHead 2 _ _ (by decide) hs,
      takeN_append]
    rfl
  | .array l, fuel + 1 =>
    simp only [Cbor.Small] at hs
    simp only [Cbor.depth] at hd
    simp only [cborDec, cborEnc, List.append_assoc, cborReadHead_cborHead 4 _ _ (by decide) hs.1,
      cborElems_enc l fuel rest hs.2 (by omega)]
    rfl
theorem cborElems_enc (l : List Cbor) (fuel : Nat) (rest : Bytes) (hs : Cbor.SmallL l)
    (hd : Cbor.depthL l ≤ fuel) :
    cborDec.elems fuel l.length (cborEncL l ++ rest) = .ok (l, rest) := by
  match l with
  | [] => simp only [List.length_nil, cborDec.elems, cborEncL, List.nil_append]
  | c :: cs =>
    simp only [Cbor.SmallL] at hs
    simp only [Cbor.depthL] at hd
    simp only [List.length_cons, cborEncL, cborDec.elems, List.append_assoc,
      cborDec_enc c fuel (cborEncL cs ++ rest) hs.1 (by omega),
      cborElems_enc cs fuel rest hs.2 (by omega)]
end

/-- Encodings are uniquely decodable. -/
theorem cborEnc_inj {c c' : Cbor} {r r' : Bytes} (h : c.Small) (h' : c'.Small)
    (e : cborEnc c ++ r = cborEnc c' ++ r') : c = c' ∧ r = r' := by
  have h1 := cborDec_enc c (max c.depth c'.depth) r h (Nat.le_max_left _ _)
  have h2 := cborDec_enc c' (max c.depth c'.depth) r' h' (Nat.le_max_right _ _)
  rw [e, h2] at h1
  simp only [Except.ok.injEq, Prod.mk.injEq] at h1
  exact ⟨h1.1.symm, h1.2.symm⟩

end Oid4vp
