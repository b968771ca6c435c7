import Verif.Model.Base64
import Verif.Lemmas.Utf8
/-!
# Base64 lemmas
-/

set_option autoImplicit false

namespace Oid4vp

theorem b64Val_b64Char : ∀ (a : B64) (n : Fin 64), b64Val a (b64Char a n.val) = some n.val := by
  intro a; cases a <;> decide

theorem b64Val_char {a : B64} {n : Nat} (h : n < 64) : b64Val a (b64Char a n) = some n :=
  b64Val_b64Char a ⟨n, h⟩

theorem b64Char_of_val {a : B64} {c : Char} {n : Nat} (h : b64Val a c = some n) :
    n < 64 ∧ b64Char a n = c := by
  simp only [b64Val] at h
  have key : ∀ m, m = c.toNat → Char.ofNat m = c := by
    intro m e; rw [e, Char.ofNat_toNat]
  split at h
  · simp at h; subst h
    refine ⟨by omega, ?_⟩
    simp only [b64Char]; rw [if_pos (by omega)]; exact key _ (by omega)
  · split at h
    · simp at h; subst h
      refine ⟨by omega, ?_⟩
      simp only [b64Char]; rw [if_neg (by omega), if_pos (by omega)]; exact key _ (by omega)
    · split at h
      · simp at h; subst h
        refine ⟨by omega, ?_⟩
        simp only [b64Char]
        rw [if_neg (by omega), if_neg (by omega), if_pos (by omega)]; exact key _ (by omega)
      · cases a
        all_goals
          simp only at h
          split at h
          · next e => simp at h; subst h; subst e; exact ⟨by omega, by decide⟩
          · split at h
            · next e => simp at h; subst h; subst e; exact ⟨by omega, by decide⟩
            · simp at h

theorem b64Dec_b64Enc (a : B64) (b : Bytes) : b64Dec a (b64Enc a b) = some b := by
  have hlt := fun x : UInt8 => x.toNat_lt
  have key : ∀ (x : UInt8) (n : Nat), n = x.toNat → UInt8.ofNat n = x := by
    intro x n e; rw [e, u8_ofNat_toNat]
  match b with
  | x :: y :: z :: r =>
    have hx := hlt x; have hy := hlt y; have hz := hlt z
    simp only [b64Enc, b64Dec]
    rw [b64Val_char (by omega), b64Val_char (by omega), b64Val_char (by omega),
      b64Val_char (by omega), b64Dec_b64Enc a r]
    simp only [Option.some.injEq, List.cons.injEq, and_true]
    exact ⟨key x _ (by omega), key y _ (by omega), key z _ (by omega)⟩
  | [x, y] =>
    have hx := hlt x; have hy := hlt y
    simp only [b64Enc, b64Dec]
    rw [b64Val_char (by omega), b64Val_char (by omega), b64Val_char (by omega)]
    simp only
    rw [if_pos (by omega)]
    simp only [Option.some.injEq, List.cons.injEq, and_true]
    exact ⟨key x _ (by omega), key y _ (by omega)⟩
  | [x] =>
    have hx := hlt x
    simp only [b64Enc, b64Dec]
    rw [b64Val_char (by omega), b64Val_char (by omega)]
    simp only
    rw [if_pos (by omega)]
    simp only [Option.some.injEq, List.cons.injEq, and_true]
    exact key x _ (by omega)
  | [] => rfl

theorem b64_arith {N : Nat} (h : N % 4 = 0) : N / 1024 * 1024 + N / 4 % 256 * 4 = N := by
  omega

theorem b64Enc_b64Dec {a : B64} {s : Str} {b : Bytes} (h : b64Dec a s = some b) :
    b64Enc a b = s := by
  match s with
  | p :: q :: r :: t :: rest =>
    simp only [b64Dec] at h
    split at h
    · next vp vq vr vt bs h1 h2 h3 h4 h5 =>
      obtain ⟨l1, e1⟩ := b64Char_of_val h1
      obtain ⟨l2, e2⟩ := b64Char_of_val h2
      obtain ⟨l3, e3⟩ := b64Char_of_val h3
      obtain ⟨l4, e4⟩ := b64Char_of_val h4
      simp only [Option.some.injEq] at h; subst h
      simp only [b64Enc, b64Enc_b64Dec h5, List.cons.injEq, and_true]
      rw [u8_toNat_ofNat (by omega), u8_toNat_ofNat (by omega), u8_toNat_ofNat (by omega)]
      rw [← e1, ← e2, ← e3, ← e4]
      refine ⟨?_, ?_, ?_, ?_⟩ <;> congr 1 <;> omega
    · simp at h
  | [p, q, r] =>
    simp only [b64Dec] at h
    split at h
    · next vp vq vr h1 h2 h3 =>
      obtain ⟨l1, e1⟩ := b64Char_of_val h1
      obtain ⟨l2, e2⟩ := b64Char_of_val h2
      obtain ⟨l3, e3⟩ := b64Char_of_val h3
      split at h
      · next hm =>
        simp only [Option.some.injEq] at h; subst h
        simp only [b64Enc]
        rw [u8_toNat_ofNat (by omega), u8_toNat_ofNat (by omega)]
        simp only [List.cons.injEq, and_true]
        rw [← e1, ← e2, ← e3]
        have hN : (vp * 4096 + vq * 64 + vr) / 1024 * 1024
            + (vp * 4096 + vq * 64 + vr) / 4 % 256 * 4 = vp * 4096 + vq * 64 + vr := by
          exact b64_arith hm
        rw [hN]
        clear hm hN
        refine ⟨congrArg (b64Char a) ?_, congrArg (b64Char a) ?_, congrArg (b64Char a) ?_⟩ <;> omega
      · simp at h
    · simp at h
  | [p, q] =>
    simp only [b64Dec] at h
    split at h
    · next vp vq h1 h2 =>
      obtain ⟨l1, e1⟩ := b64Char_of_val h1
      obtain ⟨l2, e2⟩ := b64Char_of_val h2
      split at h
      · next hm =>
        simp only [Option.some.injEq] at h; subst h
        simp only [b64Enc]
        rw [u8_toNat_ofNat (by omega)]
        simp only [List.cons.injEq, and_true]
        rw [← e1, ← e2]
        refine ⟨?_, ?_⟩ <;> congr 1 <;> omega
      · simp at h
    · simp at h
  | [_] => simp [b64Dec] at h
  | [] => simp [b64Dec] at h; subst h; rfl

/-- Characters of the alphabet: digits, letters and the two extra digits. -/
def b64Alpha (a : B64) (c : Char) : Bool := (b64Val a c).isSome

theorem b64Alpha_char {a : B64} {n : Nat} (h : n < 64) : b64Alpha a (b64Char a n) = true := by
  simp [b64Alpha, b64Val_char h]

theorem b64Enc_alpha (a : B64) (b : Bytes) : ∀ c ∈ b64Enc a b, b64Alpha a c = true := by
  have hlt := fun x : UInt8 => x.toNat_lt
  match b with
  | x :: y :: z :: r =>
    have hx := hlt x; have hy := hlt y; have hz := hlt z
    intro c hc
    simp only [b64Enc, List.mem_cons] at hc
    rcases hc with rfl | rfl | rfl | rfl | hc
    · exact b64Alpha_char (by omega)
    · exact b64Alpha_char (by omega)
    · exact b64Alpha_char (by omega)
    · exact b64Alpha_char (by omega)
    · exact b64Enc_alpha a r c hc
  | [x, y] =>
    have hx := hlt x; have hy := hlt y
    intro c hc
    simp only [b64Enc, List.mem_cons, List.not_mem_nil, or_false] at hc
    rcases hc with rfl | rfl | rfl <;> exact b64Alpha_char (by omega)
  | [x] =>
    have hx := hlt x
    intro c hc
    simp only [b64Enc, List.mem_cons, List.not_mem_nil, or_false] at hc
    rcases hc with rfl | rfl <;> exact b64Alpha_char (by omega)
  | [] => intro c hc; simp [b64Enc] at hc

theorem b64Enc_not_mem {a : B64} {c : Char} (h : b64Alpha a c = false) (b : Bytes) :
    c ∉ b64Enc a b := by
  intro hc
  have := b64Enc_alpha a b c hc
  rw [h] at this; simp at this

theorem b64Enc_no_dot (a : B64) (b : Bytes) : '.' ∉ b64Enc a b :=
  b64Enc_not_mem (by cases a <;> decide) b

theorem b64Enc_no_eq (a : B64) (b : Bytes) : '=' ∉ b64Enc a b :=
  b64Enc_not_mem (by cases a <;> decide) b

theorem b64Enc_inj {a : B64} {x y : Bytes} (h : b64Enc a x = b64Enc a y) : x = y := by
  have := b64Dec_b64Enc a x
  rw [h, b64Dec_b64Enc] at this
  exact (Option.some.inj this).symm

theorem trim_b64EncPad (a : B64) (b : Bytes) : trimEndChar '=' (b64EncPad a b) = b64Enc a b := by
  rw [b64EncPad, trimEndChar_replicate, trimEndChar_of_notMem (b64Enc_no_eq a b)]

end Oid4vp
