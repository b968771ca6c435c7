import Verif.Model.Sha256
import Verif.Spec.Sha256

/-! # Lemmas about SHA-256 -/

set_option autoImplicit false

namespace Oid4vp.Sha256

open Spec.Sha

theorem rotr_toBitVec (x : UInt32) (n : UInt32) (h0 : 0 < n) (hn : n < 32) :
    (rotr x n).toBitVec = x.toBitVec.rotateRight n.toNat := by
  have h : n.toNat < 32 := hn
  have h0 : 0 < n.toNat := h0
  have e : (32 - n).toNat = 32 - n.toNat := by
    rw [UInt32.toNat_sub_of_le]
    · rfl
    · exact Nat.le_of_lt h
  have e1 : (n.toBitVec % 32).toNat = n.toNat := by
    rw [BitVec.toNat_umod]; exact Nat.mod_eq_of_lt h
  have e2 : ((32 - n).toBitVec % 32).toNat = 32 - n.toNat := by
    rw [BitVec.toNat_umod]
    change (32 - n).toNat % 32 = _
    rw [e]; exact Nat.mod_eq_of_lt (by omega)
  simp only [rotr, UInt32.toBitVec_or, UInt32.toBitVec_shiftRight, UInt32.toBitVec_shiftLeft,
    BitVec.rotateRight, BitVec.rotateRightAux, Nat.mod_eq_of_lt h]
  rw [BitVec.ushiftRight_eq' , BitVec.shiftLeft_eq', e1, e2]

/-- The words of the model as those of the specification. -/
def vars (s : State) : Vars :=
  ⟨s.a.toBitVec, s.b.toBitVec, s.c.toBitVec, s.d.toBitVec, s.e.toBitVec, s.f.toBitVec, s.g.toBitVec,
    s.h.toBitVec⟩

theorem vars_round (s : State) (kt wt : UInt32) (K w : Nat → BitVec 32) (H : Vars) (t : Nat)
    (hs : vars s = work K w H t) (hk : kt.toBitVec = K t) (hw : wt.toBitVec = w t) :
    vars (round s kt wt) = work K w H (t + 1) := by
  simp only [work, ← hs, ← hk, ← hw, vars, round, UInt32.toBitVec_add, bigSigma1, bigSigma0, choose,
    majority, UInt32.toBitVec_xor, UInt32.toBitVec_and, UInt32.toBitVec_not,
    rotr_toBitVec _ 6 (by decide) (by decide), rotr_toBitVec _ 11 (by decide) (by decide),
    rotr_toBitVec _ 25 (by decide) (by decide), rotr_toBitVec _ 2 (by decide) (by decide),
    rotr_toBitVec _ 13 (by decide) (by decide), rotr_toBitVec _ 22 (by decide) (by decide)]
  rfl

/-- The window of the schedule at round `t`. -/
def Window (w : List UInt32) (W : Nat → BitVec 32) (t : Nat) : Prop :=
  w.map UInt32.toBitVec = (List.range' t 16).map W

theorem nextWord_schedule (m : Nat → BitVec 32) (w : List UInt32) (t : Nat) (h : Window w (schedule m) t) :
    (nextWord w).toBitVec = schedule m (t + 16) := by
  simp only [Window, List.range', List.map_cons, List.map_nil, List.map_eq_cons_iff,
    List.map_eq_nil_iff] at h
  obtain ⟨w0, _, rfl, h0, w1, _, rfl, h1, w2, _, rfl, h2, w3, _, rfl, h3, w4, _, rfl, h4, w5, _, rfl, h5,
    w6, _, rfl, h6, w7, _, rfl, h7, w8, _, rfl, h8, w9, _, rfl, h9, w10, _, rfl, h10, w11, _, rfl, h11,
    w12, _, rfl, h12, w13, _, rfl, h13, w14, _, rfl, h14, w15, _, rfl, h15, rfl⟩ := h
  rw [schedule, if_neg (by omega)]
  have e0 : t + 16 - 16 = t := by omega
  have e1 : t + 16 - 15 = t + 1 := by omega
  have e9 : t + 16 - 7 = t + 9 := by omega
  have e14 : t + 16 - 2 = t + 14 := by omega
  rw [e0, e1, e9, e14, ← h0, ← h1, ← show _ = schedule m (t + 9) from h9,
    ← show _ = schedule m (t + 14) from h14]
  simp only [nextWord, UInt32.toBitVec_add, UInt32.toBitVec_xor, smallSigma0, smallSigma1,
    rotr_toBitVec _ 17 (by decide) (by decide), rotr_toBitVec _ 19 (by decide) (by decide),
    rotr_toBitVec _ 7 (by decide) (by decide), rotr_toBitVec _ 18 (by decide) (by decide),
    UInt32.toBitVec_shiftRight]
  rfl

theorem window_next (m : Nat → BitVec 32) (w : List UInt32) (t : Nat) (h : Window w (schedule m) t) :
    Window (w.tail ++ [nextWord w]) (schedule m) (t + 1) := by
  have hn := nextWord_schedule m w t h
  unfold Window at *
  rw [List.map_append, List.map_tail, h, List.map_cons, List.map_nil, hn, ← List.map_tail]
  rw [show List.range' (t + 1) 16 = (List.range' t 16).tail ++ [t + 16] from rfl, List.map_append]
  rfl

theorem rounds_work (m : Nat → BitVec 32) (K : Nat → BitVec 32) (H : Vars) (ks : List UInt32) :
    ∀ (t : Nat) (w : List UInt32) (s : State), Window w (schedule m) t →
      ks.map UInt32.toBitVec = (List.range' t ks.length).map K →
      vars s = work K (schedule m) H t → vars (rounds ks w s) = work K (schedule m) H (t + ks.length) := by
  induction ks with
  | nil => intro t w s _ _ h; exact h
  | cons kt ks ih =>
    intro t w s hw hk hs
    rw [List.length_cons, List.range'_succ, List.map_cons, List.map_cons, List.cons.injEq] at hk
    have hhead : (w.headD 0).toBitVec = schedule m t := by
      cases w with
      | nil => exact nomatch hw
      | cons a w => exact (List.cons.inj hw).1
    have := ih (t + 1) _ _ (window_next m w t hw) hk.2 (vars_round s kt (w.headD 0) K (schedule m) H t hs hk.1 hhead)
    rw [rounds, this, List.length_cons, Nat.add_assoc, Nat.add_comm 1]

theorem vars_add (s t : State) : vars (s.add t) = Spec.Sha.sum (vars s) (vars t) := rfl

/-! ## Words of a padded message -/

theorem word_toBitVec (b0 b1 b2 b3 : UInt8) :
    ((b0.toUInt32 <<< 24) ||| (b1.toUInt32 <<< 16) ||| (b2.toUInt32 <<< 8) ||| b3.toUInt32).toBitVec =
      BitVec.ofNat 32 (((b0.toNat * 256 + b1.toNat) * 256 + b2.toNat) * 256 + b3.toNat) := by
  have l0 := b0.toNat_lt
  have l1 := b1.toNat_lt
  have l2 := b2.toNat_lt
  have l3 := b3.toNat_lt
  apply BitVec.eq_of_toNat_eq
  change UInt32.toNat _ = _
  simp only [UInt32.toNat_or, UInt32.toNat_shiftLeft, UInt8.toNat_toUInt32, BitVec.toNat_ofNat,
    Nat.shiftLeft_eq]
  rw [show (24 : UInt32).toNat % 32 = 24 from rfl, show (16 : UInt32).toNat % 32 = 16 from rfl,
    show (8 : UInt32).toNat % 32 = 8 from rfl, Nat.mod_eq_of_lt (a := b0.toNat * _) (by omega),
    Nat.mod_eq_of_lt (a := b1.toNat * _) (by omega), Nat.mod_eq_of_lt (a := b2.toNat * _) (by omega),
    Nat.mod_eq_of_lt (a := _ + b3.toNat) (by omega)]
  rw [Nat.mul_comm b0.toNat, Nat.mul_comm b1.toNat, Nat.mul_comm b2.toNat, Nat.or_assoc, Nat.or_assoc,
    ← Nat.two_pow_add_eq_or_of_lt (i := 8) (by omega), ← Nat.two_pow_add_eq_or_of_lt (i := 16) (by omega),
    ← Nat.two_pow_add_eq_or_of_lt (i := 24) (by omega)]
  omega

theorem wordAt_succ (b0 b1 b2 b3 : UInt8) (p : Bytes) (j : Nat) :
    wordAt (b0 :: b1 :: b2 :: b3 :: p) (j + 1) = wordAt p j := by
  have e : 4 * (j + 1) = 4 * j + 1 + 1 + 1 + 1 := by omega
  simp only [wordAt, e, List.getD_cons_succ]

theorem words_wordAt (n : Nat) : ∀ p : Bytes, p.length = 4 * n →
    (words p).map UInt32.toBitVec = (List.range n).map (wordAt p) := by
  induction n with
  | zero => intro p h; cases p with
    | nil => rfl
    | cons b p => simp at h
  | succ n ih =>
    intro p h
    match p, h with
    | b0 :: b1 :: b2 :: b3 :: p, h =>
      have hp : p.length = 4 * n := by simp only [List.length_cons] at h; omega
      rw [words, List.map_cons, ih p hp, List.range_succ_eq_map, List.map_cons, word_toBitVec, List.map_map]
      congr 1

/-! ## Blocks -/

theorem blocks_hashAfter (K : Nat → BitVec 32) (H0 : Vars) (p : Bytes)
    (hK : k.map UInt32.toBitVec = (List.range' 0 64).map K) (n : Nat) :
    ∀ (i : Nat) (s : State) (ws : List UInt32),
      ws.map UInt32.toBitVec = (List.range' (16 * i) (16 * n)).map (wordAt p) →
      vars s = hashAfter K H0 p i → vars (blocks s ws) = hashAfter K H0 p (i + n) := by
  induction n with
  | zero =>
    intro i s ws h hs
    have : ws = [] := by simpa using h
    subst this
    exact hs
  | succ n ih =>
    intro i s ws h hs
    have e : List.range' (16 * i) (16 * (n + 1)) =
        List.range' (16 * i) 16 ++ List.range' (16 * (i + 1)) (16 * n) := by
      rw [show 16 * (n + 1) = 16 + 16 * n by omega, ← List.range'_append_1]; rfl
    rw [e, List.map_append] at h
    obtain ⟨w, rest, rfl, hw, hr⟩ := List.map_eq_append_iff.mp h
    have hlen : w.length = 16 := by
      have := congrArg List.length hw
      simpa using this
    match w, hlen with
    | [w0, w1, w2, w3, w4, w5, w6, w7, w8, w9, w10, w11, w12, w13, w14, w15], _ =>
      simp only [List.cons_append, List.nil_append, blocks]
      rw [show i + (n + 1) = i + 1 + n by omega]
      apply ih (i + 1) _ rest hr
      rw [vars_add, hashAfter, ← hs]
      have hwin : Window [w0, w1, w2, w3, w4, w5, w6, w7, w8, w9, w10, w11, w12, w13, w14, w15]
          (schedule fun t => wordAt p (16 * i + t)) 0 := by
        unfold Window
        rw [hw, List.range'_eq_map_range, List.map_map, ← List.range_eq_range']
        apply List.map_congr_left
        intro t ht
        rw [schedule, if_pos (List.mem_range.mp ht)]
        rfl
      rw [rounds_work (fun t => wordAt p (16 * i + t)) K (vars s) k 0 _ s hwin hK rfl]
      rfl

/-! ## Padding and bytes -/

theorem byteAt (x : Nat) (c : UInt32) (hc : c.toNat ≤ 24) :
    (UInt32.ofNat x >>> c).toUInt8 = UInt8.ofNat (x / 2 ^ c.toNat) := by
  apply UInt8.toNat_inj.mp
  simp only [UInt32.toNat_toUInt8, UInt32.toNat_shiftRight, UInt32.toNat_ofNat', UInt8.toNat_ofNat',
    Nat.shiftRight_eq_div_pow, Nat.mod_eq_of_lt (show c.toNat < 32 by omega)]
  have e : 2 ^ 32 = 2 ^ c.toNat * (2 ^ 8 * 2 ^ (24 - c.toNat)) := by
    rw [← Nat.pow_add, ← Nat.pow_add]; congr 1; omega
  rw [e, Nat.mod_mul_right_div_self, Nat.mod_mul_right_mod]

theorem wordBytes_ofNat (x : Nat) : wordBytes (UInt32.ofNat x) = bigEndian 4 x := by
  have h24 := byteAt x 24 (by decide)
  have h16 := byteAt x 16 (by decide)
  have h8 := byteAt x 8 (by decide)
  have h0 : (UInt32.ofNat x).toUInt8 = UInt8.ofNat x := by
    apply UInt8.toNat_inj.mp
    simp only [UInt32.toNat_toUInt8, UInt32.toNat_ofNat', UInt8.toNat_ofNat']
    omega
  simp only [wordBytes, h24, h16, h8, h0, bigEndian, List.nil_append, List.cons_append,
    Nat.div_div_eq_div_mul]
  rfl

theorem wordBytes_toNat (w : UInt32) : wordBytes w = bigEndian 4 w.toNat := by
  rw [← wordBytes_ofNat, UInt32.ofNat_toNat]

theorem bigEndian_length (n x : Nat) : (bigEndian n x).length = n := by
  induction n generalizing x with
  | zero => rfl
  | succ n ih => simp [bigEndian, ih]

theorem bigEndian_eight (x : Nat) : bigEndian 8 x = bigEndian 4 (x / 2 ^ 32) ++ bigEndian 4 x := by
  simp only [bigEndian, List.nil_append, List.cons_append, Nat.div_div_eq_div_mul]
  rfl

theorem pad_padded (m : Bytes) : Padded m (pad m) := by
  refine ⟨(119 - m.length % 64) % 64, ?_, ?_, ?_⟩
  · rw [pad, wordBytes_ofNat, wordBytes_ofNat, Nat.mul_comm 8, bigEndian_eight]
    simp
  · simp only [pad, List.length_append, List.length_replicate, wordBytes, List.length_cons, List.length_nil]
    omega
  · intro z' h
    omega

theorem bytes_digestOf (s : State) : s.bytes = digestOf (vars s) := by
  simp only [State.bytes, wordBytes_toNat, digestOf, vars, List.flatMap_cons, List.flatMap_nil,
    List.append_nil, List.append_assoc]
  rfl

/-! ## The constants -/

/-- Trial division by the primes below 19. -/
def trial (n : Nat) : Bool := decide (2 ≤ n) && [2, 3, 5, 7, 11, 13, 17].all fun q => n % q != 0 || n == q

theorem prime_iff_trial (n : Nat) (hn : n < 361) : Nat.Prime n ↔ trial n = true := by
  constructor
  · intro h
    simp only [trial, Bool.and_eq_true, decide_eq_true_eq, List.all_eq_true, Bool.or_eq_true, bne_iff_ne,
      beq_iff_eq]
    refine ⟨h.two_le, fun q hq => ?_⟩
    by_cases hd : n % q = 0
    · rcases (Nat.dvd_prime h).mp (Nat.dvd_of_mod_eq_zero hd) with rfl | rfl
      · simp at hq
      · exact .inr rfl
    · exact .inl hd
  · intro h
    simp only [trial, Bool.and_eq_true, decide_eq_true_eq, List.all_eq_true, Bool.or_eq_true, bne_iff_ne,
      beq_iff_eq] at h
    obtain ⟨h2, h⟩ := h
    by_contra hp
    have hs := Nat.minFac_sq_le_self (by omega) hp
    have hlt : n.minFac < 19 := by
      by_contra hc
      have : 19 * 19 ≤ n.minFac ^ 2 := by rw [pow_two]; exact Nat.mul_le_mul (by omega) (by omega)
      omega
    have hpr := Nat.minFac_prime (n := n) (by omega)
    have hd := Nat.mod_eq_zero_of_dvd (Nat.minFac_dvd n)
    have hmem : n.minFac ∈ [2, 3, 5, 7, 11, 13, 17] := by
      generalize n.minFac = q at hlt hpr
      revert hpr
      have : ∀ q < 19, Nat.Prime q → q ∈ [2, 3, 5, 7, 11, 13, 17] := by
        intro q hq hpr
        rw [Nat.prime_def_lt] at hpr
        revert q
        decide
      exact this q hlt
    rcases h _ hmem with hh | hh
    · exact hh hd
    · exact hp (hh ▸ hpr)

/-- The first 64 primes. -/
def primes : List Nat :=
  [2, 3, 5, 7, 11, 13, 17, 19, 23, 29, 31, 37, 41, 43, 47, 53, 59, 61, 67, 71, 73, 79, 83, 89, 97, 101,
   103, 107, 109, 113, 127, 131, 137, 139, 149, 151, 157, 163, 167, 173, 179, 181, 191, 193, 197, 199,
   211, 223, 227, 229, 233, 239, 241, 251, 257, 263, 269, 271, 277, 281, 283, 293, 307, 311]

theorem count_prime (n : Nat) (hn : n ≤ 361) : Nat.count Nat.Prime n = Nat.count (fun i => trial i = true) n := by
  induction n with
  | zero => rfl
  | succ n ih =>
    rw [Nat.count_succ, Nat.count_succ, ih (by omega)]
    simp only [prime_iff_trial n (by omega)]

theorem nth_prime : ∀ t < 64, Nat.nth Nat.Prime t = primes.getD t 0 := by
  intro t ht
  have h : ∀ t < 64, trial (primes.getD t 0) = true ∧ primes.getD t 0 < 361 ∧
      Nat.count (fun i => trial i = true) (primes.getD t 0) = t := by decide +kernel
  obtain ⟨h1, h2, h3⟩ := h t ht
  have := Nat.nth_count ((prime_iff_trial _ h2).mpr h1)
  rw [count_prime _ (by omega), h3] at this
  exact this

theorem rootBits_unique {r p : Nat} {v v' : BitVec 32} (h : RootBits r p v) (h' : RootBits r p v') :
    v = v' := by
  obtain ⟨n, h1, h2⟩ := h
  obtain ⟨n', h1', h2'⟩ := h'
  have a : n * 2 ^ 32 + v.toNat < n' * 2 ^ 32 + v'.toNat + 1 := by
    by_contra hc
    exact absurd (Nat.pow_le_pow_left (Nat.le_of_not_lt hc) r) (by omega)
  have b : n' * 2 ^ 32 + v'.toNat < n * 2 ^ 32 + v.toNat + 1 := by
    by_contra hc
    exact absurd (Nat.pow_le_pow_left (Nat.le_of_not_lt hc) r) (by omega)
  have := v.isLt
  have := v'.isLt
  apply BitVec.eq_of_toNat_eq
  omega

/-- The integer part of the `r`-th root of `p`, below 20. -/
def intPart (r p : Nat) : Nat := ((List.range 20).filter fun n => n ^ r ≤ p).length - 1

theorem k_roots : ∀ t < 64, RootBits 3 (Nat.nth Nat.Prime t) ((k.getD t 0).toBitVec) := by
  intro t ht
  rw [nth_prime t ht]
  refine ⟨intPart 3 (primes.getD t 0), ?_⟩
  revert t
  decide +kernel

theorem init_roots : RootBits 2 2 (vars init).a ∧ RootBits 2 3 (vars init).b ∧ RootBits 2 5 (vars init).c ∧
    RootBits 2 7 (vars init).d ∧ RootBits 2 11 (vars init).e ∧ RootBits 2 13 (vars init).f ∧
    RootBits 2 17 (vars init).g ∧ RootBits 2 19 (vars init).h :=
  ⟨⟨1, by decide +kernel⟩, ⟨1, by decide +kernel⟩, ⟨2, by decide +kernel⟩, ⟨2, by decide +kernel⟩,
    ⟨3, by decide +kernel⟩, ⟨3, by decide +kernel⟩, ⟨4, by decide +kernel⟩, ⟨4, by decide +kernel⟩⟩

theorem padded_unique {m p p' : Bytes} (h : Padded m p) (h' : Padded m p') : p = p' := by
  obtain ⟨z, rfl, hd, hm⟩ := h
  obtain ⟨z', rfl, hd', hm'⟩ := h'
  simp only [List.length_append, List.length_cons, List.length_replicate, bigEndian_length] at hd hd'
  have : z = z' := Nat.le_antisymm (hm z' (by convert hd' using 1; omega)) (hm' z (by convert hd using 1; omega))
  rw [this]

theorem bigEndian_inj {n x y : Nat} (hx : x < 256 ^ n) (hy : y < 256 ^ n) (h : bigEndian n x = bigEndian n y) :
    x = y := by
  induction n generalizing x y with
  | zero => simp only [Nat.pow_zero, Nat.lt_one_iff] at hx hy; rw [hx, hy]
  | succ n ih =>
    rw [bigEndian, bigEndian] at h
    obtain ⟨h1, h2⟩ := List.append_inj' h rfl
    rw [Nat.pow_succ] at hx hy
    have e := ih (by omega) (by omega) h1
    have e2 := congrArg UInt8.toNat (List.cons.inj h2).1
    simp only [UInt8.toNat_ofNat'] at e2
    omega

end Oid4vp.Sha256
