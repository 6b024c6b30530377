import Verif.Proof.Counts
import Verif.Props.Witness

/-! # Digit primitives (C52) -/

namespace Verif.Props

open Digit Ex

/-- C52: addition and multiplication of words: the low and the high word of the result together
are the exact result. -/
theorem C52_carrying (a b c : Digit) :
    (carryingAdd a b).1.toNat + 2 ^ 64 * (carryingAdd a b).2.toNat = a.toNat + b.toNat ∧
    (carryingMul a b).1.toNat + 2 ^ 64 * (carryingMul a b).2.toNat = a.toNat * b.toNat ∧
    (carryingMulAdd a b c).1.toNat + 2 ^ 64 * (carryingMulAdd a b c).2.toNat =
      a.toNat * b.toNat + c.toNat :=
  ⟨carryingAdd_eq a b, carryingMul_eq a b, carryingMulAdd_eq a b c⟩

example : (carryingMul (~~~0#64) (~~~0#64)).1.toNat +
    2 ^ 64 * (carryingMul (~~~0#64) (~~~0#64)).2.toNat = (2 ^ 64 - 1) * (2 ^ 64 - 1) :=
  (C52_carrying _ _ 0#64).2.1

/-- C52: the wrapping and the overflowing operations. -/
theorem C52_wrapping (a b c : Digit) :
    (Digit.wrappingAdd a b).toNat = (a.toNat + b.toNat) % 2 ^ 64 ∧
    ((Digit.wrappingSub a b).toNat : Int) = ((a.toNat : Int) - b.toNat) % 2 ^ 64 ∧
    (Digit.wrappingMul a b).toNat = a.toNat * b.toNat % 2 ^ 64 ∧
    (wrappingMulAdd a b c).toNat = (a.toNat * b.toNat + c.toNat) % 2 ^ 64 ∧
    overflowingAdd a b = (Digit.wrappingAdd a b, decide (2 ^ 64 ≤ a.toNat + b.toNat)) ∧
    overflowingSub a b = (Digit.wrappingSub a b, decide (a.toNat < b.toNat)) := by
  have ha := a.isLt
  have hb := b.isLt
  refine ⟨wrappingAdd_toNat a b, ?_, by simp [Digit.wrappingMul], wrappingMulAdd_toNat a b c,
    Prod.ext (overflowingAdd_fst a b) (overflowingAdd_snd a b),
    Prod.ext (overflowingSub_fst a b) (overflowingSub_snd a b)⟩
  unfold Digit.wrappingSub
  rw [BitVec.toNat_sub]
  omega

example : ((Digit.wrappingSub 3#64 5#64).toNat : Int) = 2 ^ 64 - 2 :=
  (C52_wrapping 3#64 5#64 0#64).2.1

/-- C52: division of words and of double words: Euclid's equation, and a panic on zero. -/
theorem C52_divrem (a b : Digit) (x y : DDigit) :
    (b = 0 → Digit.wrappingDivrem a b = .error .panic) ∧
    (b ≠ 0 → ∃ q r, Digit.wrappingDivrem a b = .ok (q, r) ∧ Digit.wrappingDiv a b = .ok q ∧
      Digit.wrappingRem a b = .ok r ∧ a.toNat = q.toNat * b.toNat + r.toNat ∧
      r.toNat < b.toNat) ∧
    (y = 0 → DDigit.wrappingDivrem x y = .error .panic) ∧
    (y ≠ 0 → ∃ q r, DDigit.wrappingDivrem x y = .ok (q, r) ∧ DDigit.wrappingDiv x y = .ok q ∧
      x.toNat = q.toNat * y.toNat + r.toNat ∧ r.toNat < y.toNat) := by
  refine ⟨?_, ?_, ?_, ?_⟩
  · rintro rfl; rfl
  · intro h
    have hb : 0 < b.toNat := Nat.pos_of_ne_zero fun h0 => h (BitVec.eq_of_toNat_eq h0)
    refine ⟨a / b, a % b, ?_, if_neg h, if_neg h, ?_, ?_⟩
    · rw [Digit.wrappingDivrem, Digit.wrappingDiv, Digit.wrappingRem, if_neg h, if_neg h]
      rfl
    · rw [BitVec.toNat_udiv, BitVec.toNat_umod, Nat.mul_comm]
      exact (Nat.div_add_mod _ _).symm
    · rw [BitVec.toNat_umod]; exact Nat.mod_lt _ hb
  · rintro rfl; rfl
  · intro h
    have hb : 0 < y.toNat := Nat.pos_of_ne_zero fun h0 => h (BitVec.eq_of_toNat_eq h0)
    refine ⟨x / y, x % y, if_neg h, ?_, ?_, ?_⟩
    · rw [DDigit.wrappingDiv, DDigit.wrappingDivrem, if_neg h]
      rfl
    · rw [BitVec.toNat_udiv, BitVec.toNat_umod, Nat.mul_comm]
      exact (Nat.div_add_mod _ _).symm
    · rw [BitVec.toNat_umod]; exact Nat.mod_lt _ hb

example : ∃ q r, Digit.wrappingDivrem 100#64 7#64 = .ok (q, r) ∧
    Digit.wrappingDiv 100#64 7#64 = .ok q ∧ Digit.wrappingRem 100#64 7#64 = .ok r ∧
    (100#64).toNat = q.toNat * (7#64).toNat + r.toNat ∧ r.toNat < (7#64).toNat :=
  (C52_divrem 100#64 7#64 0 0).2.1 (by decide)

/-- C52: splitting and joining double words. -/
theorem C52_split_join (x : DDigit) (l h : Digit) :
    (DDigit.loHi x).1.toNat + 2 ^ 64 * (DDigit.loHi x).2.toNat = x.toNat ∧
    (DDigit.fromLoHi l h).toNat = l.toNat + 2 ^ 64 * h.toNat ∧
    DDigit.fromLoHi (DDigit.loHi x).1 (DDigit.loHi x).2 = x ∧
    DDigit.loHi (DDigit.fromLoHi l h) = (l, h) ∧
    (Digit.dd l).toNat = l.toNat := by
  have hl := l.isLt
  have hh := h.isLt
  have e1 : (DDigit.loHi x).1.toNat + 2 ^ 64 * (DDigit.loHi x).2.toNat = x.toNat :=
    DDigit.lo_add_hi x
  have e2 : (DDigit.fromLoHi l h).toNat = l.toNat + 2 ^ 64 * h.toNat := DDigit.fromLoHi_toNat l h
  refine ⟨e1, e2, ?_, ?_, dd_toNat l⟩
  · apply BitVec.eq_of_toNat_eq
    rw [DDigit.fromLoHi_toNat]
    exact e1
  · apply Prod.ext
    · apply BitVec.eq_of_toNat_eq
      show (DDigit.lo (DDigit.fromLoHi l h)).toNat = l.toNat
      rw [DDigit.lo_toNat, e2, B_eq]; omega
    · apply BitVec.eq_of_toNat_eq
      show (DDigit.hi (DDigit.fromLoHi l h)).toNat = h.toNat
      rw [DDigit.hi_toNat, e2, B_eq]; omega

example : DDigit.loHi (DDigit.fromLoHi 5#64 7#64) = (5#64, 7#64) :=
  (C52_split_join 0 5#64 7#64).2.2.2.1

/-- C52: arithmetic and bit operations of double words. -/
theorem C52_double_word (x y : DDigit) :
    (DDigit.wrappingAdd x y).toNat = (x.toNat + y.toNat) % 2 ^ 128 ∧
    ((DDigit.wrappingSub x y).toNat : Int) = ((x.toNat : Int) - y.toNat) % 2 ^ 128 ∧
    (DDigit.wrappingMul x y).toNat = x.toNat * y.toNat % 2 ^ 128 ∧
    (DDigit.bitand x y).toNat = x.toNat &&& y.toNat ∧
    (DDigit.bitor x y).toNat = x.toNat ||| y.toNat ∧
    (DDigit.bitnot x).toNat = 2 ^ 128 - 1 - x.toNat := by
  have hx := x.isLt
  have hy := y.isLt
  refine ⟨BitVec.toNat_add .., ?_, BitVec.toNat_mul .., BitVec.toNat_and .., BitVec.toNat_or ..,
    BitVec.toNat_not⟩
  unfold DDigit.wrappingSub
  rw [BitVec.toNat_sub]
  omega

example : ((DDigit.wrappingSub 3#128 5#128).toNat : Int) = 2 ^ 128 - 2 :=
  (C52_double_word 3#128 5#128).2.1

/-- C52: reading and changing one bit.  Below 64 the bit is read, set, cleared or flipped and every
other bit is kept; above, an error is returned and the word is unchanged. -/
theorem C52_bits (d : Digit) (p : Nat) :
    (p < 64 →
      get d p = .ok (.ok (d.toNat.testBit p)) ∧
      (∃ x, Digit.set d p = .ok (.ok (), x) ∧
        ∀ i, x.toNat.testBit i = if i = p then true else d.toNat.testBit i) ∧
      (∃ x, unset d p = .ok (.ok (), x) ∧
        ∀ i, x.toNat.testBit i = if i = p then false else d.toNat.testBit i) ∧
      (∃ x, flip d p = .ok (.ok (), x) ∧
        ∀ i, x.toNat.testBit i = if i = p then !d.toNat.testBit i else d.toNat.testBit i)) ∧
    (64 ≤ p →
      get d p = .ok (.error (.invalidBitAccess p BitWidth.w64)) ∧
      Digit.set d p = .ok (.error (.invalidBitAccess p BitWidth.w64), d) ∧
      unset d p = .ok (.error (.invalidBitAccess p BitWidth.w64), d) ∧
      flip d p = .ok (.error (.invalidBitAccess p BitWidth.w64), d)) := by
  constructor
  · intro h
    have hone : ∀ i, (1#64 <<< p).getLsbD i = decide (i = p) := by
      intro i
      rw [← BitVec.testBit_toNat, one_shl_toNat h, Nat.testBit_two_pow]
      simp [eq_comm]
    refine ⟨by rw [get_ok d h, BitVec.testBit_toNat], ⟨_, set_ok d h, ?_⟩, ⟨_, unset_ok d h, ?_⟩,
      ⟨_, flip_ok d h, ?_⟩⟩ <;> intro i <;> simp only [BitVec.testBit_toNat]
    · rw [BitVec.getLsbD_or, hone]
      by_cases hi : i = p <;> simp [hi]
    · rw [BitVec.getLsbD_and, BitVec.getLsbD_not, hone]
      by_cases hi : i = p
      · simp [hi]
      · by_cases h64 : i < 64
        · simp [hi, h64]
        · simp [hi, h64, BitVec.getLsbD_of_ge d i (by omega)]
    · rw [BitVec.getLsbD_xor, hone]
      by_cases hi : i = p <;> simp [hi]
  · intro h
    have e := verifyBitAccess_err (b := BitWidth.w64) (p := p) h
    simp [Digit.get, Digit.set, Digit.unset, Digit.flip, e]

example : (∃ x, flip 8#64 3 = .ok (.ok (), x) ∧ ∀ i, x.toNat.testBit i =
    if i = 3 then !(8#64).toNat.testBit i else (8#64).toNat.testBit i) :=
  ((C52_bits 8#64 3).1 (by decide)).2.2.2

/-- C52: whole-word operations. -/
theorem C52_whole_word (d e : Digit) :
    (setAll d).toNat = 2 ^ 64 - 1 ∧ (unsetAll d).toNat = 0 ∧
    (flipAll d).toNat = 2 ^ 64 - 1 - d.toNat ∧ (notInplace d).toNat = 2 ^ 64 - 1 - d.toNat ∧
    (isZero d = true ↔ d.toNat = 0) ∧ lsb d = decide (d.toNat % 2 = 1) ∧
    (Digit.bitand d e).toNat = d.toNat &&& e.toNat ∧
    (Digit.bitor d e).toNat = d.toNat ||| e.toNat ∧
    (Digit.bitxor d e).toNat = d.toNat ^^^ e.toNat := by
  have hx : d ^^^ ONES = ~~~d := by
    unfold ONES
    apply BitVec.eq_of_getLsbD_eq
    intro i hi
    rw [BitVec.getLsbD_xor, BitVec.getLsbD_not, BitVec.getLsbD_not]
    simp [hi]
  refine ⟨?_, ?_, ?_, ?_, isZero_iff d, ?_, BitVec.toNat_and .., BitVec.toNat_or ..,
    BitVec.toNat_xor ..⟩
  · have : setAll d = ONES := by
      unfold setAll ONES
      apply BitVec.eq_of_getLsbD_eq
      intro i hi
      rw [BitVec.getLsbD_or, BitVec.getLsbD_not]
      simp [hi]
    rw [this]; rfl
  · simp [unsetAll, ZERO]
  · rw [flipAll, hx, BitVec.toNat_not]
  · rw [notInplace, BitVec.toNat_not]
  · rw [lsb_eq, ← BitVec.testBit_toNat, Nat.testBit_zero]

example : (flipAll 5#64).toNat = 2 ^ 64 - 6 := (C52_whole_word 5#64 0).2.2.1

/-- C52: the shifts of words take the amount modulo 64; the shifts of double words panic when the
amount reaches 128. -/
theorem C52_shifts (d : Digit) (x : DDigit) (n : Nat) :
    (Digit.shl d n).toNat = d.toNat * 2 ^ (n % 64) % 2 ^ 64 ∧
    (Digit.shr d n).toNat = d.toNat / 2 ^ (n % 64) ∧
    (n < 128 → ∃ l r, DDigit.shl x n = .ok l ∧ DDigit.shr x n = .ok r ∧
      l.toNat = x.toNat * 2 ^ n % 2 ^ 128 ∧ r.toNat = x.toNat / 2 ^ n) ∧
    (128 ≤ n → DDigit.shl x n = .error .panic ∧ DDigit.shr x n = .error .panic) := by
  refine ⟨?_, ?_, ?_, ?_⟩
  · rw [Digit.shl, BitVec.toNat_shiftLeft, Nat.shiftLeft_eq]
  · rw [Digit.shr, BitVec.toNat_ushiftRight, Nat.shiftRight_eq_div_pow]
  · intro h
    refine ⟨x <<< n, x >>> n, by simp [DDigit.shl, h], by simp [DDigit.shr, h], ?_, ?_⟩
    · rw [BitVec.toNat_shiftLeft, Nat.shiftLeft_eq]
    · rw [BitVec.toNat_ushiftRight, Nat.shiftRight_eq_div_pow]
  · intro h
    simp [DDigit.shl, DDigit.shr, Nat.not_lt.2 h]

/-- C52: keeping the low bits of a word.  `truncate_to` with the full width of 64, which is not
documented as an error, shifts by 64: a panic where overflow is checked. -/
theorem C52_truncate (d : Digit) (t : BitWidth) :
    (t.toUsize < 64 → ∃ x, truncateTo d t = .ok (.ok (), x) ∧
      retainLastN d t.toUsize = .ok (.ok (), x) ∧ x.toNat = d.toNat % 2 ^ t.toUsize) ∧
    (t.toUsize = 64 → truncateTo d t = .error .overflow ∧
      retainLastN d 64 = .ok (.error (.invalidBitAccess 64 BitWidth.w64), d)) ∧
    (64 < t.toUsize → truncateTo d t = .ok (.error (.invalidBitWidth t.toUsize), d) ∧
      retainLastN d t.toUsize =
        .ok (.error (.invalidBitAccess t.toUsize BitWidth.w64), d)) := by
  refine ⟨?_, ?_, ?_⟩
  · intro h
    obtain ⟨x, e1, h1⟩ := truncateTo_ok d h
    obtain ⟨y, e2, h2⟩ := retainLastN_ok d h
    have : x = y := BitVec.eq_of_toNat_eq (by rw [h1, h2])
    exact ⟨x, e1, by rw [e2, this], h1⟩
  · intro h
    constructor
    · simp [truncateTo, verifyValidBitwidth, h, rawShl]
    · simp [retainLastN, verifyBitAccess, BitWidth.isValidPos, BitWidth.w64]
  · intro h
    have e := verifyBitAccess_err (b := BitWidth.w64) (p := t.toUsize) (Nat.le_of_lt h)
    simp [truncateTo, verifyValidBitwidth, h, retainLastN, e]

example : ∃ x, truncateTo 1000#64 (bw 5) = .ok (.ok (), x) ∧
    retainLastN 1000#64 5 = .ok (.ok (), x) ∧ x.toNat = 8 := by
  have h := (C52_truncate 1000#64 (bw 5)).1 (by decide)
  exact h

/-- C52: sign extension of a word from `t` bits, for a word without bits above: the signed value
is kept; widths above 64 are errors and leave the word unchanged. -/
theorem C52_sign_extend (d : Digit) (t : BitWidth) :
    (t.toUsize ≤ 64 → d.toNat < 2 ^ t.toUsize → ∃ x, signExtendFrom d t = .ok (.ok (), x) ∧
      x.toInt = if d.toNat < 2 ^ (t.toUsize - 1) then (d.toNat : Int)
        else d.toNat - 2 ^ t.toUsize) ∧
    (64 < t.toUsize →
      signExtendFrom d t = .ok (.error (.invalidBitWidth t.toUsize), d)) := by
  constructor
  · intro h hd
    obtain ⟨x, e, hx⟩ := signExtendFrom_ok d h hd
    refine ⟨x, e, ?_⟩
    have hp := t.pos
    have h1 : (2:Nat) ^ (t.toUsize - 1) ≤ 2 ^ 63 := Nat.pow_le_pow_right (by decide) (by omega)
    have h2 : (2:Nat) ^ t.toUsize = 2 * 2 ^ (t.toUsize - 1) := by
      rw [← Nat.pow_succ']; congr 1; omega
    have h3 : ((2:Int) ^ t.toUsize) = ((2 ^ t.toUsize : Nat) : Int) := by push_cast; rfl
    rw [BitVec.toInt_eq_toNat_cond, hx, h3]
    rw [B_num] at *
    generalize (2:Nat) ^ (t.toUsize - 1) = P at *
    generalize (2:Nat) ^ t.toUsize = Q at *
    by_cases hc : d.toNat < P
    · rw [if_pos hc]
      simp only [hc, if_true]
      rw [if_pos (by omega)]
    · simp only [hc, if_false]
      rw [if_neg (by omega)]
      omega
  · intro h
    simp [signExtendFrom, verifyValidBitwidth, h]

example : ∃ x, signExtendFrom 100#64 (bw 7) = .ok (.ok (), x) ∧ x.toInt = -28 :=
  (C52_sign_extend 100#64 (bw 7)).1 (by decide) (by decide)

end Verif.Props
