import Verif.Model.Digit
import Verif.Proof.Val

/-! # Facts about the digit primitives -/

namespace Verif

theorem rawShl_ok {w : Nat} (x : BitVec w) {n : Nat} (h : n < w) : rawShl x n = .ok (x <<< n) := by
  simp [rawShl, h]

theorem rawShr_ok {w : Nat} (x : BitVec w) {n : Nat} (h : n < w) : rawShr x n = .ok (x >>> n) := by
  simp [rawShr, h]

namespace BitWidth

theorem requiredDigits_eq (b : BitWidth) : b.requiredDigits = (b.toUsize + 63) / 64 := by
  have := b.pos
  unfold requiredDigits
  omega

theorem requiredDigits_pos (b : BitWidth) : 0 < b.requiredDigits := by
  unfold requiredDigits; omega

theorem storage_inl {b : BitWidth} (h : b.toUsize ≤ 64) : b.storage = .inl := by
  simp [storage, h]

theorem storage_ext {b : BitWidth} (h : 64 < b.toUsize) : b.storage = .ext := by
  simp [storage, Nat.not_le.mpr h]

theorem excessBits_none {b : BitWidth} (h : b.toUsize % 64 = 0) : b.excessBits = none := by
  simp [excessBits, h]

theorem excessBits_some {b : BitWidth} (h : b.toUsize % 64 ≠ 0) :
    b.excessBits = some (b.toUsize % 64) := by
  unfold excessBits
  split
  · contradiction
  · rfl

theorem excessBits_cases (b : BitWidth) :
    (b.toUsize % 64 = 0 ∧ b.excessBits = none) ∨
    (b.toUsize % 64 ≠ 0 ∧ b.excessBits = some (b.toUsize % 64)) := by
  by_cases h : b.toUsize % 64 = 0
  · exact .inl ⟨h, excessBits_none h⟩
  · exact .inr ⟨h, excessBits_some h⟩

theorem ext {a b : BitWidth} (h : a.toUsize = b.toUsize) : a = b := by
  cases a; cases b; simp at h; simp [h]

theorem new_ok {n : Nat} (h : n ≠ 0) : BitWidth.new n = .ok ⟨n, Nat.pos_of_ne_zero h⟩ := by
  simp [BitWidth.new, h]

end BitWidth

theorem verifyBitAccess_ok {b : BitWidth} {p : Nat} (h : p < b.toUsize) :
    verifyBitAccess b p = .ok () := by
  simp [verifyBitAccess, BitWidth.isValidPos, h]

theorem verifyBitAccess_err {b : BitWidth} {p : Nat} (h : b.toUsize ≤ p) :
    verifyBitAccess b p = .error (.invalidBitAccess p b) := by
  simp [verifyBitAccess, BitWidth.isValidPos, h]

theorem verifyShiftAmount_ok {b : BitWidth} {p : Nat} (h : p < b.toUsize) :
    verifyShiftAmount b p = .ok () := by
  simp [verifyShiftAmount, BitWidth.isValidShiftAmount, h]

theorem verifyShiftAmount_err {b : BitWidth} {p : Nat} (h : b.toUsize ≤ p) :
    verifyShiftAmount b p = .error (.invalidShiftAmount p b) := by
  simp [verifyShiftAmount, BitWidth.isValidShiftAmount, h]

/-! ## Double digits -/

namespace DDigit

theorem lo_toNat (x : DDigit) : (lo x).toNat = x.toNat % B := by
  simp [lo, B_eq]

theorem hi_toNat (x : DDigit) : (hi x).toNat = x.toNat / B := by
  have : x.toNat < 2 ^ 128 := x.isLt
  simp [hi, B_eq, Nat.shiftRight_eq_div_pow]
  omega

theorem lo_add_hi (x : DDigit) : (lo x).toNat + B * (hi x).toNat = x.toNat := by
  rw [lo_toNat, hi_toNat]; exact Nat.mod_add_div _ _

theorem fromLoHi_toNat (l h : Digit) : (fromLoHi l h).toNat = l.toNat + B * h.toNat := by
  have hl := dlt l
  have hh := dlt h
  rw [B_eq] at *
  unfold fromLoHi
  have e1 : (l.setWidth 128).toNat = l.toNat := by simp; omega
  have e2 : (h.setWidth 128 <<< 64).toNat = 2 ^ 64 * h.toNat := by
    simp [Nat.shiftLeft_eq]; omega
  rw [BitVec.toNat_or, e1, e2, Nat.or_comm, ← Nat.two_pow_add_eq_or_of_lt hl, Nat.add_comm]

end DDigit

namespace Digit

theorem dd_toNat (x : Digit) : (dd x).toNat = x.toNat := by
  have := x.isLt
  simp [dd]; omega

theorem ONES_toNat : (ONES).toNat = B - 1 := by decide
theorem ZERO_toNat : (ZERO).toNat = 0 := by decide
theorem ONE_toNat : (ONE).toNat = 1 := by decide

theorem isZero_iff (d : Digit) : isZero d = true ↔ d.toNat = 0 := by
  simp only [isZero, ZERO, beq_iff_eq]
  constructor
  · rintro rfl; rfl
  · intro h; exact BitVec.eq_of_toNat_eq h

theorem isZero_false_iff (d : Digit) : isZero d = false ↔ 0 < d.toNat := by
  have := isZero_iff d
  cases h : isZero d <;> simp_all
  omega

theorem carryingAdd_eq (a b : Digit) :
    (carryingAdd a b).1.toNat + B * (carryingAdd a b).2.toNat = a.toNat + b.toNat := by
  have ha := dlt a
  have hb := dlt b
  rw [B_eq] at *
  unfold carryingAdd stdOverflowingAdd
  by_cases h : 2 ^ 64 ≤ a.toNat + b.toNat
  · simp only [h, decide_true, ONE, BitVec.toNat_add]
    have : (1#64).toNat = 1 := rfl
    omega
  · simp only [h, decide_false, ZERO, BitVec.toNat_add]
    have : (0#64).toNat = 0 := rfl
    omega

theorem carryingAdd_carry (a b : Digit) : (carryingAdd a b).2.toNat ≤ 1 := by
  unfold carryingAdd stdOverflowingAdd
  by_cases h : 2 ^ 64 ≤ a.toNat + b.toNat
  · simp only [h, decide_true]; decide
  · simp only [h, decide_false]; decide

theorem wrappingAdd_toNat (a b : Digit) : (wrappingAdd a b).toNat = (a.toNat + b.toNat) % B := by
  simp [wrappingAdd, B_eq]

theorem overflowingAdd_fst (a b : Digit) : (overflowingAdd a b).1 = a + b := by
  unfold overflowingAdd stdOverflowingAdd
  split <;> simp_all

theorem overflowingAdd_snd (a b : Digit) :
    (overflowingAdd a b).2 = decide (B ≤ a.toNat + b.toNat) := by
  unfold overflowingAdd stdOverflowingAdd
  rw [B_eq]
  split <;> simp_all

theorem overflowingSub_fst (a b : Digit) : (overflowingSub a b).1 = a - b := by
  unfold overflowingSub stdOverflowingSub
  split <;> simp_all

theorem overflowingSub_snd (a b : Digit) :
    (overflowingSub a b).2 = decide (a.toNat < b.toNat) := by
  unfold overflowingSub stdOverflowingSub
  split <;> simp_all

theorem mul_toNat (a b : Digit) : (dd a * dd b).toNat = a.toNat * b.toNat := by
  rw [BitVec.toNat_mul, dd_toNat, dd_toNat]
  refine Nat.mod_eq_of_lt ?_
  have := Nat.mul_lt_mul'' a.isLt b.isLt
  calc _ < _ := this
    _ = _ := by norm_num

theorem carryingMul_eq (a b : Digit) :
    (carryingMul a b).1.toNat + B * (carryingMul a b).2.toNat = a.toNat * b.toNat := by
  simp only [carryingMul, DDigit.wrappingMul]
  rw [DDigit.lo_add_hi, mul_toNat]

theorem mulAdd_toNat (a m c : Digit) :
    (dd a * dd m + dd c).toNat = a.toNat * m.toNat + c.toNat := by
  rw [BitVec.toNat_add, mul_toNat, dd_toNat]
  refine Nat.mod_eq_of_lt ?_
  have h1 : a.toNat ≤ 2 ^ 64 - 1 := by have := a.isLt; omega
  have h2 : m.toNat ≤ 2 ^ 64 - 1 := by have := m.isLt; omega
  have h3 := Nat.mul_le_mul h1 h2
  have h4 := c.isLt
  omega

theorem carryingMulAdd_eq (a m c : Digit) :
    (carryingMulAdd a m c).1.toNat + B * (carryingMulAdd a m c).2.toNat
      = a.toNat * m.toNat + c.toNat := by
  simp only [carryingMulAdd, DDigit.wrappingMul, DDigit.wrappingAdd]
  rw [DDigit.lo_add_hi, mulAdd_toNat]

theorem wrappingMulAdd_toNat (a m c : Digit) :
    (wrappingMulAdd a m c).toNat = (a.toNat * m.toNat + c.toNat) % B := by
  simp [wrappingMulAdd, B_eq]

/-- Keeping the low `n` bits with a mask of shifted ones. -/
theorem and_not_shl_ones (d : Digit) {n : Nat} :
    (d &&& ~~~(ONES <<< n)).toNat = d.toNat % 2 ^ n := by
  apply Nat.eq_of_testBit_eq
  intro i
  have key : (d &&& ~~~(ONES <<< n)).getLsbD i = (d.getLsbD i && decide (i < n)) := by
    simp only [BitVec.getLsbD_and, BitVec.getLsbD_not, BitVec.getLsbD_shiftLeft, ONES,
      BitVec.getLsbD_zero]
    by_cases hi : i < 64
    · by_cases hin : i < n
      · simp [hi, hin]
      · have : i - n < 64 := by omega
        simp [hi, hin, this]
    · have := BitVec.getLsbD_of_ge d i (by omega)
      simp [hi, this]
  calc _ = (d &&& ~~~(ONES <<< n)).getLsbD i := rfl
    _ = _ := key
    _ = _ := by
      rw [Nat.testBit_mod_two_pow, Bool.and_comm]
      rfl

theorem retainLastN_ok (d : Digit) {n : Nat} (h : n < 64) :
    ∃ d', retainLastN d n = .ok (.ok (), d') ∧ d'.toNat = d.toNat % 2 ^ n := by
  refine ⟨d &&& ~~~(ONES <<< n), ?_, and_not_shl_ones d⟩
  simp [retainLastN, verifyBitAccess_ok (b := BitWidth.w64) (show n < 64 from h), rawShl_ok _ h]

theorem truncateTo_ok (d : Digit) {t : BitWidth} (h : t.toUsize < 64) :
    ∃ d', truncateTo d t = .ok (.ok (), d') ∧ d'.toNat = d.toNat % 2 ^ t.toUsize := by
  refine ⟨d &&& ~~~(ONES <<< t.toUsize), ?_, and_not_shl_ones d⟩
  simp [truncateTo, verifyValidBitwidth, Nat.not_lt.mpr (Nat.le_of_lt h), rawShl_ok _ h]

theorem one_shl_toNat {n : Nat} (h : n < 64) : ((1#64) <<< n).toNat = 2 ^ n := by
  rw [BitVec.toNat_shiftLeft, Nat.shiftLeft_eq]
  have : (2:Nat) ^ n < 2 ^ 64 := Nat.pow_lt_pow_right (by decide) h
  have e : (1#64).toNat = 1 := rfl
  rw [e, Nat.one_mul, Nat.mod_eq_of_lt this]

/-- Adding a power of two by `xor` when the bit is clear. -/
theorem xor_two_pow_of_lt {x n : Nat} (h : x < 2 ^ n) : x ^^^ 2 ^ n = x + 2 ^ n := by
  apply Nat.eq_of_testBit_eq
  intro i
  rw [Nat.testBit_xor, Nat.testBit_two_pow]
  by_cases hi : i = n
  · subst hi
    have e := Nat.testBit_two_pow_add_eq x i
    rw [Nat.add_comm x, e, Nat.testBit_lt_two_pow h]
    simp
  · rcases Nat.lt_or_gt_of_ne hi with hlt | hgt
    · have e := Nat.testBit_two_pow_add_gt hlt x
      rw [Nat.add_comm x, e]
      simp [Ne.symm hi]
    · have h1 : x.testBit i = false :=
        Nat.testBit_lt_two_pow (Nat.lt_of_lt_of_le h (Nat.pow_le_pow_right (by decide) (by omega)))
      have h2 : (x + 2 ^ n).testBit i = false := by
        apply Nat.testBit_lt_two_pow
        calc x + 2 ^ n < 2 ^ n + 2 ^ n := by omega
          _ = 2 ^ (n + 1) := by rw [Nat.pow_succ]; omega
          _ ≤ 2 ^ i := Nat.pow_le_pow_right (by decide) hgt
      rw [h1, h2]
      simp [Ne.symm hi]

theorem signExtendFrom_ok (d : Digit) {from_ : BitWidth} (h : from_.toUsize ≤ 64)
    (hd : d.toNat < 2 ^ from_.toUsize) :
    ∃ d', signExtendFrom d from_ = .ok (.ok (), d') ∧
      d'.toNat = if d.toNat < 2 ^ (from_.toUsize - 1) then d.toNat
        else d.toNat + B - 2 ^ from_.toUsize := by
  obtain ⟨n, hn⟩ : ∃ n, from_.toUsize = n + 1 := ⟨from_.toUsize - 1, by have := from_.pos; omega⟩
  rw [hn] at h hd
  rw [hn]
  simp only [Nat.add_sub_cancel]
  have hn64 : n < 64 := by omega
  refine ⟨(d ^^^ ((1#64) <<< n)) - ((1#64) <<< n), ?_, ?_⟩
  · simp [signExtendFrom, verifyValidBitwidth, hn, Nat.not_lt.mpr h, rawShl_ok _ hn64]
  · have hp : (2:Nat) ^ n ≤ 2 ^ 63 := Nat.pow_le_pow_right (by decide) (by omega)
    have hs := Nat.pow_succ 2 n
    rw [BitVec.toNat_sub, BitVec.toNat_xor, one_shl_toNat hn64, B_eq]
    by_cases hlt : d.toNat < 2 ^ n
    · rw [xor_two_pow_of_lt hlt, if_pos hlt]
      have := d.isLt
      omega
    · rw [if_neg hlt]
      have e : d.toNat ^^^ 2 ^ n = d.toNat - 2 ^ n := by
        have h1 : d.toNat - 2 ^ n < 2 ^ n := by omega
        have h2 := xor_two_pow_of_lt h1
        have h3 : d.toNat = (d.toNat - 2 ^ n) ^^^ 2 ^ n := by rw [h2]; omega
        calc d.toNat ^^^ 2 ^ n = ((d.toNat - 2 ^ n) ^^^ 2 ^ n) ^^^ 2 ^ n := by rw [← h3]
          _ = d.toNat - 2 ^ n := by rw [Nat.xor_assoc, Nat.xor_self, Nat.xor_zero]
      rw [e]
      omega

theorem get_ok (d : Digit) {p : Nat} (h : p < 64) : get d p = .ok (.ok (d.getLsbD p)) := by
  have e : ((d >>> p &&& 1#64) == 1#64) = d.getLsbD p := by
    have e1 : d >>> p &&& 1#64 = if d.getLsbD p then 1#64 else 0#64 := by
      apply BitVec.eq_of_getLsbD_eq
      intro i hi
      cases hd : d.getLsbD p <;> by_cases h0 : i = 0 <;>
        simp [BitVec.getLsbD_one, h0, hd]
    rw [e1]
    cases d.getLsbD p <;> simp
  simp [get, verifyBitAccess_ok (b := BitWidth.w64) (show p < 64 from h), rawShr_ok _ h, e]

theorem set_ok (d : Digit) {p : Nat} (h : p < 64) :
    set d p = .ok (.ok (), d ||| (1#64 <<< p)) := by
  simp [set, verifyBitAccess_ok (b := BitWidth.w64) (show p < 64 from h), rawShl_ok _ h]

theorem unset_ok (d : Digit) {p : Nat} (h : p < 64) :
    unset d p = .ok (.ok (), d &&& ~~~(1#64 <<< p)) := by
  simp [unset, verifyBitAccess_ok (b := BitWidth.w64) (show p < 64 from h), rawShl_ok _ h]

theorem flip_ok (d : Digit) {p : Nat} (h : p < 64) :
    flip d p = .ok (.ok (), d ^^^ (1#64 <<< p)) := by
  simp [flip, verifyBitAccess_ok (b := BitWidth.w64) (show p < 64 from h), rawShl_ok _ h]

theorem lsb_eq (d : Digit) : lsb d = d.getLsbD 0 := by
  have e1 : d &&& 1#64 = if d.getLsbD 0 then 1#64 else 0#64 := by
    apply BitVec.eq_of_getLsbD_eq
    intro i hi
    rw [BitVec.getLsbD_and, BitVec.getLsbD_one]
    by_cases h0 : i = 0
    · subst h0
      cases hd : d.getLsbD 0 <;> simp
    · cases hd : d.getLsbD 0 <;> simp [BitVec.getLsbD_one, h0]
  unfold lsb
  rw [e1]
  cases d.getLsbD 0 <;> decide

end Digit

end Verif
