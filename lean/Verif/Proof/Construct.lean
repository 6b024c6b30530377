import Verif.Proof.Counts

/-! # Constructors -/

namespace Verif

namespace ApInt

theorem newInl_returns {len : BitWidth} {d : Digit} (h : len.toUsize ≤ 64)
    (hd : d.toNat < 2 ^ len.toUsize) : Returns (newInl len d) len d.toNat :=
  ⟨⟨len, .inl d⟩, newInl_ok d h, ⟨h, by rw [uval_inl]; exact hd⟩, rfl, uval_inl⟩

theorem fromBool_ok (b : Bool) : Returns (fromBool b) BitWidth.w1 (if b then 1 else 0) := by
  cases b
  · exact newInl_returns (len := BitWidth.w1) (d := 0#64) (by decide) (by decide)
  · exact newInl_returns (len := BitWidth.w1) (d := 1#64) (by decide) (by decide)

theorem setWidth_toNat {n : Nat} (v : BitVec n) (h : n ≤ 64) : (v.setWidth 64).toNat = v.toNat := by
  rw [BitVec.toNat_setWidth]
  exact Nat.mod_eq_of_lt (Nat.lt_of_lt_of_le v.isLt (Nat.pow_le_pow_right (by decide) h))

theorem fromU8_ok (v : BitVec 8) : Returns (fromU8 v) BitWidth.w8 v.toNat := by
  have := newInl_returns (len := BitWidth.w8) (d := v.setWidth 64) (by decide)
    (by rw [setWidth_toNat _ (by decide)]; exact v.isLt)
  rwa [setWidth_toNat _ (by decide)] at this

theorem fromU16_ok (v : BitVec 16) : Returns (fromU16 v) BitWidth.w16 v.toNat := by
  have := newInl_returns (len := BitWidth.w16) (d := v.setWidth 64) (by decide)
    (by rw [setWidth_toNat _ (by decide)]; exact v.isLt)
  rwa [setWidth_toNat _ (by decide)] at this

theorem fromU32_ok (v : BitVec 32) : Returns (fromU32 v) BitWidth.w32 v.toNat := by
  have := newInl_returns (len := BitWidth.w32) (d := v.setWidth 64) (by decide)
    (by rw [setWidth_toNat _ (by decide)]; exact v.isLt)
  rwa [setWidth_toNat _ (by decide)] at this

theorem fromU64_ok (v : BitVec 64) : Returns (fromU64 v) BitWidth.w64 v.toNat :=
  newInl_returns (len := BitWidth.w64) (d := v) (by decide) v.isLt

theorem fromArray_ok {l : List (BitVec 64)} (h : l ≠ []) :
    ∃ c, fromArray l = .ok c ∧ c.WF ∧ c.w = 64 * l.length ∧ c.uval = val l.reverse := by
  obtain ⟨c, e, h1, h2, h3⟩ := fromIter_ok (ds := l.reverse) (by simpa using h)
  refine ⟨c, by simp [fromArray, e, expect], h1, by rw [h2, List.length_reverse], ?_⟩
  unfold uval; rw [h3]

theorem fromU128_ok (v : BitVec 128) : Returns (fromU128 v) BitWidth.w128 v.toNat := by
  obtain ⟨c, e, h1, h2, h3⟩ := fromArray_ok
    (l := [(v >>> 64).setWidth 64, (v &&& ((1#128 <<< 64) - 1#128)).setWidth 64]) (by simp)
  refine ⟨c, e, h1, BitWidth.ext h2, ?_⟩
  rw [h3]
  have hhi : ((v >>> 64).setWidth 64).toNat = v.toNat / B := DDigit.hi_toNat v
  have hlo : ((v &&& ((1#128 <<< 64) - 1#128)).setWidth 64).toNat = v.toNat % B := by
    rw [BitVec.toNat_setWidth, BitVec.toNat_and,
      show ((1#128 <<< 64) - 1#128).toNat = 2 ^ 64 - 1 by decide, Nat.and_two_pow_sub_one_eq_mod,
      Nat.mod_mod, B_eq]
  simp only [List.reverse_cons, List.reverse_nil, List.nil_append, List.singleton_append, val_cons,
    val_nil, Nat.mul_zero, Nat.add_zero]
  rw [hhi, hlo, Nat.mod_add_div]

theorem repeatDigit_ok (len : BitWidth) (d : Digit) :
    Returns (repeatDigit len d) len
      (val (List.replicate ((len.toUsize + 63) / 64) d) % 2 ^ len.toUsize) := by
  have hp := len.pos
  obtain ⟨c, e, h1, h2, h3⟩ := fromIter_ok (ds := List.replicate ((len.toUsize + 63) / 64) d)
    (by
      intro hc
      have := congrArg List.length hc
      simp at this
      omega)
  rw [List.length_replicate] at h2
  obtain ⟨x, e2, h4, h5, h6⟩ := into_of_updates (truncate_ok h1 (t := len) (by rw [h2]; omega))
  refine ⟨x, ?_, h4, h5, ?_⟩
  · simp [repeatDigit, BitWidth.requiredDigits_eq, e, expect, intoTruncate, e2]
  · rw [h6]; unfold uval; rw [h3]

theorem zero_ok (len : BitWidth) : Returns (zero len) len 0 := by
  have := repeatDigit_ok len Digit.ZERO
  rwa [show Digit.ZERO = 0#64 from rfl, val_replicate_zero, Nat.zero_mod] at this

theorem ones_mod {w n : Nat} (h : w ≤ n) : (2 ^ n - 1) % 2 ^ w = 2 ^ w - 1 := by
  obtain ⟨k, rfl⟩ := Nat.exists_eq_add_of_le h
  obtain ⟨m, hm⟩ : ∃ m, 2 ^ k = m + 1 := ⟨2 ^ k - 1, by have := two_pow_w_pos k; omega⟩
  have hp := two_pow_w_pos w
  rw [Nat.pow_add, hm, Nat.mul_add, Nat.mul_one, Nat.add_sub_assoc hp, Nat.mul_add_mod]
  exact Nat.mod_eq_of_lt (by omega)

theorem allSet_ok (len : BitWidth) : Returns (allSet len) len (2 ^ len.toUsize - 1) := by
  have := repeatDigit_ok len Digit.ONES
  rwa [show Digit.ONES = ~~~0#64 from by decide, val_replicate_ones, B_pow, ones_mod (by omega)]
    at this

theorem one_ok (len : BitWidth) : Returns (one len) len 1 := by
  obtain ⟨c, e, h1, h2, h3⟩ := fromU64_ok 1#64
  obtain ⟨x, e2, h4, h5, h6⟩ := zeroResize_ok h1 len
  refine ⟨x, ?_, h4, h5, ?_⟩
  · simp [one, e, intoZeroResize, forwardBinMutImpl_eq, e2]
  · rw [h6, h3]
    exact Nat.mod_eq_of_lt (Nat.one_lt_two_pow (Nat.pos_iff_ne_zero.mp len.pos))

/-- The three operations on the most significant bit. -/
theorem setMsb_ok {a : ApInt} (h : a.WF) :
    ∃ c, a.setMsb = .ok c ∧ c.WF ∧ c.len = a.len ∧
      ∀ i, c.uval.testBit i = if i = a.w - 1 then true else a.uval.testBit i := by
  obtain ⟨c, e, h1, h2, h3⟩ := setBitAt_ok h (pos := a.w - 1) (by have := a.pos_w; omega)
  have he : a.setBitAt (a.width.msbPos) = .ok (.ok (), c) := e
  exact ⟨c, by simp [setMsb, he, expect], h1, h2, h3⟩

theorem unsetMsb_ok {a : ApInt} (h : a.WF) :
    ∃ c, a.unsetMsb = .ok c ∧ c.WF ∧ c.len = a.len ∧
      ∀ i, c.uval.testBit i = if i = a.w - 1 then false else a.uval.testBit i := by
  obtain ⟨c, e, h1, h2, h3⟩ := unsetBitAt_ok h (pos := a.w - 1) (by have := a.pos_w; omega)
  have he : a.unsetBitAt (a.width.msbPos) = .ok (.ok (), c) := e
  exact ⟨c, by simp [unsetMsb, he, expect], h1, h2, h3⟩

theorem flipMsb_ok {a : ApInt} (h : a.WF) :
    ∃ c, a.flipMsb = .ok c ∧ c.WF ∧ c.len = a.len ∧
      ∀ i, c.uval.testBit i = if i = a.w - 1 then !(a.uval.testBit i) else a.uval.testBit i := by
  obtain ⟨c, e, h1, h2, h3⟩ := flipBitAt_ok h (pos := a.w - 1) (by have := a.pos_w; omega)
  have he : a.flipBitAt (a.width.msbPos) = .ok (.ok (), c) := e
  exact ⟨c, by simp [flipMsb, he, expect], h1, h2, h3⟩

theorem signedMinValue_ok (len : BitWidth) :
    Returns (signedMinValue len) len (2 ^ (len.toUsize - 1)) := by
  obtain ⟨a, e, h1, h2, h3⟩ := zero_ok len
  obtain ⟨c, e2, h4, h5, h6⟩ := setMsb_ok h1
  have hw : a.w = len.toUsize := by unfold w; rw [h2]
  refine ⟨c, by simp [signedMinValue, e, e2], h4, by rw [h5, h2], ?_⟩
  apply Nat.eq_of_testBit_eq
  intro i
  rw [h6, h3, hw, Nat.testBit_two_pow]
  by_cases hi : i = len.toUsize - 1
  · simp [hi]
  · simp [hi, Ne.symm hi]

theorem signedMaxValue_ok (len : BitWidth) :
    Returns (signedMaxValue len) len (2 ^ (len.toUsize - 1) - 1) := by
  obtain ⟨a, e, h1, h2, h3⟩ := allSet_ok len
  obtain ⟨c, e2, h4, h5, h6⟩ := unsetMsb_ok h1
  have hw : a.w = len.toUsize := by unfold w; rw [h2]
  refine ⟨c, by simp [signedMaxValue, e, e2], h4, by rw [h5, h2], ?_⟩
  apply Nat.eq_of_testBit_eq
  intro i
  have hp := len.pos
  rw [h6, h3, hw, Nat.testBit_two_pow_sub_one, Nat.testBit_two_pow_sub_one]
  by_cases hi : i = len.toUsize - 1
  · simp [hi]
  · rw [if_neg hi]
    congr 1
    rw [eq_iff_iff]
    omega

end ApInt

end Verif
