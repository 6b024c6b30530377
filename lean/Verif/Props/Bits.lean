import Verif.Proof.Ops
import Verif.Props.Witness

/-! # Bitwise operations, single bits, counts (C19 to C22) -/

namespace Verif.Props

open ApInt Ex

variable {a b : ApInt}

/-- The bits of `2 ^ w - 1 - v`. -/
theorem testBit_compl {w v : Nat} (hv : v < 2 ^ w) (i : Nat) :
    (2 ^ w - 1 - v).testBit i = (decide (i < w) && !v.testBit i) := by
  have : 2 ^ w - 1 - v = 2 ^ w - (v + 1) := by omega
  rw [this, Nat.testBit_two_pow_sub_succ hv]

/-- C19: `bitnot` complements every bit below the width and leaves the others zero. -/
theorem C19_bitnot (ha : a.WF) :
    ∃ c, a.bitnot = .ok c ∧ a.intoBitnot = .ok c ∧ a.opNot = .ok c ∧ c.WF ∧ c.len = a.len ∧
      ∀ i, c.uval.testBit i = (decide (i < a.w) && !a.uval.testBit i) := by
  obtain ⟨c, e, h1, h2, h3⟩ := bitnot_ok ha
  refine ⟨c, e, by simp [intoBitnot, forwardMutImpl, e],
    by simp [opNot, intoBitnot, forwardMutImpl, e], h1, h2, ?_⟩
  intro i
  rw [h3, testBit_compl ha.2]

example : ∃ c, a150.bitnot = .ok c ∧ c.uval.testBit 63 = false ∧ c.uval.testBit 149 = true ∧
    c.uval.testBit 150 = false := by
  obtain ⟨c, e, -, -, -, -, h⟩ := C19_bitnot a150_wf
  exact ⟨c, e, by rw [h]; decide, by rw [h]; decide, by rw [h]; decide⟩

/-- C19: `bitand`, `bitor`, `bitxor` on equal widths act on every bit position, in all forms. -/
theorem C19_binary (ha : a.WF) (hb : b.WF) (h : a.len = b.len) :
    (∃ c, a.bitandAssign b = .ok (.ok (), c) ∧ a.intoBitand b = .ok (.ok c) ∧
      a.opBitAnd b = .ok c ∧ a.opBitAndAssign b = .ok c ∧ c.WF ∧ c.len = a.len ∧
      ∀ i, c.uval.testBit i = (a.uval.testBit i && b.uval.testBit i)) ∧
    (∃ c, a.bitorAssign b = .ok (.ok (), c) ∧ a.intoBitor b = .ok (.ok c) ∧
      a.opBitOr b = .ok c ∧ a.opBitOrAssign b = .ok c ∧ c.WF ∧ c.len = a.len ∧
      ∀ i, c.uval.testBit i = (a.uval.testBit i || b.uval.testBit i)) ∧
    (∃ c, a.bitxorAssign b = .ok (.ok (), c) ∧ a.intoBitxor b = .ok (.ok c) ∧
      a.opBitXor b = .ok c ∧ a.opBitXorAssign b = .ok c ∧ c.WF ∧ c.len = a.len ∧
      ∀ i, c.uval.testBit i = (a.uval.testBit i != b.uval.testBit i)) := by
  obtain ⟨c1, e1, f1, g1, k1⟩ := bitandAssign_ok ha hb h
  obtain ⟨c2, e2, f2, g2, k2⟩ := bitorAssign_ok ha hb h
  obtain ⟨c3, e3, f3, g3, k3⟩ := bitxorAssign_ok ha hb h
  refine ⟨⟨c1, e1, ?_, ?_, ?_, f1, g1, fun i => by rw [k1, Nat.testBit_and]⟩,
    ⟨c2, e2, ?_, ?_, ?_, f2, g2, fun i => by rw [k2, Nat.testBit_or]⟩,
    ⟨c3, e3, ?_, ?_, ?_, f3, g3, fun i => by rw [k3, Nat.testBit_xor]⟩⟩ <;>
  simp [intoBitand, intoBitor, intoBitxor, tryForwardBinMutImpl, opBitAnd, opBitAndAssign, opBitOr,
    opBitOrAssign, opBitXor, opBitXorAssign, unwrapMut, unwrapRes, *]

example : ∃ c, a128.bitxorAssign b128 = .ok (.ok (), c) ∧ c.uval.testBit 64 = false ∧
    c.uval.testBit 65 = true := by
  obtain ⟨-, -, c, e, -, -, -, -, -, h⟩ := C19_binary a128_wf b128_wf rfl
  exact ⟨c, e, by rw [h]; decide, by rw [h]; decide⟩

/-- Two well-formed integers of one width with the same bits are the same. -/
theorem eq_of_bits {c d : ApInt} (hc : c.WF) (hd : d.WF) (h : c.len = d.len)
    (hb : ∀ i, c.uval.testBit i = d.uval.testBit i) : c = d :=
  ext_of_uval hc.1 hd.1 h (Nat.eq_of_testBit_eq hb)

/-- C19: double negation and De Morgan through the operators of the API. -/
theorem C19_laws (ha : a.WF) (hb : b.WF) (h : a.len = b.len) :
    (do let x ← a.opNot; x.opNot) = .ok a ∧
    (do let x ← a.opBitAnd b; x.opNot) = (do let x ← a.opNot; let y ← b.opNot; x.opBitOr y) ∧
    (do let x ← a.opBitOr b; x.opNot) = (do let x ← a.opNot; let y ← b.opNot; x.opBitAnd y) := by
  obtain ⟨na, -, -, ena, wna, lna, bna⟩ := C19_bitnot ha
  obtain ⟨nb, -, -, enb, wnb, lnb, bnb⟩ := C19_bitnot hb
  obtain ⟨nna, -, -, enna, wnna, lnna, bnna⟩ := C19_bitnot wna
  obtain ⟨⟨x1, -, -, ex1, -, wx1, lx1, bx1⟩, ⟨x2, -, -, ex2, -, wx2, lx2, bx2⟩, -⟩ :=
    C19_binary ha hb h
  obtain ⟨y1, -, -, ey1, wy1, ly1, by1⟩ := C19_bitnot wx1
  obtain ⟨y2, -, -, ey2, wy2, ly2, by2⟩ := C19_bitnot wx2
  obtain ⟨⟨z1, -, -, ez1, -, wz1, lz1, bz1⟩, ⟨z2, -, -, ez2, -, wz2, lz2, bz2⟩, -⟩ :=
    C19_binary wna wnb (by rw [lna, lnb, h])
  have hwb := w_eq h
  have hw1 := w_eq lx1
  have hw2 := w_eq lx2
  have hwn := w_eq lna
  simp only [ena, enb, ex1, ex2, run_bind_ok, enna, ey1, ey2, ez1, ez2]
  refine ⟨congrArg _ (eq_of_bits wnna ha (by rw [lnna, lna]) ?_),
    congrArg _ (eq_of_bits wy1 wz2 (by rw [ly1, lx1, lz2, lna]) ?_),
    congrArg _ (eq_of_bits wy2 wz1 (by rw [ly2, lx2, lz1, lna]) ?_)⟩
  · intro i
    rw [bnna, bna, hwn]
    by_cases hi : i < a.w
    · simp [hi]
    · simp [hi, ha.testBit_of_ge (Nat.not_lt.mp hi)]
  · intro i
    rw [by1, bx1, bz2, bna, bnb, hw1, ← hwb]
    cases a.uval.testBit i <;> cases b.uval.testBit i <;> simp
  · intro i
    rw [by2, bx2, bz1, bna, bnb, hw2, ← hwb]
    cases a.uval.testBit i <;> cases b.uval.testBit i <;> simp

example : (do let x ← a128.opBitAnd b128; x.opNot) =
    (do let x ← a128.opNot; let y ← b128.opNot; x.opBitOr y) :=
  (C19_laws a128_wf b128_wf rfl).2.1

/-- C20: reading a bit below the width returns that bit of the value; setting, clearing and
flipping it changes that bit and no other. -/
theorem C20_bit_at (ha : a.WF) {pos : Nat} (hp : pos < a.w) :
    a.getBitAt pos = .ok (.ok (a.uval.testBit pos)) ∧
    (∃ c, a.setBitAt pos = .ok (.ok (), c) ∧ c.WF ∧ c.len = a.len ∧
      ∀ i, c.uval.testBit i = if i = pos then true else a.uval.testBit i) ∧
    (∃ c, a.unsetBitAt pos = .ok (.ok (), c) ∧ c.WF ∧ c.len = a.len ∧
      ∀ i, c.uval.testBit i = if i = pos then false else a.uval.testBit i) ∧
    (∃ c, a.flipBitAt pos = .ok (.ok (), c) ∧ c.WF ∧ c.len = a.len ∧
      ∀ i, c.uval.testBit i = if i = pos then !a.uval.testBit i else a.uval.testBit i) :=
  ⟨getBitAt_ok ha.1 hp, setBitAt_ok ha hp, unsetBitAt_ok ha hp, flipBitAt_ok ha hp⟩

example : a150.getBitAt 131 = .ok (.ok true) := by
  rw [(C20_bit_at a150_wf (pos := 131) (by decide)).1]; decide +kernel

/-- C20: positions at or beyond the width are rejected and nothing changes. -/
theorem C20_invalid {pos : Nat} (hp : a.w ≤ pos) :
    a.getBitAt pos = .ok (.error (.invalidBitAccess pos a.len)) ∧
    a.setBitAt pos = .ok (.error (.invalidBitAccess pos a.len), a) ∧
    a.unsetBitAt pos = .ok (.error (.invalidBitAccess pos a.len), a) ∧
    a.flipBitAt pos = .ok (.error (.invalidBitAccess pos a.len), a) :=
  ⟨getBitAt_err hp, modifyBitAt_err hp _, modifyBitAt_err hp _, modifyBitAt_err hp _⟩

example : a150.setBitAt 150 = .ok (.error (.invalidBitAccess 150 a150.len), a150) :=
  (C20_invalid (pos := 150) (by decide)).2.1

/-- C21: setting, clearing and flipping all bits. -/
theorem C21_all (ha : a.WF) :
    Returns a.setAll a.len (2 ^ a.w - 1) ∧ Returns a.unsetAll a.len 0 ∧ a.flipAll = a.bitnot := by
  refine ⟨setAll_ok ha, unsetAll_ok ha, (flipAll_ok ha).eq (bitnot_ok ha)⟩

example : Returns a150.setAll a150.len (2 ^ 150 - 1) := (C21_all a150_wf).1

/-- C21: the most significant bit is bit `w - 1`, the least significant one bit 0; setting,
clearing and flipping the former changes only it. -/
theorem C21_msb (ha : a.WF) :
    a.msb = .ok (a.uval.testBit (a.w - 1)) ∧ a.lsb = .ok (a.uval.testBit 0) ∧
    (∃ c, a.setMsb = .ok c ∧ c.WF ∧ c.len = a.len ∧
      ∀ i, c.uval.testBit i = if i = a.w - 1 then true else a.uval.testBit i) ∧
    (∃ c, a.unsetMsb = .ok c ∧ c.WF ∧ c.len = a.len ∧
      ∀ i, c.uval.testBit i = if i = a.w - 1 then false else a.uval.testBit i) ∧
    (∃ c, a.flipMsb = .ok c ∧ c.WF ∧ c.len = a.len ∧
      ∀ i, c.uval.testBit i = if i = a.w - 1 then !a.uval.testBit i else a.uval.testBit i) :=
  ⟨msb_ok ha.1, lsb_ok ha.1, setMsb_ok ha, unsetMsb_ok ha, flipMsb_ok ha⟩

example : b150.msb = .ok true := (C21_msb b150_wf).1
example : a150.msb = .ok false := (C21_msb a150_wf).1

/-- C22: `count_ones` and `count_zeros` count the ones and the zeros among the bit positions below
the width. -/
theorem C22_counts (ha : a.WF) :
    a.countOnes = .ok ((List.range a.w).countP fun i => a.uval.testBit i) ∧
    a.countZeros = .ok ((List.range a.w).countP fun i => !a.uval.testBit i) ∧
    ∃ o z, a.countOnes = .ok o ∧ a.countZeros = .ok z ∧ o + z = a.w := by
  refine ⟨countOnes_ok ha, countZeros_ok ha, _, _, countOnes_ok ha, countZeros_ok ha, ?_⟩
  have := List.length_eq_countP_add_countP (fun i => a.uval.testBit i) (l := List.range a.w)
  rw [List.length_range] at this
  refine Eq.trans ?_ this.symm
  congr 2
  funext i
  cases a.uval.testBit i <;> rfl

example : a150.countOnes = .ok 3 := by rw [(C22_counts a150_wf).1]; decide +kernel
example : a150.countZeros = .ok 147 := by rw [(C22_counts a150_wf).2.1]; decide +kernel

/-- C22: `leading_zeros` is the number of zero bits above the highest one, `w` for zero;
`trailing_zeros` the number of zero bits below the lowest one, `w` for zero. -/
theorem C22_leading_trailing (ha : a.WF) :
    (∃ n, a.leadingZeros = .ok n ∧ n ≤ a.w ∧ (∀ i, a.w - n ≤ i → a.uval.testBit i = false) ∧
      (n < a.w → a.uval.testBit (a.w - 1 - n) = true) ∧ (n = a.w ↔ a.uval = 0)) ∧
    (∃ n, a.trailingZeros = .ok n ∧ n ≤ a.w ∧ (∀ i, i < n → a.uval.testBit i = false) ∧
      (n < a.w → a.uval.testBit n = true) ∧ (n = a.w ↔ a.uval = 0)) := by
  constructor
  · obtain ⟨n, e, h1, h2, h3⟩ := leadingZeros_ok ha
    refine ⟨n, e, h1, ?_, ?_, ?_⟩
    · intro i hi
      exact Nat.testBit_lt_two_pow (Nat.lt_of_lt_of_le h2 (Nat.pow_le_pow_right (by decide) hi))
    · intro hn
      have h4 := testBit_top (w := a.w - n) (by omega) h2
      rw [show a.w - 1 - n = a.w - n - 1 by omega, h4]
      simpa using h3 hn
    · constructor
      · rintro rfl
        rw [Nat.sub_self, Nat.pow_zero] at h2
        omega
      · intro h0
        by_contra hc
        have := h3 (by omega)
        have hp := two_pow_w_pos (a.w - n - 1)
        omega
  · obtain ⟨n, e, h1, h2, h3⟩ := trailingZeros_ok ha
    refine ⟨n, e, h1, h2, h3, ?_⟩
    constructor
    · rintro rfl
      apply Nat.eq_of_testBit_eq
      intro i
      rw [Nat.zero_testBit]
      by_cases hi : i < a.w
      · exact h2 i hi
      · exact ha.testBit_of_ge (Nat.not_lt.mp hi)
    · intro h0
      by_contra hc
      have := h3 (by omega)
      rw [h0, Nat.zero_testBit] at this
      cases this

example : ∃ n, a150.leadingZeros = .ok n ∧ n ≤ 150 := by
  obtain ⟨⟨n, e, h, -⟩, -⟩ := C22_leading_trailing a150_wf
  exact ⟨n, e, h⟩

end Verif.Props
