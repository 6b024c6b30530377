import Verif.Props.LawsCast

/-!
# C60, C61: laws of the comparisons and of division
-/

namespace Verif.Props

open Ex Expr

set_option hygiene false in
/-- The laws of this file, read on bit-vectors. -/
macro "reads" : tactic => `(tactic| (
  refine same_of fun β => ?_
  simp only [den_and, den_or, den_xor, den_not, den_X, den_Y, den_Z, den_add, den_sub, den_mul,
    den_neg, den_shl, den_lshr, den_ashr, den_zero, den_one, den_allSet, den_dec, den_inc, den_udiv,
    den_urem, den_sdiv, den_srem, den_trunc, den_zext, den_sext, den_zresize, den_sresize, den_pick,
    den_flipMsb, den_smin, Option.bind_some]
  generalize β 0 = x
  generalize β 1 = y
  generalize β 2 = z))

theorem ult_bv {n : Nat} (x y : BitVec n) : Ask2.ult.bv x y = true ↔ x.toNat < y.toNat := by
  show x.ult y = true ↔ _
  rw [BitVec.ult_iff_lt, BitVec.lt_def]

theorem slt_bv {n : Nat} (x y : BitVec n) : Ask2.slt.bv x y = true ↔ x.toInt < y.toInt := by
  show x.slt y = true ↔ _
  rw [BitVec.slt_iff_toInt_lt]

theorem eq_bv {n : Nat} (x y : BitVec n) : Ask2.eq.bv x y = true ↔ x = y := by
  show (x == y) = true ↔ _
  rw [beq_iff_eq]

/-- Adding half the range turns the signed order into the unsigned one. -/
theorem toNat_flip {n : Nat} (hn : 0 < n) (x : BitVec n) :
    ((x ^^^ BitVec.twoPow n (n - 1)).toNat : Int) = x.toInt + 2 ^ (n - 1) := by
  have hp : (2 : Nat) ^ n = 2 * 2 ^ (n - 1) := by rw [← pow_succ', Nat.sub_add_cancel hn]
  have hx := x.isLt
  have h1 : (BitVec.intMin n).toNat = 2 ^ (n - 1) := by
    show (BitVec.twoPow n (n - 1)).toNat = _
    rw [BitVec.toNat_twoPow_of_lt (by omega)]
  rw [xor_top hn, BitVec.toNat_add, h1, BitVec.toInt_eq_toNat_cond]
  have hc : ((2 ^ (n - 1) : Nat) : Int) = (2 : Int) ^ (n - 1) := by push_cast; rfl
  rw [← hc]
  rw [hp] at hx ⊢
  generalize 2 ^ (n - 1) = p at hx ⊢
  split
  · rw [Nat.mod_eq_of_lt (by omega)]
    push_cast
    omega
  · rw [Nat.mod_eq_sub_mod (by omega), Nat.mod_eq_of_lt (by omega)]
    push_cast [show 2 * p ≤ x.toNat + p by omega]
    omega

/-- C60: every comparison in terms of unsigned `<`; the signed order is the unsigned one with the
sign bits flipped; equality is a vanishing difference. -/
theorem C60_compare (w : BitWidth) (e f : E w) :
    Same (.pick .ugt X Y e f : E w) (.pick .ult Y X e f) ∧
    Same (.pick .ule X Y e f : E w) (.pick .ult Y X f e) ∧
    Same (.pick .uge X Y e f : E w) (.pick .ult X Y f e) ∧
    Same (.pick .sgt X Y e f : E w) (.pick .slt Y X e f) ∧
    Same (.pick .sle X Y e f : E w) (.pick .slt Y X f e) ∧
    Same (.pick .sge X Y e f : E w) (.pick .slt X Y f e) ∧
    Same (.pick .slt X Y e f : E w) (.pick .ult (flipMsb X) (flipMsb Y) e f) ∧
    Same (.pick .eq X Y e f : E w) (.pick .eq (X - Y) zero e f) ∧
    Same (.pick .eq X Y e f : E w) (.pick .eq (X ^^^ Y) zero e f) ∧
    Same (.pick .eq X Y e f : E w) (.pick .ult X Y f (.pick .ult Y X f e)) := by
  have hw : 0 < w.toUsize := w.2
  have not_ite : ∀ {b c : Bool} {α : Type} (p q : α), b = !c →
      (if b = true then p else q) = (if c = true then q else p) := by
    intro b c α p q h
    subst h
    cases c <;> rfl
  refine ⟨?_, ?_, ?_, ?_, ?_, ?_, ?_, ?_, ?_, ?_⟩ <;> refine same_of fun β => ?_ <;>
    simp only [den_X, den_Y, den_pick, den_flipMsb, den_sub, den_xor, den_zero,
      Option.bind_some] <;> generalize e.den β = p <;> generalize f.den β = q <;>
    generalize β 0 = x <;> generalize β 1 = y
  · rfl
  · apply not_ite
    show x.ule y = !y.ult x
    rw [Bool.eq_iff_iff]
    simp [BitVec.ule, BitVec.ult]
  · apply not_ite
    show y.ule x = !x.ult y
    rw [Bool.eq_iff_iff]
    simp [BitVec.ule, BitVec.ult]
  · rfl
  · apply not_ite
    show x.sle y = !y.slt x
    rw [Bool.eq_iff_iff]
    simp [BitVec.sle, BitVec.slt]
  · apply not_ite
    show y.sle x = !x.slt y
    rw [Bool.eq_iff_iff]
    simp [BitVec.sle, BitVec.slt]
  · have h : Ask2.slt.bv x y = Ask2.ult.bv (x ^^^ BitVec.twoPow w.toUsize (w.toUsize - 1))
        (y ^^^ BitVec.twoPow w.toUsize (w.toUsize - 1)) := by
      rw [Bool.eq_iff_iff, slt_bv, ult_bv]
      have hx := toNat_flip hw x
      have hy := toNat_flip hw y
      omega
    rw [h]
  · have h : Ask2.eq.bv x y = Ask2.eq.bv (x - y) 0#w.toUsize := by
      rw [Bool.eq_iff_iff, eq_bv, eq_bv]
      exact ⟨fun h => by rw [h, BitVec.sub_self], fun h => by
        rw [← BitVec.sub_add_cancel x y, h, BitVec.zero_add]⟩
    rw [h]
  · have h : Ask2.eq.bv x y = Ask2.eq.bv (x ^^^ y) 0#w.toUsize := by
      rw [Bool.eq_iff_iff, eq_bv, eq_bv, BitVec.xor_eq_zero_iff]
    rw [h]
  · by_cases h1 : x.toNat < y.toNat
    · rw [if_pos ((ult_bv x y).mpr h1), if_neg]
      rw [eq_bv]
      rintro rfl
      omega
    · rw [if_neg (fun h => h1 ((ult_bv x y).mp h))]
      by_cases h2 : y.toNat < x.toNat
      · rw [if_pos ((ult_bv y x).mpr h2), if_neg]
        rw [eq_bv]
        rintro rfl
        omega
      · rw [if_neg (fun h => h2 ((ult_bv y x).mp h)), if_pos]
        rw [eq_bv]
        exact BitVec.eq_of_toNat_eq (by omega)

/-- C60: an unsigned sum has wrapped exactly when it is below an operand; a signed sum has wrapped
exactly when its sign differs from the sign of both operands.  The right-hand sides compare with the
exact sum at a larger width `t`. -/
theorem C60_overflow (w t : BitWidth) (h : w.toUsize < t.toUsize) (e f : E w) :
    Same (.pick .ult (X + Y) X e f : E w)
      (.pick .eq (zext t (X + Y)) (zext t X + zext t Y) f e) ∧
    Same (.pick .slt ((X ^^^ (X + Y)) &&& (Y ^^^ (X + Y))) zero e f : E w)
      (.pick .eq (sext t (X + Y)) (sext t X + sext t Y) f e) := by
  have hw : 0 < w.toUsize := w.2
  have ht : 0 < t.toUsize := t.2
  have not_ite : ∀ {b c : Bool} {α : Type} (p q : α), (b = true ↔ c = false) →
      (if b = true then p else q) = (if c = true then q else p) := by
    intro b c α p q h
    cases b <;> cases c <;> simp at h ⊢
  refine ⟨?_, ?_⟩ <;> refine same_of fun β => ?_ <;>
    simp only [den_X, den_Y, den_pick, den_add, den_and, den_xor, den_zero, den_zext, den_sext,
      Option.bind_some, if_pos h.le] <;> generalize e.den β = p <;> generalize f.den β = q <;>
    generalize β 0 = x <;> generalize β 1 = y <;> apply not_ite <;>
    rw [← Bool.not_eq_true, eq_bv]
  · rw [ult_bv, BitVec.toNat_inj.symm, BitVec.toNat_setWidth_of_le h.le, BitVec.toNat_add,
      BitVec.toNat_add, BitVec.toNat_setWidth_of_le h.le, BitVec.toNat_setWidth_of_le h.le]
    have hx := x.isLt
    have hy := y.isLt
    have hp : 2 * 2 ^ w.toUsize ≤ 2 ^ t.toUsize := by
      rw [← pow_succ']
      exact Nat.pow_le_pow_right (by decide) h
    generalize 2 ^ w.toUsize = a at *
    generalize 2 ^ t.toUsize = b at *
    rw [Nat.mod_eq_of_lt (show x.toNat + y.toNat < b by omega)]
    by_cases hc : x.toNat + y.toNat < a
    · rw [Nat.mod_eq_of_lt hc]
      omega
    · rw [Nat.mod_eq_sub_mod (by omega), Nat.mod_eq_of_lt (by omega)]
      omega
  · have hm : Ask2.slt.bv ((x ^^^ (x + y)) &&& (y ^^^ (x + y))) 0#w.toUsize = true ↔
        x.msb = y.msb ∧ (x + y).msb ≠ x.msb := by
      show BitVec.slt _ _ = true ↔ _
      rw [BitVec.slt_zero_eq_msb, BitVec.msb_and, BitVec.msb_xor, BitVec.msb_xor]
      cases x.msb <;> cases y.msb <;> cases (x + y).msb <;> simp
    rw [hm, BitVec.toInt_inj.symm, BitVec.toInt_signExtend_of_le h.le, BitVec.toInt_add (w := t.toUsize),
      BitVec.toInt_signExtend_of_le h.le, BitVec.toInt_signExtend_of_le h.le]
    have hx := toInt_range x
    have hy := toInt_range y
    have hk : (2 : Int) * 2 ^ (w.toUsize - 1) ≤ 2 ^ (t.toUsize - 1) := by
      rw [← pow_succ', Nat.sub_add_cancel hw]
      exact pow_le_pow_int (by omega)
    rw [bmod_small (z := x.toInt + y.toInt) ht (by omega) (by omega), BitVec.msb_eq_toInt,
      BitVec.msb_eq_toInt, BitVec.msb_eq_toInt, BitVec.toInt_add]
    have hp : ((2 ^ w.toUsize : Nat) : Int) = 2 * 2 ^ (w.toUsize - 1) := by
      push_cast
      rw [← pow_succ', Nat.sub_add_cancel hw]
    generalize x.toInt = a at *
    generalize y.toInt = b at *
    by_cases h1 : a + b < -2 ^ (w.toUsize - 1)
    · have h2 : (a + b).bmod (2 ^ w.toUsize) = a + b + 2 * 2 ^ (w.toUsize - 1) := by
        rw [← Int.add_mul_bmod_self_left (a + b) (2 ^ w.toUsize) 1, hp]
        rw [mul_one]
        exact bmod_small hw (by omega) (by omega)
      rw [h2]
      simp
      omega
    · by_cases h3 : a + b < 2 ^ (w.toUsize - 1)
      · rw [bmod_small hw (by omega) h3]
        simp
        omega
      · have h2 : (a + b).bmod (2 ^ w.toUsize) = a + b - 2 * 2 ^ (w.toUsize - 1) := by
          rw [← Int.add_mul_bmod_self_left (a + b) (2 ^ w.toUsize) (-1), hp]
          rw [show 2 * 2 ^ (w.toUsize - 1) * (-1 : Int) = -(2 * 2 ^ (w.toUsize - 1)) by ring,
            ← sub_eq_add_neg]
          exact bmod_small hw (by omega) (by omega)
        rw [h2]
        simp
        omega

example : (Expr.pick .slt X Y X Y : E (bw 150)).eval env150 =
    (Expr.pick .ult (flipMsb X) (flipMsb Y) X Y : E (bw 150)).eval env150 :=
  (C60_compare (bw 150) X Y).2.2.2.2.2.2.1.value env150_ok (by decide +kernel)

example : (Expr.pick .slt ((X ^^^ (X + Y)) &&& (Y ^^^ (X + Y))) zero X Y : E (bw 150)).eval env150 =
    (Expr.pick .eq (sext w151 (X + Y)) (sext w151 X + sext w151 Y) Y X : E (bw 150)).eval env150 :=
  (C60_overflow (bw 150) w151 (by decide) X Y).2.value env150_ok (by decide +kernel)

/-! ### Division -/

/-- C61: quotient times divisor plus remainder is the dividend, unsigned and signed; both sides
report an error exactly when the divisor is zero. -/
theorem C61_recompose (w : BitWidth) :
    Same ((X.udiv Y) * Y + X.urem Y : E w) (.pick .eq Y zero (X.udiv Y) X) ∧
    Same ((X.sdiv Y) * Y + X.srem Y : E w) (.pick .eq Y zero (X.sdiv Y) X) := by
  refine ⟨?_, ?_⟩ <;> reads <;> by_cases h : y = 0#w.toUsize
  · simp only [if_pos h, Option.bind_none, if_pos ((eq_bv y _).mpr h)]
  · simp only [if_neg h, Option.bind_some, if_neg (fun h1 => h ((eq_bv y _).mp h1)),
      Option.some.injEq]
    apply BitVec.eq_of_toNat_eq
    rw [BitVec.toNat_add, BitVec.toNat_mul, BitVec.toNat_udiv, BitVec.toNat_umod,
      Nat.mod_add_mod, Nat.mul_comm, Nat.div_add_mod, Nat.mod_eq_of_lt x.isLt]
  · simp only [if_pos h, Option.bind_none, if_pos ((eq_bv y _).mpr h)]
  · simp only [if_neg h, Option.bind_some, if_neg (fun h1 => h ((eq_bv y _).mp h1)),
      Option.some.injEq]
    apply BitVec.eq_of_toInt_eq
    have h2 : ((x.toInt.tdiv y.toInt).bmod (2 ^ w.toUsize) * y.toInt).bmod (2 ^ w.toUsize) =
        (x.toInt.tdiv y.toInt * y.toInt).bmod (2 ^ w.toUsize) := Int.bmod_mul_bmod
    rw [BitVec.toInt_add, BitVec.toInt_mul, BitVec.toInt_sdiv, BitVec.toInt_srem, h2,
      Int.bmod_add_bmod, Int.mul_comm, Int.mul_tdiv_add_tmod, BitVec.toInt_bmod_cancel]

/-- C61: dividing by one and by minus one; small dividends. -/
theorem C61_units (w : BitWidth) :
    Same (X.udiv one : E w) X ∧ Same (X.urem one : E w) zero ∧
    Same (X.sdiv one : E w) X ∧ Same (X.srem one : E w) zero ∧
    Same (X.sdiv allSet : E w) (-X) ∧ Same (X.srem allSet : E w) zero ∧
    Same (.pick .ult X Y (X.udiv Y) zero : E w) zero ∧
    Same (.pick .ult X Y (X.urem Y) X : E w) X ∧
    Same (.pick .eq X zero X (X.udiv X) : E w) (.pick .eq X zero X one) ∧
    Same (.pick .eq X zero X (X.sdiv X) : E w) (.pick .eq X zero X one) := by
  have hw : 0 < w.toUsize := w.2
  have h1 : 1#w.toUsize ≠ 0#w.toUsize := by
    intro h
    have := congrArg BitVec.toNat h
    rw [BitVec.toNat_ofNat, Nat.mod_eq_of_lt (Nat.one_lt_two_pow (by omega))] at this
    simp at this
  have ha : BitVec.allOnes w.toUsize ≠ 0#w.toUsize := by
    intro h
    have := congrArg BitVec.toInt h
    rw [BitVec.toInt_allOnes, if_pos hw] at this
    simp at this
  have hm : (BitVec.allOnes w.toUsize).toInt = -1 := by rw [BitVec.toInt_allOnes, if_pos hw]
  refine ⟨?_, ?_, ?_, ?_, ?_, ?_, ?_, ?_, ?_, ?_⟩ <;> reads <;>
    try simp only [if_neg h1, if_neg ha, Option.some.injEq]
  · exact BitVec.udiv_one
  · exact BitVec.umod_one
  · exact BitVec.sdiv_one
  · exact BitVec.srem_one
  · apply BitVec.eq_of_toInt_eq
    rw [BitVec.toInt_sdiv, hm, BitVec.toInt_neg, Int.tdiv_neg, Int.tdiv_one]
  · apply BitVec.eq_of_toInt_eq
    rw [BitVec.toInt_srem, hm, Int.tmod_neg, Int.tmod_one]
    simp
  · by_cases h : x.toNat < y.toNat
    · have hy : y ≠ 0#w.toUsize := by
        rintro rfl
        simp at h
      rw [if_pos ((ult_bv x y).mpr h), if_neg hy, Option.some.injEq]
      apply BitVec.eq_of_toNat_eq
      rw [BitVec.toNat_udiv, Nat.div_eq_of_lt h]
      simp
    · rw [if_neg (fun h2 => h ((ult_bv x y).mp h2))]
  · by_cases h : x.toNat < y.toNat
    · have hy : y ≠ 0#w.toUsize := by
        rintro rfl
        simp at h
      rw [if_pos ((ult_bv x y).mpr h), if_neg hy, Option.some.injEq]
      apply BitVec.eq_of_toNat_eq
      rw [BitVec.toNat_umod, Nat.mod_eq_of_lt h]
    · rw [if_neg (fun h2 => h ((ult_bv x y).mp h2))]
  · by_cases h : x = 0#w.toUsize
    · rw [if_pos ((eq_bv x _).mpr h), if_pos ((eq_bv x _).mpr h)]
    · rw [if_neg (fun h2 => h ((eq_bv x _).mp h2)), if_neg (fun h2 => h ((eq_bv x _).mp h2)),
        if_neg h, BitVec.udiv_self, if_neg (by simpa using h)]
  · by_cases h : x = 0#w.toUsize
    · rw [if_pos ((eq_bv x _).mpr h), if_pos ((eq_bv x _).mpr h)]
    · rw [if_neg (fun h2 => h ((eq_bv x _).mp h2)), if_neg (fun h2 => h ((eq_bv x _).mp h2)),
        if_neg h, BitVec.sdiv_self, if_neg (by simpa using h)]

/-- C61: signed division and remainder from unsigned ones on the magnitudes. -/
theorem C61_signed (w : BitWidth) :
    Same (X.sdiv Y : E w) (.pick .slt X zero
      (.pick .slt Y zero ((-X).udiv (-Y)) (-((-X).udiv Y)))
      (.pick .slt Y zero (-(X.udiv (-Y))) (X.udiv Y))) ∧
    Same (X.srem Y : E w) (.pick .slt X zero
      (.pick .slt Y zero (-((-X).urem (-Y))) (-((-X).urem Y)))
      (.pick .slt Y zero (X.urem (-Y)) (X.urem Y))) := by
  have hb : ∀ x : BitVec w.toUsize, Ask2.slt.bv x 0#w.toUsize = x.msb := by
    intro x
    show x.slt 0#w.toUsize = _
    rw [BitVec.slt_zero_eq_msb]
  have hn : ∀ y : BitVec w.toUsize, -y = 0#w.toUsize ↔ y = 0#w.toUsize := fun y =>
    BitVec.neg_eq_zero_iff
  refine ⟨?_, ?_⟩ <;> reads <;> simp only [hb, hn] <;> by_cases h : y = 0#w.toUsize
  · simp only [if_pos h, Option.bind_none, ite_self]
  · simp only [if_neg h, Option.bind_some]
    rw [BitVec.sdiv_eq]
    cases x.msb <;> cases y.msb <;> rfl
  · simp only [if_pos h, Option.bind_none, ite_self]
  · simp only [if_neg h, Option.bind_some]
    rw [BitVec.srem_eq]
    cases x.msb <;> cases y.msb <;> rfl

/-- C61: dividing twice is dividing by the product, taken at a width where it is exact. -/
theorem C61_twice (w t : BitWidth) (h : 2 * w.toUsize ≤ t.toUsize) :
    Same (zext t ((X.udiv Y).udiv Z : E w)) ((zext t X).udiv (zext t Y * zext t Z)) := by
  have hle : w.toUsize ≤ t.toUsize := by omega
  reads
  simp only [if_pos hle, Option.bind_some]
  have hy := y.isLt
  have hz := z.isLt
  have hp : 2 ^ w.toUsize * 2 ^ w.toUsize ≤ 2 ^ t.toUsize := by
    rw [← pow_add]
    exact Nat.pow_le_pow_right (by decide) (by omega)
  have hm : (y.setWidth t.toUsize * z.setWidth t.toUsize).toNat = y.toNat * z.toNat := by
    rw [BitVec.toNat_mul, BitVec.toNat_setWidth_of_le hle, BitVec.toNat_setWidth_of_le hle,
      Nat.mod_eq_of_lt (lt_of_lt_of_le (Nat.mul_lt_mul'' hy hz) hp)]
  have h0 : y.setWidth t.toUsize * z.setWidth t.toUsize = 0#t.toUsize ↔
      y = 0#w.toUsize ∨ z = 0#w.toUsize := by
    rw [← BitVec.toNat_inj, ← BitVec.toNat_inj, ← BitVec.toNat_inj, hm]
    simp
  by_cases h1 : y = 0#w.toUsize
  · rw [if_pos h1, if_pos (h0.mpr (.inl h1))]
    rfl
  · rw [if_neg h1]
    by_cases h2 : z = 0#w.toUsize
    · rw [if_pos (h0.mpr (.inr h2))]
      simp only [Option.bind_some, if_pos h2, Option.bind_none]
    · rw [if_neg (by rw [h0]; exact not_or.mpr ⟨h1, h2⟩)]
      simp only [Option.bind_some, if_neg h2, Option.some.injEq]
      apply BitVec.eq_of_toNat_eq
      rw [BitVec.toNat_setWidth_of_le hle, BitVec.toNat_udiv, BitVec.toNat_udiv, BitVec.toNat_udiv,
        hm, BitVec.toNat_setWidth_of_le hle, Nat.div_div_eq_div_mul]

example : ((X.sdiv Y) * Y + X.srem Y : E (bw 150)).eval env150 =
    (Expr.pick .eq Y zero (X.sdiv Y) X : E (bw 150)).eval env150 :=
  (C61_recompose (bw 150)).2.value env150_ok (by decide +kernel)

example : (X.sdiv allSet : E (bw 150)).eval env150 = (-X : E (bw 150)).eval env150 :=
  (C61_units (bw 150)).2.2.2.2.1.value env150_ok (by decide +kernel)

example : (X.srem Y : E (bw 150)).eval env150 = (Expr.pick .slt X zero
      (.pick .slt Y zero (-((-X).urem (-Y))) (-((-X).urem Y)))
      (.pick .slt Y zero (X.urem (-Y)) (X.urem Y)) : E (bw 150)).eval env150 :=
  (C61_signed (bw 150)).2.value env150_ok (by decide +kernel)

example : (zext w300 ((X.udiv Y).udiv Z : E (bw 150))).eval env150 =
    (((zext w300 (X : E (bw 150))).udiv (zext w300 Y * zext w300 Z)) :
      Expr (fun _ : Fin 3 => bw 150) w300).eval env150 :=
  (C61_twice (bw 150) w300 (by decide)).value env150_ok (by decide +kernel)

end Verif.Props
