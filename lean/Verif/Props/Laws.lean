import Verif.ExprNotation
import Verif.Props.BitVector

/-!
# C57, C58: laws of the bitwise operations and of the shifts

Every law says that two ways of computing with the API give the same integer, for all widths and
all values of the variables `X`, `Y`, `Z`.
-/

namespace Verif.Props

open Ex Expr

/-- Expressions of width `w` in three variables of width `w`. -/
abbrev E (w : BitWidth) := Expr (fun _ : Fin 3 => w) w

section
variable {w : BitWidth}

def X : E w := .var 0
def Y : E w := .var 1
def Z : E w := .var 2

variable (β : (i : Fin 3) → BitVec ((fun _ : Fin 3 => w) i).toUsize)

@[simp] theorem den_X : (X : E w).den β = some (show BitVec w.toUsize from β 0) := rfl
@[simp] theorem den_Y : (Y : E w).den β = some (show BitVec w.toUsize from β 1) := rfl
@[simp] theorem den_Z : (Z : E w).den β = some (show BitVec w.toUsize from β 2) := rfl
end

/-- A law follows from its reading on bit-vectors. -/
theorem same_of {w v : BitWidth} {e f : Expr (fun _ : Fin 3 => w) v}
    (h : ∀ β : (i : Fin 3) → BitVec w.toUsize, e.den β = f.den β) : Same e f :=
  (C56_identity e f).mpr h

theorem bv_or_add_and {n : Nat} (x y : BitVec n) : (x ||| y) + (x &&& y) = x + y := by
  have h1 : (x &&& ~~~y) + (x &&& y) = x := by
    rw [BitVec.add_eq_or_of_and_eq_zero]
    · ext i; simp; cases x[i] <;> cases y[i] <;> rfl
    · ext i; simp; cases x[i] <;> cases y[i] <;> simp
  have h2 : (x &&& ~~~y) + y = x ||| y := by
    rw [BitVec.add_eq_or_of_and_eq_zero]
    · ext i; simp; cases x[i] <;> cases y[i] <;> rfl
    · ext i; simp
  calc (x ||| y) + (x &&& y) = ((x &&& ~~~y) + y) + (x &&& y) := by rw [h2]
    _ = ((x &&& ~~~y) + (x &&& y)) + y := by
        rw [BitVec.add_assoc, BitVec.add_comm y, ← BitVec.add_assoc]
    _ = x + y := by rw [h1]

theorem bv_xor_add_and {n : Nat} (x y : BitVec n) : (x ^^^ y) + (x &&& y) = x ||| y := by
  rw [BitVec.add_eq_or_of_and_eq_zero]
  · ext i; simp; cases x[i] <;> cases y[i] <;> rfl
  · ext i; simp; cases x[i] <;> cases y[i] <;> simp

/-- Two bit-vectors are equal when they are equal bit by bit. -/
macro "bits" : tactic => `(tactic| (
  ext i
  simp only [BitVec.getElem_and, BitVec.getElem_or, BitVec.getElem_xor, BitVec.getElem_not,
    BitVec.getElem_allOnes, BitVec.getElem_zero]
  grind))

/-- C57: `&` and `|` with complement form a Boolean algebra. -/
theorem C57_boolean_algebra (w : BitWidth) :
    Same (X &&& Y : E w) (Y &&& X) ∧ Same (X ||| Y : E w) (Y ||| X) ∧
    Same ((X &&& Y) &&& Z : E w) (X &&& (Y &&& Z)) ∧
    Same ((X ||| Y) ||| Z : E w) (X ||| (Y ||| Z)) ∧
    Same (X &&& (Y ||| Z) : E w) ((X &&& Y) ||| (X &&& Z)) ∧
    Same (X ||| (Y &&& Z) : E w) ((X ||| Y) &&& (X ||| Z)) ∧
    Same (X &&& (X ||| Y) : E w) X ∧ Same (X ||| (X &&& Y) : E w) X ∧
    Same (X &&& ~~~X : E w) zero ∧ Same (X ||| ~~~X : E w) allSet ∧
    Same (X &&& allSet : E w) X ∧ Same (X ||| zero : E w) X ∧ Same (~~~ ~~~X : E w) X := by
  refine ⟨?_, ?_, ?_, ?_, ?_, ?_, ?_, ?_, ?_, ?_, ?_, ?_, ?_⟩ <;>
    refine same_of fun β => ?_ <;>
    simp only [den_and, den_or, den_not, den_X, den_Y, den_Z, den_zero, den_allSet,
      Option.bind_some, Option.some.injEq] <;>
    generalize β 0 = x <;> generalize β 1 = y <;> generalize β 2 = z <;>
    bits

/-- C57: the laws that link the bitwise calls to each other and to arithmetic. -/
theorem C57_links (w : BitWidth) :
    Same (~~~(X &&& Y) : E w) (~~~X ||| ~~~Y) ∧ Same (~~~(X ||| Y) : E w) (~~~X &&& ~~~Y) ∧
    Same (X ^^^ Y : E w) ((X &&& ~~~Y) ||| (~~~X &&& Y)) ∧
    Same ((X ^^^ Y) ^^^ Y : E w) X ∧ Same (X ^^^ allSet : E w) (~~~X) ∧
    Same (-X : E w) (inc (~~~X)) ∧ Same (~~~X : E w) (dec (-X)) ∧
    Same (X - Y : E w) (inc (X + ~~~Y)) ∧
    Same (X + Y : E w) ((X ||| Y) + (X &&& Y)) ∧
    Same (X ||| Y : E w) ((X ^^^ Y) + (X &&& Y)) ∧
    Same (X ^^^ Y : E w) ((X ||| Y) - (X &&& Y)) ∧
    Same (~~~(X - Y) : E w) (~~~X + Y) := by
  refine ⟨?_, ?_, ?_, ?_, ?_, ?_, ?_, ?_, ?_, ?_, ?_, ?_⟩ <;>
    refine same_of fun β => ?_ <;>
    simp only [den_and, den_or, den_not, den_X, den_Y, den_xor, den_allSet, den_neg, den_inc,
      den_dec, den_sub, den_add, Option.bind_some, Option.some.injEq] <;>
    generalize (β 0) = x <;> generalize (β 1) = y
  · bits
  · bits
  · bits
  · bits
  · bits
  · exact BitVec.neg_eq_not_add x
  · exact BitVec.not_eq_neg_add x
  · rw [BitVec.sub_eq_add_neg, BitVec.neg_eq_not_add, BitVec.add_assoc]
  · exact (bv_or_add_and x y).symm
  · exact (bv_xor_add_and x y).symm
  · rw [← bv_xor_add_and, BitVec.add_sub_cancel]
  · rw [BitVec.not_eq_neg_add, BitVec.not_eq_neg_add]
    simp only [BitVec.sub_eq_add_neg, BitVec.neg_add, BitVec.neg_neg]
    ac_rfl

/-- The three variables hold 150-bit integers. -/
def env150 : Fin 3 → ApInt := fun i => if i = 0 then a150 else b150

theorem env150_ok : Env (fun _ => bw 150) env150 := by
  intro i
  unfold env150
  split
  · exact ⟨a150_wf, rfl⟩
  · exact ⟨b150_wf, rfl⟩

example : (~~~(X - Y) : E (bw 150)).eval env150 =
    (~~~X + Y : E (bw 150)).eval env150 :=
  (C57_links (bw 150)).2.2.2.2.2.2.2.2.2.2.2.value env150_ok (by decide +kernel)

/-! ### Shifts -/

theorem twoPow_ne_zero {n s : Nat} (h : s < n) : BitVec.twoPow n s ≠ 0#n := by
  intro h1
  have h2 := congrArg BitVec.toNat h1
  rw [BitVec.toNat_twoPow_of_lt h] at h2
  simp at h2

theorem one_shl {n : Nat} (s : Nat) : 1#n <<< s = BitVec.twoPow n s := rfl

theorem umod_twoPow {n : Nat} (x : BitVec n) {s : Nat} (h : s < n) :
    x % BitVec.twoPow n s = x &&& (BitVec.twoPow n s - 1#n) := by
  have hp : 2 ^ s < 2 ^ n := Nat.pow_lt_pow_right (by decide) h
  have h1 : 0 < 2 ^ s := by positivity
  have h2 : (BitVec.twoPow n s - 1#n).toNat = 2 ^ s - 1 := by
    rw [BitVec.toNat_sub_of_le, BitVec.toNat_twoPow_of_lt h, BitVec.toNat_ofNat,
      Nat.mod_eq_of_lt (by omega)]
    rw [BitVec.le_def, BitVec.toNat_twoPow_of_lt h, BitVec.toNat_ofNat,
      Nat.mod_eq_of_lt (by omega)]
    omega
  apply BitVec.eq_of_toNat_eq
  rw [BitVec.toNat_umod, BitVec.toNat_and, h2, BitVec.toNat_twoPow_of_lt h,
    Nat.and_two_pow_sub_one_eq_mod]

theorem sshiftRight_of_le {n : Nat} (hn : 0 < n) (x : BitVec n) {s : Nat} (h : n ≤ s) :
    x.sshiftRight s = x.sshiftRight (n - 1) := by
  ext i hi
  rw [BitVec.getElem_sshiftRight, BitVec.getElem_sshiftRight]
  rw [dif_neg (by omega)]
  split
  · have : i = 0 := by omega
    subst this
    rw [BitVec.msb_eq_getLsbD_last, BitVec.getLsbD_eq_getElem (by omega)]
    rfl
  · rfl

theorem xor_top {n : Nat} (hn : 0 < n) (x : BitVec n) :
    x ^^^ BitVec.twoPow n (n - 1) = x + BitVec.intMin n := by
  have hp : BitVec.intMin n = BitVec.twoPow n (n - 1) := rfl
  rw [hp]
  generalize hq : BitVec.twoPow n (n - 1) = p
  have h0 : (x &&& p) + (x &&& p) = 0#n := by
    have h1 : x &&& p = if x.getLsbD (n - 1) then p else 0#n := by
      rw [← hq]
      exact BitVec.and_twoPow x (n - 1)
    rw [h1]
    split
    · rw [← hq]
      apply BitVec.eq_of_toNat_eq
      rw [BitVec.toNat_add, BitVec.toNat_twoPow_of_lt (by omega), ← Nat.two_mul, ← Nat.pow_succ',
        Nat.succ_eq_add_one, Nat.sub_add_cancel hn, Nat.mod_self]
      rfl
    · simp
  rw [← bv_or_add_and x p, ← bv_xor_add_and x p, BitVec.add_assoc, h0, BitVec.add_zero]

set_option hygiene false in
/-- The laws of this section, read on bit-vectors. -/
macro "shifts" : tactic => `(tactic| (
  refine same_of fun β => ?_
  simp only [den_and, den_or, den_xor, den_not, den_X, den_Y, den_add, den_sub, den_mul, den_neg,
    den_shl, den_lshr, den_ashr, den_zero, den_one, den_allSet, den_dec, den_udiv, den_urem,
    den_setBit, den_unsetBit, den_flipBit, den_flipMsb, den_smin, den_pick, Option.bind_some]
  generalize β 0 = x
  generalize β 1 = y))

/-- C58: two shifts in a row are one shift by the sum, or everything has been shifted out. -/
theorem C58_compose (w : BitWidth) {s t : Nat} (hs : s < w.toUsize) (ht : t < w.toUsize) :
    Same ((X <<< s) <<< t : E w) (if s + t < w.toUsize then X <<< (s + t) else zero) ∧
    Same ((X >>> s) >>> t : E w) (if s + t < w.toUsize then X >>> (s + t) else zero) ∧
    Same ((X.ashr s).ashr t : E w) (X.ashr (min (s + t) (w.toUsize - 1))) := by
  by_cases h : s + t < w.toUsize
  · rw [if_pos h, if_pos h, Nat.min_eq_left (by omega)]
    refine ⟨?_, ?_, ?_⟩ <;> shifts
    · simp only [if_pos hs, if_pos ht, if_pos h, Option.bind_some, BitVec.shiftLeft_add]
    · simp only [if_pos hs, if_pos ht, if_pos h, Option.bind_some, BitVec.shiftRight_add]
    · simp only [if_pos hs, if_pos ht, if_pos h, Option.bind_some, BitVec.sshiftRight_add]
  · rw [if_neg h, if_neg h, Nat.min_eq_right (by omega)]
    refine ⟨?_, ?_, ?_⟩ <;> shifts
    · simp only [if_pos hs, if_pos ht, Option.bind_some, ← BitVec.shiftLeft_add]
      rw [BitVec.shiftLeft_eq_zero (by omega)]
    · simp only [if_pos hs, if_pos ht, Option.bind_some, ← BitVec.shiftRight_add]
      rw [BitVec.ushiftRight_eq_zero (by omega)]
    · simp only [if_pos hs, if_pos ht, Option.bind_some, ← BitVec.sshiftRight_add,
        if_pos (show w.toUsize - 1 < w.toUsize by omega)]
      rw [sshiftRight_of_le (by omega) _ (by omega)]

/-- C58: shifting is multiplying, dividing and taking the remainder by a power of two; each side
reports an error exactly when the other does. -/
theorem C58_powers (w : BitWidth) (s : Nat) :
    Same (X <<< s : E w) (X * (one <<< s)) ∧
    Same (X >>> s : E w) (X.udiv (one <<< s)) ∧
    Same (X &&& dec (one <<< s) : E w) (X.urem (one <<< s)) ∧
    Same (X.setBit s : E w) (X ||| (one <<< s)) ∧
    Same (X.unsetBit s : E w) (X &&& ~~~(one <<< s)) ∧
    Same (X.flipBit s : E w) (X ^^^ (one <<< s)) := by
  by_cases h : s < w.toUsize
  · refine ⟨?_, ?_, ?_, ?_, ?_, ?_⟩ <;> shifts <;>
      simp only [if_pos h, Option.bind_some, one_shl, if_neg (twoPow_ne_zero h),
        Option.some.injEq]
    · exact BitVec.shiftLeft_eq_mul_twoPow x s
    · exact (BitVec.udiv_twoPow_eq_of_lt h).symm
    · exact (umod_twoPow x h).symm
  · refine ⟨?_, ?_, ?_, ?_, ?_, ?_⟩ <;> shifts <;> simp only [if_neg h, Option.bind_none]

/-- C58: shifting out and back clears the bits that were lost; shifts distribute over the bitwise
calls, the left shift also over addition, subtraction and negation. -/
theorem C58_distribute (w : BitWidth) (s : Nat) :
    Same ((X <<< s) >>> s : E w) (X &&& (allSet >>> s)) ∧
    Same ((X >>> s) <<< s : E w) (X &&& (allSet <<< s)) ∧
    Same ((X &&& Y) <<< s : E w) ((X <<< s) &&& (Y <<< s)) ∧
    Same ((X ||| Y) <<< s : E w) ((X <<< s) ||| (Y <<< s)) ∧
    Same ((X ^^^ Y) <<< s : E w) ((X <<< s) ^^^ (Y <<< s)) ∧
    Same ((X &&& Y) >>> s : E w) ((X >>> s) &&& (Y >>> s)) ∧
    Same ((X ||| Y) >>> s : E w) ((X >>> s) ||| (Y >>> s)) ∧
    Same ((X ^^^ Y) >>> s : E w) ((X >>> s) ^^^ (Y >>> s)) ∧
    Same ((X &&& Y).ashr s : E w) ((X.ashr s) &&& (Y.ashr s)) ∧
    Same ((X ||| Y).ashr s : E w) ((X.ashr s) ||| (Y.ashr s)) ∧
    Same ((X ^^^ Y).ashr s : E w) ((X.ashr s) ^^^ (Y.ashr s)) ∧
    Same ((~~~X).ashr s : E w) (~~~(X.ashr s)) ∧
    Same ((X + Y) <<< s : E w) ((X <<< s) + (Y <<< s)) ∧
    Same ((X - Y) <<< s : E w) ((X <<< s) - (Y <<< s)) ∧
    Same ((-X) <<< s : E w) (-(X <<< s)) := by
  by_cases h : s < w.toUsize
  · refine ⟨?_, ?_, ?_, ?_, ?_, ?_, ?_, ?_, ?_, ?_, ?_, ?_, ?_, ?_, ?_⟩ <;> shifts <;>
      simp only [if_pos h, Option.bind_some, Option.some.injEq]
    · ext i hi
      simp
      grind
    · ext i hi
      simp
      grind
    · exact BitVec.shiftLeft_and_distrib x y s
    · exact BitVec.shiftLeft_or_distrib x y s
    · exact BitVec.shiftLeft_xor_distrib x y s
    · exact BitVec.ushiftRight_and_distrib x y s
    · exact BitVec.ushiftRight_or_distrib x y s
    · exact BitVec.ushiftRight_xor_distrib x y s
    · exact BitVec.sshiftRight_and_distrib x y s
    · exact BitVec.sshiftRight_or_distrib x y s
    · exact BitVec.sshiftRight_xor_distrib x y s
    · rw [← BitVec.not_sshiftRight_not, BitVec.not_not]
    · exact BitVec.shiftLeft_add_distrib
    · rw [BitVec.sub_eq_add_neg, BitVec.shiftLeft_add_distrib, BitVec.shiftLeft_neg,
        ← BitVec.sub_eq_add_neg]
    · exact BitVec.shiftLeft_neg
  · refine ⟨?_, ?_, ?_, ?_, ?_, ?_, ?_, ?_, ?_, ?_, ?_, ?_, ?_, ?_, ?_⟩ <;> shifts <;>
      simp only [if_neg h, Option.bind_none]

/-- C58: the arithmetic shift in terms of the logical one; flipping the sign bit is adding the
smallest signed value; the two halves of a rotation do not overlap. -/
theorem C58_sign (w : BitWidth) (s : Nat) :
    Same (X.ashr s : E w) (.pick .slt X zero (~~~((~~~X) >>> s)) (X >>> s)) ∧
    Same (X.flipMsb : E w) (X + smin) ∧
    Same ((X <<< s) ||| (X >>> (w.toUsize - s)) : E w) ((X <<< s) + (X >>> (w.toUsize - s))) := by
  refine ⟨?_, ?_, ?_⟩
  · shifts
    have hm : (Ask2.slt.bv x 0#w.toUsize = true) ↔ x.msb = true := by
      show x.slt 0#w.toUsize = true ↔ _
      rw [BitVec.slt_zero_eq_msb]
    by_cases h : s < w.toUsize
    · by_cases h1 : x.msb = true
      · rw [if_pos (hm.mpr h1), BitVec.sshiftRight_eq_of_msb_true h1]
        simp only [if_pos h, Option.bind_some]
      · rw [if_neg (fun h2 => h1 (hm.mp h2)),
          BitVec.sshiftRight_eq_of_msb_false (by simpa using h1)]
    · simp only [if_neg h, Option.bind_none, ite_self]
  · shifts
    rw [xor_top (by have := w.2; unfold BitWidth.toUsize; omega)]
  · shifts
    by_cases h : s < w.toUsize
    · by_cases h1 : w.toUsize - s < w.toUsize
      · simp only [if_pos h, if_pos h1, Option.bind_some, Option.some.injEq]
        rw [BitVec.add_eq_or_of_and_eq_zero]
        ext i hi
        simp
        grind
      · simp only [if_pos h, if_neg h1, Option.bind_some, Option.bind_none]
    · simp only [if_neg h, Option.bind_none]

example : ((X <<< 100) <<< 49 : E (bw 150)).eval env150 = (X <<< 149 : E (bw 150)).eval env150 :=
  (C58_compose (bw 150) (s := 100) (t := 49) (by decide) (by decide)).1.value env150_ok
    (by decide +kernel)

example : ((X.ashr 100).ashr 90 : E (bw 150)).eval env150 =
    (X.ashr 149 : E (bw 150)).eval env150 :=
  (C58_compose (bw 150) (s := 100) (t := 90) (by decide) (by decide)).2.2.value env150_ok
    (by decide +kernel)

example : (X >>> 70 : E (bw 150)).eval env150 = (X.udiv (one <<< 70) : E (bw 150)).eval env150 :=
  (C58_powers (bw 150) 70).2.1.value env150_ok (by decide +kernel)

example : ((X - Y) <<< 64 : E (bw 150)).eval env150 =
    ((X <<< 64) - (Y <<< 64) : E (bw 150)).eval env150 :=
  (C58_distribute (bw 150) 64).2.2.2.2.2.2.2.2.2.2.2.2.2.1.value env150_ok (by decide +kernel)

example : (X.ashr 65 : E (bw 150)).eval env150 =
    (Expr.pick .slt X zero (~~~((~~~X) >>> 65)) (X >>> 65) : E (bw 150)).eval env150 :=
  (C58_sign (bw 150) 65).1.value env150_ok (by decide +kernel)

end Verif.Props
