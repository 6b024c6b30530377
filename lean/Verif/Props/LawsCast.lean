import Mathlib.Algebra.Order.Ring.Abs
import Verif.Props.Laws

/-!
# C59: casts between widths commute with the operations

Variables `X`, `Y` are of width `w`; `t`, `u` are other widths.
-/

namespace Verif.Props

open Ex Expr

set_option hygiene false in
/-- The laws of this file, read on bit-vectors. -/
macro "casts" : tactic => `(tactic| (
  refine same_of fun β => ?_
  simp only [den_and, den_or, den_xor, den_not, den_X, den_Y, den_add, den_sub, den_mul, den_neg,
    den_shl, den_lshr, den_ashr, den_zero, den_one, den_allSet, den_dec, den_inc, den_udiv, den_urem,
    den_sdiv, den_srem, den_trunc, den_zext, den_sext, den_zresize, den_sresize, den_pick,
    Option.bind_some]
  generalize β 0 = x
  generalize β 1 = y))

theorem setWidth_sub' {n m : Nat} (x y : BitVec n) (h : m ≤ n) :
    (x - y).setWidth m = x.setWidth m - y.setWidth m := by
  have h1 : (x - y + y).setWidth m = (x - y).setWidth m + y.setWidth m :=
    BitVec.setWidth_add _ _ h
  rw [BitVec.sub_add_cancel] at h1
  rw [h1, BitVec.add_sub_cancel]

/-- C59: truncation is a homomorphism: computing at the wide width and then truncating is computing
on the truncated operands. -/
theorem C59_truncate (w t : BitWidth) (h : t.toUsize ≤ w.toUsize) :
    Same (trunc t (X + Y : E w)) (trunc t X + trunc t Y) ∧
    Same (trunc t (X - Y : E w)) (trunc t X - trunc t Y) ∧
    Same (trunc t (X * Y : E w)) (trunc t X * trunc t Y) ∧
    Same (trunc t (X &&& Y : E w)) (trunc t X &&& trunc t Y) ∧
    Same (trunc t (X ||| Y : E w)) (trunc t X ||| trunc t Y) ∧
    Same (trunc t (X ^^^ Y : E w)) (trunc t X ^^^ trunc t Y) ∧
    Same (trunc t (~~~X : E w)) (~~~(trunc t X)) ∧
    Same (trunc t (-X : E w)) (-(trunc t X)) ∧
    Same (trunc t (inc X : E w)) (inc (trunc t X)) ∧
    Same (trunc t (dec X : E w)) (dec (trunc t X)) ∧
    ∀ s, s < t.toUsize → Same (trunc t (X <<< s : E w)) ((trunc t X) <<< s) := by
  have h1 : (1#w.toUsize).setWidth t.toUsize = 1#t.toUsize := BitVec.setWidth_ofNat_of_le h 1
  refine ⟨?_, ?_, ?_, ?_, ?_, ?_, ?_, ?_, ?_, ?_, fun s hs => ?_⟩ <;> casts <;>
    simp only [if_pos h, Option.bind_some, Option.some.injEq]
  · exact BitVec.setWidth_add _ _ h
  · exact setWidth_sub' _ _ h
  · exact BitVec.setWidth_mul _ _ h
  · exact BitVec.setWidth_and
  · exact BitVec.setWidth_or
  · exact BitVec.setWidth_xor
  · exact BitVec.setWidth_not h
  · have := setWidth_sub' (0#w.toUsize) x h
    simpa using this
  · rw [BitVec.setWidth_add _ _ h, h1]
  · rw [setWidth_sub' _ _ h, h1]
  · rw [if_pos (by omega), if_pos hs]
    simp only [Option.bind_some, Option.some.injEq]
    exact BitVec.setWidth_shiftLeft_of_le h

/-- C59: casts compose; extending and truncating back changes nothing. -/
theorem C59_compose (w t u : BitWidth) (h : w.toUsize ≤ t.toUsize) (hu : t.toUsize ≤ u.toUsize) :
    Same (trunc w (zext t (X : E w))) X ∧
    Same (trunc w (sext t (X : E w))) X ∧
    Same (zext u (zext t (X : E w))) (zext u X) ∧
    Same (sext u (sext t (X : E w))) (sext u X) ∧
    Same (trunc w (trunc t (X : E u))) (trunc w X) ∧
    Same (trunc t (zext u (X : E w))) (zext t X) ∧
    Same (trunc t (sext u (X : E w))) (sext t X) := by
  have hwu : w.toUsize ≤ u.toUsize := h.trans hu
  refine ⟨?_, ?_, ?_, ?_, ?_, ?_, ?_⟩
  · casts
    simp only [if_pos h, Option.bind_some, Option.some.injEq]
    rw [BitVec.setWidth_setWidth (by omega), BitVec.setWidth_eq]
  · casts
    simp only [if_pos h, Option.bind_some, Option.some.injEq]
    ext i hi
    rw [BitVec.getElem_setWidth, BitVec.getLsbD_signExtend, if_pos hi, BitVec.getLsbD_eq_getElem hi]
    simp; omega
  · casts
    simp only [if_pos h, if_pos hu, if_pos hwu, Option.bind_some, Option.some.injEq]
    exact BitVec.setWidth_setWidth (by omega)
  · casts
    simp only [if_pos h, if_pos hu, if_pos hwu, Option.bind_some, Option.some.injEq]
    apply BitVec.eq_of_toInt_eq
    rw [BitVec.toInt_signExtend_of_le hu, BitVec.toInt_signExtend_of_le h,
      BitVec.toInt_signExtend_of_le hwu]
  · refine same_of fun β => ?_
    simp only [den_X, den_trunc, Option.bind_some]
    simp only [if_pos h, if_pos hu, if_pos hwu, Option.bind_some, Option.some.injEq]
    exact BitVec.setWidth_setWidth (by omega)
  · casts
    simp only [if_pos h, if_pos hu, if_pos hwu, Option.bind_some, Option.some.injEq]
    exact BitVec.setWidth_setWidth (by omega)
  · casts
    simp only [if_pos h, if_pos hu, if_pos hwu, Option.bind_some, Option.some.injEq]
    ext i hi
    rw [BitVec.getElem_setWidth, BitVec.getLsbD_signExtend, BitVec.getElem_signExtend]
    grind

/-- C59: extending and truncating in terms of shifts and masks at one width. -/
theorem C59_shifts (w t : BitWidth) (h : t.toUsize ≤ w.toUsize) :
    Same (zext w (trunc t (X : E w))) (X &&& (allSet >>> (w.toUsize - t.toUsize))) ∧
    Same (sext w (trunc t (X : E w)))
      ((X <<< (w.toUsize - t.toUsize)).ashr (w.toUsize - t.toUsize)) ∧
    Same (sext w (X : E t)) (((zext w X) <<< (w.toUsize - t.toUsize)).ashr
      (w.toUsize - t.toUsize)) := by
  have hs : w.toUsize - t.toUsize < w.toUsize := by
    have := t.2
    unfold BitWidth.toUsize at *
    omega
  refine ⟨?_, ?_, ?_⟩
  · casts
    simp only [if_pos h, if_pos hs, Option.bind_some, Option.some.injEq]
    ext i hi
    simp
    grind
  · casts
    simp only [if_pos h, if_pos hs, Option.bind_some, Option.some.injEq]
    ext i hi
    rw [BitVec.getElem_signExtend, BitVec.getElem_sshiftRight]
    simp
    grind
  · refine same_of fun β => ?_
    simp only [den_X, den_sext, den_zext, den_shl, den_ashr, Option.bind_some]
    simp only [if_pos h, if_pos hs, Option.bind_some, Option.some.injEq]
    generalize β 0 = x
    ext i hi
    rw [BitVec.getElem_signExtend, BitVec.getElem_sshiftRight]
    simp
    grind

/-! ### Widening -/

theorem sval_of {a : ApInt} {w : BitWidth} {x : BitVec w.toUsize} (h : a.len = w)
    (hv : a.uval = x.toNat) : a.sval = x.toInt := by
  have h1 := ofBV_sint w.2 x
  unfold AInt.sint AInt.ofBV at h1
  rw [show x.toInt = _ from h1.symm]
  unfold ApInt.sval ApInt.w
  rw [h, hv]

theorem eval_value {w t : BitWidth} {ρ : Fin 3 → ApInt} (hρ : Env (fun _ => w) ρ)
    (e : Expr (fun _ : Fin 3 => w) t) :
    ∃ β : (i : Fin 3) → BitVec w.toUsize,
      (∀ i, (β i).toNat = (ρ i).uval ∧ (β i).toInt = (ρ i).sval) ∧
      ∀ v, e.den β = some v → ∃ c, e.eval ρ = .ok (.ok c) ∧ c.WF ∧ c.len = t ∧
        c.uval = v.toNat ∧ c.sval = v.toInt := by
  let β : (i : Fin 3) → BitVec w.toUsize := fun i => BitVec.ofNat _ (ρ i).uval
  have hβ : ∀ i, (β i).toNat = (ρ i).uval := by
    intro i
    have h1 := (hρ i).1.2
    unfold ApInt.w at h1
    rw [(hρ i).2] at h1
    show (BitVec.ofNat _ _).toNat = _
    rw [BitVec.toNat_ofNat, Nat.mod_eq_of_lt h1]
  refine ⟨β, fun i => ⟨hβ i, (sval_of (hρ i).2 (hβ i).symm).symm⟩, fun v hv => ?_⟩
  obtain ⟨c, h1, h2, h3, h4⟩ := (C56_eval (Γ := fun _ => w) (ρ := ρ) (β := β)
    (fun i => ⟨(hρ i).1, (hρ i).2, (hβ i).symm⟩) e).1 v hv
  exact ⟨c, h1, h2, h3, h4, sval_of h3 h4⟩

/-- The signed range, with the powers made explicit. -/
theorem toInt_range {n : Nat} (x : BitVec n) :
    -(2 : Int) ^ (n - 1) ≤ x.toInt ∧ x.toInt < (2 : Int) ^ (n - 1) :=
  ⟨BitVec.le_toInt x, BitVec.toInt_lt⟩

theorem bmod_small {m : Nat} (hm : 0 < m) {z : Int} (h1 : -(2 : Int) ^ (m - 1) ≤ z)
    (h2 : z < (2 : Int) ^ (m - 1)) : z.bmod (2 ^ m) = z := by
  have hp : ((2 ^ m : Nat) : Int) = 2 * 2 ^ (m - 1) := by
    push_cast
    rw [← pow_succ', Nat.sub_add_cancel hm]
  apply Int.bmod_eq_of_le_mul_two <;> omega

theorem pow_le_pow_int {a b : Nat} (h : a ≤ b) : (2 : Int) ^ a ≤ 2 ^ b :=
  pow_le_pow_right₀ (by decide) h

/-- C59: after extending by one bit sums are exact, after doubling the width products are. -/
theorem C59_widen_unsigned {w t : BitWidth} {ρ : Fin 3 → ApInt} (hρ : Env (fun _ => w) ρ) :
    (w.toUsize < t.toUsize → ApInt.ReturnsOk ((zext t (X : E w) + zext t Y).eval ρ) t
      ((ρ 0).uval + (ρ 1).uval)) ∧
    (2 * w.toUsize ≤ t.toUsize → ApInt.ReturnsOk ((zext t (X : E w) * zext t Y).eval ρ) t
      ((ρ 0).uval * (ρ 1).uval)) := by
  constructor
  · intro h
    obtain ⟨β, h1, h2⟩ := eval_value hρ (zext t (X : E w) + zext t Y)
    obtain ⟨c, h3, h4, h5, h6, -⟩ := h2 ((β 0).setWidth t.toUsize + (β 1).setWidth t.toUsize) (by
      simp only [den_add, den_zext, den_X, den_Y, Option.bind_some, if_pos h.le])
    refine ⟨c, h3, h4, h5, ?_⟩
    have hx := (β 0).isLt
    have hy := (β 1).isLt
    have hp : 2 * 2 ^ w.toUsize ≤ 2 ^ t.toUsize := by
      rw [← pow_succ']
      exact Nat.pow_le_pow_right (by decide) h
    rw [h6, BitVec.toNat_add, BitVec.toNat_setWidth_of_le h.le, BitVec.toNat_setWidth_of_le h.le,
      Nat.mod_eq_of_lt (by omega), (h1 0).1, (h1 1).1]
  · intro h
    have hle : w.toUsize ≤ t.toUsize := by omega
    obtain ⟨β, h1, h2⟩ := eval_value hρ (zext t (X : E w) * zext t Y)
    obtain ⟨c, h3, h4, h5, h6, -⟩ := h2 ((β 0).setWidth t.toUsize * (β 1).setWidth t.toUsize) (by
      simp only [den_mul, den_zext, den_X, den_Y, Option.bind_some, if_pos hle])
    refine ⟨c, h3, h4, h5, ?_⟩
    have hx := (β 0).isLt
    have hy := (β 1).isLt
    have hp : 2 ^ w.toUsize * 2 ^ w.toUsize ≤ 2 ^ t.toUsize := by
      rw [← pow_add]
      exact Nat.pow_le_pow_right (by decide) (by omega)
    have hm : (β 0).toNat * (β 1).toNat < 2 ^ t.toUsize :=
      lt_of_lt_of_le (Nat.mul_lt_mul'' hx hy) hp
    rw [h6, BitVec.toNat_mul, BitVec.toNat_setWidth_of_le hle, BitVec.toNat_setWidth_of_le hle,
      Nat.mod_eq_of_lt hm, (h1 0).1, (h1 1).1]

/-- C59: the same with sign extension: sums and differences are exact after one more bit, products
after doubling the width. -/
theorem C59_widen_signed {w t : BitWidth} {ρ : Fin 3 → ApInt} (hρ : Env (fun _ => w) ρ) :
    (w.toUsize < t.toUsize → ∃ c, (sext t (X : E w) + sext t Y).eval ρ = .ok (.ok c) ∧ c.WF ∧
      c.len = t ∧ c.sval = (ρ 0).sval + (ρ 1).sval) ∧
    (w.toUsize < t.toUsize → ∃ c, (sext t (X : E w) - sext t Y).eval ρ = .ok (.ok c) ∧ c.WF ∧
      c.len = t ∧ c.sval = (ρ 0).sval - (ρ 1).sval) ∧
    (2 * w.toUsize ≤ t.toUsize → ∃ c, (sext t (X : E w) * sext t Y).eval ρ = .ok (.ok c) ∧ c.WF ∧
      c.len = t ∧ c.sval = (ρ 0).sval * (ρ 1).sval) := by
  have hw : 0 < w.toUsize := w.2
  have ht : 0 < t.toUsize := t.2
  have key : w.toUsize < t.toUsize → (2 : Int) * 2 ^ (w.toUsize - 1) ≤ 2 ^ (t.toUsize - 1) := by
    intro h
    rw [← pow_succ', Nat.sub_add_cancel hw]
    exact pow_le_pow_int (by omega)
  refine ⟨fun h => ?_, fun h => ?_, fun h => ?_⟩
  · obtain ⟨β, h1, h2⟩ := eval_value hρ (sext t (X : E w) + sext t Y)
    obtain ⟨c, h3, h4, h5, -, h6⟩ := h2 ((β 0).signExtend t.toUsize + (β 1).signExtend t.toUsize)
      (by simp only [den_add, den_sext, den_X, den_Y, Option.bind_some, if_pos h.le])
    refine ⟨c, h3, h4, h5, ?_⟩
    have hx := toInt_range (β 0)
    have hy := toInt_range (β 1)
    have hk := key h
    rw [h6, BitVec.toInt_add, BitVec.toInt_signExtend_of_le h.le, BitVec.toInt_signExtend_of_le h.le,
      bmod_small ht (by omega) (by omega), (h1 0).2, (h1 1).2]
  · obtain ⟨β, h1, h2⟩ := eval_value hρ (sext t (X : E w) - sext t Y)
    obtain ⟨c, h3, h4, h5, -, h6⟩ := h2 ((β 0).signExtend t.toUsize - (β 1).signExtend t.toUsize)
      (by simp only [den_sub, den_sext, den_X, den_Y, Option.bind_some, if_pos h.le])
    refine ⟨c, h3, h4, h5, ?_⟩
    have hx := toInt_range (β 0)
    have hy := toInt_range (β 1)
    have hk := key h
    rw [h6, BitVec.toInt_sub, BitVec.toInt_signExtend_of_le h.le, BitVec.toInt_signExtend_of_le h.le,
      bmod_small ht (by omega) (by omega), (h1 0).2, (h1 1).2]
  · have hle : w.toUsize ≤ t.toUsize := by omega
    obtain ⟨β, h1, h2⟩ := eval_value hρ (sext t (X : E w) * sext t Y)
    obtain ⟨c, h3, h4, h5, -, h6⟩ := h2 ((β 0).signExtend t.toUsize * (β 1).signExtend t.toUsize)
      (by simp only [den_mul, den_sext, den_X, den_Y, Option.bind_some, if_pos hle])
    refine ⟨c, h3, h4, h5, ?_⟩
    have hx := toInt_range (β 0)
    have hy := toInt_range (β 1)
    have hp : 2 * ((2 : Int) ^ (w.toUsize - 1) * 2 ^ (w.toUsize - 1)) ≤ 2 ^ (t.toUsize - 1) := by
      rw [← pow_add, ← pow_succ']
      exact pow_le_pow_int (by omega)
    have habs : |(β 0).toInt * (β 1).toInt| ≤ (2 : Int) ^ (w.toUsize - 1) * 2 ^ (w.toUsize - 1) := by
      rw [abs_mul]
      exact mul_le_mul (abs_le.mpr ⟨hx.1, hx.2.le⟩) (abs_le.mpr ⟨hy.1, hy.2.le⟩) (abs_nonneg _)
        (by positivity)
    have hpos : (0 : Int) < 2 ^ (w.toUsize - 1) * 2 ^ (w.toUsize - 1) := by positivity
    have h7 := abs_le.mp habs
    rw [h6, BitVec.toInt_mul, BitVec.toInt_signExtend_of_le hle, BitVec.toInt_signExtend_of_le hle,
      bmod_small ht (by omega) (by omega), (h1 0).2, (h1 1).2]

/-- C59: division and comparison do not depend on the width they are carried out at. -/
theorem C59_extend (w t : BitWidth) (h : w.toUsize ≤ t.toUsize) :
    Same (zext t (X.udiv Y : E w)) ((zext t X).udiv (zext t Y)) ∧
    Same (zext t (X.urem Y : E w)) ((zext t X).urem (zext t Y)) ∧
    Same (X.sdiv Y : E w) (trunc w ((sext t X).sdiv (sext t Y))) ∧
    Same (sext t (X.srem Y : E w)) ((sext t X).srem (sext t Y)) ∧
    Same (.pick .eq (X : E w) Y (X : E w) Z) (.pick .eq (zext t X) (zext t Y) X Z) ∧
    Same (.pick .ult (X : E w) Y (X : E w) Z) (.pick .ult (zext t X) (zext t Y) X Z) ∧
    Same (.pick .slt (X : E w) Y (X : E w) Z) (.pick .slt (sext t X) (sext t Y) X Z) := by
  have hz : ∀ y : BitVec w.toUsize, y.setWidth t.toUsize = 0#t.toUsize ↔ y = 0#w.toUsize := by
    intro y
    constructor
    · intro h1
      apply BitVec.eq_of_toNat_eq
      have := congrArg BitVec.toNat h1
      rw [BitVec.toNat_setWidth_of_le h] at this
      simpa using this
    · rintro rfl
      simp
  have hs : ∀ y : BitVec w.toUsize, y.signExtend t.toUsize = 0#t.toUsize ↔ y = 0#w.toUsize := by
    intro y
    constructor
    · intro h1
      apply BitVec.eq_of_toInt_eq
      have := congrArg BitVec.toInt h1
      rw [BitVec.toInt_signExtend_of_le h] at this
      simpa using this
    · rintro rfl
      apply BitVec.eq_of_toInt_eq
      rw [BitVec.toInt_signExtend_of_le h]
      simp
  refine ⟨?_, ?_, ?_, ?_, ?_, ?_, ?_⟩ <;> casts <;> simp only [if_pos h, Option.bind_some, hz, hs]
  · by_cases h0 : y = 0#w.toUsize
    · simp only [if_pos h0, Option.bind_none]
    · simp only [if_neg h0, Option.bind_some, Option.some.injEq]
      apply BitVec.eq_of_toNat_eq
      rw [BitVec.toNat_setWidth_of_le h, BitVec.toNat_udiv, BitVec.toNat_udiv,
        BitVec.toNat_setWidth_of_le h, BitVec.toNat_setWidth_of_le h]
  · by_cases h0 : y = 0#w.toUsize
    · simp only [if_pos h0, Option.bind_none]
    · simp only [if_neg h0, Option.bind_some, Option.some.injEq]
      apply BitVec.eq_of_toNat_eq
      rw [BitVec.toNat_setWidth_of_le h, BitVec.toNat_umod, BitVec.toNat_umod,
        BitVec.toNat_setWidth_of_le h, BitVec.toNat_setWidth_of_le h]
  · by_cases h0 : y = 0#w.toUsize
    · simp only [if_pos h0, Option.bind_none]
    · simp only [if_neg h0, Option.bind_some, Option.some.injEq]
      apply BitVec.eq_of_toInt_eq
      rw [← BitVec.signExtend_eq_setWidth_of_le _ h, BitVec.toInt_sdiv,
        BitVec.toInt_signExtend_eq_toInt_bmod_of_le _ h, BitVec.toInt_sdiv,
        BitVec.toInt_signExtend_of_le h, BitVec.toInt_signExtend_of_le h]
      exact (Int.bmod_bmod_of_dvd (Nat.pow_dvd_pow 2 h)).symm
  · by_cases h0 : y = 0#w.toUsize
    · simp only [if_pos h0, Option.bind_none]
    · simp only [if_neg h0, Option.bind_some, Option.some.injEq]
      apply BitVec.eq_of_toInt_eq
      rw [BitVec.toInt_signExtend_of_le h, BitVec.toInt_srem, BitVec.toInt_srem,
        BitVec.toInt_signExtend_of_le h, BitVec.toInt_signExtend_of_le h]
  · have h1 : Ask2.eq.bv (x.setWidth t.toUsize) (y.setWidth t.toUsize) = Ask2.eq.bv x y := by
      show (_ == _) = (_ == _)
      rw [Bool.eq_iff_iff, beq_iff_eq, beq_iff_eq, ← BitVec.toNat_inj, ← BitVec.toNat_inj,
        BitVec.toNat_setWidth_of_le h, BitVec.toNat_setWidth_of_le h]
    rw [h1]
  · have h1 : Ask2.ult.bv (x.setWidth t.toUsize) (y.setWidth t.toUsize) = Ask2.ult.bv x y := by
      show BitVec.ult _ _ = BitVec.ult _ _
      rw [Bool.eq_iff_iff, BitVec.ult_iff_lt, BitVec.ult_iff_lt, BitVec.lt_def, BitVec.lt_def,
        BitVec.toNat_setWidth_of_le h, BitVec.toNat_setWidth_of_le h]
    rw [h1]
  · have h1 : Ask2.slt.bv (x.signExtend t.toUsize) (y.signExtend t.toUsize) = Ask2.slt.bv x y := by
      show BitVec.slt _ _ = BitVec.slt _ _
      rw [Bool.eq_iff_iff, BitVec.slt_iff_toInt_lt, BitVec.slt_iff_toInt_lt,
        BitVec.toInt_signExtend_of_le h, BitVec.toInt_signExtend_of_le h]
    rw [h1]

abbrev w151 : BitWidth := bw 151
abbrev w300 : BitWidth := bw 300

example : (trunc (bw 65) (X * Y : E (bw 150))).eval env150 =
    (trunc (bw 65) X * trunc (bw 65) Y : Expr (fun _ : Fin 3 => bw 150) (bw 65)).eval env150 :=
  (C59_truncate (bw 150) (bw 65) (by decide)).2.2.1.value env150_ok (by decide +kernel)

example : (trunc (bw 200) (sext w300 (X : E (bw 150)))).eval env150 =
    (sext (bw 200) (X : E (bw 150))).eval env150 :=
  (C59_compose (bw 150) (bw 200) w300 (by decide) (by decide)).2.2.2.2.2.2.value env150_ok
    (by decide +kernel)

example : (sext (bw 150) (trunc (bw 70) (X : E (bw 150)))).eval env150 =
    ((X <<< 80).ashr 80 : E (bw 150)).eval env150 :=
  (C59_shifts (bw 150) (bw 70) (by decide)).2.1.value env150_ok (by decide +kernel)

example : ApInt.ReturnsOk ((zext w300 (X : E (bw 150)) * zext w300 Y).eval env150) w300
    (a150.uval * b150.uval) :=
  (C59_widen_unsigned env150_ok).2 (by decide)

example : ∃ c, (sext w151 (X : E (bw 150)) - sext w151 Y).eval env150 = .ok (.ok c) ∧
    c.WF ∧ c.len = w151 ∧ c.sval = a150.sval - b150.sval :=
  (C59_widen_signed env150_ok).2.1 (by decide)

example : (X.sdiv Y : E (bw 150)).eval env150 =
    (trunc (bw 150) ((sext w300 X).sdiv (sext w300 Y)) : E (bw 150)).eval env150 :=
  (C59_extend (bw 150) w300 (by decide)).2.2.1.value env150_ok (by decide +kernel)

end Verif.Props
