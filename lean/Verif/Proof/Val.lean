import Verif.Spec
import Verif.Proof.Base
import Mathlib.Tactic.Ring
import Mathlib.Tactic.LinearCombination
import Mathlib.Tactic.Linarith
import Mathlib.Data.Nat.Bitwise

/-! # Values of digit lists -/

namespace Verif

/-- The base of the digits. -/
def B : Nat := 2 ^ 64

theorem B_eq : B = 2 ^ 64 := rfl

theorem B_num : B = 18446744073709551616 := rfl

theorem B_pos : 0 < B := by decide

theorem B_pow_pos (n : Nat) : 0 < B ^ n := Nat.pow_pos B_pos

theorem B_pow (n : Nat) : B ^ n = 2 ^ (64 * n) := by
  rw [B_eq, ← Nat.pow_mul]

theorem dlt (d : Digit) : d.toNat < B := d.isLt

theorem val_nil : val [] = 0 := rfl

theorem val_cons (d : Digit) (ds : List Digit) : val (d :: ds) = d.toNat + B * val ds := rfl

@[simp] theorem val_singleton (d : Digit) : val [d] = d.toNat := by simp [val]

theorem val_append (a b : List Digit) : val (a ++ b) = val a + B ^ a.length * val b := by
  induction a with
  | nil => simp [val]
  | cons d ds ih =>
    simp only [List.cons_append, val_cons, ih, List.length_cons, Nat.pow_succ]
    ring

theorem val_lt (l : List Digit) : val l < B ^ l.length := by
  induction l with
  | nil => simp [val]
  | cons d ds ih =>
    rw [val_cons, List.length_cons, Nat.pow_succ]
    have h := dlt d
    have : B * (val ds + 1) ≤ B * B ^ ds.length := Nat.mul_le_mul_left _ ih
    rw [Nat.mul_add] at this
    rw [Nat.mul_comm (B ^ ds.length)]
    omega

theorem val_lt_of_le {l : List Digit} {n : Nat} (h : l.length ≤ n) : val l < B ^ n :=
  Nat.lt_of_lt_of_le (val_lt l) (Nat.pow_le_pow_right B_pos h)

theorem val_take_drop (l : List Digit) (n : Nat) (h : n ≤ l.length) :
    val l = val (l.take n) + B ^ n * val (l.drop n) := by
  conv_lhs => rw [← List.take_append_drop n l]
  rw [val_append, List.length_take, Nat.min_eq_left h]

theorem val_take (l : List Digit) (n : Nat) : val (l.take n) = val l % B ^ n := by
  by_cases h : n ≤ l.length
  · rw [val_take_drop l n h, Nat.add_mul_mod_self_left]
    refine (Nat.mod_eq_of_lt ?_).symm
    exact val_lt_of_le (by simp)
  · rw [List.take_of_length_le (by omega), Nat.mod_eq_of_lt (val_lt_of_le (by omega))]

theorem val_drop (l : List Digit) (n : Nat) : val (l.drop n) = val l / B ^ n := by
  by_cases h : n ≤ l.length
  · rw [val_take_drop l n h, Nat.add_mul_div_left _ _ (B_pow_pos n), Nat.div_eq_of_lt, Nat.zero_add]
    exact val_lt_of_le (by simp)
  · rw [List.drop_eq_nil_of_le (by omega), Nat.div_eq_of_lt (val_lt_of_le (by omega)), val_nil]

theorem val_inj {a b : List Digit} (hl : a.length = b.length) (h : val a = val b) : a = b := by
  induction a generalizing b with
  | nil =>
    cases b with
    | nil => rfl
    | cons _ _ => simp at hl
  | cons x xs ih =>
    cases b with
    | nil => simp at hl
    | cons y ys =>
      rw [val_cons, val_cons] at h
      have hx := dlt x
      have hy := dlt y
      have h1 : x.toNat = y.toNat := by
        have := congrArg (· % B) h
        simpa [Nat.mod_eq_of_lt hx, Nat.mod_eq_of_lt hy] using this
      have h2 : val xs = val ys := by
        have h3 : B * val xs = B * val ys := by omega
        exact Nat.eq_of_mul_eq_mul_left B_pos h3
      rw [BitVec.eq_of_toNat_eq h1, ih (by simpa using hl) h2]

theorem val_replicate_zero (n : Nat) : val (List.replicate n (0#64)) = 0 := by
  induction n with
  | zero => rfl
  | succ n ih => simp [List.replicate_succ, val_cons, ih]

theorem val_replicate_ones (n : Nat) : val (List.replicate n (~~~(0#64))) = B ^ n - 1 := by
  induction n with
  | zero => rfl
  | succ n ih =>
    rw [List.replicate_succ, val_cons, ih, Nat.pow_succ]
    have h : (~~~(0#64)).toNat = B - 1 := by decide
    have h1 := B_pow_pos n
    have h2 := B_pos
    rw [h, Nat.mul_sub, Nat.mul_one, Nat.mul_comm (B ^ n)]
    have : B * 1 ≤ B * B ^ n := Nat.mul_le_mul_left _ h1
    omega

theorem val_eq_zero_iff (l : List Digit) : val l = 0 ↔ ∀ d ∈ l, d = 0#64 := by
  induction l with
  | nil => simp [val]
  | cons d ds ih =>
    rw [val_cons]
    constructor
    · intro h
      have h1 : d.toNat = 0 := by omega
      have h2 : B * val ds = 0 := by omega
      have h3 : val ds = 0 := by
        rcases Nat.mul_eq_zero.mp h2 with h | h
        · exact absurd h (by decide)
        · exact h
      intro x hx
      rcases List.mem_cons.mp hx with rfl | hx
      · exact BitVec.eq_of_toNat_eq h1
      · exact ih.mp h3 x hx
    · intro h
      have h1 := h d (by simp)
      have h2 := ih.mpr (fun x hx => h x (by simp [hx]))
      simp [h1, h2]

theorem val_set {l : List Digit} {i : Nat} (h : i < l.length) (v : Digit) :
    val (l.set i v) + B ^ i * (l[i]).toNat = val l + B ^ i * v.toNat := by
  induction l generalizing i with
  | nil => simp at h
  | cons d ds ih =>
    cases i with
    | zero => simp [val_cons]; ring
    | succ i =>
      have h' : i < ds.length := by simpa using h
      have := ih h'
      simp only [List.set_cons_succ, val_cons, List.getElem_cons_succ, Nat.pow_succ]
      linear_combination B * this

/-- The digit at a position is determined by the value. -/
theorem val_getElem {l : List Digit} {i : Nat} (h : i < l.length) :
    (l[i]).toNat = val l / B ^ i % B := by
  rw [← val_drop]
  rw [List.drop_eq_getElem_cons h, val_cons, Nat.add_mul_mod_self_left, Nat.mod_eq_of_lt (dlt _)]

theorem val_getD (l : List Digit) (i : Nat) : (l.getD i 0).toNat = val l / B ^ i % B := by
  by_cases h : i < l.length
  · rw [← val_getElem h]; simp [h]
  · rw [Nat.div_eq_of_lt (val_lt_of_le (by omega))]
    simp [List.getElem?_eq_none (by omega : l.length ≤ i)]

/-- Bits of a value. -/
theorem val_testBit (l : List Digit) (i : Nat) :
    (val l).testBit i = (l.getD (i / 64) 0).getLsbD (i % 64) := by
  have h1 : i % 64 < 64 := Nat.mod_lt _ (by decide)
  have : (l.getD (i / 64) 0).getLsbD (i % 64) = (l.getD (i / 64) 0).toNat.testBit (i % 64) := rfl
  rw [this, val_getD, B_eq, Nat.testBit_mod_two_pow, ← Nat.pow_mul, Nat.testBit_div_two_pow]
  simp only [h1, decide_true, Bool.true_and]
  congr 1
  omega

theorem val_take_succ {l : List Digit} {i : Nat} (h : i < l.length) :
    val (l.take (i + 1)) = val (l.take i) + B ^ i * (l[i]).toNat := by
  rw [List.take_succ_eq_append_getElem h, val_append, val_singleton, List.length_take,
    Nat.min_eq_left (by omega)]

theorem val_lt_two_pow {l : List Digit} {n : Nat} (h : 64 * l.length ≤ n) : val l < 2 ^ n := by
  refine Nat.lt_of_lt_of_le (val_lt l) ?_
  rw [B_pow]
  exact Nat.pow_le_pow_right (by decide) h

end Verif
