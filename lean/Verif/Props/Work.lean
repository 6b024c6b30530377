import Verif.Proof.WorkApi
import Verif.Props.Scratch

/-!
# C88: the work of multiplication and division

`Model/Work.lean` has the multiplications and divisions with a count of the digits that are read
and written.  The counted calls do what the calls do, and the counts are bounded by the number of
digits of the width and, for divisions, by the size of the quotient.
-/

namespace Verif

open ApInt Ex

variable {a b : ApInt}

/-- The number of digits of an integer of `w` bits. -/
def digitsOf (w : Nat) : Nat := (w + 63) / 64

/-- The counted call `c` does what the call `r` does, faults included, and touches at most `N`
digits. -/
def Takes {α : Type} (c : Counted α) (r : Run α) (N : Nat) : Prop :=
  (∀ e, r = .error e → c = Except.error e) ∧
  ∀ v, r = .ok v → ∃ k, c = Except.ok (v, k) ∧ k ≤ N

namespace Ex

/-- The number of digits touched. -/
def count {α : Type} (c : Counted α) : Option Nat :=
  match c with
  | Except.ok p => some p.2
  | Except.error _ => none

end Ex

/-- C88, multiplication: three digits touched for each pair of digits, and a term linear in the
number of digits. -/
theorem C88_multiplication (ha : a.WF) (hb : b.WF) :
    Takes (Count.wrappingMulAssign a b) (wrappingMulAssign a b)
      (3 * digitsOf a.w ^ 2 + 14 * digitsOf a.w + 11) :=
  wrappingMulAssign_costs ha.1 hb.1

-- 3 * 16 + 14 * 4 + 11 = 115
example : count (Count.wrappingMulAssign a256 d256) = some 46 := by decide +kernel
example : Takes (Count.wrappingMulAssign a256 d256) (wrappingMulAssign a256 d256) 115 :=
  C88_multiplication a256_wf d256_wf

/-- C88, unsigned division: with a quotient below `2 ^ (61 * r)` the four calls touch at most seven
digits for each digit of the width, `r` times, and a term linear in the number of digits and in
`r`. -/
theorem C88_unsigned_division {r : Nat} (ha : a.WF) (hb : b.WF)
    (hq : a.uval / b.uval < 2 ^ (61 * r)) :
    Takes (Count.wrappingUdivremAssign a b) (wrappingUdivremAssign a b)
      (r * (7 * digitsOf a.w + 12) + 31 * digitsOf a.w + 67) ∧
    Takes (Count.wrappingUremdivAssign a b) (wrappingUremdivAssign a b)
      (r * (7 * digitsOf a.w + 12) + 31 * digitsOf a.w + 67) ∧
    Takes (Count.wrappingUdivAssign a b) (wrappingUdivAssign a b)
      (r * (7 * digitsOf a.w + 12) + 31 * digitsOf a.w + 67) ∧
    Takes (Count.wrappingUremAssign a b) (wrappingUremAssign a b)
      (r * (7 * digitsOf a.w + 12) + 31 * digitsOf a.w + 67) := by
  unfold digitsOf
  have h (k : Nat) (hk : k ≤ 8) (n : Nat) :
      n ≤ divWork r ((a.w + 63) / 64) + k * ((a.w + 63) / 64) →
      n ≤ r * (7 * ((a.w + 63) / 64) + 12) + 31 * ((a.w + 63) / 64) + 67 := by
    have := Nat.mul_le_mul_right ((a.w + 63) / 64) hk
    unfold divWork
    omega
  exact ⟨(wrappingUdivremAssign_costs ha.1 hb.1 hq).mono fun _ n hn => h 2 (by decide) n hn.2.2,
    (wrappingUremdivAssign_costs ha.1 hb.1 hq).mono fun _ n hn => h 6 (by decide) n hn.2.2,
    (wrappingUdivAssign_costs ha.1 hb.1 hq).mono fun _ n hn => h 4 (by decide) n hn,
    (wrappingUremAssign_costs ha.1 hb.1 hq).mono fun _ n hn => h 8 (by decide) n hn⟩

-- A quotient of four digits and one of two: `r` is 4 and 3.
example : count (Count.wrappingUdivremAssign a256 b256) = some 91 := by decide +kernel
example : a256.uval / b256.uval < 2 ^ (61 * 4) ∧ d256.uval / c256.uval < 2 ^ (61 * 3) := by
  decide +kernel
example : Takes (Count.wrappingUremAssign d256 c256) (wrappingUremAssign d256 c256)
    (3 * (7 * 4 + 12) + 31 * 4 + 67) :=
  (C88_unsigned_division (r := 3) d256_wf c256_wf (by decide +kernel)).2.2.2

/-- C88, signed division: the same with the quotient of the absolute values. -/
theorem C88_signed_division {r : Nat} (ha : a.WF) (hb : b.WF) (hw : a.w = b.w)
    (hq : a.sval.natAbs / b.sval.natAbs < 2 ^ (61 * r)) :
    Takes (Count.wrappingSdivremAssign a b) (wrappingSdivremAssign a b)
      (r * (7 * digitsOf a.w + 12) + 46 * digitsOf a.w + 85) ∧
    Takes (Count.wrappingSremdivAssign a b) (wrappingSremdivAssign a b)
      (r * (7 * digitsOf a.w + 12) + 46 * digitsOf a.w + 85) ∧
    Takes (Count.wrappingSdivAssign a b) (wrappingSdivAssign a b)
      (r * (7 * digitsOf a.w + 12) + 46 * digitsOf a.w + 85) ∧
    Takes (Count.wrappingSremAssign a b) (wrappingSremAssign a b)
      (r * (7 * digitsOf a.w + 12) + 46 * digitsOf a.w + 85) := by
  unfold digitsOf
  have h (n : Nat) :
      n ≤ divWork r ((a.w + 63) / 64) + 23 * ((a.w + 63) / 64) + 18 →
      n ≤ r * (7 * ((a.w + 63) / 64) + 12) + 46 * ((a.w + 63) / 64) + 85 := by
    unfold divWork
    omega
  exact ⟨(wrappingSdivremAssign_costs ha hb hw hq).mono fun _ n hn => h n hn,
    (wrappingSremdivAssign_costs ha hb hw hq).mono fun _ n hn => h n hn,
    (wrappingSdivAssign_costs ha hb hw hq).mono fun _ n hn => h n hn,
    (wrappingSremAssign_costs ha hb hw hq).mono fun _ n hn => h n hn⟩

-- `-1 / 2^65` at 256 bits is a quotient of no digits: `r` is 0.
example : count (Count.wrappingSdivAssign a256 c256) = some 78 := by decide +kernel
example : Takes (Count.wrappingSdivAssign a256 c256) (wrappingSdivAssign a256 c256) 269 :=
  (C88_signed_division (r := 0) a256_wf c256_wf rfl (by decide +kernel)).2.2.1

/-- C88: so all of them touch at most quadratically many digits, whatever the operands are: no
divisor makes a division slow. -/
theorem C88_quadratic (ha : a.WF) (hb : b.WF) (hw : a.w = b.w) :
    Takes (Count.wrappingMulAssign a b) (wrappingMulAssign a b)
      (14 * digitsOf a.w ^ 2 + 70 * digitsOf a.w + 85) ∧
    Takes (Count.wrappingUdivremAssign a b) (wrappingUdivremAssign a b)
      (14 * digitsOf a.w ^ 2 + 70 * digitsOf a.w + 85) ∧
    Takes (Count.wrappingUremdivAssign a b) (wrappingUremdivAssign a b)
      (14 * digitsOf a.w ^ 2 + 70 * digitsOf a.w + 85) ∧
    Takes (Count.wrappingUdivAssign a b) (wrappingUdivAssign a b)
      (14 * digitsOf a.w ^ 2 + 70 * digitsOf a.w + 85) ∧
    Takes (Count.wrappingUremAssign a b) (wrappingUremAssign a b)
      (14 * digitsOf a.w ^ 2 + 70 * digitsOf a.w + 85) ∧
    Takes (Count.wrappingSdivremAssign a b) (wrappingSdivremAssign a b)
      (14 * digitsOf a.w ^ 2 + 70 * digitsOf a.w + 85) ∧
    Takes (Count.wrappingSremdivAssign a b) (wrappingSremdivAssign a b)
      (14 * digitsOf a.w ^ 2 + 70 * digitsOf a.w + 85) ∧
    Takes (Count.wrappingSdivAssign a b) (wrappingSdivAssign a b)
      (14 * digitsOf a.w ^ 2 + 70 * digitsOf a.w + 85) ∧
    Takes (Count.wrappingSremAssign a b) (wrappingSremAssign a b)
      (14 * digitsOf a.w ^ 2 + 70 * digitsOf a.w + 85) := by
  have up {α : Type} {c : Counted α} {r : Run α} {N M : Nat} (h : Takes c r N) (hNM : N ≤ M) :
      Takes c r M := Costs.mono h fun _ _ hn => Nat.le_trans hn hNM
  have hp : 2 ^ a.w ≤ 2 ^ (61 * (2 * digitsOf a.w)) :=
    Nat.pow_le_pow_right (by decide) (by unfold digitsOf; omega)
  have q1 : a.uval / b.uval < 2 ^ (61 * (2 * digitsOf a.w)) :=
    Nat.lt_of_le_of_lt (Nat.div_le_self _ _) (Nat.lt_of_lt_of_le ha.2 hp)
  have habs : a.sval.natAbs < 2 ^ a.w := by
    have h1 := ha.2
    have h2 : 2 ^ a.w = 2 * 2 ^ (a.w - 1) := by
      rw [← Nat.pow_succ']
      have := a.pos_w
      congr 1
      omega
    have h3 : ((2 : Int) ^ a.w) = ((2 ^ a.w : Nat) : Int) := by push_cast; rfl
    have h4 := Nat.two_pow_pos (a.w - 1)
    unfold sval
    rw [h3]
    generalize 2 ^ a.w = p at *
    generalize 2 ^ (a.w - 1) = q at *
    split <;> omega
  have q2 : a.sval.natAbs / b.sval.natAbs < 2 ^ (61 * (2 * digitsOf a.w)) :=
    Nat.lt_of_le_of_lt (Nat.div_le_self _ _) (Nat.lt_of_lt_of_le habs hp)
  obtain ⟨u1, u2, u3, u4⟩ := C88_unsigned_division ha hb q1
  obtain ⟨s1, s2, s3, s4⟩ := C88_signed_division ha hb hw q2
  have e0 : 3 * digitsOf a.w ^ 2 + 14 * digitsOf a.w + 11
      ≤ 14 * digitsOf a.w ^ 2 + 70 * digitsOf a.w + 85 := by omega
  have e1 : 2 * digitsOf a.w * (7 * digitsOf a.w + 12) + 31 * digitsOf a.w + 67
      ≤ 14 * digitsOf a.w ^ 2 + 70 * digitsOf a.w + 85 := by nlinarith
  have e2 : 2 * digitsOf a.w * (7 * digitsOf a.w + 12) + 46 * digitsOf a.w + 85
      ≤ 14 * digitsOf a.w ^ 2 + 70 * digitsOf a.w + 85 := by nlinarith
  exact ⟨up (C88_multiplication ha hb) e0, up u1 e1, up u2 e1, up u3 e1, up u4 e1, up s1 e2,
    up s2 e2, up s3 e2, up s4 e2⟩

example : Takes (Count.wrappingSremAssign a256 d256) (wrappingSremAssign a256 d256)
    (14 * 4 ^ 2 + 70 * 4 + 85) := by
  obtain ⟨-, -, -, -, -, -, -, -, h⟩ := C88_quadratic a256_wf d256_wf rfl
  exact h

/-- C88: and dividing numbers of about the same size touches only linearly many. -/
theorem C88_close (ha : a.WF) (hb : b.WF) (hq : a.uval / b.uval < 2 ^ 61) :
    Takes (Count.wrappingUdivremAssign a b) (wrappingUdivremAssign a b) (38 * digitsOf a.w + 79) ∧
    Takes (Count.wrappingUremdivAssign a b) (wrappingUremdivAssign a b) (38 * digitsOf a.w + 79) ∧
    Takes (Count.wrappingUdivAssign a b) (wrappingUdivAssign a b) (38 * digitsOf a.w + 79) ∧
    Takes (Count.wrappingUremAssign a b) (wrappingUremAssign a b) (38 * digitsOf a.w + 79) := by
  have h := C88_unsigned_division (r := 1) ha hb hq
  rwa [show 1 * (7 * digitsOf a.w + 12) + 31 * digitsOf a.w + 67 = 38 * digitsOf a.w + 79 by omega]
    at h

example : Takes (Count.wrappingUdivAssign a256 d256) (wrappingUdivAssign a256 d256)
    (38 * 4 + 79) := (C88_close a256_wf d256_wf (by decide +kernel)).2.2.1

end Verif
