import Mathlib.Data.Nat.Size

/-!
# The scratch memory that multiplication and division may use

Sizes of buffers in digits of 64 bits, from the width and the values alone.  `Nat.size x` is the
number of bits of `x`, zero for zero.
-/

namespace Verif

/-- Digits needed for `n` bits. -/
def digitsFor (n : Nat) : Nat := (n + 63) / 64

/-- Multiplication: nothing for small widths and when one factor fits a digit; one buffer for the
exact product when it certainly fits the width; one buffer of the width otherwise. -/
def mulBuffers (w x y : Nat) : List Nat :=
  if w ≤ 64 ∨ x < 2 ^ 64 ∨ y < 2 ^ 64 then []
  else if Nat.size x + Nat.size y ≤ 64 * digitsFor w then
    [digitsFor (Nat.size x) + digitsFor (Nat.size y)]
  else [digitsFor w]

/-- Division of `x` by `y`: nothing for small widths, for a dividend of at most two digits, for a
divisor of at most one digit, and when the dividend has no more bits than the divisor; one buffer
when it has less than 64 bits more; otherwise one or two. -/
def DivBuffers (w x y : Nat) (r : List Nat) : Prop :=
  if w ≤ 64 ∨ x < 2 ^ 128 ∨ y < 2 ^ 64 ∨ Nat.size x ≤ Nat.size y then r = []
  else if Nat.size x < Nat.size y + 64 then r = [digitsFor w]
  else r = [digitsFor w] ∨ r = [digitsFor w, digitsFor w]

/-- A copy of an integer of `w` bits. -/
def copyBuffers (w : Nat) : List Nat := if w ≤ 64 then [] else [digitsFor w]

end Verif
