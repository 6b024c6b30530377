import Mathlib.Data.Nat.Digits.Defs

/-!
# Specification of numerals

Independent of the model: what a numeral in a radix means, which strings are accepted, and the
canonical text of a number.
-/

namespace Verif

/-- The value of a digit character: decimal digits, then letters in either case. -/
def charVal (c : Char) : Option Nat :=
  if '0' ≤ c ∧ c ≤ '9' then some (c.toNat - '0'.toNat)
  else if 'a' ≤ c ∧ c ≤ 'z' then some (c.toNat - 'a'.toNat + 10)
  else if 'A' ≤ c ∧ c ≤ 'Z' then some (c.toNat - 'A'.toNat + 10)
  else none

/-- The strings that denote a number in radix `r`: not empty, no underscore at either end, and
every character an underscore or a digit of the radix. -/
def Accepted (r : Nat) (s : List Char) : Prop :=
  s ≠ [] ∧ s.head? ≠ some '_' ∧ s.getLast? ≠ some '_' ∧
    ∀ c ∈ s, c = '_' ∨ ∃ d, charVal c = some d ∧ d < r

/-- The digit values of a string, underscores skipped, in the order written. -/
def textDigits (s : List Char) : List Nat := s.filterMap charVal

/-- The positional value of digits written most significant first. -/
def numeral (r : Nat) (ds : List Nat) : Nat := ds.foldl (fun acc d => acc * r + d) 0

/-- The canonical text of `v` in base `b`: no leading zeros, a single `0` for zero. -/
def canonical (b : Nat) (alphabet : List Char) (v : Nat) : List Char :=
  if v = 0 then ['0'] else (Nat.digits b v).reverse.map fun d => alphabet.getD d '?'

/-- The digit characters of binary text. -/
def binAlphabet : List Char := ['0', '1']

/-- The digit characters of lower-case hexadecimal text. -/
def hexLower : List Char :=
  ['0', '1', '2', '3', '4', '5', '6', '7', '8', '9', 'a', 'b', 'c', 'd', 'e', 'f']

/-- The digit characters of upper-case hexadecimal text. -/
def hexUpper : List Char :=
  ['0', '1', '2', '3', '4', '5', '6', '7', '8', '9', 'A', 'B', 'C', 'D', 'E', 'F']

end Verif
