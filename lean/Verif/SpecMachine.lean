import Verif.SpecProgram
import Mathlib.Data.Nat.Size

/-!
# Programs on a machine with words of limited size: what should happen

Independent of the model: it only knows the numbers of `SpecProgram.lean`.
-/

namespace Verif

/-- Integers exist on a machine whose `usize` has `u` bits when the bits of all their 64-bit digits
can be counted. -/
def AInt.Fits (u : Nat) (x : AInt) : Prop := x.width + 64 ≤ 2 ^ u

instance AInt.decFits (u : Nat) (x : AInt) : Decidable (x.Fits u) := inferInstanceAs (Decidable (_ ≤ _))

/-- The numbers of significant bits of two factors, both longer than 64 bits, add up to more than
`usize` can count. -/
def AInt.Strains (u : Nat) (x y : AInt) : Prop :=
  x.width = y.width ∧ 2 ^ 64 ≤ x.bits ∧ 2 ^ 64 ≤ y.bits ∧ 2 ^ u ≤ Nat.size x.bits + Nat.size y.bits

instance AInt.decStrains (u : Nat) (x y : AInt) : Decidable (x.Strains u y) :=
  inferInstanceAs (Decidable (_ ∧ _ ∧ _ ∧ _))

/-- The calls that compute a size one bit beyond `usize` although the integers themselves fit:
multiplications of very long factors, and parsing a text in radix 8 or 32 that fills the longest
integer to the last bit. -/
def Instr.Strains (u : Nat) (i : Instr) (s : ABank) : Prop :=
  match i with
  | .bin .mul x y | .intoBin .mul x y | .opAssign .mul x y | .op .mul x y =>
      match s[x]?, s[y]? with
      | some a, some c => a.Strains u c
      | _, _ => False
  | .make (.parse k t) =>
      (k.val = 2 ∨ k.val = 4) ∧ Accepted (2 ^ (k.val + 1)) t ∧
        (k.val + 1) * (textDigits t).length + 64 = 2 ^ u
  | _ => False

/-- One call in a release build: what the abstract machine says as long as every number that it
leaves exists on this machine, a panic otherwise. -/
def Instr.specOn (u : Nat) (i : Instr) (s : ABank) : Option (Except AErr Out × ABank) :=
  match i.spec s with
  | none => none
  | some (x, s') => if ∀ z ∈ s', z.Fits u then some (x, s') else none

/-- A program in a release build: the answers up to the first panic, and the final bank or
`none`. -/
def specRunOn (u : Nat) : List Instr → ABank → List (Except AErr Out) × Option ABank
  | [], b => ([], some b)
  | i :: is, b =>
    match i.specOn u b with
    | some (r, b) =>
      let (rs, e) := specRunOn u is b
      (r :: rs, e)
    | none => ([], none)

/-- The numbers a program holds before each of its calls and at its end. -/
def specHistory : List Instr → ABank → List ABank
  | [], b => [b]
  | i :: is, b => b ::
    match i.spec b with
    | some (_, b) => specHistory is b
    | none => []

end Verif
