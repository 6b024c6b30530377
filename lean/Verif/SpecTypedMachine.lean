import Verif.SpecTyped
import Verif.SpecMachine

/-!
# Programs over `UInt` and `Int` on a machine with words of limited size: what should happen

Independent of the model: it only knows the numbers of `SpecTyped.lean`.
-/

namespace Verif

/-- Numbers exist on a machine whose `usize` has `u` bits when the bits of all their 64-bit digits
can be counted. -/
def Num.Fits (u : Nat) (x : Num) : Prop := x.width + 64 ≤ 2 ^ u

instance Num.decFits (u : Nat) (x : Num) : Decidable (x.Fits u) := inferInstanceAs (Decidable (_ ≤ _))

/-- The numbers of significant bits of the patterns of two factors, both longer than 64 bits, add up
to more than `usize` can count.  The pattern of a negative number has as many significant bits as
its width. -/
def Num.Strains (u : Nat) (x y : Num) : Prop :=
  x.kind = y.kind ∧ x.width = y.width ∧ 2 ^ 64 ≤ x.pattern ∧ 2 ^ 64 ≤ y.pattern ∧
    2 ^ u ≤ Nat.size x.pattern + Nat.size y.pattern

instance Num.decStrains (u : Nat) (x y : Num) : Decidable (x.Strains u y) := by
  unfold Num.Strains
  infer_instance

/-- The calls that compute a size one bit beyond `usize` although the numbers themselves fit:
multiplications of very long factors, and parsing a text in radix 8 or 32 that fills the longest
integer to the last bit. -/
def TInstr.Strains (u : Nat) (i : TInstr) (s : NBank) : Prop :=
  match i with
  | .bin .mul x y | .intoBin .mul x y | .opAssign .mul x y | .op .mul x y =>
      match s[x]?, s[y]? with
      | some a, some c => a.Strains u c
      | _, _ => False
  | .make (.parse _ k t) =>
      (k.val = 2 ∨ k.val = 4) ∧ Accepted (2 ^ (k.val + 1)) t ∧
        (k.val + 1) * (textDigits t).length + 64 = 2 ^ u
  | _ => False

/-- One call in a release build: what the machine over integers says as long as every number that it
leaves exists on this machine, a panic otherwise. -/
def TInstr.specOn (u : Nat) (i : TInstr) (s : NBank) : Option (Except AErr TOut × NBank) :=
  match i.spec s with
  | none => none
  | some (x, s') => if ∀ z ∈ s', z.Fits u then some (x, s') else none

/-- A program in a release build: the answers up to the first panic, and the final bank or
`none`. -/
def tspecRunOn (u : Nat) : List TInstr → NBank → List (Except AErr TOut) × Option NBank
  | [], b => ([], some b)
  | i :: is, b =>
    match i.specOn u b with
    | some (r, b) =>
      let (rs, e) := tspecRunOn u is b
      (r :: rs, e)
    | none => ([], none)

/-- The numbers a program holds before each of its calls and at its end. -/
def tspecHistory : List TInstr → NBank → List NBank
  | [], b => [b]
  | i :: is, b => b ::
    match i.spec b with
    | some (_, b) => tspecHistory is b
    | none => []

end Verif
