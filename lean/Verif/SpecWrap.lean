import Verif.Spec
import Verif.Model.StdOps

/-!
# Specification vocabulary for the wrapper types and operators

A fallible operation of the API comes in four forms: `x.f_assign(y)`, `x.into_f(y)` and the two
operators `x ∘ y` and `x ∘= y`.  `Gives` and `Fails` say that the four agree.
-/

namespace Verif

variable {α : Type}

/-- The method forms succeed and the operators return; all four leave the same value, which
satisfies `P`. -/
def Gives (assign : Run (Res Unit × α)) (into : Run (Res α)) (op opAssign : Run α)
    (P : α → Prop) : Prop :=
  ∃ c, assign = .ok (.ok (), c) ∧ into = .ok (.ok c) ∧ op = .ok c ∧ opAssign = .ok c ∧ P c

/-- The method forms report the error `e`, the in-place form leaves `x` as it was, and both
operators panic. -/
def Fails (x : α) (assign : Run (Res Unit × α)) (into : Run (Res α)) (op opAssign : Run α)
    (e : Err) : Prop :=
  assign = .ok (.error e, x) ∧ into = .ok (.error e) ∧ op = .error .panic ∧
    opAssign = .error .panic

/-- An operator against the consuming method it stands for: it returns what the method
returns, panics when the method reports an error, and otherwise behaves like it. -/
def OpFollows (method : Run (Res α)) (op : Run α) : Prop :=
  (∀ c, method = .ok (.ok c) ↔ op = .ok c) ∧
  ((∃ e, method = .ok (.error e)) → op = .error .panic) ∧
  (op = .error .panic → (∃ e, method = .ok (.error e)) ∨ method = .error .panic)

/-- An assigning operator against the in-place method it stands for. -/
def OpAssignFollows (method : Run (Res Unit × α)) (op : Run α) : Prop :=
  (∀ c, method = .ok (.ok (), c) ↔ op = .ok c) ∧
  ((∃ e c, method = .ok (.error e, c)) → op = .error .panic) ∧
  (op = .error .panic → (∃ e c, method = .ok (.error e, c)) ∨ method = .error .panic)

/-- The `UInt` is well-formed, has width `len` and the unsigned value `v`. -/
def UInt.Is (len : BitWidth) (v : Nat) (c : UInt) : Prop :=
  c.value.WF ∧ c.value.len = len ∧ c.value.uval = v

/-- The `Int` is well-formed, has width `len` and the signed value `z`. -/
def SInt.Is (len : BitWidth) (z : Int) (c : SInt) : Prop :=
  c.value.WF ∧ c.value.len = len ∧ c.value.sval = z

/-- The call returns a value satisfying `P`. -/
def Yields (r : Run α) (P : α → Prop) : Prop := ∃ c, r = .ok c ∧ P c

/-- The in-place and the consuming form succeed with the same value, which satisfies `P`. -/
def GivesM (assign : Run (Res Unit × α)) (into : Run (Res α)) (P : α → Prop) : Prop :=
  ∃ c, assign = .ok (.ok (), c) ∧ into = .ok (.ok c) ∧ P c

/-- The in-place and the consuming form report `e`; the in-place form leaves `x` as it was. -/
def FailsM (x : α) (assign : Run (Res Unit × α)) (into : Run (Res α)) (e : Err) : Prop :=
  assign = .ok (.error e, x) ∧ into = .ok (.error e)

end Verif
