import Verif.Model.Program

/-!
# What a panic leaves behind

A panic unwinds: the integers owned by the frames that are left are dropped, and the integers the
caller lent out with `&mut` stay as they were at the moment of the panic.  A program that catches
the panic (`std::panic::catch_unwind`), or uses its integers while unwinding, sees them in that
state.  Here the calls that can panic are written once more so that a fault carries the state of
the borrowed integers; `forget` drops it again, and `forget_execT` (`Proof/Unwind.lean`) shows that
what is left is the call of `Model/Program.lean`.

A fault inside a nested call is given the state before that call.  The nested calls below never
fault on well-formed integers, so this choice is never used.
-/

namespace Verif

open ApInt

/-- A computation whose fault carries the state at that moment. Not in `/repo` (how the model talks
about panics). -/
abbrev Traced (σ α : Type) := Except (Fault × σ) α

/-- A computation during which the borrowed integers are in the state `s`. Not in `/repo` (how the
model talks about panics). -/
def keep {σ α : Type} (s : σ) : Run α → Traced σ α
  | .ok a => .ok a
  | .error f => .error (f, s)

/-- The computation without the state. Not in `/repo` (how the model talks about panics). -/
def forget {σ α : Type} : Traced σ α → Run α
  | .ok a => .ok a
  | .error (f, _) => .error f

/-- The state of an enclosing frame, given that of an inner one. Not in `/repo` (how the model talks
about panics). -/
def within {σ τ α : Type} (g : σ → τ) : Traced σ α → Traced τ α
  | .ok a => .ok a
  | .error (f, s) => .error (f, g s)

namespace ApInt

/-- `wrapping_sdivrem_assign`, `/repo/src/apint/arithmetic.rs:1667-1702`. -/
def wrappingSdivremAssignT (lhs rhs : ApInt) :
    Traced (ApInt × ApInt) (Res Unit × ApInt × ApInt) := do
  let z ← keep (lhs, rhs) rhs.isZero
  if z then do
    let c ← keep (lhs, rhs) lhs.clone
    .ok (.error (.divisionByZero .signedDivRem c), lhs, rhs)
  else do
    let lm ← keep (lhs, rhs) lhs.msb
    let rm ← keep (lhs, rhs) rhs.msb
    let (lhs, rhs, negateLhs, negateRhs) ←
      match lm, rm with
      | false, false => .ok (lhs, rhs, false, false)
      | true, false => do
        let lhs ← keep (lhs, rhs) lhs.wrappingNeg
        .ok (lhs, rhs, true, true)
      | false, true => do
        let rhs ← keep (lhs, rhs) rhs.wrappingNeg
        .ok (lhs, rhs, true, false)
      | true, true => do
        let lhs ← keep (lhs, rhs) lhs.wrappingNeg
        let rhs ← keep (lhs, rhs) rhs.wrappingNeg
        .ok (lhs, rhs, false, true)
    let (r, lhs, rhs) ← keep (lhs, rhs) (wrappingUdivremAssign lhs rhs)
    let () ← keep (lhs, rhs) (expect r)
    let lhs ← keep (lhs, rhs) (negIf negateLhs lhs)
    let rhs ← keep (lhs, rhs) (negIf negateRhs rhs)
    .ok (.ok (), lhs, rhs)

/-- `wrapping_sremdiv_assign`, `/repo/src/apint/arithmetic.rs:1712-1747`. -/
def wrappingSremdivAssignT (lhs rhs : ApInt) :
    Traced (ApInt × ApInt) (Res Unit × ApInt × ApInt) := do
  let z ← keep (lhs, rhs) rhs.isZero
  if z then do
    let c ← keep (lhs, rhs) lhs.clone
    .ok (.error (.divisionByZero .signedRemDiv c), lhs, rhs)
  else do
    let lm ← keep (lhs, rhs) lhs.msb
    let rm ← keep (lhs, rhs) rhs.msb
    let (lhs, rhs, negateLhs, negateRhs) ←
      match lm, rm with
      | false, false => .ok (lhs, rhs, false, false)
      | true, false => do
        let lhs ← keep (lhs, rhs) lhs.wrappingNeg
        .ok (lhs, rhs, true, true)
      | false, true => do
        let rhs ← keep (lhs, rhs) rhs.wrappingNeg
        .ok (lhs, rhs, false, true)
      | true, true => do
        let lhs ← keep (lhs, rhs) lhs.wrappingNeg
        let rhs ← keep (lhs, rhs) rhs.wrappingNeg
        .ok (lhs, rhs, true, false)
    let (r, lhs, rhs) ← keep (lhs, rhs) (wrappingUremdivAssign lhs rhs)
    let () ← keep (lhs, rhs) (expect r)
    let lhs ← keep (lhs, rhs) (negIf negateLhs lhs)
    let rhs ← keep (lhs, rhs) (negIf negateRhs rhs)
    .ok (.ok (), lhs, rhs)

/-- `wrapping_sdiv_assign`, `/repo/src/apint/arithmetic.rs:1756-1783`; `rhs` is only read and the
clone of it is dropped. -/
def wrappingSdivAssignT (self rhs : ApInt) : Traced ApInt (Res Unit × ApInt) := do
  let z ← keep self rhs.isZero
  if z then do
    let c ← keep self self.clone
    .ok (.error (.divisionByZero .signedDiv c), self)
  else do
    let rhsClone ← keep self rhs.clone
    let lm ← keep self self.msb
    let rm ← keep self rhsClone.msb
    let (self, rhsClone, negateLhs) ←
      match lm, rm with
      | false, false => .ok (self, rhsClone, false)
      | true, false => do
        let self ← keep self self.wrappingNeg
        .ok (self, rhsClone, true)
      | false, true => do
        let rhsClone ← keep self rhsClone.wrappingNeg
        .ok (self, rhsClone, true)
      | true, true => do
        let self ← keep self self.wrappingNeg
        let rhsClone ← keep self rhsClone.wrappingNeg
        .ok (self, rhsClone, false)
    let (r, self, _) ← keep self (wrappingUdivremAssign self rhsClone)
    let () ← keep self (expect r)
    let self ← keep self (negIf negateLhs self)
    .ok (.ok (), self)

/-- `wrapping_srem_assign`, `/repo/src/apint/arithmetic.rs:1803-1830`. -/
def wrappingSremAssignT (self rhs : ApInt) : Traced ApInt (Res Unit × ApInt) := do
  let z ← keep self rhs.isZero
  if z then do
    let c ← keep self self.clone
    .ok (.error (.divisionByZero .signedRem c), self)
  else do
    let rhsClone ← keep self rhs.clone
    let lm ← keep self self.msb
    let rm ← keep self rhsClone.msb
    let (self, rhsClone, negateLhs) ←
      match lm, rm with
      | false, false => .ok (self, rhsClone, false)
      | true, false => do
        let self ← keep self self.wrappingNeg
        .ok (self, rhsClone, true)
      | false, true => do
        let rhsClone ← keep self rhsClone.wrappingNeg
        .ok (self, rhsClone, false)
      | true, true => do
        let self ← keep self self.wrappingNeg
        let rhsClone ← keep self rhsClone.wrappingNeg
        .ok (self, rhsClone, true)
    let (r, self, _) ← keep self (wrappingUremdivAssign self rhsClone)
    let () ← keep self (expect r)
    let self ← keep self (negIf negateLhs self)
    .ok (.ok (), self)

end ApInt

/-- `self.f(…).unwrap()` of an assigning operator, `/repo/src/std_ops.rs:118-161`: the method has
returned when the panic is raised. -/
def unwrapMutT (self : ApInt) (r : Run (Res Unit × ApInt)) : Traced ApInt ApInt := do
  let (x, self) ← keep self r
  let () ← keep self (expect x)
  pure self

/-- In-place binary methods, as `Bin.exec`. The calls are those cited at `Program.lean`. -/
def Bin.execT : Bin → ApInt → ApInt → Traced ApInt (Res Unit × ApInt)
  | .sdiv, a, c => wrappingSdivAssignT a c
  | .srem, a, c => wrappingSremAssignT a c
  | o, a, c => keep a (o.exec a c)

/-- Assigning operators, as `Op.execAssign`. The calls are those cited at `Program.lean`. -/
def Op.execAssignT : Op → ApInt → ApInt → Traced ApInt ApInt
  | .add, a, c => unwrapMutT a (a.wrappingAddAssign c)
  | .sub, a, c => unwrapMutT a (a.wrappingSubAssign c)
  | .mul, a, c => unwrapMutT a (a.wrappingMulAssign c)
  | .and, a, c => unwrapMutT a (a.bitandAssign c)
  | .or, a, c => unwrapMutT a (a.bitorAssign c)
  | .xor, a, c => unwrapMutT a (a.bitxorAssign c)

/-- Divisions changing both operands, as `Pair.exec`. The calls are those cited at `Program.lean`.
-/
def Pair.execT : Pair → ApInt → ApInt → Traced (ApInt × ApInt) (Res Unit × ApInt × ApInt)
  | .sdivrem, a, c => wrappingSdivremAssignT a c
  | .sremdiv, a, c => wrappingSremdivAssignT a c
  | o, a, c => keep (a, c) (o.exec a c)

/-- One call, as `Instr.exec`, with the bank a panic leaves behind.  Calls that work on their own
integer (constructors, consuming methods, operators returning a value) or only read leave the bank
as it was. The calls are those cited at `Program.lean`. -/
def Instr.execT (i : Instr) (b : Bank) : Traced Bank (Res Out × Bank) :=
  let two (x y : Nat) (k : ApInt → ApInt → Traced Bank (Res Out × Bank)) :
      Traced Bank (Res Out × Bank) :=
    match b[x]?, b[y]? with
    | some a, some c => k a c
    | _, _ => pure (.ok .unit, b)
  match i with
  | .bin o x y => two x y fun a c => do
      let (e, a) ← within (fun a => b.set x a) (o.execT a c)
      pure (e.map fun _ => .unit, b.set x a)
  | .opAssign o x y => two x y fun a c => do
      let a ← within (fun a => b.set x a) (o.execAssignT a c)
      pure (.ok .unit, b.set x a)
  | .opShlAssign s x =>
    match b[x]? with
    | some a => do
      let a ← within (fun a => b.set x a) (unwrapMutT a (a.wrappingShlAssign s))
      pure (.ok .unit, b.set x a)
    | none => pure (.ok .unit, b)
  | .pair o x y => two x y fun a c => do
      let (e, a, c) ← within (fun (a, c) => (b.set x a).set y c) (o.execT a c)
      pure (e.map fun _ => .unit, (b.set x a).set y c)
  | i => keep b (i.exec b)

/-- What the program sees of a call. Client code, not in `/repo`. -/
inductive Seen where
  | returned (r : Res Out)
  | panicked

/-- A call inside `catch_unwind`. Client code, not in `/repo`. -/
def Instr.caught (i : Instr) (b : Bank) : Run (Seen × Bank) :=
  match i.execT b with
  | .ok (r, b) => .ok (.returned r, b)
  | .error (.panic, b) => .ok (.panicked, b)
  | .error (f, _) => .error f

end Verif
