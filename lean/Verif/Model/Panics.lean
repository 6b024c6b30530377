import Verif.Model.Errors
import Verif.Model.TypedHeap

/-!
# The messages of panics

`Result::unwrap` on an `Err(e)` panics with ``called `Result::unwrap()` on an `Err` value: `` and the
`Debug` text of `e`, and `unimplemented!()` panics with `not implemented` (standard library).  The
calls that a caller can make panic are repeated here with the message: the operators of
`/repo/src/std_ops.rs`, the signed divisions of `/repo/src/apint/arithmetic.rs`, which unwrap the
result of an unsigned division, and the octal text.  All other calls are taken over without a
message; C02 and C69 show that they do not panic on the integers a program can have.
-/

namespace Verif

/-- A computation whose faults carry a message. As in `/repo/src/std_ops.rs:11-225`. -/
abbrev Loud (α : Type) := Except (Fault × Text) α

/-- A computation with a fault that has no message here. As the panics in
`/repo/src/apint/arithmetic.rs:1475`. -/
def Loud.lift {α : Type} : Run α → Loud α
  | .ok a => .ok a
  | .error f => .error (f, [])

/-- Calls without a message are used as such. As in `/repo/src/std_ops.rs:11-225`. -/
instance Loud.monadLift : MonadLift Run Loud where
  monadLift := Loud.lift

/-- The text that `Debug` for `Error` makes, `/repo/src/errors.rs:125-130`.  Simplified: no text when
making it faults, which C77 shows not to happen. -/
def Error.textOf (q : Quoting) (kind : Err) : Text :=
  match (do let e ← Error.ofKind kind; e.debug q : Run Text) with
  | .ok t => t
  | .error _ => []

/-- `.unwrap()` (standard library), as in `/repo/src/std_ops.rs:62`. -/
def Loud.unwrap {α : Type} (q : Quoting) : Res α → Loud α
  | .ok a => .ok a
  | .error kind => .error (.panic,
      "called `Result::unwrap()` on an `Err` value: ".toList ++ Error.textOf q kind)

namespace ApInt

/-- The signs of the operands and the magnitudes, the `match` of `wrapping_sdivrem_assign` and the
other three signed divisions, `/repo/src/apint/arithmetic.rs:1677-1692`. -/
def magnitudes (lhs rhs : ApInt) : Run (Bool × Bool × ApInt × ApInt) := do
  let lm ← lhs.msb
  let rm ← rhs.msb
  let lhs ← negIf lm lhs
  let rhs ← negIf rm rhs
  .ok (lm, rm, lhs, rhs)

/-- `wrapping_sdivrem_assign`, `/repo/src/apint/arithmetic.rs:1667-1702`. -/
def loudSdivrem (q : Quoting) (lhs rhs : ApInt) : Loud (Res Unit × ApInt × ApInt) := do
  let z ← rhs.isZero
  if z then do
    let c ← lhs.clone
    .ok (.error (.divisionByZero .signedDivRem c), lhs, rhs)
  else do
    let (lm, rm, lhs, rhs) ← magnitudes lhs rhs
    let (r, lhs, rhs) ← wrappingUdivremAssign lhs rhs
    let () ← Loud.unwrap q r
    let lhs ← negIf (lm != rm) lhs
    let rhs ← negIf lm rhs
    .ok (.ok (), lhs, rhs)

/-- `wrapping_sremdiv_assign`, `/repo/src/apint/arithmetic.rs:1712-1747`. -/
def loudSremdiv (q : Quoting) (lhs rhs : ApInt) : Loud (Res Unit × ApInt × ApInt) := do
  let z ← rhs.isZero
  if z then do
    let c ← lhs.clone
    .ok (.error (.divisionByZero .signedRemDiv c), lhs, rhs)
  else do
    let (lm, rm, lhs, rhs) ← magnitudes lhs rhs
    let (r, lhs, rhs) ← wrappingUremdivAssign lhs rhs
    let () ← Loud.unwrap q r
    let lhs ← negIf lm lhs
    let rhs ← negIf (lm != rm) rhs
    .ok (.ok (), lhs, rhs)

/-- `wrapping_sdiv_assign`, `/repo/src/apint/arithmetic.rs:1756-1783`. -/
def loudSdiv (q : Quoting) (self rhs : ApInt) : Loud (Res Unit × ApInt) := do
  let z ← rhs.isZero
  if z then do
    let c ← self.clone
    .ok (.error (.divisionByZero .signedDiv c), self)
  else do
    let rhsClone ← rhs.clone
    let (lm, rm, self, rhsClone) ← magnitudes self rhsClone
    let (r, self, _) ← wrappingUdivremAssign self rhsClone
    let () ← Loud.unwrap q r
    let self ← negIf (lm != rm) self
    .ok (.ok (), self)

/-- `wrapping_srem_assign`, `/repo/src/apint/arithmetic.rs:1803-1830`. -/
def loudSrem (q : Quoting) (self rhs : ApInt) : Loud (Res Unit × ApInt) := do
  let z ← rhs.isZero
  if z then do
    let c ← self.clone
    .ok (.error (.divisionByZero .signedRem c), self)
  else do
    let rhsClone ← rhs.clone
    let (lm, _, self, rhsClone) ← magnitudes self rhsClone
    let (r, self, _) ← wrappingUremdivAssign self rhsClone
    let () ← Loud.unwrap q r
    let self ← negIf lm self
    .ok (.ok (), self)

/-- `fmt::Octal for ApInt`, `/repo/src/apint/serialization.rs:50-58`. -/
def loudOctal (self : ApInt) : Loud (List Char) := do
  let z ← self.isZero
  if z then .ok ['0'] else .error (.panic, "not implemented".toList)

end ApInt

open ApInt

/-- In-place binary methods. `/repo/src/apint/arithmetic.rs:105-1830`. -/
def Bin.loud (q : Quoting) : Bin → ApInt → ApInt → Loud (Res Unit × ApInt)
  | .sdiv, a, c => loudSdiv q a c
  | .srem, a, c => loudSrem q a c
  | o, a, c => Loud.lift (o.exec a c)

/-- `try_forward_bin_mut_impl`, `/repo/src/utils.rs:29-37`. -/
def Loud.forward (r : Loud (Res Unit × ApInt)) : Loud (Res ApInt) := do
  let (e, a) ← r
  match e with
  | .error e => .ok (.error e)
  | .ok () => .ok (.ok a)

/-- Consuming binary methods. `/repo/src/apint/arithmetic.rs:132-1841`,
`/repo/src/apint/bitwise.rs:31-77`. -/
def Bin.loudInto (q : Quoting) (o : Bin) (a c : ApInt) : Loud (Res ApInt) := Loud.forward (o.loud q a c)

/-- Operators returning a value, `/repo/src/std_ops.rs:66-114` and `:183-197`: `.unwrap()` after the
consuming method. -/
def Bin.loudOp (q : Quoting) (o : Bin) (a c : ApInt) : Loud ApInt := do
  let r ← o.loudInto q a c
  Loud.unwrap q r

/-- Assigning operators, `/repo/src/std_ops.rs:127-161` and `:208-218`: `.unwrap()` after the
in-place method. -/
def Bin.loudAssign (q : Quoting) (o : Bin) (a c : ApInt) : Loud ApInt := do
  let (r, a) ← o.loud q a c
  let () ← Loud.unwrap q r
  pure a

/-- Operators of one integer returning a value, `/repo/src/std_ops.rs:55-64` and `:172-181`:
`.unwrap()` after the consuming method. -/
def Un.loudOp (q : Quoting) (o : Un) (a : ApInt) : Loud ApInt := do
  let r ← Loud.forward (Loud.lift (o.exec a))
  Loud.unwrap q r

/-- Assigning shifts, `/repo/src/std_ops.rs:118-125` and `:199-206`. -/
def Un.loudAssign (q : Quoting) (o : Un) (a : ApInt) : Loud ApInt := do
  let (r, a) ← o.exec a
  let () ← Loud.unwrap q r
  pure a

/-- Divisions changing both operands. `/repo/src/apint/arithmetic.rs:1532-1585`,
`/repo/src/apint/arithmetic.rs:1667-1750`. -/
def Pair.loud (q : Quoting) : Pair → ApInt → ApInt → Loud (Res Unit × ApInt × ApInt)
  | .sdivrem, a, c => loudSdivrem q a c
  | .sremdiv, a, c => loudSremdiv q a c
  | o, a, c => Loud.lift (o.exec a c)

/-- The method behind an operator, `/repo/src/std_ops.rs:66-161`. -/
def Op.loudBin : Op → Bin
  | .add => .add
  | .sub => .sub
  | .mul => .mul
  | .and => .and
  | .or => .or
  | .xor => .xor

/-- One call with the message of its panic.  `Instr.exec` once more; the calls are those cited there
and above. -/
def Instr.loud (q : Quoting) (i : Instr) (b : Bank) : Loud (Res Out × Bank) :=
  let one (x : Nat) (k : ApInt → Loud (Res Out × Bank)) : Loud (Res Out × Bank) :=
    match b[x]? with
    | some a => k a
    | none => pure (.ok .unit, b)
  let two (x y : Nat) (k : ApInt → ApInt → Loud (Res Out × Bank)) : Loud (Res Out × Bank) :=
    match b[x]?, b[y]? with
    | some a, some c => k a c
    | _, _ => pure (.ok .unit, b)
  match i with
  | .bin o x y => two x y fun a c => do
      let (e, a) ← o.loud q a c
      pure (e.map fun _ => .unit, b.set x a)
  | .intoBin o x y => two x y fun a c => do
      let a ← a.clone
      match ← o.loudInto q a c with
      | .ok z => pure (.ok .unit, b ++ [z])
      | .error e => pure (.error e, b)
  | .opAssign o x y => two x y fun a c => do
      let a ← o.loudBin.loudAssign q a c
      pure (.ok .unit, b.set x a)
  | .op o x y => two x y fun a c => do
      let a ← a.clone
      let z ← o.loudBin.loudOp q a c
      pure (.ok .unit, b ++ [z])
  | .opShlAssign s x => one x fun a => do
      let a ← (Un.shl s).loudAssign q a
      pure (.ok .unit, b.set x a)
  | .opShl s x => one x fun a => do
      let a ← a.clone
      let z ← (Un.shl s).loudOp q a
      pure (.ok .unit, b ++ [z])
  | .pair o x y => two x y fun a c => do
      let (e, a, c) ← o.loud q a c
      pure (e.map fun _ => .unit, (b.set x a).set y c)
  | .ask .octal x => one x fun a => do
      let t ← a.loudOctal
      pure (.ok (.text t), b)
  | i => Loud.lift (i.exec b)

/-- One call on `UInt`s and `Int`s with the message of its panic.  `TInstr.exec` once more, for the
calls that can panic: a method works on the fields (`/repo/src/uint.rs:744-1074`,
`/repo/src/int.rs:802-1150`) and an operator unwraps (`/repo/src/std_ops.rs:11-225`). -/
def TInstr.loud (q : Quoting) (i : TInstr) (b : TBank) : Loud (Res TOut × TBank) :=
  let skip : Loud (Res TOut × TBank) := pure (.ok (.out .unit), b)
  let one (x : Nat) (k : WInt → Loud (Res TOut × TBank)) : Loud (Res TOut × TBank) :=
    match b[x]? with
    | some a => k a
    | none => skip
  let two (x y : Nat) (k : Kind → ApInt → ApInt → Loud (Res TOut × TBank)) :
      Loud (Res TOut × TBank) :=
    match b[x]?, b[y]? with
    | some a, some c => if a.kind = c.kind then k a.kind a.value c.value else skip
    | _, _ => skip
  match i with
  | .bin o x y => two x y fun k a c => do
      let (e, a) ← (o.field k).loud q a c
      pure (e.map fun _ => .out .unit, b.set x (k.wrap a))
  | .intoBin o x y => two x y fun k a c => do
      match ← (o.field k).loudInto q a c with
      | .ok z => pure (.ok (.out .unit), b.set x (k.wrap z))
      | .error e => pure (.error e, b.eraseIdx x)
  | .op o x y => two x y fun k a c => do
      let z ← (o.field k).loudOp q a c
      pure (.ok (.out .unit), b.set x (k.wrap z))
  | .opAssign o x y => two x y fun k a c => do
      let a ← (o.field k).loudAssign q a c
      pure (.ok (.out .unit), b.set x (k.wrap a))
  | .opUn (.shl s) x => one x fun a => do
      let z ← (TUnOp.field (.shl s) a.kind).loudOp q a.value
      pure (.ok (.out .unit), b.set x (a.kind.wrap z))
  | .opUn (.shr s) x => one x fun a => do
      let z ← (TUnOp.field (.shr s) a.kind).loudOp q a.value
      pure (.ok (.out .unit), b.set x (a.kind.wrap z))
  | .opShift o x => one x fun a => do
      let z ← (o.field a.kind).loudAssign q a.value
      pure (.ok (.out .unit), b.set x (a.kind.wrap z))
  | .ask .octal x => one x fun a => do
      let t ← a.value.loudOctal
      pure (.ok (.out (.text t)), b)
  | i => Loud.lift (i.exec b)

end Verif
