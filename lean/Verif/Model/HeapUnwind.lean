import Verif.Model.Heap
import Verif.Model.Unwind

/-!
# The buffers when a call panics

Unwinding drops the integers owned by the frames that are left.  Here are the calls that can panic,
up to the panic and with those drops, on integers with heap buffers.
-/

namespace Verif

/-- `if self.msb() { self.wrapping_neg() }` in the signed divisions,
`/repo/src/apint/arithmetic.rs:1677-1692`, `:1722-1737`, `:1761-1775`, `:1808-1822`. -/
def HInt.magnitude (self : HInt) : HM HInt := do
  let (_, self) ← self.inPlace (fun a => do
    let m ← a.msb
    let a ← a.negIf m
    pure ((), a))
  pure self

/-- The bank a panicking call leaves behind.  Operators returning a value and consuming methods own
their left operand (`/repo/src/std_ops.rs:55-114`, `/repo/src/utils.rs:30-37`), the signed
divisions own a clone of the divisor (`/repo/src/apint/arithmetic.rs:1760`, `:1807`); they are
dropped, the innermost first.  A call that does not panic is not run this way. -/
def Instr.hleft (A : Growth) (i : Instr) (b : HBank) : HM HBank :=
  let one (x : Nat) (k : HInt → HM HBank) : HM HBank :=
    match b[x]? with
    | some a => k a
    | none => pure b
  let two (x y : Nat) (k : HInt → HInt → HM HBank) : HM HBank :=
    match b[x]?, b[y]? with
    | some a, some c => k a c
    | _, _ => pure b
  let inPlaceDiv (x y : Nat) : HM HBank := two x y fun a c => do
    let rhsClone ← c.clone A
    let a ← a.magnitude
    let rhsClone ← rhsClone.magnitude
    rhsClone.dropDigits
    pure (b.set x a)
  let consumingDiv (x y : Nat) : HM HBank := two x y fun a c => do
    let a ← a.clone A
    let rhsClone ← c.clone A
    let a ← a.magnitude
    let rhsClone ← rhsClone.magnitude
    rhsClone.dropDigits
    a.dropDigits
    pure b
  let pairDiv (x y : Nat) : HM HBank := two x y fun a c => do
    let a ← a.magnitude
    let c ← c.magnitude
    pure ((b.set x a).set y c)
  match i with
  | .bin .sdiv x y => inPlaceDiv x y
  | .bin .srem x y => inPlaceDiv x y
  | .intoBin .sdiv x y => consumingDiv x y
  | .intoBin .srem x y => consumingDiv x y
  | .pair .sdivrem x y => pairDiv x y
  | .pair .sremdiv x y => pairDiv x y
  | .op _ x y => two x y fun a _ => do
    let a ← a.clone A
    a.dropDigits
    pure b
  | .opShl _ x => one x fun a => do
    let a ← a.clone A
    a.dropDigits
    pure b
  | _ => pure b

/-- A call inside `catch_unwind`. Client code, not in `/repo`. -/
def Instr.hcaught [Allocator] (A : Growth) (i : Instr) (b : HBank) (h : Heap) :
    Run ((Seen × HBank) × Heap) :=
  match i.hexec A b h with
  | .ok ((r, b), h) => .ok ((.returned r, b), h)
  | .error .panic =>
    match i.hleft A b h with
    | .ok (b, h) => .ok ((.panicked, b), h)
    | .error f => .error f
  | .error f => .error f

end Verif
