import Verif.Model.Typed
import Verif.Model.HeapUnwind

/-!
# `UInt` and `Int` with pointers

`UInt` and `Int` are structs with one field of type `ApInt` (`/repo/src/uint.rs:28`,
`/repo/src/int.rs:28`), so a bank of them is a list of types beside a list of integers with heap
buffers.  Every method works by calls on that field; a `Script` lists those calls.  Scripts can be
run on the pure model of the calls as well as on the model with pointers.
-/

namespace Verif

/-- The type of an integer. `/repo/src/uint.rs:28`, `/repo/src/int.rs:28`. -/
def WInt.kind : WInt → Kind
  | .u _ => .unsigned
  | .s _ => .signed

/-- The field of an integer. `/repo/src/uint.rs:28-30`, `/repo/src/int.rs:28-30`. -/
def WInt.value : WInt → ApInt
  | .u x => x.value
  | .s x => x.value

/-- An integer of the given type around a field, `/repo/src/uint.rs:28`, `/repo/src/int.rs:28`. -/
def Kind.wrap : Kind → ApInt → WInt
  | .unsigned, a => .u ⟨a⟩
  | .signed, a => .s ⟨a⟩

/-- The calls a method makes on the fields of its arguments.  `done` also tells the types of the
integers that are live then. Not in `/repo` (a building block for what the wrappers do, cited
below). -/
inductive Script where
  | done (r : Res TOut) (ks : List Kind)
  | panic
  | call (i : Instr) (k : Res Out → Script)

namespace Script

/-- Return nothing. Not in `/repo` (a building block for what the wrappers do, cited below). -/
def unit (ks : List Kind) : Script := .done (.ok (.out .unit)) ks

/-- One call, whose answer or error is that of the method. Not in `/repo` (a building block for what
the wrappers do, cited below). -/
def pass (ks : List Kind) (i : Instr) : Script :=
  .call i fun
    | .ok o => .done (.ok (.out o)) ks
    | .error e => .done (.error e) ks

/-- One call making an integer, which is wrapped. Not in `/repo` (a building block for what the
wrappers do, cited below). -/
def push (ks : List Kind) (k : Kind) (i : Instr) : Script :=
  .call i fun
    | .ok _ => unit (ks ++ [k])
    | .error e => .done (.error e) ks

/-- `forward_mut_impl` and its two siblings, `/repo/src/utils.rs:8-37`: the integer `x` has been
moved into the method and is changed in place; an error drops it. -/
def consume (ks : List Kind) (x : Nat) (i : Instr) : Script :=
  .call i fun
    | .ok _ => unit ks
    | .error e => .call (.drop x) fun _ => .done (.error e) (ks.eraseIdx x)

/-- A call followed by `unwrap`, `/repo/src/std_ops.rs`. -/
def unwrap (ks : List Kind) (i : Instr) : Script :=
  .call i fun
    | .ok _ => unit ks
    | .error _ => .panic

/-- A call answering a boolean, which the method looks at.  Other answers do not occur. Not in
`/repo` (a building block for what the wrappers do, cited below). -/
def test (i : Instr) (k : Bool → Script) : Script :=
  .call i fun
    | .ok (.bool b) => k b
    | _ => .panic

/-- A call answering a number, which the method looks at.  Other answers do not occur. Not in
`/repo` (a building block for what the wrappers do, cited below). -/
def count (i : Instr) (k : Nat → Script) : Script :=
  .call i fun
    | .ok (.nat n) => k n
    | _ => .panic

/-- A comparison followed by `unwrap_or(false)`. `/repo/src/uint.rs:305-319`,
`/repo/src/int.rs:363-377`. -/
def orFalse (ks : List Kind) (i : Instr) : Script :=
  .call i fun
    | .ok o => .done (.ok (.out o)) ks
    | .error _ => .done (.ok (.out (.bool false))) ks

end Script

open Script

/-- The constructor of the field and the type, `/repo/src/uint.rs:56-175`,
`/repo/src/int.rs:56-183`, `:621-626`. -/
def TMake.field : TMake → Make × Kind
  | .zero k t => (.zero t, k)
  | .one t => (.one t, .unsigned)
  | .allUnset k t => (.zero t, k)
  | .allSet k t => (.allSet t, k)
  | .min .unsigned t => (.unsignedMin t, .unsigned)
  | .min .signed t => (.signedMin t, .signed)
  | .max .unsigned t => (.unsignedMax t, .unsigned)
  | .max .signed t => (.signedMax t, .signed)
  | .bool k b => (.bool b, k)
  | .u8 v => (.u8 v, .unsigned)
  | .u16 v => (.u16 v, .unsigned)
  | .u32 v => (.u32 v, .unsigned)
  | .u64 v => (.u64 v, .unsigned)
  | .u128 v => (.u128 v, .unsigned)
  | .i8 v => (.i8 v, .signed)
  | .i16 v => (.i16 v, .signed)
  | .i32 v => (.i32 v, .signed)
  | .i64 v => (.i64 v, .signed)
  | .i128 v => (.i128 v, .signed)
  | .array k v vs => (.array v vs, k)
  | .parse k n s => (.parse n s, k)
  | .random k t rng => (.random t rng, k)

/-- The call on the field, none for `abs`, which makes several. `/repo/src/uint.rs:190-1102`,
`/repo/src/int.rs:198-1178`. -/
def TUn.field : TUn → Kind → Option Un
  | .not, _ => some .bitnot
  | .neg, _ => some .neg
  | .abs, _ => none
  | .shl s, _ => some (.shl s)
  | .shr s, .unsigned => some (.lshr s)
  | .shr s, .signed => some (.ashr s)
  | .truncate t, _ => some (.truncate t)
  | .extend t, .unsigned => some (.zeroExtend t)
  | .extend t, .signed => some (.signExtend t)
  | .resize t, .unsigned => some (.zeroResize t)
  | .resize t, .signed => some (.signResize t)

/-- `Int::wrapping_abs`, `/repo/src/int.rs:273-277`. -/
def absScript (ks : List Kind) (x : Nat) : Script :=
  test (.ask .msb x) fun b => if b then pass ks (.un .neg x) else unit ks

/-- In-place unary methods. `/repo/src/uint.rs:190-1102`, `/repo/src/int.rs:198-1178`. -/
def TUn.script (ks : List Kind) (x : Nat) (o : TUn) (k : Kind) : Script :=
  match o.field k, k with
  | some o, _ => pass ks (.un o x)
  | none, .signed => absScript ks x
  | none, .unsigned => unit ks

/-- Consuming unary methods. `/repo/src/uint.rs:190-1102`, `/repo/src/int.rs:198-1178`. -/
def TUn.scriptInto (ks : List Kind) (x : Nat) (o : TUn) (k : Kind) : Script :=
  match o.field k, k with
  | some o, _ => consume ks x (.un o x)
  | none, .signed => absScript ks x
  | none, .unsigned => unit ks

/-- The call behind an operator of one integer, `/repo/src/std_ops.rs:11-66`, `:165-181`. -/
def TUnOp.field : TUnOp → Kind → Un
  | .not, _ => .bitnot
  | .neg, _ => .neg
  | .shl s, _ => .shl s
  | .shr s, .unsigned => .lshr s
  | .shr s, .signed => .ashr s

/-- The call behind an assigning shift, `/repo/src/std_ops.rs:118-125`, `:199-206`. -/
def TShift.field : TShift → Kind → Un
  | .shl s, _ => .shl s
  | .shr s, .unsigned => .lshr s
  | .shr s, .signed => .ashr s

/-- The call on the field of bit level methods. `/repo/src/uint.rs:821-880`,
`/repo/src/int.rs:879-958`. -/
def TAlter.field : TAlter → Kind → Option Alter
  | .setAll, _ => some .setAll
  | .unsetAll, _ => some .unsetAll
  | .flipAll, _ => some .flipAll
  | .setMsb, .signed => some .setMsb
  | .unsetMsb, .signed => some .unsetMsb
  | .flipMsb, .signed => some .flipMsb
  | .setMsb, .unsigned | .unsetMsb, .unsigned | .flipMsb, .unsigned => none
  | .setBit p, _ => some (.setBit p)
  | .unsetBit p, _ => some (.unsetBit p)
  | .flipBit p, _ => some (.flipBit p)
  | .randomize rng, _ => some (.randomize rng)

/-- The call on the fields of binary methods. `/repo/src/uint.rs:744-1074`,
`/repo/src/int.rs:802-1150`. -/
def TBin.field : TBin → Kind → Bin
  | .add, _ => .add
  | .sub, _ => .sub
  | .mul, _ => .mul
  | .and, _ => .and
  | .or, _ => .or
  | .xor, _ => .xor
  | .div, .unsigned => .udiv
  | .div, .signed => .sdiv
  | .rem, .unsigned => .urem
  | .rem, .signed => .srem

/-- Whether a type has conversions to a primitive type. `/repo/src/uint.rs:323-484`,
`/repo/src/int.rs:381-542`. -/
def Kind.casts : Kind → PrimitiveTy → Bool
  | _, .bool => true
  | .unsigned, .u8 | .unsigned, .u16 | .unsigned, .u32 | .unsigned, .u64 | .unsigned, .u128 => true
  | .signed, .i8 | .signed, .i16 | .signed, .i32 | .signed, .i64 | .signed, .i128 => true
  | _, _ => false

/-- The questions a method asks of the field, `/repo/src/uint.rs`, `/repo/src/int.rs:205-258`. -/
def TAsk.script (ks : List Kind) (x : Nat) : TAsk → Kind → Script
  | .width, _ => pass ks (.ask .width x)
  | .isZero, _ => pass ks (.ask .isZero x)
  | .isAllUnset, _ => pass ks (.ask .isAllUnset x)
  | .isEven, _ => pass ks (.ask .isEven x)
  | .isOdd, _ => pass ks (.ask .isOdd x)
  | .isNegative, .signed =>
      test (.ask .msb x) fun b => .done (.ok (.out (.bool (!(!b))))) ks
  | .isPositive, .signed =>
      test (.ask .msb x) fun b => .done (.ok (.out (.bool (!b)))) ks
  | .signum, .signed =>
      test (.ask .isZero x) fun z =>
        if z then .done (.ok (.out (.int 0))) ks
        else test (.ask .msb x) fun b =>
          if !(!b) then .done (.ok (.out (.int (-1)))) ks else .done (.ok (.out (.int 1))) ks
  | .msb, .signed => pass ks (.ask .msb x)
  | .isNegative, .unsigned | .isPositive, .unsigned | .signum, .unsigned | .msb, .unsigned =>
      unit ks
  | .bit p, _ => pass ks (.ask (.bit p) x)
  | .countOnes, _ => pass ks (.ask .countOnes x)
  | .countZeros, _ => pass ks (.ask .countZeros x)
  | .leadingZeros, _ => pass ks (.ask .leadingZeros x)
  | .trailingZeros, _ => pass ks (.ask .trailingZeros x)
  | .resize ty, k => if k.casts ty then pass ks (.ask (.resize ty) x) else unit ks
  | .tryTo ty, .unsigned =>
      if Kind.unsigned.casts ty then pass ks (.ask (.tryTo ty) x) else unit ks
  | .tryTo _, .signed => unit ks
  | .binary, _ => pass ks (.ask .binary x)
  | .lowerHex, _ => pass ks (.ask .lowerHex x)
  | .upperHex, _ => pass ks (.ask .upperHex x)
  | .octal, _ => pass ks (.ask .octal x)

/-- The comparison of the fields. `/repo/src/uint.rs:235-237`, `/repo/src/int.rs:293-295`. -/
def Kind.less : Kind → Ask2
  | .unsigned => .ult
  | .signed => .slt

/-- The questions a method asks of two fields, `/repo/src/uint.rs:235-320`,
`/repo/src/int.rs:293-378`. -/
def TAsk2.script (ks : List Kind) (x y : Nat) : TAsk2 → Kind → Script
  | .eq, _ => pass ks (.ask2 .eq x y)
  | .checkedLt, k => pass ks (.ask2 k.less x y)
  | .checkedLe, .unsigned => pass ks (.ask2 .ule x y)
  | .checkedLe, .signed => pass ks (.ask2 .sle x y)
  | .checkedGt, .unsigned => pass ks (.ask2 .ugt x y)
  | .checkedGt, .signed => pass ks (.ask2 .sgt x y)
  | .checkedGe, .unsigned => pass ks (.ask2 .uge x y)
  | .checkedGe, .signed => pass ks (.ask2 .sge x y)
  | .lt, k => orFalse ks (.ask2 k.less x y)
  | .le, .unsigned => orFalse ks (.ask2 .ule x y)
  | .le, .signed => orFalse ks (.ask2 .sle x y)
  | .gt, .unsigned => orFalse ks (.ask2 .ugt x y)
  | .gt, .signed => orFalse ks (.ask2 .sgt x y)
  | .ge, .unsigned => orFalse ks (.ask2 .uge x y)
  | .ge, .signed => orFalse ks (.ask2 .sge x y)
  | .partialCmp, k =>
      count (.ask .width x) fun m => count (.ask .width y) fun n =>
        if m ≠ n then .done (.ok (.ord none)) ks
        else test (.ask2 k.less x y) fun lt =>
          if lt then .done (.ok (.ord (some .lt))) ks
          else test (.ask2 .eq x y) fun eq =>
            .done (.ok (.ord (some (if eq then .eq else .gt)))) ks

/-- The calls a method makes on the fields, for integers of the given types.  A register that does
not exist, a method the type does not have and two integers of different types are not Rust
programs; nothing happens then. `/repo/src/uint.rs:190-1102`, `/repo/src/int.rs:198-1178`,
`/repo/src/std_ops.rs`. -/
def TInstr.script (ks : List Kind) (i : TInstr) : Script :=
  let one (x : Nat) (f : Kind → Script) : Script :=
    match ks[x]? with
    | some k => f k
    | none => unit ks
  let two (x y : Nat) (f : Kind → Script) : Script :=
    match ks[x]?, ks[y]? with
    | some .unsigned, some .unsigned => f .unsigned
    | some .signed, some .signed => f .signed
    | _, _ => unit ks
  match i with
  | .make m => push ks m.field.2 (.make m.field.1)
  -- `Int::one`, `/repo/src/int.rs:103-109`
  | .intOne t =>
      if t = BitWidth.w1 then .done (.ok (.out (.bool false))) ks
      else .call (.make (.one t)) fun
        | .ok _ => .done (.ok (.out (.bool true))) (ks ++ [.signed])
        | .error e => .done (.error e) ks
  | .clone x => one x fun k => push ks k (.clone x)
  | .drop x => .call (.drop x) fun _ => unit (ks.eraseIdx x)
  | .assign x y => two x y fun _ => pass ks (.assign x y)
  | .strictAssign x y => two x y fun _ => pass ks (.strictAssign x y)
  -- the field is moved from one struct to the other
  | .intoUnsigned x => one x fun _ => unit (ks.set x .unsigned)
  | .intoSigned x => one x fun _ => unit (ks.set x .signed)
  | .un o x => one x fun k => o.script ks x k
  | .intoUn o x => one x fun k => o.scriptInto ks x k
  | .opUn o x => one x fun k => unwrap ks (.un (o.field k) x)
  | .opShift o x => one x fun k => unwrap ks (.un (o.field k) x)
  | .alter o x => one x fun k =>
      match o.field k with
      | some o => pass ks (.alter o x)
      | none => unit ks
  | .bin o x y => two x y fun k => pass ks (.bin (o.field k) x y)
  | .intoBin o x y => two x y fun k => consume ks x (.bin (o.field k) x y)
  | .op o x y => two x y fun k => unwrap ks (.bin (o.field k) x y)
  | .opAssign o x y => two x y fun k => unwrap ks (.bin (o.field k) x y)
  | .ask q x => one x fun k => q.script ks x k
  | .ask2 q x y => two x y fun k => q.script ks x y k

/-- The integer a call has taken by value; a panic of the call drops it. Methods with `self` in
`/repo/src/uint.rs:190-1102`, `/repo/src/int.rs:198-1178`. -/
def TInstr.consumes : TInstr → Option Nat
  | .intoUn _ x | .opUn _ x | .intoBin _ x _ | .op _ x _ => some x
  | _ => none

/-- Run a script with a way to make its calls.  `none` when it panics. Client code, not in `/repo`.
-/
def Script.play {σ : Type} (c : Instr → σ → Run (Seen × σ)) :
    Script → σ → Run (Option (Res TOut × List Kind) × σ)
  | .done r ks, s => .ok (some (r, ks), s)
  | .panic, s => .ok (none, s)
  | .call i k, s => do
    match ← c i s with
    | (.returned r, s) => (k r).play c s
    | (.panicked, s) => .ok (none, s)

/-- What the program sees of a call. Client code, not in `/repo`. -/
inductive TSeen where
  | returned (r : Res TOut)
  | panicked

/-- A call on integers of the given types, inside `catch_unwind`. Client code, not in `/repo`. -/
def TInstr.caught {σ : Type} (c : Instr → σ → Run (Seen × σ)) (i : TInstr) (ks : List Kind) (s : σ) :
    Run (TSeen × List Kind × σ) := do
  match ← (i.script ks).play c s with
  | (some (r, ks), s) => .ok (.returned r, ks, s)
  | (none, s) =>
    match i.consumes with
    | none => .ok (.panicked, ks, s)
    | some x => do
      let (_, s) ← c (.drop x) s
      .ok (.panicked, ks.eraseIdx x, s)

/-- The calls of the model with pointers. Not in `/repo`; the calls are those cited at `Heap.lean`.
-/
def pointerCall [Allocator] (A : Growth) (i : Instr) (s : HBank × Heap) :
    Run (Seen × HBank × Heap) := do
  let ((r, b), h) ← i.hcaught A s.1 s.2
  .ok (r, b, h)

end Verif
