import Verif.SpecErrorText
import Verif.SpecTyped

/-!
# What the messages of panics should say

In terms of the numbers of the abstract machines.
-/

namespace Verif

/-- The text of the kind of an error. -/
def AErr.kindText : AErr → List Char
  | .text _ _ => []
  | .bit p w => "InvalidBitAccess { pos: ".toList ++ named "BitPos" p ++ ", width: ".toList ++
      named "BitWidth" w ++ " }".toList
  | .shift s w => "InvalidShiftAmount { shift_amount: ".toList ++ named "ShiftAmount" s ++
      ", width: ".toList ++ named "BitWidth" w ++ " }".toList
  | .unrepresentable x ty => "ValueUnrepresentable { value: ".toList ++ x.text ++
      ", destination_ty: ".toList ++ ty.name.toList ++ " }".toList
  | .widths l r => "UnmatchingBitwidth(".toList ++ named "BitWidth" l ++ ", ".toList ++
      named "BitWidth" r ++ ")".toList
  | .tooWide t c => "TruncationBitWidthTooLarge { target: ".toList ++ named "BitWidth" t ++
      ", current: ".toList ++ named "BitWidth" c ++ " }".toList
  | .tooNarrow t c => "ExtensionBitWidthTooSmall { target: ".toList ++ named "BitWidth" t ++
      ", current: ".toList ++ named "BitWidth" c ++ " }".toList
  | .divZero op x => "DivisionByZero { op: ".toList ++ op.name.toList ++ ", lhs: ".toList ++ x.text ++
      " }".toList
  | .noDigits => "ExpectedNonEmptyDigits".toList
  | .other => []

/-- The message of the panic of `unwrap` on an error without annotation; `quoted` is how the standard
library prints a string. -/
def AErr.unwrapped (quoted : List Char → List Char) (e : AErr) : List Char :=
  "called `Result::unwrap()` on an `Err` value: ".toList ++
    ("Error { kind: ".toList ++ e.kindText ++ ", message: ".toList ++ quoted e.message ++
      ", annotation: ".toList ++ "None".toList ++ " }".toList)

/-- Why a call of the abstract machine panics, as an error: an operator because of the error that
the method behind it reports, a signed division because of the widths. -/
def Instr.blames (i : Instr) (b : ABank) : Option AErr :=
  let two (x y : Nat) : Option AErr :=
    match b[x]?, b[y]? with
    | some a, some c => some (.widths a.width c.width)
    | _, _ => none
  match i with
  | .bin _ x y | .intoBin _ x y | .op _ x y | .opAssign _ x y | .pair _ x y => two x y
  | .opShl s x | .opShlAssign s x => b[x]?.map fun a => .shift s a.width
  | _ => none

/-- The message of the panic of a call of the abstract machine.  Without an error to blame the call
is the octal text, which is not there. -/
def Instr.says (quoted : List Char → List Char) (i : Instr) (b : ABank) : List Char :=
  match i.blames b with
  | some e => e.unwrapped quoted
  | none => "not implemented".toList

/-- The error that makes the operator behind a call panic: what the method reports, or the widths
where it panics itself. -/
def Did.blames {α : Type} (d : Did α) (x y : Num) : AErr :=
  match d with
  | .reports e => e
  | _ => .widths x.width y.width

/-- Why a call on `UInt`s and `Int`s panics. -/
def TInstr.blames (i : TInstr) (b : NBank) : Option AErr :=
  let two (x y : Nat) (f : Num → Num → AErr) : Option AErr :=
    match b[x]?, b[y]? with
    | some a, some c => some (f a c)
    | _, _ => none
  match i with
  | .bin _ x y | .intoBin _ x y => two x y fun a c => .widths a.width c.width
  | .op o x y | .opAssign o x y => two x y fun a c => (o.spec a c).blames a c
  | .opUn (.shl s) x | .opUn (.shr s) x | .opShift (.shl s) x | .opShift (.shr s) x =>
      b[x]?.map fun a => .shift s a.width
  | _ => none

/-- The message of the panic of a call on `UInt`s and `Int`s.  Without an error to blame the call is
the octal text, which is not there. -/
def TInstr.says (quoted : List Char → List Char) (i : TInstr) (b : NBank) : List Char :=
  match i.blames b with
  | some e => e.unwrapped quoted
  | none => "not implemented".toList

end Verif
