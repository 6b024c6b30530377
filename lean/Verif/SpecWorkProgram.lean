import Verif.SpecProgram

/-!
# How much work a program may take

The size of the calls of a program, in terms of the abstract machine of `SpecProgram.lean`.
-/

namespace Verif

/-- The integer that is made, if one is made, has at most `W` bits. -/
def Make.Within (W : Nat) (m : Make) : Prop := ∀ z, m.spec = .ok z → z.width ≤ W

/-- The width that is asked for, if one is asked for, is at most `W`. -/
def Un.Within (W : Nat) : Un → Prop
  | .truncate t | .zeroExtend t | .signExtend t | .zeroResize t | .signResize t => t.toUsize ≤ W
  | _ => True

/-- The call asks for no integer of more than `W` bits. -/
def Instr.Within (W : Nat) : Instr → Prop
  | .make m => m.Within W
  | .un o _ | .intoUn o _ => o.Within W
  | _ => True

/-- The multiplication and the divisions. -/
def Bin.heavy : Bin → Bool
  | .mul | .udiv | .urem | .sdiv | .srem => true
  | _ => false

/-- The calls that multiply or divide. -/
def Instr.heavy : Instr → Bool
  | .bin o _ _ | .intoBin o _ _ => o.heavy
  | .opAssign o _ _ | .op o _ _ => o.bin.heavy
  | .pair _ _ _ => true
  | _ => false

/-- The number of bytes of the text that is parsed. -/
def Instr.textBytes : Instr → Nat
  | .make (.parse _ s) => (String.ofList s).utf8ByteSize
  | _ => 0

/-- The most that a call may touch when no integer has more than `D` digits: quadratically many digits
for multiplications and divisions, linearly many for everything else, and seven for each byte that is
parsed. -/
def Instr.mayTouch (D : Nat) (i : Instr) : Nat :=
  (if i.heavy then 14 * D ^ 2 + 72 * D + 86 else 66 * D + 12) + 7 * i.textBytes

end Verif
