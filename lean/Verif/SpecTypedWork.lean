import Verif.SpecTyped

/-!
# How much work a program over `UInt` and `Int` may take

In terms of the abstract machine of `SpecTyped.lean`.
-/

namespace Verif

/-- The integer that is made, if one is made, has at most `W` bits. -/
def TMake.Within (W : Nat) (m : TMake) : Prop := ∀ z, m.spec = .gives z → z.width ≤ W

/-- The width that is asked for, if one is asked for, is at most `W`. -/
def TUn.Within (W : Nat) : TUn → Prop
  | .truncate t | .extend t | .resize t => t.toUsize ≤ W
  | _ => True

/-- The call asks for no integer of more than `W` bits. -/
def TInstr.Within (W : Nat) : TInstr → Prop
  | .make m => m.Within W
  | .intOne t => t.toUsize ≤ W
  | .un o _ | .intoUn o _ => o.Within W
  | _ => True

/-- The multiplication and the divisions. -/
def TBin.heavy : TBin → Bool
  | .mul | .div | .rem => true
  | _ => false

/-- The calls that multiply or divide. -/
def TInstr.heavy : TInstr → Bool
  | .bin o _ _ | .intoBin o _ _ | .op o _ _ | .opAssign o _ _ => o.heavy
  | _ => false

/-- The number of bytes of the text that is parsed. -/
def TInstr.textBytes : TInstr → Nat
  | .make (.parse _ _ s) => (String.ofList s).utf8ByteSize
  | _ => 0

/-- The most that a call may touch when no integer has more than `D` digits: quadratically many digits
for multiplications and divisions, linearly many for everything else, and seven for each byte that is
parsed. -/
def TInstr.mayTouch (D : Nat) (i : TInstr) : Nat :=
  (if i.heavy then 14 * D ^ 2 + 72 * D + 86 else 132 * D + 24) + 7 * i.textBytes

end Verif
