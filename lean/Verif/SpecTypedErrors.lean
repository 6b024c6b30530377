import Verif.SpecErrorText
import Verif.SpecTyped

/-!
# What the annotations of errors of `UInt` and `Int` should say

In terms of numbers.  The texts speak of the bits of the numbers: an `Int` is shown as the `ApInt`
with the same two's complement representation.
-/

namespace Verif

/-- The text of a number inside an error. -/
def Num.text (x : Num) : List Char := x.inError.text

/-- The annotation of a failed change of width. -/
def TUn.note : TUn → Num → Option (List Char)
  | .truncate t, x => some ("Cannot truncate `ApInt` with a width of ".toList ++ decText x.width ++
      "\n                         to an `ApInt` with a width of ".toList ++ decText t.toUsize ++
      " bits. Do you mean to extend the instance instead?".toList)
  | .extend t, x => some ((match x.kind with
      | .unsigned => "Cannot zero-extend bit-width of ".toList
      | .signed => "Cannot sign-extend bit-width of ".toList) ++
      named "BitWidth" x.width ++ " to ".toList ++ named "BitWidth" t.toUsize ++
      " bits. Do you mean to truncate the instance instead?".toList)
  | _, _ => none

/-- The annotation of a failed comparison: the type's name for it, and the operands in the order they
were given. -/
def TAsk2.note (q : TAsk2) (x y : Num) : Option (List Char) :=
  let say (s : String) : Option (List Char) :=
    some ("Error occured on ".toList ++ (match x.kind with
        | .unsigned => "unsigned ".toList
        | .signed => "signed ".toList) ++ s.toList ++
      " where \n\tlhs = ".toList ++ x.text ++ "\n\trhs = ".toList ++ y.text)
  match q with
  -- the names in parentheses are the same for both types
  | .checkedLt => say "less-than (slt) comparison with `lhs < rhs`"
  | .checkedLe => say "less-than or equals (ule) comparison with `lhs <= rhs`"
  | .checkedGt => say "greater-than (ugt) comparison with `lhs > rhs`"
  | .checkedGe => say "greater-than or equals (ule) comparison with `lhs >= rhs`"
  | _ => none

/-- The annotation of a failing call on numbers. -/
def TInstr.note (i : TInstr) (b : NBank) : Option (List Char) :=
  match i with
  | .un o x | .intoUn o x => b[x]?.bind o.note
  | .strictAssign x y =>
    match b[x]?, b[y]? with
    | some a, some c => some ("Occured while trying to `strict_assign` ".toList ++ a.text ++
        " to ".toList ++ c.text ++ ".".toList)
    | _, _ => none
  | .ask2 q x y =>
    match b[x]?, b[y]? with
    | some a, some c => q.note a c
    | _, _ => none
  | .make (.parse _ _ s) => parseNote s
  | _ => none

end Verif
