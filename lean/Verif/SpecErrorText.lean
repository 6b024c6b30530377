import Verif.SpecProgram

/-!
# What the texts should say

In terms of the numbers of the abstract machine, independent of digits, buffers and of the code
that prints.
-/

namespace Verif

/-- Decimal text. -/
def decText (n : Nat) : List Char := canonical 10 ['0', '1', '2', '3', '4', '5', '6', '7', '8', '9'] n

/-- `Name(n)`. -/
def named (name : String) (n : Nat) : List Char := name.toList ++ "(".toList ++ decText n ++ ")".toList

/-- The text of a number: its width, and its digits in base 2^64, least significant first. -/
def AInt.text (x : AInt) : List Char :=
  "ApInt { len: ".toList ++ named "BitWidth" x.width ++ ", digits: [".toList ++
    List.intercalate ", ".toList ((List.range ((x.width + 63) / 64)).map fun i =>
      named "Digit" (x.bits / 2 ^ (64 * i) % 2 ^ 64)) ++ "] }".toList

/-- The names of the divisions. -/
def DivOp.name : DivOp → String
  | .unsignedDivRem => "UnsignedDivRem" | .unsignedRemDiv => "UnsignedRemDiv"
  | .signedDivRem => "SignedDivRem" | .signedRemDiv => "SignedRemDiv"
  | .unsignedDiv => "UnsignedDiv" | .unsignedRem => "UnsignedRem"
  | .signedDiv => "SignedDiv" | .signedRem => "SignedRem"

/-- The names of the primitive types. -/
def PrimitiveTy.name : PrimitiveTy → String
  | .bool => "Bool" | .i8 => "I8" | .u8 => "U8" | .i16 => "I16" | .u16 => "U16" | .i32 => "I32"
  | .u32 => "U32" | .i64 => "I64" | .u64 => "U64" | .i128 => "I128" | .u128 => "U128"

/-- The message of an error, with everything the error is about. -/
def AErr.message : AErr → List Char
  | .text _ radix => "Encountered an invalid string representation for the given radix (= ".toList ++
      named "Radix" radix ++ ").".toList
  | .bit p w => "Encountered invalid bit access at position ".toList ++ named "BitPos" p ++
      " with a total bit-width of ".toList ++ named "BitWidth" w ++ ".".toList
  | .shift s w => "Encountered invalid shift amount of ".toList ++ named "ShiftAmount" s ++
      " on bit-width with ".toList ++ named "BitWidth" w ++ " bits.".toList
  | .unrepresentable x ty => "Encountered a value (".toList ++ x.text ++
      ") that is unrepresentable by the destination type ".toList ++ ty.name.toList ++ ".".toList
  | .widths l r =>
      "Encountered invalid operation on entities with non-matching bit-widths of ".toList ++
      named "BitWidth" l ++ " and ".toList ++ named "BitWidth" r ++ ".".toList
  | .tooWide t c => "Tried to truncate an `ApInt` with a width of ".toList ++ named "BitWidth" c ++
      " to a larger target width of ".toList ++ named "BitWidth" t
  | .tooNarrow t c => "Tried to extend an `ApInt` with a width of ".toList ++ named "BitWidth" c ++
      " to a smaller target width of ".toList ++ named "BitWidth" t
  | .divZero op x => "Encountered a division-by-zero for operation (= ".toList ++ op.name.toList ++
      ") with the left hand-side value: (= ".toList ++ x.text ++ ")".toList
  | .noDigits => ("Encountered an empty iterator upon construction of an `ApInt` " ++
      "from a digit iterator.").toList
  | .other => []

/-- The message for an invalid character: `shown` is how the character is printed. -/
def charMessage (shown : List Char) (pos radix : Nat) : List Char :=
  "Encountered an invalid character (= '".toList ++ shown ++ "') at position ".toList ++ decText pos ++
    " within the given string representation for the given radix (= ".toList ++
    named "Radix" radix ++ ").".toList

/-- The character named for an invalid character `c`: `c` itself if it is ASCII, and otherwise the
character whose number is the first byte of the UTF-8 encoding of `c`. -/
def shownFor (c : Char) : Char :=
  if c.toNat < 128 then c
  else if c.toNat < 2048 then Char.ofNat (192 + c.toNat / 64)
  else if c.toNat < 65536 then Char.ofNat (224 + c.toNat / 4096)
  else Char.ofNat (240 + c.toNat / 262144)

/-- The annotation of a failed comparison names the operands in the order they were given. -/
def Ask2.note (q : Ask2) (x y : AInt) : Option (List Char) :=
  let say (s : String) : Option (List Char) :=
    some ("Error occured on ".toList ++ s.toList ++ " where \n\tlhs = ".toList ++ x.text ++
      "\n\trhs = ".toList ++ y.text)
  match q with
  | .eq => none
  -- five of the names in parentheses (for `ult`, `uge`, `sle`, `sgt`, `sge`) are not the name of
  -- the comparison
  | .ult => say "unsigned less-than (slt) comparison with `lhs < rhs`"
  | .ule => say "unsigned less-than or equals (ule) comparison with `lhs <= rhs`"
  | .ugt => say "unsigned greater-than (ugt) comparison with `lhs > rhs`"
  | .uge => say "unsigned greater-than or equals (ule) comparison with `lhs >= rhs`"
  | .slt => say "signed less-than (slt) comparison with `lhs < rhs`"
  | .sle => say "signed less-than or equals (ule) comparison with `lhs <= rhs`"
  | .sgt => say "signed greater-than (ugt) comparison with `lhs > rhs`"
  | .sge => say "signed greater-than or equals (ule) comparison with `lhs >= rhs`"

/-- The annotation of a failed change of width. -/
def Un.note : Un → AInt → Option (List Char)
  | .truncate t, x => some ("Cannot truncate `ApInt` with a width of ".toList ++ decText x.width ++
      "\n                         to an `ApInt` with a width of ".toList ++ decText t.toUsize ++
      " bits. Do you mean to extend the instance instead?".toList)
  | .zeroExtend t, x => some ("Cannot zero-extend bit-width of ".toList ++
      named "BitWidth" x.width ++ " to ".toList ++ named "BitWidth" t.toUsize ++
      " bits. Do you mean to truncate the instance instead?".toList)
  | .signExtend t, x => some ("Cannot sign-extend bit-width of ".toList ++
      named "BitWidth" x.width ++ " to ".toList ++ named "BitWidth" t.toUsize ++
      " bits. Do you mean to truncate the instance instead?".toList)
  | _, _ => none

/-- The annotation of a failed parse. -/
def parseNote (s : List Char) : Option (List Char) :=
  if s = [] then some "Cannot parse an empty string into an ApInt.".toList
  else if s.head? = some '_' then
    some ("The input string starts with an underscore ('_') instead of a number. " ++
      "The use of underscores is explicitely for separation of digits.").toList
  else if s.getLast? = some '_' then
    some ("The input string ends with an underscore ('_') instead of a number. " ++
      "The use of underscores is explicitely for separation of digits.").toList
  else none

/-- The annotation of a failing call on numbers. -/
def Instr.note (i : Instr) (b : ABank) : Option (List Char) :=
  match i with
  | .un o x | .intoUn o x => b[x]?.bind o.note
  | .strictAssign x y =>
    match b[x]?, b[y]? with
    | some a, some c => some ("Occured while trying to `strict_assign` ".toList ++ a.text ++
        " to ".toList ++ c.text ++ ".".toList)
    | _, _ => none
  | .ask2 q x y =>
    match b[x]?, b[y]? with
    | some a, some c => q.note a c
    | _, _ => none
  | .make (.parse _ s) => parseNote s
  | _ => none

end Verif
