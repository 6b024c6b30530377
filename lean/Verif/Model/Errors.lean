import Verif.Model.Program

/-!
# Texts: `Debug` of integers, messages and annotations of errors

`/repo/src/errors.rs` and the places that report errors.  Texts are lists of characters.  The
standard library is assumed to print numbers in decimal, a tuple struct as `Name(..)`, a struct as
`Name { field: .., field: .. }`, a slice as `[.., ..]`; `{:#?}` is left out.  How it quotes a
character or a string for `{:?}` is a parameter.
-/

namespace Verif

/-- Texts of errors, `/repo/src/errors.rs:125-130` (`String`, a list of characters here). -/
abbrev Text := List Char

/-- How the standard library prints characters and strings with `{:?}`. Used in
`/repo/src/errors.rs:155-385`. -/
structure Quoting where
  char : Char → Text
  text : Text → Text

/-- `{:?}` of an unsigned number. Used in `/repo/src/errors.rs:155-385`. -/
def decimal (n : Nat) : Text := Nat.toDigits 10 n

/-- The derived `Debug` of a struct with one unnamed field. For the newtypes of
`/repo/src/bitwidth.rs:20-21`, `/repo/src/bitpos.rs:8-9`, `/repo/src/apint/shift.rs:16-17`. -/
def tupleText (name : String) (n : Nat) : Text :=
  name.toList ++ "(".toList ++ decimal n ++ ")".toList

/-- `Debug for BitWidth` (derived), `/repo/src/bitwidth.rs:20-21`. -/
def BitWidth.debug (self : BitWidth) : Text := tupleText "BitWidth" self.toUsize

/-- `Debug for Radix` (derived), `/repo/src/radix.rs:21-22`. -/
def Radix.debug (self : Radix) : Text := tupleText "Radix" self.toU8

/-- `Debug for Digit` (derived), `/repo/src/digit.rs:48-49`. -/
def digitText (d : Digit) : Text := tupleText "Digit" d.toNat

/-- `Debug` of a slice of digits (standard library). Used in `/repo/src/apint/utils.rs:20-27`. -/
def digitsText : List Digit → Text
  | [] => "[]".toList
  | d :: ds => "[".toList ++ digitText d ++ (ds.flatMap fun d => ", ".toList ++ digitText d) ++
      "]".toList

/-- `Debug for ApInt`, `/repo/src/apint/utils.rs:20-27`; `width` is at lines 83-89. -/
def ApInt.debug (self : ApInt) : Run Text := do
  let len ← expect (BitWidth.new self.lenBits)
  let digits ← self.asDigitSlice
  pure ("ApInt { len: ".toList ++ len.debug ++ ", digits: ".toList ++ digitsText digits ++
    " }".toList)

/-- `Debug for UInt` (derived), `/repo/src/uint.rs:25-28`. -/
def uintDebug (value : ApInt) : Run Text := do
  let v ← value.debug
  pure ("UInt { value: ".toList ++ v ++ " }".toList)

/-- `Debug for Int` (derived), `/repo/src/int.rs:25-28`. -/
def intDebug (value : ApInt) : Run Text := do
  let v ← value.debug
  pure ("Int { value: ".toList ++ v ++ " }".toList)

/-- `Debug for DivOp` (derived), `/repo/src/errors.rs:100-118`. -/
def DivOp.debug : DivOp → Text
  | .unsignedDivRem => "UnsignedDivRem".toList
  | .unsignedRemDiv => "UnsignedRemDiv".toList
  | .signedDivRem => "SignedDivRem".toList
  | .signedRemDiv => "SignedRemDiv".toList
  | .unsignedDiv => "UnsignedDiv".toList
  | .unsignedRem => "UnsignedRem".toList
  | .signedDiv => "SignedDiv".toList
  | .signedRem => "SignedRem".toList

/-- `Debug for PrimitiveTy` (derived), `/repo/src/apint/to_primitive.rs:7-31`. -/
def PrimitiveTy.debug : PrimitiveTy → Text
  | .bool => "Bool".toList
  | .i8 => "I8".toList
  | .u8 => "U8".toList
  | .i16 => "I16".toList
  | .u16 => "U16".toList
  | .i32 => "I32".toList
  | .u32 => "U32".toList
  | .i64 => "I64".toList
  | .u64 => "U64".toList
  | .i128 => "I128".toList
  | .u128 => "U128".toList

/-- `struct Error`, `/repo/src/errors.rs:125-130`. -/
structure Error where
  kind : Err
  message : Text
  annotation : Option Text
  deriving DecidableEq

namespace Error

/-- `with_annotation`, `/repo/src/errors.rs:159-166`. -/
def withAnnotation (self : Error) (annotation : Text) : Error :=
  { self with annotation := some annotation }

/-- `invalid_radix`, `/repo/src/errors.rs:173-182`. -/
def invalidRadix (val : Nat) : Error where
  kind := .invalidRadix val
  message := "Encountered an invalid parsing radix of ".toList ++ decimal val ++ ".".toList
  annotation := none

/-- `invalid_string_repr`, `/repo/src/errors.rs:184-202`. -/
def invalidStringRepr (input : Text) (radix : Radix) : Error where
  kind := .invalidStringRepr input radix none
  message := "Encountered an invalid string representation for the given radix (= ".toList ++
    radix.debug ++ ").".toList
  annotation := none

/-- `invalid_char_in_string_repr`, `/repo/src/errors.rs:204-227`. -/
def invalidCharInStringRepr (q : Quoting) (input : Text) (radix : Radix) (pos : Nat) (ch : Char) :
    Error where
  kind := .invalidStringRepr input radix none
  message := "Encountered an invalid character (= '".toList ++ q.char ch ++
    "') at position ".toList ++ decimal pos ++
    " within the given string representation for the given radix (= ".toList ++ radix.debug ++
    ").".toList
  annotation := none

/-- `invalid_bitwidth`, `/repo/src/errors.rs:229-235`. -/
def invalidBitwidth (val : Nat) : Error where
  kind := .invalidBitWidth val
  message := "Encountered invalid bitwidth of ".toList ++ decimal val ++ ".".toList
  annotation := none

/-- `invalid_zero_bitwidth`, `/repo/src/errors.rs:237-239`. -/
def invalidZeroBitwidth : Error := invalidBitwidth 0

/-- `extension_bitwidth_too_small`, `/repo/src/errors.rs:241-260`. -/
def extensionBitwidthTooSmall (target current : BitWidth) : Error where
  kind := .extensionBitWidthTooSmall target current
  message := "Tried to extend an `ApInt` with a width of ".toList ++ current.debug ++
    " to a smaller target width of ".toList ++ target.debug
  annotation := none

/-- `truncation_bitwidth_too_large`, `/repo/src/errors.rs:262-281`. -/
def truncationBitwidthTooLarge (target current : BitWidth) : Error where
  kind := .truncationBitWidthTooLarge target current
  message := "Tried to truncate an `ApInt` with a width of ".toList ++ current.debug ++
    " to a larger target width of ".toList ++ target.debug
  annotation := none

/-- `unmatching_bitwidths`, `/repo/src/errors.rs:283-299`. -/
def unmatchingBitwidths (lhs rhs : BitWidth) : Error where
  kind := .unmatchingBitwidth lhs rhs
  message := "Encountered invalid operation on entities with non-matching bit-widths of ".toList ++
    lhs.debug ++ " and ".toList ++ rhs.debug ++ ".".toList
  annotation := none

/-- `invalid_shift_amount`, `/repo/src/errors.rs:301-319`; `ShiftAmount` is at
`/repo/src/apint/shift.rs:16-17`. -/
def invalidShiftAmount (shiftAmount : Nat) (width : BitWidth) : Error where
  kind := .invalidShiftAmount shiftAmount width
  message := "Encountered invalid shift amount of ".toList ++ tupleText "ShiftAmount" shiftAmount ++
    " on bit-width with ".toList ++ width.debug ++ " bits.".toList
  annotation := none

/-- `invalid_bit_access`, `/repo/src/errors.rs:321-337`; `BitPos` is at `/repo/src/bitpos.rs:8-9`. -/
def invalidBitAccess (pos : Nat) (width : BitWidth) : Error where
  kind := .invalidBitAccess pos width
  message := "Encountered invalid bit access at position ".toList ++ tupleText "BitPos" pos ++
    " with a total bit-width of ".toList ++ width.debug ++ ".".toList
  annotation := none

/-- `expected_non_empty_digits`, `/repo/src/errors.rs:339-348`. -/
def expectedNonEmptyDigits : Error where
  kind := .expectedNonEmptyDigits
  message := ("Encountered an empty iterator upon construction of an `ApInt` " ++
    "from a digit iterator.").toList
  annotation := none

/-- `encountered_unrepresentable_value`, `/repo/src/errors.rs:350-367`. -/
def encounteredUnrepresentableValue (value : ApInt) (destinationTy : PrimitiveTy) : Run Error := do
  let v ← value.debug
  pure {
    kind := .valueUnrepresentable value destinationTy
    message := "Encountered a value (".toList ++ v ++
      ") that is unrepresentable by the destination type ".toList ++ destinationTy.debug ++
      ".".toList
    annotation := none }

/-- `division_by_zero`, `/repo/src/errors.rs:369-380`. -/
def divisionByZero (op : DivOp) (lhs : ApInt) : Run Error := do
  let l ← lhs.debug
  pure {
    kind := .divisionByZero op lhs
    message := "Encountered a division-by-zero for operation (= ".toList ++ op.debug ++
      ") with the left hand-side value: (= ".toList ++ l ++ ")".toList
    annotation := none }

/-- The error for a kind, before annotations.  Every kind has one constructor, except for parse
errors, of which `invalidCharInStringRepr` is the other one. `/repo/src/errors.rs:155-385`. -/
def ofKind : Err → Run Error
  | .invalidRadix r => pure (invalidRadix r)
  | .invalidStringRepr input radix _ => pure (invalidStringRepr input radix)
  | .invalidBitAccess pos width => pure (invalidBitAccess pos width)
  | .invalidShiftAmount s width => pure (invalidShiftAmount s width)
  | .valueUnrepresentable v ty => encounteredUnrepresentableValue v ty
  | .unmatchingBitwidth l r => pure (unmatchingBitwidths l r)
  | .invalidBitWidth w => pure (invalidBitwidth w)
  | .truncationBitWidthTooLarge t c => pure (truncationBitwidthTooLarge t c)
  | .extensionBitWidthTooSmall t c => pure (extensionBitwidthTooSmall t c)
  | .divisionByZero op l => divisionByZero op l
  | .expectedNonEmptyDigits => pure expectedNonEmptyDigits

end Error

/-- The loop over the bytes, `/repo/src/apint/serialization.rs:169-187`: the error for the first
byte that is not valid.  `i` is the index of the next byte. -/
def ApInt.firstInvalid (q : Quoting) (input : Text) (radix : Radix) : Nat → List Nat → Option Error
  | _, [] => none
  | i, b :: rest =>
    match byteToDigit b with
    | none => firstInvalid q input radix (i + 1) rest
    | some d =>
      if !radix.isValidByte d then
        -- `char::from(b)`: the character with the number of the byte
        some (.invalidCharInStringRepr q input radix i (Char.ofNat b))
      else firstInvalid q input radix (i + 1) rest

/-- The errors of `from_str_radix`, `/repo/src/apint/serialization.rs:151-187`. -/
def ApInt.parseError (q : Quoting) (radix : Radix) (input : Text) : Option Error :=
  if input.isEmpty then
    some ((Error.invalidStringRepr input radix).withAnnotation
      "Cannot parse an empty string into an ApInt.".toList)
  else if input.head? = some '_' then
    some ((Error.invalidStringRepr input radix).withAnnotation
      ("The input string starts with an underscore ('_') instead of a number. " ++
        "The use of underscores is explicitely for separation of digits.").toList)
  else if input.getLast? = some '_' then
    some ((Error.invalidStringRepr input radix).withAnnotation
      ("The input string ends with an underscore ('_') instead of a number. " ++
        "The use of underscores is explicitely for separation of digits.").toList)
  else firstInvalid q input radix 0 (utf8Bytes input)

/-- What the eight comparisons put into the annotation before the operands; each of them replaces
an annotation made by a comparison it is defined by.  `/repo/src/apint/relational.rs:39-40`, `:73-74`,
`:95-96`, `:117-118`, `:158-159`, `:180-181`, `:202-203`, `:224-225`. -/
def Ask2.occured : Ask2 → Option String
  | .eq => none
  | .ult => some "unsigned less-than (slt) comparison with `lhs < rhs`"
  | .ule => some "unsigned less-than or equals (ule) comparison with `lhs <= rhs`"
  | .ugt => some "unsigned greater-than (ugt) comparison with `lhs > rhs`"
  | .uge => some "unsigned greater-than or equals (ule) comparison with `lhs >= rhs`"
  | .slt => some "signed less-than (slt) comparison with `lhs < rhs`"
  | .sle => some "signed less-than or equals (ule) comparison with `lhs <= rhs`"
  | .sgt => some "signed greater-than (ugt) comparison with `lhs > rhs`"
  | .sge => some "signed greater-than or equals (ule) comparison with `lhs >= rhs`"

/-- The annotation a failing call adds, `lhs` and `rhs` being its operands.
`truncate`: `/repo/src/apint/casting.rs:150-156` (the text has a line break in it),
`zero_extend`: `:253-257`, `sign_extend`: `:338-342`. -/
def Un.annotate (o : Un) (lhs : ApInt) (e : Error) : Error :=
  match o with
  | .truncate t => e.withAnnotation ("Cannot truncate `ApInt` with a width of ".toList ++
      decimal lhs.lenBits ++ "\n                         to an `ApInt` with a width of ".toList ++
      decimal t.toUsize ++
      " bits. Do you mean to extend the instance instead?".toList)
  | .zeroExtend t => e.withAnnotation ("Cannot zero-extend bit-width of ".toList ++
      tupleText "BitWidth" lhs.lenBits ++ " to ".toList ++ t.debug ++
      " bits. Do you mean to truncate the instance instead?".toList)
  | .signExtend t => e.withAnnotation ("Cannot sign-extend bit-width of ".toList ++
      tupleText "BitWidth" lhs.lenBits ++ " to ".toList ++ t.debug ++
      " bits. Do you mean to truncate the instance instead?".toList)
  | _ => e

/-- The error made where a call fails, `kind` being the error kind the call reports in
`Instr.exec`. `/repo/src/errors.rs:155-385`, at the calls. -/
def Instr.made (q : Quoting) (i : Instr) (kind : Err) : Run Error :=
  match i with
  | .make (.parse k s) =>
    match ApInt.parseError q ⟨2 ^ (k.val + 1)⟩ s with
    | some e => pure e
    | none => Error.ofKind kind
  | _ => Error.ofKind kind

/-- The annotation added on the way out; `b` is the bank (a failing call leaves the integers as
they were).  `strict_assign`: `/repo/src/apint/casting.rs:93-97`. -/
def Instr.annotate (i : Instr) (b : Bank) (e : Error) : Run Error :=
  match i with
  | .un o x | .intoUn o x =>
    match b[x]? with
    | some a => pure (o.annotate a e)
    | none => pure e
  | .strictAssign x y =>
    match b[x]?, b[y]? with
    | some a, some c => do
      let l ← a.debug
      let r ← c.debug
      pure (e.withAnnotation ("Occured while trying to `strict_assign` ".toList ++ l ++
        " to ".toList ++ r ++ ".".toList))
    | _, _ => pure e
  | .ask2 o x y =>
    match o.occured, b[x]?, b[y]? with
    | some s, some a, some c => do
      let l ← a.debug
      let r ← c.debug
      pure (e.withAnnotation ("Error occured on ".toList ++ s.toList ++ " where \n\tlhs = ".toList ++
        l ++ "\n\trhs = ".toList ++ r))
    | _, _, _ => pure e
  | _ => pure e

/-- The error a failing call gives back, with all its texts. `/repo/src/errors.rs:125-385`. -/
def Instr.errorOf (q : Quoting) (i : Instr) (b : Bank) (kind : Err) : Run Error := do
  let e ← i.made q kind
  i.annotate b e

/-- A call with the whole error. `/repo/src/errors.rs:125-385` around `Instr.exec`. -/
def Instr.execE (q : Quoting) (i : Instr) (b : Bank) : Run (Except Error Out × Bank) := do
  match ← i.exec b with
  | (.ok o, b') => pure (.ok o, b')
  | (.error kind, b') => do
    let e ← i.errorOf q b kind
    pure (.error e, b')

/-- `Debug for ErrorKind` (derived), `/repo/src/errors.rs:16-97`. -/
def Err.debug (q : Quoting) : Err → Run Text
  | .invalidRadix r => pure (tupleText "InvalidRadix" r)
  | .invalidStringRepr input radix posChar =>
    pure ("InvalidStringRepr { input: ".toList ++ q.text input ++ ", radix: ".toList ++
      radix.debug ++ ", pos_char: ".toList ++
      (match posChar with
        | none => "None".toList
        | some (i, c) => "Some((".toList ++ decimal i ++ ", ".toList ++ q.char c ++ "))".toList) ++
      " }".toList)
  | .invalidBitAccess pos width =>
    pure ("InvalidBitAccess { pos: ".toList ++ tupleText "BitPos" pos ++ ", width: ".toList ++
      width.debug ++ " }".toList)
  | .invalidShiftAmount s width =>
    pure ("InvalidShiftAmount { shift_amount: ".toList ++ tupleText "ShiftAmount" s ++
      ", width: ".toList ++ width.debug ++ " }".toList)
  | .valueUnrepresentable v ty => do
    let v ← v.debug
    pure ("ValueUnrepresentable { value: ".toList ++ v ++ ", destination_ty: ".toList ++ ty.debug ++
      " }".toList)
  | .unmatchingBitwidth l r =>
    pure ("UnmatchingBitwidth(".toList ++ l.debug ++ ", ".toList ++ r.debug ++ ")".toList)
  | .invalidBitWidth w => pure (tupleText "InvalidBitWidth" w)
  | .truncationBitWidthTooLarge t c =>
    pure ("TruncationBitWidthTooLarge { target: ".toList ++ t.debug ++ ", current: ".toList ++
      c.debug ++ " }".toList)
  | .extensionBitWidthTooSmall t c =>
    pure ("ExtensionBitWidthTooSmall { target: ".toList ++ t.debug ++ ", current: ".toList ++
      c.debug ++ " }".toList)
  | .divisionByZero op l => do
    let l ← l.debug
    pure ("DivisionByZero { op: ".toList ++ op.debug ++ ", lhs: ".toList ++ l ++ " }".toList)
  | .expectedNonEmptyDigits => pure "ExpectedNonEmptyDigits".toList

/-- `Debug for Error` (derived), `/repo/src/errors.rs:125-130`. -/
def Error.debug (q : Quoting) (self : Error) : Run Text := do
  let k ← self.kind.debug q
  pure ("Error { kind: ".toList ++ k ++ ", message: ".toList ++ q.text self.message ++
    ", annotation: ".toList ++
    (match self.annotation with
      | none => "None".toList
      | some a => "Some(".toList ++ q.text a ++ ")".toList) ++
    " }".toList)

/-- `Display for Error`, `/repo/src/errors.rs:395-399`: the same as `Debug`. -/
def Error.display (q : Quoting) (self : Error) : Run Text := self.debug q

end Verif
