import Verif.Model.Bitwise

/-!
# Serialization with `serde` (`/repo/src/apint/serde_impl.rs`)

A serializer is represented by the value of serde's data model that is handed to it; a
deserializer by the value it found in its input.  A deserializer that finds another kind of value
than the one asked for reports `invalidType` (the default of the `Visitor` trait and of every
self-describing format).  Elements behind those a visitor asks for are not looked at; formats that
reject such trailing elements do so outside of the modelled code.
-/

namespace Verif

/-- The part of serde's data model that is used. `/repo/src/apint/serde_impl.rs:5-55`. -/
inductive SVal where
  | u64 (v : BitVec 64)
  | seq (xs : List SVal)
  | tuple (xs : List SVal)
  | tupleStruct (name : String) (xs : List SVal)
  | struct (name : String) (fields : List (String × SVal))

/-- The errors that the deserialization code reports through `de::Error`.
`/repo/src/apint/serde_impl.rs:58-300`. -/
inductive DeErr where
  | invalidType
  | invalidValue
  | invalidLength (n : Nat)
  | unknownField (name : String)
  | duplicateField (name : String)
  | missingField (name : String)
  deriving DecidableEq

/-- The result of a deserialization. `/repo/src/apint/serde_impl.rs:58-300`. -/
abbrev DeRes (α : Type) := Except DeErr α

namespace Serde

/-! ## Serialization -/

/-- `Serialize for Digit`, `/repo/src/apint/serde_impl.rs:5-12`. -/
def serDigit (d : Digit) : SVal := .u64 d

/-- `Serialize for BitWidth`, `/repo/src/apint/serde_impl.rs:14-27`. -/
def serBitWidth (human : Bool) (w : BitWidth) : SVal :=
  if human then .tupleStruct "BitWidth" [.u64 (BitVec.ofNat 64 w.toUsize)]
  else .u64 (BitVec.ofNat 64 w.toUsize)

/-- `Serialize for ApInt`, `/repo/src/apint/serde_impl.rs:29-48`. -/
def serialize (human : Bool) (a : ApInt) : Run SVal := do
  let ds ← a.asDigitSlice
  let width := serBitWidth human a.len
  let digits := SVal.seq (ds.map serDigit)
  if human then .ok (.struct "ApInt" [("width", width), ("digits", digits)])
  else .ok (.tuple [width, digits])

/-! ## Deserialization -/

/-- `deserialize_u64` with a visitor that only accepts `visit_u64`.
`/repo/src/apint/serde_impl.rs:58-148`. -/
def deU64 : SVal → DeRes (BitVec 64)
  | .u64 v => .ok v
  | _ => .error .invalidType

/-- The elements a sequence-like value offers to `visit_seq` (`deserialize_tuple_struct`,
`deserialize_tuple`, `Vec::deserialize`). `/repo/src/apint/serde_impl.rs:255-290`. -/
def deSeq : SVal → DeRes (List SVal)
  | .seq xs => .ok xs
  | .tuple xs => .ok xs
  | .tupleStruct _ xs => .ok xs
  | _ => .error .invalidType

/-- `try_new_bitwidth`, `/repo/src/apint/serde_impl.rs:65-75`. -/
def tryNewBitwidth (v : BitVec 64) : DeRes BitWidth :=
  match BitWidth.new v.toNat with
  | .ok w => .ok w
  | .error _ => .error .invalidValue

/-- `Deserialize for BitWidth`, `/repo/src/apint/serde_impl.rs:58-122`. -/
def deBitWidth (human : Bool) (v : SVal) : DeRes BitWidth :=
  if human then
    match deSeq v with
    | .error e => .error e
    | .ok [] => .error (.invalidLength 0)
    | .ok (x :: _) =>
      match deU64 x with
      | .error e => .error e
      | .ok n => tryNewBitwidth n
  else
    match deU64 v with
    | .error e => .error e
    | .ok n => tryNewBitwidth n

/-- `Deserialize for Digit`, `/repo/src/apint/serde_impl.rs:124-148`. -/
def deDigit (v : SVal) : DeRes Digit := deU64 v

/-- `Vec<Digit>::deserialize`: the digits in order, or the first error.
`/repo/src/apint/serde_impl.rs:208-270`. -/
def deDigitList : List SVal → DeRes (List Digit)
  | [] => .ok []
  | x :: xs =>
    match deDigit x with
    | .error e => .error e
    | .ok d =>
      match deDigitList xs with
      | .error e => .error e
      | .ok ds => .ok (d :: ds)

/-- `Vec<Digit>::deserialize`. `/repo/src/apint/serde_impl.rs:208-270`. -/
def deDigits (v : SVal) : DeRes (List Digit) :=
  match deSeq v with
  | .error e => .error e
  | .ok xs => deDigitList xs

/-- The common end of both visitors, `/repo/src/apint/serde_impl.rs:229-248,270-288`. -/
def deFinish (width : BitWidth) (digits : List Digit) : Run (DeRes ApInt) :=
  if width.requiredDigits ≠ digits.length then .ok (.error .invalidValue)
  else do
    let r ← ApInt.fromIter digits
    let a ← expect r
    let r ← a.intoTruncate width
    let a ← expect r
    .ok (.ok a)

/-- The loop over the entries of the map in `visit_map`,
`/repo/src/apint/serde_impl.rs:207-223` (field names: lines 172-184). -/
def deFields : List (String × SVal) → Option BitWidth → Option (List Digit) →
    DeRes (Option BitWidth × Option (List Digit))
  | [], width, digits => .ok (width, digits)
  | (key, v) :: rest, width, digits =>
    if key = "width" then
      if width.isSome then .error (.duplicateField "width")
      else
        match deBitWidth true v with
        | .error e => .error e
        | .ok w => deFields rest (some w) digits
    else if key = "digits" then
      if digits.isSome then .error (.duplicateField "digits")
      else
        match deDigits v with
        | .error e => .error e
        | .ok ds => deFields rest width (some ds)
    else .error (.unknownField key)

/-- `HumanReadableApIntVisitor::visit_map`, `/repo/src/apint/serde_impl.rs:203-249`. -/
def visitMap (fields : List (String × SVal)) : Run (DeRes ApInt) :=
  match deFields fields none none with
  | .error e => .ok (.error e)
  | .ok (none, _) => .ok (.error (.missingField "width"))
  | .ok (some _, none) => .ok (.error (.missingField "digits"))
  | .ok (some width, some digits) => deFinish width digits

/-- `CompactApIntVisitor::visit_seq`, `/repo/src/apint/serde_impl.rs:261-289`.  The width is read
with `unwrap`, so an empty sequence panics. -/
def visitSeq (xs : List SVal) : Run (DeRes ApInt) :=
  match xs with
  | [] => .error .panic
  | w :: rest =>
    match deBitWidth false w with
    | .error e => .ok (.error e)
    | .ok width =>
      match rest with
      | [] => .ok (.error (.invalidLength 1))
      | ds :: _ =>
        match deDigits ds with
        | .error e => .ok (.error e)
        | .ok digits => deFinish width digits

/-- `Deserialize for ApInt`, `/repo/src/apint/serde_impl.rs:150-302`.  The readable visitor has no
`visit_seq`, so only maps and structs are accepted there. -/
def deserialize (human : Bool) (v : SVal) : Run (DeRes ApInt) :=
  if human then
    match v with
    | .struct _ fields => visitMap fields
    | _ => .ok (.error .invalidType)
  else
    match deSeq v with
    | .error e => .ok (.error e)
    | .ok xs => visitSeq xs

end Serde

end Verif
