import Verif.Model.Relational
import Verif.Model.UInt
import Verif.Model.SInt
import Verif.Model.Errors
import Verif.SpecHashing

/-!
# Hashing, and hash tables with integers as keys

What `Hash` feeds to a `Hasher`, call by call, and the simplest hash table a program could make of
`Hash` and `Eq`.  The table is not code of the crate; it stands for the hash tables of its users.
-/

namespace Verif

/-- One call of a method of `Hasher` (`write_usize`, `write_u64`, `write_u8`, `write_u32` of a
`char`, `write_str`, `write_isize` of the discriminant of an enum). Called by the implementations
cited below; the first is `/repo/src/apint/utils.rs:29-34`. -/
inductive Feed where
  | usize (n : Nat)
  | u64 (d : Digit)
  | u8 (n : Nat)
  | char (c : Char)
  | str (s : Text)
  | discr (n : Nat)
  deriving DecidableEq

/-- `Hash for BitWidth` (derived, of a `NonZeroUsize`), `/repo/src/bitwidth.rs:20-21`. -/
def BitWidth.feed (self : BitWidth) : List Feed := [.usize self.toUsize]

/-- `Hash for ApInt`, `/repo/src/apint/utils.rs:29-34`.  A slice feeds its length first, then every
digit (`/repo/src/digit.rs:48`, derived). -/
def ApInt.feed (self : ApInt) : Run (List Feed) := do
  let (w, ds) ← self.hashInput
  pure (.usize w :: .usize ds.length :: ds.map .u64)

/-- `Hash for UInt` (derived), `/repo/src/uint.rs:25-28`. -/
def UInt.feed (self : UInt) : Run (List Feed) := self.value.feed

/-- `Hash for Int` (derived), `/repo/src/int.rs:25-28`. -/
def SInt.feed (self : SInt) : Run (List Feed) := self.value.feed

/-- `PartialEq for UInt` (derived), `/repo/src/uint.rs:25-28`. -/
def UInt.eq (self other : UInt) : Run Bool := self.value.eq other.value

/-- `PartialEq for Int` (derived), `/repo/src/int.rs:25-28`. -/
def SInt.eq (self other : SInt) : Run Bool := self.value.eq other.value

/-- `Hash for DivOp` (derived), `/repo/src/errors.rs:100-118`. -/
def DivOp.feed : DivOp → Feed
  | .unsignedDivRem => .discr 0
  | .unsignedRemDiv => .discr 1
  | .signedDivRem => .discr 2
  | .signedRemDiv => .discr 3
  | .unsignedDiv => .discr 4
  | .unsignedRem => .discr 5
  | .signedDiv => .discr 6
  | .signedRem => .discr 7

/-- `Hash for PrimitiveTy` (derived), `/repo/src/apint/to_primitive.rs:7-31`. -/
def PrimitiveTy.feed : PrimitiveTy → Feed
  | .bool => .discr 0
  | .i8 => .discr 1
  | .u8 => .discr 2
  | .i16 => .discr 3
  | .u16 => .discr 4
  | .i32 => .discr 5
  | .u32 => .discr 6
  | .i64 => .discr 7
  | .u64 => .discr 8
  | .i128 => .discr 9
  | .u128 => .discr 10

/-- `Hash for Option<(usize, char)>`. A field, `/repo/src/errors.rs:32`. -/
def feedPosChar : Option (Nat × Char) → List Feed
  | none => [.discr 0]
  | some (i, c) => [.discr 1, .usize i, .char c]

/-- `Hash for ErrorKind` (derived), `/repo/src/errors.rs:16-97`: the number of the variant, then the
fields in their order.  `Radix`, `BitPos` and `ShiftAmount` feed their number. -/
def Err.feed : Err → Run (List Feed)
  | .invalidRadix r => pure [.discr 0, .u8 r]
  | .invalidStringRepr s r p => pure (.discr 1 :: .str s :: .u8 r.toU8 :: feedPosChar p)
  | .invalidBitAccess p w => pure (.discr 2 :: .usize p :: w.feed)
  | .invalidShiftAmount s w => pure (.discr 3 :: .usize s :: w.feed)
  | .valueUnrepresentable v ty => do pure (.discr 4 :: (← v.feed) ++ [ty.feed])
  | .unmatchingBitwidth l r => pure (.discr 5 :: l.feed ++ r.feed)
  | .invalidBitWidth w => pure [.discr 6, .usize w]
  | .truncationBitWidthTooLarge t c => pure (.discr 7 :: t.feed ++ c.feed)
  | .extensionBitWidthTooSmall t c => pure (.discr 8 :: t.feed ++ c.feed)
  | .divisionByZero op v => do pure (.discr 9 :: op.feed :: (← v.feed))
  | .expectedNonEmptyDigits => pure [.discr 10]

/-- `PartialEq for ErrorKind` (derived), `/repo/src/errors.rs:16-97`: the fields of two errors of the
same variant are compared in order, integers with `==` of `ApInt`. -/
def Err.eq : Err → Err → Run Bool
  | .valueUnrepresentable v ty, .valueUnrepresentable v' ty' => do
      if ← v.eq v' then pure (decide (ty = ty')) else pure false
  | .divisionByZero op v, .divisionByZero op' v' =>
      if op = op' then v.eq v' else pure false
  | a, b => pure (decide (a = b))

/-- `Hash for Error` (derived), `/repo/src/errors.rs:125-130`. -/
def Error.feed (self : Error) : Run (List Feed) := do
  let k ← self.kind.feed
  match self.annotation with
  | none => pure (k ++ [.str self.message, .discr 0])
  | some a => pure (k ++ [.str self.message, .discr 1, .str a])

/-- `PartialEq for Error` (derived), `/repo/src/errors.rs:125-130`. -/
def Error.eq (self other : Error) : Run Bool := do
  if ← self.kind.eq other.kind then
    pure (decide (self.message = other.message) && decide (self.annotation = other.annotation))
  else pure false

/-! ## Hash tables -/

/-- `Eq` and `Hash` of a type. Implemented at `/repo/src/apint/relational.rs:12-21`,
`/repo/src/apint/utils.rs:29-34`. -/
structure KeyType (K : Type) where
  eq : K → K → Run Bool
  feed : K → Run (List Feed)

/-- The key types of the crate. `/repo/src/apint/relational.rs:12-21`,
`/repo/src/apint/utils.rs:29-34`. -/
def KeyType.apint : KeyType ApInt := ⟨ApInt.eq, ApInt.feed⟩
/-- `UInt` as a key, `/repo/src/uint.rs:25-28`. -/
def KeyType.uint : KeyType UInt := ⟨UInt.eq, UInt.feed⟩
/-- `Int` as a key, `/repo/src/int.rs:25-28`. -/
def KeyType.sint : KeyType SInt := ⟨SInt.eq, SInt.feed⟩
/-- `Error` as a key, `/repo/src/errors.rs:125-130`. -/
def KeyType.error : KeyType Error := ⟨Error.eq, Error.feed⟩

/-- The rows of a table; an entry belongs in the row that its hash says. Client code, not in
`/repo`. -/
abbrev Table (K V : Type) := List (List (K × V))

namespace Table

variable {K V : Type} (T : KeyType K) (h : List Feed → Nat)

/-- Search a row. Client code, not in `/repo`. -/
def look (k : K) : List (K × V) → Run (Option V)
  | [] => pure none
  | (k', v) :: r => do if ← T.eq k' k then pure (some v) else look k r

/-- Search a row and replace the value found. Client code, not in `/repo`. -/
def replace (k : K) (v : V) : List (K × V) → Run (Option (V × List (K × V)))
  | [] => pure none
  | (k', v') :: r => do
    if ← T.eq k' k then pure (some (v', (k', v) :: r))
    else
      match ← replace k v r with
      | none => pure none
      | some (old, r) => pure (some (old, (k', v') :: r))

/-- Search a row and remove the entry found. Client code, not in `/repo`. -/
def erase (k : K) : List (K × V) → Run (Option (V × List (K × V)))
  | [] => pure none
  | (k', v') :: r => do
    if ← T.eq k' k then pure (some (v', r))
    else
      match ← erase k r with
      | none => pure none
      | some (old, r) => pure (some (old, (k', v') :: r))

/-- The row of a key. Client code, not in `/repo`. -/
def row (t : Table K V) (k : K) : Run (Nat × List (K × V)) := do
  let f ← T.feed k
  match t[h f % t.length]? with
  | some r => pure (h f % t.length, r)
  | none => .error .panic

/-- Put an entry into its row without looking for its key. Client code, not in `/repo`. -/
def place (t : Table K V) (e : K × V) : Run (Table K V) := do
  let (i, r) ← row T h t e.1
  pure (t.set i (r ++ [e]))

/-- One operation. Client code, not in `/repo`. -/
def step (t : Table K V) : MapOp K V → Run (MapOut V × Table K V)
  | .insert k v => do
    let (i, r) ← row T h t k
    match ← replace T k v r with
    | some (old, r) => pure (.value (some old), t.set i r)
    | none => pure (.value none, t.set i (r ++ [(k, v)]))
  | .remove k => do
    let (i, r) ← row T h t k
    match ← erase T k r with
    | some (old, r) => pure (.value (some old), t.set i r)
    | none => pure (.value none, t)
  | .get k => do
    let (_, r) ← row T h t k
    pure (.value (← look T k r), t)
  | .count => pure (.number t.flatten.length, t)
  | .resize n => do pure (.unit, ← t.flatten.foldlM (place T h) (List.replicate (n + 1) []))

/-- The answers of a program. Client code, not in `/repo`. -/
def run : List (MapOp K V) → Table K V → Run (List (MapOut V))
  | [], _ => pure []
  | o :: os, t => do
    let (x, t) ← step T h t o
    pure (x :: (← run os t))

end Table

end Verif
