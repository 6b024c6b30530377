import Verif.Model.Trace
import Verif.Model.TracePrim
import Verif.Model.TraceMul
import Verif.Model.TraceText

/-!
# What an observer sees of the questions

`Model/Trace.lean` goes on: equality, the comparisons, the counts of leading and trailing zeros,
`is_one` and `is_all_set` with a trace, and programs in which they and the other calls that show
something are mixed with those that show nothing.
-/

namespace Verif

/-- The other operand.  For `rhs.checked_ult(self)`, `/repo/src/apint/relational.rs:71`. -/
def Side.swap : Side → Side
  | .self => .rhs
  | .rhs => .self
  | .fresh => .fresh

/-- The same seen from the caller that has swapped the operands.  For `rhs.checked_ult(self)`,
`/repo/src/apint/relational.rs:71`. -/
def Sight.swap : Sight → Sight
  | .read o i => .read o.swap i
  | .write o i => .write o.swap i
  | .test b => .test b
  | .alloc n => .alloc n

/-- A call with `self` and `rhs` swapped.  For `rhs.checked_ult(self)`,
`/repo/src/apint/relational.rs:71`. -/
def Watched.swapped {α : Type} (c : Watched α) : Watched α :=
  match c with
  | Except.error e => Except.error e
  | Except.ok (a, s) => Except.ok (a, s.map Sight.swap)

namespace Trace

open ApInt Watched

/-- The comparison of two slices of the same length, `/repo/src/apint/relational.rs:17`: from the
first (least significant) digit on, up to the first pair that differs.  `Digit` has a derived
`PartialEq`, for which the standard library compares slices element by element. -/
def eqLoop : Nat → List (Digit × Digit) → Watched Bool
  | _, [] => .ok true
  | i, (l, r) :: rest => do
    let () ← note [.read .self i, .read .rhs i, .test (l == r)]
    if l == r then eqLoop (i + 1) rest else .ok false

/-- `eq`, `/repo/src/apint/relational.rs:13-18`.  Slices of different lengths are not equal. -/
def eq (self other : ApInt) : Watched Bool :=
  if self.lenBits ≠ other.lenBits then .ok false
  else do
    let l ← self.asDigitSlice
    let r ← other.asDigitSlice
    if l.length ≠ r.length then .ok false else eqLoop 0 (l.zip r)

/-- `checked_ule`, `/repo/src/apint/relational.rs:70-78`. -/
def checkedUle (self rhs : ApInt) : Watched (Res Bool) := do
  let r ← swapped (checkedUlt rhs self)
  pure (mapNot r)

/-- `checked_ugt`, `/repo/src/apint/relational.rs:92-100`. -/
def checkedUgt (self rhs : ApInt) : Watched (Res Bool) := swapped (checkedUlt rhs self)

/-- `checked_uge`, `/repo/src/apint/relational.rs:114-122`. -/
def checkedUge (self rhs : ApInt) : Watched (Res Bool) := do
  let r ← checkedUlt self rhs
  pure (mapNot r)

/-- The `match` on the signs in `checked_slt`, `/repo/src/apint/relational.rs:147-152`. -/
def sltSigns (self rhs : ApInt) (lm rm : Bool) : Watched (Res Bool) :=
  match lm, rm with
  | false, false => checkedUlt self rhs
  | false, true => .ok (.ok false)
  | true, false => .ok (.ok true)
  | true, true => swapped (checkedUgt rhs self)

/-- `checked_slt`, `/repo/src/apint/relational.rs:135-163`. -/
def checkedSlt (self rhs : ApInt) : Watched (Res Bool) := do
  match ← self.zipAccessData rhs with
  | .error e => .ok (.error e)
  | .ok (.inl l r) => do
    let () ← note [.read .self 0, .read .rhs 0]
    let infateAbs ← csub 64 self.width.toUsize
    let l ← rawShl l infateAbs
    let r ← rawShl r infateAbs
    .ok (.ok (l.toInt < r.toInt))
  | .ok (.ext _ _) => do
    let lm ← show' [.read .self (top self)] self.msb
    let rm ← show' [.read .rhs (top rhs)] rhs.msb
    let () ← note [.test lm, .test rm]
    sltSigns self rhs lm rm

/-- `checked_sle`, `/repo/src/apint/relational.rs:177-185`. -/
def checkedSle (self rhs : ApInt) : Watched (Res Bool) := do
  let r ← swapped (checkedSlt rhs self)
  pure (mapNot r)

/-- `checked_sgt`, `/repo/src/apint/relational.rs:199-207`. -/
def checkedSgt (self rhs : ApInt) : Watched (Res Bool) := swapped (checkedSlt rhs self)

/-- `checked_sge`, `/repo/src/apint/relational.rs:221-229`. -/
def checkedSge (self rhs : ApInt) : Watched (Res Bool) := do
  let r ← checkedSlt self rhs
  pure (mapNot r)

/-- The loop of `leading_zeros`, `/repo/src/apint/bitwise.rs:273-280`, from the most significant digit
down. -/
def leadingLoop : List Digit → Nat → Watched Nat
  | [], zeros => .ok zeros
  | d :: rest, zeros => do
    let () ← note [.read .self rest.length, .test (leadingZeros64 d == 64)]
    if leadingZeros64 d ≠ 64 then .ok (zeros + leadingZeros64 d)
    else leadingLoop rest (zeros + leadingZeros64 d)

/-- `leading_zeros`, `/repo/src/apint/bitwise.rs:272-283`. -/
def leadingZeros (self : ApInt) : Watched Nat := do
  let ds ← self.asDigitSlice
  let zeros ← leadingLoop ds.reverse 0
  let unused ← self.unusedBits
  csub zeros unused

/-- The loop of `trailing_zeros`, `/repo/src/apint/bitwise.rs:288-295`. -/
def trailingLoop : Nat → List Digit → Nat → Watched Nat
  | _, [], zeros => .ok zeros
  | i, d :: rest, zeros => do
    let () ← note [.read .self i, .test (trailingZeros64 d == 64)]
    if trailingZeros64 d ≠ 64 then .ok (zeros + trailingZeros64 d)
    else trailingLoop (i + 1) rest (zeros + trailingZeros64 d)

/-- `trailing_zeros`, `/repo/src/apint/bitwise.rs:287-301`.  The last test is on the sum. -/
def trailingZeros (self : ApInt) : Watched Nat := do
  let ds ← self.asDigitSlice
  let zeros ← trailingLoop 0 ds 0
  let () ← note [.test (zeros ≥ self.width.toUsize)]
  if zeros ≥ self.width.toUsize then do
    let unused ← self.unusedBits
    csub zeros unused
  else pure zeros

/-- `is_one`, `/repo/src/apint/utils.rs:402-412`. -/
def isOne (self : ApInt) : Watched Bool := do
  match ← self.accessData with
  | .inl digit => do
    let () ← note [.read .self 0]
    .ok (digit == Digit.ONE)
  | .ext digits =>
    match digits.getLast? with
    | none => (Except.error .panic : Run Bool)
    | some last => do
      let () ← note [.read .self (top self), .test (last == Digit.ONE)]
      if last == Digit.ONE then zeroLoop 0 digits.dropLast else .ok false

/-- The loop of `is_all_set`, `rest.iter().all(..)`, `/repo/src/apint/bitwise.rs:190`. -/
def onesLoop : Nat → List Digit → Watched Bool
  | _, [] => .ok true
  | i, d :: rest => do
    let () ← note [.read .self i, .test (d == Digit.ONES)]
    if d == Digit.ONES then onesLoop (i + 1) rest else .ok false

/-- `is_all_set`, `/repo/src/apint/bitwise.rs:183-191`. -/
def isAllSet (self : ApInt) : Watched Bool := do
  let (msb, rest) ← self.splitMostSignificantDigit
  match self.width.excessBits with
  | some excessBits => do
    let () ← note [.read .self (top self), .test (countOnes64 msb == excessBits)]
    if countOnes64 msb ≠ excessBits then .ok false else onesLoop 0 rest
  | none => onesLoop 0 rest

/-- `sign_resize`, `/repo/src/apint/casting.rs:472-490`. -/
def signResize (self : ApInt) (targetWidth : BitWidth) : Watched ApInt :=
  let actualWidth := self.width
  if targetWidth.toUsize ≤ actualWidth.toUsize then do
    let (r, self) ← truncate self targetWidth
    let () ← (expect r : Run Unit)
    pure self
  else do
    let (r, self) ← signExtend self targetWidth
    let () ← (expect r : Run Unit)
    pure self

/-! ## Programs -/

/-- Calls on one integer that show something of it.  Names of methods of
`/repo/src/apint/{arithmetic,shift,casting}.rs`. -/
inductive LUn where
  | neg | inc | dec | ashr (s : Nat) | signExtend (t : BitWidth) | signResize (t : BitWidth)

/-- Questions about one integer that show something of it.  Names of methods of
`/repo/src/apint/{utils,bitwise,to_primitive,serialization}.rs`. -/
inductive LAsk where
  | isZero | isAllUnset | leadingZeros | trailingZeros | resize (ty : PrimitiveTy) | tryTo (ty : PrimitiveTy)
  | binary | lowerHex | upperHex

/-- The calls of a program of which an observer sees more than the widths. Client code, not in
`/repo`. -/
inductive Loud where
  | quiet (q : Quiet)
  | un (o : LUn) (x : Nat)
  | intoUn (o : LUn) (x : Nat)
  | ask (q : LAsk) (x : Nat)
  | ask2 (q : Ask2) (x y : Nat)
  | mul (x y : Nat)
  | intoMul (x y : Nat)
  | opMulAssign (x y : Nat)
  | opMul (x y : Nat)

/-- The method that is meant. Client code, not in `/repo`. -/
def LUn.un : LUn → Un
  | .neg => .neg
  | .inc => .inc
  | .dec => .dec
  | .ashr s => .ashr s
  | .signExtend t => .signExtend t
  | .signResize t => .signResize t

/-- The question that is meant. Client code, not in `/repo`. -/
def LAsk.ask : LAsk → Ask
  | .isZero => .isZero
  | .isAllUnset => .isAllUnset
  | .leadingZeros => .leadingZeros
  | .trailingZeros => .trailingZeros
  | .resize ty => .resize ty
  | .tryTo ty => .tryTo ty
  | .binary => .binary
  | .lowerHex => .lowerHex
  | .upperHex => .upperHex

/-- The call that is meant. Client code, not in `/repo`. -/
def Loud.instr : Loud → Instr
  | .quiet q => q.instr
  | .un o x => .un o.un x
  | .intoUn o x => .intoUn o.un x
  | .ask q x => .ask q.ask x
  | .ask2 q x y => .ask2 q x y
  | .mul x y => .bin .mul x y
  | .intoMul x y => .intoBin .mul x y
  | .opMulAssign x y => .opAssign .mul x y
  | .opMul x y => .op .mul x y

/-- In-place unary methods, `/repo/src/apint/{arithmetic,shift,casting}.rs`. -/
def LUn.exec : LUn → ApInt → Watched (Res Unit × ApInt)
  | .neg, x => done (Trace.wrappingNeg x)
  | .inc, x => done (Trace.wrappingInc x)
  | .dec, x => done (Trace.wrappingDec x)
  | .ashr s, x => wrappingAshrAssign x s
  | .signExtend t, x => Trace.signExtend x t
  | .signResize t, x => done (Trace.signResize x t)

/-- Queries, `/repo/src/apint/utils.rs:385-392`, `/repo/src/apint/bitwise.rs:199-301`,
`/repo/src/apint/to_primitive.rs:148-573`, `/repo/src/apint/serialization.rs:30-98`. -/
def LAsk.exec : LAsk → ApInt → Watched (Res Out)
  | .isZero, x => tell .bool (Trace.isZero x)
  | .isAllUnset, x => tell .bool (Trace.isZero x)
  | .leadingZeros, x => tell .nat (Trace.leadingZeros x)
  | .trailingZeros, x => tell .nat (Trace.trailingZeros x)
  | .resize ty, x => Trace.resizeTo x ty
  | .tryTo ty, x => Trace.tryTo x ty
  | .binary, x => tell .text (Trace.fmtBinary x)
  | .lowerHex, x => tell .text (Trace.fmtLowerHex x)
  | .upperHex, x => tell .text (Trace.fmtUpperHex x)

/-- Queries on two integers, `/repo/src/apint/relational.rs:13-229`. -/
def ask2 : Ask2 → ApInt → ApInt → Watched (Res Out)
  | .eq, x, y => tell .bool (Trace.eq x y)
  | .ult, x, y => tellRes .bool (Trace.checkedUlt x y)
  | .ule, x, y => tellRes .bool (Trace.checkedUle x y)
  | .ugt, x, y => tellRes .bool (Trace.checkedUgt x y)
  | .uge, x, y => tellRes .bool (Trace.checkedUge x y)
  | .slt, x, y => tellRes .bool (Trace.checkedSlt x y)
  | .sle, x, y => tellRes .bool (Trace.checkedSle x y)
  | .sgt, x, y => tellRes .bool (Trace.checkedSgt x y)
  | .sge, x, y => tellRes .bool (Trace.checkedSge x y)

/-- One call, seen from outside.  As `Instr.exec` of `Model/Program.lean`.  The calls are those cited
above; the rest is client code, not in `/repo`. -/
def Loud.exec (i : Loud) (b : Bank) : Watched (Res Out × Bank) :=
  let one (x : Nat) (k : ApInt → Watched (Res Out × Bank)) : Watched (Res Out × Bank) :=
    match b[x]? with
    | some a => k a
    | none => pure (.ok .unit, b)
  let two (x y : Nat) (k : ApInt → ApInt → Watched (Res Out × Bank)) : Watched (Res Out × Bank) :=
    match b[x]?, b[y]? with
    | some a, some c => k a c
    | _, _ => pure (.ok .unit, b)
  match i with
  | .quiet q => q.exec b
  | .un o x => one x fun a => Trace.storeRes b x (o.exec a)
  | .intoUn o x => one x fun a => Trace.pushRes b (do let a ← Trace.clone a; into (o.exec a))
  | .ask q x => one x fun a => do
      let r ← q.exec a
      pure (r, b)
  | .ask2 q x y => two x y fun a c => do
      let r ← Trace.ask2 q a c
      pure (r, b)
  | .mul x y => two x y fun a c => Trace.storeRes b x (Trace.wrappingMulAssign a c)
  | .intoMul x y => two x y fun a c =>
      Trace.pushRes b (do let a ← Trace.clone a; into (Trace.wrappingMulAssign a c))
  | .opMulAssign x y => two x y fun a c =>
      Trace.storeRes b x (Trace.done (Trace.unwrapMut (Trace.wrappingMulAssign a c)))
  | .opMul x y => two x y fun a c =>
      Trace.pushRes b
        (do let a ← Trace.clone a; Trace.fine (unwrap (into (Trace.wrappingMulAssign a c))))

/-- A program, seen from outside, as `Trace.run`. Client code, not in `/repo`. -/
def runLoud : List Loud → Bank → List (Res Out) × Run Bank × List Sight
  | [], b => ([], .ok b, [])
  | i :: is, b =>
    match i.exec b with
    | Except.ok ((r, b), s) =>
      let (rs, e, t) := runLoud is b
      (r :: rs, e, s ++ t)
    | Except.error f => ([], .error f, [])

end Trace

end Verif
