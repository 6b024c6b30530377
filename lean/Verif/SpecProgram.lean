import Verif.Instr
import Verif.Spec
import Verif.SpecText

/-!
# Programs over the API: what should happen

An abstract machine over fixed-width numbers.  It knows nothing of digits, storage or the
functions of the model; it shares with the model only the names of the calls, the numbers
`val`/`wrap` of `Spec.lean` and the meaning of text of `SpecText.lean`.
-/

namespace Verif

/-- A fixed-width number: a width and a number below `2 ^ width`. -/
structure AInt where
  width : Nat
  bits : Nat
  deriving DecidableEq

namespace AInt

/-- The integer `x` modulo `2 ^ w`. -/
def ofInt (w : Nat) (x : Int) : AInt := ⟨w, wrap w x⟩

/-- The two's complement reading. -/
def sint (x : AInt) : Int :=
  if x.bits < 2 ^ (x.width - 1) then (x.bits : Int) else (x.bits : Int) - 2 ^ x.width

end AInt

/-- The errors a call can report. -/
inductive AErr where
  | text (s : List Char) (radix : Nat)
  | bit (p width : Nat)
  | shift (s width : Nat)
  | unrepresentable (x : AInt) (ty : PrimitiveTy)
  | widths (l r : Nat)
  | tooWide (target current : Nat)
  | tooNarrow (target current : Nat)
  | divZero (op : DivOp) (lhs : AInt)
  | noDigits
  /-- errors no call of a program reports -/
  | other
  deriving DecidableEq

open AInt

instance (r : Nat) (s : List Char) : Decidable (Accepted r s) :=
  decidable_of_iff (s ≠ [] ∧ s.head? ≠ some '_' ∧ s.getLast? ≠ some '_' ∧
    ∀ c ∈ s, c = '_' ∨ (charVal c).any (fun d => decide (d < r)) = true) (by
      simp only [Accepted, Option.any_eq_true, decide_eq_true_eq])

/-- The smallest multiple of 64 that is at least `n`. -/
def roundUp (n : Nat) : Nat := 64 * ((n + 63) / 64)

def Make.spec : Make → Except AErr AInt
  | .zero t => .ok (ofInt t.toUsize 0)
  | .one t => .ok (ofInt t.toUsize 1)
  | .allUnset t => .ok (ofInt t.toUsize 0)
  | .allSet t => .ok (ofInt t.toUsize (-1))
  | .unsignedMin t => .ok (ofInt t.toUsize 0)
  | .unsignedMax t => .ok (ofInt t.toUsize (2 ^ t.toUsize - 1))
  | .signedMin t => .ok (ofInt t.toUsize (-2 ^ (t.toUsize - 1)))
  | .signedMax t => .ok (ofInt t.toUsize (2 ^ (t.toUsize - 1) - 1))
  | .bool b => .ok (ofInt 1 (if b then 1 else 0))
  | .u8 v => .ok (ofInt 8 v.toNat)
  | .i8 v => .ok (ofInt 8 v.toInt)
  | .u16 v => .ok (ofInt 16 v.toNat)
  | .i16 v => .ok (ofInt 16 v.toInt)
  | .u32 v => .ok (ofInt 32 v.toNat)
  | .i32 v => .ok (ofInt 32 v.toInt)
  | .u64 v => .ok (ofInt 64 v.toNat)
  | .i64 v => .ok (ofInt 64 v.toInt)
  | .u128 v => .ok (ofInt 128 v.toNat)
  | .i128 v => .ok (ofInt 128 v.toInt)
  | .array v vs => .ok ⟨64 * (vs.length + 1),
      (v :: vs).foldl (fun acc d => acc * 2 ^ 64 + d.toNat) 0⟩
  | .digits ds => if ds = [] then .error .noDigits else .ok ⟨64 * ds.length, val ds⟩
  | .parse k s =>
      if Accepted (2 ^ (k.val + 1)) s then
        .ok ⟨roundUp ((k.val + 1) * (textDigits s).length),
          numeral (2 ^ (k.val + 1)) (textDigits s)⟩
      else .error (.text s (2 ^ (k.val + 1)))
  | .random t rng => .ok (ofInt t.toUsize (val ((List.range ((t.toUsize + 63) / 64)).map rng)))

def Un.spec : Un → AInt → Except AErr AInt
  | .bitnot, x => .ok (ofInt x.width (-x.bits - 1))
  | .neg, x => .ok (ofInt x.width (-x.bits))
  | .inc, x => .ok (ofInt x.width (x.bits + 1))
  | .dec, x => .ok (ofInt x.width (x.bits - 1))
  | .shl s, x =>
      if s < x.width then .ok (ofInt x.width (x.bits * 2 ^ s)) else .error (.shift s x.width)
  | .lshr s, x =>
      if s < x.width then .ok (ofInt x.width (x.bits / 2 ^ s)) else .error (.shift s x.width)
  | .ashr s, x =>
      if s < x.width then .ok (ofInt x.width (x.sint / 2 ^ s)) else .error (.shift s x.width)
  | .truncate t, x =>
      if t.toUsize ≤ x.width then .ok (ofInt t.toUsize x.bits)
      else .error (.tooWide t.toUsize x.width)
  | .zeroExtend t, x =>
      if x.width ≤ t.toUsize then .ok (ofInt t.toUsize x.bits)
      else .error (.tooNarrow t.toUsize x.width)
  | .signExtend t, x =>
      if x.width ≤ t.toUsize then .ok (ofInt t.toUsize x.sint)
      else .error (.tooNarrow t.toUsize x.width)
  | .zeroResize t, x => .ok (ofInt t.toUsize x.bits)
  | .signResize t, x => .ok (ofInt t.toUsize x.sint)

/-- Replace the bit at `p` by `f` of it. -/
def AInt.mapBit (x : AInt) (p : Nat) (f : Bool → Bool) : AInt :=
  let old := x.bits.testBit p
  ⟨x.width, x.bits - (if old then 2 ^ p else 0) + (if f old then 2 ^ p else 0)⟩

def Alter.spec : Alter → AInt → Except AErr AInt
  | .setAll, x => .ok (ofInt x.width (-1))
  | .unsetAll, x => .ok (ofInt x.width 0)
  | .flipAll, x => .ok (ofInt x.width (-x.bits - 1))
  | .setMsb, x => .ok (x.mapBit (x.width - 1) fun _ => true)
  | .unsetMsb, x => .ok (x.mapBit (x.width - 1) fun _ => false)
  | .flipMsb, x => .ok (x.mapBit (x.width - 1) not)
  | .setBit p, x =>
      if p < x.width then .ok (x.mapBit p fun _ => true) else .error (.bit p x.width)
  | .unsetBit p, x =>
      if p < x.width then .ok (x.mapBit p fun _ => false) else .error (.bit p x.width)
  | .flipBit p, x => if p < x.width then .ok (x.mapBit p not) else .error (.bit p x.width)
  | .randomize rng, x =>
      .ok (ofInt x.width (val ((List.range ((x.width + 63) / 64)).map rng)))

/-- What a binary call does: `none` when it panics. -/
def Bin.spec (o : Bin) (x y : AInt) : Option (Except AErr AInt) :=
  let ring (v : Int) : Option (Except AErr AInt) :=
    some (if x.width = y.width then .ok (ofInt x.width v) else .error (.widths x.width y.width))
  let udiv (op : DivOp) (v : Int) : Option (Except AErr AInt) :=
    some (if x.width ≠ y.width then .error (.widths x.width y.width)
      else if y.bits = 0 then .error (.divZero op x) else .ok (ofInt x.width v))
  let sdiv (op : DivOp) (v : Int) : Option (Except AErr AInt) :=
    if y.bits = 0 then some (.error (.divZero op x))
    else if x.width ≠ y.width then none else some (.ok (ofInt x.width v))
  match o with
  | .add => ring (x.bits + y.bits)
  | .sub => ring (x.bits - y.bits)
  | .mul => ring (x.bits * y.bits)
  | .and => ring (x.bits &&& y.bits : Nat)
  | .or => ring (x.bits ||| y.bits : Nat)
  | .xor => ring (x.bits ^^^ y.bits : Nat)
  | .udiv => udiv .unsignedDiv (x.bits / y.bits)
  | .urem => udiv .unsignedRem (x.bits % y.bits)
  | .sdiv => sdiv .signedDiv (x.sint.tdiv y.sint)
  | .srem => sdiv .signedRem (x.sint.tmod y.sint)

/-- The call behind an operator. -/
def Op.bin : Op → Bin
  | .add => .add
  | .sub => .sub
  | .mul => .mul
  | .and => .and
  | .or => .or
  | .xor => .xor

/-- The result of a call, `none` when it panics or reports an error. -/
def okOnly : Option (Except AErr AInt) → Option AInt
  | some (.ok z) => some z
  | _ => none

/-- An operator panics when the call behind it reports an error. -/
def Op.spec (o : Op) (x y : AInt) : Option AInt := okOnly (o.bin.spec x y)

def Pair.spec (o : Pair) (x y : AInt) : Option (Except AErr (AInt × AInt)) :=
  let udiv (op : DivOp) (v v' : Int) : Option (Except AErr (AInt × AInt)) :=
    some (if x.width ≠ y.width then .error (.widths x.width y.width)
      else if y.bits = 0 then .error (.divZero op x)
      else .ok (ofInt x.width v, ofInt x.width v'))
  let sdiv (op : DivOp) (v v' : Int) : Option (Except AErr (AInt × AInt)) :=
    if y.bits = 0 then some (.error (.divZero op x))
    else if x.width ≠ y.width then none
    else some (.ok (ofInt x.width v, ofInt x.width v'))
  match o with
  | .udivrem => udiv .unsignedDivRem (x.bits / y.bits) (x.bits % y.bits)
  | .uremdiv => udiv .unsignedRemDiv (x.bits % y.bits) (x.bits / y.bits)
  | .sdivrem => sdiv .signedDivRem (x.sint.tdiv y.sint) (x.sint.tmod y.sint)
  | .sremdiv => sdiv .signedRemDiv (x.sint.tmod y.sint) (x.sint.tdiv y.sint)

/-- The width of a primitive type. -/
def PrimitiveTy.bits : PrimitiveTy → Nat
  | .bool => 1
  | .i8 | .u8 => 8
  | .i16 | .u16 => 16
  | .i32 | .u32 => 32
  | .i64 | .u64 => 64
  | .i128 | .u128 => 128

/-- The value of type `ty` with the low bits of `x`; narrower integers are extended according to
the signedness of `ty`. -/
def AInt.cast (x : AInt) : PrimitiveTy → Out
  | .bool => .bool (decide (x.bits % 2 = 1))
  | .u8 => .nat (x.bits % 2 ^ 8)
  | .u16 => .nat (x.bits % 2 ^ 16)
  | .u32 => .nat (x.bits % 2 ^ 32)
  | .u64 => .nat (x.bits % 2 ^ 64)
  | .u128 => .nat (x.bits % 2 ^ 128)
  | .i8 => .int (x.sint.bmod (2 ^ 8))
  | .i16 => .int (x.sint.bmod (2 ^ 16))
  | .i32 => .int (x.sint.bmod (2 ^ 32))
  | .i64 => .int (x.sint.bmod (2 ^ 64))
  | .i128 => .int (x.sint.bmod (2 ^ 128))

def Ask.spec : Ask → AInt → Option (Except AErr Out)
  | .width, x => some (.ok (.nat x.width))
  | .isZero, x => some (.ok (.bool (decide (x.bits = 0))))
  | .isAllUnset, x => some (.ok (.bool (decide (x.bits = 0))))
  | .isEven, x => some (.ok (.bool (decide (x.bits % 2 = 0))))
  | .isOdd, x => some (.ok (.bool (decide (x.bits % 2 = 1))))
  | .msb, x => some (.ok (.bool (decide (x.sint < 0))))
  | .lsb, x => some (.ok (.bool (decide (x.bits % 2 = 1))))
  | .bit p, x => some (if p < x.width then .ok (.bool (x.bits.testBit p)) else .error (.bit p x.width))
  | .countOnes, x => some (.ok (.nat ((List.range x.width).countP fun i => x.bits.testBit i)))
  | .countZeros, x => some (.ok (.nat ((List.range x.width).countP fun i => !x.bits.testBit i)))
  | .leadingZeros, x => some (.ok (.nat
      ((List.range x.width).takeWhile fun i => !x.bits.testBit (x.width - 1 - i)).length))
  | .trailingZeros, x => some (.ok (.nat
      ((List.range x.width).takeWhile fun i => !x.bits.testBit i).length))
  | .resize ty, x => some (.ok (x.cast ty))
  | .tryTo ty, x =>
      some (if x.bits < 2 ^ ty.bits then .ok (x.cast ty) else .error (.unrepresentable x ty))
  | .binary, x => some (.ok (.text (canonical 2 binAlphabet x.bits)))
  | .lowerHex, x => some (.ok (.text (canonical 16 hexLower x.bits)))
  | .upperHex, x => some (.ok (.text (canonical 16 hexUpper x.bits)))
  | .octal, x => if x.bits = 0 then some (.ok (.text ['0'])) else none

def Ask2.spec (q : Ask2) (x y : AInt) : Except AErr Out :=
  let cmp (b : Bool) : Except AErr Out :=
    if x.width = y.width then .ok (.bool b) else .error (.widths x.width y.width)
  -- these two compare the other way round, and their error names the widths in that order
  let pmc (b : Bool) : Except AErr Out :=
    if x.width = y.width then .ok (.bool b) else .error (.widths y.width x.width)
  match q with
  | .eq => .ok (.bool (decide (x = y)))
  | .ult => cmp (decide (x.bits < y.bits))
  | .ule => pmc (decide (x.bits ≤ y.bits))
  | .ugt => pmc (decide (x.bits > y.bits))
  | .uge => cmp (decide (x.bits ≥ y.bits))
  | .slt => cmp (decide (x.sint < y.sint))
  | .sle => pmc (decide (x.sint ≤ y.sint))
  | .sgt => pmc (decide (x.sint > y.sint))
  | .sge => cmp (decide (x.sint ≥ y.sint))

/-- The live numbers of a program. -/
abbrev ABank := List AInt

/-- A call that makes a number. -/
def ABank.push (b : ABank) : Except AErr AInt → Except AErr Out × ABank
  | .ok z => (.ok .unit, b ++ [z])
  | .error e => (.error e, b)

/-- A call that changes the number in register `x`. -/
def ABank.store (b : ABank) (x : Nat) : Except AErr AInt → Except AErr Out × ABank
  | .ok z => (.ok .unit, b.set x z)
  | .error e => (.error e, b)

/-- One call of the abstract machine: its answer and the new bank, `none` when it panics.  A call
that reports an error changes nothing. -/
def Instr.spec (i : Instr) (b : ABank) : Option (Except AErr Out × ABank) :=
  let push := ABank.push b
  let store := ABank.store b
  let one (x : Nat) (k : AInt → Option (Except AErr Out × ABank)) :=
    match b[x]? with
    | some a => k a
    | none => some (.ok .unit, b)
  let two (x y : Nat) (k : AInt → AInt → Option (Except AErr Out × ABank)) :=
    match b[x]?, b[y]? with
    | some a, some c => k a c
    | _, _ => some (.ok .unit, b)
  match i with
  | .make m => some (push m.spec)
  | .clone x => one x fun a => some (push (.ok a))
  | .drop x => some (.ok .unit, b.eraseIdx x)
  | .assign x y => two x y fun _ c => some (store x (.ok c))
  | .strictAssign x y => two x y fun a c => some (store x
      (if a.width = c.width then .ok c else .error (.widths a.width c.width)))
  | .un o x => one x fun a => some (store x (o.spec a))
  | .intoUn o x => one x fun a => some (push (o.spec a))
  | .alter o x => one x fun a => some (store x (o.spec a))
  | .bin o x y => two x y fun a c => (o.spec a c).map (store x)
  | .intoBin o x y => two x y fun a c => (o.spec a c).map push
  | .opAssign o x y => two x y fun a c => (o.spec a c).map fun z => store x (.ok z)
  | .op o x y => two x y fun a c => (o.spec a c).map fun z => push (.ok z)
  | .opShlAssign s x => one x fun a => (okOnly (some ((Un.shl s).spec a))).map fun z =>
      store x (.ok z)
  | .opShl s x => one x fun a => (okOnly (some ((Un.shl s).spec a))).map fun z => push (.ok z)
  | .pair o x y => two x y fun a c => (o.spec a c).map fun r =>
      match r with
      | .ok (z, z') => (.ok .unit, (b.set x z).set y z')
      | .error e => (.error e, b)
  | .ask q x => one x fun a => (q.spec a).map fun r => (r, b)
  | .ask2 q x y => two x y fun a c => some (q.spec a c, b)

/-- A program on the abstract machine: the answers so far, and the bank at the end or `none`
when a call panicked. -/
def specRun : List Instr → ABank → List (Except AErr Out) × Option ABank
  | [], b => ([], some b)
  | i :: is, b =>
    match i.spec b with
    | some (r, b) =>
      let (rs, e) := specRun is b
      (r :: rs, e)
    | none => ([], none)

/-- The number with the magnitude of the two's complement reading. -/
def AInt.magnitude (x : AInt) : AInt := ⟨x.width, x.sint.natAbs⟩

/-- What a call that panics leaves behind.  The signed divisions have already replaced the
integers they were lent by their magnitudes; every other call leaves all integers as they were. -/
def Instr.specLeft : Instr → ABank → ABank
  | .bin .sdiv x _, b | .bin .srem x _, b => b.modify x AInt.magnitude
  | .pair .sdivrem x y, b | .pair .sremdiv x y, b =>
      (b.modify x AInt.magnitude).modify y AInt.magnitude
  | _, b => b

/-- What a program that catches panics sees of a call. -/
inductive ASeen where
  | returned (r : Except AErr Out)
  | panicked
  deriving DecidableEq

/-- A call whose panic is caught, on the abstract machine. -/
def Instr.specCaught (i : Instr) (b : ABank) : ASeen × ABank :=
  match i.spec b with
  | some (r, b) => (.returned r, b)
  | none => (.panicked, i.specLeft b)

/-- A client of the library: it decides from everything it has seen so far (oldest first) which
call to make next, or to stop.  Any control flow is allowed. -/
abbrev Client := List ASeen → Option Instr

/-- The first `n` calls of a client on the abstract machine: what it has seen, and its numbers. -/
def specPlay (c : Client) : Nat → List ASeen → ABank → List ASeen × ABank
  | 0, seen, b => (seen, b)
  | n + 1, seen, b =>
    match c seen with
    | none => (seen, b)
    | some i => specPlay c n (seen ++ [(i.specCaught b).1]) (i.specCaught b).2

/-- The number an integer stands for. -/
def ApInt.abs (a : ApInt) : AInt := ⟨a.w, a.uval⟩

/-- The error of the abstract machine an error stands for. -/
def Err.abs : Err → AErr
  | .invalidStringRepr s r _ => .text s r.toU8
  | .invalidBitAccess p t => .bit p t.toUsize
  | .invalidShiftAmount s t => .shift s t.toUsize
  | .valueUnrepresentable v ty => .unrepresentable v.abs ty
  | .unmatchingBitwidth l r => .widths l.toUsize r.toUsize
  | .truncationBitWidthTooLarge t c => .tooWide t.toUsize c.toUsize
  | .extensionBitWidthTooSmall t c => .tooNarrow t.toUsize c.toUsize
  | .divisionByZero op v => .divZero op v.abs
  | .expectedNonEmptyDigits => .noDigits
  | .invalidRadix _ | .invalidBitWidth _ => .other

/-- The answer of the abstract machine an answer stands for. -/
def absRes : Res Out → Except AErr Out
  | .ok o => .ok o
  | .error e => .error e.abs

end Verif
