import Verif.TInstr
import Verif.SpecProgram
import Verif.Model.Typed

/-!
# Programs over `UInt` and `Int`: what should happen

An abstract machine over mathematical integers.  A `UInt` of width `w` is an integer from `0` to
`2 ^ w - 1`, an `Int` of width `w` one from `-2 ^ (w - 1)` to `2 ^ (w - 1) - 1`.  Every call
computes with integers and brings the result back into the range of the type by adding a multiple
of `2 ^ w`.
-/

namespace Verif

/-- A number with its type. -/
structure Num where
  kind : Kind
  width : Nat
  val : Int
  deriving DecidableEq

namespace Num

/-- The integer `x` brought into the range of the type by adding a multiple of `2 ^ w`. -/
def of (k : Kind) (w : Nat) (x : Int) : Num :=
  ⟨k, w, match k with
    | .unsigned => x % 2 ^ w
    | .signed => x.bmod (2 ^ w)⟩

/-- `v` in the type of `x`. -/
def put (x : Num) (v : Int) : Num := of x.kind x.width v

/-- The bit with weight `2 ^ p` of the two's complement representation. -/
def bit (x : Num) (p : Nat) : Bool := decide (x.val / 2 ^ p % 2 = 1)

/-- The number of the type of `x` with the given bits. -/
def ofBits (x : Num) (f : Nat → Bool) : Num :=
  x.put ((List.range x.width).map fun p => if f p then 2 ^ p else 0).sum

/-- The integers a type can hold. -/
def InRange (x : Num) : Prop :=
  match x.kind with
  | .unsigned => 0 ≤ x.val ∧ x.val < 2 ^ x.width
  | .signed => -2 ^ (x.width - 1) ≤ x.val ∧ x.val < 2 ^ (x.width - 1)

/-- The number modulo `2 ^ w`. -/
def pattern (x : Num) : Nat := (x.val % 2 ^ x.width).toNat

/-- The copy of the integer inside an error. -/
def inError (x : Num) : AInt := ⟨x.width, x.pattern⟩

end Num

open Num

/-- What a call does. -/
inductive Did (α : Type) where
  /-- the type has no such call -/
  | absent
  | panics
  | reports (e : AErr)
  | gives (z : α)
  deriving DecidableEq

def TMake.spec : TMake → Did Num
  | .zero k t => .gives (of k t.toUsize 0)
  | .one t => .gives (of .unsigned t.toUsize 1)
  | .allUnset k t => .gives (of k t.toUsize 0)
  | .allSet k t => .gives (of k t.toUsize (-1))
  | .min .unsigned t => .gives ⟨.unsigned, t.toUsize, 0⟩
  | .min .signed t => .gives ⟨.signed, t.toUsize, -2 ^ (t.toUsize - 1)⟩
  | .max .unsigned t => .gives ⟨.unsigned, t.toUsize, 2 ^ t.toUsize - 1⟩
  | .max .signed t => .gives ⟨.signed, t.toUsize, 2 ^ (t.toUsize - 1) - 1⟩
  | .bool k b => .gives (of k 1 (if b then 1 else 0))
  | .u8 v => .gives ⟨.unsigned, 8, v.toNat⟩
  | .u16 v => .gives ⟨.unsigned, 16, v.toNat⟩
  | .u32 v => .gives ⟨.unsigned, 32, v.toNat⟩
  | .u64 v => .gives ⟨.unsigned, 64, v.toNat⟩
  | .u128 v => .gives ⟨.unsigned, 128, v.toNat⟩
  | .i8 v => .gives ⟨.signed, 8, v.toInt⟩
  | .i16 v => .gives ⟨.signed, 16, v.toInt⟩
  | .i32 v => .gives ⟨.signed, 32, v.toInt⟩
  | .i64 v => .gives ⟨.signed, 64, v.toInt⟩
  | .i128 v => .gives ⟨.signed, 128, v.toInt⟩
  | .array k v vs => .gives (of k (64 * (vs.length + 1))
      ((v :: vs).foldl (fun acc d => acc * 2 ^ 64 + d.toNat) 0 : Nat))
  | .parse k n s =>
      if Accepted (2 ^ (n.val + 1)) s then
        .gives (of k (roundUp ((n.val + 1) * (textDigits s).length))
          (numeral (2 ^ (n.val + 1)) (textDigits s)))
      else .reports (.text s (2 ^ (n.val + 1)))
  | .random k t rng =>
      .gives (of k t.toUsize (val ((List.range ((t.toUsize + 63) / 64)).map rng)))

def TUn.spec : TUn → Num → Did Num
  | .not, x => .gives (x.put (-x.val - 1))
  | .neg, x => .gives (x.put (-x.val))
  | .abs, x => if x.kind = .signed then .gives (x.put |x.val|) else .absent
  | .shl s, x => if s < x.width then .gives (x.put (x.val * 2 ^ s)) else .reports (.shift s x.width)
  -- rounding down
  | .shr s, x => if s < x.width then .gives (x.put (x.val / 2 ^ s)) else .reports (.shift s x.width)
  | .truncate t, x =>
      if t.toUsize ≤ x.width then .gives (of x.kind t.toUsize x.val)
      else .reports (.tooWide t.toUsize x.width)
  | .extend t, x =>
      if x.width ≤ t.toUsize then .gives ⟨x.kind, t.toUsize, x.val⟩
      else .reports (.tooNarrow t.toUsize x.width)
  | .resize t, x => .gives (of x.kind t.toUsize x.val)

/-- The call behind an operator. -/
def TUnOp.un : TUnOp → TUn
  | .not => .not
  | .neg => .neg
  | .shl s => .shl s
  | .shr s => .shr s

/-- The call behind an assigning operator. -/
def TShift.un : TShift → TUn
  | .shl s => .shl s
  | .shr s => .shr s

/-- The number with the bit at `p` replaced by `f` of it. -/
def Num.mapBit (x : Num) (p : Nat) (f : Bool → Bool) : Num :=
  x.ofBits fun q => if q = p then f (x.bit q) else x.bit q

def TAlter.spec (o : TAlter) (x : Num) : Did Num :=
  let msb (f : Bool → Bool) : Did Num :=
    if x.kind = .signed then .gives (x.mapBit (x.width - 1) f) else .absent
  let at_ (p : Nat) (f : Bool → Bool) : Did Num :=
    if p < x.width then .gives (x.mapBit p f) else .reports (.bit p x.width)
  match o with
  | .setAll => .gives (x.put (-1))
  | .unsetAll => .gives (x.put 0)
  | .flipAll => .gives (x.put (-x.val - 1))
  | .setMsb => msb fun _ => true
  | .unsetMsb => msb fun _ => false
  | .flipMsb => msb not
  | .setBit p => at_ p fun _ => true
  | .unsetBit p => at_ p fun _ => false
  | .flipBit p => at_ p not
  | .randomize rng => .gives (x.put (val ((List.range ((x.width + 63) / 64)).map rng)))

/-- Division rounds towards zero and the remainder has the sign of the dividend. -/
def TBin.spec (o : TBin) (x y : Num) : Did Num :=
  let ring (z : Num) : Did Num :=
    if x.width = y.width then .gives z else .reports (.widths x.width y.width)
  let div (uop sop : DivOp) (v : Int) : Did Num :=
    match x.kind with
    | .unsigned =>
      if x.width ≠ y.width then .reports (.widths x.width y.width)
      else if y.val = 0 then .reports (.divZero uop x.inError) else .gives (x.put v)
    | .signed =>
      if y.val = 0 then .reports (.divZero sop x.inError)
      else if x.width ≠ y.width then .panics else .gives (x.put v)
  if x.kind ≠ y.kind then .absent else
  match o with
  | .add => ring (x.put (x.val + y.val))
  | .sub => ring (x.put (x.val - y.val))
  | .mul => ring (x.put (x.val * y.val))
  | .and => ring (x.ofBits fun p => x.bit p && y.bit p)
  | .or => ring (x.ofBits fun p => x.bit p || y.bit p)
  | .xor => ring (x.ofBits fun p => x.bit p ^^ y.bit p)
  | .div => div .unsignedDiv .signedDiv (x.val.tdiv y.val)
  | .rem => div .unsignedRem .signedRem (x.val.tmod y.val)

/-- The value with the low bits of `x` as a primitive of type `ty`, if it has the signedness of
`x` or is `bool`. -/
def Num.cast (x : Num) (ty : PrimitiveTy) : Option Out :=
  match ty, x.kind with
  | .bool, _ => some (.bool (decide (x.val % 2 = 1)))
  | .u8, .unsigned | .u16, .unsigned | .u32, .unsigned | .u64, .unsigned | .u128, .unsigned =>
    some (.nat (x.val % 2 ^ ty.bits).toNat)
  | .i8, .signed | .i16, .signed | .i32, .signed | .i64, .signed | .i128, .signed =>
    some (.int (x.val.bmod (2 ^ ty.bits)))
  | _, _ => none

/-- The answer to a question about one integer. -/
def TAsk.spec (q : TAsk) (x : Num) : Did Out :=
  let signedOnly (o : Out) : Did Out := if x.kind = .signed then .gives o else .absent
  match q with
  | .width => .gives (.nat x.width)
  | .isZero => .gives (.bool (decide (x.val = 0)))
  | .isAllUnset => .gives (.bool (decide (x.val = 0)))
  | .isEven => .gives (.bool (decide (x.val % 2 = 0)))
  | .isOdd => .gives (.bool (decide (x.val % 2 = 1)))
  | .isNegative => signedOnly (.bool (decide (x.val < 0)))
  -- zero counts as positive
  | .isPositive => signedOnly (.bool (decide (0 ≤ x.val)))
  | .signum => signedOnly (.int x.val.sign)
  | .msb => signedOnly (.bool (decide (x.val < 0)))
  | .bit p => if p < x.width then .gives (.bool (x.bit p)) else .reports (.bit p x.width)
  | .countOnes => .gives (.nat ((List.range x.width).countP fun p => x.bit p))
  | .countZeros => .gives (.nat ((List.range x.width).countP fun p => !x.bit p))
  | .leadingZeros => .gives (.nat
      ((List.range x.width).takeWhile fun p => !x.bit (x.width - 1 - p)).length)
  | .trailingZeros => .gives (.nat ((List.range x.width).takeWhile fun p => !x.bit p).length)
  | .resize ty =>
    match x.cast ty with
    | some o => .gives o
    | none => .absent
  | .tryTo ty =>
    if x.kind = .signed then .absent else
    match x.cast ty with
    | some o => if x.val < 2 ^ ty.bits then .gives o else .reports (.unrepresentable x.inError ty)
    | none => .absent
  | .binary => .gives (.text (canonical 2 binAlphabet x.pattern))
  | .lowerHex => .gives (.text (canonical 16 hexLower x.pattern))
  | .upperHex => .gives (.text (canonical 16 hexUpper x.pattern))
  -- not implemented by the crate except for zero
  | .octal => if x.val = 0 then .gives (.text ['0']) else .panics

/-- The answer to a question about two integers. -/
def TAsk2.spec (q : TAsk2) (x y : Num) : Did TOut :=
  let cmp (b : Bool) : Did TOut :=
    if x.width = y.width then .gives (.out (.bool b)) else .reports (.widths x.width y.width)
  -- these two compare the other way round, and their error names the widths in that order
  let pmc (b : Bool) : Did TOut :=
    if x.width = y.width then .gives (.out (.bool b)) else .reports (.widths y.width x.width)
  let op (b : Bool) : Did TOut := .gives (.out (.bool (decide (x.width = y.width) && b)))
  if x.kind ≠ y.kind then .absent else
  match q with
  | .eq => .gives (.out (.bool (decide (x = y))))
  | .checkedLt => cmp (decide (x.val < y.val))
  | .checkedLe => pmc (decide (x.val ≤ y.val))
  | .checkedGt => pmc (decide (x.val > y.val))
  | .checkedGe => cmp (decide (x.val ≥ y.val))
  | .lt => op (decide (x.val < y.val))
  | .le => op (decide (x.val ≤ y.val))
  | .gt => op (decide (x.val > y.val))
  | .ge => op (decide (x.val ≥ y.val))
  | .partialCmp => .gives (.ord (
      if x.width = y.width then
        some (if x.val < y.val then .lt else if x.val = y.val then .eq else .gt)
      else none))

/-- The live numbers of a program. -/
abbrev NBank := List Num

namespace NBank

/-- Do `f` with the outcome; a call the type does not have answers `unit` and does nothing. -/
def onDid {α : Type} (b : NBank) (d : Did α) (gives : α → Except AErr TOut × NBank)
    (reports : NBank) : Option (Except AErr TOut × NBank) :=
  match d with
  | .absent => some (.ok (.out .unit), b)
  | .panics => none
  | .reports e => some (.error e, reports)
  | .gives z => some (gives z)

/-- Change the number in register `x`; after an error it is as before. -/
def store (b : NBank) (x : Nat) (d : Did Num) : Option (Except AErr TOut × NBank) :=
  b.onDid d (fun z => (.ok (.out .unit), b.set x z)) b

/-- Replace the number in register `x`; after an error it is gone. -/
def move (b : NBank) (x : Nat) (d : Did Num) : Option (Except AErr TOut × NBank) :=
  b.onDid d (fun z => (.ok (.out .unit), b.set x z)) (b.eraseIdx x)

/-- A new number. -/
def push (b : NBank) (d : Did Num) : Option (Except AErr TOut × NBank) :=
  b.onDid d (fun z => (.ok (.out .unit), b ++ [z])) b

/-- Answer and change nothing. -/
def answer (b : NBank) (d : Did TOut) : Option (Except AErr TOut × NBank) :=
  b.onDid d (fun o => (.ok o, b)) b

end NBank

/-- An operator panics when the call behind it reports an error. -/
def Did.op {α : Type} : Did α → Did α
  | .reports _ => .panics
  | d => d

/-- Answer with `f`. -/
def Did.map {α β : Type} (f : α → β) : Did α → Did β
  | .absent => .absent
  | .panics => .panics
  | .reports e => .reports e
  | .gives z => .gives (f z)

/-- One call of the abstract machine: its answer and the new bank, `none` when it panics. -/
def TInstr.spec (i : TInstr) (b : NBank) : Option (Except AErr TOut × NBank) :=
  let one {α : Type} (x : Nat) (f : Num → Did α)
      (k : Did α → Option (Except AErr TOut × NBank)) :=
    match b[x]? with
    | some a => k (f a)
    | none => some (.ok (.out .unit), b)
  let two {α : Type} (x y : Nat) (f : Num → Num → Did α)
      (k : Did α → Option (Except AErr TOut × NBank)) :=
    match b[x]?, b[y]? with
    | some a, some c => k (f a c)
    | _, _ => some (.ok (.out .unit), b)
  match i with
  | .make m => b.push m.spec
  -- the value 1 exists only from width 2 on
  | .intOne t => some (if 2 ≤ t.toUsize then (.ok (.out (.bool true)), b ++ [⟨.signed, t.toUsize, 1⟩])
      else (.ok (.out (.bool false)), b))
  | .clone x => one x .gives b.push
  | .drop x => some (.ok (.out .unit), b.eraseIdx x)
  | .assign x y => two x y (fun a c => if a.kind = c.kind then .gives c else .absent) (b.store x)
  | .strictAssign x y => two x y (fun a c =>
      if a.kind ≠ c.kind then .absent
      else if a.width = c.width then .gives c else .reports (.widths a.width c.width)) (b.store x)
  | .intoUnsigned x => one x (fun a =>
      if a.kind = .signed then .gives (of .unsigned a.width a.val) else .absent) (b.move x)
  | .intoSigned x => one x (fun a =>
      if a.kind = .unsigned then .gives (of .signed a.width a.val) else .absent) (b.move x)
  | .un o x => one x o.spec (b.store x)
  | .intoUn o x => one x o.spec (b.move x)
  | .opUn o x => one x (fun a => (o.un.spec a).op) (b.move x)
  | .opShift o x => one x (fun a => (o.un.spec a).op) (b.store x)
  | .alter o x => one x o.spec (b.store x)
  | .bin o x y => two x y o.spec (b.store x)
  | .intoBin o x y => two x y o.spec (b.move x)
  | .op o x y => two x y (fun a c => (o.spec a c).op) (b.move x)
  | .opAssign o x y => two x y (fun a c => (o.spec a c).op) (b.store x)
  | .ask q x => one x (fun a => (q.spec a).map .out) b.answer
  | .ask2 q x y => two x y q.spec b.answer

/-- A program on the abstract machine: the answers so far, and the bank at the end or `none`
when a call panicked. -/
def tspecRun : List TInstr → NBank → List (Except AErr TOut) × Option NBank
  | [], b => ([], some b)
  | i :: is, b =>
    match i.spec b with
    | some (r, b) =>
      let (rs, e) := tspecRun is b
      (r :: rs, e)
    | none => ([], none)

/-- The number a `UInt` or an `Int` stands for. -/
def WInt.num : WInt → Num
  | .u x => ⟨.unsigned, x.value.w, x.value.uval⟩
  | .s x => ⟨.signed, x.value.w, x.value.sval⟩

/-- The integer is well-formed. -/
def WInt.WF : WInt → Prop
  | .u x => x.value.WF
  | .s x => x.value.WF

/-- The answer of the abstract machine an answer stands for. -/
def tabsRes : Res TOut → Except AErr TOut
  | .ok o => .ok o
  | .error e => .error e.abs

end Verif
