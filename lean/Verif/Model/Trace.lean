import Verif.Model.Program

/-!
# What an observer of the memory accesses sees

The calls that change or inspect integers once more, with a trace: which digit of which operand is
read or written, in which order, what is allocated, and which way every branch goes that is taken on
the contents of a digit.  Branches on widths, lengths and shift amounts are not recorded; they are
taken as public.  The operations of the processor on one or two digits (`+`, `*`, `&`, `<<`, counting
bits) are taken to show nothing about their operands.  So is the choice of the carry in
`carrying_add` (`/repo/src/digit.rs:248-254`), a `match` on the carry that picks
one of two constants and that compilers turn into arithmetic.
-/

namespace Verif

/-- The buffers a call touches: its receiver, its argument, and a buffer it allocates.  As `self`,
`rhs` and `buffer` in `/repo/src/apint/casting.rs:13-102`. -/
inductive Side where
  | self | rhs | fresh
  deriving DecidableEq

/-- What is seen.  The accesses of `/repo/src/apint/*.rs`. -/
inductive Sight where
  | read (o : Side) (i : Nat)
  | write (o : Side) (i : Nat)
  | test (b : Bool)
  | alloc (n : Nat)
  deriving DecidableEq

/-- A computation and what is seen of it.  The model of timing for `/repo/src/apint/*.rs`. -/
def Watched (α : Type) := Run (α × List Sight)

namespace Watched

/-- A value that is there without anything to see.  As `Ok(())` in
`/repo/src/apint/arithmetic.rs:124`. -/
def ok {α : Type} (a : α) : Watched α := Except.ok (a, [])

/-- Do `x` and then `f`.  The `;` of `/repo/src/apint/*.rs`. -/
def bind {α β : Type} (x : Watched α) (f : α → Watched β) : Watched β :=
  match x with
  | Except.error e => Except.error e
  | Except.ok (a, s) =>
    match f a with
    | Except.error e => Except.error e
    | Except.ok (b, t) => Except.ok (b, s ++ t)

/-- Sequencing for the `do` notation, for `/repo/src/apint/*.rs`. -/
instance monad : Monad Watched where
  pure := Watched.ok
  bind := Watched.bind

/-- A computation of which `s` is seen.  As the accesses of `/repo/src/apint/arithmetic.rs:113-123`. -/
def show' {α : Type} (s : List Sight) (x : Run α) : Watched α :=
  match x with
  | Except.error e => Except.error e
  | Except.ok a => Except.ok (a, s)

/-- Of computations on local variables, widths and lengths nothing is seen.  As `self.width()` in
`/repo/src/apint/shift.rs:80`. -/
instance lift : MonadLift Run Watched where
  monadLift := show' []

/-- Only something to see.  As the accesses of `/repo/src/apint/arithmetic.rs:113-123`. -/
def note (s : List Sight) : Watched Unit := Except.ok ((), s)

/-- The result without the trace, `none` of the trace. Not in `/repo`. -/
def result {α : Type} (c : Watched α) : Run α :=
  match c with
  | Except.error e => Except.error e
  | Except.ok (a, _) => Except.ok a

/-- What is seen of a computation that returns. Not in `/repo`. -/
def seen {α : Type} (c : Watched α) : Option (List Sight) :=
  match c with
  | Except.error _ => none
  | Except.ok (_, s) => some s

end Watched

namespace Trace

open ApInt Watched

/-- Reading `xs[i]`, as in `/repo/src/apint/arithmetic.rs:111`. -/
def rd (o : Side) (l : List Digit) (i : Nat) : Watched Digit := show' [.read o i] (Verif.idx l i)

/-- Writing `xs[i] = v`, as in `/repo/src/apint/arithmetic.rs:112`. -/
def wr (o : Side) (l : List Digit) (i : Nat) (v : Digit) : Watched (List Digit) :=
  show' [.write o i] (Verif.upd l i v)

/-- Copying `n` digits.  As `copy_from_slice` in `/repo/src/apint/casting.rs:44`,
`100` and the `ptr::copy` of `/repo/src/apint/shift.rs:91-100`. -/
def copies (o : Side) (i : Nat) (p : Side) (j : Nat) (n : Nat) : List Sight :=
  (List.range n).flatMap fun k => [.read o (i + k), .write p (j + k)]

/-- Writing `n` digits.  As the loop of `/repo/src/apint/shift.rs:102-105`. -/
def fills (o : Side) (i n : Nat) : List Sight := (List.range n).map fun k => .write o (i + k)

/-- `n` steps of a counting loop.  For loops as in `/repo/src/apint/arithmetic.rs:113-123`. -/
def loopUp {σ : Type} (body : Nat → σ → Watched σ) : Nat → Nat → σ → Watched σ
  | 0, _, s => .ok s
  | n + 1, i, s => do
    let s ← body i s
    loopUp body n (i + 1) s

/-- `for i in lo..hi { .. }`.  As in `/repo/src/apint/arithmetic.rs:113-123`. -/
def forRange {σ : Type} (lo hi : Nat) (s : σ) (body : Nat → σ → Watched σ) : Watched σ :=
  loopUp body (hi - lo) lo s

/-- The position of the most significant digit, `/repo/src/apint/utils.rs:309-326`. -/
def top (x : ApInt) : Nat := x.lenDigits - 1

/-! ## All digits -/

/-- The loop of `modify_digits`, `/repo/src/apint/utils.rs:241-243`. -/
def mapLoop (f : Digit → Digit) : Nat → List Digit → Watched (List Digit)
  | _, [] => .ok []
  | i, d :: ds => do
    let () ← note [.read .self i, .write .self i]
    let ds ← mapLoop f (i + 1) ds
    .ok (f d :: ds)

/-- `modify_digits`, `/repo/src/apint/utils.rs:233-246`. -/
def modifyDigits (self : ApInt) (f : Digit → Digit) : Watched ApInt := do
  match ← self.accessData with
  | .inl digit => do
    let () ← note [.read .self 0, .write .self 0]
    .ok { self with data := .inl (f digit) }
  | .ext digits => do
    let digits ← mapLoop f 0 digits
    .ok { self with data := .ext digits }

/-- The loop of `modify_zipped_digits`, `/repo/src/apint/utils.rs:267-269`. -/
def zipLoop (f : Digit → Digit → Digit) : Nat → List Digit → List Digit → Watched (List Digit)
  | i, l :: ls, r :: rs => do
    let () ← note [.read .self i, .read .rhs i, .write .self i]
    let ds ← zipLoop f (i + 1) ls rs
    .ok (f l r :: ds)
  | _, _, _ => .ok []

/-- `modify_zipped_digits`, `/repo/src/apint/utils.rs:256-274`. -/
def modifyZippedDigits (self rhs : ApInt) (f : Digit → Digit → Digit) :
    Watched (Res Unit × ApInt) := do
  match ← self.zipAccessData rhs with
  | .error e => .ok (.error e, self)
  | .ok (.inl l r) => do
    let () ← note [.read .self 0, .read .rhs 0, .write .self 0]
    .ok (.ok (), { self with data := .inl (f l r) })
  | .ok (.ext l r) => do
    let ds ← zipLoop f 0 l r
    .ok (.ok (), { self with data := .ext ds })

/-- `clear_unused_bits`, `/repo/src/apint/utils.rs:366-375`. -/
def clearUnusedBits (self : ApInt) : Watched ApInt :=
  match self.width.excessBits with
  | none => .ok self
  | some bits => do
    let d ← show' [.read .self (top self)] self.mostSignificantDigit
    let (r, d') ← Digit.retainLastN d bits
    let self ← show' [.write .self (top self)] (self.setMostSignificantDigit d')
    let () ← (expect r : Run Unit)
    pure self

/-- `bitnot`, `/repo/src/apint/bitwise.rs:20-23`. -/
def bitnot (self : ApInt) : Watched ApInt := do
  let self ← modifyDigits self Digit.notInplace
  clearUnusedBits self

/-- `bitand_assign`, `/repo/src/apint/bitwise.rs:42-44`. -/
def bitandAssign (self rhs : ApInt) : Watched (Res Unit × ApInt) :=
  modifyZippedDigits self rhs Digit.bitand

/-- `bitor_assign`, `/repo/src/apint/bitwise.rs:63-65`. -/
def bitorAssign (self rhs : ApInt) : Watched (Res Unit × ApInt) :=
  modifyZippedDigits self rhs Digit.bitor

/-- `bitxor_assign`, `/repo/src/apint/bitwise.rs:84-86`. -/
def bitxorAssign (self rhs : ApInt) : Watched (Res Unit × ApInt) :=
  modifyZippedDigits self rhs Digit.bitxor

/-- `set_all`, `/repo/src/apint/bitwise.rs:177-180`. -/
def setAll (self : ApInt) : Watched ApInt := do
  let self ← modifyDigits self Digit.setAll
  clearUnusedBits self

/-- `unset_all`, `/repo/src/apint/bitwise.rs:194-196`. -/
def unsetAll (self : ApInt) : Watched ApInt := modifyDigits self Digit.unsetAll

/-- `flip_all`, `/repo/src/apint/bitwise.rs:204-208`. -/
def flipAll (self : ApInt) : Watched ApInt := do
  let self ← modifyDigits self Digit.flipAll
  clearUnusedBits self

/-! ## Single bits -/

/-- `get_bit_at`, `/repo/src/apint/bitwise.rs:96-109`. -/
def getBitAt (self : ApInt) (pos : Nat) : Watched (Res Bool) :=
  match verifyBitAccess self.width pos with
  | .error e => .ok (.error e)
  | .ok () => do
    match ← self.accessData with
    | .inl digit => do
      let () ← note [.read .self 0]
      Digit.get digit pos
    | .ext digits => do
      let (digitPos, bitPos) := toDigitAndBitPos pos
      let d ← rd .self digits digitPos
      Digit.get d bitPos

/-- `set_bit_at`, `unset_bit_at` and `flip_bit_at`, `/repo/src/apint/bitwise.rs:116-174`. -/
def modifyBitAt (self : ApInt) (pos : Nat) (op : Digit → Nat → Run (Res Unit × Digit)) :
    Watched (Res Unit × ApInt) :=
  match verifyBitAccess self.width pos with
  | .error e => .ok (.error e, self)
  | .ok () => do
    match ← self.accessData with
    | .inl digit => do
      let (r, d) ← show' [.read .self 0, .write .self 0] (op digit pos)
      .ok (r, { self with data := .inl d })
    | .ext digits => do
      let (digitPos, bitPos) := toDigitAndBitPos pos
      let d ← rd .self digits digitPos
      let (r, d) ← op d bitPos
      let digits ← wr .self digits digitPos d
      .ok (r, { self with data := .ext digits })

/-- `set_msb`, `unset_msb` and `flip_msb`, `/repo/src/apint/bitwise.rs:211-242`. -/
def modifyMsb (self : ApInt) (op : Digit → Nat → Run (Res Unit × Digit)) : Watched ApInt := do
  let msbPos := self.width.msbPos
  let (r, self) ← modifyBitAt self msbPos op
  let () ← (expect r : Run Unit)
  pure self

/-- `msb`, `/repo/src/apint/utils.rs:339-347`. -/
def msb (self : ApInt) : Watched Bool := show' [.read .self (top self)] self.msb

/-- `lsb`, `/repo/src/apint/utils.rs:351-353`. -/
def lsb (self : ApInt) : Watched Bool := show' [.read .self 0] self.lsb

/-- `is_even`, `/repo/src/apint/utils.rs:417-419`. -/
def isEven (self : ApInt) : Watched Bool := do
  let b ← lsb self
  pure (!b)

/-- `count_ones`, `/repo/src/apint/bitwise.rs:248-253`: all digits are read in order. -/
def countOnes (self : ApInt) : Watched Nat :=
  show' ((List.range self.lenDigits).map fun k => .read .self k) self.countOnes

/-- `count_zeros`, `/repo/src/apint/bitwise.rs:257-268`: all digits are read in order. -/
def countZeros (self : ApInt) : Watched Nat :=
  show' ((List.range self.lenDigits).map fun k => .read .self k) self.countZeros

/-! ## Addition and subtraction -/

/-- `wrapping_add_assign` on the digits of heap-allocated values,
`/repo/src/apint/arithmetic.rs:110-121`. -/
def addDigits (lhs rhs : List Digit) (hi : Nat) : Watched (List Digit × Digit) := do
  let l0 ← rd .self lhs 0
  let r0 ← rd .rhs rhs 0
  let (temp, carry) := Digit.carryingAdd l0 r0
  let lhs ← wr .self lhs 0 temp
  forRange 1 hi (lhs, carry) fun i (lhs, carry) => do
    let l ← rd .self lhs i
    let r ← rd .rhs rhs i
    let temp := DDigit.wrappingAdd (DDigit.wrappingAdd (Digit.dd l) (Digit.dd r)) (Digit.dd carry)
    let lhs ← wr .self lhs i (DDigit.lo temp)
    .ok (lhs, DDigit.hi temp)

/-- `wrapping_add_assign`, `/repo/src/apint/arithmetic.rs:105-125`. -/
def wrappingAddAssign (self rhs : ApInt) : Watched (Res Unit × ApInt) := do
  match ← self.zipAccessData rhs with
  | .error e => .ok (.error e, self)
  | .ok z => do
    let self : ApInt ←
      match z with
      | .inl l r => do
        let () ← note [.read .self 0, .read .rhs 0, .write .self 0]
        .ok { self with data := .inl (Digit.wrappingAdd l r) }
      | .ext l r => do
        let (l, _) ← addDigits l r l.length
        .ok { self with data := .ext l }
    let self ← clearUnusedBits self
    .ok (.ok (), self)

/-- `wrapping_sub_assign` on the digits of heap-allocated values,
`/repo/src/apint/arithmetic.rs:235-250`. -/
def subDigits (lhs rhs : List Digit) : Watched (List Digit) := do
  let l0 ← rd .self lhs 0
  let r0 ← rd .rhs rhs 0
  let (temp, carry) := DDigit.loHi (DDigit.wrappingAdd
    (DDigit.wrappingAdd (Digit.dd l0) (Digit.dd (Digit.notInplace r0))) (Digit.dd Digit.ONE))
  let lhs ← wr .self lhs 0 temp
  let (lhs, _) ← forRange 1 lhs.length (lhs, carry) fun i (lhs, carry) => do
    let l ← rd .self lhs i
    let r ← rd .rhs rhs i
    let temp := DDigit.wrappingAdd
      (DDigit.wrappingAdd (Digit.dd l) (Digit.dd (Digit.notInplace r))) (Digit.dd carry)
    let lhs ← wr .self lhs i (DDigit.lo temp)
    .ok (lhs, DDigit.hi temp)
  .ok lhs

/-- `wrapping_sub_assign`, `/repo/src/apint/arithmetic.rs:230-254`. -/
def wrappingSubAssign (self rhs : ApInt) : Watched (Res Unit × ApInt) := do
  match ← self.zipAccessData rhs with
  | .error e => .ok (.error e, self)
  | .ok z => do
    let self : ApInt ←
      match z with
      | .inl l r => do
        let () ← note [.read .self 0, .read .rhs 0, .write .self 0]
        .ok { self with data := .inl (Digit.wrappingSub l r) }
      | .ext l r => do
        let l ← subDigits l r
        .ok { self with data := .ext l }
    let self ← clearUnusedBits self
    .ok (.ok (), self)

/-! ## Shifts -/

/-- The carry loop of `wrapping_shl_assign`, `/repo/src/apint/shift.rs:109-115`. -/
def shlLoop (bitSteps : Nat) : Nat → List Digit → Digit → Watched (List Digit)
  | _, [], _ => .ok []
  | i, repr :: rest, carry => do
    let () ← note [.read .self i, .write .self i]
    let n ← csub 64 bitSteps
    let newCarry ← rawShr repr n
    let s ← rawShl repr bitSteps
    let rest ← shlLoop bitSteps (i + 1) rest newCarry
    .ok ((s ||| carry) :: rest)

/-- `wrapping_shl_assign` on the digits of a heap-allocated value,
`/repo/src/apint/shift.rs:86-117`. -/
def shlDigits (digits : List Digit) (s : Nat) : Watched (List Digit) := do
  let ds := digitSteps s
  let digits ←
    if ds ≠ 0 then do
      let n ← csub digits.length ds
      let () ← note (copies .self 0 .self ds n ++ fills .self 0 ds)
      .ok (List.replicate ds Digit.ZERO ++ digits.take n)
    else .ok digits
  let bs := bitSteps s
  if bs ≠ 0 then
    if digits.length < ds then (Except.error .panic : Run (List Digit))
    else do
      let hi ← shlLoop bs ds (digits.drop ds) 0#64
      .ok (digits.take ds ++ hi)
  else .ok digits

/-- `wrapping_shl_assign`, `/repo/src/apint/shift.rs:76-121`. -/
def wrappingShlAssign (self : ApInt) (s : Nat) : Watched (Res Unit × ApInt) :=
  match verifyShiftAmount self.width s with
  | .error e => .ok (.error e, self)
  | .ok () => do
    let self : ApInt ←
      match ← self.accessData with
      | .inl digit => do
        let d ← show' [.read .self 0, .write .self 0] (rawShl digit s)
        .ok { self with data := .inl d }
      | .ext digits => do
        let digits ← shlDigits digits s
        .ok { self with data := .ext digits }
    let self ← clearUnusedBits self
    .ok (.ok (), self)

/-- The borrow loop of `wrapping_lshr_assign`, `/repo/src/apint/shift.rs:169-175`, from the most
significant digit down. -/
def lshrLoop (bitSteps : Nat) : List Digit → Digit → Watched (List Digit)
  | [], _ => .ok []
  | repr :: rest, borrow => do
    let () ← note [.read .self rest.length, .write .self rest.length]
    let n ← csub 64 bitSteps
    let newBorrow ← rawShl repr n
    let s ← rawShr repr bitSteps
    let rest ← lshrLoop bitSteps rest newBorrow
    .ok ((s ||| borrow) :: rest)

/-- `wrapping_lshr_assign` on the digits of a heap-allocated value,
`/repo/src/apint/shift.rs:157-177`.  Simplified: `rotate_left` is seen as copying all digits. -/
def lshrDigits (digits : List Digit) (s : Nat) : Watched (List Digit) := do
  let ds := digitSteps s
  let digits ←
    if ds ≠ 0 then
      if digits.length < ds then (Except.error .panic : Run (List Digit))
      else do
        let () ← note (copies .self ds .self 0 (digits.length - ds) ++
          fills .self (digits.length - ds) ds)
        let rot := digits.drop ds ++ digits.take ds
        .ok (rot.take (rot.length - ds) ++ List.replicate ds Digit.ZERO)
    else .ok digits
  let bs := bitSteps s
  if bs > 0 then do
    let r ← lshrLoop bs digits.reverse 0#64
    .ok r.reverse
  else .ok digits

/-- `wrapping_lshr_assign`, `/repo/src/apint/shift.rs:147-180`. -/
def wrappingLshrAssign (self : ApInt) (s : Nat) : Watched (Res Unit × ApInt) :=
  match verifyShiftAmount self.width s with
  | .error e => .ok (.error e, self)
  | .ok () => do
    let self : ApInt ←
      match ← self.accessData with
      | .inl digit => do
        let d ← show' [.read .self 0, .write .self 0] (rawShr digit s)
        .ok { self with data := .inl d }
      | .ext digits => do
        let digits ← lshrDigits digits s
        .ok { self with data := .ext digits }
    .ok (.ok (), self)

/-- The body of `wrapping_ashr_assign` on the digits of a heap-allocated value,
`/repo/src/apint/shift.rs:239-270`. -/
def ashrDigits (x : List Digit) (widthBits digits bits : Nat) : Watched (List Digit) := do
  let uns ← csub 64 bits
  let last ← csub x.length 1
  let x ←
    if widthBits ≠ 0 then do
      let d ← rd .self x last
      let w ← BitWidth.from widthBits
      let (r, d) ← Digit.signExtendFrom d w
      let () ← (expect r : Run Unit)
      wr .self x last d
    else .ok x
  let diff ← csub x.length digits
  if digits = 0 then do
    let x ← forRange 0 last x fun i x => do
      let a ← rd .self x i
      let b ← rd .self x (i + 1)
      wr .self x i (Digit.bitor (Digit.shr a bits) (Digit.shl b uns))
    let a ← rd .self x last
    wr .self x last (Digit.bitor (Digit.shr a bits) (Digit.shl Digit.ONES uns))
  else if bits = 0 then do
    let x ← forRange digits x.length x fun i x => do
      let a ← rd .self x i
      let j ← csub i digits
      wr .self x j a
    forRange 0 digits x fun i x => do
      let a ← rd .self x (i + diff)
      wr .self x (i + diff) (Digit.setAll a)
  else do
    let x ← forRange digits last x fun i x => do
      let a ← rd .self x i
      let b ← rd .self x (i + 1)
      let j ← csub i digits
      wr .self x j (Digit.bitor (Digit.shr a bits) (Digit.shl b uns))
    let a ← rd .self x last
    let j ← csub diff 1
    let x ← wr .self x j (Digit.bitor (Digit.shr a bits) (Digit.shl Digit.ONES uns))
    forRange 0 digits x fun i x => do
      let a ← rd .self x (i + diff)
      wr .self x (i + diff) (Digit.setAll a)

/-- `wrapping_ashr_assign`, `/repo/src/apint/shift.rs:216-274`. -/
def wrappingAshrAssign (self : ApInt) (s : Nat) : Watched (Res Unit × ApInt) := do
  let m ← msb self
  let () ← note [.test m]
  if !m then wrappingLshrAssign self s
  else
    match verifyShiftAmount self.width s with
    | .error e => .ok (.error e, self)
    | .ok () =>
      if s = 0 then .ok (.ok (), self)
      else do
        let width := self.width
        let widthBits := width.toUsize % 64
        let digits := s / 64
        let bits := s % 64
        let self : ApInt ←
          match ← self.accessData with
          | .inl x => do
            let () ← note [.read .self 0, .write .self 0]
            let n ← csub width.toUsize bits
            let x := Digit.bitor (Digit.shr x bits) (Digit.shl Digit.ONES n)
            .ok { self with data := .inl x }
          | .ext x => do
            let x ← ashrDigits x widthBits digits bits
            .ok { self with data := .ext x }
        let self ← clearUnusedBits self
        .ok (.ok (), self)

/-! ## Copies and changes of the width -/

/-- `Clone for ApInt`, `/repo/src/apint/casting.rs:13-29`. -/
def clone (self : ApInt) : Watched ApInt :=
  match self.storage with
  | .inl => show' [.read .self 0] self.clone
  | .ext => show' (.alloc self.lenDigits :: copies .self 0 .fresh 0 self.lenDigits) self.clone

/-- `assign`, `/repo/src/apint/casting.rs:39-77`. -/
def assign (self rhs : ApInt) : Watched ApInt :=
  if self.lenDigits = rhs.lenDigits then
    show' (copies .rhs 0 .self 0 self.lenDigits) (self.assign rhs)
  else
    match rhs.storage with
    | .inl => show' [.read .rhs 0] (self.assign rhs)
    | .ext => show' (.alloc rhs.lenDigits :: copies .rhs 0 .fresh 0 rhs.lenDigits) (self.assign rhs)

/-- `strict_assign`, `/repo/src/apint/casting.rs:90-102`. -/
def strictAssign (self rhs : ApInt) : Watched (Res Unit × ApInt) :=
  if self.width ≠ rhs.width then
    .ok (.error (.unmatchingBitwidth self.width rhs.width), self)
  else show' (copies .rhs 0 .self 0 self.lenDigits) (self.strictAssign rhs)

/-- Collecting digits into a new integer, `/repo/src/apint/constructors.rs:170-200`: `n` digits of
the receiver and `m` constants. -/
def collect (n m : Nat) (buffer : List Digit) : Watched (Res ApInt) :=
  show' (.alloc (n + m) :: (copies .self 0 .fresh 0 n ++ fills .fresh n m)) (fromIter buffer)

/-- The `then` branch of `truncate`, `/repo/src/apint/casting.rs:163-182`. -/
def truncateSameDigits (self : ApInt) (targetWidth : BitWidth) : Watched (Res Unit × ApInt) :=
  show' [.read .self (top self), .write .self (top self)] (self.truncateSameDigits targetWidth)

/-- `truncate`, `/repo/src/apint/casting.rs:137-206`. -/
def truncateAux : Nat → ApInt → BitWidth → Watched (Res Unit × ApInt)
  | 0, _, _ => (Except.error .diverge : Run (Res Unit × ApInt))
  | fuel + 1, self, targetWidth =>
    let actualWidth := self.width
    if targetWidth = actualWidth then .ok (.ok (), self)
    else if targetWidth.toUsize > self.width.toUsize then
      .ok (.error (.truncationBitWidthTooLarge targetWidth actualWidth), self)
    else
      let actualReqDigits := actualWidth.requiredDigits
      let targetReqDigits := targetWidth.requiredDigits
      if actualReqDigits = targetReqDigits then truncateSameDigits self targetWidth
      else do
        let ds ← self.asDigitSlice
        let truncatedCopy ← collect targetReqDigits 0 (ds.take targetReqDigits)
        let truncatedCopy ← (expect truncatedCopy : Run ApInt)
        if truncatedCopy.width ≠ targetWidth then do
          let (r, truncatedCopy) ← truncateAux fuel truncatedCopy targetWidth
          match r with
          | .error e => .ok (.error e, self)
          | .ok () => .ok (.ok (), truncatedCopy)
        else .ok (.ok (), truncatedCopy)

/-- `truncate`, `/repo/src/apint/casting.rs:137-206`. -/
def truncate (self : ApInt) (targetWidth : BitWidth) : Watched (Res Unit × ApInt) :=
  truncateAux 2 self targetWidth

/-- `into_truncate`, `/repo/src/apint/casting.rs:119-124`. -/
def intoTruncate (self : ApInt) (targetWidth : BitWidth) : Watched (Res ApInt) := do
  let (r, this) ← truncate self targetWidth
  match r with
  | .error e => .ok (.error e)
  | .ok () => .ok (.ok this)

/-- `zero_extend`, `/repo/src/apint/casting.rs:240-291`. -/
def zeroExtend (self : ApInt) (targetWidth : BitWidth) : Watched (Res Unit × ApInt) :=
  let actualWidth := self.width
  if targetWidth = actualWidth then .ok (.ok (), self)
  else if targetWidth.toUsize < actualWidth.toUsize then
    .ok (.error (.extensionBitWidthTooSmall targetWidth actualWidth), self)
  else
    let actualReqDigits := actualWidth.requiredDigits
    let targetReqDigits := targetWidth.requiredDigits
    if actualReqDigits = targetReqDigits then .ok (.ok (), { self with len := targetWidth })
    else if ¬ (targetReqDigits > actualReqDigits) then
      (Except.error .panic : Run (Res Unit × ApInt))
    else do
      let additionalDigits ← csub targetReqDigits actualReqDigits
      let ds ← self.asDigitSlice
      match ← collect actualReqDigits additionalDigits
          (ds ++ List.replicate additionalDigits Digit.ZERO) with
      | .error e => .ok (.error e, self)
      | .ok apint => do
        match ← intoTruncate apint targetWidth with
        | .error e => .ok (.error e, self)
        | .ok extendedClone => .ok (.ok (), extendedClone)

/-- `zero_resize`, `/repo/src/apint/casting.rs:443-461`. -/
def zeroResize (self : ApInt) (targetWidth : BitWidth) : Watched ApInt :=
  let actualWidth := self.width
  if targetWidth.toUsize ≤ actualWidth.toUsize then do
    let (r, self) ← truncate self targetWidth
    let () ← (expect r : Run Unit)
    pure self
  else do
    let (r, self) ← zeroExtend self targetWidth
    let () ← (expect r : Run Unit)
    pure self

/-! ## Calls that show something -/

/-- The loop of `wrapping_inc`, `/repo/src/apint/arithmetic.rs:35-47`. -/
def incLoop : Nat → List Digit → Watched (List Digit)
  | _, [] => .ok []
  | i, x :: rest => do
    let () ← note [.read .self i, .write .self i, .test (Digit.overflowingAdd x Digit.ONE).2]
    match Digit.overflowingAdd x Digit.ONE with
    | (v, false) => .ok (v :: rest)
    | (v, true) => do
      let rest ← incLoop (i + 1) rest
      .ok (v :: rest)

/-- `wrapping_inc`, `/repo/src/apint/arithmetic.rs:29-51`. -/
def wrappingInc (self : ApInt) : Watched ApInt := do
  let self : ApInt ←
    match ← self.accessData with
    | .inl x => do
      let () ← note [.read .self 0, .write .self 0]
      .ok { self with data := .inl (Digit.wrappingAdd x Digit.ONE) }
    | .ext xs => do
      let xs ← incLoop 0 xs
      .ok { self with data := .ext xs }
  clearUnusedBits self

/-- The loop of `wrapping_dec`, `/repo/src/apint/arithmetic.rs:65-77`. -/
def decLoop : Nat → List Digit → Watched (List Digit)
  | _, [] => .ok []
  | i, x :: rest => do
    let () ← note [.read .self i, .write .self i, .test (Digit.overflowingSub x Digit.ONE).2]
    match Digit.overflowingSub x Digit.ONE with
    | (v, false) => .ok (v :: rest)
    | (v, true) => do
      let rest ← decLoop (i + 1) rest
      .ok (v :: rest)

/-- `wrapping_dec`, `/repo/src/apint/arithmetic.rs:59-81`. -/
def wrappingDec (self : ApInt) : Watched ApInt := do
  let self : ApInt ←
    match ← self.accessData with
    | .inl x => do
      let () ← note [.read .self 0, .write .self 0]
      .ok { self with data := .inl (Digit.wrappingSub x Digit.ONE) }
    | .ext xs => do
      let xs ← decLoop 0 xs
      .ok { self with data := .ext xs }
  clearUnusedBits self

/-- `wrapping_neg`, `/repo/src/apint/arithmetic.rs:89-93`. -/
def wrappingNeg (self : ApInt) : Watched ApInt := do
  let self ← bitnot self
  wrappingInc self

/-- Lines 368-371 and 384-387 of `sign_extend`, `/repo/src/apint/casting.rs:368-371`,
`/repo/src/apint/casting.rs:384-387`. -/
def signExtendMsd (self : ApInt) (actualWidth : BitWidth) : Watched (Res Unit × ApInt) :=
  match actualWidth.excessWidth with
  | none => .ok (.ok (), self)
  | some excessWidth => do
    let d ← show' [.read .self (top self)] self.mostSignificantDigit
    let (r, d') ← Digit.signExtendFrom d excessWidth
    let self ← show' [.write .self (top self)] (self.setMostSignificantDigit d')
    .ok (r, self)

/-- `sign_extend`, `/repo/src/apint/casting.rs:325-400`. -/
def signExtend (self : ApInt) (targetWidth : BitWidth) : Watched (Res Unit × ApInt) :=
  let actualWidth := self.width
  if targetWidth = actualWidth then .ok (.ok (), self)
  else if targetWidth.toUsize < actualWidth.toUsize then
    .ok (.error (.extensionBitWidthTooSmall targetWidth actualWidth), self)
  else do
    let m ← msb self
    let () ← note [.test m]
    if !m then zeroExtend self targetWidth
    else
      let actualReqDigits := actualWidth.requiredDigits
      let targetReqDigits := targetWidth.requiredDigits
      if actualReqDigits = targetReqDigits then do
        let self : ApInt := { self with len := targetWidth }
        let (r, self) ← signExtendMsd self actualWidth
        match r with
        | .error e => .ok (.error e, self)
        | .ok () => do
          let self ← clearUnusedBits self
          .ok (.ok (), self)
      else if ¬ (targetReqDigits > actualReqDigits) then
        (Except.error .panic : Run (Res Unit × ApInt))
      else do
        let additionalDigits ← csub targetReqDigits actualReqDigits
        let (r, self) ← signExtendMsd self actualWidth
        match r with
        | .error e => .ok (.error e, self)
        | .ok () => do
          let ds ← self.asDigitSlice
          match ← collect actualReqDigits additionalDigits
              (ds ++ List.replicate additionalDigits Digit.ONES) with
          | .error e => .ok (.error e, self)
          | .ok apint => do
            match ← intoTruncate apint targetWidth with
            | .error e => .ok (.error e, self)
            | .ok extendedCopy => do
              let _ ← clearUnusedBits self
              .ok (.ok (), extendedCopy)

/-- The loop of `checked_ult`, `/repo/src/apint/relational.rs:46-53`, from the most significant digit
down.  The tests of the source are `l < r` and `l > r`. -/
def ultLoop : List (Digit × Digit) → Watched Bool
  | [] => .ok false
  | (l, r) :: rest => do
    let () ← note [.read .self rest.length, .read .rhs rest.length, .test (l.toNat < r.toNat)]
    if l.toNat < r.toNat then .ok true
    else do
      let () ← note [.test (l.toNat > r.toNat)]
      if l.toNat > r.toNat then .ok false
      else ultLoop rest

/-- `checked_ult`, `/repo/src/apint/relational.rs:36-56`. -/
def checkedUlt (self rhs : ApInt) : Watched (Res Bool) := do
  match ← self.zipAccessData rhs with
  | .error e => .ok (.error e)
  | .ok (.inl l r) => do
    let () ← note [.read .self 0, .read .rhs 0]
    .ok (.ok (l.toNat < r.toNat))
  | .ok (.ext l r) => do
    let b ← ultLoop (l.reverse.zip r.reverse)
    .ok (.ok b)

/-- The loop of `is_zero`, `digits.iter().all(..)`, `/repo/src/apint/utils.rs:388-390`. -/
def zeroLoop : Nat → List Digit → Watched Bool
  | _, [] => .ok true
  | i, d :: rest => do
    let () ← note [.read .self i, .test (Digit.isZero d)]
    if Digit.isZero d then zeroLoop (i + 1) rest else .ok false

/-- `is_zero`, `/repo/src/apint/utils.rs:385-392`. -/
def isZero (self : ApInt) : Watched Bool := do
  match ← self.accessData with
  | .inl digit => do
    let () ← note [.read .self 0]
    .ok (Digit.isZero digit)
  | .ext digits => zeroLoop 0 digits

/-! ## Programs -/

/-- Calls on one integer that show nothing, in place or consuming.  Names of methods of
`/repo/src/apint/{bitwise,shift,casting}.rs`. -/
inductive QUn where
  | bitnot | shl (s : Nat) | lshr (s : Nat)
  | truncate (t : BitWidth) | zeroExtend (t : BitWidth) | zeroResize (t : BitWidth)

/-- Calls on single or all bits of one integer that show nothing.  Names of methods of
`/repo/src/apint/bitwise.rs`. -/
inductive QAlter where
  | setAll | unsetAll | flipAll | setMsb | unsetMsb | flipMsb
  | setBit (p : Nat) | unsetBit (p : Nat) | flipBit (p : Nat)

/-- Calls on two integers that show nothing.  Names of methods of
`/repo/src/apint/{arithmetic,bitwise}.rs`. -/
inductive QBin where
  | add | sub | and | or | xor

/-- Questions that show nothing but their answer.  Names of methods of
`/repo/src/apint/{utils,bitwise}.rs`. -/
inductive QAsk where
  | width | isEven | isOdd | msb | lsb | bit (p : Nat) | countOnes | countZeros

/-- The calls of a program without secret-dependent timing, with the meaning they have in `Instr`.
Client code, not in `/repo`. -/
inductive Quiet where
  | clone (x : Nat)
  | drop (x : Nat)
  | assign (x y : Nat)
  | strictAssign (x y : Nat)
  | un (o : QUn) (x : Nat)
  | intoUn (o : QUn) (x : Nat)
  | alter (o : QAlter) (x : Nat)
  | bin (o : QBin) (x y : Nat)
  | intoBin (o : QBin) (x y : Nat)
  | opAssign (o : QBin) (x y : Nat)
  | op (o : QBin) (x y : Nat)
  | opShlAssign (s x : Nat)
  | opShl (s x : Nat)
  | ask (q : QAsk) (x : Nat)

/-- The method that is meant. Client code, not in `/repo`. -/
def QUn.un : QUn → Un
  | .bitnot => .bitnot
  | .shl s => .shl s
  | .lshr s => .lshr s
  | .truncate t => .truncate t
  | .zeroExtend t => .zeroExtend t
  | .zeroResize t => .zeroResize t

/-- The method that is meant. Client code, not in `/repo`. -/
def QAlter.alter : QAlter → Alter
  | .setAll => .setAll
  | .unsetAll => .unsetAll
  | .flipAll => .flipAll
  | .setMsb => .setMsb
  | .unsetMsb => .unsetMsb
  | .flipMsb => .flipMsb
  | .setBit p => .setBit p
  | .unsetBit p => .unsetBit p
  | .flipBit p => .flipBit p

/-- The method that is meant. Client code, not in `/repo`. -/
def QBin.bin : QBin → Bin
  | .add => .add
  | .sub => .sub
  | .and => .and
  | .or => .or
  | .xor => .xor

/-- The operator that is meant. Client code, not in `/repo`. -/
def QBin.op : QBin → Op
  | .add => .add
  | .sub => .sub
  | .and => .and
  | .or => .or
  | .xor => .xor

/-- The question that is meant. Client code, not in `/repo`. -/
def QAsk.ask : QAsk → Ask
  | .width => .width
  | .isEven => .isEven
  | .isOdd => .isOdd
  | .msb => .msb
  | .lsb => .lsb
  | .bit p => .bit p
  | .countOnes => .countOnes
  | .countZeros => .countZeros

/-- The call that is meant. Client code, not in `/repo`. -/
def Quiet.instr : Quiet → Instr
  | .clone x => .clone x
  | .drop x => .drop x
  | .assign x y => .assign x y
  | .strictAssign x y => .strictAssign x y
  | .un o x => .un o.un x
  | .intoUn o x => .intoUn o.un x
  | .alter o x => .alter o.alter x
  | .bin o x y => .bin o.bin x y
  | .intoBin o x y => .intoBin o.bin x y
  | .opAssign o x y => .opAssign o.op x y
  | .op o x y => .op o.op x y
  | .opShlAssign s x => .opShlAssign s x
  | .opShl s x => .opShl s x
  | .ask q x => .ask q.ask x

/-- As `done` of `Model/Program.lean`. Not in `/repo`. -/
def done (r : Watched ApInt) : Watched (Res Unit × ApInt) := do
  let c ← r
  pure (.ok (), c)

/-- As `fine` of `Model/Program.lean`. Not in `/repo`. -/
def fine (r : Watched ApInt) : Watched (Res ApInt) := do
  let c ← r
  pure (.ok c)

/-- As `tell` of `Model/Program.lean`. Not in `/repo`. -/
def tell {α : Type} (f : α → Out) (r : Watched α) : Watched (Res Out) := do
  let v ← r
  pure (.ok (f v))

/-- As `tellRes` of `Model/Program.lean`. Not in `/repo`. -/
def tellRes {α : Type} (f : α → Out) (r : Watched (Res α)) : Watched (Res Out) := do
  match ← r with
  | .ok v => pure (.ok (f v))
  | .error e => pure (.error e)

/-- A consuming method made from one that works in place, `/repo/src/utils.rs:6-37`. -/
def into (r : Watched (Res Unit × ApInt)) : Watched (Res ApInt) := do
  let (r, this) ← r
  match r with
  | .error e => .ok (.error e)
  | .ok () => .ok (.ok this)

/-- The `unwrap` of the operators, `/repo/src/std_ops.rs:92-106`. -/
def unwrap (r : Watched (Res ApInt)) : Watched ApInt := do
  let r ← r
  (expect r : Run ApInt)

/-- The `unwrap` of the assigning operators, `/repo/src/std_ops.rs:145-155`. -/
def unwrapMut (r : Watched (Res Unit × ApInt)) : Watched ApInt := do
  let (r, self) ← r
  let () ← (expect r : Run Unit)
  pure self

/-- In-place unary methods, `/repo/src/apint/{bitwise,shift,casting}.rs`. -/
def QUn.exec : QUn → ApInt → Watched (Res Unit × ApInt)
  | .bitnot, x => done (Trace.bitnot x)
  | .shl s, x => wrappingShlAssign x s
  | .lshr s, x => wrappingLshrAssign x s
  | .truncate t, x => Trace.truncate x t
  | .zeroExtend t, x => Trace.zeroExtend x t
  | .zeroResize t, x => done (Trace.zeroResize x t)

/-- Bit level methods, `/repo/src/apint/bitwise.rs:116-242`. -/
def QAlter.exec : QAlter → ApInt → Watched (Res Unit × ApInt)
  | .setAll, x => done (Trace.setAll x)
  | .unsetAll, x => done (Trace.unsetAll x)
  | .flipAll, x => done (Trace.flipAll x)
  | .setMsb, x => done (modifyMsb x Digit.set)
  | .unsetMsb, x => done (modifyMsb x Digit.unset)
  | .flipMsb, x => done (modifyMsb x Digit.flip)
  | .setBit p, x => modifyBitAt x p Digit.set
  | .unsetBit p, x => modifyBitAt x p Digit.unset
  | .flipBit p, x => modifyBitAt x p Digit.flip

/-- In-place binary methods, `/repo/src/apint/arithmetic.rs:105-254`,
`/repo/src/apint/bitwise.rs:42-86`. -/
def QBin.exec : QBin → ApInt → ApInt → Watched (Res Unit × ApInt)
  | .add => wrappingAddAssign
  | .sub => wrappingSubAssign
  | .and => bitandAssign
  | .or => bitorAssign
  | .xor => bitxorAssign

/-- Queries, `/repo/src/apint/utils.rs:83-426`, `/repo/src/apint/bitwise.rs:96-268`. -/
def QAsk.exec : QAsk → ApInt → Watched (Res Out)
  | .width, x => pure (.ok (.nat x.width.toUsize))
  | .isEven, x => tell .bool (Trace.isEven x)
  | .isOdd, x => tell .bool (Trace.lsb x)
  | .msb, x => tell .bool (Trace.msb x)
  | .lsb, x => tell .bool (Trace.lsb x)
  | .bit p, x => tellRes .bool (getBitAt x p)
  | .countOnes, x => tell .nat (Trace.countOnes x)
  | .countZeros, x => tell .nat (Trace.countZeros x)

/-- As `storeRes` of `Model/Program.lean`. Client code, not in `/repo`. -/
def storeRes (b : Bank) (x : Nat) (r : Watched (Res Unit × ApInt)) : Watched (Res Out × Bank) := do
  let (e, c) ← r
  pure (e.map fun _ => .unit, b.set x c)

/-- As `pushRes` of `Model/Program.lean`. Client code, not in `/repo`. -/
def pushRes (b : Bank) (r : Watched (Res ApInt)) : Watched (Res Out × Bank) := do
  match ← r with
  | .ok c => pure (.ok .unit, b ++ [c])
  | .error e => pure (.error e, b)

/-- One call, seen from outside.  As `Instr.exec` of `Model/Program.lean`.  The calls are those cited
above; the rest is client code, not in `/repo`. -/
def Quiet.exec (i : Quiet) (b : Bank) : Watched (Res Out × Bank) :=
  let one (x : Nat) (k : ApInt → Watched (Res Out × Bank)) : Watched (Res Out × Bank) :=
    match b[x]? with
    | some a => k a
    | none => pure (.ok .unit, b)
  let two (x y : Nat) (k : ApInt → ApInt → Watched (Res Out × Bank)) : Watched (Res Out × Bank) :=
    match b[x]?, b[y]? with
    | some a, some c => k a c
    | _, _ => pure (.ok .unit, b)
  match i with
  | .clone x => one x fun a => Trace.pushRes b (Trace.fine (Trace.clone a))
  | .drop x => pure (.ok .unit, b.eraseIdx x)
  | .assign x y => two x y fun a c => Trace.storeRes b x (Trace.done (Trace.assign a c))
  | .strictAssign x y => two x y fun a c => Trace.storeRes b x (Trace.strictAssign a c)
  | .un o x => one x fun a => Trace.storeRes b x (o.exec a)
  | .intoUn o x => one x fun a => Trace.pushRes b (do let a ← Trace.clone a; into (o.exec a))
  | .alter o x => one x fun a => Trace.storeRes b x (o.exec a)
  | .bin o x y => two x y fun a c => Trace.storeRes b x (o.exec a c)
  | .intoBin o x y => two x y fun a c =>
      Trace.pushRes b (do let a ← Trace.clone a; into (o.exec a c))
  | .opAssign o x y => two x y fun a c =>
      Trace.storeRes b x (Trace.done (Trace.unwrapMut (o.exec a c)))
  | .op o x y => two x y fun a c =>
      Trace.pushRes b (do let a ← Trace.clone a; Trace.fine (unwrap (into (o.exec a c))))
  | .opShlAssign s x => one x fun a =>
      Trace.storeRes b x (Trace.done (Trace.unwrapMut (Trace.wrappingShlAssign a s)))
  | .opShl s x => one x fun a =>
      Trace.pushRes b
        (do let a ← Trace.clone a; Trace.fine (unwrap (into (Trace.wrappingShlAssign a s))))
  | .ask q x => one x fun a => do
      let r ← q.exec a
      pure (r, b)

/-- A program, seen from outside: the answers, the bank at the end, and all that was seen before the
end or before the call that stopped with a fault. Client code, not in `/repo`. -/
def run : List Quiet → Bank → List (Res Out) × Run Bank × List Sight
  | [], b => ([], .ok b, [])
  | i :: is, b =>
    match i.exec b with
    | Except.ok ((r, b), s) =>
      let (rs, e, t) := run is b
      (r :: rs, e, s ++ t)
    | Except.error f => ([], .error f, [])

end Trace

end Verif
