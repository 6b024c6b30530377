import Verif.Model.Digit

/-!
# Access to the digits of an `ApInt` (`/repo/src/apint/utils.rs`) and the forwarding helpers
(`/repo/src/utils.rs`)

A method taking `&mut self` and returning `Result<()>` becomes a function returning
`Run (Res Unit × ApInt)`: the result together with the state `self` is left in, whether or not
the result is an error.
-/

namespace Verif

/-- `forward_mut_impl`, `/repo/src/utils.rs:6-13`. -/
def forwardMutImpl {α : Type} (entity : α) (op : α → Run α) : Run α := do
  let this ← op entity
  pure this

/-- `forward_bin_mut_impl`, `/repo/src/utils.rs:18-25`. -/
def forwardBinMutImpl {α β : Type} (entity : α) (rhs : β) (op : α → β → Run α) : Run α := do
  let this ← op entity rhs
  pure this

/-- `try_forward_bin_mut_impl`, `/repo/src/utils.rs:30-37`. -/
def tryForwardBinMutImpl {α β : Type} (entity : α) (rhs : β)
    (op : α → β → Run (Res Unit × α)) : Run (Res α) := do
  let (r, this) ← op entity rhs
  match r with
  | .error e => .ok (.error e)
  | .ok () => .ok (.ok this)

/-- `enum ZipDataAccess`, `ZipDataAccessMutSelf`, `ZipDataAccessMutBoth`,
`/repo/src/apint/utils.rs:63-79`. The three Rust types differ only in which side is mutable. -/
inductive Zip where
  | inl (l r : Digit)
  | ext (l r : List Digit)

namespace ApInt

/-- `Width for ApInt`, `/repo/src/apint/utils.rs:83-89`. -/
def width (self : ApInt) : BitWidth := self.len

/-- `len_bits`, `/repo/src/apint/utils.rs:95-97`. -/
def lenBits (self : ApInt) : Nat := self.len.toUsize

/-- `len_digits`, `/repo/src/apint/utils.rs:102-104`. -/
def lenDigits (self : ApInt) : Nat := self.len.requiredDigits

/-- `storage`, `/repo/src/apint/utils.rs:111-113`. -/
def storage (self : ApInt) : Storage := self.len.storage

/-- Reading the `inl` field of the union (`unsafe { self.data.inl }`, for example
`/repo/src/apint/utils.rs:119`). -/
def readInl (self : ApInt) : Run Digit :=
  match self.data with
  | .inl d => .ok d
  | .ext _ => .error .ub

/-- Building a slice of `len_digits` digits from the `ext` pointer
(`/repo/src/apint/utils.rs:283-285,298-303`). -/
def readExt (self : ApInt) : Run (List Digit) :=
  match self.data with
  | .inl _ => .error .ub
  | .ext ds => if ds.length = self.lenDigits then .ok ds else .error .ub

/-- `as_digit_slice`, `/repo/src/apint/utils.rs:279-287` (and `digits`, lines 39-41). -/
def asDigitSlice (self : ApInt) : Run (List Digit) :=
  match self.storage with
  | .inl => do
    let d ← self.readInl
    pure [d]
  | .ext => self.readExt

/-- Writing back through `as_digit_slice_mut`, `/repo/src/apint/utils.rs:292-305`: the slice
keeps its length. -/
def writeDigitSlice (self : ApInt) (ds : List Digit) : Run ApInt :=
  match self.storage with
  | .inl =>
    match ds with
    | [d] => .ok { self with data := .inl d }
    | _ => .error .ub
  | .ext => .ok { self with data := .ext ds }

/-- `access_data` and `access_data_mut`, `/repo/src/apint/utils.rs:117-132`. -/
def accessData (self : ApInt) : Run Data :=
  match self.storage with
  | .inl => do
    let d ← self.readInl
    pure (.inl d)
  | .ext => do
    let ds ← self.readExt
    pure (.ext ds)

/-- `zip_access_data`, `zip_access_data_mut_self`, `zip_access_data_mut_both`,
`/repo/src/apint/utils.rs:141-223`. -/
def zipAccessData (self other : ApInt) : Run (Res Zip) :=
  if self.width ≠ other.width then
    .ok (.error (.unmatchingBitwidth self.width other.width))
  else
    match self.storage with
    | .inl => do
      let l ← self.readInl
      let r ← other.readInl
      .ok (.ok (.inl l r))
    | .ext => do
      let l ← self.readExt
      let r ← other.readExt
      .ok (.ok (.ext l r))

/-- `modify_digits`, `/repo/src/apint/utils.rs:233-246`. -/
def modifyDigits (self : ApInt) (f : Digit → Digit) : Run ApInt := do
  match ← self.accessData with
  | .inl digit => .ok { self with data := .inl (f digit) }
  | .ext digits => .ok { self with data := .ext (digits.map f) }

/-- `modify_zipped_digits`, `/repo/src/apint/utils.rs:256-274`. -/
def modifyZippedDigits (self rhs : ApInt) (f : Digit → Digit → Digit) :
    Run (Res Unit × ApInt) := do
  match ← self.zipAccessData rhs with
  | .error e => .ok (.error e, self)
  | .ok (.inl l r) => .ok (.ok (), { self with data := .inl (f l r) })
  | .ok (.ext l r) => .ok (.ok (), { self with data := .ext (List.zipWith f l r) })

/-- `most_significant_digit`, `/repo/src/apint/utils.rs:309-314`. -/
def mostSignificantDigit (self : ApInt) : Run Digit := do
  match ← self.accessData with
  | .inl digit => .ok digit
  | .ext digits =>
    match digits.getLast? with
    | some d => .ok d
    | none => .error .panic

/-- Assignment through `most_significant_digit_mut`, `/repo/src/apint/utils.rs:319-326`. -/
def setMostSignificantDigit (self : ApInt) (d : Digit) : Run ApInt := do
  match ← self.accessData with
  | .inl _ => .ok { self with data := .inl d }
  | .ext digits =>
    match digits with
    | [] => .error .panic
    | _ :: _ => .ok { self with data := .ext (digits.set (digits.length - 1) d) }

/-- `least_significant_digit`, `/repo/src/apint/utils.rs:330-335`. -/
def leastSignificantDigit (self : ApInt) : Run Digit := do
  match ← self.accessData with
  | .inl digit => .ok digit
  | .ext digits => idx digits 0

/-- `msb`, `/repo/src/apint/utils.rs:339-347`. -/
def msb (self : ApInt) : Run Bool := do
  let msbPos := self.width.msbPos
  let d ← self.mostSignificantDigit
  let r ← Digit.get d (toPosWithinDigit msbPos)
  expect r

/-- `lsb`, `/repo/src/apint/utils.rs:351-353`. -/
def lsb (self : ApInt) : Run Bool := do
  let d ← self.leastSignificantDigit
  pure (Digit.lsb d)

/-- `clear_unused_bits`, `/repo/src/apint/utils.rs:366-375`. -/
def clearUnusedBits (self : ApInt) : Run ApInt :=
  match self.width.excessBits with
  | none => .ok self
  | some bits => do
    let d ← self.mostSignificantDigit
    let (r, d') ← Digit.retainLastN d bits
    let self ← self.setMostSignificantDigit d'
    let () ← expect r
    pure self

/-- `is_zero`, `/repo/src/apint/utils.rs:385-392`. -/
def isZero (self : ApInt) : Run Bool := do
  match ← self.accessData with
  | .inl digit => .ok (Digit.isZero digit)
  | .ext digits => .ok (digits.all fun d => Digit.isZero d)

/-- `is_one`, `/repo/src/apint/utils.rs:402-412`.  `unreachable!()` on an empty slice is a
panic. -/
def isOne (self : ApInt) : Run Bool := do
  match ← self.accessData with
  | .inl digit => .ok (digit == Digit.ONE)
  | .ext digits =>
    match digits.getLast? with
    | none => .error .panic
    | some last => .ok ((last == Digit.ONE) && digits.dropLast.all fun d => Digit.isZero d)

/-- `is_even`, `/repo/src/apint/utils.rs:417-419`. -/
def isEven (self : ApInt) : Run Bool := do
  let b ← self.lsb
  pure (!b)

/-- `is_odd`, `/repo/src/apint/utils.rs:424-426`. -/
def isOdd (self : ApInt) : Run Bool := self.lsb

/-- `split_least_significant_digit`, `/repo/src/apint/utils.rs:431-444`. -/
def splitLeastSignificantDigit (self : ApInt) : Run (Digit × List Digit) := do
  match ← self.accessData with
  | .inl digit => .ok (digit, [])
  | .ext digits =>
    match digits with
    | [] => .error .panic
    | d :: rest => .ok (d, rest)

/-- `split_most_significant_digit`, `/repo/src/apint/utils.rs:449-462`. -/
def splitMostSignificantDigit (self : ApInt) : Run (Digit × List Digit) := do
  match ← self.accessData with
  | .inl digit => .ok (digit, [])
  | .ext digits =>
    match digits.getLast? with
    | none => .error .panic
    | some d => .ok (d, digits.dropLast)

/-- The data fed to the hasher by `Hash for ApInt`, `/repo/src/apint/utils.rs:29-34`: the
width, then the digit slice.  The hashing algorithm itself is not modelled; equal fed
data gives equal hashes for every `Hasher`. -/
def hashInput (self : ApInt) : Run (Nat × List Digit) := do
  let ds ← self.asDigitSlice
  pure (self.len.toUsize, ds)

end ApInt

end Verif
