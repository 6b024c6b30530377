import Verif.Model.ApInt

/-!
# Constructors and width changes (`/repo/src/apint/constructors.rs`,
`/repo/src/apint/casting.rs`)
-/

namespace Verif

namespace ApInt

/-! ## Low-level constructors -/

/-- `new_inl`, `/repo/src/apint/constructors.rs:52-58`. -/
def newInl (width : BitWidth) (digit : Digit) : Run ApInt :=
  if width.storage = .inl then .ok ⟨width, .inl digit⟩ else .error .panic

/-- `new_ext`, `/repo/src/apint/constructors.rs:71-82`.  The pointer is replaced by the digits
it points to. -/
def newExt (width : BitWidth) (digits : List Digit) : Run ApInt :=
  if width.storage = .ext then .ok ⟨width, .ext digits⟩ else .error .panic

/-- `from_iter`, `/repo/src/apint/constructors.rs:170-200`.  The capacity of the `SmallVec`
after `shrink_to_fit` (line 192-193) is taken to be its length; ownership of the buffer is
modelled separately in `Verif.Model.Heap`. -/
def fromIter (buffer : List Digit) : Run (Res ApInt) :=
  match buffer with
  | [] => .ok (.error .expectedNonEmptyDigits)
  | [d] => do
    let r ← newInl BitWidth.w64 d
    .ok (.ok r)
  | _ => do
    let n := buffer.length
    let bitwidth ← expect (BitWidth.new (n * 64))
    let reqDigits := bitwidth.requiredDigits
    if buffer.length ≠ reqDigits then .error .panic
    else do
      let r ← newExt bitwidth buffer
      .ok (.ok r)

/-! ## `Clone`, `assign` -/

/-- `Clone for ApInt`, `/repo/src/apint/casting.rs:13-29`. -/
def clone (self : ApInt) : Run ApInt :=
  match self.storage with
  | .inl => do
    let d ← self.readInl
    newInl self.len d
  | .ext => do
    let reqDigits := self.lenDigits
    let buffer ← self.asDigitSlice
    if buffer.length ≠ reqDigits then .error .panic
    else newExt self.len buffer

/-- `assign`, `/repo/src/apint/casting.rs:39-77`.  Deallocation of the old buffer is modelled
separately in `Verif.Model.Heap`. -/
def assign (self rhs : ApInt) : Run ApInt :=
  if self.lenDigits = rhs.lenDigits then do
    let dst ← self.asDigitSlice
    let src ← rhs.asDigitSlice
    let ds ← copyFromSlice dst src
    let self ← self.writeDigitSlice ds
    .ok { self with len := rhs.len }
  else
    match rhs.storage with
    | .inl => do
      let d ← rhs.readInl
      .ok ⟨rhs.len, .inl d⟩
    | .ext => do
      let cloned ← rhs.clone
      .ok ⟨rhs.len, cloned.data⟩

/-- `strict_assign`, `/repo/src/apint/casting.rs:90-102`. -/
def strictAssign (self rhs : ApInt) : Run (Res Unit × ApInt) :=
  if self.width ≠ rhs.width then
    .ok (.error (.unmatchingBitwidth self.width rhs.width), self)
  else do
    let dst ← self.asDigitSlice
    let src ← rhs.asDigitSlice
    let ds ← copyFromSlice dst src
    let self ← self.writeDigitSlice ds
    .ok (.ok (), self)

/-! ## Truncation and extension -/

/-- The `then` branch of `truncate`, `/repo/src/apint/casting.rs:163-182`, reached when both
widths need the same number of digits. -/
def truncateSameDigits (self : ApInt) (targetWidth : BitWidth) : Run (Res Unit × ApInt) :=
  match targetWidth.excessBits with
  | none => .error .panic
  | some excess => do
    let d ← self.mostSignificantDigit
    let w ← BitWidth.from excess
    let (r, d') ← Digit.truncateTo d w
    let self ← self.setMostSignificantDigit d'
    let () ← expect r
    .ok (.ok (), { self with len := targetWidth })

/-- `truncate`, `/repo/src/apint/casting.rs:137-206`.  The recursive call on line 201 is made
on a value whose width is the digit-aligned width of the target, so it can only return early
or take the `then` branch; the model keeps the whole function for it with one level of
recursion (`fuel`), and runs out of fuel with `diverge`. -/
def truncateAux : Nat → ApInt → BitWidth → Run (Res Unit × ApInt)
  | 0, _, _ => .error .diverge
  | fuel + 1, self, targetWidth =>
    let actualWidth := self.width
    if targetWidth = actualWidth then .ok (.ok (), self)
    else if targetWidth.toUsize > self.width.toUsize then
      .ok (.error (.truncationBitWidthTooLarge targetWidth actualWidth), self)
    else
      let actualReqDigits := actualWidth.requiredDigits
      let targetReqDigits := targetWidth.requiredDigits
      if actualReqDigits = targetReqDigits then truncateSameDigits self targetWidth
      else do
        let ds ← self.asDigitSlice
        let truncatedCopy ← fromIter (ds.take targetReqDigits)
        let truncatedCopy ← expect truncatedCopy
        if truncatedCopy.width ≠ targetWidth then do
          let (r, truncatedCopy) ← truncateAux fuel truncatedCopy targetWidth
          match r with
          | .error e => .ok (.error e, self)
          | .ok () => .ok (.ok (), truncatedCopy)
        else .ok (.ok (), truncatedCopy)

/-- `truncate`, `/repo/src/apint/casting.rs:137-206`. -/
def truncate (self : ApInt) (targetWidth : BitWidth) : Run (Res Unit × ApInt) :=
  truncateAux 2 self targetWidth

/-- `into_truncate`, `/repo/src/apint/casting.rs:119-124`. -/
def intoTruncate (self : ApInt) (targetWidth : BitWidth) : Run (Res ApInt) :=
  tryForwardBinMutImpl self targetWidth truncate

/-- `zero_extend`, `/repo/src/apint/casting.rs:240-291`. -/
def zeroExtend (self : ApInt) (targetWidth : BitWidth) : Run (Res Unit × ApInt) :=
  let actualWidth := self.width
  if targetWidth = actualWidth then .ok (.ok (), self)
  else if targetWidth.toUsize < actualWidth.toUsize then
    .ok (.error (.extensionBitWidthTooSmall targetWidth actualWidth), self)
  else
    let actualReqDigits := actualWidth.requiredDigits
    let targetReqDigits := targetWidth.requiredDigits
    if actualReqDigits = targetReqDigits then .ok (.ok (), { self with len := targetWidth })
    else if ¬ (targetReqDigits > actualReqDigits) then .error .panic
    else do
      let additionalDigits ← csub targetReqDigits actualReqDigits
      let ds ← self.asDigitSlice
      match ← fromIter (ds ++ List.replicate additionalDigits Digit.ZERO) with
      | .error e => .ok (.error e, self)
      | .ok apint => do
        match ← apint.intoTruncate targetWidth with
        | .error e => .ok (.error e, self)
        | .ok extendedClone => .ok (.ok (), extendedClone)

/-- `into_zero_extend`, `/repo/src/apint/casting.rs:222-227`. -/
def intoZeroExtend (self : ApInt) (targetWidth : BitWidth) : Run (Res ApInt) :=
  tryForwardBinMutImpl self targetWidth zeroExtend

/-- Lines 368-371 and 384-387 of `sign_extend`: sign-extend the most significant digit from
the number of used bits of the actual width. `/repo/src/apint/casting.rs:368-371`,
`/repo/src/apint/casting.rs:384-387`. -/
def signExtendMsd (self : ApInt) (actualWidth : BitWidth) : Run (Res Unit × ApInt) :=
  match actualWidth.excessWidth with
  | none => .ok (.ok (), self)
  | some excessWidth => do
    let d ← self.mostSignificantDigit
    let (r, d') ← Digit.signExtendFrom d excessWidth
    let self ← self.setMostSignificantDigit d'
    .ok (r, self)

/-- `sign_extend`, `/repo/src/apint/casting.rs:325-400`. -/
def signExtend (self : ApInt) (targetWidth : BitWidth) : Run (Res Unit × ApInt) :=
  let actualWidth := self.width
  if targetWidth = actualWidth then .ok (.ok (), self)
  else if targetWidth.toUsize < actualWidth.toUsize then
    .ok (.error (.extensionBitWidthTooSmall targetWidth actualWidth), self)
  else do
    let m ← self.msb
    if !m then self.zeroExtend targetWidth
    else
      let actualReqDigits := actualWidth.requiredDigits
      let targetReqDigits := targetWidth.requiredDigits
      if actualReqDigits = targetReqDigits then do
        let self : ApInt := { self with len := targetWidth }
        let (r, self) ← self.signExtendMsd actualWidth
        match r with
        | .error e => .ok (.error e, self)
        | .ok () => do
          let self ← self.clearUnusedBits
          .ok (.ok (), self)
      else if ¬ (targetReqDigits > actualReqDigits) then .error .panic
      else do
        let additionalDigits ← csub targetReqDigits actualReqDigits
        let (r, self) ← self.signExtendMsd actualWidth
        match r with
        | .error e => .ok (.error e, self)
        | .ok () => do
          let ds ← self.asDigitSlice
          match ← fromIter (ds ++ List.replicate additionalDigits Digit.ONES) with
          | .error e => .ok (.error e, self)
          | .ok apint => do
            match ← apint.intoTruncate targetWidth with
            | .error e => .ok (.error e, self)
            | .ok extendedCopy => do
              let _ ← self.clearUnusedBits
              .ok (.ok (), extendedCopy)

/-- `into_sign_extend`, `/repo/src/apint/casting.rs:307-312`. -/
def intoSignExtend (self : ApInt) (targetWidth : BitWidth) : Run (Res ApInt) :=
  tryForwardBinMutImpl self targetWidth signExtend

/-- `zero_resize`, `/repo/src/apint/casting.rs:443-461`. -/
def zeroResize (self : ApInt) (targetWidth : BitWidth) : Run ApInt :=
  let actualWidth := self.width
  if targetWidth.toUsize ≤ actualWidth.toUsize then do
    let (r, self) ← self.truncate targetWidth
    let () ← expect r
    pure self
  else do
    let (r, self) ← self.zeroExtend targetWidth
    let () ← expect r
    pure self

/-- `sign_resize`, `/repo/src/apint/casting.rs:472-490`. -/
def signResize (self : ApInt) (targetWidth : BitWidth) : Run ApInt :=
  let actualWidth := self.width
  if targetWidth.toUsize ≤ actualWidth.toUsize then do
    let (r, self) ← self.truncate targetWidth
    let () ← expect r
    pure self
  else do
    let (r, self) ← self.signExtend targetWidth
    let () ← expect r
    pure self

/-- `into_zero_resize`, `/repo/src/apint/casting.rs:412-417`. -/
def intoZeroResize (self : ApInt) (targetWidth : BitWidth) : Run ApInt :=
  forwardBinMutImpl self targetWidth zeroResize

/-- `into_sign_resize`, `/repo/src/apint/casting.rs:427-432`. -/
def intoSignResize (self : ApInt) (targetWidth : BitWidth) : Run ApInt :=
  forwardBinMutImpl self targetWidth signResize

end ApInt

end Verif
