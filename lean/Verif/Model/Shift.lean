import Verif.Model.Bitwise

/-!
# Shifts (`/repo/src/apint/shift.rs`)
-/

namespace Verif

namespace ApInt

/-- `ShiftAmount::digit_steps`, `/repo/src/apint/shift.rs:35-37`. -/
def digitSteps (s : Nat) : Nat := s / 64

/-- `ShiftAmount::bit_steps`, `/repo/src/apint/shift.rs:53-55`. -/
def bitSteps (s : Nat) : Nat := s % 64

/-- The carry loop of `wrapping_shl_assign`, `/repo/src/apint/shift.rs:109-115`. -/
def shlLoop (bitSteps : Nat) : List Digit → Digit → Run (List Digit)
  | [], _ => .ok []
  | repr :: rest, carry => do
    let n ← csub 64 bitSteps
    let newCarry ← rawShr repr n
    let s ← rawShl repr bitSteps
    let rest ← shlLoop bitSteps rest newCarry
    .ok ((s ||| carry) :: rest)

/-- `wrapping_shl_assign` on the digits of a heap-allocated value,
`/repo/src/apint/shift.rs:86-117`.  `ptr::copy` (lines 91-100) moves the first
`len - digit_steps` digits up by `digit_steps`, which needs `digit_steps ≤ len` (the checked
subtraction); lines 102-105 zero the low digits. -/
def shlDigits (digits : List Digit) (s : Nat) : Run (List Digit) := do
  let ds := digitSteps s
  let digits ←
    if ds ≠ 0 then do
      let n ← csub digits.length ds
      .ok (List.replicate ds Digit.ZERO ++ digits.take n)
    else .ok digits
  let bs := bitSteps s
  if bs ≠ 0 then
    if digits.length < ds then .error .panic
    else do
      let hi ← shlLoop bs (digits.drop ds) 0#64
      .ok (digits.take ds ++ hi)
  else .ok digits

/-- `wrapping_shl_assign`, `/repo/src/apint/shift.rs:76-121`. -/
def wrappingShlAssign (self : ApInt) (s : Nat) : Run (Res Unit × ApInt) :=
  match verifyShiftAmount self.width s with
  | .error e => .ok (.error e, self)
  | .ok () => do
    let self ←
      match ← self.accessData with
      | .inl digit => do
        let d ← rawShl digit s
        .ok { self with data := .inl d }
      | .ext digits => do
        let digits ← shlDigits digits s
        .ok { self with data := .ext digits }
    let self ← self.clearUnusedBits
    .ok (.ok (), self)

/-- `into_wrapping_shl`, `/repo/src/apint/shift.rs:132-137`. -/
def intoWrappingShl (self : ApInt) (s : Nat) : Run (Res ApInt) :=
  tryForwardBinMutImpl self s wrappingShlAssign

/-- The borrow loop of `wrapping_lshr_assign`, `/repo/src/apint/shift.rs:169-175`.  The list is
the digits from the most significant one down, as visited by `iter_mut().rev()`. -/
def lshrLoop (bitSteps : Nat) : List Digit → Digit → Run (List Digit)
  | [], _ => .ok []
  | repr :: rest, borrow => do
    let n ← csub 64 bitSteps
    let newBorrow ← rawShl repr n
    let s ← rawShr repr bitSteps
    let rest ← lshrLoop bitSteps rest newBorrow
    .ok ((s ||| borrow) :: rest)

/-- `wrapping_lshr_assign` on the digits of a heap-allocated value,
`/repo/src/apint/shift.rs:157-177`.  `rotate_left` (line 160) panics unless
`digit_steps ≤ len`. -/
def lshrDigits (digits : List Digit) (s : Nat) : Run (List Digit) := do
  let ds := digitSteps s
  let digits ←
    if ds ≠ 0 then
      if digits.length < ds then .error .panic
      else
        let rot := digits.drop ds ++ digits.take ds
        .ok (rot.take (rot.length - ds) ++ List.replicate ds Digit.ZERO)
    else .ok digits
  let bs := bitSteps s
  if bs > 0 then do
    let r ← lshrLoop bs digits.reverse 0#64
    .ok r.reverse
  else .ok digits

/-- `wrapping_lshr_assign`, `/repo/src/apint/shift.rs:147-180`. -/
def wrappingLshrAssign (self : ApInt) (s : Nat) : Run (Res Unit × ApInt) :=
  match verifyShiftAmount self.width s with
  | .error e => .ok (.error e, self)
  | .ok () => do
    let self ←
      match ← self.accessData with
      | .inl digit => do
        let d ← rawShr digit s
        .ok { self with data := .inl d }
      | .ext digits => do
        let digits ← lshrDigits digits s
        .ok { self with data := .ext digits }
    .ok (.ok (), self)

/-- `into_wrapping_lshr`, `/repo/src/apint/shift.rs:191-200`. -/
def intoWrappingLshr (self : ApInt) (s : Nat) : Run (Res ApInt) :=
  tryForwardBinMutImpl self s wrappingLshrAssign

/-- The body of `wrapping_ashr_assign` on the digits of a heap-allocated value,
`/repo/src/apint/shift.rs:239-270`. -/
def ashrDigits (x : List Digit) (widthBits digits bits : Nat) : Run (List Digit) := do
  let uns ← csub 64 bits
  let last ← csub x.length 1
  let x ←
    if widthBits ≠ 0 then do
      let d ← idx x last
      let w ← BitWidth.from widthBits
      let (r, d) ← Digit.signExtendFrom d w
      let () ← expect r
      upd x last d
    else .ok x
  let diff ← csub x.length digits
  if digits = 0 then do
    let x ← forRange 0 last x fun i x => do
      let a ← idx x i
      let b ← idx x (i + 1)
      upd x i (Digit.bitor (Digit.shr a bits) (Digit.shl b uns))
    let a ← idx x last
    upd x last (Digit.bitor (Digit.shr a bits) (Digit.shl Digit.ONES uns))
  else if bits = 0 then do
    let x ← forRange digits x.length x fun i x => do
      let a ← idx x i
      let j ← csub i digits
      upd x j a
    forRange 0 digits x fun i x => do
      let a ← idx x (i + diff)
      upd x (i + diff) (Digit.setAll a)
  else do
    let x ← forRange digits last x fun i x => do
      let a ← idx x i
      let b ← idx x (i + 1)
      let j ← csub i digits
      upd x j (Digit.bitor (Digit.shr a bits) (Digit.shl b uns))
    let a ← idx x last
    let j ← csub diff 1
    let x ← upd x j (Digit.bitor (Digit.shr a bits) (Digit.shl Digit.ONES uns))
    forRange 0 digits x fun i x => do
      let a ← idx x (i + diff)
      upd x (i + diff) (Digit.setAll a)

/-- `wrapping_ashr_assign`, `/repo/src/apint/shift.rs:216-274`. -/
def wrappingAshrAssign (self : ApInt) (s : Nat) : Run (Res Unit × ApInt) := do
  let m ← self.msb
  if !m then self.wrappingLshrAssign s
  else
    match verifyShiftAmount self.width s with
    | .error e => .ok (.error e, self)
    | .ok () =>
      if s = 0 then .ok (.ok (), self)
      else do
        let width := self.width
        let widthBits := width.toUsize % 64
        let digits := s / 64
        let bits := s % 64
        let self ←
          match ← self.accessData with
          | .inl x => do
            let n ← csub width.toUsize bits
            let x := Digit.bitor (Digit.shr x bits) (Digit.shl Digit.ONES n)
            .ok { self with data := .inl x }
          | .ext x => do
            let x ← ashrDigits x widthBits digits bits
            .ok { self with data := .ext x }
        let self ← self.clearUnusedBits
        .ok (.ok (), self)

/-- `into_wrapping_ashr`, `/repo/src/apint/shift.rs:290-299`. -/
def intoWrappingAshr (self : ApInt) (s : Nat) : Run (Res ApInt) :=
  tryForwardBinMutImpl self s wrappingAshrAssign

end ApInt

end Verif
