import Verif.Model.Shift

/-!
# Increment, negation, addition, subtraction (`/repo/src/apint/arithmetic.rs:27-264`)
-/

namespace Verif

namespace ApInt

/-- The loop of `wrapping_inc`, `/repo/src/apint/arithmetic.rs:35-47`. -/
def incLoop : List Digit → List Digit
  | [] => []
  | x :: rest =>
    match Digit.overflowingAdd x Digit.ONE with
    | (v, false) => v :: rest
    | (v, true) => v :: incLoop rest

/-- `wrapping_inc`, `/repo/src/apint/arithmetic.rs:29-51`. -/
def wrappingInc (self : ApInt) : Run ApInt := do
  let self : ApInt ←
    match ← self.accessData with
    | .inl x => .ok { self with data := .inl (Digit.wrappingAdd x Digit.ONE) }
    | .ext xs => .ok { self with data := .ext (incLoop xs) }
  self.clearUnusedBits

/-- `into_wrapping_inc`, `/repo/src/apint/arithmetic.rs:54-56`. -/
def intoWrappingInc (self : ApInt) : Run ApInt := forwardMutImpl self wrappingInc

/-- The loop of `wrapping_dec`, `/repo/src/apint/arithmetic.rs:65-77`. -/
def decLoop : List Digit → List Digit
  | [] => []
  | x :: rest =>
    match Digit.overflowingSub x Digit.ONE with
    | (v, false) => v :: rest
    | (v, true) => v :: decLoop rest

/-- `wrapping_dec`, `/repo/src/apint/arithmetic.rs:59-81`. -/
def wrappingDec (self : ApInt) : Run ApInt := do
  let self : ApInt ←
    match ← self.accessData with
    | .inl x => .ok { self with data := .inl (Digit.wrappingSub x Digit.ONE) }
    | .ext xs => .ok { self with data := .ext (decLoop xs) }
  self.clearUnusedBits

/-- `into_wrapping_dec`, `/repo/src/apint/arithmetic.rs:84-86`. -/
def intoWrappingDec (self : ApInt) : Run ApInt := forwardMutImpl self wrappingDec

/-- `wrapping_neg`, `/repo/src/apint/arithmetic.rs:89-93`. -/
def wrappingNeg (self : ApInt) : Run ApInt := do
  let self ← self.bitnot
  self.wrappingInc

/-- `into_wrapping_neg`, `/repo/src/apint/arithmetic.rs:96-98`. -/
def intoWrappingNeg (self : ApInt) : Run ApInt := forwardMutImpl self wrappingNeg

/-- `wrapping_add_assign` on the digits of heap-allocated values,
`/repo/src/apint/arithmetic.rs:110-121`. Returns the digits and the last carry (which the
function drops; `overflowing_uadd_assign` runs the same loop and looks at it). -/
def addDigits (lhs rhs : List Digit) (hi : Nat) : Run (List Digit × Digit) := do
  let l0 ← idx lhs 0
  let r0 ← idx rhs 0
  let (temp, carry) := Digit.carryingAdd l0 r0
  let lhs ← upd lhs 0 temp
  forRange 1 hi (lhs, carry) fun i (lhs, carry) => do
    let l ← idx lhs i
    let r ← idx rhs i
    let temp := DDigit.wrappingAdd (DDigit.wrappingAdd (Digit.dd l) (Digit.dd r)) (Digit.dd carry)
    let lhs ← upd lhs i (DDigit.lo temp)
    .ok (lhs, DDigit.hi temp)

/-- `wrapping_add_assign`, `/repo/src/apint/arithmetic.rs:105-125`. -/
def wrappingAddAssign (self rhs : ApInt) : Run (Res Unit × ApInt) := do
  match ← self.zipAccessData rhs with
  | .error e => .ok (.error e, self)
  | .ok z => do
    let self : ApInt ←
      match z with
      | .inl l r => .ok { self with data := .inl (Digit.wrappingAdd l r) }
      | .ext l r => do
        let (l, _) ← addDigits l r l.length
        .ok { self with data := .ext l }
    let self ← self.clearUnusedBits
    .ok (.ok (), self)

/-- `into_wrapping_add`, `/repo/src/apint/arithmetic.rs:132-134`. -/
def intoWrappingAdd (self rhs : ApInt) : Run (Res ApInt) :=
  tryForwardBinMutImpl self rhs wrappingAddAssign

/-- `overflowing_uadd_assign` (crate-private, unused), `/repo/src/apint/arithmetic.rs:145-204`. -/
def overflowingUaddAssign (self rhs : ApInt) : Run (Res Bool × ApInt) := do
  match self.width.excessBits with
  | some excess => do
    let mask := Digit.shr Digit.ONES excess
    match ← self.zipAccessData rhs with
    | .error e => .ok (.error e, self)
    | .ok (.inl l r) =>
      let temp := Digit.wrappingAdd l r
      .ok (.ok (Digit.bitand temp mask != temp), { self with data := .inl (Digit.bitand temp mask) })
    | .ok (.ext l r) => do
      let last ← csub l.length 1
      let (l, carry) ← addDigits l r last
      let a ← idx l last
      let b ← idx r last
      let temp := Digit.wrappingAdd (Digit.wrappingAdd a b) carry
      let l ← upd l last (Digit.bitand temp mask)
      .ok (.ok (Digit.bitand temp mask != temp), { self with data := .ext l })
  | none => do
    match ← self.zipAccessData rhs with
    | .error e => .ok (.error e, self)
    | .ok (.inl l r) =>
      let temp := Digit.overflowingAdd l r
      .ok (.ok temp.2, { self with data := .inl temp.1 })
    | .ok (.ext l r) => do
      let (l, carry) ← addDigits l r l.length
      .ok (.ok (!Digit.isZero carry), { self with data := .ext l })

/-- `overflowing_sadd_assign` (crate-private, unused), `/repo/src/apint/arithmetic.rs:215-223`. -/
def overflowingSaddAssign (self rhs : ApInt) : Run (Res Bool × ApInt) := do
  let selfSign ← self.msb
  let rhsSign ← rhs.msb
  let (r, self) ← self.wrappingAddAssign rhs
  match r with
  | .error e => .ok (.error e, self)
  | .ok () => do
    let m ← self.msb
    .ok (.ok ((selfSign == rhsSign) && (selfSign != m)), self)

/-- `wrapping_sub_assign` on the digits of heap-allocated values,
`/repo/src/apint/arithmetic.rs:235-250`. -/
def subDigits (lhs rhs : List Digit) : Run (List Digit) := do
  let l0 ← idx lhs 0
  let r0 ← idx rhs 0
  let (temp, carry) := DDigit.loHi (DDigit.wrappingAdd
    (DDigit.wrappingAdd (Digit.dd l0) (Digit.dd (Digit.notInplace r0))) (Digit.dd Digit.ONE))
  let lhs ← upd lhs 0 temp
  let (lhs, _) ← forRange 1 lhs.length (lhs, carry) fun i (lhs, carry) => do
    let l ← idx lhs i
    let r ← idx rhs i
    let temp := DDigit.wrappingAdd
      (DDigit.wrappingAdd (Digit.dd l) (Digit.dd (Digit.notInplace r))) (Digit.dd carry)
    let lhs ← upd lhs i (DDigit.lo temp)
    .ok (lhs, DDigit.hi temp)
  .ok lhs

/-- `wrapping_sub_assign`, `/repo/src/apint/arithmetic.rs:230-254`. -/
def wrappingSubAssign (self rhs : ApInt) : Run (Res Unit × ApInt) := do
  match ← self.zipAccessData rhs with
  | .error e => .ok (.error e, self)
  | .ok z => do
    let self : ApInt ←
      match z with
      | .inl l r => .ok { self with data := .inl (Digit.wrappingSub l r) }
      | .ext l r => do
        let l ← subDigits l r
        .ok { self with data := .ext l }
    let self ← self.clearUnusedBits
    .ok (.ok (), self)

/-- `into_wrapping_sub`, `/repo/src/apint/arithmetic.rs:261-263`. -/
def intoWrappingSub (self rhs : ApInt) : Run (Res ApInt) :=
  tryForwardBinMutImpl self rhs wrappingSubAssign

end ApInt

end Verif
