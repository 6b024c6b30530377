import Verif.Model.Arith

/-!
# Multiplication (`/repo/src/apint/arithmetic.rs:264-590`)
-/

namespace Verif

namespace ApInt

/-- `xs.iter().rposition(|x| !x.is_zero())`: index of the most significant nonzero digit.
`/repo/src/apint/arithmetic.rs:303`, `/repo/src/apint/arithmetic.rs:313`. -/
def rpositionNonzero (l : List Digit) : Option Nat :=
  match l with
  | [] => none
  | d :: rest =>
    match rpositionNonzero rest with
    | some i => some (i + 1)
    | none => if Digit.isZero d then none else some 0

/-- A row of products appended to a `Vec`: for each digit `x` push the low half of
`mult * x + carry` and carry the high half.  This is the loop
`for x in ….iter().take(n).skip(1) { let temp = mult.carrying_mul_add(x, carry); sum.push(temp.0);
carry = temp.1 }` of `/repo/src/apint/arithmetic.rs:357-367,457-464,1018-1022,1292-1296`. -/
def mulRow (mult : Digit) : List Digit → List Digit × Digit → List Digit × Digit
  | [], s => s
  | x :: rest, (sum, carry) =>
    let temp := Digit.carryingMulAdd mult x carry
    mulRow mult rest (sum ++ [temp.1], temp.2)

/-- One middle digit of a row that is added to `sum`: lines 384-395 (and 418-429, 487-498) of
`/repo/src/apint/arithmetic.rs`. `sum[base + rhs_i]` gets the low half. -/
def mulAddStep (mult : Digit) (rhs : List Digit) (base : Nat) (rhsI : Nat)
    (s : List Digit × Digit × Digit) : Run (List Digit × Digit × Digit) := do
  let (sum, mulCarry, addCarry) := s
  let r ← idx rhs rhsI
  let temp0 := Digit.carryingMulAdd mult r mulCarry
  let mulCarry := temp0.2
  let x ← idx sum (base + rhsI)
  let temp1 := DDigit.wrappingAdd (DDigit.wrappingAdd (Digit.dd x) (Digit.dd temp0.1))
    (Digit.dd addCarry)
  let sum ← upd sum (base + rhsI) (DDigit.lo temp1)
  .ok (sum, mulCarry, DDigit.hi temp1)

/-- One complete row of the non-overflowing multiplication, the one for digit `lhs_i`:
`/repo/src/apint/arithmetic.rs:376-407` for the middle rows; lines 409-440 (the final row) are
the same code with `lhs_i = lhs_sig_nonzero`. -/
def mulFullRow (lhs rhs : List Digit) (rhsSig : Nat) (lhsI : Nat) (sum : List Digit) :
    Run (List Digit) := do
  let mult ← idx lhs lhsI
  let r0 ← idx rhs 0
  let temp0 := Digit.carryingMul mult r0
  let mulCarry := temp0.2
  let x ← idx sum lhsI
  let temp1 := Digit.carryingAdd x temp0.1
  let sum ← upd sum lhsI temp1.1
  let addCarry := temp1.2
  let (sum, mulCarry, addCarry) ←
    forRange 1 rhsSig (sum, mulCarry, addCarry) (mulAddStep mult rhs lhsI)
  let r ← idx rhs rhsSig
  let temp0 := Digit.carryingMulAdd mult r mulCarry
  let x ← idx sum (lhsI + rhsSig)
  let temp1 := DDigit.wrappingAdd (DDigit.wrappingAdd (Digit.dd x) (Digit.dd temp0.1))
    (Digit.dd addCarry)
  let sum ← upd sum (lhsI + rhsSig) (DDigit.lo temp1)
  .ok (sum ++ [Digit.wrappingAdd (DDigit.hi temp1) temp0.2])

/-- The branch without digit overflow, `/repo/src/apint/arithmetic.rs:342-445`. -/
def mulNonOverflow (lhs rhs : List Digit) (lhsSig rhsSig : Nat) : Run (List Digit) := do
  let mult ← idx lhs 0
  let r0 ← idx rhs 0
  let temp := Digit.carryingMul mult r0
  let (sum, mulCarry) := mulRow mult ((rhs.take rhsSig).drop 1) ([temp.1], temp.2)
  let r ← idx rhs rhsSig
  let temp := Digit.carryingMulAdd mult r mulCarry
  let sum := sum ++ [temp.1] ++ [temp.2]
  let sum ← forRange 1 lhsSig sum (mulFullRow lhs rhs rhsSig)
  let sum ← mulFullRow lhs rhs rhsSig lhsSig sum
  if lhs.length < sum.length then copyRange lhs 0 lhs.length sum 0 lhs.length
  else copyRange lhs 0 sum.length sum 0 sum.length

/-- One middle row of the wrapping multiplication, `/repo/src/apint/arithmetic.rs:473-505`.
`sig_nonzero.wrapping_sub(lhs_i)` cannot wrap because `lhs_i < sig_nonzero`; the model uses the
checked subtraction. -/
def mulWrapRow (lhs rhs : List Digit) (sig : Nat) (lhsI : Nat) (sum : List Digit) :
    Run (List Digit) := do
  let mult ← idx lhs lhsI
  let r0 ← idx rhs 0
  let temp0 := Digit.carryingMul mult r0
  let mulCarry := temp0.2
  let x ← idx sum lhsI
  let temp1 := Digit.carryingAdd x temp0.1
  let sum ← upd sum lhsI temp1.1
  let addCarry := temp1.2
  let rhsIUpper ← csub sig lhsI
  let (sum, mulCarry, addCarry) ←
    forRange 1 rhsIUpper (sum, mulCarry, addCarry) (mulAddStep mult rhs lhsI)
  let r ← idx rhs rhsIUpper
  let x ← idx sum sig
  upd sum sig (Digit.wrappingAdd (Digit.wrappingAdd
    (Digit.wrappingAdd (Digit.wrappingMul mult r) mulCarry) x) addCarry)

/-- The wrapping branch, `/repo/src/apint/arithmetic.rs:446-511`. -/
def mulWrapping (lhs rhs : List Digit) : Run (List Digit) := do
  let sig ← csub lhs.length 1
  let l0 ← idx lhs 0
  let r0 ← idx rhs 0
  let temp := Digit.carryingMul l0 r0
  let (sum, mulCarry) := mulRow l0 ((rhs.take sig).drop 1) ([temp.1], temp.2)
  let r ← idx rhs sig
  let sum := sum ++ [Digit.wrappingMulAdd l0 r mulCarry]
  let sum ← forRange 1 sig sum (mulWrapRow lhs rhs sig)
  let lhs ← copyRange lhs 0 sig sum 0 sig
  let l ← idx lhs sig
  let s ← idx sum sig
  upd lhs sig (Digit.wrappingMulAdd l r0 s)

/-- The `(true, false)` branch: `lhs` has one significant digit,
`/repo/src/apint/arithmetic.rs:513-540`. -/
def mulSmallLhs (lhs rhs : List Digit) (rhsSig : Nat) : Run (List Digit) := do
  let mult ← idx lhs 0
  let r0 ← idx rhs 0
  let temp := Digit.carryingMul mult r0
  let lhs ← upd lhs 0 temp.1
  let (lhs, mulCarry) ← forRange 1 rhsSig (lhs, temp.2) fun rhsI (lhs, mulCarry) => do
    let r ← idx rhs rhsI
    let temp := Digit.carryingMulAdd mult r mulCarry
    let lhs ← upd lhs rhsI temp.1
    .ok (lhs, temp.2)
  let last ← csub lhs.length 1
  if rhsSig = last then do
    let r ← idx rhs rhsSig
    upd lhs rhsSig (Digit.wrappingMulAdd mult r mulCarry)
  else do
    let r ← idx rhs rhsSig
    let temp := Digit.carryingMulAdd mult r mulCarry
    let lhs ← upd lhs rhsSig temp.1
    upd lhs (rhsSig + 1) temp.2

/-- The loop `for lhs in lhs.iter_mut().take(lhs_sig_nonzero).skip(1)`,
`/repo/src/apint/arithmetic.rs:547-552`, written with the index of the visited digit. -/
def mulSmallRhsLoop (r0 : Digit) (lhsSig : Nat) (s : List Digit × Digit) :
    Run (List Digit × Digit) :=
  forRange 1 lhsSig s fun i (lhs, mulCarry) => do
    let l ← idx lhs i
    let temp := Digit.carryingMulAdd r0 l mulCarry
    let lhs ← upd lhs i temp.1
    .ok (lhs, temp.2)

/-- The `(false, true)` branch: `rhs` has one significant digit,
`/repo/src/apint/arithmetic.rs:541-567`. -/
def mulSmallRhs (lhs rhs : List Digit) (lhsSig : Nat) : Run (List Digit) := do
  let r0 ← idx rhs 0
  let l0 ← idx lhs 0
  let temp := Digit.carryingMul r0 l0
  let lhs ← upd lhs 0 temp.1
  let (lhs, mulCarry) ← mulSmallRhsLoop r0 lhsSig (lhs, temp.2)
  let last ← csub lhs.length 1
  if lhsSig = last then do
    let l ← idx lhs lhsSig
    upd lhs lhsSig (Digit.wrappingMulAdd r0 l mulCarry)
  else do
    let l ← idx lhs lhsSig
    let temp := Digit.carryingMulAdd r0 l mulCarry
    let lhs ← upd lhs lhsSig temp.1
    upd lhs (lhsSig + 1) temp.2

/-- Number of significant bits when `sig` is the index of the most significant nonzero digit,
`/repo/src/apint/arithmetic.rs:332-339`. -/
def sigBits (l : List Digit) (sig : Nat) : Run Nat := do
  let d ← idx l sig
  let n ← csub 64 (Digit.leadingZeros d)
  .ok (sig * 64 + n)

/-- The choice between the long and the short multiplications, by the positions of the most
significant nonzero digits, `/repo/src/apint/arithmetic.rs:330-572`. -/
def mulCases (lhs rhs : List Digit) (lhsSig rhsSig : Nat) : Run (List Digit) :=
  match lhsSig == 0, rhsSig == 0 with
  | false, false => do
    let lhsSigBits ← sigBits lhs lhsSig
    let rhsSigBits ← sigBits rhs rhsSig
    let totSigBits := lhsSigBits + rhsSigBits
    if totSigBits ≤ lhs.length * 64 then mulNonOverflow lhs rhs lhsSig rhsSig
    else mulWrapping lhs rhs
  | true, false => mulSmallLhs lhs rhs rhsSig
  | false, true => mulSmallRhs lhs rhs lhsSig
  | true, true => do
    let l0 ← idx lhs 0
    let r0 ← idx rhs 0
    let temp0 := Digit.carryingMul l0 r0
    let lhs ← upd lhs 0 temp0.1
    upd lhs 1 temp0.2

/-- The heap branch of `wrapping_mul_assign`, `/repo/src/apint/arithmetic.rs:299-574`.
The flag is `true` for the early `return Ok(())` of a multiplication by zero (lines 305-310
and 315-320), where `lhs` has been zeroed and `clear_unused_bits` is not called. -/
def mulDigits (lhs rhs : List Digit) : Run (List Digit × Bool) :=
  match rpositionNonzero rhs with
  | none => .ok (lhs.map Digit.unsetAll, true)
  | some rhsSig =>
    match rpositionNonzero lhs with
    | none => .ok (lhs.map Digit.unsetAll, true)
    | some lhsSig => do
      let lhs ← mulCases lhs rhs lhsSig rhsSig
      .ok (lhs, false)

/-- `wrapping_mul_assign`, `/repo/src/apint/arithmetic.rs:294-578`. -/
def wrappingMulAssign (self rhs : ApInt) : Run (Res Unit × ApInt) := do
  match ← self.zipAccessData rhs with
  | .error e => .ok (.error e, self)
  | .ok (.inl l r) => do
    let self : ApInt := { self with data := .inl (Digit.wrappingMul l r) }
    let self ← self.clearUnusedBits
    .ok (.ok (), self)
  | .ok (.ext l r) => do
    let (l, early) ← mulDigits l r
    let self : ApInt := { self with data := .ext l }
    if early then .ok (.ok (), self)
    else do
      let self ← self.clearUnusedBits
      .ok (.ok (), self)

/-- `into_wrapping_mul`, `/repo/src/apint/arithmetic.rs:587-589`. -/
def intoWrappingMul (self rhs : ApInt) : Run (Res ApInt) :=
  tryForwardBinMutImpl self rhs wrappingMulAssign

end ApInt

end Verif
