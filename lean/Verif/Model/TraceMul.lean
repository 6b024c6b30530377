import Verif.Model.Trace
import Verif.Model.Mul

/-!
# What an observer sees of a multiplication

`wrapping_mul_assign` with a trace.  Both factors are searched from the top for a digit that is not
zero; the rest branches on what was found, on the number of digits, and once on the number of
significant bits.  The vector `sum` is `fresh`.  The branches on positions and lengths alone are not
noted.
-/

namespace Verif

namespace Trace

open ApInt Watched

/-- `xs.iter().rposition(|x| !x.is_zero())`: from the top, until a digit is not zero.
`/repo/src/apint/arithmetic.rs:303`, `/repo/src/apint/arithmetic.rs:313`.  `i` is the position of the
first digit of the list. -/
def rposition (o : Side) : Nat → List Digit → Watched (Option Nat)
  | _, [] => .ok none
  | i, d :: rest => do
    match ← rposition o (i + 1) rest with
    | some j => .ok (some (j + 1))
    | none => do
      let () ← note [.read o i, .test (!Digit.isZero d)]
      .ok (if Digit.isZero d then none else some 0)

/-- The loop over `rhs.iter().take(n).skip(1)`, as `mulRow` of `Model/Mul.lean`; `i` is the position of
the next digit.  `/repo/src/apint/arithmetic.rs:357-367,457-464`. -/
def mulRow (mult : Digit) : Nat → List Digit → List Digit × Digit → Watched (List Digit × Digit)
  | _, [], s => .ok s
  | i, x :: rest, (sum, carry) => do
    let () ← note [.read .rhs i, .write .fresh sum.length]
    let temp := Digit.carryingMulAdd mult x carry
    mulRow mult (i + 1) rest (sum ++ [temp.1], temp.2)

/-- One middle digit, `/repo/src/apint/arithmetic.rs:384-395,418-429,487-498`. -/
def mulAddStep (mult : Digit) (rhs : List Digit) (base : Nat) (rhsI : Nat)
    (s : List Digit × Digit × Digit) : Watched (List Digit × Digit × Digit) := do
  let (sum, mulCarry, addCarry) := s
  let r ← rd .rhs rhs rhsI
  let temp0 := Digit.carryingMulAdd mult r mulCarry
  let mulCarry := temp0.2
  let x ← rd .fresh sum (base + rhsI)
  let temp1 := DDigit.wrappingAdd (DDigit.wrappingAdd (Digit.dd x) (Digit.dd temp0.1))
    (Digit.dd addCarry)
  let sum ← wr .fresh sum (base + rhsI) (DDigit.lo temp1)
  .ok (sum, mulCarry, DDigit.hi temp1)

/-- One row, `/repo/src/apint/arithmetic.rs:376-407,409-440`. -/
def mulFullRow (lhs rhs : List Digit) (rhsSig : Nat) (lhsI : Nat) (sum : List Digit) :
    Watched (List Digit) := do
  let mult ← rd .self lhs lhsI
  let r0 ← rd .rhs rhs 0
  let temp0 := Digit.carryingMul mult r0
  let mulCarry := temp0.2
  let x ← rd .fresh sum lhsI
  let temp1 := Digit.carryingAdd x temp0.1
  let sum ← wr .fresh sum lhsI temp1.1
  let addCarry := temp1.2
  let (sum, mulCarry, addCarry) ←
    forRange 1 rhsSig (sum, mulCarry, addCarry) (mulAddStep mult rhs lhsI)
  let r ← rd .rhs rhs rhsSig
  let temp0 := Digit.carryingMulAdd mult r mulCarry
  let x ← rd .fresh sum (lhsI + rhsSig)
  let temp1 := DDigit.wrappingAdd (DDigit.wrappingAdd (Digit.dd x) (Digit.dd temp0.1))
    (Digit.dd addCarry)
  let sum ← wr .fresh sum (lhsI + rhsSig) (DDigit.lo temp1)
  let () ← note [.write .fresh sum.length]
  .ok (sum ++ [Digit.wrappingAdd (DDigit.hi temp1) temp0.2])

/-- `lhs[..n].copy_from_slice(&sum[..n])`, `/repo/src/apint/arithmetic.rs:441-445,506-507`. -/
def copyBack (lhs sum : List Digit) (n : Nat) : Watched (List Digit) :=
  show' (copies .fresh 0 .self 0 n) (copyRange lhs 0 n sum 0 n)

/-- The end of the branch without digit overflow, `/repo/src/apint/arithmetic.rs:441-445`. -/
def mulStore (lhs sum : List Digit) : Watched (List Digit) :=
  if lhs.length < sum.length then copyBack lhs sum lhs.length else copyBack lhs sum sum.length

/-- The branch without digit overflow, `/repo/src/apint/arithmetic.rs:342-445`. -/
def mulNonOverflow (lhs rhs : List Digit) (lhsSig rhsSig : Nat) : Watched (List Digit) := do
  let mult ← rd .self lhs 0
  let r0 ← rd .rhs rhs 0
  let temp := Digit.carryingMul mult r0
  let () ← note [.alloc (lhsSig + rhsSig + 2), .write .fresh 0]
  let (sum, mulCarry) ← mulRow mult 1 ((rhs.take rhsSig).drop 1) ([temp.1], temp.2)
  let r ← rd .rhs rhs rhsSig
  let temp := Digit.carryingMulAdd mult r mulCarry
  let () ← note [.write .fresh sum.length, .write .fresh (sum.length + 1)]
  let sum := sum ++ [temp.1] ++ [temp.2]
  let sum ← forRange 1 lhsSig sum (mulFullRow lhs rhs rhsSig)
  let sum ← mulFullRow lhs rhs rhsSig lhsSig sum
  mulStore lhs sum

/-- One middle row of the wrapping multiplication, `/repo/src/apint/arithmetic.rs:473-505`. -/
def mulWrapRow (lhs rhs : List Digit) (sig : Nat) (lhsI : Nat) (sum : List Digit) :
    Watched (List Digit) := do
  let mult ← rd .self lhs lhsI
  let r0 ← rd .rhs rhs 0
  let temp0 := Digit.carryingMul mult r0
  let mulCarry := temp0.2
  let x ← rd .fresh sum lhsI
  let temp1 := Digit.carryingAdd x temp0.1
  let sum ← wr .fresh sum lhsI temp1.1
  let addCarry := temp1.2
  let rhsIUpper ← csub sig lhsI
  let (sum, mulCarry, addCarry) ←
    forRange 1 rhsIUpper (sum, mulCarry, addCarry) (mulAddStep mult rhs lhsI)
  let r ← rd .rhs rhs rhsIUpper
  let x ← rd .fresh sum sig
  wr .fresh sum sig (Digit.wrappingAdd (Digit.wrappingAdd
    (Digit.wrappingAdd (Digit.wrappingMul mult r) mulCarry) x) addCarry)

/-- The wrapping branch, `/repo/src/apint/arithmetic.rs:446-511`.  `lhs[0]` and `lhs[lhs_i]` are read
again for each digit of the row; the model reads them once for each row, as `Model/Mul.lean` does. -/
def mulWrapping (lhs rhs : List Digit) : Watched (List Digit) := do
  let sig ← csub lhs.length 1
  let l0 ← rd .self lhs 0
  let r0 ← rd .rhs rhs 0
  let temp := Digit.carryingMul l0 r0
  let () ← note [.alloc lhs.length, .write .fresh 0]
  let (sum, mulCarry) ← mulRow l0 1 ((rhs.take sig).drop 1) ([temp.1], temp.2)
  let r ← rd .rhs rhs sig
  let () ← note [.write .fresh sum.length]
  let sum := sum ++ [Digit.wrappingMulAdd l0 r mulCarry]
  let sum ← forRange 1 sig sum (mulWrapRow lhs rhs sig)
  let lhs ← copyBack lhs sum sig
  let l ← rd .self lhs sig
  let () ← note [.read .rhs 0]
  let s ← rd .fresh sum sig
  wr .self lhs sig (Digit.wrappingMulAdd l r0 s)

/-- The `(true, false)` branch, `/repo/src/apint/arithmetic.rs:513-540`. -/
def mulSmallLhs (lhs rhs : List Digit) (rhsSig : Nat) : Watched (List Digit) := do
  let mult ← rd .self lhs 0
  let r0 ← rd .rhs rhs 0
  let temp := Digit.carryingMul mult r0
  let lhs ← wr .self lhs 0 temp.1
  let (lhs, mulCarry) ← forRange 1 rhsSig (lhs, temp.2) fun rhsI (lhs, mulCarry) => do
    let r ← rd .rhs rhs rhsI
    let temp := Digit.carryingMulAdd mult r mulCarry
    let lhs ← wr .self lhs rhsI temp.1
    .ok (lhs, temp.2)
  let last ← csub lhs.length 1
  if rhsSig = last then do
    let r ← rd .rhs rhs rhsSig
    wr .self lhs rhsSig (Digit.wrappingMulAdd mult r mulCarry)
  else do
    let r ← rd .rhs rhs rhsSig
    let temp := Digit.carryingMulAdd mult r mulCarry
    let lhs ← wr .self lhs rhsSig temp.1
    wr .self lhs (rhsSig + 1) temp.2

/-- The loop of the `(false, true)` branch, `/repo/src/apint/arithmetic.rs:547-552`.  `rhs[0]` is read
again for each digit. -/
def mulSmallRhsLoop (r0 : Digit) (lhsSig : Nat) (s : List Digit × Digit) :
    Watched (List Digit × Digit) :=
  forRange 1 lhsSig s fun i (lhs, mulCarry) => do
    let () ← note [.read .rhs 0]
    let l ← rd .self lhs i
    let temp := Digit.carryingMulAdd r0 l mulCarry
    let lhs ← wr .self lhs i temp.1
    .ok (lhs, temp.2)

/-- The `(false, true)` branch, `/repo/src/apint/arithmetic.rs:541-567`. -/
def mulSmallRhs (lhs rhs : List Digit) (lhsSig : Nat) : Watched (List Digit) := do
  let r0 ← rd .rhs rhs 0
  let l0 ← rd .self lhs 0
  let temp := Digit.carryingMul r0 l0
  let lhs ← wr .self lhs 0 temp.1
  let (lhs, mulCarry) ← mulSmallRhsLoop r0 lhsSig (lhs, temp.2)
  let last ← csub lhs.length 1
  let () ← note [.read .rhs 0]
  if lhsSig = last then do
    let l ← rd .self lhs lhsSig
    wr .self lhs lhsSig (Digit.wrappingMulAdd r0 l mulCarry)
  else do
    let l ← rd .self lhs lhsSig
    let temp := Digit.carryingMulAdd r0 l mulCarry
    let lhs ← wr .self lhs lhsSig temp.1
    wr .self lhs (lhsSig + 1) temp.2

/-- The `(true, true)` branch, `/repo/src/apint/arithmetic.rs:568-572`. -/
def mulSmallBoth (lhs rhs : List Digit) : Watched (List Digit) := do
  let l0 ← rd .self lhs 0
  let r0 ← rd .rhs rhs 0
  let temp0 := Digit.carryingMul l0 r0
  let lhs ← wr .self lhs 0 temp0.1
  wr .self lhs 1 temp0.2

/-- `/repo/src/apint/arithmetic.rs:332-339`. -/
def sigBits (o : Side) (l : List Digit) (sig : Nat) : Watched Nat :=
  show' [.read o sig] (ApInt.sigBits l sig)

/-- The two long multiplications, `/repo/src/apint/arithmetic.rs:341-511`. -/
def mulLong (lhs rhs : List Digit) (lhsSig rhsSig : Nat) (fits : Bool) : Watched (List Digit) :=
  if fits then mulNonOverflow lhs rhs lhsSig rhsSig else mulWrapping lhs rhs

/-- The four branches, `/repo/src/apint/arithmetic.rs:330-572`. -/
def mulCases (lhs rhs : List Digit) (lhsSig rhsSig : Nat) : Watched (List Digit) :=
  match lhsSig == 0, rhsSig == 0 with
  | false, false => do
    let lhsSigBits ← sigBits .self lhs lhsSig
    let rhsSigBits ← sigBits .rhs rhs rhsSig
    let totSigBits := lhsSigBits + rhsSigBits
    let () ← note [.test (decide (totSigBits ≤ lhs.length * 64))]
    mulLong lhs rhs lhsSig rhsSig (decide (totSigBits ≤ lhs.length * 64))
  | true, false => mulSmallLhs lhs rhs rhsSig
  | false, true => mulSmallRhs lhs rhs lhsSig
  | true, true => mulSmallBoth lhs rhs

/-- A multiplication by zero, `/repo/src/apint/arithmetic.rs:306-309,316-319`. -/
def mulZero (lhs : List Digit) : Watched (List Digit × Bool) :=
  show' (fills .self 0 lhs.length) (.ok (lhs.map Digit.unsetAll, true))

/-- After the search in `lhs`, `/repo/src/apint/arithmetic.rs:313-574`. -/
def mulBoth (lhs rhs : List Digit) (rhsSig : Nat) : Option Nat → Watched (List Digit × Bool)
  | none => mulZero lhs
  | some lhsSig => do
    let lhs ← mulCases lhs rhs lhsSig rhsSig
    .ok (lhs, false)

/-- After the search in `rhs`, `/repo/src/apint/arithmetic.rs:303-574`. -/
def mulFrom (lhs rhs : List Digit) : Option Nat → Watched (List Digit × Bool)
  | none => mulZero lhs
  | some rhsSig => do
    let l ← rposition .self 0 lhs
    mulBoth lhs rhs rhsSig l

/-- The heap branch, `/repo/src/apint/arithmetic.rs:299-574`. -/
def mulDigits (lhs rhs : List Digit) : Watched (List Digit × Bool) := do
  let r ← rposition .rhs 0 rhs
  mulFrom lhs rhs r

/-- The end of `wrapping_mul_assign`: `clear_unused_bits` unless it returned early.
`/repo/src/apint/arithmetic.rs:309,319,576-577`. -/
def mulEnd (self : ApInt) (r : List Digit × Bool) : Watched (Res Unit × ApInt) :=
  if r.2 then .ok (.ok (), { self with data := .ext r.1 })
  else do
    let self ← clearUnusedBits { self with data := .ext r.1 }
    .ok (.ok (), self)

/-- `wrapping_mul_assign`, `/repo/src/apint/arithmetic.rs:294-578`. -/
def wrappingMulAssign (self rhs : ApInt) : Watched (Res Unit × ApInt) := do
  match ← self.zipAccessData rhs with
  | .error e => .ok (.error e, self)
  | .ok (.inl l r) => do
    let () ← note [.read .self 0, .read .rhs 0, .write .self 0]
    let self ← clearUnusedBits { self with data := .inl (Digit.wrappingMul l r) }
    .ok (.ok (), self)
  | .ok (.ext l r) => do
    let r ← mulDigits l r
    mulEnd self r

end Trace

end Verif
