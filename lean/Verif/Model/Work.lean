import Verif.Model.Div

/-!
# How many digits multiplication and division touch

The functions of `Model/Mul.lean` and `Model/Div.lean` once more, with a count of the digits that
they read and write.  Every `a[i]` that is read, every `a[i] = …` and every `push` counts one; a
copy of `n` digits counts `2 * n`, and a scan for the most significant nonzero digit counts all
digits, although it stops at the first it finds.  Work on digits held in local variables is not
counted: there is a bounded amount of it for each digit that is touched.  The counts do not depend
on the machine.
-/

namespace Verif

/-- A computation and the number of digits it touched.  The model of time for
`/repo/src/apint/arithmetic.rs:264-1842`. -/
def Counted (α : Type) := Run (α × Nat)

namespace Counted

/-- A value that is there without touching a digit.  As `Ok(())` in
`/repo/src/apint/arithmetic.rs:577`. -/
def ok {α : Type} (a : α) : Counted α := Except.ok (a, 0)

/-- A fault.  As the panics of `/repo/src/apint/arithmetic.rs:1475`. -/
def error {α : Type} (e : Fault) : Counted α := Except.error e

/-- Do `x` and then `f`; the counts add up.  The `;` of `/repo/src/apint/arithmetic.rs:264-1842`. -/
def bind {α β : Type} (x : Counted α) (f : α → Counted β) : Counted β :=
  match x with
  | Except.error e => Except.error e
  | Except.ok (a, n) =>
    match f a with
    | Except.error e => Except.error e
    | Except.ok (b, m) => Except.ok (b, n + m)

/-- Sequencing for the `do` notation, for `/repo/src/apint/arithmetic.rs:264-1842`. -/
instance monad : Monad Counted where
  pure := Counted.ok
  bind := Counted.bind

/-- A computation on local variables, or on `n` digits.  As `(**x).wrapping_add(..)` in
`/repo/src/apint/arithmetic.rs:430-433`. -/
def charge {α : Type} (n : Nat) (x : Run α) : Counted α :=
  match x with
  | Except.error e => Except.error e
  | Except.ok a => Except.ok (a, n)

/-- Computations on local variables count nothing.  As `lhs_sig_bits + rhs_sig_bits` in
`/repo/src/apint/arithmetic.rs:340`. -/
instance lift : MonadLift Run Counted where
  monadLift := charge 0

end Counted

namespace Count

open ApInt Counted

/-- Reading `xs[i]`, as in `/repo/src/apint/arithmetic.rs:334`. -/
def idx {α : Type} (l : List α) (i : Nat) : Counted α := charge 1 (Verif.idx l i)

/-- Writing `xs[i] = v`, as in `/repo/src/apint/arithmetic.rs:113-123`. -/
def upd {α : Type} (l : List α) (i : Nat) (v : α) : Counted (List α) := charge 1 (Verif.upd l i v)

/-- `xs.push(v)`, as in `/repo/src/apint/arithmetic.rs:366`.  Simplified: moving the digits when a
vector grows is not counted; C72 shows when vectors grow. -/
def push (l : List Digit) (v : Digit) : Counted (List Digit) := charge 1 (.ok (l ++ [v]))

/-- `n` times `xs.push(Digit::ZERO)`, or `vec![Digit::ZERO; n]`, as in
`/repo/src/apint/arithmetic.rs:1073-1075` and `1124`. -/
def pushZeros (l : List Digit) (n : Nat) : Counted (List Digit) :=
  charge n (.ok (l ++ List.replicate n Digit.ZERO))

/-- `for x in xs.iter_mut() { x.unset_all() }`, as in `/repo/src/apint/arithmetic.rs:305-307`: one
reading and one writing for each digit. -/
def clear (l : List Digit) : Counted (List Digit) :=
  charge (2 * l.length) (.ok (l.map Digit.unsetAll))

/-- The scan `rposition(|x| !x.is_zero())`, `/repo/src/apint/arithmetic.rs:303`.  Simplified: counts
all digits. -/
def rpositionNonzero (l : List Digit) : Counted (Option Nat) :=
  charge l.length (.ok (ApInt.rpositionNonzero l))

/-- `dst[lo..hi].copy_from_slice(&src[lo'..hi'])`, as in `/repo/src/apint/arithmetic.rs:1367`. -/
def copyRange {α : Type} (dst : List α) (lo hi : Nat) (src : List α) (lo' hi' : Nat) :
    Counted (List α) :=
  charge (2 * (hi - lo)) (Verif.copyRange dst lo hi src lo' hi')

/-- `n` steps of a counting loop.  For loops as in `/repo/src/apint/arithmetic.rs:113-123`. -/
def loopUp {σ : Type} (body : Nat → σ → Counted σ) : Nat → Nat → σ → Counted σ
  | 0, _, s => .ok s
  | n + 1, i, s => do
    let s ← body i s
    loopUp body n (i + 1) s

/-- `for i in lo..hi { .. }`.  As in `/repo/src/apint/arithmetic.rs:113-123`. -/
def forRange {σ : Type} (lo hi : Nat) (s : σ) (body : Nat → σ → Counted σ) : Counted σ :=
  loopUp body (hi - lo) lo s

/-- `n` steps of a counting loop with `break`.  For loops as in
`/repo/src/apint/arithmetic.rs:745-757`. -/
def loopUpB {σ : Type} (body : Nat → σ → Counted (Step σ)) : Nat → Nat → σ → Counted σ
  | 0, _, s => .ok s
  | n + 1, i, s => do
    match ← body i s with
    | .cont s => loopUpB body n (i + 1) s
    | .brk s => .ok s

/-- `for i in lo..hi { .. }` where the body may `break`.  As in
`/repo/src/apint/arithmetic.rs:745-757`. -/
def forRangeB {σ : Type} (lo hi : Nat) (s : σ) (body : Nat → σ → Counted (Step σ)) : Counted σ :=
  loopUpB body (hi - lo) lo s

/-- `n` steps of a loop counting down.  For loops as in `/repo/src/apint/arithmetic.rs:677-690`. -/
def loopDown {σ : Type} (body : Nat → σ → Counted σ) (lo : Nat) : Nat → σ → Counted σ
  | 0, s => .ok s
  | n + 1, s => do
    let s ← body (lo + n) s
    loopDown body lo n s

/-- `for i in (lo..hi).rev() { .. }`.  As in `/repo/src/apint/arithmetic.rs:677-690`. -/
def forRev {σ : Type} (lo hi : Nat) (s : σ) (body : Nat → σ → Counted σ) : Counted σ :=
  loopDown body lo (hi - lo) s

/-- `n` steps of a loop counting down, with `break`.  For loops as in
`/repo/src/apint/arithmetic.rs:778-797`. -/
def loopDownB {σ : Type} (body : Nat → σ → Counted (Step σ)) (lo : Nat) : Nat → σ → Counted σ
  | 0, s => .ok s
  | n + 1, s => do
    match ← body (lo + n) s with
    | .cont s => loopDownB body lo n s
    | .brk s => .ok s

/-- `for i in (lo..hi).rev() { .. }` where the body may `break`.  As in
`/repo/src/apint/arithmetic.rs:778-797`. -/
def forRevB {σ : Type} (lo hi : Nat) (s : σ) (body : Nat → σ → Counted (Step σ)) : Counted σ :=
  loopDownB body lo (hi - lo) s

/-- A row of products appended to a `Vec`, `/repo/src/apint/arithmetic.rs:357-367`: a reading and a
`push` for each digit. -/
def mulRow (mult : Digit) (l : List Digit) (s : List Digit × Digit) : Counted (List Digit × Digit) :=
  charge (2 * l.length) (.ok (ApInt.mulRow mult l s))

/-- `div.to_vec()`, `/repo/src/apint/arithmetic.rs:1605` and `1640`: every digit is read and written. -/
def toVec (l : List Digit) : Counted (List Digit) := charge (2 * l.length) (.ok l)

/-- The number of digits, `/repo/src/apint/utils.rs:40-42`. -/
def digits (x : ApInt) : Nat := x.lenDigits

/-- `clone`, `/repo/src/apint/casting.rs:13-29`: every digit is read and written. -/
def clone (x : ApInt) : Counted ApInt := charge (2 * digits x) x.clone

/-- `is_zero`, `/repo/src/apint/utils.rs:385-392`.  Simplified: counts all digits, although the scan
stops at the first nonzero one. -/
def isZero (x : ApInt) : Counted Bool := charge (digits x) x.isZero

/-- `wrapping_neg`, `/repo/src/apint/arithmetic.rs:89-93`.  The complement reads and writes every
digit and the top digit once more; so does, at most, the increment. -/
def wrappingNeg (x : ApInt) : Counted ApInt := charge (4 * digits x + 4) x.wrappingNeg

/-- `if b { x.wrapping_neg() }`, as on `/repo/src/apint/arithmetic.rs:1694-1699`. -/
def negIf (b : Bool) (x : ApInt) : Counted ApInt := if b then wrappingNeg x else .ok x

/-- One middle digit of a row that is added to `sum`: lines 384-395 (and 418-429, 487-498) of
`/repo/src/apint/arithmetic.rs`. `sum[base + rhs_i]` gets the low half. -/
def mulAddStep (mult : Digit) (rhs : List Digit) (base : Nat) (rhsI : Nat)
    (s : List Digit × Digit × Digit) : Counted (List Digit × Digit × Digit) := do
  let (sum, mulCarry, addCarry) := s
  let r ← idx rhs rhsI
  let temp0 := Digit.carryingMulAdd mult r mulCarry
  let mulCarry := temp0.2
  let x ← idx sum (base + rhsI)
  let temp1 := DDigit.wrappingAdd (DDigit.wrappingAdd (Digit.dd x) (Digit.dd temp0.1))
    (Digit.dd addCarry)
  let sum ← upd sum (base + rhsI) (DDigit.lo temp1)
  .ok (sum, mulCarry, DDigit.hi temp1)

/-- One complete row of the non-overflowing multiplication, the one for digit `lhs_i`:
`/repo/src/apint/arithmetic.rs:376-407` for the middle rows; lines 409-440 (the final row) are
the same code with `lhs_i = lhs_sig_nonzero`. -/
def mulFullRow (lhs rhs : List Digit) (rhsSig : Nat) (lhsI : Nat) (sum : List Digit) :
    Counted (List Digit) := do
  let mult ← idx lhs lhsI
  let r0 ← idx rhs 0
  let temp0 := Digit.carryingMul mult r0
  let mulCarry := temp0.2
  let x ← idx sum lhsI
  let temp1 := Digit.carryingAdd x temp0.1
  let sum ← upd sum lhsI temp1.1
  let addCarry := temp1.2
  let (sum, mulCarry, addCarry) ←
    forRange 1 rhsSig (sum, mulCarry, addCarry) (mulAddStep mult rhs lhsI)
  let r ← idx rhs rhsSig
  let temp0 := Digit.carryingMulAdd mult r mulCarry
  let x ← idx sum (lhsI + rhsSig)
  let temp1 := DDigit.wrappingAdd (DDigit.wrappingAdd (Digit.dd x) (Digit.dd temp0.1))
    (Digit.dd addCarry)
  let sum ← upd sum (lhsI + rhsSig) (DDigit.lo temp1)
  push sum (Digit.wrappingAdd (DDigit.hi temp1) temp0.2)

/-- The branch without digit overflow, `/repo/src/apint/arithmetic.rs:342-445`. -/
def mulNonOverflow (lhs rhs : List Digit) (lhsSig rhsSig : Nat) : Counted (List Digit) := do
  let mult ← idx lhs 0
  let r0 ← idx rhs 0
  let temp := Digit.carryingMul mult r0
  let (sum, mulCarry) ← mulRow mult ((rhs.take rhsSig).drop 1) ([temp.1], temp.2)
  let r ← idx rhs rhsSig
  let temp := Digit.carryingMulAdd mult r mulCarry
  let sum ← push sum temp.1
  let sum ← push sum temp.2
  let sum ← forRange 1 lhsSig sum (mulFullRow lhs rhs rhsSig)
  let sum ← mulFullRow lhs rhs rhsSig lhsSig sum
  if lhs.length < sum.length then copyRange lhs 0 lhs.length sum 0 lhs.length
  else copyRange lhs 0 sum.length sum 0 sum.length

/-- One middle row of the wrapping multiplication, `/repo/src/apint/arithmetic.rs:473-505`.
`sig_nonzero.wrapping_sub(lhs_i)` cannot wrap because `lhs_i < sig_nonzero`; the model uses the
checked subtraction. -/
def mulWrapRow (lhs rhs : List Digit) (sig : Nat) (lhsI : Nat) (sum : List Digit) :
    Counted (List Digit) := do
  let mult ← idx lhs lhsI
  let r0 ← idx rhs 0
  let temp0 := Digit.carryingMul mult r0
  let mulCarry := temp0.2
  let x ← idx sum lhsI
  let temp1 := Digit.carryingAdd x temp0.1
  let sum ← upd sum lhsI temp1.1
  let addCarry := temp1.2
  let rhsIUpper ← csub sig lhsI
  let (sum, mulCarry, addCarry) ←
    forRange 1 rhsIUpper (sum, mulCarry, addCarry) (mulAddStep mult rhs lhsI)
  let r ← idx rhs rhsIUpper
  let x ← idx sum sig
  upd sum sig (Digit.wrappingAdd (Digit.wrappingAdd
    (Digit.wrappingAdd (Digit.wrappingMul mult r) mulCarry) x) addCarry)

/-- The wrapping branch, `/repo/src/apint/arithmetic.rs:446-511`. -/
def mulWrapping (lhs rhs : List Digit) : Counted (List Digit) := do
  let sig ← csub lhs.length 1
  let l0 ← idx lhs 0
  let r0 ← idx rhs 0
  let temp := Digit.carryingMul l0 r0
  let (sum, mulCarry) ← mulRow l0 ((rhs.take sig).drop 1) ([temp.1], temp.2)
  let r ← idx rhs sig
  let sum ← push sum (Digit.wrappingMulAdd l0 r mulCarry)
  let sum ← forRange 1 sig sum (mulWrapRow lhs rhs sig)
  let lhs ← copyRange lhs 0 sig sum 0 sig
  let l ← idx lhs sig
  let s ← idx sum sig
  upd lhs sig (Digit.wrappingMulAdd l r0 s)

/-- The `(true, false)` branch: `lhs` has one significant digit,
`/repo/src/apint/arithmetic.rs:513-540`. -/
def mulSmallLhs (lhs rhs : List Digit) (rhsSig : Nat) : Counted (List Digit) := do
  let mult ← idx lhs 0
  let r0 ← idx rhs 0
  let temp := Digit.carryingMul mult r0
  let lhs ← upd lhs 0 temp.1
  let (lhs, mulCarry) ← forRange 1 rhsSig (lhs, temp.2) fun rhsI (lhs, mulCarry) => do
    let r ← idx rhs rhsI
    let temp := Digit.carryingMulAdd mult r mulCarry
    let lhs ← upd lhs rhsI temp.1
    .ok (lhs, temp.2)
  let last ← csub lhs.length 1
  if rhsSig = last then do
    let r ← idx rhs rhsSig
    upd lhs rhsSig (Digit.wrappingMulAdd mult r mulCarry)
  else do
    let r ← idx rhs rhsSig
    let temp := Digit.carryingMulAdd mult r mulCarry
    let lhs ← upd lhs rhsSig temp.1
    upd lhs (rhsSig + 1) temp.2

/-- The loop `for lhs in lhs.iter_mut().take(lhs_sig_nonzero).skip(1)`,
`/repo/src/apint/arithmetic.rs:547-552`, written with the index of the visited digit. -/
def mulSmallRhsLoop (r0 : Digit) (lhsSig : Nat) (s : List Digit × Digit) :
    Counted (List Digit × Digit) :=
  forRange 1 lhsSig s fun i (lhs, mulCarry) => do
    let l ← idx lhs i
    let temp := Digit.carryingMulAdd r0 l mulCarry
    let lhs ← upd lhs i temp.1
    .ok (lhs, temp.2)

/-- The `(false, true)` branch: `rhs` has one significant digit,
`/repo/src/apint/arithmetic.rs:541-567`. -/
def mulSmallRhs (lhs rhs : List Digit) (lhsSig : Nat) : Counted (List Digit) := do
  let r0 ← idx rhs 0
  let l0 ← idx lhs 0
  let temp := Digit.carryingMul r0 l0
  let lhs ← upd lhs 0 temp.1
  let (lhs, mulCarry) ← mulSmallRhsLoop r0 lhsSig (lhs, temp.2)
  let last ← csub lhs.length 1
  if lhsSig = last then do
    let l ← idx lhs lhsSig
    upd lhs lhsSig (Digit.wrappingMulAdd r0 l mulCarry)
  else do
    let l ← idx lhs lhsSig
    let temp := Digit.carryingMulAdd r0 l mulCarry
    let lhs ← upd lhs lhsSig temp.1
    upd lhs (lhsSig + 1) temp.2

/-- Number of significant bits when `sig` is the index of the most significant nonzero digit,
`/repo/src/apint/arithmetic.rs:332-339`. -/
def sigBits (l : List Digit) (sig : Nat) : Counted Nat := do
  let d ← idx l sig
  let n ← csub 64 (Digit.leadingZeros d)
  .ok (sig * 64 + n)

/-- The choice between the long and the short multiplications, by the positions of the most
significant nonzero digits, `/repo/src/apint/arithmetic.rs:330-572`. -/
def mulCases (lhs rhs : List Digit) (lhsSig rhsSig : Nat) : Counted (List Digit) :=
  match lhsSig == 0, rhsSig == 0 with
  | false, false => do
    let lhsSigBits ← sigBits lhs lhsSig
    let rhsSigBits ← sigBits rhs rhsSig
    let totSigBits := lhsSigBits + rhsSigBits
    if totSigBits ≤ lhs.length * 64 then mulNonOverflow lhs rhs lhsSig rhsSig
    else mulWrapping lhs rhs
  | true, false => mulSmallLhs lhs rhs rhsSig
  | false, true => mulSmallRhs lhs rhs lhsSig
  | true, true => do
    let l0 ← idx lhs 0
    let r0 ← idx rhs 0
    let temp0 := Digit.carryingMul l0 r0
    let lhs ← upd lhs 0 temp0.1
    upd lhs 1 temp0.2

/-- The heap branch of `wrapping_mul_assign`, `/repo/src/apint/arithmetic.rs:299-574`.
The flag is `true` for the early `return Ok(())` of a multiplication by zero (lines 305-310
and 315-320), where `lhs` has been zeroed and `clear_unused_bits` is not called. -/
def mulDigits (lhs rhs : List Digit) : Counted (List Digit × Bool) := do
  match ← rpositionNonzero rhs with
  | none => do
    let lhs ← clear lhs
    .ok (lhs, true)
  | some rhsSig => do
    match ← rpositionNonzero lhs with
    | none => do
      let lhs ← clear lhs
      .ok (lhs, true)
    | some lhsSig => do
      let lhs ← mulCases lhs rhs lhsSig rhsSig
      .ok (lhs, false)

/-- `wrapping_mul_assign`, `/repo/src/apint/arithmetic.rs:294-578`. -/
def wrappingMulAssign (self rhs : ApInt) : Counted (Res Unit × ApInt) := do
  match ← self.zipAccessData rhs with
  | .error e => .ok (.error e, self)
  | .ok (.inl l r) => do
    let self : ApInt := { self with data := .inl (Digit.wrappingMul l r) }
    let self ← charge 5 self.clearUnusedBits
    .ok (.ok (), self)
  | .ok (.ext l r) => do
    let (l, early) ← mulDigits l r
    let self : ApInt := { self with data := .ext l }
    if early then .ok (.ok (), self)
    else do
      let self ← charge 2 self.clearUnusedBits
      .ok (.ok (), self)

/-- `large_div_by_small`, `/repo/src/apint/arithmetic.rs:669-687`. -/
def largeDivBySmall (duo : List Digit) (iniDuoSd : Nat) (div : List Digit) :
    Counted (List Digit × List Digit) := do
  let divSmall ← idx div 0
  let d ← idx duo iniDuoSd
  let (quo, rem) ← Digit.wrappingDivrem d divSmall
  let duo ← upd duo iniDuoSd quo
  let (duo, rem) ← forRev 0 iniDuoSd (duo, rem) fun i (duo, rem) => do
    let d ← idx duo i
    let duoDouble := DDigit.fromLoHi d rem
    let temp ← DDigit.wrappingDivrem duoDouble (Digit.dd divSmall)
    let quo := DDigit.lo temp.1
    let rem := DDigit.lo temp.2
    let duo ← upd duo i quo
    .ok (duo, rem)
  let div ← upd div 0 rem
  .ok (duo, div)

/-- `large_div_by_u32`, `/repo/src/apint/arithmetic.rs:694-739`. -/
def largeDivByU32 (duo : List Digit) (iniDuoSd : Nat) (div : List Digit) :
    Counted (List Digit × List Digit) := do
  let d0 ← idx div 0
  let divU32 := u32lo d0
  let d ← idx duo iniDuoSd
  let (quoHi, remHi) ← u32divrem (u32hi d) divU32
  let duoDouble := u32fromLoHi (u32lo d) remHi
  let temp ← Digit.wrappingDivrem duoDouble (u32dd divU32)
  let quoLo := u32lo temp.1
  let remLo := u32lo temp.2
  let duo ← upd duo iniDuoSd (u32fromLoHi quoLo quoHi)
  let (duo, remLo) ← forRev 0 iniDuoSd (duo, remLo) fun i (duo, remLo) => do
    let d ← idx duo i
    let duoDoubleHi := u32fromLoHi (u32hi d) remLo
    let tempHi ← Digit.wrappingDivrem duoDoubleHi (u32dd divU32)
    let quoHi := u32lo tempHi.1
    let remHi := u32lo tempHi.2
    let duoDoubleLo := u32fromLoHi (u32lo d) remHi
    let tempLo ← Digit.wrappingDivrem duoDoubleLo (u32dd divU32)
    let quoLo := u32lo tempLo.1
    let remLo := u32lo tempLo.2
    let duo ← upd duo i (u32fromLoHi quoLo quoHi)
    .ok (duo, remLo)
  let div ← upd div 0 (u32dd remLo)
  .ok (duo, div)

/-- `twos_complement!`, `/repo/src/apint/arithmetic.rs:743-761`. -/
def twosComplement (len : Nat) (array : List Digit) : Counted (List Digit) :=
  forRangeB 0 len array fun i0 array => do
    let a ← idx array i0
    let bitnot := Digit.notInplace a
    match Digit.overflowingAdd bitnot Digit.ONE with
    | (v, false) => do
      let array ← upd array i0 v
      let array ← forRange (i0 + 1) len array fun i1 array => do
        let a ← idx array i1
        upd array i1 (Digit.notInplace a)
      .ok (.brk array)
    | (v, true) => do
      let array ← upd array i0 v
      .ok (.cont array)

/-- The scan `for i in ($lhs_len..$rhs_len).rev()` shared by `uge!` and `ugt!`,
`/repo/src/apint/arithmetic.rs:776-783,818-825`. -/
def anyNonzeroAbove (lhsLen rhsLen : Nat) (rhs : List Digit) : Counted Bool :=
  forRevB lhsLen rhsLen false fun i b0 => do
    let r ← idx rhs i
    if !Digit.isZero r then .ok (.brk true) else .ok (.cont b0)

/-- `uge!`, `/repo/src/apint/arithmetic.rs:767-803`: `true` for the `$ge_branch`. -/
def uge (lhsLen : Nat) (lhs : List Digit) (rhsLen : Nat) (rhs : List Digit) : Counted Bool := do
  let b0 ← anyNonzeroAbove lhsLen rhsLen rhs
  if b0 then .ok false
  else do
    let b1 ← forRevB 0 lhsLen false fun i b1 => do
      let l ← idx lhs i
      let r ← idx rhs i
      if l.toNat < r.toNat then .ok (.brk true)
      else if l ≠ r then .ok (.brk b1)
      else .ok (.cont b1)
    if b1 then .ok false else .ok true

/-- `ugt!`, `/repo/src/apint/arithmetic.rs:809-845`: `true` for the `$gt_branch`. -/
def ugt (lhsLen : Nat) (lhs : List Digit) (rhsLen : Nat) (rhs : List Digit) : Counted Bool := do
  let b0 ← anyNonzeroAbove lhsLen rhsLen rhs
  if b0 then .ok false
  else do
    let b1 ← forRevB 0 lhsLen true fun i b1 => do
      let l ← idx lhs i
      let r ← idx rhs i
      if l.toNat > r.toNat then .ok (.brk false)
      else if l ≠ r then .ok (.brk b1)
      else .ok (.cont b1)
    if b1 then .ok false else .ok true

/-- `special0!`, `/repo/src/apint/arithmetic.rs:849-869`, for three distinct arrays.  Returns
`(sum, target)`. -/
def special0 (len : Nat) (sum sub target : List Digit) (val : Digit) :
    Counted (List Digit × List Digit) := do
  let a ← idx sum 0
  let b ← idx sub 0
  let (s, carry) := Digit.carryingAdd a b
  let target ← upd target 0 s
  let sum ← upd sum 0 val
  let last ← csub len 1
  let (sum, target, carry) ← forRange 1 last (sum, target, carry) fun i (sum, target, carry) => do
    let a ← idx sum i
    let b ← idx sub i
    let temp := dd3 a b carry
    let target ← upd target i (DDigit.lo temp)
    let sum ← upd sum i (Digit.unsetAll a)
    .ok (sum, target, DDigit.hi temp)
  let a ← idx sum last
  let b ← idx sub last
  let target ← upd target last (Digit.wrappingAdd (Digit.wrappingAdd a b) carry)
  let sum ← upd sum last (Digit.unsetAll a)
  .ok (sum, target)

/-- `special0!(place, duo, div, div, val)`, `/repo/src/apint/arithmetic.rs:849-869,964`: the
macro with `$sub` and `$target` naming the same array. -/
def special0Self (len : Nat) (sum target : List Digit) (val : Digit) :
    Counted (List Digit × List Digit) := do
  let a ← idx sum 0
  let b ← idx target 0
  let (s, carry) := Digit.carryingAdd a b
  let target ← upd target 0 s
  let sum ← upd sum 0 val
  let last ← csub len 1
  let (sum, target, carry) ← forRange 1 last (sum, target, carry) fun i (sum, target, carry) => do
    let a ← idx sum i
    let b ← idx target i
    let temp := dd3 a b carry
    let target ← upd target i (DDigit.lo temp)
    let sum ← upd sum i (Digit.unsetAll a)
    .ok (sum, target, DDigit.hi temp)
  let a ← idx sum last
  let b ← idx target last
  let target ← upd target last (Digit.wrappingAdd (Digit.wrappingAdd a b) carry)
  let sum ← upd sum last (Digit.unsetAll a)
  .ok (sum, target)

/-- `special1!`, `/repo/src/apint/arithmetic.rs:873-903`.  Returns `(sum, targ)`.  The inner
loop of lines 893-896 breaks in its first iteration, so it copies one digit. -/
def special1 (len : Nat) (sum sub targ : List Digit) (val : Digit) (add : List Digit) :
    Counted (List Digit × List Digit) := do
  let a ← idx sum 0
  let b ← idx sub 0
  let (temp, carry) := Digit.carryingAdd a b
  let targ ← upd targ 0 temp
  let last ← csub len 1
  let (targ, carry) ← forRange 1 last (targ, carry) fun i (targ, carry) => do
    let a ← idx sum i
    let b ← idx sub i
    let temp := dd3 a b carry
    let targ ← upd targ i (DDigit.lo temp)
    .ok (targ, DDigit.hi temp)
  let a ← idx sum last
  let b ← idx sub last
  let targ ← upd targ last (Digit.wrappingAdd (Digit.wrappingAdd a b) carry)
  let a ← idx add 0
  let (temp, carry) := Digit.carryingAdd a val
  let sum ← upd sum 0 temp
  let (sum, _) ← forRange 1 len (sum, carry) fun i0 (sum, carry) => do
    let sum ←
      if Digit.isZero carry then
        forRangeB i0 len sum fun i1 sum => do
          let a ← idx add i1
          let sum ← upd sum i1 a
          .ok (.brk sum)
      else .ok sum
    let a ← idx add i0
    let temp := Digit.carryingAdd a carry
    let sum ← upd sum i0 temp.1
    .ok (sum, temp.2)
  .ok (sum, targ)

/-- `add!`, `/repo/src/apint/arithmetic.rs:906-922`. -/
def addMacro (len : Nat) (sum add : List Digit) : Counted (List Digit) := do
  let a ← idx sum 0
  let b ← idx add 0
  let (s, carry) := Digit.carryingAdd a b
  let sum ← upd sum 0 s
  let last ← csub len 1
  let (sum, carry) ← forRange 1 last (sum, carry) fun i (sum, carry) => do
    let a ← idx sum i
    let b ← idx add i
    let temp := dd3 a b carry
    let sum ← upd sum i (DDigit.lo temp)
    .ok (sum, DDigit.hi temp)
  let a ← idx sum last
  let b ← idx add last
  upd sum last (Digit.wrappingAdd (Digit.wrappingAdd a b) carry)

/-- The 128 bits of `arr` ending at the leading bit of a value with top digit `sd` and `lz`
leading zeros there: the expression of `/repo/src/apint/arithmetic.rs:983-1006`, also used on
lines 1128-1134 and 1270-1277. -/
def sigDD (arr : List Digit) (sd lz : Nat) : Counted DDigit :=
  if lz = 0 then do
    let i1 ← csub sd 1
    let lo ← idx arr i1
    let hi ← idx arr sd
    .ok (DDigit.fromLoHi lo hi)
  else do
    let d2 ← idx arr sd
    let a ← DDigit.shl (Digit.dd d2) (lz + 64)
    let i1 ← csub sd 1
    let d1 ← idx arr i1
    let b ← DDigit.shl (Digit.dd d1) lz
    let i0 ← csub sd 2
    let d0 ← idx arr i0
    let n ← csub 64 lz
    let c ← DDigit.shr (Digit.dd d0) n
    .ok (DDigit.bitor (DDigit.bitor a b) c)

/-- Quotient zero: move `duo[0..=ini_duo_sd]` to `div` and clear `duo` there, then clear
`div[ini_duo_sd+1 ..= div_sd]`.  `/repo/src/apint/arithmetic.rs:944-951` and `968-974`
(`place = ini_duo_sd + 1`). -/
def moveDuoToDiv (duo : List Digit) (iniDuoSd : Nat) (div : List Digit) (divSd : Nat) :
    Counted (List Digit × List Digit) := do
  let (duo, div) ← forRange 0 (iniDuoSd + 1) (duo, div) fun i (duo, div) => do
    let d ← idx duo i
    let div ← upd div i d
    let duo ← upd duo i (Digit.unsetAll d)
    .ok (duo, div)
  let div ← forRange (iniDuoSd + 1) (min (divSd + 1) div.length) div fun i div => do
    let d ← idx div i
    upd div i (Digit.unsetAll d)
  .ok (duo, div)

/-- The quotient is `mul - 1`: lines 1032-1041, 1050-1059 and 1083-1092 of
`/repo/src/apint/arithmetic.rs`. -/
def finishMulSub1 (len : Nat) (duo div sub : List Digit) (mul : Digit) :
    Counted (List Digit × List Digit) := do
  let sub ← twosComplement len sub
  let sub ← addMacro len sub div
  special0 len duo sub div (Digit.wrappingSub mul Digit.ONE)

/-- The quotient is `mul`: lines 1064-1066 and 1097-1099 of `/repo/src/apint/arithmetic.rs`. -/
def finishMul (len : Nat) (duo div sub : List Digit) (mul : Digit) :
    Counted (List Digit × List Digit) := do
  let sub ← twosComplement len sub
  special0 len duo sub div mul

/-- The "`mul` or `mul - 1`" algorithm, `/repo/src/apint/arithmetic.rs:981-1103`. -/
def mulOrMulSub1 (len : Nat) (duo : List Digit) (iniDuoSd iniDuoLz : Nat) (div : List Digit)
    (divSd : Nat) : Counted (List Digit × List Digit) := do
  let duoSigDd ← sigDD duo iniDuoSd iniDuoLz
  let divSigDd ← sigDD div iniDuoSd iniDuoLz
  let q ← DDigit.wrappingDiv duoSigDd divSigDd
  let mul := DDigit.lo q
  let d0 ← idx div 0
  let temp := Digit.carryingMul mul d0
  let (sub, carry) ← mulRow mul ((div.take divSd).drop 1) ([temp.1], temp.2)
  let last ← csub len 1
  if divSd = last then do
    let d ← idx div divSd
    let temp := Digit.carryingMulAdd mul d carry
    let sub ← push sub temp.1
    if !Digit.isZero temp.2 then finishMulSub1 len duo div sub mul
    else do
      let gt ← ugt len sub len duo
      if gt then finishMulSub1 len duo div sub mul
      else finishMul len duo div sub mul
  else do
    let d ← idx div divSd
    let temp := Digit.carryingMulAdd mul d carry
    let sub ← push sub temp.1
    let sub ← push sub temp.2
    let sub ← pushZeros sub (len - sub.length)
    let gt ← ugt len sub len duo
    if gt then finishMulSub1 len duo div sub mul
    else finishMul len duo div sub mul

/-- Add `mul << bits_ll` at digit `digits` to `quo`, `/repo/src/apint/arithmetic.rs:1154-1172`. -/
def addToQuo (quo : List Digit) (mul : DDigit) (digits bitsLl : Nat) : Counted (List Digit) := do
  let splitMul ← DDigit.shl mul bitsLl
  let q0 ← idx quo digits
  let (temp, carry) := Digit.carryingAdd (DDigit.lo splitMul) q0
  let quo ← upd quo digits temp
  let q1 ← idx quo (digits + 1)
  let temp := dd3 (DDigit.hi splitMul) q1 carry
  let quo ← upd quo (digits + 1) (DDigit.lo temp)
  let carry := DDigit.hi temp
  let (quo, _) ← forRangeB (digits + 2) quo.length (quo, carry) fun i (quo, carry) => do
    if Digit.isZero carry then .ok (.brk (quo, carry))
    else do
      let q ← idx quo i
      let temp := Digit.carryingAdd q carry
      let quo ← upd quo i temp.1
      .ok (.cont (quo, temp.2))
  .ok quo

/-- Subtract `(mul * div) << bits` from `duo` when `mul` fits one digit,
`/repo/src/apint/arithmetic.rs:1180-1213`. -/
def subCoreLow (duo div : List Digit) (mul : Digit) (duoSd digits bitsLl : Nat) :
    Counted (List Digit) := do
  let d0 ← idx div 0
  let t ← DDigit.shl (Digit.dd d0) bitsLl
  let (temp0, wrapCarry) := DDigit.loHi t
  let (temp1, mulCarry) := DDigit.loHi (DDigit.wrappingMul (Digit.dd mul) (Digit.dd temp0))
  let u0 ← idx duo digits
  let (temp2, addCarry) := DDigit.loHi (dd3 (Digit.notInplace temp1) u0 Digit.ONE)
  let duo ← upd duo digits temp2
  let (duo, _) ← forRange (digits + 1) (duoSd + 1) (duo, wrapCarry, mulCarry, addCarry)
    fun i (duo, wrapCarry, mulCarry, addCarry) => do
      let j ← csub i digits
      let d ← idx div j
      let t ← DDigit.shl (Digit.dd d) bitsLl
      let temp0 := DDigit.loHi (DDigit.bitor t (Digit.dd wrapCarry))
      let wrapCarry := temp0.2
      let temp1 := DDigit.loHi (DDigit.wrappingAdd
        (DDigit.wrappingMul (Digit.dd mul) (Digit.dd temp0.1)) (Digit.dd mulCarry))
      let mulCarry := temp1.2
      let u ← idx duo i
      let temp2 := DDigit.loHi (dd3 (Digit.notInplace temp1.1) u addCarry)
      let addCarry := temp2.2
      let duo ← upd duo i temp2.1
      .ok (duo, wrapCarry, mulCarry, addCarry)
  .ok duo

/-- Subtract `(mul * div) << bits` from `duo` when `mul` has its 65th bit set; `mul` here is the
low digit, `/repo/src/apint/arithmetic.rs:1231-1266`. -/
def subCoreHigh (duo div : List Digit) (mul : Digit) (duoSd digits bitsLl : Nat) :
    Counted (List Digit) := do
  let d0 ← idx div 0
  let (temp0, mulCarry) := Digit.carryingMul mul d0
  let temp1 := temp0
  let add0Carry := Digit.ZERO
  let t ← DDigit.shl (DDigit.wrappingAdd (Digit.dd (Digit.notInplace temp1))
    (Digit.dd Digit.ONE)) bitsLl
  let (temp2, wrapCarry) := DDigit.loHi t
  let u0 ← idx duo digits
  let (temp3, add1Carry) := Digit.carryingAdd temp2 u0
  let duo ← upd duo digits temp3
  let (duo, _) ← forRange (digits + 1) (duoSd + 1)
    (duo, mulCarry, add0Carry, wrapCarry, add1Carry)
    fun i (duo, mulCarry, add0Carry, wrapCarry, add1Carry) => do
      let j ← csub i digits
      let d ← idx div j
      let temp0 := DDigit.wrappingAdd (DDigit.wrappingMul (Digit.dd mul) (Digit.dd d))
        (Digit.dd mulCarry)
      let mulCarry := DDigit.hi temp0
      let j1 ← csub j 1
      let d' ← idx div j1
      let temp1 := dd3 (DDigit.lo temp0) d' add0Carry
      let add0Carry := DDigit.hi temp1
      let t ← DDigit.shl (Digit.dd (Digit.notInplace (DDigit.lo temp1))) bitsLl
      let temp2 := DDigit.wrappingAdd t (Digit.dd wrapCarry)
      let wrapCarry := DDigit.hi temp2
      let u ← idx duo i
      let temp3 := dd3 (DDigit.lo temp2) u add1Carry
      let add1Carry := DDigit.hi temp3
      let duo ← upd duo i (DDigit.lo temp3)
      .ok (duo, mulCarry, add0Carry, wrapCarry, add1Carry)
  .ok duo

/-- The "`mul` or `mul - 1`" algorithm with addition from `quo`,
`/repo/src/apint/arithmetic.rs:1269-1331`. -/
def mulOrMulSub1Quo (len : Nat) (s : DivState) (div : List Digit) (divSd : Nat)
    (duoSigDd : DDigit) : Counted (List Digit × List Digit) := do
  let divSigDd ← sigDD div s.duoSd s.duoLz
  let q ← DDigit.wrappingDiv duoSigDd divSigDd
  let mul := DDigit.lo q
  let d0 ← idx div 0
  let (temp, mulCarry) := DDigit.loHi (DDigit.wrappingMul (Digit.dd mul) (Digit.dd d0))
  let (sub, mulCarry) ← mulRow mul ((div.take divSd).drop 1) ([temp], mulCarry)
  let d ← idx div divSd
  let temp := Digit.carryingMulAdd mul d mulCarry
  let sub ← push sub temp.1
  let sub ← push sub temp.2
  let sub ← pushZeros sub (len - (divSd + 2))
  let subLen := sub.length
  let gt ← ugt subLen sub len s.duo
  if gt then do
    let sub ← twosComplement subLen sub
    let sub ← addMacro subLen sub div
    special1 subLen s.duo sub div (Digit.wrappingSub mul Digit.ONE) s.quo
  else do
    let sub ← twosComplement subLen sub
    special1 subLen s.duo sub div mul s.quo

/-- Find the new `duo_sd` by scanning down from the old one, `/repo/src/apint/arithmetic.rs:1334-1347`:
`none` when all scanned digits are zero (the scan reached `i == 0`). -/
def findDuoSd (duo : List Digit) (duoSd : Nat) : Counted (Option Nat) :=
  forRevB 0 (duoSd + 1) none fun i acc => do
    let d ← idx duo i
    if !Digit.isZero d then .ok (.brk (some i)) else .ok (.cont acc)

/-- `duo = quo + 1`, `/repo/src/apint/arithmetic.rs:1363-1376`. -/
def quoPlusOne (len : Nat) (duo quo : List Digit) : Counted (List Digit) :=
  forRangeB 0 len duo fun i0 duo => do
    let q ← idx quo i0
    match Digit.overflowingAdd q Digit.ONE with
    | (v, false) => do
      let duo ← upd duo i0 v
      let duo ← copyRange duo (i0 + 1) len quo (i0 + 1) len
      .ok (.brk duo)
    | (v, true) => do
      let duo ← upd duo i0 v
      .ok (.cont duo)

/-- `duo` has at most two digits left, `/repo/src/apint/arithmetic.rs:1399-1422`. -/
def finishTwoDigits (len : Nat) (duo quo div : List Digit) : Counted (List Digit × List Digit) := do
  let u0 ← idx duo 0
  let u1 ← idx duo 1
  let v0 ← idx div 0
  let v1 ← idx div 1
  let (mul, rem) ← DDigit.wrappingDivrem (DDigit.fromLoHi u0 u1) (DDigit.fromLoHi v0 v1)
  let div ← upd div 0 (DDigit.lo rem)
  let div ← upd div 1 (DDigit.hi rem)
  let q0 ← idx quo 0
  let (temp, carry) := Digit.carryingAdd q0 (DDigit.lo mul)
  let duo ← upd duo 0 temp
  let q1 ← idx quo 1
  let temp := dd3 q1 (DDigit.hi mul) carry
  let duo ← upd duo 1 (DDigit.lo temp)
  let carry := DDigit.hi temp
  let (duo, _) ← forRangeB 2 len (duo, carry) fun i0 (duo, carry) => do
    if Digit.isZero carry then do
      let duo ← copyRange duo i0 len quo i0 len
      .ok (.brk (duo, carry))
    else do
      let q ← idx quo i0
      let temp := Digit.carryingAdd q carry
      let duo ← upd duo i0 temp.1
      .ok (.cont (duo, temp.2))
  .ok (duo, div)

/-- The part of an iteration of the main loop that follows the subtraction,
`/repo/src/apint/arithmetic.rs:1333-1423`. -/
def divLoopTail (len : Nat) (duo quo div : List Digit) (duoSd divSb : Nat) : Counted DivStep := do
  match ← findDuoSd duo duoSd with
  | none => do
    -- lines 1341-1345
    let (duo, div) ← forRange 0 len (duo, div) fun i (duo, div) => do
      let div ← upd div i Digit.ZERO
      let q ← idx quo i
      let duo ← upd duo i q
      .ok (duo, div)
    .ok (.done duo div)
  | some duoSd => do
    let d ← idx duo duoSd
    let duoLz := Digit.leadingZeros d
    let duoSb ← sigBitsOf duoSd duoLz
    if duoSb = divSb then do
      -- lines 1351-1386
      let ge ← uge len duo len div
      if ge then do
        let div ← twosComplement len div
        let div ← addMacro len div duo
        let duo ← quoPlusOne len duo quo
        .ok (.done duo div)
      else do
        let div ← copyRange div 0 len duo 0 len
        let duo ← copyRange duo 0 len quo 0 len
        .ok (.done duo div)
    else if divSb > duoSb then do
      -- lines 1388-1393
      let div ← copyRange div 0 len duo 0 len
      let duo ← copyRange duo 0 len quo 0 len
      .ok (.done duo div)
    else if duoSd < 2 then do
      let (duo, div) ← finishTwoDigits len duo quo div
      .ok (.done duo div)
    else .ok (.next ⟨duo, quo, duoSd, duoLz⟩)

/-- One iteration of the main `loop`, `/repo/src/apint/arithmetic.rs:1125-1424`. -/
def divLoopBody (len : Nat) (div : List Digit) (divSd divSb divLesserBits : Nat)
    (divSigDAdd1 : DDigit) (s : DivState) : Counted DivStep := do
  let n ← csub 64 s.duoLz
  let k ← csub s.duoSd 2
  let duoLesserBits := n + 64 * k
  let duoSigDd ← sigDD s.duo s.duoSd s.duoLz
  if duoLesserBits ≥ divLesserBits then do
    let bits := duoLesserBits - divLesserBits
    let digits := bits / 64
    let bitsLl := bits % 64
    let mul ← DDigit.wrappingDiv duoSigDd divSigDAdd1
    let quo ← addToQuo s.quo mul digits bitsLl
    let duo ←
      if Digit.isZero (DDigit.hi mul) then
        subCoreLow s.duo div (DDigit.lo mul) s.duoSd digits bitsLl
      else subCoreHigh s.duo div (DDigit.lo mul) s.duoSd digits bitsLl
    divLoopTail len duo quo div s.duoSd divSb
  else do
    let (duo, div) ← mulOrMulSub1Quo len s div divSd duoSigDd
    .ok (.done duo div)

/-- The main `loop`, `/repo/src/apint/arithmetic.rs:1125-1424`, with a bound on the number of
iterations; running out of it is the `diverge` fault. -/
def divLoop (len : Nat) (div : List Digit) (divSd divSb divLesserBits : Nat)
    (divSigDAdd1 : DDigit) : Nat → DivState → Counted (List Digit × List Digit)
  | 0, _ => .error .diverge
  | fuel + 1, s => do
    match ← divLoopBody len div divSd divSb divLesserBits divSigDAdd1 s with
    | .done duo div => .ok (duo, div)
    | .next s => divLoop len div divSd divSb divLesserBits divSigDAdd1 fuel s

/-- Set-up of the main loop, `/repo/src/apint/arithmetic.rs:1104-1124`, and the loop, which is
allowed `budget` rounds. -/
def longDivision (budget len : Nat) (duo : List Digit) (iniDuoSd iniDuoLz : Nat) (div : List Digit)
    (divSd divLz divSb : Nat) : Counted (List Digit × List Digit) := do
  let n ← csub 64 divLz
  let k ← csub divSd 1
  let divLesserBits := n + 64 * k
  let divSigD ←
    if divLz = 0 then idx div divSd
    else do
      let a ← idx div divSd
      let b ← idx div k
      .ok (Digit.bitor (Digit.shl a divLz) (Digit.shr b n))
  let divSigDAdd1 := DDigit.wrappingAdd (Digit.dd divSigD) (Digit.dd Digit.ONE)
  let quo ← pushZeros [] len
  divLoop len div divSd divSb divLesserBits divSigDAdd1 budget
    ⟨duo, quo, iniDuoSd, iniDuoLz⟩

/-- `large_div_by_large`, `/repo/src/apint/arithmetic.rs:928-1425`. -/
def largeDivByLarge (budget len : Nat) (duo : List Digit) (iniDuoSd : Nat) (div : List Digit)
    (divSd : Nat) : Counted (List Digit × List Digit) := do
  let d ← idx duo iniDuoSd
  let iniDuoLz := Digit.leadingZeros d
  let d ← idx div divSd
  let divLz := Digit.leadingZeros d
  let iniDuoSb ← sigBitsOf iniDuoSd iniDuoLz
  let divSb ← sigBitsOf divSd divLz
  if iniDuoSb < divSb then moveDuoToDiv duo iniDuoSd div divSd
  else if iniDuoSb = divSb then do
    let place := iniDuoSd + 1
    let ge ← uge place duo place div
    if ge then do
      let div ← twosComplement place div
      special0Self place duo div Digit.ONE
    else moveDuoToDiv duo iniDuoSd div divSd
  else do
    let iniBits ← csub iniDuoSb divSb
    if iniBits < 64 then mulOrMulSub1 len duo iniDuoSd iniDuoLz div divSd
    else longDivision budget len duo iniDuoSd iniDuoLz div divSd divLz divSb

/-- `aarons_algorithm_divrem`, `/repo/src/apint/arithmetic.rs:651-1498` (the top-level match is on
lines 1431-1497).  `none` stands for the return value `false` (the divisor is zero).  `budget` bounds
the number of rounds of the main loop. -/
def divremWithin (budget : Nat) (duo div : List Digit) :
    Counted (Option (List Digit × List Digit)) := do
  match ← rpositionNonzero div with
  | none => .ok none
  | some divSd => do
    match ← rpositionNonzero duo with
    | none => do
      let div ← clear div
      .ok (some (duo, div))
    | some iniDuoSd =>
      if iniDuoSd < divSd then
        -- lines 1446-1454: `duo` and `div` are zipped, so the shorter one bounds the loop
        let n := min duo.length div.length
        charge (4 * n)
          (.ok (some ((duo.take n).map Digit.unsetAll ++ duo.drop n, duo.take n ++ div.drop n)))
      else
        match iniDuoSd == 0, divSd == 0 with
        | false, false =>
          if iniDuoSd = 1 then do
            let u0 ← idx duo 0
            let u1 ← idx duo 1
            let v0 ← idx div 0
            let v1 ← idx div 1
            let temp ← DDigit.wrappingDivrem (DDigit.fromLoHi u0 u1) (DDigit.fromLoHi v0 v1)
            let duo ← upd duo 0 (DDigit.lo temp.1)
            let duo ← upd duo 1 (DDigit.hi temp.1)
            let div ← upd div 0 (DDigit.lo temp.2)
            let div ← upd div 1 (DDigit.hi temp.2)
            .ok (some (duo, div))
          else do
            let r ← largeDivByLarge budget duo.length duo iniDuoSd div divSd
            .ok (some r)
        | true, false => .error .panic
        | false, true => do
          let d ← idx div 0
          if Digit.leadingZeros d ≥ 32 then do
            let r ← largeDivByU32 duo iniDuoSd div
            .ok (some r)
          else do
            let r ← largeDivBySmall duo iniDuoSd div
            .ok (some r)
        | true, true => do
          let u ← idx duo 0
          let v ← idx div 0
          let temp ← Digit.wrappingDivrem u v
          let duo ← upd duo 0 temp.1
          let div ← upd div 0 temp.2
          .ok (some (duo, div))

/-- `aarons_algorithm_divrem`, `/repo/src/apint/arithmetic.rs:651-1498`.  The source has no bound on
the number of rounds of the main loop; the model allows two per digit and fails with `diverge` after
that, which is shown not to happen. -/
def divremDigits (duo div : List Digit) : Counted (Option (List Digit × List Digit)) :=
  divremWithin (2 * duo.length) duo div

/-- `aarons_algorithm_remdiv`, `/repo/src/apint/arithmetic.rs:1507-1522`. -/
def remdivDigits (duo div : List Digit) : Counted (Option (List Digit × List Digit)) := do
  match ← divremDigits duo div with
  | some (duo, div) => do
    let (duo, div) ← forRange 0 duo.length (duo, div) fun i (duo, div) => do
      let temp ← idx duo i
      let d ← idx div i
      let duo ← upd duo i d
      let div ← upd div i temp
      .ok (duo, div)
    .ok (some (duo, div))
  | none => .ok none

/-- `wrapping_udivrem_assign`, `/repo/src/apint/arithmetic.rs:1532-1557`. -/
def wrappingUdivremAssign (lhs rhs : ApInt) : Counted (Res Unit × ApInt × ApInt) := do
  match ← lhs.zipAccessData rhs with
  | .error e => .ok (.error e, lhs, rhs)
  | .ok (.inl duo div) =>
    if !Digit.isZero div then do
      let temp ← charge 4 (Digit.wrappingDivrem duo div)
      .ok (.ok (), { lhs with data := .inl temp.1 }, { rhs with data := .inl temp.2 })
    else do
      let c ← clone lhs
      .ok (.error (.divisionByZero .unsignedDivRem c), lhs, rhs)
  | .ok (.ext duo div) => do
    match ← divremDigits duo div with
    | some (duo, div) => .ok (.ok (), { lhs with data := .ext duo }, { rhs with data := .ext div })
    | none => do
      let c ← clone lhs
      .ok (.error (.divisionByZero .unsignedDivRem c), lhs, rhs)

/-- `wrapping_uremdiv_assign`, `/repo/src/apint/arithmetic.rs:1567-1587`. -/
def wrappingUremdivAssign (lhs rhs : ApInt) : Counted (Res Unit × ApInt × ApInt) := do
  match ← lhs.zipAccessData rhs with
  | .error e => .ok (.error e, lhs, rhs)
  | .ok (.inl duo div) =>
    if !Digit.isZero div then do
      let temp ← charge 4 (Digit.wrappingDivrem duo div)
      .ok (.ok (), { lhs with data := .inl temp.2 }, { rhs with data := .inl temp.1 })
    else do
      let c ← clone lhs
      .ok (.error (.divisionByZero .unsignedRemDiv c), lhs, rhs)
  | .ok (.ext duo div) => do
    match ← remdivDigits duo div with
    | some (duo, div) => .ok (.ok (), { lhs with data := .ext duo }, { rhs with data := .ext div })
    | none => do
      let c ← clone lhs
      .ok (.error (.divisionByZero .unsignedRemDiv c), lhs, rhs)

/-- `wrapping_udiv_assign`, `/repo/src/apint/arithmetic.rs:1596-1611`. -/
def wrappingUdivAssign (self rhs : ApInt) : Counted (Res Unit × ApInt) := do
  match ← self.zipAccessData rhs with
  | .error e => .ok (.error e, self)
  | .ok (.inl duo div) =>
    if !Digit.isZero div then do
      let q ← charge 3 (Digit.wrappingDiv duo div)
      .ok (.ok (), { self with data := .inl q })
    else do
      let c ← clone self
      .ok (.error (.divisionByZero .unsignedDiv c), self)
  | .ok (.ext duo div) => do
    let div ← toVec div
    match ← divremDigits duo div with
    | some (duo, _) => .ok (.ok (), { self with data := .ext duo })
    | none => do
      let c ← clone self
      .ok (.error (.divisionByZero .unsignedDiv c), self)

/-- `wrapping_urem_assign`, `/repo/src/apint/arithmetic.rs:1631-1646`. -/
def wrappingUremAssign (self rhs : ApInt) : Counted (Res Unit × ApInt) := do
  match ← self.zipAccessData rhs with
  | .error e => .ok (.error e, self)
  | .ok (.inl duo div) =>
    if !Digit.isZero div then do
      let q ← charge 3 (Digit.wrappingRem duo div)
      .ok (.ok (), { self with data := .inl q })
    else do
      let c ← clone self
      .ok (.error (.divisionByZero .unsignedRem c), self)
  | .ok (.ext duo div) => do
    let div ← toVec div
    match ← remdivDigits duo div with
    | some (duo, _) => .ok (.ok (), { self with data := .ext duo })
    | none => do
      let c ← clone self
      .ok (.error (.divisionByZero .unsignedRem c), self)

/-- `wrapping_sdivrem_assign`, `/repo/src/apint/arithmetic.rs:1667-1702`. -/
def wrappingSdivremAssign (lhs rhs : ApInt) : Counted (Res Unit × ApInt × ApInt) := do
  let z ← isZero rhs
  if z then do
    let c ← clone lhs
    .ok (.error (.divisionByZero .signedDivRem c), lhs, rhs)
  else do
    let lm ← charge 1 lhs.msb
    let rm ← charge 1 rhs.msb
    let (lhs, rhs, negateLhs, negateRhs) ←
      match lm, rm with
      | false, false => .ok (lhs, rhs, false, false)
      | true, false => do
        let lhs ← wrappingNeg lhs
        .ok (lhs, rhs, true, true)
      | false, true => do
        let rhs ← wrappingNeg rhs
        .ok (lhs, rhs, true, false)
      | true, true => do
        let lhs ← wrappingNeg lhs
        let rhs ← wrappingNeg rhs
        .ok (lhs, rhs, false, true)
    let (r, lhs, rhs) ← wrappingUdivremAssign lhs rhs
    let () ← charge 0 (expect r)
    let lhs ← negIf negateLhs lhs
    let rhs ← negIf negateRhs rhs
    .ok (.ok (), lhs, rhs)

/-- `wrapping_sremdiv_assign`, `/repo/src/apint/arithmetic.rs:1712-1747`. -/
def wrappingSremdivAssign (lhs rhs : ApInt) : Counted (Res Unit × ApInt × ApInt) := do
  let z ← isZero rhs
  if z then do
    let c ← clone lhs
    .ok (.error (.divisionByZero .signedRemDiv c), lhs, rhs)
  else do
    let lm ← charge 1 lhs.msb
    let rm ← charge 1 rhs.msb
    let (lhs, rhs, negateLhs, negateRhs) ←
      match lm, rm with
      | false, false => .ok (lhs, rhs, false, false)
      | true, false => do
        let lhs ← wrappingNeg lhs
        .ok (lhs, rhs, true, true)
      | false, true => do
        let rhs ← wrappingNeg rhs
        .ok (lhs, rhs, false, true)
      | true, true => do
        let lhs ← wrappingNeg lhs
        let rhs ← wrappingNeg rhs
        .ok (lhs, rhs, true, false)
    let (r, lhs, rhs) ← wrappingUremdivAssign lhs rhs
    let () ← charge 0 (expect r)
    let lhs ← negIf negateLhs lhs
    let rhs ← negIf negateRhs rhs
    .ok (.ok (), lhs, rhs)

/-- `wrapping_sdiv_assign`, `/repo/src/apint/arithmetic.rs:1756-1783`. -/
def wrappingSdivAssign (self rhs : ApInt) : Counted (Res Unit × ApInt) := do
  let z ← isZero rhs
  if z then do
    let c ← clone self
    .ok (.error (.divisionByZero .signedDiv c), self)
  else do
    let rhsClone ← clone rhs
    let lm ← charge 1 self.msb
    let rm ← charge 1 rhsClone.msb
    let (self, rhsClone, negateLhs) ←
      match lm, rm with
      | false, false => .ok (self, rhsClone, false)
      | true, false => do
        let self ← wrappingNeg self
        .ok (self, rhsClone, true)
      | false, true => do
        let rhsClone ← wrappingNeg rhsClone
        .ok (self, rhsClone, true)
      | true, true => do
        let self ← wrappingNeg self
        let rhsClone ← wrappingNeg rhsClone
        .ok (self, rhsClone, false)
    let (r, self, _) ← wrappingUdivremAssign self rhsClone
    let () ← charge 0 (expect r)
    let self ← negIf negateLhs self
    .ok (.ok (), self)

/-- `wrapping_srem_assign`, `/repo/src/apint/arithmetic.rs:1803-1830`. -/
def wrappingSremAssign (self rhs : ApInt) : Counted (Res Unit × ApInt) := do
  let z ← isZero rhs
  if z then do
    let c ← clone self
    .ok (.error (.divisionByZero .signedRem c), self)
  else do
    let rhsClone ← clone rhs
    let lm ← charge 1 self.msb
    let rm ← charge 1 rhsClone.msb
    let (self, rhsClone, negateLhs) ←
      match lm, rm with
      | false, false => .ok (self, rhsClone, false)
      | true, false => do
        let self ← wrappingNeg self
        .ok (self, rhsClone, true)
      | false, true => do
        let rhsClone ← wrappingNeg rhsClone
        .ok (self, rhsClone, false)
      | true, true => do
        let self ← wrappingNeg self
        let rhsClone ← wrappingNeg rhsClone
        .ok (self, rhsClone, true)
    let (r, self, _) ← wrappingUremdivAssign self rhsClone
    let () ← charge 0 (expect r)
    let self ← negIf negateLhs self
    .ok (.ok (), self)

end Count

end Verif
