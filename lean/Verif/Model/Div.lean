import Verif.Model.Mul

/-!
# Division (`/repo/src/apint/arithmetic.rs:639-1842`)

`aarons_algorithm_divrem(duo, div)` overwrites `duo` with the quotient and `div` with the
remainder; the model returns the pair of new slices.
-/

namespace Verif

namespace ApInt

/-! ## One-digit divisors -/

/-- `large_div_by_small`, `/repo/src/apint/arithmetic.rs:669-687`. -/
def largeDivBySmall (duo : List Digit) (iniDuoSd : Nat) (div : List Digit) :
    Run (List Digit × List Digit) := do
  let divSmall ← idx div 0
  let d ← idx duo iniDuoSd
  let (quo, rem) ← Digit.wrappingDivrem d divSmall
  let duo ← upd duo iniDuoSd quo
  let (duo, rem) ← forRev 0 iniDuoSd (duo, rem) fun i (duo, rem) => do
    let d ← idx duo i
    let duoDouble := DDigit.fromLoHi d rem
    let temp ← DDigit.wrappingDivrem duoDouble (Digit.dd divSmall)
    let quo := DDigit.lo temp.1
    let rem := DDigit.lo temp.2
    let duo ← upd duo i quo
    .ok (duo, rem)
  let div ← upd div 0 rem
  .ok (duo, div)

/-- `dd` local to `large_div_by_u32`, `/repo/src/apint/arithmetic.rs:701-703`. -/
def u32dd (x : BitVec 32) : Digit := x.setWidth 64

/-- `lo` local to `large_div_by_u32`, `/repo/src/apint/arithmetic.rs:705-707`. -/
def u32lo (x : Digit) : BitVec 32 := x.setWidth 32

/-- `hi` local to `large_div_by_u32`, `/repo/src/apint/arithmetic.rs:709-711`. -/
def u32hi (x : Digit) : BitVec 32 := (x >>> 32).setWidth 32

/-- `from_lo_hi` local to `large_div_by_u32`, `/repo/src/apint/arithmetic.rs:713-715`. -/
def u32fromLoHi (lo hi : BitVec 32) : Digit := lo.setWidth 64 ||| (hi.setWidth 64 <<< 32)

/-- `wrapping_divrem` local to `large_div_by_u32`, `/repo/src/apint/arithmetic.rs:717-719`. -/
def u32divrem (x y : BitVec 32) : Run (BitVec 32 × BitVec 32) :=
  if y = 0 then .error .panic else .ok (x / y, x % y)

/-- `large_div_by_u32`, `/repo/src/apint/arithmetic.rs:694-739`. -/
def largeDivByU32 (duo : List Digit) (iniDuoSd : Nat) (div : List Digit) :
    Run (List Digit × List Digit) := do
  let d0 ← idx div 0
  let divU32 := u32lo d0
  let d ← idx duo iniDuoSd
  let (quoHi, remHi) ← u32divrem (u32hi d) divU32
  let duoDouble := u32fromLoHi (u32lo d) remHi
  let temp ← Digit.wrappingDivrem duoDouble (u32dd divU32)
  let quoLo := u32lo temp.1
  let remLo := u32lo temp.2
  let duo ← upd duo iniDuoSd (u32fromLoHi quoLo quoHi)
  let (duo, remLo) ← forRev 0 iniDuoSd (duo, remLo) fun i (duo, remLo) => do
    let d ← idx duo i
    let duoDoubleHi := u32fromLoHi (u32hi d) remLo
    let tempHi ← Digit.wrappingDivrem duoDoubleHi (u32dd divU32)
    let quoHi := u32lo tempHi.1
    let remHi := u32lo tempHi.2
    let duoDoubleLo := u32fromLoHi (u32lo d) remHi
    let tempLo ← Digit.wrappingDivrem duoDoubleLo (u32dd divU32)
    let quoLo := u32lo tempLo.1
    let remLo := u32lo tempLo.2
    let duo ← upd duo i (u32fromLoHi quoLo quoHi)
    .ok (duo, remLo)
  let div ← upd div 0 (u32dd remLo)
  .ok (duo, div)

/-! ## The macros of `aarons_algorithm_divrem` -/

/-- `twos_complement!`, `/repo/src/apint/arithmetic.rs:743-761`. -/
def twosComplement (len : Nat) (array : List Digit) : Run (List Digit) :=
  forRangeB 0 len array fun i0 array => do
    let a ← idx array i0
    let bitnot := Digit.notInplace a
    match Digit.overflowingAdd bitnot Digit.ONE with
    | (v, false) => do
      let array ← upd array i0 v
      let array ← forRange (i0 + 1) len array fun i1 array => do
        let a ← idx array i1
        upd array i1 (Digit.notInplace a)
      .ok (.brk array)
    | (v, true) => do
      let array ← upd array i0 v
      .ok (.cont array)

/-- The scan `for i in ($lhs_len..$rhs_len).rev()` shared by `uge!` and `ugt!`,
`/repo/src/apint/arithmetic.rs:776-783,818-825`. -/
def anyNonzeroAbove (lhsLen rhsLen : Nat) (rhs : List Digit) : Run Bool :=
  forRevB lhsLen rhsLen false fun i b0 => do
    let r ← idx rhs i
    if !Digit.isZero r then .ok (.brk true) else .ok (.cont b0)

/-- `uge!`, `/repo/src/apint/arithmetic.rs:767-803`: `true` for the `$ge_branch`. -/
def uge (lhsLen : Nat) (lhs : List Digit) (rhsLen : Nat) (rhs : List Digit) : Run Bool := do
  let b0 ← anyNonzeroAbove lhsLen rhsLen rhs
  if b0 then .ok false
  else do
    let b1 ← forRevB 0 lhsLen false fun i b1 => do
      let l ← idx lhs i
      let r ← idx rhs i
      if l.toNat < r.toNat then .ok (.brk true)
      else if l ≠ r then .ok (.brk b1)
      else .ok (.cont b1)
    if b1 then .ok false else .ok true

/-- `ugt!`, `/repo/src/apint/arithmetic.rs:809-845`: `true` for the `$gt_branch`. -/
def ugt (lhsLen : Nat) (lhs : List Digit) (rhsLen : Nat) (rhs : List Digit) : Run Bool := do
  let b0 ← anyNonzeroAbove lhsLen rhsLen rhs
  if b0 then .ok false
  else do
    let b1 ← forRevB 0 lhsLen true fun i b1 => do
      let l ← idx lhs i
      let r ← idx rhs i
      if l.toNat > r.toNat then .ok (.brk false)
      else if l ≠ r then .ok (.brk b1)
      else .ok (.cont b1)
    if b1 then .ok false else .ok true

/-- `dd + dd + dd`, the three-operand addition used by the macros.
`/repo/src/apint/arithmetic.rs:855-857`, `/repo/src/apint/arithmetic.rs:878-880`,
`/repo/src/apint/arithmetic.rs:910-912`. -/
def dd3 (a b c : Digit) : DDigit :=
  DDigit.wrappingAdd (DDigit.wrappingAdd (Digit.dd a) (Digit.dd b)) (Digit.dd c)

/-- `special0!`, `/repo/src/apint/arithmetic.rs:849-869`, for three distinct arrays.  Returns
`(sum, target)`. -/
def special0 (len : Nat) (sum sub target : List Digit) (val : Digit) :
    Run (List Digit × List Digit) := do
  let a ← idx sum 0
  let b ← idx sub 0
  let (s, carry) := Digit.carryingAdd a b
  let target ← upd target 0 s
  let sum ← upd sum 0 val
  let last ← csub len 1
  let (sum, target, carry) ← forRange 1 last (sum, target, carry) fun i (sum, target, carry) => do
    let a ← idx sum i
    let b ← idx sub i
    let temp := dd3 a b carry
    let target ← upd target i (DDigit.lo temp)
    let sum ← upd sum i (Digit.unsetAll a)
    .ok (sum, target, DDigit.hi temp)
  let a ← idx sum last
  let b ← idx sub last
  let target ← upd target last (Digit.wrappingAdd (Digit.wrappingAdd a b) carry)
  let sum ← upd sum last (Digit.unsetAll a)
  .ok (sum, target)

/-- `special0!(place, duo, div, div, val)`, `/repo/src/apint/arithmetic.rs:849-869,964`: the
macro with `$sub` and `$target` naming the same array. -/
def special0Self (len : Nat) (sum target : List Digit) (val : Digit) :
    Run (List Digit × List Digit) := do
  let a ← idx sum 0
  let b ← idx target 0
  let (s, carry) := Digit.carryingAdd a b
  let target ← upd target 0 s
  let sum ← upd sum 0 val
  let last ← csub len 1
  let (sum, target, carry) ← forRange 1 last (sum, target, carry) fun i (sum, target, carry) => do
    let a ← idx sum i
    let b ← idx target i
    let temp := dd3 a b carry
    let target ← upd target i (DDigit.lo temp)
    let sum ← upd sum i (Digit.unsetAll a)
    .ok (sum, target, DDigit.hi temp)
  let a ← idx sum last
  let b ← idx target last
  let target ← upd target last (Digit.wrappingAdd (Digit.wrappingAdd a b) carry)
  let sum ← upd sum last (Digit.unsetAll a)
  .ok (sum, target)

/-- `special1!`, `/repo/src/apint/arithmetic.rs:873-903`.  Returns `(sum, targ)`.  The inner
loop of lines 893-896 breaks in its first iteration, so it copies one digit. -/
def special1 (len : Nat) (sum sub targ : List Digit) (val : Digit) (add : List Digit) :
    Run (List Digit × List Digit) := do
  let a ← idx sum 0
  let b ← idx sub 0
  let (temp, carry) := Digit.carryingAdd a b
  let targ ← upd targ 0 temp
  let last ← csub len 1
  let (targ, carry) ← forRange 1 last (targ, carry) fun i (targ, carry) => do
    let a ← idx sum i
    let b ← idx sub i
    let temp := dd3 a b carry
    let targ ← upd targ i (DDigit.lo temp)
    .ok (targ, DDigit.hi temp)
  let a ← idx sum last
  let b ← idx sub last
  let targ ← upd targ last (Digit.wrappingAdd (Digit.wrappingAdd a b) carry)
  let a ← idx add 0
  let (temp, carry) := Digit.carryingAdd a val
  let sum ← upd sum 0 temp
  let (sum, _) ← forRange 1 len (sum, carry) fun i0 (sum, carry) => do
    let sum ←
      if Digit.isZero carry then
        forRangeB i0 len sum fun i1 sum => do
          let a ← idx add i1
          let sum ← upd sum i1 a
          .ok (.brk sum)
      else .ok sum
    let a ← idx add i0
    let temp := Digit.carryingAdd a carry
    let sum ← upd sum i0 temp.1
    .ok (sum, temp.2)
  .ok (sum, targ)

/-- `add!`, `/repo/src/apint/arithmetic.rs:906-922`. -/
def addMacro (len : Nat) (sum add : List Digit) : Run (List Digit) := do
  let a ← idx sum 0
  let b ← idx add 0
  let (s, carry) := Digit.carryingAdd a b
  let sum ← upd sum 0 s
  let last ← csub len 1
  let (sum, carry) ← forRange 1 last (sum, carry) fun i (sum, carry) => do
    let a ← idx sum i
    let b ← idx add i
    let temp := dd3 a b carry
    let sum ← upd sum i (DDigit.lo temp)
    .ok (sum, DDigit.hi temp)
  let a ← idx sum last
  let b ← idx add last
  upd sum last (Digit.wrappingAdd (Digit.wrappingAdd a b) carry)

/-! ## `large_div_by_large` -/

/-- `sd * 64 + (64 - lz)`: number of significant bits, `/repo/src/apint/arithmetic.rs:938-940,1349`. -/
def sigBitsOf (sd lz : Nat) : Run Nat := do
  let n ← csub 64 lz
  .ok (sd * 64 + n)

/-- The 128 bits of `arr` ending at the leading bit of a value with top digit `sd` and `lz`
leading zeros there: the expression of `/repo/src/apint/arithmetic.rs:983-1006`, also used on
lines 1128-1134 and 1270-1277. -/
def sigDD (arr : List Digit) (sd lz : Nat) : Run DDigit :=
  if lz = 0 then do
    let i1 ← csub sd 1
    let lo ← idx arr i1
    let hi ← idx arr sd
    .ok (DDigit.fromLoHi lo hi)
  else do
    let d2 ← idx arr sd
    let a ← DDigit.shl (Digit.dd d2) (lz + 64)
    let i1 ← csub sd 1
    let d1 ← idx arr i1
    let b ← DDigit.shl (Digit.dd d1) lz
    let i0 ← csub sd 2
    let d0 ← idx arr i0
    let n ← csub 64 lz
    let c ← DDigit.shr (Digit.dd d0) n
    .ok (DDigit.bitor (DDigit.bitor a b) c)

/-- Quotient zero: move `duo[0..=ini_duo_sd]` to `div` and clear `duo` there, then clear
`div[ini_duo_sd+1 ..= div_sd]`.  `/repo/src/apint/arithmetic.rs:944-951` and `968-974`
(`place = ini_duo_sd + 1`). -/
def moveDuoToDiv (duo : List Digit) (iniDuoSd : Nat) (div : List Digit) (divSd : Nat) :
    Run (List Digit × List Digit) := do
  let (duo, div) ← forRange 0 (iniDuoSd + 1) (duo, div) fun i (duo, div) => do
    let d ← idx duo i
    let div ← upd div i d
    let duo ← upd duo i (Digit.unsetAll d)
    .ok (duo, div)
  let div ← forRange (iniDuoSd + 1) (min (divSd + 1) div.length) div fun i div => do
    let d ← idx div i
    upd div i (Digit.unsetAll d)
  .ok (duo, div)

/-- The quotient is `mul - 1`: lines 1032-1041, 1050-1059 and 1083-1092 of
`/repo/src/apint/arithmetic.rs`. -/
def finishMulSub1 (len : Nat) (duo div sub : List Digit) (mul : Digit) :
    Run (List Digit × List Digit) := do
  let sub ← twosComplement len sub
  let sub ← addMacro len sub div
  special0 len duo sub div (Digit.wrappingSub mul Digit.ONE)

/-- The quotient is `mul`: lines 1064-1066 and 1097-1099 of `/repo/src/apint/arithmetic.rs`. -/
def finishMul (len : Nat) (duo div sub : List Digit) (mul : Digit) :
    Run (List Digit × List Digit) := do
  let sub ← twosComplement len sub
  special0 len duo sub div mul

/-- The "`mul` or `mul - 1`" algorithm, `/repo/src/apint/arithmetic.rs:981-1103`. -/
def mulOrMulSub1 (len : Nat) (duo : List Digit) (iniDuoSd iniDuoLz : Nat) (div : List Digit)
    (divSd : Nat) : Run (List Digit × List Digit) := do
  let duoSigDd ← sigDD duo iniDuoSd iniDuoLz
  let divSigDd ← sigDD div iniDuoSd iniDuoLz
  let q ← DDigit.wrappingDiv duoSigDd divSigDd
  let mul := DDigit.lo q
  let d0 ← idx div 0
  let temp := Digit.carryingMul mul d0
  let (sub, carry) := mulRow mul ((div.take divSd).drop 1) ([temp.1], temp.2)
  let last ← csub len 1
  if divSd = last then do
    let d ← idx div divSd
    let temp := Digit.carryingMulAdd mul d carry
    let sub := sub ++ [temp.1]
    if !Digit.isZero temp.2 then finishMulSub1 len duo div sub mul
    else do
      let gt ← ugt len sub len duo
      if gt then finishMulSub1 len duo div sub mul
      else finishMul len duo div sub mul
  else do
    let d ← idx div divSd
    let temp := Digit.carryingMulAdd mul d carry
    let sub := sub ++ [temp.1] ++ [temp.2]
    let sub := sub ++ List.replicate (len - sub.length) Digit.ZERO
    let gt ← ugt len sub len duo
    if gt then finishMulSub1 len duo div sub mul
    else finishMul len duo div sub mul

/-- The state of the main loop: `duo`, `quo`, `duo_sd`, `duo_lz`.
`/repo/src/apint/arithmetic.rs:1104-1124`. -/
structure DivState where
  duo : List Digit
  quo : List Digit
  duoSd : Nat
  duoLz : Nat

/-- What one iteration of the main loop does: leave the function with `(duo, div)`, or go on. The
loop is `/repo/src/apint/arithmetic.rs:1125-1424`. -/
inductive DivStep where
  | done (duo div : List Digit)
  | next (s : DivState)

/-- Add `mul << bits_ll` at digit `digits` to `quo`, `/repo/src/apint/arithmetic.rs:1154-1172`. -/
def addToQuo (quo : List Digit) (mul : DDigit) (digits bitsLl : Nat) : Run (List Digit) := do
  let splitMul ← DDigit.shl mul bitsLl
  let q0 ← idx quo digits
  let (temp, carry) := Digit.carryingAdd (DDigit.lo splitMul) q0
  let quo ← upd quo digits temp
  let q1 ← idx quo (digits + 1)
  let temp := dd3 (DDigit.hi splitMul) q1 carry
  let quo ← upd quo (digits + 1) (DDigit.lo temp)
  let carry := DDigit.hi temp
  let (quo, _) ← forRangeB (digits + 2) quo.length (quo, carry) fun i (quo, carry) => do
    if Digit.isZero carry then .ok (.brk (quo, carry))
    else do
      let q ← idx quo i
      let temp := Digit.carryingAdd q carry
      let quo ← upd quo i temp.1
      .ok (.cont (quo, temp.2))
  .ok quo

/-- Subtract `(mul * div) << bits` from `duo` when `mul` fits one digit,
`/repo/src/apint/arithmetic.rs:1180-1213`. -/
def subCoreLow (duo div : List Digit) (mul : Digit) (duoSd digits bitsLl : Nat) :
    Run (List Digit) := do
  let d0 ← idx div 0
  let t ← DDigit.shl (Digit.dd d0) bitsLl
  let (temp0, wrapCarry) := DDigit.loHi t
  let (temp1, mulCarry) := DDigit.loHi (DDigit.wrappingMul (Digit.dd mul) (Digit.dd temp0))
  let u0 ← idx duo digits
  let (temp2, addCarry) := DDigit.loHi (dd3 (Digit.notInplace temp1) u0 Digit.ONE)
  let duo ← upd duo digits temp2
  let (duo, _) ← forRange (digits + 1) (duoSd + 1) (duo, wrapCarry, mulCarry, addCarry)
    fun i (duo, wrapCarry, mulCarry, addCarry) => do
      let j ← csub i digits
      let d ← idx div j
      let t ← DDigit.shl (Digit.dd d) bitsLl
      let temp0 := DDigit.loHi (DDigit.bitor t (Digit.dd wrapCarry))
      let wrapCarry := temp0.2
      let temp1 := DDigit.loHi (DDigit.wrappingAdd
        (DDigit.wrappingMul (Digit.dd mul) (Digit.dd temp0.1)) (Digit.dd mulCarry))
      let mulCarry := temp1.2
      let u ← idx duo i
      let temp2 := DDigit.loHi (dd3 (Digit.notInplace temp1.1) u addCarry)
      let addCarry := temp2.2
      let duo ← upd duo i temp2.1
      .ok (duo, wrapCarry, mulCarry, addCarry)
  .ok duo

/-- Subtract `(mul * div) << bits` from `duo` when `mul` has its 65th bit set; `mul` here is the
low digit, `/repo/src/apint/arithmetic.rs:1231-1266`. -/
def subCoreHigh (duo div : List Digit) (mul : Digit) (duoSd digits bitsLl : Nat) :
    Run (List Digit) := do
  let d0 ← idx div 0
  let (temp0, mulCarry) := Digit.carryingMul mul d0
  let temp1 := temp0
  let add0Carry := Digit.ZERO
  let t ← DDigit.shl (DDigit.wrappingAdd (Digit.dd (Digit.notInplace temp1))
    (Digit.dd Digit.ONE)) bitsLl
  let (temp2, wrapCarry) := DDigit.loHi t
  let u0 ← idx duo digits
  let (temp3, add1Carry) := Digit.carryingAdd temp2 u0
  let duo ← upd duo digits temp3
  let (duo, _) ← forRange (digits + 1) (duoSd + 1)
    (duo, mulCarry, add0Carry, wrapCarry, add1Carry)
    fun i (duo, mulCarry, add0Carry, wrapCarry, add1Carry) => do
      let j ← csub i digits
      let d ← idx div j
      let temp0 := DDigit.wrappingAdd (DDigit.wrappingMul (Digit.dd mul) (Digit.dd d))
        (Digit.dd mulCarry)
      let mulCarry := DDigit.hi temp0
      let j1 ← csub j 1
      let d' ← idx div j1
      let temp1 := dd3 (DDigit.lo temp0) d' add0Carry
      let add0Carry := DDigit.hi temp1
      let t ← DDigit.shl (Digit.dd (Digit.notInplace (DDigit.lo temp1))) bitsLl
      let temp2 := DDigit.wrappingAdd t (Digit.dd wrapCarry)
      let wrapCarry := DDigit.hi temp2
      let u ← idx duo i
      let temp3 := dd3 (DDigit.lo temp2) u add1Carry
      let add1Carry := DDigit.hi temp3
      let duo ← upd duo i (DDigit.lo temp3)
      .ok (duo, mulCarry, add0Carry, wrapCarry, add1Carry)
  .ok duo

/-- The "`mul` or `mul - 1`" algorithm with addition from `quo`,
`/repo/src/apint/arithmetic.rs:1269-1331`. -/
def mulOrMulSub1Quo (len : Nat) (s : DivState) (div : List Digit) (divSd : Nat)
    (duoSigDd : DDigit) : Run (List Digit × List Digit) := do
  let divSigDd ← sigDD div s.duoSd s.duoLz
  let q ← DDigit.wrappingDiv duoSigDd divSigDd
  let mul := DDigit.lo q
  let d0 ← idx div 0
  let (temp, mulCarry) := DDigit.loHi (DDigit.wrappingMul (Digit.dd mul) (Digit.dd d0))
  let (sub, mulCarry) := mulRow mul ((div.take divSd).drop 1) ([temp], mulCarry)
  let d ← idx div divSd
  let temp := Digit.carryingMulAdd mul d mulCarry
  let sub := sub ++ [temp.1] ++ [temp.2]
  let sub := sub ++ List.replicate (len - (divSd + 2)) Digit.ZERO
  let subLen := sub.length
  let gt ← ugt subLen sub len s.duo
  if gt then do
    let sub ← twosComplement subLen sub
    let sub ← addMacro subLen sub div
    special1 subLen s.duo sub div (Digit.wrappingSub mul Digit.ONE) s.quo
  else do
    let sub ← twosComplement subLen sub
    special1 subLen s.duo sub div mul s.quo

/-- Find the new `duo_sd` by scanning down from the old one, `/repo/src/apint/arithmetic.rs:1334-1347`:
`none` when all scanned digits are zero (the scan reached `i == 0`). -/
def findDuoSd (duo : List Digit) (duoSd : Nat) : Run (Option Nat) :=
  forRevB 0 (duoSd + 1) none fun i acc => do
    let d ← idx duo i
    if !Digit.isZero d then .ok (.brk (some i)) else .ok (.cont acc)

/-- `duo = quo + 1`, `/repo/src/apint/arithmetic.rs:1363-1376`. -/
def quoPlusOne (len : Nat) (duo quo : List Digit) : Run (List Digit) :=
  forRangeB 0 len duo fun i0 duo => do
    let q ← idx quo i0
    match Digit.overflowingAdd q Digit.ONE with
    | (v, false) => do
      let duo ← upd duo i0 v
      let duo ← copyRange duo (i0 + 1) len quo (i0 + 1) len
      .ok (.brk duo)
    | (v, true) => do
      let duo ← upd duo i0 v
      .ok (.cont duo)

/-- `duo` has at most two digits left, `/repo/src/apint/arithmetic.rs:1399-1422`. -/
def finishTwoDigits (len : Nat) (duo quo div : List Digit) : Run (List Digit × List Digit) := do
  let u0 ← idx duo 0
  let u1 ← idx duo 1
  let v0 ← idx div 0
  let v1 ← idx div 1
  let (mul, rem) ← DDigit.wrappingDivrem (DDigit.fromLoHi u0 u1) (DDigit.fromLoHi v0 v1)
  let div ← upd div 0 (DDigit.lo rem)
  let div ← upd div 1 (DDigit.hi rem)
  let q0 ← idx quo 0
  let (temp, carry) := Digit.carryingAdd q0 (DDigit.lo mul)
  let duo ← upd duo 0 temp
  let q1 ← idx quo 1
  let temp := dd3 q1 (DDigit.hi mul) carry
  let duo ← upd duo 1 (DDigit.lo temp)
  let carry := DDigit.hi temp
  let (duo, _) ← forRangeB 2 len (duo, carry) fun i0 (duo, carry) => do
    if Digit.isZero carry then do
      let duo ← copyRange duo i0 len quo i0 len
      .ok (.brk (duo, carry))
    else do
      let q ← idx quo i0
      let temp := Digit.carryingAdd q carry
      let duo ← upd duo i0 temp.1
      .ok (.cont (duo, temp.2))
  .ok (duo, div)

/-- The part of an iteration of the main loop that follows the subtraction,
`/repo/src/apint/arithmetic.rs:1333-1423`. -/
def divLoopTail (len : Nat) (duo quo div : List Digit) (duoSd divSb : Nat) : Run DivStep := do
  match ← findDuoSd duo duoSd with
  | none => do
    -- lines 1341-1345
    let (duo, div) ← forRange 0 len (duo, div) fun i (duo, div) => do
      let div ← upd div i Digit.ZERO
      let q ← idx quo i
      let duo ← upd duo i q
      .ok (duo, div)
    .ok (.done duo div)
  | some duoSd => do
    let d ← idx duo duoSd
    let duoLz := Digit.leadingZeros d
    let duoSb ← sigBitsOf duoSd duoLz
    if duoSb = divSb then do
      -- lines 1351-1386
      let ge ← uge len duo len div
      if ge then do
        let div ← twosComplement len div
        let div ← addMacro len div duo
        let duo ← quoPlusOne len duo quo
        .ok (.done duo div)
      else do
        let div ← copyRange div 0 len duo 0 len
        let duo ← copyRange duo 0 len quo 0 len
        .ok (.done duo div)
    else if divSb > duoSb then do
      -- lines 1388-1393
      let div ← copyRange div 0 len duo 0 len
      let duo ← copyRange duo 0 len quo 0 len
      .ok (.done duo div)
    else if duoSd < 2 then do
      let (duo, div) ← finishTwoDigits len duo quo div
      .ok (.done duo div)
    else .ok (.next ⟨duo, quo, duoSd, duoLz⟩)

/-- One iteration of the main `loop`, `/repo/src/apint/arithmetic.rs:1125-1424`. -/
def divLoopBody (len : Nat) (div : List Digit) (divSd divSb divLesserBits : Nat)
    (divSigDAdd1 : DDigit) (s : DivState) : Run DivStep := do
  let n ← csub 64 s.duoLz
  let k ← csub s.duoSd 2
  let duoLesserBits := n + 64 * k
  let duoSigDd ← sigDD s.duo s.duoSd s.duoLz
  if duoLesserBits ≥ divLesserBits then do
    let bits := duoLesserBits - divLesserBits
    let digits := bits / 64
    let bitsLl := bits % 64
    let mul ← DDigit.wrappingDiv duoSigDd divSigDAdd1
    let quo ← addToQuo s.quo mul digits bitsLl
    let duo ←
      if Digit.isZero (DDigit.hi mul) then
        subCoreLow s.duo div (DDigit.lo mul) s.duoSd digits bitsLl
      else subCoreHigh s.duo div (DDigit.lo mul) s.duoSd digits bitsLl
    divLoopTail len duo quo div s.duoSd divSb
  else do
    let (duo, div) ← mulOrMulSub1Quo len s div divSd duoSigDd
    .ok (.done duo div)

/-- The main `loop`, `/repo/src/apint/arithmetic.rs:1125-1424`, with a bound on the number of
iterations; running out of it is the `diverge` fault. -/
def divLoop (len : Nat) (div : List Digit) (divSd divSb divLesserBits : Nat)
    (divSigDAdd1 : DDigit) : Nat → DivState → Run (List Digit × List Digit)
  | 0, _ => .error .diverge
  | fuel + 1, s => do
    match ← divLoopBody len div divSd divSb divLesserBits divSigDAdd1 s with
    | .done duo div => .ok (duo, div)
    | .next s => divLoop len div divSd divSb divLesserBits divSigDAdd1 fuel s

/-- Set-up of the main loop, `/repo/src/apint/arithmetic.rs:1104-1124`, and the loop, which is
allowed `budget` rounds. -/
def longDivision (budget len : Nat) (duo : List Digit) (iniDuoSd iniDuoLz : Nat) (div : List Digit)
    (divSd divLz divSb : Nat) : Run (List Digit × List Digit) := do
  let n ← csub 64 divLz
  let k ← csub divSd 1
  let divLesserBits := n + 64 * k
  let divSigD ←
    if divLz = 0 then idx div divSd
    else do
      let a ← idx div divSd
      let b ← idx div k
      .ok (Digit.bitor (Digit.shl a divLz) (Digit.shr b n))
  let divSigDAdd1 := DDigit.wrappingAdd (Digit.dd divSigD) (Digit.dd Digit.ONE)
  let quo := List.replicate len Digit.ZERO
  divLoop len div divSd divSb divLesserBits divSigDAdd1 budget
    ⟨duo, quo, iniDuoSd, iniDuoLz⟩

/-- `large_div_by_large`, `/repo/src/apint/arithmetic.rs:928-1425`. -/
def largeDivByLarge (budget len : Nat) (duo : List Digit) (iniDuoSd : Nat) (div : List Digit)
    (divSd : Nat) : Run (List Digit × List Digit) := do
  let d ← idx duo iniDuoSd
  let iniDuoLz := Digit.leadingZeros d
  let d ← idx div divSd
  let divLz := Digit.leadingZeros d
  let iniDuoSb ← sigBitsOf iniDuoSd iniDuoLz
  let divSb ← sigBitsOf divSd divLz
  if iniDuoSb < divSb then moveDuoToDiv duo iniDuoSd div divSd
  else if iniDuoSb = divSb then do
    let place := iniDuoSd + 1
    let ge ← uge place duo place div
    if ge then do
      let div ← twosComplement place div
      special0Self place duo div Digit.ONE
    else moveDuoToDiv duo iniDuoSd div divSd
  else do
    let iniBits ← csub iniDuoSb divSb
    if iniBits < 64 then mulOrMulSub1 len duo iniDuoSd iniDuoLz div divSd
    else longDivision budget len duo iniDuoSd iniDuoLz div divSd divLz divSb

/-- `aarons_algorithm_divrem`, `/repo/src/apint/arithmetic.rs:651-1498` (the top-level match is on
lines 1431-1497).  `none` stands for the return value `false` (the divisor is zero).  `budget` bounds
the number of rounds of the main loop. -/
def divremWithin (budget : Nat) (duo div : List Digit) : Run (Option (List Digit × List Digit)) :=
  match rpositionNonzero div with
  | none => .ok none
  | some divSd =>
    match rpositionNonzero duo with
    | none => .ok (some (duo, div.map Digit.unsetAll))
    | some iniDuoSd =>
      if iniDuoSd < divSd then
        -- lines 1446-1454: `duo` and `div` are zipped, so the shorter one bounds the loop
        let n := min duo.length div.length
        .ok (some ((duo.take n).map Digit.unsetAll ++ duo.drop n, duo.take n ++ div.drop n))
      else
        match iniDuoSd == 0, divSd == 0 with
        | false, false =>
          if iniDuoSd = 1 then do
            let u0 ← idx duo 0
            let u1 ← idx duo 1
            let v0 ← idx div 0
            let v1 ← idx div 1
            let temp ← DDigit.wrappingDivrem (DDigit.fromLoHi u0 u1) (DDigit.fromLoHi v0 v1)
            let duo ← upd duo 0 (DDigit.lo temp.1)
            let duo ← upd duo 1 (DDigit.hi temp.1)
            let div ← upd div 0 (DDigit.lo temp.2)
            let div ← upd div 1 (DDigit.hi temp.2)
            .ok (some (duo, div))
          else do
            let r ← largeDivByLarge budget duo.length duo iniDuoSd div divSd
            .ok (some r)
        | true, false => .error .panic
        | false, true => do
          let d ← idx div 0
          if Digit.leadingZeros d ≥ 32 then do
            let r ← largeDivByU32 duo iniDuoSd div
            .ok (some r)
          else do
            let r ← largeDivBySmall duo iniDuoSd div
            .ok (some r)
        | true, true => do
          let u ← idx duo 0
          let v ← idx div 0
          let temp ← Digit.wrappingDivrem u v
          let duo ← upd duo 0 temp.1
          let div ← upd div 0 temp.2
          .ok (some (duo, div))

/-- `aarons_algorithm_divrem`, `/repo/src/apint/arithmetic.rs:651-1498`.  The source has no bound on
the number of rounds of the main loop; the model allows two per digit and fails with `diverge` after
that, which is shown not to happen. -/
def divremDigits (duo div : List Digit) : Run (Option (List Digit × List Digit)) :=
  divremWithin (2 * duo.length) duo div

/-- `aarons_algorithm_remdiv`, `/repo/src/apint/arithmetic.rs:1507-1522`. -/
def remdivDigits (duo div : List Digit) : Run (Option (List Digit × List Digit)) := do
  match ← divremDigits duo div with
  | some (duo, div) => do
    let (duo, div) ← forRange 0 duo.length (duo, div) fun i (duo, div) => do
      let temp ← idx duo i
      let d ← idx div i
      let duo ← upd duo i d
      let div ← upd div i temp
      .ok (duo, div)
    .ok (some (duo, div))
  | none => .ok none

/-! ## The public operations -/

/-- `wrapping_udivrem_assign`, `/repo/src/apint/arithmetic.rs:1532-1557`. -/
def wrappingUdivremAssign (lhs rhs : ApInt) : Run (Res Unit × ApInt × ApInt) := do
  match ← lhs.zipAccessData rhs with
  | .error e => .ok (.error e, lhs, rhs)
  | .ok (.inl duo div) =>
    if !Digit.isZero div then do
      let temp ← Digit.wrappingDivrem duo div
      .ok (.ok (), { lhs with data := .inl temp.1 }, { rhs with data := .inl temp.2 })
    else do
      let c ← lhs.clone
      .ok (.error (.divisionByZero .unsignedDivRem c), lhs, rhs)
  | .ok (.ext duo div) => do
    match ← divremDigits duo div with
    | some (duo, div) => .ok (.ok (), { lhs with data := .ext duo }, { rhs with data := .ext div })
    | none => do
      let c ← lhs.clone
      .ok (.error (.divisionByZero .unsignedDivRem c), lhs, rhs)

/-- `wrapping_uremdiv_assign`, `/repo/src/apint/arithmetic.rs:1567-1587`. -/
def wrappingUremdivAssign (lhs rhs : ApInt) : Run (Res Unit × ApInt × ApInt) := do
  match ← lhs.zipAccessData rhs with
  | .error e => .ok (.error e, lhs, rhs)
  | .ok (.inl duo div) =>
    if !Digit.isZero div then do
      let temp ← Digit.wrappingDivrem duo div
      .ok (.ok (), { lhs with data := .inl temp.2 }, { rhs with data := .inl temp.1 })
    else do
      let c ← lhs.clone
      .ok (.error (.divisionByZero .unsignedRemDiv c), lhs, rhs)
  | .ok (.ext duo div) => do
    match ← remdivDigits duo div with
    | some (duo, div) => .ok (.ok (), { lhs with data := .ext duo }, { rhs with data := .ext div })
    | none => do
      let c ← lhs.clone
      .ok (.error (.divisionByZero .unsignedRemDiv c), lhs, rhs)

/-- `wrapping_udiv_assign`, `/repo/src/apint/arithmetic.rs:1596-1611`. -/
def wrappingUdivAssign (self rhs : ApInt) : Run (Res Unit × ApInt) := do
  match ← self.zipAccessData rhs with
  | .error e => .ok (.error e, self)
  | .ok (.inl duo div) =>
    if !Digit.isZero div then do
      let q ← Digit.wrappingDiv duo div
      .ok (.ok (), { self with data := .inl q })
    else do
      let c ← self.clone
      .ok (.error (.divisionByZero .unsignedDiv c), self)
  | .ok (.ext duo div) => do
    match ← divremDigits duo div with
    | some (duo, _) => .ok (.ok (), { self with data := .ext duo })
    | none => do
      let c ← self.clone
      .ok (.error (.divisionByZero .unsignedDiv c), self)

/-- `into_wrapping_udiv`, `/repo/src/apint/arithmetic.rs:1620-1622`. -/
def intoWrappingUdiv (self rhs : ApInt) : Run (Res ApInt) :=
  tryForwardBinMutImpl self rhs wrappingUdivAssign

/-- `wrapping_urem_assign`, `/repo/src/apint/arithmetic.rs:1631-1646`. -/
def wrappingUremAssign (self rhs : ApInt) : Run (Res Unit × ApInt) := do
  match ← self.zipAccessData rhs with
  | .error e => .ok (.error e, self)
  | .ok (.inl duo div) =>
    if !Digit.isZero div then do
      let q ← Digit.wrappingRem duo div
      .ok (.ok (), { self with data := .inl q })
    else do
      let c ← self.clone
      .ok (.error (.divisionByZero .unsignedRem c), self)
  | .ok (.ext duo div) => do
    match ← remdivDigits duo div with
    | some (duo, _) => .ok (.ok (), { self with data := .ext duo })
    | none => do
      let c ← self.clone
      .ok (.error (.divisionByZero .unsignedRem c), self)

/-- `into_wrapping_urem`, `/repo/src/apint/arithmetic.rs:1655-1657`. -/
def intoWrappingUrem (self rhs : ApInt) : Run (Res ApInt) :=
  tryForwardBinMutImpl self rhs wrappingUremAssign

/-- `if b { x.wrapping_neg() }`, as on `/repo/src/apint/arithmetic.rs:1694-1699`. -/
def negIf (b : Bool) (x : ApInt) : Run ApInt := if b then x.wrappingNeg else .ok x

/-- `wrapping_sdivrem_assign`, `/repo/src/apint/arithmetic.rs:1667-1702`. -/
def wrappingSdivremAssign (lhs rhs : ApInt) : Run (Res Unit × ApInt × ApInt) := do
  let z ← rhs.isZero
  if z then do
    let c ← lhs.clone
    .ok (.error (.divisionByZero .signedDivRem c), lhs, rhs)
  else do
    let lm ← lhs.msb
    let rm ← rhs.msb
    let (lhs, rhs, negateLhs, negateRhs) ←
      match lm, rm with
      | false, false => .ok (lhs, rhs, false, false)
      | true, false => do
        let lhs ← lhs.wrappingNeg
        .ok (lhs, rhs, true, true)
      | false, true => do
        let rhs ← rhs.wrappingNeg
        .ok (lhs, rhs, true, false)
      | true, true => do
        let lhs ← lhs.wrappingNeg
        let rhs ← rhs.wrappingNeg
        .ok (lhs, rhs, false, true)
    let (r, lhs, rhs) ← wrappingUdivremAssign lhs rhs
    let () ← expect r
    let lhs ← negIf negateLhs lhs
    let rhs ← negIf negateRhs rhs
    .ok (.ok (), lhs, rhs)

/-- `wrapping_sremdiv_assign`, `/repo/src/apint/arithmetic.rs:1712-1747`. -/
def wrappingSremdivAssign (lhs rhs : ApInt) : Run (Res Unit × ApInt × ApInt) := do
  let z ← rhs.isZero
  if z then do
    let c ← lhs.clone
    .ok (.error (.divisionByZero .signedRemDiv c), lhs, rhs)
  else do
    let lm ← lhs.msb
    let rm ← rhs.msb
    let (lhs, rhs, negateLhs, negateRhs) ←
      match lm, rm with
      | false, false => .ok (lhs, rhs, false, false)
      | true, false => do
        let lhs ← lhs.wrappingNeg
        .ok (lhs, rhs, true, true)
      | false, true => do
        let rhs ← rhs.wrappingNeg
        .ok (lhs, rhs, false, true)
      | true, true => do
        let lhs ← lhs.wrappingNeg
        let rhs ← rhs.wrappingNeg
        .ok (lhs, rhs, true, false)
    let (r, lhs, rhs) ← wrappingUremdivAssign lhs rhs
    let () ← expect r
    let lhs ← negIf negateLhs lhs
    let rhs ← negIf negateRhs rhs
    .ok (.ok (), lhs, rhs)

/-- `wrapping_sdiv_assign`, `/repo/src/apint/arithmetic.rs:1756-1783`. -/
def wrappingSdivAssign (self rhs : ApInt) : Run (Res Unit × ApInt) := do
  let z ← rhs.isZero
  if z then do
    let c ← self.clone
    .ok (.error (.divisionByZero .signedDiv c), self)
  else do
    let rhsClone ← rhs.clone
    let lm ← self.msb
    let rm ← rhsClone.msb
    let (self, rhsClone, negateLhs) ←
      match lm, rm with
      | false, false => .ok (self, rhsClone, false)
      | true, false => do
        let self ← self.wrappingNeg
        .ok (self, rhsClone, true)
      | false, true => do
        let rhsClone ← rhsClone.wrappingNeg
        .ok (self, rhsClone, true)
      | true, true => do
        let self ← self.wrappingNeg
        let rhsClone ← rhsClone.wrappingNeg
        .ok (self, rhsClone, false)
    let (r, self, _) ← wrappingUdivremAssign self rhsClone
    let () ← expect r
    let self ← negIf negateLhs self
    .ok (.ok (), self)

/-- `into_wrapping_sdiv`, `/repo/src/apint/arithmetic.rs:1792-1794`. -/
def intoWrappingSdiv (self rhs : ApInt) : Run (Res ApInt) :=
  tryForwardBinMutImpl self rhs wrappingSdivAssign

/-- `wrapping_srem_assign`, `/repo/src/apint/arithmetic.rs:1803-1830`. -/
def wrappingSremAssign (self rhs : ApInt) : Run (Res Unit × ApInt) := do
  let z ← rhs.isZero
  if z then do
    let c ← self.clone
    .ok (.error (.divisionByZero .signedRem c), self)
  else do
    let rhsClone ← rhs.clone
    let lm ← self.msb
    let rm ← rhsClone.msb
    let (self, rhsClone, negateLhs) ←
      match lm, rm with
      | false, false => .ok (self, rhsClone, false)
      | true, false => do
        let self ← self.wrappingNeg
        .ok (self, rhsClone, true)
      | false, true => do
        let rhsClone ← rhsClone.wrappingNeg
        .ok (self, rhsClone, false)
      | true, true => do
        let self ← self.wrappingNeg
        let rhsClone ← rhsClone.wrappingNeg
        .ok (self, rhsClone, true)
    let (r, self, _) ← wrappingUremdivAssign self rhsClone
    let () ← expect r
    let self ← negIf negateLhs self
    .ok (.ok (), self)

/-- `into_wrapping_srem`, `/repo/src/apint/arithmetic.rs:1839-1841`. -/
def intoWrappingSrem (self rhs : ApInt) : Run (Res ApInt) :=
  tryForwardBinMutImpl self rhs wrappingSremAssign

end ApInt

end Verif
