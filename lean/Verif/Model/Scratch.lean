import Verif.Model.Div

/-!
# Scratch memory of multiplication and division

The long multiplications and divisions work in vectors that live for one call, `udiv` and `urem`
copy the divisor, the signed `sdiv` and `srem` clone it, and a division by zero clones the dividend
into the error.  The functions here follow the same branches as the functions they are named after
and give the sizes, in digits, of the buffers that are asked of the allocator, in order.
-/

namespace Verif

namespace ApInt

/-- The requests of a `Vec` made by `with_capacity(cap)` that ends up with `n` digits.  No room is
asked for when `cap` is zero.  Simplified: a vector that outgrows its capacity is moved once, to a
buffer of the final length. Used for `/repo/src/apint/arithmetic.rs:352-360`,
`/repo/src/apint/arithmetic.rs:1012-1075`. -/
def vecRequests (cap n : Nat) : List Nat :=
  if n ≤ cap then (if cap = 0 then [] else [cap]) else [cap, n]

/-- The vector `sum` of the branch without digit overflow when it is complete,
`/repo/src/apint/arithmetic.rs:342-440`. -/
def mulNonOverflowSum (lhs rhs : List Digit) (lhsSig rhsSig : Nat) : Run (List Digit) := do
  let mult ← idx lhs 0
  let r0 ← idx rhs 0
  let temp := Digit.carryingMul mult r0
  let (sum, mulCarry) := mulRow mult ((rhs.take rhsSig).drop 1) ([temp.1], temp.2)
  let r ← idx rhs rhsSig
  let temp := Digit.carryingMulAdd mult r mulCarry
  let sum := sum ++ [temp.1] ++ [temp.2]
  let sum ← forRange 1 lhsSig sum (mulFullRow lhs rhs rhsSig)
  mulFullRow lhs rhs rhsSig lhsSig sum

/-- The vector `sum` of the wrapping branch when it is complete,
`/repo/src/apint/arithmetic.rs:446-505`. -/
def mulWrappingSum (lhs rhs : List Digit) : Run (List Digit) := do
  let sig ← csub lhs.length 1
  let l0 ← idx lhs 0
  let r0 ← idx rhs 0
  let temp := Digit.carryingMul l0 r0
  let (sum, mulCarry) := mulRow l0 ((rhs.take sig).drop 1) ([temp.1], temp.2)
  let r ← idx rhs sig
  let sum := sum ++ [Digit.wrappingMulAdd l0 r mulCarry]
  forRange 1 sig sum (mulWrapRow lhs rhs sig)

/-- `mulCases`, `/repo/src/apint/arithmetic.rs:330-572`: a vector with room for
`lhs_sig_nonzero + rhs_sig_nonzero + 2` digits (line 352) or for `lhs.len()` digits (line 454). -/
def mulCasesScratch (lhs rhs : List Digit) (lhsSig rhsSig : Nat) : Run (List Nat) :=
  match lhsSig == 0, rhsSig == 0 with
  | false, false => do
    let lhsSigBits ← sigBits lhs lhsSig
    let rhsSigBits ← sigBits rhs rhsSig
    let totSigBits := lhsSigBits + rhsSigBits
    if totSigBits ≤ lhs.length * 64 then do
      let sum ← mulNonOverflowSum lhs rhs lhsSig rhsSig
      .ok (vecRequests (lhsSig + rhsSig + 2) sum.length)
    else do
      let sum ← mulWrappingSum lhs rhs
      .ok (vecRequests lhs.length sum.length)
  | true, false => .ok []
  | false, true => .ok []
  | true, true => .ok []

/-- `mulDigits`, `/repo/src/apint/arithmetic.rs:299-574`. -/
def mulDigitsScratch (lhs rhs : List Digit) : Run (List Nat) :=
  match rpositionNonzero rhs with
  | none => .ok []
  | some rhsSig =>
    match rpositionNonzero lhs with
    | none => .ok []
    | some lhsSig => mulCasesScratch lhs rhs lhsSig rhsSig

/-- `wrapping_mul_assign`, `/repo/src/apint/arithmetic.rs:294-578`. -/
def mulScratch (self rhs : ApInt) : Run (List Nat) := do
  match ← self.zipAccessData rhs with
  | .error _ => .ok []
  | .ok (.inl _ _) => .ok []
  | .ok (.ext l r) => mulDigitsScratch l r

/-- The vector `sub` of the "`mul` or `mul - 1`" algorithm when it is complete,
`/repo/src/apint/arithmetic.rs:1012-1027,1070-1075`. -/
def mulOrMulSub1Sub (len : Nat) (duo : List Digit) (iniDuoSd iniDuoLz : Nat) (div : List Digit)
    (divSd : Nat) : Run (List Digit) := do
  let duoSigDd ← sigDD duo iniDuoSd iniDuoLz
  let divSigDd ← sigDD div iniDuoSd iniDuoLz
  let q ← DDigit.wrappingDiv duoSigDd divSigDd
  let mul := DDigit.lo q
  let d0 ← idx div 0
  let temp := Digit.carryingMul mul d0
  let (sub, carry) := mulRow mul ((div.take divSd).drop 1) ([temp.1], temp.2)
  let last ← csub len 1
  let d ← idx div divSd
  let temp := Digit.carryingMulAdd mul d carry
  if divSd = last then .ok (sub ++ [temp.1])
  else do
    let sub := sub ++ [temp.1] ++ [temp.2]
    .ok (sub ++ List.replicate (len - sub.length) Digit.ZERO)

/-- The vector `sub` of the same algorithm inside the main loop,
`/repo/src/apint/arithmetic.rs:1287-1302`. -/
def mulOrMulSub1QuoSub (len : Nat) (s : DivState) (div : List Digit) (divSd : Nat)
    (duoSigDd : DDigit) : Run (List Digit) := do
  let divSigDd ← sigDD div s.duoSd s.duoLz
  let q ← DDigit.wrappingDiv duoSigDd divSigDd
  let mul := DDigit.lo q
  let d0 ← idx div 0
  let (temp, mulCarry) := DDigit.loHi (DDigit.wrappingMul (Digit.dd mul) (Digit.dd d0))
  let (sub, mulCarry) := mulRow mul ((div.take divSd).drop 1) ([temp], mulCarry)
  let d ← idx div divSd
  let temp := Digit.carryingMulAdd mul d mulCarry
  let sub := sub ++ [temp.1] ++ [temp.2]
  .ok (sub ++ List.replicate (len - (divSd + 2)) Digit.ZERO)

/-- `divLoop`, `/repo/src/apint/arithmetic.rs:1125-1424`: the only vector is `sub` (line 1287), in
the round that leaves the loop with the "`mul` or `mul - 1`" algorithm. -/
def divLoopScratch (len : Nat) (div : List Digit) (divSd divSb divLesserBits : Nat)
    (divSigDAdd1 : DDigit) : Nat → DivState → Run (List Nat)
  | 0, _ => .error .diverge
  | fuel + 1, s => do
    let n ← csub 64 s.duoLz
    let k ← csub s.duoSd 2
    let duoLesserBits := n + 64 * k
    if duoLesserBits ≥ divLesserBits then do
      match ← divLoopBody len div divSd divSb divLesserBits divSigDAdd1 s with
      | .done _ _ => .ok []
      | .next s => divLoopScratch len div divSd divSb divLesserBits divSigDAdd1 fuel s
    else do
      let duoSigDd ← sigDD s.duo s.duoSd s.duoLz
      let sub ← mulOrMulSub1QuoSub len s div divSd duoSigDd
      .ok (vecRequests len sub.length)

/-- `longDivision`, `/repo/src/apint/arithmetic.rs:1104-1124`: the vector `quo` (line 1124), and
those of the loop. -/
def longDivisionScratch (budget len : Nat) (duo : List Digit) (iniDuoSd iniDuoLz : Nat)
    (div : List Digit) (divSd divLz divSb : Nat) : Run (List Nat) := do
  let n ← csub 64 divLz
  let k ← csub divSd 1
  let divLesserBits := n + 64 * k
  let divSigD ←
    if divLz = 0 then idx div divSd
    else do
      let a ← idx div divSd
      let b ← idx div k
      .ok (Digit.bitor (Digit.shl a divLz) (Digit.shr b n))
  let divSigDAdd1 := DDigit.wrappingAdd (Digit.dd divSigD) (Digit.dd Digit.ONE)
  let quo := List.replicate len Digit.ZERO
  let rest ← divLoopScratch len div divSd divSb divLesserBits divSigDAdd1 budget
    ⟨duo, quo, iniDuoSd, iniDuoLz⟩
  .ok (vecRequests len quo.length ++ rest)

/-- `large_div_by_large`, `/repo/src/apint/arithmetic.rs:928-1425`: nothing for a quotient that is
found to be zero or one from equal numbers of bits (lines 941-980), the vector `sub` (line 1012) for
a difference of less than 64 bits. -/
def largeDivByLargeScratch (budget len : Nat) (duo : List Digit) (iniDuoSd : Nat) (div : List Digit)
    (divSd : Nat) : Run (List Nat) := do
  let d ← idx duo iniDuoSd
  let iniDuoLz := Digit.leadingZeros d
  let d ← idx div divSd
  let divLz := Digit.leadingZeros d
  let iniDuoSb ← sigBitsOf iniDuoSd iniDuoLz
  let divSb ← sigBitsOf divSd divLz
  if iniDuoSb < divSb then .ok []
  else if iniDuoSb = divSb then .ok []
  else do
    let iniBits ← csub iniDuoSb divSb
    if iniBits < 64 then do
      let sub ← mulOrMulSub1Sub len duo iniDuoSd iniDuoLz div divSd
      .ok (vecRequests len sub.length)
    else longDivisionScratch budget len duo iniDuoSd iniDuoLz div divSd divLz divSb

/-- `aarons_algorithm_divrem`, `/repo/src/apint/arithmetic.rs:651-1498`; `aarons_algorithm_remdiv`
(lines 1507-1522) asks for the same, its exchange of the digits being in place. -/
def divremScratch (duo div : List Digit) : Run (List Nat) :=
  match rpositionNonzero div with
  | none => .ok []
  | some divSd =>
    match rpositionNonzero duo with
    | none => .ok []
    | some iniDuoSd =>
      if iniDuoSd < divSd then .ok []
      else
        match iniDuoSd == 0, divSd == 0 with
        | false, false =>
          if iniDuoSd = 1 then .ok []
          else largeDivByLargeScratch (2 * duo.length) duo.length duo iniDuoSd div divSd
        | true, false => .error .panic
        | false, true => .ok []
        | true, true => .ok []

/-- The buffer of a clone, `/repo/src/apint/casting.rs:13-29`. -/
def cloneScratch (self : ApInt) : List Nat :=
  match self.len.storage with
  | .inl => []
  | .ext => vecRequests self.lenDigits self.lenDigits

/-- `wrapping_udivrem_assign` and `wrapping_uremdiv_assign`,
`/repo/src/apint/arithmetic.rs:1532-1587`; the dividend is cloned into the error of a division by
zero. -/
def udivremScratch (lhs rhs : ApInt) : Run (List Nat) := do
  match ← lhs.zipAccessData rhs with
  | .error _ => .ok []
  | .ok (.inl _ div) => if !Digit.isZero div then .ok [] else .ok lhs.cloneScratch
  | .ok (.ext duo div) => do
    let r ← divremScratch duo div
    match ← divremDigits duo div with
    | some _ => .ok r
    | none => .ok (r ++ lhs.cloneScratch)

/-- `wrapping_udiv_assign` and `wrapping_urem_assign`, `/repo/src/apint/arithmetic.rs:1596-1646`;
`div.to_vec()` (lines 1605, 1640) copies the divisor. -/
def udivScratch (self rhs : ApInt) : Run (List Nat) := do
  match ← self.zipAccessData rhs with
  | .error _ => .ok []
  | .ok (.inl _ div) => if !Digit.isZero div then .ok [] else .ok self.cloneScratch
  | .ok (.ext duo div) => do
    let r ← divremScratch duo div
    match ← divremDigits duo div with
    | some _ => .ok (vecRequests div.length div.length ++ r)
    | none => .ok (vecRequests div.length div.length ++ r ++ self.cloneScratch)

/-- The magnitude of an operand of a signed division, `/repo/src/apint/arithmetic.rs:1677-1692`. -/
def magnitude (self : ApInt) : Run ApInt := do
  let m ← self.msb
  negIf m self

/-- `wrapping_sdivrem_assign` and `wrapping_sremdiv_assign`,
`/repo/src/apint/arithmetic.rs:1667-1747`. -/
def sdivremScratch (lhs rhs : ApInt) : Run (List Nat) := do
  let z ← rhs.isZero
  if z then .ok lhs.cloneScratch
  else do
    let l ← lhs.magnitude
    let r ← rhs.magnitude
    udivremScratch l r

/-- `wrapping_sdiv_assign` and `wrapping_srem_assign`, `/repo/src/apint/arithmetic.rs:1756-1830`;
the divisor is cloned (lines 1760, 1807). -/
def sdivScratch (self rhs : ApInt) : Run (List Nat) := do
  let z ← rhs.isZero
  if z then .ok self.cloneScratch
  else do
    let rhsClone := rhs.cloneScratch
    let l ← self.magnitude
    let r ← rhs.magnitude
    let s ← udivremScratch l r
    .ok (rhsClone ++ s)

end ApInt

end Verif
