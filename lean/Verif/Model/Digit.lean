import Verif.Model.Types

/-!
# `Digit` and `DoubleDigit` (`/repo/src/digit.rs`), `BitWidth` (`/repo/src/bitwidth.rs`),
`BitPos` (`/repo/src/bitpos.rs`), `Storage` (`/repo/src/storage.rs`), `checks.rs`
-/

namespace Verif

/-! ## Machine integers -/

/-- The primitive `x << n` on `u64`/`u128`/`i64`: overflow when `n` is not smaller than
the width of the type. As in `/repo/src/digit.rs:178`, `/repo/src/digit.rs:350`,
`/repo/src/digit.rs:440`. -/
def rawShl {w : Nat} (x : BitVec w) (n : Nat) : Run (BitVec w) :=
  if n < w then .ok (x <<< n) else .error .overflow

/-- The primitive `x >> n` on unsigned integers; same overflow rule as `rawShl`. As in
`/repo/src/digit.rs:178`, `/repo/src/digit.rs:350`, `/repo/src/digit.rs:440`. -/
def rawShr {w : Nat} (x : BitVec w) (n : Nat) : Run (BitVec w) :=
  if n < w then .ok (x >>> n) else .error .overflow

/-- `u64::leading_zeros` (standard library). Used in `/repo/src/digit.rs:240-242`. -/
def leadingZeros64 (x : BitVec 64) : Nat :=
  if x.toNat = 0 then 64 else 63 - Nat.log2 x.toNat

/-- Number of low zero bits among the first `n` bits, for `u64::trailing_zeros`. Used in
`/repo/src/apint/bitwise.rs:287-302`. -/
def trailingZerosAux (x : Nat) : Nat → Nat → Nat
  | 0, _ => 0
  | n + 1, i => if x.testBit i then 0 else 1 + trailingZerosAux x n (i + 1)

/-- `u64::trailing_zeros` (standard library). Used in `/repo/src/apint/bitwise.rs:287-302`. -/
def trailingZeros64 (x : BitVec 64) : Nat := trailingZerosAux x.toNat 64 0

/-- `u64::count_ones` (standard library). Used in `/repo/src/apint/bitwise.rs:248-254`. -/
def countOnes64 (x : BitVec 64) : Nat := (List.range 64).countP fun i => x.toNat.testBit i

/-- `u64::count_zeros` (standard library). Used in `/repo/src/apint/bitwise.rs:257-269`. -/
def countZeros64 (x : BitVec 64) : Nat := 64 - countOnes64 x

/-! ## `BitWidth`

`Digit::BITS` (`/repo/src/digit.rs:36`) is written out as 64. -/

/-- `BitWidth::w1` … `BitWidth::w128`, `/repo/src/bitwidth.rs:33-65`. -/
def BitWidth.w1 : BitWidth := ⟨1, by decide⟩
/-- `/repo/src/bitwidth.rs:39-41`. -/
def BitWidth.w8 : BitWidth := ⟨8, by decide⟩
/-- `/repo/src/bitwidth.rs:45-47`. -/
def BitWidth.w16 : BitWidth := ⟨16, by decide⟩
/-- `/repo/src/bitwidth.rs:51-53`. -/
def BitWidth.w32 : BitWidth := ⟨32, by decide⟩
/-- `/repo/src/bitwidth.rs:57-59`. -/
def BitWidth.w64 : BitWidth := ⟨64, by decide⟩
/-- `/repo/src/bitwidth.rs:63-65`. -/
def BitWidth.w128 : BitWidth := ⟨128, by decide⟩

/-- `BitWidth::new`, `/repo/src/bitwidth.rs:72-77`. -/
def BitWidth.new (width : Nat) : Res BitWidth :=
  if h : width = 0 then .error (.invalidBitWidth 0) else .ok ⟨width, Nat.pos_of_ne_zero h⟩

/-- `impl From<usize> for BitWidth`, `/repo/src/bitwidth.rs:105-109`: panics on zero. -/
def BitWidth.from (width : Nat) : Run BitWidth := expect (BitWidth.new width)

/-- `BitWidth::is_valid_pos`, `/repo/src/bitwidth.rs:81-86`. -/
def BitWidth.isValidPos (self : BitWidth) (pos : Nat) : Bool := pos < self.toUsize

/-- `BitWidth::is_valid_shift_amount`, `/repo/src/bitwidth.rs:90-95`. -/
def BitWidth.isValidShiftAmount (self : BitWidth) (s : Nat) : Bool := s < self.toUsize

/-- `BitWidth::msb_pos`, `/repo/src/bitwidth.rs:100-102`.  The subtraction cannot underflow
because the width is at least one. -/
def BitWidth.msbPos (self : BitWidth) : Nat := self.toUsize - 1

/-- `BitWidth::excess_bits`, `/repo/src/bitwidth.rs:131-136`. -/
def BitWidth.excessBits (self : BitWidth) : Option Nat :=
  match self.toUsize % 64 with
  | 0 => none
  | n => some n

/-- `BitWidth::excess_width`, `/repo/src/bitwidth.rs:143-145`. -/
def BitWidth.excessWidth (self : BitWidth) : Option BitWidth :=
  if h : self.toUsize % 64 = 0 then none else some ⟨self.toUsize % 64, Nat.pos_of_ne_zero h⟩

/-- `enum Storage`, `/repo/src/storage.rs:4-7`. -/
inductive Storage where
  | inl
  | ext
  deriving DecidableEq

/-- `BitWidth::storage`, `Storage::from`, `Storage::is_inline`,
`/repo/src/bitwidth.rs:154-156`, `/repo/src/storage.rs:9-35`. -/
def BitWidth.storage (self : BitWidth) : Storage :=
  if self.toUsize ≤ 64 then .inl else .ext

/-- `BitWidth::required_digits`, `/repo/src/bitwidth.rs:163-165`. -/
def BitWidth.requiredDigits (self : BitWidth) : Nat := (self.toUsize - 1) / 64 + 1

/-! ## `BitPos` -/

/-- `BitPos::to_pos_within_digit`, `/repo/src/bitpos.rs:36-38`. -/
def toPosWithinDigit (pos : Nat) : Nat := pos % 64

/-- `BitPos::to_digit_and_bit_pos`, `/repo/src/bitpos.rs:44-48`. -/
def toDigitAndBitPos (pos : Nat) : Nat × Nat := (pos / 64, pos % 64)

/-! ## `checks.rs` -/

/-- `verify_bit_access`, `/repo/src/checks.rs:4-15`. -/
def verifyBitAccess (width : BitWidth) (pos : Nat) : Res Unit :=
  if !width.isValidPos pos then .error (.invalidBitAccess pos width) else .ok ()

/-- `verify_shift_amount`, `/repo/src/checks.rs:18-29`. -/
def verifyShiftAmount (width : BitWidth) (s : Nat) : Res Unit :=
  if !width.isValidShiftAmount s then .error (.invalidShiftAmount s width) else .ok ()

/-! ## `DoubleDigit` -/

namespace DDigit

/-- `DoubleDigit::hi`, `/repo/src/digit.rs:177-179`. -/
def hi (x : DDigit) : Digit := (x >>> 64).setWidth 64

/-- `DoubleDigit::lo`, `/repo/src/digit.rs:182-184`. -/
def lo (x : DDigit) : Digit := x.setWidth 64

/-- `DoubleDigit::lo_hi`, `/repo/src/digit.rs:187-189`. -/
def loHi (x : DDigit) : Digit × Digit := (lo x, hi x)

/-- `DoubleDigit::from_lo_hi`, `/repo/src/digit.rs:192-197`. -/
def fromLoHi (lo hi : Digit) : DDigit := lo.setWidth 128 ||| (hi.setWidth 128 <<< 64)

/-- `DoubleDigit::wrapping_add` and `Add`, `/repo/src/digit.rs:130-136,199-201`. -/
def wrappingAdd (a b : DDigit) : DDigit := a + b

/-- `Sub for DoubleDigit`, `/repo/src/digit.rs:138-144`. -/
def wrappingSub (a b : DDigit) : DDigit := a - b

/-- `DoubleDigit::wrapping_mul` and `Mul`, `/repo/src/digit.rs:146-152,203-205`. -/
def wrappingMul (a b : DDigit) : DDigit := a * b

/-- `DoubleDigit::wrapping_divrem` (and `Div`, `Rem`), `/repo/src/digit.rs:154-168,211-219`.
`u128::wrapping_div` and `wrapping_rem` panic when the divisor is zero. -/
def wrappingDivrem (a b : DDigit) : Run (DDigit × DDigit) :=
  if b = 0 then .error .panic else .ok (a / b, a % b)

/-- `DoubleDigit::wrapping_div`, `/repo/src/digit.rs:207-209`. -/
def wrappingDiv (a b : DDigit) : Run DDigit := do
  let r ← wrappingDivrem a b
  pure r.1

/-- `Shl<usize> for DoubleDigit`, `/repo/src/digit.rs:104-111`: asserts the amount is below
128. -/
def shl (a : DDigit) (n : Nat) : Run DDigit := if n < 128 then .ok (a <<< n) else .error .panic

/-- `Shr<usize> for DoubleDigit`, `/repo/src/digit.rs:113-120`: asserts the amount is below
128. -/
def shr (a : DDigit) (n : Nat) : Run DDigit := if n < 128 then .ok (a >>> n) else .error .panic

/-- `BitOr for DoubleDigit`, `/repo/src/digit.rs:88-94`. -/
def bitor (a b : DDigit) : DDigit := a ||| b

/-- `BitAnd for DoubleDigit`, `/repo/src/digit.rs:96-102`. -/
def bitand (a b : DDigit) : DDigit := a &&& b

/-- `Not for DoubleDigit`, `/repo/src/digit.rs:122-128`. -/
def bitnot (a : DDigit) : DDigit := ~~~a

end DDigit

/-! ## `Digit` -/

namespace Digit

/-- `Digit::ZERO`, `/repo/src/digit.rs:42`. -/
def ZERO : Digit := 0#64

/-- `Digit::ONE`, `/repo/src/digit.rs:38`. -/
def ONE : Digit := 1#64

/-- `Digit::ONES`, `/repo/src/digit.rs:40` (`REPR_ONES = !0`, line 32). -/
def ONES : Digit := ~~~(0#64)

/-- `Digit::dd`, `/repo/src/digit.rs:236-238`. -/
def dd (x : Digit) : DDigit := x.setWidth 128

/-- `Digit::leading_zeros`, `/repo/src/digit.rs:240-242`. -/
def leadingZeros (x : Digit) : Nat := leadingZeros64 x

/-- `Digit::wrapping_add`, `/repo/src/digit.rs:244-246`. -/
def wrappingAdd (a b : Digit) : Digit := a + b

/-- `u64::overflowing_add` (standard library). Used in `/repo/src/digit.rs:249-260`. -/
def stdOverflowingAdd (a b : BitVec 64) : BitVec 64 × Bool :=
  (a + b, decide (2 ^ 64 ≤ a.toNat + b.toNat))

/-- `u64::overflowing_sub` (standard library). Used in `/repo/src/digit.rs:263-268`. -/
def stdOverflowingSub (a b : BitVec 64) : BitVec 64 × Bool :=
  (a - b, decide (a.toNat < b.toNat))

/-- `Digit::carrying_add`, `/repo/src/digit.rs:248-254`. -/
def carryingAdd (a b : Digit) : Digit × Digit :=
  match stdOverflowingAdd a b with
  | (x, false) => (x, ZERO)
  | (x, true) => (x, ONE)

/-- `Digit::overflowing_add`, `/repo/src/digit.rs:256-261`. -/
def overflowingAdd (a b : Digit) : Digit × Bool :=
  match stdOverflowingAdd a b with
  | (x, false) => (x, false)
  | (x, true) => (x, true)

/-- `Digit::overflowing_sub`, `/repo/src/digit.rs:263-268`. -/
def overflowingSub (a b : Digit) : Digit × Bool :=
  match stdOverflowingSub a b with
  | (x, false) => (x, false)
  | (x, true) => (x, true)

/-- `Digit::wrapping_sub`, `/repo/src/digit.rs:270-272`. -/
def wrappingSub (a b : Digit) : Digit := a - b

/-- `Digit::wrapping_mul`, `/repo/src/digit.rs:274-276`. -/
def wrappingMul (a b : Digit) : Digit := a * b

/-- `Digit::carrying_mul`, `/repo/src/digit.rs:280-283`. -/
def carryingMul (a b : Digit) : Digit × Digit :=
  let temp := DDigit.wrappingMul (dd a) (dd b)
  (DDigit.lo temp, DDigit.hi temp)

/-- `Digit::wrapping_mul_add`, `/repo/src/digit.rs:285-291`. -/
def wrappingMulAdd (a mul add : Digit) : Digit := a * mul + add

/-- `Digit::carrying_mul_add`, `/repo/src/digit.rs:293-300`. -/
def carryingMulAdd (a mul add : Digit) : Digit × Digit :=
  let temp := DDigit.wrappingAdd (DDigit.wrappingMul (dd a) (dd mul)) (dd add)
  (DDigit.lo temp, DDigit.hi temp)

/-- `Digit::wrapping_div`, `/repo/src/digit.rs:306-308`: panics when the divisor is zero. -/
def wrappingDiv (a b : Digit) : Run Digit := if b = 0 then .error .panic else .ok (a / b)

/-- `Digit::wrapping_rem`, `/repo/src/digit.rs:310-312`: panics when the divisor is zero. -/
def wrappingRem (a b : Digit) : Run Digit := if b = 0 then .error .panic else .ok (a % b)

/-- `Digit::wrapping_divrem`, `/repo/src/digit.rs:302-304`. -/
def wrappingDivrem (a b : Digit) : Run (Digit × Digit) := do
  let q ← wrappingDiv a b
  let r ← wrappingRem a b
  pure (q, r)

/-- `Digit::verify_valid_bitwidth`, `/repo/src/digit.rs:318-330`. -/
def verifyValidBitwidth (width : BitWidth) : Res Unit :=
  if width.toUsize > 64 then .error (.invalidBitWidth width.toUsize) else .ok ()

/-- `Digit::truncate_to`, `/repo/src/digit.rs:344-352`. -/
def truncateTo (self : Digit) (to : BitWidth) : Run (Res Unit × Digit) :=
  match verifyValidBitwidth to with
  | .error e => .ok (.error e, self)
  | .ok () => do
    let m ← rawShl ONES to.toUsize
    .ok (.ok (), self &&& ~~~m)

/-- `Digit::sign_extend_from`, `/repo/src/digit.rs:367-383`.  The casts between `u64` and
`i64` keep the bits, so the model stays with bit vectors. -/
def signExtendFrom (self : Digit) (from_ : BitWidth) : Run (Res Unit × Digit) :=
  match verifyValidBitwidth from_ with
  | .error e => .ok (.error e, self)
  | .ok () => do
    let b := from_.toUsize
    let m ← rawShl (1#64) (b - 1)
    let r := (self ^^^ m) - m
    .ok (.ok (), r)

/-- `Digit::is_zero`, `/repo/src/digit.rs:400-402`. -/
def isZero (self : Digit) : Bool := self == ZERO

/-- `Digit::lsb`, `/repo/src/digit.rs:409-411`. -/
def lsb (self : Digit) : Bool := (self &&& 1#64) != 0#64

/-- `Digit::get`, `/repo/src/digit.rs:419-426`. -/
def get (self : Digit) (pos : Nat) : Run (Res Bool) :=
  match verifyBitAccess BitWidth.w64 pos with
  | .error e => .ok (.error e)
  | .ok () => do
    let s ← rawShr self pos
    .ok (.ok ((s &&& 1#64) == 1#64))

/-- `Digit::set`, `/repo/src/digit.rs:434-442`. -/
def set (self : Digit) (pos : Nat) : Run (Res Unit × Digit) :=
  match verifyBitAccess BitWidth.w64 pos with
  | .error e => .ok (.error e, self)
  | .ok () => do
    let m ← rawShl (1#64) pos
    .ok (.ok (), self ||| m)

/-- `Digit::unset`, `/repo/src/digit.rs:450-458`. -/
def unset (self : Digit) (pos : Nat) : Run (Res Unit × Digit) :=
  match verifyBitAccess BitWidth.w64 pos with
  | .error e => .ok (.error e, self)
  | .ok () => do
    let m ← rawShl (1#64) pos
    .ok (.ok (), self &&& ~~~m)

/-- `Digit::flip`, `/repo/src/digit.rs:466-474`. -/
def flip (self : Digit) (pos : Nat) : Run (Res Unit × Digit) :=
  match verifyBitAccess BitWidth.w64 pos with
  | .error e => .ok (.error e, self)
  | .ok () => do
    let m ← rawShl (1#64) pos
    .ok (.ok (), self ^^^ m)

/-- `Digit::set_all`, `/repo/src/digit.rs:478-480`. -/
def setAll (self : Digit) : Digit := self ||| ONES

/-- `Digit::unset_all`, `/repo/src/digit.rs:484-486`. -/
def unsetAll (self : Digit) : Digit := self &&& ZERO

/-- `Digit::flip_all`, `/repo/src/digit.rs:490-492`. -/
def flipAll (self : Digit) : Digit := self ^^^ ONES

/-- `Digit::retain_last_n`, `/repo/src/digit.rs:504-508`. -/
def retainLastN (self : Digit) (n : Nat) : Run (Res Unit × Digit) :=
  match verifyBitAccess BitWidth.w64 n with
  | .error e => .ok (.error e, self)
  | .ok () => do
    let m ← rawShl ONES n
    .ok (.ok (), self &&& ~~~m)

/-- `Digit::not_inplace` and `Not for Digit`, `/repo/src/digit.rs:514-516,578-584`. -/
def notInplace (self : Digit) : Digit := ~~~self

/-- `BitAnd`/`BitAndAssign for Digit`, `/repo/src/digit.rs:527-533,550-554`. -/
def bitand (a b : Digit) : Digit := a &&& b

/-- `BitOr`/`BitOrAssign for Digit`, `/repo/src/digit.rs:519-525,543-547`. -/
def bitor (a b : Digit) : Digit := a ||| b

/-- `BitXor`/`BitXorAssign for Digit`, `/repo/src/digit.rs:535-541,556-560`. -/
def bitxor (a b : Digit) : Digit := a ^^^ b

/-- `Shl<usize> for Digit`, `/repo/src/digit.rs:562-568`: `wrapping_shl`, the amount is taken
modulo 64. -/
def shl (a : Digit) (n : Nat) : Digit := a <<< (n % 64)

/-- `Shr<usize> for Digit`, `/repo/src/digit.rs:570-576`: `wrapping_shr`, the amount is taken
modulo 64. -/
def shr (a : Digit) (n : Nat) : Digit := a >>> (n % 64)

end Digit

end Verif
