import Verif.Model.Work
import Verif.Model.Strings

/-!
# How many bytes and digits reading and writing of texts touch

The functions of `Model/Strings.lean` once more, with a count.  Every byte of the input that is
read, every element of a vector that is read, written or pushed, every digit of an integer that is
read and every character that is written to the formatter counts one.  The `debug_assert!`s over
all elements are counted, although a release build does without.
-/

namespace Verif

namespace Count

open ApInt Counted

/-- `xs.push(x)` on a vector that was created with room for `room` elements, as in
`/repo/src/apint/serialization.rs:168` and `186`.  Simplified: each push beyond that room counts
moving all elements. -/
def pushIn {α : Type} (room : Nat) (l : List α) (x : α) : Counted (List α) :=
  charge (if l.length < room then 1 else 1 + 2 * l.length) (.ok (l ++ [x]))

/-- The errors of parsing copy the input, `/repo/src/errors.rs:180-227`: every byte is read and
written.  The message has at most a fixed number of characters. -/
def reject {α : Type} (input : List Char) (radix : Radix) : Counted (Res α) :=
  charge (2 * (utf8Bytes input).length) (.ok (.error (.invalidStringRepr input radix none)))

/-- The loop over the bytes of the input, `/repo/src/apint/serialization.rs:169-187`; the vector was
made with room for all bytes on line 168. -/
def collectDigits (input : List Char) (radix : Radix) : List Nat → List Nat → Counted (Res (List Nat))
  | [], v => .ok (.ok v)
  | b :: rest, v => do
    let b ← charge 1 (.ok b)
    match byteToDigit b with
    | none => collectDigits input radix rest v
    | some d =>
      if !radix.isValidByte d then reject input radix
      else do
        let v ← pushIn (utf8Bytes input).length v d
        collectDigits input radix rest v

/-- The digits of the chunks, `/repo/src/apint/serialization.rs:218-226`: every element of a chunk is
read. -/
def foldChunks (bits : Nat) : List (List Nat) → Counted (List Digit)
  | [] => .ok []
  | c :: cs => do
    let d ← charge c.length (.ok (foldChunk bits c))
    let ds ← foldChunks bits cs
    .ok (d :: ds)

/-- `from_iter`, `/repo/src/apint/constructors.rs:170-200`: every digit is written, and once more read
and written when the buffer shrinks (line 192). -/
def fromIter (ds : List Digit) : Counted (Res ApInt) := charge (3 * ds.length) (ApInt.fromIter ds)

/-- `from_bitwise_digits`, `/repo/src/apint/serialization.rs:210-229`. -/
def fromBitwiseDigits (v : List Nat) (bits : Nat) : Counted ApInt :=
  if ¬ (v ≠ [] ∧ bits ≤ 8 ∧ bits ≠ 0 ∧ 64 % bits = 0) then .error .overflow
  else if ¬ (v.all fun c => c < 2 ^ bits) then .error .overflow
  else do
    let v ← charge v.length (.ok v)
    let cs ← chunks v (64 / bits)
    let ds ← foldChunks bits cs
    let r ← fromIter ds
    (expect r : Run ApInt)

/-- One iteration of the loop of `from_inexact_bitwise_digits`,
`/repo/src/apint/serialization.rs:251-263`. -/
def inexactStep (room bits : Nat) (s : InexactState) (c : Nat) : Counted InexactState := do
  let c ← charge 1 (.ok c)
  let sh ← rawShl (BitVec.ofNat 64 c) s.dbits
  let d := s.d ||| sh
  let dbits := s.dbits + bits
  if dbits ≥ 64 then do
    let data ← pushIn room s.data d
    let dbits ← csub dbits 64
    let n ← csub bits dbits
    let d ← rawShr (BitVec.ofNat 64 c) n
    .ok ⟨data, d, dbits⟩
  else .ok ⟨s.data, d, dbits⟩

/-- The loop of `from_inexact_bitwise_digits`, `/repo/src/apint/serialization.rs:251-263`. -/
def inexactLoop (room bits : Nat) : List Nat → InexactState → Counted InexactState
  | [], s => .ok s
  | c :: rest, s => do
    let s ← inexactStep room bits s c
    inexactLoop room bits rest s

/-- `from_inexact_bitwise_digits`, `/repo/src/apint/serialization.rs:237-271`; the room is the one of
lines 243-244. -/
def fromInexactBitwiseDigits (v : List Nat) (bits : Nat) : Counted ApInt :=
  if ¬ (v ≠ [] ∧ bits ≤ 8 ∧ bits ≠ 0 ∧ 64 % bits ≠ 0) then .error .overflow
  else if ¬ (v.all fun c => c < 2 ^ bits) then .error .overflow
  else do
    let v ← charge v.length (.ok v)
    let room := (v.length * bits + 64 - 1) / 64
    let s ← inexactLoop room bits v ⟨[], 0#64, 0⟩
    let data ←
      if s.dbits > 0 then
        if ¬ (s.dbits < 64) then .error .overflow else pushIn room s.data s.d
      else .ok s.data
    let r ← fromIter data
    (expect r : Run ApInt)

/-- `.fold(0, |acc, &d| acc * radix + d)`, `/repo/src/apint/serialization.rs:301-303,326-328`. -/
def foldRadix (radix : Nat) : List Nat → Nat → Counted Nat
  | [], acc => .ok acc
  | d :: rest, acc => do
    let d ← charge 1 (.ok d)
    let acc ← mulAddU64 acc radix d
    foldRadix radix rest acc

/-- The loop over the remaining chunks, `/repo/src/apint/serialization.rs:307-330`: the last element
is read, a zero may be pushed, and a loop with an empty body goes over all elements. -/
def radixTailLoop (room radix : Nat) : List (List Nat) → List Nat → Counted (List Nat)
  | [], data => .ok data
  | chunk :: rest, data => do
    let data ← charge 1 (.ok data)
    let data ← if data.getLast? ≠ some 0 then pushIn room data 0 else .ok data
    let data ← charge data.length (.ok data)
    let _n ← foldRadix radix chunk 0
    radixTailLoop room radix rest data

/-- `from_radix_digits`, `/repo/src/apint/serialization.rs:279-333`; the room is the one of lines
287-292. -/
def fromRadixDigits (v : List Nat) (radix : Radix) : Counted ApInt :=
  if ¬ (v ≠ [] ∧ !radix.isPowerOfTwo) then .error .overflow
  else if ¬ (v.all fun c => radix.isValidByte c) then .error .overflow
  else do
    let v ← charge v.length (.ok v)
    let i ← csub radix.toU8 2
    let lb ← (Verif.idx LB_2_36_I3F13 i : Run Nat)
    let room := lb * (v.length + 1) / 2 ^ 13 / 64 + 1
    let (_base, power) ← charge 0 radix.getRadixBase
    if power = 0 then .error .panic
    else do
      let r := v.length % power
      let i := if r = 0 then power else r
      if v.length < i then .error .panic
      else do
        let head := v.take i
        let tail := v.drop i
        let first ← foldRadix radix.toU8 head 0
        let data ← pushIn room [] first
        if tail.length % power ≠ 0 then .error .overflow
        else do
          let cs ← chunks tail power
          let data ← radixTailLoop room radix.toU8 cs data
          let r ← fromIter (data.map (BitVec.ofNat 64))
          (expect r : Run ApInt)

/-- `from_str_radix` after the radix argument was converted,
`/repo/src/apint/serialization.rs:149-201`. -/
def fromStrRadix' (radix : Radix) (input : List Char) : Counted (Res ApInt) :=
  if input.isEmpty then reject input radix
  else do
    let input ← charge 2 (.ok input)
    if input.head? = some '_' then reject input radix
    else if input.getLast? = some '_' then reject input radix
    else do
      match ← collectDigits input radix (utf8Bytes input) [] with
      | .error e => .ok (.error e)
      | .ok v => do
        match ← radix.exactBitsPerDigit with
        | some bits => do
          let v ← charge (2 * v.length) (.ok v.reverse)
          if bits = 0 then .error .panic
          else if 64 % bits = 0 then do
            let a ← fromBitwiseDigits v bits
            .ok (.ok a)
          else do
            let a ← fromInexactBitwiseDigits v bits
            .ok (.ok a)
        | none => do
          let a ← fromRadixDigits v radix
          .ok (.ok a)

/-- `from_str_radix`, `/repo/src/apint/serialization.rs:143-202`. -/
def fromStrRadix (radix : Nat) (input : List Char) : Counted (Res ApInt) := do
  let r ← Radix.from radix
  fromStrRadix' r input

/-! ## Formatting -/

/-- `write!(f, ..)`, as in `/repo/src/apint/serialization.rs:40`: every character counts one. -/
def write (s : List Char) : Counted (List Char) := charge s.length (.ok s)

/-- The loop over the digits below the first nonzero one, `/repo/src/apint/serialization.rs:43-45`. -/
def fmtRest (b : Nat) (ch : Nat → Char) (w : Nat) : List Digit → Counted (List Char)
  | [] => .ok []
  | d :: rest => do
    let d ← charge 1 (.ok d)
    let s ← write (stdFmtPad b ch w d.toNat)
    let t ← fmtRest b ch w rest
    .ok (s ++ t)

/-- The common shape of `fmt::Binary`, `fmt::LowerHex` and `fmt::UpperHex`,
`/repo/src/apint/serialization.rs:30-48,60-98`. -/
def fmtDigits (b : Nat) (ch : Nat → Char) (w : Nat) : List Digit → Counted (List Char)
  | [] => .ok []
  | d :: rest => do
    let d ← charge 1 (.ok d)
    if Digit.isZero d then fmtDigits b ch w rest
    else do
      let s ← write (stdFmt b ch d.toNat)
      let t ← fmtRest b ch w rest
      .ok (s ++ t)

/-- `fmt::Binary for ApInt`, `/repo/src/apint/serialization.rs:30-48`. -/
def fmtBinary (self : ApInt) : Counted (List Char) := do
  let z ← isZero self
  if z then write ['0']
  else do
    let ds ← self.asDigitSlice
    fmtDigits 2 lowerChar 64 ds.reverse

/-- `fmt::Octal for ApInt`, `/repo/src/apint/serialization.rs:50-58`. -/
def fmtOctal (self : ApInt) : Counted (List Char) := do
  let z ← isZero self
  if z then write ['0'] else .error .panic

/-- `fmt::LowerHex for ApInt`, `/repo/src/apint/serialization.rs:60-78`. -/
def fmtLowerHex (self : ApInt) : Counted (List Char) := do
  let z ← isZero self
  if z then write ['0']
  else do
    let ds ← self.asDigitSlice
    fmtDigits 16 lowerChar 16 ds.reverse

/-- `fmt::UpperHex for ApInt`, `/repo/src/apint/serialization.rs:80-98`. -/
def fmtUpperHex (self : ApInt) : Counted (List Char) := do
  let z ← isZero self
  if z then write ['0']
  else do
    let ds ← self.asDigitSlice
    fmtDigits 16 upperChar 16 ds.reverse

end Count

end Verif
