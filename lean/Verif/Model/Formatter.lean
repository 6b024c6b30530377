import Verif.Model.UInt
import Verif.Model.SInt

/-!
# Formatting into a formatter

`fmt::Binary`, `fmt::Octal`, `fmt::LowerHex` and `fmt::UpperHex` once more, now with the formatter
they get: it has flags, and it writes to something that may refuse.  The standard library is assumed
to print a `u64` as `Formatter::pad_integral` documents, and to hand a text to the writer in pieces
of its choosing.
-/

namespace Verif

/-- `fmt::Alignment` of the standard library. Used in `/repo/src/apint/serialization.rs:30-98`. -/
inductive Align where
  | left | center | right

/-- The flags of a `Formatter`: `{:#x}`, `{:+x}`, `{:08x}`, `{:*>8x}`, `{:.3x}`.  Standard library,
used in `/repo/src/apint/serialization.rs:30-98`. -/
structure Flags where
  alternate : Bool := false
  plus : Bool := false
  zero : Bool := false
  width : Option Nat := none
  precision : Option Nat := none
  fill : Char := ' '
  align : Option Align := none

/-- `Formatter::pad_integral` of a number that is not negative (standard library), for
`/repo/src/digit.rs:53-75`. -/
def padIntegral (fl : Flags) (pre buf : List Char) : List Char :=
  let sign := if fl.plus then ['+'] else []
  let pre := sign ++ if fl.alternate then pre else []
  match fl.width with
  | none => pre ++ buf
  | some w =>
    let n := w - (pre.length + buf.length)
    if fl.zero then pre ++ List.replicate n '0' ++ buf
    else
      let left := match fl.align with
        | some .left => 0
        | some .center => n / 2
        | _ => n
      List.replicate left fl.fill ++ pre ++ buf ++ List.replicate (n - left) fl.fill

/-- What a formatter writes to, `fmt::Write`: whether `write_str` accepts a text, and the new state.
Standard library, used in `/repo/src/apint/serialization.rs:30-98`. -/
structure Sink (σ : Type) where
  writeStr : List Char → σ → Bool × σ

/-- What the three functions in `/repo/src/apint/serialization.rs:30-48` and `:60-98` differ in: the
base in which they print. -/
structure Base where
  radix : Nat
  char : Nat → Char
  /-- what `#` puts before the digits of a `u64` -/
  pre : List Char
  /-- how many characters a digit of an integer has -/
  chars : Nat

/-- `{:b}`, `/repo/src/apint/serialization.rs:30-48`. -/
def Base.binary : Base := ⟨2, ApInt.lowerChar, ['0', 'b'], 64⟩

/-- `{:x}`, `/repo/src/apint/serialization.rs:60-78`. -/
def Base.lowerHex : Base := ⟨16, ApInt.lowerChar, ['0', 'x'], 16⟩

/-- `{:X}`, `/repo/src/apint/serialization.rs:80-98`. -/
def Base.upperHex : Base := ⟨16, ApInt.upperChar, ['0', 'x'], 16⟩

section

variable {σ : Type} (cut : List Char → List (List Char)) (s : Sink σ)

/-- Hand over pieces until one is refused.  Standard library, used in
`/repo/src/apint/serialization.rs:30-98`. -/
def Sink.pieces : List (List Char) → σ → Bool × σ
  | [], t => (true, t)
  | p :: ps, t =>
    match s.writeStr p t with
    | (true, t) => pieces ps t
    | (false, t) => (false, t)

/-- `write!` of a text that the standard library cuts into pieces.  Used in
`/repo/src/apint/serialization.rs:30-98`. -/
def Sink.write (text : List Char) (t : σ) : Bool × σ := s.pieces (cut text) t

/-- `fmt::Binary for Digit` and the like, `/repo/src/digit.rs:53-75`: the formatter goes to the
`u64`. -/
def Digit.fmtTo (b : Base) (fl : Flags) (d : Digit) (t : σ) : Bool × σ :=
  s.write cut (padIntegral fl b.pre (ApInt.stdFmt b.radix b.char d.toNat)) t

/-- The loop over the remaining digits, `/repo/src/apint/serialization.rs:43-45`, `:73-75`, `:93-95`:
`write!(f, "{:064b}", digit)?`, with a formatter of its own. -/
def fmtRestTo (b : Base) : List Digit → σ → Bool × σ
  | [], t => (true, t)
  | d :: ds, t =>
    match Digit.fmtTo cut s b { zero := true, width := some b.chars } d t with
    | (true, t) => fmtRestTo b ds t
    | (false, t) => (false, t)

/-- The loop that looks for the first digit that is not zero, `/repo/src/apint/serialization.rs:36-42`,
`:66-72`, `:86-92`: `write!(f, "{:b}", digit)?`, with a formatter of its own. -/
def fmtDigitsTo (b : Base) : List Digit → σ → Bool × σ
  | [], t => (true, t)
  | d :: ds, t =>
    if Digit.isZero d then fmtDigitsTo b ds t
    else
      match Digit.fmtTo cut s b {} d t with
      | (true, t) => fmtRestTo cut s b ds t
      | (false, t) => (false, t)

/-- `fmt::Binary`, `fmt::LowerHex` and `fmt::UpperHex` for `ApInt`,
`/repo/src/apint/serialization.rs:30-48`, `:60-98`.  `fl` are the flags of the formatter. -/
def ApInt.fmtTo (b : Base) (_fl : Flags) (self : ApInt) (t : σ) : Run (Bool × σ) := do
  let z ← self.isZero
  if z then .ok (s.write cut ['0'] t)
  else do
    let ds ← self.asDigitSlice
    .ok (fmtDigitsTo cut s b ds.reverse t)

/-- `fmt::Octal for ApInt`, `/repo/src/apint/serialization.rs:50-58`. -/
def ApInt.fmtOctalTo (_fl : Flags) (self : ApInt) (t : σ) : Run (Bool × σ) := do
  let z ← self.isZero
  if z then .ok (s.write cut ['0'] t) else .error .panic

/-- `fmt::Binary`, `fmt::LowerHex` and `fmt::UpperHex` for `UInt`, `/repo/src/uint.rs:1080-1102`. -/
def UInt.fmtTo (b : Base) (fl : Flags) (self : UInt) (t : σ) : Run (Bool × σ) :=
  self.value.fmtTo cut s b fl t

/-- `fmt::Binary`, `fmt::LowerHex` and `fmt::UpperHex` for `Int`, `/repo/src/int.rs:1156-1178`. -/
def SInt.fmtTo (b : Base) (fl : Flags) (self : SInt) (t : σ) : Run (Bool × σ) :=
  self.value.fmtTo cut s b fl t

end

end Verif
