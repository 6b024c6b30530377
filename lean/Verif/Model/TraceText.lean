import Verif.Model.Trace
import Verif.Model.Strings

/-!
# What an observer sees of writing an integer in binary or hexadecimal

`fmt::Binary`, `fmt::LowerHex` and `fmt::UpperHex` with a trace.  How the standard library writes a
single digit is taken to show nothing, and so is the buffer it writes to.
-/

namespace Verif

namespace Trace

open ApInt Watched

/-- Looking at `n` digits from the most significant one down, `for digit in ds`,
`/repo/src/apint/serialization.rs:43-45,73-75,93-95`. -/
def readsDown : Nat → List Sight
  | 0 => []
  | n + 1 => .read .self n :: readsDown n

/-- The `while let` and the `for`, `/repo/src/apint/serialization.rs:35-45,65-75,85-95`, from the most
significant digit down, as `fmtDigits` of `Model/Strings.lean`. -/
def fmtLoop (b : Nat) (ch : Nat → Char) (w : Nat) : List Digit → Watched (List Char)
  | [] => .ok []
  | d :: rest => do
    let () ← note [.read .self rest.length, .test (Digit.isZero d)]
    if Digit.isZero d then fmtLoop b ch w rest
    else do
      let () ← note (readsDown rest.length)
      .ok (stdFmt b ch d.toNat ++ rest.flatMap fun d => stdFmtPad b ch w d.toNat)

/-- The common shape of the three, `/repo/src/apint/serialization.rs:31-47,61-77,81-97`. -/
def fmtWith (b : Nat) (ch : Nat → Char) (w : Nat) (self : ApInt) : Watched (List Char) := do
  let z ← isZero self
  let () ← note [.test z]
  if z then .ok ['0']
  else do
    let ds ← self.asDigitSlice
    fmtLoop b ch w ds.reverse

/-- `fmt::Binary for ApInt`, `/repo/src/apint/serialization.rs:30-48`. -/
def fmtBinary (self : ApInt) : Watched (List Char) := fmtWith 2 lowerChar 64 self

/-- `fmt::LowerHex for ApInt`, `/repo/src/apint/serialization.rs:60-78`. -/
def fmtLowerHex (self : ApInt) : Watched (List Char) := fmtWith 16 lowerChar 16 self

/-- `fmt::UpperHex for ApInt`, `/repo/src/apint/serialization.rs:80-98`. -/
def fmtUpperHex (self : ApInt) : Watched (List Char) := fmtWith 16 upperChar 16 self

end Trace

end Verif
