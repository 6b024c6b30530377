import Verif.Model.TraceAsk
import Verif.Model.UInt
import Verif.Model.SInt

/-!
# What an observer sees of the methods of `UInt` and `Int`

Most methods of `UInt` and `Int` only pass on to their field and show what that call shows.  Here are
those that branch on an answer of the field: `Int::wrapping_abs`, `Int::signum` and the two
`partial_cmp`.
-/

namespace Verif

namespace Trace

open ApInt Watched

/-- The branch of `wrapping_abs`, `/repo/src/int.rs:274-276`. -/
def absTail (self : SInt) (b : Bool) : Watched SInt :=
  if b then do
    let v ← wrappingNeg self.value
    pure ⟨v⟩
  else .ok self

/-- `Int::wrapping_abs`, `/repo/src/int.rs:273-277`. -/
def wrappingAbs (self : SInt) : Watched SInt := do
  let b ← msb self.value
  let () ← note [.test b]
  absTail self b

/-- The second branch of `signum`, `/repo/src/int.rs:251-257`.  `is_negative` is `!!self.msb()`. -/
def signTail (self : SInt) (z : Bool) : Watched Int :=
  if z then .ok 0
  else do
    let n ← msb self.value
    let () ← note [.test n]
    .ok (if n then -1 else 1)

/-- `Int::signum`, `/repo/src/int.rs:250-258`. -/
def signum (self : SInt) : Watched Int := do
  let z ← isZero self.value
  let () ← note [.test z]
  signTail self z

/-- The rest of `partial_cmp` after the first comparison, `/repo/src/uint.rs:296-302`,
`/repo/src/int.rs:354-360`. -/
def cmpTail (self rhs : ApInt) (lt : Bool) : Watched (Option Ordering) :=
  if lt then .ok (some .lt)
  else do
    let e ← eq self rhs
    let () ← note [.test e]
    .ok (some (if e then .eq else .gt))

/-- `partial_cmp` of `UInt`, `/repo/src/uint.rs:292-303`. -/
def ucmp (self rhs : UInt) : Watched (Option Ordering) :=
  if self.value.width ≠ rhs.value.width then .ok none
  else do
    let r ← checkedUlt self.value rhs.value
    let lt ← (expect r : Run Bool)
    let () ← note [.test lt]
    cmpTail self.value rhs.value lt

/-- `partial_cmp` of `Int`, `/repo/src/int.rs:350-361`. -/
def scmp (self rhs : SInt) : Watched (Option Ordering) :=
  if self.value.width ≠ rhs.value.width then .ok none
  else do
    let r ← checkedSlt self.value rhs.value
    let lt ← (expect r : Run Bool)
    let () ← note [.test lt]
    cmpTail self.value rhs.value lt

end Trace

end Verif
