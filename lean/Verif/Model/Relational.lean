import Verif.Model.Bitwise

/-!
# Comparisons (`/repo/src/apint/relational.rs`)
-/

namespace Verif

namespace ApInt

/-- `PartialEq for ApInt`, `/repo/src/apint/relational.rs:12-19`. -/
def eq (self other : ApInt) : Run Bool :=
  if self.lenBits ≠ other.lenBits then .ok false
  else do
    let l ← self.asDigitSlice
    let r ← other.asDigitSlice
    pure (l == r)

/-- The loop of `checked_ult`, `/repo/src/apint/relational.rs:46-53`, over the pairs of digits
from the most significant one down. -/
def ultLoop : List (Digit × Digit) → Bool
  | [] => false
  | (l, r) :: rest =>
    if l.toNat < r.toNat then true
    else if l.toNat > r.toNat then false
    else ultLoop rest

/-- `checked_ult`, `/repo/src/apint/relational.rs:36-56`. -/
def checkedUlt (self rhs : ApInt) : Run (Res Bool) := do
  match ← self.zipAccessData rhs with
  | .error e => .ok (.error e)
  | .ok (.inl l r) => .ok (.ok (l.toNat < r.toNat))
  | .ok (.ext l r) => .ok (.ok (ultLoop (l.reverse.zip r.reverse)))

/-- `Result::map(Not::not)`. Used in `/repo/src/apint/relational.rs:70-115`. -/
def mapNot : Res Bool → Res Bool
  | .ok b => .ok (!b)
  | .error e => .error e

/-- `checked_ule`, `/repo/src/apint/relational.rs:70-78`. -/
def checkedUle (self rhs : ApInt) : Run (Res Bool) := do
  let r ← rhs.checkedUlt self
  pure (mapNot r)

/-- `checked_ugt`, `/repo/src/apint/relational.rs:92-100`. -/
def checkedUgt (self rhs : ApInt) : Run (Res Bool) := rhs.checkedUlt self

/-- `checked_uge`, `/repo/src/apint/relational.rs:114-122`. -/
def checkedUge (self rhs : ApInt) : Run (Res Bool) := do
  let r ← self.checkedUlt rhs
  pure (mapNot r)

/-- `checked_slt`, `/repo/src/apint/relational.rs:135-163`. -/
def checkedSlt (self rhs : ApInt) : Run (Res Bool) := do
  match ← self.zipAccessData rhs with
  | .error e => .ok (.error e)
  | .ok (.inl l r) => do
    let infateAbs ← csub 64 self.width.toUsize
    let l ← rawShl l infateAbs
    let r ← rawShl r infateAbs
    .ok (.ok (l.toInt < r.toInt))
  | .ok (.ext _ _) => do
    let lm ← self.msb
    let rm ← rhs.msb
    match lm, rm with
    | false, false => self.checkedUlt rhs
    | false, true => .ok (.ok false)
    | true, false => .ok (.ok true)
    | true, true => rhs.checkedUgt self

/-- `checked_sle`, `/repo/src/apint/relational.rs:177-185`. -/
def checkedSle (self rhs : ApInt) : Run (Res Bool) := do
  let r ← rhs.checkedSlt self
  pure (mapNot r)

/-- `checked_sgt`, `/repo/src/apint/relational.rs:199-207`. -/
def checkedSgt (self rhs : ApInt) : Run (Res Bool) := rhs.checkedSlt self

/-- `checked_sge`, `/repo/src/apint/relational.rs:221-229`. -/
def checkedSge (self rhs : ApInt) : Run (Res Bool) := do
  let r ← self.checkedSlt rhs
  pure (mapNot r)

end ApInt

end Verif
