import Verif.Model.Types

/-!
# What a value means

The specification side: the mathematical value of a digit list, the unsigned and signed value
of an integer, and the representation invariant.  Nothing here refers to the functions of the
model, only to its data types.
-/

namespace Verif

/-- The number whose little-endian base-2^64 digits are `ds`. -/
def val : List Digit → Nat
  | [] => 0
  | d :: ds => d.toNat + 2 ^ 64 * val ds

/-- The number below `2 ^ w` that is congruent to `x` modulo `2 ^ w`. -/
def wrap (w : Nat) (x : Int) : Nat := (x % 2 ^ w).toNat

namespace ApInt

/-- The width in bits. -/
abbrev w (a : ApInt) : Nat := a.len.toUsize

/-- The digits of an integer, least significant first. -/
def digits (a : ApInt) : List Digit :=
  match a.data with
  | .inl d => [d]
  | .ext ds => ds

/-- The unsigned value. -/
def uval (a : ApInt) : Nat := val a.digits

/-- The signed (two's complement) value. -/
def sval (a : ApInt) : Int :=
  if a.uval < 2 ^ (a.w - 1) then (a.uval : Int) else (a.uval : Int) - 2 ^ a.w

/-- The storage matches the width: up to 64 bits are held in one digit, more in a buffer of
exactly as many digits as needed. -/
def Shape (a : ApInt) : Prop :=
  match a.data with
  | .inl _ => a.w ≤ 64
  | .ext ds => 64 < a.w ∧ ds.length = (a.w + 63) / 64

/-- The representation invariant: the storage matches the width and no bit at or above the
width is set. -/
def WF (a : ApInt) : Prop := a.Shape ∧ a.uval < 2 ^ a.w

/-- The call returns a well-formed integer of width `len` with the unsigned value `v`. -/
def Returns (r : Run ApInt) (len : BitWidth) (v : Nat) : Prop :=
  ∃ c, r = .ok c ∧ c.WF ∧ c.len = len ∧ c.uval = v

/-- The call returns `Ok` of a well-formed integer of width `len` with the unsigned value `v`. -/
def ReturnsOk (r : Run (Res ApInt)) (len : BitWidth) (v : Nat) : Prop :=
  ∃ c, r = .ok (.ok c) ∧ c.WF ∧ c.len = len ∧ c.uval = v

/-- The call returns `Ok(())` and leaves the integer it works on well-formed, with width `len`
and unsigned value `v`. -/
def Updates (r : Run (Res Unit × ApInt)) (len : BitWidth) (v : Nat) : Prop :=
  ∃ c, r = .ok (.ok (), c) ∧ c.WF ∧ c.len = len ∧ c.uval = v

/-- The call returns `Ok(())` and leaves both integers it works on well-formed, with width `len`
and unsigned values `v` and `v'`. -/
def Updates2 (r : Run (Res Unit × ApInt × ApInt)) (len : BitWidth) (v v' : Nat) : Prop :=
  ∃ c d, r = .ok (.ok (), c, d) ∧ c.WF ∧ d.WF ∧ c.len = len ∧ d.len = len ∧
    c.uval = v ∧ d.uval = v'

end ApInt

end Verif
