import Verif.Model.Heap

/-!
# What correct use of an allocator means

Only about the log of requests made to the allocator.
-/

namespace Verif

/-- The address a request is about. -/
def Event.addr : Event → Nat
  | .alloc p _ => p
  | .free p _ => p

/-- The requests about one address, in order. -/
def eventsAt (p : Nat) (log : List Event) : List Event := log.filter fun e => e.addr == p

/-- Allocations and deallocations alternate, and every deallocation passes the capacity of the
allocation before it. -/
inductive Paired : List Event → Prop where
  | nil : Paired []
  | step (p cap : Nat) {rest : List Event} (h : Paired rest) :
      Paired (.alloc p cap :: .free p cap :: rest)

/-- Every buffer was freed, exactly once and with the capacity it was allocated with. -/
def AllFreed (log : List Event) : Prop := ∀ p, Paired (eventsAt p log)

/-- Every buffer was freed at most once and with the capacity it was allocated with; only the last
buffer at an address can still be live. -/
def NoMisuse (log : List Event) : Prop :=
  ∀ p, ∃ l, Paired l ∧ (eventsAt p log = l ∨ ∃ cap, eventsAt p log = l ++ [.alloc p cap])

/-- The buffers the log leaves live, with their capacities. -/
def LiveAt (log : List Event) (p cap : Nat) : Prop := (eventsAt p log).getLast? = some (.alloc p cap)

/-- The digits in use after these requests: what was asked for, less what was given back. -/
def inUse (log : List Event) : Int :=
  (log.map fun e => match e with | .alloc _ cap => (cap : Int) | .free _ cap => -cap).sum

/-- The number of digits of an integer. -/
def HInt.digits (x : HInt) : Nat := (x.len.toUsize + 63) / 64

/-- The address of the buffer of an integer, if it has one. -/
def HInt.buf (x : HInt) : Option Nat :=
  match x.data with
  | .inl _ => none
  | .ext p => some p

/-- The calls that work on the integers they are lent: they neither bind a new integer nor drop
one.  No integer can be lent mutably twice. -/
def Instr.borrows : Instr → Prop
  | .make _ | .clone _ | .drop _ | .intoUn _ _ | .intoBin _ _ _ | .op _ _ _ | .opShl _ _ => False
  | .pair _ x y => x ≠ y
  | _ => True

/-- Vectors of at most one digit stay in the inline room. -/
def Growth.Snug (A : Growth) : Prop := ∀ ds : List Digit, ds.length ≤ 1 → A.room ds ≤ 1

end Verif
