import Verif.SpecTyped

/-!
# Clients of `UInt` and `Int`: what should happen

As the clients of `SpecProgram.lean`, on the machine over integers of `SpecTyped.lean`: a client
decides on its next call from everything it has been told, and catches panics.
-/

namespace Verif

open Num

/-- What a panicking call leaves behind.  A call that took an integer by value has dropped it.  The
in-place signed divisions by a number other than zero have already replaced their left operand by
its magnitude (brought into the range of its type).  Nothing else has changed. -/
def TInstr.specLeft (i : TInstr) (b : NBank) : NBank :=
  let div (x y : Nat) : NBank :=
    match b[x]?, b[y]? with
    | some a, some c => if a.kind = .signed ∧ c.val ≠ 0 then b.set x (a.put |a.val|) else b
    | _, _ => b
  match i with
  | .bin .div x y | .bin .rem x y | .opAssign .div x y | .opAssign .rem x y => div x y
  | .intoUn _ x | .opUn _ x | .intoBin _ x _ | .op _ x _ => b.eraseIdx x
  | _ => b

/-- What a program that catches panics sees of a call. -/
inductive ATSeen where
  | returned (r : Except AErr TOut)
  | panicked
  deriving DecidableEq

/-- A call whose panic is caught. -/
def TInstr.specCaught (i : TInstr) (b : NBank) : ATSeen × NBank :=
  match i.spec b with
  | some (r, b) => (.returned r, b)
  | none => (.panicked, i.specLeft b)

/-- A client: any function from what it has seen so far (oldest first) to its next call, or the
decision to stop. -/
abbrev TClient := List ATSeen → Option TInstr

/-- The first `n` calls of a client: what it has seen, and its numbers. -/
def tspecPlay (c : TClient) : Nat → List ATSeen → NBank → List ATSeen × NBank
  | 0, seen, b => (seen, b)
  | n + 1, seen, b =>
    match c seen with
    | none => (seen, b)
    | some i => tspecPlay c n (seen ++ [(i.specCaught b).1]) (i.specCaught b).2

end Verif
