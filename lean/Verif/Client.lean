import Verif.Model.HeapUnwind
import Verif.SpecProgram

/-!
# Clients of the library

A client makes calls one after the other and decides on the next one from the answers so far; it
catches panics.  `play` runs it on the modelled code, `specPlay` (`SpecProgram.lean`) on the
abstract machine.
-/

namespace Verif

/-- What a client sees, in the words of the abstract machine. -/
def Seen.abs : Seen → ASeen
  | .returned r => .returned (absRes r)
  | .panicked => .panicked

/-- The first `n` calls of a client on the modelled code. -/
def play (c : Client) : Nat → List ASeen → Bank → Run (List ASeen × Bank)
  | 0, seen, b => .ok (seen, b)
  | n + 1, seen, b =>
    match c seen with
    | none => .ok (seen, b)
    | some i => do
      let (s, b) ← i.caught b
      play c n (seen ++ [s.abs]) b

/-- The same with pointers into a heap. -/
def hplay [Allocator] (A : Growth) (c : Client) : Nat → List ASeen → HBank → Heap →
    Run ((List ASeen × HBank) × Heap)
  | 0, seen, b, h => .ok ((seen, b), h)
  | n + 1, seen, b, h =>
    match c seen with
    | none => .ok ((seen, b), h)
    | some i => do
      let ((s, b), h) ← i.hcaught A b h
      hplay A c n (seen ++ [s.abs]) b h

end Verif
