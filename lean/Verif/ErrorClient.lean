import Verif.Client
import Verif.SpecErrors

/-!
# Clients that keep errors
-/

namespace Verif

/-- The first `n` steps of a client on the modelled code, with pointers into a heap. -/
def ehplay [Allocator] (A : Growth) (c : EClient) : Nat → List ASeen → Held HInt → Heap →
    Run ((List ASeen × Held HInt) × Heap)
  | 0, seen, s, h => .ok ((seen, s), h)
  | n + 1, seen, s, h =>
    match c seen with
    | none => .ok ((seen, s), h)
    | some a => do
      let ((r, s), h) ← a.hcaught A s h
      ehplay A c n (seen ++ [r.abs]) s h

end Verif
