import Verif.Model.TypedHeap
import Verif.SpecTypedClient

/-!
# Clients of `UInt` and `Int` on the modelled code

`tplay` runs a client with a way to make the calls on the fields: `Instr.caught` for the pure
model, `pointerCall` for the model with pointers.
-/

namespace Verif

/-- What a client sees, in the words of the abstract machine. -/
def TSeen.abs : TSeen → ATSeen
  | .returned r => .returned (tabsRes r)
  | .panicked => .panicked

/-- The first `n` calls of a client. -/
def tplay {σ : Type} (c : Instr → σ → Run (Seen × σ)) (cl : TClient) :
    Nat → List ATSeen → List Kind → σ → Run (List ATSeen × List Kind × σ)
  | 0, seen, ks, s => .ok (seen, ks, s)
  | n + 1, seen, ks, s =>
    match cl seen with
    | none => .ok (seen, ks, s)
    | some i => do
      let (r, ks, s) ← i.caught c ks s
      tplay c cl n (seen ++ [r.abs]) ks s

end Verif
