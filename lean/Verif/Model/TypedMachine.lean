import Verif.Model.TypedHeap
import Verif.Model.Machine

/-!
# `UInt` and `Int` on machine words

The methods of `UInt` and `Int` (`/repo/src/uint.rs`, `/repo/src/int.rs`, `/repo/src/std_ops.rs`)
compute no sizes themselves; what they do on a machine is their script of calls on the fields
(`Model/TypedHeap.lean`), each call made on that machine (`Model/Machine.lean`).
-/

namespace Verif

namespace Machine

/-- The calls of a script, one after the other.  A call that panics ends the script. Not in `/repo`;
the scripts are those of `TypedHeap.lean`. -/
def runScript (m : Machine) : Script → Bank → Run ((Res TOut × List Kind) × Bank)
  | .done r ks, b => .ok ((r, ks), b)
  | .panic, _ => .error .panic
  | .call i k, b => do
    let (r, b) ← m.exec i b
    m.runScript (k r) b

/-- `TInstr.exec` on a machine. The calls are those cited at `Typed.lean`. -/
def texec (m : Machine) (i : TInstr) (b : TBank) : Run (Res TOut × TBank) := do
  let ((r, ks), v) ← m.runScript (i.script (b.map WInt.kind)) (b.map WInt.value)
  .ok (r, List.zipWith Kind.wrap ks v)

/-- `trun` on a machine. Client code, not in `/repo`. -/
def trun (m : Machine) : List TInstr → TBank → List (Res TOut) × Run TBank
  | [], b => ([], .ok b)
  | i :: is, b =>
    match m.texec i b with
    | .ok (r, b) =>
      let (rs, e) := m.trun is b
      (r :: rs, e)
    | .error f => ([], .error f)

end Machine

end Verif
