import Verif.Model.TypedHeap
import Verif.Model.WorkProgram

/-!
# Counting the digits that a program over `UInt` and `Int` touches

Every method of `UInt` and `Int` works by calls on its field (`Model/TypedHeap.lean`); the count is
that of those calls (`Model/WorkProgram.lean`).
-/

namespace Verif

/-- The calls of a method on its field, counted.  The calls are those of the scripts of
`/repo/src/uint.rs:190-1102` and `/repo/src/int.rs:198-1178`. -/
def Script.work : Script → Bank → Counted ((Res TOut × List Kind) × Bank)
  | .done r ks, b => .ok ((r, ks), b)
  | .panic, _ => Except.error .panic
  | .call i k, b => do
    let p ← Count.exec i b
    (k p.1).work p.2

namespace Count

/-- The fields back in their types, `/repo/src/uint.rs:28-30`, `/repo/src/int.rs:28-30`. -/
def rejoin (p : (Res TOut × List Kind) × Bank) : Res TOut × TBank :=
  (p.1.1, p.1.2.zipWith Kind.wrap p.2)

/-- One call, counted. `/repo/src/uint.rs:190-1102`, `/repo/src/int.rs:198-1178`,
`/repo/src/std_ops.rs`. -/
def texec (i : TInstr) (b : TBank) : Counted (Res TOut × TBank) := do
  let p ← (i.script (b.map WInt.kind)).work (b.map WInt.value)
  pure (rejoin p)

/-- A program, counted, as `trun`. Client code, not in `/repo`. -/
def trun : List TInstr → TBank → List (Res TOut) × Run TBank × Nat
  | [], b => ([], .ok b, 0)
  | i :: is, b =>
    match texec i b with
    | Except.ok ((r, b), n) =>
      let (rs, e, m) := trun is b
      (r :: rs, e, n + m)
    | Except.error f => ([], .error f, 0)

end Count

end Verif
