import Verif.Model.Errors
import Verif.Model.TypedHeap

/-!
# Errors of `UInt` and `Int` with their texts

The methods of `UInt` and `Int` make no errors themselves: `/repo/src/uint.rs` and `/repo/src/int.rs`
do not mention the constructors of errors.  A method that reports an error hands on the one of the
call on its field, by returning the result of the call, with `map`, or with `?`.
-/

namespace Verif

/-- The calls a method makes on the fields, with whole errors.  `last` is the error of the last call
that failed; the method returns that one.  The bodies of the methods of `/repo/src/uint.rs:190-1102`
and `/repo/src/int.rs:198-1178`, and `/repo/src/utils.rs:8-37`. -/
def Script.runE (q : Quoting) :
    Script → Option Error → Bank → Run ((Except Error TOut × List Kind) × Bank)
  | .done (.ok o) ks, _, b => .ok ((.ok o, ks), b)
  | .done (.error _) ks, some e, b => .ok ((.error e, ks), b)
  -- does not happen
  | .done (.error _) _, none, _ => .error .panic
  | .panic, _, _ => .error .panic
  | .call i k, last, b => do
    match ← i.execE q b with
    | (.ok o, b) => (k (.ok o)).runE q last b
    | (.error e, b) => (k (.error e.kind)).runE q (some e) b

/-- One call on `UInt`s and `Int`s with the whole error. `/repo/src/uint.rs:190-1102`,
`/repo/src/int.rs:198-1178`, `/repo/src/errors.rs:125-385`. -/
def TInstr.execE (q : Quoting) (i : TInstr) (b : TBank) : Run (Except Error TOut × TBank) := do
  let ((r, ks), v) ← (i.script (b.map WInt.kind)).runE q none (b.map WInt.value)
  pure (r, List.zipWith Kind.wrap ks v)

end Verif
