/-!
# Execution model shared by every modelled function

A Rust function either returns, or it stops with a fault.  Faults are data here, so a
theorem saying that a call equals `.ok r` also says that the call does not panic, does not
touch memory it must not touch, and terminates.

Simplification (stated once for the whole model): `usize` is `Nat`.  Subtraction on `usize`
is checked (`csub`, a fault when it would go below zero, as with overflow checks on);
addition and multiplication on `usize` are unbounded.  `Model/Machine.lean` has the functions that
compute sizes with the `usize` of a machine, and C80 shows when this makes no difference.
-/

namespace Verif

/-- Ways in which a call can fail to return. `panic`: a Rust panic (failed `assert!`,
`unwrap`, index out of bounds, division by zero). `overflow`: a panic that only a build with
overflow checks and debug assertions has (arithmetic overflow, a shift by at least the width of
the type, failed `debug_assert!`); a release build goes on with a wrapped result. `ub`: the code would
read the inactive variant of the `ApIntData` union (`/repo/src/apint/mod.rs:33-38`) or use a
buffer with the wrong number of digits. `diverge`: an unbounded `loop` did not terminate
within the number of steps the model allows. -/
inductive Fault where
  | panic
  | overflow
  | ub
  | diverge
  deriving DecidableEq, Repr

/-- A computation that returns a value or stops with a fault. Panics are where the code has
`unwrap`, `assert!`, indexing or checked arithmetic, e.g. `/repo/src/apint/arithmetic.rs:303-340`.
-/
abbrev Run (α : Type) := Except Fault α

@[simp] theorem run_bind_ok {α β : Type} (a : α) (f : α → Run β) :
    ((Except.ok a : Run α) >>= f) = f a := rfl

@[simp] theorem run_bind_error {α β : Type} (e : Fault) (f : α → Run β) :
    ((Except.error e : Run α) >>= f) = Except.error e := rfl

@[simp] theorem run_pure {α : Type} (a : α) : (pure a : Run α) = Except.ok a := rfl

/-- Slice indexing `xs[i]` used as a value: panics when out of bounds. As in
`/repo/src/apint/arithmetic.rs:334`. -/
def idx {α : Type} (l : List α) (i : Nat) : Run α :=
  match l[i]? with
  | some a => .ok a
  | none => .error .panic

/-- Slice assignment `xs[i] = v`: panics when out of bounds. As in
`/repo/src/apint/arithmetic.rs:113-123`. -/
def upd {α : Type} (l : List α) (i : Nat) (v : α) : Run (List α) :=
  if i < l.length then .ok (l.set i v) else .error .panic

/-- Checked `usize` subtraction. As in `/repo/src/apint/arithmetic.rs:162`; overflow checks as in a
debug build. -/
def csub (a b : Nat) : Run Nat := if b ≤ a then .ok (a - b) else .error .overflow

/-- `n` steps of a counting loop, the counter starting at `i`. For `for` loops as in
`/repo/src/apint/arithmetic.rs:113-123`. -/
def loopUp {σ : Type} (body : Nat → σ → Run σ) : Nat → Nat → σ → Run σ
  | 0, _, s => .ok s
  | n + 1, i, s => do
    let s ← body i s
    loopUp body n (i + 1) s

/-- `for i in lo..hi { s = body(i, s) }`. As in `/repo/src/apint/arithmetic.rs:113-123`. -/
def forRange {σ : Type} (lo hi : Nat) (s : σ) (body : Nat → σ → Run σ) : Run σ :=
  loopUp body (hi - lo) lo s

/-- What one iteration of a loop with `break` produces. As in `/repo/src/apint/arithmetic.rs:35-41`.
-/
inductive Step (σ : Type) where
  | cont (s : σ)
  | brk (s : σ)

/-- `n` steps of a counting loop with `break`, the counter starting at `i`. For loops as in
`/repo/src/apint/arithmetic.rs:745-757`. -/
def loopUpB {σ : Type} (body : Nat → σ → Run (Step σ)) : Nat → Nat → σ → Run σ
  | 0, _, s => .ok s
  | n + 1, i, s => do
    match ← body i s with
    | .cont s => loopUpB body n (i + 1) s
    | .brk s => .ok s

/-- `for i in lo..hi { .. }` where the body may `break`. As in
`/repo/src/apint/arithmetic.rs:745-757`. -/
def forRangeB {σ : Type} (lo hi : Nat) (s : σ) (body : Nat → σ → Run (Step σ)) : Run σ :=
  loopUpB body (hi - lo) lo s

/-- `n` steps of a loop counting down: the counter takes `lo + n - 1, …, lo`. For loops as in
`/repo/src/apint/arithmetic.rs:677-690`. -/
def loopDown {σ : Type} (body : Nat → σ → Run σ) (lo : Nat) : Nat → σ → Run σ
  | 0, s => .ok s
  | n + 1, s => do
    let s ← body (lo + n) s
    loopDown body lo n s

/-- `for i in (lo..hi).rev() { s = body(i, s) }`. As in `/repo/src/apint/arithmetic.rs:677-690`. -/
def forRev {σ : Type} (lo hi : Nat) (s : σ) (body : Nat → σ → Run σ) : Run σ :=
  loopDown body lo (hi - lo) s

/-- `n` steps of a loop counting down, with `break`. For loops as in
`/repo/src/apint/arithmetic.rs:778-797`. -/
def loopDownB {σ : Type} (body : Nat → σ → Run (Step σ)) (lo : Nat) : Nat → σ → Run σ
  | 0, s => .ok s
  | n + 1, s => do
    match ← body (lo + n) s with
    | .cont s => loopDownB body lo n s
    | .brk s => .ok s

/-- `for i in (lo..hi).rev() { .. }` where the body may `break`. As in
`/repo/src/apint/arithmetic.rs:778-797`. -/
def forRevB {σ : Type} (lo hi : Nat) (s : σ) (body : Nat → σ → Run (Step σ)) : Run σ :=
  loopDownB body lo (hi - lo) s

/-- `slice[..n].copy_from_slice(&src[..n])`-style copy of whole slices: panics when the
lengths differ (documented behaviour of `[T]::copy_from_slice`). As in
`/repo/src/apint/arithmetic.rs:442`. -/
def copyFromSlice {α : Type} (dst src : List α) : Run (List α) :=
  if dst.length = src.length then .ok src else .error .panic

/-- `dst[lo..hi].copy_from_slice(&src[lo'..hi'])`: panics when either range is out of bounds
or the lengths differ. As in `/repo/src/apint/arithmetic.rs:1367`,
`/repo/src/apint/arithmetic.rs:1415`. -/
def copyRange {α : Type} (dst : List α) (lo hi : Nat) (src : List α) (lo' hi' : Nat) :
    Run (List α) :=
  if lo ≤ hi ∧ hi ≤ dst.length ∧ lo' ≤ hi' ∧ hi' ≤ src.length ∧ hi - lo = hi' - lo' then
    .ok (dst.take lo ++ (src.take hi').drop lo' ++ dst.drop hi)
  else .error .panic

end Verif
