import Verif.Model.Threads
import Verif.Model.HeapUnwind

/-!
# Errors that own integers

Two kinds of errors own an `ApInt` (`/repo/src/errors.rs:54-60`, `:86-91`): a division by zero has a
copy of the left operand (`/repo/src/apint/arithmetic.rs:1556`, `:1586`, `:1610`, `:1645`, `:1671`,
`:1716`, `:1758`, `:1805`), an unrepresentable value a copy of the integer
(`/repo/src/apint/to_primitive.rs:316`, `:519`, `:564`).  Here a program keeps the errors it is
given.  It can look at the integer inside (`Error::kind`, `/repo/src/errors.rs:138-141`, gives a
shared reference), clone errors, compare them and drop them (`Clone`, `PartialEq` are derived,
`/repo/src/errors.rs:16`, `:125`; dropping an error drops its integer).

All integers are in one bank, and `holders` says for each whether a variable of the program or an
error holds it.  The strings of an error (message, annotation) belong to safe code and are left
out.  One definition serves the machine with pointers and the machine without.
-/

namespace Verif

/-- Who holds an integer. Errors own integers at `/repo/src/errors.rs:53-60` and
`/repo/src/errors.rs:88-93`. -/
inductive Holder where
  | variable
  /-- `ErrorKind::DivisionByZero`, `/repo/src/errors.rs:86-91` -/
  | division (op : DivOp)
  /-- `ErrorKind::ValueUnrepresentable`, `/repo/src/errors.rs:54-60` -/
  | range (ty : PrimitiveTy)
  deriving DecidableEq

/-- The kinds of errors that own an integer. `/repo/src/errors.rs:53-60`,
`/repo/src/errors.rs:88-93`. -/
def Err.holder : Err → Option Holder
  | .divisionByZero op _ => some (.division op)
  | .valueUnrepresentable _ ty => some (.range ty)
  | _ => none

/-- The integer a failing call copies into its error: `self`. The copies are made at
`/repo/src/apint/arithmetic.rs:1556` and the like and in `/repo/src/apint/to_primitive.rs:308-347`.
-/
def Instr.self : Instr → Option Nat
  | .bin _ x _ | .intoBin _ x _ | .pair _ x _ | .ask _ x => some x
  | _ => none

/-- The borrow checker: a call takes by `&mut` and drops variables only; the integer inside an
error can be read. Client code, not in `/repo`. -/
def Instr.Fits (i : Instr) (holders : List Holder) : Prop :=
  ∀ x ∈ i.mutates, ∀ k, holders[x]? = some k → k = .variable

instance (o : Option Holder) : Decidable (∀ k, o = some k → k = .variable) :=
  match o with
  | none => .isTrue nofun
  | some k => decidable_of_iff (k = .variable) ⟨fun h _ e => Option.some.inj e ▸ h, fun h => h k rfl⟩

instance (i : Instr) (holders : List Holder) : Decidable (i.Fits holders) :=
  inferInstanceAs (Decidable (∀ x ∈ i.mutates, ∀ k, holders[x]? = some k → k = .variable))

/-- Integers (with or without pointers) and their holders. Client code, not in `/repo`. -/
structure Held (β : Type) where
  holders : List Holder
  ints : List β

/-- The holders after a call that left `n` integers: a new integer belongs to a new variable. Client
code, not in `/repo`. -/
def Instr.holdersAfter (i : Instr) (holders : List Holder) (n : Nat) : List Holder :=
  match i with
  | .drop x => holders.eraseIdx x
  | _ => holders ++ List.replicate (n - holders.length) .variable

/-- What a program with errors can do. Client code, not in `/repo`. -/
inductive EAct where
  /-- a call; an error that owns an integer is kept -/
  | call (i : Instr)
  /-- `let f = e.clone();` -/
  | cloneErr (k : Nat)
  /-- `drop(e);` -/
  | dropErr (k : Nat)
  /-- `e == f` -/
  | eqErr (k l : Nat)

section

variable {β : Type} {M : Type → Type} [Monad M]
  (exec : Instr → List β → M (Res Out × List β))

/-- A call other than a consuming binary one; `Error::division_by_zero` and
`Error::value_unrepresentable` are given `self.clone()`. As in `/repo/src/apint/arithmetic.rs:1556`.
-/
def keepCall (i : Instr) (s : Held β) : M (Res Out × Held β) := do
  let (r, b) ← exec i s.ints
  let holders := i.holdersAfter s.holders b.length
  match r with
  | .ok o => pure (.ok o, ⟨holders, b⟩)
  | .error e =>
    match e.holder, i.self with
    | some k, some x => do
      let (_, b) ← exec (.clone x) b
      pure (.error e, ⟨holders ++ [k], b⟩)
    | _, _ => pure (.error e, ⟨holders, b⟩)

/-- `x.clone().into_op(&y)`, `/repo/src/utils.rs:30-37`: the error is made while the consumed
integer is alive, which is dropped on the way out. -/
def keepInto (o : Bin) (x y : Nat) (s : Held β) : M (Res Out × Held β) := do
  let n := s.ints.length
  if x < n ∧ y < n then do
    let (_, b) ← exec (.clone x) s.ints
    let (r, b) ← exec (.bin o n y) b
    match r with
    | .ok u => pure (.ok u, ⟨s.holders ++ [.variable], b⟩)
    | .error e =>
      match e.holder with
      | some k => do
        let (_, b) ← exec (.clone n) b
        let (_, b) ← exec (.drop n) b
        pure (.error e, ⟨s.holders ++ [k], b⟩)
      | none => do
        let (_, b) ← exec (.drop n) b
        pure (.error e, ⟨s.holders, b⟩)
  else pure (.ok .unit, s)

/-- One step.  What the borrow checker or the types of Rust rule out does nothing. Client code, not
in `/repo`. -/
def EAct.step (a : EAct) (s : Held β) : M (Res Out × Held β) :=
  match a with
  | .call i =>
    if i.Fits s.holders then
      match i with
      | .intoBin o x y => keepInto exec o x y s
      | i => keepCall exec i s
    else pure (.ok .unit, s)
  | .cloneErr k =>
    match s.holders[k]? with
    | none | some .variable => pure (.ok .unit, s)
    | some h => do
      let (r, b) ← exec (.clone k) s.ints
      pure (r, ⟨s.holders ++ [h], b⟩)
  | .dropErr k =>
    match s.holders[k]? with
    | none | some .variable => pure (.ok .unit, s)
    | some _ => do
      let (r, b) ← exec (.drop k) s.ints
      pure (r, ⟨s.holders.eraseIdx k, b⟩)
  | .eqErr k l =>
    match s.holders[k]?, s.holders[l]? with
    | none, _ | _, none | some .variable, _ | _, some .variable => pure (.ok .unit, s)
    | some h, some h' =>
      -- the derived `==` compares the kinds and their fields in order
      if h ≠ h' then pure (.ok (.bool false), s)
      else do
        let (r, b) ← exec (.ask2 .eq k l) s.ints
        pure (r, ⟨s.holders, b⟩)

end

/-- A step with pointers. Client code, not in `/repo`. -/
def EAct.hexec (A : Growth) (a : EAct) (s : Held HInt) : HM (Res Out × Held HInt) :=
  a.step (Instr.hexec A) s

/-- A step inside `catch_unwind`.  Only calls panic; errors survive the unwinding. Client code, not
in `/repo`. -/
def EAct.hcaught [Allocator] (A : Growth) (a : EAct) (s : Held HInt) (h : Heap) :
    Run ((Seen × Held HInt) × Heap) :=
  match a.hexec A s h with
  | .ok ((r, s), h) => .ok ((.returned r, s), h)
  | .error .panic =>
    match a with
    | .call i =>
      match i.hleft A s.ints h with
      | .ok (b, h) => .ok ((.panicked, ⟨s.holders, b⟩), h)
      | .error f => .error f
    | _ => .error .panic
  | .error f => .error f

end Verif
