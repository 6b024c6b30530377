import Verif.Model.Sharing
import Verif.Model.TypedHeap

/-!
# `UInt` and `Int` in threads

`UInt` and `Int` are structs around one `ApInt` (`/repo/src/uint.rs:28-30`, `/repo/src/int.rs:28-30`),
so they are `Send` and `Sync` because `ApInt` is (`/repo/src/apint/mod.rs:40-46`).  As in
`Model/Sharing.lean`, threads share integers for a while, hand them to each other, and survive
panics.  One call on a `UInt` or `Int` makes several calls on the fields (`TInstr.script`), and the
other threads may do anything between any two memory accesses of all of them.
-/

namespace Verif

/-- The calls of a method as one sequence of accesses to the heap.  `none` when it panics. Client
code, not in `/repo`; the calls are those of `TInstr.script`. -/
def Script.attempt (A : Growth) : Script → HBank → HM (Option (Res TOut × List Kind) × HBank)
  | .done r ks, b => pure (some (r, ks), b)
  | .panic, b => pure (none, b)
  | .call i k, b => do
    match ← i.attempt A b with
    | (.returned r, b) => (k r).attempt A b
    | (.panicked, b) => pure (none, b)

/-- A call on integers of the given types inside `catch_unwind`, as one sequence of accesses to the
heap.  A panic drops the integer that the call has taken by value, `/repo/src/apint/constructors.rs:36-42`.
-/
def TInstr.attempt (A : Growth) (i : TInstr) (ks : List Kind) (b : HBank) :
    HM (TSeen × List Kind × HBank) := do
  match ← (i.script ks).attempt A b with
  | (some (r, ks), b) => pure (.returned r, ks, b)
  | (none, b) =>
    match i.consumes with
    | none => pure (.panicked, ks, b)
    | some x => do
      let (_, b) ← (Instr.drop x).attempt A b
      pure (.panicked, ks.eraseIdx x, b)

/-- The integers a call takes by `&mut` or by value. `/repo/src/uint.rs:190-1102`,
`/repo/src/int.rs:198-1178`, `/repo/src/std_ops.rs`. -/
def TInstr.mutates : TInstr → List Nat
  | .make _ => []
  | .intOne _ => []
  | .clone _ => []
  | .drop x => [x]
  | .assign x _ => [x]
  | .strictAssign x _ => [x]
  | .intoUnsigned x => [x]
  | .intoSigned x => [x]
  | .un _ x => [x]
  | .intoUn _ x => [x]
  | .opUn _ x => [x]
  | .opShift _ x => [x]
  | .alter _ x => [x]
  | .bin _ x _ => [x]
  | .intoBin _ x _ => [x]
  | .op _ x _ => [x]
  | .opAssign _ x _ => [x]
  | .ask _ _ => []
  | .ask2 _ _ _ => []

/-- The borrow checker: the first `n` integers are only lent. Client code, not in `/repo`; that
integers may be sent and shared is `/repo/src/apint/mod.rs:40-46`. -/
def TInstr.Allowed (i : TInstr) (n : Nat) : Prop := ∀ x ∈ i.mutates, n ≤ x

/-- A thread: the integers it owns while it is not in a call, with their types, or a call which
began when `n` integers were shared. Client code, not in `/repo`; that integers may be shared is
`/repo/src/apint/mod.rs:40-46`. -/
inductive TWorker where
  | idle (kinds : List Kind) (own : HBank)
  | busy (n : Nat) (i : TInstr) (m : HM (TSeen × List Kind × HBank))

/-- Threads with a common heap, and the integers they share with their types. Client code, not in
`/repo`; that integers may be shared is `/repo/src/apint/mod.rs:40-46`. -/
structure TCrew where
  heap : Heap
  kinds : List Kind
  shared : HBank
  workers : List TWorker

/-- One thread, and nothing allocated yet. Client code, not in `/repo`; that integers may be shared
is `/repo/src/apint/mod.rs:40-46`. -/
def TCrew.start : TCrew := ⟨⟨[], []⟩, [], [], [.idle [] []]⟩

/-- What can be seen from outside, in the order in which it happens. Client code, not in `/repo`;
that integers may be shared is `/repo/src/apint/mod.rs:40-46`. -/
inductive TCEvent where
  /-- thread `t` starts with no integer of its own -/
  | spawned (t : Nat)
  /-- call `i` of thread `t`, which began when `n` integers were shared, returns or panics -/
  | ended (t n : Nat) (i : TInstr) (r : TSeen)
  /-- the integer at position `x` of the integers of thread `t` is handed to thread `u` -/
  | moved (t x u : Nat)
  /-- thread `t` begins to share its integer at position `x` -/
  | shared (t x : Nat)
  /-- thread `t` takes the shared integer at position `x` for itself -/
  | reclaimed (t x : Nat)

/-- One step of one thread. Client code, not in `/repo`; that integers may be shared is
`/repo/src/apint/mod.rs:40-46`. -/
inductive TCrew.Step (A : Growth) : TCrew → List TCEvent → TCrew → Prop where
  | spawn {s : TCrew} :
      Step A s [.spawned s.workers.length] { s with workers := s.workers ++ [.idle [] []] }
  | call {s : TCrew} {t : Nat} {ks : List Kind} {own : HBank} {i : TInstr}
      (ht : s.workers[t]? = some (.idle ks own)) (hi : i.Allowed s.shared.length) :
      Step A s [] { s with
        workers := s.workers.set t (.busy s.shared.length i
          (i.attempt A (s.kinds ++ ks) (s.shared ++ own))) }
  | access {s : TCrew} {t n : Nat} {i : TInstr} {m m' : HM (TSeen × List Kind × HBank)} {h : Heap}
      (ht : s.workers[t]? = some (.busy n i m)) (hm : m.Step s.heap m' h) :
      Step A s [] { s with heap := h, workers := s.workers.set t (.busy n i m') }
  | finish {s : TCrew} {t n : Nat} {i : TInstr} {r : TSeen} {ks : List Kind} {b : HBank}
      (ht : s.workers[t]? = some (.busy n i (.ret (r, ks, b)))) :
      Step A s [.ended t n i r]
        { s with workers := s.workers.set t (.idle (ks.drop n) (b.drop n)) }
  | move {s : TCrew} {t u x : Nat} {ks ks' : List Kind} {own own' : HBank} {k : Kind} {a : HInt}
      (ne : t ≠ u) (ht : s.workers[t]? = some (.idle ks own))
      (hu : s.workers[u]? = some (.idle ks' own')) (hk : ks[x]? = some k) (hx : own[x]? = some a) :
      Step A s [.moved t x u]
        { s with
          workers := (s.workers.set t (.idle (ks.eraseIdx x) (own.eraseIdx x))).set u
            (.idle (ks' ++ [k]) (own' ++ [a])) }
  | share {s : TCrew} {t x : Nat} {ks : List Kind} {own : HBank} {k : Kind} {a : HInt}
      (ht : s.workers[t]? = some (.idle ks own)) (hk : ks[x]? = some k) (hx : own[x]? = some a) :
      Step A s [.shared t x]
        { s with kinds := s.kinds ++ [k], shared := s.shared ++ [a]
                 workers := s.workers.set t (.idle (ks.eraseIdx x) (own.eraseIdx x)) }
  | reclaim {s : TCrew} {t x : Nat} {ks : List Kind} {own : HBank} {k : Kind} {a : HInt}
      (ht : s.workers[t]? = some (.idle ks own)) (hk : s.kinds[x]? = some k)
      (hx : s.shared[x]? = some a) (unused : ∀ n i m, .busy n i m ∈ s.workers → n ≤ x) :
      Step A s [.reclaimed t x]
        { s with kinds := s.kinds.eraseIdx x, shared := s.shared.eraseIdx x
                 workers := s.workers.set t (.idle (ks ++ [k]) (own ++ [a])) }

/-- Any number of steps, with what could be seen of them. Client code, not in `/repo`; that integers
may be shared is `/repo/src/apint/mod.rs:40-46`. -/
inductive TCrew.Steps (A : Growth) : TCrew → List TCEvent → TCrew → Prop where
  | none {s : TCrew} : Steps A s [] s
  | more {s s' s'' : TCrew} {tr tr' : List TCEvent} (hs : Steps A s tr s')
      (h : TCrew.Step A s' tr' s'') : Steps A s (tr ++ tr') s''

/-- Two threads are about to access the same buffer, and one of them not just to read it. Client
code, not in `/repo`; that integers may be shared is `/repo/src/apint/mod.rs:40-46`. -/
def TCrew.Race (s : TCrew) : Prop :=
  ∃ (t u n n' : Nat) (i j : TInstr) (m m' : HM (TSeen × List Kind × HBank)) (p : Nat) (w w' : Bool),
    t ≠ u ∧ s.workers[t]? = some (.busy n i m) ∧ s.workers[u]? = some (.busy n' j m') ∧
    m.next = some (p, w) ∧ m'.next = some (p, w') ∧ (w = true ∨ w' = true)

end Verif
