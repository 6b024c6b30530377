import Verif.Model.Threads
import Verif.Model.HeapUnwind

/-!
# Sharing for a while, and threads that survive a panic

The threads of `Model/Threads.lean` are lent a fixed list of integers, and a panic ends them.  Here
any thread may begin to share one of its integers with all others while they are running, and any
thread may take a shared integer for itself once no call can be using it: this is what `Arc` (with
`try_unwrap`), `RwLock` and scoped threads allow with a type that is `Send` and `Sync`
(`/repo/src/apint/mod.rs:40-46`).  A panic unwinds the call, which drops what its frames own
(`Model/HeapUnwind.lean`); the thread keeps its integers, and may go on (`catch_unwind`) or drop
them.
-/

namespace Verif

/-- The values of the integers, read through their pointers. `/repo/src/apint/utils.rs:279-289`. -/
def loadAll : HBank → HM Bank
  | [] => pure []
  | x :: xs => do
    let a ← x.load
    let as ← loadAll xs
    pure (a :: as)

/-- A call inside `catch_unwind`, as one sequence of accesses to the heap.  The code finds out in
the middle of the call that it must panic; the model reads all operands first (and everything else
the thread can read, which makes races easier, not harder, to have), and then makes the accesses of
the call that returns (`Instr.hexec`) or of the one that panics and unwinds (`Instr.hleft`). Client
code, not in `/repo`; that integers may be shared is `/repo/src/apint/mod.rs:40-46`. -/
def Instr.attempt (A : Growth) (i : Instr) (b : HBank) : HM (Seen × HBank) := do
  let bs ← loadAll b
  match i.exec bs with
  | .error .panic => do
    let b ← i.hleft A b
    pure (.panicked, b)
  | _ => do
    let (r, b) ← i.hexec A b
    pure (.returned r, b)

/-- A thread: the integers it owns while it is not in a call, or a call which began when `n`
integers were shared. Client code, not in `/repo`; that integers may be shared is
`/repo/src/apint/mod.rs:40-46`. -/
inductive Worker where
  | idle (own : HBank)
  | busy (n : Nat) (i : Instr) (m : HM (Seen × HBank))

/-- Threads with a common heap, and the integers they share. Client code, not in `/repo`; that
integers may be shared is `/repo/src/apint/mod.rs:40-46`. -/
structure Crew where
  heap : Heap
  shared : HBank
  workers : List Worker

/-- One thread, and nothing allocated yet. Client code, not in `/repo`; that integers may be shared
is `/repo/src/apint/mod.rs:40-46`. -/
def Crew.start : Crew := ⟨⟨[], []⟩, [], [.idle []]⟩

/-- What can be seen from outside, in the order in which it happens. Client code, not in `/repo`;
that integers may be shared is `/repo/src/apint/mod.rs:40-46`. -/
inductive CEvent where
  /-- thread `t` starts with no integer of its own -/
  | spawned (t : Nat)
  /-- call `i` of thread `t`, which began when `n` integers were shared, answers `r` -/
  | returned (t n : Nat) (i : Instr) (r : Res Out)
  /-- call `i` of thread `t`, which began when `n` integers were shared, panics -/
  | panicked (t n : Nat) (i : Instr)
  /-- the integer at position `x` of the integers of thread `t` is handed to thread `u` -/
  | moved (t x u : Nat)
  /-- thread `t` begins to share its integer at position `x` -/
  | shared (t x : Nat)
  /-- thread `t` takes the shared integer at position `x` for itself -/
  | reclaimed (t x : Nat)

/-- One step of one thread. Client code, not in `/repo`; that integers may be shared is
`/repo/src/apint/mod.rs:40-46`. -/
inductive Crew.Step (A : Growth) : Crew → List CEvent → Crew → Prop where
  | spawn {s : Crew} :
      Step A s [.spawned s.workers.length] { s with workers := s.workers ++ [.idle []] }
  | call {s : Crew} {t : Nat} {own : HBank} {i : Instr}
      (ht : s.workers[t]? = some (.idle own)) (hi : i.Allowed s.shared.length) :
      Step A s [] { s with
        workers := s.workers.set t (.busy s.shared.length i (i.attempt A (s.shared ++ own))) }
  | access {s : Crew} {t n : Nat} {i : Instr} {m m' : HM (Seen × HBank)} {h : Heap}
      (ht : s.workers[t]? = some (.busy n i m)) (hm : m.Step s.heap m' h) :
      Step A s [] { s with heap := h, workers := s.workers.set t (.busy n i m') }
  | finish {s : Crew} {t n : Nat} {i : Instr} {r : Res Out} {b : HBank}
      (ht : s.workers[t]? = some (.busy n i (.ret (.returned r, b)))) :
      Step A s [.returned t n i r] { s with workers := s.workers.set t (.idle (b.drop n)) }
  | unwound {s : Crew} {t n : Nat} {i : Instr} {b : HBank}
      (ht : s.workers[t]? = some (.busy n i (.ret (.panicked, b)))) :
      Step A s [.panicked t n i] { s with workers := s.workers.set t (.idle (b.drop n)) }
  | move {s : Crew} {t u x : Nat} {own own' : HBank} {a : HInt} (ne : t ≠ u)
      (ht : s.workers[t]? = some (.idle own)) (hu : s.workers[u]? = some (.idle own'))
      (hx : own[x]? = some a) :
      Step A s [.moved t x u]
        { s with workers := (s.workers.set t (.idle (own.eraseIdx x))).set u (.idle (own' ++ [a])) }
  | share {s : Crew} {t x : Nat} {own : HBank} {a : HInt}
      (ht : s.workers[t]? = some (.idle own)) (hx : own[x]? = some a) :
      Step A s [.shared t x]
        { s with shared := s.shared ++ [a], workers := s.workers.set t (.idle (own.eraseIdx x)) }
  | reclaim {s : Crew} {t x : Nat} {own : HBank} {a : HInt}
      (ht : s.workers[t]? = some (.idle own)) (hx : s.shared[x]? = some a)
      (unused : ∀ n i m, .busy n i m ∈ s.workers → n ≤ x) :
      Step A s [.reclaimed t x]
        { s with shared := s.shared.eraseIdx x, workers := s.workers.set t (.idle (own ++ [a])) }

/-- Any number of steps, with what could be seen of them. Client code, not in `/repo`; that integers
may be shared is `/repo/src/apint/mod.rs:40-46`. -/
inductive Crew.Steps (A : Growth) : Crew → List CEvent → Crew → Prop where
  | none {s : Crew} : Steps A s [] s
  | more {s s' s'' : Crew} {tr tr' : List CEvent} (hs : Steps A s tr s')
      (h : Crew.Step A s' tr' s'') : Steps A s (tr ++ tr') s''

/-- Two threads are about to access the same buffer, and one of them not just to read it. Client
code, not in `/repo`; that integers may be shared is `/repo/src/apint/mod.rs:40-46`. -/
def Crew.Race (s : Crew) : Prop :=
  ∃ (t u n n' : Nat) (i j : Instr) (m m' : HM (Seen × HBank)) (p : Nat) (w w' : Bool), t ≠ u ∧
    s.workers[t]? = some (.busy n i m) ∧ s.workers[u]? = some (.busy n' j m') ∧
    m.next = some (p, w) ∧ m'.next = some (p, w') ∧ (w = true ∨ w' = true)

end Verif
