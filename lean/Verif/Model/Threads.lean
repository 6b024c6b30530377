import Verif.Model.Heap

/-!
# Threads

`/repo/src/apint/mod.rs:40-46` declares `ApInt` to be `Send` and `Sync`: safe code may move
integers to other threads and may use `&ApInt` from several threads at once.  Here several threads
make calls on integers of one heap.  Some integers are lent to all threads (`&ApInt`); every other
integer belongs to one thread.  The borrow checker of Rust is the rule `Instr.Allowed`: a call
takes by `&mut` and drops only integers of its own thread.

A call is not atomic: it is the `HM` program of `Model/Heap.lean`, and between any two of its
accesses to the memory or the allocator the other threads may do anything.  One access is atomic;
`Race` says when that matters.  A panic ends the thread; what unwinding does is the subject of
`Model/HeapUnwind.lean`.
-/

namespace Verif

/-- One access of a computation to the heap, which is shared with others.  An allocation may give
any address that is not live. Not in `/repo` (how the model talks about the heap). -/
inductive HM.Step {α : Type} : HM α → Heap → HM α → Heap → Prop where
  | alloc {cap : Nat} {ds : List Digit} {k : Nat → HM α} {h : Heap} (p : Nat)
      (fresh : p ∉ h.cells.map Prod.fst) :
      Step (.alloc cap ds k) h (k p) ⟨(p, ⟨cap, ds⟩) :: h.cells, h.log ++ [.alloc p cap]⟩
  | get {p : Nat} {k : Block → HM α} {h : Heap} {c : Nat × Block}
      (live : h.cells.find? (fun c => c.1 == p) = some c) : Step (.get p k) h (k c.2) h
  | write {p : Nat} {ds : List Digit} {k : HM α} {h : Heap} {c : Nat × Block}
      (live : h.cells.find? (fun c => c.1 == p) = some c)
      (same : c.2.digits.length = ds.length) :
      Step (.write p ds k) h k
        ⟨h.cells.map (fun c => if c.1 = p then (c.1, ⟨c.2.cap, ds⟩) else c), h.log⟩
  | free {p cap : Nat} {k : HM α} {h : Heap} {c : Nat × Block}
      (live : h.cells.find? (fun c => c.1 == p) = some c) (same : c.2.cap = cap) :
      Step (.free p cap k) h k ⟨h.cells.filter (fun c => c.1 != p), h.log ++ [.free p cap]⟩

/-- What the computation does next is undefined behaviour: an access to an address that is not
live, a write past the end of a buffer, a deallocation with another capacity, or a fault other than
a panic. Not in `/repo` (how the model talks about the heap). -/
def HM.Bad {α : Type} : HM α → Heap → Prop
  | .ret _, _ => False
  | .fault f, _ => f ≠ .panic
  | .alloc _ _ _, _ => False
  | .get p _, h => ∀ b, (p, b) ∉ h.cells
  | .write p ds _, h => ∀ b, (p, b) ∈ h.cells → b.digits.length ≠ ds.length
  | .free p cap _, h => ∀ b, (p, b) ∈ h.cells → b.cap ≠ cap

/-- The address accessed next, and whether the access is more than a read. Not in `/repo` (how the
model talks about the heap). -/
def HM.next {α : Type} : HM α → Option (Nat × Bool)
  | .get p _ => some (p, false)
  | .write p _ _ => some (p, true)
  | .free p _ _ => some (p, true)
  | _ => none

/-- The integers a call takes by `&mut` or consumes, by position.  The methods are those listed at
`Instr`; `clone` and the operators that return a new integer take `&self`. The signatures are those
of the functions cited at `Program.lean`. -/
def Instr.mutates : Instr → List Nat
  | .make _ => []
  | .clone _ => []
  | .drop x => [x]
  | .assign x _ => [x]
  | .strictAssign x _ => [x]
  | .un _ x => [x]
  | .intoUn _ _ => []
  | .alter _ x => [x]
  | .bin _ x _ => [x]
  | .intoBin _ _ _ => []
  | .opAssign _ x _ => [x]
  | .op _ _ _ => []
  | .opShlAssign _ x => [x]
  | .opShl _ _ => []
  | .pair _ x y => [x, y]
  | .ask _ _ => []
  | .ask2 _ _ _ => []

/-- The borrow checker: the first `n` integers are only lent. Client code, not in `/repo`; that
integers may be sent and shared is `/repo/src/apint/mod.rs:40-46`. -/
def Instr.Allowed (i : Instr) (n : Nat) : Prop := ∀ x ∈ i.mutates, n ≤ x

/-- A thread, with the integers it owns while it is not in a call. Client code, not in `/repo`; that
integers may be sent and shared is `/repo/src/apint/mod.rs:40-46`. -/
inductive Thread where
  | idle (own : HBank)
  | busy (i : Instr) (m : HM (Res Out × HBank))
  | panicked

/-- Threads with a common heap and integers lent to all of them. Client code, not in `/repo`; that
integers may be sent and shared is `/repo/src/apint/mod.rs:40-46`. -/
structure System where
  heap : Heap
  lent : HBank
  threads : List Thread

/-- What can be seen from outside, in the order in which it happens. Client code, not in `/repo`;
that integers may be sent and shared is `/repo/src/apint/mod.rs:40-46`. -/
inductive TEvent where
  /-- thread `t` starts with no integer of its own -/
  | spawned (t : Nat)
  /-- call `i` of thread `t` answers `r` -/
  | returned (t : Nat) (i : Instr) (r : Res Out)
  /-- call `i` of thread `t` panics -/
  | panicked (t : Nat) (i : Instr)
  /-- the integer at position `x` of the integers of thread `t` is handed to thread `u`
  (through a channel, a mutex, or by joining) -/
  | moved (t x u : Nat)

/-- One step of one thread. Client code, not in `/repo`; that integers may be sent and shared is
`/repo/src/apint/mod.rs:40-46`. -/
inductive System.Step (A : Growth) : System → List TEvent → System → Prop where
  | spawn {s : System} :
      Step A s [.spawned s.threads.length] { s with threads := s.threads ++ [.idle []] }
  | call {s : System} {t : Nat} {own : HBank} {i : Instr}
      (ht : s.threads[t]? = some (.idle own)) (hi : i.Allowed s.lent.length) :
      Step A s [] { s with threads := s.threads.set t (.busy i (i.hexec A (s.lent ++ own))) }
  | access {s : System} {t : Nat} {i : Instr} {m m' : HM (Res Out × HBank)} {h : Heap}
      (ht : s.threads[t]? = some (.busy i m)) (hm : m.Step s.heap m' h) :
      Step A s [] { s with heap := h, threads := s.threads.set t (.busy i m') }
  | finish {s : System} {t : Nat} {i : Instr} {r : Res Out} {b : HBank}
      (ht : s.threads[t]? = some (.busy i (.ret (r, b)))) :
      Step A s [.returned t i r]
        { s with threads := s.threads.set t (.idle (b.drop s.lent.length)) }
  | panic {s : System} {t : Nat} {i : Instr} (ht : s.threads[t]? = some (.busy i (.fault .panic))) :
      Step A s [.panicked t i] { s with threads := s.threads.set t .panicked }
  | move {s : System} {t u x : Nat} {own own' : HBank} {a : HInt} (ne : t ≠ u)
      (ht : s.threads[t]? = some (.idle own)) (hu : s.threads[u]? = some (.idle own'))
      (hx : own[x]? = some a) :
      Step A s [.moved t x u]
        { s with threads := (s.threads.set t (.idle (own.eraseIdx x))).set u (.idle (own' ++ [a])) }

/-- Any number of steps, with what could be seen of them. Client code, not in `/repo`; that integers
may be sent and shared is `/repo/src/apint/mod.rs:40-46`. -/
inductive System.Steps (A : Growth) : System → List TEvent → System → Prop where
  | none {s : System} : Steps A s [] s
  | more {s s' s'' : System} {tr tr' : List TEvent} (hs : Steps A s tr s')
      (h : System.Step A s' tr' s'') : Steps A s (tr ++ tr') s''

/-- Two threads are about to access the same buffer, and one of them not just to read it. Client
code, not in `/repo`; that integers may be sent and shared is `/repo/src/apint/mod.rs:40-46`. -/
def System.Race (s : System) : Prop :=
  ∃ (t u : Nat) (i j : Instr) (m m' : HM (Res Out × HBank)) (p : Nat) (w w' : Bool), t ≠ u ∧ s.threads[t]? = some (.busy i m) ∧
    s.threads[u]? = some (.busy j m') ∧ m.next = some (p, w) ∧ m'.next = some (p, w') ∧
    (w = true ∨ w' = true)

end Verif
