import Verif.Proof.Sharing
import Verif.Props.Clients
import Verif.Props.Threads

/-!
# Threads that share integers for a while and survive panics (C83)

One thread starts with nothing allocated.  Threads are started, make calls, catch panics, hand
integers to each other, begin to share integers with all threads, and take shared integers for
themselves when no call can be using them; all of this interleaves in any way
(`Model/Sharing.lean`).  What they should see is in `SpecSharing.lean`.
-/

namespace Verif.Props

open ApInt Ex

section

variable [Allocator] {A : Growth} {tr : List CEvent} {s : Crew}

omit [Allocator] in
/-- C83: whatever the other threads do, no thread accesses a buffer that is not live, writes past
the end of a buffer, or frees a buffer with another capacity, in a call that returns, in a call
that panics, or while a panic unwinds; and nothing else than a panic interrupts a call. -/
theorem C83_no_bad_access (hs : Crew.Steps A .start tr s) {t n : Nat} {i : Instr}
    {m : HM (Seen × HBank)} (ht : s.workers[t]? = some (.busy n i m)) :
    ¬ m.Bad s.heap ∧ ∀ f, m ≠ .fault f := by
  obtain ⟨vs, parts, hi, _⟩ := crew_inv A hs
  obtain ⟨F, bs, R, _, ⟨_, _, hr⟩, hsep, _⟩ := crew_part hi ht
  rw [cellsOf_take hi.mat n, List.append_assoc] at hsep
  refine ⟨hr.not_bad hsep, ?_⟩
  rintro f rfl
  obtain ⟨_, _, _, hg, _⟩ := hr
  exact hg.fault.2

omit [Allocator] in
/-- C83: no data race.  At no point of any run two threads are about to access the same buffer
unless both only read it. -/
theorem C83_no_race (hs : Crew.Steps A .start tr s) : ¬ s.Race := by
  obtain ⟨vs, parts, hi, _⟩ := crew_inv A hs
  have key : ∀ {t u n n' : Nat} {i j : Instr} {m m' : HM (Seen × HBank)} {p : Nat} {w : Bool},
      t ≠ u → s.workers[t]? = some (.busy n i m) → s.workers[u]? = some (.busy n' j m') →
      m.next = some (p, true) → m'.next = some (p, w) → False := by
    intro t u n n' i j m m' p w hne ht hu e e'
    obtain ⟨F, bs, R, hq, ⟨_, _, hr⟩, hsep, _, hR⟩ := crew_part hi ht
    obtain ⟨F', bs', R', hq', ⟨_, _, hr'⟩, _⟩ := crew_part hi hu
    have hn := hsep.nodup'
    rw [List.map_append, List.nodup_append] at hn
    rcases hr.next e with ⟨b, hb⟩ | ⟨hw, _⟩
    · have : ∃ b', (p, b') ∈ cellsOf s.shared vs ++ R := by
        rcases hr'.next e' with ⟨b', hb'⟩ | ⟨_, b', hb'⟩
        · exact ⟨b', List.mem_append_right _ (hR u _ (Ne.symm hne) hq' _ hb')⟩
        · refine ⟨b', List.mem_append_left _ ?_⟩
          rw [cellsOf_take hi.mat n']
          exact List.mem_append_left _ hb'
      obtain ⟨b', hb'⟩ := this
      exact hn.2.2 p (List.mem_map.mpr ⟨_, hb, rfl⟩) p (List.mem_map.mpr ⟨_, hb', rfl⟩) rfl
    · cases hw
  rintro ⟨t, u, n, n', i, j, m, m', p, w, w', hne, ht, hu, e, e', hw | hw⟩
  · subst hw; exact key hne ht hu e e'
  · subst hw; exact key (Ne.symm hne) hu ht e' e

/-- C83: a shared integer does not change: no step of any thread, not even one in the middle of a
call, changes the value of an integer that is shared before the step. -/
theorem C83_shared_unchanged (hs : Crew.Steps A .start tr s) {tr' : List CEvent} {s' : Crew}
    (h : Crew.Step A s tr' s') : ∃ vs, Reads s.heap s.shared vs ∧ Reads s'.heap s.shared vs := by
  obtain ⟨vs, parts, hi, _⟩ := crew_inv A hs
  obtain ⟨vs', parts', hi', hc, _⟩ := crew_step A hi h
  exact ⟨vs, reads_of hi.mat hi.wf hi.sep fun c hc => List.mem_append_left _ hc,
    reads_of hi.mat hi.wf hi'.sep hc⟩

omit [Allocator] in
/-- C83: at any point of any run every buffer was freed at most once, after it was allocated and
with the capacity it was allocated with. -/
theorem C83_freed_once (hs : Crew.Steps A .start tr s) : NoMisuse s.heap.log := by
  obtain ⟨vs, parts, hi, _⟩ := crew_inv A hs
  exact noMisuse_of_sep hi.sep

/-- The integers of all threads that are not in a call. -/
def Crew.owned (s : Crew) : HBank :=
  s.workers.flatMap fun t => match t with
    | .idle own => own
    | _ => []

omit [Allocator] in
theorem crew_rep {vs : Bank} {parts : List (List (Nat × Block) × Bank)}
    (hi : CInv s vs parts) (hidle : ∀ w ∈ s.workers, ∃ own, w = .idle own) :
    ∃ bs, Rep s.heap (s.shared ++ Crew.owned s) (vs ++ bs) ∧ ∀ a ∈ vs ++ bs, a.WF := by
  have key : ∀ {ws : List Worker} {parts : List (List (Nat × Block) × Bank)},
      List.Forall₂ (WInv s.shared vs) ws parts → (∀ t ∈ ws, ∃ own, t = .idle own) →
      ∃ bs, List.Forall₂ Match (Crew.owned ⟨s.heap, s.shared, ws⟩) bs ∧ (∀ a ∈ bs, a.WF) ∧
        (cbuffers parts).Perm (cellsOf (Crew.owned ⟨s.heap, s.shared, ws⟩) bs) := by
    intro ws parts hf hid
    induction hf with
    | nil => exact ⟨[], .nil, by simp, .refl _⟩
    | @cons w q ws parts h1 _ ih =>
      obtain ⟨bs, m1, w1, p1⟩ := ih fun t ht => hid t (List.mem_cons_of_mem _ ht)
      obtain ⟨own, rfl⟩ := hid w List.mem_cons_self
      obtain ⟨F, as⟩ := q
      obtain ⟨m2, w2, p2⟩ := h1
      refine ⟨as ++ bs, forall₂_append m2 m1, ?_, ?_⟩
      · exact fun a ha => (List.mem_append.mp ha).elim (w2 a) (w1 a)
      · show (F ++ cbuffers parts).Perm (cellsOf (own ++ Crew.owned ⟨s.heap, s.shared, ws⟩) _)
        rw [cellsOf_append m2]
        exact p2.append p1
  obtain ⟨bs, m1, w1, p1⟩ := key hi.workers hidle
  refine ⟨bs, ⟨forall₂_append hi.mat m1, ?_⟩,
    fun a ha => (List.mem_append.mp ha).elim (hi.wf a) (w1 a)⟩
  rw [cellsOf_append hi.mat]
  exact hi.sep.reorder (p1.append_left _)

/-- C83: nothing leaks, whatever panicked.  Whenever no thread is in a call the live buffers are
exactly those of the integers that are shared or owned by a thread, each allocated for exactly the
digits of its integer, and dropping those integers frees all that was ever allocated, exactly once
and with its capacity. -/
theorem C83_live (hs : Crew.Steps A .start tr s) (hidle : ∀ w ∈ s.workers, ∃ own, w = .idle own) :
    (∀ p cap, LiveAt s.heap.log p cap ↔
      ∃ x ∈ s.shared ++ Crew.owned s, x.data = .ext p ∧ cap = (x.len.toUsize + 63) / 64) ∧
    ∃ h', dropAll (s.shared ++ Crew.owned s) s.heap = .ok ((), h') ∧ h'.cells = [] ∧
      AllFreed h'.log := by
  obtain ⟨vs, parts, hi, _⟩ := crew_inv A hs
  obtain ⟨bs, hrep, hwf⟩ := crew_rep hi hidle
  refine ⟨fun p cap => ?_, ?_⟩
  · rw [live_iff_cell hrep.sep, mem_cellsOf hrep.mat hwf]
  · obtain ⟨h', e, hc, ht⟩ := dropAll_ok hrep hwf
    refine ⟨h', e, hc, fun p => ?_⟩
    obtain ⟨l, hl, he⟩ := ht p
    rw [he, hc]
    simpa using hl

/-- C83: calls are atomic for their users.  All that the threads see of any run, with the calls in
the order in which they return or panic, is a run of the abstract machine in which every call
happens at once; and at any point the integers that are shared, and those of the threads that are
not in a call, are the numbers of that machine. -/
theorem C83_atomic (hs : Crew.Steps A .start tr s) :
    ∃ a vs, ACrew.Steps .start tr a ∧ Reads s.heap s.shared vs ∧ a.shared = vs.map ApInt.abs ∧
      a.own.length = s.workers.length ∧
      ∀ (t : Nat) own, s.workers[t]? = some (.idle own) → ∃ bs, Reads s.heap own bs ∧
        a.own[t]? = some (bs.map ApInt.abs) := by
  obtain ⟨vs, parts, hi, ha⟩ := crew_inv A hs
  refine ⟨absCrew vs parts, vs, ha, ?_, rfl, ?_, ?_⟩
  · exact reads_of hi.mat hi.wf hi.sep fun c hc => List.mem_append_left _ hc
  · rw [hi.workers.length_eq]; simp [absCrew]
  · intro t own ht
    obtain ⟨F, bs, R, hq, ⟨h1, h2, h3⟩, hsep, _⟩ := crew_part hi ht
    refine ⟨bs, reads_of h1 h2 hsep fun c hc => ?_, crew_get hq⟩
    exact List.mem_append_left _ (h3.mem_iff.mpr hc)

/-- A thread in a call is never blocked. -/
theorem crew_progress (hs : Crew.Steps A .start tr s) {t n : Nat} {i : Instr}
    {m : HM (Seen × HBank)} (ht : s.workers[t]? = some (.busy n i m)) :
    (∃ m' h', m.Step s.heap m' h') ∨ ∃ r b, m = .ret (r, b) := by
  obtain ⟨hb, hf⟩ := C83_no_bad_access hs ht
  obtain ⟨vs, parts, hi, _⟩ := crew_inv A hs
  have live : ∀ {p : Nat} {b : Block}, (p, b) ∈ s.heap.cells →
      s.heap.cells.find? (fun c => c.1 == p) = some (p, b) := fun h => find_of_mem hi.sep.nodup h
  cases m with
  | ret v => exact .inr ⟨v.1, v.2, rfl⟩
  | fault f => exact absurd rfl (hf f)
  | alloc cap ds k => exact .inl ⟨_, _, .alloc _ (Allocator.fresh s.heap)⟩
  | get p k =>
    simp only [HM.Bad, not_forall, not_not] at hb
    obtain ⟨b, hb⟩ := hb
    exact .inl ⟨_, _, .get (live hb)⟩
  | write p ds k =>
    simp only [HM.Bad, not_forall, not_not] at hb
    obtain ⟨b, hb, he⟩ := hb
    exact .inl ⟨_, _, .write (live hb) he⟩
  | free p cap k =>
    simp only [HM.Bad, not_forall, not_not] at hb
    obtain ⟨b, hb, he⟩ := hb
    exact .inl ⟨_, _, .free (live hb) he⟩

omit [Allocator] in
theorem crew_trans {s0 s1 s2 : Crew} {tr : List CEvent} (h : Crew.Step A s0 [] s1)
    (h' : Crew.Steps A s1 tr s2) : Crew.Steps A s0 tr s2 := by
  induction h' with
  | none => exact .more (tr := []) .none h
  | more _ h2 ih => exact .more ih h2

/-- The thread can end its call from here. -/
def Crew.CanEnd (A : Growth) (s : Crew) (t n : Nat) (i : Instr) : Prop :=
  ∃ (e : CEvent) (s' : Crew) (own : HBank), Crew.Steps A s [e] s' ∧
    ((∃ r, e = .returned t n i r) ∨ e = .panicked t n i) ∧
    s'.shared = s.shared ∧ s'.workers = s.workers.set t (.idle own)

omit [Allocator] in
theorem canEnd_access (hs : Crew.Steps A .start tr s) {t n : Nat} {i : Instr}
    {m m' : HM (Seen × HBank)} {h' : Heap} (ht : s.workers[t]? = some (.busy n i m))
    (hm : m.Step s.heap m' h')
    (ih : ∀ {tr : List CEvent} {s : Crew}, Crew.Steps A .start tr s →
      s.workers[t]? = some (.busy n i m') → Crew.CanEnd A s t n i) : Crew.CanEnd A s t n i := by
  have h1 := Crew.Step.access (A := A) ht hm
  obtain ⟨e, s', own, k1, k2, k3, k4⟩ := ih (.more hs h1)
    (List.getElem?_set_self (List.getElem?_eq_some_iff.mp ht).1)
  exact ⟨e, s', own, crew_trans h1 k1, k2, k3, k4.trans (List.set_set _)⟩

/-- C83: at any point a thread in a call can go on and reach the end of its call while the other
threads stay where they are, and ends it by returning or by panicking. -/
theorem C83_completes (hs : Crew.Steps A .start tr s) {t n : Nat} {i : Instr}
    {m : HM (Seen × HBank)} (ht : s.workers[t]? = some (.busy n i m)) :
    ∃ (e : CEvent) (s' : Crew) (own : HBank), Crew.Steps A s [e] s' ∧
      ((∃ r, e = .returned t n i r) ∨ e = .panicked t n i) ∧
      s'.shared = s.shared ∧ s'.workers = s.workers.set t (.idle own) := by
  show Crew.CanEnd A s t n i
  induction m generalizing tr s with
  | ret v =>
    obtain ⟨r, b⟩ := v
    cases r with
    | returned r =>
      exact ⟨_, _, _, .more (tr := []) .none (.finish ht), .inl ⟨r, rfl⟩, rfl, rfl⟩
    | panicked => exact ⟨_, _, _, .more (tr := []) .none (.unwound ht), .inr rfl, rfl, rfl⟩
  | fault f => exact absurd rfl ((C83_no_bad_access hs ht).2 f)
  | alloc cap ds k ih =>
    rcases crew_progress hs ht with ⟨m', h', hm⟩ | ⟨_, _, h⟩
    · cases hm with
      | alloc p hp => exact canEnd_access hs ht (.alloc p hp) fun h1 h2 => ih p h1 h2
    · cases h
  | get p k ih =>
    rcases crew_progress hs ht with ⟨m', h', hm⟩ | ⟨_, _, h⟩
    · cases hm with
      | get live => exact canEnd_access hs ht (.get live) fun h1 h2 => ih _ h1 h2
    · cases h
  | write p ds k ih =>
    rcases crew_progress hs ht with ⟨m', h', hm⟩ | ⟨_, _, h⟩
    · cases hm with
      | write live len => exact canEnd_access hs ht (.write live len) fun h1 h2 => ih h1 h2
    · cases h
  | free p cap k ih =>
    rcases crew_progress hs ht with ⟨m', h', hm⟩ | ⟨_, _, h⟩
    · cases hm with
      | free live len => exact canEnd_access hs ht (.free live len) fun h1 h2 => ih h1 h2
    · cases h

/-- C83: a call of a thread that is left alone is the caught call of a program without threads
(`Instr.hcaught`, C64): same answer or panic, same pointers, same heap. -/
theorem C83_alone {b : HBank} {h : Heap} (hr : HReachable A b h) (i : Instr) :
    i.attempt A b h = i.hcaught A b h := by
  obtain ⟨bs, h1, h2⟩ := hreachable_rep hr
  exact attempt_alone A i h2 (reachable_wf h1)

end

/-! ## A scheduler and a run -/

/-- What a scheduler lets happen next. -/
inductive CrewCmd where
  | spawn
  | call (t : Nat) (i : Instr)
  /-- the next access of thread `t`, or the end of its call -/
  | go (t : Nat)
  | move (t x u : Nat)
  | share (t x : Nat)
  | reclaim (t x : Nat)

/-- The calls in progress began when at most `x` integers were shared. -/
def Crew.unused (s : Crew) (x : Nat) : Bool :=
  s.workers.all fun w => match w with
    | .idle _ => true
    | .busy n _ _ => n ≤ x

/-- Do it, if it is possible. -/
def Crew.cmd [Allocator] (A : Growth) (s : Crew) : CrewCmd → Option (List CEvent × Crew)
  | .spawn => some ([.spawned s.workers.length], { s with workers := s.workers ++ [.idle []] })
  | .call t i =>
    match s.workers[t]? with
    | some (.idle own) =>
      if i.Allowed s.shared.length then
        some ([], { s with
          workers := s.workers.set t (.busy s.shared.length i (i.attempt A (s.shared ++ own))) })
      else none
    | _ => none
  | .go t =>
    match s.workers[t]? with
    | some (.busy n i m) =>
      match m with
      | .ret (.returned r, b) => some ([.returned t n i r],
          { s with workers := s.workers.set t (.idle (b.drop n)) })
      | .ret (.panicked, b) => some ([.panicked t n i],
          { s with workers := s.workers.set t (.idle (b.drop n)) })
      | .fault _ => none
      | .alloc cap ds k => some ([], { s with
          heap := ⟨(Allocator.pick s.heap, ⟨cap, ds⟩) :: s.heap.cells,
            s.heap.log ++ [.alloc (Allocator.pick s.heap) cap]⟩
          workers := s.workers.set t (.busy n i (k (Allocator.pick s.heap))) })
      | .get p k =>
        match s.heap.cells.find? (fun c => c.1 == p) with
        | some c => some ([], { s with workers := s.workers.set t (.busy n i (k c.2)) })
        | none => none
      | .write p ds k =>
        match s.heap.cells.find? (fun c => c.1 == p) with
        | some c =>
          if c.2.digits.length = ds.length then
            some ([], { s with
              heap := ⟨s.heap.cells.map (fun c => if c.1 = p then (c.1, ⟨c.2.cap, ds⟩) else c),
                s.heap.log⟩
              workers := s.workers.set t (.busy n i k) })
          else none
        | none => none
      | .free p cap k =>
        match s.heap.cells.find? (fun c => c.1 == p) with
        | some c =>
          if c.2.cap = cap then
            some ([], { s with
              heap := ⟨s.heap.cells.filter (fun c => c.1 != p), s.heap.log ++ [.free p cap]⟩
              workers := s.workers.set t (.busy n i k) })
          else none
        | none => none
    | _ => none
  | .move t x u =>
    match s.workers[t]?, s.workers[u]? with
    | some (.idle own), some (.idle own') =>
      match own[x]? with
      | some a =>
        if t = u then none
        else some ([.moved t x u], { s with
          workers := (s.workers.set t (.idle (own.eraseIdx x))).set u (.idle (own' ++ [a])) })
      | none => none
    | _, _ => none
  | .share t x =>
    match s.workers[t]? with
    | some (.idle own) =>
      match own[x]? with
      | some a => some ([.shared t x], { s with
          shared := s.shared ++ [a], workers := s.workers.set t (.idle (own.eraseIdx x)) })
      | none => none
    | _ => none
  | .reclaim t x =>
    match s.workers[t]? with
    | some (.idle own) =>
      match s.shared[x]? with
      | some a =>
        if Crew.unused s x then some ([.reclaimed t x], { s with
          shared := s.shared.eraseIdx x, workers := s.workers.set t (.idle (own ++ [a])) })
        else none
      | none => none
    | _ => none

theorem crewCmd_step [Allocator] {A : Growth} {s s' : Crew} {c : CrewCmd} {tr : List CEvent}
    (e : Crew.cmd A s c = some (tr, s')) : Crew.Step A s tr s' := by
  cases c with
  | spawn => cases e; exact .spawn
  | call t i =>
    simp only [Crew.cmd] at e
    split at e
    · rename_i ht
      split at e
      · rename_i hi; cases e; exact .call ht hi
      · cases e
    · cases e
  | go t =>
    simp only [Crew.cmd] at e
    split at e
    · rename_i i m ht
      split at e
      · cases e; exact .finish ht
      · cases e; exact .unwound ht
      · cases e
      · cases e; exact .access ht (.alloc _ (Allocator.fresh _))
      · split at e
        · rename_i h1; cases e; exact .access ht (.get h1)
        · cases e
      · split at e
        · rename_i h1
          split at e
          · rename_i h2; cases e; exact .access ht (.write h1 h2)
          · cases e
        · cases e
      · split at e
        · rename_i h1
          split at e
          · rename_i h2; cases e; exact .access ht (.free h1 h2)
          · cases e
        · cases e
    · cases e
  | move t x u =>
    simp only [Crew.cmd] at e
    split at e
    · rename_i ht hu
      split at e
      · rename_i hx
        split at e
        · cases e
        · rename_i ne; cases e; exact .move ne ht hu hx
      · cases e
    · cases e
  | share t x =>
    simp only [Crew.cmd] at e
    split at e
    · rename_i ht
      split at e
      · rename_i hx; cases e; exact .share ht hx
      · cases e
    · cases e
  | reclaim t x =>
    simp only [Crew.cmd] at e
    split at e
    · rename_i ht
      split at e
      · rename_i hx
        split at e
        · rename_i hu
          cases e
          refine .reclaim ht hx ?_
          intro n i m hm
          have := List.all_eq_true.mp hu _ hm
          simpa using this
        · cases e
      · cases e
    · cases e

/-- Several commands. -/
def Crew.cmds [Allocator] (A : Growth) : List CrewCmd → Crew → Option (List CEvent × Crew)
  | [], s => some ([], s)
  | c :: cs, s =>
    match Crew.cmd A s c with
    | some (tr, s) =>
      match Crew.cmds A cs s with
      | some (tr', s) => some (tr ++ tr', s)
      | none => none
    | none => none

theorem crewCmds_steps [Allocator] {A : Growth} {cs : List CrewCmd} {s0 s s' : Crew}
    {tr0 tr : List CEvent} (h : Crew.Steps A s0 tr0 s) (e : Crew.cmds A cs s = some (tr, s')) :
    Crew.Steps A s0 (tr0 ++ tr) s' := by
  induction cs generalizing s tr0 tr with
  | nil => cases e; rw [List.append_nil]; exact h
  | cons c cs ih =>
    simp only [Crew.cmds] at e
    split at e
    · rename_i tr1 s1 h1
      split at e
      · rename_i tr2 s2 h2
        cases e
        rw [← List.append_assoc]
        exact ih (.more h (crewCmd_step h1)) h2
      · cases e
    · cases e

/-- The answers in a trace, with their threads. -/
def crewAnswers : List CEvent → List (Nat × Option (Except AErr Out))
  | [] => []
  | .returned t _ _ r :: tr => (t, some (absRes r)) :: crewAnswers tr
  | .panicked t _ _ :: tr => (t, none) :: crewAnswers tr
  | _ :: tr => crewAnswers tr

attribute [local instance] reusing

/-- Let thread `t` go on `k` times. -/
def goes (t k : Nat) : List CrewCmd := List.replicate k (.go t)

/-- Thread 0 makes a 200-bit and a 150-bit integer, starts thread 1 and shares the 200-bit integer.
Thread 1 clones it; in the middle of that thread 0 shares the 150-bit integer as well.  Then thread
1 adds its clone to the 150-bit integer with `+`, which clones it once more, panics because of the
widths and drops the clone, while thread 0 counts the ones of the shared 200-bit integer.  At the
end thread 0 takes the 200-bit integer back and flips its bits, and thread 1 drops its clone. -/
def shareSchedule : List CrewCmd :=
  [.call 0 (.make (.allSet (bw 200)))] ++ goes 0 7 ++
  [.call 0 (.make (.signedMin (bw 150)))] ++ goes 0 10 ++
  [.spawn, .share 0 0, .call 1 (.clone 0), .go 1, .share 0 0] ++ goes 1 5 ++
  [.call 1 (.op .add 2 1), .go 1, .go 1, .call 0 (.ask .countOnes 0)] ++ goes 1 4 ++ goes 0 2 ++
  goes 1 3 ++ goes 0 2 ++
  [.reclaim 0 0, .call 0 (.alter .flipAll 1)] ++ goes 0 5 ++
  [.call 1 (.drop 1)] ++ goes 1 4

/-- A run with a given view. -/
theorem crew_of_view {cs : List CrewCmd} {α : Type} {f : List CEvent × Crew → α} {v : α}
    (e : (Crew.cmds twice cs .start).map f = some v) :
    ∃ tr s, Crew.Steps twice .start tr s ∧ f (tr, s) = v := by
  cases hh : Crew.cmds twice cs .start with
  | none => rw [hh] at e; cases e
  | some r =>
    rw [hh] at e
    exact ⟨r.1, r.2, crewCmds_steps (tr0 := []) .none hh, Option.some.inj e⟩

/-- The answers, the requests to the allocator, the integers, and whether all calls have ended. -/
def crewView (r : List CEvent × Crew) :
    List (Nat × Option (Except AErr Out)) × List Event × HBank × HBank × Bool :=
  (crewAnswers r.1, r.2.heap.log, r.2.shared, Crew.owned r.2, r.2.workers.all fun w => match w with
    | .idle _ => true
    | _ => false)

theorem shareSchedule_end : (Crew.cmds twice shareSchedule .start).map crewView = some
    ([(0, some (.ok .unit)), (0, some (.ok .unit)), (1, some (.ok .unit)), (1, none),
        (0, some (.ok (.nat 200))), (0, some (.ok .unit)), (1, some (.ok .unit))],
      [.alloc 0 8, .free 0 8, .alloc 0 4, .alloc 1 6, .free 1 6, .alloc 1 3, .alloc 2 8, .free 2 8,
        .alloc 2 4, .alloc 3 8, .free 3 8, .alloc 3 4, .free 3 4, .free 2 4],
      [⟨bw 150, .ext 1⟩], [⟨bw 200, .ext 0⟩], true) := by
  rfl

-- The hypotheses of the theorems hold for a run with interleaved calls, a panic, and integers that
-- are shared and taken back, and the theorems say what the threads saw.
example : ∃ tr s a, Crew.Steps twice .start tr s ∧ NoMisuse s.heap.log ∧ ¬ s.Race ∧
    crewAnswers tr = [(0, some (.ok .unit)), (0, some (.ok .unit)), (1, some (.ok .unit)), (1, none),
      (0, some (.ok (.nat 200))), (0, some (.ok .unit)), (1, some (.ok .unit))] ∧
    ACrew.Steps .start tr a ∧ a.own.length = 2 ∧
    LiveAt s.heap.log 0 4 ∧ LiveAt s.heap.log 1 3 ∧ (∀ cap, ¬ LiveAt s.heap.log 2 cap) ∧
    ∀ cap, ¬ LiveAt s.heap.log 3 cap := by
  obtain ⟨tr, s, hs, hv⟩ := crew_of_view (f := fun r => (crewView r, r.2.workers.length)) (by
    have h1 := shareSchedule_end
    have h2 : (Crew.cmds twice shareSchedule .start).map (fun r => r.2.workers.length) = some 2 := by
      rfl
    cases hh : Crew.cmds twice shareSchedule .start with
    | none => rw [hh] at h1; cases h1
    | some r =>
      rw [hh] at h1 h2
      simp only [Option.map_some, Option.some.injEq] at h1 h2 ⊢
      rw [h1, h2])
  simp only [crewView, Prod.mk.injEq] at hv
  obtain ⟨⟨v1, v2, v3, v4, v5⟩, v6⟩ := hv
  obtain ⟨a, vs, h1, _, _, h2, _⟩ := C83_atomic hs
  have hidle : ∀ w ∈ s.workers, ∃ own, w = .idle own := by
    simp only [List.all_eq_true] at v5
    intro w hw
    have := v5 w hw
    cases w with
    | idle own => exact ⟨own, rfl⟩
    | busy => cases this
  obtain ⟨hlive, _⟩ := C83_live hs hidle
  rw [v3, v4] at hlive
  refine ⟨tr, s, a, hs, C83_freed_once hs, C83_no_race hs, v1, h1, h2.trans v6,
    (hlive 0 4).mpr ⟨⟨bw 200, .ext 0⟩, by simp, rfl, rfl⟩,
    (hlive 1 3).mpr ⟨⟨bw 150, .ext 1⟩, by simp, rfl, rfl⟩, fun cap => ?_, fun cap => ?_⟩ <;>
  · rw [hlive]
    simp

-- In the middle of that run both threads are in a call: thread 1 is about to allocate the clone
-- that its panic will drop, thread 0 is about to read the integer that was shared last.
example : ((Crew.cmds twice (shareSchedule.take 38) .start).map fun r => r.2.workers.map fun w =>
    match w with
      | .busy n _ (.get p _) => (n, some p)
      | .busy n _ _ => (n, none)
      | .idle _ => (0, none)) = some [(2, some 1), (2, none)] := by
  decide +kernel

-- A shared integer that a call may be using cannot be taken, and a shared one cannot be changed.
example : ((Crew.cmds twice (shareSchedule.take 31 ++ [.reclaim 0 1]) .start).isNone ∧
    (Crew.cmds twice (shareSchedule.take 44 ++ [.reclaim 0 1]) .start).isSome ∧
    (Crew.cmds twice (shareSchedule.take 44 ++ [.call 0 (.alter .flipAll 1)]) .start).isNone) := by
  decide +kernel

-- A step to which `C83_shared_unchanged` applies: the write of thread 0 to the integer it has taken
-- back, while the 150-bit integer is still shared.
example : ∃ tr s tr' s', Crew.Steps twice .start tr s ∧ Crew.Step twice s tr' s' ∧
    s.heap ≠ s'.heap ∧ s.shared = [⟨bw 150, .ext 1⟩] ∧
    ∃ vs, Reads s.heap s.shared vs ∧ Reads s'.heap s.shared vs := by
  obtain ⟨tr, s, hs, hv⟩ := crew_of_view (cs := shareSchedule.take 49)
    (f := fun r => (r.2.shared, (Crew.cmd twice r.2 (.go 0)).map fun q =>
      decide (r.2.heap = q.2.heap))) (v := ([⟨bw 150, .ext 1⟩], some false)) (by rfl)
  simp only [Prod.mk.injEq] at hv
  obtain ⟨v1, v2⟩ := hv
  cases hc : Crew.cmd twice s (.go 0) with
  | none => rw [hc] at v2; cases v2
  | some q =>
    rw [hc] at v2
    simp only [Option.map_some, Option.some.injEq, decide_eq_false_iff_not] at v2
    have hstep := crewCmd_step (tr := q.1) (s' := q.2) hc
    exact ⟨tr, s, q.1, q.2, hs, hstep, v2, v1, C83_shared_unchanged hs hstep⟩

/-- Thread 1 is about to allocate in a call that began with so many shared integers. -/
def Crew.allocating (s : Crew) : Option Nat :=
  match s.workers[(1 : Nat)]? with
  | some (.busy n _ (.alloc _ _ _)) => some n
  | _ => none

-- From the middle of that run thread 1 can go on to the end of its call.
example : ∃ tr s, Crew.Steps twice .start tr s ∧ (∃ i m, s.workers[1]? = some (.busy 2 i m) ∧
    (∃ cap ds k, m = .alloc cap ds k) ∧ ∃ (e : CEvent) (s' : Crew) (own : HBank),
      Crew.Steps twice s [e] s' ∧ ((∃ r, e = .returned 1 2 i r) ∨ e = .panicked 1 2 i) ∧
      s'.shared = s.shared ∧ s'.workers = s.workers.set 1 (.idle own)) := by
  obtain ⟨tr, s, hs, hv⟩ := crew_of_view (cs := shareSchedule.take 38)
    (f := fun r => Crew.allocating r.2) (v := some 2) (by rfl)
  refine ⟨tr, s, hs, ?_⟩
  simp only [Crew.allocating] at hv
  split at hv
  · rename_i n i cap ds k e
    cases hv
    exact ⟨i, _, e, ⟨cap, ds, k, rfl⟩, C83_completes hs e⟩
  · cases hv

-- Alone, a call that panics: same as without threads.
example : ∃ h, HReachable twice [⟨bw 200, .ext 0⟩, ⟨bw 150, .ext 1⟩] h ∧
    (match (Instr.op .add 0 1).attempt twice [⟨bw 200, .ext 0⟩, ⟨bw 150, .ext 1⟩] h with
      | .ok ((.panicked, b), h') => b = [⟨bw 200, .ext 0⟩, ⟨bw 150, .ext 1⟩] ∧ h'.cells = h.cells
      | _ => False) := by
  obtain ⟨h, hr, hc, hl⟩ := lendProgram_end
  have hr : HReachable twice [⟨bw 200, .ext 0⟩, ⟨bw 150, .ext 1⟩] h := hr
  refine ⟨h, hr, ?_⟩
  rw [C83_alone hr]
  obtain ⟨c, l⟩ := h
  subst hc hl
  exact ⟨rfl, rfl⟩

end Verif.Props
