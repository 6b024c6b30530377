import Verif.Proof.Threads
import Verif.Props.Heap

/-!
# Sending and sharing integers between threads (C65, C66)

A program makes integers and keeps some of them to itself and lends others; then threads are
started, which make calls on the lent integers and on their own, hand integers to each other, and
interleave in any way (`Model/Threads.lean`).  What they should see is in `SpecThreads.lean`.
-/

namespace Verif.Props

open ApInt Ex

/-- The values of integers, read through their pointers. -/
def Reads [Allocator] (h : Heap) (b : HBank) (bs : Bank) : Prop :=
  List.Forall₂ (fun x a => x.load h = .ok (a, h)) b bs

section

variable [Allocator] {A : Growth} {h : Heap} {lent own : HBank} {tr : List TEvent} {s : System}

theorem reads_of {G : Heap} {K : List (Nat × Block)} {xs : HBank} {bs : Bank}
    (hm : List.Forall₂ Match xs bs) (hb : ∀ a ∈ bs, a.WF) (hG : Sep G K)
    (hc : ∀ c ∈ cellsOf xs bs, c ∈ K) : Reads G xs bs := by
  induction hm with
  | nil => exact .nil
  | @cons x a xs bs h _ ih =>
    rw [cellsOf_cons] at hc
    refine .cons (Sees.load ⟨(hb a List.mem_cons_self).1, h, K, hG, fun c h' => hc c
      (List.mem_append_left _ h')⟩) ?_
    exact ih (fun a ha => hb a (List.mem_cons_of_mem _ ha)) fun c h' => hc c
      (List.mem_append_right _ h')

theorem start_inv (hr : HReachable A (lent ++ own) h) :
    ∃ vs ws, SInv ⟨h, lent, [.idle own]⟩ vs [(cellsOf own ws, some ws)] ∧ Reads h lent vs ∧
      Reads h own ws := by
  obtain ⟨bs, h1, h2⟩ := hreachable_rep hr
  have hwf := reachable_wf h1
  obtain ⟨vs, ws, rfl, m1, m2⟩ := match_append h2.mat
  have hv : ∀ a ∈ vs, a.WF := fun a ha => hwf a (List.mem_append_left _ ha)
  have hw : ∀ a ∈ ws, a.WF := fun a ha => hwf a (List.mem_append_right _ ha)
  have hs := h2.sep
  rw [cellsOf_append m1] at hs
  refine ⟨vs, ws, ⟨m1, hv, .cons ⟨m2, hw, .refl _⟩ .nil, ?_⟩, ?_, ?_⟩
  · simpa [buffers] using hs
  · exact reads_of m1 hv hs fun c hc => List.mem_append_left _ hc
  · exact reads_of m2 hw hs fun c hc => List.mem_append_right _ hc

/-- The invariant at any point of any run. -/
theorem threads_inv (hr : HReachable A (lent ++ own) h)
    (hs : System.Steps A ⟨h, lent, [.idle own]⟩ tr s) :
    ∃ vs ws parts, SInv s vs parts ∧ s.lent = lent ∧ Reads h lent vs ∧ Reads h own ws ∧
      ASystem.Steps ⟨vs.map ApInt.abs, [some (ws.map ApInt.abs)]⟩ tr (absSys vs parts) := by
  obtain ⟨vs, ws, h1, h2, h3⟩ := start_inv hr
  obtain ⟨parts, h4, h5, h6⟩ := steps_inv A h1 hs
  exact ⟨vs, ws, parts, h4, h5, h2, h3, h6⟩

omit [Allocator] in
theorem thread_part {vs : Bank} {parts : List (List (Nat × Block) × Option Bank)}
    (hi : SInv s vs parts) {t : Nat} {th : Thread} (ht : s.threads[t]? = some th) :
    ∃ F o R, parts[t]? = some (F, o) ∧ TInv s.lent vs th (F, o) ∧
      Sep s.heap (F ++ (cellsOf s.lent vs ++ R)) ∧
      ∀ u q, u ≠ t → parts[u]? = some q → ∀ c ∈ q.1, c ∈ R := by
  obtain ⟨⟨F, o⟩, hq, hinv⟩ := rel_get hi.threads ht
  obtain ⟨R, hR, hR'⟩ := buffers_focus hq
  have hb := hR (F, o)
  rw [set_get hq] at hb
  exact ⟨F, o, R, hq, hinv, hi.sep.reorder ((hb.append_left _).trans (perm_mid _ _ _)), hR'⟩

/-- C65: whatever the other threads do, no thread accesses a buffer that is not live, writes past
the end of a buffer, or frees a buffer with a capacity other than the one it was allocated with. -/
theorem C65_no_bad_access (hr : HReachable A (lent ++ own) h)
    (hs : System.Steps A ⟨h, lent, [.idle own]⟩ tr s) {t : Nat} {i : Instr}
    {m : HM (Res Out × HBank)} (ht : s.threads[t]? = some (.busy i m)) : ¬ m.Bad s.heap := by
  obtain ⟨vs, ws, parts, hi, _⟩ := threads_inv hr hs
  obtain ⟨F, o, R, _, hinv, hsep, _⟩ := thread_part hi ht
  cases o with
  | none => exact hinv.elim
  | some bs => exact hinv.2.not_bad hsep

/-- C65: no data race.  At no point of any run two threads are about to access the same buffer
unless both only read it. -/
theorem C65_no_race (hr : HReachable A (lent ++ own) h)
    (hs : System.Steps A ⟨h, lent, [.idle own]⟩ tr s) : ¬ s.Race := by
  obtain ⟨vs, ws, parts, hi, _⟩ := threads_inv hr hs
  have key : ∀ {t u : Nat} {i j : Instr} {m m' : HM (Res Out × HBank)} {p : Nat} {w : Bool},
      t ≠ u → s.threads[t]? = some (.busy i m) → s.threads[u]? = some (.busy j m') →
      m.next = some (p, true) → m'.next = some (p, w) → False := by
    intro t u i j m m' p w hne ht hu e e'
    obtain ⟨F, o, R, hq, hinv, hsep, hR⟩ := thread_part hi ht
    obtain ⟨F', o', R', hq', hinv', _⟩ := thread_part hi hu
    cases o with
    | none => exact hinv.elim
    | some bs =>
      cases o' with
      | none => exact hinv'.elim
      | some bs' =>
        have hn := hsep.nodup'
        rw [List.map_append, List.nodup_append] at hn
        rcases hinv.2.next e with ⟨b, hb⟩ | ⟨hw, _⟩
        · have : ∃ b', (p, b') ∈ cellsOf s.lent vs ++ R := by
            rcases hinv'.2.next e' with ⟨b', hb'⟩ | ⟨_, b', hb'⟩
            · exact ⟨b', List.mem_append_right _ (hR u _ (Ne.symm hne) hq' _ hb')⟩
            · exact ⟨b', List.mem_append_left _ hb'⟩
          obtain ⟨b', hb'⟩ := this
          exact hn.2.2 p (List.mem_map.mpr ⟨_, hb, rfl⟩) p (List.mem_map.mpr ⟨_, hb', rfl⟩) rfl
        · cases hw
  rintro ⟨t, u, i, j, m, m', p, w, w', hne, ht, hu, e, e', hw | hw⟩
  · subst hw; exact key hne ht hu e e'
  · subst hw; exact key (Ne.symm hne) hu ht e' e

/-- C65: integers that are lent never change while threads use them, not even in the middle of a
call. -/
theorem C65_lent_unchanged (hr : HReachable A (lent ++ own) h)
    (hs : System.Steps A ⟨h, lent, [.idle own]⟩ tr s) :
    s.lent = lent ∧ ∃ vs, Reads h lent vs ∧ Reads s.heap lent vs := by
  obtain ⟨vs, ws, parts, hi, hl, h1, _⟩ := threads_inv hr hs
  have := reads_of hi.mat hi.wf hi.sep fun c hc => List.mem_append_left _ hc
  rw [hl] at this
  exact ⟨hl, vs, h1, this⟩

/-- C65: at any point of any run every buffer was freed at most once, after it was allocated and
with the capacity it was allocated with. -/
theorem C65_freed_once (hr : HReachable A (lent ++ own) h)
    (hs : System.Steps A ⟨h, lent, [.idle own]⟩ tr s) : NoMisuse s.heap.log := by
  obtain ⟨vs, ws, parts, hi, _⟩ := threads_inv hr hs
  exact noMisuse_of_sep hi.sep

/-- The integers of all threads that are not in a call. -/
def System.owned (s : System) : HBank :=
  s.threads.flatMap fun t => match t with
    | .idle own => own
    | _ => []

omit [Allocator] in
theorem idle_rep {vs : Bank} {parts : List (List (Nat × Block) × Option Bank)}
    (hi : SInv s vs parts) (hidle : ∀ t ∈ s.threads, ∃ own, t = .idle own) :
    ∃ bs, Rep s.heap (s.lent ++ System.owned s) (vs ++ bs) ∧ ∀ a ∈ vs ++ bs, a.WF := by
  have key : ∀ {ths : List Thread} {parts : List (List (Nat × Block) × Option Bank)},
      List.Forall₂ (TInv s.lent vs) ths parts → (∀ t ∈ ths, ∃ own, t = .idle own) →
      ∃ bs, List.Forall₂ Match (System.owned ⟨s.heap, s.lent, ths⟩) bs ∧ (∀ a ∈ bs, a.WF) ∧
        (buffers parts).Perm (cellsOf (System.owned ⟨s.heap, s.lent, ths⟩) bs) := by
    intro ths parts hf hid
    induction hf with
    | nil => exact ⟨[], .nil, by simp, .refl _⟩
    | @cons th q ths parts h1 _ ih =>
      obtain ⟨bs, m1, w1, p1⟩ := ih fun t ht => hid t (List.mem_cons_of_mem _ ht)
      obtain ⟨own, rfl⟩ := hid th List.mem_cons_self
      obtain ⟨F, o⟩ := q
      cases o with
      | none => exact h1.elim
      | some as =>
        obtain ⟨m2, w2, p2⟩ := h1
        refine ⟨as ++ bs, forall₂_append m2 m1, ?_, ?_⟩
        · exact fun a ha => (List.mem_append.mp ha).elim (w2 a) (w1 a)
        · show (F ++ buffers parts).Perm (cellsOf (own ++ System.owned ⟨s.heap, s.lent, ths⟩) _)
          rw [cellsOf_append m2]
          exact p2.append p1
  obtain ⟨bs, m1, w1, p1⟩ := key hi.threads hidle
  refine ⟨bs, ⟨forall₂_append hi.mat m1, ?_⟩, fun a ha => (List.mem_append.mp ha).elim (hi.wf a) (w1 a)⟩
  rw [cellsOf_append hi.mat]
  exact hi.sep.reorder (p1.append_left _)

/-- C65: whenever no thread is in a call (and none has panicked) the live buffers are exactly those
of the integers, each allocated for exactly the digits of its integer, and dropping all integers
frees all that was ever allocated, exactly once and with its capacity. -/
theorem C65_live (hr : HReachable A (lent ++ own) h)
    (hs : System.Steps A ⟨h, lent, [.idle own]⟩ tr s)
    (hidle : ∀ t ∈ s.threads, ∃ own, t = .idle own) :
    (∀ p cap, LiveAt s.heap.log p cap ↔
      ∃ x ∈ lent ++ System.owned s, x.data = .ext p ∧ cap = (x.len.toUsize + 63) / 64) ∧
    ∃ h', dropAll (lent ++ System.owned s) s.heap = .ok ((), h') ∧ h'.cells = [] ∧
      AllFreed h'.log := by
  obtain ⟨vs, ws, parts, hi, hl, _⟩ := threads_inv hr hs
  obtain ⟨bs, hrep, hwf⟩ := idle_rep hi hidle
  rw [hl] at hrep
  refine ⟨fun p cap => ?_, ?_⟩
  · rw [live_iff_cell hrep.sep, mem_cellsOf hrep.mat hwf]
  · obtain ⟨h', e, hc, ht⟩ := dropAll_ok hrep hwf
    refine ⟨h', e, hc, fun p => ?_⟩
    obtain ⟨l, hl, he⟩ := ht p
    rw [he, hc]
    simpa using hl

/-- C66: calls of several threads are atomic for their users.  All that the threads see of any run,
with the calls in the order in which they return, is a run of the abstract machine in which every
call happens at once; and at any point the integers of the threads that are not in a call, and the
integers that are lent, are the numbers of that machine. -/
theorem C66_atomic (hr : HReachable A (lent ++ own) h)
    (hs : System.Steps A ⟨h, lent, [.idle own]⟩ tr s) :
    ∃ vs ws a, Reads h lent vs ∧ Reads h own ws ∧
      ASystem.Steps ⟨vs.map ApInt.abs, [some (ws.map ApInt.abs)]⟩ tr a ∧
      a.lent = vs.map ApInt.abs ∧ Reads s.heap s.lent vs ∧ a.own.length = s.threads.length ∧
      (∀ (t : Nat) own', s.threads[t]? = some (.idle own') → ∃ bs, Reads s.heap own' bs ∧
        a.own[t]? = some (some (bs.map ApInt.abs))) ∧
      ∀ t : Nat, s.threads[t]? = some .panicked → a.own[t]? = some none := by
  obtain ⟨vs, ws, parts, hi, hl, h1, h2, h3⟩ := threads_inv hr hs
  refine ⟨vs, ws, absSys vs parts, h1, h2, h3, rfl, ?_, ?_, ?_, ?_⟩
  · exact reads_of hi.mat hi.wf hi.sep fun c hc => List.mem_append_left _ hc
  · rw [hi.threads.length_eq]; simp [absSys]
  · intro t own' ht
    obtain ⟨F, o, R, hq, hinv, hsep, _⟩ := thread_part hi ht
    cases o with
    | none => exact hinv.elim
    | some bs =>
      refine ⟨bs, reads_of hinv.1 hinv.2.1 hsep fun c hc => ?_, abs_get hq⟩
      exact List.mem_append_left _ (hinv.2.2.mem_iff.mpr hc)
  · intro t ht
    obtain ⟨F, o, R, hq, hinv, _⟩ := thread_part hi ht
    cases o with
    | some bs => exact hinv.elim
    | none => simp only [absSys, List.getElem?_map, hq, Option.map_some, Option.map_none]

/-- C66: a thread in a call is never blocked: its next access can happen, or the call returns or
panics. -/
theorem C66_progress (hr : HReachable A (lent ++ own) h)
    (hs : System.Steps A ⟨h, lent, [.idle own]⟩ tr s) {t : Nat} {i : Instr}
    {m : HM (Res Out × HBank)} (ht : s.threads[t]? = some (.busy i m)) :
    (∃ m' h', m.Step s.heap m' h') ∨ (∃ r b, m = .ret (r, b)) ∨ m = .fault .panic := by
  have hb := C65_no_bad_access hr hs ht
  obtain ⟨vs, ws, parts, hi, _⟩ := threads_inv hr hs
  have hn := hi.sep.nodup
  have live : ∀ {p : Nat} {b : Block}, (p, b) ∈ s.heap.cells →
      s.heap.cells.find? (fun c => c.1 == p) = some (p, b) := fun h => find_of_mem hn h
  cases m with
  | ret v => exact .inr (.inl ⟨v.1, v.2, rfl⟩)
  | fault f =>
    have : f = .panic := by
      by_contra hf
      exact hb hf
    exact .inr (.inr (by rw [this]))
  | alloc cap ds k => exact .inl ⟨_, _, .alloc _ (Allocator.fresh s.heap)⟩
  | get p k =>
    simp only [HM.Bad, not_forall, not_not] at hb
    obtain ⟨b, hb⟩ := hb
    exact .inl ⟨_, _, .get (live hb)⟩
  | write p ds k =>
    simp only [HM.Bad, not_forall, not_not] at hb
    obtain ⟨b, hb, he⟩ := hb
    exact .inl ⟨_, _, .write (live hb) he⟩
  | free p cap k =>
    simp only [HM.Bad, not_forall, not_not] at hb
    obtain ⟨b, hb, he⟩ := hb
    exact .inl ⟨_, _, .free (live hb) he⟩

omit [Allocator] in
/-- C66: a call ends after finitely many of its own accesses, whatever the other threads do to the
heap in between: there is no infinite sequence of them. -/
theorem C66_wait_free {α : Type} (ms : Nat → HM α) :
    ¬ ∀ n, ∃ h h', (ms n).Step h (ms (n + 1)) h' := by
  have key : ∀ (m : HM α) (ms : Nat → HM α), ms 0 = m →
      ¬ ∀ n, ∃ h h', (ms n).Step h (ms (n + 1)) h' := by
    intro m
    induction m with
    | ret a => intro ms h0 hs; obtain ⟨_, _, h⟩ := hs 0; rw [h0] at h; cases h
    | fault f => intro ms h0 hs; obtain ⟨_, _, h⟩ := hs 0; rw [h0] at h; cases h
    | alloc cap ds k ih =>
      intro ms h0 hs
      obtain ⟨_, _, h⟩ := hs 0
      rw [h0] at h
      generalize hm : ms (0 + 1) = m' at h
      cases h with
      | alloc p _ => exact ih p (fun n => ms (n + 1)) hm fun n => hs (n + 1)
    | get p k ih =>
      intro ms h0 hs
      obtain ⟨_, _, h⟩ := hs 0
      rw [h0] at h
      generalize hm : ms (0 + 1) = m' at h
      cases h with
      | get _ => exact ih _ (fun n => ms (n + 1)) hm fun n => hs (n + 1)
    | write p ds k ih =>
      intro ms h0 hs
      obtain ⟨_, _, h⟩ := hs 0
      rw [h0] at h
      generalize hm : ms (0 + 1) = m' at h
      cases h with
      | write _ _ => exact ih (fun n => ms (n + 1)) hm fun n => hs (n + 1)
    | free p cap k ih =>
      intro ms h0 hs
      obtain ⟨_, _, h⟩ := hs 0
      rw [h0] at h
      generalize hm : ms (0 + 1) = m' at h
      cases h with
      | free _ _ => exact ih (fun n => ms (n + 1)) hm fun n => hs (n + 1)
  exact key _ ms rfl

end

/-! ## A scheduler and a run -/

/-- What a scheduler lets happen next. -/
inductive Cmd where
  | spawn
  | call (t : Nat) (i : Instr)
  /-- the next access of thread `t`, or the end of its call -/
  | go (t : Nat)
  | move (t x u : Nat)

instance (i : Instr) (n : Nat) : Decidable (i.Allowed n) := by unfold Instr.Allowed; infer_instance

/-- Do it, if it is possible. -/
def System.cmd [Allocator] (A : Growth) (s : System) : Cmd → Option (List TEvent × System)
  | .spawn => some ([.spawned s.threads.length], { s with threads := s.threads ++ [.idle []] })
  | .call t i =>
    match s.threads[t]? with
    | some (.idle own) =>
      if i.Allowed s.lent.length then
        some ([], { s with threads := s.threads.set t (.busy i (i.hexec A (s.lent ++ own))) })
      else none
    | _ => none
  | .go t =>
    match s.threads[t]? with
    | some (.busy i m) =>
      match m with
      | .ret (r, b) => some ([.returned t i r],
          { s with threads := s.threads.set t (.idle (b.drop s.lent.length)) })
      | .fault .panic =>
        some ([.panicked t i], { s with threads := s.threads.set t .panicked })
      | .fault _ => none
      | .alloc cap ds k => some ([], { s with
          heap := ⟨(Allocator.pick s.heap, ⟨cap, ds⟩) :: s.heap.cells,
            s.heap.log ++ [.alloc (Allocator.pick s.heap) cap]⟩
          threads := s.threads.set t (.busy i (k (Allocator.pick s.heap))) })
      | .get p k =>
        match s.heap.cells.find? (fun c => c.1 == p) with
        | some c => some ([], { s with threads := s.threads.set t (.busy i (k c.2)) })
        | none => none
      | .write p ds k =>
        match s.heap.cells.find? (fun c => c.1 == p) with
        | some c =>
          if c.2.digits.length = ds.length then
            some ([], { s with
              heap := ⟨s.heap.cells.map (fun c => if c.1 = p then (c.1, ⟨c.2.cap, ds⟩) else c),
                s.heap.log⟩
              threads := s.threads.set t (.busy i k) })
          else none
        | none => none
      | .free p cap k =>
        match s.heap.cells.find? (fun c => c.1 == p) with
        | some c =>
          if c.2.cap = cap then
            some ([], { s with
              heap := ⟨s.heap.cells.filter (fun c => c.1 != p), s.heap.log ++ [.free p cap]⟩
              threads := s.threads.set t (.busy i k) })
          else none
        | none => none
    | _ => none
  | .move t x u =>
    match s.threads[t]?, s.threads[u]? with
    | some (.idle own), some (.idle own') =>
      match own[x]? with
      | some a =>
        if t = u then none
        else some ([.moved t x u], { s with
          threads := (s.threads.set t (.idle (own.eraseIdx x))).set u (.idle (own' ++ [a])) })
      | none => none
    | _, _ => none

theorem cmd_step [Allocator] {A : Growth} {s s' : System} {c : Cmd} {tr : List TEvent}
    (e : System.cmd A s c = some (tr, s')) : System.Step A s tr s' := by
  cases c with
  | spawn => cases e; exact .spawn
  | call t i =>
    simp only [System.cmd] at e
    split at e
    · rename_i ht
      split at e
      · rename_i hi; cases e; exact .call ht hi
      · cases e
    · cases e
  | go t =>
    simp only [System.cmd] at e
    split at e
    · rename_i i m ht
      split at e
      · cases e; exact .finish ht
      · cases e; exact .panic ht
      · cases e
      · cases e; exact .access ht (.alloc _ (Allocator.fresh _))
      · split at e
        · rename_i h1; cases e; exact .access ht (.get h1)
        · cases e
      · split at e
        · rename_i h1
          split at e
          · rename_i h2; cases e; exact .access ht (.write h1 h2)
          · cases e
        · cases e
      · split at e
        · rename_i h1
          split at e
          · rename_i h2; cases e; exact .access ht (.free h1 h2)
          · cases e
        · cases e
    · cases e
  | move t x u =>
    simp only [System.cmd] at e
    split at e
    · rename_i ht hu
      split at e
      · rename_i hx
        split at e
        · cases e
        · rename_i ne; cases e; exact .move ne ht hu hx
      · cases e
    · cases e

/-- Several commands. -/
def System.cmds [Allocator] (A : Growth) : List Cmd → System → Option (List TEvent × System)
  | [], s => some ([], s)
  | c :: cs, s =>
    match System.cmd A s c with
    | some (tr, s) =>
      match System.cmds A cs s with
      | some (tr', s) => some (tr ++ tr', s)
      | none => none
    | none => none

theorem cmds_steps [Allocator] {A : Growth} {cs : List Cmd} {s0 s s' : System}
    {tr0 tr : List TEvent} (h : System.Steps A s0 tr0 s) (e : System.cmds A cs s = some (tr, s')) :
    System.Steps A s0 (tr0 ++ tr) s' := by
  induction cs generalizing s tr0 tr with
  | nil => cases e; rw [List.append_nil]; exact h
  | cons c cs ih =>
    simp only [System.cmds] at e
    split at e
    · rename_i tr1 s1 h1
      split at e
      · rename_i tr2 s2 h2
        cases e
        rw [← List.append_assoc]
        exact ih (.more h (cmd_step h1)) h2
      · cases e
    · cases e

/-- The answers in a trace, with their threads. -/
def answers : List TEvent → List (Nat × Option (Except AErr Out))
  | [] => []
  | .returned t _ r :: tr => (t, some (absRes r)) :: answers tr
  | .panicked t _ :: tr => (t, none) :: answers tr
  | _ :: tr => answers tr

attribute [local instance] reusing

/-- A 200-bit integer to lend and a 150-bit one to keep. -/
def lendProgram : List Instr := [.make (.allSet (bw 200)), .make (.signedMin (bw 150))]

/-- Where that program ends. -/
theorem lendProgram_end : ∃ h, HReachable twice ([⟨bw 200, .ext 0⟩] ++ [⟨bw 150, .ext 1⟩]) h ∧
    h.cells = [(1, ⟨3, [0#64, 0#64, 0x200000#64]⟩),
      (0, ⟨4, [Digit.ONES, Digit.ONES, Digit.ONES, 0xff#64]⟩)] ∧
    h.log = [.alloc 0 8, .free 0 8, .alloc 0 4, .alloc 1 6, .free 1 6, .alloc 1 3] := by
  have e : (hrun twice lendProgram [] ⟨[], []⟩).2 = .ok ([⟨bw 200, .ext 0⟩, ⟨bw 150, .ext 1⟩],
      ⟨[(1, ⟨3, [0#64, 0#64, 0x200000#64]⟩),
        (0, ⟨4, [Digit.ONES, Digit.ONES, Digit.ONES, 0xff#64]⟩)],
        [.alloc 0 8, .free 0 8, .alloc 0 4, .alloc 1 6, .free 1 6, .alloc 1 3]⟩) := by
    rfl
  exact ⟨_, hrun_reachable twice lendProgram .start e, rfl, rfl⟩

/-- Thread 1 is started and is handed the 150-bit integer.  Thread 0 clones the lent integer while
thread 1 truncates its own to 70 bits, which allocates and frees; their accesses alternate.  Then
thread 0 adds the lent integer to its clone while thread 1 compares with the lent integer. -/
def lendSchedule : List Cmd :=
  [.spawn, .move 0 0 1, .call 0 (.clone 0), .go 0, .call 1 (.un (.truncate (bw 70)) 1), .go 1,
    .go 0, .go 1, .go 0, .go 1, .go 0, .go 1, .go 0, .go 1, .go 1, .go 1, .go 1, .go 1,
    .call 0 (.bin .add 1 0), .call 1 (.ask2 .eq 1 0), .go 0, .go 1, .go 1, .go 0, .go 1, .go 0,
    .go 0]

/-- Thread 0 counts the ones of its sum while thread 1 adds integers of different widths with `+=`
and panics. -/
def panicSchedule : List Cmd :=
  [.call 0 (.ask .countOnes 1), .call 1 (.opAssign .add 1 0), .go 0, .go 1, .go 1, .go 1, .go 0]

/-- The system before the threads start. -/
def lendStart (h : Heap) : System := ⟨h, [⟨bw 200, .ext 0⟩], [.idle [⟨bw 150, .ext 1⟩]]⟩

/-- The answers, the requests to the allocator, and the integers of the threads that are not in a
call. -/
def view (r : List TEvent × System) :
    List (Nat × Option (Except AErr Out)) × List Event × HBank :=
  (answers r.1, r.2.heap.log, System.owned r.2)

section

variable {h : Heap}
  (hc : h.cells = [(1, ⟨3, [0#64, 0#64, 0x200000#64]⟩),
    (0, ⟨4, [Digit.ONES, Digit.ONES, Digit.ONES, 0xff#64]⟩)])
  (hl : h.log = [.alloc 0 8, .free 0 8, .alloc 0 4, .alloc 1 6, .free 1 6, .alloc 1 3])

include hc hl

theorem lendSchedule_end : (System.cmds twice lendSchedule (lendStart h)).map view = some
    ([(0, some (.ok .unit)), (1, some (.ok .unit)), (1, some (.ok (.bool false))),
        (0, some (.ok .unit))],
      [.alloc 0 8, .free 0 8, .alloc 0 4, .alloc 1 6, .free 1 6, .alloc 1 3, .alloc 2 8, .alloc 3 4,
        .free 2 8, .alloc 2 4, .free 3 4, .alloc 3 2, .free 1 3],
      [⟨bw 200, .ext 2⟩, ⟨bw 70, .ext 3⟩]) := by
  obtain ⟨c, l⟩ := h
  subst hc hl
  rfl

theorem panicSchedule_end :
    ((System.cmds twice (lendSchedule ++ panicSchedule) (lendStart h)).map view).map (fun v => v.1) =
      some [(0, some (.ok .unit)), (1, some (.ok .unit)), (1, some (.ok (.bool false))),
        (0, some (.ok .unit)), (1, none), (0, some (.ok (.nat 199)))] := by
  obtain ⟨c, l⟩ := h
  subst hc hl
  decide +kernel

/-- In the middle of that run both threads are in a call and access the lent integer. -/
theorem lendSchedule_middle : ((System.cmds twice (lendSchedule.take 22) (lendStart h)).map
    fun r => r.2.threads.map fun t => match t with
      | .busy _ m => m.next
      | _ => none) = some [some (2, false), some (0, false)] := by
  obtain ⟨c, l⟩ := h
  subst hc hl
  decide +kernel

end

/-- A run with a given view. -/
theorem run_of_view {cs : List Cmd} {s : System} {α : Type} {f : List TEvent × System → α} {v : α}
    (e : (System.cmds twice cs s).map f = some v) :
    ∃ tr s', System.Steps twice s tr s' ∧ f (tr, s') = v := by
  cases hh : System.cmds twice cs s with
  | none => rw [hh] at e; cases e
  | some r =>
    rw [hh] at e
    exact ⟨r.1, r.2, cmds_steps (tr0 := []) .none hh, Option.some.inj e⟩

-- The hypotheses of the theorems hold for a run whose threads interleave, and the theorems say
-- what the threads saw.
example : ∃ h tr s a, System.Steps twice (lendStart h) tr s ∧ NoMisuse s.heap.log ∧ ¬ s.Race ∧
    answers tr = [(0, some (.ok .unit)), (1, some (.ok .unit)), (1, some (.ok (.bool false))),
      (0, some (.ok .unit)), (1, none), (0, some (.ok (.nat 199)))] ∧
    ASystem.Steps ⟨[⟨200, 2 ^ 200 - 1⟩], [some [⟨150, 2 ^ 149⟩]]⟩ tr a := by
  obtain ⟨h, hr, hc, hl⟩ := lendProgram_end
  obtain ⟨tr, s, hs, hv⟩ := run_of_view (f := fun r => (view r).1) (by
    have := panicSchedule_end hc hl
    rwa [Option.map_map] at this)
  obtain ⟨vs, ws, a, h1, h2, h3, _⟩ := C66_atomic hr hs
  refine ⟨h, tr, s, a, hs, C65_freed_once hr hs, C65_no_race hr hs, hv, ?_⟩
  obtain ⟨c, l⟩ := h
  subst hc hl
  unfold Reads at h1 h2
  cases h1 with
  | @cons _ v _ vs e1 h1 =>
    cases h1
    cases h2 with
    | @cons _ w _ ws e2 h2 =>
      cases h2
      have e1 : Except.ok (⟨bw 200, .ext [Digit.ONES, Digit.ONES, Digit.ONES, 0xff#64]⟩, _) =
        Except.ok (v, _) := e1
      have e2 : Except.ok (⟨bw 150, .ext [0#64, 0#64, 0x200000#64]⟩, _) = Except.ok (w, _) := e2
      cases e1
      cases e2
      have v1 : (⟨bw 200, .ext [Digit.ONES, Digit.ONES, Digit.ONES, 0xff#64]⟩ : ApInt).abs =
          ⟨200, 2 ^ 200 - 1⟩ := by decide +kernel
      have v2 : (⟨bw 150, .ext [0#64, 0#64, 0x200000#64]⟩ : ApInt).abs = ⟨150, 2 ^ 149⟩ := by
        decide +kernel
      simpa only [List.map_cons, List.map_nil, v1, v2] using h3

example : ∃ h tr s, System.Steps twice (lendStart h) tr s ∧ LiveAt s.heap.log 0 4 ∧
    LiveAt s.heap.log 2 4 ∧ LiveAt s.heap.log 3 2 ∧ ¬ LiveAt s.heap.log 1 3 := by
  obtain ⟨h, hr, hc, hl⟩ := lendProgram_end
  obtain ⟨tr, s, hs, hv⟩ := run_of_view (f := fun r => ((view r).2.2, r.2.threads.all fun t =>
    match t with | .idle _ => true | _ => false)) (v := ([⟨bw 200, .ext 2⟩, ⟨bw 70, .ext 3⟩], true))
    (cs := lendSchedule) (s := lendStart h) (by
      obtain ⟨c, l⟩ := h
      subst hc hl
      decide +kernel)
  have hidle : ∀ t ∈ s.threads, ∃ own, t = .idle own := by
    have := (Prod.mk.inj hv).2
    simp only [List.all_eq_true] at this
    intro t ht
    have := this t ht
    cases t with
    | idle own => exact ⟨own, rfl⟩
    | _ => cases this
  have ho : System.owned s = [⟨bw 200, .ext 2⟩, ⟨bw 70, .ext 3⟩] := (Prod.mk.inj hv).1
  obtain ⟨hlive, _⟩ := C65_live hr hs hidle
  rw [ho] at hlive
  refine ⟨h, tr, s, hs, (hlive 0 4).mpr ⟨⟨bw 200, .ext 0⟩, by simp, rfl, rfl⟩,
    (hlive 2 4).mpr ⟨⟨bw 200, .ext 2⟩, by simp, rfl, rfl⟩,
    (hlive 3 2).mpr ⟨⟨bw 70, .ext 3⟩, by simp, rfl, rfl⟩, ?_⟩
  rw [hlive 1 3]
  simp

-- Without the borrow checker there would be races: two threads about to write to a lent integer.
example : (⟨⟨[], []⟩, [⟨bw 100, .ext 0⟩], [.busy (.alter .setAll 0) (hwrite 0 [] >>= fun _ => .ret (.ok .unit, [])),
    .busy (.alter .setAll 0) (hwrite 0 [] >>= fun _ => .ret (.ok .unit, []))]⟩ : System).Race ∧
    ¬ (Instr.alter .setAll 0).Allowed 1 :=
  ⟨⟨0, 1, _, _, _, _, 0, true, true, by decide, rfl, rfl, rfl, rfl, .inl rfl⟩, by decide⟩

end Verif.Props
