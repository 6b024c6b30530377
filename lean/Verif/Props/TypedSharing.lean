import Verif.Proof.TypedSharing
import Verif.Props.TypedHeap
import Verif.Props.Sharing

/-!
# Threads that share `UInt`s and `Int`s for a while and survive panics (C86)

As C83, for programs over `UInt` and `Int`: one call makes several calls on the fields, and the
threads interleave between any two memory accesses of all of them (`Model/TypedSharing.lean`).
What they should see is in `SpecTypedSharing.lean`, in terms of mathematical integers.
-/

namespace Verif.Props

open ApInt Ex

section

variable [Allocator] {A : Growth} {tr : List TCEvent} {s : TCrew}

omit [Allocator] in
/-- C86: whatever the other threads do, no thread accesses a buffer that is not live, writes past
the end of a buffer, or frees a buffer with another capacity, in a call that returns, in a call
that panics, or while a panic unwinds; and nothing else than a panic interrupts a call. -/
theorem C86_no_bad_access (hs : TCrew.Steps A .start tr s) {t n : Nat} {i : TInstr}
    {m : HM (TSeen × List Kind × HBank)} (ht : s.workers[t]? = some (.busy n i m)) :
    ¬ m.Bad s.heap ∧ ∀ f, m ≠ .fault f := by
  obtain ⟨vs, parts, hi, _⟩ := tcrew_inv A hs
  obtain ⟨F, bs, R, _, ⟨_, _, hr⟩, hsep, _⟩ := tcrew_part hi ht
  rw [tcellsOf_take hi.mat n, List.append_assoc] at hsep
  refine ⟨hr.not_bad hsep, ?_⟩
  rintro f rfl
  obtain ⟨_, _, _, hg, _⟩ := hr
  exact hg.fault.2

omit [Allocator] in
/-- C86: no data race.  At no point of any run two threads are about to access the same buffer
unless both only read it. -/
theorem C86_no_race (hs : TCrew.Steps A .start tr s) : ¬ s.Race := by
  obtain ⟨vs, parts, hi, _⟩ := tcrew_inv A hs
  have key : ∀ {t u n n' : Nat} {i j : TInstr} {m m' : HM (TSeen × List Kind × HBank)} {p : Nat} {w : Bool},
      t ≠ u → s.workers[t]? = some (.busy n i m) → s.workers[u]? = some (.busy n' j m') →
      m.next = some (p, true) → m'.next = some (p, w) → False := by
    intro t u n n' i j m m' p w hne ht hu e e'
    obtain ⟨F, bs, R, hq, ⟨_, _, hr⟩, hsep, _, hR⟩ := tcrew_part hi ht
    obtain ⟨F', bs', R', hq', ⟨_, _, hr'⟩, _⟩ := tcrew_part hi hu
    have hn := hsep.nodup'
    rw [List.map_append, List.nodup_append] at hn
    rcases hr.next e with ⟨b, hb⟩ | ⟨hw, _⟩
    · have : ∃ b', (p, b') ∈ cellsOf s.shared (vs.map WInt.value) ++ R := by
        rcases hr'.next e' with ⟨b', hb'⟩ | ⟨_, b', hb'⟩
        · exact ⟨b', List.mem_append_right _ (hR u _ (Ne.symm hne) hq' _ hb')⟩
        · refine ⟨b', List.mem_append_left _ ?_⟩
          rw [tcellsOf_take hi.mat n']
          exact List.mem_append_left _ hb'
      obtain ⟨b', hb'⟩ := this
      exact hn.2.2 p (List.mem_map.mpr ⟨_, hb, rfl⟩) p (List.mem_map.mpr ⟨_, hb', rfl⟩) rfl
    · cases hw
  rintro ⟨t, u, n, n', i, j, m, m', p, w, w', hne, ht, hu, e, e', hw | hw⟩
  · subst hw; exact key hne ht hu e e'
  · subst hw; exact key (Ne.symm hne) hu ht e' e

/-- C86: a shared integer does not change: no step of any thread, not even one in the middle of a
call, changes the value of an integer that is shared before the step. -/
theorem C86_shared_unchanged (hs : TCrew.Steps A .start tr s) {tr' : List TCEvent} {s' : TCrew}
    (h : TCrew.Step A s tr' s') : ∃ vs : TBank,
      s.kinds = vs.map WInt.kind ∧ Reads s.heap s.shared (vs.map WInt.value) ∧
      Reads s'.heap s.shared (vs.map WInt.value) := by
  obtain ⟨vs, parts, hi, _⟩ := tcrew_inv A hs
  obtain ⟨vs', parts', hi', hc, _⟩ := tcrew_step A hi h
  exact ⟨vs, hi.kinds, reads_of hi.mat (values_wf hi.wf) hi.sep fun c hc => List.mem_append_left _ hc,
    reads_of hi.mat (values_wf hi.wf) hi'.sep hc⟩

omit [Allocator] in
/-- C86: at any point of any run every buffer was freed at most once, after it was allocated and
with the capacity it was allocated with. -/
theorem C86_freed_once (hs : TCrew.Steps A .start tr s) : NoMisuse s.heap.log := by
  obtain ⟨vs, parts, hi, _⟩ := tcrew_inv A hs
  exact noMisuse_of_sep hi.sep

/-- The integers of all threads that are not in a call. -/
def TCrew.owned (s : TCrew) : HBank :=
  s.workers.flatMap fun t => match t with
    | .idle _ own => own
    | _ => []

omit [Allocator] in
theorem tcrew_rep {vs : TBank} {parts : List (List (Nat × Block) × TBank)}
    (hi : TCInv s vs parts) (hidle : ∀ w ∈ s.workers, ∃ ks own, w = .idle ks own) :
    ∃ bs : TBank, Rep s.heap (s.shared ++ TCrew.owned s) ((vs ++ bs).map WInt.value) ∧
      ∀ a ∈ vs ++ bs, a.WF := by
  have key : ∀ {ws : List TWorker} {parts : List (List (Nat × Block) × TBank)},
      List.Forall₂ (TWInv s.shared vs) ws parts → (∀ t ∈ ws, ∃ ks own, t = .idle ks own) →
      ∃ bs : TBank,
        List.Forall₂ Match (TCrew.owned ⟨s.heap, s.kinds, s.shared, ws⟩) (bs.map WInt.value) ∧
        (∀ a ∈ bs, a.WF) ∧ (cbuffers parts).Perm
          (cellsOf (TCrew.owned ⟨s.heap, s.kinds, s.shared, ws⟩) (bs.map WInt.value)) := by
    intro ws parts hf hid
    induction hf with
    | nil => exact ⟨[], .nil, by simp, .refl _⟩
    | @cons w q ws parts h1 _ ih =>
      obtain ⟨bs, m1, w1, p1⟩ := ih fun t ht => hid t (List.mem_cons_of_mem _ ht)
      obtain ⟨ks, own, rfl⟩ := hid w List.mem_cons_self
      obtain ⟨F, as⟩ := q
      obtain ⟨_, m2, w2, p2⟩ := h1
      refine ⟨as ++ bs, by rw [List.map_append]; exact forall₂_append m2 m1, ?_, ?_⟩
      · exact fun a ha => (List.mem_append.mp ha).elim (w2 a) (w1 a)
      · show (F ++ cbuffers parts).Perm (cellsOf (own ++ TCrew.owned ⟨s.heap, s.kinds, s.shared, ws⟩) _)
        rw [List.map_append, cellsOf_append m2]
        exact p2.append p1
  obtain ⟨bs, m1, w1, p1⟩ := key hi.workers hidle
  refine ⟨bs, ⟨by rw [List.map_append]; exact forall₂_append hi.mat m1, ?_⟩,
    fun a ha => (List.mem_append.mp ha).elim (hi.wf a) (w1 a)⟩
  rw [List.map_append, cellsOf_append hi.mat]
  exact hi.sep.reorder (p1.append_left _)

/-- C86: nothing leaks, whatever panicked.  Whenever no thread is in a call the live buffers are
exactly those of the integers that are shared or owned by a thread, each allocated for exactly the
digits of its integer, and dropping those integers frees all that was ever allocated, exactly once
and with its capacity. -/
theorem C86_live (hs : TCrew.Steps A .start tr s) (hidle : ∀ w ∈ s.workers, ∃ ks own, w = .idle ks own) :
    (∀ p cap, LiveAt s.heap.log p cap ↔
      ∃ x ∈ s.shared ++ TCrew.owned s, x.data = .ext p ∧ cap = (x.len.toUsize + 63) / 64) ∧
    ∃ h', dropAll (s.shared ++ TCrew.owned s) s.heap = .ok ((), h') ∧ h'.cells = [] ∧
      AllFreed h'.log := by
  obtain ⟨vs, parts, hi, _⟩ := tcrew_inv A hs
  obtain ⟨bs, hrep, hwf⟩ := tcrew_rep hi hidle
  refine ⟨fun p cap => ?_, ?_⟩
  · rw [live_iff_cell hrep.sep, mem_cellsOf hrep.mat (values_wf hwf)]
  · obtain ⟨h', e, hc, ht⟩ := dropAll_ok hrep (values_wf hwf)
    refine ⟨h', e, hc, fun p => ?_⟩
    obtain ⟨l, hl, he⟩ := ht p
    rw [he, hc]
    simpa using hl

/-- C86: calls are atomic for their users.  All that the threads see of any run, with the calls in
the order in which they return or panic, is a run of the abstract machine in which every call
happens at once; and at any point the integers that are shared, and those of the threads that are
not in a call, are the numbers of that machine. -/
theorem C86_atomic (hs : TCrew.Steps A .start tr s) :
    ∃ (a : NCrew) (vs : TBank), NCrew.Steps .start tr a ∧ s.kinds = vs.map WInt.kind ∧
      Reads s.heap s.shared (vs.map WInt.value) ∧ a.shared = vs.map WInt.num ∧
      a.own.length = s.workers.length ∧
      ∀ (t : Nat) ks own, s.workers[t]? = some (.idle ks own) → ∃ bs : TBank,
        ks = bs.map WInt.kind ∧ Reads s.heap own (bs.map WInt.value) ∧
        a.own[t]? = some (bs.map WInt.num) := by
  obtain ⟨vs, parts, hi, ha⟩ := tcrew_inv A hs
  refine ⟨numCrew vs parts, vs, ha, hi.kinds, ?_, rfl, ?_, ?_⟩
  · exact reads_of hi.mat (values_wf hi.wf) hi.sep fun c hc => List.mem_append_left _ hc
  · rw [hi.workers.length_eq]; simp [numCrew]
  · intro t ks own ht
    obtain ⟨F, bs, R, hq, ⟨h0, h1, h2, h3⟩, hsep, _⟩ := tcrew_part hi ht
    refine ⟨bs, h0, reads_of h1 (values_wf h2) hsep fun c hc => ?_, tcrew_get hq⟩
    exact List.mem_append_left _ (h3.mem_iff.mpr hc)

/-- A thread in a call is never blocked. -/
theorem tcrew_progress (hs : TCrew.Steps A .start tr s) {t n : Nat} {i : TInstr}
    {m : HM (TSeen × List Kind × HBank)} (ht : s.workers[t]? = some (.busy n i m)) :
    (∃ m' h', m.Step s.heap m' h') ∨ ∃ r ks b, m = .ret (r, ks, b) := by
  obtain ⟨hb, hf⟩ := C86_no_bad_access hs ht
  obtain ⟨vs, parts, hi, _⟩ := tcrew_inv A hs
  have live : ∀ {p : Nat} {b : Block}, (p, b) ∈ s.heap.cells →
      s.heap.cells.find? (fun c => c.1 == p) = some (p, b) := fun h => find_of_mem hi.sep.nodup h
  cases m with
  | ret v => exact .inr ⟨v.1, v.2.1, v.2.2, rfl⟩
  | fault f => exact absurd rfl (hf f)
  | alloc cap ds k => exact .inl ⟨_, _, .alloc _ (Allocator.fresh s.heap)⟩
  | get p k =>
    simp only [HM.Bad, not_forall, not_not] at hb
    obtain ⟨b, hb⟩ := hb
    exact .inl ⟨_, _, .get (live hb)⟩
  | write p ds k =>
    simp only [HM.Bad, not_forall, not_not] at hb
    obtain ⟨b, hb, he⟩ := hb
    exact .inl ⟨_, _, .write (live hb) he⟩
  | free p cap k =>
    simp only [HM.Bad, not_forall, not_not] at hb
    obtain ⟨b, hb, he⟩ := hb
    exact .inl ⟨_, _, .free (live hb) he⟩

omit [Allocator] in
theorem tcrew_trans {s0 s1 s2 : TCrew} {tr : List TCEvent} (h : TCrew.Step A s0 [] s1)
    (h' : TCrew.Steps A s1 tr s2) : TCrew.Steps A s0 tr s2 := by
  induction h' with
  | none => exact .more (tr := []) .none h
  | more _ h2 ih => exact .more ih h2

/-- The thread can end its call from here. -/
def TCrew.CanEnd (A : Growth) (s : TCrew) (t n : Nat) (i : TInstr) : Prop :=
  ∃ (r : TSeen) (s' : TCrew) (ks : List Kind) (own : HBank),
    TCrew.Steps A s [.ended t n i r] s' ∧ s'.kinds = s.kinds ∧ s'.shared = s.shared ∧
    s'.workers = s.workers.set t (.idle ks own)

omit [Allocator] in
theorem tcanEnd_access (hs : TCrew.Steps A .start tr s) {t n : Nat} {i : TInstr}
    {m m' : HM (TSeen × List Kind × HBank)} {h' : Heap} (ht : s.workers[t]? = some (.busy n i m))
    (hm : m.Step s.heap m' h')
    (ih : ∀ {tr : List TCEvent} {s : TCrew}, TCrew.Steps A .start tr s →
      s.workers[t]? = some (.busy n i m') → TCrew.CanEnd A s t n i) : TCrew.CanEnd A s t n i := by
  have h1 := TCrew.Step.access (A := A) ht hm
  obtain ⟨r, s', ks, own, k1, k2, k3, k4⟩ := ih (.more hs h1)
    (List.getElem?_set_self (List.getElem?_eq_some_iff.mp ht).1)
  exact ⟨r, s', ks, own, tcrew_trans h1 k1, k2, k3, k4.trans (List.set_set _)⟩

/-- C86: at any point a thread in a call can go on and reach the end of its call while the other
threads stay where they are, and ends it by returning or by panicking. -/
theorem C86_completes (hs : TCrew.Steps A .start tr s) {t n : Nat} {i : TInstr}
    {m : HM (TSeen × List Kind × HBank)} (ht : s.workers[t]? = some (.busy n i m)) :
    ∃ (r : TSeen) (s' : TCrew) (ks : List Kind) (own : HBank),
      TCrew.Steps A s [.ended t n i r] s' ∧ s'.kinds = s.kinds ∧ s'.shared = s.shared ∧
      s'.workers = s.workers.set t (.idle ks own) := by
  show TCrew.CanEnd A s t n i
  induction m generalizing tr s with
  | ret v =>
    obtain ⟨r, ks, b⟩ := v
    exact ⟨r, _, _, _, .more (tr := []) .none (.finish ht), rfl, rfl, rfl⟩
  | fault f => exact absurd rfl ((C86_no_bad_access hs ht).2 f)
  | alloc cap ds k ih =>
    rcases tcrew_progress hs ht with ⟨m', h', hm⟩ | ⟨_, _, _, h⟩
    · cases hm with
      | alloc p hp => exact tcanEnd_access hs ht (.alloc p hp) fun h1 h2 => ih p h1 h2
    · cases h
  | get p k ih =>
    rcases tcrew_progress hs ht with ⟨m', h', hm⟩ | ⟨_, _, _, h⟩
    · cases hm with
      | get live => exact tcanEnd_access hs ht (.get live) fun h1 h2 => ih _ h1 h2
    · cases h
  | write p ds k ih =>
    rcases tcrew_progress hs ht with ⟨m', h', hm⟩ | ⟨_, _, _, h⟩
    · cases hm with
      | write live len => exact tcanEnd_access hs ht (.write live len) fun h1 h2 => ih h1 h2
    · cases h
  | free p cap k ih =>
    rcases tcrew_progress hs ht with ⟨m', h', hm⟩ | ⟨_, _, _, h⟩
    · cases hm with
      | free live len => exact tcanEnd_access hs ht (.free live len) fun h1 h2 => ih h1 h2
    · cases h

/-- C86: a call of a thread that is left alone is the caught call of a program without threads
(`TInstr.caught`, C82): same answer or panic, same types, same pointers, same heap. -/
theorem C86_alone {b : HBank} {h : Heap} (hr : HReachable A b h) (i : TInstr) (ks : List Kind) :
    ∃ r ks' b' h', i.attempt A ks b h = .ok ((r, ks', b'), h') ∧
      i.caught (pointerCall A) ks (b, h) = .ok (r, ks', b', h') := by
  obtain ⟨bs, h1, h2⟩ := hreachable_rep hr
  obtain ⟨s, ks', xs', h', _, e1, e2, _⟩ := tattempt_sim A i ks h2 (reachable_wf h1)
  exact ⟨s, ks', xs', h', e1, e2⟩

end

/-! ## A scheduler and a run -/

/-- What a scheduler lets happen next. -/
inductive TCrewCmd where
  | spawn
  | call (t : Nat) (i : TInstr)
  /-- the next access of thread `t`, or the end of its call -/
  | go (t : Nat)
  | move (t x u : Nat)
  | share (t x : Nat)
  | reclaim (t x : Nat)

/-- The calls in progress began when at most `x` integers were shared. -/
def TCrew.unused (s : TCrew) (x : Nat) : Bool :=
  s.workers.all fun w => match w with
    | .idle _ _ => true
    | .busy n _ _ => n ≤ x

instance tinstr_allowed_decidable (i : TInstr) (n : Nat) : Decidable (i.Allowed n) := by
  unfold TInstr.Allowed; infer_instance

/-- Do it, if it is possible. -/
def TCrew.cmd [Allocator] (A : Growth) (s : TCrew) : TCrewCmd → Option (List TCEvent × TCrew)
  | .spawn => some ([.spawned s.workers.length], { s with workers := s.workers ++ [.idle [] []] })
  | .call t i =>
    match s.workers[t]? with
    | some (.idle ks own) =>
      if i.Allowed s.shared.length then
        some ([], { s with
          workers := s.workers.set t (.busy s.shared.length i
            (i.attempt A (s.kinds ++ ks) (s.shared ++ own))) })
      else none
    | _ => none
  | .go t =>
    match s.workers[t]? with
    | some (.busy n i m) =>
      match m with
      | .ret (r, ks, b) => some ([.ended t n i r],
          { s with workers := s.workers.set t (.idle (ks.drop n) (b.drop n)) })
      | .fault _ => none
      | .alloc cap ds k => some ([], { s with
          heap := ⟨(Allocator.pick s.heap, ⟨cap, ds⟩) :: s.heap.cells,
            s.heap.log ++ [.alloc (Allocator.pick s.heap) cap]⟩
          workers := s.workers.set t (.busy n i (k (Allocator.pick s.heap))) })
      | .get p k =>
        match s.heap.cells.find? (fun c => c.1 == p) with
        | some c => some ([], { s with workers := s.workers.set t (.busy n i (k c.2)) })
        | none => none
      | .write p ds k =>
        match s.heap.cells.find? (fun c => c.1 == p) with
        | some c =>
          if c.2.digits.length = ds.length then
            some ([], { s with
              heap := ⟨s.heap.cells.map (fun c => if c.1 = p then (c.1, ⟨c.2.cap, ds⟩) else c),
                s.heap.log⟩
              workers := s.workers.set t (.busy n i k) })
          else none
        | none => none
      | .free p cap k =>
        match s.heap.cells.find? (fun c => c.1 == p) with
        | some c =>
          if c.2.cap = cap then
            some ([], { s with
              heap := ⟨s.heap.cells.filter (fun c => c.1 != p), s.heap.log ++ [.free p cap]⟩
              workers := s.workers.set t (.busy n i k) })
          else none
        | none => none
    | _ => none
  | .move t x u =>
    match s.workers[t]?, s.workers[u]? with
    | some (.idle ks own), some (.idle ks' own') =>
      match ks[x]?, own[x]? with
      | some k, some a =>
        if t = u then none
        else some ([.moved t x u], { s with
          workers := (s.workers.set t (.idle (ks.eraseIdx x) (own.eraseIdx x))).set u
            (.idle (ks' ++ [k]) (own' ++ [a])) })
      | _, _ => none
    | _, _ => none
  | .share t x =>
    match s.workers[t]? with
    | some (.idle ks own) =>
      match ks[x]?, own[x]? with
      | some k, some a => some ([.shared t x], { s with
          kinds := s.kinds ++ [k], shared := s.shared ++ [a]
          workers := s.workers.set t (.idle (ks.eraseIdx x) (own.eraseIdx x)) })
      | _, _ => none
    | _ => none
  | .reclaim t x =>
    match s.workers[t]? with
    | some (.idle ks own) =>
      match s.kinds[x]?, s.shared[x]? with
      | some k, some a =>
        if TCrew.unused s x then some ([.reclaimed t x], { s with
          kinds := s.kinds.eraseIdx x, shared := s.shared.eraseIdx x
          workers := s.workers.set t (.idle (ks ++ [k]) (own ++ [a])) })
        else none
      | _, _ => none
    | _ => none

theorem tcrewCmd_step [Allocator] {A : Growth} {s s' : TCrew} {c : TCrewCmd} {tr : List TCEvent}
    (e : TCrew.cmd A s c = some (tr, s')) : TCrew.Step A s tr s' := by
  cases c with
  | spawn => cases e; exact .spawn
  | call t i =>
    simp only [TCrew.cmd] at e
    split at e
    · rename_i ht
      split at e
      · rename_i hi; cases e; exact .call ht hi
      · cases e
    · cases e
  | go t =>
    simp only [TCrew.cmd] at e
    split at e
    · rename_i i m ht
      split at e
      · cases e; exact .finish ht
      · cases e
      · cases e; exact .access ht (.alloc _ (Allocator.fresh _))
      · split at e
        · rename_i h1; cases e; exact .access ht (.get h1)
        · cases e
      · split at e
        · rename_i h1
          split at e
          · rename_i h2; cases e; exact .access ht (.write h1 h2)
          · cases e
        · cases e
      · split at e
        · rename_i h1
          split at e
          · rename_i h2; cases e; exact .access ht (.free h1 h2)
          · cases e
        · cases e
    · cases e
  | move t x u =>
    simp only [TCrew.cmd] at e
    split at e
    · rename_i ht hu
      split at e
      · rename_i hk hx
        split at e
        · cases e
        · rename_i ne; cases e; exact .move ne ht hu hk hx
      · cases e
    · cases e
  | share t x =>
    simp only [TCrew.cmd] at e
    split at e
    · rename_i ht
      split at e
      · rename_i hk hx; cases e; exact .share ht hk hx
      · cases e
    · cases e
  | reclaim t x =>
    simp only [TCrew.cmd] at e
    split at e
    · rename_i ht
      split at e
      · rename_i hk hx
        split at e
        · rename_i hu
          cases e
          refine .reclaim ht hk hx ?_
          intro n i m hm
          have := List.all_eq_true.mp hu _ hm
          simpa using this
        · cases e
      · cases e
    · cases e

/-- Several commands. -/
def TCrew.cmds [Allocator] (A : Growth) : List TCrewCmd → TCrew → Option (List TCEvent × TCrew)
  | [], s => some ([], s)
  | c :: cs, s =>
    match TCrew.cmd A s c with
    | some (tr, s) =>
      match TCrew.cmds A cs s with
      | some (tr', s) => some (tr ++ tr', s)
      | none => none
    | none => none

theorem tcrewCmds_steps [Allocator] {A : Growth} {cs : List TCrewCmd} {s0 s s' : TCrew}
    {tr0 tr : List TCEvent} (h : TCrew.Steps A s0 tr0 s) (e : TCrew.cmds A cs s = some (tr, s')) :
    TCrew.Steps A s0 (tr0 ++ tr) s' := by
  induction cs generalizing s tr0 tr with
  | nil => cases e; rw [List.append_nil]; exact h
  | cons c cs ih =>
    simp only [TCrew.cmds] at e
    split at e
    · rename_i tr1 s1 h1
      split at e
      · rename_i tr2 s2 h2
        cases e
        rw [← List.append_assoc]
        exact ih (.more h (tcrewCmd_step h1)) h2
      · cases e
    · cases e

/-- The answers in a trace, with their threads. -/
def tcrewAnswers : List TCEvent → List (Nat × ATSeen)
  | [] => []
  | .ended t _ _ r :: tr => (t, r.abs) :: tcrewAnswers tr
  | _ :: tr => tcrewAnswers tr

attribute [local instance] reusing

/-- Let thread `t` go on `k` times. -/
def tgoes (t k : Nat) : List TCrewCmd := List.replicate k (.go t)

/-- Thread 0 makes the 200-bit `Int` −1 and the largest 150-bit `Int`, starts thread 1 and shares
the 200-bit one.  Thread 1 clones it; in the middle of that thread 0 shares the other one as well.
Then thread 1 adds the 150-bit integer to its clone with `+`, which takes the clone by value, panics
because of the widths and drops the clone, while thread 0 asks for the sign of the shared 200-bit
integer, with two calls on its field.  Thread 1 makes another clone, turns it into a `UInt` and
hands it to thread 0, which takes back the 200-bit `Int` and makes it its absolute value. -/
def intSchedule : List TCrewCmd :=
  [.call 0 (.make (.allSet .signed (bw 200)))] ++ tgoes 0 7 ++
  [.call 0 (.make (.max .signed (bw 150)))] ++ tgoes 0 10 ++
  [.spawn, .share 0 0, .call 1 (.clone 0), .go 1, .share 0 0] ++ tgoes 1 5 ++
  [.call 1 (.op .add 2 1), .go 1, .go 1, .call 0 (.ask .signum 0)] ++ tgoes 0 4 ++ tgoes 1 6 ++
  tgoes 0 3 ++ tgoes 1 3 ++
  [.call 1 (.clone 0)] ++ tgoes 1 7 ++ [.call 1 (.intoUnsigned 2), .go 1, .move 1 0 0] ++
  [.reclaim 0 0, .call 0 (.un .abs 2)] ++ tgoes 0 10

/-- A run with a given view. -/
theorem tcrew_of_view {cs : List TCrewCmd} {α : Type} {f : List TCEvent × TCrew → α} {v : α}
    (e : (TCrew.cmds twice cs .start).map f = some v) :
    ∃ tr s, TCrew.Steps twice .start tr s ∧ f (tr, s) = v := by
  cases hh : TCrew.cmds twice cs .start with
  | none => rw [hh] at e; cases e
  | some r =>
    rw [hh] at e
    exact ⟨r.1, r.2, tcrewCmds_steps (tr0 := []) .none hh, Option.some.inj e⟩

/-- The answers, the requests to the allocator, the types and pointers, and whether all calls have
ended. -/
def tcrewView (r : List TCEvent × TCrew) :
    List (Nat × ATSeen) × List Event × List Kind × HBank × HBank × Bool :=
  (tcrewAnswers r.1, r.2.heap.log, r.2.kinds, r.2.shared, TCrew.owned r.2,
    r.2.workers.all fun w => match w with
      | .idle _ _ => true
      | _ => false)

set_option synthInstance.maxSize 1024 in
theorem intSchedule_end : (TCrew.cmds twice intSchedule .start).map tcrewView = some
    ([(0, .returned (.ok (.out .unit))), (0, .returned (.ok (.out .unit))),
        (1, .returned (.ok (.out .unit))), (0, .returned (.ok (.out (.int (-1))))), (1, .panicked),
        (1, .returned (.ok (.out .unit))), (1, .returned (.ok (.out .unit))),
        (0, .returned (.ok (.out .unit)))],
      [.alloc 0 8, .free 0 8, .alloc 0 4, .alloc 1 6, .free 1 6, .alloc 1 3, .alloc 2 8, .free 2 8,
        .alloc 2 4, .free 2 4, .alloc 2 8, .free 2 8, .alloc 2 4],
      [.signed], [⟨bw 150, .ext 1⟩], [⟨bw 200, .ext 2⟩, ⟨bw 200, .ext 0⟩], true) := by
  decide +kernel

-- The hypotheses of the theorems hold for a run with interleaved calls, a panic that drops an
-- integer taken by value, and integers that are shared, handed over and taken back, and the
-- theorems say what the threads saw.
example : ∃ tr s a, TCrew.Steps twice .start tr s ∧ NoMisuse s.heap.log ∧ ¬ s.Race ∧
    tcrewAnswers tr = [(0, .returned (.ok (.out .unit))), (0, .returned (.ok (.out .unit))),
        (1, .returned (.ok (.out .unit))), (0, .returned (.ok (.out (.int (-1))))), (1, .panicked),
        (1, .returned (.ok (.out .unit))), (1, .returned (.ok (.out .unit))),
        (0, .returned (.ok (.out .unit)))] ∧
    NCrew.Steps .start tr a ∧ a.own.length = 2 ∧
    LiveAt s.heap.log 0 4 ∧ LiveAt s.heap.log 1 3 ∧ LiveAt s.heap.log 2 4 ∧
    ∀ cap, ¬ LiveAt s.heap.log 3 cap := by
  obtain ⟨tr, s, hs, hv⟩ := tcrew_of_view (f := fun r => (tcrewView r, r.2.workers.length)) (by
    have h1 := intSchedule_end
    have h2 : (TCrew.cmds twice intSchedule .start).map (fun r => r.2.workers.length) = some 2 := by
      decide +kernel
    cases hh : TCrew.cmds twice intSchedule .start with
    | none => rw [hh] at h1; cases h1
    | some r =>
      rw [hh] at h1 h2
      simp only [Option.map_some, Option.some.injEq] at h1 h2 ⊢
      rw [h1, h2])
  simp only [tcrewView, Prod.mk.injEq] at hv
  obtain ⟨⟨v1, v2, v3, v4, v5, v6⟩, v7⟩ := hv
  obtain ⟨a, vs, h1, _, _, _, h2, _⟩ := C86_atomic hs
  have hidle : ∀ w ∈ s.workers, ∃ ks own, w = .idle ks own := by
    simp only [List.all_eq_true] at v6
    intro w hw
    have := v6 w hw
    cases w with
    | idle ks own => exact ⟨ks, own, rfl⟩
    | busy => cases this
  obtain ⟨hlive, _⟩ := C86_live hs hidle
  rw [v4, v5] at hlive
  refine ⟨tr, s, a, hs, C86_freed_once hs, C86_no_race hs, v1, h1, h2.trans v7,
    (hlive 0 4).mpr ⟨⟨bw 200, .ext 0⟩, by simp, rfl, rfl⟩,
    (hlive 1 3).mpr ⟨⟨bw 150, .ext 1⟩, by simp, rfl, rfl⟩,
    (hlive 2 4).mpr ⟨⟨bw 200, .ext 2⟩, by simp, rfl, rfl⟩, fun cap => ?_⟩
  rw [hlive]
  simp

-- In the middle of that run both threads are in a call: thread 0 between the two questions it asks
-- for the sign, thread 1 about to write to the integer its call has taken.
example : ((TCrew.cmds twice (intSchedule.take 40) .start).map fun r => r.2.workers.map fun w =>
    match w with
      | .busy n _ m => (n, m.next)
      | .idle _ _ => (0, none)) = some [(2, some (1, false)), (2, some (2, true))] := by
  decide +kernel

-- A shared integer that a call may be using cannot be taken, and a shared one cannot be changed or
-- moved into a call.
example : ((TCrew.cmds twice (intSchedule.take 38 ++ [.reclaim 0 1]) .start).isNone ∧
    (TCrew.cmds twice (intSchedule.take 49 ++ [.reclaim 0 1]) .start).isSome ∧
    (TCrew.cmds twice (intSchedule.take 49 ++ [.call 1 (.alter .flipAll 1)]) .start).isNone ∧
    (TCrew.cmds twice (intSchedule.take 49 ++ [.call 1 (.intoUnsigned 1)]) .start).isNone ∧
    (TCrew.cmds twice (intSchedule.take 49 ++ [.call 1 (.op .add 1 0)]) .start).isNone ∧
    (TCrew.cmds twice (intSchedule.take 49 ++ [.call 1 (.ask2 .partialCmp 1 0)]) .start).isSome) := by
  decide +kernel

-- A step to which `C86_shared_unchanged` applies: the last write of thread 0 to the integer it has
-- taken back, while the 150-bit integer is still shared.
example : ∃ tr s tr' s', TCrew.Steps twice .start tr s ∧ TCrew.Step twice s tr' s' ∧
    s.heap ≠ s'.heap ∧ s.shared = [⟨bw 150, .ext 1⟩] ∧ ∃ vs : TBank,
      s.kinds = vs.map WInt.kind ∧ Reads s.heap s.shared (vs.map WInt.value) ∧
      Reads s'.heap s.shared (vs.map WInt.value) := by
  obtain ⟨tr, s, hs, hv⟩ := tcrew_of_view (cs := intSchedule.take 70)
    (f := fun r => (r.2.shared, (TCrew.cmd twice r.2 (.go 0)).map fun q =>
      decide (r.2.heap = q.2.heap))) (v := ([⟨bw 150, .ext 1⟩], some false)) (by decide +kernel)
  simp only [Prod.mk.injEq] at hv
  obtain ⟨v1, v2⟩ := hv
  cases hc : TCrew.cmd twice s (.go 0) with
  | none => rw [hc] at v2; cases v2
  | some q =>
    rw [hc] at v2
    simp only [Option.map_some, Option.some.injEq, decide_eq_false_iff_not] at v2
    have hstep := tcrewCmd_step (tr := q.1) (s' := q.2) hc
    exact ⟨tr, s, q.1, q.2, hs, hstep, v2, v1, C86_shared_unchanged hs hstep⟩

/-- Thread 1 is about to free in a call that began with so many shared integers. -/
def TCrew.allocating (s : TCrew) : Option Nat :=
  match s.workers[(1 : Nat)]? with
  | some (.busy n _ (.free _ _ _)) => some n
  | _ => none

-- From the middle of that run thread 1 can go on to the end of its call.
example : ∃ tr s, TCrew.Steps twice .start tr s ∧ (∃ i m, s.workers[1]? = some (.busy 2 i m) ∧
    (∃ p cap k, m = .free p cap k) ∧ ∃ (r : TSeen) (s' : TCrew) (ks : List Kind) (own : HBank),
      TCrew.Steps twice s [.ended 1 2 i r] s' ∧ s'.kinds = s.kinds ∧ s'.shared = s.shared ∧
      s'.workers = s.workers.set 1 (.idle ks own)) := by
  obtain ⟨tr, s, hs, hv⟩ := tcrew_of_view (cs := intSchedule.take 47)
    (f := fun r => TCrew.allocating r.2) (v := some 2) (by decide +kernel)
  refine ⟨tr, s, hs, ?_⟩
  simp only [TCrew.allocating] at hv
  split at hv
  · rename_i n i p cap k e
    cases hv
    exact ⟨i, _, e, ⟨p, cap, k, rfl⟩, C86_completes hs e⟩
  · cases hv

-- Alone, a call that panics: same as without threads, and the integer it has taken is gone.
example : ∃ h, HReachable twice [⟨bw 200, .ext 0⟩, ⟨bw 150, .ext 1⟩] h ∧
    (((TInstr.op .add 0 1).attempt twice [.signed, .signed]
        [⟨bw 200, .ext 0⟩, ⟨bw 150, .ext 1⟩] h).toOption.map fun v => (v.1.1.abs, v.1.2)) =
      some (.panicked, [.signed], [⟨bw 150, .ext 1⟩]) ∧
    ∃ r ks' b' h', (TInstr.op .add 0 1).attempt twice [.signed, .signed]
        [⟨bw 200, .ext 0⟩, ⟨bw 150, .ext 1⟩] h = .ok ((r, ks', b'), h') ∧
      (TInstr.op .add 0 1).caught (pointerCall twice) [.signed, .signed]
        ([⟨bw 200, .ext 0⟩, ⟨bw 150, .ext 1⟩], h) = .ok (r, ks', b', h') := by
  obtain ⟨h, hr, hc, hl⟩ := lendProgram_end
  have hr : HReachable twice [⟨bw 200, .ext 0⟩, ⟨bw 150, .ext 1⟩] h := hr
  refine ⟨h, hr, ?_, C86_alone hr _ _⟩
  obtain ⟨c, l⟩ := h
  subst hc hl
  decide +kernel

end Verif.Props
