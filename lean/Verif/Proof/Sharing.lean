import Verif.SpecSharing
import Verif.Proof.Threads
import Verif.Proof.HeapUnwind

/-!
# Threads that share integers do not disturb each other

As in `Proof/Threads.lean`: a call runs on the part of the heap made of the buffers that were shared
when it began, which it only reads, and of those of its thread.
-/

namespace Verif

open ApInt HM

/-! ## A call with unwinding -/

section

variable {S : Nat → Prop}

theorem loadAll_foot (xs : HBank) : (loadAll xs).Foot S Any := by
  induction xs generalizing S with
  | nil => exact .pure trivial
  | cons x xs ih =>
    exact (load_foot x).bind fun _ _ _ _ => ih.bind fun _ _ _ _ => .pure trivial

theorem magnitude_foot {x : HInt} (hx : x.In S) : x.magnitude.Foot S (fun y S' => y.In S') :=
  (inPlace_foot hx _).bind fun _ _ _ h => .pure h

theorem hleft_foot (A : Growth) (i : Instr) (shared own : HBank) (hi : i.Allowed shared.length)
    (hown : ∀ x ∈ own, x.In S) :
    (i.hleft A (shared ++ own)).Foot S (Lends shared) := by
  have own_in : ∀ {n : Nat} {x : HInt}, n ∈ i.mutates → (shared ++ own)[n]? = some x → x.In S := by
    intro n x hn hx
    have hl := hi n hn
    rw [List.getElem?_append_right hl] at hx
    exact hown x (List.mem_of_getElem? hx)
  have here : ∀ {S' : Nat → Prop}, (∀ p, S p → S' p) → Lends shared (shared ++ own) S' :=
    fun hs => ⟨own, rfl, fun x hx => (hown x hx).mono hs⟩
  have same : (pure (shared ++ own) : HM HBank).Foot S (Lends shared) :=
    here fun _ h => h
  have one : ∀ {n : Nat} {k : HInt → HM HBank},
      (∀ x, (shared ++ own)[n]? = some x → (k x).Foot S (Lends shared)) →
      (match (shared ++ own)[n]? with
        | some x => k x
        | none => pure (shared ++ own) : HM HBank).Foot S (Lends shared) := by
    intro n k hk
    split
    · rename_i x hx; exact hk x hx
    · exact same
  have two : ∀ {n n' : Nat} {k : HInt → HInt → HM HBank},
      (∀ x y, (shared ++ own)[n]? = some x → (shared ++ own)[n']? = some y →
        (k x y).Foot S (Lends shared)) →
      (match (shared ++ own)[n]?, (shared ++ own)[n']? with
        | some x, some y => k x y
        | _, _ => pure (shared ++ own) : HM HBank).Foot S
          (Lends shared) := by
    intro n n' k hk
    split
    · rename_i x y hx hy; exact hk x y hx hy
    · exact same
  have inPlace : ∀ {x y : Nat}, x ∈ i.mutates →
      (match (shared ++ own)[x]?, (shared ++ own)[y]? with
        | some a, some c => do
          let rhsClone ← c.clone A
          let a ← a.magnitude
          let rhsClone ← rhsClone.magnitude
          rhsClone.dropDigits
          pure ((shared ++ own).set x a)
        | _, _ => pure (shared ++ own) : HM HBank).Foot S
          (Lends shared) := by
    intro x y hx
    refine two fun a c ha _ => ?_
    refine (clone_foot A c).bind fun z S1 h1 hz => ?_
    refine (magnitude_foot ((own_in hx ha).mono h1)).bind fun a S2 h2 ha => ?_
    refine (magnitude_foot (hz.mono h2)).bind fun z S3 h3 hz => ?_
    exact (drop_foot hz).bind fun _ _ h4 _ => .pure
      ((here fun p h => h4 p (h3 p (h2 p (h1 p h)))).set (hi x hx) ((ha.mono h3).mono h4))
  have consuming : ∀ {x y : Nat},
      (match (shared ++ own)[x]?, (shared ++ own)[y]? with
        | some a, some c => do
          let a ← a.clone A
          let rhsClone ← c.clone A
          let a ← a.magnitude
          let rhsClone ← rhsClone.magnitude
          rhsClone.dropDigits
          a.dropDigits
          pure (shared ++ own)
        | _, _ => pure (shared ++ own) : HM HBank).Foot S
          (Lends shared) := by
    intro x y
    refine two fun a c _ _ => ?_
    refine (clone_foot A a).bind fun a S1 h1 ha => (clone_foot A c).bind fun z S2 h2 hz => ?_
    refine (magnitude_foot (ha.mono h2)).bind fun a S3 h3 ha => ?_
    refine (magnitude_foot (hz.mono h3)).bind fun z S4 h4 hz => ?_
    refine (drop_foot hz).bind fun _ S5 h5 _ => ?_
    exact (drop_foot ((ha.mono h4).mono h5)).bind fun _ _ h6 _ =>
      .pure (here fun p h => h6 p (h5 p (h4 p (h3 p (h2 p (h1 p h))))))
  have pair : ∀ {x y : Nat}, x ∈ i.mutates → y ∈ i.mutates →
      (match (shared ++ own)[x]?, (shared ++ own)[y]? with
        | some a, some c => do
          let a ← a.magnitude
          let c ← c.magnitude
          pure (((shared ++ own).set x a).set y c)
        | _, _ => pure (shared ++ own) : HM HBank).Foot S
          (Lends shared) := by
    intro x y hx hy
    refine two fun a c ha hc => ?_
    refine (magnitude_foot (own_in hx ha)).bind fun a S1 h1 ha => ?_
    refine (magnitude_foot ((own_in hy hc).mono h1)).bind fun c S2 h2 hc => .pure ?_
    exact ((here fun p h => h2 p (h1 p h)).set (hi x hx) (ha.mono h2)).set (hi y hy) hc
  cases i with
  | bin o x y =>
    cases o <;> first
      | exact same
      | exact inPlace (by simp [Instr.mutates])
  | intoBin o x y =>
    cases o <;> first
      | exact same
      | exact consuming
  | pair o x y =>
    cases o <;> first
      | exact same
      | exact pair (by simp [Instr.mutates]) (by simp [Instr.mutates])
  | op o x y =>
    refine two fun a _ _ _ => (clone_foot A a).bind fun z _ h1 hz => ?_
    exact (drop_foot hz).bind fun _ _ h2 _ => .pure (here fun p h => h2 p (h1 p h))
  | opShl s x =>
    refine one fun a _ => (clone_foot A a).bind fun z _ h1 hz => ?_
    exact (drop_foot hz).bind fun _ _ h2 _ => .pure (here fun p h => h2 p (h1 p h))
  | _ => exact same

/-- Nothing shared is moved, and what the thread owns can be written to. -/
def KeepsShared (shared : HBank) (v : Seen × HBank) (S : Nat → Prop) : Prop := Lends shared v.2 S

theorem attempt_foot (A : Growth) (i : Instr) (shared own : HBank) (hi : i.Allowed shared.length)
    (hown : ∀ x ∈ own, x.In S) : (i.attempt A (shared ++ own)).Foot S (KeepsShared shared) := by
  unfold Instr.attempt
  refine (loadAll_foot _).bind fun bs S1 h1 _ => ?_
  have ho : ∀ x ∈ own, x.In S1 := fun x hx => (hown x hx).mono h1
  split
  · exact (hleft_foot A i shared own hi ho).bind fun b _ _ h => .pure h
  · exact (hexec_foot A i shared own hi ho).bind fun b _ _ h => .pure h

end

section

variable [Allocator] {h : Heap} {xs : HBank} {bs : Bank}

theorem loadAll_ok {K : List (Nat × Block)} (hm : List.Forall₂ Match xs bs)
    (hb : ∀ a ∈ bs, a.WF) (hG : Sep h K) (hc : ∀ c ∈ cellsOf xs bs, c ∈ K) :
    loadAll xs h = .ok (bs, h) := by
  induction hm with
  | nil => rfl
  | @cons x a xs bs hx _ ih =>
    rw [cellsOf_cons] at hc
    have e : x.load h = .ok (a, h) := Sees.load ⟨(hb a List.mem_cons_self).1, hx, K, hG,
      fun c h' => hc c (List.mem_append_left _ h')⟩
    have e' := ih (fun a ha => hb a (List.mem_cons_of_mem _ ha)) fun c h' => hc c
      (List.mem_append_right _ h')
    unfold loadAll
    rw [hm_bind_ok e, hm_bind_ok e']; rfl

/-- Alone, the call of a thread is the caught call of `Model/HeapUnwind.lean`. -/
theorem attempt_alone (A : Growth) (i : Instr) (hr : Rep h xs bs) (hb : ∀ a ∈ bs, a.WF) :
    i.attempt A xs h = i.hcaught A xs h := by
  unfold Instr.attempt Instr.hcaught
  rw [hm_bind_ok (loadAll_ok hr.mat hb hr.sep fun _ h => h)]
  have hs := hexec_sim A i hr hb
  cases he : i.exec bs with
  | ok v =>
    rw [he] at hs
    obtain ⟨v, h', e', h1, h2⟩ := hs
    simp only [e']
    rw [hm_bind_ok e']; rfl
  | error f =>
    have := (exec_fault i hb he).1
    subst this
    rw [he] at hs
    have hs : i.hexec A xs h = .error .panic := hs
    rw [hs]
    obtain ⟨xs', h', bs', e1, _⟩ := hleft_ok A i hr hb hs
    simp only [e1]
    rw [hm_bind_ok e1]; rfl

end

/-- What a finished call leaves on the part of the heap of its thread. -/
def Leaves (i : Instr) (bs : Bank) (v : Seen × HBank) (h : Heap) : Prop :=
  ∃ bs', i.caught bs = .ok (v.1, bs') ∧ Rep h v.2 bs'

theorem attempt_running (A : Growth) (i : Instr) {shared own : HBank} {vs bs : Bank}
    {F : List (Nat × Block)} (hi : i.Allowed shared.length) (hl : List.Forall₂ Match shared vs)
    (hv : ∀ a ∈ vs, a.WF) (ho : List.Forall₂ Match own bs) (hb : ∀ a ∈ bs, a.WF)
    (hF : F.Perm (cellsOf own bs)) (hn : ((F ++ cellsOf shared vs).map Prod.fst).Nodup) :
    Running (cellsOf shared vs) F (i.attempt A (shared ++ own)) (Leaves i (vs ++ bs)) False
      (KeepsShared shared) := by
  have hwf : ∀ a ∈ vs ++ bs, a.WF := fun a ha => (List.mem_append.mp ha).elim (hv a) (hb a)
  have hsep := canon_sep hn
  have hrep : Rep (canon (F ++ cellsOf shared vs)) (shared ++ own) (vs ++ bs) := by
    refine ⟨forall₂_append hl ho, hsep.reorder ?_⟩
    rw [cellsOf_append hl]
    exact (List.perm_append_comm).trans (hF.append_left _)
  refine ⟨_, fun p => ∃ x ∈ own, x.data = .ext p, hsep, ?_, ?_, ?_⟩
  · intro I
    obtain ⟨s, xs', h', bs', e1, e2, r, _⟩ := hcaught_sim A i hrep hwf
    rw [attempt_alone A i hrep hwf, e1]
    exact ⟨bs', e2, r⟩
  · exact attempt_foot A i shared own hi fun x hx p hp => ⟨x, hx, hp⟩
  · rintro c hc ⟨x, hx, hp⟩
    obtain ⟨b, hb⟩ := ptr_cell ho hx hp
    rw [List.map_append, List.nodup_append] at hn
    exact hn.2.2 c.1 (List.mem_map.mpr ⟨_, hF.mem_iff.mpr hb, rfl⟩) c.1
      (List.mem_map.mpr ⟨_, hc, rfl⟩) rfl

theorem attempt_ends {i : Instr} {shared : HBank} {vs bs : Bank} {F : List (Nat × Block)} {r : Seen}
    {b : HBank} (hl : List.Forall₂ Match shared vs)
    (hr : Running (cellsOf shared vs) F (.ret (r, b)) (Leaves i (vs ++ bs)) False (KeepsShared shared)) :
    ∃ own bs', b = shared ++ own ∧ i.caught (vs ++ bs) = .ok (r, vs ++ bs') ∧
      List.Forall₂ Match own bs' ∧ F.Perm (cellsOf own bs') := by
  obtain ⟨h, S, hs, hg, ⟨own, hb, _⟩, _⟩ := hr
  obtain ⟨bs', e, hrep⟩ := hg.ret
  simp only at hb hrep
  subst hb
  obtain ⟨b1, b2, rfl, m1, m2⟩ := match_append hrep.mat
  have hc := hrep.sep.perm
  rw [cellsOf_append m1] at hc
  have : vs = b1 := by
    refine cells_inj hl m1 hs.nodup (fun c hc' => hs.perm.mem_iff.mpr (List.mem_append_right _ hc'))
      fun c hc' => hc.mem_iff.mpr (List.mem_append_left _ hc')
  subst this
  refine ⟨own, b2, rfl, e, m2, ?_⟩
  have := (hs.perm.symm.trans hc).trans List.perm_append_comm
  exact (List.perm_append_right_iff _).mp this

/-! ## All threads -/

/-- One thread: its buffers, and the pure integers it has or had when its call began. -/
def WInv (shared : HBank) (vs : Bank) : Worker → List (Nat × Block) × Bank → Prop
  | .idle own, (F, bs) =>
    List.Forall₂ Match own bs ∧ (∀ a ∈ bs, a.WF) ∧ F.Perm (cellsOf own bs)
  | .busy n i m, (F, bs) =>
    n ≤ shared.length ∧ (∀ a ∈ bs, a.WF) ∧
      Running (cellsOf (shared.take n) (vs.take n)) F m (Leaves i (vs.take n ++ bs)) False
        (KeepsShared (shared.take n))

/-- The buffers of all threads. -/
def cbuffers {β : Type} (parts : List (List (Nat × Block) × β)) : List (Nat × Block) :=
  (parts.map Prod.fst).flatten

structure CInv (s : Crew) (vs : Bank) (parts : List (List (Nat × Block) × Bank)) : Prop where
  mat : List.Forall₂ Match s.shared vs
  wf : ∀ a ∈ vs, a.WF
  workers : List.Forall₂ (WInv s.shared vs) s.workers parts
  sep : Sep s.heap (cellsOf s.shared vs ++ cbuffers parts)

/-- The abstract machine that goes with it. -/
def absCrew (vs : Bank) (parts : List (List (Nat × Block) × Bank)) : ACrew :=
  ⟨vs.map ApInt.abs, parts.map fun p => p.2.map ApInt.abs⟩

/-- Look at the buffers of one thread; `R` are those of the others. -/
theorem cbuffers_focus {β : Type} {parts : List (List (Nat × Block) × β)} {t : Nat}
    {q : List (Nat × Block) × β} (hq : parts[t]? = some q) :
    ∃ R, (∀ q', (cbuffers (parts.set t q')).Perm (q'.1 ++ R)) ∧
      ∀ u q', u ≠ t → parts[u]? = some q' → ∀ c ∈ q'.1, c ∈ R := by
  have e : ∀ ps : List (List (Nat × Block) × β),
      cbuffers ps = buffers (ps.map fun p => (p.1, some [])) := by
    intro ps
    unfold cbuffers buffers
    rw [List.map_map]; rfl
  obtain ⟨R, h1, h2⟩ := buffers_focus (parts := parts.map fun p => (p.1, some [])) (t := t)
    (q := (q.1, some [])) (by rw [List.getElem?_map, hq]; rfl)
  refine ⟨R, fun q' => ?_, fun u q' hu he => h2 u (q'.1, some []) hu (by rw [List.getElem?_map, he]; rfl)⟩
  rw [e, List.map_set]
  exact h1 (q'.1, some [])

theorem crew_get {vs : Bank} {parts : List (List (Nat × Block) × Bank)} {t : Nat}
    {F : List (Nat × Block)} {bs : Bank} (hq : parts[t]? = some (F, bs)) :
    (absCrew vs parts).own[t]? = some (bs.map ApInt.abs) := by
  simp only [absCrew, List.getElem?_map, hq, Option.map_some]

theorem match_take {xs : HBank} {bs : Bank} (hm : List.Forall₂ Match xs bs) (n : Nat) :
    List.Forall₂ Match (xs.take n) (bs.take n) := by
  induction hm generalizing n with
  | nil => simp
  | cons h _ ih =>
    cases n with
    | zero => exact .nil
    | succ n => exact .cons h (ih n)

theorem cellsOf_take {xs : HBank} {bs : Bank} (hm : List.Forall₂ Match xs bs) (n : Nat) :
    cellsOf xs bs = cellsOf (xs.take n) (bs.take n) ++ cellsOf (xs.drop n) (bs.drop n) := by
  rw [← cellsOf_append (match_take hm n), List.take_append_drop, List.take_append_drop]

theorem take_eraseIdx {α : Type} {l : List α} {n x : Nat} (h : n ≤ x) :
    (l.eraseIdx x).take n = l.take n := by
  induction l generalizing n x with
  | nil => simp
  | cons a l ih =>
    cases n with
    | zero => simp
    | succ n =>
      cases x with
      | zero => omega
      | succ x =>
        rw [List.eraseIdx_cons_succ, List.take_succ_cons, List.take_succ_cons, ih (by omega)]

/-- A call in progress only depends on what was shared when it began. -/
theorem WInv.change {shared shared' : HBank} {vs vs' : Bank} {w : Worker}
    {q : List (Nat × Block) × Bank} (h : WInv shared vs w q)
    (hk : ∀ n i m, w = .busy n i m → n ≤ shared.length → n ≤ shared'.length ∧
      shared'.take n = shared.take n ∧ vs'.take n = vs.take n) : WInv shared' vs' w q := by
  cases w with
  | idle own => exact h
  | busy n i m =>
    obtain ⟨h1, h2, h3⟩ := h
    obtain ⟨k1, k2, k3⟩ := hk n i m rfl h1
    refine ⟨k1, h2, ?_⟩
    rw [k2, k3]
    exact h3

theorem rel_change {shared shared' : HBank} {vs vs' : Bank} {ws : List Worker}
    {parts : List (List (Nat × Block) × Bank)} (h : List.Forall₂ (WInv shared vs) ws parts)
    (hk : ∀ n i m, .busy n i m ∈ ws → n ≤ shared.length → n ≤ shared'.length ∧
      shared'.take n = shared.take n ∧ vs'.take n = vs.take n) :
    List.Forall₂ (WInv shared' vs') ws parts := by
  induction h with
  | nil => exact .nil
  | cons h _ ih =>
    refine .cons (h.change fun n i m e => hk n i m (e ▸ List.mem_cons_self)) (ih ?_)
    exact fun n i m hm => hk n i m (List.mem_cons_of_mem _ hm)

/-- The part of one thread and of the rest. -/
theorem crew_part {s : Crew} {vs : Bank} {parts : List (List (Nat × Block) × Bank)}
    (hi : CInv s vs parts) {t : Nat} {w : Worker} (ht : s.workers[t]? = some w) :
    ∃ F bs R, parts[t]? = some (F, bs) ∧ WInv s.shared vs w (F, bs) ∧
      Sep s.heap (F ++ (cellsOf s.shared vs ++ R)) ∧
      (∀ q', (cbuffers (parts.set t q')).Perm (q'.1 ++ R)) ∧
      ∀ u q, u ≠ t → parts[u]? = some q → ∀ c ∈ q.1, c ∈ R := by
  obtain ⟨⟨F, bs⟩, hq, hinv⟩ := rel_get hi.workers ht
  obtain ⟨R, hR, hR'⟩ := cbuffers_focus hq
  have hb := hR (F, bs)
  rw [set_get hq] at hb
  exact ⟨F, bs, R, hq, hinv, hi.sep.reorder ((hb.append_left _).trans (perm_mid _ _ _)), hR, hR'⟩

/-- The end of a call. -/
theorem crew_end {s : Crew} {vs : Bank} {parts : List (List (Nat × Block) × Bank)}
    (hi : CInv s vs parts) {t n : Nat} {i : Instr} {r : Seen} {b : HBank}
    (ht : s.workers[t]? = some (.busy n i (.ret (r, b)))) :
    ∃ F bs bs', parts[t]? = some (F, bs) ∧ n ≤ s.shared.length ∧
      CInv { s with workers := s.workers.set t (.idle (b.drop n)) } vs (parts.set t (F, bs')) ∧
      i.specCaught ((vs.map ApInt.abs).take n ++ bs.map ApInt.abs) =
        (r.abs, (vs.map ApInt.abs).take n ++ bs'.map ApInt.abs) := by
  obtain ⟨F, bs, R, hq, ⟨hn, h1, h2⟩, hsep, _⟩ := crew_part hi ht
  obtain ⟨own, bs', rfl, h3, h4, h5⟩ := attempt_ends (match_take hi.mat n) h2
  have hwf' : ∀ a ∈ vs.take n ++ bs, a.WF := fun a ha =>
    (List.mem_append.mp ha).elim (fun ha => hi.wf a (List.mem_of_mem_take ha)) (h1 a)
  obtain ⟨s', c, e, hc, hsp⟩ := caught_agrees i hwf'
  cases e.symm.trans h3
  have hlen : (s.shared.take n).length = n := by rw [List.length_take]; omega
  refine ⟨F, bs, bs', hq, hn, ⟨hi.mat, hi.wf, ?_, ?_⟩, ?_⟩
  · refine rel_set hi.workers t ?_
    have : (s.shared.take n ++ own).drop n = own := List.drop_left' hlen
    rw [this]
    exact ⟨h4, fun a ha => hc a (List.mem_append_right _ ha), h5⟩
  · refine hi.sep.reorder (List.Perm.append_left _ (.of_eq ?_))
    simp only [cbuffers, List.map_set]
    rw [set_get]
    rw [List.getElem?_map, hq]; rfl
  · rw [List.map_append, List.map_append, List.map_take] at hsp
    exact hsp.symm

/-- One step of one thread. -/
theorem crew_step (A : Growth) {s s' : Crew} {tr : List CEvent} {vs : Bank}
    {parts : List (List (Nat × Block) × Bank)} (hi : CInv s vs parts)
    (hs : Crew.Step A s tr s') :
    ∃ vs' parts', CInv s' vs' parts' ∧
      (∀ c ∈ cellsOf s.shared vs, c ∈ cellsOf s'.shared vs' ++ cbuffers parts') ∧
      ∀ a tr0, ACrew.Steps a tr0 (absCrew vs parts) →
        ACrew.Steps a (tr0 ++ tr) (absCrew vs' parts') := by
  cases hs with
  | spawn =>
    refine ⟨vs, parts ++ [([], [])], ⟨hi.mat, hi.wf, rel_push hi.workers ⟨.nil, by simp, .refl _⟩, ?_⟩,
      fun c hc => List.mem_append_left _ hc, ?_⟩
    · refine hi.sep.reorder (List.Perm.append_left _ (.of_eq ?_))
      simp [cbuffers]
    · intro a tr0 h
      refine .more h ?_
      have : absCrew vs (parts ++ [([], [])]) =
          { absCrew vs parts with own := (absCrew vs parts).own ++ [[]] } := by simp [absCrew]
      rw [this, hi.workers.length_eq]
      have hl : parts.length = (absCrew vs parts).own.length := by simp [absCrew]
      rw [hl]
      exact .spawned
  | @call t own i ht hal =>
    obtain ⟨F, bs, R, hq, ⟨h1, h2, h3⟩, hsep, _⟩ := crew_part hi ht
    have hn := hsep.nodup'
    rw [← List.append_assoc, List.map_append, List.nodup_append] at hn
    refine ⟨vs, parts, ⟨hi.mat, hi.wf, ?_, hi.sep⟩, fun c hc => List.mem_append_left _ hc, ?_⟩
    · have hv : vs.take s.shared.length = vs := by
        rw [hi.mat.length_eq, List.take_length]
      have := rel_set hi.workers t
        (a := .busy s.shared.length i (i.attempt A (s.shared ++ own))) (b := (F, bs))
        ⟨le_refl _, h2, by
          rw [List.take_length, hv]
          exact attempt_running A i hal hi.mat hi.wf h1 h2 h3 hn.1⟩
      rwa [set_get hq] at this
    · intro a tr0 h
      rw [List.append_nil]
      exact h
  | @access t n i m m' h ht hm =>
    obtain ⟨F, bs, R, hq, ⟨h0, h1, h2⟩, hsep, hR, _⟩ := crew_part hi ht
    rw [cellsOf_take hi.mat n, List.append_assoc] at hsep
    obtain ⟨F', h3, h4⟩ := h2.step hsep hm
    rw [← List.append_assoc (cellsOf (s.shared.take n) (vs.take n)), ← cellsOf_take hi.mat n] at h4
    refine ⟨vs, parts.set t (F', bs), ⟨hi.mat, hi.wf, rel_set hi.workers t ⟨h0, h1, h3⟩, ?_⟩,
      fun c hc => List.mem_append_left _ hc, ?_⟩
    · exact h4.reorder ((perm_mid _ _ _).symm.trans ((hR (F', bs)).symm.append_left _))
    · intro a tr0 h
      rw [List.append_nil]
      have : absCrew vs (parts.set t (F', bs)) = absCrew vs parts := by
        simp only [absCrew, List.map_set]
        rw [set_get]
        rw [List.getElem?_map, hq]; rfl
      rw [this]
      exact h
  | @finish t n i r b ht =>
    obtain ⟨F, bs, bs', hq, hn, hinv, hsp⟩ := crew_end hi ht
    refine ⟨vs, parts.set t (F, bs'), hinv, fun c hc => List.mem_append_left _ hc, ?_⟩
    intro a tr0 h
    refine .more h ?_
    have : absCrew vs (parts.set t (F, bs')) = { absCrew vs parts with
        own := (absCrew vs parts).own.set t (bs'.map ApInt.abs) } := by
      simp [absCrew, List.map_set]
    rw [this]
    unfold Instr.specCaught at hsp
    split at hsp
    · rename_i r' b' e
      have e1 := congrArg Prod.fst hsp
      have e2 := congrArg Prod.snd hsp
      simp only [Seen.abs, ASeen.returned.injEq] at e1 e2
      subst e1 e2
      exact .returned (by simpa [absCrew, hi.mat.length_eq] using hn) (crew_get hq) e
    · cases congrArg Prod.fst hsp
  | @unwound t n i b ht =>
    obtain ⟨F, bs, bs', hq, hn, hinv, hsp⟩ := crew_end hi ht
    refine ⟨vs, parts.set t (F, bs'), hinv, fun c hc => List.mem_append_left _ hc, ?_⟩
    intro a tr0 h
    refine .more h ?_
    have : absCrew vs (parts.set t (F, bs')) = { absCrew vs parts with
        own := (absCrew vs parts).own.set t (bs'.map ApInt.abs) } := by
      simp [absCrew, List.map_set]
    rw [this]
    unfold Instr.specCaught at hsp
    split at hsp
    · cases congrArg Prod.fst hsp
    · rename_i e
      exact .panicked (by simpa [absCrew, hi.mat.length_eq] using hn) (crew_get hq) e
        (congrArg Prod.snd hsp)
  | @move t u x own own' a ne ht hu hx =>
    obtain ⟨F, bs, R1, hq, ⟨h1, h2, h3⟩, _, r1, _⟩ := crew_part hi ht
    obtain ⟨F', bs', _, hq', ⟨h1', h2', h3'⟩, _, _, _⟩ := crew_part hi hu
    obtain ⟨v, hv, hav⟩ := rel_get h1 hx
    obtain ⟨K, k1, _, k3, _⟩ := focus h1 hx hv
    have hq'' : (parts.set t (K, bs.eraseIdx x))[u]? = some (F', bs') := by
      rw [List.getElem?_set_ne ne]; exact hq'
    obtain ⟨R2, r2, _⟩ := cbuffers_focus hq''
    refine ⟨vs, (parts.set t (K, bs.eraseIdx x)).set u (cell a v ++ F', bs' ++ [v]),
      ⟨hi.mat, hi.wf, ?_, ?_⟩, fun c hc => List.mem_append_left _ hc, ?_⟩
    · refine rel_set (rel_set hi.workers t (a := .idle (own.eraseIdx x)) (b := (K, bs.eraseIdx x))
        ⟨forall₂_erase h1 x, ?_, k3⟩) u (a := .idle (own' ++ [a]))
        (b := (cell a v ++ F', bs' ++ [v])) ⟨forall₂_push h1' hav, ?_, ?_⟩
      · intro c hc; exact h2 c (List.mem_of_mem_eraseIdx hc)
      · intro c hc
        rcases List.mem_append.mp hc with hc | hc
        · exact h2' c hc
        · rw [List.mem_singleton.mp hc]; exact h2 v (List.mem_of_getElem? hv)
      · exact (h3'.append_left _).trans (cellsOf_push h1' a v).symm
    · refine hi.sep.reorder (List.Perm.append_left _ ?_)
      have e1 := r1 (F, bs)
      rw [set_get hq] at e1
      have e2 := r1 (K, bs.eraseIdx x)
      have e3 := r2 (F', bs')
      rw [set_get hq''] at e3
      refine e1.trans (.trans ?_ (r2 _).symm)
      refine (((h3.trans k1)).append_right _).trans ?_
      simp only [List.append_assoc]
      exact (e2.symm.trans e3).append_left _
    · intro a0 tr0 h
      refine .more h ?_
      have : absCrew vs ((parts.set t (K, bs.eraseIdx x)).set u (cell a v ++ F', bs' ++ [v])) =
          { absCrew vs parts with
            own := ((absCrew vs parts).own.set t ((bs.map ApInt.abs).eraseIdx x)).set u
              (bs'.map ApInt.abs ++ [v.abs]) } := by
        simp [absCrew, List.map_set, List.eraseIdx_map]
      rw [this]
      refine .moved ne (crew_get hq) (crew_get hq') ?_
      rw [List.getElem?_map, hv]; rfl
  | @share t x own a ht hx =>
    obtain ⟨F, bs, R, hq, ⟨h1, h2, h3⟩, hsep, r1, _⟩ := crew_part hi ht
    obtain ⟨v, hv, hav⟩ := rel_get h1 hx
    obtain ⟨K, k1, _, k3, _⟩ := focus h1 hx hv
    have hc := cellsOf_push hi.mat a v
    refine ⟨vs ++ [v], parts.set t (K, bs.eraseIdx x), ⟨forall₂_push hi.mat hav, ?_, ?_, ?_⟩, ?_, ?_⟩
    · intro c hc
      rcases List.mem_append.mp hc with hc | hc
      · exact hi.wf c hc
      · rw [List.mem_singleton.mp hc]; exact h2 v (List.mem_of_getElem? hv)
    · refine rel_set (rel_change hi.workers ?_) t ⟨forall₂_erase h1 x, ?_, k3⟩
      · intro n i m _ hn
        have hn' : n ≤ vs.length := by rw [← hi.mat.length_eq]; exact hn
        exact ⟨by rw [List.length_append]; omega, List.take_append_of_le_length hn,
          List.take_append_of_le_length hn'⟩
      · intro c hc; exact h2 c (List.mem_of_mem_eraseIdx hc)
    · refine hsep.reorder ?_
      refine ((h3.trans k1).append_right _).trans ?_
      refine .trans ?_ (hc.symm.append_right _)
      rw [List.append_assoc, List.append_assoc]
      refine List.Perm.append_left _ ?_
      exact (perm_mid _ _ _).symm.trans ((r1 (K, bs.eraseIdx x)).symm.append_left _)
    · intro c hc'
      exact List.mem_append_left _ (hc.mem_iff.mpr (List.mem_append_right _ hc'))
    · intro a0 tr0 h
      refine .more h ?_
      have : absCrew (vs ++ [v]) (parts.set t (K, bs.eraseIdx x)) =
          ⟨(absCrew vs parts).shared ++ [v.abs],
            (absCrew vs parts).own.set t ((bs.map ApInt.abs).eraseIdx x)⟩ := by
        simp [absCrew, List.map_set, List.eraseIdx_map]
      rw [this]
      refine .shared (crew_get hq) ?_
      rw [List.getElem?_map, hv]; rfl
  | @reclaim t x own a ht hx hun =>
    obtain ⟨F, bs, R, hq, ⟨h1, h2, h3⟩, hsep, r1, _⟩ := crew_part hi ht
    obtain ⟨v, hv, hav⟩ := rel_get hi.mat hx
    obtain ⟨K, k1, _, k3, _⟩ := focus hi.mat hx hv
    have hc := cellsOf_push h1 a v
    have hp : (F ++ (cellsOf s.shared vs ++ R)).Perm (cellsOf (s.shared.eraseIdx x) (vs.eraseIdx x) ++
        cbuffers (parts.set t (cell a v ++ F, bs ++ [v]))) := by
      refine .trans ?_ ((r1 (cell a v ++ F, bs ++ [v])).symm.append_left _)
      refine .trans ?_ (k3.append_right _)
      refine (perm_mid _ _ _).symm.trans ?_
      refine (k1.append_right _).trans ?_
      rw [List.append_assoc, List.append_assoc]
      exact perm_mid _ _ _
    refine ⟨vs.eraseIdx x, parts.set t (cell a v ++ F, bs ++ [v]),
      ⟨forall₂_erase hi.mat x, ?_, ?_, ?_⟩, ?_, ?_⟩
    · intro c hc; exact hi.wf c (List.mem_of_mem_eraseIdx hc)
    · refine rel_set (rel_change hi.workers ?_) t ⟨forall₂_push h1 hav, ?_, ?_⟩
      · intro n i m hm hn
        have hnx := hun n i m hm
        have hlt : x < s.shared.length := (List.getElem?_eq_some_iff.mp hx).1
        refine ⟨?_, take_eraseIdx hnx, take_eraseIdx hnx⟩
        rw [List.length_eraseIdx_of_lt hlt]; omega
      · intro c hc
        rcases List.mem_append.mp hc with hc | hc
        · exact h2 c hc
        · rw [List.mem_singleton.mp hc]; exact hi.wf v (List.mem_of_getElem? hv)
      · exact (h3.append_left _).trans hc.symm
    · exact hsep.reorder hp
    · intro c hc'
      exact hp.mem_iff.mp (List.mem_append_right _ (List.mem_append_left _ hc'))
    · intro a0 tr0 h
      refine .more h ?_
      have : absCrew (vs.eraseIdx x) (parts.set t (cell a v ++ F, bs ++ [v])) =
          ⟨(absCrew vs parts).shared.eraseIdx x,
            (absCrew vs parts).own.set t (bs.map ApInt.abs ++ [v.abs])⟩ := by
        simp [absCrew, List.map_set, List.eraseIdx_map]
      rw [this]
      refine .reclaimed (crew_get hq) ?_
      show (vs.map ApInt.abs)[x]? = _
      rw [List.getElem?_map, hv]; rfl

theorem crew_inv (A : Growth) {s : Crew} {tr : List CEvent} (hs : Crew.Steps A .start tr s) :
    ∃ vs parts, CInv s vs parts ∧ ACrew.Steps .start tr (absCrew vs parts) := by
  generalize h0 : Crew.start = s0 at hs
  induction hs with
  | none =>
    subst h0
    refine ⟨[], [([], [])], ⟨.nil, by simp, .cons ⟨.nil, by simp, .refl _⟩ .nil, ?_⟩, .none⟩
    exact canon_sep (F := []) (by simp)
  | more _ h ih =>
    obtain ⟨vs, parts, h1, h2⟩ := ih
    obtain ⟨vs', parts', h3, _, h4⟩ := crew_step A h1 h
    exact ⟨vs', parts', h3, h4 _ _ h2⟩

end Verif
