import Verif.Proof.HeapUnwind
import Verif.Props.Program

/-!
# Ownership of the digit buffers (C53)

`Instr.hexec` runs a call of the API with real pointers into a heap (`Model/Heap.lean`); the log of
the heap has every request made to the allocator.  The words for correct use of an allocator are
in `SpecHeap.lean` and only talk about that log.  The allocator is arbitrary: it picks any address
that is not live, and vectors may have any capacity that is large enough.
-/

namespace Verif.Props

open ApInt Ex

section

variable [Allocator]

/-- What a program can get to: start with no integer and an unused heap and make calls, whatever
they answer; a program that catches a panic goes on with what the call has left behind. -/
inductive HReachable (A : Growth) : HBank → Heap → Prop where
  | start : HReachable A [] ⟨[], []⟩
  | call {b b' : HBank} {h h' : Heap} {i : Instr} {r : Res Out} (hr : HReachable A b h)
      (e : i.hexec A b h = .ok ((r, b'), h')) : HReachable A b' h'
  | caught {b b' : HBank} {h h' : Heap} {i : Instr} (hr : HReachable A b h)
      (e : i.hexec A b h = .error .panic) (e' : i.hleft A b h = .ok (b', h')) : HReachable A b' h'

/-- The bank of the pure model that goes with it. -/
theorem hreachable_rep {A : Growth} {b : HBank} {h : Heap} (hr : HReachable A b h) :
    ∃ bs, Reachable bs ∧ Rep h b bs := by
  induction hr with
  | start => exact ⟨[], .start, Rep.empty⟩
  | @call b b' h h' i r _ e ih =>
    obtain ⟨bs, h1, h2⟩ := ih
    have hs := hexec_sim A i h2 (reachable_wf h1)
    cases he : i.exec bs with
    | error f =>
      rw [he] at hs
      cases e.symm.trans (show i.hexec A b h = .error f from hs)
    | ok v =>
      rw [he] at hs
      obtain ⟨v', h'', e', _, h3⟩ := hs
      cases e.symm.trans e'
      exact ⟨v.2, h1.call (r := v.1) he, h3⟩
  | @caught b b' h h' i _ e e' ih =>
    obtain ⟨bs, h1, h2⟩ := ih
    obtain ⟨bs', h3, h4, _⟩ := hleft_agrees A i h2 (reachable_wf h1) e e'
    exact ⟨bs', h1.caught h3, h4⟩

/-- What a program ends with is reachable. -/
theorem hrun_reachable (A : Growth) (p : List Instr) {b b' : HBank} {h h' : Heap}
    (hr : HReachable A b h) (e : (hrun A p b h).2 = .ok (b', h')) : HReachable A b' h' := by
  induction p generalizing b h with
  | nil => cases e; exact hr
  | cons i p ih =>
    unfold hrun at e
    cases hi : i.hexec A b h with
    | error f => rw [hi] at e; cases e
    | ok x =>
      obtain ⟨⟨r, x⟩, h1⟩ := x
      rw [hi] at e
      exact ih (hr.call hi) e

/-- C53: no call of any history follows or frees a pointer to a buffer that is not live, or frees a
buffer with a capacity other than the one it was allocated with (any of these is `ub`). -/
theorem C53_no_bad_access {A : Growth} {b : HBank} {h : Heap} (hr : HReachable A b h)
    (i : Instr) : i.hexec A b h ≠ .error .ub ∧ i.hexec A b h ≠ .error .diverge := by
  obtain ⟨bs, h1, h2⟩ := hreachable_rep hr
  have hs := hexec_sim A i h2 (reachable_wf h1)
  obtain ⟨n1, n2⟩ := C01_no_bad_access h1 i
  cases he : i.exec bs with
  | error f =>
    rw [he] at hs n1 n2
    rw [show i.hexec A b h = .error f from hs]
    exact ⟨fun hc => n1 (by cases hc; rfl), fun hc => n2 (by cases hc; rfl)⟩
  | ok v =>
    rw [he] at hs
    obtain ⟨v', h', e', _⟩ := hs
    rw [e']
    exact ⟨nofun, nofun⟩

omit [Allocator] in
theorem noMisuse_of_sep {h : Heap} {F : List (Nat × Block)} (hs : Sep h F) : NoMisuse h.log := by
  intro p
  obtain ⟨l, h1, h2⟩ := hs.tracks p
  refine ⟨l, h1, ?_⟩
  by_cases hp : p ∈ h.cells.map Prod.fst
  · obtain ⟨⟨q, c⟩, hc, rfl⟩ := List.mem_map.mp hp
    rw [filter_one hs.nodup hc] at h2
    exact .inr ⟨c.cap, h2⟩
  · rw [filter_none hp] at h2
    exact .inl (by rw [h2]; simp)

/-- C53: at any point of any history every buffer was freed at most once, after it was allocated
and with the capacity it was allocated with. -/
theorem C53_freed_once {A : Growth} {b : HBank} {h : Heap} (hr : HReachable A b h) :
    NoMisuse h.log := by
  obtain ⟨bs, _, h2⟩ := hreachable_rep hr
  exact noMisuse_of_sep h2.sep

omit [Allocator] in
theorem paired_last {l : List Event} (h : Paired l) (p cap : Nat) :
    l.getLast? ≠ some (.alloc p cap) := by
  induction h with
  | nil => simp
  | @step q c rest h ih =>
    cases h with
    | nil => simp
    | step => simpa using ih

omit [Allocator] in
theorem live_iff_cell {h : Heap} {F : List (Nat × Block)} (hs : Sep h F) (p cap : Nat) :
    LiveAt h.log p cap ↔ ∃ ds, (p, (⟨cap, ds⟩ : Block)) ∈ F := by
  unfold LiveAt
  obtain ⟨l, h1, h2⟩ := hs.tracks p
  rw [h2]
  constructor
  · intro hl
    by_cases hp : p ∈ h.cells.map Prod.fst
    · obtain ⟨⟨q, c⟩, hc, rfl⟩ := List.mem_map.mp hp
      rw [filter_one hs.nodup hc] at hl
      simp only [List.map_cons, List.map_nil, List.getLast?_append, List.getLast?_singleton,
        Option.some_or, Option.some.injEq, Event.alloc.injEq] at hl
      obtain ⟨_, rfl⟩ := hl
      exact ⟨c.digits, hs.perm.mem_iff.mp hc⟩
    · rw [filter_none hp] at hl
      simp only [List.map_nil, List.append_nil] at hl
      exact absurd hl (paired_last h1 p cap)
  · rintro ⟨ds, hm⟩
    rw [filter_one hs.nodup (hs.perm.mem_iff.mpr hm)]
    simp

omit [Allocator] in
theorem mem_cellsOf {xs : HBank} {bs : Bank} (hm : List.Forall₂ Match xs bs)
    (hb : ∀ a ∈ bs, a.WF) (p cap : Nat) :
    (∃ ds, (p, (⟨cap, ds⟩ : Block)) ∈ cellsOf xs bs) ↔
      ∃ x ∈ xs, x.data = .ext p ∧ cap = (x.len.toUsize + 63) / 64 := by
  induction hm with
  | nil => simp [cellsOf]
  | @cons x a xs bs h1 _ ih =>
    have ih := ih fun a ha => hb a (List.mem_cons_of_mem _ ha)
    have hw := (hb a List.mem_cons_self).1
    have key : (∃ ds, (p, (⟨cap, ds⟩ : Block)) ∈ cell x a) ↔
        (x.data = .ext p ∧ cap = (x.len.toUsize + 63) / 64) := by
      obtain ⟨len, data⟩ := x
      obtain ⟨len', data'⟩ := a
      obtain ⟨rfl, h1⟩ := h1
      cases data <;> cases data'
      · simp [cell]
      · exact h1.elim
      · exact h1.elim
      · rename_i q ds
        obtain ⟨_, hlen⟩ : 64 < len.toUsize ∧ ds.length = (len.toUsize + 63) / 64 := hw
        simp only [cell, List.mem_singleton, Prod.mk.injEq, Block.mk.injEq, HData.ext.injEq]
        constructor
        · rintro ⟨_, rfl, rfl, rfl⟩; exact ⟨rfl, hlen⟩
        · rintro ⟨rfl, rfl⟩; exact ⟨ds, rfl, hlen.symm, rfl⟩
    constructor
    · rintro ⟨ds, hm⟩
      rw [cellsOf_cons, List.mem_append] at hm
      rcases hm with hm | hm
      · exact ⟨x, List.mem_cons_self, key.mp ⟨ds, hm⟩⟩
      · obtain ⟨y, hy, h2⟩ := ih.mp ⟨ds, hm⟩
        exact ⟨y, List.mem_cons_of_mem _ hy, h2⟩
    · rintro ⟨y, hy, h2⟩
      rw [cellsOf_cons]
      rcases List.mem_cons.mp hy with rfl | hy
      · obtain ⟨ds, hm⟩ := key.mpr h2
        exact ⟨ds, List.mem_append_left _ hm⟩
      · obtain ⟨ds, hm⟩ := ih.mpr ⟨y, hy, h2⟩
        exact ⟨ds, List.mem_append_right _ hm⟩

/-- C53: at any point of any history the live buffers are exactly those the live integers point to
(nothing leaked, nothing dangling), each allocated for exactly the digits of its integer. -/
theorem C53_live {A : Growth} {b : HBank} {h : Heap} (hr : HReachable A b h) (p cap : Nat) :
    LiveAt h.log p cap ↔ ∃ x ∈ b, x.data = .ext p ∧ cap = (x.len.toUsize + 63) / 64 := by
  obtain ⟨bs, h1, h2⟩ := hreachable_rep hr
  rw [live_iff_cell h2.sep, mem_cellsOf h2.mat (reachable_wf h1)]

/-- C53: an integer has a buffer exactly when it has more than 64 bits. -/
theorem C53_storage {A : Growth} {b : HBank} {h : Heap} (hr : HReachable A b h) {x : HInt}
    (hx : x ∈ b) : (∃ p, x.data = .ext p) ↔ 64 < x.len.toUsize := by
  obtain ⟨bs, h1, h2⟩ := hreachable_rep hr
  have key : ∀ {xs : HBank} {bs : Bank}, List.Forall₂ Match xs bs → x ∈ xs →
      ∃ a ∈ bs, Match x a := by
    intro xs bs hm hx
    induction hm with
    | nil => cases hx
    | @cons y a _ _ h _ ih =>
      rcases List.mem_cons.mp hx with rfl | hx
      · exact ⟨a, List.mem_cons_self, h⟩
      · obtain ⟨a, ha, h⟩ := ih hx
        exact ⟨a, List.mem_cons_of_mem _ ha, h⟩
  obtain ⟨a, ha, hm⟩ := key h2.mat hx
  have hw := (reachable_wf h1 a ha).1
  obtain ⟨len, data⟩ := x
  obtain ⟨len', data'⟩ := a
  obtain ⟨rfl, hm⟩ := hm
  cases data <;> cases data'
  · have hw : len.toUsize ≤ 64 := hw
    exact ⟨nofun, fun h => by simp only at h; omega⟩
  · exact hm.elim
  · exact hm.elim
  · exact ⟨fun _ => hw.1, fun _ => ⟨_, rfl⟩⟩

/-- C53: two live integers never share a buffer. -/
theorem C53_not_shared {A : Growth} {b : HBank} {h : Heap} (hr : HReachable A b h) {i j : Nat}
    {x y : HInt} {p : Nat} (hx : b[i]? = some x) (hy : b[j]? = some y) (hxp : x.data = .ext p)
    (hyp : y.data = .ext p) : i = j := by
  obtain ⟨bs, h1, h2⟩ := hreachable_rep hr
  by_contra hij
  have hget : ∀ {k : Nat} {z : HInt}, b[k]? = some z → ∃ a, bs[k]? = some a := by
    intro k z hz
    cases e : bs[k]? with
    | none => rw [forall₂_none h2.mat e] at hz; cases hz
    | some a => exact ⟨a, rfl⟩
  obtain ⟨a, ha⟩ := hget hx
  obtain ⟨c, hc⟩ := hget hy
  obtain ⟨F, hF, _, _, hoth⟩ := focus h2.mat hx ha
  have hcell : ∀ {k : Nat} {z : HInt} {d : ApInt}, b[k]? = some z → bs[k]? = some d →
      z.data = .ext p → ∃ ds, (p, (⟨ds.length, ds⟩ : Block)) ∈ cell z d := by
    intro k z d hz hd hzp
    obtain ⟨z', hz', hm⟩ := forall₂_get h2.mat hd
    rw [hz] at hz'
    cases hz'
    obtain ⟨len, data⟩ := z
    obtain ⟨len', data'⟩ := d
    cases hzp
    obtain ⟨_, hm⟩ := hm
    cases data' with
    | inl d => exact hm.elim
    | ext ds => exact ⟨ds, by simp [cell]⟩
  obtain ⟨ds, hm1⟩ := hcell hx ha hxp
  obtain ⟨ds', hm2⟩ := hcell hy hc hyp
  have hn : ((cell x a ++ F).map Prod.fst).Nodup :=
    ((h2.sep.perm.trans hF).map Prod.fst).nodup_iff.mp h2.sep.nodup
  rw [List.map_append, List.nodup_append] at hn
  exact hn.2.2 p (List.mem_map.mpr ⟨_, hm1, rfl⟩) p
    (List.mem_map.mpr ⟨_, hoth j y c (Ne.symm hij) hy hc _ hm2, rfl⟩) rfl

/-- C53: after dropping every integer no buffer is left, and each buffer of the whole history was
freed exactly once and with the capacity it was allocated with. -/
theorem C53_nothing_left {A : Growth} {b : HBank} {h : Heap} (hr : HReachable A b h) :
    ∃ h', dropAll b h = .ok ((), h') ∧ h'.cells = [] ∧ AllFreed h'.log := by
  obtain ⟨bs, h1, h2⟩ := hreachable_rep hr
  obtain ⟨h', e, hc, ht⟩ := dropAll_ok h2 (reachable_wf h1)
  refine ⟨h', e, hc, fun p => ?_⟩
  obtain ⟨l, hl, he⟩ := ht p
  rw [he, hc]
  simpa using hl

/-- C53: with pointers every program gives the answers of the pure model (and so, by C02, those of
the abstract machine), panics where that panics, and ends with the same integers: reading each of
them through its pointer gives the integer of the pure model. -/
theorem C53_same_as_values (A : Growth) (p : List Instr) :
    (hrun A p [] ⟨[], []⟩).1 = (run p []).1 ∧
    (∀ f, (hrun A p [] ⟨[], []⟩).2 = .error f ↔ (run p []).2 = .error f) ∧
    (∀ b h, (hrun A p [] ⟨[], []⟩).2 = .ok (b, h) →
      ∃ bs, (run p []).2 = .ok bs ∧ List.Forall₂ (fun x a => x.load h = .ok (a, h)) b bs) := by
  obtain ⟨h1, h2⟩ := hrun_sim A p Rep.empty (bs := []) (by simp)
  refine ⟨h1, ?_, ?_⟩
  · intro f
    rcases h2 with ⟨xs, h', bs, e1, e2, _⟩ | ⟨g, e1, e2⟩
    · rw [e1, e2]; exact ⟨nofun, nofun⟩
    · rw [e1, e2]; exact ⟨fun h => by cases h; rfl, fun h => by cases h; rfl⟩
  · intro b h e
    rcases h2 with ⟨xs, h', bs, e1, e2, hr, hb⟩ | ⟨g, e1, _⟩
    · rw [e1] at e
      cases e
      refine ⟨bs, e2, List.forall₂_iff_get.mpr ⟨hr.mat.length_eq, ?_⟩⟩
      intro i hi hi'
      have hx : b[i]? = some (b.get ⟨i, hi⟩) := by simp [hi]
      have ha : bs[i]? = some (bs.get ⟨i, hi'⟩) := by simp [hi']
      obtain ⟨s1, s2, s3⟩ := hr.cells hb hx ha
      exact Sees.load ⟨s1, s2, _, hr.sep, s3⟩
    · rw [e1] at e; cases e

end

/-! ## An allocator and a history -/

/-- An allocator that takes the lowest address not in use (so it reuses addresses), and vectors
that get twice the room they need. -/
def lowest (l : List Nat) : Nat := ((List.range (l.length + 1)).find? (fun n => n ∉ l)).getD
  (l.foldr max 0 + 1)

theorem lowest_fresh (l : List Nat) : lowest l ∉ l := by
  unfold lowest
  cases h : (List.range (l.length + 1)).find? (fun n => n ∉ l) with
  | some n => simpa using List.find?_some h
  | none =>
    intro hm
    have : ∀ {l : List Nat} {n : Nat}, n ∈ l → n ≤ l.foldr max 0 := by
      intro l n hn
      induction l with
      | nil => cases hn
      | cons a l ih =>
        rw [List.foldr_cons]
        rcases List.mem_cons.mp hn with rfl | hn
        · exact le_max_left _ _
        · exact (ih hn).trans (le_max_right _ _)
    have := this hm
    simp only [Option.getD_none] at this
    omega

@[instance_reducible] def reusing : Allocator where
  pick h := lowest (h.cells.map Prod.fst)
  fresh _ := lowest_fresh _

def twice : Growth where
  room ds := 2 * ds.length
  enough ds := by omega

attribute [local instance] reusing

/-- Two wide integers, a clone, an assignment to an integer of another size, a truncation that
frees, an extension that allocates, a failing call, and a drop. -/
def demoHeap : List Instr :=
  [.make (.allSet (bw 200)), .make (.u8 7), .clone 0, .assign 1 0, .un (.truncate (bw 100)) 0,
    .un (.truncate (bw 9)) 2, .un (.zeroExtend (bw 150)) 2, .un (.truncate (bw 300)) 1,
    .intoUn (.truncate (bw 300)) 1, .bin .mul 1 1, .drop 0]

/-- The bank and the requests to the allocator at the end of that history. -/
theorem demoHeap_end : (hrun twice demoHeap [] ⟨[], []⟩).2.map (fun r => (r.1, r.2.log)) =
    .ok ([⟨bw 200, .ext 2⟩, ⟨bw 150, .ext 0⟩],
      [.alloc 0 8, .free 0 8, .alloc 0 4, .alloc 1 8, .free 1 8, .alloc 1 4, .alloc 2 8, .free 2 8,
        .alloc 2 4, .alloc 3 4, .free 3 4, .alloc 3 2, .free 0 4, .alloc 0 2, .free 0 2, .free 1 4,
        .alloc 0 6, .free 0 6, .alloc 0 3, .alloc 1 8, .free 1 8, .alloc 1 4, .free 1 4,
        .free 3 2]) := by
  decide +kernel

theorem demoHeap_reachable : ∃ h, HReachable twice [⟨bw 200, .ext 2⟩, ⟨bw 150, .ext 0⟩] h := by
  have e := demoHeap_end
  cases hh : (hrun twice demoHeap [] ⟨[], []⟩).2 with
  | error f => rw [hh] at e; cases e
  | ok r =>
    rw [hh] at e
    have e' := Except.ok.inj e
    obtain ⟨b, h⟩ := r
    have hb : b = _ := congrArg Prod.fst e'
    subst hb
    exact ⟨h, hrun_reachable twice demoHeap .start hh⟩

example : ∃ h : Heap, NoMisuse h.log ∧ LiveAt h.log 2 4 ∧ LiveAt h.log 0 3 ∧ ¬ LiveAt h.log 1 4 := by
  obtain ⟨h, hr⟩ := demoHeap_reachable
  refine ⟨h, C53_freed_once hr, (C53_live hr 2 4).mpr ⟨_, List.mem_cons_self, rfl, rfl⟩,
    (C53_live hr 0 3).mpr ⟨_, List.mem_cons_of_mem _ List.mem_cons_self, rfl, rfl⟩, ?_⟩
  rw [C53_live hr 1 4]
  simp

example : ∃ h h', dropAll [⟨bw 200, .ext 2⟩, ⟨bw 150, .ext 0⟩] h = .ok ((), h') ∧
    AllFreed h'.log := by
  obtain ⟨h, hr⟩ := demoHeap_reachable
  obtain ⟨h', e, _, h2⟩ := C53_nothing_left hr
  exact ⟨h, h', e, h2⟩

-- Dropping an integer a second time is caught: the heap model tells misuse apart.
example : ∃ h, dropAll [⟨bw 100, .ext 0⟩, ⟨bw 100, .ext 0⟩] h = .error .ub ∧
    (dropAll [⟨bw 100, .ext 0⟩] h).map (fun r => r.2.log) = .ok [.alloc 0 2, .free 0 2] :=
  ⟨⟨[(0, ⟨2, [1, 1]⟩)], [.alloc 0 2]⟩, by decide +kernel, by decide +kernel⟩

end Verif.Props
