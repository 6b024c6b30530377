import Verif.Proof.HeapErrors
import Verif.Props.Heap

/-!
# Errors that own integers (C75)

A division by zero and a failed conversion hand the caller an error with a copy of an integer in
it, which for wide integers has a digit buffer of its own.  A client keeps such errors as long as
it likes, reads, clones, compares and drops them, next to every other call of the API
(`Model/HeapErrors.lean`).  `SpecErrors.lean` says what it should see: errors are values.
-/

namespace Verif.Props

open ApInt Ex

section

variable [Allocator]

theorem eplay_rep (A : Growth) (c : EClient) (n : Nat) :
    ∃ s h, ehplay A c n [] ⟨[], []⟩ ⟨[], []⟩ = .ok (((especPlay c n [] []).1, s), h) ∧
      HeldRep (HReachable A) h s (especPlay c n [] []).2 :=
  ehplay_agrees (fun _ _ _ _ _ _ hp e => hp.call e) (fun _ _ _ _ _ hp e e' => hp.caught e e') c n []
    ⟨⟨.start, [], Rep.empty, by simp, rfl⟩, rfl⟩

/-- C75: a client that keeps errors never meets a bad memory access, sees the answers of the
machine whose errors are values, and has the same integers: reading each of them through its
pointer, whether a variable or an error holds it, gives the number that machine has there. -/
theorem C75_same_as_values (A : Growth) (c : EClient) (n : Nat) :
    ∃ s h, ehplay A c n [] ⟨[], []⟩ ⟨[], []⟩ = .ok (((especPlay c n [] []).1, s), h) ∧
      s.holders = (especPlay c n [] []).2.map Prod.fst ∧
      List.Forall₂ (fun x v => ∃ a, x.load h = .ok (a, h) ∧ a.WF ∧ a.abs = v) s.ints
        ((especPlay c n [] []).2.map Prod.snd) := by
  obtain ⟨s, h, e, ⟨_, bs, hr, hb, hbs⟩, hh⟩ := eplay_rep A c n
  refine ⟨s, h, e, hh, ?_⟩
  rw [← hbs, List.forall₂_map_right_iff]
  refine List.forall₂_iff_get.mpr ⟨hr.mat.length_eq, ?_⟩
  intro i hi hi'
  have hx : s.ints[i]? = some (s.ints.get ⟨i, hi⟩) := by simp [hi]
  have ha : bs[i]? = some (bs.get ⟨i, hi'⟩) := by simp [hi']
  obtain ⟨s1, s2, s3⟩ := hr.cells hb hx ha
  exact ⟨_, Sees.load ⟨s1, s2, _, hr.sep, s3⟩, hb _ (List.get_mem _ _), rfl⟩

/-- C75: whatever such a client does, the heap is one a client without errors could have, with a
variable for each integer an error holds. -/
theorem C75_reachable {A : Growth} {c : EClient} {n : Nat} {seen : List ASeen} {s : Held HInt}
    {h : Heap} (e : ehplay A c n [] ⟨[], []⟩ ⟨[], []⟩ = .ok ((seen, s), h)) :
    HReachable A s.ints h := by
  obtain ⟨s', h', e', hr⟩ := eplay_rep A c n
  cases e.symm.trans e'
  exact hr.1.1

/-- C75: the live buffers are exactly those of the integers variables and errors hold, each
allocated for exactly the digits of its integer. -/
theorem C75_live {A : Growth} {c : EClient} {n : Nat} {seen : List ASeen} {s : Held HInt}
    {h : Heap} (e : ehplay A c n [] ⟨[], []⟩ ⟨[], []⟩ = .ok ((seen, s), h)) (p cap : Nat) :
    LiveAt h.log p cap ↔ ∃ x ∈ s.ints, x.data = .ext p ∧ cap = (x.len.toUsize + 63) / 64 :=
  C53_live (C75_reachable e) p cap

/-- C75: an integer, also one inside an error, has a buffer exactly when it has more than 64
bits. -/
theorem C75_storage {A : Growth} {c : EClient} {n : Nat} {seen : List ASeen} {s : Held HInt}
    {h : Heap} (e : ehplay A c n [] ⟨[], []⟩ ⟨[], []⟩ = .ok ((seen, s), h)) {x : HInt}
    (hx : x ∈ s.ints) : (∃ p, x.data = .ext p) ↔ 64 < x.len.toUsize :=
  C53_storage (C75_reachable e) hx

/-- C75: no two of them share a buffer; an error never looks into an integer of the program, nor
into that of another error. -/
theorem C75_not_shared {A : Growth} {c : EClient} {n : Nat} {seen : List ASeen} {s : Held HInt}
    {h : Heap} (e : ehplay A c n [] ⟨[], []⟩ ⟨[], []⟩ = .ok ((seen, s), h)) {i j : Nat}
    {x y : HInt} {p : Nat} (hx : s.ints[i]? = some x) (hy : s.ints[j]? = some y)
    (hxp : x.data = .ext p) (hyp : y.data = .ext p) : i = j :=
  C53_not_shared (C75_reachable e) hx hy hxp hyp

/-- C75: every buffer was freed at most once and with the capacity it was allocated with, and
dropping all variables and errors frees the rest. -/
theorem C75_freed {A : Growth} {c : EClient} {n : Nat} {seen : List ASeen} {s : Held HInt}
    {h : Heap} (e : ehplay A c n [] ⟨[], []⟩ ⟨[], []⟩ = .ok ((seen, s), h)) :
    NoMisuse h.log ∧ ∃ h', dropAll s.ints h = .ok ((), h') ∧ h'.cells = [] ∧ AllFreed h'.log :=
  ⟨C53_freed_once (C75_reachable e), C53_nothing_left (C75_reachable e)⟩

end

/-! ## Errors are values: what the other machine does -/

theorem keep_errors {i : Instr} {s : AHeld} {b : ABank}
    (hf : i.Fits (s.map Prod.fst)) (hl : (∃ x, i = .drop x) ∨ s.length ≤ b.length) :
    (i.keep s b).errors = s.errors := by
  have key : ∀ (s : AHeld) (b : ABank), s.length ≤ b.length →
      AHeld.errors (List.zipWith (fun (p : Holder × AInt) v => if p.1 = .variable then (p.1, v) else p)
        s b ++ (b.drop s.length).map fun v => (Holder.variable, v)) = s.errors := by
    intro s
    induction s with
    | nil =>
      intro b _
      simp [AHeld.errors]
    | cons p s ih =>
      intro b hb
      cases b with
      | nil => simp at hb
      | cons v b =>
        have := ih b (by simpa using hb)
        unfold AHeld.errors at this ⊢
        simp only [List.zipWith_cons_cons, List.length_cons, List.drop_succ_cons, List.cons_append,
          List.filter_cons, this]
        by_cases hp : p.1 = .variable <;> simp [hp]
  by_cases hd : ∃ x, i = .drop x
  · obtain ⟨x, rfl⟩ := hd
    show AHeld.errors (s.eraseIdx x) = s.errors
    cases hx : s[x]? with
    | none =>
      rw [List.eraseIdx_of_length_le (by simpa using hx)]
    | some p =>
      have hv : p.1 = .variable := hf x (by simp [Instr.mutates]) p.1 (by
        rw [List.getElem?_map, hx]; rfl)
      obtain ⟨h1, rfl⟩ := List.getElem?_eq_some_iff.mp hx
      have hs : s = s.take x ++ s[x] :: s.drop (x + 1) := by
        rw [← List.drop_eq_getElem_cons h1, List.take_append_drop]
      have hv : decide (s[x].1 ≠ .variable) = false := by simp [hv]
      unfold AHeld.errors
      rw [List.eraseIdx_eq_take_drop_succ]
      conv_rhs => rw [hs]
      rw [List.filter_append, List.filter_append, List.filter_cons]
      simp only [hv, Bool.false_eq_true, if_false]
  · have hk : i.keep s b = List.zipWith
        (fun (p : Holder × AInt) v => if p.1 = .variable then (p.1, v) else p) s b ++
        (b.drop s.length).map fun v => (.variable, v) := by
      cases i <;> first | rfl | exact absurd ⟨_, rfl⟩ hd
    rw [hk]
    exact key s b (hl.resolve_left hd)

/-- C75: a call, whether it returns or panics, changes none of the errors kept so far; a reported
error that owns a number is added to them. -/
theorem C75_kept (i : Instr) (s : AHeld) :
    ((EAct.call i).specCaught s).2.errors = s.errors ++
      match ((EAct.call i).specCaught s).1 with
      | .returned (.error e) => e.owned.toList
      | _ => [] := by
  have hlen : ∀ {r b}, i.spec (s.map Prod.snd) = some (r, b) →
      (∃ x, i = .drop x) ∨ s.length ≤ b.length := by
    intro r b h
    cases spec_shaped h with
    | drop hi => exact .inl ⟨_, hi⟩
    | _ => exact .inr (by simp)
  have hown : ∀ e : AErr, AHeld.errors e.owned.toList = e.owned.toList := by
    intro e
    cases e <;> rfl
  unfold EAct.specCaught EAct.spec
  by_cases hf : i.Fits (s.map Prod.fst)
  · simp only [if_pos hf]
    cases hq : i.spec (s.map Prod.snd) with
    | none =>
      simp only [List.append_nil]
      refine keep_errors hf (.inr ?_)
      unfold Instr.specLeft
      split <;> simp
    | some p =>
      obtain ⟨r, b⟩ := p
      cases r with
      | ok o =>
        simp only [List.append_nil]
        exact keep_errors hf (hlen hq)
      | error e =>
        simp only
        rw [← keep_errors hf (hlen hq)]
        unfold AHeld.errors
        rw [List.filter_append]
        congr 1
        exact hown e
  · simp [if_neg hf]

/-- C75: the number in a reported error is that of the left operand (of the converted integer)
before the call, and the call has changed no number. -/
theorem C75_number (i : Instr) (s : AHeld) {e : AErr} {k : Holder} {v : AInt}
    (h : ((EAct.call i).specCaught s).1 = .returned (.error e)) (he : e.owned = some (k, v)) :
    (∃ x, i.self = some x ∧ (s.map Prod.snd)[x]? = some v) ∧
      ((EAct.call i).specCaught s).2 = s ++ [(k, v)] := by
  unfold EAct.specCaught EAct.spec at h ⊢
  by_cases hf : i.Fits (s.map Prod.fst)
  · simp only [if_pos hf] at h ⊢
    cases hq : i.spec (s.map Prod.snd) with
    | none => rw [hq] at h; cases h
    | some p =>
      obtain ⟨r, b⟩ := p
      rw [hq] at h
      cases r with
      | ok o => cases h
      | error f =>
        cases h
        obtain ⟨rfl, h2⟩ := spec_error hq
        refine ⟨h2 k v he, ?_⟩
        obtain ⟨k1, k2⟩ := keep_eq hf hq
        have hk : i.keep s (s.map Prod.snd) = s := by
          have hd : ∀ x, i ≠ .drop x := by rintro x rfl; cases hq
          have hh : i.holdersAfter (s.map Prod.fst) (s.map Prod.snd).length = s.map Prod.fst := by
            unfold Instr.holdersAfter
            split
            · exact absurd rfl (hd _)
            · simp
          rw [hh] at k1
          exact List.ext_getElem? fun j => by
            have h1 := congrArg (fun l : List Holder => l[j]?) k1
            have h2 := congrArg (fun l : List AInt => l[j]?) k2
            simp only [List.getElem?_map] at h1 h2
            cases ha : (i.keep s (s.map Prod.snd))[j]? <;> cases hb : s[j]? <;>
              rw [ha, hb] at h1 h2 <;> simp_all [Prod.ext_iff]
        show i.keep s (s.map Prod.snd) ++ e.owned.toList = _
        rw [hk, he]
        rfl
  · simp only [if_neg hf] at h
    cases h

/-! ## A history -/

attribute [local instance] reusing

/-- A wide integer is divided by zero, in place and by value, and converted to a primitive that is
too small.  The errors are cloned and compared, the integer is overwritten and dropped, one error
is read, one is dropped, and a panic is caught in between. -/
def demoErrors : List EAct :=
  [.call (.make (.allSet (bw 130))), .call (.make (.zero (bw 130))), .call (.bin .sdiv 0 1),
    .call (.intoBin .urem 0 1), .call (.ask (.tryTo .u64) 0), .cloneErr 2, .eqErr 2 5, .eqErr 2 3,
    .call (.assign 0 1), .call (.ask .octal 2), .dropErr 3, .call (.bin .add 2 0),
    .call (.bin .add 0 2), .call (.drop 1)]

def demoEClient : EClient := fun seen => demoErrors[seen.length]?

theorem demoEClient_end : especPlay demoEClient 100 [] [] =
    ([.returned (.ok .unit), .returned (.ok .unit),
      .returned (.error (.divZero .signedDiv ⟨130, 2 ^ 130 - 1⟩)),
      .returned (.error (.divZero .unsignedRem ⟨130, 2 ^ 130 - 1⟩)),
      .returned (.error (.unrepresentable ⟨130, 2 ^ 130 - 1⟩ .u64)), .returned (.ok .unit),
      .returned (.ok (.bool true)), .returned (.ok (.bool false)), .returned (.ok .unit), .panicked,
      .returned (.ok .unit), .returned (.ok .unit), .returned (.ok .unit), .returned (.ok .unit)],
    [(.variable, ⟨130, 2 ^ 130 - 1⟩), (.division .signedDiv, ⟨130, 2 ^ 130 - 1⟩),
      (.range .u64, ⟨130, 2 ^ 130 - 1⟩), (.division .signedDiv, ⟨130, 2 ^ 130 - 1⟩)]) := by
  decide +kernel

/-- The same with pointers: the integers at the end, and the requests to the allocator.  The
consuming division has a copy at 3 that it drops after its error was given another at 4. -/
theorem demoEClient_heap : (ehplay twice demoEClient 100 [] ⟨[], []⟩ ⟨[], []⟩).map
      (fun r => (r.1.2.ints, r.2.log)) =
    .ok ([⟨bw 130, .ext 0⟩, ⟨bw 130, .ext 2⟩, ⟨bw 130, .ext 3⟩, ⟨bw 130, .ext 5⟩],
      [.alloc 0 6, .free 0 6, .alloc 0 3, .alloc 1 6, .free 1 6, .alloc 1 3, .alloc 2 6, .free 2 6,
        .alloc 2 3, .alloc 3 6, .free 3 6, .alloc 3 3, .alloc 4 6, .free 4 6, .alloc 4 3, .free 3 3,
        .alloc 3 6, .free 3 6, .alloc 3 3, .alloc 5 6, .free 5 6, .alloc 5 3, .free 4 3,
        .free 1 3]) := by
  decide +kernel

theorem demoEClient_state : ∃ seen holders h, ehplay twice demoEClient 100 [] ⟨[], []⟩ ⟨[], []⟩ =
    .ok ((seen, ⟨holders, [⟨bw 130, .ext 0⟩, ⟨bw 130, .ext 2⟩, ⟨bw 130, .ext 3⟩,
      ⟨bw 130, .ext 5⟩]⟩), h) := by
  have e := demoEClient_heap
  cases hh : ehplay twice demoEClient 100 [] ⟨[], []⟩ ⟨[], []⟩ with
  | error f => rw [hh] at e; cases e
  | ok r =>
    rw [hh] at e
    obtain ⟨⟨seen, holders, ints⟩, h⟩ := r
    have hb : ints = _ := congrArg Prod.fst (Except.ok.inj e)
    subst hb
    exact ⟨seen, holders, h, rfl⟩

example : ∃ h : Heap, NoMisuse h.log ∧ LiveAt h.log 2 3 ∧ LiveAt h.log 5 3 ∧ ¬ LiveAt h.log 4 3 := by
  obtain ⟨_, _, h, e⟩ := demoEClient_state
  refine ⟨h, (C75_freed e).1, (C75_live e 2 3).mpr ⟨⟨bw 130, .ext 2⟩, by simp, rfl, rfl⟩,
    (C75_live e 5 3).mpr ⟨⟨bw 130, .ext 5⟩, by simp, rfl, rfl⟩, ?_⟩
  rw [C75_live e 4 3]
  simp

example : ∃ s h, ehplay twice demoEClient 100 [] ⟨[], []⟩ ⟨[], []⟩ =
      .ok (((especPlay demoEClient 100 [] []).1, s), h) ∧
    s.holders = [.variable, .division .signedDiv, .range .u64, .division .signedDiv] := by
  obtain ⟨s, h, e, h1, _⟩ := C75_same_as_values twice demoEClient 100
  exact ⟨s, h, e, h1.trans (by rw [demoEClient_end]; rfl)⟩

-- An error survives a panicking signed division, which leaves a magnitude in the variable.
example : ((EAct.call (.bin .sdiv 0 1)).specCaught
      [(.variable, ⟨8, 255⟩), (.variable, ⟨9, 1⟩), (.division .signedRem, ⟨8, 255⟩)]) =
    (.panicked, [(.variable, ⟨8, 1⟩), (.variable, ⟨9, 1⟩), (.division .signedRem, ⟨8, 255⟩)]) := by
  decide +kernel

example : ((EAct.call (.pair .udivrem 0 1)).specCaught
      [(.variable, ⟨100, 77⟩), (.variable, ⟨100, 0⟩), (.range .u8, ⟨12, 300⟩)]).2.errors =
    [(.range .u8, ⟨12, 300⟩), (.division .unsignedDivRem, ⟨100, 77⟩)] := by
  rw [C75_kept]
  decide +kernel

example : ((EAct.call (.ask (.tryTo .u8) 0)).specCaught [(.range .i8, ⟨100, 300⟩)]).2 =
    [(.range .i8, ⟨100, 300⟩), (.range .u8, ⟨100, 300⟩)] :=
  (C75_number (.ask (.tryTo .u8) 0) [(.range .i8, ⟨100, 300⟩)] (e := .unrepresentable ⟨100, 300⟩ .u8)
    (by decide +kernel) rfl).2

end Verif.Props
