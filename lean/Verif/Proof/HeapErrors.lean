import Verif.Proof.HeapUnwind
import Verif.ErrorClient

/-!
# Errors that own integers behave as values
-/

namespace Verif

open ApInt

/-! ## What a call of the abstract machine leaves -/

/-- The numbers a call leaves, in terms of those it has found. -/
inductive Shaped (i : Instr) (b : ABank) : ABank → Prop where
  | same : Shaped i b b
  | push (z : AInt) : Shaped i b (b ++ [z])
  | set {x : Nat} (z : AInt) (hx : x ∈ i.mutates) : Shaped i b (b.set x z)
  | set2 {x y : Nat} (z z' : AInt) (hx : x ∈ i.mutates) (hy : y ∈ i.mutates) :
      Shaped i b ((b.set x z).set y z')
  | drop {x : Nat} (hi : i = .drop x) : Shaped i b (b.eraseIdx x)

theorem push_shaped {i : Instr} {b : ABank} (r : Except AErr AInt) :
    Shaped i b (b.push r).2 := by
  cases r with
  | error e => exact .same
  | ok z => exact .push z

theorem store_shaped {i : Instr} {b : ABank} {x : Nat} (hx : x ∈ i.mutates)
    (r : Except AErr AInt) : Shaped i b (b.store x r).2 := by
  cases r with
  | error e => exact .same
  | ok z => exact .set z hx

section

variable {i : Instr} {b : ABank} {r : Except AErr Out} {b' : ABank}

theorem one_cases {x : Nat} {k : AInt → Option (Except AErr Out × ABank)} {P : Prop}
    (h : (match b[x]? with | some a => k a | none => some (.ok .unit, b)) = some (r, b'))
    (h1 : r = .ok .unit → b' = b → P) (h2 : ∀ a, b[x]? = some a → k a = some (r, b') → P) : P := by
  cases e : b[x]? with
  | none => rw [e] at h; cases h; exact h1 rfl rfl
  | some a => rw [e] at h; exact h2 a e h

theorem two_cases {x y : Nat} {k : AInt → AInt → Option (Except AErr Out × ABank)} {P : Prop}
    (h : (match b[x]?, b[y]? with | some a, some c => k a c | _, _ => some (.ok .unit, b)) =
      some (r, b'))
    (h1 : r = .ok .unit → b' = b → P)
    (h2 : ∀ a c, b[x]? = some a → b[y]? = some c → k a c = some (r, b') → P) : P := by
  cases e : b[x]? with
  | none => rw [e] at h; cases h; exact h1 rfl rfl
  | some a =>
    cases e' : b[y]? with
    | none => rw [e, e'] at h; cases h; exact h1 rfl rfl
    | some c => rw [e, e'] at h; exact h2 a c e e' h

theorem spec_shaped (h : i.spec b = some (r, b')) : Shaped i b b' := by
  have some_eq : ∀ {p : Except AErr Out × ABank}, some p = some (r, b') → p.2 = b' := by
    intro p h
    cases h; rfl
  have map_eq : ∀ {α : Type} {o : Option α} {f : α → Except AErr Out × ABank},
      o.map f = some (r, b') → ∃ z, (f z).2 = b' := by
    intro α o f h
    cases o with
    | none => cases h
    | some z => exact ⟨z, some_eq h⟩
  cases i with
  | make m => exact some_eq h ▸ push_shaped _
  | clone x =>
    exact one_cases h (fun _ e => e ▸ .same) fun a _ h => some_eq h ▸ push_shaped _
  | drop x => exact some_eq h ▸ .drop rfl
  | assign x y =>
    exact two_cases h (fun _ e => e ▸ .same) fun a c _ _ h => some_eq h ▸ store_shaped (by simp [Instr.mutates]) _
  | strictAssign x y =>
    exact two_cases h (fun _ e => e ▸ .same) fun a c _ _ h => some_eq h ▸ store_shaped (by simp [Instr.mutates]) _
  | un o x =>
    exact one_cases h (fun _ e => e ▸ .same) fun a _ h => some_eq h ▸ store_shaped (by simp [Instr.mutates]) _
  | intoUn o x =>
    exact one_cases h (fun _ e => e ▸ .same) fun a _ h => some_eq h ▸ push_shaped _
  | alter o x =>
    exact one_cases h (fun _ e => e ▸ .same) fun a _ h => some_eq h ▸ store_shaped (by simp [Instr.mutates]) _
  | bin o x y =>
    refine two_cases h (fun _ e => e ▸ .same) fun a c _ _ h => ?_
    obtain ⟨z, h⟩ := map_eq h
    exact h ▸ store_shaped (by simp [Instr.mutates]) _
  | intoBin o x y =>
    refine two_cases h (fun _ e => e ▸ .same) fun a c _ _ h => ?_
    obtain ⟨z, h⟩ := map_eq h
    exact h ▸ push_shaped _
  | opAssign o x y =>
    refine two_cases h (fun _ e => e ▸ .same) fun a c _ _ h => ?_
    obtain ⟨z, h⟩ := map_eq h
    exact h ▸ store_shaped (by simp [Instr.mutates]) _
  | op o x y =>
    refine two_cases h (fun _ e => e ▸ .same) fun a c _ _ h => ?_
    obtain ⟨z, h⟩ := map_eq h
    exact h ▸ push_shaped _
  | opShlAssign s x =>
    refine one_cases h (fun _ e => e ▸ .same) fun a _ h => ?_
    obtain ⟨z, h⟩ := map_eq h
    exact h ▸ store_shaped (by simp [Instr.mutates]) _
  | opShl s x =>
    refine one_cases h (fun _ e => e ▸ .same) fun a _ h => ?_
    obtain ⟨z, h⟩ := map_eq h
    exact h ▸ push_shaped _
  | pair o x y =>
    refine two_cases h (fun _ e => e ▸ .same) fun a c _ _ h => ?_
    obtain ⟨z, h⟩ := map_eq h
    cases z with
    | error e => exact h ▸ .same
    | ok z => exact h ▸ .set2 z.1 z.2 (by simp [Instr.mutates]) (by simp [Instr.mutates])
  | ask q x =>
    refine one_cases h (fun _ e => e ▸ .same) fun a _ h => ?_
    obtain ⟨z, h⟩ := map_eq h
    exact h ▸ .same
  | ask2 q x y =>
    exact two_cases h (fun _ e => e ▸ .same) fun a c _ _ h => some_eq h ▸ .same

/-! ## Which errors own a number -/

theorem make_owned {m : Make} {e : AErr} (h : m.spec = .error e) : e.owned = none := by
  cases m <;> simp only [Make.spec] at h <;> first
    | (cases h; done)
    | (split at h <;> cases h; rfl)

theorem un_owned {o : Un} {x : AInt} {e : AErr} (h : o.spec x = .error e) : e.owned = none := by
  cases o <;> simp only [Un.spec] at h <;> first
    | (cases h; done)
    | (split at h <;> cases h; rfl)

theorem alter_owned {o : Alter} {x : AInt} {e : AErr} (h : o.spec x = .error e) :
    e.owned = none := by
  cases o <;> simp only [Alter.spec] at h <;> first
    | (cases h; done)
    | (split at h <;> cases h; rfl)

theorem bin_owned {o : Bin} {x y : AInt} {e : AErr} {k : Holder} {v : AInt}
    (h : o.spec x y = some (.error e)) (he : e.owned = some (k, v)) : v = x := by
  cases o <;> simp only [Bin.spec] at h <;> (repeat' split at h) <;> cases h <;> cases he <;> rfl

theorem pair_owned {o : Pair} {x y : AInt} {e : AErr} {k : Holder} {v : AInt}
    (h : o.spec x y = some (.error e)) (he : e.owned = some (k, v)) : v = x := by
  cases o <;> simp only [Pair.spec] at h <;> (repeat' split at h) <;> cases h <;> cases he <;> rfl

theorem ask_owned {q : Ask} {x : AInt} {e : AErr} {k : Holder} {v : AInt}
    (h : q.spec x = some (.error e)) (he : e.owned = some (k, v)) : v = x := by
  cases q <;> simp only [Ask.spec] at h <;> (repeat' split at h) <;> cases h <;>
    first | cases he; done | (cases he; rfl)

theorem ask2_owned {q : Ask2} {x y : AInt} {e : AErr} (h : q.spec x y = .error e) :
    e.owned = none := by
  cases q <;> simp only [Ask2.spec] at h <;> (repeat' split at h) <;> cases h <;> rfl

theorem push_error {q : Except AErr AInt} {e : AErr} (h : b.push q = (.error e, b')) :
    q = .error e ∧ b' = b := by
  cases q with
  | error f => cases h; exact ⟨rfl, rfl⟩
  | ok z => cases h

theorem store_error {x : Nat} {q : Except AErr AInt} {e : AErr}
    (h : b.store x q = (.error e, b')) : q = .error e ∧ b' = b := by
  cases q with
  | error f => cases h; exact ⟨rfl, rfl⟩
  | ok z => cases h

/-- A call that reports an error changes nothing, and a number owned by the error is `self`. -/
theorem spec_error {e : AErr} (h : i.spec b = some (.error e, b')) :
    b' = b ∧ ∀ k v, e.owned = some (k, v) → ∃ x, i.self = some x ∧ b[x]? = some v := by
  have none_ok : ∀ {P : Holder → AInt → Prop}, e.owned = none → b' = b →
      b' = b ∧ ∀ k v, e.owned = some (k, v) → P k v := by
    intro P h hb
    exact ⟨hb, fun k v h' => by rw [h] at h'; cases h'⟩
  have noOk : ∀ {P : Prop}, (Except.error e : Except AErr Out) = .ok .unit → P := nofun
  have map_eq : ∀ {α : Type} {o : Option α} {f : α → Except AErr Out × ABank},
      o.map f = some (.error e, b') → ∃ z, o = some z ∧ f z = (.error e, b') := by
    intro α o f h
    cases o with
    | none => cases h
    | some z => exact ⟨z, rfl, Option.some.inj h⟩
  cases i with
  | make m =>
    obtain ⟨h1, h2⟩ := push_error (Option.some.inj h)
    exact none_ok (make_owned h1) h2
  | clone x =>
    refine one_cases h (fun h => noOk h) fun a _ h => ?_
    cases (push_error (Option.some.inj h)).1
  | drop x => cases h
  | assign x y =>
    refine two_cases h (fun h => noOk h) fun a c _ _ h => ?_
    cases (store_error (Option.some.inj h)).1
  | strictAssign x y =>
    refine two_cases h (fun h => noOk h) fun a c _ _ h => ?_
    obtain ⟨h1, h2⟩ := store_error (Option.some.inj h)
    split at h1 <;> cases h1
    exact none_ok rfl h2
  | un o x =>
    refine one_cases h (fun h => noOk h) fun a _ h => ?_
    obtain ⟨h1, h2⟩ := store_error (Option.some.inj h)
    exact none_ok (un_owned h1) h2
  | intoUn o x =>
    refine one_cases h (fun h => noOk h) fun a _ h => ?_
    obtain ⟨h1, h2⟩ := push_error (Option.some.inj h)
    exact none_ok (un_owned h1) h2
  | alter o x =>
    refine one_cases h (fun h => noOk h) fun a _ h => ?_
    obtain ⟨h1, h2⟩ := store_error (Option.some.inj h)
    exact none_ok (alter_owned h1) h2
  | bin o x y =>
    refine two_cases h (fun h => noOk h) fun a c hx _ h => ?_
    obtain ⟨z, hz, h⟩ := map_eq h
    obtain ⟨rfl, h2⟩ := store_error h
    exact ⟨h2, fun k v he => ⟨x, rfl, bin_owned hz he ▸ hx⟩⟩
  | intoBin o x y =>
    refine two_cases h (fun h => noOk h) fun a c hx _ h => ?_
    obtain ⟨z, hz, h⟩ := map_eq h
    obtain ⟨rfl, h2⟩ := push_error h
    exact ⟨h2, fun k v he => ⟨x, rfl, bin_owned hz he ▸ hx⟩⟩
  | opAssign o x y =>
    refine two_cases h (fun h => noOk h) fun a c _ _ h => ?_
    obtain ⟨z, -, h⟩ := map_eq h
    cases (store_error h).1
  | op o x y =>
    refine two_cases h (fun h => noOk h) fun a c _ _ h => ?_
    obtain ⟨z, -, h⟩ := map_eq h
    cases (push_error h).1
  | opShlAssign s x =>
    refine one_cases h (fun h => noOk h) fun a _ h => ?_
    obtain ⟨z, -, h⟩ := map_eq h
    cases (store_error h).1
  | opShl s x =>
    refine one_cases h (fun h => noOk h) fun a _ h => ?_
    obtain ⟨z, -, h⟩ := map_eq h
    cases (push_error h).1
  | pair o x y =>
    refine two_cases h (fun h => noOk h) fun a c hx _ h => ?_
    obtain ⟨z, hz, h⟩ := map_eq h
    cases z with
    | ok z => cases h
    | error f =>
      cases h
      exact ⟨rfl, fun k v he => ⟨x, rfl, pair_owned hz he ▸ hx⟩⟩
  | ask q x =>
    refine one_cases h (fun h => noOk h) fun a hx h => ?_
    obtain ⟨z, hz, h⟩ := map_eq h
    cases h
    exact ⟨rfl, fun k v he => ⟨x, rfl, ask_owned hz he ▸ hx⟩⟩
  | ask2 q x y =>
    refine two_cases h (fun h => noOk h) fun a c _ _ h => ?_
    have h1 := congrArg Prod.fst (Option.some.inj h)
    have h2 := congrArg Prod.snd (Option.some.inj h)
    exact none_ok (ask2_owned h1) h2.symm

end

theorem abs_owned (e : Err) : e.abs.owned.map Prod.fst = e.holder := by
  cases e <;> rfl

/-! ## The numbers errors keep -/

theorem zip_keep {s : AHeld} {b' : ABank} (hl : s.length ≤ b'.length)
    (he : ∀ (j : Nat) (p : Holder × AInt), s[j]? = some p → p.1 ≠ .variable → b'[j]? = some p.2) :
    (List.zipWith (fun (p : Holder × AInt) (v : AInt) => if p.1 = .variable then (p.1, v) else p) s b' ++
        (b'.drop s.length).map fun v => (Holder.variable, v)).map Prod.fst =
      s.map Prod.fst ++ List.replicate (b'.length - (s.map Prod.fst).length) .variable ∧
    (List.zipWith (fun (p : Holder × AInt) (v : AInt) => if p.1 = .variable then (p.1, v) else p) s b' ++
        (b'.drop s.length).map fun v => (Holder.variable, v)).map Prod.snd = b' := by
  induction s generalizing b' with
  | nil =>
    simp only [List.zipWith_nil_left, List.length_nil, List.drop_zero, List.nil_append, List.map_map,
      List.map_nil, Nat.sub_zero]
    refine ⟨?_, List.map_id _⟩
    rw [List.eq_replicate_iff]
    simp
  | cons p s ih =>
    cases b' with
    | nil => simp at hl
    | cons v b' =>
      obtain ⟨h1, h2⟩ := ih (b' := b') (by simpa using hl) fun j q hq => he (j + 1) q hq
      have hp : (if p.1 = .variable then (p.1, v) else p) = (p.1, v) := by
        split
        · rfl
        · rename_i hv
          have := he 0 p rfl hv
          simp only [List.getElem?_cons_zero, Option.some.injEq] at this
          rw [this]
      simp only [List.length_map] at h1
      constructor
      · simp only [List.zipWith_cons_cons, hp, List.length_cons, List.drop_succ_cons, List.cons_append,
          List.map_cons, List.length_map, Nat.add_sub_add_right, h1]
      · simp only [List.zipWith_cons_cons, hp, List.length_cons, List.drop_succ_cons, List.cons_append,
          List.map_cons, h2]

theorem keep_eq {i : Instr} {s : AHeld} {r : Except AErr Out} {b' : ABank}
    (hf : i.Fits (s.map Prod.fst)) (h : i.spec (s.map Prod.snd) = some (r, b')) :
    (i.keep s b').map Prod.fst = i.holdersAfter (s.map Prod.fst) b'.length ∧
      (i.keep s b').map Prod.snd = b' := by
  by_cases hd : ∃ x, i = .drop x
  · obtain ⟨x, rfl⟩ := hd
    cases h
    exact ⟨(List.eraseIdx_map ..).symm, (List.eraseIdx_map ..).symm⟩
  · have hk : i.keep s b' = List.zipWith
        (fun (p : Holder × AInt) v => if p.1 = .variable then (p.1, v) else p) s b' ++
        (b'.drop s.length).map fun v => (Holder.variable, v) := by
      cases i <;> first | rfl | exact absurd ⟨_, rfl⟩ hd
    have ha : i.holdersAfter (s.map Prod.fst) b'.length = s.map Prod.fst ++
        List.replicate (b'.length - (s.map Prod.fst).length) .variable := by
      cases i <;> first | rfl | exact absurd ⟨_, rfl⟩ hd
    rw [hk, ha]
    have hne : ∀ {x j : Nat} {p : Holder × AInt}, x ∈ i.mutates → s[j]? = some p →
        p.1 ≠ .variable → x ≠ j := by
      rintro x j p hx hp hv rfl
      exact hv (hf x hx p.1 (by rw [List.getElem?_map, hp]; rfl))
    have hget : ∀ {j : Nat} {p : Holder × AInt}, s[j]? = some p →
        (s.map Prod.snd)[j]? = some p.2 := by
      intro j p hp
      rw [List.getElem?_map, hp]; rfl
    cases spec_shaped h with
    | same => exact zip_keep (by simp) fun j p hp _ => hget hp
    | push z =>
      refine zip_keep (by simp) fun j p hp _ => ?_
      rw [List.getElem?_append_left, hget hp]
      simpa using (List.getElem?_eq_some_iff.mp hp).1
    | set z hx =>
      refine zip_keep (by simp) fun j p hp hv => ?_
      rw [List.getElem?_set_ne (hne hx hp hv), hget hp]
    | set2 z z' hx hy =>
      refine zip_keep (by simp) fun j p hp hv => ?_
      rw [List.getElem?_set_ne (hne hy hp hv), List.getElem?_set_ne (hne hx hp hv), hget hp]
    | drop hi => exact absurd ⟨_, hi⟩ hd

/-! ## The machine with pointers -/

section

variable [Allocator]

/-- The machine with pointers stands for the numbers; `P` is kept by every call. -/
def BankRep (P : HBank → Heap → Prop) (h : Heap) (xs : HBank) (t : ABank) : Prop :=
  P xs h ∧ ∃ bs, Rep h xs bs ∧ (∀ a ∈ bs, a.WF) ∧ bs.map ApInt.abs = t

/-- The same for numbers and their holders. -/
def HeldRep (P : HBank → Heap → Prop) (h : Heap) (s : Held HInt) (t : AHeld) : Prop :=
  BankRep P h s.ints (t.map Prod.snd) ∧ s.holders = t.map Prod.fst

omit [Allocator] in
theorem BankRep.length {P : HBank → Heap → Prop} {h : Heap} {xs : HBank} {t : ABank}
    (hr : BankRep P h xs t) : xs.length = t.length := by
  obtain ⟨_, bs, h1, _, rfl⟩ := hr
  rw [List.length_map, h1.mat.length_eq]

/-- Calls keep `P`. -/
def KeptBy (A : Growth) (P : HBank → Heap → Prop) : Prop :=
  ∀ (b b' : HBank) (h h' : Heap) (i : Instr) (r : Res Out), P b h →
    i.hexec A b h = .ok ((r, b'), h') → P b' h'

variable {A : Growth} {P : HBank → Heap → Prop} (hP : KeptBy A P)

include hP

/-- A call on a bank, from the bank of the abstract machine. -/
theorem hcall (i : Instr) {h : Heap} {xs : HBank} {t : ABank} (hr : BankRep P h xs t) :
    match i.spec t with
    | none => i.hexec A xs h = .error .panic
    | some (r, t') => ∃ y xs' h', i.hexec A xs h = .ok ((y, xs'), h') ∧ absRes y = r ∧
        BankRep P h' xs' t' := by
  obtain ⟨hp, bs, hr, hb, rfl⟩ := hr
  have hs := hexec_sim A i hr hb
  have ha := exec_agrees i hb
  match i.spec (bs.map ApInt.abs), ha with
  | none, ha =>
    have ha : i.exec bs = .error .panic := ha
    rw [ha] at hs
    exact hs
  | some (r, t'), ⟨y, bs', e, h1, h2, h3⟩ =>
    rw [e] at hs
    obtain ⟨⟨y', xs'⟩, h', e', h4, h5⟩ := hs
    simp only at h4 h5
    subst h4
    exact ⟨_, _, _, e', h1, hP _ _ _ _ _ _ hp e', bs', h5, h2, h3⟩

theorem hcall_ok {i : Instr} {h : Heap} {xs : HBank} {t t' : ABank} {r : Except AErr Out}
    (hr : BankRep P h xs t) (hs : i.spec t = some (r, t')) :
    ∃ y xs' h', i.hexec A xs h = .ok ((y, xs'), h') ∧ absRes y = r ∧ BankRep P h' xs' t' := by
  have := hcall hP i hr
  rwa [hs] at this

theorem hcall_panic {i : Instr} {h : Heap} {xs : HBank} {t : ABank}
    (hr : BankRep P h xs t) (hs : i.spec t = none) : i.hexec A xs h = .error .panic := by
  have := hcall hP i hr
  rwa [hs] at this

omit hP [Allocator] in
theorem absRes_ok {y : Res Out} {o : Out} (h : absRes y = .ok o) : y = .ok o := by
  cases y <;> cases h; rfl

omit hP [Allocator] in
theorem absRes_error {y : Res Out} {e : AErr} (h : absRes y = .error e) :
    ∃ f, y = .error f ∧ f.abs = e := by
  cases y with
  | ok => cases h
  | error f => cases h; exact ⟨f, rfl, rfl⟩

omit hP [Allocator] in
theorem clone_spec {t : ABank} {x : Nat} {v : AInt} (h : t[x]? = some v) :
    (Instr.clone x).spec t = some (.ok .unit, t ++ [v]) := by
  simp only [Instr.spec, h, ABank.push]

theorem keepCall_agrees (i : Instr) {h : Heap} {s : Held HInt} {t : AHeld}
    (hf : i.Fits (t.map Prod.fst)) (hr : HeldRep P h s t) :
    match i.spec (t.map Prod.snd) with
    | none => keepCall (Instr.hexec A) i s h = .error .panic
    | some (r, b) => ∃ y s' h', keepCall (Instr.hexec A) i s h = .ok ((y, s'), h') ∧ absRes y = r ∧
        HeldRep P h' s' (i.keep t b ++
          match r with | .ok _ => [] | .error e => e.owned.toList) := by
  obtain ⟨hr, hh⟩ := hr
  cases hq : i.spec (t.map Prod.snd) with
  | none =>
    simp only
    unfold keepCall
    rw [hm_bind, hcall_panic hP hr hq]
  | some p =>
    obtain ⟨r, b⟩ := p
    simp only
    obtain ⟨k1, k2⟩ := keep_eq hf hq
    obtain ⟨y, xs', h', e, h1, h2⟩ := hcall_ok hP hr hq
    unfold keepCall
    rw [hm_bind, e]
    simp only
    cases r with
    | ok o =>
      cases absRes_ok h1
      refine ⟨_, _, _, rfl, rfl, ?_, ?_⟩
      · simpa only [List.append_nil, k2] using h2
      · simp only [List.append_nil, k1, hh, h2.length]
    | error e' =>
      obtain ⟨f, rfl, rfl⟩ := absRes_error h1
      obtain ⟨rfl, hown⟩ := spec_error hq
      have ho := abs_owned f
      cases hfo : f.abs.owned with
      | none =>
        rw [hfo] at ho
        simp only [← ho, Option.map_none]
        refine ⟨_, _, _, rfl, rfl, ?_, ?_⟩
        · simpa only [hfo, Option.toList_none, List.append_nil, k2] using h2
        · simp only [hfo, Option.toList_none, List.append_nil, k1, hh, h2.length]
      | some kv =>
        obtain ⟨k, v⟩ := kv
        rw [hfo] at ho
        obtain ⟨x, hx, hv⟩ := hown k v hfo
        simp only [← ho, Option.map_some, hx]
        obtain ⟨y, xs'', h'', e2, _, h3⟩ := hcall_ok hP h2 (clone_spec hv)
        rw [hm_bind, e2]
        refine ⟨_, _, _, rfl, rfl, ?_, ?_⟩
        · simpa only [hfo, Option.toList_some, List.map_append, k2, List.map_cons, List.map_nil] using h3
        · simp only [hfo, Option.toList_some, List.map_append, k1, hh, h2.length, List.map_cons,
            List.map_nil]

theorem keepInto_agrees (o : Bin) (x y : Nat) {h : Heap} {s : Held HInt} {t : AHeld}
    (hf : (Instr.intoBin o x y).Fits (t.map Prod.fst)) (hr : HeldRep P h s t) :
    match (Instr.intoBin o x y).spec (t.map Prod.snd) with
    | none => keepInto (Instr.hexec A) o x y s h = .error .panic
    | some (r, b) => ∃ u s' h', keepInto (Instr.hexec A) o x y s h = .ok ((u, s'), h') ∧
        absRes u = r ∧ HeldRep P h' s' ((Instr.intoBin o x y).keep t b ++
          match r with | .ok _ => [] | .error e => e.owned.toList) := by
  obtain ⟨hr, hh⟩ := hr
  have hlen := hr.length
  have hkeep := fun r b => @keep_eq (.intoBin o x y) t r b hf
  generalize hb : t.map Prod.snd = b at *
  have hholders : ∀ n, (Instr.intoBin o x y).holdersAfter (t.map Prod.fst) n =
    t.map Prod.fst ++ List.replicate (n - (t.map Prod.fst).length) .variable := fun _ => rfl
  have hl : (t.map Prod.fst).length = b.length := by rw [← hb]; simp
  unfold keepInto
  simp only [hlen]
  by_cases hxy : x < b.length ∧ y < b.length
  · rw [if_pos hxy]
    obtain ⟨a, ha⟩ : ∃ a, b[x]? = some a := ⟨_, List.getElem?_eq_getElem hxy.1⟩
    obtain ⟨c, hc⟩ : ∃ c, b[y]? = some c := ⟨_, List.getElem?_eq_getElem hxy.2⟩
    have ha' : (b ++ [a])[b.length]? = some a := by simp
    have hc' : (b ++ [a])[y]? = some c := by rw [List.getElem?_append_left hxy.2, hc]
    have hs1 : (Instr.intoBin o x y).spec b = (o.spec a c).map (ABank.push b) := by
      simp only [Instr.spec, ha, hc]
    have hs2 : (Instr.bin o b.length y).spec (b ++ [a]) =
        (o.spec a c).map (ABank.store (b ++ [a]) b.length) := by
      simp only [Instr.spec, ha', hc']
    obtain ⟨_, xs1, h1, e1, _, r1⟩ := hcall_ok hP hr (clone_spec ha)
    rw [hm_bind, e1]
    simp only
    rw [hs1] at hkeep ⊢
    cases ho : o.spec a c with
    | none =>
      simp only [Option.map_none]
      rw [hm_bind, hcall_panic hP r1 (by rw [hs2, ho]; rfl)]
    | some q =>
      rw [ho] at hkeep
      cases q with
      | ok z =>
        obtain ⟨u, xs2, h2, e2, hu, r2⟩ := hcall_ok hP r1 (by rw [hs2, ho]; rfl)
        obtain ⟨k1, k2⟩ := hkeep _ _ rfl
        cases absRes_ok hu
        rw [hm_bind, e2]
        refine ⟨_, _, _, rfl, rfl, ?_, ?_⟩
        · simp only [List.append_nil]
          rw [k2]
          simpa [ABank.push] using r2
        · simp only [List.append_nil]
          rw [k1, hholders, hl, hh]
          simp
      | error f =>
        obtain ⟨u, xs2, h2, e2, hu, r2⟩ := hcall_ok hP r1 (by rw [hs2, ho]; rfl)
        obtain ⟨k1, k2⟩ := hkeep _ _ rfl
        obtain ⟨f, rfl, rfl⟩ := absRes_error hu
        rw [hm_bind, e2]
        have hd : ∀ l : ABank, (b ++ [a] ++ l).eraseIdx b.length = b ++ l := by
          intro l
          rw [List.append_assoc, List.eraseIdx_append_of_length_le (Nat.le_refl _)]
          simp
        have hz := abs_owned f
        simp only [Option.map_some, ABank.push]
        cases hfo : f.abs.owned with
        | none =>
          rw [hfo] at hz
          simp only [← hz, Option.map_none]
          obtain ⟨_, xs3, h3, e3, _, r3⟩ := hcall_ok hP r2 (i := .drop b.length) rfl
          rw [hm_bind, e3]
          refine ⟨_, _, _, rfl, rfl, ?_, ?_⟩
          · simp only [List.append_nil, Option.toList_none]
            rw [k2]
            have := hd []
            simp only [List.append_nil] at this
            rw [← this]
            exact r3
          · simp only [List.append_nil, Option.toList_none]
            rw [k1, hholders, hl, hh]
            simp
        | some kv =>
          obtain ⟨k, v⟩ := kv
          rw [hfo] at hz
          have hv := bin_owned ho hfo
          subst hv
          simp only [← hz, Option.map_some]
          obtain ⟨_, xs3, h3, e3, _, r3⟩ := hcall_ok hP r2 (clone_spec ha')
          rw [hm_bind, e3]
          simp only
          obtain ⟨_, xs4, h4, e4, _, r4⟩ := hcall_ok hP r3 (i := .drop b.length) rfl
          rw [hm_bind, e4]
          refine ⟨_, _, _, rfl, rfl, ?_, ?_⟩
          · simp only [List.map_append, Option.toList_some]
            rw [k2]
            rw [hd] at r4
            exact r4
          · simp only [List.map_append, Option.toList_some]
            rw [k1, hholders, hl, hh]
            simp
  · rw [if_neg hxy]
    have hs : (Instr.intoBin o x y).spec b = some (.ok .unit, b) := by
      simp only [Instr.spec]
      cases hx : b[x]? with
      | none => rfl
      | some a =>
        cases hy : b[y]? with
        | none => rfl
        | some c => exact absurd ⟨(List.getElem?_eq_some_iff.mp hx).1,
            (List.getElem?_eq_some_iff.mp hy).1⟩ hxy
    obtain ⟨k1, k2⟩ := hkeep _ _ hs
    rw [hs]
    refine ⟨_, _, _, rfl, rfl, ?_, ?_⟩
    · simp only [List.append_nil]
      rw [k2]
      exact hr
    · simp only [List.append_nil]
      rw [k1, hholders, hl, hh]
      simp

/-- A step of the machine with pointers agrees with that of the machine whose errors are
values. -/
theorem act_agrees (a : EAct) {h : Heap} {s : Held HInt} {t : AHeld} (hr : HeldRep P h s t) :
    match a.spec t with
    | none => a.hexec A s h = .error .panic
    | some (r, t') => ∃ y s' h', a.hexec A s h = .ok ((y, s'), h') ∧ absRes y = r ∧
        HeldRep P h' s' t' := by
  have hh := hr.2
  have skip : ∃ y s' h', (pure (.ok .unit, s) : HM (Res Out × Held HInt)) h = .ok ((y, s'), h') ∧
      absRes y = .ok .unit ∧ HeldRep P h' s' t := ⟨_, _, _, rfl, rfl, hr⟩
  have hget : ∀ k : Nat, s.holders[k]? = (t[k]?).map Prod.fst := by
    intro k
    rw [hh, List.getElem?_map]
  have hval : ∀ {k : Nat} {p : Holder × AInt}, t[k]? = some p → (t.map Prod.snd)[k]? = some p.2 := by
    intro k p hp
    rw [List.getElem?_map, hp]; rfl
  unfold EAct.hexec EAct.step EAct.spec
  cases a with
  | call i =>
    simp only [hh]
    by_cases hf : i.Fits (t.map Prod.fst)
    · rw [if_pos hf, if_pos hf]
      have key : match i.spec (t.map Prod.snd) with
          | none => (match i with
              | .intoBin o x y => keepInto (Instr.hexec A) o x y s
              | i => keepCall (Instr.hexec A) i s) h = .error .panic
          | some (r, b) => ∃ y s' h', (match i with
              | .intoBin o x y => keepInto (Instr.hexec A) o x y s
              | i => keepCall (Instr.hexec A) i s) h = .ok ((y, s'), h') ∧ absRes y = r ∧
              HeldRep P h' s' (i.keep t b ++
                match r with | .ok _ => [] | .error e => e.owned.toList) := by
        cases i with
        | intoBin o x y => exact keepInto_agrees hP o x y hf hr
        | _ => exact keepCall_agrees hP _ hf hr
      cases hq : i.spec (t.map Prod.snd) with
      | none => rw [hq] at key; exact key
      | some p =>
        obtain ⟨r, b⟩ := p
        rw [hq] at key
        cases r with
        | ok o =>
          simp only [List.append_nil] at key
          exact key
        | error e => exact key
    · rw [if_neg hf, if_neg hf]
      exact skip
  | cloneErr k =>
    simp only [hget]
    cases hk : t[k]? with
    | none => exact skip
    | some p =>
      obtain ⟨q, v⟩ := p
      have hc := hcall_ok hP hr.1 (clone_spec (hval hk))
      have go : ∃ y s' h', (do
          let (r, b) ← (Instr.clone k).hexec A s.ints
          pure (r, (⟨s.holders ++ [q], b⟩ : Held HInt)) : HM (Res Out × Held HInt)) h =
          .ok ((y, s'), h') ∧ absRes y = .ok .unit ∧ HeldRep P h' s' (t ++ [(q, v)]) := by
        obtain ⟨y, xs, h', e, h1, h2⟩ := hc
        rw [hm_bind, e]
        refine ⟨_, _, _, rfl, h1, ?_, ?_⟩
        · simpa using h2
        · simp [hh]
      cases q with
      | «variable» => exact skip
      | _ => exact go
  | dropErr k =>
    simp only [hget]
    cases hk : t[k]? with
    | none => exact skip
    | some p =>
      obtain ⟨q, v⟩ := p
      have hc := hcall_ok hP hr.1 (i := .drop k) rfl
      have go : ∃ y s' h', (do
          let (r, b) ← (Instr.drop k).hexec A s.ints
          pure (r, (⟨s.holders.eraseIdx k, b⟩ : Held HInt)) : HM (Res Out × Held HInt)) h =
          .ok ((y, s'), h') ∧ absRes y = .ok .unit ∧ HeldRep P h' s' (t.eraseIdx k) := by
        obtain ⟨y, xs, h', e, h1, h2⟩ := hc
        rw [hm_bind, e]
        refine ⟨_, _, _, rfl, h1, ?_, ?_⟩
        · simpa [List.eraseIdx_map] using h2
        · simp [hh, List.eraseIdx_map]
      cases q with
      | «variable» => exact skip
      | _ => exact go
  | eqErr k l =>
    simp only [hget]
    cases hk : t[k]? with
    | none => exact skip
    | some p =>
      obtain ⟨q, v⟩ := p
      cases hl : t[l]? with
      | none => cases q <;> exact skip
      | some p' =>
        obtain ⟨q', v'⟩ := p'
        have hspec : (Instr.ask2 .eq k l).spec (t.map Prod.snd) =
            some (.ok (.bool (decide (v = v'))), t.map Prod.snd) := by
          simp only [Instr.spec, hval hk, hval hl, Ask2.spec]
        have hc := hcall_ok hP hr.1 hspec
        have go : ∃ y s' h', (if q ≠ q' then pure (.ok (.bool false), s) else do
            let (r, b) ← (Instr.ask2 .eq k l).hexec A s.ints
            pure (r, (⟨s.holders, b⟩ : Held HInt)) : HM (Res Out × Held HInt)) h =
            .ok ((y, s'), h') ∧ absRes y = .ok (.bool (decide ((q, v) = (q', v')))) ∧
            HeldRep P h' s' t := by
          by_cases hq : q = q'
          · subst hq
            rw [if_neg (by simp)]
            obtain ⟨y, xs, h', e, h1, h2⟩ := hc
            rw [hm_bind, e]
            refine ⟨_, _, _, rfl, ?_, h2, hh⟩
            rw [h1]
            simp
          · rw [if_pos hq]
            refine ⟨_, _, _, rfl, ?_, hr⟩
            simp [absRes, hq]
        cases q with
        | «variable» => exact skip
        | _ => cases q' with
          | «variable» => exact skip
          | _ => exact go

omit hP [Allocator] in
theorem left_keep {i : Instr} {t : AHeld} (hf : i.Fits (t.map Prod.fst))
    (hs : i.spec (t.map Prod.snd) = none) :
    (i.keep t (i.specLeft (t.map Prod.snd))).map Prod.fst = t.map Prod.fst ∧
      (i.keep t (i.specLeft (t.map Prod.snd))).map Prod.snd = i.specLeft (t.map Prod.snd) := by
  have hlen : (i.specLeft (t.map Prod.snd)).length = t.length := by
    unfold Instr.specLeft
    split <;> simp
  have hd : ¬ ∃ x, i = .drop x := by
    rintro ⟨x, rfl⟩
    cases hs
  have hk : i.keep t (i.specLeft (t.map Prod.snd)) = List.zipWith
      (fun (p : Holder × AInt) v => if p.1 = .variable then (p.1, v) else p) t
        (i.specLeft (t.map Prod.snd)) ++
      ((i.specLeft (t.map Prod.snd)).drop t.length).map fun v => (Holder.variable, v) := by
    cases i <;> first | rfl | exact absurd ⟨_, rfl⟩ hd
  have key := zip_keep (s := t) (b' := i.specLeft (t.map Prod.snd)) (by omega) (by
    intro j p hp hv
    have hget : (t.map Prod.snd)[j]? = some p.2 := by rw [List.getElem?_map, hp]; rfl
    have hne : ∀ {x : Nat}, x ∈ i.mutates → x ≠ j := by
      rintro x hx rfl
      exact hv (hf x hx p.1 (by rw [List.getElem?_map, hp]; rfl))
    unfold Instr.specLeft
    have hmod : ∀ {x : Nat} {l : ABank}, x ∈ i.mutates → l[j]? = some p.2 →
        (l.modify x AInt.magnitude)[j]? = some p.2 := by
      intro x l hx hl
      rw [List.getElem?_modify, hl]
      simp [hne hx]
    split
    · exact hmod (by simp [Instr.mutates]) hget
    · exact hmod (by simp [Instr.mutates]) hget
    · exact hmod (by simp [Instr.mutates]) (hmod (by simp [Instr.mutates]) hget)
    · exact hmod (by simp [Instr.mutates]) (hmod (by simp [Instr.mutates]) hget)
    · exact hget)
  rw [hk]
  rw [hlen] at key
  simpa only [List.length_map, Nat.sub_self, List.replicate_zero, List.append_nil] using key

/-- A step whose panic is caught. -/
theorem ecaught_agrees
    (hP' : ∀ (b b' : HBank) (h h' : Heap) (i : Instr), P b h → i.hexec A b h = .error .panic →
      i.hleft A b h = .ok (b', h') → P b' h')
    (a : EAct) {h : Heap} {s : Held HInt} {t : AHeld} (hr : HeldRep P h s t) :
    ∃ y s' h', a.hcaught A s h = .ok ((y, s'), h') ∧ y.abs = (a.specCaught t).1 ∧
      HeldRep P h' s' (a.specCaught t).2 := by
  have ha := act_agrees hP a hr
  unfold EAct.hcaught EAct.specCaught
  cases hq : a.spec t with
  | some p =>
    obtain ⟨r, t'⟩ := p
    rw [hq] at ha
    obtain ⟨y, s', h', e, h1, h2⟩ := ha
    rw [e]
    exact ⟨_, _, _, rfl, by simp only [Seen.abs, h1], h2⟩
  | none =>
    rw [hq] at ha
    have ha : a.hexec A s h = .error .panic := ha
    rw [ha]
    cases a with
    | call i =>
      simp only
      simp only [EAct.spec] at hq
      split at hq
      · rename_i hf
        have hs : i.spec (t.map Prod.snd) = none := by
          split at hq
          · assumption
          · cases hq
          · cases hq
        obtain ⟨⟨hp, bs, hrep, hb, hbs⟩, hh⟩ := hr
        have hex : i.hexec A s.ints h = .error .panic := (hexec_panic A i hrep hb).mpr (hbs ▸ hs)
        obtain ⟨xs', h', bs', e1, e2, r1, w1⟩ := hleft_ok A i hrep hb hex
        obtain ⟨sn, b', e3, _, h3⟩ := caught_agrees i hb
        have e4 : i.caught bs = .ok (.panicked, bs') := by unfold Instr.caught; rw [e2]
        rw [e4] at e3
        cases e3
        have h4 : bs'.map ApInt.abs = i.specLeft (t.map Prod.snd) := by
          have := congrArg Prod.snd h3
          simpa only [Instr.specCaught, hbs, hs] using this
        obtain ⟨k1, k2⟩ := left_keep hf hs
        rw [e1]
        refine ⟨_, _, _, rfl, rfl, ⟨hP' _ _ _ _ _ hp hex e1, bs', r1, w1, ?_⟩, ?_⟩
        · rw [h4, k2]
        · rw [k1]; exact hh
      · cases hq
    | cloneErr k => simp only [EAct.spec] at hq; split at hq <;> cases hq
    | dropErr k => simp only [EAct.spec] at hq; split at hq <;> cases hq
    | eqErr k l => simp only [EAct.spec] at hq; split at hq <;> cases hq

/-- A client that keeps errors. -/
theorem ehplay_agrees
    (hP' : ∀ (b b' : HBank) (h h' : Heap) (i : Instr), P b h → i.hexec A b h = .error .panic →
      i.hleft A b h = .ok (b', h') → P b' h')
    (c : EClient) (n : Nat) (seen : List ASeen) {h : Heap} {s : Held HInt} {t : AHeld}
    (hr : HeldRep P h s t) :
    ∃ s' h', ehplay A c n seen s h = .ok (((especPlay c n seen t).1, s'), h') ∧
      HeldRep P h' s' (especPlay c n seen t).2 := by
  induction n generalizing seen h s t with
  | zero => exact ⟨s, h, rfl, hr⟩
  | succ n ih =>
    unfold ehplay especPlay
    cases c seen with
    | none => exact ⟨s, h, rfl, hr⟩
    | some a =>
      obtain ⟨y, s', h', e, h1, h2⟩ := ecaught_agrees hP hP' a hr
      obtain ⟨s'', h'', e', h3⟩ := ih (seen ++ [y.abs]) h2
      simp only [e, run_bind_ok, ← h1]
      exact ⟨s'', h'', e', h3⟩

end

end Verif
