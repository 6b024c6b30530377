import Verif.Proof.Calm
import Verif.Props.Heap

/-!
# Which calls allocate (C67)

The documentation promises that integers of at most 64 bits never allocate, that the memory in use
is determined by the widths, and that the calls on `&mut self` work in place as long as the number
of digits stays the same.  `log` has every request made to the allocator.
-/

namespace Verif.Props

open ApInt Ex

section

variable [Allocator]

theorem hm_bind_inv {α β : Type} {m : HM α} {f : α → HM β} {h h' : Heap} {v : β}
    (e : (m >>= f) h = .ok (v, h')) : ∃ a h1, m h = .ok (a, h1) ∧ f a h1 = .ok (v, h') := by
  rw [hm_bind] at e
  cases hm : m h with
  | error f => rw [hm] at e; cases e
  | ok x => rw [hm] at e; exact ⟨x.1, x.2, rfl, e⟩

theorem hstore_set {b b' : HBank} {x : Nat} {m : HM (Res Unit × HInt)} {h h' : Heap} {r : Res Out}
    (e : hstore b x m h = .ok ((r, b'), h')) : ∃ y, b' = b.set x y := by
  unfold hstore at e
  obtain ⟨⟨_, y⟩, h1, _, e⟩ := hm_bind_inv e
  cases e
  exact ⟨y, rfl⟩

/-- The abstract machine and the bank after a call. -/
theorem hexec_spec {A : Growth} {b b' : HBank} {h h' : Heap} {i : Instr} {r : Res Out} {bs : Bank}
    (h1 : Reachable bs) (h2 : Rep h b bs) (e : i.hexec A b h = .ok ((r, b'), h')) :
    ∃ bs', Rep h' b' bs' ∧ Reachable bs' ∧
      i.spec (bs.map ApInt.abs) = some (absRes r, bs'.map ApInt.abs) := by
  have hs := hexec_sim A i h2 (reachable_wf h1)
  have ha := exec_agrees i (reachable_wf h1)
  cases he : i.exec bs with
  | error f =>
    rw [he] at hs
    cases e.symm.trans (show i.hexec A b h = .error f from hs)
  | ok v =>
    rw [he] at hs
    obtain ⟨v', h'', e', hr, h3⟩ := hs
    cases e.symm.trans e'
    refine ⟨v.2, h3, h1.call (r := v.1) he, ?_⟩
    rw [he] at ha
    cases hsp : i.spec (bs.map ApInt.abs) with
    | none => rw [hsp] at ha; cases ha
    | some w =>
      rw [hsp] at ha
      obtain ⟨y, c, ey, hy, _, hc⟩ := ha
      cases ey
      obtain ⟨w1, w2⟩ := w
      simp only at hr hy hc
      rw [← hc, ← hy, ← hr]

omit [Allocator] in
theorem match_widths {xs : HBank} {bs : Bank} (hm : List.Forall₂ Match xs bs) :
    (bs.map ApInt.abs).map AInt.width = xs.map fun x => x.len.toUsize := by
  induction hm with
  | nil => rfl
  | @cons x a _ _ h _ ih =>
    simp only [List.map_cons]
    rw [ih]
    congr 1
    show a.len.toUsize = _
    rw [h.1]

omit [Allocator] in
theorem set_map_self {α β : Type} {l : List α} {x : Nat} {a c : α} {f : α → β} (h : l[x]? = some a)
    (hf : f c = f a) : (l.set x c).map f = l.map f := by
  rw [List.map_set, hf]
  exact set_self (by rw [List.getElem?_map, h]; rfl)

omit [Allocator] in
/-- Calls on lent integers other than `assign` and the casts keep all widths. -/
theorem borrows_widths {i : Instr} (hi : i.borrows) (h1 : ∀ o x, i ≠ .un o x)
    (h2 : ∀ x y, i ≠ .assign x y) {b b' : ABank} {r : Except AErr Out}
    (e : i.spec b = some (r, b')) : b'.map AInt.width = b.map AInt.width := by
  have one : ∀ (x : Nat) {k : AInt → Option (Except AErr Out × ABank)},
      (match b[x]? with | some a => k a | none => some (.ok .unit, b)) = some (r, b') →
      (∀ a, b[x]? = some a → k a = some (r, b') → b'.map AInt.width = b.map AInt.width) →
      b'.map AInt.width = b.map AInt.width := by
    intro x k e hk
    cases hx : b[x]? with
    | none => rw [hx] at e; cases e; rfl
    | some a => rw [hx] at e; exact hk a hx e
  have two : ∀ (x y : Nat) {k : AInt → AInt → Option (Except AErr Out × ABank)},
      (match b[x]?, b[y]? with | some a, some c => k a c | _, _ => some (.ok .unit, b)) =
        some (r, b') →
      (∀ a c, b[x]? = some a → b[y]? = some c → k a c = some (r, b') →
        b'.map AInt.width = b.map AInt.width) →
      b'.map AInt.width = b.map AInt.width := by
    intro x y k e hk
    cases hx : b[x]? with
    | none => rw [hx] at e; cases e; rfl
    | some a =>
      cases hy : b[y]? with
      | none => rw [hx, hy] at e; cases e; rfl
      | some c => rw [hx, hy] at e; exact hk a c hx hy e
  have store : ∀ {x : Nat} {a : AInt} {s : Except AErr AInt}, b[x]? = some a →
      (∀ z, s = .ok z → z.width = a.width) → ABank.store b x s = (r, b') →
      b'.map AInt.width = b.map AInt.width := by
    intro x a s hx hz e
    cases s with
    | error f => cases e; rfl
    | ok z => cases e; exact set_map_self hx (hz z rfl)
  cases i with
  | make m => exact hi.elim
  | clone x => exact hi.elim
  | drop x => exact hi.elim
  | intoUn o x => exact hi.elim
  | intoBin o x y => exact hi.elim
  | op o x y => exact hi.elim
  | opShl s x => exact hi.elim
  | un o x => exact absurd rfl (h1 o x)
  | assign x y => exact absurd rfl (h2 x y)
  | strictAssign x y =>
    refine two x y e fun a c hx hy e => store hx ?_ (Option.some.inj e)
    intro z hz
    split at hz
    · cases hz; exact (by assumption : _ = _).symm
    · cases hz
  | alter o x =>
    exact one x e fun a hx e => store hx (fun z hz => alter_width hz) (Option.some.inj e)
  | bin o x y =>
    refine two x y e fun a c hx hy e => ?_
    cases hs : o.spec a c with
    | none => rw [hs] at e; cases e
    | some s =>
      rw [hs] at e
      exact store hx (fun z hz => bin_width (by rw [hs, hz])) (Option.some.inj e)
  | opAssign o x y =>
    refine two x y e fun a c hx hy e => ?_
    cases hs : o.spec a c with
    | none => rw [hs] at e; cases e
    | some z =>
      rw [hs] at e
      refine store hx ?_ (Option.some.inj e)
      rintro _ ⟨⟩
      cases o <;> exact bin_width (okOnly_some hs)
  | opShlAssign s x =>
    refine one x e fun a hx e => ?_
    cases hs : okOnly (some ((Un.shl s).spec a)) with
    | none => rw [hs] at e; cases e
    | some z =>
      rw [hs] at e
      refine store hx ?_ (Option.some.inj e)
      rintro _ ⟨⟩
      have : (if s < a.width then .ok (AInt.ofInt a.width (a.bits * 2 ^ s))
          else .error (.shift s a.width) : Except AErr AInt) = .ok z := Option.some.inj (okOnly_some hs)
      split at this
      · cases this; rfl
      · cases this
  | pair o x y =>
    refine two x y e fun a c hx hy e => ?_
    cases hs : o.spec a c with
    | none => rw [hs] at e; cases e
    | some s =>
      rw [hs] at e
      cases s with
      | error f => cases e; rfl
      | ok z =>
        obtain ⟨z, z'⟩ := z
        cases e
        obtain ⟨w1, w2⟩ := pair_width hs
        have hy' : (b.set x z)[y]? = some c := by rw [List.getElem?_set_ne hi, hy]
        rw [set_map_self hy' (w2.1.trans w2.2), set_map_self hx w1]
  | ask q x =>
    refine one x e fun a hx e => ?_
    cases hs : q.spec a with
    | none => rw [hs] at e; cases e
    | some s => rw [hs] at e; cases e; rfl
  | ask2 q x y => exact two x y e fun a c hx hy e => by cases e; rfl

omit [Allocator] in
theorem digits_of_widths {b b' : HBank}
    (h : (b'.map fun x => x.len.toUsize) = b.map fun x => x.len.toUsize) :
    b'.map HInt.digits = b.map HInt.digits := by
  have := congrArg (List.map fun n => (n + 63) / 64) h
  rw [List.map_map, List.map_map] at this
  exact this

/-- A call on lent integers makes no request when it leaves all numbers of digits as they were. -/
theorem in_place {A : Growth} {b b' : HBank} {h h' : Heap} {i : Instr} {r : Res Out}
    (hr : HReachable A b h) (hi : i.borrows) (e : i.hexec A b h = .ok ((r, b'), h'))
    (hd : b'.map HInt.digits = b.map HInt.digits) :
    h'.log = h.log ∧ b'.map HInt.buf = b.map HInt.buf := by
  obtain ⟨bs, h1, h2⟩ := hreachable_rep hr
  obtain ⟨bs', h3, h4, hs⟩ := hexec_spec h1 h2 e
  have hd' := match_widths h3.mat
  have hdig : ∀ {x : Nat} {z : AInt} {a : HInt}, (bs'.map ApInt.abs)[x]? = some z →
      b[x]? = some a → (z.width + 63) / 64 = (a.len.toUsize + 63) / 64 := by
    intro x z a hz ha
    have e1 : (b'.map HInt.digits)[x]? = some ((z.width + 63) / 64) := by
      have : (b'.map fun x => x.len.toUsize)[x]? = some z.width := by
        rw [← hd', List.getElem?_map, hz]; rfl
      rw [List.getElem?_map] at this ⊢
      cases hb : b'[x]? with
      | none => rw [hb] at this; cases this
      | some y =>
        rw [hb] at this
        have := Option.some.inj this
        show some ((y.len.toUsize + 63) / 64) = _
        rw [← this]
    rw [hd, List.getElem?_map, ha] at e1
    exact (Option.some.inj e1).symm
  have hc : (i.hexec A b).Calm (fun r => bufs r.2 = bufs b) := by
    refine borrows_calm A hi h2.mat ?_ ?_
    · rintro o x a rfl ha z a' ha' hz
      have hx : (bs.map ApInt.abs)[x]? = some a'.abs := by rw [List.getElem?_map, ha']; rfl
      have hs : some (ABank.store (bs.map ApInt.abs) x (o.spec a'.abs)) =
          some (absRes r, bs'.map ApInt.abs) := by
        rw [← hs]; simp only [Instr.spec, hx]
      rw [hz] at hs
      have hs : (bs.map ApInt.abs).set x z = bs'.map ApInt.abs :=
        congrArg Prod.snd (Option.some.inj hs)
      refine hdig (x := x) ?_ ha
      rw [← hs]
      exact List.getElem?_set_self (List.getElem?_eq_some_iff.mp hx).1
    · rintro x y a c rfl ha hc
      show a.len.requiredDigits = c.len.requiredDigits
      rw [BitWidth.requiredDigits_eq, BitWidth.requiredDigits_eq]
      cases hbx : bs[x]? with
      | none => rw [forall₂_none h2.mat hbx] at ha; cases ha
      | some a' =>
        cases hby : bs[y]? with
        | none => rw [forall₂_none h2.mat hby] at hc; cases hc
        | some c' =>
          obtain ⟨c'', hc'', hm⟩ := forall₂_get h2.mat hby
          rw [hc] at hc''
          cases hc''
          have hx : (bs.map ApInt.abs)[x]? = some a'.abs := by rw [List.getElem?_map, hbx]; rfl
          have hy : (bs.map ApInt.abs)[y]? = some c'.abs := by rw [List.getElem?_map, hby]; rfl
          have hs : some (ABank.store (bs.map ApInt.abs) x (.ok c'.abs)) =
              some (absRes r, bs'.map ApInt.abs) := by
            rw [← hs]; simp only [Instr.spec, hx, hy]
          have hs : (bs.map ApInt.abs).set x c'.abs = bs'.map ApInt.abs :=
            congrArg Prod.snd (Option.some.inj hs)
          have := hdig (x := x) (z := c'.abs) (by
            rw [← hs]
            exact List.getElem?_set_self (List.getElem?_eq_some_iff.mp hx).1) ha
          rw [← this]
          show _ = (c.len.toUsize + 63) / 64
          rw [hm.1]
          rfl
  obtain ⟨q, hl, _⟩ := hc.run e
  exact ⟨hl, q⟩

/-- When one integer is exchanged for one with another number of digits, there was a request. -/
theorem set_requests {A : Growth} {b : HBank} {h h' : Heap} {x : Nat} {y : HInt}
    (hr : HReachable A b h) (hr' : HReachable A (b.set x y) h') (hl : h'.log = h.log) :
    (b.set x y).map HInt.digits = b.map HInt.digits := by
  by_cases hx : x < b.length
  swap
  · rw [List.set_eq_of_length_le (Nat.le_of_not_lt hx)]
  have ha : b[x]? = some b[x] := List.getElem?_eq_getElem hx
  have hy : (b.set x y)[x]? = some y := List.getElem?_set_self hx
  have hoth : ∀ {j : Nat}, j ≠ x → (b.set x y)[j]? = b[j]? := fun hj =>
    List.getElem?_set_ne (Ne.symm hj)
  refine set_map_self ha ?_
  generalize b[x] = a at ha
  have hlive : ∀ p cap, LiveAt h.log p cap ↔ LiveAt h'.log p cap := fun p cap => by rw [hl]
  have hmem : ∀ {l : HBank} {z : HInt}, z ∈ l → ∃ j, l[j]? = some z := fun hz =>
    List.mem_iff_getElem?.mp hz
  cases had : a.data with
  | ext p =>
    have h1 := (C53_live hr p _).mpr ⟨a, List.mem_of_getElem? ha, had, rfl⟩
    obtain ⟨z, hz, hzp, hcap⟩ := (C53_live hr' p _).mp ((hlive _ _).mp h1)
    obtain ⟨j, hj⟩ := hmem hz
    by_cases hjx : j = x
    · subst hjx
      rw [hy] at hj
      cases hj
      exact hcap.symm
    · rw [hoth hjx] at hj
      exact absurd (C53_not_shared hr hj ha hzp had) hjx
  | inl d =>
    have hsa : ¬ 64 < a.len.toUsize := fun hc => by
      obtain ⟨p, hp⟩ := (C53_storage hr (List.mem_of_getElem? ha)).mpr hc
      rw [had] at hp
      cases hp
    cases hyd : y.data with
    | ext p =>
      have h1 := (C53_live hr' p _).mpr ⟨y, List.mem_of_getElem? hy, hyd, rfl⟩
      obtain ⟨z, hz, hzp, hcap⟩ := (C53_live hr p _).mp ((hlive _ _).mpr h1)
      obtain ⟨j, hj⟩ := hmem hz
      by_cases hjx : j = x
      · subst hjx
        rw [ha] at hj
        cases hj
        rw [had] at hzp
        cases hzp
      · rw [← hoth hjx] at hj
        exact absurd (C53_not_shared hr' hj hy hzp hyd) hjx
    | inl d' =>
      have hsy : ¬ 64 < y.len.toUsize := fun hc => by
        obtain ⟨p, hp⟩ := (C53_storage hr' (List.mem_of_getElem? hy)).mpr hc
        rw [hyd] at hp
        cases hp
      have := a.len.pos
      have := y.len.pos
      show (y.len.toUsize + 63) / 64 = (a.len.toUsize + 63) / 64
      omega

/-- C67: a call on lent integers makes a request to the allocator exactly when it changes the number
of digits of one of them.  (So no arithmetic, bitwise, shift, bit or comparison call ever does, and
the casts and `assign` only across a multiple of 64 bits.  Requests are those for the buffers of the
program's own integers.  The heap model leaves out scratch space: the vectors and copies local to
multiplication and division, and the copy of an operand carried by a division-by-zero or
unrepresentable-value error.) -/
theorem C67_in_place {A : Growth} {b b' : HBank} {h h' : Heap} {i : Instr} {r : Res Out}
    (hr : HReachable A b h) (hi : i.borrows) (e : i.hexec A b h = .ok ((r, b'), h')) :
    h'.log = h.log ↔ b'.map HInt.digits = b.map HInt.digits := by
  refine ⟨fun hl => ?_, fun hd => (in_place hr hi e hd).1⟩
  have hr' : HReachable A b' h' := hr.call e
  by_cases h1 : ∃ o x, i = .un o x
  · obtain ⟨o, x, rfl⟩ := h1
    cases hx : b[x]? with
    | none =>
      simp only [Instr.hexec, hx] at e
      cases e
      rfl
    | some a =>
      simp only [Instr.hexec, hx] at e
      obtain ⟨y, rfl⟩ := hstore_set e
      exact set_requests hr hr' hl
  by_cases h2 : ∃ x y, i = .assign x y
  · obtain ⟨x, y, rfl⟩ := h2
    cases hx : b[x]? with
    | none =>
      simp only [Instr.hexec, hx] at e
      cases e
      rfl
    | some a =>
      cases hy : b[y]? with
      | none =>
        simp only [Instr.hexec, hx, hy] at e
        cases e
        rfl
      | some c =>
        simp only [Instr.hexec, hx, hy] at e
        obtain ⟨y, rfl⟩ := hstore_set e
        exact set_requests hr hr' hl
  obtain ⟨bs, h3, h4⟩ := hreachable_rep hr
  obtain ⟨bs', h5, _, hs⟩ := hexec_spec h3 h4 e
  refine digits_of_widths ?_
  rw [← match_widths h5.mat, ← match_widths h4.mat]
  exact borrows_widths hi (fun o x hc => h1 ⟨o, x, hc⟩) (fun x y hc => h2 ⟨x, y, hc⟩) hs

/-- C67: such a call keeps the buffer of every integer where it is. -/
theorem C67_same_buffer {A : Growth} {b b' : HBank} {h h' : Heap} {i : Instr} {r : Res Out}
    (hr : HReachable A b h) (hi : i.borrows) (e : i.hexec A b h = .ok ((r, b'), h'))
    (hd : b'.map HInt.digits = b.map HInt.digits) : b'.map HInt.buf = b.map HInt.buf :=
  (in_place hr hi e hd).2

/-- C67: a call that starts and ends with integers of at most 64 bits only makes no request to the
allocator (vectors of one digit being kept in the inline room of the small vector). -/
theorem C67_small {A : Growth} (hA : A.Snug) {b b' : HBank} {h h' : Heap} {i : Instr} {r : Res Out}
    (hr : HReachable A b h) (e : i.hexec A b h = .ok ((r, b'), h'))
    (hb : ∀ x ∈ b, x.len.toUsize ≤ 64) (hb' : ∀ x ∈ b', x.len.toUsize ≤ 64) :
    h'.log = h.log := by
  obtain ⟨bs, h1, h2⟩ := hreachable_rep hr
  obtain ⟨bs', h3, _, hs⟩ := hexec_spec h1 h2 e
  refine ((small_calm hA i h2.mat (reachable_wf h1) hb ?_).run e).2.1
  intro r s hrs z hz
  rw [hs] at hrs
  cases hrs
  have hz : z.width ∈ (bs'.map ApInt.abs).map AInt.width := List.mem_map_of_mem hz
  rw [match_widths h3.mat] at hz
  obtain ⟨x, hx, hxe⟩ := List.mem_map.mp hz
  rw [← hxe]
  exact hb' x hx

/-- C67: a program whose integers never have more than 64 bits never uses the allocator. -/
theorem C67_small_program {A : Growth} (hA : A.Snug) (p : List Instr)
    (hs : ∀ k b h, (hrun A (p.take k) [] ⟨[], []⟩).2 = .ok (b, h) → ∀ x ∈ b, x.len.toUsize ≤ 64)
    {b : HBank} {h : Heap} (e : (hrun A p [] ⟨[], []⟩).2 = .ok (b, h)) : h.log = [] := by
  have key : ∀ (p : List Instr) {b0 b : HBank} {h0 h : Heap}, HReachable A b0 h0 →
      (∀ x ∈ b0, x.len.toUsize ≤ 64) →
      (∀ k b h, (hrun A (p.take k) b0 h0).2 = .ok (b, h) → ∀ x ∈ b, x.len.toUsize ≤ 64) →
      (hrun A p b0 h0).2 = .ok (b, h) → h.log = h0.log := by
    intro p
    induction p with
    | nil => intro b0 b h0 h _ _ _ e; cases e; rfl
    | cons i p ih =>
      intro b0 b h0 h hr hb0 hs e
      cases hi : i.hexec A b0 h0 with
      | error f => simp only [hrun, hi] at e; cases e
      | ok v =>
        obtain ⟨⟨r, b1⟩, h1⟩ := v
        have hb1 := hs 1 b1 h1 (by simp only [List.take_succ_cons, List.take_zero, hrun, hi])
        simp only [hrun, hi] at e
        refine (ih (hr.call hi) hb1 ?_ e).trans (C67_small hA hr hi hb0 hb1)
        intro k b h ek
        refine hs (k + 1) b h ?_
        simp only [List.take_succ_cons, hrun, hi]
        exact ek
  exact key p .start (by simp) hs e

/-- Requests and live buffers are in step. -/
def Balanced (h : Heap) : Prop :=
  (h.cells.map Prod.fst).Nodup ∧ inUse h.log = ((h.cells.map fun c => (c.2.cap : Int)).sum : Int)

omit [Allocator] in
theorem sum_remove {l : List (Nat × Block)} (hn : (l.map Prod.fst).Nodup) {c : Nat × Block} {p : Nat}
    (hf : l.find? (fun c => c.1 == p) = some c) :
    ((l.map fun c => (c.2.cap : Int)).sum : Int) =
      ((l.filter (fun c => c.1 != p)).map fun c => (c.2.cap : Int)).sum + c.2.cap := by
  induction l with
  | nil => cases hf
  | cons d l ih =>
    simp only [List.map_cons, List.nodup_cons] at hn
    by_cases hd : d.1 = p
    · simp only [List.find?_cons, hd, beq_self_eq_true, Option.some.injEq] at hf
      subst hf
      have : l.filter (fun c => c.1 != p) = l := by
        rw [List.filter_eq_self]
        intro c hc
        simp only [bne_iff_ne, ne_eq]
        rintro rfl
        exact hn.1 (hd ▸ List.mem_map_of_mem hc)
      rw [List.filter_cons_of_neg (by simp [hd]), this]
      simp only [List.map_cons, List.sum_cons]
      omega
    · rw [List.find?_cons_of_neg (by simpa using hd)] at hf
      rw [List.filter_cons_of_pos (by simpa using hd)]
      simp only [List.map_cons, List.sum_cons]
      have := ih hn.2 hf
      omega

omit [Allocator] in
theorem inUse_append (l : List Event) (e : Event) : inUse (l ++ [e]) = inUse l + inUse [e] := by
  simp [inUse]

theorem run_balanced {α : Type} (m : HM α) {h h' : Heap} {a : α} (hb : Balanced h)
    (e : m h = .ok (a, h')) : Balanced h' := by
  induction m generalizing h with
  | ret a => cases e; exact hb
  | fault f => cases e
  | alloc cap ds k ih =>
    refine ih _ ⟨?_, ?_⟩ e
    · rw [List.map_cons, List.nodup_cons]
      exact ⟨Allocator.fresh h, hb.1⟩
    · rw [inUse_append, hb.2]
      simp only [List.map_cons, List.sum_cons, inUse, List.map_nil, List.sum_nil]
      omega
  | get p k ih =>
    unfold HM.run at e
    split at e
    · exact ih _ hb e
    · cases e
  | write p ds k ih =>
    unfold HM.run at e
    split at e
    · split at e
      · refine ih ⟨?_, ?_⟩ e
        · refine Eq.subst (motive := List.Nodup) ?_ hb.1
          simp only [List.map_map]
          refine List.map_congr_left fun c _ => ?_
          simp only [Function.comp]
          split <;> rfl
        · refine hb.2.trans ?_
          simp only [List.map_map]
          congr 1
          refine List.map_congr_left fun c _ => ?_
          simp only [Function.comp]
          split <;> rfl
      · cases e
    · cases e
  | free p cap k ih =>
    unfold HM.run at e
    split at e
    · rename_i c hc
      split at e
      · rename_i hcap
        refine ih ⟨?_, ?_⟩ e
        · exact List.Nodup.sublist (List.Sublist.map _ List.filter_sublist) hb.1
        · rw [inUse_append, hb.2, sum_remove hb.1 hc]
          simp only [inUse, List.map_cons, List.map_nil, List.sum_cons, List.sum_nil]
          omega
      · cases e
    · cases e

theorem balanced {A : Growth} {b : HBank} {h : Heap} (hr : HReachable A b h) : Balanced h := by
  induction hr with
  | start => exact ⟨List.nodup_nil, rfl⟩
  | call _ e ih => exact run_balanced _ ih e
  | caught _ _ e ih => exact run_balanced _ ih e

omit [Allocator] in
theorem caps_of_match {xs : HBank} {bs : Bank} (hm : List.Forall₂ Match xs bs)
    (hb : ∀ a ∈ bs, a.WF) :
    (((cellsOf xs bs).map fun c => (c.2.cap : Int)).sum : Int) =
      (xs.map fun x => if 64 < x.len.toUsize then (x.digits : Int) else 0).sum := by
  induction hm with
  | nil => rfl
  | @cons x a xs bs h _ ih =>
    rw [cellsOf_cons, List.map_append, List.sum_append, List.map_cons, List.sum_cons,
      ih fun a ha => hb a (List.mem_cons_of_mem _ ha)]
    congr 1
    have hs := (hb a List.mem_cons_self).1
    obtain ⟨xl, xd⟩ := x
    obtain ⟨al, ad⟩ := a
    obtain ⟨rfl, h⟩ := h
    cases xd <;> cases ad
    · rw [if_neg (Nat.not_lt.mpr (show xl.toUsize ≤ 64 from hs))]
      rfl
    · exact h.elim
    · exact h.elim
    · rw [if_pos (show 64 < xl.toUsize from hs.1)]
      show ((_ : Nat) : Int) + 0 = _
      rw [Int.add_zero]
      exact congrArg Nat.cast hs.2

/-- C67: the memory in use is determined by the widths of the live integers: the digits of those
with more than 64 bits, and nothing else. -/
theorem C67_footprint {A : Growth} {b : HBank} {h : Heap} (hr : HReachable A b h) :
    inUse h.log = (b.map fun x => if 64 < x.len.toUsize then (x.digits : Int) else 0).sum := by
  obtain ⟨bs, h1, h2⟩ := hreachable_rep hr
  rw [(balanced hr).2, ← caps_of_match h2.mat (reachable_wf h1)]
  exact (h2.sep.perm.map _).sum_eq

end

/-! ## Examples -/

attribute [local instance] reusing

/-- Vectors that have twice the room they need from two digits on. -/
def roomy : Growth where
  room ds := if ds.length ≤ 1 then ds.length else 2 * ds.length
  enough ds := by split <;> omega

theorem roomy_snug : roomy.Snug := fun ds h => by
  show (if ds.length ≤ 1 then ds.length else _) ≤ 1
  rw [if_pos h]
  exact h

-- In place within the same number of digits, with a request across: truncating 200 bits to 193 and
-- to 192.
example : (hrun twice (demoHeap ++ [.un (.truncate (bw 193)) 0]) [] ⟨[], []⟩).2.map
      (fun r => (r.1, r.2.log.drop 24)) = .ok ([⟨bw 193, .ext 2⟩, ⟨bw 150, .ext 0⟩], []) ∧
    (hrun twice (demoHeap ++ [.un (.truncate (bw 192)) 0]) [] ⟨[], []⟩).2.map
      (fun r => (r.1, r.2.log.drop 24)) = .ok ([⟨bw 192, .ext 1⟩, ⟨bw 150, .ext 0⟩],
        [.alloc 1 6, .free 1 6, .alloc 1 3, .free 2 4]) := by
  decide +kernel

example : (Instr.un (.truncate (bw 193)) 0).borrows ∧ (Instr.pair .sdivrem 0 1).borrows ∧
    ¬ (Instr.clone 0).borrows := ⟨trivial, by simp [Instr.borrows], id⟩

-- The digits in use at the end of `demoHeap`: four for 200 bits and three for 150 bits.
example : ∃ h, HReachable twice [⟨bw 200, .ext 2⟩, ⟨bw 150, .ext 0⟩] h ∧ inUse h.log = 7 := by
  obtain ⟨h, hr⟩ := demoHeap_reachable
  exact ⟨h, hr, (C67_footprint hr).trans (by decide)⟩

/-- A program over small integers, with a failing and a consuming call. -/
def smallDemo : List Instr :=
  [.make (.allSet (bw 64)), .make (.u8 7), .clone 0, .un (.truncate (bw 9)) 2,
    .un (.zeroExtend (bw 33)) 2, .intoUn (.truncate (bw 60)) 1, .assign 1 0, .bin .mul 1 0,
    .intoBin .add 0 2, .make (.parse 3 "ff_ff".toList), .drop 0]

example : (hrun roomy smallDemo [] ⟨[], []⟩).2.map (fun r => (r.1.map fun x => x.len.toUsize, r.2.log)) =
    .ok ([64, 33, 64], []) := by decide +kernel

example : inUse [.alloc 0 8, .free 0 8, .alloc 0 4, .alloc 1 3] = 7 := by decide

end Verif.Props
