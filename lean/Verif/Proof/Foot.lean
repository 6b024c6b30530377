import Verif.Model.Threads

/-!
# Which buffers a call writes to

`m.Foot S Q`: whatever the memory answers, `m` writes to and frees only addresses in `S` or
allocated by itself; `Q` holds of its result and of `S` with the addresses allocated.
-/

namespace Verif

def HM.Foot {α : Type} : HM α → (Nat → Prop) → (α → (Nat → Prop) → Prop) → Prop
  | .ret a, S, Q => Q a S
  | .fault _, _, _ => True
  | .alloc _ _ k, S, Q => ∀ p, (k p).Foot (fun q => S q ∨ q = p) Q
  | .get _ k, S, Q => ∀ b, (k b).Foot S Q
  | .write p _ k, S, Q => S p ∧ k.Foot S Q
  | .free p _ k, S, Q => S p ∧ k.Foot S Q

namespace HM

variable {α β : Type} {S : Nat → Prop}

theorem Foot.mono {m : HM α} {P Q : α → (Nat → Prop) → Prop} (h : m.Foot S P)
    (hq : ∀ a S', (∀ p, S p → S' p) → P a S' → Q a S') : m.Foot S Q := by
  induction m generalizing S with
  | ret a => exact hq a S (fun _ h => h) h
  | fault f => trivial
  | alloc cap ds k ih =>
    intro p
    exact ih p (h p) fun a S' hs => hq a S' fun q hp => hs q (.inl hp)
  | get p k ih => exact fun b => ih b (h b) hq
  | write p ds k ih => exact ⟨h.1, ih h.2 hq⟩
  | free p cap k ih => exact ⟨h.1, ih h.2 hq⟩

theorem Foot.bind {m : HM α} {f : α → HM β} {P : α → (Nat → Prop) → Prop}
    {Q : β → (Nat → Prop) → Prop} (h : m.Foot S P)
    (hf : ∀ a S', (∀ p, S p → S' p) → P a S' → (f a).Foot S' Q) : (m >>= f).Foot S Q := by
  show (HM.bind m f).Foot S Q
  induction m generalizing S with
  | ret a => exact hf a S (fun _ h => h) h
  | fault f => trivial
  | alloc cap ds k ih =>
    intro p
    exact ih p (h p) fun a S' hs => hf a S' fun q hp => hs q (.inl hp)
  | get p k ih => exact fun b => ih b (h b) hf
  | write p ds k ih => exact ⟨h.1, ih h.2 hf⟩
  | free p cap k ih => exact ⟨h.1, ih h.2 hf⟩

theorem Foot.pure {a : α} {Q : α → (Nat → Prop) → Prop} (h : Q a S) : (Pure.pure a : HM α).Foot S Q := h

theorem Foot.lift (r : Run α) {Q : α → (Nat → Prop) → Prop} (h : ∀ a, r = .ok a → Q a S) :
    (liftR r).Foot S Q := by
  cases r with
  | ok a => exact h a rfl
  | error f => trivial

theorem Foot.ite {c : Prop} [Decidable c] {m m' : HM α} {Q : α → (Nat → Prop) → Prop}
    (h1 : c → m.Foot S Q) (h2 : ¬ c → m'.Foot S Q) : (if c then m else m').Foot S Q := by
  by_cases hc : c
  · rw [if_pos hc]; exact h1 hc
  · rw [if_neg hc]; exact h2 hc

/-- Nothing to show about the result. -/
abbrev Any {α : Type} : α → (Nat → Prop) → Prop := fun _ _ => True

end HM

open HM

/-- The buffer of the integer is in the set. -/
def HInt.In (x : HInt) (S : Nat → Prop) : Prop := ∀ p, x.data = .ext p → S p

/-- The same for a result that may be an error. -/
def RIn (r : Res HInt) (S : Nat → Prop) : Prop := ∀ x, r = .ok x → x.In S

def SmallVec.In (v : SmallVec) (S : Nat → Prop) : Prop := ∀ p c n, v = .spilled p c n → S p

theorem HInt.In.mono {x : HInt} {S S' : Nat → Prop} (h : x.In S) (hs : ∀ p, S p → S' p) : x.In S' :=
  fun p e => hs p (h p e)

variable {S : Nat → Prop}

theorem inl_in {w : BitWidth} {d : Digit} : (⟨w, .inl d⟩ : HInt).In S := nofun

theorem collect_foot (A : Growth) (ds : List Digit) :
    (SmallVec.collect A ds).Foot S (fun v S' => v.In S') := by
  unfold SmallVec.collect
  refine .ite (fun _ => .pure nofun) fun _ => ?_
  refine Foot.bind (P := fun p S' => S' p) (fun p => .inr rfl) fun p S' _ h => .pure ?_
  intro q c n e
  cases e
  exact h

theorem smallDrop_foot {v : SmallVec} (hv : v.In S) : v.drop.Foot S Any := by
  cases v with
  | inl ds => exact .pure trivial
  | spilled p c n => exact ⟨hv p c n rfl, trivial⟩

theorem shrink_foot {v : SmallVec} (hv : v.In S) : v.shrinkToFit.Foot S (fun v S' => v.In S') := by
  cases v with
  | inl ds => exact .pure nofun
  | spilled p c n =>
    have hp := hv p c n rfl
    refine Foot.bind (P := Any) (fun b => trivial) fun b S' hs _ => ?_
    refine .ite (fun _ => ⟨hs p hp, nofun⟩) fun _ => .ite (fun _ => ⟨hs p hp, fun q => ?_⟩) fun _ =>
      .pure ?_
    · intro q' c n e; cases e; exact .inr rfl
    · intro q' c n e; cases e; exact hs p hp

theorem boxedCopy_foot (A : Growth) (ds : List Digit) :
    (boxedCopy A ds).Foot S (fun p S' => S' p) := by
  unfold boxedCopy
  refine Foot.bind (P := fun p S' => S' p) (fun p => .inr rfl) fun p S' _ h => ?_
  refine .ite (fun _ => ⟨h, fun q => .inr rfl⟩) fun _ => .pure h

theorem readInl_foot (x : HInt) : x.readInl.Foot S Any := by
  unfold HInt.readInl
  cases x.data <;> trivial

theorem readPtr_foot {x : HInt} (hx : x.In S) : x.readPtr.Foot S (fun p S' => S' p) := by
  obtain ⟨w, d⟩ := x
  cases d with
  | inl d => trivial
  | ext p => exact hx p rfl

theorem readPtr_foot' (x : HInt) : x.readPtr.Foot S Any := by
  unfold HInt.readPtr
  cases x.data <;> trivial

theorem asDigitSlice_foot (x : HInt) : x.asDigitSlice.Foot S Any := by
  unfold HInt.asDigitSlice
  split
  · exact (readInl_foot x).bind fun _ _ _ _ => .pure trivial
  · refine (readPtr_foot' x).bind fun p _ _ _ => ?_
    refine Foot.bind (P := Any) (fun b => trivial) fun b _ _ _ => ?_
    exact .ite (fun _ => .pure trivial) fun _ => trivial

theorem load_foot (x : HInt) : x.load.Foot S Any := by
  unfold HInt.load
  split
  · exact (readInl_foot x).bind fun _ _ _ _ => .pure trivial
  · exact (asDigitSlice_foot x).bind fun _ _ _ _ => .pure trivial

theorem writeDigitSlice_foot {x : HInt} (hx : x.In S) (ds : List Digit) :
    (x.writeDigitSlice ds).Foot S (fun y S' => y.In S') := by
  unfold HInt.writeDigitSlice
  split
  · split
    · exact .pure inl_in
    · trivial
  · refine (readPtr_foot hx).bind fun p S' hs hp => ?_
    exact ⟨hp, hx.mono hs⟩

theorem store_foot {x : HInt} (hx : x.In S) (a : ApInt) : (x.store a).Foot S (fun y S' => y.In S') :=
  (writeDigitSlice_foot hx _).bind fun _ _ _ h => .pure h

theorem inPlace_foot {α : Type} {x : HInt} (hx : x.In S) (f : ApInt → Run (α × ApInt)) :
    (x.inPlace f).Foot S (fun v S' => v.2.In S') := by
  unfold HInt.inPlace
  refine (load_foot x).bind fun a S1 h1 _ => ?_
  refine Foot.bind (P := Any) (.lift _ fun _ _ => trivial) fun r S2 h2 _ => ?_
  exact (store_foot (hx.mono fun p h => h2 p (h1 p h)) r.2).bind fun y S3 _ hy => .pure hy

theorem drop_foot {x : HInt} (hx : x.In S) : x.dropDigits.Foot S Any := by
  unfold HInt.dropDigits
  split
  · exact .pure trivial
  · exact (readPtr_foot hx).bind fun p S' _ hp => ⟨hp, trivial⟩

theorem newInl_foot (w : BitWidth) (d : Digit) : (HInt.newInl w d).Foot S (fun y S' => y.In S') :=
  .ite (fun _ => .pure inl_in) fun _ => trivial

theorem newExt_foot (w : BitWidth) {p : Nat} (hp : S p) :
    (HInt.newExt w p).Foot S (fun y S' => y.In S') :=
  .ite (fun _ => .pure (by intro q e; cases e; exact hp)) fun _ => trivial

theorem rin_ok {x : HInt} (hx : x.In S) : RIn (.ok x) S := by
  intro y e; cases e; exact hx

theorem rin_error {e : Err} : RIn (.error e) S := nofun

theorem fromIter_foot (A : Growth) (ds : List Digit) : (HInt.fromIter A ds).Foot S RIn := by
  unfold HInt.fromIter
  refine (collect_foot A ds).bind fun v S1 h1 hv => ?_
  split
  · exact (smallDrop_foot hv).bind fun _ _ _ _ => .pure rin_error
  · refine (newInl_foot _ _).bind fun r S2 h2 hr => ?_
    exact (smallDrop_foot (fun p c n e => h2 p (hv p c n e))).bind fun _ _ h3 _ =>
      .pure (rin_ok (hr.mono h3))
  · refine Foot.bind (P := Any) (.lift _ fun _ _ => trivial) fun w S2 h2 _ => ?_
    refine (shrink_foot (fun p c n e => h2 p (hv p c n e))).bind fun v S3 h3 hv => ?_
    refine .ite (fun _ => trivial) fun _ => .ite (fun _ => trivial) fun _ => ?_
    refine Foot.bind (P := fun p S' => S' p) ?_ fun p S4 _ hp => ?_
    · cases v with
      | inl ds => trivial
      | spilled p c n => exact hv p c n rfl
    · exact (newExt_foot w hp).bind fun r _ _ hr => .pure (rin_ok hr)

theorem clone_foot (A : Growth) (x : HInt) : (x.clone A).Foot S (fun y S' => y.In S') := by
  unfold HInt.clone
  split
  · exact (readInl_foot x).bind fun _ _ _ _ => newInl_foot _ _
  · refine (asDigitSlice_foot x).bind fun ds _ _ _ => .ite (fun _ => trivial) fun _ => ?_
    exact (boxedCopy_foot A ds).bind fun p _ _ hp => newExt_foot _ hp

theorem assign_foot (A : Growth) {x : HInt} (hx : x.In S) (y : HInt) :
    (x.assign A y).Foot S (fun z S' => z.In S') := by
  unfold HInt.assign
  refine .ite (fun _ => ?_) fun _ => ?_
  · refine (asDigitSlice_foot x).bind fun _ S1 h1 _ => ?_
    refine (asDigitSlice_foot y).bind fun _ S2 h2 _ => ?_
    refine Foot.bind (P := Any) (.lift _ fun _ _ => trivial) fun w S3 h3 _ => ?_
    exact (writeDigitSlice_foot (((hx.mono h1).mono h2).mono h3) _).bind fun z _ _ hz => .pure hz
  · refine (drop_foot hx).bind fun _ S1 h1 _ => ?_
    split
    · exact (readInl_foot y).bind fun _ _ _ _ => .pure inl_in
    · refine (clone_foot A y).bind fun z _ _ hz => ?_
      refine (readPtr_foot hz).bind fun p _ _ hp => .pure ?_
      intro q e; cases e; exact hp

theorem strictAssign_foot {x : HInt} (hx : x.In S) (y : HInt) :
    (x.strictAssign y).Foot S (fun v S' => v.2.In S') := by
  unfold HInt.strictAssign
  refine .ite (fun _ => .pure hx) fun _ => ?_
  refine (asDigitSlice_foot x).bind fun _ S1 h1 _ => ?_
  refine (asDigitSlice_foot y).bind fun _ S2 h2 _ => ?_
  refine Foot.bind (P := Any) (.lift _ fun _ _ => trivial) fun w S3 h3 _ => ?_
  exact (writeDigitSlice_foot (((hx.mono h1).mono h2).mono h3) _).bind fun z _ _ hz => .pure hz

theorem replace_foot {x y : HInt} (hx : x.In S) (hy : y.In S) :
    (x.replace y).Foot S (fun z S' => z.In S') :=
  (drop_foot hx).bind fun _ _ h _ => .pure (hy.mono h)

theorem tryForward_foot {x : HInt} {op : HInt → HM (Res Unit × HInt)}
    (ho : (op x).Foot S (fun v S' => v.2.In S')) : (x.tryForward op).Foot S RIn := by
  unfold HInt.tryForward
  refine ho.bind fun v S1 _ hv => ?_
  obtain ⟨r, y⟩ := v
  cases r with
  | error e => exact (drop_foot hv).bind fun _ _ _ _ => .pure rin_error
  | ok u => exact .pure (rin_ok hv)

theorem truncateAux_foot (A : Growth) (n : Nat) {x : HInt} (hx : x.In S) (t : BitWidth) :
    (HInt.truncateAux A n x t).Foot S (fun v S' => v.2.In S') := by
  induction n generalizing S x with
  | zero => trivial
  | succ n ih =>
    unfold HInt.truncateAux
    refine .ite (fun _ => .pure hx) fun _ => .ite (fun _ => .pure hx) fun _ =>
      .ite (fun _ => inPlace_foot hx _) fun _ => ?_
    refine (asDigitSlice_foot x).bind fun _ S1 h1 _ => ?_
    refine (fromIter_foot A _).bind fun r S2 h2 hr => ?_
    refine Foot.bind (P := fun c S' => c.In S') (.lift _ ?_) fun c S3 h3 hc => ?_
    · intro c e
      cases r with
      | error e' => cases e
      | ok c' => cases e; exact hr _ rfl
    · have hx3 := ((hx.mono h1).mono h2).mono h3
      refine .ite (fun _ => ?_) fun _ => ?_
      · refine (ih hc).bind fun v S4 h4 hv => ?_
        obtain ⟨r, y⟩ := v
        cases r with
        | error e =>
          exact (drop_foot hv).bind fun _ _ h5 _ => .pure ((hx3.mono h4).mono h5)
        | ok u => exact (replace_foot (hx3.mono h4) hv).bind fun _ _ _ h => .pure h
      · exact (replace_foot hx3 hc).bind fun _ _ _ h => .pure h

theorem fromIterTruncated_foot (A : Growth) (ds : List Digit) (t : BitWidth) :
    (HInt.fromIterTruncated A ds t).Foot S RIn := by
  unfold HInt.fromIterTruncated
  refine (fromIter_foot A _).bind fun r S2 h2 hr => ?_
  cases r with
  | error e => exact .pure rin_error
  | ok x => exact tryForward_foot (truncateAux_foot A 2 (hr _ rfl) t)

theorem zeroExtend_foot (A : Growth) {x : HInt} (hx : x.In S) (t : BitWidth) :
    (x.zeroExtend A t).Foot S (fun v S' => v.2.In S') := by
  unfold HInt.zeroExtend
  refine .ite (fun _ => .pure hx) fun _ => .ite (fun _ => .pure hx) fun _ =>
      .ite (fun _ => .pure hx) fun _ => ?_
  refine Foot.bind (P := Any) (.lift _ fun _ _ => trivial) fun _ S1 h1 _ => ?_
  refine (asDigitSlice_foot x).bind fun _ S2 h2 _ => ?_
  refine (fromIterTruncated_foot A _ t).bind fun r S3 h3 hr => ?_
  have hx3 := ((hx.mono h1).mono h2).mono h3
  cases r with
  | error e => exact .pure hx3
  | ok y => exact (replace_foot hx3 (hr _ rfl)).bind fun _ _ _ h => .pure h

theorem signExtend_foot (A : Growth) {x : HInt} (hx : x.In S) (t : BitWidth) :
    (x.signExtend A t).Foot S (fun v S' => v.2.In S') := by
  unfold HInt.signExtend
  refine .ite (fun _ => .pure hx) fun _ => .ite (fun _ => .pure hx) fun _ => ?_
  refine (load_foot x).bind fun _ S1 h1 _ => ?_
  refine Foot.bind (P := Any) (.lift _ fun _ _ => trivial) fun _ S2 h2 _ => ?_
  have hx2 := (hx.mono h1).mono h2
  refine .ite (fun _ => zeroExtend_foot A hx2 t) fun _ => .ite (fun _ => ?_) fun _ => ?_
  · refine (inPlace_foot (x := { x with len := t }) hx2 _).bind fun v S3 _ hv => ?_
    obtain ⟨r, y⟩ := v
    cases r with
    | error e => exact .pure hv
    | ok u => exact (inPlace_foot hv _).bind fun _ _ _ h => .pure h
  · refine Foot.bind (P := Any) (.lift _ fun _ _ => trivial) fun _ S3 h3 _ => ?_
    refine (inPlace_foot (hx2.mono h3) _).bind fun v S4 _ hv => ?_
    obtain ⟨r, y⟩ := v
    cases r with
    | error e => exact .pure hv
    | ok u =>
      refine (asDigitSlice_foot y).bind fun _ S5 h5 _ => ?_
      refine (fromIterTruncated_foot A _ t).bind fun r S6 h6 hr => ?_
      have hy := (hv.mono h5).mono h6
      cases r with
      | error e => exact .pure hy
      | ok z =>
        refine (inPlace_foot hy _).bind fun v S7 h7 hv => ?_
        exact (replace_foot hv ((hr _ rfl).mono h7)).bind fun _ _ _ h => .pure h

theorem expectDone_foot {m : HM (Res Unit × HInt)} (hm : m.Foot S (fun v S' => v.2.In S')) :
    (HInt.expectDone m).Foot S (fun v S' => v.2.In S') := by
  unfold HInt.expectDone
  refine hm.bind fun v S1 _ hv => ?_
  refine Foot.bind (P := Any) (.lift _ fun _ _ => trivial) fun _ S2 h2 _ => .pure (hv.mono h2)

theorem zeroResize_foot (A : Growth) {x : HInt} (hx : x.In S) (t : BitWidth) :
    (x.zeroResize A t).Foot S (fun v S' => v.2.In S') :=
  .ite (fun _ => expectDone_foot (truncateAux_foot A 2 hx t)) fun _ =>
    expectDone_foot (zeroExtend_foot A hx t)

theorem signResize_foot (A : Growth) {x : HInt} (hx : x.In S) (t : BitWidth) :
    (x.signResize A t).Foot S (fun v S' => v.2.In S') :=
  .ite (fun _ => expectDone_foot (truncateAux_foot A 2 hx t)) fun _ =>
    expectDone_foot (signExtend_foot A hx t)

theorem liftExpect_foot {r : Res HInt} (hr : RIn r S) :
    (liftR (expect r)).Foot S (fun y S' => y.In S') :=
  .lift _ fun c e => by
    cases r with
    | error e' => cases e
    | ok c' => cases e; exact hr _ rfl

theorem ofDigits_foot (A : Growth) (ds : List Digit) (t : BitWidth) :
    (HInt.ofDigits A ds t).Foot S (fun y S' => y.In S') := by
  unfold HInt.ofDigits
  refine (fromIter_foot A _).bind fun r S1 _ hr => ?_
  refine (liftExpect_foot hr).bind fun x S2 _ hx => ?_
  exact (tryForward_foot (truncateAux_foot A 2 hx t)).bind fun r _ _ hr => liftExpect_foot hr

theorem hfine_foot {m : HM HInt} (hm : m.Foot S (fun y S' => y.In S')) : (hfine m).Foot S RIn :=
  hm.bind fun _ _ _ h => .pure (rin_ok h)

theorem fromArray_foot (A : Growth) (v : List (BitVec 64)) :
    (HInt.fromArray A v).Foot S (fun y S' => y.In S') :=
  (fromIter_foot A _).bind fun _ _ _ hr => liftExpect_foot hr

theorem unexec_foot (A : Growth) (o : Un) {x : HInt} (hx : x.In S) :
    (o.hexec A x).Foot S (fun v S' => v.2.In S') := by
  cases o with
  | truncate t => exact truncateAux_foot A 2 hx t
  | zeroExtend t => exact zeroExtend_foot A hx t
  | signExtend t => exact signExtend_foot A hx t
  | zeroResize t => exact zeroResize_foot A hx t
  | signResize t => exact signResize_foot A hx t
  | _ => exact inPlace_foot hx _

theorem make_foot (A : Growth) (m : Make) : (m.hexec A).Foot S RIn := by
  cases m with
  | zero t => exact hfine_foot (ofDigits_foot A _ t)
  | one t =>
    refine hfine_foot ((newInl_foot _ _).bind fun x S1 _ hx => ?_)
    exact (zeroResize_foot A hx t).bind fun v _ _ hv => .pure hv
  | allUnset t => exact hfine_foot (ofDigits_foot A _ t)
  | allSet t => exact hfine_foot (ofDigits_foot A _ t)
  | unsignedMin t => exact hfine_foot (ofDigits_foot A _ t)
  | unsignedMax t => exact hfine_foot (ofDigits_foot A _ t)
  | signedMin t =>
    refine hfine_foot ((ofDigits_foot A _ t).bind fun x _ _ hx => ?_)
    exact (inPlace_foot hx _).bind fun _ _ _ h => .pure h
  | signedMax t =>
    refine hfine_foot ((ofDigits_foot A _ t).bind fun x _ _ hx => ?_)
    exact (inPlace_foot hx _).bind fun _ _ _ h => .pure h
  | u128 v => exact hfine_foot (fromArray_foot A _)
  | i128 v => exact hfine_foot (fromArray_foot A _)
  | array v vs => exact hfine_foot (fromArray_foot A _)
  | digits ds => exact fromIter_foot A ds
  | parse k s =>
    refine Foot.bind (P := Any) (.lift _ fun _ _ => trivial) fun r S1 _ _ => ?_
    cases r with
    | error e => exact .pure rin_error
    | ok a =>
      refine hfine_foot ?_
      unfold HInt.ofPure
      split
      · exact newInl_foot _ _
      · refine (fromIter_foot A _).bind fun r S1 _ hr => ?_
        cases r with
        | error e => trivial
        | ok x => exact .pure fun p e => hr x rfl p e
  | random t rng => exact hfine_foot (ofDigits_foot A _ t)
  | _ => exact hfine_foot (newInl_foot _ _)

/-- The integers that are lent are where they were, and the buffers of the others are in the set. -/
def Lends (lent b : HBank) (S : Nat → Prop) : Prop := ∃ own, b = lent ++ own ∧ ∀ x ∈ own, x.In S

theorem Lends.set {lent b : HBank} (hk : Lends lent b S) {n : Nat} (hn : lent.length ≤ n) {y : HInt}
    (hy : y.In S) : Lends lent (b.set n y) S := by
  obtain ⟨own, rfl, h⟩ := hk
  refine ⟨_, List.set_append_right _ _ hn, fun x hx => ?_⟩
  rcases List.mem_or_eq_of_mem_set hx with hx | rfl
  · exact h x hx
  · exact hy

theorem Lends.push {lent b : HBank} (hk : Lends lent b S) {y : HInt} (hy : y.In S) :
    Lends lent (b ++ [y]) S := by
  obtain ⟨own, rfl, h⟩ := hk
  refine ⟨own ++ [y], List.append_assoc _ _ _, fun x hx => ?_⟩
  rcases List.mem_append.mp hx with hx | hx
  · exact h x hx
  · rw [List.mem_singleton.mp hx]; exact hy

/-- A call writes to and frees only what it takes by `&mut` and what it allocates, and leaves the
integers that are lent where they are. -/
theorem hexec_foot (A : Growth) (i : Instr) (lent own : HBank) (hi : i.Allowed lent.length)
    (hown : ∀ x ∈ own, x.In S) :
    (i.hexec A (lent ++ own)).Foot S (fun v S' => Lends lent v.2 S') := by
  have own_in : ∀ {n : Nat} {x : HInt}, n ∈ i.mutates → (lent ++ own)[n]? = some x → x.In S := by
    intro n x hn hx
    have hl := hi n hn
    rw [List.getElem?_append_right hl] at hx
    exact hown x (List.mem_of_getElem? hx)
  have here : ∀ {S' : Nat → Prop}, (∀ p, S p → S' p) → Lends lent (lent ++ own) S' :=
    fun hs => ⟨own, rfl, fun x hx => (hown x hx).mono hs⟩
  have push : ∀ {m : HM (Res HInt)}, m.Foot S RIn →
      (hpush (lent ++ own) m).Foot S (fun v S' => Lends lent v.2 S') := by
    intro m hm
    refine hm.bind fun r _ h1 hr => ?_
    cases r with
    | error e => exact .pure (here h1)
    | ok x => exact .pure ((here h1).push (hr x rfl))
  have store : ∀ {n : Nat} {m : HM (Res Unit × HInt)}, n ∈ i.mutates →
      m.Foot S (fun v S' => v.2.In S') →
      (hstore (lent ++ own) n m).Foot S (fun v S' => Lends lent v.2 S') := by
    intro n m hn hm
    exact hm.bind fun r _ h1 hr => .pure ((here h1).set (hi n hn) hr)
  have skip : (pure (.ok .unit, lent ++ own) : HM (Res Out × HBank)).Foot S
      (fun v S' => Lends lent v.2 S') := here fun _ h => h
  have one : ∀ {n : Nat} {k : HInt → HM (Res Out × HBank)},
      (∀ x, (lent ++ own)[n]? = some x → (k x).Foot S (fun v S' => Lends lent v.2 S')) →
      (match (lent ++ own)[n]? with
        | some x => k x
        | none => pure (.ok .unit, lent ++ own) : HM (Res Out × HBank)).Foot S
          (fun v S' => Lends lent v.2 S') := by
    intro n k hk
    split
    · rename_i x hx; exact hk x hx
    · exact skip
  have two : ∀ {n n' : Nat} {k : HInt → HInt → HM (Res Out × HBank)},
      (∀ x y, (lent ++ own)[n]? = some x → (lent ++ own)[n']? = some y →
        (k x y).Foot S (fun v S' => Lends lent v.2 S')) →
      (match (lent ++ own)[n]?, (lent ++ own)[n']? with
        | some x, some y => k x y
        | _, _ => pure (.ok .unit, lent ++ own) : HM (Res Out × HBank)).Foot S
          (fun v S' => Lends lent v.2 S') := by
    intro n n' k hk
    split
    · rename_i x y hx hy; exact hk x y hx hy
    · exact skip
  cases i with
  | make m => exact push (make_foot A m)
  | clone x => exact one fun a _ => push ((clone_foot A a).bind fun _ _ _ h => .pure (rin_ok h))
  | drop x =>
    refine one fun a ha => (drop_foot (own_in (by simp [Instr.mutates]) ha)).bind fun _ _ h1 _ => .pure ?_
    exact ⟨_, List.eraseIdx_append_of_length_le (hi x (by simp [Instr.mutates])) _,
      fun y hy => (hown y (List.mem_of_mem_eraseIdx hy)).mono h1⟩
  | assign x y =>
    refine two fun a c ha _ => store (by simp [Instr.mutates]) ?_
    exact (assign_foot A (own_in (by simp [Instr.mutates]) ha) c).bind fun _ _ _ h => .pure h
  | strictAssign x y =>
    exact two fun a c ha _ => store (by simp [Instr.mutates])
      (strictAssign_foot (own_in (by simp [Instr.mutates]) ha) c)
  | un o x =>
    exact one fun a ha => store (by simp [Instr.mutates])
      (unexec_foot A o (own_in (by simp [Instr.mutates]) ha))
  | intoUn o x =>
    exact one fun a ha => push ((clone_foot A a).bind fun y _ _ hy =>
      tryForward_foot (unexec_foot A o hy))
  | alter o x =>
    exact one fun a ha => store (by simp [Instr.mutates])
      (inPlace_foot (own_in (by simp [Instr.mutates]) ha) _)
  | bin o x y =>
    refine two fun a c ha _ => store (by simp [Instr.mutates]) ?_
    exact (load_foot c).bind fun _ _ hs _ =>
      inPlace_foot ((own_in (by simp [Instr.mutates]) ha).mono hs) _
  | intoBin o x y =>
    refine two fun a c ha _ => push ((clone_foot A a).bind fun z _ _ hz => ?_)
    exact (load_foot c).bind fun _ _ hs _ => tryForward_foot (inPlace_foot (hz.mono hs) _)
  | opAssign o x y =>
    refine two fun a c ha _ => store (by simp [Instr.mutates]) ?_
    exact (load_foot c).bind fun _ _ hs _ =>
      inPlace_foot ((own_in (by simp [Instr.mutates]) ha).mono hs) _
  | op o x y =>
    refine two fun a c ha _ => push ((clone_foot A a).bind fun z _ _ hz => ?_)
    refine (load_foot c).bind fun _ _ hs _ => ?_
    exact (inPlace_foot (hz.mono hs) _).bind fun _ _ _ h => .pure (rin_ok h)
  | opShlAssign s x =>
    exact one fun a ha => store (by simp [Instr.mutates])
      (inPlace_foot (own_in (by simp [Instr.mutates]) ha) _)
  | opShl s x =>
    refine one fun a ha => push ((clone_foot A a).bind fun z _ _ hz => ?_)
    exact (inPlace_foot hz _).bind fun _ _ _ h => .pure (rin_ok h)
  | pair o x y =>
    have hx : lent.length ≤ x := hi x (by simp [Instr.mutates])
    have hy : lent.length ≤ y := hi y (by simp [Instr.mutates])
    refine two fun a c ha hc => ?_
    refine (load_foot a).bind fun _ S1 h1 _ => (load_foot c).bind fun _ S2 h2 _ => ?_
    refine Foot.bind (P := Any) (.lift _ fun _ _ => trivial) fun v S3 h3 _ => ?_
    have up : ∀ p, S p → S3 p := fun p h => h3 p (h2 p (h1 p h))
    refine (store_foot ((own_in (by simp [Instr.mutates]) ha).mono up) _).bind fun a' S4 h4 ha' => ?_
    have up4 : ∀ p, S p → S4 p := fun p h => h4 p (up p h)
    dsimp only
    split
    · rename_i c' hc'
      have hin : c'.In S4 := by
        by_cases hxy : x = y
        · subst hxy
          have hlt := (List.getElem?_eq_some_iff.mp ha).1
          rw [List.getElem?_set_self hlt] at hc'
          cases hc'
          exact ha'
        · rw [List.getElem?_set_ne hxy] at hc'
          exact (own_in (by simp [Instr.mutates]) hc').mono up4
      refine (store_foot hin _).bind fun c'' _ h5 hc'' => .pure ?_
      exact ((here fun p h => h5 p (up4 p h)).set hx (ha'.mono h5)).set hy hc''
    · exact .pure ((here up4).set hx ha')
  | ask q x =>
    refine one fun a ha => (load_foot a).bind fun _ S1 h1 _ => ?_
    exact Foot.bind (P := Any) (.lift _ fun _ _ => trivial) fun v S3 h3 _ =>
      .pure (here fun p h => h3 p (h1 p h))
  | ask2 q x y =>
    refine two fun a c _ _ => (load_foot a).bind fun _ S1 h1 _ => (load_foot c).bind fun _ S2 h2 _ => ?_
    exact Foot.bind (P := Any) (.lift _ fun _ _ => trivial) fun v S3 h3 _ =>
      .pure (here fun p h => h3 p (h2 p (h1 p h)))

end Verif
