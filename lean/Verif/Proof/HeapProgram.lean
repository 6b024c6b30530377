import Verif.Proof.Heap

/-!
# Programs on the heap follow programs of the pure model
-/

namespace Verif

open ApInt

variable [Allocator]

/-! ## Calls on one integer -/

/-- The call leaves an integer with as many digits as before. -/
def Keeps {α : Type} (a : ApInt) (r : Run (α × ApInt)) : Prop :=
  ∀ v c, r = .ok (v, c) → c.Shape ∧ (a.w + 63) / 64 = (c.w + 63) / 64

omit [Allocator] in
theorem abs_width_eq {c : ApInt} {z : AInt} {n : Nat} (h : c.abs = z) (hz : z.width = n) :
    c.w = n := by rw [← hz, ← h]; rfl

omit [Allocator] in
theorem Stored.keeps {a : ApInt} (ha : a.WF) {r : Run (Res Unit × ApInt)}
    {s : Option (Except AErr AInt)} (h : Stored a r s)
    (hz : ∀ z, s = some (.ok z) → z.width = a.w) : Keeps a r := by
  intro v c e
  match s, h, hz with
  | none, h, _ => cases e.symm.trans h
  | some (.error _), ⟨e', h, _⟩, _ => cases e.symm.trans h; exact ⟨ha.1, rfl⟩
  | some (.ok z), ⟨c', h, h1, h2⟩, hz =>
    cases e.symm.trans h
    exact ⟨h1.1, by rw [abs_width_eq h2 (hz z rfl)]⟩

omit [Allocator] in
theorem bin_width {o : Bin} {x y z : AInt} (h : o.spec x y = some (.ok z)) : z.width = x.width := by
  cases o <;> simp only [Bin.spec] at h
  all_goals
    split at h <;> first | (cases h; done) | skip
    first
    | (cases h; rfl)
    | (split at h <;> first | (cases h; done) | (cases h; rfl))

omit [Allocator] in
theorem alter_width {o : Alter} {x z : AInt} (h : o.spec x = .ok z) : z.width = x.width := by
  cases o <;> simp only [Alter.spec] at h
  all_goals
    first
    | (cases h; rfl)
    | (split at h <;> first | (cases h; done) | (cases h; rfl))

omit [Allocator] in
theorem pair_width {o : Pair} {x y z z' : AInt} (h : o.spec x y = some (.ok (z, z'))) :
    z.width = x.width ∧ z'.width = x.width ∧ x.width = y.width := by
  cases o <;> simp only [Pair.spec] at h
  all_goals
    split at h <;> first | (cases h; done) | skip
    split at h <;> first | (cases h; done) | skip
    rename_i h1 h2
    cases h
    exact ⟨rfl, rfl, by first | exact not_not.mp h1 | exact not_not.mp h2⟩

omit [Allocator] in
theorem alter_keeps (o : Alter) {a : ApInt} (ha : a.WF) : Keeps a (o.exec a) :=
  (alter_stored o ha).keeps ha fun _ hz => alter_width (x := a.abs) (Option.some.inj hz)

omit [Allocator] in
theorem bin_keeps (o : Bin) {a b : ApInt} (ha : a.WF) (hb : b.WF) : Keeps a (o.exec a b) :=
  (bin_stored o ha hb).keeps ha fun _ hz => bin_width (x := a.abs) hz

omit [Allocator] in
theorem okOnly_some {s : Option (Except AErr AInt)} {z : AInt} (h : okOnly s = some z) :
    s = some (.ok z) := by
  match s, h with
  | some (.ok z'), h => cases h; rfl

omit [Allocator] in
theorem op_keeps {o : Op} {a b : ApInt} {r : Run ApInt} (h : Opped r (o.spec a.abs b.abs)) {c : ApInt}
    (e : r = .ok c) : c.Shape ∧ (a.w + 63) / 64 = (c.w + 63) / 64 := by
  cases hs : o.spec a.abs b.abs with
  | none => rw [hs] at h; cases e.symm.trans h
  | some z =>
    rw [hs] at h
    obtain ⟨c', h, h1, h2⟩ := h
    cases e.symm.trans h
    refine ⟨h1.1, ?_⟩
    rw [abs_width_eq h2 (bin_width (okOnly_some hs))]; rfl

omit [Allocator] in
theorem shl_keeps {s : Nat} {a : ApInt} {r : Run ApInt}
    (h : Opped r (okOnly (some ((Un.shl s).spec a.abs)))) {c : ApInt} (e : r = .ok c) :
    c.Shape ∧ (a.w + 63) / 64 = (c.w + 63) / 64 := by
  cases hs : okOnly (some ((Un.shl s).spec a.abs)) with
  | none => rw [hs] at h; cases e.symm.trans h
  | some z =>
    rw [hs] at h
    obtain ⟨c', h, h1, h2⟩ := h
    cases e.symm.trans h
    have hz := Option.some.inj (okOnly_some hs)
    simp only [Un.spec] at hz
    split at hz
    · cases hz
      exact ⟨h1.1, by rw [abs_width_eq h2 rfl, AInt.ofInt, abs_width]⟩
    · cases hz

theorem resize_sim {h : Heap} {F : List (Nat × Block)} {m : HM (Res Unit × HInt)}
    {r : Run (Res Unit × ApInt)} (hs : Sim m h r (Left F)) :
    Sim (HInt.expectDone m) h (done (do
      let (r, s) ← r
      let () ← expect r
      pure s)) (Left F) := by
  unfold HInt.expectDone
  match r, hs with
  | .error f, hs =>
    exact hm_bind_error hs
  | .ok (r', c), ⟨⟨v, x'⟩, h', e, hv, ho⟩ =>
    simp only at hv ho
    subst hv
    refine Sim.step e ?_
    cases v with
    | error e => exact hm_bind_error rfl
    | ok u => exact ⟨_, _, rfl, rfl, ho⟩

theorem un_sim (A : Growth) (o : Un) {h : Heap} {F : List (Nat × Block)} {x : HInt} {a : ApInt}
    (ho : Owns h F x a) (ha : a.WF) : Sim (o.hexec A x) h (o.exec a) (Left F) := by
  have hk : (∀ z, some (o.spec a.abs) = some (.ok z) → z.width = a.w) → Keeps a (o.exec a) :=
    (un_stored o ha).keeps ha
  cases o with
  | truncate t => exact truncate_sim A ho ha t
  | zeroExtend t => exact zeroExtend_sim A ho t
  | signExtend t => exact signExtend_sim A ho ha t
  | zeroResize t =>
    simp only [Un.hexec, Un.exec, HInt.zeroResize, ApInt.zeroResize]
    by_cases hle : t.toUsize ≤ a.len.toUsize
    · rw [if_pos (by rw [ho.sees.len]; exact hle), if_pos (show t.toUsize ≤ a.width.toUsize from hle)]
      exact resize_sim (truncate_sim A ho ha t)
    · rw [if_neg (by rw [ho.sees.len]; exact hle), if_neg (show ¬ t.toUsize ≤ a.width.toUsize from hle)]
      exact resize_sim (zeroExtend_sim A ho t)
  | signResize t =>
    simp only [Un.hexec, Un.exec, HInt.signResize, ApInt.signResize]
    by_cases hle : t.toUsize ≤ a.len.toUsize
    · rw [if_pos (by rw [ho.sees.len]; exact hle), if_pos (show t.toUsize ≤ a.width.toUsize from hle)]
      exact resize_sim (truncate_sim A ho ha t)
    · rw [if_neg (by rw [ho.sees.len]; exact hle), if_neg (show ¬ t.toUsize ≤ a.width.toUsize from hle)]
      exact resize_sim (signExtend_sim A ho ha t)
  | bitnot => exact inPlace_sim ho (hk fun z hz => by cases hz; rfl)
  | neg => exact inPlace_sim ho (hk fun z hz => by cases hz; rfl)
  | inc => exact inPlace_sim ho (hk fun z hz => by cases hz; rfl)
  | dec => exact inPlace_sim ho (hk fun z hz => by cases hz; rfl)
  | shl s =>
    refine inPlace_sim ho (hk fun z hz => ?_)
    simp only [Un.spec] at hz
    split at hz <;> cases hz
    rfl
  | lshr s =>
    refine inPlace_sim ho (hk fun z hz => ?_)
    simp only [Un.spec] at hz
    split at hz <;> cases hz
    rfl
  | ashr s =>
    refine inPlace_sim ho (hk fun z hz => ?_)
    simp only [Un.spec] at hz
    split at hz <;> cases hz
    rfl

/-- A consuming call is the in-place call on an owned integer. -/
def consume (r : Run (Res Unit × ApInt)) : Run (Res ApInt) := do
  let (r, this) ← r
  match r with
  | .error e => .ok (.error e)
  | .ok () => .ok (.ok this)

omit [Allocator] in
theorem consume_fine (r : Run ApInt) : fine (do let c ← r; pure c) = consume (done r) := by
  cases r <;> rfl

omit [Allocator] in
theorem un_into (o : Un) (a : ApInt) : o.execInto a = consume (o.exec a) := by
  cases o with
  | bitnot => exact consume_fine _
  | neg => exact consume_fine _
  | inc => exact consume_fine _
  | dec => exact consume_fine _
  | zeroResize t => exact consume_fine _
  | signResize t => exact consume_fine _
  | _ => rfl

omit [Allocator] in
theorem bin_into (o : Bin) (a b : ApInt) : o.execInto a b = consume (o.exec a b) := by
  cases o <;> rfl

/-! ## The bank -/

/-- The buffers of a bank. -/
def cellsOf (xs : HBank) (bs : Bank) : List (Nat × Block) := (List.zipWith cell xs bs).flatten

/-- The bank on the heap stands for the pure bank, and its buffers are all the heap has. -/
structure Rep (h : Heap) (xs : HBank) (bs : Bank) : Prop where
  mat : List.Forall₂ Match xs bs
  sep : Sep h (cellsOf xs bs)

omit [Allocator] in
theorem forall₂_get {xs : HBank} {bs : Bank} (hm : List.Forall₂ Match xs bs) {i : Nat} {a : ApInt}
    (ha : bs[i]? = some a) : ∃ x, xs[i]? = some x ∧ Match x a := by
  induction hm generalizing i with
  | nil => simp at ha
  | cons h _ ih =>
    cases i with
    | zero => simp only [List.getElem?_cons_zero, Option.some.injEq] at ha ⊢; subst ha; exact ⟨_, rfl, h⟩
    | succ i => simp only [List.getElem?_cons_succ] at ha ⊢; exact ih ha

omit [Allocator] in
theorem forall₂_none {xs : HBank} {bs : Bank} (hm : List.Forall₂ Match xs bs) {i : Nat}
    (ha : bs[i]? = none) : xs[i]? = none := by
  rw [List.getElem?_eq_none_iff] at *
  rw [hm.length_eq]; exact ha

omit [Allocator] in
theorem forall₂_set {xs : HBank} {bs : Bank} (hm : List.Forall₂ Match xs bs) (i : Nat) {x : HInt}
    {a : ApInt} (h : Match x a) : List.Forall₂ Match (xs.set i x) (bs.set i a) := by
  induction hm generalizing i with
  | nil => exact .nil
  | cons h' hm ih =>
    cases i with
    | zero => exact .cons h hm
    | succ i => exact .cons h' (ih i)

omit [Allocator] in
theorem forall₂_erase {xs : HBank} {bs : Bank} (hm : List.Forall₂ Match xs bs) (i : Nat) :
    List.Forall₂ Match (xs.eraseIdx i) (bs.eraseIdx i) := by
  induction hm generalizing i with
  | nil => exact .nil
  | cons h' hm ih =>
    cases i with
    | zero => exact hm
    | succ i => exact .cons h' (ih i)

omit [Allocator] in
theorem forall₂_push {xs : HBank} {bs : Bank} (hm : List.Forall₂ Match xs bs) {x : HInt}
    {a : ApInt} (h : Match x a) : List.Forall₂ Match (xs ++ [x]) (bs ++ [a]) := by
  induction hm with
  | nil => exact .cons h .nil
  | cons h' _ ih => exact .cons h' ih

omit [Allocator] in
theorem cellsOf_cons (x : HInt) (a : ApInt) (xs : HBank) (bs : Bank) :
    cellsOf (x :: xs) (a :: bs) = cell x a ++ cellsOf xs bs := rfl

omit [Allocator] in
theorem cellsOf_push {xs : HBank} {bs : Bank} (hm : List.Forall₂ Match xs bs) (x : HInt)
    (a : ApInt) : (cellsOf (xs ++ [x]) (bs ++ [a])).Perm (cell x a ++ cellsOf xs bs) := by
  induction hm with
  | nil => exact .refl _
  | cons h' _ ih =>
    simp only [List.cons_append, cellsOf_cons]
    refine (ih.append_left _).trans ?_
    rw [← List.append_assoc, ← List.append_assoc]
    exact List.perm_append_comm.append_right _

omit [Allocator] in
/-- Look at one integer of the bank; `F` are the buffers of the others. -/
theorem focus {xs : HBank} {bs : Bank} (hm : List.Forall₂ Match xs bs) {i : Nat} {x : HInt}
    {a : ApInt} (hx : xs[i]? = some x) (ha : bs[i]? = some a) :
    ∃ F, (cellsOf xs bs).Perm (cell x a ++ F) ∧
      (∀ x' a', (cell x' a' ++ F).Perm (cellsOf (xs.set i x') (bs.set i a'))) ∧
      F.Perm (cellsOf (xs.eraseIdx i) (bs.eraseIdx i)) ∧
      (∀ j y b, j ≠ i → xs[j]? = some y → bs[j]? = some b → ∀ c ∈ cell y b, c ∈ F) := by
  induction hm generalizing i with
  | nil => simp at hx
  | @cons y b xs bs h' hm ih =>
    cases i with
    | zero =>
      simp only [List.getElem?_cons_zero, Option.some.injEq] at hx ha
      subst hx ha
      refine ⟨cellsOf xs bs, .refl _, fun _ _ => .refl _, .refl _, ?_⟩
      intro j z d hj hz hd c hc
      cases j with
      | zero => exact absurd rfl hj
      | succ j =>
        simp only [List.getElem?_cons_succ] at hz hd
        clear ih hj
        induction hm generalizing j with
        | nil => simp at hz
        | cons _ _ ih' =>
          cases j with
          | zero =>
            simp only [List.getElem?_cons_zero, Option.some.injEq] at hz hd
            subst hz hd
            exact List.mem_append_left _ hc
          | succ j =>
            simp only [List.getElem?_cons_succ] at hz hd
            exact List.mem_append_right _ (ih' j hz hd)
    | succ i =>
      simp only [List.getElem?_cons_succ] at hx ha
      obtain ⟨F, h1, h2, h3, h4⟩ := ih hx ha
      refine ⟨cell y b ++ F, ?_, ?_, ?_, ?_⟩
      · rw [cellsOf_cons]
        refine (h1.append_left _).trans ?_
        rw [← List.append_assoc, ← List.append_assoc]
        exact List.perm_append_comm.append_right _
      · intro x' a'
        simp only [List.set_cons_succ, cellsOf_cons]
        refine List.Perm.trans ?_ ((h2 x' a').append_left _)
        rw [← List.append_assoc, ← List.append_assoc]
        exact List.perm_append_comm.append_right _
      · simp only [List.eraseIdx_cons_succ, cellsOf_cons]
        exact h3.append_left _
      · intro j z d hj hz hd c hc
        cases j with
        | zero =>
          simp only [List.getElem?_cons_zero, Option.some.injEq] at hz hd
          subst hz hd
          exact List.mem_append_left _ hc
        | succ j =>
          simp only [List.getElem?_cons_succ] at hz hd
          exact List.mem_append_right _ (h4 j z d (by omega) hz hd c hc)

omit [Allocator] in
theorem Rep.owns {h : Heap} {xs : HBank} {bs : Bank} (hr : Rep h xs bs) (hb : ∀ a ∈ bs, a.WF)
    {i : Nat} {a : ApInt} (ha : bs[i]? = some a) :
    ∃ x F, xs[i]? = some x ∧ Owns h F x a ∧
      (∀ h' x' a', Owns h' F x' a' → Rep h' (xs.set i x') (bs.set i a')) ∧
      (∀ h', Sep h' F → Rep h' (xs.eraseIdx i) (bs.eraseIdx i)) ∧
      (∀ j y b, j ≠ i → xs[j]? = some y → bs[j]? = some b → ∀ c ∈ cell y b, c ∈ F) := by
  obtain ⟨x, hx, hm⟩ := forall₂_get hr.mat ha
  obtain ⟨F, h1, h2, h3, h4⟩ := focus hr.mat hx ha
  refine ⟨x, F, hx, ⟨(hb a (List.mem_of_getElem? ha)).1, hm, hr.sep.reorder h1⟩, ?_, ?_, h4⟩
  · intro h' x' a' ho
    exact ⟨forall₂_set hr.mat i ho.mat, ho.sep.reorder (h2 x' a')⟩
  · intro h' hs
    exact ⟨forall₂_erase hr.mat i, hs.reorder h3⟩

/-- The result of a call on the bank is related to the result of the pure call. -/
def Next (v : Res Out × HBank) (b : Res Out × Bank) (h : Heap) : Prop :=
  v.1 = b.1 ∧ Rep h v.2 b.2

theorem hpush_sim {h : Heap} {xs : HBank} {bs : Bank} (hr : Rep h xs bs) {m : HM (Res HInt)}
    {r : Run (Res ApInt)} (hs : Sim m h r (Born (cellsOf xs bs))) :
    Sim (hpush xs m) h (pushRes bs r) Next := by
  unfold hpush pushRes
  refine Sim.bind hs ?_
  intro v b h' hb
  match v, b, hb with
  | .error e, .error e', ⟨he, hs⟩ =>
    subst he
    exact ⟨_, _, rfl, rfl, ⟨hr.mat, hs⟩⟩
  | .ok y, .ok c, hy =>
    have hy : Owns h' _ y c := hy
    exact ⟨_, _, rfl, rfl, ⟨forall₂_push hr.mat hy.mat,
      hy.sep.reorder (cellsOf_push hr.mat y c).symm⟩⟩

theorem hstore_sim {h : Heap} {xs : HBank} {bs : Bank} {F : List (Nat × Block)} {i : Nat}
    (hn : ∀ h' x' a', Owns h' F x' a' → Rep h' (xs.set i x') (bs.set i a'))
    {m : HM (Res Unit × HInt)} {r : Run (Res Unit × ApInt)} (hs : Sim m h r (Left F)) :
    Sim (hstore xs i m) h (storeRes bs i r) Next := by
  unfold hstore storeRes
  refine Sim.bind hs ?_
  rintro ⟨e, y⟩ ⟨e', c⟩ h' ⟨he, ho⟩
  simp only at he ho
  subst he
  exact ⟨_, _, rfl, rfl, hn _ _ _ ho⟩

omit [Allocator] in
theorem Rep.sees {h : Heap} {xs : HBank} {bs : Bank} (hr : Rep h xs bs) (hb : ∀ a ∈ bs, a.WF)
    {i : Nat} {a : ApInt} (ha : bs[i]? = some a) : ∃ x, xs[i]? = some x ∧ Sees h x a := by
  obtain ⟨x, F, hx, ho, _⟩ := hr.owns hb ha
  exact ⟨x, hx, ho.sees⟩

/-- The clone of an integer, owned next to the bank. -/
theorem Rep.clone (A : Growth) {h : Heap} {xs : HBank} {bs : Bank} (hr : Rep h xs bs)
    {x : HInt} {a : ApInt} (hs : Sees h x a) :
    ∃ y h', x.clone A h = .ok (y, h') ∧ Owns h' (cellsOf xs bs) y a := clone_hok A hs hr.sep

omit [Allocator] in
theorem Rep.cells {h : Heap} {xs : HBank} {bs : Bank} (hr : Rep h xs bs) (hb : ∀ a ∈ bs, a.WF)
    {i : Nat} {x : HInt} {a : ApInt} (hx : xs[i]? = some x) (ha : bs[i]? = some a) :
    a.Shape ∧ Match x a ∧ ∀ c ∈ cell x a, c ∈ cellsOf xs bs := by
  obtain ⟨y, hy, hm⟩ := forall₂_get hr.mat ha
  rw [hx] at hy
  cases hy
  obtain ⟨F, h1, _⟩ := focus hr.mat hx ha
  exact ⟨(hb a (List.mem_of_getElem? ha)).1, hm, fun c hc =>
    h1.mem_iff.mpr (List.mem_append_left _ hc)⟩

theorem ofPure_sim (A : Growth) {h : Heap} {F : List (Nat × Block)} (hs : Sep h F) {a : ApInt}
    (ha : a.Shape) : ∃ x h', HInt.ofPure A a h = .ok (x, h') ∧ Owns h' F x a := by
  obtain ⟨len, data⟩ := a
  cases data with
  | inl d => exact ⟨_, h, newInl_hok d h ha, owns_inl ha hs⟩
  | ext ds =>
    obtain ⟨h1, h2⟩ : 64 < len.toUsize ∧ ds.length = (len.toUsize + 63) / 64 := ha
    have hne : ds ≠ [] := by
      intro hc
      rw [hc] at h2
      simp only [List.length_nil] at h2
      omega
    obtain ⟨c, ec, hcw, hcw2, hcd⟩ := fromIter_ok hne
    have hf := fromIter_sim A hs ds
    rw [ec] at hf
    obtain ⟨v, h', e, hb⟩ := hf
    match v, hb with
    | .ok y, hy =>
      have hy : Owns h' F y c := hy
      rcases hy.sees.cases with ⟨len', d, rfl, rfl, h3, h4⟩ | ⟨len', p, ds', rfl, rfl, h3, h4, h5, h6⟩
      · have : (⟨len', .inl d⟩ : ApInt).w = len'.toUsize := rfl
        omega
      · have hcd : ds' = ds := hcd
        subst hcd
        refine ⟨⟨len, .ext p⟩, h', ?_, owns_ext h1 ?_ hy.sep⟩
        · simp only [HInt.ofPure]
          rw [hm_bind_ok e]
          rfl
        · rw [h2, BitWidth.requiredDigits_eq]

/-- The new integer of the heap is the new integer of the pure model. -/
def Fresh (F : List (Nat × Block)) (x : HInt) (a : ApInt) (h : Heap) : Prop := Owns h F x a

theorem expect_sim {h : Heap} {F : List (Nat × Block)} {m : HM (Res HInt)} {r : Run (Res ApInt)}
    (hs : Sim m h r (Born F)) :
    Sim (do let r ← m; liftR (expect r)) h (do let r ← r; expect r) (Fresh F) := by
  refine Sim.bind hs ?_
  intro v b h' hb
  match v, b, hb with
  | .error e, .error e', _ => rfl
  | .ok y, .ok _, hy => exact ⟨y, h', rfl, hy⟩

theorem fine_sim {h : Heap} {F : List (Nat × Block)} {m : HM HInt} {r : Run ApInt}
    (hs : Sim m h r (Fresh F)) : Sim (hfine m) h (fine r) (Born F) :=
  Sim.bind hs fun y _ h' hy => ⟨.ok y, h', rfl, hy⟩

theorem newInl_sim {h : Heap} {F : List (Nat × Block)} (hs : Sep h F) {len : BitWidth}
    (hl : len.toUsize ≤ 64) (d : Digit) :
    Sim (HInt.newInl len d) h (ApInt.newInl len d) (Fresh F) := by
  rw [newInl_ok d hl]
  exact ⟨_, _, newInl_hok d h hl, owns_inl hl hs⟩

theorem ofDigits_sim (A : Growth) {h : Heap} {F : List (Nat × Block)} (hs : Sep h F)
    {ds : List Digit} (hne : ds ≠ []) (t : BitWidth) :
    Sim (HInt.ofDigits A ds t) h (do
      let r ← ApInt.fromIter ds
      let a ← expect r
      let r ← a.intoTruncate t
      expect r) (Fresh F) := by
  obtain ⟨c, ec, hcw, _⟩ := fromIter_ok hne
  unfold HInt.ofDigits
  have hf := fromIter_sim A hs ds
  rw [ec] at hf ⊢
  obtain ⟨v, h', e, hb⟩ := hf
  match v, hb with
  | .ok y, hy =>
    have hy : Owns h' F y c := hy
    refine Sim.step e (Sim.step (v := y) (h' := h') rfl ?_)
    exact expect_sim (tryForward_sim (truncate_sim A hy hcw t))

theorem repeatDigit_sim (A : Growth) {h : Heap} {F : List (Nat × Block)} (hs : Sep h F)
    (t : BitWidth) (d : Digit) :
    Sim (HInt.repeatDigit A t d) h (ApInt.repeatDigit t d) (Fresh F) := by
  refine ofDigits_sim A hs ?_ t
  have := t.pos
  rw [BitWidth.requiredDigits_eq]
  intro hc
  have := congrArg List.length hc
  simp only [List.length_replicate, List.length_nil] at this
  omega

theorem unit_sim {h : Heap} {F : List (Nat × Block)} {m : HM (Res Unit × HInt)} {r : Run ApInt}
    (hs : Sim m h (done r) (Left F)) :
    Sim (do let (_, a) ← m; pure a) h r (Fresh F) := by
  cases r with
  | error f => exact hm_bind_error hs
  | ok c =>
    obtain ⟨⟨_, y⟩, h', e, _, hy⟩ := hs
    exact Sim.step e ⟨y, h', rfl, hy⟩

theorem fromArray_sim (A : Growth) {h : Heap} {F : List (Nat × Block)} (hs : Sep h F)
    (ds : List (BitVec 64)) : Sim (HInt.fromArray A ds) h (ApInt.fromArray ds) (Fresh F) :=
  expect_sim (fromIter_sim A hs ds.reverse)

omit [Allocator] in
theorem done_keeps {a : ApInt} {r : Run ApInt}
    (h : ∃ c, r = .ok c ∧ c.WF ∧ c.len = a.len) : Keeps a (done r) := by
  obtain ⟨c, rfl, h1, h2⟩ := h
  intro v c' e
  cases e
  refine ⟨h1.1, ?_⟩
  unfold ApInt.w
  rw [h2]

theorem make_sim (A : Growth) {h : Heap} {F : List (Nat × Block)} (hs : Sep h F) (m : Make) :
    Sim (m.hexec A) h m.exec (Born F) := by
  have hrep := fun t d => fine_sim (repeatDigit_sim A hs t d)
  have hinl := fun {len : BitWidth} (hl : len.toUsize ≤ 64) d => fine_sim (newInl_sim hs hl d)
  cases m with
  | zero t => exact hrep t _
  | one t =>
    refine fine_sim (Sim.bind (Sim.mono (newInl_sim hs (show 64 ≤ 64 by decide) 1#64)
      (Q := fun y c h' => Owns h' F y c ∧ c.WF) ?_) ?_)
    · intro y c h' e hy
      obtain ⟨c', e', hc', _⟩ := fromU64_ok 1#64
      cases e.symm.trans e'
      exact ⟨hy, hc'⟩
    · rintro y c h' ⟨hy, hc⟩
      have := unit_sim (un_sim A (.zeroResize t) hy hc)
      unfold intoZeroResize forwardBinMutImpl
      exact this
  | allUnset t => exact hrep t _
  | allSet t => exact hrep t _
  | unsignedMin t => exact hrep t _
  | unsignedMax t => exact hrep t _
  | signedMin t =>
    refine fine_sim (Sim.bind (Sim.mono (repeatDigit_sim A hs t Digit.ZERO)
      (Q := fun y c h' => Owns h' F y c ∧ c.WF) ?_) ?_)
    · intro y c h' e hy
      obtain ⟨c', e', hc', _⟩ := zero_ok t
      cases e.symm.trans e'
      exact ⟨hy, hc'⟩
    · rintro y c h' ⟨hy, hc⟩
      obtain ⟨c', e', h1, h2, _⟩ := setMsb_ok hc
      exact unit_sim (inPlace_sim hy (f := fun a => done a.setMsb) (done_keeps ⟨c', e', h1, h2⟩))
  | signedMax t =>
    refine fine_sim (Sim.bind (Sim.mono (repeatDigit_sim A hs t Digit.ONES)
      (Q := fun y c h' => Owns h' F y c ∧ c.WF) ?_) ?_)
    · intro y c h' e hy
      obtain ⟨c', e', hc', _⟩ := allSet_ok t
      cases e.symm.trans e'
      exact ⟨hy, hc'⟩
    · rintro y c h' ⟨hy, hc⟩
      obtain ⟨c', e', h1, h2, _⟩ := unsetMsb_ok hc
      exact unit_sim (inPlace_sim hy (f := fun a => done a.unsetMsb) (done_keeps ⟨c', e', h1, h2⟩))
  | bool b => exact hinl (show 1 ≤ 64 by decide) _
  | u8 v => exact hinl (show 8 ≤ 64 by decide) _
  | i8 v => exact hinl (show 8 ≤ 64 by decide) _
  | u16 v => exact hinl (show 16 ≤ 64 by decide) _
  | i16 v => exact hinl (show 16 ≤ 64 by decide) _
  | u32 v => exact hinl (show 32 ≤ 64 by decide) _
  | i32 v => exact hinl (show 32 ≤ 64 by decide) _
  | u64 v => exact hinl (show 64 ≤ 64 by decide) _
  | i64 v => exact hinl (show 64 ≤ 64 by decide) _
  | u128 v => exact fine_sim (fromArray_sim A hs _)
  | i128 v => exact fine_sim (fromArray_sim A hs _)
  | array v vs => exact fine_sim (fromArray_sim A hs _)
  | digits ds => exact fromIter_sim A hs ds
  | parse k s =>
    have hm := make_made (.parse k s)
    match (Make.parse k s).spec, hm with
    | .error e, ⟨e', hm, _⟩ =>
      rw [hm]
      simp only [Make.hexec]
      rw [show ApInt.fromStrRadix (2 ^ (k.val + 1)) s = .ok (.error e') from hm]
      exact ⟨.error e', h, rfl, rfl, hs⟩
    | .ok z, ⟨c, hm, hc, _⟩ =>
      rw [hm]
      simp only [Make.hexec]
      rw [show ApInt.fromStrRadix (2 ^ (k.val + 1)) s = .ok (.ok c) from hm]
      obtain ⟨x, h', e, ho⟩ := ofPure_sim A hs hc.1
      refine Sim.step (v := .ok c) (h' := h) rfl ?_
      exact ⟨.ok x, h', hm_bind_ok e, ho⟩
  | random t rng =>
    refine fine_sim ?_
    have hp := t.pos
    have hne : Rng.take rng t.requiredDigits ≠ [] := by
      intro hc
      have := congrArg List.length hc
      rw [Rng.length_take, List.length_nil, BitWidth.requiredDigits_eq] at this
      omega
    have h1 := ofDigits_sim A hs hne t
    have h2 : (do
        let (c, _) ← randomWithWidthUsing t rng
        pure c) = (do
        let r ← ApInt.fromIter (Rng.take rng t.requiredDigits)
        let a ← expect r
        let r ← a.intoTruncate t
        expect r) := by
      unfold randomWithWidthUsing
      simp only [BitWidth.requiredDigits_eq]
      rw [if_neg (by omega)]
      simp only [bind_assoc, run_bind_ok]
      simp only [bind_pure]
    rw [h2]
    exact h1

/-- One call on the heap does what the pure call does, and leaves the heap in order. -/
theorem hexec_sim (A : Growth) (i : Instr) {h : Heap} {xs : HBank} {bs : Bank}
    (hr : Rep h xs bs) (hb : ∀ a ∈ bs, a.WF) : Sim (i.hexec A xs) h (i.exec bs) Next := by
  have skip : Sim (pure (.ok .unit, xs)) h (pure (.ok .unit, bs)) Next := ⟨_, _, rfl, rfl, hr⟩
  have wf : ∀ {x : Nat} {a : ApInt}, bs[x]? = some a → a.WF := fun h =>
    hb _ (List.mem_of_getElem? h)
  have one : ∀ (i : Nat) {f : HInt → HM (Res Out × HBank)} {g : ApInt → Run (Res Out × Bank)},
      (∀ x a, xs[i]? = some x → bs[i]? = some a → Sim (f x) h (g a) Next) →
      Sim (match xs[i]? with | some a => f a | none => pure (.ok .unit, xs)) h
        (match bs[i]? with | some a => g a | none => pure (.ok .unit, bs)) Next := by
    intro i f g hfg
    cases hi : bs[i]? with
    | none => rw [forall₂_none hr.mat hi]; exact skip
    | some a =>
      obtain ⟨x, hx, _⟩ := forall₂_get hr.mat hi
      rw [hx]
      exact hfg x a hx hi
  have two : ∀ (i j : Nat) {f : HInt → HInt → HM (Res Out × HBank)}
      {g : ApInt → ApInt → Run (Res Out × Bank)},
      (∀ x a y b, xs[i]? = some x → bs[i]? = some a → xs[j]? = some y → bs[j]? = some b →
        Sim (f x y) h (g a b) Next) →
      Sim (match xs[i]?, xs[j]? with | some a, some c => f a c | _, _ => pure (.ok .unit, xs)) h
        (match bs[i]?, bs[j]? with | some a, some c => g a c | _, _ => pure (.ok .unit, bs)) Next := by
    intro i j f g hfg
    cases hi : bs[i]? with
    | none => rw [forall₂_none hr.mat hi]; exact skip
    | some a =>
      obtain ⟨x, hx, _⟩ := forall₂_get hr.mat hi
      rw [hx]
      cases hj : bs[j]? with
      | none => rw [forall₂_none hr.mat hj]; exact skip
      | some b =>
        obtain ⟨y, hy, _⟩ := forall₂_get hr.mat hj
        rw [hy]
        exact hfg x a y b hx hi hy hj
  have sees : ∀ {i : Nat} {x : HInt} {a : ApInt}, xs[i]? = some x → bs[i]? = some a →
      Sees h x a := by
    intro i x a hx ha
    obtain ⟨h1, h2, h3⟩ := hr.cells hb hx ha
    exact ⟨h1, h2, _, hr.sep, h3⟩
  cases i with
  | make m =>
    refine hpush_sim hr ?_
    exact make_sim A hr.sep m
  | clone i =>
    refine one i fun x a hx ha => hpush_sim hr ?_
    obtain ⟨y, h', e, ho⟩ := hr.clone A (sees hx ha)
    rw [clone_ok (wf ha).1]
    exact Sim.step e ⟨_, _, rfl, ho⟩
  | drop i =>
    show Sim (match xs[i]? with
      | some a => _ | none => pure (.ok .unit, xs)) h (.ok (.ok .unit, bs.eraseIdx i)) Next
    cases hi : bs[i]? with
    | none =>
      rw [forall₂_none hr.mat hi, List.eraseIdx_of_length_le (List.getElem?_eq_none_iff.mp hi)]
      exact skip
    | some a =>
      obtain ⟨x, F, hx, ho, _, hd, _⟩ := hr.owns hb hi
      obtain ⟨h', e, hs⟩ := drop_ok ho
      rw [hx]
      exact Sim.step e ⟨_, _, rfl, rfl, hd h' hs⟩
  | assign i j =>
    refine two i j fun x a y b hx ha hy hb' => ?_
    obtain ⟨x', F, hx', ho, hn, _, hc⟩ := hr.owns hb ha
    rw [hx] at hx'
    cases hx'
    refine hstore_sim hn ?_
    rw [assign_ok (wf ha).1 (wf hb').1]
    by_cases hij : j = i
    · subst hij
      rw [hx] at hy
      rw [ha] at hb'
      cases hy
      cases hb'
      obtain ⟨x', h', e, ho'⟩ := assign_self_hok A ho
      exact Sim.step e ⟨_, _, rfl, rfl, ho'⟩
    · obtain ⟨h1, h2, _⟩ := hr.cells hb hy hb'
      obtain ⟨x', h', e, ho'⟩ := assign_hok A ho h1 h2 (hc j y b hij hy hb')
      exact Sim.step e ⟨_, _, rfl, rfl, ho'⟩
  | strictAssign i j =>
    refine two i j fun x a y b hx ha hy hb' => ?_
    obtain ⟨x', F, hx', ho, hn, _, hc⟩ := hr.owns hb ha
    rw [hx] at hx'
    cases hx'
    exact hstore_sim hn (strictAssign_hsim ho (sees hy hb'))
  | un o i =>
    refine one i fun x a hx ha => ?_
    obtain ⟨x', F, hx', ho, hn, _, _⟩ := hr.owns hb ha
    rw [hx] at hx'
    cases hx'
    exact hstore_sim hn (un_sim A o ho (wf ha))
  | intoUn o i =>
    refine one i fun x a hx ha => hpush_sim hr ?_
    obtain ⟨y, h', e, ho⟩ := hr.clone A (sees hx ha)
    rw [clone_ok (wf ha).1, run_bind_ok, un_into]
    exact Sim.step e (tryForward_sim (un_sim A o ho (wf ha)))
  | alter o i =>
    refine one i fun x a hx ha => ?_
    obtain ⟨x', F, hx', ho, hn, _, _⟩ := hr.owns hb ha
    rw [hx] at hx'
    cases hx'
    exact hstore_sim hn (inPlace_sim ho (alter_keeps o (wf ha)))
  | bin o i j =>
    refine two i j fun x a y b hx ha hy hb' => ?_
    obtain ⟨x', F, hx', ho, hn, _, _⟩ := hr.owns hb ha
    rw [hx] at hx'
    cases hx'
    refine hstore_sim hn (Sim.step (sees hy hb').load ?_)
    exact inPlace_sim ho (f := fun a => o.exec a b) (bin_keeps o (wf ha) (wf hb'))
  | intoBin o i j =>
    refine two i j fun x a y b hx ha hy hb' => hpush_sim hr ?_
    obtain ⟨z, h', e, ho⟩ := hr.clone A (sees hx ha)
    obtain ⟨h1, h2, h3⟩ := hr.cells hb hy hb'
    have hy' : Sees h' y b := sees_of_frame h1 h2 ho.sep fun c hc => List.mem_append_right _ (h3 c hc)
    rw [clone_ok (wf ha).1, run_bind_ok, bin_into]
    refine Sim.step e (Sim.step hy'.load (tryForward_sim ?_))
    exact inPlace_sim ho (f := fun a => o.exec a b) (bin_keeps o (wf ha) (wf hb'))
  | opAssign o i j =>
    refine two i j fun x a y b hx ha hy hb' => ?_
    obtain ⟨x', F, hx', ho, hn, _, _⟩ := hr.owns hb ha
    rw [hx] at hx'
    cases hx'
    refine hstore_sim hn (Sim.step (sees hy hb').load ?_)
    refine inPlace_sim ho (f := fun a => done (o.execAssign a b)) ?_
    intro v c e
    have hop := op_assign o (wf ha) (wf hb')
    cases hh : o.execAssign a b with
    | error f => rw [hh] at e; cases e
    | ok c' => rw [hh] at e; cases e; exact op_keeps hop hh
  | op o i j =>
    refine two i j fun x a y b hx ha hy hb' => hpush_sim hr ?_
    obtain ⟨z, h', e, ho⟩ := hr.clone A (sees hx ha)
    obtain ⟨h1, h2, h3⟩ := hr.cells hb hy hb'
    have hy' : Sees h' y b := sees_of_frame h1 h2 ho.sep fun c hc => List.mem_append_right _ (h3 c hc)
    rw [clone_ok (wf ha).1, run_bind_ok]
    refine Sim.step e (Sim.step hy'.load ?_)
    have hop := op_made o (wf ha) (wf hb')
    have hin := inPlace_sim ho (f := fun a => do
      let a ← o.exec a b
      pure ((), a)) (by
        intro v c e
        cases hh : o.exec a b with
        | error f => simp only [hh] at e; cases e
        | ok c' => simp only [hh] at e; cases e; exact op_keeps hop hh)
    cases hh : o.exec a b with
    | error f =>
      simp only [hh] at hin
      exact hm_bind_error hin
    | ok c =>
      simp only [hh] at hin
      obtain ⟨⟨u, z'⟩, h'', e', _, ho'⟩ := hin
      exact Sim.step e' ⟨_, _, rfl, ho'⟩
  | opShlAssign s i =>
    refine one i fun x a hx ha => ?_
    obtain ⟨x', F, hx', ho, hn, _, _⟩ := hr.owns hb ha
    rw [hx] at hx'
    cases hx'
    refine hstore_sim hn (inPlace_sim ho (f := fun a => done (a.opShlAssign s)) ?_)
    intro v c e
    have hop : Opped (a.opShlAssign s) _ := (un_stored (.shl s) (wf ha)).unwrap
    cases hh : a.opShlAssign s with
    | error f => rw [hh] at e; cases e
    | ok c' => rw [hh] at e; cases e; exact shl_keeps hop hh
  | opShl s i =>
    refine one i fun x a hx ha => hpush_sim hr ?_
    obtain ⟨z, h', e, ho⟩ := hr.clone A (sees hx ha)
    rw [clone_ok (wf ha).1, run_bind_ok]
    refine Sim.step e ?_
    have hop : Opped (a.opShl s) _ := (un_made (.shl s) (wf ha)).unwrap
    have hin := inPlace_sim ho (f := fun a => do
      let a ← a.opShl s
      pure ((), a)) (by
        intro v c e
        cases hh : a.opShl s with
        | error f => simp only [hh] at e; cases e
        | ok c' => simp only [hh] at e; cases e; exact shl_keeps hop hh)
    cases hh : a.opShl s with
    | error f =>
      simp only [hh] at hin
      exact hm_bind_error hin
    | ok c =>
      simp only [hh] at hin
      obtain ⟨⟨u, z'⟩, h'', e', _, ho'⟩ := hin
      exact Sim.step e' ⟨_, _, rfl, ho'⟩
  | pair o i j =>
    refine two i j fun x a y b hx ha hy hb' => ?_
    have hp := pair_stored o (wf ha) (wf hb')
    obtain ⟨x', F, hx', ho, hn, _, _⟩ := hr.owns hb ha
    rw [hx] at hx'
    cases hx'
    refine Sim.step (sees hx ha).load (Sim.step (sees hy hb').load ?_)
    have key : ∀ e c d, o.exec a b = .ok (e, c, d) → c.WF → d.WF → c.w = a.w → d.w = b.w →
        Sim (do
          let (e, a', c') ← liftR (o.exec a b)
          let a ← x.store a'
          let b := xs.set i a
          match b[j]? with
          | some c => do
            let c ← c.store c'
            pure (e.map fun _ => .unit, b.set j c)
          | none => pure (e.map fun _ => .unit, b)) h (do
          let (e, a, c) ← o.exec a b
          pure (e.map fun _ => .unit, (bs.set i a).set j c)) Next := by
      intro e c d he hc hd hwc hwd
      rw [he]
      obtain ⟨x1, h1, e1, ho1⟩ := store_ok ho hc.1 (by rw [hwc])
      have hr1 := hn _ _ _ ho1
      have hwf1 := wf_set hb (x := i) hc
      refine Sim.step (v := (e, c, d)) (h' := h) rfl (Sim.step e1 ?_)
      have hj : j < bs.length := (List.getElem?_eq_some_iff.mp hb').1
      have hsome : ∃ b1, (bs.set i c)[j]? = some b1 ∧ b1.w = b.w := by
        by_cases hij : i = j
        · subst hij
          rw [ha] at hb'
          cases hb'
          exact ⟨c, by rw [List.getElem?_set_self hj], hwc⟩
        · exact ⟨b, by rw [List.getElem?_set_ne hij, hb'], rfl⟩
      obtain ⟨b1, hb1, hw1⟩ := hsome
      obtain ⟨y1, F1, hy1, ho2, hn1, _⟩ := hr1.owns hwf1 hb1
      simp only [hy1]
      obtain ⟨y2, h2, e2, ho3⟩ := store_ok ho2 hd.1 (by rw [hw1, hwd])
      exact Sim.step e2 ⟨_, _, rfl, rfl, hn1 _ _ _ ho3⟩
    match hs : o.spec a.abs b.abs, hp with
    | none, hp =>
      have hp : o.exec a b = .error .panic := hp
      rw [hp]
      exact hm_bind_error rfl
    | some (.error e), ⟨e', hp, _⟩ => exact key _ _ _ hp (wf ha) (wf hb') rfl rfl
    | some (.ok (z, z')), ⟨c, d, hp, h1, h1', h2, h2'⟩ =>
      obtain ⟨w1, w2, w3⟩ := pair_width hs
      refine key _ _ _ hp h1 h1' (abs_width_eq h2 w1) ?_
      rw [abs_width_eq h2' w2]; exact w3
  | ask q i =>
    refine one i fun x a hx ha => Sim.step (sees hx ha).load ?_
    exact Sim.bind (Sim.lift _ (Q := fun v b h' => v = b ∧ h' = h) fun _ _ => ⟨rfl, rfl⟩)
      fun v b h' ⟨h1, h2⟩ => by subst h1 h2; exact ⟨_, _, rfl, rfl, hr⟩
  | ask2 q i j =>
    refine two i j fun x a y b hx ha hy hb' => Sim.step (sees hx ha).load
      (Sim.step (sees hy hb').load ?_)
    exact Sim.bind (Sim.lift _ (Q := fun v b h' => v = b ∧ h' = h) fun _ _ => ⟨rfl, rfl⟩)
      fun v b h' ⟨h1, h2⟩ => by subst h1 h2; exact ⟨_, _, rfl, rfl, hr⟩

/-- A whole program on the heap does what the pure program does. -/
theorem hrun_sim (A : Growth) (p : List Instr) {h : Heap} {xs : HBank} {bs : Bank}
    (hr : Rep h xs bs) (hb : ∀ a ∈ bs, a.WF) :
    (hrun A p xs h).1 = (run p bs).1 ∧
    ((∃ xs' h' bs', (hrun A p xs h).2 = .ok (xs', h') ∧ (run p bs).2 = .ok bs' ∧ Rep h' xs' bs' ∧
        ∀ a ∈ bs', a.WF) ∨
      ∃ f, (hrun A p xs h).2 = .error f ∧ (run p bs).2 = .error f) := by
  induction p generalizing h xs bs with
  | nil => exact ⟨rfl, .inl ⟨xs, h, bs, rfl, rfl, hr, hb⟩⟩
  | cons i p ih =>
    have hs := hexec_sim A i hr hb
    have ha := exec_agrees i hb
    unfold hrun run
    cases he : i.exec bs with
    | error f =>
      rw [he] at hs
      have hs : i.hexec A xs h = .error f := hs
      rw [hs]
      exact ⟨rfl, .inr ⟨f, rfl, rfl⟩⟩
    | ok v =>
      obtain ⟨r, bs'⟩ := v
      rw [he] at hs
      obtain ⟨⟨r', xs'⟩, h', e, h1, hr'⟩ := hs
      simp only at h1 hr'
      subst h1
      rw [e]
      have hwf : ∀ a ∈ bs', a.WF := by
        match i.spec (bs.map ApInt.abs), ha with
        | none, ha => cases he.symm.trans ha
        | some (x, s), ⟨y, c, ha, _, hc, _⟩ => cases he.symm.trans ha; exact hc
      obtain ⟨h2, h3⟩ := ih hr' hwf
      exact ⟨congrArg (List.cons _) h2, h3⟩

omit [Allocator] in
theorem Rep.empty : Rep ⟨[], []⟩ [] [] :=
  ⟨.nil, .refl _, List.nodup_nil, fun _ => ⟨[], .nil, rfl⟩⟩

/-- Dropping every integer empties the heap. -/
theorem dropAll_ok {h : Heap} {xs : HBank} {bs : Bank} (hr : Rep h xs bs) (hb : ∀ a ∈ bs, a.WF) :
    ∃ h', dropAll xs h = .ok ((), h') ∧ h'.cells = [] ∧ Tracks h' := by
  obtain ⟨hm, hs⟩ := hr
  induction hm generalizing h with
  | nil => exact ⟨h, rfl, List.Perm.nil_eq hs.perm.symm ▸ rfl, hs.tracks⟩
  | @cons x a xs bs h1 _ ih =>
    have ho : Owns h (cellsOf xs bs) x a := ⟨(hb a List.mem_cons_self).1, h1, hs⟩
    obtain ⟨h', e, hs'⟩ := drop_ok ho
    obtain ⟨h'', e', h2⟩ := ih (fun a ha => hb a (List.mem_cons_of_mem _ ha)) hs'
    refine ⟨h'', ?_, h2⟩
    unfold dropAll
    rw [hm_bind_ok e, e']

end Verif
