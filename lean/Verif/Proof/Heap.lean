import Verif.Model.Heap
import Verif.SpecHeap
import Verif.Proof.Program

/-!
# The heap model follows the pure model and keeps its buffers in order
-/

namespace Verif

open ApInt

/-! ## Running with a heap -/

instance : LawfulMonad HM := LawfulMonad.mk' HM
  (id_map := by
    intro α m
    show HM.bind m _ = m
    induction m with
    | ret a => rfl
    | fault f => rfl
    | alloc cap ds k ih => exact congrArg (HM.alloc cap ds) (funext ih)
    | get p k ih => exact congrArg (HM.get p) (funext ih)
    | write p ds k ih => exact congrArg (HM.write p ds) ih
    | free p cap k ih => exact congrArg (HM.free p cap) ih)
  (pure_bind := fun _ _ => rfl)
  (bind_assoc := by
    intro α β γ m f g
    show HM.bind (HM.bind m f) g = HM.bind m fun a => HM.bind (f a) g
    induction m with
    | ret a => rfl
    | fault f => rfl
    | alloc cap ds k ih => exact congrArg (HM.alloc cap ds) (funext ih)
    | get p k ih => exact congrArg (HM.get p) (funext ih)
    | write p ds k ih => exact congrArg (HM.write p ds) ih
    | free p cap k ih => exact congrArg (HM.free p cap) ih)

variable [Allocator]

@[simp] theorem hm_pure {α : Type} (a : α) (h : Heap) : (pure a : HM α) h = .ok (a, h) := rfl

theorem hm_bind {α β : Type} (m : HM α) (f : α → HM β) (h : Heap) :
    (m >>= f) h = (match m h with | .ok (a, h') => f a h' | .error e => .error e) := by
  show (HM.bind m f) h = _
  induction m generalizing h with
  | ret a => rfl
  | fault e => rfl
  | alloc cap ds k ih => exact ih _ _
  | get p k ih =>
    simp only [HM.bind, HM.run]
    split
    · exact ih _ _
    · rfl
  | write p ds k ih =>
    simp only [HM.bind, HM.run]
    split
    · split
      · exact ih _
      · rfl
    · rfl
  | free p cap k ih =>
    simp only [HM.bind, HM.run]
    split
    · split
      · exact ih _
      · rfl
    · rfl

@[simp] theorem hm_fault {α : Type} (f : Fault) (h : Heap) : (fault f : HM α) h = .error f := rfl

theorem hm_bind_ok {α β : Type} {m : HM α} {f : α → HM β} {h h' : Heap} {a : α}
    (e : m h = .ok (a, h')) : (m >>= f) h = f a h' := by
  rw [hm_bind, e]

theorem hm_bind_error {α β : Type} {m : HM α} {f : α → HM β} {h : Heap} {e : Fault}
    (he : m h = .error e) : (m >>= f) h = .error e := by
  rw [hm_bind, he]

/-- The computation on the heap does what the pure computation does: it returns something related
to what that returns, or stops with the same fault. -/
def Sim {α β : Type} (m : HM α) (h : Heap) (r : Run β) (Q : α → β → Heap → Prop) : Prop :=
  match r with
  | .ok b => ∃ v h', m h = .ok (v, h') ∧ Q v b h'
  | .error f => m h = .error f

theorem Sim.bind {α β γ δ : Type} {m : HM α} {h : Heap} {r : Run β} {P : α → β → Heap → Prop}
    {f : α → HM γ} {g : β → Run δ} {Q : γ → δ → Heap → Prop} (h1 : Sim m h r P)
    (h2 : ∀ v b h', P v b h' → Sim (f v) h' (g b) Q) : Sim (m >>= f) h (r >>= g) Q := by
  match r, h1 with
  | .ok b, ⟨v, h', e, hp⟩ =>
    unfold Sim
    rw [hm_bind_ok e]
    exact h2 v b h' hp
  | .error e, he => exact hm_bind_error he

theorem Sim.pure {α β : Type} {v : α} {b : β} {h : Heap} {Q : α → β → Heap → Prop} (hq : Q v b h) :
    Sim (Pure.pure v) h (.ok b) Q := ⟨v, h, rfl, hq⟩

theorem Sim.lift {α : Type} (r : Run α) {h : Heap} {Q : α → α → Heap → Prop}
    (hq : ∀ a, r = .ok a → Q a a h) : Sim (liftR r) h r Q := by
  cases r with
  | ok a => exact ⟨a, h, rfl, hq a rfl⟩
  | error f => rfl

/-- Do something on the heap that has no counterpart in the pure computation. -/
theorem Sim.step {α γ δ : Type} {m : HM α} {h h' : Heap} {v : α} {f : α → HM γ} {r : Run δ}
    {Q : γ → δ → Heap → Prop} (e : m h = .ok (v, h')) (h2 : Sim (f v) h' r Q) :
    Sim (m >>= f) h r Q := by
  unfold Sim at *
  rw [hm_bind_ok e]
  exact h2

theorem Sim.mono {α β : Type} {m : HM α} {h : Heap} {r : Run β} {P Q : α → β → Heap → Prop}
    (h1 : Sim m h r P) (h2 : ∀ v b h', r = .ok b → P v b h' → Q v b h') : Sim m h r Q := by
  match r, h1 with
  | .ok b, ⟨v, h', e, hp⟩ => exact ⟨v, h', e, h2 v b h' rfl hp⟩
  | .error e, he => exact he

theorem Sim.ite {α β : Type} {P P' : Prop} [Decidable P] [Decidable P'] {m m' : HM α} {h : Heap}
    {r r' : Run β} {Q : α → β → Heap → Prop} (hp : P ↔ P') (h1 : P' → Sim m h r Q)
    (h2 : ¬ P' → Sim m' h r' Q) :
    Sim (if P then m else m') h (if P' then r else r') Q := by
  by_cases hc : P'
  · rw [if_pos hc, if_pos (hp.mpr hc)]; exact h1 hc
  · rw [if_neg hc, if_neg (fun h => hc (hp.mp h))]; exact h2 hc

/-! ## The log -/

omit [Allocator] in
theorem eventsAt_append (p : Nat) (l l' : List Event) :
    eventsAt p (l ++ l') = eventsAt p l ++ eventsAt p l' := by simp [eventsAt]

omit [Allocator] in
theorem Paired.append {l l' : List Event} (h : Paired l) (h' : Paired l') : Paired (l ++ l') := by
  induction h with
  | nil => exact h'
  | step p c _ ih => exact .step p c ih

/-- The log tells which buffers are live. -/
def Tracks (h : Heap) : Prop :=
  ∀ p, ∃ l, Paired l ∧
    eventsAt p h.log = l ++ ((h.cells.filter fun c => c.1 == p).map fun c => .alloc p c.2.cap)

/-- The heap holds exactly these buffers, each at its own address. -/
structure Sep (h : Heap) (F : List (Nat × Block)) : Prop where
  perm : h.cells.Perm F
  nodup : (h.cells.map Prod.fst).Nodup
  tracks : Tracks h

omit [Allocator] in
theorem Sep.reorder {h : Heap} {F F' : List (Nat × Block)} (hs : Sep h F) (hp : F.Perm F') :
    Sep h F' := ⟨hs.perm.trans hp, hs.nodup, hs.tracks⟩

omit [Allocator] in
theorem find_of_mem {l : List (Nat × Block)} (hn : (l.map Prod.fst).Nodup) {p : Nat} {b : Block}
    (hm : (p, b) ∈ l) : l.find? (fun c => c.1 == p) = some (p, b) := by
  induction l with
  | nil => cases hm
  | cons c l ih =>
    rw [List.map_cons, List.nodup_cons] at hn
    rcases List.mem_cons.mp hm with rfl | hm'
    · simp
    · have hc : c.1 ≠ p := by
        intro hc
        exact hn.1 (hc ▸ List.mem_map_of_mem (f := Prod.fst) hm')
      rw [List.find?_cons_of_neg (by simpa using hc)]
      exact ih hn.2 hm'

omit [Allocator] in
theorem filter_none {l : List (Nat × Block)} {p : Nat} (h : p ∉ l.map Prod.fst) :
    l.filter (fun c => c.1 == p) = [] := by
  rw [List.filter_eq_nil_iff]
  intro c hc he
  exact h (by rw [← beq_iff_eq.mp he]; exact List.mem_map_of_mem hc)

omit [Allocator] in
theorem filter_one {l : List (Nat × Block)} (hn : (l.map Prod.fst).Nodup) {p : Nat} {b : Block}
    (hm : (p, b) ∈ l) : l.filter (fun c => c.1 == p) = [(p, b)] := by
  induction l with
  | nil => cases hm
  | cons c l ih =>
    rw [List.map_cons, List.nodup_cons] at hn
    rcases List.mem_cons.mp hm with rfl | hm'
    · rw [List.filter_cons_of_pos (by simp), filter_none hn.1]
    · have hc : c.1 ≠ p := by
        intro hc
        exact hn.1 (hc ▸ List.mem_map_of_mem (f := Prod.fst) hm')
      rw [List.filter_cons_of_neg (by simpa using hc)]
      exact ih hn.2 hm'

omit [Allocator] in
theorem Sep.nodup' {h : Heap} {F : List (Nat × Block)} (hs : Sep h F) : (F.map Prod.fst).Nodup :=
  (hs.perm.map Prod.fst).nodup_iff.mp hs.nodup

omit [Allocator] in
theorem Sep.find {h : Heap} {F : List (Nat × Block)} (hs : Sep h F) {p : Nat} {b : Block}
    (hm : (p, b) ∈ F) : h.cells.find? (fun c => c.1 == p) = some (p, b) :=
  find_of_mem hs.nodup (hs.perm.mem_iff.mpr hm)

theorem halloc_ok {h : Heap} {F : List (Nat × Block)} (hs : Sep h F) (cap : Nat)
    (ds : List Digit) :
    ∃ p h', halloc cap ds h = .ok (p, h') ∧ Sep h' ((p, ⟨cap, ds⟩) :: F) := by
  refine ⟨_, _, rfl, hs.perm.cons _, ?_, ?_⟩
  · rw [List.map_cons, List.nodup_cons]
    exact ⟨Allocator.fresh h, hs.nodup⟩
  · intro p
    obtain ⟨l, hl, he⟩ := hs.tracks p
    refine ⟨l, hl, ?_⟩
    simp only [eventsAt_append, he]
    by_cases hp : Allocator.pick h = p
    · subst hp
      rw [filter_none (Allocator.fresh h)]
      simp [eventsAt, Event.addr, filter_none (Allocator.fresh h)]
    · simp [eventsAt, Event.addr, hp]

theorem hget_ok {h : Heap} {F : List (Nat × Block)} (hs : Sep h F) {p : Nat} {b : Block}
    (hm : (p, b) ∈ F) : hget p h = .ok (b, h) := by
  unfold hget
  simp only [HM.run]
  rw [hs.find hm]

theorem hfree_ok {h : Heap} {F : List (Nat × Block)} {p : Nat} {b : Block}
    (hs : Sep h ((p, b) :: F)) : ∃ h', hfree p b.cap h = .ok ((), h') ∧ Sep h' F := by
  have hm : (p, b) ∈ (p, b) :: F := List.mem_cons_self
  have hn := hs.nodup'
  rw [List.map_cons, List.nodup_cons] at hn
  have hF : F.filter (fun c => c.1 != p) = F := by
    rw [List.filter_eq_self]
    intro c hc
    have : c.1 ≠ p := fun e => hn.1 (by show p ∈ _; rw [← e]; exact List.mem_map_of_mem hc)
    simpa using this
  refine ⟨⟨h.cells.filter (fun c => c.1 != p), h.log ++ [.free p b.cap]⟩, ?_, ?_, ?_, ?_⟩
  · unfold hfree
    simp only [HM.run]
    rw [hs.find hm]
    simp
  · have := hs.perm.filter (fun c => c.1 != p)
    rw [List.filter_cons_of_neg (by simp), hF] at this
    exact this
  · exact hs.nodup.sublist (List.filter_sublist.map _)
  · intro q
    obtain ⟨l, hl, he⟩ := hs.tracks q
    simp only [eventsAt_append, he]
    by_cases hq : p = q
    · subst hq
      refine ⟨l ++ [.alloc p b.cap, .free p b.cap], hl.append (.step _ _ .nil), ?_⟩
      rw [filter_one hs.nodup (hs.perm.mem_iff.mpr hm), filter_none]
      · simp [eventsAt, Event.addr]
      · simp
    · refine ⟨l, hl, ?_⟩
      have : (h.cells.filter fun c => c.1 != p).filter (fun c => c.1 == q) =
          h.cells.filter (fun c => c.1 == q) := by
        rw [List.filter_filter]
        apply List.filter_congr
        intro c _
        by_cases hc : c.1 = q
        · subst hc
          simpa using fun h => hq h.symm
        · simp [hc]
      rw [this]
      simp [eventsAt, Event.addr, hq]

theorem hwrite_ok {h : Heap} {F : List (Nat × Block)} {p : Nat} {b : Block} {ds : List Digit}
    (hs : Sep h ((p, b) :: F)) (hl : b.digits.length = ds.length) :
    ∃ h', hwrite p ds h = .ok ((), h') ∧ Sep h' ((p, ⟨b.cap, ds⟩) :: F) := by
  have hm : (p, b) ∈ (p, b) :: F := List.mem_cons_self
  have hn := hs.nodup'
  rw [List.map_cons, List.nodup_cons] at hn
  have hk : ∀ l : List (Nat × Block), (l.map fun c => if c.1 = p then (c.1, (⟨c.2.cap, ds⟩ : Block))
      else c).map Prod.fst = l.map Prod.fst := by
    intro l
    rw [List.map_map]
    apply List.map_congr_left
    intro c _
    simp only [Function.comp]
    split <;> rfl
  refine ⟨⟨h.cells.map (fun c => if c.1 = p then (c.1, ⟨c.2.cap, ds⟩) else c), h.log⟩,
    ?_, ?_, ?_, ?_⟩
  · unfold hwrite
    simp only [HM.run]
    rw [hs.find hm]
    simp [hl]
  · have := hs.perm.map (fun c => if c.1 = p then (c.1, (⟨c.2.cap, ds⟩ : Block)) else c)
    rw [List.map_cons, if_pos rfl] at this
    refine this.trans (List.Perm.of_eq ?_)
    congr 1
    rw [List.map_congr_left (g := id), List.map_id]
    intro c hc
    have : c.1 ≠ p := fun e => hn.1 (by show p ∈ _; rw [← e]; exact List.mem_map_of_mem hc)
    simp [this]
  · rw [hk]; exact hs.nodup
  · intro q
    obtain ⟨l, hl, he⟩ := hs.tracks q
    refine ⟨l, hl, ?_⟩
    simp only [he]
    congr 1
    rw [List.filter_map, List.map_map]
    have : ((fun c : Nat × Block => c.1 == q) ∘ fun c => if c.1 = p then (c.1, (⟨c.2.cap, ds⟩ : Block))
        else c) = fun c => c.1 == q := by
      funext c
      simp only [Function.comp]
      split <;> rfl
    rw [this]
    apply List.map_congr_left
    intro c _
    simp only [Function.comp]
    split <;> rfl

/-! ## One integer -/

/-- The heap integer and the pure integer have the same width and the same storage. -/
def Match (x : HInt) (a : ApInt) : Prop :=
  x.len = a.len ∧
    match x.data, a.data with
    | .inl d, .inl d' => d = d'
    | .ext _, .ext _ => True
    | _, _ => False

/-- The buffer of an integer, with the capacity its number of digits asks for. -/
def cell (x : HInt) (a : ApInt) : List (Nat × Block) :=
  match x.data, a.data with
  | .ext p, .ext ds => [(p, ⟨ds.length, ds⟩)]
  | _, _ => []

/-- The heap integer stands for the pure integer and owns its buffer; `F` is the rest of the
heap. -/
structure Owns (h : Heap) (F : List (Nat × Block)) (x : HInt) (a : ApInt) : Prop where
  shape : a.Shape
  mat : Match x a
  sep : Sep h (cell x a ++ F)

/-- The heap integer stands for the pure integer; its buffer is somewhere in the heap. -/
structure Sees (h : Heap) (x : HInt) (a : ApInt) : Prop where
  shape : a.Shape
  mat : Match x a
  sep : ∃ F, Sep h F ∧ ∀ c ∈ cell x a, c ∈ F

omit [Allocator] in
theorem Owns.sees {h : Heap} {F : List (Nat × Block)} {x : HInt} {a : ApInt} (ho : Owns h F x a) :
    Sees h x a := ⟨ho.shape, ho.mat, _, ho.sep, fun _ hc => List.mem_append_left _ hc⟩

theorem Sees.cases {h : Heap} {x : HInt} {a : ApInt} (ho : Sees h x a) :
    (∃ len d, x = ⟨len, .inl d⟩ ∧ a = ⟨len, .inl d⟩ ∧ len.toUsize ≤ 64 ∧ len.storage = .inl) ∨
    (∃ len p ds, x = ⟨len, .ext p⟩ ∧ a = ⟨len, .ext ds⟩ ∧ 64 < len.toUsize ∧ len.storage = .ext ∧
      ds.length = len.requiredDigits ∧ hget p h = .ok (⟨ds.length, ds⟩, h)) := by
  obtain ⟨xl, xd⟩ := x
  obtain ⟨al, ad⟩ := a
  obtain ⟨h1, ⟨h2, h3⟩, F, h4, h5⟩ := ho
  simp only at h2
  subst h2
  match xd, ad, h3 with
  | .inl d, .inl d', h3 =>
    have h3 : d = d' := h3
    subst h3
    have h1 : xl.toUsize ≤ 64 := h1
    exact .inl ⟨xl, d, rfl, rfl, h1, Shape.storage_inl (a := ⟨xl, .inl d⟩) h1⟩
  | .ext p, .ext ds, _ =>
    obtain ⟨h6, h7⟩ : 64 < xl.toUsize ∧ ds.length = (xl.toUsize + 63) / 64 := h1
    refine .inr ⟨xl, p, ds, rfl, rfl, h6, Shape.storage_ext (a := ⟨xl, .ext ds⟩) h6, ?_, ?_⟩
    · rw [BitWidth.requiredDigits_eq, h7]
    · exact hget_ok h4 (h5 _ (by simp [cell]))

omit [Allocator] in
theorem Sees.len {h : Heap} {x : HInt} {a : ApInt} (ho : Sees h x a) : x.len = a.len := ho.mat.1

theorem Sees.slice {h : Heap} {x : HInt} {a : ApInt} (ho : Sees h x a) :
    x.asDigitSlice h = .ok (a.digits, h) := by
  rcases ho.cases with ⟨len, d, rfl, rfl, h1, h2⟩ | ⟨len, p, ds, rfl, rfl, h1, h2, h3, h4⟩
  · simp only [HInt.asDigitSlice, HInt.storage, h2]
    rfl
  · simp only [HInt.asDigitSlice, HInt.storage, h2, HInt.lenDigits, HInt.readPtr]
    rw [hm_bind_ok (hm_pure p h), hm_bind_ok h4]
    show (if len.requiredDigits ≤ ds.length then pure (ds.take len.requiredDigits)
      else fault .ub : HM (List Digit)) h = _
    rw [if_pos (Nat.le_of_eq h3.symm), ← h3, List.take_length]
    rfl

theorem Sees.load {h : Heap} {x : HInt} {a : ApInt} (ho : Sees h x a) :
    x.load h = .ok (a, h) := by
  have hs := ho.slice
  rcases ho.cases with ⟨len, d, rfl, rfl, h1, h2⟩ | ⟨len, p, ds, rfl, rfl, h1, h2, h3, h4⟩
  · simp only [HInt.load, HInt.storage, h2]
    rfl
  · simp only [HInt.load, HInt.storage, h2]
    rw [hm_bind_ok hs]
    rfl

omit [Allocator] in
theorem owns_inl {h : Heap} {F : List (Nat × Block)} {len : BitWidth} {d : Digit}
    (hl : len.toUsize ≤ 64) (hs : Sep h F) : Owns h F ⟨len, .inl d⟩ ⟨len, .inl d⟩ :=
  ⟨hl, ⟨rfl, rfl⟩, hs⟩

omit [Allocator] in
theorem owns_ext {h : Heap} {F : List (Nat × Block)} {len : BitWidth} {p : Nat} {ds : List Digit}
    (hl : 64 < len.toUsize) (hd : ds.length = len.requiredDigits)
    (hs : Sep h ((p, ⟨ds.length, ds⟩) :: F)) : Owns h F ⟨len, .ext p⟩ ⟨len, .ext ds⟩ :=
  ⟨⟨hl, by rw [hd, BitWidth.requiredDigits_eq]⟩, ⟨rfl, trivial⟩, hs⟩

omit [Allocator] in
theorem Owns.frame {h : Heap} {F F' : List (Nat × Block)} {x : HInt} {a : ApInt}
    (ho : Owns h F x a) (hp : F.Perm F') : Owns h F' x a :=
  ⟨ho.shape, ho.mat, ho.sep.reorder (hp.append_left _)⟩

omit [Allocator] in
/-- Two integers owning their buffers: look at the other one. -/
theorem Owns.swap {h : Heap} {F : List (Nat × Block)} {x y : HInt} {a b : ApInt}
    (ho : Owns h (cell y b ++ F) x a) (hb : b.Shape) (hm : Match y b) :
    Owns h (cell x a ++ F) y b := by
  refine ⟨hb, hm, ho.sep.reorder ?_⟩
  rw [← List.append_assoc, ← List.append_assoc]
  exact List.perm_append_comm.append_right _

theorem write_ok {h : Heap} {F : List (Nat × Block)} {x : HInt} {a c : ApInt}
    (ho : Owns h F x a) (hc : c.Shape)
    (hd : (a.w + 63) / 64 = (c.w + 63) / 64) :
    ∃ x' h', x.writeDigitSlice c.digits h = .ok (x', h') ∧ x'.len = x.len ∧
      Owns h' F { x' with len := c.len } c := by
  have hp := c.pos_w
  have hp' := a.pos_w
  rcases ho.sees.cases with ⟨len, d, rfl, rfl, h1, h2⟩ | ⟨len, p, ds, rfl, rfl, h1, h2, h3, h4⟩
  · have hw : (⟨len, .inl d⟩ : ApInt).w = len.toUsize := rfl
    obtain ⟨cl, cd⟩ := c
    have hcl : (⟨cl, cd⟩ : ApInt).w = cl.toUsize := rfl
    cases cd with
    | ext ds => have := hc.1; omega
    | inl d' =>
      refine ⟨⟨len, .inl d'⟩, h, ?_, rfl, owns_inl (show cl.toUsize ≤ 64 by omega) ho.sep⟩
      simp only [HInt.writeDigitSlice, HInt.storage, h2, digits]
      rfl
  · have hw : (⟨len, .ext ds⟩ : ApInt).w = len.toUsize := rfl
    obtain ⟨cl, cd⟩ := c
    have hcl : (⟨cl, cd⟩ : ApInt).w = cl.toUsize := rfl
    cases cd with
    | inl d => have hc : cl.toUsize ≤ 64 := hc; omega
    | ext ds' =>
      obtain ⟨hc1, hc2⟩ : 64 < cl.toUsize ∧ ds'.length = (cl.toUsize + 63) / 64 := hc
      have hl : ds.length = ds'.length := by
        rw [h3, BitWidth.requiredDigits_eq, hc2]; omega
      obtain ⟨h', e, hs⟩ := hwrite_ok (ds := ds') ho.sep hl
      refine ⟨⟨len, .ext p⟩, h', ?_, rfl, owns_ext hc1 ?_ ?_⟩
      · simp only [HInt.writeDigitSlice, HInt.storage, h2, HInt.readPtr, digits]
        rw [hm_bind_ok (hm_pure p h), hm_bind_ok e]
        rfl
      · rw [BitWidth.requiredDigits_eq, hc2]
      · rw [← hl]; exact hs

theorem store_ok {h : Heap} {F : List (Nat × Block)} {x : HInt} {a c : ApInt}
    (ho : Owns h F x a) (hc : c.Shape) (hd : (a.w + 63) / 64 = (c.w + 63) / 64) :
    ∃ x' h', x.store c h = .ok (x', h') ∧ Owns h' F x' c := by
  obtain ⟨x', h', e, h1, h2⟩ := write_ok ho hc hd
  refine ⟨_, h', ?_, h2⟩
  unfold HInt.store
  show (x.writeDigitSlice c.digits >>= fun self => pure { self with len := c.len }) h = _
  rw [hm_bind_ok e]
  rfl

/-- What a call leaves behind is related to what the pure call leaves behind. -/
def Left (F : List (Nat × Block)) {α : Type} (v : α × HInt) (b : α × ApInt) (h : Heap) : Prop :=
  v.1 = b.1 ∧ Owns h F v.2 b.2

theorem inPlace_sim {α : Type} {h : Heap} {F : List (Nat × Block)} {x : HInt} {a : ApInt}
    (ho : Owns h F x a) {f : ApInt → Run (α × ApInt)}
    (hf : ∀ r c, f a = .ok (r, c) → c.Shape ∧ (a.w + 63) / 64 = (c.w + 63) / 64) :
    Sim (x.inPlace f) h (f a) (Left F) := by
  unfold HInt.inPlace
  refine Sim.step ho.sees.load ?_
  cases e : f a with
  | error f =>
    exact hm_bind_error rfl
  | ok v =>
    obtain ⟨r, c⟩ := v
    obtain ⟨h1, h2⟩ := hf r c e
    obtain ⟨x', h', e2, h3⟩ := store_ok ho h1 h2
    refine ⟨(r, x'), h', ?_, rfl, h3⟩
    rw [hm_bind_ok (show liftR (Except.ok (r, c)) h = .ok ((r, c), h) from rfl)]
    show (x.store c >>= fun s => pure (r, s)) h = _
    rw [hm_bind_ok e2]
    rfl

theorem drop_ok {h : Heap} {F : List (Nat × Block)} {x : HInt} {a : ApInt} (ho : Owns h F x a) :
    ∃ h', x.dropDigits h = .ok ((), h') ∧ Sep h' F := by
  rcases ho.sees.cases with ⟨len, d, rfl, rfl, h1, h2⟩ | ⟨len, p, ds, rfl, rfl, h1, h2, h3, h4⟩
  · refine ⟨h, ?_, ho.sep⟩
    simp only [HInt.dropDigits, HInt.storage, h2]
    rfl
  · obtain ⟨h', e, hs⟩ := hfree_ok (b := ⟨ds.length, ds⟩) ho.sep
    refine ⟨h', ?_, hs⟩
    simp only [HInt.dropDigits, HInt.storage, h2, HInt.lenDigits, ← h3, HInt.readPtr]
    rw [hm_bind_ok (hm_pure p h), e]

theorem replace_ok {h : Heap} {F : List (Nat × Block)} {x y : HInt} {a b : ApInt}
    (ho : Owns h (cell x a ++ F) y b) (ha : a.Shape) (hm : Match x a) :
    ∃ h', x.replace y h = .ok (y, h') ∧ Owns h' F y b := by
  obtain ⟨h', e, hs⟩ := drop_ok (ho.swap ha hm)
  refine ⟨h', ?_, ho.shape, ho.mat, hs⟩
  unfold HInt.replace
  rw [hm_bind_ok e]
  rfl

/-! ## Constructors and copies -/

theorem newInl_hok {len : BitWidth} (d : Digit) (h : Heap) (hl : len.toUsize ≤ 64) :
    HInt.newInl len d h = .ok (⟨len, .inl d⟩, h) := by
  unfold HInt.newInl
  rw [if_pos (show len.storage = .inl from Shape.storage_inl (a := ⟨len, .inl d⟩) hl)]
  rfl

theorem newExt_hok {len : BitWidth} (p : Nat) (h : Heap) (hl : 64 < len.toUsize) :
    HInt.newExt len p h = .ok (⟨len, .ext p⟩, h) := by
  unfold HInt.newExt
  rw [if_pos (show len.storage = .ext from Shape.storage_ext (a := ⟨len, .ext []⟩) hl)]
  rfl

/-- The buffers of a small vector holding the digits `ds`. -/
def SmallVec.Holds (ds : List Digit) : SmallVec → List (Nat × Block) → Prop
  | .inl ds', F => ds' = ds ∧ ds.length ≤ 1 ∧ F = []
  | .spilled p cap len, F => len = ds.length ∧ len ≤ cap ∧ F = [(p, ⟨cap, ds⟩)]

omit [Allocator] in
theorem SmallVec.Holds.len {ds : List Digit} {v : SmallVec} {G : List (Nat × Block)}
    (h : v.Holds ds G) : v.len = ds.length := by
  cases v with
  | inl ds' => rw [← h.1]; rfl
  | spilled p cap len => exact h.1

theorem collect_ok (A : Growth) {h : Heap} {F : List (Nat × Block)} (hs : Sep h F)
    (ds : List Digit) :
    ∃ v h' G, SmallVec.collect A ds h = .ok (v, h') ∧ v.Holds ds G ∧ Sep h' (G ++ F) := by
  unfold SmallVec.collect
  by_cases hr : A.room ds ≤ 1
  · rw [if_pos hr]
    exact ⟨.inl ds, _, [], rfl, ⟨rfl, (A.enough ds).trans hr, rfl⟩, hs⟩
  · rw [if_neg hr]
    obtain ⟨p, h', e, hs'⟩ := halloc_ok hs (A.room ds) ds
    refine ⟨.spilled p (A.room ds) ds.length, h', _, ?_, ⟨rfl, A.enough ds, rfl⟩, hs'⟩
    rw [hm_bind_ok e]
    rfl

theorem vecDrop_ok {h : Heap} {F G : List (Nat × Block)} {ds : List Digit} {v : SmallVec}
    (hv : v.Holds ds G) (hs : Sep h (G ++ F)) : ∃ h', v.drop h = .ok ((), h') ∧ Sep h' F := by
  cases v with
  | inl ds' =>
    obtain ⟨_, _, rfl⟩ := hv
    exact ⟨h, rfl, hs⟩
  | spilled p cap len =>
    obtain ⟨_, _, rfl⟩ := hv
    exact hfree_ok (b := ⟨cap, ds⟩) hs

theorem shrink_ok {h : Heap} {F G : List (Nat × Block)} {ds : List Digit}
    {v : SmallVec} (hv : v.Holds ds G) (hs : Sep h (G ++ F)) (hl : 2 ≤ ds.length) :
    ∃ p h', v.shrinkToFit h = .ok (.spilled p ds.length ds.length, h') ∧
      Sep h' ((p, ⟨ds.length, ds⟩) :: F) := by
  cases v with
  | inl ds' =>
    obtain ⟨_, h1, _⟩ := hv
    omega
  | spilled p cap len =>
    obtain ⟨rfl, h1, rfl⟩ := hv
    have hg := hget_ok hs List.mem_cons_self
    simp only [SmallVec.shrinkToFit]
    rw [hm_bind_ok hg, if_neg (by omega)]
    by_cases hc : ds.length < cap
    · rw [if_pos hc]
      obtain ⟨h', e, hs'⟩ := hfree_ok (b := ⟨cap, ds⟩) hs
      obtain ⟨q, h'', e', hs''⟩ := halloc_ok hs' ds.length ds
      refine ⟨q, h'', ?_, hs''⟩
      rw [hm_bind_ok e, hm_bind_ok e']
      rfl
    · rw [if_neg hc]
      have hc : cap = ds.length := by omega
      subst hc
      exact ⟨p, h, rfl, hs⟩

/-- What a constructor returns is related to what the pure constructor returns. -/
def Born (F : List (Nat × Block)) (v : Res HInt) (b : Res ApInt) (h : Heap) : Prop :=
  match v, b with
  | .ok x, .ok a => Owns h F x a
  | .error e, .error e' => e = e' ∧ Sep h F
  | _, _ => False

theorem fromIter_sim (A : Growth) {h : Heap} {F : List (Nat × Block)} (hs : Sep h F)
    (ds : List Digit) : Sim (HInt.fromIter A ds) h (ApInt.fromIter ds) (Born F) := by
  obtain ⟨v, h', G, e, hv, hs'⟩ := collect_ok A hs ds
  unfold HInt.fromIter
  refine Sim.step e ?_
  match ds, hv with
  | [], hv =>
    obtain ⟨h'', e', hs''⟩ := vecDrop_ok hv hs'
    exact Sim.step e' ⟨_, _, rfl, rfl, hs''⟩
  | [d], hv =>
    obtain ⟨h'', e', hs''⟩ := vecDrop_ok hv hs'
    refine Sim.step (newInl_hok d h' (show 64 ≤ 64 by decide)) (Sim.step e' ?_)
    exact ⟨_, _, rfl, owns_inl (show 64 ≤ 64 by decide) hs''⟩
  | x :: y :: rest, hv =>
    have hne : (x :: y :: rest).length * 64 ≠ 0 := by simp
    have hlt : 64 < (x :: y :: rest).length * 64 := by simp only [List.length_cons]; omega
    have hreq : (BitWidth.mk ((x :: y :: rest).length * 64) (Nat.pos_of_ne_zero hne)).requiredDigits
        = (x :: y :: rest).length := by
      rw [BitWidth.requiredDigits_eq]; simp only; omega
    obtain ⟨p, h'', e2, hs''⟩ := shrink_ok hv hs' (by simp)
    have hpure : ApInt.fromIter (x :: y :: rest) = .ok (.ok ⟨⟨(x :: y :: rest).length * 64,
        Nat.pos_of_ne_zero hne⟩, .ext (x :: y :: rest)⟩) := by
      simp only [ApInt.fromIter, BitWidth.new_ok hne, expect, run_bind_ok, hreq, ne_eq,
        not_true_eq_false, if_false]
      rw [ApInt.newExt_ok (len := ⟨(x :: y :: rest).length * 64, Nat.pos_of_ne_zero hne⟩) _ hlt]
      rfl
    rw [hpure]
    refine Sim.step (v := ⟨(x :: y :: rest).length * 64, Nat.pos_of_ne_zero hne⟩) (h' := h') ?_ ?_
    · rw [hv.len, BitWidth.new_ok hne]; rfl
    refine Sim.step e2 ?_
    simp only [SmallVec.capacity, SmallVec.len, hreq, ne_eq, not_true_eq_false, if_false,
      SmallVec.leak]
    refine Sim.step (hm_pure p h'') (Sim.step (newExt_hok p h'' hlt) ?_)
    exact ⟨_, _, rfl, owns_ext hlt hreq.symm hs''⟩

theorem boxedCopy_ok (A : Growth) {h : Heap} {F : List (Nat × Block)} (hs : Sep h F)
    (ds : List Digit) :
    ∃ p h', boxedCopy A ds h = .ok (p, h') ∧ Sep h' ((p, ⟨ds.length, ds⟩) :: F) := by
  obtain ⟨p, h', e, hs'⟩ := halloc_ok hs (A.room ds) ds
  unfold boxedCopy
  rw [hm_bind_ok e]
  by_cases hr : ds.length < A.room ds
  · rw [if_pos hr]
    obtain ⟨h'', e', hs''⟩ := hfree_ok (b := ⟨A.room ds, ds⟩) hs'
    rw [hm_bind_ok e']
    exact halloc_ok hs'' ds.length ds
  · rw [if_neg hr]
    have : A.room ds = ds.length := by have := A.enough ds; omega
    rw [this] at hs'
    exact ⟨p, h', rfl, hs'⟩

/-- A clone owns a new buffer. -/
theorem clone_hok (A : Growth) {h : Heap} {F : List (Nat × Block)} {x : HInt} {a : ApInt}
    (ho : Sees h x a) (hs : Sep h F) :
    ∃ y h', x.clone A h = .ok (y, h') ∧ Owns h' F y a := by
  have hsl := ho.slice
  rcases ho.cases with ⟨len, d, rfl, rfl, h1, h2⟩ | ⟨len, p, ds, rfl, rfl, h1, h2, h3, h4⟩
  · refine ⟨_, h, ?_, owns_inl h1 hs⟩
    simp only [HInt.clone, HInt.storage, h2, HInt.readInl]
    rw [hm_bind_ok (hm_pure d h)]
    exact newInl_hok d h h1
  · obtain ⟨q, h', e, hs'⟩ := boxedCopy_ok A hs ds
    refine ⟨⟨len, .ext q⟩, h', ?_, owns_ext h1 h3 hs'⟩
    simp only [HInt.clone, HInt.storage, h2]
    rw [hm_bind_ok hsl]
    have : ¬ (digits ⟨len, .ext ds⟩).length ≠ HInt.lenDigits ⟨len, .ext p⟩ := by
      simp [digits, HInt.lenDigits, h3]
    rw [if_neg this, hm_bind_ok (show boxedCopy A (digits ⟨len, .ext ds⟩) h = _ from e)]
    exact newExt_hok q h' h1

omit [Allocator] in
/-- An integer of the rest of the heap, seen after the buffer in front was dropped or changed. -/
theorem sees_of_frame {h : Heap} {F : List (Nat × Block)} {y : HInt} {b : ApInt} (hb : b.Shape)
    (hm : Match y b) (hs : Sep h F) (hc : ∀ c ∈ cell y b, c ∈ F) : Sees h y b :=
  ⟨hb, hm, F, hs, hc⟩

omit [Allocator] in
theorem lenDigits_of {h : Heap} {x : HInt} {a : ApInt} (ho : Sees h x a) :
    x.lenDigits = (a.w + 63) / 64 := by
  unfold HInt.lenDigits
  rw [ho.len, BitWidth.requiredDigits_eq]

theorem copy_in_place {h : Heap} {F : List (Nat × Block)} {x y : HInt} {a b : ApInt}
    (ho : Owns h F x a) (hy : Sees h y b) (hl : (a.w + 63) / 64 = (b.w + 63) / 64) :
    ∃ x' h', (do
      let dst ← x.asDigitSlice
      let src ← y.asDigitSlice
      let ds ← liftR (copyFromSlice dst src)
      x.writeDigitSlice ds : HM HInt) h = .ok (x', h') ∧ x'.len = x.len ∧
      Owns h' F { x' with len := b.len } b := by
  rw [hm_bind_ok ho.sees.slice, hm_bind_ok hy.slice,
    copyFromSlice_ok (by rw [ho.shape.length_digits, hy.shape.length_digits, hl]),
    hm_bind_ok (show liftR (Except.ok b.digits) h = .ok (b.digits, h) from rfl)]
  exact write_ok ho hy.shape hl

/-- `assign` frees the old buffer if it cannot hold the new digits, and copies. `y` is another
integer. -/
theorem assign_hok (A : Growth) {h : Heap} {F : List (Nat × Block)} {x y : HInt} {a b : ApInt}
    (ho : Owns h F x a) (hb : b.Shape) (hm : Match y b) (hc : ∀ c ∈ cell y b, c ∈ F) :
    ∃ x' h', x.assign A y h = .ok (x', h') ∧ Owns h' F x' b := by
  have hy : Sees h y b := sees_of_frame hb hm ho.sep fun c h => List.mem_append_right _ (hc c h)
  unfold HInt.assign
  rw [lenDigits_of ho.sees, lenDigits_of hy]
  by_cases hl : (a.w + 63) / 64 = (b.w + 63) / 64
  · rw [if_pos hl]
    obtain ⟨x', h', e, _, h2⟩ := copy_in_place ho hy hl
    refine ⟨{ x' with len := b.len }, h', ?_, h2⟩
    simp only [← hy.len] at h2 ⊢
    have := hm_bind_ok (f := fun self : HInt => (pure { self with len := y.len } : HM HInt)) e
    simp only [bind_assoc] at this
    exact this
  · rw [if_neg hl]
    obtain ⟨h', e, hs⟩ := drop_ok ho
    have hy' : Sees h' y b := sees_of_frame hb hm hs hc
    rw [hm_bind_ok e]
    obtain ⟨y', h'', e', ho'⟩ := clone_hok A hy' hs
    rcases hy'.cases with ⟨len, d, rfl, rfl, h1, h2⟩ | ⟨len, p, ds, rfl, rfl, h1, h2, h3, h4⟩
    · refine ⟨_, h', ?_, owns_inl h1 hs⟩
      simp only [HInt.storage, h2, HInt.readInl]
      rfl
    · rcases ho'.sees.cases with ⟨_, _, _, hx, _⟩ | ⟨len', q, ds', rfl, hx, _⟩
      · cases hx
      · obtain ⟨rfl, hx⟩ := ApInt.mk.inj hx
        cases hx
        refine ⟨_, h'', ?_, ho'⟩
        simp only [HInt.storage, h2]
        rw [hm_bind_ok e']
        rfl

theorem assign_self_hok (A : Growth) {h : Heap} {F : List (Nat × Block)} {x : HInt} {a : ApInt}
    (ho : Owns h F x a) : ∃ x' h', x.assign A x h = .ok (x', h') ∧ Owns h' F x' a := by
  unfold HInt.assign
  rw [if_pos rfl]
  obtain ⟨x', h', e, _, h2⟩ := copy_in_place ho ho.sees rfl
  refine ⟨{ x' with len := a.len }, h', ?_, h2⟩
  simp only [← ho.sees.len] at h2 ⊢
  have := hm_bind_ok (f := fun self : HInt => (pure { self with len := x.len } : HM HInt)) e
  simp only [bind_assoc] at this
  exact this

theorem strictAssign_hsim {h : Heap} {F : List (Nat × Block)} {x y : HInt} {a b : ApInt}
    (ho : Owns h F x a) (hy : Sees h y b) :
    Sim (x.strictAssign y) h (a.strictAssign b) (Left F) := by
  unfold HInt.strictAssign
  rw [ho.sees.len, hy.len]
  by_cases hl : a.len = b.len
  · rw [if_neg (not_not.mpr hl), strictAssign_ok ho.shape hy.shape hl]
    obtain ⟨x', h', e, h1, h2⟩ := copy_in_place ho hy (by rw [w_eq hl])
    have hx : { x' with len := b.len } = x' := by
      rw [← hl, ← ho.sees.len, ← h1]
    rw [hx] at h2
    refine ⟨(.ok (), x'), h', ?_, rfl, h2⟩
    have := hm_bind_ok (f := fun self : HInt => (pure (.ok (), self) : HM (Res Unit × HInt))) e
    simp only [bind_assoc] at this
    exact this
  · rw [if_pos hl, strictAssign_err hl]
    exact ⟨_, h, rfl, rfl, ho⟩

/-! ## Width changes -/

theorem truncateAux_sim (A : Growth) (fuel : Nat) : ∀ {h : Heap} {F : List (Nat × Block)}
    {x : HInt} {a : ApInt} {t : BitWidth}, Owns h F x a → a.WF →
    Sim (HInt.truncateAux A fuel x t) h (ApInt.truncateAux fuel a t) (Left F) := by
  induction fuel with
  | zero => intros; rfl
  | succ fuel ih =>
    intro h F x a t ho ha
    unfold HInt.truncateAux ApInt.truncateAux
    refine Sim.ite (by rw [ho.sees.len]; rfl) (fun _ => ⟨_, h, rfl, rfl, ho⟩) fun h1 => ?_
    refine Sim.ite (by rw [ho.sees.len]; rfl) (fun _ => ⟨(.error (.truncationBitWidthTooLarge t x.len), x), h, rfl,
      by rw [ho.sees.len]; rfl, ho⟩) fun h2 => ?_
    have hlt : t.toUsize < a.w := by
      have : t.toUsize ≠ a.w := fun hc => h1 (BitWidth.ext hc)
      have : a.w = a.len.toUsize := rfl
      have : ¬ t.toUsize > a.len.toUsize := h2
      omega
    refine Sim.ite (by rw [ho.sees.len]; rfl) (fun h3 => ?_) fun h3 => ?_
    · refine inPlace_sim ho ?_
      intro r c e
      have h3 : a.len.requiredDigits = t.requiredDigits := h3
      rw [BitWidth.requiredDigits_eq, BitWidth.requiredDigits_eq] at h3
      obtain ⟨c', e', h4, h5, _⟩ := truncateSameDigits_ok ha.1 hlt h3
      rw [e'] at e
      cases e
      refine ⟨h4.1, ?_⟩
      show _ = (c.len.toUsize + 63) / 64
      rw [h5]; exact h3
    refine Sim.step ho.sees.slice ?_
    rw [asDigitSlice_ok ho.shape, run_bind_ok]
    have hp := t.pos
    have hne : a.digits.take t.requiredDigits ≠ [] := by
      intro hc
      have := congrArg List.length hc
      rw [List.length_take, ho.shape.length_digits, BitWidth.requiredDigits_eq] at this
      simp only [List.length_nil] at this
      omega
    obtain ⟨c, ec, hcw, _⟩ := fromIter_ok hne
    have hf := fromIter_sim A ho.sep (a.digits.take t.requiredDigits)
    rw [ec] at hf ⊢
    obtain ⟨v, h', e, hb⟩ := hf
    match v, hb with
    | .ok y, hy =>
      have hy : Owns h' (cell x a ++ F) y c := hy
      refine Sim.step e (Sim.step (v := y) (h' := h') rfl ?_)
      refine Sim.ite (by rw [hy.sees.len]; rfl) (fun h4 => ?_) fun h4 => ?_
      · refine Sim.bind (ih hy hcw) ?_
        rintro ⟨r, y'⟩ ⟨r', c'⟩ h'' ⟨h5, h6⟩
        simp only at h5 h6
        subst h5
        cases r with
        | error e =>
          obtain ⟨h3', e3, hs3⟩ := drop_ok h6
          exact Sim.step e3 ⟨_, _, rfl, rfl, ⟨ho.shape, ho.mat, hs3⟩⟩
        | ok u =>
          obtain ⟨h3', e3, hs3⟩ := replace_ok h6 ho.shape ho.mat
          exact Sim.step e3 ⟨_, _, rfl, rfl, hs3⟩
      · obtain ⟨h3', e3, hs3⟩ := replace_ok hy ho.shape ho.mat
        exact Sim.step e3 ⟨_, _, rfl, rfl, hs3⟩

theorem truncate_sim (A : Growth) {h : Heap} {F : List (Nat × Block)} {x : HInt} {a : ApInt}
    (ho : Owns h F x a) (ha : a.WF) (t : BitWidth) :
    Sim (x.truncate A t) h (a.truncate t) (Left F) := truncateAux_sim A 2 ho ha

theorem tryForward_sim {h : Heap} {F : List (Nat × Block)} {x : HInt}
    {op : HInt → HM (Res Unit × HInt)} {r : Run (Res Unit × ApInt)}
    (hs : Sim (op x) h r (Left F)) :
    Sim (x.tryForward op) h (do
      let (r, this) ← r
      match r with
      | .error e => .ok (.error e)
      | .ok () => .ok (.ok this)) (Born F) := by
  unfold HInt.tryForward
  refine Sim.bind hs ?_
  rintro ⟨r, y'⟩ ⟨r', c'⟩ h'' ⟨h5, h6⟩
  simp only at h5 h6
  subst h5
  cases r with
  | error e =>
    obtain ⟨h3', e3, hs3⟩ := drop_ok h6
    exact Sim.step e3 ⟨_, _, rfl, rfl, hs3⟩
  | ok u => exact ⟨_, _, rfl, h6⟩

theorem fromIterTruncated_sim (A : Growth) {h : Heap} {F : List (Nat × Block)} (hs : Sep h F)
    {ds : List Digit} (hne : ds ≠ []) (t : BitWidth) :
    Sim (HInt.fromIterTruncated A ds t) h (do
      match ← ApInt.fromIter ds with
      | .error e => .ok (.error e)
      | .ok c => c.intoTruncate t) (Born F) := by
  obtain ⟨c, ec, hcw, _⟩ := fromIter_ok hne
  unfold HInt.fromIterTruncated
  have hf := fromIter_sim A hs ds
  rw [ec] at hf ⊢
  obtain ⟨v, h', e, hb⟩ := hf
  match v, hb with
  | .ok y, hy =>
    have hy : Owns h' F y c := hy
    exact Sim.step e (tryForward_sim (truncate_sim A hy hcw t))

omit [Allocator] in
theorem required_lt {a : ApInt} {t : BitWidth} (h : ¬ t.toUsize < a.len.toUsize)
    (h' : ¬ a.len.requiredDigits = t.requiredDigits) : a.len.requiredDigits < t.requiredDigits := by
  rw [BitWidth.requiredDigits_eq, BitWidth.requiredDigits_eq] at *
  omega

theorem zeroExtend_sim (A : Growth) {h : Heap} {F : List (Nat × Block)} {x : HInt} {a : ApInt}
    (ho : Owns h F x a) (t : BitWidth) :
    Sim (x.zeroExtend A t) h (a.zeroExtend t) (Left F) := by
  unfold HInt.zeroExtend ApInt.zeroExtend
  refine Sim.ite (by rw [ho.sees.len]; rfl) (fun _ => ⟨_, h, rfl, rfl, ho⟩) fun h1 => ?_
  refine Sim.ite (by rw [ho.sees.len]; rfl) (fun _ => ⟨(.error (.extensionBitWidthTooSmall t x.len),
    x), h, rfl, by rw [ho.sees.len]; rfl, ho⟩) fun h2 => ?_
  refine Sim.ite (by rw [ho.sees.len]; rfl) (fun h3 => ?_) fun h3 => ?_
  · refine ⟨_, h, rfl, rfl, ?_⟩
    have h3 : a.len.requiredDigits = t.requiredDigits := h3
    rw [BitWidth.requiredDigits_eq, BitWidth.requiredDigits_eq] at h3
    exact ⟨(ho.shape.setLen h3).1, ⟨rfl, ho.mat.2⟩, ho.sep⟩
  have h4 := required_lt h2 h3
  rw [if_neg (fun hc => hc h4), ho.sees.len,
    show a.width.requiredDigits = a.len.requiredDigits from rfl, csub_ok (Nat.le_of_lt h4)]
  refine Sim.step (v := t.requiredDigits - a.len.requiredDigits) (h' := h) rfl ?_
  refine Sim.step ho.sees.slice ?_
  rw [run_bind_ok, asDigitSlice_ok ho.shape, run_bind_ok]
  have hne : a.digits ++ List.replicate (t.requiredDigits - a.len.requiredDigits) Digit.ZERO ≠ [] := by
    intro hc
    have := congrArg List.length hc
    rw [List.length_append, List.length_replicate] at this
    simp only [List.length_nil] at this
    omega
  have hf := fromIterTruncated_sim A ho.sep hne t
  obtain ⟨c, ec, hcw, _⟩ := fromIter_ok hne
  rw [ec] at hf ⊢
  simp only [run_bind_ok] at hf ⊢
  refine Sim.bind hf ?_
  intro v b h' hb
  match v, b, hb with
  | .error e, .error e', ⟨he, hs⟩ =>
    subst he
    exact ⟨_, _, rfl, rfl, ⟨ho.shape, ho.mat, hs⟩⟩
  | .ok y, .ok c, hy =>
    have hy : Owns h' (cell x a ++ F) y c := hy
    obtain ⟨h3, e3, ho3⟩ := replace_ok hy ho.shape ho.mat
    exact Sim.step e3 ⟨_, _, rfl, rfl, ho3⟩

theorem clear_sim {h : Heap} {F : List (Nat × Block)} {x : HInt} {a c : ApInt}
    (ho : Owns h F x a) (e : a.clearUnusedBits = .ok c) :
    ∃ x' h', (x.inPlace fun a => do
      let a ← a.clearUnusedBits
      pure ((), a)) h = .ok (((), x'), h') ∧ Owns h' F x' c := by
  obtain ⟨c', e', h1, h2, _⟩ := clearUnusedBits_ok ho.shape
  rw [e] at e'
  cases e'
  have hin := inPlace_sim ho (f := fun a => do
    let a ← a.clearUnusedBits
    pure ((), a)) (by
      intro r c' e'
      simp only [e, run_bind_ok, run_pure] at e'
      cases e'
      exact ⟨h1.1, by rw [w_eq h2]⟩)
  simp only [e, run_bind_ok, run_pure] at hin
  obtain ⟨⟨u, y'⟩, h3, ey', hu, ho3⟩ := hin
  exact ⟨y', h3, ey', ho3⟩

theorem msd_sim {h : Heap} {F : List (Nat × Block)} {x : HInt} {a c : ApInt} {n : BitWidth}
    (ho : Owns h F x a) (e : a.signExtendMsd n = .ok (.ok (), c)) (hc : c.Shape)
    (hl : c.len = a.len) :
    ∃ x' h', (x.inPlace fun a => a.signExtendMsd n) h = .ok ((.ok (), x'), h') ∧ Owns h' F x' c := by
  have hin := inPlace_sim ho (f := fun a => a.signExtendMsd n) (by
      intro r c' e'
      rw [e] at e'
      cases e'
      exact ⟨hc, by rw [w_eq hl]⟩)
  rw [e] at hin
  obtain ⟨⟨r, y'⟩, h3, ey', hu, ho3⟩ := hin
  simp only at hu
  subst hu
  exact ⟨y', h3, ey', ho3⟩

theorem signExtend_sim (A : Growth) {h : Heap} {F : List (Nat × Block)} {x : HInt} {a : ApInt}
    (ho : Owns h F x a) (ha : a.WF) (t : BitWidth) :
    Sim (x.signExtend A t) h (a.signExtend t) (Left F) := by
  unfold HInt.signExtend ApInt.signExtend
  refine Sim.ite (by rw [ho.sees.len]; rfl) (fun _ => ⟨_, h, rfl, rfl, ho⟩) fun h1 => ?_
  refine Sim.ite (by rw [ho.sees.len]; rfl) (fun _ => ⟨(.error (.extensionBitWidthTooSmall t x.len),
    x), h, rfl, by rw [ho.sees.len]; rfl, ho⟩) fun h2 => ?_
  refine Sim.step ho.sees.load ?_
  rw [ha.msb_eq, run_bind_ok]
  refine Sim.step (v := decide (2 ^ (a.w - 1) ≤ a.uval)) (h' := h) rfl ?_
  refine Sim.ite Iff.rfl (fun _ => zeroExtend_sim A ho t) fun hneg => ?_
  have hneg : 2 ^ (a.w - 1) ≤ a.uval := by simpa using hneg
  refine Sim.ite (by rw [ho.sees.len]; rfl) (fun h3 => ?_) fun h3 => ?_
  · have h3 : a.len.requiredDigits = t.requiredDigits := h3
    rw [BitWidth.requiredDigits_eq, BitWidth.requiredDigits_eq] at h3
    obtain ⟨h7, h8⟩ := ho.shape.setLen h3
    have hv : uval { a with len := t } = a.uval := by unfold uval; rw [h8]
    have ho' : Owns h F { x with len := t } { a with len := t } := ⟨h7, ⟨rfl, ho.mat.2⟩, ho.sep⟩
    obtain ⟨s, e1, hs1, hs2, _⟩ := signExtendMsd_ok (a := { a with len := t }) (n := a.len) h7
      (by rw [hv]; exact ha.2) h3.symm (by rw [hv]; exact hneg)
    obtain ⟨y, h', ey, hy⟩ := msd_sim ho' e1 hs1 hs2
    obtain ⟨s', es, _⟩ := clearUnusedBits_ok hs1
    obtain ⟨y', h'', ey', hy'⟩ := clear_sim hy es
    rw [ho.sees.len]
    refine Sim.step ey ?_
    simp only [show a.width = a.len from rfl, e1, run_bind_ok, es]
    exact Sim.step ey' ⟨_, _, rfl, rfl, hy'⟩
  have h4 := required_lt h2 h3
  rw [if_neg (fun hc => hc h4), ho.sees.len,
    show a.width.requiredDigits = a.len.requiredDigits from rfl, csub_ok (Nat.le_of_lt h4)]
  refine Sim.step (v := t.requiredDigits - a.len.requiredDigits) (h' := h) rfl ?_
  rw [run_bind_ok]
  obtain ⟨s, e1, hs1, hs2, _⟩ := signExtendMsd_ok (a := a) (n := a.len) ha.1 ha.2 rfl hneg
  obtain ⟨y, h', ey, ho'⟩ := msd_sim ho e1 hs1 hs2
  refine Sim.step ey ?_
  rw [show a.width = a.len from rfl, e1]
  simp only [run_bind_ok]
  refine Sim.step ho'.sees.slice ?_
  rw [asDigitSlice_ok hs1, run_bind_ok]
  have hne : s.digits ++ List.replicate (t.requiredDigits - a.len.requiredDigits) Digit.ONES ≠ [] := by
    intro hc
    have := congrArg List.length hc
    rw [List.length_append, List.length_replicate] at this
    simp only [List.length_nil] at this
    omega
  have hf := fromIterTruncated_sim A ho'.sep hne t
  obtain ⟨c, ec, hcw, _⟩ := fromIter_ok hne
  rw [ec] at hf ⊢
  simp only [run_bind_ok] at hf ⊢
  refine Sim.bind hf ?_
  intro v b h'' hb
  match v, b, hb with
  | .error e, .error e', ⟨he, hs⟩ =>
    subst he
    exact ⟨_, _, rfl, rfl, ⟨ho'.shape, ho'.mat, hs⟩⟩
  | .ok z, .ok c, hy =>
    have hy : Owns h'' (cell y s ++ F) z c := hy
    obtain ⟨s', es, hs3, hs4, _⟩ := clearUnusedBits_ok hs1
    obtain ⟨y', h3, ey', ho3⟩ := clear_sim (hy.swap ho'.shape ho'.mat) es
    simp only [es, run_bind_ok]
    refine Sim.step ey' ?_
    obtain ⟨h4, e4, ho4⟩ := replace_ok (ho3.swap hy.shape hy.mat) ho3.shape ho3.mat
    exact Sim.step e4 ⟨_, _, rfl, rfl, ho4⟩

end Verif
