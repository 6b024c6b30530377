import Verif.Proof.HeapProgram
import Verif.SpecHeap

/-!
# Calls that make no request to the allocator

`m.Calm Q`: whatever the memory answers, `m` never allocates or frees, and `Q` holds of its result.
-/

namespace Verif

open ApInt

def HM.Calm {α : Type} : HM α → (α → Prop) → Prop
  | .ret a, Q => Q a
  | .fault _, _ => True
  | .alloc _ _ _, _ => False
  | .get _ k, Q => ∀ b, (k b).Calm Q
  | .write _ _ k, Q => k.Calm Q
  | .free _ _ _, _ => False

namespace HM

variable {α β : Type}

theorem Calm.mono {m : HM α} {P Q : α → Prop} (h : m.Calm P) (hq : ∀ a, P a → Q a) : m.Calm Q := by
  induction m with
  | ret a => exact hq a h
  | fault f => trivial
  | alloc cap ds k ih => exact h
  | get p k ih => exact fun b => ih b (h b)
  | write p ds k ih => exact ih h
  | free p cap k ih => exact h

theorem Calm.bind {m : HM α} {f : α → HM β} {P : α → Prop} {Q : β → Prop} (h : m.Calm P)
    (hf : ∀ a, P a → (f a).Calm Q) : (m >>= f).Calm Q := by
  show (HM.bind m f).Calm Q
  induction m with
  | ret a => exact hf a h
  | fault f => trivial
  | alloc cap ds k ih => exact h.elim
  | get p k ih => exact fun b => ih b (h b)
  | write p ds k ih => exact ih h
  | free p cap k ih => exact h.elim

theorem Calm.pure {a : α} {Q : α → Prop} (h : Q a) : (Pure.pure a : HM α).Calm Q := h

theorem Calm.lift (r : Run α) {Q : α → Prop} (h : ∀ a, r = .ok a → Q a) : (liftR r).Calm Q := by
  cases r with
  | ok a => exact h a rfl
  | error f => trivial

theorem Calm.ite {c : Prop} [Decidable c] {m m' : HM α} {Q : α → Prop}
    (h1 : c → m.Calm Q) (h2 : ¬ c → m'.Calm Q) : (if c then m else m').Calm Q := by
  by_cases hc : c
  · rw [if_pos hc]; exact h1 hc
  · rw [if_neg hc]; exact h2 hc

/-- Running it leaves the requests as they were, and the same buffers live. -/
theorem Calm.run [Allocator] {m : HM α} {Q : α → Prop} (h : m.Calm Q) {s s' : Heap} {a : α}
    (e : m s = .ok (a, s')) :
    Q a ∧ s'.log = s.log ∧ s'.cells.map Prod.fst = s.cells.map Prod.fst := by
  induction m generalizing s with
  | ret a => cases e; exact ⟨h, rfl, rfl⟩
  | fault f => cases e
  | alloc cap ds k ih => exact h.elim
  | free p cap k ih => exact h.elim
  | get p k ih =>
    unfold HM.run at e
    split at e
    · exact ih _ (h _) e
    · cases e
  | write p ds k ih =>
    unfold HM.run at e
    split at e
    · split at e
      · obtain ⟨h1, h2, h3⟩ := ih h e
        refine ⟨h1, h2, h3.trans ?_⟩
        simp only [List.map_map]
        refine List.map_congr_left fun c _ => ?_
        simp only [Function.comp]
        split <;> rfl
      · cases e
    · cases e

end HM

open HM

/-- Integers with inline storage have no buffer. -/
def HInt.Tame (x : HInt) : Prop := x.storage = .inl → x.buf = none

theorem storage_digits {s t : BitWidth} (h : s.requiredDigits = t.requiredDigits) :
    s.storage = t.storage := by
  have key : ∀ u : BitWidth, u.storage = .inl ↔ u.requiredDigits ≤ 1 := by
    intro u
    rw [BitWidth.requiredDigits_eq]
    have := u.pos
    have h2 : u.storage = .inl ↔ u.toUsize ≤ 64 := by
      unfold BitWidth.storage
      split <;> simp <;> omega
    rw [h2]
    omega
  have hs := key s
  have ht := key t
  rw [h] at hs
  cases e : s.storage <;> cases e' : t.storage
  · rfl
  · rw [e] at hs; rw [e'] at ht; exact absurd (ht.mpr (hs.mp rfl)) nofun
  · rw [e] at hs; rw [e'] at ht; exact absurd (hs.mpr (ht.mp rfl)) nofun
  · rfl

theorem asDigitSlice_calm (x : HInt) : x.asDigitSlice.Calm (fun _ => x.Tame) := by
  obtain ⟨w, d⟩ := x
  unfold HInt.asDigitSlice HInt.Tame
  split
  · cases d with
    | inl d => exact fun _ => rfl
    | ext p => trivial
  · rename_i hs
    have ht : (⟨w, d⟩ : HInt).storage = .inl → (⟨w, d⟩ : HInt).buf = none := fun h => by
      rw [hs] at h; cases h
    cases d with
    | inl d => trivial
    | ext p => exact fun b => Calm.ite (fun _ => ht) fun _ => trivial

theorem load_calm (x : HInt) : x.load.Calm (fun _ => x.Tame) := by
  unfold HInt.load
  split
  · obtain ⟨w, d⟩ := x
    cases d with
    | inl d => exact fun _ => rfl
    | ext p => trivial
  · exact (asDigitSlice_calm x).bind fun _ h => .pure h

theorem writeDigitSlice_calm {x : HInt} (hx : x.Tame) (ds : List Digit) :
    (x.writeDigitSlice ds).Calm (fun y => y.len = x.len ∧ y.buf = x.buf) := by
  unfold HInt.writeDigitSlice
  split
  · rename_i hs
    split
    · exact ⟨rfl, (hx hs).symm⟩
    · trivial
  · obtain ⟨w, d⟩ := x
    cases d with
    | inl d => trivial
    | ext p => exact ⟨rfl, rfl⟩

theorem store_calm {x : HInt} (hx : x.Tame) (a : ApInt) :
    (x.store a).Calm (fun y => y.len = a.len ∧ y.buf = x.buf) := by
  unfold HInt.store
  exact (writeDigitSlice_calm hx _).bind fun y h => .pure ⟨rfl, h.2⟩

theorem inPlace_calm {α : Type} (x : HInt) (f : ApInt → Run (α × ApInt)) :
    (x.inPlace f).Calm (fun r => r.2.buf = x.buf ∧ ∃ a a', a.len = x.len ∧ f a = .ok (r.1, a') ∧ r.2.len = a'.len) := by
  unfold HInt.inPlace
  have hl : x.load.Calm (fun a => x.Tame ∧ a.len = x.len) := by
    unfold HInt.load
    split
    · obtain ⟨w, d⟩ := x
      cases d with
      | inl d => exact ⟨fun _ => rfl, rfl⟩
      | ext p => trivial
    · exact (asDigitSlice_calm x).bind fun _ h => .pure ⟨h, rfl⟩
  refine hl.bind fun a ⟨ht, hal⟩ => ?_
  refine Calm.bind (P := fun v => f a = .ok v) (Calm.lift _ fun v h => h) ?_
  rintro ⟨r, a'⟩ hf
  exact (store_calm ht a').bind fun y h => .pure ⟨h.2, a, a', hal, hf, h.1⟩

theorem inPlace_calm' {α : Type} (x : HInt) (f : ApInt → Run (α × ApInt)) :
    (x.inPlace f).Calm (fun r => r.2.buf = x.buf) := (inPlace_calm x f).mono fun _ h => h.1

/-! ## Casts that stay within the same number of digits -/

theorem truncate_calm (A : Growth) {x : HInt} {t : BitWidth}
    (h : x.len.requiredDigits = t.requiredDigits ∨ x.len.toUsize < t.toUsize) :
    (x.truncate A t).Calm (fun r => r.2.buf = x.buf) := by
  unfold HInt.truncate HInt.truncateAux
  refine .ite (fun _ => .pure rfl) fun _ => .ite (fun _ => .pure rfl) fun h1 => ?_
  rw [if_pos (h.resolve_right h1)]
  exact inPlace_calm' _ _

theorem zeroExtend_calm (A : Growth) {x : HInt} {t : BitWidth}
    (h : x.len.requiredDigits = t.requiredDigits ∨ t.toUsize < x.len.toUsize) :
    (x.zeroExtend A t).Calm (fun r => r.2.buf = x.buf) := by
  unfold HInt.zeroExtend
  refine .ite (fun _ => .pure rfl) fun _ => .ite (fun _ => .pure rfl) fun h1 => ?_
  rw [if_pos (h.resolve_right h1)]
  exact .pure rfl

theorem signExtend_calm (A : Growth) {x : HInt} {t : BitWidth}
    (h : x.len.requiredDigits = t.requiredDigits ∨ t.toUsize < x.len.toUsize) :
    (x.signExtend A t).Calm (fun r => r.2.buf = x.buf) := by
  unfold HInt.signExtend
  refine .ite (fun _ => .pure rfl) fun _ => .ite (fun _ => .pure rfl) fun h1 => ?_
  refine (load_calm x).bind fun a _ => ?_
  refine Calm.bind (P := fun _ => True) (Calm.lift _ fun _ _ => trivial) fun m _ => ?_
  refine .ite (fun _ => zeroExtend_calm A h) fun _ => ?_
  rw [if_pos (h.resolve_right h1)]
  refine (inPlace_calm' _ _).bind ?_
  rintro ⟨r, y⟩ hy
  cases r with
  | error e => exact .pure hy
  | ok u =>
    refine (inPlace_calm' _ _).bind ?_
    rintro ⟨u, z⟩ hz
    exact .pure (hz.trans hy)

theorem expectDone_calm {m : HM (Res Unit × HInt)} {b : Option Nat}
    (h : m.Calm (fun r => r.2.buf = b)) : (HInt.expectDone m).Calm (fun r => r.2.buf = b) := by
  unfold HInt.expectDone
  refine h.bind ?_
  rintro ⟨r, y⟩ hy
  refine Calm.bind (P := fun _ => True) (Calm.lift _ fun _ _ => trivial) fun _ _ => .pure hy

/-- In place: the result has the same number of digits as before, or the call reports an error. -/
theorem un_calm (A : Growth) (o : Un) {x : HInt} {a : ApInt} (hl : x.len = a.len)
    (h : ∀ z, o.spec a.abs = .ok z → (z.width + 63) / 64 = (x.len.toUsize + 63) / 64) :
    (o.hexec A x).Calm (fun r => r.2.buf = x.buf) := by
  have hw : a.abs.width = x.len.toUsize := by rw [hl]; rfl
  cases o with
  | truncate t =>
    refine truncate_calm A ?_
    rw [BitWidth.requiredDigits_eq, BitWidth.requiredDigits_eq]
    by_cases ht : t.toUsize ≤ a.abs.width
    · exact .inl (h _ (if_pos ht)).symm
    · exact .inr (by omega)
  | zeroExtend t =>
    refine zeroExtend_calm A ?_
    rw [BitWidth.requiredDigits_eq, BitWidth.requiredDigits_eq]
    by_cases ht : a.abs.width ≤ t.toUsize
    · exact .inl (h _ (if_pos ht)).symm
    · exact .inr (by omega)
  | signExtend t =>
    refine signExtend_calm A ?_
    rw [BitWidth.requiredDigits_eq, BitWidth.requiredDigits_eq]
    by_cases ht : a.abs.width ≤ t.toUsize
    · exact .inl (h _ (if_pos ht)).symm
    · exact .inr (by omega)
  | zeroResize t =>
    have := (h _ rfl).symm
    show (HInt.zeroResize A x t).Calm _
    unfold HInt.zeroResize
    have hr : x.len.requiredDigits = t.requiredDigits := by
      rw [BitWidth.requiredDigits_eq, BitWidth.requiredDigits_eq]; exact this
    exact .ite (fun _ => expectDone_calm (truncate_calm A (.inl hr)))
      fun _ => expectDone_calm (zeroExtend_calm A (.inl hr))
  | signResize t =>
    have := (h _ rfl).symm
    show (HInt.signResize A x t).Calm _
    unfold HInt.signResize
    have hr : x.len.requiredDigits = t.requiredDigits := by
      rw [BitWidth.requiredDigits_eq, BitWidth.requiredDigits_eq]; exact this
    exact .ite (fun _ => expectDone_calm (truncate_calm A (.inl hr)))
      fun _ => expectDone_calm (signExtend_calm A (.inl hr))
  | bitnot => exact inPlace_calm' _ _
  | neg => exact inPlace_calm' _ _
  | inc => exact inPlace_calm' _ _
  | dec => exact inPlace_calm' _ _
  | shl s => exact inPlace_calm' _ _
  | lshr s => exact inPlace_calm' _ _
  | ashr s => exact inPlace_calm' _ _

theorem assign_calm (A : Growth) {x y : HInt} (h : x.lenDigits = y.lenDigits) :
    (x.assign A y).Calm (fun r => r.buf = x.buf) := by
  unfold HInt.assign
  rw [if_pos h]
  refine (asDigitSlice_calm x).bind fun ds ht => (asDigitSlice_calm y).bind fun ds' _ => ?_
  refine Calm.bind (P := fun _ => True) (Calm.lift _ fun _ _ => trivial) fun _ _ => ?_
  exact (writeDigitSlice_calm ht _).bind fun z hz => .pure hz.2

theorem strictAssign_calm (x y : HInt) :
    (x.strictAssign y).Calm (fun r => r.2.buf = x.buf) := by
  unfold HInt.strictAssign
  refine .ite (fun _ => .pure rfl) fun _ => ?_
  refine (asDigitSlice_calm x).bind fun ds ht => (asDigitSlice_calm y).bind fun ds' _ => ?_
  refine Calm.bind (P := fun _ => True) (Calm.lift _ fun _ _ => trivial) fun _ _ => ?_
  exact (writeDigitSlice_calm ht _).bind fun z hz => .pure hz.2

/-! ## The bank -/

/-- The addresses of the buffers of a bank. -/
def bufs (b : HBank) : List (Option Nat) := b.map HInt.buf

theorem bufs_set {b : HBank} {x : Nat} {a y : HInt} (hx : b[x]? = some a) (h : y.buf = a.buf) :
    bufs (b.set x y) = bufs b := by
  unfold bufs
  rw [List.map_set, h]
  exact set_self (by rw [List.getElem?_map, hx]; rfl)

theorem hstore_calm {b : HBank} {x : Nat} {a : HInt} (hx : b[x]? = some a)
    {m : HM (Res Unit × HInt)} (h : m.Calm (fun r => r.2.buf = a.buf)) :
    (hstore b x m).Calm (fun r => bufs r.2 = bufs b) := by
  unfold hstore
  refine h.bind ?_
  rintro ⟨e, y⟩ hy
  exact .pure (bufs_set hx hy)

/-- A call that lends integers and does not change their number of digits is calm. -/
theorem borrows_calm (A : Growth) {i : Instr} (hi : i.borrows) {xs : HBank} {bs : Bank}
    (hm : List.Forall₂ Match xs bs)
    (hun : ∀ o x a, i = .un o x → xs[x]? = some a → ∀ z, ∀ a', bs[x]? = some a' →
      o.spec a'.abs = .ok z → (z.width + 63) / 64 = (a.len.toUsize + 63) / 64)
    (has : ∀ x y a c, i = .assign x y → xs[x]? = some a → xs[y]? = some c →
      a.lenDigits = c.lenDigits) :
    (i.hexec A xs).Calm (fun r => bufs r.2 = bufs xs) := by
  have one : ∀ (i : Nat) {f : HInt → HM (Res Out × HBank)},
      (∀ x, xs[i]? = some x → (f x).Calm (fun r => bufs r.2 = bufs xs)) →
      HM.Calm (match xs[i]? with | some a => f a | none => pure (.ok .unit, xs))
        (fun r => bufs r.2 = bufs xs) := by
    intro i f hf
    cases hi : xs[i]? with
    | none => exact .pure rfl
    | some a => exact hf a hi
  have two : ∀ (i j : Nat) {f : HInt → HInt → HM (Res Out × HBank)},
      (∀ x y, xs[i]? = some x → xs[j]? = some y → (f x y).Calm (fun r => bufs r.2 = bufs xs)) →
      HM.Calm (match xs[i]?, xs[j]? with | some a, some c => f a c | _, _ => pure (.ok .unit, xs))
        (fun r => bufs r.2 = bufs xs) := by
    intro i j f hf
    cases hi : xs[i]? with
    | none => exact .pure rfl
    | some a =>
      cases hj : xs[j]? with
      | none => exact .pure rfl
      | some c => exact hf a c hi hj
  cases i with
  | make m => exact hi.elim
  | clone x => exact hi.elim
  | drop x => exact hi.elim
  | intoUn o x => exact hi.elim
  | intoBin o x y => exact hi.elim
  | op o x y => exact hi.elim
  | opShl s x => exact hi.elim
  | assign x y =>
    refine two x y fun a c ha hc => hstore_calm ha ?_
    exact (assign_calm A (has x y a c rfl ha hc)).bind fun z hz => .pure hz
  | strictAssign x y => exact two x y fun a c ha hc => hstore_calm ha (strictAssign_calm a c)
  | un o x =>
    refine one x fun a ha => hstore_calm ha ?_
    cases hb : bs[x]? with
    | none => rw [forall₂_none hm hb] at ha; cases ha
    | some a' =>
      obtain ⟨y, hy, hm'⟩ := forall₂_get hm hb
      rw [ha] at hy
      cases hy
      exact un_calm A o hm'.1 fun z hz => hun o x a rfl ha z a' hb hz
  | alter o x => exact one x fun a ha => hstore_calm ha (inPlace_calm' _ _)
  | bin o x y =>
    refine two x y fun a c ha hc => hstore_calm ha ?_
    exact (load_calm c).bind fun _ _ => inPlace_calm' _ _
  | opAssign o x y =>
    refine two x y fun a c ha hc => hstore_calm ha ?_
    exact (load_calm c).bind fun _ _ => inPlace_calm' _ _
  | opShlAssign s x => exact one x fun a ha => hstore_calm ha (inPlace_calm' _ _)
  | pair o x y =>
    refine two x y fun a c ha hc => ?_
    refine (load_calm a).bind fun a' ht => (load_calm c).bind fun c' ht' => ?_
    refine Calm.bind (P := fun _ => True) (Calm.lift _ fun _ _ => trivial) ?_
    rintro ⟨e, a', c'⟩ _
    refine (store_calm ht a').bind fun z hz => ?_
    have hb := bufs_set ha hz.2
    have hd : (List.set xs x z)[y]? = some c := by rw [List.getElem?_set_ne hi, hc]
    show HM.Calm (match (List.set xs x z)[y]? with
      | some c => do
        let c ← c.store c'
        pure (Except.map (fun x => Out.unit) e, (List.set xs x z).set y c)
      | none => pure (Except.map (fun x => Out.unit) e, List.set xs x z)) _
    rw [hd]
    exact (store_calm ht' c').bind fun z' hz' => .pure ((bufs_set hd hz'.2).trans hb)
  | ask q x =>
    refine one x fun a ha => (load_calm a).bind fun _ _ => ?_
    exact Calm.bind (P := fun _ => True) (Calm.lift _ fun _ _ => trivial) fun _ _ => .pure rfl
  | ask2 q x y =>
    refine two x y fun a c ha hc => (load_calm a).bind fun _ _ => (load_calm c).bind fun _ _ => ?_
    exact Calm.bind (P := fun _ => True) (Calm.lift _ fun _ _ => trivial) fun _ _ => .pure rfl

/-! ## Integers of at most 64 bits -/

theorem small_storage {t : BitWidth} (h : t.toUsize ≤ 64) : t.storage = .inl :=
  Shape.storage_inl (a := ⟨t, .inl 0⟩) h

theorem small_digits {t : BitWidth} (h : t.toUsize ≤ 64) : t.requiredDigits = 1 := by
  rw [BitWidth.requiredDigits_eq]
  have := t.pos
  omega

theorem small_cases {x : HInt} {a : ApInt} (hm : Match x a) (ha : a.WF) (h : x.len.toUsize ≤ 64) :
    ∃ d, x = ⟨a.len, .inl d⟩ ∧ a = ⟨a.len, .inl d⟩ := by
  obtain ⟨xl, xd⟩ := x
  obtain ⟨al, ad⟩ := a
  obtain ⟨rfl, hm⟩ := hm
  have hs := ha.1
  cases xd with
  | inl d =>
    cases ad with
    | inl d' => cases (hm : d = d'); exact ⟨d, rfl, rfl⟩
    | ext ds => exact hm.elim
  | ext p =>
    cases ad with
    | inl d' => exact hm.elim
    | ext ds => exact absurd (show 64 < xl.toUsize from hs.1) (by simp only at h; omega)

theorem newInl_calm (t : BitWidth) (d : Digit) :
    (HInt.newInl t d).Calm (fun y => y = ⟨t, .inl d⟩) := by
  unfold HInt.newInl
  exact .ite (fun _ => .pure rfl) fun _ => trivial

theorem fromIter_calm {A : Growth} (hA : A.Snug) {ds : List Digit} (h : ds.length ≤ 1) :
    (HInt.fromIter A ds).Calm (fun r => ∀ y, r = .ok y → ∃ d, y = ⟨BitWidth.w64, .inl d⟩) := by
  unfold HInt.fromIter
  refine Calm.bind (P := fun v => v = .inl ds) ?_ ?_
  · unfold SmallVec.collect
    rw [if_pos (hA ds h)]
    exact .pure rfl
  · rintro _ rfl
    match ds, h with
    | [], _ => exact nofun
    | [d], _ =>
      refine (newInl_calm _ d).bind fun y hy => ?_
      exact fun z hz => by cases hz; exact ⟨d, hy⟩

theorem run_bind {α β : Type} {m : Run α} {f : α → Run β} {v : β} (h : (m >>= f) = .ok v) :
    ∃ a, m = .ok a ∧ f a = .ok v := by
  cases m with
  | ok a => exact ⟨a, rfl, h⟩
  | error e => cases h

theorem setMsd_len {a c : ApInt} {d : Digit} (h : a.setMostSignificantDigit d = .ok c) :
    c.len = a.len := by
  obtain ⟨v, _, h⟩ := run_bind h
  split at h
  · cases h; rfl
  · split at h
    · cases h
    · cases h; rfl

theorem truncateSameDigits_len {a c : ApInt} {t : BitWidth} {r : Res Unit}
    (h : a.truncateSameDigits t = .ok (r, c)) : c.len = t := by
  unfold truncateSameDigits at h
  split at h
  · cases h
  · obtain ⟨_, _, h⟩ := run_bind h
    obtain ⟨_, _, h⟩ := run_bind h
    obtain ⟨_, _, h⟩ := run_bind h
    obtain ⟨_, _, h⟩ := run_bind h
    obtain ⟨_, _, h⟩ := run_bind h
    cases h
    rfl

theorem signExtendMsd_len {a c : ApInt} {t : BitWidth} {r : Res Unit}
    (h : a.signExtendMsd t = .ok (r, c)) : c.len = a.len := by
  unfold signExtendMsd at h
  split at h
  · cases h; rfl
  · obtain ⟨_, _, h⟩ := run_bind h
    obtain ⟨_, _, h⟩ := run_bind h
    obtain ⟨_, e, h⟩ := run_bind h
    cases h
    exact setMsd_len e

/-- When the call reports an error it leaves an integer of at most 64 bits. -/
def SmallErr (r : Res Unit × HInt) : Prop := ∀ e, r.1 = .error e → r.2.len.toUsize ≤ 64

theorem truncate_small (A : Growth) {x : HInt} {t : BitWidth} (hx : x.len.toUsize ≤ 64)
    (ht : t.toUsize ≤ 64 ∨ x.len.toUsize < t.toUsize) : (x.truncate A t).Calm SmallErr := by
  unfold HInt.truncate HInt.truncateAux
  refine .ite (fun _ => .pure nofun) fun _ => .ite (fun _ => .pure fun _ _ => hx) fun h1 => ?_
  have ht := ht.resolve_right h1
  rw [if_pos (by rw [small_digits hx, small_digits ht])]
  refine (inPlace_calm _ _).mono ?_
  rintro ⟨r, y⟩ ⟨_, a, a', hl, hf, hy⟩ e _
  rw [show y.len = a'.len from hy, truncateSameDigits_len hf]
  exact ht

theorem zeroExtend_small (A : Growth) {x : HInt} {t : BitWidth} (hx : x.len.toUsize ≤ 64)
    (ht : t.toUsize ≤ 64) : (x.zeroExtend A t).Calm SmallErr := by
  unfold HInt.zeroExtend
  refine .ite (fun _ => .pure nofun) fun _ => .ite (fun _ => .pure fun _ _ => hx) fun h1 => ?_
  rw [if_pos (by rw [small_digits hx, small_digits ht])]
  exact .pure nofun

theorem signExtend_small (A : Growth) {x : HInt} {t : BitWidth} (hx : x.len.toUsize ≤ 64)
    (ht : t.toUsize ≤ 64) : (x.signExtend A t).Calm SmallErr := by
  unfold HInt.signExtend
  refine .ite (fun _ => .pure nofun) fun _ => .ite (fun _ => .pure fun _ _ => hx) fun h1 => ?_
  refine (load_calm x).bind fun a _ => ?_
  refine Calm.bind (P := fun _ => True) (Calm.lift _ fun _ _ => trivial) fun m _ => ?_
  refine .ite (fun _ => zeroExtend_small A hx ht) fun _ => ?_
  rw [if_pos (by rw [small_digits hx, small_digits ht])]
  refine (inPlace_calm _ _).bind ?_
  rintro ⟨r, y⟩ ⟨_, a, a', hl, hf, hy⟩
  cases r with
  | error e =>
    refine .pure fun _ _ => ?_
    show y.len.toUsize ≤ 64
    rw [show y.len = a'.len from hy, signExtendMsd_len hf, hl]
    exact ht
  | ok u =>
    refine (inPlace_calm' _ _).bind ?_
    rintro ⟨u, z⟩ hz
    exact .pure nofun

theorem expectDone_small {m : HM (Res Unit × HInt)} (h : m.Calm (fun _ => True)) :
    (HInt.expectDone m).Calm SmallErr := by
  unfold HInt.expectDone
  refine h.bind ?_
  rintro ⟨r, y⟩ hy
  refine Calm.bind (P := fun _ => True) (Calm.lift _ fun _ _ => trivial) fun _ _ => .pure nofun

theorem inPlace_small {α : Type} {len : BitWidth} {d : Digit} (h : len.toUsize ≤ 64)
    (f : ApInt → Run (α × ApInt)) :
    (HInt.inPlace ⟨len, .inl d⟩ f).Calm
      (fun r => ∃ a', f ⟨len, .inl d⟩ = .ok (r.1, a') ∧ r.2.len = a'.len) := by
  unfold HInt.inPlace HInt.load
  rw [show (⟨len, .inl d⟩ : HInt).storage = .inl from small_storage h]
  show HM.Calm (liftR (f ⟨len, .inl d⟩) >>= _) _
  refine Calm.bind (P := fun v => f ⟨len, .inl d⟩ = .ok v) (Calm.lift _ fun v h => h) ?_
  rintro ⟨r, a'⟩ hf
  refine (store_calm (x := ⟨len, .inl d⟩) (fun _ => rfl) a').bind fun y h => .pure ⟨a', hf, h.1⟩

theorem inPlace_err {len : BitWidth} {d : Digit} (h : len.toUsize ≤ 64)
    {f : ApInt → Run (Res Unit × ApInt)} {s : Option (Except AErr AInt)}
    (hf : Stored ⟨len, .inl d⟩ (f ⟨len, .inl d⟩) s) :
    (HInt.inPlace ⟨len, .inl d⟩ f).Calm SmallErr := by
  refine (inPlace_small h f).mono ?_
  rintro ⟨r, y⟩ ⟨a', he, hl⟩ e hr
  match s, hf with
  | none, hf => cases he.symm.trans hf
  | some (.error e'), hf =>
    obtain ⟨_, hf, _⟩ := hf
    cases he.symm.trans hf
    rw [hl]
    exact h
  | some (.ok z), hf =>
    obtain ⟨c, hf, _⟩ := hf
    cases he.symm.trans hf
    cases hr

theorem un_small (A : Growth) (o : Un) {len : BitWidth} {d : Digit} (hx : len.toUsize ≤ 64)
    (hw : (⟨len, .inl d⟩ : ApInt).WF)
    (h : ∀ z, o.spec (ApInt.abs ⟨len, .inl d⟩) = .ok z → z.width ≤ 64) :
    (o.hexec A ⟨len, .inl d⟩).Calm SmallErr := by
  have hn := un_stored o hw
  cases o with
  | truncate t =>
    refine truncate_small A hx ?_
    by_cases ht : t.toUsize ≤ len.toUsize
    · exact .inl (h _ (if_pos ht))
    · exact .inr (Nat.lt_of_not_le ht)
  | zeroExtend t =>
    by_cases ht : len.toUsize ≤ t.toUsize
    · exact zeroExtend_small A hx (h _ (if_pos ht))
    · exact zeroExtend_small A hx (by omega)
  | signExtend t =>
    by_cases ht : len.toUsize ≤ t.toUsize
    · exact signExtend_small A hx (h _ (if_pos ht))
    · exact signExtend_small A hx (by omega)
  | zeroResize t =>
    have ht : t.toUsize ≤ 64 := h _ rfl
    show (HInt.zeroResize A _ t).Calm _
    unfold HInt.zeroResize
    exact .ite (fun _ => expectDone_small ((truncate_small A hx (.inl ht)).mono fun _ _ => trivial))
      fun _ => expectDone_small ((zeroExtend_small A hx ht).mono fun _ _ => trivial)
  | signResize t =>
    have ht : t.toUsize ≤ 64 := h _ rfl
    show (HInt.signResize A _ t).Calm _
    unfold HInt.signResize
    exact .ite (fun _ => expectDone_small ((truncate_small A hx (.inl ht)).mono fun _ _ => trivial))
      fun _ => expectDone_small ((signExtend_small A hx ht).mono fun _ _ => trivial)
  | bitnot => exact inPlace_err hx hn
  | neg => exact inPlace_err hx hn
  | inc => exact inPlace_err hx hn
  | dec => exact inPlace_err hx hn
  | shl s => exact inPlace_err hx hn
  | lshr s => exact inPlace_err hx hn
  | ashr s => exact inPlace_err hx hn

theorem drop_small {x : HInt} (h : x.len.toUsize ≤ 64) : x.dropDigits.Calm (fun _ => True) := by
  unfold HInt.dropDigits
  rw [show x.storage = .inl from small_storage h]
  exact .pure trivial

theorem tryForward_small {x : HInt} {op : HInt → HM (Res Unit × HInt)} (h : (op x).Calm SmallErr) :
    (x.tryForward op).Calm (fun _ => True) := by
  unfold HInt.tryForward
  refine h.bind ?_
  rintro ⟨r, y⟩ hy
  cases r with
  | error e => exact (drop_small (hy e rfl)).bind fun _ _ => .pure trivial
  | ok u => exact .pure trivial

theorem clone_small (A : Growth) {len : BitWidth} {d : Digit} (h : len.toUsize ≤ 64) :
    (HInt.clone A ⟨len, .inl d⟩).Calm (fun y => y = ⟨len, .inl d⟩) := by
  unfold HInt.clone
  rw [show (⟨len, .inl d⟩ : HInt).storage = .inl from small_storage h]
  exact newInl_calm len d

theorem ofDigits_small {A : Growth} (hA : A.Snug) {ds : List Digit} (h : ds.length ≤ 1)
    {t : BitWidth} (ht : t.toUsize ≤ 64) : (HInt.ofDigits A ds t).Calm (fun _ => True) := by
  unfold HInt.ofDigits
  refine (fromIter_calm hA h).bind fun r hr => ?_
  refine Calm.bind (P := fun y => ∃ d, y = ⟨BitWidth.w64, .inl d⟩) (Calm.lift _ ?_) ?_
  · intro y hy
    cases r with
    | error e => cases hy
    | ok z => cases hy; exact hr _ rfl
  · rintro _ ⟨d, rfl⟩
    refine (tryForward_small ((truncate_small A (Nat.le_refl 64) (.inl ht)))).bind fun _ _ => ?_
    exact Calm.lift _ fun _ _ => trivial

theorem repeatDigit_small {A : Growth} (hA : A.Snug) {t : BitWidth} (ht : t.toUsize ≤ 64)
    (d : Digit) : (HInt.repeatDigit A t d).Calm (fun _ => True) :=
  ofDigits_small hA (by rw [List.length_replicate, small_digits ht]) ht

theorem hfine_calm {m : HM HInt} (h : m.Calm (fun _ => True)) : (hfine m).Calm (fun _ => True) := by
  unfold hfine
  exact h.bind fun _ _ => .pure trivial

theorem make_small {A : Growth} (hA : A.Snug) (m : Make)
    (h : ∀ z, m.spec = .ok z → z.width ≤ 64) : (m.hexec A).Calm (fun _ => True) := by
  have inl : ∀ (t : BitWidth) (d : Digit), (hfine (HInt.newInl t d)).Calm (fun _ => True) :=
    fun t d => hfine_calm ((newInl_calm t d).mono fun _ _ => trivial)
  have hm := make_made m
  cases m with
  | zero t => exact hfine_calm (repeatDigit_small hA (h _ rfl) _)
  | allUnset t => exact hfine_calm (repeatDigit_small hA (h _ rfl) _)
  | allSet t => exact hfine_calm (repeatDigit_small hA (h _ rfl) _)
  | unsignedMin t => exact hfine_calm (repeatDigit_small hA (h _ rfl) _)
  | unsignedMax t => exact hfine_calm (repeatDigit_small hA (h _ rfl) _)
  | one t =>
    have ht : t.toUsize ≤ 64 := h _ rfl
    refine hfine_calm ((newInl_calm _ _).bind ?_)
    rintro _ rfl
    refine Calm.bind (P := fun _ => True) ?_ fun _ _ => .pure trivial
    unfold HInt.zeroResize
    exact .ite (fun _ => (expectDone_small
        ((truncate_small A (Nat.le_refl 64) (.inl ht)).mono fun _ _ => trivial)).mono fun _ _ => trivial)
      fun _ => (expectDone_small
        ((zeroExtend_small A (Nat.le_refl 64) ht).mono fun _ _ => trivial)).mono fun _ _ => trivial
  | signedMin t =>
    refine hfine_calm ((repeatDigit_small hA (h _ rfl) _).bind fun _ _ => ?_)
    exact (inPlace_calm' _ _).bind fun _ _ => .pure trivial
  | signedMax t =>
    refine hfine_calm ((repeatDigit_small hA (h _ rfl) _).bind fun _ _ => ?_)
    exact (inPlace_calm' _ _).bind fun _ _ => .pure trivial
  | bool b => exact inl _ _
  | u8 v => exact inl _ _
  | i8 v => exact inl _ _
  | u16 v => exact inl _ _
  | i16 v => exact inl _ _
  | u32 v => exact inl _ _
  | i32 v => exact inl _ _
  | u64 v => exact inl _ _
  | i64 v => exact inl _ _
  | u128 v => exact absurd (h _ rfl) (by simp [AInt.ofInt])
  | i128 v => exact absurd (h _ rfl) (by simp [AInt.ofInt])
  | array v vs =>
    have hv := h _ rfl
    simp only at hv
    refine hfine_calm ((fromIter_calm hA ?_).bind fun _ _ => Calm.lift _ fun _ _ => trivial)
    simp only [List.length_reverse, List.length_cons]
    omega
  | digits ds =>
    refine (fromIter_calm hA ?_).mono fun _ _ => trivial
    by_cases hd : ds = []
    · rw [hd]; simp
    · have := h _ (if_neg hd)
      simp only at this
      omega
  | parse k s =>
    refine Calm.bind (P := fun r => Make.exec (.parse k s) = .ok r) (Calm.lift _ fun _ h => h) ?_
    intro r hr
    cases r with
    | error e => exact .pure trivial
    | ok a =>
      refine hfine_calm ?_
      have ha : a.WF ∧ a.w ≤ 64 := by
        cases hs : Make.spec (.parse k s) with
        | error e =>
          rw [hs] at hm
          obtain ⟨_, hm, _⟩ := hm
          cases hm.symm.trans hr
        | ok z =>
          rw [hs] at hm
          obtain ⟨c, hm, hc, hz⟩ := hm
          cases hm.symm.trans hr
          refine ⟨hc, ?_⟩
          have := h z hs
          rw [← hz] at this
          exact this
      obtain ⟨al, ad⟩ := a
      cases ad with
      | inl d => exact (newInl_calm _ _).mono fun _ _ => trivial
      | ext ds => exact absurd (show 64 < al.toUsize from ha.1.1.1) (Nat.not_lt.mpr ha.2)
  | random t rng =>
    have ht : t.toUsize ≤ 64 := h _ rfl
    refine hfine_calm (ofDigits_small hA ?_ ht)
    rw [small_digits ht]
    simp [Rng.take]

/-- A call that starts and ends with integers of at most 64 bits only is calm. -/
theorem small_calm {A : Growth} (hA : A.Snug) (i : Instr) {xs : HBank} {bs : Bank}
    (hm : List.Forall₂ Match xs bs) (hb : ∀ a ∈ bs, a.WF)
    (hs : ∀ x ∈ xs, x.len.toUsize ≤ 64)
    (hs' : ∀ r s, i.spec (bs.map ApInt.abs) = some (r, s) → ∀ z ∈ s, z.width ≤ 64) :
    (i.hexec A xs).Calm (fun _ => True) := by
  have get : ∀ {j : Nat} {x : HInt}, xs[j]? = some x → ∃ a d, bs[j]? = some a ∧
      a.len.toUsize ≤ 64 ∧ x = ⟨a.len, .inl d⟩ ∧ a = ⟨a.len, .inl d⟩ ∧ a.WF := by
    intro j x hx
    cases hj : bs[j]? with
    | none => rw [forall₂_none hm hj] at hx; cases hx
    | some a =>
      obtain ⟨y, hy, hmy⟩ := forall₂_get hm hj
      rw [hx] at hy
      cases hy
      have hw := hb a (List.mem_of_getElem? hj)
      have hl := hs x (List.mem_of_getElem? hx)
      obtain ⟨d, h1, h2⟩ := small_cases hmy hw hl
      refine ⟨a, d, rfl, ?_, h1, h2, hw⟩
      rw [← hmy.1]
      exact hl
  have one : ∀ (i : Nat) {f : HInt → HM (Res Out × HBank)},
      (∀ x, xs[i]? = some x → (f x).Calm (fun _ => True)) →
      HM.Calm (match xs[i]? with | some a => f a | none => pure (.ok .unit, xs))
        (fun _ => True) := by
    intro i f hf
    cases hi : xs[i]? with
    | none => exact .pure trivial
    | some a => exact hf a hi
  have two : ∀ (i j : Nat) {f : HInt → HInt → HM (Res Out × HBank)},
      (∀ x y, xs[i]? = some x → xs[j]? = some y → (f x y).Calm (fun _ => True)) →
      HM.Calm (match xs[i]?, xs[j]? with | some a, some c => f a c | _, _ => pure (.ok .unit, xs))
        (fun _ => True) := by
    intro i j f hf
    cases hi : xs[i]? with
    | none => exact .pure trivial
    | some a =>
      cases hj : xs[j]? with
      | none => exact .pure trivial
      | some c => exact hf a c hi hj
  have push : ∀ {m : HM (Res HInt)}, m.Calm (fun _ => True) →
      (hpush xs m).Calm (fun _ => True) := by
    intro m h
    unfold hpush
    refine h.bind fun r _ => ?_
    cases r <;> exact .pure trivial
  have abs : ∀ {j : Nat} {a : ApInt}, bs[j]? = some a → (bs.map ApInt.abs)[j]? = some a.abs := by
    intro j a h
    rw [List.getElem?_map, h]
    rfl
  have borrow (hi : i.borrows) : (i.hexec A xs).Calm (fun _ => True) := by
    refine (borrows_calm A hi hm ?_ ?_).mono fun _ _ => trivial
    · rintro o x a rfl ha z a' ha' hz
      have hw := hs' _ _ (show Instr.spec (.un o x) (bs.map ApInt.abs) = _ by
        simp only [Instr.spec, abs ha']; rfl) z (by
          rw [hz]
          exact List.mem_of_getElem? (List.getElem?_set_self
            (List.getElem?_eq_some_iff.mp (abs ha')).1))
      have hl := hs a (List.mem_of_getElem? ha)
      have hp := a.len.pos
      have hst := un_stored o (hb a' (List.mem_of_getElem? ha'))
      rw [hz] at hst
      obtain ⟨c, _, _, rfl⟩ := hst
      have := c.pos_w
      simp only [abs_width] at hw ⊢
      omega
    · rintro x y a c rfl ha hc
      show a.len.requiredDigits = c.len.requiredDigits
      rw [small_digits (hs a (List.mem_of_getElem? ha)), small_digits (hs c (List.mem_of_getElem? hc))]
  cases i with
  | make m =>
    refine push (make_small hA m fun z hz => ?_)
    exact hs' _ _ rfl z (by rw [hz]; exact List.mem_append_right _ (List.mem_singleton.mpr rfl))
  | clone x =>
    refine one x fun a ha => push ?_
    obtain ⟨a', d, _, hl, rfl, _⟩ := get ha
    exact (clone_small A hl).bind fun _ _ => .pure trivial
  | drop x =>
    refine one x fun a ha => ?_
    exact (drop_small (hs a (List.mem_of_getElem? ha))).bind fun _ _ => .pure trivial
  | intoUn o x =>
    refine one x fun a ha => push ?_
    obtain ⟨a', d, ha', hl, rfl, he, hw⟩ := get ha
    refine (clone_small A hl).bind ?_
    rintro _ rfl
    refine tryForward_small (un_small A o hl (he ▸ hw) fun z hz => ?_)
    rw [← he] at hz
    refine hs' _ _ (show Instr.spec (.intoUn o x) (bs.map ApInt.abs) = _ by
        simp only [Instr.spec, abs ha']; rfl) z ?_
    rw [hz]
    exact List.mem_append_right _ (List.mem_singleton.mpr rfl)
  | intoBin o x y =>
    refine two x y fun a c ha hc => push ?_
    obtain ⟨a', d, ha', hl, rfl, he, hw⟩ := get ha
    obtain ⟨c', d', hc', hl', rfl, he', hw'⟩ := get hc
    refine (clone_small A hl).bind ?_
    rintro _ rfl
    refine Calm.bind (P := fun v => v = c') ?_ ?_
    · unfold HInt.load
      rw [show (⟨c'.len, .inl d'⟩ : HInt).storage = .inl from small_storage hl']
      exact he'.symm
    · rintro _ rfl
      exact tryForward_small (inPlace_err hl (bin_stored o (he ▸ hw) hw'))
  | op o x y =>
    refine two x y fun a c ha hc => push ?_
    obtain ⟨a', d, ha', hl, rfl, he, hw⟩ := get ha
    refine (clone_small A hl).bind ?_
    rintro _ rfl
    refine (load_calm c).bind fun _ _ => ?_
    exact (inPlace_calm' _ _).bind fun _ _ => .pure trivial
  | opShl s x =>
    refine one x fun a ha => push ?_
    obtain ⟨a', d, ha', hl, rfl, he, hw⟩ := get ha
    refine (clone_small A hl).bind ?_
    rintro _ rfl
    exact (inPlace_calm' _ _).bind fun _ _ => .pure trivial
  | pair o x y =>
    by_cases hxy : x = y
    · subst hxy
      refine two x x fun a c ha hc => ?_
      rw [ha] at hc
      cases hc
      obtain ⟨a', d, ha', hl, rfl, he, hw⟩ := get ha
      refine (load_calm _).bind fun _ ht => (load_calm _).bind fun _ _ => ?_
      refine Calm.bind (P := fun _ => True) (Calm.lift _ fun _ _ => trivial) ?_
      rintro ⟨e, b1, b2⟩ _
      refine (store_calm ht b1).bind fun z hz => ?_
      have hd : (List.set xs x z)[x]? = some z :=
        List.getElem?_set_self (List.getElem?_eq_some_iff.mp ha).1
      show HM.Calm (match (List.set xs x z)[x]? with
        | some c => do
          let c ← c.store b2
          pure (Except.map (fun x => Out.unit) e, (List.set xs x z).set x c)
        | none => pure (Except.map (fun x => Out.unit) e, List.set xs x z)) _
      rw [hd]
      exact (store_calm (fun _ => hz.2) b2).bind fun _ _ => .pure trivial
    · exact borrow hxy
  | assign x y => exact borrow trivial
  | strictAssign x y => exact borrow trivial
  | un o x => exact borrow trivial
  | alter o x => exact borrow trivial
  | bin o x y => exact borrow trivial
  | opAssign o x y => exact borrow trivial
  | opShlAssign s x => exact borrow trivial
  | ask q x => exact borrow trivial
  | ask2 q x y => exact borrow trivial

end Verif
