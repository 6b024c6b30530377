import Verif.SpecWrap
import Verif.Proof.Div

/-! # Lifting results about `ApInt` to the wrapper types -/

namespace Verif

open ApInt

variable {α β : Type}

theorem opFollows_unwrapRes (r : Run (Res α)) : OpFollows r (unwrapRes r) := by
  rcases r with f | x | x
  · cases f <;> simp [OpFollows, unwrapRes]
  · simp [OpFollows, unwrapRes, expect]
  · simp [OpFollows, unwrapRes, expect]

theorem opAssignFollows_unwrapMut (r : Run (Res Unit × α)) : OpAssignFollows r (unwrapMut r) := by
  rcases r with f | ⟨x | x, c⟩
  · cases f <;> simp [OpAssignFollows, unwrapMut]
  · simp [OpAssignFollows, unwrapMut, expect]
  · simp [OpAssignFollows, unwrapMut, expect]

theorem gives_of {f : α → β → Run (Res Unit × α)} {x c : α} {y : β} {P : α → Prop}
    {into : Run (Res α)} (hi : into = tryForwardBinMutImpl x y f)
    (h : f x y = .ok (.ok (), c)) (hP : P c) :
    Gives (f x y) into (unwrapRes into) (unwrapMut (f x y)) P := by
  subst hi
  exact ⟨c, h, by simp [tryForwardBinMutImpl, h], by simp [tryForwardBinMutImpl, h, unwrapRes, expect],
    by simp [h, unwrapMut, expect], hP⟩

theorem fails_of {f : α → β → Run (Res Unit × α)} {x : α} {y : β} {e : Err}
    {into : Run (Res α)} (hi : into = tryForwardBinMutImpl x y f)
    (h : f x y = .ok (.error e, x)) :
    Fails x (f x y) into (unwrapRes into) (unwrapMut (f x y)) e := by
  subst hi
  exact ⟨h, by simp [tryForwardBinMutImpl, h], by simp [tryForwardBinMutImpl, h, unwrapRes, expect],
    by simp [h, unwrapMut, expect]⟩

theorem givesM_of {f : α → β → Run (Res Unit × α)} {x c : α} {y : β} {P : α → Prop}
    (h : f x y = .ok (.ok (), c)) (hP : P c) :
    GivesM (f x y) (tryForwardBinMutImpl x y f) P :=
  ⟨c, h, by simp [tryForwardBinMutImpl, h], hP⟩

theorem failsM_of {f : α → β → Run (Res Unit × α)} {x : α} {y : β} {e : Err}
    (h : f x y = .ok (.error e, x)) :
    FailsM x (f x y) (tryForwardBinMutImpl x y f) e :=
  ⟨h, by simp [tryForwardBinMutImpl, h]⟩

namespace UInt

theorem liftRes_tryForward {β : Type} (x : UInt) (y : β) (f : ApInt → β → Run (Res Unit × ApInt)) :
    liftRes (tryForwardBinMutImpl x.value y f) =
      tryForwardBinMutImpl x y (fun (a : UInt) b => liftMut (f a.value b)) := by
  unfold liftRes tryForwardBinMutImpl liftMut
  beta_reduce
  generalize f x.value y = r
  rcases r with e | ⟨_ | _, c⟩ <;> rfl

theorem liftMut_ok {r : Run (Res Unit × ApInt)} {len : BitWidth} {v : Nat} (h : Updates r len v) :
    ∃ c, liftMut r = .ok (.ok (), c) ∧ Is len v c := by
  obtain ⟨c, rfl, h⟩ := h
  exact ⟨⟨c⟩, rfl, h⟩

theorem liftMut_err {r : Run (Res Unit × ApInt)} {e : Err} {a : UInt}
    (h : r = .ok (.error e, a.value)) : liftMut r = .ok (.error e, a) := by
  subst h; rfl

theorem lift_ok {r : Run ApInt} {len : BitWidth} {v : Nat} (h : Returns r len v) :
    Yields (lift r) (Is len v) := by
  obtain ⟨c, rfl, h⟩ := h
  exact ⟨⟨c⟩, rfl, h⟩

theorem lift_P {r : Run ApInt} {P : ApInt → Prop} (h : ∃ c, r = .ok c ∧ P c) :
    Yields (lift r) (fun c => P c.value) := by
  obtain ⟨c, rfl, h⟩ := h
  exact ⟨⟨c⟩, rfl, h⟩

theorem liftMut_P {r : Run (Res Unit × ApInt)} {P : ApInt → Prop}
    (h : ∃ c, r = .ok (.ok (), c) ∧ P c) :
    ∃ c, liftMut r = .ok (.ok (), c) ∧ P c.value := by
  obtain ⟨c, rfl, h⟩ := h
  exact ⟨⟨c⟩, rfl, h⟩

end UInt

namespace SInt

theorem liftRes_tryForward {β : Type} (x : SInt) (y : β) (f : ApInt → β → Run (Res Unit × ApInt)) :
    liftRes (tryForwardBinMutImpl x.value y f) =
      tryForwardBinMutImpl x y (fun (a : SInt) b => liftMut (f a.value b)) := by
  unfold liftRes tryForwardBinMutImpl liftMut
  beta_reduce
  generalize f x.value y = r
  rcases r with e | ⟨_ | _, c⟩ <;> rfl

theorem is_of_wrap {c : ApInt} {len : BitWidth} {z : Int} (h : c.WF) (hl : c.len = len)
    (hv : c.uval = wrap len.toUsize z) : Is len (Int.bmod z (2 ^ len.toUsize)) ⟨c⟩ := by
  subst hl
  exact ⟨h, rfl, sval_of_wrap h hv⟩

theorem liftMut_ok {r : Run (Res Unit × ApInt)} {len : BitWidth} {z : Int}
    (h : Updates r len (wrap len.toUsize z)) :
    ∃ c, liftMut r = .ok (.ok (), c) ∧ Is len (Int.bmod z (2 ^ len.toUsize)) c := by
  obtain ⟨c, rfl, h1, h2, h3⟩ := h
  exact ⟨⟨c⟩, rfl, is_of_wrap h1 h2 h3⟩

theorem liftMut_err {r : Run (Res Unit × ApInt)} {e : Err} {a : SInt}
    (h : r = .ok (.error e, a.value)) : liftMut r = .ok (.error e, a) := by
  subst h; rfl

theorem lift_ok {r : Run ApInt} {len : BitWidth} {z : Int}
    (h : Returns r len (wrap len.toUsize z)) :
    Yields (lift r) (Is len (Int.bmod z (2 ^ len.toUsize))) := by
  obtain ⟨c, rfl, h1, h2, h3⟩ := h
  exact ⟨⟨c⟩, rfl, is_of_wrap h1 h2 h3⟩

theorem lift_P {r : Run ApInt} {P : ApInt → Prop} (h : ∃ c, r = .ok c ∧ P c) :
    Yields (lift r) (fun c => P c.value) := by
  obtain ⟨c, rfl, h⟩ := h
  exact ⟨⟨c⟩, rfl, h⟩

theorem liftMut_P {r : Run (Res Unit × ApInt)} {P : ApInt → Prop}
    (h : ∃ c, r = .ok (.ok (), c) ∧ P c) :
    ∃ c, liftMut r = .ok (.ok (), c) ∧ P c.value := by
  obtain ⟨c, rfl, h⟩ := h
  exact ⟨⟨c⟩, rfl, h⟩

end SInt

namespace ApInt

theorem bmod_sval {a : ApInt} (h : a.WF) : Int.bmod a.sval (2 ^ a.w) = a.sval :=
  bmod_of_range a.pos_w (sval_range h).1 (sval_range h).2

theorem add_wrap {a b : ApInt} (h : a.len = b.len) :
    (a.uval + b.uval) % 2 ^ a.w = wrap a.w (a.sval + b.sval) := by
  have hw : b.w = a.w := by unfold w; rw [h]
  obtain ⟨k, hk⟩ := sval_mod (a := a)
  obtain ⟨l, hl⟩ := sval_mod (a := b)
  apply wrap_of_nat
  refine ⟨-(k + l), ?_⟩
  rw [hk, hl, hw]; push_cast; ring

theorem mul_wrap {a b : ApInt} (h : a.len = b.len) :
    (a.uval * b.uval) % 2 ^ a.w = wrap a.w (a.sval * b.sval) := by
  have hw : b.w = a.w := by unfold w; rw [h]
  obtain ⟨k, hk⟩ := sval_mod (a := a)
  obtain ⟨l, hl⟩ := sval_mod (a := b)
  apply wrap_of_nat
  refine ⟨-(k * b.uval + a.uval * l + 2 ^ a.w * k * l), ?_⟩
  rw [hk, hl, hw]; push_cast; ring

theorem sub_wrap {a b : ApInt} (h : a.len = b.len) :
    wrap a.w (a.uval - b.uval) = wrap a.w (a.sval - b.sval) := by
  have hw : b.w = a.w := by unfold w; rw [h]
  obtain ⟨k, hk⟩ := sval_mod (a := a)
  obtain ⟨l, hl⟩ := sval_mod (a := b)
  apply wrap_eq
  refine ⟨-(k - l), ?_⟩
  rw [hk, hl, hw]; ring

theorem neg_wrap {a : ApInt} : wrap a.w (-a.uval) = wrap a.w (-a.sval) := by
  obtain ⟨k, hk⟩ := sval_mod (a := a)
  apply wrap_eq
  exact ⟨k, by rw [hk]; ring⟩

theorem shl_wrap {a : ApInt} (s : Nat) :
    (a.uval * 2 ^ s) % 2 ^ a.w = wrap a.w (a.sval * 2 ^ s) := by
  obtain ⟨k, hk⟩ := sval_mod (a := a)
  apply wrap_of_nat
  refine ⟨-(k * 2 ^ s), ?_⟩
  rw [hk]; push_cast; ring

end ApInt

end Verif
