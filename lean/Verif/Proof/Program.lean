import Verif.Model.Program
import Verif.SpecProgram
import Verif.Props.Arith
import Verif.Props.Shifts
import Verif.Props.Casts
import Verif.Props.Bits
import Verif.Props.Compare
import Verif.Props.Construct
import Verif.Props.Div
import Verif.Props.Errors
import Verif.Props.Tests
import Verif.Props.ToPrim
import Verif.Props.Text
import Verif.Props.Random

/-!
# Every call of a program does what the abstract machine says

Helper lemmas for C01, C02 and C51.
-/

namespace Verif

open ApInt Props

/-- A call that makes an integer agrees with the abstract machine. -/
def Made (r : Run (Res ApInt)) : Option (Except AErr AInt) → Prop
  | none => r = .error .panic
  | some (.error e) => ∃ e', r = .ok (.error e') ∧ e'.abs = e
  | some (.ok z) => ∃ c : ApInt, r = .ok (.ok c) ∧ c.WF ∧ c.abs = z

/-- An in-place call on `a` agrees with the abstract machine. -/
def Stored (a : ApInt) (r : Run (Res Unit × ApInt)) : Option (Except AErr AInt) → Prop
  | none => r = .error .panic
  | some (.error e) => ∃ e', r = .ok (.error e', a) ∧ e'.abs = e
  | some (.ok z) => ∃ c : ApInt, r = .ok (.ok (), c) ∧ c.WF ∧ c.abs = z

/-- A query agrees with the abstract machine. -/
def Told (r : Run (Res Out)) : Option (Except AErr Out) → Prop
  | none => r = .error .panic
  | some x => ∃ y, r = .ok y ∧ absRes y = x

theorem abs_ofInt {c : ApInt} {len : BitWidth} {v w : Nat} {x : Int} (hl : c.len = len)
    (hv : c.uval = v) (hw : len.toUsize = w) (hx : v = wrap w x) : c.abs = AInt.ofInt w x := by
  subst hl hv hw
  simp only [ApInt.abs, AInt.ofInt, ← hx]

theorem Stored.updates {a : ApInt} {r : Run (Res Unit × ApInt)} {len : BitWidth} {v w : Nat}
    {x : Int} (h : Updates r len v) (hw : len.toUsize = w) (hx : v = wrap w x) :
    Stored a r (some (.ok (AInt.ofInt w x))) := by
  obtain ⟨c, e, h1, h2, h3⟩ := h
  exact ⟨c, e, h1, abs_ofInt h2 h3 hw hx⟩

theorem Stored.returns {a : ApInt} {r : Run ApInt} {len : BitWidth} {v w : Nat}
    {x : Int} (h : Returns r len v) (hw : len.toUsize = w) (hx : v = wrap w x) :
    Stored a (done r) (some (.ok (AInt.ofInt w x))) := by
  obtain ⟨c, e, h1, h2, h3⟩ := h
  exact ⟨c, by rw [e]; rfl, h1, abs_ofInt h2 h3 hw hx⟩

theorem Stored.error {a : ApInt} {r : Run (Res Unit × ApInt)} {e : Err} {e' : AErr}
    (h : r = .ok (.error e, a)) (he : e.abs = e') : Stored a r (some (.error e')) :=
  ⟨e, h, he⟩

theorem Made.returns {r : Run ApInt} {len : BitWidth} {v w : Nat}
    {x : Int} (h : Returns r len v) (hw : len.toUsize = w) (hx : v = wrap w x) :
    Made (fine r) (some (.ok (AInt.ofInt w x))) := by
  obtain ⟨c, e, h1, h2, h3⟩ := h
  exact ⟨c, by rw [e]; rfl, h1, abs_ofInt h2 h3 hw hx⟩

theorem Stored.into {β : Type} {a : ApInt} {b : β} {op : ApInt → β → Run (Res Unit × ApInt)}
    {s : Option (Except AErr AInt)} (h : Stored a (op a b) s) :
    Made (tryForwardBinMutImpl a b op) s := by
  unfold tryForwardBinMutImpl
  match s, h with
  | none, h =>
    have h : op a b = .error .panic := h
    show _ = _
    rw [h]; rfl
  | some (.error e), ⟨e', h, he⟩ => exact ⟨e', by rw [h]; rfl, he⟩
  | some (.ok z), ⟨c, h, h1, h2⟩ => exact ⟨c, by rw [h]; rfl, h1, h2⟩

theorem Stored.fine {a : ApInt} {r : Run ApInt}
    {s : Option (Except AErr AInt)} (h : Stored a (done r) s) : Made (fine r) s := by
  match r, s, h with
  | .error f, none, h =>
    show Except.error f = _
    exact (Except.error.inj h) ▸ rfl
  | .ok c, none, h => cases h
  | .ok c, some (.error e), ⟨e', h, he⟩ => cases h
  | .error f, some (.error e), ⟨e', h, he⟩ => cases h
  | .ok c, some (.ok z), ⟨c', h, h1, h2⟩ =>
    cases h
    exact ⟨c, rfl, h1, h2⟩
  | .error f, some (.ok z), ⟨c, h, h1, h2⟩ => cases h

theorem abs_width (a : ApInt) : a.abs.width = a.w := rfl
theorem abs_bits (a : ApInt) : a.abs.bits = a.uval := rfl
theorem abs_sint (a : ApInt) : a.abs.sint = a.sval := rfl

theorem abs_inj {a b : ApInt} (ha : a.WF) (hb : b.WF) (h : a.abs = b.abs) : a = b := by
  have h1 : a.w = b.w := congrArg AInt.width h
  have h2 : a.uval = b.uval := congrArg AInt.bits h
  exact ext_of_uval ha.1 hb.1 (BitWidth.ext h1) h2

theorem len_eq_iff {a b : ApInt} : a.len = b.len ↔ a.w = b.w :=
  ⟨fun h => by unfold w; rw [h], fun h => BitWidth.ext h⟩

theorem bitnot_wrap {a : ApInt} (h : a.WF) : 2 ^ a.w - 1 - a.uval = wrap a.w (-a.uval - 1) := by
  have h1 := h.2
  have h2 : 2 ^ a.w - 1 - a.uval < 2 ^ a.w := by omega
  rw [← Nat.mod_eq_of_lt h2]
  apply wrap_of_nat
  refine ⟨1, ?_⟩
  have : ((2 ^ a.w : Nat) : Int) = 2 ^ a.w := by push_cast; rfl
  rw [← this]
  omega

theorem ones_wrap (n : Nat) : 2 ^ n - 1 = wrap n (-1) := by
  have h0 : 0 < 2 ^ n := by positivity
  have h2 : 2 ^ n - 1 < 2 ^ n := by omega
  rw [← Nat.mod_eq_of_lt h2]
  apply wrap_of_nat
  refine ⟨1, ?_⟩
  have : ((2 ^ n : Nat) : Int) = 2 ^ n := by push_cast; rfl
  rw [← this]
  omega

theorem wrap_zero (n : Nat) : 0 = wrap n 0 := by simp [wrap]

/-! ## Unary calls -/

theorem un_stored (o : Un) {a : ApInt} (ha : a.WF) : Stored a (o.exec a) (some (o.spec a.abs)) := by
  cases o with
  | bitnot => exact .returns (bitnot_ok ha) rfl (bitnot_wrap ha)
  | neg => exact .returns (C06_inc_dec_neg ha).2.2.2.2.1 rfl rfl
  | inc =>
    refine .returns (C06_inc_dec_neg ha).1 rfl ?_
    rw [← wrap_natCast]; push_cast; rfl
  | dec => exact .returns (C06_inc_dec_neg ha).2.2.1 rfl rfl
  | shl s =>
    simp only [Un.exec, Un.spec]
    by_cases h : s < a.abs.width
    · rw [if_pos h]
      rw [abs_width] at h
      refine .updates (C15_shl ha h).1 rfl ?_
      rw [← wrap_natCast]; push_cast; rfl
    · rw [if_neg h]
      rw [abs_width] at h
      exact .error (wrappingShlAssign_err (by omega)) rfl
  | lshr s =>
    simp only [Un.exec, Un.spec]
    by_cases h : s < a.abs.width
    · rw [if_pos h]
      rw [abs_width] at h
      refine .updates (C16_lshr ha h).1 rfl ?_
      rw [← wrap_of_lt (n := a.uval / 2 ^ s) (w := a.w)
        (lt_of_le_of_lt (Nat.div_le_self _ _) ha.2)]
      push_cast; rfl
    · rw [if_neg h]
      rw [abs_width] at h
      exact .error (wrappingLshrAssign_err (by omega)) rfl
  | ashr s =>
    simp only [Un.exec, Un.spec]
    by_cases h : s < a.abs.width
    · rw [if_pos h]
      rw [abs_width] at h
      obtain ⟨c, e, -, h1, h2, h3⟩ := C17_ashr ha h
      refine ⟨c, e, h1, abs_ofInt h2 rfl rfl ?_⟩
      have := wrap_sval h1
      rw [h3] at this
      rw [← this]
      unfold w; rw [h2]; rfl
    · rw [if_neg h]
      rw [abs_width] at h
      exact .error (wrappingAshrAssign_err ha (by omega)) rfl
  | truncate t =>
    simp only [Un.exec, Un.spec]
    by_cases h : t.toUsize ≤ a.abs.width
    · rw [if_pos h]
      rw [abs_width] at h
      exact .updates (truncate_ok ha h) rfl (wrap_natCast _ _).symm
    · rw [if_neg h]
      rw [abs_width] at h
      exact .error (truncate_err (by omega)) rfl
  | zeroExtend t =>
    simp only [Un.exec, Un.spec]
    by_cases h : a.abs.width ≤ t.toUsize
    · rw [if_pos h]
      rw [abs_width] at h
      exact .updates (zeroExtend_ok ha h) rfl
        (wrap_of_lt (lt_of_lt_of_le ha.2 (Nat.pow_le_pow_right (by decide) h))).symm
    · rw [if_neg h]
      rw [abs_width] at h
      exact .error (zeroExtend_err (by omega)) rfl
  | signExtend t =>
    simp only [Un.exec, Un.spec]
    by_cases h : a.abs.width ≤ t.toUsize
    · rw [if_pos h]
      rw [abs_width] at h
      exact .updates (signExtend_ok' ha h) rfl rfl
    · rw [if_neg h]
      rw [abs_width] at h
      exact .error (signExtend_err (by omega)) rfl
  | zeroResize t =>
    exact .returns (zeroResize_ok ha t) rfl (wrap_natCast _ _).symm
  | signResize t => exact .returns (signResize_ok ha t) rfl rfl

theorem un_made (o : Un) {a : ApInt} (ha : a.WF) : Made (o.execInto a) (some (o.spec a.abs)) := by
  have h := un_stored o ha
  cases o with
  | bitnot => exact h.fine
  | neg => exact h.fine
  | inc => exact h.fine
  | dec => exact h.fine
  | shl s => exact h.into
  | lshr s => exact h.into
  | ashr s => exact h.into
  | truncate t => exact h.into
  | zeroExtend t => exact h.into
  | signExtend t => exact h.into
  | zeroResize t => exact h.fine
  | signResize t => exact h.fine

/-! ## Bit level calls -/

theorem replaceBit (v p : Nat) (b : Bool) (i : Nat) :
    (v - (if v.testBit p then 2 ^ p else 0) + (if b then 2 ^ p else 0)).testBit i =
      if i = p then b else v.testBit i := by
  have hlo : v % 2 ^ p < 2 ^ p := Nat.mod_lt _ (by positivity)
  have hv : v = 2 ^ p * (v / 2 ^ p) + v % 2 ^ p := (Nat.div_add_mod _ _).symm
  have ht : v.testBit p = decide (v / 2 ^ p % 2 = 1) := by
    rw [Nat.testBit_eq_decide_div_mod_eq]
  generalize v / 2 ^ p = q at *
  generalize v % 2 ^ p = lo at *
  subst hv
  have e : (2 ^ p * q + lo - (if (2 ^ p * q + lo).testBit p then 2 ^ p else 0) +
      (if b then 2 ^ p else 0)) = 2 ^ p * (2 * (q / 2) + b.toNat) + lo := by
    have h2 : 2 ^ p * (q % 2) = if (2 ^ p * q + lo).testBit p then 2 ^ p else 0 := by
      rw [ht]
      rcases Nat.mod_two_eq_zero_or_one q with h | h <;> simp [h]
    have h3 : 2 ^ p * b.toNat = if b then 2 ^ p else 0 := by cases b <;> simp
    rw [← h2, ← h3]
    have h4 : 2 ^ p * q = 2 ^ p * (2 * (q / 2)) + 2 ^ p * (q % 2) := by
      rw [← Nat.mul_add, Nat.div_add_mod]
    rw [Nat.mul_add]
    omega
  rw [e, Nat.testBit_two_pow_mul_add _ hlo, Nat.testBit_two_pow_mul_add _ hlo]
  by_cases h1 : i < p
  · rw [if_pos h1, if_neg (by omega), if_pos h1]
  · rw [if_neg h1, if_neg h1]
    by_cases h2 : i = p
    · subst h2
      rw [if_pos rfl, Nat.sub_self]
      cases b <;> simp [Nat.testBit_zero]
    · rw [if_neg h2]
      obtain ⟨k, hk⟩ : ∃ k, i - p = k + 1 := ⟨i - p - 1, by omega⟩
      rw [hk, Nat.testBit_succ, Nat.testBit_succ]
      congr 1
      cases b <;> (simp; try omega)

theorem abs_mapBit {a c : ApInt} {p : Nat} {f : Bool → Bool} (hl : c.len = a.len)
    (h : ∀ i, c.uval.testBit i = if i = p then f (a.uval.testBit i) else a.uval.testBit i) :
    c.abs = a.abs.mapBit p f := by
  have h1 : c.uval = a.uval - (if a.uval.testBit p then 2 ^ p else 0) +
      (if f (a.uval.testBit p) then 2 ^ p else 0) := by
    apply Nat.eq_of_testBit_eq
    intro i
    rw [h, replaceBit]
    by_cases hi : i = p
    · subst hi; rfl
    · rw [if_neg hi, if_neg hi]
  unfold ApInt.abs AInt.mapBit w
  rw [hl, h1]

theorem Stored.bit {a : ApInt} {r : Run (Res Unit × ApInt)} {p : Nat} {f : Bool → Bool}
    (h : ∃ c, r = .ok (.ok (), c) ∧ c.WF ∧ c.len = a.len ∧
      ∀ i, c.uval.testBit i = if i = p then f (a.uval.testBit i) else a.uval.testBit i) :
    Stored a r (some (.ok (a.abs.mapBit p f))) := by
  obtain ⟨c, e, h1, h2, h3⟩ := h
  exact ⟨c, e, h1, abs_mapBit h2 h3⟩

theorem Stored.msb {a : ApInt} {r : Run ApInt} {p : Nat} {f : Bool → Bool}
    (h : ∃ c, r = .ok c ∧ c.WF ∧ c.len = a.len ∧
      ∀ i, c.uval.testBit i = if i = p then f (a.uval.testBit i) else a.uval.testBit i) :
    Stored a (done r) (some (.ok (a.abs.mapBit p f))) := by
  obtain ⟨c, e, h1, h2, h3⟩ := h
  exact ⟨c, by rw [e]; rfl, h1, abs_mapBit h2 h3⟩

theorem alter_stored (o : Alter) {a : ApInt} (ha : a.WF) :
    Stored a (o.exec a) (some (o.spec a.abs)) := by
  cases o with
  | setAll => exact .returns (setAll_ok ha) rfl (ones_wrap _)
  | unsetAll => exact .returns (unsetAll_ok ha) rfl (wrap_zero _)
  | flipAll => exact .returns (flipAll_ok ha) rfl (bitnot_wrap ha)
  | setMsb => exact .msb (f := fun _ => true) (setMsb_ok ha)
  | unsetMsb => exact .msb (f := fun _ => false) (unsetMsb_ok ha)
  | flipMsb => exact .msb (f := not) (flipMsb_ok ha)
  | setBit p =>
    simp only [Alter.exec, Alter.spec]
    by_cases h : p < a.abs.width
    · rw [if_pos h]
      exact .bit (f := fun _ => true) (setBitAt_ok ha h)
    · rw [if_neg h]
      rw [abs_width] at h
      exact .error (C20_invalid (by omega)).2.1 rfl
  | unsetBit p =>
    simp only [Alter.exec, Alter.spec]
    by_cases h : p < a.abs.width
    · rw [if_pos h]
      exact .bit (f := fun _ => false) (unsetBitAt_ok ha h)
    · rw [if_neg h]
      rw [abs_width] at h
      exact .error (C20_invalid (by omega)).2.2.1 rfl
  | flipBit p =>
    simp only [Alter.exec, Alter.spec]
    by_cases h : p < a.abs.width
    · rw [if_pos h]
      exact .bit (f := not) (flipBitAt_ok ha h)
    · rw [if_neg h]
      rw [abs_width] at h
      exact .error (C20_invalid (by omega)).2.2.2 rfl
  | randomize rng =>
    obtain ⟨c, e, h1, h2, h3⟩ := C46_random a.len rng
    refine .returns (len := a.len) ⟨c, ?_, h1, h2, h3⟩ rfl (wrap_natCast _ _).symm
    rw [C46_randomize ha, e]; rfl

/-! ## Binary calls -/

theorem widths_eq {a b : ApInt} (h : a.abs.width = b.abs.width) : a.len = b.len := BitWidth.ext h

theorem widths_ne {a b : ApInt} (h : ¬ a.abs.width = b.abs.width) : a.len ≠ b.len :=
  fun e => h (by unfold ApInt.abs w; rw [e])

theorem Stored.ring {a b : ApInt} {r : Run (Res Unit × ApInt)} {v : Nat} {x : Int}
    (h1 : a.len = b.len → Updates r a.len v) (hv : a.len = b.len → v = wrap a.w x)
    (h2 : a.len ≠ b.len → r = .ok (.error (.unmatchingBitwidth a.len b.len), a)) :
    Stored a r (some (if a.abs.width = b.abs.width then .ok (AInt.ofInt a.abs.width x)
      else .error (.widths a.abs.width b.abs.width))) := by
  by_cases h : a.abs.width = b.abs.width
  · rw [if_pos h]
    exact .updates (h1 (widths_eq h)) rfl (hv (widths_eq h))
  · rw [if_neg h]
    exact .error (h2 (widths_ne h)) rfl

theorem Stored.udiv {a b : ApInt} {r : Run (Res Unit × ApInt)} {v : Nat} {x : Int} {op : DivOp}
    (h1 : a.len = b.len → b.uval ≠ 0 → Updates r a.len v) (hv : v = wrap a.w x)
    (h2 : a.len = b.len → b.uval = 0 → r = .ok (.error (.divisionByZero op a), a))
    (h3 : a.len ≠ b.len → r = .ok (.error (.unmatchingBitwidth a.len b.len), a)) :
    Stored a r (some (if a.abs.width ≠ b.abs.width then .error (.widths a.abs.width b.abs.width)
      else if b.abs.bits = 0 then .error (.divZero op a.abs)
      else .ok (AInt.ofInt a.abs.width x))) := by
  by_cases h : a.abs.width = b.abs.width
  · rw [if_neg (not_not.mpr h)]
    by_cases hz : b.abs.bits = 0
    · rw [if_pos hz]
      exact .error (h2 (widths_eq h) hz) rfl
    · rw [if_neg hz]
      exact .updates (h1 (widths_eq h) hz) rfl hv
  · rw [if_pos h]
    exact .error (h3 (widths_ne h)) rfl

theorem Stored.sdiv {a b : ApInt} {r : Run (Res Unit × ApInt)} {x : Int} {op : DivOp}
    (h1 : a.len = b.len → b.uval ≠ 0 → Updates r a.len (wrap a.w x))
    (h2 : b.uval = 0 → r = .ok (.error (.divisionByZero op a), a))
    (h3 : a.len ≠ b.len → b.uval ≠ 0 → r = .error .panic) :
    Stored a r (if b.abs.bits = 0 then some (.error (.divZero op a.abs))
      else if a.abs.width ≠ b.abs.width then none
      else some (.ok (AInt.ofInt a.abs.width x))) := by
  by_cases hz : b.abs.bits = 0
  · rw [if_pos hz]
    exact .error (h2 hz) rfl
  · rw [if_neg hz]
    by_cases h : a.abs.width = b.abs.width
    · rw [if_neg (not_not.mpr h)]
      exact .updates (h1 (widths_eq h) hz) rfl rfl
    · rw [if_pos h]
      exact h3 (widths_ne h) hz

theorem wrap_small {a : ApInt} {n : Nat} (ha : a.WF) (h : n ≤ a.uval) : n = wrap a.w (n : Int) :=
  (wrap_of_lt (lt_of_le_of_lt h ha.2)).symm

theorem bin_stored (o : Bin) {a b : ApInt} (ha : a.WF) (hb : b.WF) :
    Stored a (o.exec a b) (o.spec a.abs b.abs) := by
  cases o with
  | add =>
    refine .ring (fun h => (C04_add ha hb h).1) (fun _ => ?_) wrappingAddAssign_err
    rw [← wrap_natCast]; push_cast; rfl
  | sub =>
    exact .ring (fun h => (C05_sub ha hb h).1) (fun _ => rfl) wrappingSubAssign_err
  | mul =>
    refine .ring (fun h => (C07_mul ha hb h).1) (fun _ => ?_) wrappingMulAssign_err
    rw [← wrap_natCast]; push_cast; rfl
  | and =>
    exact .ring (fun h => bitandAssign_ok ha hb h)
      (fun _ => wrap_small ha Nat.and_le_left) fun h => modifyZippedDigits_err h _
  | or =>
    refine .ring (fun h => bitorAssign_ok ha hb h) (fun h => ?_) fun h => modifyZippedDigits_err h _
    have hw : b.w = a.w := by unfold w; rw [h]
    exact (wrap_of_lt (Nat.or_lt_two_pow ha.2 (hw ▸ hb.2))).symm
  | xor =>
    refine .ring (fun h => bitxorAssign_ok ha hb h) (fun h => ?_)
      fun h => modifyZippedDigits_err h _
    have hw : b.w = a.w := by unfold w; rw [h]
    exact (wrap_of_lt (Nat.xor_lt_two_pow ha.2 (hw ▸ hb.2))).symm
  | udiv =>
    refine .udiv (fun h hz => (C09_unsigned_division ha hb h hz).2.2.1) ?_
      (fun h hz => (C12_division_by_zero ha hb h hz).2.2.1)
      (fun h => (C13_unsigned_division h).2.2.1)
    have := wrap_small ha (Nat.div_le_self a.uval b.uval)
    rw [this]; push_cast; rfl
  | urem =>
    refine .udiv (fun h hz => (C09_unsigned_division ha hb h hz).2.2.2) ?_
      (fun h hz => (C12_division_by_zero ha hb h hz).2.2.2.1)
      (fun h => (C13_unsigned_division h).2.2.2.1)
    have := wrap_small ha (Nat.mod_le a.uval b.uval)
    rw [this]; push_cast; rfl
  | sdiv =>
    exact .sdiv (fun h hz => (C11_signed_division ha hb h hz).2.2.1)
      (fun hz => (sdiv_zero ha hb hz).2.2.1)
      (fun h hz => ((C14_behaviour ha hb h).1 hz).2.2.1)
  | srem =>
    exact .sdiv (fun h hz => (C11_signed_division ha hb h hz).2.2.2.1)
      (fun hz => (sdiv_zero ha hb hz).2.2.2)
      (fun h hz => ((C14_behaviour ha hb h).1 hz).2.2.2)

theorem bin_made (o : Bin) {a b : ApInt} (ha : a.WF) (hb : b.WF) :
    Made (o.execInto a b) (o.spec a.abs b.abs) := by
  have h := bin_stored o ha hb
  cases o <;> exact Stored.into h

/-- An operator agrees with the abstract machine. -/
def Opped (r : Run ApInt) : Option AInt → Prop
  | none => r = .error .panic
  | some z => ∃ c : ApInt, r = .ok c ∧ c.WF ∧ c.abs = z

theorem Stored.unwrap {a : ApInt} {r : Run (Res Unit × ApInt)} {s : Option (Except AErr AInt)}
    (h : Stored a r s) : Opped (unwrapMut r) (okOnly s) := by
  match s, h with
  | none, h =>
    have h : r = .error .panic := h
    show _ = _
    rw [h]; rfl
  | some (.error e), ⟨e', h, he⟩ =>
    show _ = _
    rw [h]; rfl
  | some (.ok z), ⟨c, h, h1, h2⟩ => exact ⟨c, by rw [h]; rfl, h1, h2⟩

theorem Made.unwrap {r : Run (Res ApInt)} {s : Option (Except AErr AInt)}
    (h : Made r s) : Opped (unwrapRes r) (okOnly s) := by
  match s, h with
  | none, h =>
    have h : r = .error .panic := h
    show _ = _
    rw [h]; rfl
  | some (.error e), ⟨e', h, he⟩ =>
    show _ = _
    rw [h]; rfl
  | some (.ok z), ⟨c, h, h1, h2⟩ => exact ⟨c, by rw [h]; rfl, h1, h2⟩

theorem op_assign (o : Op) {a b : ApInt} (ha : a.WF) (hb : b.WF) :
    Opped (o.execAssign a b) (o.spec a.abs b.abs) := by
  have h := (bin_stored o.bin ha hb).unwrap
  cases o <;> exact h

theorem op_made (o : Op) {a b : ApInt} (ha : a.WF) (hb : b.WF) :
    Opped (o.exec a b) (o.spec a.abs b.abs) := by
  have h := (bin_made o.bin ha hb).unwrap
  cases o <;> exact h

/-! ## Divisions changing both operands -/

/-- A call changing two integers agrees with the abstract machine. -/
def Stored2 (a b : ApInt) (r : Run (Res Unit × ApInt × ApInt)) :
    Option (Except AErr (AInt × AInt)) → Prop
  | none => r = .error .panic
  | some (.error e) => ∃ e', r = .ok (.error e', a, b) ∧ e'.abs = e
  | some (.ok (z, z')) => ∃ c d : ApInt, r = .ok (.ok (), c, d) ∧ c.WF ∧ d.WF ∧ c.abs = z ∧ d.abs = z'

theorem Stored2.updates {a b : ApInt} {r : Run (Res Unit × ApInt × ApInt)} {len : BitWidth}
    {v v' w : Nat} {x x' : Int} (h : Updates2 r len v v') (hw : len.toUsize = w)
    (hx : v = wrap w x) (hx' : v' = wrap w x') :
    Stored2 a b r (some (.ok (AInt.ofInt w x, AInt.ofInt w x'))) := by
  obtain ⟨c, d, e, h1, h1', h2, h2', h3, h3'⟩ := h
  exact ⟨c, d, e, h1, h1', abs_ofInt h2 h3 hw hx, abs_ofInt h2' h3' hw hx'⟩

theorem pair_stored (o : Pair) {a b : ApInt} (ha : a.WF) (hb : b.WF) :
    Stored2 a b (o.exec a b) (o.spec a.abs b.abs) := by
  have hq : a.uval / b.uval = wrap a.w (a.abs.bits / b.abs.bits) := by
    rw [abs_bits, abs_bits, wrap_small ha (Nat.div_le_self a.uval b.uval)]; push_cast; rfl
  have hr : a.uval % b.uval = wrap a.w (a.abs.bits % b.abs.bits) := by
    rw [abs_bits, abs_bits, wrap_small ha (Nat.mod_le a.uval b.uval)]; push_cast; rfl
  have hw : a.abs.width = b.abs.width ∨ ¬ a.abs.width = b.abs.width := em _
  have hz : b.abs.bits = 0 ∨ ¬ b.abs.bits = 0 := em _
  cases o with
  | udivrem =>
    simp only [Pair.exec, Pair.spec]
    rcases hw with hw | hw
    · rw [if_neg (not_not.mpr hw)]
      rcases hz with hz | hz
      · rw [if_pos hz]
        exact ⟨_, (C12_division_by_zero ha hb (widths_eq hw) hz).1, rfl⟩
      · rw [if_neg hz]
        exact .updates (C09_unsigned_division ha hb (widths_eq hw) hz).1 rfl hq hr
    · rw [if_pos hw]
      exact ⟨_, (C13_unsigned_division (widths_ne hw)).1, rfl⟩
  | uremdiv =>
    simp only [Pair.exec, Pair.spec]
    rcases hw with hw | hw
    · rw [if_neg (not_not.mpr hw)]
      rcases hz with hz | hz
      · rw [if_pos hz]
        exact ⟨_, (C12_division_by_zero ha hb (widths_eq hw) hz).2.1, rfl⟩
      · rw [if_neg hz]
        exact .updates (C09_unsigned_division ha hb (widths_eq hw) hz).2.1 rfl hr hq
    · rw [if_pos hw]
      exact ⟨_, (C13_unsigned_division (widths_ne hw)).2.1, rfl⟩
  | sdivrem =>
    simp only [Pair.exec, Pair.spec]
    rcases hz with hz | hz
    · rw [if_pos hz]
      exact ⟨_, (sdiv_zero ha hb hz).1, rfl⟩
    · rw [if_neg hz]
      rcases hw with hw | hw
      · rw [if_neg (not_not.mpr hw)]
        exact .updates (C11_signed_division ha hb (widths_eq hw) hz).1 rfl rfl rfl
      · rw [if_pos hw]
        exact ((C14_behaviour ha hb (widths_ne hw)).1 hz).1
  | sremdiv =>
    simp only [Pair.exec, Pair.spec]
    rcases hz with hz | hz
    · rw [if_pos hz]
      exact ⟨_, (sdiv_zero ha hb hz).2.1, rfl⟩
    · rw [if_neg hz]
      rcases hw with hw | hw
      · rw [if_neg (not_not.mpr hw)]
        exact .updates (C11_signed_division ha hb (widths_eq hw) hz).2.1 rfl rfl rfl
      · rw [if_pos hw]
        exact ((C14_behaviour ha hb (widths_ne hw)).1 hz).2.1

/-! ## Queries -/

theorem Told.tell {α : Type} {r : Run α} {v : α} {f : α → Out} {x : Out} (h : r = .ok v)
    (hx : f v = x) : Told (tell f r) (some (.ok x)) :=
  ⟨.ok x, by rw [h, ← hx]; rfl, rfl⟩

theorem Told.tellRes {α : Type} {r : Run (Res α)} {v : α} {f : α → Out} {x : Out}
    (h : r = .ok (.ok v)) (hx : f v = x) : Told (tellRes f r) (some (.ok x)) :=
  ⟨.ok x, by rw [h, ← hx]; rfl, rfl⟩

theorem Told.error {α : Type} {r : Run (Res α)} {e : Err} {f : α → Out} {e' : AErr}
    (h : r = .ok (.error e)) (he : e.abs = e') : Told (Verif.tellRes f r) (some (.error e')) :=
  ⟨.error e, by rw [h]; rfl, by rw [← he]; rfl⟩

theorem takeWhile_range {p : Nat → Bool} {n w : Nat} (hn : n ≤ w) (h1 : ∀ i, i < n → p i = true)
    (h2 : n < w → p n = false) : ((List.range w).takeWhile p).length = n := by
  obtain ⟨k, rfl⟩ := Nat.exists_eq_add_of_le hn
  rw [List.range_add, List.takeWhile_append_of_pos (by
    intro i hi
    exact h1 i (List.mem_range.mp hi))]
  cases k with
  | zero => simp
  | succ k =>
    rw [List.range_succ_eq_map]
    simp [h2 (by omega)]

theorem toInt_ofInt (n : Nat) (x : Int) : (BitVec.ofInt n x).toInt = x.bmod (2 ^ n) := by
  rw [BitVec.toInt_ofInt]

theorem toNat_ofNat (n x : Nat) : (BitVec.ofNat n x).toNat = x % 2 ^ n := BitVec.toNat_ofNat x n

theorem resize_told {a : ApInt} (ha : a.WF) (ty : PrimitiveTy) :
    Told (resizeTo a ty) (some (.ok (a.abs.cast ty))) := by
  obtain ⟨hb, h8, h16, h32, h64, h128⟩ := C31_resize_unsigned ha
  obtain ⟨s8, s16, s32, s64, s128⟩ := C31_resize_signed ha
  cases ty
  · exact .tell hb rfl
  · exact .tell s8 (congrArg Out.int (toInt_ofInt _ _))
  · exact .tell h8 (congrArg Out.nat (toNat_ofNat _ _))
  · exact .tell s16 (congrArg Out.int (toInt_ofInt _ _))
  · exact .tell h16 (congrArg Out.nat (toNat_ofNat _ _))
  · exact .tell s32 (congrArg Out.int (toInt_ofInt _ _))
  · exact .tell h32 (congrArg Out.nat (toNat_ofNat _ _))
  · exact .tell s64 (congrArg Out.int (toInt_ofInt _ _))
  · exact .tell h64 (congrArg Out.nat (toNat_ofNat _ _))
  · exact .tell s128 (congrArg Out.int (toInt_ofInt _ _))
  · exact .tell h128 (congrArg Out.nat (toNat_ofNat _ _))

theorem AcceptsBelow.told {β : Type} {n : Nat} {r : Run (Res β)} {a : ApInt} {ty : PrimitiveTy}
    {v : β} {f : β → Out} {x : Out} (h : AcceptsBelow n r a ty v) (hn : ty.bits = n)
    (hx : a.uval < 2 ^ n → f v = x) :
    Told (tellRes f r) (some (if a.abs.bits < 2 ^ ty.bits then .ok x
      else .error (.unrepresentable a.abs ty))) := by
  subst hn
  by_cases hv : a.abs.bits < 2 ^ ty.bits
  · rw [if_pos hv]
    exact .tellRes (h.1 hv) (hx hv)
  · rw [if_neg hv]
    exact .error (h.2 (Nat.le_of_not_lt hv)) rfl

theorem try_told {a : ApInt} (ha : a.WF) (ty : PrimitiveTy) :
    Told (Verif.tryTo a ty) (some (if a.abs.bits < 2 ^ ty.bits then .ok (a.abs.cast ty)
      else .error (.unrepresentable a.abs ty))) := by
  obtain ⟨hb, h8, h16, h32, h64, h128⟩ := C32_try_unsigned ha
  obtain ⟨s8, s16, s32, s64, s128⟩ := C32_try_signed ha
  cases ty
  · refine AcceptsBelow.told hb rfl fun h => ?_
    show Out.bool _ = Out.bool _
    rw [abs_bits, Nat.mod_eq_of_lt (show a.uval < 2 from h)]
  · exact AcceptsBelow.told s8 rfl fun _ => (congrArg Out.int (toInt_ofInt _ _))
  · exact AcceptsBelow.told h8 rfl fun _ => (congrArg Out.nat (toNat_ofNat _ _))
  · exact AcceptsBelow.told s16 rfl fun _ => (congrArg Out.int (toInt_ofInt _ _))
  · exact AcceptsBelow.told h16 rfl fun _ => (congrArg Out.nat (toNat_ofNat _ _))
  · exact AcceptsBelow.told s32 rfl fun _ => (congrArg Out.int (toInt_ofInt _ _))
  · exact AcceptsBelow.told h32 rfl fun _ => (congrArg Out.nat (toNat_ofNat _ _))
  · exact AcceptsBelow.told s64 rfl fun _ => (congrArg Out.int (toInt_ofInt _ _))
  · exact AcceptsBelow.told h64 rfl fun _ => (congrArg Out.nat (toNat_ofNat _ _))
  · exact AcceptsBelow.told s128 rfl fun _ => (congrArg Out.int (toInt_ofInt _ _))
  · exact AcceptsBelow.told h128 rfl fun _ => (congrArg Out.nat (toNat_ofNat _ _))

theorem testBit_msb {a : ApInt} (ha : a.WF) :
    a.uval.testBit (a.w - 1) = decide (a.abs.sint < 0) := by
  have h1 := ha.2
  have h2 := two_pow_pred a.pos_w
  rw [abs_sint]
  unfold sval
  by_cases h : a.uval < 2 ^ (a.w - 1)
  · rw [if_pos h, Nat.testBit_lt_two_pow h]
    symm
    rw [decide_eq_false_iff_not]
    omega
  · rw [if_neg h, Nat.testBit_eq_decide_div_mod_eq]
    have h3 : a.uval / 2 ^ (a.w - 1) = 1 := by
      apply Nat.div_eq_of_lt_le
      · omega
      · omega
    have h4 : ((a.uval : Nat) : Int) < 2 ^ a.w := by exact_mod_cast h1
    rw [h3, decide_eq_true (by decide), decide_eq_true (by omega)]

theorem ask_told (q : Ask) {a : ApInt} (ha : a.WF) : Told (q.exec a) (q.spec a.abs) := by
  cases q with
  | width => exact ⟨_, rfl, rfl⟩
  | isZero => exact .tell (C35_zero_parity ha).1 rfl
  | isAllUnset => exact .tell (C35_zero_parity ha).2.1 rfl
  | isEven => exact .tell (C35_zero_parity ha).2.2.1 rfl
  | isOdd => exact .tell (C35_zero_parity ha).2.2.2 rfl
  | msb => exact .tell (msb_ok ha.1) (congrArg Out.bool (testBit_msb ha))
  | lsb => exact .tell (lsb_ok ha.1) (congrArg Out.bool (Nat.testBit_zero _))
  | bit p =>
    simp only [Ask.exec, Ask.spec]
    by_cases h : p < a.abs.width
    · rw [if_pos h]
      exact .tellRes (getBitAt_ok ha.1 h) rfl
    · rw [if_neg h]
      rw [abs_width] at h
      exact .error (getBitAt_err (by omega)) rfl
  | countOnes => exact .tell (countOnes_ok ha) rfl
  | countZeros => exact .tell (countZeros_ok ha) rfl
  | leadingZeros =>
    obtain ⟨⟨n, e, h1, h2, h3, -⟩, -⟩ := C22_leading_trailing ha
    refine .tell e (congrArg Out.nat ?_)
    rw [abs_width, abs_bits]
    refine (takeWhile_range h1 (fun i hi => ?_) fun h => ?_).symm
    · rw [h2 _ (by omega)]; rfl
    · rw [h3 h]; rfl
  | trailingZeros =>
    obtain ⟨-, ⟨n, e, h1, h2, h3, -⟩⟩ := C22_leading_trailing ha
    refine .tell e (congrArg Out.nat ?_)
    rw [abs_width, abs_bits]
    refine (takeWhile_range h1 (fun i hi => ?_) fun h => ?_).symm
    · rw [h2 _ hi]; rfl
    · rw [h3 h]; rfl
  | resize ty => exact resize_told ha ty
  | tryTo ty => exact try_told ha ty
  | binary => exact .tell (C42_format ha).1 rfl
  | lowerHex => exact .tell (C42_format ha).2.1 rfl
  | upperHex => exact .tell (C42_format ha).2.2 rfl
  | octal =>
    have h := (C42_unimplemented (r := 2) ha).1
    simp only [Ask.exec, Ask.spec]
    by_cases hz : a.abs.bits = 0
    · rw [if_pos hz]
      rw [abs_bits] at hz
      rw [if_pos hz] at h
      exact .tell h rfl
    · rw [if_neg hz]
      rw [abs_bits] at hz
      rw [if_neg hz] at h
      show Verif.tell _ _ = _
      rw [h]; rfl

theorem Told.cmp {a b : ApInt} {r : Run (Res Bool)} {x : Bool} {l l' : Nat} {e : Err}
    (h1 : a.len = b.len → r = .ok (.ok x)) (h2 : a.len ≠ b.len → r = .ok (.error e))
    (he : e.abs = .widths l l') :
    Told (Verif.tellRes .bool r)
      (some (if a.abs.width = b.abs.width then .ok (.bool x) else .error (.widths l l'))) := by
  by_cases h : a.abs.width = b.abs.width
  · rw [if_pos h]
    exact .tellRes (h1 (widths_eq h)) rfl
  · rw [if_neg h]
    exact .error (h2 (widths_ne h)) he

theorem ask2_told (q : Ask2) {a b : ApInt} (ha : a.WF) (hb : b.WF) :
    Told (q.exec a b) (some (q.spec a.abs b.abs)) := by
  cases q with
  | eq =>
    refine .tell (C03_eq ha hb) (congrArg Out.bool ?_)
    exact decide_eq_decide.mpr ⟨fun h => by unfold ApInt.abs; rw [h.1, h.2], fun h => ⟨congrArg AInt.width h, congrArg AInt.bits h⟩⟩
  | ult => exact .cmp (fun h => (C27_unsigned ha hb h).1) (fun h => (C13_compare h).1) rfl
  | ule => exact .cmp (fun h => (C27_unsigned ha hb h).2.1) (fun h => (C13_compare h).2.1) rfl
  | ugt => exact .cmp (fun h => (C27_unsigned ha hb h).2.2.1) (fun h => (C13_compare h).2.2.1) rfl
  | uge => exact .cmp (fun h => (C27_unsigned ha hb h).2.2.2) (fun h => (C13_compare h).2.2.2.1) rfl
  | slt => exact .cmp (fun h => (C28_signed ha hb h).1) (fun h => (C13_compare h).2.2.2.2.1) rfl
  | sle => exact .cmp (fun h => (C28_signed ha hb h).2.1) (fun h => (C13_compare h).2.2.2.2.2.1) rfl
  | sgt =>
    exact .cmp (fun h => (C28_signed ha hb h).2.2.1) (fun h => (C13_compare h).2.2.2.2.2.2.1) rfl
  | sge =>
    exact .cmp (fun h => (C28_signed ha hb h).2.2.2) (fun h => (C13_compare h).2.2.2.2.2.2.2) rfl

/-! ## Constructors -/

theorem Made.exact {r : Run ApInt} {len : BitWidth} {v w : Nat} (h : Returns r len v)
    (hw : len.toUsize = w) : Made (fine r) (some (.ok ⟨w, v⟩)) := by
  obtain ⟨c, e, h1, h2, h3⟩ := h
  refine ⟨c, by rw [e]; rfl, h1, ?_⟩
  subst h2 h3 hw
  rfl

theorem returns_wrap {r : Run ApInt} {len : BitWidth} {v : Nat} (h : Returns r len v) :
    v < 2 ^ len.toUsize := by
  obtain ⟨c, -, h1, rfl, rfl⟩ := h
  exact h1.2

theorem Made.nat {r : Run ApInt} {len : BitWidth} {v w : Nat} (h : Returns r len v)
    (hw : len.toUsize = w) : Made (fine r) (some (.ok (AInt.ofInt w v))) :=
  .returns h hw (wrap_of_lt (hw ▸ returns_wrap h)).symm

theorem toNat_wrap {n : Nat} (v : BitVec n) : v.toNat = wrap n v.toInt := by
  rw [← ofInt_toNat, BitVec.ofInt_toInt]

theorem Made.signed {n : Nat} {r : Run ApInt} {len : BitWidth} {v : BitVec n}
    (h : Returns r len v.toNat) (hw : len.toUsize = n) :
    Made (fine r) (some (.ok (AInt.ofInt n v.toInt))) :=
  .returns h hw (toNat_wrap v)

theorem make_made (m : Make) : Made m.exec (some m.spec) := by
  cases m with
  | zero t => exact .returns (zero_ok t) rfl (wrap_zero _)
  | one t => exact .nat (one_ok t) rfl
  | allUnset t => exact .returns (zero_ok t) rfl (wrap_zero _)
  | allSet t => exact .returns (allSet_ok t) rfl (ones_wrap _)
  | unsignedMin t => exact .returns (zero_ok t) rfl (wrap_zero _)
  | unsignedMax t =>
    refine .returns (allSet_ok t) rfl ?_
    rw [ones_wrap]
    exact wrap_eq ⟨-1, by ring⟩
  | signedMin t =>
    refine .returns (signedMinValue_ok t) rfl ?_
    have h := two_pow_pred t.pos
    have h0 : 0 < 2 ^ (t.toUsize - 1) := by positivity
    rw [← wrap_of_lt (n := 2 ^ (t.toUsize - 1)) (w := t.toUsize) (by omega)]
    have h' : (2:Int) ^ t.toUsize = 2 * 2 ^ (t.toUsize - 1) := by exact_mod_cast h
    refine wrap_eq ⟨1, ?_⟩
    rw [h']; push_cast; ring
  | signedMax t =>
    have := Made.nat (signedMaxValue_ok t) rfl
    have h0 : 1 ≤ 2 ^ (t.toUsize - 1) := Nat.one_le_two_pow
    rw [Nat.cast_sub h0] at this
    push_cast at this
    exact this
  | bool b =>
    have := Made.nat (fromBool_ok b) rfl
    cases b <;> exact this
  | u8 v => exact .nat (fromU8_ok v) rfl
  | i8 v => exact .signed (fromU8_ok v) rfl
  | u16 v => exact .nat (fromU16_ok v) rfl
  | i16 v => exact .signed (fromU16_ok v) rfl
  | u32 v => exact .nat (fromU32_ok v) rfl
  | i32 v => exact .signed (fromU32_ok v) rfl
  | u64 v => exact .nat (fromU64_ok v) rfl
  | i64 v => exact .signed (fromU64_ok v) rfl
  | u128 v => exact .nat (fromU128_ok v) rfl
  | i128 v => exact .signed (fromU128_ok v) rfl
  | array v vs =>
    obtain ⟨c, e, h1, h2, h3⟩ := C30_from_array (l := v :: vs) (by simp)
    refine ⟨c, by simp only [Make.exec, e]; rfl, h1, ?_⟩
    unfold ApInt.abs
    rw [h2, h3]; rfl
  | digits ds =>
    simp only [Make.exec, Make.spec]
    by_cases h : ds = []
    · rw [if_pos h]
      subst h
      exact ⟨_, rfl, rfl⟩
    · rw [if_neg h]
      obtain ⟨c, e, h1, h2, h3⟩ := fromIter_ok h
      refine ⟨c, e, h1, ?_⟩
      unfold ApInt.abs uval
      rw [h2, h3]
  | parse k s =>
    have hr : 2 ^ (k.val + 1) ∈ [2, 4, 8, 16, 32] := by
      have : ∀ k : Fin 5, 2 ^ (k.val + 1) ∈ [2, 4, 8, 16, 32] := by decide
      exact this k
    have hl : Nat.log2 (2 ^ (k.val + 1)) = k.val + 1 := Nat.log2_two_pow
    simp only [Make.exec, Make.spec]
    by_cases h : Accepted (2 ^ (k.val + 1)) s
    · rw [if_pos h]
      obtain ⟨c, e, h1, h2, h3, h4, h5⟩ := C39_parse_pow2 hr h
      refine ⟨c, e, h1, ?_⟩
      rw [hl] at h4 h5
      unfold ApInt.abs roundUp
      rw [h2]
      congr 1
      omega
    · rw [if_neg h]
      have h2 : 2 ≤ 2 ^ (k.val + 1) ∧ 2 ^ (k.val + 1) ≤ 36 := by
        have : ∀ k : Fin 5, 2 ≤ 2 ^ (k.val + 1) ∧ 2 ^ (k.val + 1) ≤ 36 := by decide
        exact this k
      exact ⟨_, (C40_error_iff h2).2.2 h, rfl⟩
  | random t rng =>
    obtain ⟨c, e, h1, h2, h3⟩ := C46_random t rng
    refine .returns (len := t) ⟨c, ?_, h1, h2, h3⟩ rfl (wrap_natCast _ _).symm
    rw [e]; rfl

/-! ## The machine -/

/-- One call from the bank `b` agrees with the abstract machine. -/
def Agrees (r : Run (Res Out × Bank)) : Option (Except AErr Out × ABank) → Prop
  | none => r = .error .panic
  | some (x, s) => ∃ y b, r = .ok (y, b) ∧ absRes y = x ∧ (∀ a ∈ b, a.WF) ∧ b.map ApInt.abs = s

theorem set_self {α : Type} {l : List α} {x : Nat} {a : α} (h : l[x]? = some a) : l.set x a = l := by
  obtain ⟨hx, rfl⟩ := List.getElem?_eq_some_iff.mp h
  exact List.set_getElem_self hx

theorem wf_set {b : Bank} (hb : ∀ a ∈ b, a.WF) {x : Nat} {c : ApInt} (hc : c.WF) :
    ∀ a ∈ b.set x c, a.WF := by
  intro a ha
  rcases List.mem_or_eq_of_mem_set ha with h | h
  · exact hb a h
  · exact h ▸ hc

theorem Agrees.push {b : Bank} (hb : ∀ a ∈ b, a.WF) {r : Run (Res ApInt)}
    {s : Except AErr AInt} (h : Made r (some s)) :
    Agrees (pushRes b r) (some (ABank.push (b.map ApInt.abs) s)) := by
  match s, h with
  | .error e, ⟨e', h, he⟩ =>
    exact ⟨.error e', b, by rw [h]; rfl, by rw [← he]; rfl, hb, rfl⟩
  | .ok z, ⟨c, h, h1, h2⟩ =>
    refine ⟨.ok .unit, b ++ [c], by rw [h]; rfl, rfl, ?_, by simp [h2]⟩
    intro a ha
    rcases List.mem_append.mp ha with h' | h'
    · exact hb a h'
    · rw [List.mem_singleton.mp h']; exact h1

theorem Agrees.store {b : Bank} (hb : ∀ a ∈ b, a.WF) {x : Nat} {a : ApInt} (hx : b[x]? = some a)
    {r : Run (Res Unit × ApInt)} {s : Except AErr AInt} (h : Stored a r (some s)) :
    Agrees (storeRes b x r) (some (ABank.store (b.map ApInt.abs) x s)) := by
  match s, h with
  | .error e, ⟨e', h, he⟩ =>
    refine ⟨.error e', b, ?_, by rw [← he]; rfl, hb, rfl⟩
    rw [h]
    show Except.ok (_, b.set x a) = _
    rw [set_self hx]; rfl
  | .ok z, ⟨c, h, h1, h2⟩ =>
    refine ⟨.ok .unit, b.set x c, by rw [h]; rfl, rfl, wf_set hb h1, ?_⟩
    rw [List.map_set, h2]

theorem Agrees.tell {b : Bank} (hb : ∀ a ∈ b, a.WF) {r : Run (Res Out)}
    {s : Option (Except AErr Out)} (h : Told r s) :
    Agrees (do let r ← r; pure (r, b)) (s.map fun r => (r, b.map ApInt.abs)) := by
  match s, h with
  | none, h =>
    have h : r = .error .panic := h
    show _ = _
    rw [h]; rfl
  | some x, ⟨y, h, hy⟩ => exact ⟨y, b, by rw [h]; rfl, hy, hb, rfl⟩

theorem push_panic {b : Bank} {r : Run (Res ApInt)} (h : r = .error .panic) :
    pushRes b r = .error .panic := by rw [h]; rfl

theorem store_panic {b : Bank} {x : Nat} {r : Run (Res Unit × ApInt)} (h : r = .error .panic) :
    storeRes b x r = .error .panic := by rw [h]; rfl

/-- One call agrees with the abstract machine. -/
theorem exec_agrees (i : Instr) {b : Bank} (hb : ∀ a ∈ b, a.WF) :
    Agrees (i.exec b) (i.spec (b.map ApInt.abs)) := by
  have skip : Agrees (pure (.ok .unit, b)) (some (.ok .unit, b.map ApInt.abs)) :=
    ⟨.ok .unit, b, rfl, rfl, hb, rfl⟩
  have wf : ∀ {x : Nat} {a : ApInt}, b[x]? = some a → a.WF := fun h =>
    hb _ (List.mem_of_getElem? h)
  have one : ∀ (x : Nat) {f : ApInt → Run (Res Out × Bank)}
      {g : AInt → Option (Except AErr Out × ABank)},
      (∀ a, b[x]? = some a → Agrees (f a) (g a.abs)) →
      Agrees (match b[x]? with | some a => f a | none => pure (.ok .unit, b))
        (match (b.map ApInt.abs)[x]? with
          | some a => g a | none => some (.ok .unit, b.map ApInt.abs)) := by
    intro x f g h
    rw [List.getElem?_map]
    cases hx : b[x]? with
    | none => exact skip
    | some a => exact h a hx
  have two : ∀ (x y : Nat) {f : ApInt → ApInt → Run (Res Out × Bank)}
      {g : AInt → AInt → Option (Except AErr Out × ABank)},
      (∀ a c, b[x]? = some a → b[y]? = some c → Agrees (f a c) (g a.abs c.abs)) →
      Agrees (match b[x]?, b[y]? with | some a, some c => f a c | _, _ => pure (.ok .unit, b))
        (match (b.map ApInt.abs)[x]?, (b.map ApInt.abs)[y]? with
          | some a, some c => g a c | _, _ => some (.ok .unit, b.map ApInt.abs)) := by
    intro x y f g h
    rw [List.getElem?_map, List.getElem?_map]
    cases hx : b[x]? with
    | none => exact skip
    | some a =>
      cases hy : b[y]? with
      | none => exact skip
      | some c => exact h a c hx hy
  cases i with
  | make m => exact .push hb (make_made m)
  | clone x =>
    exact one x fun a hx => .push hb (s := .ok a.abs)
      ⟨a, by rw [clone_ok (wf hx).1]; rfl, wf hx, rfl⟩
  | drop x =>
    refine ⟨.ok .unit, b.eraseIdx x, rfl, rfl, fun a ha => hb a (List.mem_of_mem_eraseIdx ha), ?_⟩
    rw [List.eraseIdx_map]
  | assign x y =>
    exact two x y fun a c hx hy => .store hb hx (s := .ok c.abs)
      ⟨c, by rw [assign_ok (wf hx).1 (wf hy).1]; rfl, wf hy, rfl⟩
  | strictAssign x y =>
    refine two x y fun a c hx hy => .store hb hx ?_
    by_cases h : a.abs.width = c.abs.width
    · rw [if_pos h]
      exact ⟨c, strictAssign_ok (wf hx).1 (wf hy).1 (widths_eq h), wf hy, rfl⟩
    · rw [if_neg h]
      exact .error (strictAssign_err (widths_ne h)) rfl
  | un o x => exact one x fun a hx => .store hb hx (un_stored o (wf hx))
  | intoUn o x =>
    refine one x fun a hx => .push hb ?_
    rw [clone_ok (wf hx).1]
    exact un_made o (wf hx)
  | alter o x => exact one x fun a hx => .store hb hx (alter_stored o (wf hx))
  | bin o x y =>
    refine two x y fun a c hx hy => ?_
    have h := bin_stored o (wf hx) (wf hy)
    cases hs : o.spec a.abs c.abs with
    | none => rw [hs] at h; exact store_panic h
    | some s => rw [hs] at h; exact .store hb hx h
  | intoBin o x y =>
    refine two x y fun a c hx hy => ?_
    have h := bin_made o (wf hx) (wf hy)
    rw [clone_ok (wf hx).1]
    cases hs : o.spec a.abs c.abs with
    | none => rw [hs] at h; exact push_panic h
    | some s => rw [hs] at h; exact .push hb h
  | opAssign o x y =>
    refine two x y fun a c hx hy => ?_
    have h := op_assign o (wf hx) (wf hy)
    cases hs : o.spec a.abs c.abs with
    | none =>
      rw [hs] at h
      have h : _ = _ := h
      exact store_panic (by rw [h]; rfl)
    | some s =>
      rw [hs] at h
      obtain ⟨d, h, h1, h2⟩ := h
      exact .store hb hx (s := .ok s) ⟨d, by rw [h]; rfl, h1, h2⟩
  | op o x y =>
    refine two x y fun a c hx hy => ?_
    have h := op_made o (wf hx) (wf hy)
    rw [clone_ok (wf hx).1]
    cases hs : o.spec a.abs c.abs with
    | none =>
      rw [hs] at h
      have h : _ = _ := h
      exact push_panic (by rw [run_bind_ok, h]; rfl)
    | some s =>
      rw [hs] at h
      obtain ⟨d, h, h1, h2⟩ := h
      exact .push hb (s := .ok s) ⟨d, by rw [run_bind_ok, h]; rfl, h1, h2⟩
  | opShlAssign s x =>
    refine one x fun a hx => ?_
    have h : Opped (a.opShlAssign s) _ := (un_stored (.shl s) (wf hx)).unwrap
    cases hs : okOnly (some ((Un.shl s).spec a.abs)) with
    | none =>
      rw [hs] at h
      have h : _ = _ := h
      exact store_panic (by rw [h]; rfl)
    | some z =>
      rw [hs] at h
      obtain ⟨d, h, h1, h2⟩ := h
      exact .store hb hx (s := .ok z) ⟨d, by rw [h]; rfl, h1, h2⟩
  | opShl s x =>
    refine one x fun a hx => ?_
    have h : Opped (a.opShl s) _ := (un_made (.shl s) (wf hx)).unwrap
    rw [clone_ok (wf hx).1]
    cases hs : okOnly (some ((Un.shl s).spec a.abs)) with
    | none =>
      rw [hs] at h
      have h : _ = _ := h
      exact push_panic (by rw [run_bind_ok, h]; rfl)
    | some z =>
      rw [hs] at h
      obtain ⟨d, h, h1, h2⟩ := h
      exact .push hb (s := .ok z) ⟨d, by rw [run_bind_ok, h]; rfl, h1, h2⟩
  | pair o x y =>
    refine two x y fun a c hx hy => ?_
    have h := pair_stored o (wf hx) (wf hy)
    match hs : o.spec a.abs c.abs, h with
    | none, h =>
      have h : o.exec a c = .error .panic := h
      show _ = _
      rw [h]; rfl
    | some (.error e), ⟨e', h, he⟩ =>
      refine ⟨.error e', b, ?_, by rw [← he]; rfl, hb, rfl⟩
      rw [h]
      show Except.ok (_, (b.set x a).set y c) = _
      rw [set_self hx, set_self hy]; rfl
    | some (.ok (z, z')), ⟨d, d', h, h1, h1', h2, h2'⟩ =>
      refine ⟨.ok .unit, (b.set x d).set y d', by rw [h]; rfl, rfl, wf_set (wf_set hb h1) h1', ?_⟩
      rw [List.map_set, List.map_set, h2, h2']
  | ask q x => exact one x fun a hx => .tell hb (ask_told q (wf hx))
  | ask2 q x y => exact two x y fun a c hx hy => .tell hb (ask2_told q (wf hx) (wf hy))

/-- A whole program agrees with the abstract machine. -/
theorem run_agrees (p : List Instr) {b : Bank} (hb : ∀ a ∈ b, a.WF) :
    (run p b).1.map absRes = (specRun p (b.map ApInt.abs)).1 ∧
    ((∃ b', (run p b).2 = .ok b' ∧ (∀ a ∈ b', a.WF) ∧
        (specRun p (b.map ApInt.abs)).2 = some (b'.map ApInt.abs)) ∨
      ((run p b).2 = .error .panic ∧ (specRun p (b.map ApInt.abs)).2 = none)) := by
  induction p generalizing b with
  | nil => exact ⟨rfl, .inl ⟨b, rfl, hb, rfl⟩⟩
  | cons i p ih =>
    have h := exec_agrees i hb
    unfold run specRun
    match hs : i.spec (b.map ApInt.abs), h with
    | none, h =>
      have h : i.exec b = .error .panic := h
      rw [h]
      exact ⟨rfl, .inr ⟨rfl, rfl⟩⟩
    | some (x, s), ⟨y, b', h, hy, hb', hm⟩ =>
      rw [h]
      subst hm
      obtain ⟨h1, h2⟩ := ih hb'
      refine ⟨?_, h2⟩
      show absRes y :: _ = x :: _
      rw [h1, hy]

end Verif
