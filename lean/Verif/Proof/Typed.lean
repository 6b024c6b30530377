import Verif.Model.Typed
import Verif.SpecTyped
import Verif.Proof.Program
import Verif.Props.WrapSigned
import Verif.Props.WrapUnsigned
import Verif.Props.WrapRest

/-!
# Programs over `UInt` and `Int` against the machine over integers

Helper lemmas for C69.
-/

namespace Verif

open ApInt Props

/-! ## Two readings of a bit pattern -/

/-- The number of type `k` with the bits of `x`. -/
def AInt.num (k : Kind) (x : AInt) : Num :=
  ⟨k, x.width, match k with
    | .unsigned => x.bits
    | .signed => x.sint⟩

theorem pow_even {w : Nat} (hw : 0 < w) : (2 : Int) ^ w = 2 * 2 ^ (w - 1) := by
  obtain ⟨n, rfl⟩ : ∃ n, w = n + 1 := ⟨w - 1, by omega⟩
  rw [pow_succ, Nat.add_sub_cancel]; ring

theorem num_ofInt (k : Kind) {w : Nat} (hw : 0 < w) (v : Int) :
    (AInt.ofInt w v).num k = Num.of k w v := by
  have hp : (0 : Int) < 2 ^ (w - 1) := by positivity
  have he := pow_even hw
  have h0 : 0 ≤ v % 2 ^ w := Int.emod_nonneg _ (by omega)
  have h1 : ((wrap w v : Nat) : Int) = v % 2 ^ w := by
    unfold wrap
    exact Int.toNat_of_nonneg h0
  unfold AInt.num Num.of AInt.ofInt
  cases k
  · simp only [h1]
  · simp only [AInt.sint]
    rw [h1]
    have h2 : (wrap w v < 2 ^ (w - 1)) ↔ v % 2 ^ w < 2 ^ (w - 1) := by
      rw [← h1]; exact_mod_cast Iff.rfl
    congr 1
    rw [Int.bmod_def]
    have hc : ((2 ^ w : Nat) : Int) = 2 ^ w := by push_cast; rfl
    rw [hc]
    have h3 : ((2 : Int) ^ w + 1) / 2 = 2 ^ (w - 1) := by omega
    rw [h3]
    by_cases h : wrap w v < 2 ^ (w - 1)
    · rw [if_pos h, if_pos (h2.mp h)]
    · rw [if_neg h, if_neg (fun h' => h (h2.mpr h'))]

theorem of_congr (k : Kind) {w : Nat} {v v' : Int} (h : ∃ j, v = v' + 2 ^ w * j) :
    Num.of k w v = Num.of k w v' := by
  obtain ⟨j, rfl⟩ := h
  have hc : ((2 ^ w : Nat) : Int) = 2 ^ w := by push_cast; rfl
  unfold Num.of
  congr 1
  cases k
  · exact Int.add_mul_emod_self_left ..
  · show Int.bmod _ _ = Int.bmod _ _
    rw [← hc]
    exact Int.add_mul_bmod_self_left ..

theorem num_val (k : Kind) (x : AInt) : ∃ j, (x.num k).val = x.bits + 2 ^ x.width * j := by
  cases k
  · exact ⟨0, by simp [AInt.num]⟩
  · unfold AInt.num AInt.sint
    by_cases h : x.bits < 2 ^ (x.width - 1)
    · exact ⟨0, by simp [h]⟩
    · exact ⟨-1, by simp only [h, if_false]; ring⟩

/-- A fixed-width number with its width and bits in range. -/
structure AInt.Ok (x : AInt) : Prop where
  pos : 0 < x.width
  lt : x.bits < 2 ^ x.width

theorem ok_abs {a : ApInt} (ha : a.WF) : a.abs.Ok := ⟨a.pos_w, ha.2⟩

/-- A call that computes `v` modulo `2 ^ width` from the bits computes any `v'` congruent to it. -/
theorem num_ofInt' (k : Kind) {w : Nat} (hw : 0 < w) {v v' : Int} (h : ∃ j, v' = v + 2 ^ w * j) :
    (AInt.ofInt w v).num k = Num.of k w v' := by
  rw [num_ofInt k hw, of_congr k h]

theorem num_range {k : Kind} {x : AInt} (hx : x.Ok) :
    (x.num k).val = (Num.of k x.width x.bits).val := by
  have h := num_ofInt k hx.pos (x.bits : Int)
  have : AInt.ofInt x.width x.bits = x := by
    unfold AInt.ofInt
    rw [wrap_of_lt hx.lt]
  rw [this] at h
  rw [h]

theorem self_ofInt {x : AInt} (hx : x.Ok) : AInt.ofInt x.width x.bits = x := by
  unfold AInt.ofInt
  rw [wrap_of_lt hx.lt]

theorem num_put_self {k : Kind} {x : AInt} (hx : x.Ok) :
    Num.of k x.width (x.num k).val = x.num k := by
  rw [of_congr k (num_val k x), ← num_ofInt k hx.pos, self_ofInt hx]

theorem num_bit {k : Kind} {x : AInt} {p : Nat} (hp : p < x.width) :
    (x.num k).bit p = x.bits.testBit p := by
  obtain ⟨j, hj⟩ := num_val k x
  unfold Num.bit
  rw [hj, Nat.testBit_eq_decide_div_mod_eq, decide_eq_decide]
  have h1 : (2 : Int) ^ x.width = 2 ^ p * (2 * 2 ^ (x.width - p - 1)) := by
    rw [← pow_succ', ← pow_add]; congr 1; omega
  rw [h1, mul_assoc, mul_comm ((2 : Int) ^ p), Int.add_mul_ediv_right _ _ (by positivity),
    mul_assoc, Int.add_mul_emod_self_left]
  exact_mod_cast Iff.rfl

theorem sum_bits (n w : Nat) :
    ((List.range w).map fun p => if n.testBit p then (2 : Int) ^ p else 0).sum = (n % 2 ^ w : Nat) := by
  induction w with
  | zero => simp [Nat.mod_one]
  | succ w ih =>
    rw [List.range_succ, List.map_append, List.sum_append, ih, Nat.mod_pow_succ,
      ← Nat.toNat_testBit]
    cases h : n.testBit w <;> simp [h]

theorem num_ofBits {k : Kind} {x : AInt} (hx : x.Ok) {n : Nat} (hn : n < 2 ^ x.width)
    {f : Nat → Bool} (hf : ∀ p, p < x.width → f p = n.testBit p) :
    (x.num k).ofBits f = AInt.num k ⟨x.width, n⟩ := by
  unfold Num.ofBits Num.put
  have h1 : ((List.range x.width).map fun p => if f p then (2 : Int) ^ p else 0) =
      (List.range x.width).map fun p => if n.testBit p then (2 : Int) ^ p else 0 := by
    apply List.map_congr_left
    intro p hp
    rw [hf p (List.mem_range.mp hp)]
  have h2 := self_ofInt (x := ⟨x.width, n⟩) ⟨hx.pos, hn⟩
  show Num.of k x.width _ = _
  rw [show (x.num k).width = x.width from rfl, h1, sum_bits, Nat.mod_eq_of_lt hn, ← num_ofInt k hx.pos]
  exact congrArg (AInt.num k) h2

theorem num_pattern {k : Kind} {x : AInt} (hx : x.Ok) : (x.num k).pattern = x.bits := by
  obtain ⟨j, hj⟩ := num_val k x
  unfold Num.pattern
  rw [hj, show (x.num k).width = x.width from rfl, Int.add_mul_emod_self_left]
  have : ((x.bits : Nat) : Int) < 2 ^ x.width := by exact_mod_cast hx.lt
  rw [Int.emod_eq_of_lt (by omega) this]; rfl

theorem num_inError {k : Kind} {x : AInt} (hx : x.Ok) : (x.num k).inError = x := by
  unfold Num.inError
  rw [num_pattern hx]; rfl

theorem sint_eq_zero {x : AInt} (hx : x.Ok) : x.sint = 0 ↔ x.bits = 0 := by
  have h1 := hx.lt
  have h2 : ((x.bits : Nat) : Int) < 2 ^ x.width := by exact_mod_cast h1
  have h3 : 0 < 2 ^ (x.width - 1) := by positivity
  unfold AInt.sint
  split <;> omega

theorem num_eq_zero {k : Kind} {x : AInt} (hx : x.Ok) : (x.num k).val = 0 ↔ x.bits = 0 := by
  cases k
  · show ((x.bits : Nat) : Int) = 0 ↔ _
    omega
  · exact sint_eq_zero hx

theorem num_inj {k : Kind} {x y : AInt} (hx : x.Ok) (hy : y.Ok) (h : x.num k = y.num k) : x = y := by
  rw [← num_inError (k := k) hx, h, num_inError hy]

/-! ## Calls -/

/-- What the abstract machine over bit patterns does, read at type `k`. -/
def didOf (k : Kind) : Option (Except AErr AInt) → Did Num
  | none => .panics
  | some (.error e) => .reports e
  | some (.ok z) => .gives (z.num k)

/-- An in-place call on `a` agrees with the abstract machine. -/
def TStored (a : WInt) (r : Run (Res Unit × WInt)) : Did Num → Prop
  | .absent => False
  | .panics => r = .error .panic
  | .reports e => ∃ e', r = .ok (.error e', a) ∧ e'.abs = e
  | .gives z => ∃ c : WInt, r = .ok (.ok (), c) ∧ c.WF ∧ c.num = z

/-- A call making an integer agrees with the abstract machine. -/
def TMade (r : Run (Res WInt)) : Did Num → Prop
  | .absent => False
  | .panics => r = .error .panic
  | .reports e => ∃ e', r = .ok (.error e') ∧ e'.abs = e
  | .gives z => ∃ c : WInt, r = .ok (.ok c) ∧ c.WF ∧ c.num = z

/-- A query agrees with the abstract machine. -/
def TTold (r : Run (Res TOut)) : Did TOut → Prop
  | .absent => False
  | .panics => r = .error .panic
  | .reports e => ∃ e', r = .ok (.error e') ∧ e'.abs = e
  | .gives z => r = .ok (.ok z)

theorem Stored.u {a : ApInt} {r : Run (Res Unit × ApInt)} {s : Option (Except AErr AInt)}
    (h : Stored a r s) : TStored (.u ⟨a⟩) (putMut .u (UInt.liftMut r)) (didOf .unsigned s) := by
  match s, h with
  | none, h =>
    have h : r = .error .panic := h
    subst h; rfl
  | some (.error e), ⟨e', h, he⟩ => exact ⟨e', by rw [h]; rfl, he⟩
  | some (.ok z), ⟨c, h, h1, h2⟩ => exact ⟨.u ⟨c⟩, by rw [h]; rfl, h1, by rw [← h2]; rfl⟩

theorem Stored.s {a : ApInt} {r : Run (Res Unit × ApInt)} {s : Option (Except AErr AInt)}
    (h : Stored a r s) : TStored (.s ⟨a⟩) (putMut .s (SInt.liftMut r)) (didOf .signed s) := by
  match s, h with
  | none, h =>
    have h : r = .error .panic := h
    subst h; rfl
  | some (.error e), ⟨e', h, he⟩ => exact ⟨e', by rw [h]; rfl, he⟩
  | some (.ok z), ⟨c, h, h1, h2⟩ => exact ⟨.s ⟨c⟩, by rw [h]; rfl, h1, by rw [← h2]; rfl⟩

theorem Stored.doneU {a : ApInt} {r : Run ApInt} {s : Option (Except AErr AInt)}
    (h : Stored a (done r) s) : TStored (.u ⟨a⟩) (putDone .u (UInt.lift r)) (didOf .unsigned s) := by
  have h := h.u
  have e : putDone WInt.u (UInt.lift r) = putMut .u (UInt.liftMut (done r)) := by
    cases r <;> rfl
  rw [e]; exact h

theorem Stored.doneS {a : ApInt} {r : Run ApInt} {s : Option (Except AErr AInt)}
    (h : Stored a (done r) s) : TStored (.s ⟨a⟩) (putDone .s (SInt.lift r)) (didOf .signed s) := by
  have h := h.s
  have e : putDone WInt.s (SInt.lift r) = putMut .s (SInt.liftMut (done r)) := by
    cases r <;> rfl
  rw [e]; exact h

theorem Made.u {r : Run (Res ApInt)} {s : Option (Except AErr AInt)}
    (h : Made r s) : TMade (putRes .u (UInt.liftRes r)) (didOf .unsigned s) := by
  match s, h with
  | none, h =>
    have h : r = .error .panic := h
    subst h; rfl
  | some (.error e), ⟨e', h, he⟩ => exact ⟨e', by rw [h]; rfl, he⟩
  | some (.ok z), ⟨c, h, h1, h2⟩ => exact ⟨.u ⟨c⟩, by rw [h]; rfl, h1, by rw [← h2]; rfl⟩

theorem Made.s {r : Run (Res ApInt)} {s : Option (Except AErr AInt)}
    (h : Made r s) : TMade (putRes .s (SInt.liftRes r)) (didOf .signed s) := by
  match s, h with
  | none, h =>
    have h : r = .error .panic := h
    subst h; rfl
  | some (.error e), ⟨e', h, he⟩ => exact ⟨e', by rw [h]; rfl, he⟩
  | some (.ok z), ⟨c, h, h1, h2⟩ => exact ⟨.s ⟨c⟩, by rw [h]; rfl, h1, by rw [← h2]; rfl⟩

theorem Made.newU {r : Run ApInt} {s : Option (Except AErr AInt)}
    (h : Made (fine r) s) : TMade (putNew .u (UInt.lift r)) (didOf .unsigned s) := by
  have h := h.u
  have e : putNew WInt.u (UInt.lift r) = putRes .u (UInt.liftRes (fine r)) := by
    cases r <;> rfl
  rw [e]; exact h

theorem Made.newS {r : Run ApInt} {s : Option (Except AErr AInt)}
    (h : Made (fine r) s) : TMade (putNew .s (SInt.lift r)) (didOf .signed s) := by
  have h := h.s
  have e : putNew WInt.s (SInt.lift r) = putRes .s (SInt.liftRes (fine r)) := by
    cases r <;> rfl
  rw [e]; exact h

section

variable {α β : Type} {f : α → WInt} {d : Did Num}

theorem TStored.into {x : α} {y : β} {op : α → β → Run (Res Unit × α)}
    (h : TStored (f x) (putMut f (op x y)) d) :
    TMade (putRes f (tryForwardBinMutImpl x y op)) d := by
  unfold tryForwardBinMutImpl
  rcases hr : op x y with e | ⟨e | ⟨⟩, c⟩ <;> rw [hr] at h <;> match d, h with
  | .panics, h => first | (cases h; done) | (cases h; rfl)
  | .reports e, ⟨e', h, he⟩ =>
    first
      | (cases h; done)
      | (have h := Except.error.inj (congrArg Prod.fst (Except.ok.inj h)); exact ⟨_, rfl, h ▸ he⟩)
  | .gives z, ⟨c, h, h1, h2⟩ => first | (cases h; done) | (cases h; exact ⟨_, rfl, h1, h2⟩)

theorem TStored.new {a : WInt} {r : Run α} (h : TStored a (putDone f r) d) :
    TMade (putNew f r) d := by
  cases r <;> match d, h with
  | .panics, h => first | (cases h; done) | (cases h; rfl)
  | .reports e, ⟨e', h, he⟩ => cases h
  | .gives z, ⟨c, h, h1, h2⟩ => first | (cases h; done) | (cases h; exact ⟨_, rfl, h1, h2⟩)

theorem TStored.op {a : WInt} {r : Run (Res Unit × α)} (h : TStored a (putMut f r) d) :
    TStored a (putDone f (unwrapMut r)) d.op := by
  rcases r with e | ⟨e | ⟨⟩, c⟩ <;> match d, h with
  | .panics, h => first | (cases h; done) | (cases h; rfl)
  | .reports e, ⟨e', h, he⟩ => first | (cases h; done) | rfl
  | .gives z, ⟨c, h, h1, h2⟩ => first | (cases h; done) | (cases h; exact ⟨_, rfl, h1, h2⟩)

theorem TMade.op {r : Run (Res α)} (h : TMade (putRes f r) d) :
    TMade (putNew f (unwrapRes r)) d.op := by
  rcases r with e | e | c <;> match d, h with
  | .panics, h => first | (cases h; done) | (cases h; rfl)
  | .reports e, ⟨e', h, he⟩ => first | (cases h; done) | rfl
  | .gives z, ⟨c, h, h1, h2⟩ => first | (cases h; done) | (cases h; exact ⟨_, rfl, h1, h2⟩)

end

/-! ## Unary calls -/

theorem of_unsigned_small {w n : Nat} (h : n < 2 ^ w) : Num.of .unsigned w n = ⟨.unsigned, w, n⟩ := by
  unfold Num.of
  have : ((n : Nat) : Int) < 2 ^ w := by exact_mod_cast h
  simp only [Int.emod_eq_of_lt (Int.natCast_nonneg n) this]

theorem sint_range {x : AInt} (hx : x.Ok) :
    -2 ^ (x.width - 1) ≤ x.sint ∧ x.sint < 2 ^ (x.width - 1) := by
  have h1 : ((x.bits : Nat) : Int) < 2 ^ x.width := by exact_mod_cast hx.lt
  have h2 := pow_even hx.pos
  have h3 : ((2 ^ (x.width - 1) : Nat) : Int) = 2 ^ (x.width - 1) := by push_cast; rfl
  unfold AInt.sint
  split <;> omega

theorem of_signed_small {w : Nat} {v : Int} (hw : 0 < w) (h1 : -2 ^ (w - 1) ≤ v)
    (h2 : v < 2 ^ (w - 1)) : Num.of .signed w v = ⟨.signed, w, v⟩ := by
  unfold Num.of
  simp only [bmod_of_range hw h1 h2]

/-- The call on bit patterns behind a call on numbers. -/
def TUn.base (k : Kind) : TUn → Un
  | .not => .bitnot
  | .neg | .abs => .neg
  | .shl s => .shl s
  | .shr s =>
    match k with
    | .unsigned => .lshr s
    | .signed => .ashr s
  | .truncate t => .truncate t
  | .extend t =>
    match k with
    | .unsigned => .zeroExtend t
    | .signed => .signExtend t
  | .resize t =>
    match k with
    | .unsigned => .zeroResize t
    | .signed => .signResize t

theorem didOf_ite (k : Kind) (c : Prop) [Decidable c] (a b : Except AErr AInt) :
    didOf k (some (if c then a else b)) = if c then didOf k (some a) else didOf k (some b) := by
  split <;> rfl

theorem tun_spec (k : Kind) {x : AInt} (hx : x.Ok) (o : TUn) (ho : o ≠ .abs) :
    o.spec (x.num k) = didOf k (some ((o.base k).spec x)) := by
  obtain ⟨j, hj⟩ := num_val k x
  cases o with
  | abs => exact absurd rfl ho
  | not =>
    exact congrArg Did.gives (num_ofInt' k hx.pos ⟨-j, by rw [hj]; ring⟩).symm
  | neg =>
    exact congrArg Did.gives (num_ofInt' k hx.pos ⟨-j, by rw [hj]; ring⟩).symm
  | shl s =>
    show (if s < x.width then _ else _) = didOf k (some (if s < x.width then _ else _))
    rw [didOf_ite]
    refine if_congr Iff.rfl ?_ rfl
    exact congrArg Did.gives (num_ofInt' k hx.pos ⟨j * 2 ^ s, by rw [hj]; ring⟩).symm
  | shr s =>
    cases k
    · show (if s < x.width then _ else _) = didOf _ (some (if s < x.width then _ else _))
      rw [didOf_ite]
      exact if_congr Iff.rfl (congrArg Did.gives (num_ofInt _ hx.pos _).symm) rfl
    · show (if s < x.width then _ else _) = didOf _ (some (if s < x.width then _ else _))
      rw [didOf_ite]
      exact if_congr Iff.rfl (congrArg Did.gives (num_ofInt _ hx.pos _).symm) rfl
  | truncate t =>
    show (if t.toUsize ≤ x.width then _ else _) = didOf k (some (if t.toUsize ≤ x.width then _ else _))
    rw [didOf_ite]
    by_cases h : t.toUsize ≤ x.width
    · rw [if_pos h, if_pos h]
      refine congrArg Did.gives (num_ofInt' k t.pos ⟨2 ^ (x.width - t.toUsize) * j, ?_⟩).symm
      rw [hj, ← mul_assoc, ← pow_add, Nat.add_sub_cancel' h]
    · rw [if_neg h, if_neg h]; rfl
  | extend t =>
    cases k
    · show (if x.width ≤ t.toUsize then _ else _) =
        didOf _ (some (if x.width ≤ t.toUsize then _ else _))
      rw [didOf_ite]
      by_cases h : x.width ≤ t.toUsize
      · rw [if_pos h, if_pos h]
        refine congrArg Did.gives ?_
        rw [num_ofInt _ t.pos, of_unsigned_small
          (lt_of_lt_of_le hx.lt (Nat.pow_le_pow_right (by decide) h))]
        rfl
      · rw [if_neg h, if_neg h]; rfl
    · show (if x.width ≤ t.toUsize then _ else _) =
        didOf _ (some (if x.width ≤ t.toUsize then _ else _))
      rw [didOf_ite]
      by_cases h : x.width ≤ t.toUsize
      · rw [if_pos h, if_pos h]
        refine congrArg Did.gives ?_
        have h1 := sint_range hx
        have h2 : (2 : Int) ^ (x.width - 1) ≤ 2 ^ (t.toUsize - 1) :=
          pow_le_pow_right₀ (by decide) (by omega)
        rw [num_ofInt _ t.pos, of_signed_small t.pos (by omega) (by omega)]
        rfl
      · rw [if_neg h, if_neg h]; rfl
  | resize t =>
    cases k
    · exact congrArg Did.gives (num_ofInt _ t.pos _).symm
    · exact congrArg Did.gives (num_ofInt _ t.pos _).symm

theorem abs_stored {a : SInt} (ha : a.value.WF) :
    TStored (.s a) (putDone .s a.wrappingAbs) (TUn.abs.spec (a.value.abs.num .signed)) := by
  obtain ⟨⟨c, e, h1, h2, h3⟩, -⟩ := C38_abs ha
  refine ⟨.s c, by rw [e]; rfl, h1, ?_⟩
  show Num.mk _ _ _ = Num.of _ _ _
  unfold Num.of w
  rw [h2, h3]; rfl

/-- An in-place call agrees with the abstract machine. -/
def TIn (a : WInt) (r : Option (Run (Res Unit × WInt))) (d : Did Num) : Prop :=
  match r with
  | some r => TStored a r d
  | none => d = .absent

/-- A consuming call agrees with the abstract machine. -/
def TInto (r : Option (Run (Res WInt))) (d : Did Num) : Prop :=
  match r with
  | some r => TMade r d
  | none => d = .absent

/-- A query agrees with the abstract machine. -/
def TTells (r : Option (Run (Res TOut))) (d : Did TOut) : Prop :=
  match r with
  | some r => TTold r d
  | none => d = .absent

theorem TIn.new {α : Type} {f : α → WInt} {d : Did Num} {a : WInt} {r : Run α}
    (h : TIn a (some (putDone f r)) d) : TInto (some (putNew f r)) d := TStored.new h

theorem tun_stored (o : TUn) {a : WInt} (ha : a.WF) : TIn a (o.exec a) (o.spec a.num) := by
  cases a with
  | u a =>
    have ha : a.value.WF := ha
    by_cases ho : o = .abs
    · subst ho; rfl
    · show TIn (.u a) (o.exec (.u a)) (o.spec (a.value.abs.num .unsigned))
      rw [tun_spec _ (ok_abs ha) o ho]
      have h := un_stored (o.base .unsigned) ha
      cases o with
      | abs => exact absurd rfl ho
      | not => exact h.doneU
      | neg => exact h.doneU
      | resize t => exact h.doneU
      | shl s => exact h.u
      | shr s => exact h.u
      | truncate t => exact h.u
      | extend t => exact h.u
  | s a =>
    have ha : a.value.WF := ha
    by_cases ho : o = .abs
    · subst ho; exact abs_stored ha
    · show TIn (.s a) (o.exec (.s a)) (o.spec (a.value.abs.num .signed))
      rw [tun_spec _ (ok_abs ha) o ho]
      have h := un_stored (o.base .signed) ha
      cases o with
      | abs => exact absurd rfl ho
      | not => exact h.doneS
      | neg => exact h.doneS
      | resize t => exact h.doneS
      | shl s => exact h.s
      | shr s => exact h.s
      | truncate t => exact h.s
      | extend t => exact h.s

theorem tun_made (o : TUn) {a : WInt} (ha : a.WF) : TInto (o.execInto a) (o.spec a.num) := by
  have h := tun_stored o ha
  cases a with
  | u a =>
    cases o with
    | abs => rfl
    | not => exact TIn.new (f := .u) (r := a.bitnot) h
    | neg => exact TIn.new (f := .u) (r := a.wrappingNeg) h
    | resize t => exact TIn.new (f := .u) (r := a.resize t) h
    | shl s =>
      show TMade (putRes _ (UInt.liftRes _)) _
      erw [UInt.liftRes_tryForward]
      exact TStored.into h
    | shr s =>
      show TMade (putRes _ (UInt.liftRes _)) _
      erw [UInt.liftRes_tryForward]
      exact TStored.into h
    | truncate t => exact TStored.into h
    | extend t => exact TStored.into h
  | s a =>
    cases o with
    | abs => exact TIn.new (f := .s) (r := a.wrappingAbs) h
    | not => exact TIn.new (f := .s) (r := a.bitnot) h
    | neg => exact TIn.new (f := .s) (r := a.wrappingNeg) h
    | resize t => exact TIn.new (f := .s) (r := a.resize t) h
    | shl s =>
      show TMade (putRes _ (SInt.liftRes _)) _
      erw [SInt.liftRes_tryForward]
      exact TStored.into h
    | shr s =>
      show TMade (putRes _ (SInt.liftRes _)) _
      erw [SInt.liftRes_tryForward]
      exact TStored.into h
    | truncate t => exact TStored.into h
    | extend t => exact TStored.into h

theorem tunop_made (o : TUnOp) {a : WInt} (ha : a.WF) :
    TMade (o.exec a) (o.un.spec a.num).op := by
  have h := tun_made o.un ha
  cases a <;> cases o
  all_goals first | exact TMade.op h | exact h

theorem tshift_stored (o : TShift) {a : WInt} (ha : a.WF) :
    TStored a (o.exec a) (o.un.spec a.num).op := by
  have h := tun_stored o.un ha
  cases a <;> cases o
  all_goals exact TStored.op h

/-! ## Bits -/

theorem num_mapBit {k : Kind} {x : AInt} (hx : x.Ok) {p : Nat} (hp : p < x.width)
    (f : Bool → Bool) : (x.num k).mapBit p f = (x.mapBit p f).num k := by
  have hb : ∀ i, (x.mapBit p f).bits.testBit i =
      if i = p then f (x.bits.testBit p) else x.bits.testBit i :=
    replaceBit x.bits p (f (x.bits.testBit p))
  have hlt : (x.mapBit p f).bits < 2 ^ x.width := by
    apply Nat.lt_pow_two_of_testBit
    intro i hi
    rw [hb, if_neg (by omega)]
    exact Nat.testBit_lt_two_pow (lt_of_lt_of_le hx.lt (Nat.pow_le_pow_right (by decide) hi))
  unfold Num.mapBit
  refine (num_ofBits hx hlt fun q hq => ?_).trans rfl
  rw [hb, num_bit hq]
  by_cases h : q = p
  · subst h; simp
  · rw [if_neg h, if_neg h]

/-- The call on bit patterns behind a call on numbers. -/
def TAlter.base : TAlter → Alter
  | .setAll => .setAll
  | .unsetAll => .unsetAll
  | .flipAll => .flipAll
  | .setMsb => .setMsb
  | .unsetMsb => .unsetMsb
  | .flipMsb => .flipMsb
  | .setBit p => .setBit p
  | .unsetBit p => .unsetBit p
  | .flipBit p => .flipBit p
  | .randomize rng => .randomize rng

theorem talter_bit (k : Kind) {x : AInt} (hx : x.Ok) (p : Nat) (f : Bool → Bool) :
    (if p < x.width then Did.gives ((x.num k).mapBit p f) else .reports (.bit p x.width)) =
      didOf k (some (if p < x.width then .ok (x.mapBit p f) else .error (.bit p x.width))) := by
  rw [didOf_ite]
  by_cases h : p < x.width
  · rw [if_pos h, if_pos h, num_mapBit hx h]; rfl
  · rw [if_neg h, if_neg h]; rfl

theorem talter_spec {x : AInt} (hx : x.Ok) (o : TAlter) :
    o.spec (x.num .signed) = didOf .signed (some (o.base.spec x)) := by
  obtain ⟨j, hj⟩ := num_val .signed x
  have hp := hx.pos
  cases o with
  | setAll => exact congrArg Did.gives (num_ofInt _ hx.pos _).symm
  | unsetAll => exact congrArg Did.gives (num_ofInt _ hx.pos _).symm
  | flipAll => exact congrArg Did.gives (num_ofInt' _ hx.pos ⟨-j, by rw [hj]; ring⟩).symm
  | setMsb => exact congrArg Did.gives (num_mapBit hx (Nat.sub_lt hp (by decide)) _)
  | unsetMsb => exact congrArg Did.gives (num_mapBit hx (Nat.sub_lt hp (by decide)) _)
  | flipMsb => exact congrArg Did.gives (num_mapBit hx (Nat.sub_lt hp (by decide)) _)
  | setBit p => exact talter_bit _ hx p _
  | unsetBit p => exact talter_bit _ hx p _
  | flipBit p => exact talter_bit _ hx p _
  | randomize rng => exact congrArg Did.gives (num_ofInt _ hx.pos _).symm

theorem talter_spec_u {x : AInt} (hx : x.Ok) (o : TAlter)
    (ho : o ≠ .setMsb ∧ o ≠ .unsetMsb ∧ o ≠ .flipMsb) :
    o.spec (x.num .unsigned) = didOf .unsigned (some (o.base.spec x)) := by
  cases o with
  | setAll => exact congrArg Did.gives (num_ofInt _ hx.pos _).symm
  | unsetAll => exact congrArg Did.gives (num_ofInt _ hx.pos _).symm
  | flipAll => exact congrArg Did.gives (num_ofInt _ hx.pos _).symm
  | setMsb => exact absurd rfl ho.1
  | unsetMsb => exact absurd rfl ho.2.1
  | flipMsb => exact absurd rfl ho.2.2
  | setBit p => exact talter_bit _ hx p _
  | unsetBit p => exact talter_bit _ hx p _
  | flipBit p => exact talter_bit _ hx p _
  | randomize rng => exact congrArg Did.gives (num_ofInt _ hx.pos _).symm

theorem talter_stored (o : TAlter) {a : WInt} (ha : a.WF) : TIn a (o.exec a) (o.spec a.num) := by
  cases a with
  | u a =>
    have ha : a.value.WF := ha
    by_cases ho : o ≠ .setMsb ∧ o ≠ .unsetMsb ∧ o ≠ .flipMsb
    · show TIn (.u a) (o.exec (.u a)) (o.spec (a.value.abs.num .unsigned))
      rw [talter_spec_u (ok_abs ha) o ho]
      have h := alter_stored o.base ha
      cases o with
      | setAll => exact h.doneU
      | unsetAll => exact h.doneU
      | flipAll => exact h.doneU
      | setMsb => exact absurd rfl ho.1
      | unsetMsb => exact absurd rfl ho.2.1
      | flipMsb => exact absurd rfl ho.2.2
      | setBit p => exact h.u
      | unsetBit p => exact h.u
      | flipBit p => exact h.u
      | randomize rng =>
        have h := h.doneU
        have e : (do let (c, _) ← a.randomizeUsing rng; pure c) =
            UInt.lift (do let (c, _) ← a.value.randomizeUsing rng; pure c) := by
          unfold UInt.randomizeUsing UInt.lift
          cases a.value.randomizeUsing rng <;> rfl
        show TIn (.u a) (some (putDone .u (do let (c, _) ← a.randomizeUsing rng; pure c))) _
        rw [e]
        exact h
    · cases o with
      | setMsb => rfl
      | unsetMsb => rfl
      | flipMsb => rfl
      | _ => exact absurd ⟨nofun, nofun, nofun⟩ ho
  | s a =>
    have ha : a.value.WF := ha
    show TIn (.s a) (o.exec (.s a)) (o.spec (a.value.abs.num .signed))
    rw [talter_spec (ok_abs ha) o]
    have h := alter_stored o.base ha
    cases o with
    | setAll => exact h.doneS
    | unsetAll => exact h.doneS
    | flipAll => exact h.doneS
    | setMsb => exact h.doneS
    | unsetMsb => exact h.doneS
    | flipMsb => exact h.doneS
    | setBit p => exact h.s
    | unsetBit p => exact h.s
    | flipBit p => exact h.s
    | randomize rng =>
      have h := h.doneS
      have e : (do let (c, _) ← a.randomizeUsing rng; pure c) =
          SInt.lift (do let (c, _) ← a.value.randomizeUsing rng; pure c) := by
        unfold SInt.randomizeUsing SInt.lift
        cases a.value.randomizeUsing rng <;> rfl
      show TIn (.s a) (some (putDone .s (do let (c, _) ← a.randomizeUsing rng; pure c))) _
      rw [e]
      exact h

/-! ## Binary calls -/

/-- The call on bit patterns behind a call on numbers. -/
def TBin.base (k : Kind) : TBin → Bin
  | .add => .add
  | .sub => .sub
  | .mul => .mul
  | .and => .and
  | .or => .or
  | .xor => .xor
  | .div =>
    match k with
    | .unsigned => .udiv
    | .signed => .sdiv
  | .rem =>
    match k with
    | .unsigned => .urem
    | .signed => .srem

theorem ring_spec (k : Kind) {x y : AInt} {z : Num} {v : Int}
    (h : x.width = y.width → z = (AInt.ofInt x.width v).num k) :
    (if x.width = y.width then Did.gives z else .reports (.widths x.width y.width)) =
      didOf k (some (if x.width = y.width then .ok (AInt.ofInt x.width v)
        else .error (.widths x.width y.width))) := by
  rw [didOf_ite]
  by_cases e : x.width = y.width
  · rw [if_pos e, if_pos e, h e]; rfl
  · rw [if_neg e, if_neg e]; rfl

theorem num_bitwise (k : Kind) {x y : AInt} (hx : x.Ok) (e : x.width = y.width)
    {g : Bool → Bool → Bool} {n : Nat} (hn : n < 2 ^ x.width)
    (hg : ∀ p, n.testBit p = g (x.bits.testBit p) (y.bits.testBit p)) :
    ((x.num k).ofBits fun p => g ((x.num k).bit p) ((y.num k).bit p)) =
      (AInt.ofInt x.width n).num k := by
  have h2 := self_ofInt (x := ⟨x.width, n⟩) ⟨hx.pos, hn⟩
  have h2 : AInt.ofInt x.width n = ⟨x.width, n⟩ := h2
  rw [h2]
  refine num_ofBits hx hn fun p hp => ?_
  rw [num_bit hp, num_bit (e ▸ hp), hg]

theorem udiv_spec {x y : AInt} (hx : x.Ok) (op : DivOp) {v v' : Int} (h : v' = v) :
    (if x.width ≠ y.width then Did.reports (.widths x.width y.width)
      else if ((y.num .unsigned).val = 0) then .reports (.divZero op (x.num .unsigned).inError)
      else .gives (Num.of .unsigned x.width v')) =
    didOf .unsigned (some (if x.width ≠ y.width then .error (.widths x.width y.width)
      else if y.bits = 0 then .error (.divZero op x) else .ok (AInt.ofInt x.width v))) := by
  subst h
  rw [num_inError hx, didOf_ite, didOf_ite]
  refine if_congr Iff.rfl rfl (if_congr ?_ rfl ?_)
  · show ((y.bits : Nat) : Int) = 0 ↔ _
    omega
  · exact congrArg Did.gives (num_ofInt _ hx.pos _).symm

theorem sdiv_spec {x y : AInt} (hx : x.Ok) (hy : y.Ok) (op : DivOp) (v : Int) :
    (if ((y.num .signed).val = 0) then Did.reports (.divZero op (x.num .signed).inError)
      else if x.width ≠ y.width then .panics
      else .gives (Num.of .signed x.width v)) =
    didOf .signed (if y.bits = 0 then some (.error (.divZero op x))
      else if x.width ≠ y.width then none else some (.ok (AInt.ofInt x.width v))) := by
  rw [num_inError hx]
  by_cases h : y.bits = 0
  · rw [if_pos h, if_pos ((num_eq_zero hy).mpr h)]; rfl
  · rw [if_neg h, if_neg (fun h' => h ((num_eq_zero hy).mp h'))]
    by_cases h : x.width ≠ y.width
    · rw [if_pos h, if_pos h]; rfl
    · rw [if_neg h, if_neg h]
      exact congrArg Did.gives (num_ofInt _ hx.pos _).symm

theorem tbin_spec (k : Kind) {x y : AInt} (hx : x.Ok) (hy : y.Ok) (o : TBin) :
    o.spec (x.num k) (y.num k) = didOf k ((o.base k).spec x y) := by
  obtain ⟨j, hj⟩ := num_val k x
  obtain ⟨l, hl⟩ := num_val k y
  unfold TBin.spec
  rw [if_neg (by exact fun h => h rfl)]
  cases o with
  | add =>
    refine ring_spec k fun e => (num_ofInt' k hx.pos ⟨j + l, ?_⟩).symm
    rw [hj, hl, e]; ring
  | sub =>
    refine ring_spec k fun e => (num_ofInt' k hx.pos ⟨j - l, ?_⟩).symm
    rw [hj, hl, e]; ring
  | mul =>
    refine ring_spec k fun e => (num_ofInt' k hx.pos
      ⟨x.bits * l + y.bits * j + 2 ^ x.width * j * l, ?_⟩).symm
    rw [hj, hl, e]; ring
  | and =>
    exact ring_spec k fun e => num_bitwise k hx e
      (lt_of_le_of_lt Nat.and_le_left hx.lt) (Nat.testBit_and _ _)
  | or =>
    exact ring_spec k fun e => num_bitwise k hx e
      (Nat.or_lt_two_pow hx.lt (e ▸ hy.lt)) (Nat.testBit_or _ _)
  | xor =>
    exact ring_spec k fun e => num_bitwise k hx e (g := fun a b => a ^^ b)
      (Nat.xor_lt_two_pow hx.lt (e ▸ hy.lt)) (Nat.testBit_xor _ _)
  | div =>
    cases k
    · exact udiv_spec hx _ (Int.tdiv_eq_ediv_of_nonneg (Int.natCast_nonneg _))
    · exact sdiv_spec hx hy _ _
  | rem =>
    cases k
    · exact udiv_spec hx _ (Int.tmod_eq_emod_of_nonneg (Int.natCast_nonneg _))
    · exact sdiv_spec hx hy _ _

theorem tbin_kind {a b : WInt} (h : a.num.kind ≠ b.num.kind) (o : TBin) :
    o.spec a.num b.num = .absent := by
  unfold TBin.spec
  rw [if_pos h]

theorem tbin_stored (o : TBin) {a b : WInt} (ha : a.WF) (hb : b.WF) :
    TIn a (o.exec a b) (o.spec a.num b.num) := by
  cases a <;> cases b
  case u.s a b => exact tbin_kind (a := .u a) (b := .s b) nofun o
  case s.u a b => exact tbin_kind (a := .s a) (b := .u b) nofun o
  case u.u a b =>
    have ha : a.value.WF := ha
    have hb : b.value.WF := hb
    have h := (bin_stored (o.base .unsigned) ha hb).u
    rw [← tbin_spec _ (ok_abs ha) (ok_abs hb)] at h
    cases o <;> exact h
  case s.s a b =>
    have ha : a.value.WF := ha
    have hb : b.value.WF := hb
    have h := (bin_stored (o.base .signed) ha hb).s
    rw [← tbin_spec _ (ok_abs ha) (ok_abs hb)] at h
    cases o <;> exact h

theorem TIn.into {α β : Type} {f : α → WInt} {d : Did Num} {x : α} {y : β}
    {op : α → β → Run (Res Unit × α)} (h : TIn (f x) (some (putMut f (op x y))) d) :
    TInto (some (putRes f (tryForwardBinMutImpl x y op))) d := TStored.into h

theorem tbin_made (o : TBin) {a b : WInt} (ha : a.WF) (hb : b.WF) :
    TInto (o.execInto a b) (o.spec a.num b.num) := by
  have h := tbin_stored o ha hb
  cases a <;> cases b
  case u.s a b => exact tbin_kind (a := .u a) (b := .s b) nofun o
  case s.u a b => exact tbin_kind (a := .s a) (b := .u b) nofun o
  case u.u a b => cases o <;> exact TIn.into (f := .u) h
  case s.s a b => cases o <;> exact TIn.into (f := .s) h

theorem TIn.op {α : Type} {f : α → WInt} {d : Did Num} {a : WInt} {r : Run (Res Unit × α)}
    (h : TIn a (some (putMut f r)) d) : TIn a (some (putDone f (unwrapMut r))) d.op := TStored.op h

theorem TInto.op {α : Type} {f : α → WInt} {d : Did Num} {r : Run (Res α)}
    (h : TInto (some (putRes f r)) d) : TInto (some (putNew f (unwrapRes r))) d.op := TMade.op h

theorem tbin_op (o : TBin) {a b : WInt} (ha : a.WF) (hb : b.WF) :
    TInto (o.execOp a b) (o.spec a.num b.num).op := by
  have h := tbin_made o ha hb
  cases a <;> cases b
  case u.s => exact congrArg Did.op (tbin_kind (a := .u _) (b := .s _) nofun o)
  case s.u => exact congrArg Did.op (tbin_kind (a := .s _) (b := .u _) nofun o)
  case u.u a b => cases o <;> exact TInto.op h
  case s.s a b => cases o <;> exact TInto.op h

theorem tbin_op_assign (o : TBin) {a b : WInt} (ha : a.WF) (hb : b.WF) :
    TIn a (o.execOpAssign a b) (o.spec a.num b.num).op := by
  have h := tbin_stored o ha hb
  cases a <;> cases b
  case u.s => exact congrArg Did.op (tbin_kind (a := .u _) (b := .s _) nofun o)
  case s.u => exact congrArg Did.op (tbin_kind (a := .s _) (b := .u _) nofun o)
  case u.u a b => cases o <;> exact TIn.op h
  case s.s a b => cases o <;> exact TIn.op h

/-! ## Queries -/

/-- The answer of the abstract machine over bit patterns. -/
def toldOf : Option (Except AErr Out) → Did TOut
  | none => .panics
  | some (.error e) => .reports e
  | some (.ok o) => .gives (.out o)

theorem Told.say {α : Type} {f : α → Out} {r : Run α} {s : Option (Except AErr Out)}
    (h : Told (Verif.tell f r) s) : TTold (Verif.say f r) (toldOf s) := by
  match r, s, h with
  | .error _, none, h => cases h; rfl
  | .ok _, none, h => cases h
  | .error _, some _, ⟨y, h, hy⟩ => cases h
  | .ok v, some x, ⟨y, h, hy⟩ => cases h; cases hy; rfl

theorem Told.sayRes {α : Type} {f : α → Out} {r : Run (Res α)} {s : Option (Except AErr Out)}
    (h : Told (Verif.tellRes f r) s) : TTold (Verif.sayRes f r) (toldOf s) := by
  match r, s, h with
  | .error _, none, h => cases h; rfl
  | .ok (.ok _), none, h => cases h
  | .ok (.error _), none, h => cases h
  | .error _, some _, ⟨y, h, hy⟩ => cases h
  | .ok (.ok v), some x, ⟨y, h, hy⟩ => cases h; cases hy; rfl
  | .ok (.error v), some x, ⟨y, h, hy⟩ => cases h; cases hy; exact ⟨v, rfl, rfl⟩

theorem takeWhile_congr' {p q : Nat → Bool} {l : List Nat} (h : ∀ a ∈ l, p a = q a) :
    l.takeWhile p = l.takeWhile q := by
  induction l with
  | nil => rfl
  | cons a l ih =>
    rw [List.takeWhile_cons, List.takeWhile_cons, h a List.mem_cons_self,
      ih fun b hb => h b (List.mem_cons_of_mem _ hb)]

theorem num_mod_two {k : Kind} {x : AInt} (hx : x.Ok) (c : Nat) :
    (x.num k).val % 2 = c ↔ x.bits % 2 = c := by
  obtain ⟨j, hj⟩ := num_val k x
  rw [hj, pow_even hx.pos, mul_assoc, Int.add_mul_emod_self_left]
  omega

/-- The question about bit patterns behind a question about numbers, where there is one. -/
def TAsk.base : TAsk → Option Ask
  | .width => some .width
  | .isZero => some .isZero
  | .isAllUnset => some .isAllUnset
  | .isEven => some .isEven
  | .isOdd => some .isOdd
  | .isNegative | .isPositive | .signum | .msb => none
  | .bit p => some (.bit p)
  | .countOnes => some .countOnes
  | .countZeros => some .countZeros
  | .leadingZeros => some .leadingZeros
  | .trailingZeros => some .trailingZeros
  | .resize _ | .tryTo _ => none
  | .binary => some .binary
  | .lowerHex => some .lowerHex
  | .upperHex => some .upperHex
  | .octal => some .octal

theorem task_spec (k : Kind) {x : AInt} (hx : x.Ok) {q : TAsk} {q' : Ask} (h : q.base = some q') :
    (q.spec (x.num k)).map .out = toldOf (q'.spec x) := by
  have bits : ∀ p, p < x.width → (x.num k).bit p = x.bits.testBit p := fun p hp => num_bit hp
  have dec : ∀ {a b : Prop} [Decidable a] [Decidable b], (a ↔ b) →
      (Did.gives (TOut.out (.bool (decide a))) : Did TOut) = .gives (.out (.bool (decide b))) :=
    fun h => congrArg (fun b => Did.gives (TOut.out (.bool b))) (decide_eq_decide.mpr h)
  have nat : ∀ {a b : Nat}, a = b →
      (Did.gives (TOut.out (.nat a)) : Did TOut) = .gives (.out (.nat b)) := fun h => h ▸ rfl
  cases q <;> cases h
  case width => rfl
  case isZero => exact dec (num_eq_zero hx)
  case isAllUnset => exact dec (num_eq_zero hx)
  case isEven => exact dec (num_mod_two hx 0)
  case isOdd => exact dec (num_mod_two hx 1)
  case bit p =>
    show Did.map _ (if p < x.width then _ else _) = toldOf (some (if p < x.width then _ else _))
    by_cases h : p < x.width
    · rw [if_pos h, if_pos h, bits p h]; rfl
    · rw [if_neg h, if_neg h]; rfl
  case countOnes =>
    refine nat (List.countP_congr fun p hp => ?_)
    rw [bits p (List.mem_range.mp hp)]
  case countZeros =>
    refine nat (List.countP_congr fun p hp => ?_)
    rw [bits p (List.mem_range.mp hp)]
  case leadingZeros =>
    refine nat (congrArg List.length (takeWhile_congr' fun p hp => ?_))
    have hp : p < x.width := List.mem_range.mp hp
    exact congrArg not (bits _ (Nat.lt_of_le_of_lt (Nat.sub_le _ _) (Nat.sub_lt hx.pos (by decide))))
  case trailingZeros =>
    refine nat (congrArg List.length (takeWhile_congr' fun p hp => ?_))
    exact congrArg not (bits _ (List.mem_range.mp hp))
  case binary =>
    show Did.gives (TOut.out (.text (canonical 2 binAlphabet (x.num k).pattern))) = _
    rw [num_pattern hx]; rfl
  case lowerHex =>
    show Did.gives (TOut.out (.text (canonical 16 hexLower (x.num k).pattern))) = _
    rw [num_pattern hx]; rfl
  case upperHex =>
    show Did.gives (TOut.out (.text (canonical 16 hexUpper (x.num k).pattern))) = _
    rw [num_pattern hx]; rfl
  case octal =>
    show Did.map _ (if (x.num k).val = 0 then _ else _) = toldOf (if x.bits = 0 then _ else _)
    by_cases h : x.bits = 0
    · rw [if_pos h, if_pos ((num_eq_zero hx).mpr h)]; rfl
    · rw [if_neg h, if_neg fun h' => h ((num_eq_zero hx).mp h')]; rfl

theorem TTold.to {r : Run (Res TOut)} {d d' : Did TOut} (h : TTold r d) (e : d = d') :
    TTold r d' := e ▸ h

theorem natOut (n m : Nat) : Out.nat (((n : Int) % 2 ^ m).toNat) = Out.nat (n % 2 ^ m) := by
  have : ((n : Int) % 2 ^ m) = ((n % 2 ^ m : Nat) : Int) := by push_cast; rfl
  rw [this]; rfl

theorem boolOut {k : Kind} {x : AInt} (hx : x.Ok) :
    Out.bool (decide ((x.num k).val % 2 = 1)) = Out.bool (decide (x.bits % 2 = 1)) :=
  congrArg Out.bool (decide_eq_decide.mpr (num_mod_two hx 1))

theorem num_cast_u {x : AInt} (hx : x.Ok) {ty : PrimitiveTy} {o : Out}
    (h : (x.num .unsigned).cast ty = some o) : x.cast ty = o := by
  cases ty
  case bool => exact (boolOut hx).symm.trans (Option.some.inj h)
  case u8 => exact (natOut x.bits 8).symm.trans (Option.some.inj h)
  case u16 => exact (natOut x.bits 16).symm.trans (Option.some.inj h)
  case u32 => exact (natOut x.bits 32).symm.trans (Option.some.inj h)
  case u64 => exact (natOut x.bits 64).symm.trans (Option.some.inj h)
  case u128 => exact (natOut x.bits 128).symm.trans (Option.some.inj h)
  all_goals cases h

theorem num_cast_s {x : AInt} (hx : x.Ok) {ty : PrimitiveTy} {o : Out}
    (h : (x.num .signed).cast ty = some o) : x.cast ty = o := by
  cases ty
  case bool => exact (boolOut hx).symm.trans (Option.some.inj h)
  case i8 => exact Option.some.inj h
  case i16 => exact Option.some.inj h
  case i32 => exact Option.some.inj h
  case i64 => exact Option.some.inj h
  case i128 => exact Option.some.inj h
  all_goals cases h

theorem num_cast {k : Kind} {x : AInt} (hx : x.Ok) {ty : PrimitiveTy} {o : Out}
    (h : (x.num k).cast ty = some o) : x.cast ty = o := by
  cases k
  · exact num_cast_u hx h
  · exact num_cast_s hx h

theorem resize_spec {k : Kind} {x : AInt} (hx : x.Ok) {ty : PrimitiveTy}
    (h : ((x.num k).cast ty).isSome) :
    toldOf ((Ask.resize ty).spec x) = ((TAsk.resize ty).spec (x.num k)).map .out := by
  obtain ⟨o, ho⟩ := Option.isSome_iff_exists.mp h
  have e : (TAsk.resize ty).spec (x.num k) = .gives o := by
    show (match (x.num k).cast ty with | some o => _ | none => _) = _
    rw [ho]
  have e' : (Ask.resize ty).spec x = some (.ok (x.cast ty)) := rfl
  rw [e, e', num_cast hx ho]; rfl

theorem try_spec {x : AInt} (hx : x.Ok) {ty : PrimitiveTy}
    (h : ((x.num .unsigned).cast ty).isSome) :
    toldOf ((Ask.tryTo ty).spec x) = ((TAsk.tryTo ty).spec (x.num .unsigned)).map .out := by
  obtain ⟨o, ho⟩ := Option.isSome_iff_exists.mp h
  have e : (TAsk.tryTo ty).spec (x.num .unsigned) =
      if (x.num .unsigned).val < 2 ^ ty.bits then .gives o
        else .reports (.unrepresentable (x.num .unsigned).inError ty) := by
    show (match (x.num .unsigned).cast ty with | some o => _ | none => _) = _
    rw [ho]
  have e' : (Ask.tryTo ty).spec x = some (if x.bits < 2 ^ ty.bits then .ok (x.cast ty)
      else .error (.unrepresentable x ty)) := rfl
  have h1 : (x.num .unsigned).val < 2 ^ ty.bits ↔ x.bits < 2 ^ ty.bits := by
    show ((x.bits : Nat) : Int) < _ ↔ _
    exact_mod_cast Iff.rfl
  rw [e, e', num_cast hx ho, num_inError hx]
  by_cases h : x.bits < 2 ^ ty.bits
  · rw [if_pos h, if_pos (h1.mpr h)]; rfl
  · rw [if_neg h, if_neg fun h' => h (h1.mp h')]; rfl

theorem tresize_u {a : UInt} (ha : a.value.WF) (ty : PrimitiveTy) :
    TTells (a.resizeTo ty) (((TAsk.resize ty).spec (a.value.abs.num .unsigned)).map .out) := by
  have h := resize_told ha ty
  have hx := ok_abs ha
  cases ty
  case bool => rw [← resize_spec (k := .unsigned) (ty := .bool) hx rfl]; exact Told.say h
  case u8 => rw [← resize_spec (k := .unsigned) (ty := .u8) hx rfl]; exact Told.say h
  case u16 => rw [← resize_spec (k := .unsigned) (ty := .u16) hx rfl]; exact Told.say h
  case u32 => rw [← resize_spec (k := .unsigned) (ty := .u32) hx rfl]; exact Told.say h
  case u64 => rw [← resize_spec (k := .unsigned) (ty := .u64) hx rfl]; exact Told.say h
  case u128 => rw [← resize_spec (k := .unsigned) (ty := .u128) hx rfl]; exact Told.say h
  all_goals rfl

theorem tresize_s {a : SInt} (ha : a.value.WF) (ty : PrimitiveTy) :
    TTells (a.resizeTo ty) (((TAsk.resize ty).spec (a.value.abs.num .signed)).map .out) := by
  have h := resize_told ha ty
  have hx := ok_abs ha
  cases ty
  case bool => rw [← resize_spec (k := .signed) (ty := .bool) hx rfl]; exact Told.say h
  case i8 => rw [← resize_spec (k := .signed) (ty := .i8) hx rfl]; exact Told.say h
  case i16 => rw [← resize_spec (k := .signed) (ty := .i16) hx rfl]; exact Told.say h
  case i32 => rw [← resize_spec (k := .signed) (ty := .i32) hx rfl]; exact Told.say h
  case i64 => rw [← resize_spec (k := .signed) (ty := .i64) hx rfl]; exact Told.say h
  case i128 => rw [← resize_spec (k := .signed) (ty := .i128) hx rfl]; exact Told.say h
  all_goals rfl

theorem ttry_u {a : UInt} (ha : a.value.WF) (ty : PrimitiveTy) :
    TTells (a.tryTo ty) (((TAsk.tryTo ty).spec (a.value.abs.num .unsigned)).map .out) := by
  have h := try_told ha ty
  have hx := ok_abs ha
  cases ty
  case bool => rw [← try_spec (ty := .bool) hx rfl]; exact Told.sayRes h
  case u8 => rw [← try_spec (ty := .u8) hx rfl]; exact Told.sayRes h
  case u16 => rw [← try_spec (ty := .u16) hx rfl]; exact Told.sayRes h
  case u32 => rw [← try_spec (ty := .u32) hx rfl]; exact Told.sayRes h
  case u64 => rw [← try_spec (ty := .u64) hx rfl]; exact Told.sayRes h
  case u128 => rw [← try_spec (ty := .u128) hx rfl]; exact Told.sayRes h
  all_goals rfl

theorem say_ok {α : Type} {f : α → Out} {r : Run α} {v : α} (h : r = .ok v) :
    say f r = .ok (.ok (.out (f v))) := by rw [h]; rfl

theorem task_told (q : TAsk) {a : WInt} (ha : a.WF) :
    TTells (q.exec a) ((q.spec a.num).map .out) := by
  cases a with
  | u a =>
    have ha : a.value.WF := ha
    have base : ∀ {q' : Ask}, q.base = some q' →
        (q.spec (a.value.abs.num .unsigned)).map .out = toldOf (q'.spec a.value.abs) :=
      fun h => task_spec .unsigned (ok_abs ha) h
    show TTells _ ((q.spec (a.value.abs.num .unsigned)).map .out)
    cases q
    case isNegative => rfl
    case isPositive => rfl
    case signum => rfl
    case msb => rfl
    case resize ty => exact tresize_u ha ty
    case tryTo ty => exact ttry_u ha ty
    case width => rfl
    case isZero => rw [base rfl]; exact Told.say (ask_told .isZero ha)
    case isAllUnset => rw [base rfl]; exact Told.say (ask_told .isAllUnset ha)
    case isEven => rw [base rfl]; exact Told.say (ask_told .isEven ha)
    case isOdd => rw [base rfl]; exact Told.say (ask_told .isOdd ha)
    case countOnes => rw [base rfl]; exact Told.say (ask_told .countOnes ha)
    case countZeros => rw [base rfl]; exact Told.say (ask_told .countZeros ha)
    case leadingZeros => rw [base rfl]; exact Told.say (ask_told .leadingZeros ha)
    case trailingZeros => rw [base rfl]; exact Told.say (ask_told .trailingZeros ha)
    case binary => rw [base rfl]; exact Told.say (ask_told .binary ha)
    case lowerHex => rw [base rfl]; exact Told.say (ask_told .lowerHex ha)
    case upperHex => rw [base rfl]; exact Told.say (ask_told .upperHex ha)
    case octal => rw [base rfl]; exact Told.say (ask_told .octal ha)
    case bit p => rw [base rfl]; exact Told.sayRes (ask_told (.bit p) ha)
  | s a =>
    have ha : a.value.WF := ha
    have base : ∀ {q' : Ask}, q.base = some q' →
        (q.spec (a.value.abs.num .signed)).map .out = toldOf (q'.spec a.value.abs) :=
      fun h => task_spec .signed (ok_abs ha) h
    show TTells _ ((q.spec (a.value.abs.num .signed)).map .out)
    cases q
    case isNegative => exact say_ok (C35_sign ha).1
    case isPositive => exact say_ok (C35_sign ha).2.1
    case signum => exact say_ok (C35_sign ha).2.2
    case msb => exact Told.say (ask_told .msb ha)
    case resize ty => exact tresize_s ha ty
    case tryTo ty => rfl
    case width => rfl
    case isZero => rw [base rfl]; exact Told.say (ask_told .isZero ha)
    case isAllUnset => rw [base rfl]; exact Told.say (ask_told .isAllUnset ha)
    case isEven => rw [base rfl]; exact Told.say (ask_told .isEven ha)
    case isOdd => rw [base rfl]; exact Told.say (ask_told .isOdd ha)
    case countOnes => rw [base rfl]; exact Told.say (ask_told .countOnes ha)
    case countZeros => rw [base rfl]; exact Told.say (ask_told .countZeros ha)
    case leadingZeros => rw [base rfl]; exact Told.say (ask_told .leadingZeros ha)
    case trailingZeros => rw [base rfl]; exact Told.say (ask_told .trailingZeros ha)
    case binary => rw [base rfl]; exact Told.say (ask_told .binary ha)
    case lowerHex => rw [base rfl]; exact Told.say (ask_told .lowerHex ha)
    case upperHex => rw [base rfl]; exact Told.say (ask_told .upperHex ha)
    case octal => rw [base rfl]; exact Told.say (ask_told .octal ha)
    case bit p => rw [base rfl]; exact Told.sayRes (ask_told (.bit p) ha)

/-! ## Comparisons -/

theorem num_lt (k : Kind) (x y : AInt) :
    ((x.num k).val < (y.num k).val) ↔
      match k with
      | .unsigned => x.bits < y.bits
      | .signed => x.sint < y.sint := by
  cases k
  · show ((x.bits : Nat) : Int) < (y.bits : Nat) ↔ _
    exact Int.ofNat_lt
  · exact Iff.rfl

theorem tcmp {r : Run (Res Bool)} {x y : AInt} {p q : Prop} [Decidable p] [Decidable q]
    {e : AErr} (hpq : p ↔ q)
    (h : Told (Verif.tellRes .bool r)
      (some (if x.width = y.width then .ok (.bool (decide p)) else .error e))) :
    TTold (Verif.sayRes .bool r)
      (if x.width = y.width then .gives (.out (.bool (decide q))) else .reports e) := by
  refine (Told.sayRes h).to ?_
  by_cases hw : x.width = y.width
  · rw [if_pos hw, if_pos hw, decide_eq_decide.mpr hpq]; rfl
  · rw [if_neg hw, if_neg hw]; rfl

theorem top {r : Run Bool} {x y : Nat} {p q : Prop} [Decidable p] [Decidable q]
    (hpq : p ↔ q) (h : r = .ok (decide (x = y ∧ p))) :
    TTold (Verif.say .bool r) (.gives (.out (.bool (decide (x = y) && decide q)))) := by
  refine (say_ok h).trans ?_
  rw [Bool.decide_and, decide_eq_decide.mpr hpq]

theorem tord {r : Run (Option Ordering)} {x y : Nat} {a b : Int}
    (h : r = .ok (if x = y then some (ordOf a b) else none)) :
    TTold (do let o ← r; pure (.ok (.ord o)))
      (.gives (.ord (if x = y then some (if a < b then .lt else if a = b then .eq else .gt)
        else none))) := by
  rw [h]; rfl

theorem teq {k : Kind} {a b : ApInt} (ha : a.WF) (hb : b.WF) :
    TTold (Verif.say .bool (a.eq b)) (.gives (.out (.bool (decide (a.abs.num k = b.abs.num k))))) := by
  refine (Told.say (ask2_told .eq ha hb)).to ?_
  have e : a.abs = b.abs ↔ a.abs.num k = b.abs.num k :=
    ⟨fun h => by rw [h], num_inj (ok_abs ha) (ok_abs hb)⟩
  show Did.gives (TOut.out (.bool (decide (a.abs = b.abs)))) = _
  rw [decide_eq_decide.mpr e]

theorem task2_told (q : TAsk2) {a b : WInt} (ha : a.WF) (hb : b.WF) :
    TTells (q.exec a b) (q.spec a.num b.num) := by
  cases a <;> cases b
  case u.u a b =>
    have ha : a.value.WF := ha
    have hb : b.value.WF := hb
    have lt : ∀ x y : AInt, x.bits < y.bits ↔ (x.num .unsigned).val < (y.num .unsigned).val :=
      fun x y => (num_lt .unsigned x y).symm
    have le : ∀ x y : AInt, x.bits ≤ y.bits ↔ (x.num .unsigned).val ≤ (y.num .unsigned).val :=
      fun x y => by rw [← not_lt, ← not_lt, lt]
    obtain ⟨o1, o2, o3, o4⟩ := C29_unsigned_operators ha hb
    cases q
    case eq => exact teq (k := .unsigned) ha hb
    case checkedLt => exact tcmp (lt a.value.abs b.value.abs) (ask2_told .ult ha hb)
    case checkedLe => exact tcmp (le a.value.abs b.value.abs) (ask2_told .ule ha hb)
    case checkedGt => exact tcmp (lt b.value.abs a.value.abs) (ask2_told .ugt ha hb)
    case checkedGe => exact tcmp (le b.value.abs a.value.abs) (ask2_told .uge ha hb)
    case lt => exact top (lt a.value.abs b.value.abs) o1
    case le => exact top (le a.value.abs b.value.abs) o2
    case gt => exact top (lt b.value.abs a.value.abs) o3
    case ge => exact top (le b.value.abs a.value.abs) o4
    case partialCmp => exact tord (C29_unsigned_partial_cmp ha hb)
  case s.s a b =>
    have ha : a.value.WF := ha
    have hb : b.value.WF := hb
    obtain ⟨o1, o2, o3, o4⟩ := C29_signed_operators ha hb
    cases q
    case eq => exact teq (k := .signed) ha hb
    case checkedLt => exact tcmp Iff.rfl (ask2_told .slt ha hb)
    case checkedLe => exact tcmp Iff.rfl (ask2_told .sle ha hb)
    case checkedGt => exact tcmp Iff.rfl (ask2_told .sgt ha hb)
    case checkedGe => exact tcmp Iff.rfl (ask2_told .sge ha hb)
    case lt => exact top Iff.rfl o1
    case le => exact top Iff.rfl o2
    case gt => exact top Iff.rfl o3
    case ge => exact top Iff.rfl o4
    case partialCmp => exact tord (C29_signed_partial_cmp ha hb)
  case u.s a b => rfl
  case s.u a b => rfl

/-! ## Constructors -/

/-- The type a constructor gives. -/
def TMake.kind : TMake → Kind
  | .zero k _ | .allUnset k _ | .allSet k _ | .min k _ | .max k _ | .bool k _ | .array k _ _
  | .parse k _ _ | .random k _ _ => k
  | .one _ | .u8 _ | .u16 _ | .u32 _ | .u64 _ | .u128 _ => .unsigned
  | .i8 _ | .i16 _ | .i32 _ | .i64 _ | .i128 _ => .signed

/-- The constructor of bit patterns behind a constructor of numbers. -/
def TMake.base : TMake → Make
  | .zero _ t => .zero t
  | .one t => .one t
  | .allUnset _ t => .allUnset t
  | .allSet _ t => .allSet t
  | .min .unsigned t => .unsignedMin t
  | .min .signed t => .signedMin t
  | .max .unsigned t => .unsignedMax t
  | .max .signed t => .signedMax t
  | .bool _ b => .bool b
  | .u8 v => .u8 v
  | .u16 v => .u16 v
  | .u32 v => .u32 v
  | .u64 v => .u64 v
  | .u128 v => .u128 v
  | .i8 v => .i8 v
  | .i16 v => .i16 v
  | .i32 v => .i32 v
  | .i64 v => .i64 v
  | .i128 v => .i128 v
  | .array _ v vs => .array v vs
  | .parse _ n s => .parse n s
  | .random _ t rng => .random t rng

theorem didOf_ofInt (k : Kind) {w : Nat} (hw : 0 < w) (v : Int) :
    didOf k (some (.ok (AInt.ofInt w v))) = .gives (Num.of k w v) :=
  congrArg Did.gives (num_ofInt k hw v)

theorem Made.ok {r : Run (Res ApInt)} {z : AInt} (h : Made r (some (.ok z))) : z.Ok := by
  obtain ⟨c, -, h1, rfl⟩ := h
  exact ok_abs h1

theorem num_mk (k : Kind) {w v : Nat} (h : (AInt.mk w v).Ok) :
    (AInt.mk w v).num k = Num.of k w v := by
  rw [← num_ofInt k h.pos]
  exact congrArg (AInt.num k) (self_ofInt h).symm

theorem didOf_nat {w : Nat} (hw : 0 < w) {v : Nat} (h : v < 2 ^ w) :
    didOf .unsigned (some (.ok (AInt.ofInt w v))) = .gives ⟨.unsigned, w, v⟩ := by
  rw [didOf_ofInt _ hw, of_unsigned_small h]

theorem didOf_int {w : Nat} (hw : 0 < w) {v : Int} (h1 : -2 ^ (w - 1) ≤ v)
    (h2 : v < 2 ^ (w - 1)) :
    didOf .signed (some (.ok (AInt.ofInt w v))) = .gives ⟨.signed, w, v⟩ := by
  rw [didOf_ofInt _ hw, of_signed_small hw h1 h2]

theorem toInt_bounds {n : Nat} (v : BitVec n) :
    -2 ^ (n - 1) ≤ v.toInt ∧ v.toInt < 2 ^ (n - 1) :=
  ⟨BitVec.le_toInt v, BitVec.toInt_lt⟩

theorem tmake_spec (m : TMake) : didOf m.kind (some m.base.spec) = m.spec := by
  cases m
  case zero k t => exact didOf_ofInt k t.pos 0
  case one t => exact didOf_ofInt .unsigned t.pos 1
  case allUnset k t => exact didOf_ofInt k t.pos 0
  case allSet k t => exact didOf_ofInt k t.pos (-1)
  case min k t =>
    cases k
    · exact didOf_nat (v := 0) t.pos (by positivity)
    · have : (0 : Int) < 2 ^ (t.toUsize - 1) := by positivity
      exact didOf_int t.pos (le_refl _) (by omega)
  case max k t =>
    cases k
    · show didOf .unsigned (some (.ok (AInt.ofInt t.toUsize (2 ^ t.toUsize - 1)))) =
        .gives ⟨.unsigned, t.toUsize, 2 ^ t.toUsize - 1⟩
      have h0 : 1 ≤ 2 ^ t.toUsize := Nat.one_le_two_pow
      have h := didOf_nat (v := 2 ^ t.toUsize - 1) t.pos (by omega)
      rw [Nat.cast_sub h0] at h
      push_cast at h
      exact h
    · have : (0 : Int) < 2 ^ (t.toUsize - 1) := by positivity
      exact didOf_int t.pos (by omega) (by omega)
  case bool k b => exact didOf_ofInt k (by decide) _
  case u8 v => exact didOf_nat (by decide) v.isLt
  case u16 v => exact didOf_nat (by decide) v.isLt
  case u32 v => exact didOf_nat (by decide) v.isLt
  case u64 v => exact didOf_nat (by decide) v.isLt
  case u128 v => exact didOf_nat (by decide) v.isLt
  case i8 v => exact didOf_int (by decide) (toInt_bounds v).1 (toInt_bounds v).2
  case i16 v => exact didOf_int (by decide) (toInt_bounds v).1 (toInt_bounds v).2
  case i32 v => exact didOf_int (by decide) (toInt_bounds v).1 (toInt_bounds v).2
  case i64 v => exact didOf_int (by decide) (toInt_bounds v).1 (toInt_bounds v).2
  case i128 v => exact didOf_int (by decide) (toInt_bounds v).1 (toInt_bounds v).2
  case array k v vs => exact congrArg Did.gives (num_mk k (make_made (.array v vs)).ok)
  case parse k n s =>
    have h := make_made (.parse n s)
    simp only [TMake.spec, TMake.base, TMake.kind]
    simp only [Make.spec] at h ⊢
    by_cases hs : Accepted (2 ^ (n.val + 1)) s
    · rw [if_pos hs] at h
      rw [if_pos hs, if_pos hs]
      exact congrArg Did.gives (num_mk k h.ok)
    · rw [if_neg hs, if_neg hs]; rfl
  case random k t rng => exact didOf_ofInt k t.pos _

theorem tmake_made (m : TMake) : TMade m.exec m.spec := by
  rw [← tmake_spec]
  have h := make_made m.base
  cases m
  case zero k t => cases k; exacts [h.newU, h.newS]
  case one t => exact h.newU
  case allUnset k t => cases k; exacts [h.newU, h.newS]
  case allSet k t => cases k; exacts [h.newU, h.newS]
  case min k t => cases k; exacts [h.newU, h.newS]
  case max k t => cases k; exacts [h.newU, h.newS]
  case bool k b => cases k; exacts [h.newU, h.newS]
  case u8 v => exact h.newU
  case u16 v => exact h.newU
  case u32 v => exact h.newU
  case u64 v => exact h.newU
  case u128 v => exact h.newU
  case i8 v => exact h.newS
  case i16 v => exact h.newS
  case i32 v => exact h.newS
  case i64 v => exact h.newS
  case i128 v => exact h.newS
  case array k v vs => cases k; exacts [h.newU, h.newS]
  case parse k n s => cases k; exacts [h.u, h.s]
  case random k t rng =>
    cases k
    · have e : (do let (c, _) ← UInt.randomWithWidthUsing t rng; pure c) =
          UInt.lift (do let (c, _) ← ApInt.randomWithWidthUsing t rng; pure c) := by
        unfold UInt.randomWithWidthUsing UInt.lift
        cases ApInt.randomWithWidthUsing t rng <;> rfl
      show TMade (putNew .u (do let (c, _) ← UInt.randomWithWidthUsing t rng; pure c)) _
      rw [e]
      exact h.newU
    · have e : (do let (c, _) ← SInt.randomWithWidthUsing t rng; pure c) =
          SInt.lift (do let (c, _) ← ApInt.randomWithWidthUsing t rng; pure c) := by
        unfold SInt.randomWithWidthUsing SInt.lift
        cases ApInt.randomWithWidthUsing t rng <;> rfl
      show TMade (putNew .s (do let (c, _) ← SInt.randomWithWidthUsing t rng; pure c)) _
      rw [e]
      exact h.newS

/-! ## Copies and changes of type -/

theorem tclone {a : WInt} (ha : a.WF) : TInto (some (putNew id a.clone)) (.gives a.num) := by
  cases a with
  | u a =>
    refine ⟨.u a, ?_, ha, rfl⟩
    show putNew id (do let c ← a.value.clone; pure (.u ⟨c⟩)) = _
    rw [clone_ok (show a.value.WF from ha).1]; rfl
  | s a =>
    refine ⟨.s a, ?_, ha, rfl⟩
    show putNew id (do let c ← a.value.clone; pure (.s ⟨c⟩)) = _
    rw [clone_ok (show a.value.WF from ha).1]; rfl

theorem tassign {a b : WInt} (ha : a.WF) (hb : b.WF) :
    TIn a (a.assign b) (if a.num.kind = b.num.kind then .gives b.num else .absent) := by
  cases a <;> cases b
  case u.u a b =>
    exact ⟨.u b, by rw [(C45_unsigned (a := a) (b := b) ha hb).1]; rfl, hb, rfl⟩
  case s.s a b =>
    exact ⟨.s b, by rw [(C45_signed (a := a) (b := b) ha hb).1]; rfl, hb, rfl⟩
  case u.s a b => rfl
  case s.u a b => rfl

theorem tstrict {a b : WInt} (ha : a.WF) (hb : b.WF) :
    TIn a (a.strictAssign b) (if a.num.kind ≠ b.num.kind then .absent
      else if a.num.width = b.num.width then .gives b.num
      else .reports (.widths a.num.width b.num.width)) := by
  cases a <;> cases b
  case u.u a b =>
    obtain ⟨-, h1, h2⟩ := C45_unsigned (a := a) (b := b) ha hb
    show TStored _ _ (if a.value.abs.width = b.value.abs.width then _ else _)
    by_cases h : a.value.abs.width = b.value.abs.width
    · rw [if_pos h]
      exact ⟨.u b, by rw [h1 (widths_eq h)]; rfl, hb, rfl⟩
    · rw [if_neg h]
      exact ⟨_, by rw [h2 (widths_ne h)]; rfl, rfl⟩
  case s.s a b =>
    obtain ⟨-, h1, h2⟩ := C45_signed (a := a) (b := b) ha hb
    show TStored _ _ (if a.value.abs.width = b.value.abs.width then _ else _)
    by_cases h : a.value.abs.width = b.value.abs.width
    · rw [if_pos h]
      exact ⟨.s b, by rw [h1 (widths_eq h)]; rfl, hb, rfl⟩
    · rw [if_neg h]
      exact ⟨_, by rw [h2 (widths_ne h)]; rfl, rfl⟩
  case u.s a b => rfl
  case s.u a b => rfl

theorem num_retype (k k' : Kind) {x : AInt} (hx : x.Ok) :
    x.num k = Num.of k x.width (x.num k').val := by
  rw [of_congr k (num_val k' x), ← num_ofInt k hx.pos, self_ofInt hx]

theorem tinto_unsigned {a : WInt} (ha : a.WF) : TInto a.intoUnsigned
    (if a.num.kind = .signed then .gives (Num.of .unsigned a.num.width a.num.val) else .absent) := by
  cases a with
  | u a => rfl
  | s a => exact ⟨.u ⟨a.value⟩, rfl, ha, num_retype .unsigned .signed (ok_abs (a := a.value) ha)⟩

theorem tinto_signed {a : WInt} (ha : a.WF) : TInto a.intoSigned
    (if a.num.kind = .unsigned then .gives (Num.of .signed a.num.width a.num.val) else .absent) := by
  cases a with
  | s a => rfl
  | u a => exact ⟨.s ⟨a.value⟩, rfl, ha, num_retype .signed .unsigned (ok_abs (a := a.value) ha)⟩

/-! ## The machine -/

/-- One call agrees with the abstract machine. -/
def TAgrees (r : Run (Res TOut × TBank)) : Option (Except AErr TOut × NBank) → Prop
  | none => r = .error .panic
  | some (x, s) => ∃ y b, r = .ok (y, b) ∧ tabsRes y = x ∧ (∀ a ∈ b, a.WF) ∧ b.map WInt.num = s

theorem twf_set {b : TBank} (hb : ∀ a ∈ b, a.WF) {x : Nat} {c : WInt} (hc : c.WF) :
    ∀ a ∈ b.set x c, a.WF := by
  intro a ha
  rcases List.mem_or_eq_of_mem_set ha with h | h
  · exact hb a h
  · exact h ▸ hc

theorem twf_erase {b : TBank} (hb : ∀ a ∈ b, a.WF) {x : Nat} : ∀ a ∈ b.eraseIdx x, a.WF :=
  fun a ha => hb a (List.mem_of_mem_eraseIdx ha)

section

variable {b : TBank} (hb : ∀ a ∈ b, a.WF)
include hb

theorem tpush_agrees {r : Run (Res WInt)} {d : Did Num} (h : TMade r d) :
    TAgrees (b.pushRes r) (NBank.push (b.map WInt.num) d) := by
  match d, h with
  | .panics, h =>
    have h : r = .error .panic := h
    show _ = _
    rw [h]; rfl
  | .reports e, ⟨e', h, he⟩ =>
    exact ⟨.error e', b, by rw [h]; rfl, by rw [← he]; rfl, hb, rfl⟩
  | .gives z, ⟨c, h, h1, h2⟩ =>
    refine ⟨.ok (.out .unit), b ++ [c], by rw [h]; rfl, rfl, ?_, by simp [h2]⟩
    intro a ha
    rcases List.mem_append.mp ha with h' | h'
    · exact hb a h'
    · rw [List.mem_singleton.mp h']; exact h1

theorem tstore_agrees {x : Nat} {a : WInt} (hx : b[x]? = some a) {r : Run (Res Unit × WInt)}
    {d : Did Num} (h : TStored a r d) :
    TAgrees (b.storeRes x r) (NBank.store (b.map WInt.num) x d) := by
  match d, h with
  | .panics, h =>
    have h : r = .error .panic := h
    show _ = _
    rw [h]; rfl
  | .reports e, ⟨e', h, he⟩ =>
    refine ⟨.error e', b, ?_, by rw [← he]; rfl, hb, rfl⟩
    rw [h]
    show Except.ok (_, b.set x a) = _
    rw [set_self hx]; rfl
  | .gives z, ⟨c, h, h1, h2⟩ =>
    refine ⟨.ok (.out .unit), b.set x c, by rw [h]; rfl, rfl, twf_set hb h1, ?_⟩
    rw [List.map_set, h2]

theorem tmove_agrees {x : Nat} {r : Run (Res WInt)} {d : Did Num} (h : TMade r d) :
    TAgrees (b.moveRes x r) (NBank.move (b.map WInt.num) x d) := by
  match d, h with
  | .panics, h =>
    have h : r = .error .panic := h
    show _ = _
    rw [h]; rfl
  | .reports e, ⟨e', h, he⟩ =>
    refine ⟨.error e', b.eraseIdx x, by rw [h]; rfl, by rw [← he]; rfl, twf_erase hb, ?_⟩
    rw [List.eraseIdx_map]
  | .gives z, ⟨c, h, h1, h2⟩ =>
    refine ⟨.ok (.out .unit), b.set x c, by rw [h]; rfl, rfl, twf_set hb h1, ?_⟩
    rw [List.map_set, h2]

theorem tanswer_agrees {r : Run (Res TOut)} {d : Did TOut} (h : TTold r d) :
    TAgrees (b.answer r) (NBank.answer (b.map WInt.num) d) := by
  match d, h with
  | .panics, h =>
    have h : r = .error .panic := h
    show _ = _
    rw [h]; rfl
  | .reports e, ⟨e', h, he⟩ =>
    exact ⟨.error e', b, by rw [h]; rfl, by rw [← he]; rfl, hb, rfl⟩
  | .gives z, h =>
    have h : r = .ok (.ok z) := h
    exact ⟨.ok z, b, by rw [h]; rfl, rfl, hb, rfl⟩

omit hb in
/-- `P` of the result if there is one, `Q` otherwise. -/
def OnSome {α : Type} (r : Option α) (P : α → Prop) (Q : Prop) : Prop :=
  match r with
  | some r => P r
  | none => Q

/-- One call agrees with the abstract machine. -/
theorem texec_agrees (i : TInstr) : TAgrees (i.exec b) (i.spec (b.map WInt.num)) := by
  have skip : TAgrees (pure (.ok (.out .unit), b)) (some (.ok (.out .unit), b.map WInt.num)) :=
    ⟨.ok (.out .unit), b, rfl, rfl, hb, rfl⟩
  have wf : ∀ {x : Nat} {a : WInt}, b[x]? = some a → a.WF := fun h =>
    hb _ (List.mem_of_getElem? h)
  have one : ∀ {α β : Type} (x : Nat) {f : WInt → Option α} {k : α → Run (Res TOut × TBank)}
      {g : Num → Did β} {l : Did β → Option (Except AErr TOut × NBank)},
      (l .absent = some (.ok (.out .unit), b.map WInt.num)) →
      (∀ a, b[x]? = some a → OnSome (f a) (fun r => TAgrees (k r) (l (g a.num)))
        (g a.num = .absent)) →
      TAgrees (match b[x]? with
        | some a => match f a with
          | some r => k r
          | none => pure (.ok (.out .unit), b)
        | none => pure (.ok (.out .unit), b))
        (match (b.map WInt.num)[x]? with
          | some a => l (g a)
          | none => some (.ok (.out .unit), b.map WInt.num)) := by
    intro α β x f k g l hl h
    rw [List.getElem?_map]
    cases hx : b[x]? with
    | none => exact skip
    | some a =>
      have h := h a hx
      cases hf : f a with
      | none =>
        rw [hf] at h
        have h : g a.num = .absent := h
        show TAgrees (match f a with | some r => k r | none => _) (l (g a.num))
        rw [hf, h, hl]; exact skip
      | some r =>
        rw [hf] at h
        show TAgrees (match f a with | some r => k r | none => _) (l (g a.num))
        rw [hf]; exact h
  have two : ∀ {α β : Type} (x y : Nat) {f : WInt → WInt → Option α}
      {k : α → Run (Res TOut × TBank)}
      {g : Num → Num → Did β} {l : Did β → Option (Except AErr TOut × NBank)},
      (l .absent = some (.ok (.out .unit), b.map WInt.num)) →
      (∀ a c, b[x]? = some a → b[y]? = some c → OnSome (f a c)
        (fun r => TAgrees (k r) (l (g a.num c.num))) (g a.num c.num = .absent)) →
      TAgrees (match b[x]?, b[y]? with
        | some a, some c => match f a c with
          | some r => k r
          | none => pure (.ok (.out .unit), b)
        | _, _ => pure (.ok (.out .unit), b))
        (match (b.map WInt.num)[x]?, (b.map WInt.num)[y]? with
          | some a, some c => l (g a c)
          | _, _ => some (.ok (.out .unit), b.map WInt.num)) := by
    intro α β x y f k g l hl h
    rw [List.getElem?_map, List.getElem?_map]
    cases hx : b[x]? with
    | none => exact skip
    | some a =>
      cases hy : b[y]? with
      | none => exact skip
      | some c =>
        have h := h a c hx hy
        cases hf : f a c with
        | none =>
          rw [hf] at h
          have h : g a.num c.num = .absent := h
          show TAgrees (match f a c with | some r => k r | none => _) (l (g a.num c.num))
          rw [hf, h, hl]; exact skip
        | some r =>
          rw [hf] at h
          show TAgrees (match f a c with | some r => k r | none => _) (l (g a.num c.num))
          rw [hf]; exact h
  have st : ∀ {x : Nat} {a : WInt} {r : Option (Run (Res Unit × WInt))} {d : Did Num},
      b[x]? = some a → TIn a r d → OnSome r (fun r => TAgrees (b.storeRes x r) (NBank.store (b.map WInt.num) x d))
        (d = .absent) := by
    intro x a r d hx h
    cases r with
    | none => exact h
    | some r => exact tstore_agrees hb hx h
  have mv : ∀ {x : Nat} {r : Option (Run (Res WInt))} {d : Did Num},
      TInto r d → OnSome r (fun r => TAgrees (b.moveRes x r) (NBank.move (b.map WInt.num) x d))
        (d = .absent) := by
    intro x r d h
    cases r with
    | none => exact h
    | some r => exact tmove_agrees hb h
  have an : ∀ {r : Option (Run (Res TOut))} {d : Did TOut},
      TTells r d → OnSome r (fun r => TAgrees (b.answer r) (NBank.answer (b.map WInt.num) d))
        (d = .absent) := by
    intro r d h
    cases r with
    | none => exact h
    | some r => exact tanswer_agrees hb h
  cases i with
  | make m => exact tpush_agrees hb (tmake_made m)
  | intOne t =>
    obtain ⟨h1, h2⟩ := C50_one t
    simp only [TInstr.exec, TInstr.spec]
    by_cases ht : t.toUsize = 1
    · rw [h1 ht, if_neg (by omega)]
      exact ⟨.ok (.out (.bool false)), b, rfl, rfl, hb, rfl⟩
    · obtain ⟨c, e, p1, p2, p3⟩ := h2 ht
      have := t.pos
      rw [e, if_pos (by omega)]
      refine ⟨.ok (.out (.bool true)), b ++ [.s c], rfl, rfl, ?_, ?_⟩
      · intro a ha
        rcases List.mem_append.mp ha with h' | h'
        · exact hb a h'
        · rw [List.mem_singleton.mp h']; exact p1
      · have hn : WInt.num (.s c) = ⟨.signed, t.toUsize, 1⟩ := by
          show (⟨.signed, c.value.len.toUsize, c.value.sval⟩ : Num) = _
          rw [p2, p3]
        rw [List.map_append, List.map_singleton, hn]
  | clone x =>
    exact one x (f := fun a => some (putNew id a.clone)) (k := b.pushRes) (g := .gives)
      (l := NBank.push (b.map WInt.num)) rfl fun a hx =>
        tpush_agrees hb (r := putNew id a.clone) (d := .gives a.num) (tclone (wf hx))
  | drop x =>
    refine ⟨.ok (.out .unit), b.eraseIdx x, rfl, rfl, twf_erase hb, ?_⟩
    rw [List.eraseIdx_map]
  | assign x y =>
    exact two x y rfl fun a c hx hy => st hx (tassign (wf hx) (wf hy))
  | strictAssign x y =>
    exact two x y rfl fun a c hx hy => st hx (tstrict (wf hx) (wf hy))
  | intoUnsigned x => exact one x rfl fun a hx => mv (tinto_unsigned (wf hx))
  | intoSigned x => exact one x rfl fun a hx => mv (tinto_signed (wf hx))
  | un o x => exact one x rfl fun a hx => st hx (tun_stored o (wf hx))
  | intoUn o x => exact one x rfl fun a hx => mv (tun_made o (wf hx))
  | opUn o x => 
    exact one x (f := fun a => some (o.exec a)) (k := b.moveRes x)
      (g := fun a => (o.un.spec a).op) (l := NBank.move (b.map WInt.num) x) rfl
      fun a hx => mv (r := some (o.exec a)) (d := (o.un.spec a.num).op)
      (tunop_made o (wf hx))
  | opShift o x => 
    exact one x (f := fun a => some (o.exec a)) (k := b.storeRes x)
      (g := fun a => (o.un.spec a).op) (l := NBank.store (b.map WInt.num) x) rfl
      fun a hx => st hx (r := some (o.exec a)) (d := (o.un.spec a.num).op)
      (tshift_stored o (wf hx))
  | alter o x => exact one x rfl fun a hx => st hx (talter_stored o (wf hx))
  | bin o x y => exact two x y rfl fun a c hx hy => st hx (tbin_stored o (wf hx) (wf hy))
  | intoBin o x y => exact two x y rfl fun a c hx hy => mv (tbin_made o (wf hx) (wf hy))
  | op o x y => exact two x y rfl fun a c hx hy => mv (tbin_op o (wf hx) (wf hy))
  | opAssign o x y => exact two x y rfl fun a c hx hy => st hx (tbin_op_assign o (wf hx) (wf hy))
  | ask q x => exact one x rfl fun a hx => an (task_told q (wf hx))
  | ask2 q x y => exact two x y rfl fun a c hx hy => an (task2_told q (wf hx) (wf hy))

end

/-- What a whole program has to do with the abstract machine. -/
def TRunAgrees (r : List (Res TOut) × Run TBank) (s : List (Except AErr TOut) × Option NBank) :
    Prop :=
  r.1.map tabsRes = s.1 ∧
  match s.2 with
  | none => r.2 = .error .panic
  | some t => ∃ b, r.2 = .ok b ∧ (∀ a ∈ b, a.WF) ∧ b.map WInt.num = t

theorem trun_agrees (is : List TInstr) {b : TBank} (hb : ∀ a ∈ b, a.WF) :
    TRunAgrees (trun is b) (tspecRun is (b.map WInt.num)) := by
  induction is generalizing b with
  | nil => exact ⟨rfl, b, rfl, hb, rfl⟩
  | cons i is ih =>
    have h := texec_agrees hb i
    match hs : i.spec (b.map WInt.num), h with
    | none, h =>
      have h : i.exec b = .error .panic := h
      simp only [trun, tspecRun, hs, h]
      exact ⟨rfl, rfl⟩
    | some (x, s), ⟨y, b', h, hy, hb', hm⟩ =>
      have := ih hb'
      simp only [trun, tspecRun, hs, h]
      rw [← hm]
      refine ⟨?_, this.2⟩
      show tabsRes y :: _ = _
      rw [hy, ← this.1]

end Verif
