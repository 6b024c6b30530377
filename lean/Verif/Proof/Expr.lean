import Verif.ExprEval
import Verif.Proof.Program

/-!
# Expressions compute their bit-vector meaning

Helper lemmas for C56.
-/

namespace Verif

open ApInt Props

/-- The abstract number with the bits of `x`. -/
abbrev AInt.ofBV {n : Nat} (x : BitVec n) : AInt := ⟨n, x.toNat⟩

theorem ofBV_sint {n : Nat} (hn : 0 < n) (x : BitVec n) : (AInt.ofBV x).sint = x.toInt := by
  have h1 := two_pow_pred hn
  have h2 := x.isLt
  rw [BitVec.toInt_eq_toNat_cond]
  show (if x.toNat < 2 ^ (n - 1) then (x.toNat : Int) else (x.toNat : Int) - 2 ^ n) = _
  have h3 : ((2 ^ n : Nat) : Int) = 2 ^ n := by push_cast; rfl
  by_cases h : x.toNat < 2 ^ (n - 1)
  · rw [if_pos h, if_pos (by omega)]
  · rw [if_neg h, if_neg (by omega), h3]

theorem ofInt_eq (n : Nat) (z : Int) : AInt.ofInt n z = AInt.ofBV (BitVec.ofInt n z) := by
  simp only [AInt.ofInt, AInt.ofBV, BitVec.toNat_ofInt, wrap]
  push_cast; rfl

theorem ofInt_sub (n : Nat) (x y : Int) :
    BitVec.ofInt n (x - y) = BitVec.ofInt n x - BitVec.ofInt n y := by
  rw [Int.sub_eq_add_neg, BitVec.ofInt_add, BitVec.ofInt_neg, BitVec.sub_eq_add_neg]

theorem ofInt_of_toInt {n : Nat} {z : Int} {x : BitVec n} (h : BitVec.ofInt n z = x) :
    AInt.ofInt n z = AInt.ofBV x := by rw [ofInt_eq, h]

theorem ofInt_of_toNat {n : Nat} {z : Nat} {x : BitVec n} (h : x.toNat = z % 2 ^ n) :
    AInt.ofInt n z = AInt.ofBV x := by
  simp only [AInt.ofInt, AInt.ofBV, wrap_natCast, h]

/-- What the abstract machine returns is the bit-vector, or an error where there is none. -/
def Matches (s : Except AErr AInt) {n : Nat} : Option (BitVec n) → Prop
  | some r => s = .ok (AInt.ofBV r)
  | none => ∃ e, s = .error e

theorem Matches.ite {c : Prop} [Decidable c] {z : AInt} {e : AErr} {n : Nat} {r : BitVec n}
    (h : z = AInt.ofBV r) :
    Matches (if c then .ok z else .error e) (if c then some r else none) := by
  by_cases hc : c
  · rw [if_pos hc, if_pos hc, h]; rfl
  · rw [if_neg hc, if_neg hc]; exact ⟨e, rfl⟩

theorem un_matches (o : Un) {w : BitWidth} (x : BitVec w.toUsize) :
    Matches (o.spec (AInt.ofBV x)) (o.bv x) := by
  have hs := ofBV_sint w.pos x
  have hb : (AInt.ofBV x).bits = x.toNat := rfl
  have hlt := x.isLt
  cases o with
  | bitnot =>
    refine congrArg Except.ok (ofInt_of_toInt ?_)
    apply BitVec.eq_of_toNat_eq
    show _ = (~~~x).toNat
    rw [BitVec.toNat_not, BitVec.toNat_ofInt]
    have h2 : ((2 ^ w.toUsize : Nat) : Int) = 2 ^ w.toUsize := by push_cast; rfl
    have : (-(x.toNat : Int) - 1) % ((2 ^ w.toUsize : Nat) : Int) =
        ((2 ^ w.toUsize - 1 - x.toNat : Nat) : Int) := by
      rw [← Int.add_emod_right, Int.emod_eq_of_lt (by omega) (by omega)]
      omega
    rw [this]; omega
  | neg =>
    refine congrArg Except.ok (ofInt_of_toInt ?_)
    rw [hb, BitVec.ofInt_neg, BitVec.ofInt_natCast, BitVec.ofNat_toNat, BitVec.setWidth_eq]
  | inc =>
    refine congrArg Except.ok (ofInt_of_toInt ?_)
    rw [hb, BitVec.ofInt_add, BitVec.ofInt_natCast, BitVec.ofNat_toNat, BitVec.setWidth_eq]; rfl
  | dec =>
    refine congrArg Except.ok (ofInt_of_toInt ?_)
    rw [hb, ofInt_sub, BitVec.ofInt_natCast, BitVec.ofNat_toNat, BitVec.setWidth_eq]; rfl
  | shl s =>
    refine Matches.ite ?_
    have : ((AInt.ofBV x).bits * 2 ^ s : Int) = ((x.toNat * 2 ^ s : Nat) : Int) := by
      rw [hb]; push_cast; rfl
    rw [this]
    exact ofInt_of_toNat (by rw [BitVec.toNat_shiftLeft, Nat.shiftLeft_eq])
  | lshr s =>
    refine Matches.ite ?_
    have : ((AInt.ofBV x).bits / 2 ^ s : Int) = ((x.toNat / 2 ^ s : Nat) : Int) := by
      rw [hb]; push_cast; rfl
    rw [this]
    refine ofInt_of_toNat ?_
    rw [BitVec.toNat_ushiftRight, Nat.shiftRight_eq_div_pow,
      Nat.mod_eq_of_lt (lt_of_le_of_lt (Nat.div_le_self _ _) hlt)]
  | ashr s =>
    refine Matches.ite (ofInt_of_toInt ?_)
    rw [hs, ← BitVec.ofInt_toInt (x := x.sshiftRight s), BitVec.toInt_sshiftRight,
      Int.shiftRight_eq_div_pow]
    push_cast; rfl
  | truncate t => exact Matches.ite (ofInt_of_toNat (BitVec.toNat_setWidth _ _))
  | zeroExtend t => exact Matches.ite (ofInt_of_toNat (BitVec.toNat_setWidth _ _))
  | signExtend t =>
    refine Matches.ite (ofInt_of_toInt ?_)
    rw [hs]; rfl
  | zeroResize t => exact congrArg Except.ok (ofInt_of_toNat (BitVec.toNat_setWidth _ _))
  | signResize t =>
    refine congrArg Except.ok (ofInt_of_toInt ?_)
    rw [hs]; rfl

theorem mapBit_eq {n p : Nat} {x y : BitVec n} {f : Bool → Bool} (hp : p < n)
    (h : ∀ i, i < n → y.getLsbD i = if i = p then f (x.getLsbD i) else x.getLsbD i) :
    (AInt.ofBV x).mapBit p f = AInt.ofBV y := by
  unfold AInt.mapBit AInt.ofBV
  refine congrArg (AInt.mk n) ?_
  apply Nat.eq_of_testBit_eq
  intro i
  rw [replaceBit, BitVec.testBit_toNat, BitVec.testBit_toNat, BitVec.testBit_toNat]
  by_cases hi : i < n
  · rw [h i hi]
    by_cases hip : i = p
    · subst hip; simp
    · rw [if_neg hip, if_neg hip]
  · rw [if_neg (by omega), BitVec.getLsbD_of_ge _ _ (by omega), BitVec.getLsbD_of_ge _ _ (by omega)]

theorem set_bit {n p : Nat} (x : BitVec n) (hp : p < n) :
    (AInt.ofBV x).mapBit p (fun _ => true) = AInt.ofBV (x ||| BitVec.twoPow n p) := by
  refine mapBit_eq hp fun i hi => ?_
  rw [BitVec.getLsbD_or, BitVec.getLsbD_twoPow]
  by_cases h : i = p
  · subst h; simp [hp]
  · simp [h, Ne.symm h]

theorem unset_bit {n p : Nat} (x : BitVec n) (hp : p < n) :
    (AInt.ofBV x).mapBit p (fun _ => false) = AInt.ofBV (x &&& ~~~BitVec.twoPow n p) := by
  refine mapBit_eq hp fun i hi => ?_
  rw [BitVec.getLsbD_and, BitVec.getLsbD_not, BitVec.getLsbD_twoPow]
  by_cases h : i = p
  · subst h; simp [hp]
  · simp [h, Ne.symm h, hi]

theorem flip_bit {n p : Nat} (x : BitVec n) (hp : p < n) :
    (AInt.ofBV x).mapBit p not = AInt.ofBV (x ^^^ BitVec.twoPow n p) := by
  refine mapBit_eq hp fun i hi => ?_
  rw [BitVec.getLsbD_xor, BitVec.getLsbD_twoPow]
  by_cases h : i = p
  · subst h; simp [hp]
  · simp [h, Ne.symm h]

theorem allOnes_ofInt (n : Nat) : BitVec.ofInt n (-1) = BitVec.allOnes n := by
  rw [← BitVec.neg_one_eq_allOnes]
  rw [BitVec.ofInt_neg]; rfl

theorem Matches.iteBit {n p : Nat} {z : AInt} {e : AErr} {r : BitVec n}
    (h : p < n → z = AInt.ofBV r) :
    Matches (if p < n then .ok z else .error e) (if p < n then some r else none) := by
  by_cases hc : p < n
  · rw [if_pos hc, if_pos hc, h hc]; rfl
  · rw [if_neg hc, if_neg hc]; exact ⟨e, rfl⟩

theorem alter_matches (o : Alter) {n : Nat} (hn : 0 < n) (x : BitVec n) :
    Matches (o.spec (AInt.ofBV x)) (o.bv x) := by
  have hb : (AInt.ofBV x).bits = x.toNat := rfl
  have hlt := x.isLt
  cases o with
  | setAll => exact congrArg Except.ok (ofInt_of_toInt (allOnes_ofInt n))
  | unsetAll => exact congrArg Except.ok (ofInt_of_toInt rfl)
  | flipAll => exact un_matches .bitnot (w := ⟨n, hn⟩) x
  | setMsb => exact congrArg Except.ok (set_bit x (Nat.sub_lt hn Nat.one_pos))
  | unsetMsb => exact congrArg Except.ok (unset_bit x (Nat.sub_lt hn Nat.one_pos))
  | flipMsb => exact congrArg Except.ok (flip_bit x (Nat.sub_lt hn Nat.one_pos))
  | setBit p => exact Matches.iteBit (set_bit x)
  | unsetBit p => exact Matches.iteBit (unset_bit x)
  | flipBit p => exact Matches.iteBit (flip_bit x)
  | randomize rng =>
    exact congrArg Except.ok (ofInt_of_toNat (BitVec.toNat_ofNat _ _))

/-- The abstract machine does not panic, and returns the bit-vector or an error. -/
def MatchesO (s : Option (Except AErr AInt)) {n : Nat} : Option (BitVec n) → Prop
  | some r => s = some (.ok (AInt.ofBV r))
  | none => ∃ e, s = some (.error e)

theorem bin_matches (o : Bin) {n : Nat} (hn : 0 < n) (x y : BitVec n) :
    MatchesO (o.spec (AInt.ofBV x) (AInt.ofBV y)) (o.bv x y) := by
  have hx : (AInt.ofBV x).bits = x.toNat := rfl
  have hy : (AInt.ofBV y).bits = y.toNat := rfl
  have hw : (AInt.ofBV x).width = n := rfl
  have hw' : (AInt.ofBV y).width = n := rfl
  have hsx := ofBV_sint hn x
  have hsy := ofBV_sint hn y
  have hlx := x.isLt
  have hly := y.isLt
  have hz : y.toNat = 0 ↔ y = 0#n := by
    rw [← BitVec.toNat_inj, BitVec.toNat_ofNat, Nat.zero_mod]
  simp only [Bin.spec, hsx, hsy, if_pos, ne_eq, not_true_eq_false, if_false]
  have nat {r : BitVec n} {v : Nat} (h : r.toNat = v % 2 ^ n) :
      MatchesO (some (.ok (AInt.ofInt n v))) (some r) :=
    congrArg (some ∘ Except.ok) (ofInt_of_toNat h)
  have int {r : BitVec n} {v : Int} (h : BitVec.ofInt n v = r) :
      MatchesO (some (.ok (AInt.ofInt n v))) (some r) :=
    congrArg (some ∘ Except.ok) (ofInt_of_toInt h)
  cases o with
  | add =>
    refine int ?_
    rw [BitVec.ofInt_add, BitVec.ofInt_natCast, BitVec.ofInt_natCast, BitVec.ofNat_toNat,
      BitVec.ofNat_toNat, BitVec.setWidth_eq, BitVec.setWidth_eq]
  | sub =>
    refine int ?_
    rw [ofInt_sub, BitVec.ofInt_natCast, BitVec.ofInt_natCast, BitVec.ofNat_toNat,
      BitVec.ofNat_toNat, BitVec.setWidth_eq, BitVec.setWidth_eq]
  | mul =>
    refine int ?_
    rw [BitVec.ofInt_mul, BitVec.ofInt_natCast, BitVec.ofInt_natCast, BitVec.ofNat_toNat,
      BitVec.ofNat_toNat, BitVec.setWidth_eq, BitVec.setWidth_eq]
  | and =>
    exact nat (by rw [BitVec.toNat_and, Nat.mod_eq_of_lt (Nat.and_lt_two_pow _ hly)])
  | or =>
    exact nat (by rw [BitVec.toNat_or, Nat.mod_eq_of_lt (Nat.or_lt_two_pow hlx hly)])
  | xor =>
    exact nat (by rw [BitVec.toNat_xor, Nat.mod_eq_of_lt (Nat.xor_lt_two_pow hlx hly)])
  | udiv =>
    simp only [Bin.bv]
    by_cases h : y = 0#n
    · rw [if_pos h, if_pos (hz.mpr h)]; exact ⟨_, rfl⟩
    · rw [if_neg h, if_neg (fun e => h (hz.mp e))]
      have := nat (r := x / y) (v := x.toNat / y.toNat) (by
        rw [BitVec.toNat_udiv, Nat.mod_eq_of_lt (lt_of_le_of_lt (Nat.div_le_self _ _) hlx)])
      push_cast at this
      exact this
  | urem =>
    simp only [Bin.bv]
    by_cases h : y = 0#n
    · rw [if_pos h, if_pos (hz.mpr h)]; exact ⟨_, rfl⟩
    · rw [if_neg h, if_neg (fun e => h (hz.mp e))]
      have := nat (r := x % y) (v := x.toNat % y.toNat) (by
        rw [BitVec.toNat_umod, Nat.mod_eq_of_lt (lt_of_le_of_lt (Nat.mod_le _ _) hlx)])
      push_cast at this
      exact this
  | sdiv =>
    simp only [Bin.bv]
    by_cases h : y = 0#n
    · rw [if_pos h, if_pos (hz.mpr h)]; exact ⟨_, rfl⟩
    · rw [if_neg h, if_neg (fun e => h (hz.mp e))]
      refine int ?_
      apply BitVec.eq_of_toInt_eq
      rw [BitVec.toInt_ofInt, BitVec.toInt_sdiv]
  | srem =>
    simp only [Bin.bv]
    by_cases h : y = 0#n
    · rw [if_pos h, if_pos (hz.mpr h)]; exact ⟨_, rfl⟩
    · rw [if_neg h, if_neg (fun e => h (hz.mp e))]
      refine int ?_
      rw [← BitVec.toInt_srem, BitVec.ofInt_toInt]

theorem const_made (k : Const) (w : BitWidth) :
    ∃ c : ApInt, k.exec w = .ok (.ok c) ∧ c.WF ∧ c.abs = AInt.ofBV (k.bv w.toUsize) := by
  have hp := w.pos
  cases k with
  | zero =>
    obtain ⟨c, e, h, h'⟩ := make_made (.zero w)
    exact ⟨c, e, h, h'.trans (ofInt_of_toInt rfl)⟩
  | one =>
    obtain ⟨c, e, h, h'⟩ := make_made (.one w)
    exact ⟨c, e, h, h'.trans (ofInt_of_toInt rfl)⟩
  | allSet =>
    obtain ⟨c, e, h, h'⟩ := make_made (.allSet w)
    exact ⟨c, e, h, h'.trans (ofInt_of_toInt (allOnes_ofInt _))⟩
  | unsignedMin =>
    obtain ⟨c, e, h, h'⟩ := make_made (.unsignedMin w)
    exact ⟨c, e, h, h'.trans (ofInt_of_toInt rfl)⟩
  | unsignedMax =>
    obtain ⟨c, e, h, h'⟩ := make_made (.unsignedMax w)
    refine ⟨c, e, h, h'.trans (ofInt_of_toInt ?_)⟩
    apply BitVec.eq_of_toInt_eq
    show _ = (BitVec.allOnes _).toInt
    rw [← allOnes_ofInt, BitVec.toInt_ofInt, BitVec.toInt_ofInt]
    have : (2 ^ w.toUsize - 1 : Int) = -1 + ((2 ^ w.toUsize : Nat) : Int) := by push_cast; omega
    rw [this, Int.add_bmod_right]
  | signedMin =>
    obtain ⟨c, e, h, h'⟩ := make_made (.signedMin w)
    refine ⟨c, e, h, h'.trans (ofInt_of_toInt ?_)⟩
    apply BitVec.eq_of_toInt_eq
    rw [BitVec.toInt_ofInt]
    exact BitVec.toInt_intMin_eq_bmod.symm
  | signedMax =>
    obtain ⟨c, e, h, h'⟩ := make_made (.signedMax w)
    refine ⟨c, e, h, h'.trans ?_⟩
    have h1 : 0 < 2 ^ (w.toUsize - 1) := by positivity
    have h2 := two_pow_pred hp
    have h3 : (2 ^ (w.toUsize - 1) - 1 : Int) = ((2 ^ (w.toUsize - 1) - 1 : Nat) : Int) := by
      rw [Nat.cast_sub (by omega)]; push_cast; rfl
    rw [h3]
    refine ofInt_of_toNat ?_
    show (BitVec.intMax _).toNat = _
    rw [BitVec.toNat_intMax, Nat.mod_eq_of_lt (by omega)]

theorem test_ok (q : Ask2) {a b : ApInt} (ha : a.WF) (hb : b.WF) {n : Nat} (hn : 0 < n)
    {x y : BitVec n} (hx : a.abs = AInt.ofBV x) (hy : b.abs = AInt.ofBV y) :
    q.test a b = .ok (.ok (q.bv x y)) := by
  have hwa : a.w = n := congrArg AInt.width hx
  have hwb : b.w = n := congrArg AInt.width hy
  have hl : a.len = b.len := BitWidth.ext (hwa.trans hwb.symm)
  have hua : a.uval = x.toNat := congrArg AInt.bits hx
  have hub : b.uval = y.toNat := congrArg AInt.bits hy
  have hsa : a.sval = x.toInt := by rw [← ofBV_sint hn, ← hx]; rfl
  have hsb : b.sval = y.toInt := by rw [← ofBV_sint hn, ← hy]; rfl
  obtain ⟨u1, u2, u3, u4⟩ := C27_unsigned ha hb hl
  obtain ⟨s1, s2, s3, s4⟩ := C28_signed ha hb hl
  rw [hua, hub] at u1 u2 u3 u4
  rw [hsa, hsb] at s1 s2 s3 s4
  cases q with
  | eq =>
    show fine (a.eq b) = _
    rw [C03_eq ha hb, hua, hub, hwa, hwb]
    show (.ok (.ok _) : Run (Res Bool)) = .ok (.ok (x == y))
    congr 2
    rw [Bool.eq_iff_iff]
    simp [BitVec.toNat_inj]
  | ult => exact u1
  | ule => exact u2
  | ugt => exact u3
  | uge => exact u4
  | slt => exact s1
  | sle => exact s2
  | sgt => exact s3
  | sge => exact s4

/-- The evaluation agrees with the meaning. -/
def Computes (r : Run (Res ApInt)) {n : Nat} : Option (BitVec n) → Prop
  | some v => ∃ c : ApInt, r = .ok (.ok c) ∧ c.WF ∧ c.abs = AInt.ofBV v
  | none => ∃ e, r = .ok (.error e)

theorem Computes.andThen {r : Run (Res ApInt)} {n m : Nat} {o : Option (BitVec n)}
    {k : ApInt → Run (Res ApInt)} {f : BitVec n → Option (BitVec m)} (h : Computes r o)
    (hk : ∀ c v, c.WF → c.abs = AInt.ofBV v → Computes (k c) (f v)) :
    Computes (Verif.andThen r k) (o.bind f) := by
  match o, h with
  | none, ⟨e, h⟩ => exact ⟨e, by rw [h]; rfl⟩
  | some v, ⟨c, h, h1, h2⟩ =>
    rw [h]
    exact hk c v h1 h2

theorem un_agrees (o : Un) {w : BitWidth} {x : BitVec w.toUsize} {c : ApInt} (hc : c.WF)
    (h : c.abs = AInt.ofBV x) : Computes (o.execInto c) (o.bv x) := by
  have h1 := un_made o hc
  have h2 := un_matches o x
  rw [h] at h1
  revert h1 h2
  generalize o.spec (AInt.ofBV x) = s
  generalize o.bv x = r
  intro h1 h2
  match r, h2 with
  | none, ⟨e, h2⟩ =>
    rw [h2] at h1
    obtain ⟨e', h1, -⟩ := h1
    exact ⟨e', h1⟩
  | some v, h2 =>
    have h2 : s = .ok (AInt.ofBV v) := h2
    rw [h2] at h1
    exact h1

theorem alter_agrees (o : Alter) {n : Nat} (hn : 0 < n) {x : BitVec n} {c : ApInt} (hc : c.WF)
    (h : c.abs = AInt.ofBV x) : Computes (inPlace (o.exec c)) (o.bv x) := by
  have h1 := alter_stored o hc
  have h2 := alter_matches o hn x
  rw [h] at h1
  revert h1 h2
  generalize o.spec (AInt.ofBV x) = s
  generalize o.bv x = r
  intro h1 h2
  match r, h2 with
  | none, ⟨e, h2⟩ =>
    rw [h2] at h1
    obtain ⟨e', h1, -⟩ := h1
    exact ⟨e', by rw [h1]; rfl⟩
  | some v, h2 =>
    have h2 : s = .ok (AInt.ofBV v) := h2
    rw [h2] at h1
    obtain ⟨d, h1, h3⟩ := h1
    exact ⟨d, by rw [h1]; rfl, h3⟩

theorem bin_agrees (o : Bin) {n : Nat} (hn : 0 < n) {x y : BitVec n} {c d : ApInt} (hc : c.WF)
    (hd : d.WF) (h : c.abs = AInt.ofBV x) (h' : d.abs = AInt.ofBV y) :
    Computes (o.execInto c d) (o.bv x y) := by
  have h1 := bin_made o hc hd
  have h2 := bin_matches o hn x y
  rw [h, h'] at h1
  revert h1 h2
  generalize o.spec (AInt.ofBV x) (AInt.ofBV y) = s
  generalize o.bv x y = r
  intro h1 h2
  match r, h2 with
  | none, ⟨e, h2⟩ =>
    rw [h2] at h1
    obtain ⟨e', h1, -⟩ := h1
    exact ⟨e', h1⟩
  | some v, h2 =>
    have h2 : s = some (.ok (AInt.ofBV v)) := h2
    rw [h2] at h1
    exact h1

theorem exists_digits (n : Nat) : ∀ v, v < B ^ n → ∃ ds : List Digit, ds.length = n ∧ val ds = v := by
  induction n with
  | zero => intro v h; exact ⟨[], rfl, by rw [val_nil]; simp at h; omega⟩
  | succ n ih =>
    intro v h
    obtain ⟨ds, h1, h2⟩ := ih (v / B) (by
      apply Nat.div_lt_of_lt_mul
      rw [Nat.mul_comm, ← Nat.pow_succ]; exact h)
    refine ⟨BitVec.ofNat 64 v :: ds, by rw [List.length_cons, h1], ?_⟩
    rw [val_cons, h2, BitVec.toNat_ofNat]
    exact Nat.mod_add_div v B

/-- Every bit-vector is the value of an integer. -/
theorem exists_apint (w : BitWidth) (x : BitVec w.toUsize) :
    ∃ a : ApInt, a.WF ∧ a.abs = AInt.ofBV x := by
  by_cases hw : w.toUsize ≤ 64
  · have hlt : x.toNat < 2 ^ 64 := lt_of_lt_of_le x.isLt (Nat.pow_le_pow_right (by decide) hw)
    have hv : val [BitVec.ofNat 64 x.toNat] = x.toNat := by
      rw [val_singleton, BitVec.toNat_ofNat, Nat.mod_eq_of_lt hlt]
    refine ⟨⟨w, .inl (BitVec.ofNat 64 x.toNat)⟩, ⟨hw, ?_⟩, ?_⟩
    · show val [BitVec.ofNat 64 x.toNat] < _
      rw [hv]; exact x.isLt
    · show AInt.mk w.toUsize (val [BitVec.ofNat 64 x.toNat]) = _
      rw [hv]
  · obtain ⟨ds, h1, h2⟩ := exists_digits ((w.toUsize + 63) / 64) x.toNat (by
      rw [B_pow]
      exact lt_of_lt_of_le x.isLt (Nat.pow_le_pow_right (by decide) (by omega)))
    refine ⟨⟨w, .ext ds⟩, ⟨⟨by show 64 < w.toUsize; omega, h1⟩, ?_⟩, ?_⟩
    · show val ds < _
      rw [h2]; exact x.isLt
    · show AInt.mk w.toUsize (val ds) = _
      rw [h2]

theorem eval_agrees {ι : Type} {Γ : ι → BitWidth} {ρ : ι → ApInt}
    {β : (i : ι) → BitVec (Γ i).toUsize} (h : ∀ i, (ρ i).WF ∧ (ρ i).abs = AInt.ofBV (β i))
    {w : BitWidth} (e : Expr Γ w) : Computes (e.eval ρ) (e.den β) := by
  induction e with
  | var i => exact ⟨ρ i, by unfold Expr.eval; rw [clone_ok (h i).1.1]; rfl, (h i).1, (h i).2⟩
  | const c w => exact const_made c w
  | un o e ih => exact ih.andThen fun c v hc hv => un_agrees o hc hv
  | @alter o w e ih => exact ih.andThen fun c v hc hv => alter_agrees o w.pos hc hv
  | @bin o w e f ih ih' =>
    exact ih.andThen fun c v hc hv => ih'.andThen fun d u hd hu =>
      bin_agrees o w.pos hc hd hv hu
  | @pick q v w l r e f ihl ihr ihe ihf =>
    refine ihl.andThen fun c x hc hx => ihr.andThen fun d y hd hy => ?_
    rw [test_ok q hc hd v.pos hx hy]
    show Computes (if q.bv x y = true then _ else _) _
    cases q.bv x y
    · exact ihf
    · exact ihe

end Verif
