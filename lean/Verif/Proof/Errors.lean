import Verif.Proof.Format
import Verif.Proof.Program
import Verif.Proof.HeapErrors
import Verif.Model.Errors
import Verif.SpecErrorText

/-!
# The texts of integers and errors
-/

namespace Verif

open ApInt Props

/-! ## Decimal text -/

theorem digitChar_eq {d : Nat} (h : d < 10) :
    Nat.digitChar d = ['0', '1', '2', '3', '4', '5', '6', '7', '8', '9'].getD d '?' := by
  revert d; decide

theorem decimal_eq (n : Nat) : decimal n = decText n := by
  unfold decimal decText
  induction n using Nat.strong_induction_on with
  | _ n ih =>
    rw [Nat.toDigits_eq_if (by decide)]
    by_cases h0 : n = 0
    · subst h0; rfl
    · unfold canonical
      rw [if_neg h0, Nat.digits_def' (by decide) (by omega), List.reverse_cons, List.map_append,
        List.map_singleton, ← digitChar_eq (Nat.mod_lt _ (by decide))]
      split
      · rename_i h
        rw [Nat.div_eq_of_lt h, Nat.mod_eq_of_lt h]
        simp
      · rename_i h
        rw [ih (n / 10) (by omega)]
        unfold canonical
        rw [if_neg (by omega)]

theorem decText_inj {n m : Nat} (h : decText n = decText m) : n = m := by
  rw [← decimal_eq, ← decimal_eq] at h
  have := congrArg (fun l => Nat.ofDigitChars 10 l 0) h
  simpa [decimal] using this

theorem decText_isDigit {n : Nat} {c : Char} (h : c ∈ decText n) : c.isDigit = true := by
  rw [← decimal_eq] at h
  exact Nat.isDigit_of_mem_toDigits (by decide) (by decide) h

theorem split_at {α : Type} {p : α → Bool} {l l' r r' : List α} {x y : α}
    (hl : ∀ c ∈ l, p c = true) (hl' : ∀ c ∈ l', p c = true) (hx : p x = false) (hy : p y = false)
    (h : l ++ x :: r = l' ++ y :: r') : l = l' ∧ x = y ∧ r = r' := by
  induction l generalizing l' with
  | nil =>
    cases l' with
    | nil => simpa using h
    | cons c l' =>
      simp only [List.nil_append, List.cons_append, List.cons.injEq] at h
      have := hl' c (by simp)
      rw [← h.1, hx] at this
      cases this
  | cons c l ih =>
    cases l' with
    | nil =>
      simp only [List.nil_append, List.cons_append, List.cons.injEq] at h
      have := hl c (by simp)
      rw [h.1, hy] at this
      cases this
    | cons c' l' =>
      simp only [List.cons_append, List.cons.injEq] at h
      obtain ⟨h1, h2, h3⟩ := ih (fun c hc => hl c (by simp [hc])) (fun c hc => hl' c (by simp [hc])) h.2
      exact ⟨by rw [h.1, h1], h2, h3⟩

theorem decText_split {n m : Nat} {x y : Char} {r s : List Char} (hx : x.isDigit = false)
    (hy : y.isDigit = false) (h : decText n ++ x :: r = decText m ++ y :: s) :
    n = m ∧ x = y ∧ r = s := by
  obtain ⟨h1, h2⟩ := split_at (p := Char.isDigit) (fun _ => decText_isDigit)
    (fun _ => decText_isDigit) hx hy h
  exact ⟨decText_inj h1, h2⟩

theorem named_split {name : String} {n m : Nat} {r s : List Char}
    (h : named name n ++ r = named name m ++ s) : n = m ∧ r = s := by
  unfold named at h
  simp only [List.append_assoc, List.append_cancel_left_eq] at h
  obtain ⟨h1, _, h2⟩ := decText_split (x := ')') (y := ')') (by decide) (by decide) h
  exact ⟨h1, h2⟩

theorem named_eq (name : String) (n : Nat) : tupleText name n = named name n := by
  unfold tupleText named
  rw [decimal_eq]

/-! ## The text of an integer -/

theorem digitsText_eq (ds : List Digit) :
    digitsText ds = "[".toList ++ List.intercalate ", ".toList (ds.map digitText) ++ "]".toList := by
  cases ds with
  | nil => rfl
  | cons d ds =>
    have key : ∀ d, digitText d ++ (ds.flatMap fun d => ", ".toList ++ digitText d) =
        List.intercalate ", ".toList ((d :: ds).map digitText) := by
      induction ds with
      | nil => intro d; simp [List.intercalate]
      | cons e ds ih =>
        intro d
        rw [List.flatMap_cons, List.append_assoc, ih e]
        simp [List.intercalate]
    show "[".toList ++ digitText d ++ _ ++ "]".toList = _
    rw [← key d, List.append_assoc "[".toList]

theorem debug_ok {a : ApInt} (ha : a.WF) : a.debug = .ok a.abs.text := by
  have hs := ha.1
  have hd : a.digits.map digitText = (List.range ((a.w + 63) / 64)).map fun i =>
      named "Digit" (a.uval / 2 ^ (64 * i) % 2 ^ 64) := by
    have hl : a.digits.length = (a.w + 63) / 64 := hs.length_digits
    apply List.ext_getElem (by simp [hl])
    intro i h1 h2
    simp only [List.length_map] at h1
    simp only [List.getElem_map, List.getElem_range]
    unfold digitText
    rw [named_eq, val_getElem h1, pow_mul]
    rfl
  unfold ApInt.debug
  rw [show BitWidth.new a.lenBits = .ok a.len from BitWidth.new_ok (by have := a.len.pos; exact Nat.pos_iff_ne_zero.mp this)]
  simp only [expect_ok, asDigitSlice_ok hs, run_bind_ok, digitsText_eq, hd]
  unfold BitWidth.debug AInt.text ApInt.abs
  simp only [named_eq, List.append_assoc]
  rfl

theorem intercalate_split {name : String} {l l' : List Nat} {r s : List Char}
    (hl : l.length = l'.length)
    (h : List.intercalate ", ".toList (l.map (named name)) ++ r =
      List.intercalate ", ".toList (l'.map (named name)) ++ s) : l = l' ∧ r = s := by
  induction l generalizing l' with
  | nil =>
    cases l' with
    | nil => simpa using h
    | cons => simp at hl
  | cons n l ih =>
    cases l' with
    | nil => simp at hl
    | cons m l' =>
      cases l with
      | nil =>
        cases l' with
        | nil =>
          simp only [List.map_cons, List.map_nil, List.intercalate_singleton] at h
          obtain ⟨h1, h2⟩ := named_split h
          exact ⟨by rw [h1], h2⟩
        | cons => simp at hl
      | cons n' l =>
        cases l' with
        | nil => simp at hl
        | cons m' l' =>
          simp only [List.map_cons, List.intercalate_cons_cons, List.append_assoc] at h
          obtain ⟨h1, h2⟩ := named_split h
          obtain ⟨h3, h4⟩ := ih (l' := m' :: l') (by simpa using hl) (by
            simpa only [List.map_cons, List.append_cancel_left_eq] using h2)
          exact ⟨by rw [h1, h3], h4⟩

theorem digits_inj {w x y : Nat} (hx : x < 2 ^ w) (hy : y < 2 ^ w)
    (h : ∀ i < (w + 63) / 64, x / 2 ^ (64 * i) % 2 ^ 64 = y / 2 ^ (64 * i) % 2 ^ 64) : x = y := by
  have bit : ∀ z k : Nat, z.testBit k = (z / 2 ^ (64 * (k / 64)) % 2 ^ 64).testBit (k % 64) := by
    intro z k
    rw [Nat.testBit_mod_two_pow, Nat.testBit_div_two_pow]
    simp only [show k % 64 < 64 from Nat.mod_lt _ (by decide), decide_true, Bool.true_and]
    congr 1
    omega
  apply Nat.eq_of_testBit_eq
  intro k
  by_cases hk : k < w
  · rw [bit x, bit y, h _ (by omega)]
  · rw [Nat.testBit_lt_two_pow (lt_of_lt_of_le hx (Nat.pow_le_pow_right (by decide) (by omega))),
      Nat.testBit_lt_two_pow (lt_of_lt_of_le hy (Nat.pow_le_pow_right (by decide) (by omega)))]

theorem AInt.text_split {x y : AInt} {r s : List Char} (hx : x.bits < 2 ^ x.width)
    (hy : y.bits < 2 ^ y.width) (h : x.text ++ r = y.text ++ s) : x = y ∧ r = s := by
  obtain ⟨w, x⟩ := x
  obtain ⟨w', y⟩ := y
  unfold AInt.text at h
  simp only [List.append_assoc, List.append_cancel_left_eq] at h
  obtain ⟨hw, h⟩ := named_split h
  dsimp only at hw hx hy
  subst hw
  simp only [List.append_cancel_left_eq] at h
  have e : ∀ z : Nat, ((List.range ((w + 63) / 64)).map fun i =>
      named "Digit" (z / 2 ^ (64 * i) % 2 ^ 64)) =
      ((List.range ((w + 63) / 64)).map fun i => z / 2 ^ (64 * i) % 2 ^ 64).map (named "Digit") := by
    intro z
    simp [List.map_map, Function.comp_def]
  rw [e x, e y] at h
  obtain ⟨h1, h2⟩ := intercalate_split (by simp) h
  constructor
  · congr 1
    refine digits_inj hx hy fun i hi => ?_
    have := congrArg (fun l => l[i]?) h1
    simpa [hi] using this
  · simpa using h2

/-! ## Errors that own integers own well-formed ones -/

/-- The integer of an error satisfies the invariant. -/
def Err.WF : Err → Prop
  | .divisionByZero _ a => a.WF
  | .valueUnrepresentable a _ => a.WF
  | _ => True

theorem Err.wf_of_owned {e : Err} (h : e.abs.owned = none) : e.WF := by
  cases e <;> first | trivial | cases h

theorem bin_error_wf {o : Bin} {a c d : ApInt} (ha : a.WF) (hc : c.WF) {e : Err}
    (h : o.exec a c = .ok (.error e, d)) : e.WF := by
  have hs := bin_stored o ha hc
  have wf : ∀ {op : DivOp}, o.exec a c = .ok (.error (.divisionByZero op a), a) → e.WF := by
    intro op h'
    rw [h'] at h
    cases h
    exact ha
  match hsp : o.spec a.abs c.abs with
  | none => rw [hsp] at hs; rw [show o.exec a c = _ from hs] at h; cases h
  | some (.ok z) =>
    rw [hsp] at hs
    obtain ⟨_, hs, -⟩ := hs
    rw [hs] at h; cases h
  | some (.error f) =>
    rw [hsp] at hs
    obtain ⟨f', hs, hf⟩ := hs
    rw [hs] at h
    cases h
    cases ho : f.owned with
    | none => exact Err.wf_of_owned (by rw [hf]; exact ho)
    | some p =>
      by_cases hw : a.abs.width = c.abs.width <;> by_cases hz : c.abs.bits = 0 <;> cases o <;> first
        | exact wf (C12_division_by_zero ha hc (widths_eq hw) hz).2.2.1
        | exact wf (C12_division_by_zero ha hc (widths_eq hw) hz).2.2.2.1
        | exact wf (sdiv_zero ha hc hz).2.2.1
        | exact wf (sdiv_zero ha hc hz).2.2.2
        | (simp [Bin.spec, hw, hz] at hsp; done)
        | (simp [Bin.spec, hw, hz] at hsp; subst hsp; cases ho; done)

theorem into_error_wf {o : Bin} {a c : ApInt} (ha : a.WF) (hc : c.WF) {e : Err}
    (h : o.execInto a c = .ok (.error e)) : e.WF := by
  have h' : tryForwardBinMutImpl a c o.exec = .ok (.error e) := by
    cases o <;> exact h
  unfold tryForwardBinMutImpl at h'
  cases hx : o.exec a c with
  | error f => rw [hx] at h'; cases h'
  | ok p =>
    obtain ⟨r, d⟩ := p
    rw [hx] at h'
    cases r with
    | ok u => cases h'
    | error f =>
      cases h'
      exact bin_error_wf ha hc hx

theorem pair_error_wf {o : Pair} {a c a' c' : ApInt} (ha : a.WF) (hc : c.WF) {e : Err}
    (h : o.exec a c = .ok (.error e, a', c')) : e.WF := by
  have hs := pair_stored o ha hc
  have wf : ∀ {op : DivOp}, o.exec a c = .ok (.error (.divisionByZero op a), a, c) → e.WF := by
    intro op h'
    rw [h'] at h
    cases h
    exact ha
  match hsp : o.spec a.abs c.abs with
  | none => rw [hsp] at hs; rw [show o.exec a c = _ from hs] at h; cases h
  | some (.ok (z, z')) =>
    rw [hsp] at hs
    obtain ⟨_, _, hs, -⟩ := hs
    rw [hs] at h; cases h
  | some (.error f) =>
    rw [hsp] at hs
    obtain ⟨f', hs, hf⟩ := hs
    rw [hs] at h
    cases h
    cases ho : f.owned with
    | none => exact Err.wf_of_owned (by rw [hf]; exact ho)
    | some p =>
      by_cases hw : a.abs.width = c.abs.width <;> by_cases hz : c.abs.bits = 0 <;> cases o <;> first
        | exact wf (C12_division_by_zero ha hc (widths_eq hw) hz).1
        | exact wf (C12_division_by_zero ha hc (widths_eq hw) hz).2.1
        | exact wf (sdiv_zero ha hc hz).1
        | exact wf (sdiv_zero ha hc hz).2.1
        | (simp [Pair.spec, hw, hz] at hsp; done)
        | (simp [Pair.spec, hw, hz] at hsp; subst hsp; cases ho; done)

theorem acceptsBelow_error_wf {β : Type} {n : Nat} {r : Run (Res β)} {a : ApInt} (ha : a.WF)
    {ty : PrimitiveTy} {v : β} {f : β → Out} {e : Err} (h : AcceptsBelow n r a ty v)
    (he : tellRes f r = .ok (.error e)) : e.WF := by
  by_cases hv : a.uval < 2 ^ n
  · rw [h.1 hv] at he; cases he
  · rw [h.2 (Nat.le_of_not_lt hv)] at he
    cases he
    exact ha

theorem ask_error_wf {q : Ask} {a : ApInt} (ha : a.WF) {e : Err}
    (h : q.exec a = .ok (.error e)) : e.WF := by
  have owned : (∀ ty, q ≠ .tryTo ty) → e.WF := by
    intro hq
    have ht := ask_told q ha
    cases hsp : q.spec a.abs with
    | none => rw [hsp] at ht; rw [show q.exec a = _ from ht] at h; cases h
    | some x =>
      rw [hsp] at ht
      obtain ⟨y, hy, hx⟩ := ht
      rw [h] at hy
      cases hy
      apply Err.wf_of_owned
      subst hx
      cases q <;> first
        | exact absurd rfl (hq _)
        | (simp only [Ask.spec, absRes] at hsp; cases hsp; done)
        | (simp only [Ask.spec, absRes] at hsp
           split at hsp
           · cases hsp
           · first | (cases hsp; done) | (have := Except.error.inj (Option.some.inj hsp); rw [← this]; rfl))
  cases q
  case tryTo ty =>
    obtain ⟨hb, h8, h16, h32, h64, h128⟩ := C32_try_unsigned ha
    obtain ⟨s8, s16, s32, s64, s128⟩ := C32_try_signed ha
    cases ty
    · exact acceptsBelow_error_wf ha hb h
    · exact acceptsBelow_error_wf ha s8 h
    · exact acceptsBelow_error_wf ha h8 h
    · exact acceptsBelow_error_wf ha s16 h
    · exact acceptsBelow_error_wf ha h16 h
    · exact acceptsBelow_error_wf ha s32 h
    · exact acceptsBelow_error_wf ha h32 h
    · exact acceptsBelow_error_wf ha s64 h
    · exact acceptsBelow_error_wf ha h64 h
    · exact acceptsBelow_error_wf ha s128 h
    · exact acceptsBelow_error_wf ha h128 h
  all_goals exact owned nofun

/-! ## Which errors a call can report -/

/-- An error other than one about a text. -/
def AErr.Plain : AErr → Prop
  | .text .. | .other => False
  | _ => True

section

variable {b b' : ABank} {i : Instr}

theorem make_plain {m : Make} {e : AErr} (h : m.spec = .error e) :
    e.Plain ∨ ∃ k s, m = .parse k s ∧ ¬ Accepted (2 ^ (k.val + 1)) s ∧
      e = .text s (2 ^ (k.val + 1)) := by
  cases m <;> simp only [Make.spec] at h <;> first
    | (cases h; done)
    | (split at h <;> cases h; exact .inl trivial)
    | (split at h
       · cases h
       · have h := Except.error.inj h
         exact .inr ⟨_, _, rfl, ‹_›, h.symm⟩)

theorem un_plain {o : Un} {x : AInt} {e : AErr} (h : o.spec x = .error e) : e.Plain := by
  cases o <;> simp only [Un.spec] at h <;> first
    | (cases h; done)
    | (split at h <;> cases h; trivial)

theorem alter_plain {o : Alter} {x : AInt} {e : AErr} (h : o.spec x = .error e) : e.Plain := by
  cases o <;> simp only [Alter.spec] at h <;> first
    | (cases h; done)
    | (split at h <;> cases h; trivial)

theorem bin_plain {o : Bin} {x y : AInt} {e : AErr} (h : o.spec x y = some (.error e)) :
    e.Plain := by
  cases o <;> simp only [Bin.spec] at h <;> (repeat' split at h) <;> cases h <;> trivial

theorem pair_plain {o : Pair} {x y : AInt} {e : AErr} (h : o.spec x y = some (.error e)) :
    e.Plain := by
  cases o <;> simp only [Pair.spec] at h <;> (repeat' split at h) <;> cases h <;> trivial

theorem ask_plain {q : Ask} {x : AInt} {e : AErr} (h : q.spec x = some (.error e)) : e.Plain := by
  cases q <;> simp only [Ask.spec] at h <;> (repeat' split at h) <;> cases h <;> trivial

theorem ask2_plain {q : Ask2} {x y : AInt} {e : AErr} (h : q.spec x y = .error e) : e.Plain := by
  cases q <;> simp only [Ask2.spec] at h <;> (repeat' split at h) <;> cases h <;> trivial

/-- Only parsing reports an error about a text. -/
theorem spec_plain {e : AErr} (h : i.spec b = some (.error e, b')) :
    e.Plain ∨ ∃ k s, i = .make (.parse k s) ∧ ¬ Accepted (2 ^ (k.val + 1)) s ∧
      e = .text s (2 ^ (k.val + 1)) := by
  have noOk : ∀ {P : Prop}, (Except.error e : Except AErr Out) = .ok .unit → P := nofun
  have map_eq : ∀ {α : Type} {o : Option α} {f : α → Except AErr Out × ABank},
      o.map f = some (.error e, b') → ∃ z, o = some z ∧ f z = (.error e, b') := by
    intro α o f h
    cases o with
    | none => cases h
    | some z => exact ⟨z, rfl, Option.some.inj h⟩
  cases i with
  | make m =>
    obtain ⟨h1, h2⟩ := push_error (Option.some.inj h)
    rcases make_plain h1 with h' | ⟨k, s, rfl, h'⟩
    · exact .inl h'
    · exact .inr ⟨k, s, rfl, h'⟩
  | clone x =>
    refine one_cases h (fun h => noOk h) fun a _ h => ?_
    cases (push_error (Option.some.inj h)).1
  | drop x => cases h
  | assign x y =>
    refine two_cases h (fun h => noOk h) fun a c _ _ h => ?_
    cases (store_error (Option.some.inj h)).1
  | strictAssign x y =>
    refine two_cases h (fun h => noOk h) fun a c _ _ h => ?_
    obtain ⟨h1, h2⟩ := store_error (Option.some.inj h)
    split at h1 <;> cases h1
    exact .inl trivial
  | un o x =>
    refine one_cases h (fun h => noOk h) fun a _ h => ?_
    exact .inl (un_plain (store_error (Option.some.inj h)).1)
  | intoUn o x =>
    refine one_cases h (fun h => noOk h) fun a _ h => ?_
    exact .inl (un_plain (push_error (Option.some.inj h)).1)
  | alter o x =>
    refine one_cases h (fun h => noOk h) fun a _ h => ?_
    exact .inl (alter_plain (store_error (Option.some.inj h)).1)
  | bin o x y =>
    refine two_cases h (fun h => noOk h) fun a c hx _ h => ?_
    obtain ⟨z, hz, h⟩ := map_eq h
    obtain ⟨rfl, -⟩ := store_error h
    exact .inl (bin_plain hz)
  | intoBin o x y =>
    refine two_cases h (fun h => noOk h) fun a c hx _ h => ?_
    obtain ⟨z, hz, h⟩ := map_eq h
    obtain ⟨rfl, -⟩ := push_error h
    exact .inl (bin_plain hz)
  | opAssign o x y =>
    refine two_cases h (fun h => noOk h) fun a c _ _ h => ?_
    obtain ⟨z, -, h⟩ := map_eq h
    cases (store_error h).1
  | op o x y =>
    refine two_cases h (fun h => noOk h) fun a c _ _ h => ?_
    obtain ⟨z, -, h⟩ := map_eq h
    cases (push_error h).1
  | opShlAssign s x =>
    refine one_cases h (fun h => noOk h) fun a _ h => ?_
    obtain ⟨z, -, h⟩ := map_eq h
    cases (store_error h).1
  | opShl s x =>
    refine one_cases h (fun h => noOk h) fun a _ h => ?_
    obtain ⟨z, -, h⟩ := map_eq h
    cases (push_error h).1
  | pair o x y =>
    refine two_cases h (fun h => noOk h) fun a c hx _ h => ?_
    obtain ⟨z, hz, h⟩ := map_eq h
    cases z with
    | ok z => cases h
    | error f =>
      cases h
      exact .inl (pair_plain hz)
  | ask q x =>
    refine one_cases h (fun h => noOk h) fun a hx h => ?_
    obtain ⟨z, hz, h⟩ := map_eq h
    cases h
    exact .inl (ask_plain hz)
  | ask2 q x y =>
    refine two_cases h (fun h => noOk h) fun a c _ _ h => ?_
    exact .inl (ask2_plain (congrArg Prod.fst (Option.some.inj h)))

end

theorem map_abs_inj : ∀ {b b' : Bank}, (∀ a ∈ b, a.WF) → (∀ a ∈ b', a.WF) →
    b.map ApInt.abs = b'.map ApInt.abs → b = b'
  | [], [], _, _, _ => rfl
  | [], _ :: _, _, _, h => by simp at h
  | _ :: _, [], _, _, h => by simp at h
  | a :: b, a' :: b', hb, hb', h => by
    simp only [List.map_cons, List.cons.injEq] at h
    rw [abs_inj (hb a (by simp)) (hb' a' (by simp)) h.1,
      map_abs_inj (fun x hx => hb x (by simp [hx])) (fun x hx => hb' x (by simp [hx])) h.2]

/-- What is known about the error of a failing call. -/
theorem exec_error {i : Instr} {b b' : Bank} (hb : ∀ a ∈ b, a.WF) {e : Err}
    (h : i.exec b = .ok (.error e, b')) :
    b' = b ∧ i.spec (b.map ApInt.abs) = some (.error e.abs, b.map ApInt.abs) ∧ e.WF := by
  have hs : i.spec (b.map ApInt.abs) = some (.error e.abs, b'.map ApInt.abs) ∧ ∀ a ∈ b', a.WF := by
    have ha := exec_agrees i hb
    cases hsp : i.spec (b.map ApInt.abs) with
    | none => rw [hsp] at ha; rw [show i.exec b = _ from ha] at h; cases h
    | some p =>
      obtain ⟨x, s⟩ := p
      rw [hsp] at ha
      obtain ⟨y, c, h1, h2, h3, h4⟩ := ha
      rw [h] at h1
      cases h1
      exact ⟨by rw [← h2, h4]; rfl, h3⟩
  obtain ⟨hs, hb'⟩ := hs
  obtain ⟨h1, h2⟩ := spec_error hs
  have hbb : b' = b := map_abs_inj hb' hb h1
  subst hbb
  refine ⟨rfl, hs, ?_⟩
  have wf : ∀ {x : Nat} {a : ApInt}, b'[x]? = some a → a.WF := fun h =>
    hb _ (List.mem_of_getElem? h)
  cases ho : e.abs.owned with
  | none => exact Err.wf_of_owned ho
  | some p =>
    obtain ⟨x, hx, -⟩ := h2 p.1 p.2 ho
    cases i with
    | bin o x y =>
      simp only [Instr.exec, storeRes] at h
      cases ha : b'[x]? with
      | none => rw [ha] at h; cases h
      | some a =>
        cases hc : b'[y]? with
        | none => rw [ha, hc] at h; cases h
        | some c =>
          rw [ha, hc] at h
          cases hr : o.exec a c with
          | error f => simp only [hr] at h; cases h
          | ok p =>
            obtain ⟨r, d⟩ := p
            cases r with
            | ok u => simp only [hr] at h; cases h
            | error f =>
              simp only [hr] at h
              have : f = e := by
                have := congrArg (fun q => q.map Prod.fst) h
                simpa [Except.map, pure, Except.pure] using this
              subst this
              exact bin_error_wf (wf ha) (wf hc) hr
    | intoBin o x y =>
      simp only [Instr.exec, pushRes] at h
      cases ha : b'[x]? with
      | none => rw [ha] at h; cases h
      | some a =>
        cases hc : b'[y]? with
        | none => rw [ha, hc] at h; cases h
        | some c =>
          rw [ha, hc] at h
          simp only [clone_ok (wf ha).1, run_bind_ok] at h
          cases hr : o.execInto a c with
          | error f => simp only [hr] at h; cases h
          | ok r =>
            cases r with
            | ok u => simp only [hr] at h; cases h
            | error f =>
              simp only [hr] at h
              cases h
              exact into_error_wf (wf ha) (wf hc) hr
    | pair o x y =>
      simp only [Instr.exec] at h
      cases ha : b'[x]? with
      | none => rw [ha] at h; cases h
      | some a =>
        cases hc : b'[y]? with
        | none => rw [ha, hc] at h; cases h
        | some c =>
          rw [ha, hc] at h
          cases hr : o.exec a c with
          | error f => simp only [hr] at h; cases h
          | ok p =>
            obtain ⟨r, d, d'⟩ := p
            cases r with
            | ok u => simp only [hr] at h; cases h
            | error f =>
              simp only [hr] at h
              have : f = e := by
                have := congrArg (fun q => q.map Prod.fst) h
                simpa [Except.map, pure, Except.pure] using this
              subst this
              exact pair_error_wf (wf ha) (wf hc) hr
    | ask q x =>
      simp only [Instr.exec] at h
      cases ha : b'[x]? with
      | none => rw [ha] at h; cases h
      | some a =>
        rw [ha] at h
        cases hr : q.exec a with
        | error f => simp only [hr] at h; cases h
        | ok r =>
          simp only [hr] at h
          cases h
          exact ask_error_wf (wf ha) hr
    | _ => cases hx

/-! ## Parse errors -/

theorem firstInvalid_kind {q : Quoting} {s : Text} {r : Radix} : ∀ (i : Nat) (bs v : List Nat),
    match firstInvalid q s r i bs with
    | some e => collectDigits s r bs v = .error e.kind ∧ e.annotation = none ∧
        e.kind = .invalidStringRepr s r none
    | none => ∃ v', collectDigits s r bs v = .ok v'
  | _, [], v => ⟨v, rfl⟩
  | i, b :: bs, v => by
    unfold firstInvalid collectDigits
    cases byteToDigit b with
    | none => exact firstInvalid_kind (i + 1) bs v
    | some d =>
      by_cases h : r.isValidByte d
      · simp only [h, Bool.not_true, Bool.false_eq_true, if_false]
        exact firstInvalid_kind (i + 1) bs (v ++ [d])
      · simp only [h, Bool.not_false, if_true]
        exact ⟨rfl, rfl, rfl⟩

theorem parseError_kind {q : Quoting} {s : Text} {r : Radix} {e : Error}
    (h : parseError q r s = some e) : fromStrRadix' r s = .ok (.error e.kind) ∧
      e.kind = .invalidStringRepr s r none ∧ e.annotation = parseNote s := by
  unfold parseError at h
  unfold fromStrRadix' parseNote
  by_cases h1 : s = []
  · subst h1
    cases h
    exact ⟨rfl, rfl, rfl⟩
  · have h1' : s.isEmpty = false := List.isEmpty_eq_false_iff.mpr h1
    simp only [h1', Bool.false_eq_true, if_false, h1] at h ⊢
    by_cases h2 : s.head? = some '_'
    · simp only [h2, if_true] at h ⊢
      cases h
      exact ⟨rfl, rfl, rfl⟩
    · simp only [h2, if_false] at h ⊢
      by_cases h3 : s.getLast? = some '_'
      · simp only [h3, if_true] at h ⊢
        cases h
        exact ⟨rfl, rfl, rfl⟩
      · simp only [h3, if_false] at h ⊢
        have hk := firstInvalid_kind (q := q) (s := s) (r := r) 0 (utf8Bytes s) []
        rw [h] at hk
        simp only [hk.1, hk.2.1, hk.2.2, and_self]

theorem parseError_none {q : Quoting} {s : Text} {r : Radix} (h : parseError q r s = none) :
    ∀ e, fromStrRadix' r s ≠ .ok (.error e) := by
  intro e he
  unfold parseError at h
  unfold fromStrRadix' at he
  by_cases h1 : s.isEmpty = true
  · simp only [h1, if_true] at h
    cases h
  · simp only [h1, Bool.false_eq_true, if_false] at h he
    by_cases h2 : s.head? = some '_'
    · simp only [h2, if_true] at h
      cases h
    · simp only [h2, if_false] at h he
      by_cases h3 : s.getLast? = some '_'
      · simp only [h3, if_true] at h
        cases h
      · simp only [h3, if_false] at h he
        have hk := firstInvalid_kind (q := q) (s := s) (r := r) 0 (utf8Bytes s) []
        rw [h] at hk
        obtain ⟨v, hv⟩ := hk
        simp only [hv] at he
        have bind_err : ∀ {α : Type} {m : Run α} {f : α → Run (Res ApInt)},
            (m >>= f) = .ok (.error e) → ∃ x, f x = .ok (.error e) := by
          intro α m f h
          cases m with
          | error => cases h
          | ok x => exact ⟨x, h⟩
        obtain ⟨bits, he⟩ := bind_err he
        cases bits with
        | none =>
          obtain ⟨x, he⟩ := bind_err he
          cases he
        | some bits =>
          simp only at he
          split at he
          · cases he
          · split at he
            · obtain ⟨x, he⟩ := bind_err he
              cases he
            · obtain ⟨x, he⟩ := bind_err he
              cases he

theorem utf8_first {c : Char} (h : 128 ≤ c.toNat) :
    ∃ b rest, (String.utf8EncodeChar c).map UInt8.toNat = b :: rest ∧ 128 ≤ b ∧
      shownFor c = Char.ofNat b := by
  have hv : c.val.toNat < 1114112 := by
    rcases c.valid with h | h
    · exact lt_trans h (by decide)
    · exact h.2
  unfold String.utf8EncodeChar shownFor
  simp only [Char.toNat] at h ⊢
  have h0 : ¬ c.val.toNat ≤ 127 := by omega
  by_cases h1 : c.val.toNat ≤ 0x7ff
  · simp only [h0, h1, if_true, if_false, List.map_cons]
    refine ⟨_, _, rfl, ?_, ?_⟩
    · simp only [UInt8.toNat_ofNat']
      omega
    · rw [if_neg (by omega), if_pos (by omega)]
      simp only [UInt8.toNat_ofNat']
      congr 1
      omega
  · by_cases h2 : c.val.toNat ≤ 0xffff
    · simp only [h0, h1, h2, if_true, if_false, List.map_cons]
      refine ⟨_, _, rfl, ?_, ?_⟩
      · simp only [UInt8.toNat_ofNat']
        omega
      · rw [if_neg (by omega), if_neg (by omega), if_pos (by omega)]
        simp only [UInt8.toNat_ofNat']
        congr 1
        omega
    · simp only [h0, h1, h2, if_false, List.map_cons]
      refine ⟨_, _, rfl, ?_, ?_⟩
      · simp only [UInt8.toNat_ofNat']
        omega
      · rw [if_neg (by omega), if_neg (by omega), if_neg (by omega)]
        simp only [UInt8.toNat_ofNat']
        congr 1
        omega

/-- The error of the loop for a text whose first invalid character is `c`. -/
theorem firstInvalid_at {q : Quoting} {input : Text} {r : Radix} (hr : r.toU8 ≤ 36) {c : Char}
    {post : Text} (hc : ¬ GoodChar r.toU8 c) : ∀ (pre : Text) (i : Nat),
    (∀ x ∈ pre, GoodChar r.toU8 x) →
    firstInvalid q input r i (utf8Bytes (pre ++ c :: post)) =
      some (.invalidCharInStringRepr q input r (i + pre.length) (shownFor c))
  | [], i, _ => by
    rw [List.nil_append]
    by_cases ha : c.toNat < 128
    · have e : utf8Bytes (c :: post) = c.toNat :: utf8Bytes post := by
        unfold utf8Bytes
        rw [List.flatMap_cons, utf8_small ha]; rfl
      have hu : c ≠ '_' := fun h => hc (Or.inl h)
      rw [e, firstInvalid, byteToDigit_ascii ha]
      simp only [hu, if_false]
      have hlt : ¬ (charVal c).getD 255 < r.toU8 := by
        cases hd : charVal c with
        | none => simp; omega
        | some d =>
          intro h
          exact hc (Or.inr ⟨d, hd, by simpa using h⟩)
      have hs : shownFor c = Char.ofNat c.toNat := by
        unfold shownFor
        rw [if_pos ha, Char.ofNat_toNat]
      simp [Radix.isValidByte, hlt, hs]
    · obtain ⟨b, rest, e, hb', hs⟩ := utf8_first (c := c) (by omega)
      have e' : utf8Bytes (c :: post) = b :: (rest ++ utf8Bytes post) := by
        unfold utf8Bytes
        rw [List.flatMap_cons, e]; rfl
      rw [e', firstInvalid]
      have : byteToDigit b = some 255 := by
        unfold byteToDigit
        rw [if_neg (by omega), if_neg (by omega), if_neg (by omega), if_neg (by omega)]
      rw [this]
      have hv : r.isValidByte 255 = false := by
        unfold Radix.isValidByte
        exact decide_eq_false (by omega)
      simp [hv, hs]
  | x :: pre, i, hg => by
    have hx := hg x (by simp)
    have ha := goodChar_ascii hx
    have ih := firstInvalid_at (q := q) (input := input) (post := post) hr hc pre (i + 1)
      (fun y hy => hg y (by simp [hy]))
    have e : utf8Bytes (x :: pre ++ c :: post) = x.toNat :: utf8Bytes (pre ++ c :: post) := by
      unfold utf8Bytes
      rw [List.cons_append, List.flatMap_cons, utf8_small ha]; rfl
    rw [show i + (x :: pre).length = i + 1 + pre.length by simp; omega, ← ih, e, firstInvalid,
      byteToDigit_ascii ha]
    by_cases hu : x = '_'
    · simp only [hu, if_true]
    · rcases hx with hx | ⟨d, hd, hlt⟩
      · exact absurd hx hu
      · simp only [hu, if_false, hd, Option.getD_some, Radix.isValidByte, hlt, decide_true,
          Bool.not_true, Bool.false_eq_true]

end Verif
