import Verif.Proof.Typed
import Verif.Props.Witness

/-!
# Programs over `UInt` and `Int` (C69)

`TInstr` is one call of the API of `UInt` and `Int`, `TInstr.exec` runs the modelled code for it on
a bank of integers of both types, `TInstr.spec` is the same call on the abstract machine of
`SpecTyped.lean`, which computes with mathematical integers.
-/

namespace Verif.Props

open ApInt Ex

/-- C69, one call: the answer, the reported error and the new bank are those of the machine over
integers; the call panics exactly when that machine says so. -/
theorem C69_call (i : TInstr) {b : TBank} (hb : ∀ a ∈ b, a.WF) :
    (∀ x s, i.spec (b.map WInt.num) = some (x, s) →
      ∃ y b', i.exec b = .ok (y, b') ∧ tabsRes y = x ∧ b'.map WInt.num = s ∧ ∀ a ∈ b', a.WF) ∧
    (i.spec (b.map WInt.num) = none → i.exec b = .error .panic) := by
  have h := texec_agrees hb i
  constructor
  · intro x s hs
    rw [hs] at h
    obtain ⟨y, b', h, hy, hb', hm⟩ := h
    exact ⟨y, b', h, hy, hm, hb'⟩
  · intro hs
    rw [hs] at h
    exact h

/-- C69: run any program over `UInt`s and `Int`s from any bank of well-formed integers next to the
same program on the machine over integers.  The answers (values and errors) of all calls agree,
and either both runs end with banks that agree, or both panic at the same call. -/
theorem C69_program (p : List TInstr) {b : TBank} (hb : ∀ a ∈ b, a.WF) :
    (trun p b).1.map tabsRes = (tspecRun p (b.map WInt.num)).1 ∧
    (∀ b', (trun p b).2 = .ok b' →
      (∀ a ∈ b', a.WF) ∧ (tspecRun p (b.map WInt.num)).2 = some (b'.map WInt.num)) ∧
    (∀ f, (trun p b).2 = .error f →
      f = .panic ∧ (tspecRun p (b.map WInt.num)).2 = none) := by
  obtain ⟨h1, h2⟩ := trun_agrees p hb
  refine ⟨h1, ?_, ?_⟩
  · intro b' e
    match hs : (tspecRun p (b.map WInt.num)).2 with
    | none =>
      rw [hs] at h2
      have h2 : (trun p b).2 = .error .panic := h2
      rw [h2] at e; cases e
    | some t =>
      rw [hs] at h2
      obtain ⟨c, h, h3, h4⟩ := h2
      rw [h] at e; cases e
      exact ⟨h3, congrArg some h4.symm⟩
  · intro f e
    match hs : (tspecRun p (b.map WInt.num)).2 with
    | none =>
      rw [hs] at h2
      have h2 : (trun p b).2 = .error .panic := h2
      rw [h2] at e; cases e
      exact ⟨rfl, rfl⟩
    | some t =>
      rw [hs] at h2
      obtain ⟨c, h, h3, h4⟩ := h2
      rw [h] at e; cases e

/-- C69: the integers of the abstract machine are in the range of their type, and different
well-formed `UInt`s and `Int`s stand for different ones. -/
theorem C69_faithful {a b : WInt} (ha : a.WF) (hb : b.WF) :
    0 < a.num.width ∧ a.num.InRange ∧ (a.num = b.num ↔ a = b) := by
  refine ⟨?_, ?_, fun h => ?_, fun h => h ▸ rfl⟩
  · cases a <;> exact ApInt.pos_w _
  · cases a with
    | u a =>
      have h : ((a.value.uval : Nat) : Int) < 2 ^ a.value.w := by
        exact_mod_cast (show a.value.WF from ha).2
      exact ⟨Int.natCast_nonneg _, h⟩
    | s a => exact sint_range (ok_abs (a := a.value) ha)
  · cases a <;> cases b
    case u.u a b =>
      have := abs_inj ha hb (num_inj (k := .unsigned) (ok_abs (a := a.value) ha)
        (ok_abs (a := b.value) hb) h)
      cases a; cases b
      exact congrArg (fun v => WInt.u ⟨v⟩) this
    case s.s a b =>
      have := abs_inj ha hb (num_inj (k := .signed) (ok_abs (a := a.value) ha)
        (ok_abs (a := b.value) hb) h)
      cases a; cases b
      exact congrArg (fun v => WInt.s ⟨v⟩) this
    case u.s a b => cases congrArg Num.kind h
    case s.u a b => cases congrArg Num.kind h

/-- C69: no program over `UInt`s and `Int`s reads the inactive storage variant, uses a buffer of
the wrong size or runs forever. -/
theorem C69_no_bad_access (p : List TInstr) {b : TBank} (hb : ∀ a ∈ b, a.WF) :
    (trun p b).2 ≠ .error .ub ∧ (trun p b).2 ≠ .error .diverge := by
  have h := (C69_program p hb).2.2
  exact ⟨fun e => (by cases (h _ e).1), fun e => (by cases (h _ e).1)⟩

theorem of_inRange {k : Kind} {w : Nat} {v : Int} (hw : 0 < w) (h : Num.InRange ⟨k, w, v⟩) :
    Num.of k w v = ⟨k, w, v⟩ := by
  cases k with
  | unsigned =>
    obtain ⟨h1, h2⟩ : 0 ≤ v ∧ v < 2 ^ w := h
    unfold Num.of
    simp only [Int.emod_eq_of_lt h1 h2]
  | signed => exact of_signed_small hw h.1 h.2

/-- The integer operation behind a call. -/
def exactly : TBin → Option (Int → Int → Int)
  | .add => some (· + ·)
  | .sub => some (· - ·)
  | .mul => some (· * ·)
  | _ => none

/-- C69: as long as the exact sum, difference or product fits the type, a `UInt` or `Int` computes
it, at any width. -/
theorem C69_exact {o : TBin} {f : Int → Int → Int} (ho : exactly o = some f) {a c : WInt}
    (ha : a.WF) (hc : c.WF) (hk : a.num.kind = c.num.kind) (hw : a.num.width = c.num.width)
    (hr : Num.InRange ⟨a.num.kind, a.num.width, f a.num.val c.num.val⟩) :
    ∃ r d, o.exec a c = some r ∧ r = .ok (.ok (), d) ∧ d.WF ∧
      d.num = ⟨a.num.kind, a.num.width, f a.num.val c.num.val⟩ := by
  have h := tbin_stored o ha hc
  have e : o.spec a.num c.num = .gives ⟨a.num.kind, a.num.width, f a.num.val c.num.val⟩ := by
    have hp : 0 < a.num.width := (C69_faithful ha hc).1
    have g : ∀ v, Num.InRange ⟨a.num.kind, a.num.width, v⟩ →
        (if a.num.width = c.num.width then Did.gives (a.num.put v)
          else .reports (.widths a.num.width c.num.width)) =
        .gives ⟨a.num.kind, a.num.width, v⟩ := by
      intro v hv
      rw [if_pos hw]
      exact congrArg Did.gives (of_inRange hp hv)
    cases o <;> cases ho
    all_goals
      simp only [TBin.spec]
      rw [if_neg (not_not_intro hk)]
      exact g _ hr
  rw [e] at h
  unfold TIn at h
  cases hx : o.exec a c with
  | none => rw [hx] at h; cases h
  | some r =>
    rw [hx] at h
    obtain ⟨d, h1, h2, h3⟩ := h
    exact ⟨r, d, rfl, h1, h2, h3⟩

/-- The calls on `UInt` and `Int` that panic: an operator whose checked form reports an error
(different widths, a divisor 0, a shift by the width or more), a checked signed division of
different widths (with a divisor other than 0), and octal text of a number other than 0. -/
def TMayPanic (b : NBank) : TInstr → Prop
  | .opUn (.shl s) x | .opUn (.shr s) x | .opShift (.shl s) x | .opShift (.shr s) x =>
      ∃ a, b[x]? = some a ∧ a.width ≤ s
  | .op o x y | .opAssign o x y => ∃ a c, b[x]? = some a ∧ b[y]? = some c ∧ a.kind = c.kind ∧
      (a.width ≠ c.width ∨ (o = .div ∨ o = .rem) ∧ c.val = 0)
  | .bin o x y | .intoBin o x y => ∃ a c, b[x]? = some a ∧ b[y]? = some c ∧
      a.kind = .signed ∧ c.kind = .signed ∧ a.width ≠ c.width ∧ c.val ≠ 0 ∧
      (o = .div ∨ o = .rem)
  | .ask .octal x => ∃ a, b[x]? = some a ∧ a.val ≠ 0
  | _ => False

theorem tbin_panics (o : TBin) (x y : Num) : o.spec x y = .panics ↔
    x.kind = .signed ∧ y.kind = .signed ∧ x.width ≠ y.width ∧ y.val ≠ 0 ∧
      (o = .div ∨ o = .rem) := by
  obtain ⟨k, w, v⟩ := x
  obtain ⟨k', w', v'⟩ := y
  cases k <;> cases k' <;> cases o <;> by_cases hw : w = w' <;> by_cases hv : v' = 0 <;>
    simp [TBin.spec, hw, hv]

theorem tbin_op_panics (o : TBin) (x y : Num) : (o.spec x y).op = .panics ↔
    x.kind = y.kind ∧ (x.width ≠ y.width ∨ (o = .div ∨ o = .rem) ∧ y.val = 0) := by
  obtain ⟨k, w, v⟩ := x
  obtain ⟨k', w', v'⟩ := y
  cases k <;> cases k' <;> cases o <;> by_cases hw : w = w' <;> by_cases hv : v' = 0 <;>
    simp [TBin.spec, Did.op, hw, hv]

theorem task2_calm (q : TAsk2) (x y : Num) : q.spec x y ≠ .panics := by
  by_cases hk : x.kind = y.kind <;> by_cases hw : x.width = y.width <;> cases q <;>
    simp [TAsk2.spec, hk, hw]

theorem tspec_none_iff (i : TInstr) (b : NBank) : i.spec b = none ↔ TMayPanic b i := by
  have onDid : ∀ {α : Type} (d : Did α) (g : α → Except AErr TOut × NBank) (r : NBank),
      b.onDid d g r = none ↔ d = .panics := by
    intro α d g r
    cases d <;> simp [NBank.onDid]
  have one : ∀ {α : Type} (x : Nat) {f : Num → Did α}
      {k : Did α → Option (Except AErr TOut × NBank)} {P : Num → Prop},
      (∀ d, k d = none ↔ d = .panics) → (∀ a, f a = .panics ↔ P a) →
      ((match b[x]? with
        | some a => k (f a)
        | none => some (.ok (.out .unit), b)) = none ↔ ∃ a, b[x]? = some a ∧ P a) := by
    intro α x f k P hk h
    cases hx : b[x]? with
    | none => simp
    | some a => simp [hk, h]
  have two : ∀ {α : Type} (x y : Nat) {f : Num → Num → Did α}
      {k : Did α → Option (Except AErr TOut × NBank)} {P : Num → Num → Prop},
      (∀ d, k d = none ↔ d = .panics) → (∀ a c, f a c = .panics ↔ P a c) →
      ((match b[x]?, b[y]? with
        | some a, some c => k (f a c)
        | _, _ => some (.ok (.out .unit), b)) = none ↔
        ∃ a c, b[x]? = some a ∧ b[y]? = some c ∧ P a c) := by
    intro α x y f k P hk h
    cases hx : b[x]? with
    | none => simp
    | some a =>
      cases hy : b[y]? with
      | none => simp
      | some c => simp [hk, h]
  have never1 : ∀ {x : Nat}, (∃ a : Num, b[x]? = some a ∧ False) ↔ False := by simp
  have never2 : ∀ {x y : Nat}, (∃ a c : Num, b[x]? = some a ∧ b[y]? = some c ∧ False) ↔ False := by
    simp
  have no : ∀ {α : Type} {d : Did α}, d ≠ .panics → (d = .panics ↔ False) := fun h =>
    ⟨h, False.elim⟩
  have ite : ∀ {α : Type} {c : Prop} [Decidable c] {d e : Did α}, d ≠ .panics → e ≠ .panics →
      (if c then d else e) ≠ .panics := by
    intro α c _ d e h1 h2
    split <;> assumption
  have shift : ∀ (c : Prop) [Decidable c] (z : Num) (e : AErr),
      (if c then Did.gives z else .reports e).op = .panics ↔ ¬ c := by
    intro c _ z e
    by_cases h : c <;> simp [h, Did.op]
  cases i with
  | make m =>
    refine (onDid _ _ _).trans (no ?_)
    cases m
    case min k t => cases k <;> nofun
    case max k t => cases k <;> nofun
    case parse k n s => simp only [TMake.spec]; split <;> nofun
    all_goals nofun
  | intOne t => exact ⟨nofun, nofun⟩
  | drop x => exact ⟨nofun, nofun⟩
  | clone x =>
    refine (one x (fun d => onDid d _ _) fun a => no ?_).trans never1
    nofun
  | assign x y =>
    refine (two x y (fun d => onDid d _ _) fun a c => no ?_).trans never2
    repeat' split
    all_goals nofun
  | strictAssign x y =>
    refine (two x y (fun d => onDid d _ _) fun a c => no ?_).trans never2
    repeat' split
    all_goals nofun
  | intoUnsigned x =>
    refine (one x (fun d => onDid d _ _) fun a => no ?_).trans never1
    repeat' split
    all_goals nofun
  | intoSigned x =>
    refine (one x (fun d => onDid d _ _) fun a => no ?_).trans never1
    repeat' split
    all_goals nofun
  | un o x =>
    refine (one x (fun d => onDid d _ _) fun a => no ?_).trans never1
    cases o <;> simp only [TUn.spec] <;> first | (split <;> nofun) | nofun
  | intoUn o x =>
    refine (one x (fun d => onDid d _ _) fun a => no ?_).trans never1
    cases o <;> simp only [TUn.spec] <;> first | (split <;> nofun) | nofun
  | opUn o x =>
    cases o with
    | not =>
      refine (one x (fun d => onDid d _ _) fun a => no ?_).trans never1
      show Did.op (.gives _) ≠ _
      nofun
    | neg =>
      refine (one x (fun d => onDid d _ _) fun a => no ?_).trans never1
      show Did.op (.gives _) ≠ _
      nofun
    | shl s => exact one x (fun d => onDid d _ _) fun a => (shift _ _ _).trans not_lt
    | shr s => exact one x (fun d => onDid d _ _) fun a => (shift _ _ _).trans not_lt
  | opShift o x =>
    cases o with
    | shl s => exact one x (fun d => onDid d _ _) fun a => (shift _ _ _).trans not_lt
    | shr s => exact one x (fun d => onDid d _ _) fun a => (shift _ _ _).trans not_lt
  | alter o x =>
    refine (one x (fun d => onDid d _ _) fun a => no ?_).trans never1
    cases o <;> simp only [TAlter.spec] <;> first | (split <;> nofun) | nofun
  | bin o x y => exact two x y (fun d => onDid d _ _) fun a c => tbin_panics o a c
  | intoBin o x y => exact two x y (fun d => onDid d _ _) fun a c => tbin_panics o a c
  | op o x y => exact two x y (fun d => onDid d _ _) fun a c => tbin_op_panics o a c
  | opAssign o x y => exact two x y (fun d => onDid d _ _) fun a c => tbin_op_panics o a c
  | ask q x =>
    have map : ∀ {d : Did Out}, (Did.map TOut.out d = .panics ↔ d = .panics) := by
      intro d
      cases d <;> simp [Did.map]
    cases q
    case octal =>
      refine one x (fun d => onDid d _ _) fun a => map.trans ?_
      show (if a.val = 0 then _ else _) = _ ↔ _
      by_cases h : a.val = 0 <;> simp [h]
    all_goals
      refine (one x (fun d => onDid d _ _) fun a => map.trans (no ?_)).trans never1
    case resize ty =>
      show (match a.cast ty with | some o => _ | none => _) ≠ _
      cases a.cast ty <;> nofun
    case tryTo ty =>
      refine ite nofun ?_
      cases a.cast ty with
      | none => nofun
      | some o => exact ite nofun nofun
    all_goals simp only [TAsk.spec]
    all_goals first | (split <;> nofun) | nofun
  | ask2 q x y =>
    refine (two x y (fun d => onDid d _ _) fun a c => no ?_).trans never2
    exact task2_calm q a c

/-- C69: the calls on `UInt` and `Int` that panic are exactly those listed in `TMayPanic`. -/
theorem C69_panics (i : TInstr) {b : TBank} (hb : ∀ a ∈ b, a.WF) :
    i.exec b = .error .panic ↔ TMayPanic (b.map WInt.num) i := by
  rw [← tspec_none_iff]
  obtain ⟨h1, h2⟩ := C69_call i hb
  refine ⟨fun h => ?_, h2⟩
  cases hs : i.spec (b.map WInt.num) with
  | none => rfl
  | some p =>
    obtain ⟨y, b', e, -⟩ := h1 p.1 p.2 hs
    rw [e] at h; cases h

/-- Both types: the `Int`s `x = -2^99` and `y = -7` at 100 bits, `x = x / y`, `x >>= 3`, the sign of
`y`, a copy of `x` as `UInt`, the `UInt` `z = 240` at 8 bits, a failing comparison, `z` at 100 bits,
less the copy, which wraps around, a comparison, an addition of an `Int` to a `UInt` (there is
none), a remainder by zero that loses `z`, and a last comparison. -/
def tdemo : List TInstr :=
  [.make (.min .signed (bw 100)), .make (.i8 0xF9#8), .un (.extend (bw 100)) 1,
    .op .div 0 1, .opShift (.shr 3) 0, .ask .signum 1, .clone 0, .intoUnsigned 2,
    .make (.u8 0xF0#8), .ask2 .checkedLt 2 3, .un (.resize (bw 100)) 3, .bin .sub 3 2,
    .ask2 .partialCmp 3 2, .bin .add 3 1, .make (.zero .unsigned (bw 100)), .intoBin .rem 3 4,
    .ask2 .ge 0 1]

theorem tdemo_spec : tspecRun tdemo [] =
    ([.ok (.out .unit), .ok (.out .unit), .ok (.out .unit), .ok (.out .unit), .ok (.out .unit),
      .ok (.out (.int (-1))), .ok (.out .unit), .ok (.out .unit), .ok (.out .unit),
      .error (.widths 100 8), .ok (.out .unit), .ok (.out .unit), .ok (.ord (some .gt)),
      .ok (.out .unit), .ok (.out .unit),
      .error (.divZero .unsignedRem ⟨100, 2 ^ 100 + 240 - 2 ^ 99 / 7 / 8⟩),
      .ok (.out (.bool true))],
     some [⟨.signed, 100, 2 ^ 99 / 7 / 8⟩, ⟨.signed, 100, -7⟩, ⟨.unsigned, 100, 2 ^ 99 / 7 / 8⟩,
      ⟨.unsigned, 100, 0⟩]) := by
  decide +kernel

example : (trun tdemo []).1.map tabsRes = (tspecRun tdemo []).1 :=
  (C69_program tdemo (b := []) (by simp)).1

example : ∃ b', (trun tdemo []).2 = .ok b' ∧ (∀ a ∈ b', a.WF) ∧
    b'.map WInt.num = [⟨.signed, 100, 2 ^ 99 / 7 / 8⟩, ⟨.signed, 100, -7⟩,
      ⟨.unsigned, 100, 2 ^ 99 / 7 / 8⟩, ⟨.unsigned, 100, 0⟩] := by
  obtain ⟨h1, h2, h3⟩ := C69_program tdemo (b := []) (by simp)
  have e : (tspecRun tdemo []).2 = _ := congrArg Prod.snd tdemo_spec
  cases h : (trun tdemo []).2 with
  | error f =>
    have := (h3 f h).2
    rw [List.map_nil, e] at this
    cases this
  | ok b' =>
    have h4 := h2 b' h
    rw [List.map_nil, e] at h4
    exact ⟨b', rfl, h4.1, (Option.some.inj h4.2).symm⟩

/-- Two `Int`s of 7 bits, -28 and 60. -/
example : ∃ r d, TBin.exec .add (.s ⟨a7⟩) (.s ⟨b7⟩) = some r ∧ r = .ok (.ok (), d) ∧ d.WF ∧
    d.num = ⟨.signed, 7, 32⟩ :=
  C69_exact (o := .add) (a := .s ⟨a7⟩) (c := .s ⟨b7⟩) rfl a7_wf b7_wf rfl rfl
    (show (-2 ^ 6 : Int) ≤ 32 ∧ (32 : Int) < 2 ^ 6 by decide)

/-- A signed division of different widths panics, the unsigned one does not. -/
example : TInstr.exec (.bin .div 0 1) [.s ⟨b65⟩, .s ⟨a7⟩] = .error .panic :=
  (C69_panics (.bin .div 0 1) (b := [.s ⟨b65⟩, .s ⟨a7⟩])
    (by simp [WInt.WF, b65_wf, a7_wf])).mpr
    ⟨_, _, rfl, rfl, rfl, rfl, by decide, by decide, .inl rfl⟩
example : TInstr.exec (.bin .div 0 1) [.u ⟨b65⟩, .u ⟨a7⟩] ≠ .error .panic :=
  fun h => by
    obtain ⟨a, c, e, -, k, -⟩ := (C69_panics (.bin .div 0 1) (b := [.u ⟨b65⟩, .u ⟨a7⟩])
      (by simp [WInt.WF, b65_wf, a7_wf])).mp h
    cases e; cases k

end Verif.Props
