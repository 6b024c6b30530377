import Verif.Proof.Unwind
import Verif.Props.Serial
import Verif.Props.Witness

/-!
# Histories and programs (C01, C02, C51)

`Instr` is one call of the API, `Instr.exec` runs the modelled code for it on a bank of integers,
`Instr.spec` is the same call on the abstract machine of `SpecProgram.lean`, whose integers are
just a width and a number.
-/

namespace Verif.Props

open ApInt Ex

/-- The banks a program can get to: start with no integer and make calls, whatever they answer; a
program that catches a panic goes on with what the call has left behind. -/
inductive Reachable : Bank → Prop where
  | start : Reachable []
  | call {b b' : Bank} {i : Instr} {r : Res Out} (h : Reachable b) (e : i.exec b = .ok (r, b')) :
      Reachable b'
  | caught {b b' : Bank} {i : Instr} (h : Reachable b) (e : i.execT b = .error (.panic, b')) :
      Reachable b'

theorem reachable_wf {b : Bank} (h : Reachable b) : ∀ a ∈ b, a.WF := by
  induction h with
  | start => intro a ha; cases ha
  | @call b b' i r _ e ih =>
    have h := exec_agrees i ih
    match i.spec (b.map ApInt.abs), h with
    | none, h =>
      have h : i.exec b = .error .panic := h
      rw [h] at e; cases e
    | some (x, s), ⟨y, c, h, hy, hc, hm⟩ =>
      rw [h] at e; cases e
      exact hc
  | @caught b b' i _ e ih =>
    have h := execT_agrees i ih
    unfold AgreesT at h
    match i.spec (b.map ApInt.abs), h with
    | none, ⟨c, h, hc, _⟩ => rw [h] at e; cases e; exact hc
    | some (x, s), ⟨y, c, h, _⟩ => rw [h] at e; cases e

/-- Whatever a program ends with is reachable. -/
theorem run_reachable (p : List Instr) {b b' : Bank} (h : Reachable b) (e : (run p b).2 = .ok b') :
    Reachable b' := by
  induction p generalizing b with
  | nil => cases e; exact h
  | cons i p ih =>
    unfold run at e
    cases hi : i.exec b with
    | error f => rw [hi] at e; cases e
    | ok x =>
      rw [hi] at e
      exact ih (h.call hi) e

/-- C01: after any history of calls every live integer has a positive width, keeps up to 64 bits
inline and more bits in a buffer of exactly as many 64-bit digits as needed, and has no bit set at
or above its width. -/
theorem C01_invariant {b : Bank} (h : Reachable b) {a : ApInt} (ha : a ∈ b) :
    0 < a.w ∧
    (a.w ≤ 64 → ∃ d, a.data = .inl d) ∧
    (64 < a.w → ∃ ds, a.data = .ext ds ∧ 64 * (ds.length - 1) < a.w ∧ a.w ≤ 64 * ds.length) ∧
    (∀ i, a.w ≤ i → a.uval.testBit i = false) := by
  obtain ⟨h1, h2⟩ := reachable_wf h a ha
  refine ⟨a.pos_w, ?_, ?_, fun i hi => Nat.testBit_lt_two_pow
    (lt_of_lt_of_le h2 (Nat.pow_le_pow_right (by decide) hi))⟩
  · intro hw
    unfold Shape at h1
    cases e : a.data with
    | inl d => exact ⟨d, rfl⟩
    | ext ds => rw [e] at h1; have := h1.1; omega
  · intro hw
    unfold Shape at h1
    cases e : a.data with
    | inl d => rw [e] at h1; have : a.w ≤ 64 := h1; omega
    | ext ds =>
      rw [e] at h1
      have := h1.2
      exact ⟨ds, rfl, by omega, by omega⟩

/-- C01: no call of any history reads the inactive storage variant, uses a buffer of the wrong
size or runs forever. -/
theorem C01_no_bad_access {b : Bank} (h : Reachable b) (i : Instr) :
    i.exec b ≠ .error .ub ∧ i.exec b ≠ .error .diverge := by
  have h := exec_agrees i (reachable_wf h)
  match i.spec (b.map ApInt.abs), h with
  | none, h =>
    have h : i.exec b = .error .panic := h
    rw [h]
    exact ⟨by decide, by decide⟩
  | some (x, s), ⟨y, c, h, _⟩ =>
    rw [h]
    exact ⟨nofun, nofun⟩

/-- C01, the same for whole programs from any bank of well-formed integers. -/
theorem C01_program (p : List Instr) {b : Bank} (hb : ∀ a ∈ b, a.WF) :
    (∃ b', (run p b).2 = .ok b' ∧ ∀ a ∈ b', a.WF) ∨ (run p b).2 = .error .panic := by
  rcases (run_agrees p hb).2 with ⟨b', h, h1, _⟩ | ⟨h, _⟩
  · exact .inl ⟨b', h, h1⟩
  · exact .inr h

/-- C02, one call: the answer, the reported error and the new bank are those of the abstract
machine; the call panics exactly when the abstract machine says so. -/
theorem C02_call (i : Instr) {b : Bank} (hb : ∀ a ∈ b, a.WF) :
    (∀ x s, i.spec (b.map ApInt.abs) = some (x, s) →
      ∃ y b', i.exec b = .ok (y, b') ∧ absRes y = x ∧ b'.map ApInt.abs = s ∧ ∀ a ∈ b', a.WF) ∧
    (i.spec (b.map ApInt.abs) = none → i.exec b = .error .panic) := by
  have h := exec_agrees i hb
  constructor
  · intro x s hs
    rw [hs] at h
    obtain ⟨y, b', h, hy, hb', hm⟩ := h
    exact ⟨y, b', h, hy, hm, hb'⟩
  · intro hs
    rw [hs] at h
    exact h

/-- C02: run any program from any bank of well-formed integers next to the same program on the
abstract machine.  The answers (values and errors) of all calls agree, and either both runs end
with banks that agree, or both panic at the same call. -/
theorem C02_program (p : List Instr) {b : Bank} (hb : ∀ a ∈ b, a.WF) :
    (run p b).1.map absRes = (specRun p (b.map ApInt.abs)).1 ∧
    (∀ b', (run p b).2 = .ok b' →
      (∀ a ∈ b', a.WF) ∧ (specRun p (b.map ApInt.abs)).2 = some (b'.map ApInt.abs)) ∧
    (∀ f, (run p b).2 = .error f →
      f = .panic ∧ (specRun p (b.map ApInt.abs)).2 = none) := by
  obtain ⟨h1, h2⟩ := run_agrees p hb
  refine ⟨h1, ?_, ?_⟩
  · intro b' e
    rcases h2 with ⟨b'', h, h3, h4⟩ | ⟨h, _⟩
    · rw [h] at e; cases e
      exact ⟨h3, h4⟩
    · rw [h] at e; cases e
  · intro f e
    rcases h2 with ⟨b'', h, h3, h4⟩ | ⟨h, h4⟩
    · rw [h] at e; cases e
    · rw [h] at e; cases e
      exact ⟨rfl, h4⟩

/-- The numbers of the abstract machine are proper: the width is positive and the number below
`2 ^ width`, and different well-formed integers stand for different numbers. -/
theorem C02_faithful {a b : ApInt} (ha : a.WF) (hb : b.WF) :
    0 < a.abs.width ∧ a.abs.bits < 2 ^ a.abs.width ∧ (a.abs = b.abs ↔ a = b) :=
  ⟨a.pos_w, ha.2, fun h => abs_inj ha hb h, fun h => h ▸ rfl⟩

/-- A program over three widths: `x = 2^100 - 1` and `y = 7` at 100 bits, `x -= y`, `x <<= 3`,
`x /= y`, a failing addition with an 8-bit integer, a truncation and a comparison. -/
def demo : List Instr :=
  [.make (.allSet (bw 100)), .make (.u8 7), .un (.zeroExtend (bw 100)) 1,
    .bin .sub 0 1, .un (.shl 3) 0, .pair .udivrem 0 1, .make (.i8 0xF0#8), .bin .add 0 2,
    .ask .countOnes 0, .un (.truncate (bw 60)) 0, .ask2 .ult 1 0, .ask .lowerHex 2]

theorem demo_spec : specRun demo [] =
    ([.ok .unit, .ok .unit, .ok .unit, .ok .unit, .ok .unit, .ok .unit, .ok .unit,
      .error (.widths 100 8), .ok (.nat 33), .ok .unit, .error (.widths 100 60),
      .ok (.text ['f', '0'])],
     some [⟨60, (2 ^ 100 - 64) / 7 % 2 ^ 60⟩, ⟨100, (2 ^ 100 - 64) % 7⟩, ⟨8, 240⟩]) := by
  decide +kernel

example : (run demo []).1.map absRes =
    [.ok .unit, .ok .unit, .ok .unit, .ok .unit, .ok .unit, .ok .unit, .ok .unit,
      .error (.widths 100 8), .ok (.nat 33), .ok .unit, .error (.widths 100 60),
      .ok (.text ['f', '0'])] := by
  have h := (C02_program demo (b := []) (by simp)).1
  rw [h]
  exact congrArg Prod.fst demo_spec

example : ∃ b', (run demo []).2 = .ok b' ∧ Reachable b' ∧
    b'.map ApInt.abs =
      [⟨60, (2 ^ 100 - 64) / 7 % 2 ^ 60⟩, ⟨100, (2 ^ 100 - 64) % 7⟩, ⟨8, 240⟩] := by
  obtain ⟨h1, h2, h3⟩ := C02_program demo (b := []) (by simp)
  have e : (specRun demo []).2 = _ := congrArg Prod.snd demo_spec
  cases h : (run demo []).2 with
  | error f =>
    have := (h3 f h).2
    rw [List.map_nil, e] at this
    cases this
  | ok b' =>
    have := (h2 b' h).2
    rw [List.map_nil, e] at this
    exact ⟨b', rfl, run_reachable demo .start h, (Option.some.inj this).symm⟩

/-- The calls that are documented to panic, or found to (signed division of different widths):
an operator or a signed division on different widths, a shift operator with too large an amount,
and octal text of a number other than 0. -/
def MayPanic (b : Bank) : Instr → Prop
  | .opShlAssign s x | .opShl s x => ∃ a, b[x]? = some a ∧ a.w ≤ s
  | .opAssign _ x y | .op _ x y => ∃ a c, b[x]? = some a ∧ b[y]? = some c ∧ a.w ≠ c.w
  | .bin .sdiv x y | .bin .srem x y | .intoBin .sdiv x y | .intoBin .srem x y
  | .pair .sdivrem x y | .pair .sremdiv x y =>
      ∃ a c, b[x]? = some a ∧ b[y]? = some c ∧ a.w ≠ c.w ∧ c.uval ≠ 0
  | .ask .octal x => ∃ a, b[x]? = some a ∧ a.uval ≠ 0
  | _ => False

theorem op_none (o : Op) (x y : AInt) : o.spec x y = none ↔ x.width ≠ y.width := by
  have h : ∀ v : Int, okOnly (some (if x.width = y.width then .ok (AInt.ofInt x.width v)
      else .error (.widths x.width y.width))) = none ↔ x.width ≠ y.width := by
    intro v
    by_cases h : x.width = y.width
    · rw [if_pos h]; simp [okOnly, h]
    · rw [if_neg h]; simp [okOnly, h]
  cases o <;> exact h _

theorem sdiv_none {α : Type} (x y : AInt) {e r : α} :
    (if y.bits = 0 then some e else if x.width ≠ y.width then none else some r) = none ↔
      x.width ≠ y.width ∧ y.bits ≠ 0 := by
  by_cases h : y.bits = 0
  · simp [h]
  · by_cases h' : x.width = y.width <;> simp [h, h']

theorem shl_none (s : Nat) (x : AInt) : okOnly (some ((Un.shl s).spec x)) = none ↔ x.width ≤ s := by
  simp only [Un.spec]
  split <;> simp [okOnly] <;> omega

theorem spec_none_iff {b : Bank} (i : Instr) :
    i.spec (b.map ApInt.abs) = none ↔ MayPanic b i := by
  have one : ∀ (x : Nat) {g : AInt → Option (Except AErr Out × ABank)} {P : ApInt → Prop},
      (∀ a, g a.abs = none ↔ P a) →
      ((match (b.map ApInt.abs)[x]? with
          | some a => g a | none => some (.ok .unit, b.map ApInt.abs)) = none ↔
        ∃ a, b[x]? = some a ∧ P a) := by
    intro x g P h
    rw [List.getElem?_map]
    cases hx : b[x]? with
    | none => simp
    | some a => simp [h]
  have two : ∀ (x y : Nat) {g : AInt → AInt → Option (Except AErr Out × ABank)}
      {P : ApInt → ApInt → Prop}, (∀ a c, g a.abs c.abs = none ↔ P a c) →
      ((match (b.map ApInt.abs)[x]?, (b.map ApInt.abs)[y]? with
          | some a, some c => g a c | _, _ => some (.ok .unit, b.map ApInt.abs)) = none ↔
        ∃ a c, b[x]? = some a ∧ b[y]? = some c ∧ P a c) := by
    intro x y g P h
    rw [List.getElem?_map, List.getElem?_map]
    cases hx : b[x]? with
    | none => simp
    | some a =>
      cases hy : b[y]? with
      | none => simp
      | some c => simp [h]
  have never1 : ∀ {x : Nat}, (∃ a : ApInt, b[x]? = some a ∧ False) ↔ False := by simp
  have never2 : ∀ {x y : Nat}, (∃ a c : ApInt, b[x]? = some a ∧ b[y]? = some c ∧ False) ↔ False := by
    simp
  cases i with
  | make m => exact ⟨nofun, nofun⟩
  | drop x => exact ⟨nofun, nofun⟩
  | clone x => exact (one x fun a => ⟨nofun, nofun⟩).trans never1
  | assign x y => exact (two x y fun a c => ⟨nofun, nofun⟩).trans never2
  | strictAssign x y => exact (two x y fun a c => ⟨nofun, nofun⟩).trans never2
  | un o x => exact (one x fun a => ⟨nofun, nofun⟩).trans never1
  | intoUn o x => exact (one x fun a => ⟨nofun, nofun⟩).trans never1
  | alter o x => exact (one x fun a => ⟨nofun, nofun⟩).trans never1
  | ask2 q x y => exact (two x y fun a c => ⟨nofun, nofun⟩).trans never2
  | ask q x =>
    cases q <;> first
      | exact (one x fun a => ⟨nofun, nofun⟩).trans never1
      | refine one x fun a => ?_
        rw [Option.map_eq_none_iff]
        change _ ↔ a.abs.bits ≠ 0
        simp only [Ask.spec]
        split <;> simp_all
  | opAssign o x y =>
    exact two x y fun a c => Option.map_eq_none_iff.trans (op_none o a.abs c.abs)
  | op o x y =>
    exact two x y fun a c => Option.map_eq_none_iff.trans (op_none o a.abs c.abs)
  | opShlAssign s x => exact one x fun a => Option.map_eq_none_iff.trans (shl_none s a.abs)
  | opShl s x => exact one x fun a => Option.map_eq_none_iff.trans (shl_none s a.abs)
  | bin o x y =>
    cases o <;> first
      | exact (two x y fun a c => ⟨nofun, nofun⟩).trans never2
      | exact two x y fun a c => Option.map_eq_none_iff.trans (sdiv_none a.abs c.abs)
  | intoBin o x y =>
    cases o <;> first
      | exact (two x y fun a c => ⟨nofun, nofun⟩).trans never2
      | exact two x y fun a c => Option.map_eq_none_iff.trans (sdiv_none a.abs c.abs)
  | pair o x y =>
    cases o <;> first
      | exact (two x y fun a c => ⟨nofun, nofun⟩).trans never2
      | exact two x y fun a c => Option.map_eq_none_iff.trans (sdiv_none a.abs c.abs)

/-- C51: from well-formed integers every call of a program returns, except for the calls listed in
`MayPanic`, and those panic. -/
theorem C51_calls (i : Instr) {b : Bank} (hb : ∀ a ∈ b, a.WF) :
    ((∃ r, i.exec b = .ok r) ↔ ¬ MayPanic b i) ∧ (i.exec b = .error .panic ↔ MayPanic b i) := by
  have h := exec_agrees i hb
  rw [← spec_none_iff]
  match i.spec (b.map ApInt.abs), h with
  | none, h =>
    have h : i.exec b = .error .panic := h
    rw [h]
    exact ⟨⟨nofun, fun h => absurd rfl h⟩, ⟨fun _ => rfl, fun _ => rfl⟩⟩
  | some (x, s), ⟨y, c, h, _⟩ =>
    rw [h]
    exact ⟨⟨fun _ => nofun, fun _ => ⟨_, rfl⟩⟩, ⟨nofun, nofun⟩⟩

example : (Instr.bin .sdiv 0 1).exec [a65, b128] = .error .panic :=
  (C51_calls _ (by simp [a65_wf, b128_wf])).2.mpr ⟨a65, b128, rfl, rfl, by decide, by decide +kernel⟩

example : ∃ r, (Instr.bin .sdiv 0 1).exec [b150, a150] = .ok r := by
  refine (C51_calls _ (by simp [a150_wf, b150_wf])).1.mpr ?_
  rintro ⟨a, c, h1, h2, h3, -⟩
  cases h1; cases h2
  exact h3 rfl

/-- C51: a program without the listed calls runs to its end. -/
theorem C51_program (p : List Instr) {b : Bank} (hb : ∀ a ∈ b, a.WF)
    (hp : ∀ i ∈ p, ∀ b', ¬ MayPanic b' i) : ∃ b', (run p b).2 = .ok b' := by
  induction p generalizing b with
  | nil => exact ⟨b, rfl⟩
  | cons i p ih =>
    obtain ⟨⟨y, b'⟩, e⟩ := ((C51_calls i hb).1).mpr (hp i (by simp) b)
    have h := exec_agrees i hb
    have hb' : ∀ a ∈ b', a.WF := by
      match i.spec (b.map ApInt.abs), h with
      | none, h =>
        have h : i.exec b = .error .panic := h
        rw [h] at e; cases e
      | some (x, s), ⟨y, c, h, hy, hc, hm⟩ =>
        rw [h] at e; cases e
        exact hc
    obtain ⟨b'', h2⟩ := ih hb' fun j hj => hp j (by simp [hj])
    refine ⟨b'', ?_⟩
    unfold run
    rw [e]
    exact h2

example : ∃ b', (run demo []).2 = .ok b' := by
  refine C51_program demo (by simp) ?_
  intro i hi b'
  simp only [demo, List.mem_cons, List.not_mem_nil, or_false] at hi
  rcases hi with h | h | h | h | h | h | h | h | h | h | h | h <;> subst h <;> exact id

/-- C51, the calls left out of programs: they return on well-formed integers, and parsing and
deserializing panic only for a radix outside 2 to 36 and for a compact sequence without a width. -/
theorem C51_others {a : ApInt} (ha : a.WF) (r : Nat) (s : List Char) (human : Bool)
    (v : SVal) :
    (∃ x, a.isOne = .ok x) ∧ (∃ x, a.isAllSet = .ok x) ∧ (∃ x, a.hashInput = .ok x) ∧
    (∃ x, Serde.serialize human a = .ok x) ∧
    ((∃ x, ApInt.fromStrRadix r s = .ok x) ↔ 2 ≤ r ∧ r ≤ 36) ∧
    ((∃ x, Serde.deserialize human v = .ok x) ↔ ¬ (human = false ∧ SeqOf v [])) := by
  refine ⟨?_, ?_, ?_, ?_, ?_, ?_⟩
  · by_cases h : a.w ≤ 64
    · exact ⟨_, C36_is_one_partial ha h⟩
    · exact ⟨_, (C36_wide ha (by omega)).1⟩
  · by_cases h : a.w % 64 = 0
    · exact ⟨_, (C37_aligned ha h).1⟩
    · exact ⟨_, C37_is_all_set_partial ha h⟩
  · obtain ⟨x, _, h, _⟩ := C03_hash ha ha
    exact ⟨x, h⟩
  · obtain ⟨ds, _, _, h1, h2⟩ := C47_serialized ha
    cases human
    · exact ⟨_, h2⟩
    · exact ⟨_, h1⟩
  · constructor
    · rintro ⟨x, h⟩
      by_contra hr
      rw [(C44_radix (r := r) (s := s)).2.2.mpr hr] at h
      cases h
    · intro hr
      by_cases h : Accepted r s
      · obtain ⟨c, h, _⟩ := (C40_error_iff hr).2.1.mpr h
        exact ⟨_, h⟩
      · exact ⟨_, (C40_error_iff hr).2.2 h⟩
  · constructor
    · rintro ⟨x, h⟩ hv
      rw [((C47_panics_iff human v).1).mpr hv] at h
      cases h
    · exact (C47_panics_iff human v).2

end Verif.Props
