import Verif.Proof.PanicTexts
import Verif.Props.ErrorText

/-!
# C91: the message of a panic says what failed
-/

namespace Verif.Props

open Verif ApInt Ex

/-- What a panic hook sees of a call: the message of its panic. -/
def heard {α : Type} : Loud α → Option String
  | .ok _ => none
  | .error p => some (String.ofList p.2)

/-- C91: the calls with messages are the calls of the other properties: they return the same, and
they fault in the same way. -/
theorem C91_same_calls (q : Quoting) (i : Instr) (b : Bank) :
    (∀ r, i.loud q b = .ok r ↔ i.exec b = .ok r) ∧
    (∀ f, (∃ t, i.loud q b = .error (f, t)) ↔ i.exec b = .error f) := by
  have h := quiet_loud q i b
  cases hx : i.loud q b with
  | ok r =>
    rw [hx] at h
    rw [← h]
    exact ⟨fun r' => ⟨fun e => by cases e; rfl, fun e => by cases e; rfl⟩,
      fun f => ⟨fun ⟨_, e⟩ => by (cases e), fun e => by (cases e)⟩⟩
  | error p =>
    rw [hx] at h
    rw [← h]
    exact ⟨fun r' => ⟨fun e => by (cases e), fun e => by (cases e)⟩,
      fun f => ⟨fun ⟨_, e⟩ => by cases e; rfl, fun e => by cases e; exact ⟨p.2, rfl⟩⟩⟩

example : (∃ t, (Instr.op .add 0 2).loud quote four = .error (.panic, t)) :=
  ((C91_same_calls quote _ _).2 _).mpr (by decide)

/-- C91: the same for `UInt` and `Int`. -/
theorem C91_same_typed_calls (q : Quoting) (i : TInstr) (b : TBank) :
    (∀ r, i.loud q b = .ok r ↔ i.exec b = .ok r) ∧
    (∀ f, (∃ t, i.loud q b = .error (f, t)) ↔ i.exec b = .error f) := by
  have h := quiet_tloud q i b
  cases hx : i.loud q b with
  | ok r =>
    rw [hx] at h
    rw [← h]
    exact ⟨fun r' => ⟨fun e => by cases e; rfl, fun e => by cases e; rfl⟩,
      fun f => ⟨fun ⟨_, e⟩ => by (cases e), fun e => by (cases e)⟩⟩
  | error p =>
    rw [hx] at h
    rw [← h]
    exact ⟨fun r' => ⟨fun e => by (cases e), fun e => by (cases e)⟩,
      fun f => ⟨fun ⟨_, e⟩ => by cases e; rfl, fun e => by cases e; exact ⟨p.2, rfl⟩⟩⟩

example : ∃ t, (TInstr.op .div 0 1).loud quote [.u ⟨a7⟩, .u ⟨⟨bw 7, .inl 0⟩⟩] = .error (.panic, t) :=
  ((C91_same_typed_calls quote _ _).2 _).mpr rfl

/-- C91: whenever a call panics, the message is the one of the specification: for an operator on
different widths and for a signed division of different widths the widths in the order of the
operands, for a shift operator the amount and the width, and for the octal text that it is not
there. -/
theorem C91_message (q : Quoting) (i : Instr) {b : Bank} (hb : ∀ a ∈ b, a.WF) {f : Fault} {t : Text}
    (h : i.loud q b = .error (f, t)) : f = .panic ∧ t = i.says q.text (b.map ApInt.abs) := by
  rw [loud_eq q i hb] at h
  cases hx : i.exec b with
  | ok r => rw [hx] at h; cases h
  | error g =>
    rw [hx] at h
    cases h
    refine ⟨?_, rfl⟩
    obtain ⟨h1, h2⟩ := C02_call i hb
    match hs : i.spec (b.map ApInt.abs) with
    | none => rw [h2 hs] at hx; cases hx; rfl
    | some (x, s) =>
      obtain ⟨_, _, h, -⟩ := h1 x s hs
      rw [h] at hx
      cases hx

example : heard ((Instr.op .add 0 2).loud quote four) =
    some ("called `Result::unwrap()` on an `Err` value: Error { kind: UnmatchingBitwidth(BitWidth(7), " ++
      "BitWidth(65)), message: \"Encountered invalid operation on entities with non-matching " ++
      "bit-widths of BitWidth(7) and BitWidth(65).\", annotation: None }") := by
  decide +kernel

example : heard ((Instr.intoBin .sdiv 2 0).loud quote four) =
    some ("called `Result::unwrap()` on an `Err` value: Error { kind: UnmatchingBitwidth(BitWidth(65), " ++
      "BitWidth(7)), message: \"Encountered invalid operation on entities with non-matching " ++
      "bit-widths of BitWidth(65) and BitWidth(7).\", annotation: None }") := by
  decide +kernel

example : heard ((Instr.opShl 7 0).loud quote four) =
    some ("called `Result::unwrap()` on an `Err` value: Error { kind: InvalidShiftAmount { " ++
      "shift_amount: ShiftAmount(7), width: BitWidth(7) }, message: \"Encountered invalid shift " ++
      "amount of ShiftAmount(7) on bit-width with BitWidth(7) bits.\", annotation: None }") := by
  decide +kernel

example : heard ((Instr.ask .octal 0).loud quote four) = some "not implemented" := by decide +kernel

/-- Three integers of both types, for examples. -/
def mixed : TBank := [.u ⟨a7⟩, .u ⟨⟨bw 7, .inl 0⟩⟩, .s ⟨a7⟩, .s ⟨⟨bw 7, .inl 0⟩⟩, .s ⟨a65⟩]

theorem mixed_wf : ∀ a ∈ mixed, a.WF := by
  intro a ha
  simp only [mixed, List.mem_cons, List.not_mem_nil, or_false] at ha
  rcases ha with rfl | rfl | rfl | rfl | rfl
  · exact a7_wf
  · exact four_wf _ (by simp [four])
  · exact a7_wf
  · exact four_wf _ (by simp [four])
  · exact a65_wf

/-- C91: the same for `UInt` and `Int`, whose operators also divide: for a divisor 0 the message has
the name of the division and the dividend. -/
theorem C91_typed_message (q : Quoting) (i : TInstr) {b : TBank} (hb : ∀ a ∈ b, a.WF) {f : Fault}
    {t : Text} (h : i.loud q b = .error (f, t)) :
    f = .panic ∧ t = i.says q.text (b.map WInt.num) := by
  rw [tloud_eq q i hb] at h
  cases hx : i.exec b with
  | ok r => rw [hx] at h; cases h
  | error g =>
    rw [hx] at h
    cases h
    refine ⟨?_, rfl⟩
    obtain ⟨h1, h2⟩ := C69_call i hb
    match hs : i.spec (b.map WInt.num) with
    | none => rw [h2 hs] at hx; cases hx; rfl
    | some (x, s) =>
      obtain ⟨_, _, h, -⟩ := h1 x s hs
      rw [h] at hx
      cases hx

example : heard ((TInstr.op .div 0 1).loud quote mixed) =
    some ("called `Result::unwrap()` on an `Err` value: Error { kind: DivisionByZero { op: " ++
      "UnsignedDiv, lhs: ApInt { len: BitWidth(7), digits: [Digit(100)] } }, message: " ++
      "\"Encountered a division-by-zero for operation (= UnsignedDiv) with the left hand-side " ++
      "value: (= ApInt { len: BitWidth(7), digits: [Digit(100)] })\", annotation: None }") := by
  decide +kernel

example : heard ((TInstr.opAssign .rem 2 3).loud quote mixed) =
    some ("called `Result::unwrap()` on an `Err` value: Error { kind: DivisionByZero { op: " ++
      "SignedRem, lhs: ApInt { len: BitWidth(7), digits: [Digit(100)] } }, message: " ++
      "\"Encountered a division-by-zero for operation (= SignedRem) with the left hand-side " ++
      "value: (= ApInt { len: BitWidth(7), digits: [Digit(100)] })\", annotation: None }") := by
  decide +kernel

example : heard ((TInstr.bin .div 2 4).loud quote mixed) =
    some ("called `Result::unwrap()` on an `Err` value: Error { kind: UnmatchingBitwidth(BitWidth(7), " ++
      "BitWidth(65)), message: \"Encountered invalid operation on entities with non-matching " ++
      "bit-widths of BitWidth(7) and BitWidth(65).\", annotation: None }") := by
  decide +kernel

example {f : Fault} {t : Text} (h : (TInstr.opUn (.shr 70) 4).loud quote mixed = .error (f, t)) :
    t = (AErr.shift 70 65).unwrapped quote.text := (C91_typed_message quote _ mixed_wf h).2

/-- C91: the message tells what is to blame: when two calls panic with the same message, they blame
the same error: the same widths, the same shift amount and width, or neither blames an error (octal
text). -/
theorem C91_tells (q : Quoting) {i i' : Instr} {b b' : Bank} (hb : ∀ a ∈ b, a.WF)
    (hb' : ∀ a ∈ b', a.WF) {f f' : Fault} {t : Text} (h : i.loud q b = .error (f, t))
    (h' : i'.loud q b' = .error (f', t)) :
    i.blames (b.map ApInt.abs) = i'.blames (b'.map ApInt.abs) := by
  refine blamed_inj (quoted := q.text) ?_ (fun e he => blames_fine he) (fun e he => blames_fine he)
  exact ((C91_message q i hb h).2).symm.trans (C91_message q i' hb' h').2

example : heard ((Instr.op .add 0 2).loud quote four) ≠ heard ((Instr.op .add 2 0).loud quote four) := by
  decide +kernel

/-- C91: the same for `UInt` and `Int`; a message about a division by 0 belongs to one division and
one dividend. -/
theorem C91_typed_tells (q : Quoting) {i i' : TInstr} {b b' : TBank} (hb : ∀ a ∈ b, a.WF)
    (hb' : ∀ a ∈ b', a.WF) {f f' : Fault} {t : Text} (h : i.loud q b = .error (f, t))
    (h' : i'.loud q b' = .error (f', t)) :
    i.blames (b.map WInt.num) = i'.blames (b'.map WInt.num) := by
  have may : ∀ {i : TInstr} {b : TBank} (hb : ∀ a ∈ b, a.WF) {f : Fault},
      i.loud q b = .error (f, t) → TMayPanic (b.map WInt.num) i := by
    intro i b hb f h
    have hx := ((C91_same_typed_calls q i b).2 f).1 ⟨t, h⟩
    rw [← tspec_none_iff]
    match hs : i.spec (b.map WInt.num) with
    | none => rfl
    | some (x, s) =>
      obtain ⟨_, _, h, -⟩ := (C69_call i hb).1 x s hs
      rw [h] at hx
      cases hx
  refine blamed_inj (quoted := q.text) ?_ (fun e he => tblames_fine hb (may hb h) he)
    (fun e he => tblames_fine hb' (may hb' h') he)
  exact ((C91_typed_message q i hb h).2).symm.trans (C91_typed_message q i' hb' h').2

example : heard ((TInstr.op .div 0 1).loud quote mixed) ≠ heard ((TInstr.op .rem 0 1).loud quote mixed) ∧
    heard ((TInstr.op .div 0 1).loud quote mixed) ≠ heard ((TInstr.op .div 1 1).loud quote mixed) := by
  decide +kernel

/-- C91, in full for the operators: on different widths `lhs op rhs` panics with this message. -/
theorem C91_operator (q : Quoting) (o : Op) {a c : ApInt} (ha : a.WF) (hc : c.WF) (hw : a.w ≠ c.w) :
    ∃ l r m : Text, l = "BitWidth(".toList ++ decText a.w ++ ")".toList ∧
      r = "BitWidth(".toList ++ decText c.w ++ ")".toList ∧
      m = "Encountered invalid operation on entities with non-matching bit-widths of ".toList ++ l ++
        " and ".toList ++ r ++ ".".toList ∧
      (Instr.op o 0 1).loud q [a, c] = .error (.panic,
        "called `Result::unwrap()` on an `Err` value: ".toList ++
        ("Error { kind: UnmatchingBitwidth(".toList ++ l ++ ", ".toList ++ r ++
          "), message: ".toList ++ q.text m ++ ", annotation: None }".toList)) := by
  have hb : ∀ x ∈ [a, c], x.WF := by
    intro x hx
    simp only [List.mem_cons, List.not_mem_nil, or_false] at hx
    rcases hx with rfl | rfl <;> assumption
  have hn : (Instr.op o 0 1).spec ([a, c].map ApInt.abs) = none :=
    (spec_none_iff _).2 ⟨a, c, rfl, rfl, hw⟩
  obtain ⟨t, ht⟩ := ((C91_same_calls q (.op o 0 1) [a, c]).2 .panic).2 ((C02_call _ hb).2 hn)
  refine ⟨_, _, _, rfl, rfl, rfl, ht.trans ?_⟩
  rw [(C91_message q _ hb ht).2]
  have e1 : ∀ x : List Char, "Error { kind: UnmatchingBitwidth(".toList ++ x =
      "Error { kind: ".toList ++ ("UnmatchingBitwidth(".toList ++ x) := fun _ => rfl
  have e2 : ∀ x : List Char, "), message: ".toList ++ x =
      ")".toList ++ (", message: ".toList ++ x) := fun _ => rfl
  have e3 : ", annotation: None }".toList =
      ", annotation: ".toList ++ ("None".toList ++ " }".toList) := rfl
  have e4 : ∀ x : List Char, "BitWidth(".toList ++ x =
      "BitWidth".toList ++ ("(".toList ++ x) := fun _ => rfl
  change Except.error (Fault.panic, AErr.unwrapped q.text (.widths a.w c.w)) = _
  unfold AErr.unwrapped AErr.kindText AErr.message named
  simp only [List.append_assoc, e1, e2, e3, e4]

example : (Instr.op .add 0 1).loud quote [a7, a65] ≠ (Instr.op .add 0 1).loud quote [a65, a7] := by
  obtain ⟨_, _, _, rfl, rfl, rfl, h⟩ := C91_operator quote .add a7_wf a65_wf (by decide)
  obtain ⟨_, _, _, rfl, rfl, rfl, h'⟩ := C91_operator quote .add a65_wf a7_wf (by decide)
  rw [h, h']
  decide +kernel

end Verif.Props
