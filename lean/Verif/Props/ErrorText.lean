import Verif.Proof.ErrorText
import Verif.Props.Witness

/-!
# C76, C77, C78: the texts of integers and of errors
-/

namespace Verif.Props

open ApInt Ex

variable {a b : ApInt}

instance instDecEqRunText : DecidableEq (Run Text)
  | .ok x, .ok y => decidable_of_iff (x = y) ⟨fun h => h ▸ rfl, fun h => Except.ok.inj h⟩
  | .error x, .error y => decidable_of_iff (x = y) ⟨fun h => h ▸ rfl, fun h => Except.error.inj h⟩
  | .ok _, .error _ => .isFalse nofun
  | .error _, .ok _ => .isFalse nofun

/-! ## C76 -/

/-- C76: the `Debug` text of an integer has its width and its base 2^64 digits, least significant
first, and making it never panics. -/
theorem C76_debug_text (ha : a.WF) : a.debug = .ok (AInt.text ⟨a.w, a.uval⟩) := debug_ok ha

example : a65.debug = .ok "ApInt { len: BitWidth(65), digits: [Digit(18446744073709551615), Digit(1)] }".toList := by
  decide +kernel

example : b7.debug = .ok (AInt.text ⟨b7.w, b7.uval⟩) := C76_debug_text b7_wf

/-- C76: the `Debug` texts of the wrappers. -/
theorem C76_wrappers (ha : a.WF) :
    uintDebug a = .ok ("UInt { value: ".toList ++ AInt.text ⟨a.w, a.uval⟩ ++ " }".toList) ∧
    intDebug a = .ok ("Int { value: ".toList ++ AInt.text ⟨a.w, a.uval⟩ ++ " }".toList) := by
  unfold uintDebug intDebug
  rw [C76_debug_text ha]
  exact ⟨rfl, rfl⟩

example : uintDebug a65 = .ok ("UInt { value: ".toList ++ AInt.text ⟨65, a65.uval⟩ ++ " }".toList) :=
  (C76_wrappers a65_wf).1

/-- C76: different integers have different texts. -/
theorem C76_injective (ha : a.WF) (hb : b.WF) :
    a.debug = b.debug ↔ a.w = b.w ∧ a.uval = b.uval := by
  rw [C76_debug_text ha, C76_debug_text hb]
  constructor
  · intro h
    have h : AInt.text ⟨a.w, a.uval⟩ ++ [] = AInt.text ⟨b.w, b.uval⟩ ++ [] := by
      rw [Except.ok.inj h]
    obtain ⟨h, -⟩ := AInt.text_split ha.2 hb.2 h
    exact ⟨congrArg AInt.width h, congrArg AInt.bits h⟩
  · rintro ⟨h1, h2⟩
    rw [h1, h2]

example : a65.debug ≠ b65.debug := fun h => by
  have := ((C76_injective a65_wf b65_wf).mp h).2
  revert this
  decide

/-- C76: a text can be read back when other text follows it: no text is the beginning of the text
of a different integer followed by something. -/
theorem C76_prefix_free (ha : a.WF) (hb : b.WF) {t u r s : Text} (ht : a.debug = .ok t)
    (hu : b.debug = .ok u) (h : t ++ r = u ++ s) : a = b ∧ r = s := by
  rw [C76_debug_text ha] at ht
  rw [C76_debug_text hb] at hu
  cases ht
  cases hu
  obtain ⟨h1, h2⟩ := AInt.text_split ha.2 hb.2 h
  exact ⟨abs_inj ha hb h1, h2⟩

example : ∃ t u, a65.debug = .ok t ∧ b65.debug = .ok u ∧ ¬ ∃ s, t = u ++ s := by
  refine ⟨_, _, C76_debug_text a65_wf, C76_debug_text b65_wf, ?_⟩
  rintro ⟨s, h⟩
  have := (C76_prefix_free a65_wf b65_wf (C76_debug_text a65_wf) (C76_debug_text b65_wf)
    (r := []) (by rw [List.append_nil]; exact h)).1
  revert this
  decide

/-! ## C77 -/

section

variable {q : Quoting} {i i' : Instr} {c d c' d' : Bank}

/-- Plain quotes, for examples. -/
def quote : Quoting := ⟨fun c => ['\'', c, '\''], fun s => ['"'] ++ s ++ ['"']⟩

/-- The message and annotation of the error of a call, for examples. -/
def texts (i : Instr) (c : Bank) : Option (String × Option String) :=
  match i.execE quote c with
  | .ok (.error e, _) => some (String.ofList e.message, e.annotation.map String.ofList)
  | _ => none

/-- Four integers, for examples. -/
def four : Bank := [a7, b7, a65, ⟨bw 7, .inl 0⟩]

theorem four_wf : ∀ x ∈ four, x.WF := by decide

/-- A failed call has an error with texts. -/
theorem failed_texts (hc : ∀ x ∈ c, x.WF) {e : Err} (h : i.exec c = .ok (.error e, d)) :
    ∃ E, i.execE q c = .ok (.error E, d) ∧ E.kind = e := by
  have key := execE_eq q i hc
  rw [h] at key
  cases hx : i.execE q c with
  | error f => rw [hx] at key; cases key
  | ok p =>
    rw [hx] at key
    obtain ⟨o, d'⟩ := p
    cases o with
    | ok o => cases key
    | error E =>
      have key := Except.ok.inj key
      have h1 : E.kind = e := Except.error.inj (congrArg Prod.fst key)
      have h2 : d' = d := congrArg Prod.snd key
      exact ⟨E, by rw [h2], h1⟩

/-- C77: making the texts of errors changes nothing else: every call gives the same answer, the
same kind of error and the same integers, and making the texts never panics. -/
theorem C77_same_calls (q : Quoting) (i : Instr) (hc : ∀ x ∈ c, x.WF) :
    (i.execE q c).map (fun p => (p.1.mapError Error.kind, p.2)) = i.exec c := execE_eq q i hc

example : texts (.bin .udiv 0 3) four = some ("Encountered a division-by-zero for operation (= UnsignedDiv) " ++
    "with the left hand-side value: (= ApInt { len: BitWidth(7), digits: [Digit(100)] })", none) := by
  decide +kernel

/-- C77: the message of an error that is not about a text says what the error is about. -/
theorem C77_message (hc : ∀ x ∈ c, x.WF) {e : Error} (h : i.execE q c = .ok (.error e, d))
    (hi : ∀ k s, i ≠ .make (.parse k s)) : e.message = e.kind.abs.message := by
  obtain ⟨h1, h2⟩ := execE_ok q hc h
  obtain ⟨E, h3, h4, -, h5, -⟩ := errorOf_ok q hc h1
  rw [h2] at h3
  cases h3
  rcases spec_plain (exec_error hc h1).2.1 with hp | ⟨k, s, rfl, -⟩
  · exact h5 hp
  · exact absurd rfl (hi k s)

/-- Dividing `a7` by zero. -/
theorem four_divides : (Instr.bin .udiv 0 3).exec four =
    .ok (.error (.divisionByZero .unsignedDiv a7), four) := rfl

example : ∃ e, (Instr.bin .udiv 0 3).execE quote four = .ok (.error e, four) ∧
    e.message = (AErr.divZero .unsignedDiv a7.abs).message := by
  obtain ⟨e, h, hk⟩ := failed_texts (q := quote) four_wf four_divides
  refine ⟨e, h, ?_⟩
  rw [C77_message four_wf h (by intro k s; nofun), hk]
  rfl

/-- C77: the annotation. -/
theorem C77_annotation (hc : ∀ x ∈ c, x.WF) {e : Error} (h : i.execE q c = .ok (.error e, d)) :
    e.annotation = i.note (c.map ApInt.abs) := by
  obtain ⟨h1, h2⟩ := execE_ok q hc h
  obtain ⟨E, h3, -, h5, -⟩ := errorOf_ok q hc h1
  rw [h2] at h3
  cases h3
  exact h5

example : texts (.ask2 .sge 0 2) four = some (
    "Encountered invalid operation on entities with non-matching bit-widths of " ++
      "BitWidth(7) and BitWidth(65).",
    some ("Error occured on signed greater-than or equals (ule) comparison with `lhs >= rhs` where " ++
      "\n\tlhs = ApInt { len: BitWidth(7), digits: [Digit(100)] }" ++
      "\n\trhs = ApInt { len: BitWidth(65), digits: [Digit(18446744073709551615), Digit(1)] }")) := by
  decide +kernel

/-- Comparing `a7` with `a65`. -/
theorem four_compares : (Instr.ask2 .slt 0 2).exec four =
    .ok (.error (.unmatchingBitwidth (bw 7) (bw 65)), four) := rfl

example : ∃ e, (Instr.ask2 .slt 0 2).execE quote four = .ok (.error e, four) ∧
    e.annotation = Ask2.slt.note a7.abs a65.abs := by
  obtain ⟨e, h, hk⟩ := failed_texts (q := quote) four_wf four_compares
  exact ⟨e, h, C77_annotation four_wf h⟩

theorem parseError_message {q : Quoting} {s : Text} {r : Radix} {e : Error}
    (h : parseError q r s = some e) : e.message = (AErr.text s r.toU8).message ∨
      ∃ shown pos, e.message = charMessage shown pos r.toU8 := by
  have hs : (Error.invalidStringRepr s r).message = (AErr.text s r.toU8).message := by
    unfold Error.invalidStringRepr Radix.debug
    rw [named_eq]; rfl
  have hf : ∀ (bs : List Nat) (i : Nat), firstInvalid q s r i bs = some e →
      ∃ shown pos, e.message = charMessage shown pos r.toU8 := by
    intro bs
    induction bs with
    | nil => intro i h; cases h
    | cons b bs ih =>
      intro i h
      unfold firstInvalid at h
      split at h
      · exact ih _ h
      · split at h
        · refine ⟨q.char (Char.ofNat b), i, ?_⟩
          rw [← Option.some.inj h]
          unfold Error.invalidCharInStringRepr Radix.debug
          rw [named_eq, decimal_eq]; rfl
        · exact ih _ h
  unfold parseError at h
  split at h
  · rw [← Option.some.inj h]; exact .inl hs
  · split at h
    · rw [← Option.some.inj h]; exact .inl hs
    · split at h
      · rw [← Option.some.inj h]; exact .inl hs
      · exact .inr (hf _ _ h)

/-- The error of a failing call is about the same thing as `f`. -/
theorem message_cases (hc : ∀ x ∈ c, x.WF) {e : Error} (h : i.execE q c = .ok (.error e, d)) :
    e.kind.abs.Fine ∧ (e.message = e.kind.abs.message ∨
      ∃ s r shown pos, e.kind.abs = .text s r ∧ e.message = charMessage shown pos r) := by
  obtain ⟨h1, h2⟩ := execE_ok q hc h
  obtain ⟨E, h3, h4, -, h5, h6⟩ := errorOf_ok q hc h1
  rw [h2] at h3
  cases h3
  obtain ⟨-, hs, hw⟩ := exec_error hc h1
  refine ⟨hw.fine, ?_⟩
  rcases spec_plain hs with hp | ⟨k, s, rfl, -, hk⟩
  · exact .inl (h5 hp)
  · rcases parseError_message (h6 k s rfl) with hm | ⟨shown, pos, hm⟩
    · exact .inl (by rw [hk]; exact hm)
    · exact .inr ⟨s, _, shown, pos, hk, hm⟩

/-- C77: the message alone tells the error, except that a message about a text does not repeat the
text. -/
theorem C77_message_tells (hc : ∀ x ∈ c, x.WF) (hc' : ∀ x ∈ c', x.WF) {e e' : Error}
    (h : i.execE q c = .ok (.error e, d)) (h' : i'.execE q c' = .ok (.error e', d'))
    (hm : e.message = e'.message) :
    e.kind.abs = e'.kind.abs ∨
      ∃ s t r, e.kind.abs = .text s r ∧ e'.kind.abs = .text t r := by
  obtain ⟨f, m⟩ := message_cases hc h
  obtain ⟨f', m'⟩ := message_cases hc' h'
  rcases m with m | ⟨s, r, shown, pos, k, m⟩
  · rcases m' with m' | ⟨t, r', shown', pos', k', m'⟩
    · exact message_inj f f' (by rw [← m, hm, m'])
    · exact absurd (by rw [← m, hm, m']) (message_ne_char _ shown' pos' r')
  · rcases m' with m' | ⟨t, r', shown', pos', k', m'⟩
    · exact absurd (by rw [← m', ← hm, m]) (message_ne_char _ shown pos r)
    · have hr : r = r' := charMessage_radix (by rw [← m, hm, m'])
      subst hr
      exact .inr ⟨s, t, r, k, k'⟩

/-- Dividing `b7` by zero. -/
theorem four_divides' : (Instr.bin .udiv 1 3).exec four =
    .ok (.error (.divisionByZero .unsignedDiv b7), four) := rfl

example : ∃ e e', (Instr.bin .udiv 0 3).execE quote four = .ok (.error e, four) ∧
    (Instr.bin .udiv 1 3).execE quote four = .ok (.error e', four) ∧ e.message ≠ e'.message := by
  obtain ⟨e, h, hk⟩ := failed_texts (q := quote) four_wf four_divides
  obtain ⟨e', h', hk'⟩ := failed_texts (q := quote) four_wf four_divides'
  refine ⟨e, e', h, h', fun hm => ?_⟩
  rcases C77_message_tells four_wf four_wf h h' hm with hm | ⟨s, t, r, hm, -⟩
  · rw [hk, hk'] at hm
    exact absurd (congrArg AInt.bits (AErr.divZero.inj hm).2) (by decide)
  · rw [hk] at hm
    cases hm

/-- C77: errors that own an integer have no annotation, and a message made of the rest of the
error. -/
theorem C77_owned (hc : ∀ x ∈ c, x.WF) {e : Error} (h : i.execE q c = .ok (.error e, d))
    (ho : e.kind.holder ≠ none) : e.message = e.kind.abs.message ∧ e.annotation = none := by
  obtain ⟨h1, h2⟩ := execE_ok q hc h
  obtain ⟨-, hs, -⟩ := exec_error hc h1
  have hself : ∃ x, i.self = some x := by
    rw [← abs_owned] at ho
    cases hx : e.kind.abs.owned with
    | none => rw [hx] at ho; exact absurd rfl ho
    | some p =>
      obtain ⟨x, hx, -⟩ := (spec_error hs).2 p.1 p.2 hx
      exact ⟨x, hx⟩
  obtain ⟨x, hx⟩ := hself
  constructor
  · refine C77_message hc h ?_
    rintro k s rfl
    cases hx
  · rw [C77_annotation hc h]
    cases i <;> first | rfl | cases hx

/-- C77: for errors that own an integer, comparing whole errors (message and annotation as well) is
comparing the operation or type and the integer. -/
theorem C77_owned_equal (hc : ∀ x ∈ c, x.WF) (hc' : ∀ x ∈ c', x.WF) {e e' : Error}
    (h : i.execE q c = .ok (.error e, d)) (h' : i'.execE q c' = .ok (.error e', d'))
    (ho : e.kind.holder ≠ none) :
    e = e' ↔ e.kind = e'.kind := by
  refine ⟨fun h => by rw [h], fun hk => ?_⟩
  obtain ⟨m, n⟩ := C77_owned hc h ho
  obtain ⟨m', n'⟩ := C77_owned hc' h' (hk ▸ ho)
  obtain ⟨k, t, an⟩ := e
  obtain ⟨k', t', an'⟩ := e'
  cases hk
  dsimp only at m n m' n'
  rw [m, n, m', n']

example : ∃ e e', (Instr.bin .udiv 0 3).execE quote four = .ok (.error e, four) ∧
    (Instr.intoBin .udiv 0 3).execE quote four = .ok (.error e', four) ∧ e = e' := by
  obtain ⟨e, h, hk⟩ := failed_texts (q := quote) four_wf four_divides
  obtain ⟨e', h', hk'⟩ := failed_texts (q := quote) (i := .intoBin .udiv 0 3) four_wf
    (show _ = Except.ok (Except.error (Err.divisionByZero .unsignedDiv a7), four) from rfl)
  exact ⟨e, e', h, h', (C77_owned_equal four_wf four_wf h h' (by rw [hk]; nofun)).mpr (by rw [hk, hk'])⟩

/-- C77: the annotation of a failed comparison tells which comparison it was and on which
integers, in order. -/
theorem C77_comparison_operands {o p : Ask2} {x y x' y' : Nat} (hc : ∀ x ∈ c, x.WF)
    (hc' : ∀ x ∈ c', x.WF) {e e' : Error}
    (h : (Instr.ask2 o x y).execE q c = .ok (.error e, d))
    (h' : (Instr.ask2 p x' y').execE q c' = .ok (.error e', d'))
    (hn : e.annotation = e'.annotation) :
    o = p ∧ c[x]? = c'[x']? ∧ c[y]? = c'[y']? ∧ c[x]? ≠ none ∧ c[y]? ≠ none := by
  have key : ∀ {o : Ask2} {x y : Nat} {c d : Bank} {e : Error}, (∀ x ∈ c, x.WF) →
      (Instr.ask2 o x y).execE q c = .ok (.error e, d) →
      o ≠ .eq ∧ ∃ a b : ApInt, c[x]? = some a ∧ c[y]? = some b ∧ a.WF ∧ b.WF ∧
        e.annotation = o.note a.abs b.abs := by
    intro o x y c d e hc h
    have ha := C77_annotation hc h
    obtain ⟨h1, -⟩ := execE_ok q hc h
    cases hx : c[x]? with
    | none => simp only [Instr.exec, hx] at h1; cases h1
    | some a =>
      cases hy : c[y]? with
      | none => simp only [Instr.exec, hx, hy] at h1; cases h1
      | some b =>
        simp only [Instr.note, List.getElem?_map, hx, hy, Option.map_some] at ha
        refine ⟨?_, a, b, rfl, rfl, hc a (List.mem_of_getElem? hx), hc b (List.mem_of_getElem? hy), ha⟩
        rintro rfl
        have hs := (exec_error hc h1).2.1
        simp only [Instr.spec, List.getElem?_map, hx, hy, Option.map_some, Ask2.spec] at hs
        cases hs
  obtain ⟨ho, a, b, hx, hy, wa, wb, hn1⟩ := key hc h
  obtain ⟨-, a', b', hx', hy', wa', wb', hn2⟩ := key hc' h'
  rw [hn1, hn2] at hn
  obtain ⟨h1, h2, h3⟩ := note_inj wa.2 wb.2 wa'.2 wb'.2 ho hn
  rw [hx, hy, hx', hy', abs_inj wa wa' h2, abs_inj wb wb' h3]
  exact ⟨h1, rfl, rfl, nofun, nofun⟩

example : ∃ e e', (Instr.ask2 .slt 0 2).execE quote four = .ok (.error e, four) ∧
    (Instr.ask2 .slt 1 2).execE quote four = .ok (.error e', four) ∧ e.kind = e'.kind ∧
    e.annotation ≠ e'.annotation := by
  obtain ⟨e, h, hk⟩ := failed_texts (q := quote) four_wf four_compares
  obtain ⟨e', h', hk'⟩ := failed_texts (q := quote) (i := .ask2 .slt 1 2) four_wf
    (show _ = Except.ok (Except.error (Err.unmatchingBitwidth (bw 7) (bw 65)), four) from rfl)
  refine ⟨e, e', h, h', by rw [hk, hk'], fun hn => ?_⟩
  have := (C77_comparison_operands four_wf four_wf h h' hn).2.1
  revert this
  decide

/-- C77: printing an error that a call reported never panics, and `{}` prints the same text as
`{:?}`. -/
theorem C77_display (hc : ∀ x ∈ c, x.WF) {e : Error} (h : i.execE q c = .ok (.error e, d)) :
    ∃ t, e.debug q = .ok t ∧ e.display q = .ok t := by
  have hw := (exec_error hc (execE_ok q hc h).1).2.2
  have hk : ∃ t, e.kind.debug q = .ok t := by
    cases hk : e.kind <;> rw [hk] at hw <;> unfold Err.debug
    case valueUnrepresentable => dsimp only; rw [debug_ok hw]; exact ⟨_, rfl⟩
    case divisionByZero => dsimp only; rw [debug_ok hw]; exact ⟨_, rfl⟩
    all_goals exact ⟨_, rfl⟩
  obtain ⟨t, hk⟩ := hk
  unfold Error.display Error.debug
  rw [hk]
  exact ⟨_, rfl, rfl⟩

example : ∃ e t, (Instr.bin .udiv 0 3).execE quote four = .ok (.error e, four) ∧
    e.display quote = .ok t := by
  obtain ⟨e, h, -⟩ := failed_texts (q := quote) four_wf four_divides
  obtain ⟨t, -, ht⟩ := C77_display four_wf h
  exact ⟨e, t, h, ht⟩

/-- C77: the messages about numbers that are not a radix or not a width name the number. -/
theorem C77_invalid_numbers (r w : Nat) :
    (Radix.new r = .error (Error.invalidRadix r).kind ↔ ¬ (2 ≤ r ∧ r ≤ 36)) ∧
    (Error.invalidRadix r).message =
      "Encountered an invalid parsing radix of ".toList ++ decText r ++ ".".toList ∧
    (BitWidth.new w = .error (Error.invalidBitwidth w).kind ↔ w = 0) ∧
    (Error.invalidBitwidth w).message =
      "Encountered invalid bitwidth of ".toList ++ decText w ++ ".".toList ∧
    (∀ e, BitWidth.new w = .error e → e = Error.invalidZeroBitwidth.kind ∧
      Error.invalidZeroBitwidth.message = "Encountered invalid bitwidth of 0.".toList ∧
      Error.invalidZeroBitwidth.annotation = none) := by
  refine ⟨?_, ?_, ?_, ?_, ?_⟩
  · unfold Radix.new
    by_cases h : 2 ≤ r ∧ r ≤ 36
    · simp [h]
    · simp [h, Error.invalidRadix]
  · unfold Error.invalidRadix; rw [decimal_eq]
  · constructor
    · intro h
      by_contra hw
      rw [BitWidth.new_ok hw] at h
      cases h
    · rintro rfl; rfl
  · unfold Error.invalidBitwidth; rw [decimal_eq]
  · intro e h
    by_cases hw : w = 0
    · subst hw
      cases h
      exact ⟨rfl, by decide +kernel, rfl⟩
    · rw [BitWidth.new_ok hw] at h
      cases h

end

example : Radix.new 37 = .error (.invalidRadix 37) ∧
    (Error.invalidRadix 37).message = "Encountered an invalid parsing radix of 37.".toList := by
  decide +kernel

/-! ## C78 -/

section

variable {q : Quoting} {r : Radix} {s : Text}

/-- C78: the radix error of parsing is the one with the texts, and there is one exactly when
parsing reports an error. -/
theorem C78_same_errors (q : Quoting) (r : Radix) (s : Text) :
    match parseError q r s with
    | some e => fromStrRadix' r s = .ok (.error e.kind)
    | none => ∀ e, fromStrRadix' r s ≠ .ok (.error e) := by
  cases h : parseError q r s with
  | some e => exact (parseError_kind h).1
  | none => exact parseError_none h

example : (parseError quote ⟨16⟩ "12g".toList).map (fun e => String.ofList e.message) =
    some ("Encountered an invalid character (= ''g'') at position 2 within the given string " ++
      "representation for the given radix (= Radix(16)).") := by decide +kernel

/-- C78: a text that is empty or has an underscore at an end is reported as such, and other errors
of parsing have no annotation. -/
theorem C78_note {e : Error} (h : parseError q r s = some e) :
    e.annotation = parseNote s ∧ e.kind = .invalidStringRepr s r none ∧
      (parseNote s ≠ none → e.message = (AErr.text s r.toU8).message) := by
  obtain ⟨-, h1, h2⟩ := parseError_kind h
  refine ⟨h2, h1, fun hn => ?_⟩
  have hs : (Error.invalidStringRepr s r).message = (AErr.text s r.toU8).message := by
    unfold Error.invalidStringRepr Radix.debug
    rw [named_eq]; rfl
  rw [← h2] at hn
  unfold parseError at h
  split at h
  · rw [← Option.some.inj h]; exact hs
  · split at h
    · rw [← Option.some.inj h]; exact hs
    · split at h
      · rw [← Option.some.inj h]; exact hs
      · have := firstInvalid_kind (q := q) (s := s) (r := r) 0 (utf8Bytes s) []
        rw [h] at this
        exact absurd this.2.1 hn

example : (parseError quote ⟨16⟩ "_12".toList).bind (fun e => e.annotation.map String.ofList) =
    some ("The input string starts with an underscore ('_') instead of a number. " ++
      "The use of underscores is explicitely for separation of digits.") := by decide +kernel

/-- C78, exact behaviour: the message names the position of the first invalid character, and the
character `shownFor` it. -/
theorem C78_first_invalid {pre post : Text} {c : Char} (hr : r.toU8 ≤ 36)
    (hn : parseNote (pre ++ c :: post) = none)
    (hpre : ∀ x ∈ pre, x = '_' ∨ ∃ v, charVal x = some v ∧ v < r.toU8)
    (hc : ¬ (c = '_' ∨ ∃ v, charVal c = some v ∧ v < r.toU8)) :
    ∃ e, parseError q r (pre ++ c :: post) = some e ∧
      e.message = charMessage (q.char (shownFor c)) pre.length r.toU8 := by
  have hf := firstInvalid_at (q := q) (input := pre ++ c :: post) (post := post) hr hc pre 0 hpre
  refine ⟨Error.invalidCharInStringRepr q (pre ++ c :: post) r pre.length (shownFor c), ?_, ?_⟩
  · rw [Nat.zero_add] at hf
    rw [← hf]
    unfold parseNote at hn
    unfold parseError
    split at hn
    · cases hn
    · rename_i h1
      rw [List.isEmpty_eq_false_iff.mpr h1]
      split at hn
      · cases hn
      · split at hn
        · cases hn
        · rw [if_neg (by decide), if_neg ‹_›, if_neg ‹_›]
  · unfold Error.invalidCharInStringRepr Radix.debug
    rw [named_eq, decimal_eq]; rfl

example : ∃ e, parseError quote ⟨16⟩ ("1_a".toList ++ 'é' :: "zz".toList) = some e ∧
    e.message = charMessage (quote.char 'Ã') 3 16 :=
  C78_first_invalid (pre := "1_a".toList) (by decide) (by decide)
    (by
      intro x hx
      rcases List.mem_cons.mp hx with rfl | hx
      · exact .inr ⟨1, by decide⟩
      · rcases List.mem_cons.mp hx with rfl | hx
        · exact .inl rfl
        · rcases List.mem_cons.mp hx with rfl | hx
          · exact .inr ⟨10, by decide⟩
          · cases hx)
    (by
      rintro (h | ⟨v, h, -⟩)
      · revert h; decide
      · have : charVal 'é' = none := by decide
        rw [this] at h; cases h)

/-- C78 for ASCII characters: the message names the position of the first invalid character and
that character.  Missing: characters outside ASCII, for which it is false
(`C78_other_character`). -/
theorem C78_first_invalid_ascii_partial {pre post : Text} {c : Char} (hr : r.toU8 ≤ 36)
    (hn : parseNote (pre ++ c :: post) = none)
    (hpre : ∀ x ∈ pre, x = '_' ∨ ∃ v, charVal x = some v ∧ v < r.toU8)
    (hc : ¬ (c = '_' ∨ ∃ v, charVal c = some v ∧ v < r.toU8)) (ha : c.toNat < 128) :
    ∃ e, parseError q r (pre ++ c :: post) = some e ∧
      e.message = charMessage (q.char c) pre.length r.toU8 := by
  have h := C78_first_invalid (q := q) hr hn hpre hc
  rwa [show shownFor c = c from if_pos ha] at h

example : ∃ e, parseError quote ⟨16⟩ ("1".toList ++ 'g' :: "zz".toList) = some e ∧
    e.message = charMessage (quote.char 'g') 1 16 :=
  C78_first_invalid_ascii_partial (pre := "1".toList) (by decide) (by decide)
    (by
      intro x hx
      rcases List.mem_cons.mp hx with rfl | hx
      · exact .inr ⟨1, by decide⟩
      · cases hx)
    (by
      rintro (h | ⟨v, h, hv⟩)
      · revert h; decide
      · have : v = 16 := by
          have : charVal 'g' = some 16 := by decide
          rw [this] at h; exact (Option.some.inj h).symm
        revert hv; subst this; decide)
    (by decide)

theorem toNat_ofNat {n : Nat} (h : n < 55296) : (Char.ofNat n).toNat = n := by
  unfold Char.ofNat
  rw [dif_pos (Or.inl h)]
  rfl

/-- C78: outside ASCII the named character is a different one, with the exception of `Ã`. -/
theorem C78_other_character {c : Char} (hc : 128 ≤ c.toNat) : shownFor c = c ↔ c = 'Ã' := by
  constructor
  · intro h
    have hv : c.toNat < 1114112 := by
      rcases c.valid with h | h
      · exact lt_trans h (by decide)
      · exact h.2
    have h := congrArg Char.toNat h
    unfold shownFor at h
    rw [if_neg (by omega)] at h
    split at h
    · rw [toNat_ofNat (by omega)] at h
      apply Char.ext
      apply UInt32.toNat_inj.mp
      show c.toNat = 195
      omega
    · split at h
      · rw [toNat_ofNat (by omega)] at h
        omega
      · rw [toNat_ofNat (by omega)] at h
        omega
  · rintro rfl
    decide

example : shownFor 'é' = 'Ã' ∧ shownFor '€' = 'â' ∧ shownFor 'Ã' = 'Ã' ∧ shownFor 'g' = 'g' := by
  decide

/-- C78 as stated is false: the message for `1é` names `Ã`. -/
theorem C78_counterexample : ∃ e, parseError quote ⟨16⟩ "1é".toList = some e ∧
    e.message = charMessage (quote.char 'Ã') 1 16 ∧
    e.message ≠ charMessage (quote.char 'é') 1 16 := by
  refine ⟨Error.invalidCharInStringRepr quote "1é".toList ⟨16⟩ 1 'Ã', rfl, ?_⟩
  decide +kernel

end

end Verif.Props
