import Verif.Proof.TypedErrors
import Verif.Props.Panics

/-!
# C93: the texts of the errors of `UInt` and `Int`
-/

namespace Verif.Props

open Verif ApInt Ex

variable {q : Quoting} {i i' : TInstr} {b b' c c' : TBank}

/-- The message and annotation of the error of a call, for examples. -/
def ttexts (i : TInstr) (b : TBank) : Option (String × Option String) :=
  match i.execE quote b with
  | .ok (.error e, _) => some (String.ofList e.message, e.annotation.map String.ofList)
  | _ => none

/-- C93: making the texts of errors changes nothing else: every call gives the same answer, the same
kind of error and the same integers, and making the texts never panics. -/
theorem C93_same_calls (q : Quoting) (i : TInstr) (hb : ∀ a ∈ b, a.WF) :
    (i.execE q b).map (fun p => (p.1.mapError Error.kind, p.2)) = i.exec b := texecE_eq q i hb

example : ttexts (.bin .div 0 1) mixed = some (
    "Encountered a division-by-zero for operation (= UnsignedDiv) with the left hand-side value: " ++
      "(= ApInt { len: BitWidth(7), digits: [Digit(100)] })", none) := by decide +kernel

/-- C93: whenever a call should report the error `f` it reports one about `f`; the annotation is the
one of the call, and so is the message, unless the call parses a text. -/
theorem C93_texts (q : Quoting) (hb : ∀ a ∈ b, a.WF) {f : AErr} {s : NBank}
    (h : i.spec (b.map WInt.num) = some (.error f, s)) :
    ∃ e d, i.execE q b = .ok (.error e, d) ∧ d.map WInt.num = s ∧ e.kind.abs = f ∧
      e.annotation = i.note (b.map WInt.num) ∧
      ((∀ k n t, i ≠ .make (.parse k n t)) → e.message = f.message) := by
  have ha := texec_agrees hb i
  rw [h] at ha
  obtain ⟨y, d, h1, h2, -, h4⟩ := ha
  have key := texecE_eq q i hb
  rw [h1] at key
  cases hx : i.execE q b with
  | error g => rw [hx] at key; cases key
  | ok p =>
    obtain ⟨r, d'⟩ := p
    rw [hx] at key
    have hd : d' = d := congrArg Prod.snd (Except.ok.inj key)
    have hr : r.mapError Error.kind = y := congrArg Prod.fst (Except.ok.inj key)
    cases r with
    | ok o => rw [← hr] at h2; cases h2
    | error e =>
      have hk : e.kind.abs = f := by rw [← hr] at h2; exact Except.error.inj h2
      obtain ⟨j, v, hj, hn, hp⟩ := texecE_from hb hx
      refine ⟨e, d', rfl, by rw [hd, h4], hk, ?_, fun hi => ?_⟩
      · rw [C77_annotation (values_wf hb) hj, hn]
      · rw [← hk]
        refine C77_message (values_wf hb) hj fun k t e => ?_
        obtain ⟨k', e⟩ := hp k t e
        exact hi _ _ _ e

/-- Comparing an `Int` of width 7 with one of width 65. -/
theorem mixed_compares : (TInstr.ask2 .checkedLe 2 4).spec (mixed.map WInt.num) =
    some (.error (.widths 65 7), mixed.map WInt.num) := by decide +kernel

example : ∃ e d, (TInstr.ask2 .checkedLe 2 4).execE quote mixed = .ok (.error e, d) ∧
    e.message = (AErr.widths 65 7).message ∧
    e.annotation = TAsk2.checkedLe.note ⟨.signed, 7, -28⟩ ⟨.signed, 65, -1⟩ := by
  obtain ⟨e, d, h, -, -, hn, hm⟩ := C93_texts quote mixed_wf mixed_compares
  refine ⟨e, d, h, hm nofun, ?_⟩
  rw [hn]
  decide +kernel

example : ttexts (.ask2 .checkedLe 2 4) mixed = some (
    "Encountered invalid operation on entities with non-matching bit-widths of " ++
      "BitWidth(65) and BitWidth(7).",
    some ("Error occured on signed less-than or equals (ule) comparison with `lhs <= rhs` where " ++
      "\n\tlhs = ApInt { len: BitWidth(7), digits: [Digit(100)] }" ++
      "\n\trhs = ApInt { len: BitWidth(65), digits: [Digit(18446744073709551615), Digit(1)] }")) := by
  decide +kernel

example : ttexts (.intoUn (.extend (bw 64)) 4) mixed = some (
    "Tried to extend an `ApInt` with a width of BitWidth(65) to a smaller target width of BitWidth(64)",
    some ("Cannot sign-extend bit-width of BitWidth(65) to BitWidth(64) bits. Do you mean to truncate " ++
      "the instance instead?")) := by
  decide +kernel

/-- C93: a `UInt` or `Int` made from a text reports the error of parsing the text. -/
theorem C93_parse {k : Kind} {n : Fin 5} {t : Text} (hb : ∀ a ∈ b, a.WF) {e : Error}
    (h : (TInstr.make (.parse k n t)).execE q b = .ok (.error e, c)) :
    c = b ∧ parseError q ⟨2 ^ (n.val + 1)⟩ t = some e := by
  have hv := values_wf hb
  constructor
  · have key := texecE_eq q (.make (.parse k n t)) hb
    rw [h] at key
    have key : Except.ok (Except.error e.kind, c) = b.pushRes (TMake.parse k n t).exec := key
    unfold TBank.pushRes at key
    cases hx : (TMake.parse k n t).exec with
    | error g => rw [hx] at key; cases key
    | ok r =>
      rw [hx] at key
      cases r with
      | ok z => cases key
      | error g => exact congrArg Prod.snd (Except.ok.inj key)
  · obtain ⟨d, hj⟩ : ∃ d, (Instr.make (.parse n t)).execE q (b.map WInt.value) = .ok (.error e, d) := by
      unfold TInstr.execE at h
      cases hx : ((TInstr.make (.parse k n t)).script (b.map WInt.kind)).runE q none
          (b.map WInt.value) with
      | error f => rw [hx] at h; cases h
      | ok p =>
        obtain ⟨⟨r, ks⟩, v⟩ := p
        rw [hx] at h
        have h1 : r = .error e := congrArg Prod.fst (Except.ok.inj h)
        rw [h1] at hx
        exact push_from hx
    obtain ⟨h1, h2⟩ := execE_ok q hv hj
    obtain ⟨E, h3, -, -, -, h6⟩ := errorOf_ok q hv h1
    rw [h2] at h3
    cases h3
    exact h6 n t rfl

example : ttexts (.make (.parse .signed 3 "12g".toList)) mixed =
    some ("Encountered an invalid character (= ''g'') at position 2 within the given string " ++
      "representation for the given radix (= Radix(16)).", none) := by decide +kernel

/-- C93: the message alone tells the error, except that a message about a text does not repeat the
text. -/
theorem C93_message_tells (hb : ∀ a ∈ b, a.WF) (hb' : ∀ a ∈ b', a.WF) {e e' : Error}
    (h : i.execE q b = .ok (.error e, c)) (h' : i'.execE q b' = .ok (.error e', c'))
    (hm : e.message = e'.message) :
    e.kind.abs = e'.kind.abs ∨ ∃ s t r, e.kind.abs = .text s r ∧ e'.kind.abs = .text t r := by
  obtain ⟨j, v, hj, -⟩ := texecE_from hb h
  obtain ⟨j', v', hj', -⟩ := texecE_from hb' h'
  exact C77_message_tells (values_wf hb) (values_wf hb') hj hj' hm

example : ∃ e e' d d', (TInstr.bin .div 0 1).execE quote mixed = .ok (.error e, d) ∧
    (TInstr.bin .div 2 3).execE quote mixed = .ok (.error e', d') ∧ e.message ≠ e'.message := by
  obtain ⟨e, d, h, -, hk, -⟩ := C93_texts (i := .bin .div 0 1)
    (f := .divZero .unsignedDiv ⟨7, 100⟩) (s := mixed.map WInt.num) quote mixed_wf (by decide +kernel)
  obtain ⟨e', d', h', -, hk', -⟩ := C93_texts (i := .bin .div 2 3)
    (f := .divZero .signedDiv ⟨7, 100⟩) (s := mixed.map WInt.num) quote mixed_wf (by decide +kernel)
  refine ⟨e, e', d, d', h, h', fun hm => ?_⟩
  rcases C93_message_tells mixed_wf mixed_wf h h' hm with hm | ⟨_, _, _, hm, -⟩
  · rw [hk, hk'] at hm; cases hm
  · rw [hk] at hm; cases hm

/-- C93: an error that owns an integer has no annotation, and the rest of the error determines its
message: comparing such errors is comparing the operation or type and the integer. -/
theorem C93_owned_equal (hb : ∀ a ∈ b, a.WF) (hb' : ∀ a ∈ b', a.WF) {e e' : Error}
    (h : i.execE q b = .ok (.error e, c)) (h' : i'.execE q b' = .ok (.error e', c'))
    (ho : e.kind.holder ≠ none) :
    e.annotation = none ∧ (e = e' ↔ e.kind = e'.kind) := by
  obtain ⟨j, v, hj, -⟩ := texecE_from hb h
  obtain ⟨j', v', hj', -⟩ := texecE_from hb' h'
  exact ⟨(C77_owned (values_wf hb) hj ho).2, C77_owned_equal (values_wf hb) (values_wf hb') hj hj' ho⟩

example : ∃ e e' d d', (TInstr.bin .rem 2 3).execE quote mixed = .ok (.error e, d) ∧
    (TInstr.intoBin .rem 2 3).execE quote mixed = .ok (.error e', d') ∧
    e.annotation = none ∧ (e = e' ↔ e.kind = e'.kind) := by
  obtain ⟨e, d, h, -, hk, -⟩ := C93_texts (i := .bin .rem 2 3)
    (f := .divZero .signedRem ⟨7, 100⟩) (s := mixed.map WInt.num) quote mixed_wf (by decide +kernel)
  obtain ⟨e', d', h', -⟩ := C93_texts (i := .intoBin .rem 2 3)
    (f := .divZero .signedRem ⟨7, 100⟩) (s := (mixed.map WInt.num).eraseIdx 2) quote mixed_wf
    (by decide +kernel)
  refine ⟨e, e', d, d', h, h', C93_owned_equal mixed_wf mixed_wf h h' ?_⟩
  cases hx : e.kind <;> rw [hx] at hk <;> first | (cases hk; done) | exact nofun

/-- The comparison of two fields behind a comparison that can fail. -/
def under : TAsk2 → Kind → Option Ask2
  | .checkedLt, .unsigned => some .ult
  | .checkedLt, .signed => some .slt
  | .checkedLe, .unsigned => some .ule
  | .checkedLe, .signed => some .sle
  | .checkedGt, .unsigned => some .ugt
  | .checkedGt, .signed => some .sgt
  | .checkedGe, .unsigned => some .uge
  | .checkedGe, .signed => some .sge
  | _, _ => none

theorem under_ne {o : TAsk2} {k : Kind} {u : Ask2} (h : under o k = some u) : u ≠ .eq := by
  cases o <;> cases k <;> cases h <;> nofun

theorem under_inj {o p : TAsk2} {k l : Kind} {u : Ask2} (h : under o k = some u)
    (h' : under p l = some u) : o = p ∧ k = l := by
  cases o <;> cases k <;> cases h <;> cases p <;> cases l <;> cases h' <;> exact ⟨rfl, rfl⟩

theorem under_note {o : TAsk2} {k : Kind} {u : Ask2} (h : under o k = some u) {x y : Num}
    (hk : x.kind = k) : o.note x y = u.note x.inError y.inError := by
  subst hk
  cases hx : x.kind <;> rw [hx] at h <;> cases o <;> cases h <;>
    (simp only [TAsk2.note, Ask2.note, hx, Num.text, List.append_assoc]; rfl)

/-- A comparison that failed. -/
theorem compared {o : TAsk2} {x y : Nat} (hb : ∀ a ∈ b, a.WF) {e : Error}
    (h : (TInstr.ask2 o x y).execE q b = .ok (.error e, c)) :
    ∃ a d u, b[x]? = some a ∧ b[y]? = some d ∧ a.value.WF ∧ d.value.WF ∧ a.kind = d.kind ∧
      under o a.kind = some u ∧ e.annotation = u.note a.value.abs d.value.abs := by
  have key := texecE_eq q (.ask2 o x y) hb
  rw [h] at key
  have hs := texec_agrees hb (.ask2 o x y)
  rw [← key] at hs
  obtain ⟨j, v, hj, hn, -⟩ := texecE_from hb h
  have ha := C77_annotation (values_wf hb) hj
  rw [hn] at ha
  cases hx : b[x]? with
  | none =>
    simp only [TInstr.exec, hx] at key
    cases key
  | some a =>
    cases hy : b[y]? with
    | none => simp only [TInstr.exec, hx, hy] at key; cases key
    | some d =>
      have wa := value_wf (hb a (List.mem_of_getElem? hx))
      have wd := value_wf (hb d (List.mem_of_getElem? hy))
      simp only [TInstr.spec, TInstr.note, List.getElem?_map, hx, hy, Option.map_some] at hs ha
      have ka : a.num.kind = a.kind := by cases a <;> rfl
      have kd : d.num.kind = d.kind := by cases d <;> rfl
      have hk : a.kind = d.kind := by
        by_contra hk
        rw [show o.spec a.num d.num = .absent by
          unfold TAsk2.spec; simp only [ka, kd, ne_eq, hk, not_false_eq_true, if_true]] at hs
        obtain ⟨_, _, h1, h2, -⟩ := hs
        cases h1
        cases h2
      have hu : ∃ u, under o a.kind = some u := by
        unfold TAsk2.spec at hs
        simp only [ka, kd, ne_eq, hk, not_true_eq_false, if_false] at hs
        cases o <;> first
          | (cases a.kind <;> exact ⟨_, rfl⟩)
          | (obtain ⟨_, _, h1, h2, -⟩ := hs
             cases h1
             cases h2)
      obtain ⟨u, hu⟩ := hu
      refine ⟨a, d, u, rfl, rfl, wa, wd, hk, hu, ?_⟩
      rw [ha, under_note hu ka, num_abs, num_abs, num_inError (ok_abs wa), num_inError (ok_abs wd)]

/-- C93: the annotation of a failed comparison tells which comparison it was, of which type, and on
which integers, in order. -/
theorem C93_comparison_operands {o p : TAsk2} {x y x' y' : Nat} (hb : ∀ a ∈ b, a.WF)
    (hb' : ∀ a ∈ b', a.WF) {e e' : Error}
    (h : (TInstr.ask2 o x y).execE q b = .ok (.error e, c))
    (h' : (TInstr.ask2 p x' y').execE q b' = .ok (.error e', c'))
    (hn : e.annotation = e'.annotation) :
    o = p ∧ b[x]? = b'[x']? ∧ b[y]? = b'[y']? ∧ b[x]? ≠ none ∧ b[y]? ≠ none := by
  obtain ⟨a, d, u, hx, hy, wa, wd, hk, hu, hn1⟩ := compared hb h
  obtain ⟨a', d', u', hx', hy', wa', wd', hk', hu', hn2⟩ := compared hb' h'
  rw [hn1, hn2] at hn
  obtain ⟨h1, h2, h3⟩ := note_inj wa.2 wd.2 wa'.2 wd'.2 (under_ne hu) hn
  rw [← h1] at hu'
  obtain ⟨ho, hka⟩ := under_inj hu hu'
  have ea : a = a' := by
    rw [← WInt.wrap_self a, ← WInt.wrap_self a', hka, abs_inj wa wa' h2]
  have ed : d = d' := by
    rw [← WInt.wrap_self d, ← WInt.wrap_self d', ← hk, ← hk', hka, abs_inj wd wd' h3]
  rw [hx, hy, hx', hy', ea, ed]
  exact ⟨ho, rfl, rfl, nofun, nofun⟩

example : ∃ e e' d d', (TInstr.ask2 .checkedLe 2 4).execE quote mixed = .ok (.error e, d) ∧
    (TInstr.ask2 .checkedGt 2 4).execE quote mixed = .ok (.error e', d') ∧ e.message = e'.message ∧
    e.annotation ≠ e'.annotation := by
  obtain ⟨e, d, h, -, -, -, hm⟩ := C93_texts quote mixed_wf mixed_compares
  obtain ⟨e', d', h', -, -, -, hm'⟩ := C93_texts (i := .ask2 .checkedGt 2 4) (f := .widths 65 7)
    (s := mixed.map WInt.num) quote mixed_wf (by decide +kernel)
  refine ⟨e, e', d, d', h, h', by rw [hm nofun, hm' nofun], fun hn => ?_⟩
  cases (C93_comparison_operands mixed_wf mixed_wf h h' hn).1

/-- C93: printing an error never panics, and `{}` prints the same as `{:?}`. -/
theorem C93_display (hb : ∀ a ∈ b, a.WF) {e : Error} (h : i.execE q b = .ok (.error e, c)) :
    ∃ t, e.debug q = .ok t ∧ e.display q = .ok t := by
  obtain ⟨j, v, hj, -⟩ := texecE_from hb h
  exact C77_display (values_wf hb) hj

example : ∃ e d t, (TInstr.ask2 .checkedLe 2 4).execE quote mixed = .ok (.error e, d) ∧
    e.display quote = .ok t := by
  obtain ⟨e, d, h, -⟩ := C93_texts quote mixed_wf mixed_compares
  obtain ⟨t, -, ht⟩ := C93_display mixed_wf h
  exact ⟨e, d, t, h, ht⟩

end Verif.Props
