import Verif.Proof.Errors

/-!
# Messages and annotations
-/

namespace Verif

open ApInt Props

theorem DivOp.debug_eq (op : DivOp) : op.debug = op.name.toList := by cases op <;> rfl

theorem PrimitiveTy.debug_eq (ty : PrimitiveTy) : ty.debug = ty.name.toList := by cases ty <;> rfl

theorem ofKind_ok {e : Err} (hw : e.WF) (hp : e.abs.Plain) :
    ∃ E, Error.ofKind e = .ok E ∧ E.kind = e ∧ E.message = e.abs.message ∧ E.annotation = none := by
  cases e with
  | invalidRadix => cases hp
  | invalidStringRepr => cases hp
  | invalidBitWidth => cases hp
  | invalidBitAccess p t =>
    refine ⟨_, rfl, rfl, ?_, rfl⟩
    simp only [Error.invalidBitAccess, BitWidth.debug, named_eq]; rfl
  | invalidShiftAmount p t =>
    refine ⟨_, rfl, rfl, ?_, rfl⟩
    simp only [Error.invalidShiftAmount, BitWidth.debug, named_eq]; rfl
  | unmatchingBitwidth l r =>
    refine ⟨_, rfl, rfl, ?_, rfl⟩
    simp only [Error.unmatchingBitwidths, BitWidth.debug, named_eq]; rfl
  | truncationBitWidthTooLarge l r =>
    refine ⟨_, rfl, rfl, ?_, rfl⟩
    simp only [Error.truncationBitwidthTooLarge, BitWidth.debug, named_eq]; rfl
  | extensionBitWidthTooSmall l r =>
    refine ⟨_, rfl, rfl, ?_, rfl⟩
    simp only [Error.extensionBitwidthTooSmall, BitWidth.debug, named_eq]; rfl
  | expectedNonEmptyDigits => exact ⟨_, rfl, rfl, rfl, rfl⟩
  | valueUnrepresentable v ty =>
    simp only [Error.ofKind, Error.encounteredUnrepresentableValue, debug_ok hw, run_bind_ok,
      PrimitiveTy.debug_eq]
    exact ⟨_, rfl, rfl, rfl, rfl⟩
  | divisionByZero op l =>
    simp only [Error.ofKind, Error.divisionByZero, debug_ok hw, run_bind_ok, DivOp.debug_eq]
    exact ⟨_, rfl, rfl, rfl, rfl⟩

theorem annotate_note (o : Un) (a : ApInt) (E : Error) (h : E.annotation = none) :
    (o.annotate a E).kind = E.kind ∧ (o.annotate a E).message = E.message ∧
      (o.annotate a E).annotation = o.note a.abs := by
  cases o <;> first
    | exact ⟨rfl, rfl, h⟩
    | (refine ⟨rfl, rfl, ?_⟩
       simp only [Un.annotate, Error.withAnnotation, Un.note, BitWidth.debug, named_eq, decimal_eq]
       rfl)

theorem occured_note {o : Ask2} {s : String} (h : o.occured = some s) (x y : AInt) :
    o.note x y = some ("Error occured on ".toList ++ s.toList ++ " where \n\tlhs = ".toList ++
      x.text ++ "\n\trhs = ".toList ++ y.text) := by
  cases o <;> cases h <;> rfl

theorem fromStrRadix_exec {k : Fin 5} {s : Text} {b b' : Bank} {e : Err}
    (h : (Instr.make (.parse k s)).exec b = .ok (.error e, b')) :
    fromStrRadix' ⟨2 ^ (k.val + 1)⟩ s = .ok (.error e) := by
  have hr : Radix.from (2 ^ (k.val + 1)) = .ok ⟨2 ^ (k.val + 1)⟩ := by
    revert k; intro k _; clear * -
    revert k; decide
  simp only [Instr.exec, Make.exec, pushRes, fromStrRadix, hr, run_bind_ok] at h
  cases hx : fromStrRadix' ⟨2 ^ (k.val + 1)⟩ s with
  | error f => rw [hx] at h; cases h
  | ok r =>
    rw [hx] at h
    cases r with
    | ok c => cases h
    | error f => cases h; rfl

theorem errorOf_ok (q : Quoting) {i : Instr} {b b' : Bank} (hb : ∀ a ∈ b, a.WF) {e : Err}
    (h : i.exec b = .ok (.error e, b')) :
    ∃ E, i.errorOf q b e = .ok E ∧ E.kind = e ∧ E.annotation = i.note (b.map ApInt.abs) ∧
      (e.abs.Plain → E.message = e.abs.message) ∧
      (∀ k s, i = .make (.parse k s) → parseError q ⟨2 ^ (k.val + 1)⟩ s = some E) := by
  obtain ⟨rfl, hs, hw⟩ := exec_error hb h
  have wf : ∀ {x : Nat} {a : ApInt}, b'[x]? = some a → a.WF := fun h =>
    hb _ (List.mem_of_getElem? h)
  rcases spec_plain hs with hp | ⟨k, s, rfl, ha, he⟩
  · obtain ⟨E, h1, h2, h3, h4⟩ := ofKind_ok hw hp
    have hnp : ∀ k s, i ≠ .make (.parse k s) := by
      rintro k s rfl
      have hx := fromStrRadix_exec h
      cases hq : parseError q ⟨2 ^ (k.val + 1)⟩ s with
      | none => exact parseError_none hq e hx
      | some E' =>
        obtain ⟨h5, h6, -⟩ := parseError_kind hq
        rw [hx, h6] at h5
        cases h5
        exact hp
    have hm : i.made q e = .ok E := by
      unfold Instr.made
      split
      · exact absurd rfl (hnp _ _)
      · exact h1
    have hn : ∃ E', i.annotate b' E = .ok E' ∧ E'.kind = E.kind ∧ E'.message = E.message ∧
        E'.annotation = i.note (b'.map ApInt.abs) := by
      have un : ∀ (o : Un) (x : Nat), ∃ E', (match b'[x]? with
          | some a => pure (o.annotate a E)
          | none => pure E : Run Error) = .ok E' ∧ E'.kind = E.kind ∧ E'.message = E.message ∧
          E'.annotation = (b'.map ApInt.abs)[x]?.bind o.note := by
        intro o x
        rw [List.getElem?_map]
        cases hx : b'[x]? with
        | none => exact ⟨E, rfl, rfl, rfl, h4⟩
        | some a => exact ⟨_, rfl, annotate_note o a E h4⟩
      cases i with
      | un o x => exact un o x
      | intoUn o x => exact un o x
      | strictAssign x y =>
        simp only [Instr.annotate, Instr.note, List.getElem?_map]
        cases hx : b'[x]? with
        | none => exact ⟨E, rfl, rfl, rfl, h4⟩
        | some a =>
          cases hy : b'[y]? with
          | none => exact ⟨E, rfl, rfl, rfl, h4⟩
          | some c =>
            simp only [debug_ok (wf hx), debug_ok (wf hy), run_bind_ok]
            exact ⟨_, rfl, rfl, rfl, rfl⟩
      | ask2 o x y =>
        simp only [Instr.annotate, Instr.note, List.getElem?_map]
        cases hx : b'[x]? with
        | none => exact ⟨E, by cases o.occured <;> rfl, rfl, rfl, h4⟩
        | some a =>
          cases hy : b'[y]? with
          | none => exact ⟨E, by cases o.occured <;> rfl, rfl, rfl, h4⟩
          | some c =>
            cases ho : o.occured with
            | none =>
              have : o = .eq := by cases o <;> first | rfl | cases ho
              subst this
              exact ⟨E, rfl, rfl, rfl, h4⟩
            | some s =>
              simp only [debug_ok (wf hx), debug_ok (wf hy), run_bind_ok]
              exact ⟨_, rfl, rfl, rfl, (occured_note ho _ _).symm⟩
      | make m =>
        refine ⟨E, rfl, rfl, rfl, h4.trans ?_⟩
        cases m <;> first | rfl | exact absurd rfl (hnp _ _)
      | _ => exact ⟨E, rfl, rfl, rfl, h4⟩
    obtain ⟨E', n1, n2, n3, n4⟩ := hn
    refine ⟨E', ?_, n2.trans h2, n4, fun _ => n3.trans h3, fun k s hi => absurd hi (hnp k s)⟩
    unfold Instr.errorOf
    rw [hm, run_bind_ok, n1]
  · have hx := fromStrRadix_exec h
    cases hq : parseError q ⟨2 ^ (k.val + 1)⟩ s with
    | none => exact absurd hx (parseError_none hq e)
    | some E =>
      obtain ⟨h5, h6, h7⟩ := parseError_kind hq
      rw [hx] at h5
      cases h5
      refine ⟨E, ?_, rfl, h7, ?_, ?_⟩
      · unfold Instr.errorOf
        simp only [Instr.made, hq]
        rfl
      · intro hp; rw [he] at hp; cases hp
      · rintro k s ⟨⟩; exact hq

/-- The machine with texts is the machine without, apart from the texts. -/
theorem execE_ok (q : Quoting) {i : Instr} {b b' : Bank} (hb : ∀ a ∈ b, a.WF) {E : Error}
    (h : i.execE q b = .ok (.error E, b')) :
    i.exec b = .ok (.error E.kind, b') ∧ i.errorOf q b E.kind = .ok E := by
  unfold Instr.execE at h
  cases hx : i.exec b with
  | error f => rw [hx] at h; cases h
  | ok p =>
    obtain ⟨r, d⟩ := p
    rw [hx, run_bind_ok] at h
    cases r with
    | ok o => cases h
    | error e =>
      obtain ⟨E', h1, h2, -⟩ := errorOf_ok q hb hx
      simp only [h1, run_bind_ok] at h
      cases h
      rw [h2]
      exact ⟨rfl, h1⟩

theorem execE_eq (q : Quoting) (i : Instr) {b : Bank} (hb : ∀ a ∈ b, a.WF) :
    (i.execE q b).map (fun p => (p.1.mapError Error.kind, p.2)) = i.exec b := by
  unfold Instr.execE
  cases hx : i.exec b with
  | error f => rfl
  | ok p =>
    obtain ⟨r, d⟩ := p
    rw [run_bind_ok]
    cases r with
    | ok o => rfl
    | error e =>
      obtain ⟨E', h1, h2, -⟩ := errorOf_ok q hb hx
      simp only [h1, run_bind_ok]
      show Except.ok (Except.error E'.kind, d) = _
      rw [h2]

/-! ## Messages tell errors apart -/

/-- Which of the messages it is. -/
def AErr.tag : AErr → Nat
  | .text .. => 0
  | .bit .. => 1
  | .shift .. => 2
  | .unrepresentable .. => 3
  | .widths .. => 4
  | .tooWide .. => 5
  | .tooNarrow .. => 6
  | .divZero .. => 7
  | .noDigits => 8
  | .other => 9

/-- The first thirty characters of the messages. -/
def heads : List String :=
  ["Encountered an invalid string ", "Encountered invalid bit access", "Encountered invalid shift amou",
    "Encountered a value (ApInt { l", "Encountered invalid operation ", "Tried to truncate an `ApInt` w",
    "Tried to extend an `ApInt` wit", "Encountered a division-by-zero", "Encountered an empty iterator ",
    "", "Encountered an invalid charact"]

theorem head_message (e : AErr) : e.message.take 30 = (heads.getD e.tag "").toList := by
  have key : ∀ (s : String) (r : List Char), 30 ≤ s.toList.length →
      (s.toList ++ r).take 30 = s.toList.take 30 := fun s r h => List.take_append_of_le_length h
  cases e with
  | unrepresentable x ty =>
    have : (AErr.unrepresentable x ty).message =
        "Encountered a value (ApInt { len: ".toList ++ (named "BitWidth" x.width ++
          (", digits: [".toList ++ (List.intercalate ", ".toList
            ((List.range ((x.width + 63) / 64)).map fun i =>
              named "Digit" (x.bits / 2 ^ (64 * i) % 2 ^ 64)) ++ ("] }".toList ++
            (") that is unrepresentable by the destination type ".toList ++
              (ty.name.toList ++ ".".toList)))))) := by
      unfold AErr.message AInt.text
      simp only [List.append_assoc]
      rfl
    rw [this, key _ _ (by decide)]
    simp only [AErr.tag]
    decide
  | noDigits => decide
  | other => rfl
  | _ =>
    unfold AErr.message
    simp only [List.append_assoc]
    rw [key _ _ (by decide)]
    simp only [AErr.tag]
    decide

theorem head_charMessage (shown : List Char) (pos radix : Nat) :
    (charMessage shown pos radix).take 30 = (heads.getD 10 "").toList := by
  unfold charMessage
  simp only [List.append_assoc]
  rw [List.take_append_of_le_length (by decide)]
  decide

theorem heads_inj : ∀ i < 11, ∀ j < 11, (heads.getD i "").toList = (heads.getD j "").toList →
    i = j := by decide

theorem AErr.tag_lt (e : AErr) : e.tag < 10 := by cases e <;> simp [AErr.tag]

theorem message_tag {e f : AErr} (h : e.message = f.message) : e.tag = f.tag := by
  have h := congrArg (List.take 30) h
  rw [head_message, head_message] at h
  have := e.tag_lt
  have := f.tag_lt
  exact heads_inj _ (by omega) _ (by omega) h

/-- The numbers in an error are in range. -/
def AErr.Fine : AErr → Prop
  | .unrepresentable x _ => x.bits < 2 ^ x.width
  | .divZero _ x => x.bits < 2 ^ x.width
  | _ => True

theorem Err.WF.fine {e : Err} (h : e.WF) : e.abs.Fine := by
  cases e with
  | valueUnrepresentable v ty => exact h.2
  | divisionByZero op v => exact h.2
  | _ => trivial

theorem named_end {name : String} {n m : Nat} (h : named name n = named name m) : n = m := by
  have h' : named name n ++ [] = named name m ++ [] := by rw [h]
  exact (named_split h').1

theorem PrimitiveTy.name_inj : ∀ {a b : PrimitiveTy}, a.name = b.name → a = b := by
  intro a b
  cases a <;> cases b <;> decide

/-- The name of a division, what follows it beginning with a parenthesis. -/
theorem DivOp.name_split {a b : DivOp} {r s : List Char}
    (h : a.name.toList ++ ')' :: r = b.name.toList ++ ')' :: s) : a = b ∧ r = s := by
  have hn : ∀ op : DivOp, ∀ c ∈ op.name.toList, (c != ')') = true := by
    intro op; cases op <;> decide
  obtain ⟨h1, -, h2⟩ := split_at (p := fun c => c != ')') (hn a) (hn b) (by decide) (by decide) h
  refine ⟨?_, h2⟩
  revert h1
  cases a <;> cases b <;> decide

theorem one_number {A C : List Char} {name : String} {m m' : Nat}
    (h : A ++ named name m ++ C = A ++ named name m' ++ C) : m = m' :=
  named_end (List.append_cancel_left (List.append_cancel_right h))

theorem two_numbers' {A B : List Char} {name name' : String} {m m' n n' : Nat}
    (h : A ++ named name m ++ B ++ named name' n = A ++ named name m' ++ B ++ named name' n') :
    m = m' ∧ n = n' := by
  rw [List.append_assoc, List.append_assoc, List.append_assoc, List.append_assoc] at h
  obtain ⟨h1, h2⟩ := named_split (List.append_cancel_left h)
  exact ⟨h1, named_end (List.append_cancel_left h2)⟩

theorem two_numbers {A B C : List Char} {name name' : String} {m m' n n' : Nat}
    (h : A ++ named name m ++ B ++ named name' n ++ C =
      A ++ named name m' ++ B ++ named name' n' ++ C) : m = m' ∧ n = n' :=
  two_numbers' (List.append_cancel_right h)

theorem integer_type {A B C : List Char} {x y : AInt} {a b : PrimitiveTy}
    (hx : x.bits < 2 ^ x.width) (hy : y.bits < 2 ^ y.width)
    (h : A ++ x.text ++ B ++ a.name.toList ++ C = A ++ y.text ++ B ++ b.name.toList ++ C) :
    x = y ∧ a = b := by
  have h := List.append_cancel_right h
  rw [List.append_assoc, List.append_assoc, List.append_assoc, List.append_assoc] at h
  obtain ⟨h1, h2⟩ := AInt.text_split hx hy (List.append_cancel_left h)
  exact ⟨h1, PrimitiveTy.name_inj (String.toList_injective (List.append_cancel_left h2))⟩

theorem division_integer {A B B' C : List Char} {x y : AInt} {a b : DivOp}
    (hx : x.bits < 2 ^ x.width) (hy : y.bits < 2 ^ y.width) (hB : B = ')' :: B')
    (h : A ++ a.name.toList ++ B ++ x.text ++ C = A ++ b.name.toList ++ B ++ y.text ++ C) :
    a = b ∧ x = y := by
  subst hB
  have h := List.append_cancel_right h
  rw [List.append_assoc, List.append_assoc, List.append_assoc, List.append_assoc] at h
  obtain ⟨h1, h2⟩ := DivOp.name_split (List.append_cancel_left h)
  have h2 := List.append_cancel_left h2
  have h2 : x.text ++ [] = y.text ++ [] := by rw [h2]
  exact ⟨h1, (AInt.text_split hx hy h2).1⟩

theorem message_inj {e f : AErr} (he : e.Fine) (hf : f.Fine) (h : e.message = f.message) :
    e = f ∨ ∃ s t r, e = .text s r ∧ f = .text t r := by
  have ht := message_tag h
  cases e <;> cases f <;> first
    | (clear h; exfalso; simp [AErr.tag] at ht; done)
    | skip
  · cases one_number h
    exact .inr ⟨_, _, _, rfl, rfl⟩
  · obtain ⟨rfl, rfl⟩ := two_numbers h
    exact .inl rfl
  · obtain ⟨rfl, rfl⟩ := two_numbers h
    exact .inl rfl
  · obtain ⟨rfl, rfl⟩ := integer_type he hf h
    exact .inl rfl
  · obtain ⟨rfl, rfl⟩ := two_numbers h
    exact .inl rfl
  · obtain ⟨rfl, rfl⟩ := two_numbers' h
    exact .inl rfl
  · obtain ⟨rfl, rfl⟩ := two_numbers' h
    exact .inl rfl
  · obtain ⟨rfl, rfl⟩ := division_integer
      (B' := " with the left hand-side value: (= ".toList) he hf (by decide) h
    exact .inl rfl
  · exact .inl rfl
  · exact .inl rfl

theorem message_ne_char (e : AErr) (shown : List Char) (pos radix : Nat) :
    e.message ≠ charMessage shown pos radix := by
  intro h
  have h := congrArg (List.take 30) h
  rw [head_message, head_charMessage] at h
  have := e.tag_lt
  have := heads_inj _ (by omega) _ (by omega) h
  omega

/-- The radix at the end of the message can be read off. -/
theorem charMessage_radix {s s' : List Char} {p p' r r' : Nat}
    (h : charMessage s p r = charMessage s' p' r') : r = r' := by
  have key : ∀ {A A' C : List Char}, A ++ named "Radix" r ++ C = A' ++ named "Radix" r' ++ C →
      r = r' := by
    intro A A' C h
    have h := List.append_cancel_right h
    unfold named at h
    rw [← List.append_assoc, ← List.append_assoc, ← List.append_assoc, ← List.append_assoc] at h
    have h := congrArg List.reverse (List.append_cancel_right h)
    simp only [List.reverse_append, List.append_assoc] at h
    have hd : ∀ n, ∀ c ∈ (decText n).reverse, c.isDigit = true := fun n c hc =>
      decText_isDigit (List.mem_reverse.mp hc)
    obtain ⟨h1, -⟩ := split_at (p := Char.isDigit) (x := '(') (y := '(') (hd r) (hd r')
      (by decide) (by decide) h
    exact decText_inj (List.reverse_injective h1)
  exact key h

/-! ## Annotations tell comparisons apart -/

/-- The first forty characters tell the comparisons apart. -/
theorem occured_head {o p : Ask2} {s t : String} (hs : o.occured = some s)
    (ht : p.occured = some t) (h : s.toList.take 40 = t.toList.take 40) : o = p := by
  revert h
  cases o <;> cases hs <;> cases p <;> cases ht <;> first
    | (intro _; rfl)
    | exact fun h => absurd h (by decide +kernel)

theorem occured_length {o : Ask2} {s : String} (hs : o.occured = some s) :
    40 ≤ s.toList.length := by
  cases o <;> cases hs <;> decide +kernel

theorem two_texts {A B : List Char} {x y x' y' : AInt} (hx : x.bits < 2 ^ x.width)
    (hy : y.bits < 2 ^ y.width) (hx' : x'.bits < 2 ^ x'.width) (hy' : y'.bits < 2 ^ y'.width)
    (h : A ++ x.text ++ B ++ y.text = A ++ x'.text ++ B ++ y'.text) : x = x' ∧ y = y' := by
  rw [List.append_assoc, List.append_assoc, List.append_assoc, List.append_assoc] at h
  obtain ⟨h1, h2⟩ := AInt.text_split hx hx' (List.append_cancel_left h)
  have h2 := List.append_cancel_left h2
  have h2 : y.text ++ [] = y'.text ++ [] := by rw [h2]
  exact ⟨h1, (AInt.text_split hy hy' h2).1⟩

theorem note_inj {o p : Ask2} {x y x' y' : AInt} (hx : x.bits < 2 ^ x.width)
    (hy : y.bits < 2 ^ y.width) (hx' : x'.bits < 2 ^ x'.width) (hy' : y'.bits < 2 ^ y'.width)
    (ho : o ≠ .eq) (h : o.note x y = p.note x' y') : o = p ∧ x = x' ∧ y = y' := by
  have hoc : ∃ s, o.occured = some s := by
    clear h
    cases o <;> first | exact absurd rfl ho | exact ⟨_, rfl⟩
  obtain ⟨s, hs⟩ := hoc
  rw [occured_note hs] at h
  cases ht : p.occured with
  | none =>
    have : p.note x' y' = none := by
      clear h
      cases p <;> first | rfl | cases ht
    rw [this] at h
    cases h
  | some t =>
    rw [occured_note ht] at h
    have h := Option.some.inj h
    have hop : o = p := by
      have key : ∀ {A B C : List Char} {x y x' y' : List Char},
          A ++ s.toList ++ B ++ x ++ C ++ y = A ++ t.toList ++ B ++ x' ++ C ++ y' →
          s.toList.take 40 = t.toList.take 40 := by
        intro A B C x y x' y' h
        simp only [List.append_assoc] at h
        have h := congrArg (List.take 40) (List.append_cancel_left h)
        rwa [List.take_append_of_le_length (occured_length hs),
          List.take_append_of_le_length (occured_length ht)] at h
      exact occured_head hs ht (key h)
    subst hop
    rw [hs] at ht
    cases ht
    exact ⟨rfl, two_texts hx hy hx' hy' h⟩

end Verif
