import Verif.Proof.Hashing
import Verif.Proof.Typed
import Verif.Proof.ErrorText
import Verif.Props.Typed
import Verif.Props.ErrorText

/-!
# Integers as keys of hash tables (C85)

`feed` is the list of calls that `Hash` makes on a hasher; a hash function is any function of that
list.
-/

namespace Verif.Props

open ApInt Ex

section

variable {a b : ApInt}

/-- C85: two integers compare equal exactly when width and value are the same, and exactly then
they feed the same to every hasher. -/
theorem C85_integer (ha : a.WF) (hb : b.WF) :
    ∃ x y, a.feed = .ok x ∧ b.feed = .ok y ∧ a.eq b = .ok (decide (a.abs = b.abs)) ∧
      (x = y ↔ a.abs = b.abs) := by
  refine ⟨_, _, feed_ok ha, feed_ok hb, apint_eq ha hb, fun h => ?_, fun h => ?_⟩
  · exact congrArg ApInt.abs (fed_prefix ha hb (s := []) (t := []) (by rw [h])).1
  · rw [abs_inj ha hb h]

/-- C85: the same for `UInt` and `Int`. -/
theorem C85_typed (ha : a.WF) (hb : b.WF) :
    (∃ x y, (UInt.mk a).feed = .ok x ∧ (UInt.mk b).feed = .ok y ∧
      (UInt.mk a).eq ⟨b⟩ = .ok (decide ((WInt.u ⟨a⟩).num = (WInt.u ⟨b⟩).num)) ∧
      (x = y ↔ (WInt.u ⟨a⟩).num = (WInt.u ⟨b⟩).num)) ∧
    (∃ x y, (SInt.mk a).feed = .ok x ∧ (SInt.mk b).feed = .ok y ∧
      (SInt.mk a).eq ⟨b⟩ = .ok (decide ((WInt.s ⟨a⟩).num = (WInt.s ⟨b⟩).num)) ∧
      (x = y ↔ (WInt.s ⟨a⟩).num = (WInt.s ⟨b⟩).num)) := by
  have hu : (WInt.u ⟨a⟩).num = (WInt.u ⟨b⟩).num ↔ a.abs = b.abs := by
    rw [(C69_faithful (a := .u ⟨a⟩) (b := .u ⟨b⟩) ha hb).2.2]
    constructor
    · rintro ⟨⟩; rfl
    · intro h; rw [abs_inj ha hb h]
  have hs : (WInt.s ⟨a⟩).num = (WInt.s ⟨b⟩).num ↔ a.abs = b.abs := by
    rw [(C69_faithful (a := .s ⟨a⟩) (b := .s ⟨b⟩) ha hb).2.2]
    constructor
    · rintro ⟨⟩; rfl
    · intro h; rw [abs_inj ha hb h]
  obtain ⟨x, y, h1, h2, h3, h4⟩ := C85_integer ha hb
  refine ⟨⟨x, y, h1, h2, ?_, h4.trans hu.symm⟩, ⟨x, y, h1, h2, ?_, h4.trans hs.symm⟩⟩
  · exact h3.trans (by rw [decide_eq_decide.2 hu])
  · exact h3.trans (by rw [decide_eq_decide.2 hs])

example : ∃ x y, a7.feed = .ok x ∧ b7.feed = .ok y ∧ a7.eq b7 = .ok false ∧ x ≠ y := by
  obtain ⟨x, y, h1, h2, h3, h4⟩ := C85_integer a7_wf b7_wf
  exact ⟨x, y, h1, h2, h3, fun h => absurd (h4.1 h) (by decide +kernel)⟩

/-- What the elements of a tuple or an array feed, one after the other. -/
def feedAll : List ApInt → Run (List Feed)
  | [] => pure []
  | a :: as => do pure ((← a.feed) ++ (← feedAll as))

/-- C85: what integers feed is self-delimiting: sequences of integers feed the same only if they
have the same length and the same integers in the same order. -/
theorem C85_sequences {as bs : List ApInt} (ha : ∀ a ∈ as, a.WF) (hb : ∀ b ∈ bs, b.WF) :
    ∃ x y, feedAll as = .ok x ∧ feedAll bs = .ok y ∧
      (x = y ↔ as.map ApInt.abs = bs.map ApInt.abs) := by
  have key : ∀ cs : List ApInt, (∀ c ∈ cs, c.WF) → feedAll cs = .ok (cs.map ApInt.fed).flatten := by
    intro cs hc
    induction cs with
    | nil => rfl
    | cons c cs ih =>
      unfold feedAll
      rw [feed_ok (hc c List.mem_cons_self), run_bind_ok,
        ih fun x hx => hc x (List.mem_cons_of_mem _ hx), run_bind_ok]
      rfl
  refine ⟨_, _, key as ha, key bs hb, ?_, ?_⟩
  · intro h
    induction as generalizing bs with
    | nil =>
      cases bs with
      | nil => rfl
      | cons b bs => cases h
    | cons a as ih =>
      cases bs with
      | nil => cases h
      | cons b bs =>
        rw [List.map_cons, List.map_cons, List.flatten_cons, List.flatten_cons] at h
        obtain ⟨rfl, h'⟩ := fed_prefix (ha a List.mem_cons_self) (hb b List.mem_cons_self) h
        rw [List.map_cons, List.map_cons, ih (fun x hx => ha x (List.mem_cons_of_mem _ hx))
          (fun x hx => hb x (List.mem_cons_of_mem _ hx)) h']
  · intro h
    have : as = bs := by
      clear key
      induction as generalizing bs with
      | nil =>
        cases bs with
        | nil => rfl
        | cons b bs => cases h
      | cons a as ih =>
        cases bs with
        | nil => cases h
        | cons b bs =>
          rw [List.map_cons, List.map_cons, List.cons.injEq] at h
          rw [abs_inj (ha a List.mem_cons_self) (hb b List.mem_cons_self) h.1,
            ih (fun x hx => ha x (List.mem_cons_of_mem _ hx))
              (fun x hx => hb x (List.mem_cons_of_mem _ hx)) h.2]
    rw [this]

example : ∃ x y, feedAll [a7, a65] = .ok x ∧ feedAll [a65, a7] = .ok y ∧ x ≠ y := by
  obtain ⟨x, y, h1, h2, h3⟩ := C85_sequences (as := [a7, a65]) (bs := [a65, a7])
    (by simp [a7_wf, a65_wf]) (by simp [a7_wf, a65_wf])
  exact ⟨x, y, h1, h2, fun h => absurd (h3.1 h) (by decide +kernel)⟩

end

/-! ## Errors -/

/-- Some call of the API on some integers reports the error. -/
def Reported (q : Quoting) (e : Error) : Prop :=
  ∃ (i : Instr) (b d : Bank), (∀ a ∈ b, a.WF) ∧ i.execE q b = .ok (.error e, d)

/-- What an error is about, and its texts. -/
def errorData (e : Error) : AErr × List Char × Option (List Char) :=
  (e.kind.abs, e.message, e.annotation)

theorem reported_wf {q : Quoting} {e : Error} (h : Reported q e) : e.kind.WF := by
  obtain ⟨i, b, d, hb, h⟩ := h
  exact (exec_error hb (execE_ok q hb h).1).2.2

theorem reported_shape {q : Quoting} {e : Error} (h : Reported q e) :
    e.kind.abs.Plain ∨ ∃ r s, e.kind = .invalidStringRepr s r none := by
  obtain ⟨i, b, d, hb, h⟩ := h
  obtain ⟨h1, h2⟩ := execE_ok q hb h
  rcases spec_plain (exec_error hb h1).2.1 with hp | ⟨k, s, rfl, -, -⟩
  · exact .inl hp
  · obtain ⟨E, h3, -, -, -, h5⟩ := errorOf_ok q hb h1
    rw [h2] at h3
    cases h3
    exact .inr ⟨_, _, (parseError_kind (h5 k s rfl)).2.1⟩

theorem kind_inj {k k' : Err} (hw : k.WF) (hw' : k'.WF)
    (hk : k.abs.Plain ∨ ∃ r s, k = .invalidStringRepr s r none)
    (hk' : k'.abs.Plain ∨ ∃ r s, k' = .invalidStringRepr s r none) (h : k.abs = k'.abs) :
    k = k' := by
  rcases hk with hk | ⟨r, s, rfl⟩
  · rcases hk' with hk' | ⟨r', s', rfl⟩
    · cases k <;> cases k' <;> first
        | (exact hk.elim)
        | (exact hk'.elim)
        | (cases h; done)
        | rfl
        | skip
      all_goals simp only [Err.abs, AErr.bit.injEq, AErr.shift.injEq, AErr.unrepresentable.injEq,
        AErr.widths.injEq, AErr.tooWide.injEq, AErr.tooNarrow.injEq, AErr.divZero.injEq] at h
      · rw [h.1, BitWidth.ext h.2]
      · rw [h.1, BitWidth.ext h.2]
      · rw [abs_inj hw hw' h.1, h.2]
      · rw [BitWidth.ext h.1, BitWidth.ext h.2]
      · rw [BitWidth.ext h.1, BitWidth.ext h.2]
      · rw [BitWidth.ext h.1, BitWidth.ext h.2]
      · rw [h.1, abs_inj hw hw' h.2]
    · rw [h] at hk; exact hk.elim
  · rcases hk' with hk' | ⟨r', s', rfl⟩
    · rw [← h] at hk'; exact hk'.elim
    · obtain ⟨n⟩ := r
      obtain ⟨n'⟩ := r'
      cases h
      rfl

theorem data_inj {q q' : Quoting} {e e' : Error} (h : Reported q e) (h' : Reported q' e') :
    e = e' ↔ errorData e = errorData e' := by
  refine ⟨fun k => by rw [k], fun k => ?_⟩
  obtain ⟨kd, m, n⟩ := e
  obtain ⟨kd', m', n'⟩ := e'
  simp only [errorData, Prod.mk.injEq] at k
  obtain ⟨k1, k2, k3⟩ := k
  have := kind_inj (reported_wf h) (reported_wf h') (reported_shape h) (reported_shape h') k1
  dsimp only at this
  rw [this, k2, k3]

/-- C85: two errors that calls report compare equal exactly when they are about the same (with
integers compared by width and value) and have the same texts, and exactly then they feed the same
to every hasher. -/
theorem C85_errors {q q' : Quoting} {e e' : Error} (h : Reported q e) (h' : Reported q' e') :
    ∃ x y, e.feed = .ok x ∧ e'.feed = .ok y ∧ e.eq e' = .ok (decide (errorData e = errorData e')) ∧
      (x = y ↔ errorData e = errorData e') := by
  have hd := data_inj h h'
  refine ⟨_, _, error_feed_ok (reported_wf h), error_feed_ok (reported_wf h'), ?_, ?_⟩
  · rw [error_eq (reported_wf h) (reported_wf h'), decide_eq_decide.2 hd]
  · rw [← hd]
    exact ⟨error_fed_inj (reported_wf h) (reported_wf h'), fun k => by rw [k]⟩

/-- Dividing `a7` by zero. -/
theorem reported_div : ∃ e, Reported quote e ∧ e.kind = .divisionByZero .unsignedDiv a7 := by
  obtain ⟨E, h, hk⟩ := failed_texts (q := quote) four_wf four_divides
  exact ⟨E, ⟨_, _, _, four_wf, h⟩, hk⟩

example : ∃ (e : Error) (x : List Feed), Reported quote e ∧ e.feed = .ok x ∧ e.eq e = .ok true := by
  obtain ⟨e, h, -⟩ := reported_div
  obtain ⟨x, y, h1, -, h3, -⟩ := C85_errors h h
  exact ⟨e, x, h, h1, by simpa using h3⟩

/-! ## Hash tables -/

/-- Lawful key types. -/
theorem lawful_uint : KeyType.uint.Lawful (fun a => a.value.WF) (fun a => (WInt.u a).num) where
  eq_yes {a b} ha hb h := by
    obtain ⟨⟨x, y, -, -, e, -⟩, -⟩ := C85_typed ha hb
    exact e.trans (by simpa using h)
  eq_no {a b} ha hb h := by
    obtain ⟨⟨x, y, -, -, e, -⟩, -⟩ := C85_typed ha hb
    exact e.trans (by simpa using h)
  feeds ha := ⟨_, feed_ok ha⟩
  same {a b} ha hb h := by
    obtain ⟨⟨x, y, e1, e2, -, e3⟩, -⟩ := C85_typed ha hb
    exact e1.trans ((congrArg Except.ok (e3.2 h)).trans e2.symm)

theorem lawful_sint : KeyType.sint.Lawful (fun a => a.value.WF) (fun a => (WInt.s a).num) where
  eq_yes {a b} ha hb h := by
    obtain ⟨-, x, y, -, -, e, -⟩ := C85_typed ha hb
    exact e.trans (by simpa using h)
  eq_no {a b} ha hb h := by
    obtain ⟨-, x, y, -, -, e, -⟩ := C85_typed ha hb
    exact e.trans (by simpa using h)
  feeds ha := ⟨_, feed_ok ha⟩
  same {a b} ha hb h := by
    obtain ⟨-, x, y, e1, e2, -, e3⟩ := C85_typed ha hb
    exact e1.trans ((congrArg Except.ok (e3.2 h)).trans e2.symm)

theorem lawful_error (q : Quoting) : KeyType.error.Lawful (Reported q) errorData where
  eq_yes ha hb h := by
    obtain ⟨x, y, -, -, e, -⟩ := C85_errors ha hb
    exact e.trans (by simpa using h)
  eq_no ha hb h := by
    obtain ⟨x, y, -, -, e, -⟩ := C85_errors ha hb
    exact e.trans (by simpa using h)
  feeds ha := ⟨_, error_feed_ok (reported_wf ha)⟩
  same ha hb h := by
    obtain ⟨x, y, e1, e2, -, e3⟩ := C85_errors ha hb
    exact e1.trans ((congrArg Except.ok (e3.2 h)).trans e2.symm)

variable {V : Type}

/-- C85: whatever the hash function and the number of rows, a hash table with integers as keys
answers like a map from (width, value); no operation panics. -/
theorem C85_table (h : List Feed → Nat) (n : Nat) (os : List (MapOp ApInt V))
    (hk : ∀ o ∈ os, ∀ k ∈ o.keys, k.WF) :
    Table.run .apint h os (List.replicate (n + 1) []) =
      .ok (mapSpecRun (os.map (MapOp.map ApInt.abs)) []) :=
  Table.run_ok lawful_apint os (Table.holds_empty n) hk

/-- C85: with `UInt`s as keys it answers like a map from (width, natural number). -/
theorem C85_table_uint (h : List Feed → Nat) (n : Nat) (os : List (MapOp UInt V))
    (hk : ∀ o ∈ os, ∀ k ∈ o.keys, k.value.WF) :
    Table.run .uint h os (List.replicate (n + 1) []) =
      .ok (mapSpecRun (os.map (MapOp.map fun a => (WInt.u a).num)) []) :=
  Table.run_ok lawful_uint os (Table.holds_empty n) hk

/-- C85: with `Int`s as keys it answers like a map from (width, integer). -/
theorem C85_table_int (h : List Feed → Nat) (n : Nat) (os : List (MapOp SInt V))
    (hk : ∀ o ∈ os, ∀ k ∈ o.keys, k.value.WF) :
    Table.run .sint h os (List.replicate (n + 1) []) =
      .ok (mapSpecRun (os.map (MapOp.map fun a => (WInt.s a).num)) []) :=
  Table.run_ok lawful_sint os (Table.holds_empty n) hk

/-- C85: with errors as keys it answers like a map from what the errors are about and their
texts. -/
theorem C85_table_error (q : Quoting) (h : List Feed → Nat) (n : Nat) (os : List (MapOp Error V))
    (hk : ∀ o ∈ os, ∀ k ∈ o.keys, Reported q k) :
    Table.run .error h os (List.replicate (n + 1) []) =
      .ok (mapSpecRun (os.map (MapOp.map errorData)) []) :=
  Table.run_ok (lawful_error q) os (Table.holds_empty n) hk

/-- Three keys of two widths; a key inserted again replaces its value. -/
def tableDemo : List (MapOp ApInt Nat) :=
  [.insert a7 1, .insert b65 2, .insert b7 3, .insert a7 4, .count, .resize 6, .get a7, .get a65,
    .remove b65, .remove b65, .count, .get b7]

/-- Whether the hash function always collides or never. -/
example (h : List Feed → Nat) : Table.run .apint h tableDemo (List.replicate 3 []) =
    .ok [.value none, .value none, .value none, .value (some 1), .number 3, .unit, .value (some 4),
      .value none, .value (some 2), .value none, .number 2, .value (some 3)] := by
  rw [C85_table h 2 tableDemo (by
    simp [tableDemo, MapOp.keys, a7_wf, b65_wf, b7_wf, a65_wf])]
  congr 1

example : ∃ e : Error, ∀ h, Table.run (V := Nat) .error h [.insert e 1, .get e]
    (List.replicate 3 []) = .ok [.value none, .value (some 1)] := by
  obtain ⟨e, he, -⟩ := reported_div
  refine ⟨e, fun h => ?_⟩
  rw [C85_table_error quote h 2 _ (by simp [MapOp.keys, he])]
  simp [mapSpecRun, MapOp.spec, MapOp.map, found]

end Verif.Props
