import Verif.Proof.Serde
import Verif.Props.Witness

/-! # Serialization (C47) -/

namespace Verif.Props

open ApInt Ex Serde

variable {a c : ApInt}

/-- The elements of a sequence-like value. -/
inductive SeqOf : SVal → List SVal → Prop
  | seq (xs : List SVal) : SeqOf (.seq xs) xs
  | tuple (xs : List SVal) : SeqOf (.tuple xs) xs
  | tupleStruct (n : String) (xs : List SVal) : SeqOf (.tupleStruct n xs) xs

theorem seqOf_iff {v : SVal} {xs : List SVal} : SeqOf v xs ↔ deSeq v = .ok xs := by
  constructor
  · rintro ⟨⟩ <;> rfl
  · intro h
    cases v <;> simp [deSeq] at h <;> subst h <;> constructor

/-- The value `x` states the width `n` in the readable (`true`) or compact (`false`) form. -/
def StatesWidth (human : Bool) (x : SVal) (n : Nat) : Prop :=
  if human then ∃ k rest, SeqOf x (.u64 k :: rest) ∧ k.toNat = n
  else ∃ k, x = .u64 k ∧ k.toNat = n

/-- C47: what is written: the width and the digits of the integer, least significant first. -/
theorem C47_serialized (ha : a.WF) :
    ∃ ds : List (BitVec 64), val ds = a.uval ∧ ds.length = (a.w + 63) / 64 ∧
      serialize true a = .ok (.struct "ApInt"
        [("width", .tupleStruct "BitWidth" [.u64 (BitVec.ofNat 64 a.w)]),
         ("digits", .seq (ds.map .u64))]) ∧
      serialize false a = .ok (.tuple [.u64 (BitVec.ofNat 64 a.w), .seq (ds.map .u64)]) := by
  refine ⟨a.digits, rfl, ha.1.length_digits, ?_, ?_⟩ <;>
  · simp only [serialize, asDigitSlice_ok ha.1, run_bind_ok, serBitWidth]
    rfl

/-- C47: deserializing the serialized form of an integer gives the integer back, in both forms
(for every width that a machine word can hold). -/
theorem C47_round_trip (human : Bool) (ha : a.WF) (hw : a.w < 2 ^ 64) :
    ∃ v, serialize human a = .ok v ∧ deserialize human v = .ok (.ok a) := by
  obtain ⟨ds, h1, h2, e1, e2⟩ := C47_serialized ha
  have hne : (BitVec.ofNat 64 a.w).toNat = a.w := by
    rw [BitVec.toNat_ofNat, Nat.mod_eq_of_lt hw]
  have hp := a.pos_w
  have hnew : tryNewBitwidth (BitVec.ofNat 64 a.w) = .ok a.len := by
    rw [tryNew_ok (by omega)]
    congr 1
    exact BitWidth.ext hne
  have hfin : deFinish a.len ds = .ok (.ok a) := by
    obtain ⟨c, e, g1, g2, g3⟩ := deFinish_ok (t := a.len) h2
    have : (.ok c : Run ApInt) = .ok a := by
      refine Returns.eq ⟨c, rfl, g1, g2, g3⟩ ?_
      rw [h1, Nat.mod_eq_of_lt ha.2]
      exact ha.self
    injection this with this
    rw [e, this]
  have hds : deDigits (.seq (ds.map .u64)) = .ok ds := by
    simp only [deDigits, deSeq, deDigitList_map]
  cases human with
  | true =>
    refine ⟨_, e1, ?_⟩
    unfold deserialize
    rw [if_pos rfl]
    dsimp only
    rw [(visitMap_two (t := a.len) (ds := ds) (by simp [deBitWidth, deSeq, deU64, hnew]) hds).1,
      hfin]
  | false =>
    refine ⟨_, e2, ?_⟩
    simp [deserialize, deSeq, visitSeq, deBitWidth, deU64, hnew, hds, hfin]

example : ∃ v, serialize true a150 = .ok v ∧ deserialize true v = .ok (.ok a150) :=
  C47_round_trip true a150_wf (by decide)
example : ∃ v, serialize false a7 = .ok v ∧ deserialize false v = .ok (.ok a7) :=
  C47_round_trip false a7_wf (by decide)

/-- C47: everything accepted is well-formed.  In the readable form the input has exactly the two
fields, each once and in either order; in both forms the number of digits is what the width
requires, and the value is that of the digits modulo `2 ^ width`. -/
theorem C47_accepted (human : Bool) {v : SVal} (h : deserialize human v = .ok (.ok c)) :
    ∃ (x y : SVal) (ds : List (BitVec 64)),
      (if human then ∃ n, v = .struct n [("width", x), ("digits", y)] ∨
          v = .struct n [("digits", y), ("width", x)]
        else ∃ rest, SeqOf v (x :: y :: rest)) ∧
      StatesWidth human x c.w ∧ SeqOf y (ds.map .u64) ∧
      ds.length = (c.w + 63) / 64 ∧ c.WF ∧ c.uval = val ds % 2 ^ c.w := by
  unfold deserialize at h
  cases human with
  | true =>
    rw [if_pos rfl] at h
    cases v <;> simp only [Except.ok.injEq, reduceCtorEq] at h
    rename_i n fs
    obtain ⟨x, y, t, ds, h1, h2, h3, h4⟩ := visitMap_sound h
    obtain ⟨g1, g2, g3, g4⟩ := deFinish_sound h4
    obtain ⟨k, xs, k1, k2⟩ := deBitWidth_human h2
    subst g3
    refine ⟨x, y, ds, ?_, ?_, seqOf_iff.2 (deDigits_ok h3), g1, g2, g4⟩
    · rw [if_pos rfl]
      rcases h1 with rfl | rfl
      · exact ⟨n, Or.inl rfl⟩
      · exact ⟨n, Or.inr rfl⟩
    · unfold StatesWidth
      rw [if_pos rfl]
      exact ⟨k, xs, seqOf_iff.2 k1, k2⟩
  | false =>
    rw [if_neg (by decide)] at h
    split at h
    · cases h
    · rename_i xs e
      obtain ⟨x, y, rest, t, ds, h1, h2, h3, h4⟩ := visitSeq_sound h
      obtain ⟨g1, g2, g3, g4⟩ := deFinish_sound h4
      obtain ⟨k, k1, k2⟩ := deBitWidth_compact h2
      subst g3
      refine ⟨x, y, ds, ?_, ?_, seqOf_iff.2 (deDigits_ok h3), g1, g2, g4⟩
      · rw [if_neg (by decide)]
        exact ⟨rest, seqOf_iff.2 (by rw [e, h1])⟩
      · unfold StatesWidth
        rw [if_neg (by decide)]
        exact ⟨k, k1, k2⟩

/-- C47: a width and digits are accepted exactly when the width is not zero and requires that many
digits.  The value is that of the digits modulo `2 ^ width`: bits above the width are cleared. -/
theorem C47_accepts_iff (n : BitVec 64) (ds : List (BitVec 64)) :
    let compact := SVal.tuple [.u64 n, .seq (ds.map .u64)]
    let readable := SVal.struct "ApInt"
      [("width", .tupleStruct "BitWidth" [.u64 n]), ("digits", .seq (ds.map .u64))]
    (n.toNat ≠ 0 ∧ ds.length = (n.toNat + 63) / 64 →
      ∃ c : ApInt, c.WF ∧ c.w = n.toNat ∧ c.uval = val ds % 2 ^ n.toNat ∧
        deserialize false compact = .ok (.ok c) ∧ deserialize true readable = .ok (.ok c)) ∧
    (¬ (n.toNat ≠ 0 ∧ ds.length = (n.toNat + 63) / 64) →
      deserialize false compact = .ok (.error .invalidValue) ∧
      deserialize true readable = .ok (.error .invalidValue)) := by
  have hds : deDigits (.seq (ds.map .u64)) = .ok ds := by
    simp only [deDigits, deSeq, deDigitList_map]
  intro compact readable
  by_cases hn : n.toNat = 0
  · refine ⟨fun h => absurd hn h.1, fun _ => ⟨?_, ?_⟩⟩
    · simp [compact, deserialize, deSeq, visitSeq, deBitWidth, deU64, tryNew_err hn]
    · simp [readable, deserialize, visitMap, deFields, deSeq, deBitWidth, deU64, tryNew_err hn]
  · have e1 : deserialize false compact = deFinish ⟨n.toNat, Nat.pos_of_ne_zero hn⟩ ds := by
      simp [compact, deserialize, deSeq, visitSeq, deBitWidth, deU64, tryNew_ok hn, hds]
    have e2 : deserialize true readable = deFinish ⟨n.toNat, Nat.pos_of_ne_zero hn⟩ ds := by
      unfold deserialize
      rw [if_pos rfl]
      dsimp only [readable]
      exact (visitMap_two (by simp [deBitWidth, deSeq, deU64, tryNew_ok hn]) hds).1
    constructor
    · rintro ⟨-, hl⟩
      obtain ⟨c, e, g1, g2, g3⟩ := deFinish_ok (t := ⟨n.toNat, Nat.pos_of_ne_zero hn⟩) hl
      exact ⟨c, g1, by unfold ApInt.w; rw [g2], g3, by rw [e1, e], by rw [e2, e]⟩
    · intro h
      rw [e1, e2, deFinish_err (fun hl => h ⟨hn, hl⟩)]
      exact ⟨rfl, rfl⟩

/-- Width 65, two digits, of which the second has bits above the width. -/
example : ∃ c : ApInt, c.WF ∧ c.w = 65 ∧ c.uval = 2 ^ 64 + 5 ∧
    deserialize false (.tuple [.u64 65#64, .seq [.u64 5#64, .u64 7#64]]) = .ok (.ok c) := by
  obtain ⟨c, h1, h2, h3, h4, -⟩ := (C47_accepts_iff 65#64 [5#64, 7#64]).1 (by decide)
  exact ⟨c, h1, h2, by rw [h3]; decide, h4⟩

/-- C47: the order of the fields of the readable form does not matter. -/
theorem C47_field_order (n : String) (x y : SVal) :
    deserialize true (.struct n [("width", x), ("digits", y)]) = .ok (.ok c) ↔
    deserialize true (.struct n [("digits", y), ("width", x)]) = .ok (.ok c) := by
  simp only [deserialize, if_true]
  constructor
  · intro h
    obtain ⟨x', y', t, ds, h1, h2, h3, h4⟩ := visitMap_sound h
    have : x = x' ∧ y = y' := by simpa using h1
    obtain ⟨rfl, rfl⟩ := this
    rw [(visitMap_two h2 h3).2, h4]
  · intro h
    obtain ⟨x', y', t, ds, h1, h2, h3, h4⟩ := visitMap_sound h
    have : y = y' ∧ x = x' := by simpa using h1
    obtain ⟨rfl, rfl⟩ := this
    rw [(visitMap_two h2 h3).1, h4]

/-- C47: repeated, missing and unknown fields are rejected: whatever is accepted has the fields
`width` and `digits` once each and nothing else. -/
theorem C47_fields (n : String) (fs : List (String × SVal)) :
    (¬ (fs.map Prod.fst = ["width", "digits"] ∨ fs.map Prod.fst = ["digits", "width"])) →
    ∃ e, deserialize true (.struct n fs) = .ok (.error e) := by
  intro h
  obtain ⟨r, hr⟩ := visitMap_total fs
  cases r with
  | error e => exact ⟨e, by simp [deserialize, hr]⟩
  | ok c =>
    obtain ⟨x, y, t, ds, h1, -⟩ := visitMap_sound hr
    exfalso
    apply h
    rcases h1 with rfl | rfl
    · exact Or.inl rfl
    · exact Or.inr rfl

example : ∃ e, deserialize true (.struct "ApInt" [("width", .tupleStruct "BitWidth" [.u64 8#64]),
    ("width", .tupleStruct "BitWidth" [.u64 8#64]), ("digits", .seq [.u64 1#64])]) =
      .ok (.error e) := C47_fields _ _ (by decide)

/-- C47: the errors for the plain cases, for every width `k` and all digits. -/
theorem C47_field_errors (n : String) (k : BitVec 64) (hk : k ≠ 0) (ds : List (BitVec 64))
    (other : SVal) :
    let x := SVal.tupleStruct "BitWidth" [.u64 k]
    let y := SVal.seq (ds.map .u64)
    deserialize true (.struct n []) = .ok (.error (.missingField "width")) ∧
    deserialize true (.struct n [("digits", y)]) = .ok (.error (.missingField "width")) ∧
    deserialize true (.struct n [("width", x)]) = .ok (.error (.missingField "digits")) ∧
    deserialize true (.struct n [("width", x), ("width", other), ("digits", y)]) =
      .ok (.error (.duplicateField "width")) ∧
    deserialize true (.struct n [("digits", y), ("digits", other), ("width", x)]) =
      .ok (.error (.duplicateField "digits")) ∧
    deserialize true (.struct n [("width", x), ("len", other), ("digits", y)]) =
      .ok (.error (.unknownField "len")) := by
  intro x y
  have hk' : k.toNat ≠ 0 := fun h => hk (BitVec.eq_of_toNat_eq h)
  have hx : deBitWidth true x = .ok ⟨k.toNat, Nat.pos_of_ne_zero hk'⟩ := by
    simp [x, deBitWidth, deSeq, deU64, tryNew_ok hk']
  have hy : deDigits y = .ok ds := by
    simp only [y, deDigits, deSeq, deDigitList_map]
  simp [deserialize, visitMap, deFields, hx, hy]

example : deserialize true (.struct "ApInt" [("width", .tupleStruct "BitWidth" [.u64 9#64])]) =
    .ok (.error (.missingField "digits")) :=
  (C47_field_errors "ApInt" 9#64 (by decide) [] (.seq [])).2.2.1

/-- C47: deserialization returns for every input, with one exception: the compact form panics on
an empty sequence. -/
theorem C47_panics_iff (human : Bool) (v : SVal) :
    (deserialize human v = .error .panic ↔ human = false ∧ SeqOf v []) ∧
    (¬ (human = false ∧ SeqOf v []) → ∃ x, deserialize human v = .ok x) := by
  have hyes : human = false ∧ SeqOf v [] → deserialize human v = .error .panic := by
    rintro ⟨rfl, h⟩
    rw [seqOf_iff] at h
    simp [deserialize, h, visitSeq]
  have hno : ¬ (human = false ∧ SeqOf v []) → ∃ x, deserialize human v = .ok x := by
    intro h
    cases human with
    | true =>
      unfold deserialize
      rw [if_pos rfl]
      cases v
      case struct n fs => exact visitMap_total fs
      all_goals exact ⟨_, rfl⟩
    | false =>
      unfold deserialize
      rw [if_neg (by decide)]
      split
      · exact ⟨_, rfl⟩
      · rename_i xs e
        apply visitSeq_total
        rintro rfl
        exact h ⟨rfl, seqOf_iff.2 e⟩
  refine ⟨⟨?_, hyes⟩, hno⟩
  intro e
  by_contra h
  obtain ⟨x, hx⟩ := hno h
  rw [hx] at e
  cases e

example : deserialize false (.tuple []) = .error .panic :=
  (C47_panics_iff false _).1.2 ⟨rfl, .tuple []⟩

end Verif.Props
