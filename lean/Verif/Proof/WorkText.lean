import Verif.Model.WorkText
import Verif.Proof.Work
import Verif.Proof.Parse
import Verif.Proof.Format

/-!
# Counting bytes and digits of texts
-/

namespace Verif

open ApInt Counted

namespace Costs

theorem pushIn {α : Type} {room : Nat} {l : List α} {x : α} :
    Costs (Count.pushIn room l x) (.ok (l ++ [x]))
      fun l' n => l' = l ++ [x] ∧ (l.length < room → n = 1) := by
  refine charge_ok ⟨rfl, fun h => ?_⟩
  rw [if_pos h]

/-- A counted call that only pushes in place of an append. -/
theorem pushIn_bind {α β : Type} {room : Nat} {l : List α} {x : α} {f : List α → Counted β}
    {r : Run β} {Q : β → Nat → Prop} (hl : l.length < room)
    (h : Costs (f (l ++ [x])) r fun b m => Q b (1 + m)) :
    Costs (Count.pushIn room l x >>= f) r Q := by
  refine charge_ok_bind ?_
  rwa [if_pos hl]

/-- A counted call of something that is not a fault. -/
theorem bind_ok {α β : Type} {c : Counted α} {a : α} {P : α → Nat → Prop} {f : α → Counted β}
    {r : Run β} {Q : β → Nat → Prop} (h : Costs c (.ok a) P)
    (k : ∀ n, P a n → Costs (f a) r fun b m => Q b (n + m)) : Costs (c >>= f) r Q := by
  obtain ⟨n, e, hp⟩ := h.2 a rfl
  refine bind (r := .ok a) (g := fun _ => r) (P := fun b m => b = a ∧ m = n) ⟨?_, ?_⟩ ?_
  · intro _ h
    cases h
  · intro b h
    cases h
    exact ⟨n, e, rfl, rfl⟩
  · rintro b m ⟨rfl, rfl⟩
    exact k _ hp

end Costs

theorem reject_costs {α : Type} {s : List Char} {r : Radix} :
    Costs (Count.reject s r : Counted (Res α)) (.ok (.error (.invalidStringRepr s r none)))
      fun x n => x = .error (.invalidStringRepr s r none) ∧ n = 2 * (utf8Bytes s).length :=
  Costs.charge_ok ⟨rfl, rfl⟩

theorem collectDigits_costs {s : List Char} {r : Radix} : ∀ (bs v : List Nat),
    v.length + bs.length ≤ (utf8Bytes s).length →
    Costs (Count.collectDigits s r bs v) (.ok (ApInt.collectDigits s r bs v)) fun x n =>
      match x with
      | .ok l => l.length ≤ v.length + bs.length ∧ n ≤ 2 * bs.length
      | .error _ => n ≤ 2 * bs.length + 2 * (utf8Bytes s).length := by
  intro bs
  induction bs with
  | nil =>
    intro v _
    exact Costs.ok ⟨Nat.le_refl _, Nat.zero_le _⟩
  | cons b bs ih =>
    intro v hv
    rw [List.length_cons] at hv
    unfold Count.collectDigits ApInt.collectDigits
    refine Costs.charge_ok_bind ?_
    cases byteToDigit b with
    | none =>
      refine (ih v (by omega)).mono fun x n h => ?_
      rw [List.length_cons]
      cases x with
      | ok l => exact ⟨by have := h.1; omega, by have := h.2; omega⟩
      | error e => dsimp only at h ⊢; omega
    | some d =>
      dsimp only
      by_cases hd : (!r.isValidByte d) = true
      · rw [if_pos hd, if_pos hd]
        refine reject_costs.mono ?_
        rintro _ _ ⟨rfl, rfl⟩
        rw [List.length_cons]
        dsimp only
        omega
      · rw [if_neg hd, if_neg hd]
        refine Costs.pushIn_bind (by omega) ?_
        refine (ih (v ++ [d]) (by simp; omega)).mono fun x n h => ?_
        rw [List.length_append, List.length_singleton] at h
        rw [List.length_cons]
        cases x with
        | ok l => exact ⟨by have := h.1; omega, by have := h.2; omega⟩
        | error e => dsimp only at h ⊢; omega

theorem chunksAux_nil {α : Type} {n : Nat} (k : Nat) : chunksAux n k ([] : List α) = [] := by
  cases k <;> rfl

theorem chunksAux_size {α : Type} {n : Nat} (hn : 0 < n) : ∀ (k : Nat) (l : List α),
    n * (chunksAux n k l).length < l.length + n ∧
    ((chunksAux n k l).map List.length).sum ≤ l.length := by
  intro k
  induction k with
  | zero => intro l; exact ⟨by simp [chunksAux]; omega, by simp [chunksAux]⟩
  | succ k ih =>
    intro l
    rw [chunksAux]
    split
    · exact ⟨by simp; omega, by simp⟩
    · rename_i h
      have hl : l ≠ [] := by simpa using h
      have hl : 0 < l.length := List.length_pos_iff.2 hl
      by_cases hn' : l.length ≤ n
      · rw [List.drop_eq_nil_of_le hn', chunksAux_nil]
        simp
        omega
      obtain ⟨h1, h2⟩ := ih (l.drop n)
      simp only [List.length_cons, List.map_cons, List.sum_cons, List.length_drop,
        List.length_take, Nat.mul_add, Nat.mul_one] at *
      omega

theorem foldChunks_costs {bits : Nat} : ∀ cs : List (List Nat),
    Costs (Count.foldChunks bits cs) (.ok (cs.map (foldChunk bits)))
      fun ds n => ds.length = cs.length ∧ n = (cs.map List.length).sum := by
  intro cs
  induction cs with
  | nil => exact Costs.ok ⟨rfl, rfl⟩
  | cons c cs ih =>
    unfold Count.foldChunks
    refine Costs.charge_ok_bind ?_
    refine Costs.bind (g := fun ds => (.ok (foldChunk bits c :: ds) : Run _)) ih fun ds n h => ?_
    refine Costs.ok ⟨?_, ?_⟩
    · rw [List.length_cons, h.1, List.length_cons]
    · rw [h.2, List.map_cons, List.sum_cons]
      omega

theorem fromBitwiseDigits_costs {v : List Nat} {bits : Nat} :
    Costs (Count.fromBitwiseDigits v bits) (ApInt.fromBitwiseDigits v bits)
      fun _ n => n ≤ 2 * v.length + 3 * (v.length / 8) + 3 := by
  unfold Count.fromBitwiseDigits ApInt.fromBitwiseDigits
  refine Costs.ite (fun _ => Costs.error) fun hg => ?_
  refine Costs.ite (fun _ => Costs.error) fun _ => ?_
  rw [not_not] at hg
  refine Costs.charge_ok_bind ?_
  have h8 : 8 ≤ 64 / bits := (Nat.le_div_iff_mul_le (by omega)).2 (by omega)
  refine Costs.bind Costs.lift ?_
  rintro cs _ ⟨hcs, rfl⟩
  rw [chunks, if_neg (by omega)] at hcs
  cases hcs
  obtain ⟨h1, h2⟩ := chunksAux_size (n := 64 / bits) (by omega) v.length v
  refine Costs.bind (g := fun ds => ApInt.fromIter ds >>= fun r => expect r)
    (foldChunks_costs _) ?_
  rintro ds n ⟨hl, rfl⟩
  refine Costs.bind Costs.charge ?_
  rintro r n ⟨_, rfl⟩
  refine Costs.lift.mono ?_
  rintro _ _ ⟨_, rfl⟩
  rw [hl]
  have h3 : 8 * (chunksAux (64 / bits) v.length v).length ≤ v.length + 7 := by
    generalize (chunksAux (64 / bits) v.length v).length = k at *
    rcases Nat.eq_zero_or_pos k with rfl | hk
    · omega
    · obtain ⟨k, rfl⟩ : ∃ j, k = j + 1 := ⟨k - 1, by omega⟩
      rw [Nat.mul_add] at h1
      have := Nat.mul_le_mul_right k h8
      omega
  omega

theorem inexactStep_costs {room bits c : Nat} {s : InexactState} :
    Costs (Count.inexactStep room bits s c) (ApInt.inexactStep bits s c) fun s' n =>
      64 * s'.data.length + s'.dbits = 64 * s.data.length + s.dbits + bits ∧
      (64 * s.data.length + s.dbits + bits ≤ 64 * room →
        n + s.data.length = 1 + s'.data.length) := by
  unfold Count.inexactStep ApInt.inexactStep
  refine Costs.charge_ok_bind ?_
  refine Costs.bind Costs.lift ?_
  rintro sh _ ⟨_, rfl⟩
  refine Costs.ite (fun hge => ?_) fun hge => Costs.ok ⟨by dsimp only; omega, fun _ => by dsimp only⟩
  · refine Costs.charge_ok_bind ?_
    refine Costs.bind Costs.csub ?_
    rintro _ _ ⟨⟨_, rfl⟩, rfl⟩
    refine Costs.bind Costs.csub ?_
    rintro _ _ ⟨⟨_, rfl⟩, rfl⟩
    refine Costs.bind Costs.lift ?_
    rintro _ _ ⟨_, rfl⟩
    refine Costs.ok ⟨?_, fun hr => ?_⟩
    · simp only [List.length_append, List.length_singleton]
      omega
    · simp only [List.length_append, List.length_singleton]
      rw [if_pos (by omega)]
      omega

theorem inexactLoop_costs {room bits : Nat} : ∀ (v : List Nat) (s : InexactState),
    Costs (Count.inexactLoop room bits v s) (ApInt.inexactLoop bits v s) fun s' n =>
      64 * s'.data.length + s'.dbits = 64 * s.data.length + s.dbits + v.length * bits ∧
      (64 * s.data.length + s.dbits + v.length * bits ≤ 64 * room →
        n + s.data.length = v.length + s'.data.length) := by
  intro v
  induction v with
  | nil =>
    intro s
    exact Costs.ok ⟨by simp, fun _ => by simp⟩
  | cons c v ih =>
    intro s
    unfold Count.inexactLoop ApInt.inexactLoop
    refine Costs.bind inexactStep_costs fun s1 n h1 => ?_
    refine (ih s1).mono fun s2 m h2 => ?_
    rw [List.length_cons, Nat.add_mul, Nat.one_mul]
    refine ⟨by have := h1.1; have := h2.1; omega, fun hr => ?_⟩
    have a1 := h1.2 (by omega)
    have a2 := h2.2 (by have := h1.1; omega)
    omega

theorem fromInexactBitwiseDigits_costs {v : List Nat} {bits : Nat} :
    Costs (Count.fromInexactBitwiseDigits v bits) (ApInt.fromInexactBitwiseDigits v bits)
      fun _ n => n ≤ 2 * v.length + 4 * ((v.length + 7) / 8) := by
  unfold Count.fromInexactBitwiseDigits ApInt.fromInexactBitwiseDigits
  refine Costs.ite (fun _ => Costs.error) fun hg => ?_
  refine Costs.ite (fun _ => Costs.error) fun _ => ?_
  rw [not_not] at hg
  refine Costs.charge_ok_bind ?_
  dsimp only
  refine Costs.bind (inexactLoop_costs _ _) fun s n hs => ?_
  have hb : v.length * bits ≤ v.length * 8 := Nat.mul_le_mul_left _ hg.2.1
  simp only [List.length_nil, Nat.mul_zero, Nat.zero_add, Nat.add_zero] at hs
  have hn := hs.2 (by omega)
  have hs := hs.1
  have key (d : List Digit) (m : Nat) (h1 : m + s.data.length = d.length)
      (h2 : 64 * d.length < v.length * bits + 64) :
      Costs (Count.fromIter d >>= fun r => (liftM (expect r) : Counted ApInt))
        (ApInt.fromIter d >>= fun r => expect r)
        fun _ k => v.length + (n + (m + k)) ≤ 2 * v.length + 4 * ((v.length + 7) / 8) := by
    refine Costs.bind Costs.charge ?_
    rintro r k ⟨_, rfl⟩
    refine Costs.lift.mono ?_
    rintro _ _ ⟨_, rfl⟩
    omega
  refine Costs.ite (fun h0 => Costs.ite (fun _ => ?_) fun _ => ?_) fun _ => ?_
  · show Costs (Counted.error _) (Except.error _) _
    exact Costs.error
  · refine Costs.pushIn_bind (by omega) (key _ 1 ?_ ?_) <;>
      rw [List.length_append, List.length_singleton] <;> omega
  · refine Costs.ok_bind (g := fun d => ApInt.fromIter d >>= fun r => expect r) ?_
    exact (key _ 0 (by omega) (by omega)).mono fun _ k hk => by rwa [Nat.zero_add] at hk

theorem foldRadix_costs {r : Nat} : ∀ (l : List Nat) (acc : Nat),
    Costs (Count.foldRadix r l acc) (ApInt.foldRadix r l acc) fun _ n => n = l.length := by
  intro l
  induction l with
  | nil => intro acc; exact Costs.ok rfl
  | cons d l ih =>
    intro acc
    unfold Count.foldRadix ApInt.foldRadix
    refine Costs.charge_ok_bind ?_
    refine Costs.bind Costs.lift ?_
    rintro acc' _ ⟨_, rfl⟩
    refine (ih acc').mono fun _ n h => ?_
    rw [h, List.length_cons]
    omega

/-- The vector has one or two elements, and two only if the last one is zero. -/
def OneOrTwo (l : List Nat) : Prop := l.length = 1 ∨ (l.length = 2 ∧ l.getLast? = some 0)

theorem radixTailLoop_costs {room r : Nat} : ∀ (cs : List (List Nat)) (data : List Nat), OneOrTwo data →
    (cs ≠ [] → 2 ≤ room) →
    Costs (Count.radixTailLoop room r cs data) (ApInt.radixTailLoop r cs data) fun d n =>
      OneOrTwo d ∧ n + data.length ≤ d.length + 3 * cs.length + (cs.map List.length).sum ∧
      (cs = [] → d = data) := by
  intro cs
  induction cs with
  | nil => intro data h _; exact Costs.ok ⟨h, by simp, fun _ => rfl⟩
  | cons c cs ih =>
    intro data h hr
    have hr := hr (by simp)
    unfold Count.radixTailLoop ApInt.radixTailLoop
    refine Costs.charge_ok_bind ?_
    dsimp only
    have key (data' : List Nat) (h' : OneOrTwo data') (x : Nat)
        (hx : x + data.length = data'.length) :
        Costs (Counted.charge data'.length (.ok data') >>= fun data => do
            let _n ← Count.foldRadix r c 0
            Count.radixTailLoop room r cs data)
          (ApInt.foldRadix r c 0 >>= fun _ => ApInt.radixTailLoop r cs data') fun d n =>
          OneOrTwo d ∧ (1 + (x + n)) + data.length ≤
            d.length + 3 * (c :: cs).length + ((c :: cs).map List.length).sum ∧
          ((c :: cs) = [] → d = data) := by
      refine Costs.charge_ok_bind ?_
      refine Costs.bind (foldRadix_costs _ _) ?_
      rintro _ _ rfl
      refine (ih data' h' fun _ => hr).mono fun d n hd => ⟨hd.1, ?_, fun h => (by cases h)⟩
      have := hd.2.1
      have h2 : data'.length ≤ 2 := by rcases h' with h | h <;> omega
      simp only [List.length_cons, List.map_cons, List.sum_cons]
      omega
    by_cases hz : data.getLast? ≠ some 0
    · have h1 : data.length = 1 := by
        rcases h with h | h
        · exact h
        · exact absurd h.2 hz
      rw [if_pos hz, if_pos hz]
      refine Costs.pushIn_bind (by omega) ?_
      exact key _ (.inr ⟨by simp [h1], by simp⟩) 1 (by simp; omega)
    · rw [if_neg hz, if_neg hz]
      refine Costs.ok_bind (g := fun data => ApInt.foldRadix r c 0 >>= fun _ =>
        ApInt.radixTailLoop r cs data) ?_
      exact (key _ h 0 (by omega)).mono fun d n hd => by rwa [Nat.zero_add] at hd

/-- The powers of the table, and the room for two digits once there are more characters. -/
def TailOk (r : Nat) : Bool :=
  match Radix.BASES[r]?, LB_2_36_I3F13[r - 2]? with
  | some (_, p), some lb => (12 ≤ p && 2 ^ 19 ≤ lb * (p + 2))
  | _, _ => false

theorem tails_ok : ∀ i < 35, TailOk (i + 2) = true := by decide +kernel

theorem fromRadixDigits_costs {v : List Nat} {r : Radix} (h1 : 2 ≤ r.toU8) (h2 : r.toU8 ≤ 36) :
    Costs (Count.fromRadixDigits v r) (ApInt.fromRadixDigits v r)
      fun _ n => n ≤ 2 * v.length + 3 * ((v.length - 1) / 12) + 8 := by
  unfold Count.fromRadixDigits ApInt.fromRadixDigits
  refine Costs.ite (fun _ => Costs.error) fun hg => ?_
  refine Costs.ite (fun _ => Costs.error) fun _ => ?_
  rw [not_not] at hg
  refine Costs.charge_ok_bind ?_
  refine Costs.bind Costs.csub ?_
  rintro _ _ ⟨⟨_, rfl⟩, rfl⟩
  refine Costs.bind Costs.lift ?_
  rintro lb _ ⟨hlb, rfl⟩
  refine Costs.bind Costs.charge ?_
  rintro ⟨base, power⟩ _ ⟨hp, rfl⟩
  have ht := tails_ok (r.toU8 - 2) (by omega)
  rw [show r.toU8 - 2 + 2 = r.toU8 by omega] at ht
  have hnp : r.isPowerOfTwo = false := by simpa using hg.2
  rw [Radix.getRadixBase, hnp] at hp
  simp only [Bool.false_eq_true, if_false, idx] at hp hlb
  unfold TailOk at ht
  split at hp
  · rename_i hb
    cases hp
    split at hlb
    · rename_i hl
      cases hlb
      rw [hb, hl] at ht
      simp only [Bool.and_eq_true, decide_eq_true_eq] at ht
      dsimp only
      refine Costs.ite (fun _ => Costs.error) fun h0 => ?_
      refine Costs.ite (fun _ => Costs.error) fun hi => ?_
      refine Costs.bind (foldRadix_costs _ _) ?_
      rintro first _ rfl
      refine Costs.pushIn_bind (by simp) ?_
      refine Costs.ite (fun _ => Costs.error) fun hm => ?_
      refine Costs.bind Costs.lift ?_
      rintro cs _ ⟨hcs, rfl⟩
      rw [chunks, if_neg h0] at hcs
      cases hcs
      generalize hieq : (if v.length % power = 0 then power else v.length % power) = i at *
      have hi1 : 1 ≤ i := by rw [← hieq]; split <;> omega
      have hdl : (v.drop i).length = v.length - i := List.length_drop
      obtain ⟨c1, c2⟩ := chunksAux_size (n := power) (by omega) (v.drop i).length (v.drop i)
      have hm' : (v.drop i).length % power = 0 := by simpa using hm
      obtain ⟨t, ht'⟩ := Nat.dvd_of_mod_eq_zero hm'
      have c3 : (chunksAux power (v.drop i).length (v.drop i)).length ≤ t := by
        rw [ht'] at c1
        have : power * (chunksAux power (power * t) (v.drop i)).length < power * (t + 1) := by
          rw [Nat.mul_add]; omega
        have := Nat.lt_of_mul_lt_mul_left this
        rw [ht']
        omega
      have c4 : chunksAux power (v.drop i).length (v.drop i) ≠ [] → 1 ≤ t := by
        intro h
        have := List.length_pos_iff.2 h
        omega
      generalize chunksAux power (v.drop i).length (v.drop i) = cs at *
      have hroom : cs ≠ [] → 2 ≤ lb * (v.length + 1) / 2 ^ 13 / 64 + 1 := by
        intro h
        have ht1 := c4 h
        have : power * 1 ≤ power * t := Nat.mul_le_mul_left _ ht1
        have : lb * (power + 2) ≤ lb * (v.length + 1) := Nat.mul_le_mul_left _ (by omega)
        omega
      have h12 : 12 * t ≤ power * t := Nat.mul_le_mul_right _ ht.1
      refine Costs.bind (radixTailLoop_costs cs _ (.inl rfl) hroom) fun d n hd => ?_
      refine Costs.bind Costs.charge ?_
      rintro _ _ ⟨_, rfl⟩
      refine Costs.lift.mono ?_
      rintro _ _ ⟨_, rfl⟩
      obtain ⟨d1, d2, d3⟩ := hd
      rw [List.length_map, List.length_take]
      have hd2 : d.length ≤ 2 := by rcases d1 with h | h <;> omega
      have hd3 : [first].length = 1 := rfl
      simp only [List.nil_append] at *
      by_cases hcs : cs = []
      · have hd4 := d3 hcs
        subst hd4
        subst hcs
        simp only [List.length_nil, List.map_nil, List.sum_nil] at *
        omega
      · have := c4 hcs
        omega
    · cases hlb
  · cases hp

theorem fromStrRadix'_costs {r : Radix} {s : List Char} (h1 : 2 ≤ r.toU8) (h2 : r.toU8 ≤ 36) :
    Costs (Count.fromStrRadix' r s) (ApInt.fromStrRadix' r s) fun x n =>
      (r.isPowerOfTwo = true → n ≤ 7 * (utf8Bytes s).length + 6) ∧
      (r.isPowerOfTwo = false → n ≤ 4 * (utf8Bytes s).length + (utf8Bytes s).length / 4 + 10) ∧
      ∀ e, x = .error e → n ≤ 4 * (utf8Bytes s).length + 2 := by
  unfold Count.fromStrRadix' ApInt.fromStrRadix'
  have rej {m : Nat} (hm : m ≤ 2) : Costs (Count.reject s r : Counted (Res ApInt))
      (.ok (.error (.invalidStringRepr s r none))) fun x n =>
      (r.isPowerOfTwo = true → m + n ≤ 7 * (utf8Bytes s).length + 6) ∧
      (r.isPowerOfTwo = false →
        m + n ≤ 4 * (utf8Bytes s).length + (utf8Bytes s).length / 4 + 10) ∧
      ∀ e, x = .error e → m + n ≤ 4 * (utf8Bytes s).length + 2 :=
    reject_costs.mono fun _ n h => ⟨fun _ => by omega, fun _ => by omega, fun _ _ => by omega⟩
  refine Costs.ite (fun _ => ?_) fun _ => ?_
  · exact (rej (m := 0) (by omega)).mono fun _ _ h => by simpa only [Nat.zero_add] using h
  refine Costs.charge_ok_bind ?_
  refine Costs.ite (fun _ => rej (by omega)) fun _ => ?_
  refine Costs.ite (fun _ => rej (by omega)) fun _ => ?_
  refine Costs.bind_ok (collectDigits_costs (utf8Bytes s) [] (by simp)) fun n hx => ?_
  generalize ApInt.collectDigits s r (utf8Bytes s) [] = x at hx ⊢
  cases x with
  | error e =>
    dsimp only at hx ⊢
    exact Costs.ok ⟨fun _ => by omega, fun _ => by omega, fun _ _ => by omega⟩
  | ok v =>
    dsimp only at hx ⊢
    obtain ⟨hl, hn⟩ := hx
    rw [List.length_nil, Nat.zero_add] at hl
    refine Costs.bind Costs.lift ?_
    rintro b _ ⟨hb, rfl⟩
    cases b with
    | some bits =>
      have hp : r.isPowerOfTwo ≠ false := by
        intro h
        rw [exactBits_none h] at hb
        cases hb
      refine Costs.charge_ok_bind ?_
      dsimp only
      refine Costs.ite (fun _ => Costs.error) fun _ => ?_
      refine Costs.ite (fun _ => ?_) fun _ => ?_
      · refine Costs.bind fromBitwiseDigits_costs fun a k hk => ?_
        rw [List.length_reverse] at hk
        exact Costs.ok ⟨fun _ => by omega, fun h => absurd h hp, fun _ h => (by cases h)⟩
      · refine Costs.bind fromInexactBitwiseDigits_costs fun a k hk => ?_
        rw [List.length_reverse] at hk
        exact Costs.ok ⟨fun _ => by omega, fun h => absurd h hp, fun _ h => (by cases h)⟩
    | none =>
      have hp : r.isPowerOfTwo = false := by
        by_contra h
        have h : r.isPowerOfTwo = true := by simpa using h
        obtain ⟨t1, -⟩ := bits_table r.toU8 ((pow_two_iff h1 h2).1 h)
        rw [t1] at hb
        cases hb
      refine Costs.bind (fromRadixDigits_costs h1 h2) fun a k hk => ?_
      exact Costs.ok ⟨fun h => absurd (hp.symm.trans h) (by decide), fun _ => by omega,
        fun _ h => (by cases h)⟩

theorem fromStrRadix_costs {r : Nat} {s : List Char} :
    Costs (Count.fromStrRadix r s) (ApInt.fromStrRadix r s) fun x n =>
      (r ∈ [2, 4, 8, 16, 32] → n ≤ 7 * (utf8Bytes s).length + 6) ∧
      (r ∉ [2, 4, 8, 16, 32] →
        n ≤ 4 * (utf8Bytes s).length + (utf8Bytes s).length / 4 + 10) ∧
      ∀ e, x = .error e → n ≤ 4 * (utf8Bytes s).length + 2 := by
  unfold Count.fromStrRadix ApInt.fromStrRadix
  refine Costs.bind Costs.lift ?_
  rintro r' _ ⟨hr, rfl⟩
  by_cases h : 2 ≤ r ∧ r ≤ 36
  · rw [radix_from_ok h] at hr
    cases hr
    refine (fromStrRadix'_costs (r := ⟨r⟩) h.1 h.2).mono fun x n hx => ?_
    rw [Nat.zero_add]
    have hp := pow_two_iff (r := ⟨r⟩) h.1 h.2
    refine ⟨fun hr => hx.1 (hp.2 hr), fun hr => hx.2.1 ?_, hx.2.2⟩
    by_contra hc
    exact hr (hp.1 (by simpa using hc))
  · rw [radix_from_panic h] at hr
    cases hr

/-! ## Formatting -/

theorem fmtRest_costs {b w : Nat} {ch : Nat → Char} {L : Nat}
    (hL : ∀ d : Digit, (stdFmtPad b ch w d.toNat).length ≤ L) : ∀ l : List Digit,
    Costs (Count.fmtRest b ch w l) (.ok (l.flatMap fun d => stdFmtPad b ch w d.toNat))
      fun _ n => n ≤ l.length * (L + 1) := by
  intro l
  induction l with
  | nil => exact Costs.ok (Nat.zero_le _)
  | cons d l ih =>
    unfold Count.fmtRest
    refine Costs.charge_ok_bind ?_
    refine Costs.charge_ok_bind ?_
    refine Costs.bind (g := fun t => (.ok (stdFmtPad b ch w d.toNat ++ t) : Run _)) ih
      fun t n h => ?_
    refine Costs.ok ?_
    have := hL d
    rw [List.length_cons, Nat.add_mul]
    omega

theorem fmtDigits_costs {b w : Nat} {ch : Nat → Char} {L : Nat}
    (hL : ∀ d : Digit, (stdFmtPad b ch w d.toNat).length ≤ L) : ∀ l : List Digit,
    Costs (Count.fmtDigits b ch w l) (.ok (ApInt.fmtDigits b ch w l))
      fun _ n => n ≤ l.length * (L + 1) := by
  intro l
  induction l with
  | nil => exact Costs.ok (Nat.zero_le _)
  | cons d l ih =>
    unfold Count.fmtDigits ApInt.fmtDigits
    refine Costs.charge_ok_bind ?_
    rw [List.length_cons, Nat.add_mul]
    by_cases hz : Digit.isZero d = true
    · rw [if_pos hz, if_pos hz]
      exact ih.mono fun _ n h => by omega
    · rw [if_neg hz, if_neg hz]
      refine Costs.charge_ok_bind ?_
      refine Costs.bind (g := fun t => (.ok (stdFmt b ch d.toNat ++ t) : Run _))
        (fmtRest_costs hL l) fun t n h => ?_
      refine Costs.ok ?_
      have := hL d
      have h2 : (stdFmt b ch d.toNat).length ≤ (stdFmtPad b ch w d.toNat).length := by
        unfold stdFmtPad
        rw [List.length_append]
        omega
      omega

theorem pad_length {b w : Nat} {ch : Nat → Char} (hb : 2 ≤ b) (hw : 1 ≤ w) (hch : ch 0 = '0')
    (hbw : b ^ w = 2 ^ 64) (d : Digit) : (stdFmtPad b ch w d.toNat).length ≤ w := by
  have hd : d.toNat < b ^ w := by rw [hbw]; exact d.isLt
  have hlen : (Nat.digits b d.toNat).length ≤ w :=
    (Nat.digits_length_le_iff (by omega) _).2 hd
  rw [stdFmtPad_ok hb hw hch d.isLt]
  simp only [List.length_map, List.length_append, List.length_replicate, List.length_reverse]
  omega

theorem fmt_costs {b w : Nat} {ch : Nat → Char} {a : ApInt} (ha : a.Shape) (hb : 2 ≤ b) (hw : 1 ≤ w)
    (hch : ch 0 = '0') (hbw : b ^ w = 2 ^ 64) :
    Costs (do
      let z ← Count.isZero a
      if z then Count.write ['0']
      else do
        let ds ← a.asDigitSlice
        Count.fmtDigits b ch w ds.reverse)
      (do
        let z ← a.isZero
        if z then .ok ['0']
        else do
          let ds ← a.asDigitSlice
          .ok (ApInt.fmtDigits b ch w ds.reverse))
      fun _ n => n ≤ (w + 2) * ((a.w + 63) / 64) := by
  have hn : Count.digits a = (a.w + 63) / 64 := lenDigits_eq a
  have hpos : 1 ≤ (a.w + 63) / 64 := by
    have : 0 < a.w := a.len.pos
    omega
  refine Costs.bind Costs.charge ?_
  rintro z _ ⟨_, rfl⟩
  rw [hn]
  generalize hN : (a.w + 63) / 64 = N at *
  refine Costs.ite (fun _ => Costs.charge_ok ?_) fun _ => ?_
  · rw [List.length_singleton, Nat.add_mul]
    omega
  · refine Costs.bind Costs.lift ?_
    rintro ds _ ⟨hds, rfl⟩
    rw [asDigitSlice_ok ha] at hds
    cases hds
    refine (fmtDigits_costs (pad_length hb hw hch hbw) _).mono fun _ n h => ?_
    have hl : a.digits.reverse.length = N := by
      rw [List.length_reverse, ha.length_digits, hN]
    rw [hl] at h
    have e : (w + 2) * N = N * (w + 1) + N := by ring
    omega

end Verif
