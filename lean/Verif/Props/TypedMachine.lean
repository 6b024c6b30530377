import Verif.Proof.TypedMachine
import Verif.Props.Machine
import Verif.Props.Typed

/-!
# `UInt` and `Int` on machine words (C84)

`m.texec` makes one call of the API of `UInt` and `Int` on the machine `m` (see C79, C80 for the
fields), `TInstr.spec` is the same call on the abstract machine over mathematical integers.
-/

namespace Verif.Props

open ApInt Ex

variable {m : Machine}

/-- The banks that calls on the machine `m` lead to. -/
inductive TReachableOn (m : Machine) : TBank → Prop
  | start : TReachableOn m []
  | call {b b' : TBank} {i : TInstr} {r : Res TOut} (h : TReachableOn m b)
      (e : m.texec i b = .ok (r, b')) : TReachableOn m b'

theorem texec_ok (hb : 7 ≤ m.bits) {i : TInstr} {b : TBank} (hw : ∀ a ∈ b, a.WF)
    (hf : ∀ z ∈ b.map WInt.num, z.Fits m.bits) {r : Res TOut} {b' : TBank}
    (e : m.texec i b = .ok (r, b')) :
    i.exec b = .ok (r, b') ∧ (∀ a ∈ b', a.WF) ∧ ∀ z ∈ b'.map WInt.num, z.Fits m.bits := by
  by_cases hs : m.checks = true ∧ i.Strains m.bits (b.map WInt.num)
  · rw [Machine.texec_strained hb i hw hf hs.1 hs.2] at e
    cases e
  · have h0 := texec_agrees hw i
    rcases Machine.texec_sound hb i hw hf hs with ⟨h1, h2⟩ | ⟨h1, _⟩
    · rw [h1] at e
      match hi : i.spec (b.map WInt.num), h0 with
      | none, h0 =>
        have h0 : i.exec b = .error .panic := h0
        rw [h0] at e
        cases e
      | some (x, s), ⟨y, c, e1, _, e3, e4⟩ =>
        rw [e1] at e
        cases e
        exact ⟨e1, e3, by rw [e4]; exact h2 x s hi⟩
    · rw [h1] at e
      cases e

theorem treachableOn_fits (hb : 7 ≤ m.bits) {b : TBank} (h : TReachableOn m b) :
    (∀ a ∈ b, a.WF) ∧ ∀ z ∈ b.map WInt.num, z.Fits m.bits := by
  induction h with
  | start => exact ⟨by simp, by simp⟩
  | @call b b' i r _ e ih => exact (texec_ok hb ih.1 ih.2 e).2

/-- C84: no `UInt` or `Int` that exists on a machine is wider than `2 ^ m.bits - 64`, in either
build. -/
theorem C84_limit (hb : 7 ≤ m.bits) {b : TBank} (h : TReachableOn m b) :
    ∀ a ∈ b, a.num.width + 64 ≤ 2 ^ m.bits :=
  fun a ha => (treachableOn_fits hb h).2 a.num (List.mem_map_of_mem ha)

theorem tcall_on (hb : 7 ≤ m.bits) {b : TBank} (h : TReachableOn m b) (i : TInstr)
    (hs : ¬ (m.checks = true ∧ i.Strains m.bits (b.map WInt.num))) :
    (∀ x s, i.spec (b.map WInt.num) = some (x, s) → (∀ z ∈ s, z.width + 64 ≤ 2 ^ m.bits) →
      ∃ y b', m.texec i b = .ok (y, b') ∧ tabsRes y = x ∧ b'.map WInt.num = s) ∧
    (∀ x s, i.spec (b.map WInt.num) = some (x, s) → (∃ z ∈ s, ¬ z.width + 64 ≤ 2 ^ m.bits) →
      m.texec i b = .error m.stop) ∧
    (i.spec (b.map WInt.num) = none → m.texec i b = .error .panic) := by
  obtain ⟨hw, hf⟩ := treachableOn_fits hb h
  have key := Machine.texec_sound hb i hw hf hs
  have key0 := texec_agrees hw i
  unfold Machine.TSound at key
  refine ⟨?_, ?_, ?_⟩
  · intro x s e hz
    rw [e] at key key0
    obtain ⟨y, c, k1, k2, _, k3⟩ := key0
    rcases key with ⟨k, _⟩ | ⟨_, x', s', e', hn⟩
    · exact ⟨y, c, k.trans k1, k2, k3⟩
    · cases e'
      exact absurd hz hn
  · rintro x s e ⟨z, hz, hn⟩
    rw [e] at key
    rcases key with ⟨_, k⟩ | ⟨k, _⟩
    · exact absurd (k x s rfl z hz) hn
    · exact k
  · intro e
    rw [e] at key key0
    have key0 : i.exec b = .error .panic := key0
    rcases key with ⟨k, _⟩ | ⟨_, x', s', e', _⟩
    · exact k.trans key0
    · cases e'

/-- C84, one call of a release build: it gives the answer and the new numbers of the machine over
integers if all of them exist on the machine, and panics if one of them would be too wide or the
machine over integers panics. -/
theorem C84_call (hb : 7 ≤ m.bits) (hc : m.checks = false) {b : TBank} (h : TReachableOn m b)
    (i : TInstr) :
    (∀ x s, i.spec (b.map WInt.num) = some (x, s) → (∀ z ∈ s, z.width + 64 ≤ 2 ^ m.bits) →
      ∃ y b', m.texec i b = .ok (y, b') ∧ tabsRes y = x ∧ b'.map WInt.num = s) ∧
    (∀ x s, i.spec (b.map WInt.num) = some (x, s) → (∃ z ∈ s, ¬ z.width + 64 ≤ 2 ^ m.bits) →
      m.texec i b = .error .panic) ∧
    (i.spec (b.map WInt.num) = none → m.texec i b = .error .panic) := by
  have key := tcall_on hb h i (by simp [hc])
  rwa [show m.stop = .panic by simp [Machine.stop, hc]] at key

/-- C84, one call of a debug build: it panics on a strained call; on every other call it gives the
answer and the new numbers of the machine over integers if all of them exist on the machine, and
panics if not. -/
theorem C84_debug (hb : 7 ≤ m.bits) (hc : m.checks = true) {b : TBank} (h : TReachableOn m b)
    (i : TInstr) :
    (i.Strains m.bits (b.map WInt.num) → m.texec i b = .error .overflow) ∧
    (¬ i.Strains m.bits (b.map WInt.num) →
      (∀ x s, i.spec (b.map WInt.num) = some (x, s) → (∀ z ∈ s, z.width + 64 ≤ 2 ^ m.bits) →
        ∃ y b', m.texec i b = .ok (y, b') ∧ tabsRes y = x ∧ b'.map WInt.num = s) ∧
      (∀ x s, i.spec (b.map WInt.num) = some (x, s) → (∃ z ∈ s, ¬ z.width + 64 ≤ 2 ^ m.bits) →
        m.texec i b = .error .overflow) ∧
      (i.spec (b.map WInt.num) = none → m.texec i b = .error .panic)) := by
  obtain ⟨hw, hf⟩ := treachableOn_fits hb h
  refine ⟨fun hs => Machine.texec_strained hb i hw hf hc hs, fun hs => ?_⟩
  have key := tcall_on hb h i fun h => hs h.2
  rwa [show m.stop = .overflow by simp [Machine.stop, hc]] at key

theorem trun_agreesOn (hb : 7 ≤ m.bits) (hc : m.checks = false) (p : List TInstr) {b : TBank}
    (h : TReachableOn m b) :
    (m.trun p b).1.map tabsRes = (tspecRunOn m.bits p (b.map WInt.num)).1 ∧
    ((∃ b', (m.trun p b).2 = .ok b' ∧
        (tspecRunOn m.bits p (b.map WInt.num)).2 = some (b'.map WInt.num)) ∨
      ((m.trun p b).2 = .error .panic ∧ (tspecRunOn m.bits p (b.map WInt.num)).2 = none)) := by
  induction p generalizing b with
  | nil => exact ⟨rfl, .inl ⟨b, rfl, rfl⟩⟩
  | cons i p ih =>
    obtain ⟨k1, k2, k3⟩ := C84_call hb hc h i
    have stop : i.specOn m.bits (b.map WInt.num) = none → m.texec i b = .error .panic →
        (m.trun (i :: p) b).1.map tabsRes = (tspecRunOn m.bits (i :: p) (b.map WInt.num)).1 ∧
        ((∃ b', (m.trun (i :: p) b).2 = .ok b' ∧
            (tspecRunOn m.bits (i :: p) (b.map WInt.num)).2 = some (b'.map WInt.num)) ∨
          ((m.trun (i :: p) b).2 = .error .panic ∧
            (tspecRunOn m.bits (i :: p) (b.map WInt.num)).2 = none)) := by
      intro e1 e2
      unfold Machine.trun tspecRunOn
      rw [e1, e2]
      exact ⟨rfl, .inr ⟨rfl, rfl⟩⟩
    cases hi : i.spec (b.map WInt.num) with
    | none => exact stop (by unfold TInstr.specOn; rw [hi]) (k3 hi)
    | some q =>
      obtain ⟨x, s⟩ := q
      by_cases hz : ∀ z ∈ s, z.Fits m.bits
      · obtain ⟨y, b', e, hy, hm⟩ := k1 x s hi hz
        have e2 : i.specOn m.bits (b.map WInt.num) = some (x, s) := by
          unfold TInstr.specOn; rw [hi]; exact if_pos hz
        unfold Machine.trun tspecRunOn
        rw [e, e2]
        subst hm
        obtain ⟨h1, h2⟩ := ih (h.call e)
        refine ⟨?_, h2⟩
        show tabsRes y :: _ = x :: _
        rw [h1, hy]
      · refine stop (by unfold TInstr.specOn; rw [hi]; exact if_neg hz) (k2 x s hi ?_)
        push_neg at hz
        exact hz

/-- C84, whole programs in a release build: the answers up to the first panic and the final numbers
are those of the machine over integers that stops as soon as a number would get too wide. -/
theorem C84_program (hb : 7 ≤ m.bits) (hc : m.checks = false) (p : List TInstr) :
    (m.trun p []).1.map tabsRes = (tspecRunOn m.bits p []).1 ∧
    (∀ s, (tspecRunOn m.bits p []).2 = some s →
      ∃ b, (m.trun p []).2 = .ok b ∧ b.map WInt.num = s) ∧
    ((tspecRunOn m.bits p []).2 = none → (m.trun p []).2 = .error .panic) := by
  obtain ⟨h1, h2⟩ := trun_agreesOn hb hc p (b := []) .start
  refine ⟨h1, ?_, ?_⟩
  · intro s e
    rcases h2 with ⟨b, h3, h4⟩ | ⟨_, h4⟩
    · exact ⟨b, h3, Option.some.inj (h4.symm.trans e)⟩
    · exact absurd (h4.symm.trans e) (by simp)
  · intro e
    rcases h2 with ⟨b, _, h4⟩ | ⟨h3, _⟩
    · exact absurd (h4.symm.trans e) (by simp)
    · exact h3

/-- The program `tdemo` on a machine with 8-bit words, on which integers have at most 192 bits. -/
example : ((⟨8, false⟩ : Machine).trun tdemo []).1.map tabsRes = (tspecRun tdemo []).1 :=
  (C84_program (m := ⟨8, false⟩) (by decide) rfl tdemo).1.trans (by decide +kernel)

/-- An `Int` can be extended to 192 bits there, not to 193. -/
def twiden : List TInstr :=
  [.make (.i8 0xF9#8), .un (.extend (bw 192)) 0, .un .abs 0, .ask .countOnes 0,
    .un (.resize (bw 193)) 0]

example : ((⟨8, false⟩ : Machine).trun twiden []).1.map tabsRes =
      [.ok (.out .unit), .ok (.out .unit), .ok (.out .unit), .ok (.out (.nat 3))] ∧
    ((⟨8, false⟩ : Machine).trun twiden []).2 = .error .panic := by
  obtain ⟨h1, -, h2⟩ := C84_program (m := ⟨8, false⟩) (by decide) rfl twiden
  exact ⟨h1.trans (by decide +kernel), h2 (by decide +kernel)⟩

/-! ## Debug builds -/

/-- C84: a call in a debug build does what it does in a release build for the same machine, or
stops with the panic of an overflow check. -/
theorem C84_release {u : Nat} (hb : 7 ≤ u) {b : TBank} (h : TReachableOn ⟨u, true⟩ b)
    (i : TInstr) :
    (⟨u, true⟩ : Machine).texec i b = (⟨u, false⟩ : Machine).texec i b ∨
    (⟨u, true⟩ : Machine).texec i b = .error .overflow := by
  obtain ⟨hw, hf⟩ := treachableOn_fits (m := ⟨u, true⟩) hb h
  by_cases hs : i.Strains u (b.map WInt.num)
  · exact .inr (Machine.texec_strained (m := ⟨u, true⟩) hb i hw hf rfl hs)
  · have h1 := Machine.texec_sound (m := ⟨u, true⟩) hb i hw hf (fun h => hs h.2)
    have h2 := Machine.texec_sound (m := ⟨u, false⟩) hb i hw hf (fun h => absurd h.1 (by simp))
    rcases h1 with ⟨h1, k1⟩ | ⟨h1, _⟩
    · rcases h2 with ⟨h2, _⟩ | ⟨_, x, s, e, hn⟩
      · exact .inl (h1.trans h2.symm)
      · exact absurd (k1 x s e) hn
    · exact .inr h1

theorem trun_release {u : Nat} (hb : 7 ≤ u) (p : List TInstr) {b : TBank}
    (h : TReachableOn ⟨u, true⟩ b) :
    (⟨u, true⟩ : Machine).trun p b = (⟨u, false⟩ : Machine).trun p b ∨
    ∃ n, (⟨u, true⟩ : Machine).trun p b =
      (((⟨u, false⟩ : Machine).trun p b).1.take n, .error .overflow) := by
  induction p generalizing b with
  | nil => exact .inl rfl
  | cons i p ih =>
    unfold Machine.trun
    rcases C84_release hb h i with e | e
    · match e1 : (⟨u, false⟩ : Machine).texec i b with
      | .error f =>
        rw [e1] at e
        rw [e]
        exact .inl rfl
      | .ok (r, b') =>
        rw [e1] at e
        rw [e]
        dsimp only
        rcases ih (h.call e) with k | ⟨n, k⟩
        · rw [k]
          exact .inl rfl
        · rw [k]
          exact .inr ⟨n + 1, rfl⟩
    · rw [e]
      exact .inr ⟨0, by simp⟩

/-- C84, whole programs: a debug build gives all the answers of the release build, or some of the
first of them followed by the panic of an overflow check. -/
theorem C84_builds {u : Nat} (hb : 7 ≤ u) (p : List TInstr) :
    (⟨u, true⟩ : Machine).trun p [] = (⟨u, false⟩ : Machine).trun p [] ∨
    ∃ n, (⟨u, true⟩ : Machine).trun p [] =
      (((⟨u, false⟩ : Machine).trun p []).1.take n, .error .overflow) :=
  trun_release hb p .start

theorem num_pattern_lt {x : Num} : x.pattern < 2 ^ x.width := by
  unfold Num.pattern
  have h : x.val % 2 ^ x.width < 2 ^ x.width := Int.emod_lt_of_pos _ (by positivity)
  have h0 : 0 ≤ x.val % 2 ^ x.width := Int.emod_nonneg _ (by positivity)
  zify
  omega

theorem not_tstrains {u : Nat} (hb : 7 ≤ u) {i : TInstr} {s : NBank}
    (hw : ∀ z ∈ s, 2 * z.width < 2 ^ u)
    (hn : ∀ x s', i.spec s = some (x, s') → ∀ z ∈ s', 2 * z.width < 2 ^ u) :
    ¬ i.Strains u s := by
  have mul : ∀ {x y : Nat}, ¬ (match s[x]?, s[y]? with
      | some a, some c => a.Strains u c
      | _, _ => False) := by
    intro x y h
    cases hx : s[x]? with
    | none => rw [hx] at h; cases h
    | some a =>
      cases hy : s[y]? with
      | none => rw [hx, hy] at h; cases h
      | some c =>
        rw [hx, hy] at h
        obtain ⟨-, -, -, -, h⟩ := h
        have h1 := Nat.size_le.2 (num_pattern_lt (x := a))
        have h2 := Nat.size_le.2 (num_pattern_lt (x := c))
        have h3 := hw a (List.mem_of_getElem? hx)
        have h4 := hw c (List.mem_of_getElem? hy)
        omega
  intro h
  match i, h, hn with
  | .make (.parse c k t), ⟨_, h1, h2⟩, hn =>
    have e : (TMake.parse c k t).spec =
        .gives (Num.of c (roundUp ((k.val + 1) * (textDigits t).length))
          (numeral (2 ^ (k.val + 1)) (textDigits t))) := if_pos h1
    have h3 := hn (.ok (.out .unit)) (s ++ [Num.of c (roundUp ((k.val + 1) * (textDigits t).length))
          (numeral (2 ^ (k.val + 1)) (textDigits t))])
      (by show NBank.push s _ = _; rw [e]; rfl) _
      (List.mem_append_right _ (List.mem_singleton.2 rfl))
    dsimp only [roundUp, Num.of] at h3
    have h4 : 2 ^ 7 ≤ 2 ^ u := Nat.pow_le_pow_right (by decide) hb
    omega
  | .bin .mul x y, h, _ => exact mul h
  | .intoBin .mul x y, h, _ => exact mul h
  | .opAssign .mul x y, h, _ => exact mul h
  | .op .mul x y, h, _ => exact mul h

theorem trun_modest (hb : 7 ≤ m.bits) (p : List TInstr) {b : TBank} (hw : ∀ a ∈ b, a.WF)
    (h : ∀ s ∈ tspecHistory p (b.map WInt.num), ∀ z ∈ s, 2 * z.width < 2 ^ m.bits) :
    m.trun p b = trun p b := by
  have h7 : 2 ^ 7 ≤ 2 ^ m.bits := Nat.pow_le_pow_right (by decide) hb
  induction p generalizing b with
  | nil => rfl
  | cons i p ih =>
    have hnow : ∀ z ∈ b.map WInt.num, 2 * z.width < 2 ^ m.bits := h _ List.mem_cons_self
    have hnext : ∀ x s', i.spec (b.map WInt.num) = some (x, s') →
        ∀ s ∈ tspecHistory p s', ∀ z ∈ s, 2 * z.width < 2 ^ m.bits := by
      intro x s' e s hs
      refine h s (List.mem_cons_of_mem _ ?_)
      rw [e]
      exact hs
    have hhead : ∀ (p : List TInstr) (s : NBank), s ∈ tspecHistory p s := by
      intro p s
      cases p <;> exact List.mem_cons_self
    have hfits : ∀ {z : Num}, 2 * z.width < 2 ^ m.bits → z.Fits m.bits := by
      intro z hz
      unfold Num.Fits
      omega
    have hs : ¬ i.Strains m.bits (b.map WInt.num) :=
      not_tstrains hb hnow fun x s' e => hnext x s' e s' (hhead p s')
    have key := Machine.texec_sound hb i hw (fun z hz => hfits (hnow z hz)) (fun h => hs h.2)
    have e : m.texec i b = i.exec b := by
      rcases key with ⟨k, _⟩ | ⟨_, x, s, e, hn⟩
      · exact k
      · exact absurd (fun z hz => hfits (hnext x s e s (hhead p s) z hz)) hn
    unfold Machine.trun trun
    rw [e]
    have key0 := texec_agrees hw i
    match hi : i.spec (b.map WInt.num), key0 with
    | none, k =>
      have k : i.exec b = .error .panic := k
      rw [k]
    | some (x, s), ⟨y, c, k1, k2, k3, k4⟩ =>
      rw [k1]
      dsimp only
      rw [ih k3 (by rw [k4]; exact hnext x s hi)]

/-- C84: a program that never holds a number of half as many bits as a machine word can count runs
in both builds exactly as on a machine without limits. -/
theorem C84_modest (hb : 7 ≤ m.bits) (p : List TInstr)
    (h : ∀ s ∈ tspecHistory p [], ∀ z ∈ s, 2 * z.width < 2 ^ m.bits) : m.trun p [] = trun p [] :=
  trun_modest hb p (by simp) h

example : (⟨8, true⟩ : Machine).trun tdemo [] = trun tdemo [] :=
  C84_modest (by decide) tdemo (by decide +kernel)

theorem size_negative {x : Num} (hk : x.kind = .signed) (hr : x.InRange) (hw : 0 < x.width)
    (hn : x.val < 0) : 2 ^ (x.width - 1) ≤ x.pattern ∧ Nat.size x.pattern = x.width := by
  obtain ⟨k, w, v⟩ := x
  dsimp only at hk hw hn
  subst hk
  obtain ⟨h1, -⟩ : (-2 ^ (w - 1) : Int) ≤ v ∧ v < 2 ^ (w - 1) := hr
  obtain ⟨n, rfl⟩ : ∃ n, w = n + 1 := ⟨w - 1, by omega⟩
  rw [Nat.add_sub_cancel] at h1 ⊢
  have hp : ((2 ^ n : Nat) : Int) = (2 : Int) ^ n := by push_cast; rfl
  have hpos : 0 < 2 ^ n := by positivity
  have e : Num.pattern ⟨.signed, n + 1, v⟩ = (v + 2 ^ (n + 1)).toNat := by
    show (v % 2 ^ (n + 1)).toNat = _
    rw [← Int.add_emod_right, Int.emod_eq_of_lt] <;> rw [pow_succ] <;> omega
  have h2 : 2 ^ n ≤ Num.pattern ⟨.signed, n + 1, v⟩ := by
    rw [e, pow_succ]
    omega
  refine ⟨h2, le_antisymm (Nat.size_le.2 num_pattern_lt) ?_⟩
  have := Nat.lt_size.2 h2
  dsimp only
  omega

/-- C84: in a debug build the product of two negative `Int`s of a width that is at least half of
what a machine word can count (and more than 64) panics, however small the numbers and their
product are. -/
theorem C84_negative (hb : 7 ≤ m.bits) (hc : m.checks = true) {b : TBank} (h : TReachableOn m b)
    {x y : Nat} {a c : WInt} (ha : b[x]? = some a) (hd : b[y]? = some c)
    (hka : a.num.kind = .signed) (hkc : c.num.kind = .signed) (hw : a.num.width = c.num.width)
    (h64 : 64 < a.num.width) (hu : 2 ^ m.bits ≤ 2 * a.num.width)
    (hna : a.num.val < 0) (hnc : c.num.val < 0) :
    m.texec (.bin .mul x y) b = .error .overflow := by
  refine (C84_debug hb hc h _).1 ?_
  obtain ⟨hwf, -⟩ := treachableOn_fits hb h
  have ga := hwf a (List.mem_of_getElem? ha)
  have gc := hwf c (List.mem_of_getElem? hd)
  obtain ⟨p1, q1⟩ := size_negative hka (C69_faithful ga ga).2.1 (by omega) hna
  obtain ⟨p2, q2⟩ := size_negative hkc (C69_faithful gc gc).2.1 (by omega) hnc
  have b1 : 2 ^ 64 ≤ 2 ^ (a.num.width - 1) := Nat.pow_le_pow_right (by decide) (by omega)
  have b2 : 2 ^ 64 ≤ 2 ^ (c.num.width - 1) := Nat.pow_le_pow_right (by decide) (by omega)
  have e : (TInstr.bin .mul x y).Strains m.bits (b.map WInt.num) ↔ a.num.Strains m.bits c.num := by
    unfold TInstr.Strains
    simp only [List.getElem?_map, ha, hd, Option.map_some]
  rw [e]
  exact ⟨hka.trans hkc.symm, hw, b1.trans p1, b2.trans p2, by rw [q1, q2]; omega⟩

/-- The square of -1 at 128 bits on a machine with 8-bit words: 1 in a release build, a panic in a
debug build. -/
def tsquare : List TInstr :=
  [.make (.allSet .signed (bw 128)), .clone 0, .op .mul 0 1, .ask .countOnes 0]

example : ((⟨8, false⟩ : Machine).trun tsquare []).1.map tabsRes =
      [.ok (.out .unit), .ok (.out .unit), .ok (.out .unit), .ok (.out (.nat 1))] ∧
    ((⟨8, true⟩ : Machine).trun tsquare []).1.length = 2 ∧
    ((⟨8, true⟩ : Machine).trun tsquare []).2 = .error .overflow := by
  refine ⟨(C84_program (m := ⟨8, false⟩) (by decide) rfl tsquare).1.trans (by decide +kernel), ?_⟩
  exact ⟨by decide +kernel, rfl⟩

/-- The hypotheses of `C84_negative` are met by the two `Int`s of that program. -/
example : ∃ b, TReachableOn ⟨8, true⟩ b ∧
    (⟨8, true⟩ : Machine).texec (.bin .mul 0 1) b = .error .overflow :=
  ⟨_, (TReachableOn.start.call (i := .make (.allSet .signed (bw 128))) rfl).call
      (i := .clone 0) rfl,
    C84_negative (by decide) rfl
      ((TReachableOn.start.call (i := .make (.allSet .signed (bw 128))) rfl).call
        (i := .clone 0) rfl)
      rfl rfl rfl rfl rfl (by decide +kernel) (by decide +kernel) (by decide +kernel)
      (by decide +kernel)⟩

end Verif.Props
