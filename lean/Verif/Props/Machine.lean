import Verif.Proof.MachineSerde
import Verif.Props.Program
import Verif.Props.Serial

/-!
# Machine words (C79, C80, C81)

`m : Machine` is a target: `m.bits` is the number of bits of `usize`, `m.checks` says whether the
build checks for overflow (debug builds do).  Targets of Rust have 16, 32 or 64 bits; everything
is shown for 7 bits or more.
-/

namespace Verif.Props

open ApInt Ex Serde

variable {m : Machine}

/-- The banks that calls on the machine `m` lead to. -/
inductive ReachableOn (m : Machine) : Bank → Prop
  | start : ReachableOn m []
  | call {b b' : Bank} {i : Instr} {r : Res Out} (h : ReachableOn m b)
      (e : m.exec i b = .ok (r, b')) : ReachableOn m b'

/-- A call on a machine that returns has done what it does on a machine without limits. -/
theorem exec_ok (hb : 7 ≤ m.bits) {i : Instr} {b : Bank} (hw : ∀ a ∈ b, a.WF)
    (hf : ∀ z ∈ b.map ApInt.abs, z.Fits m.bits) {r : Res Out} {b' : Bank}
    (e : m.exec i b = .ok (r, b')) :
    i.exec b = .ok (r, b') ∧ (∀ a ∈ b', a.WF) ∧ ∀ z ∈ b'.map ApInt.abs, z.Fits m.bits := by
  by_cases hs : m.checks = true ∧ i.Strains m.bits (b.map ApInt.abs)
  · rw [Machine.exec_strained hb i hw hf hs.1 hs.2] at e
    cases e
  · have h := Machine.exec_agreesOn hb i hw hf hs
    match hi : i.specOn m.bits (b.map ApInt.abs), h with
    | none, h =>
      rcases h with h | h <;> (rw [h] at e; cases e)
    | some (x, s), ⟨y, c, h1, h2, _, h4, h5, h6⟩ =>
      rw [h1] at e
      cases e
      exact ⟨h2, h4, h5 ▸ h6⟩

theorem reachableOn_fits (hb : 7 ≤ m.bits) {b : Bank} (h : ReachableOn m b) :
    Reachable b ∧ (∀ a ∈ b, a.WF) ∧ ∀ z ∈ b.map ApInt.abs, z.Fits m.bits := by
  induction h with
  | start => exact ⟨.start, by simp, by simp⟩
  | @call b b' i r _ e ih =>
    obtain ⟨h1, h2, h3⟩ := ih
    obtain ⟨k1, k2, k3⟩ := exec_ok hb h2 h3 e
    exact ⟨h1.call k1, k2, k3⟩

/-- C79: no integer that exists on a machine is wider than `2 ^ m.bits - 64`, in either build, and
everything reachable there is reachable without limits. -/
theorem C79_limit (hb : 7 ≤ m.bits) {b : Bank} (h : ReachableOn m b) :
    Reachable b ∧ ∀ a ∈ b, a.w + 64 ≤ 2 ^ m.bits := by
  obtain ⟨h1, -, h2⟩ := reachableOn_fits hb h
  exact ⟨h1, fun a ha => h2 a.abs (List.mem_map_of_mem ha)⟩

/-- C79, one call of a release build: it gives the answer and the new integers of the abstract
machine if all of them exist on the machine, and panics if one of them would be too wide or the
abstract machine panics. -/
theorem C79_call (hb : 7 ≤ m.bits) (hc : m.checks = false) {b : Bank} (h : ReachableOn m b)
    (i : Instr) :
    (∀ x s, i.spec (b.map ApInt.abs) = some (x, s) → (∀ z ∈ s, z.width + 64 ≤ 2 ^ m.bits) →
      ∃ y b', m.exec i b = .ok (y, b') ∧ absRes y = x ∧ b'.map ApInt.abs = s) ∧
    (∀ x s, i.spec (b.map ApInt.abs) = some (x, s) → (∃ z ∈ s, ¬ z.width + 64 ≤ 2 ^ m.bits) →
      m.exec i b = .error .panic) ∧
    (i.spec (b.map ApInt.abs) = none → m.exec i b = .error .panic) := by
  obtain ⟨-, hw, hf⟩ := reachableOn_fits hb h
  have hs : ¬ (m.checks = true ∧ i.Strains m.bits (b.map ApInt.abs)) := by simp [hc]
  have key := Machine.exec_agreesOn hb i hw hf hs
  have stop : m.stop = .panic := by simp [Machine.stop, hc]
  rw [stop] at key
  refine ⟨?_, ?_, ?_⟩
  · intro x s e hz
    rw [Instr.specOn, e] at key
    dsimp only at key
    rw [if_pos (show ∀ z ∈ s, z.Fits m.bits from hz)] at key
    obtain ⟨y, c, h1, _, h2, _, h3, _⟩ := key
    exact ⟨y, c, h1, h2, h3⟩
  · rintro x s e ⟨z, hz, hn⟩
    rw [Instr.specOn, e] at key
    dsimp only at key
    rw [if_neg fun hall => hn (hall z hz)] at key
    exact key.elim id id
  · intro e
    rw [Instr.specOn, e] at key
    exact key.elim id id

theorem run_agreesOn (hb : 7 ≤ m.bits) (hc : m.checks = false) (p : List Instr) {b : Bank}
    (hw : ∀ a ∈ b, a.WF) (hf : ∀ z ∈ b.map ApInt.abs, z.Fits m.bits) :
    (m.run p b).1.map absRes = (specRunOn m.bits p (b.map ApInt.abs)).1 ∧
    ((∃ b', (m.run p b).2 = .ok b' ∧
        (specRunOn m.bits p (b.map ApInt.abs)).2 = some (b'.map ApInt.abs)) ∨
      ((m.run p b).2 = .error .panic ∧ (specRunOn m.bits p (b.map ApInt.abs)).2 = none)) := by
  have stop : m.stop = .panic := by simp [Machine.stop, hc]
  induction p generalizing b with
  | nil => exact ⟨rfl, .inl ⟨b, rfl, rfl⟩⟩
  | cons i p ih =>
    have h := Machine.exec_agreesOn hb i hw hf (by simp [hc])
    rw [stop] at h
    unfold Machine.run specRunOn
    match hs : i.specOn m.bits (b.map ApInt.abs), h with
    | none, h =>
      have h : m.exec i b = .error .panic := h.elim id id
      rw [h]
      exact ⟨rfl, .inr ⟨rfl, rfl⟩⟩
    | some (x, s), ⟨y, b', h, _, hy, hb', hm, hfit⟩ =>
      rw [h]
      subst hm
      obtain ⟨h1, h2⟩ := ih hb' hfit
      refine ⟨?_, h2⟩
      show absRes y :: _ = x :: _
      rw [h1, hy]

/-- C79, whole programs in a release build: the answers up to the first panic and the final integers
are those of the abstract machine that stops as soon as an integer would get too wide. -/
theorem C79_program (hb : 7 ≤ m.bits) (hc : m.checks = false) (p : List Instr) :
    (m.run p []).1.map absRes = (specRunOn m.bits p []).1 ∧
    (∀ s, (specRunOn m.bits p []).2 = some s → ∃ b, (m.run p []).2 = .ok b ∧ b.map ApInt.abs = s) ∧
    ((specRunOn m.bits p []).2 = none → (m.run p []).2 = .error .panic) := by
  obtain ⟨h1, h2⟩ := run_agreesOn hb hc p (b := []) (by simp) (by simp)
  refine ⟨h1, ?_, ?_⟩
  · intro s e
    rcases h2 with ⟨b, h3, h4⟩ | ⟨_, h4⟩
    · exact ⟨b, h3, Option.some.inj (h4.symm.trans e)⟩
    · exact absurd (h4.symm.trans e) (by simp)
  · intro e
    rcases h2 with ⟨b, _, h4⟩ | ⟨h3, _⟩
    · exact absurd (h4.symm.trans e) (by simp)
    · exact h3

/-- The program `demo` on a machine with 8-bit words, on which integers have at most 192 bits. -/
example : ((⟨8, false⟩ : Machine).run demo []).1.map absRes =
    [.ok .unit, .ok .unit, .ok .unit, .ok .unit, .ok .unit, .ok .unit, .ok .unit,
      .error (.widths 100 8), .ok (.nat 33), .ok .unit, .error (.widths 100 60),
      .ok (.text ['f', '0'])] := by
  rw [(C79_program (m := ⟨8, false⟩) (by decide) rfl demo).1]
  decide +kernel

/-- Extending to 192 bits succeeds there, extending to 193 bits panics. -/
def widen : List Instr :=
  [.make (.u8 7), .un (.zeroExtend (bw 192)) 0, .ask .countOnes 0, .un (.signExtend (bw 193)) 0]

example : ((⟨8, false⟩ : Machine).run widen []).1.map absRes = [.ok .unit, .ok .unit, .ok (.nat 3)] ∧
    ((⟨8, false⟩ : Machine).run widen []).2 = .error .panic := by
  obtain ⟨h1, -, h2⟩ := C79_program (m := ⟨8, false⟩) (by decide) rfl widen
  exact ⟨h1.trans (by decide +kernel), h2 (by decide +kernel)⟩

/-! ## Debug builds -/

/-- C80, one call of a debug build: it panics on a strained call; on every other call it gives the
answer and the new integers of the abstract machine if all of them exist on the machine, and panics
if not. -/
theorem C80_call (hb : 7 ≤ m.bits) (hc : m.checks = true) {b : Bank} (h : ReachableOn m b)
    (i : Instr) :
    (i.Strains m.bits (b.map ApInt.abs) → m.exec i b = .error .overflow) ∧
    (¬ i.Strains m.bits (b.map ApInt.abs) →
      (∀ x s, i.spec (b.map ApInt.abs) = some (x, s) → (∀ z ∈ s, z.width + 64 ≤ 2 ^ m.bits) →
        ∃ y b', m.exec i b = .ok (y, b') ∧ absRes y = x ∧ b'.map ApInt.abs = s) ∧
      (∀ x s, i.spec (b.map ApInt.abs) = some (x, s) → (∃ z ∈ s, ¬ z.width + 64 ≤ 2 ^ m.bits) →
        m.exec i b = .error .overflow) ∧
      (i.spec (b.map ApInt.abs) = none → m.exec i b = .error .panic)) := by
  obtain ⟨-, hw, hf⟩ := reachableOn_fits hb h
  refine ⟨fun hs => Machine.exec_strained hb i hw hf hc hs, fun hs => ?_⟩
  have key := Machine.exec_sound hb i hw hf (fun h => hs h.2)
  have key0 := exec_agrees i hw
  have stop : m.stop = .overflow := by simp [Machine.stop, hc]
  unfold Machine.Sound at key
  rw [stop] at key
  refine ⟨?_, ?_, ?_⟩
  · intro x s e hz
    rw [e] at key key0
    obtain ⟨y, c, k1, k2, _, k3⟩ := key0
    rcases key with ⟨k, _⟩ | ⟨_, x', s', e', hn⟩
    · exact ⟨y, c, k.trans k1, k2, k3⟩
    · cases e'
      exact absurd hz hn
  · rintro x s e ⟨z, hz, hn⟩
    rw [e] at key
    rcases key with ⟨_, k⟩ | ⟨k, _⟩
    · exact absurd (k x s rfl z hz) hn
    · exact k
  · intro e
    rw [e] at key key0
    have key0 : i.exec b = .error .panic := key0
    rcases key with ⟨k, _⟩ | ⟨_, x', s', e', _⟩
    · exact k.trans key0
    · cases e'

/-- C80: a call in a debug build does what it does in a release build for the same machine, or
stops with the panic of an overflow check. -/
theorem C80_release {u : Nat} (hb : 7 ≤ u) {b : Bank} (h : ReachableOn ⟨u, true⟩ b) (i : Instr) :
    (⟨u, true⟩ : Machine).exec i b = (⟨u, false⟩ : Machine).exec i b ∨
    (⟨u, true⟩ : Machine).exec i b = .error .overflow := by
  obtain ⟨-, hw, hf⟩ := reachableOn_fits (m := ⟨u, true⟩) hb h
  by_cases hs : i.Strains u (b.map ApInt.abs)
  · exact .inr (Machine.exec_strained (m := ⟨u, true⟩) hb i hw hf rfl hs)
  · have h1 := Machine.exec_sound (m := ⟨u, true⟩) hb i hw hf (fun h => hs h.2)
    have h2 := Machine.exec_sound (m := ⟨u, false⟩) hb i hw hf (fun h => absurd h.1 (by simp))
    rcases h1 with ⟨h1, k1⟩ | ⟨h1, _⟩
    · rcases h2 with ⟨h2, _⟩ | ⟨_, x, s, e, hn⟩
      · exact .inl (h1.trans h2.symm)
      · exact absurd (k1 x s e) hn
    · exact .inr h1

theorem run_release {u : Nat} (hb : 7 ≤ u) (p : List Instr) {b : Bank}
    (h : ReachableOn ⟨u, true⟩ b) :
    (⟨u, true⟩ : Machine).run p b = (⟨u, false⟩ : Machine).run p b ∨
    ∃ n, (⟨u, true⟩ : Machine).run p b =
      (((⟨u, false⟩ : Machine).run p b).1.take n, .error .overflow) := by
  induction p generalizing b with
  | nil => exact .inl rfl
  | cons i p ih =>
    unfold Machine.run
    rcases C80_release hb h i with e | e
    · match e1 : (⟨u, false⟩ : Machine).exec i b with
      | .error f =>
        rw [e1] at e
        rw [e]
        exact .inl rfl
      | .ok (r, b') =>
        rw [e1] at e
        rw [e]
        dsimp only
        rcases ih (h.call e) with k | ⟨n, k⟩
        · rw [k]
          exact .inl rfl
        · rw [k]
          exact .inr ⟨n + 1, rfl⟩
    · rw [e]
      exact .inr ⟨0, by simp⟩

/-- C80, whole programs: a debug build gives all the answers of the release build, or some of the
first of them followed by the panic of an overflow check. -/
theorem C80_program {u : Nat} (hb : 7 ≤ u) (p : List Instr) :
    (⟨u, true⟩ : Machine).run p [] = (⟨u, false⟩ : Machine).run p [] ∨
    ∃ n, (⟨u, true⟩ : Machine).run p [] =
      (((⟨u, false⟩ : Machine).run p []).1.take n, .error .overflow) :=
  run_release hb p .start

theorem not_strains {u : Nat} (hb : 7 ≤ u) {i : Instr} {s : ABank}
    (hp : ∀ z ∈ s, z.bits < 2 ^ z.width) (hw : ∀ z ∈ s, 2 * z.width < 2 ^ u)
    (hn : ∀ x s', i.spec s = some (x, s') → ∀ z ∈ s', 2 * z.width < 2 ^ u) :
    ¬ i.Strains u s := by
  have mul : ∀ {x y : Nat}, ¬ (match s[x]?, s[y]? with
      | some a, some c => a.Strains u c
      | _, _ => False) := by
    intro x y h
    cases hx : s[x]? with
    | none => rw [hx] at h; cases h
    | some a =>
      cases hy : s[y]? with
      | none => rw [hx, hy] at h; cases h
      | some c =>
        rw [hx, hy] at h
        obtain ⟨-, -, -, h⟩ := h
        have hx := List.mem_of_getElem? hx
        have hy := List.mem_of_getElem? hy
        have h1 := Nat.size_le.2 (hp a hx)
        have h2 := Nat.size_le.2 (hp c hy)
        have h3 := hw a hx
        have h4 := hw c hy
        omega
  intro h
  match i, h, hn with
  | .make (.parse k t), ⟨_, h1, h2⟩, hn =>
    have e : (Make.parse k t).spec = .ok ⟨roundUp ((k.val + 1) * (textDigits t).length),
        numeral (2 ^ (k.val + 1)) (textDigits t)⟩ := if_pos h1
    have h3 := hn (.ok .unit) (s ++ [⟨roundUp ((k.val + 1) * (textDigits t).length),
        numeral (2 ^ (k.val + 1)) (textDigits t)⟩])
      (by show some (ABank.push s _) = _; rw [e]; rfl) _
      (List.mem_append_right _ (List.mem_singleton.2 rfl))
    dsimp only [roundUp] at h3
    have h4 : 2 ^ 7 ≤ 2 ^ u := Nat.pow_le_pow_right (by decide) hb
    omega
  | .bin .mul x y, h, _ => exact mul h
  | .intoBin .mul x y, h, _ => exact mul h
  | .opAssign .mul x y, h, _ => exact mul h
  | .op .mul x y, h, _ => exact mul h

theorem run_modest (hb : 7 ≤ m.bits) (p : List Instr) {b : Bank} (hw : ∀ a ∈ b, a.WF)
    (h : ∀ s ∈ specHistory p (b.map ApInt.abs), ∀ z ∈ s, 2 * z.width < 2 ^ m.bits) :
    m.run p b = run p b := by
  have h7 : 2 ^ 7 ≤ 2 ^ m.bits := Nat.pow_le_pow_right (by decide) hb
  induction p generalizing b with
  | nil => rfl
  | cons i p ih =>
    have hnow : ∀ z ∈ b.map ApInt.abs, 2 * z.width < 2 ^ m.bits := h _ List.mem_cons_self
    have hnext : ∀ x s', i.spec (b.map ApInt.abs) = some (x, s') →
        ∀ s ∈ specHistory p s', ∀ z ∈ s, 2 * z.width < 2 ^ m.bits := by
      intro x s' e s hs
      refine h s (List.mem_cons_of_mem _ ?_)
      rw [e]
      exact hs
    have hhead : ∀ (p : List Instr) (s : ABank), s ∈ specHistory p s := by
      intro p s
      cases p <;> exact List.mem_cons_self
    have hfits : ∀ {z : AInt}, 2 * z.width < 2 ^ m.bits → z.Fits m.bits := by
      intro z hz
      unfold AInt.Fits
      omega
    have hs : ¬ i.Strains m.bits (b.map ApInt.abs) := by
      refine not_strains hb ?_ hnow fun x s' e => hnext x s' e s' (hhead p s')
      intro z hz
      obtain ⟨a, ha, rfl⟩ := List.mem_map.1 hz
      exact (hw a ha).2
    have key := Machine.exec_sound hb i hw (fun z hz => hfits (hnow z hz)) (fun h => hs h.2)
    have e : m.exec i b = i.exec b := by
      rcases key with ⟨k, _⟩ | ⟨_, x, s, e, hn⟩
      · exact k
      · exact absurd (fun z hz => hfits (hnext x s e s (hhead p s) z hz)) hn
    unfold Machine.run run
    rw [e]
    have key0 := exec_agrees i hw
    match hi : i.spec (b.map ApInt.abs), key0 with
    | none, k =>
      have k : i.exec b = .error .panic := k
      rw [k]
    | some (x, s), ⟨y, c, k1, k2, k3, k4⟩ =>
      rw [k1]
      dsimp only
      rw [ih k3 (by rw [k4]; exact hnext x s hi)]

/-- C80: a program that never holds an integer of half as many bits as a machine word can count runs
in both builds exactly as on a machine without limits (which is what all other properties are
about). -/
theorem C80_modest (hb : 7 ≤ m.bits) (p : List Instr)
    (h : ∀ s ∈ specHistory p [], ∀ z ∈ s, 2 * z.width < 2 ^ m.bits) : m.run p [] = run p [] :=
  run_modest hb p (by simp) h

example : (⟨8, true⟩ : Machine).run demo [] = run demo [] :=
  C80_modest (by decide) demo (by decide +kernel)

/-- The square of `2 ^ 192 - 1`, the largest integer on a machine with 8-bit words: 1 in a release
build; in a debug build the sum of the numbers of significant bits overflows. -/
def square : List Instr := [.make (.allSet (bw 192)), .clone 0, .bin .mul 0 1, .ask .countOnes 0]

example : ((⟨8, false⟩ : Machine).run square []).1.map absRes =
      [.ok .unit, .ok .unit, .ok .unit, .ok (.nat 1)] ∧
    ((⟨8, true⟩ : Machine).run square []).1.length = 2 ∧
    ((⟨8, true⟩ : Machine).run square []).2 = .error .overflow := by
  refine ⟨(C79_program (m := ⟨8, false⟩) (by decide) rfl square).1.trans (by decide +kernel), ?_⟩
  decide +kernel

/-! ## Deserialization -/

/-- C81, what is missing: the width of the integer is only the low bits of the stated width.  The
full statement, `StatesWidth human x c.w`, is false for machines with words of fewer than 64 bits
(`C81_cut`).  Everything else of what C47 says about accepted inputs holds on every machine, and the
integer is not too wide for the machine. -/
theorem C81_accepted_partial (hb : 7 ≤ m.bits) (human : Bool) {v : SVal} {c : ApInt}
    (h : m.deserialize human v = .ok (.ok c)) :
    ∃ (x y : SVal) (n : Nat) (ds : List (BitVec 64)),
      (if human then ∃ n, v = .struct n [("width", x), ("digits", y)] ∨
          v = .struct n [("digits", y), ("width", x)]
        else ∃ rest, SeqOf v (x :: y :: rest)) ∧
      StatesWidth human x n ∧ c.w = n % 2 ^ m.bits ∧ SeqOf y (ds.map .u64) ∧
      ds.length = (c.w + 63) / 64 ∧ c.WF ∧ c.uval = val ds % 2 ^ c.w ∧ c.w + 64 ≤ 2 ^ m.bits := by
  have finish : ∀ {t ds}, m.deFinish t ds = .ok (.ok c) →
      Serde.deFinish t ds = .ok (.ok c) ∧ c.abs.Fits m.bits := by
    intro t ds h
    rcases Machine.deFinish_cases hb t ds with ⟨h1, h2⟩ | ⟨h1, _⟩
    · rw [h1] at h
      exact ⟨h, h2 c h⟩
    · rw [h1] at h
      cases h
  unfold Machine.deserialize at h
  cases human with
  | true =>
    rw [if_pos rfl] at h
    cases v <;> simp only [Except.ok.injEq, reduceCtorEq] at h
    rename_i n fs
    obtain ⟨x, y, t, ds, h1, h2, h3, h4⟩ := Machine.visitMap_sound h
    obtain ⟨h4, h5⟩ := finish h4
    obtain ⟨g1, g2, g3, g4⟩ := deFinish_sound h4
    obtain ⟨k, xs, k1, k2⟩ := Machine.deBitWidth_human h2
    subst g3
    refine ⟨x, y, k.toNat, ds, ?_, ?_, k2.symm, seqOf_iff.2 (deDigits_ok h3), g1, g2, g4, h5⟩
    · rw [if_pos rfl]
      rcases h1 with rfl | rfl
      · exact ⟨n, Or.inl rfl⟩
      · exact ⟨n, Or.inr rfl⟩
    · unfold StatesWidth
      rw [if_pos rfl]
      exact ⟨k, xs, seqOf_iff.2 k1, rfl⟩
  | false =>
    rw [if_neg (by decide)] at h
    split at h
    · cases h
    · rename_i xs e
      obtain ⟨x, y, rest, t, ds, h1, h2, h3, h4⟩ := Machine.visitSeq_sound h
      obtain ⟨h4, h5⟩ := finish h4
      obtain ⟨g1, g2, g3, g4⟩ := deFinish_sound h4
      obtain ⟨k, k1, k2⟩ := Machine.deBitWidth_compact h2
      subst g3
      refine ⟨x, y, k.toNat, ds, ?_, ?_, k2.symm, seqOf_iff.2 (deDigits_ok h3), g1, g2, g4, h5⟩
      · rw [if_neg (by decide)]
        exact ⟨rest, seqOf_iff.2 (by rw [e, h1])⟩
      · unfold StatesWidth
        rw [if_neg (by decide)]
        exact ⟨k, k1, rfl⟩

/-- C81 fails: a machine with 32-bit words reads an input that states the width `2 ^ 32 + 8` as an
8-bit integer. -/
theorem C81_cut (checks : Bool) :
    ∃ c, (⟨32, checks⟩ : Machine).deserialize false
        (.tuple [.u64 (BitVec.ofNat 64 (2 ^ 32 + 8)), .seq [.u64 200#64]]) = .ok (.ok c) ∧
      c.w = 8 ∧ c.uval = 200 := by
  cases checks <;> exact ⟨_, rfl, by decide, by decide⟩

/-- C81, machines with words of 64 bits or more: an input gives the same answer as without limits,
unless it describes an integer too wide for the machine; then reading it panics. -/
theorem C81_wide_words (h : 64 ≤ m.bits) (human : Bool) (v : SVal) :
    ((∀ c, deserialize human v = .ok (.ok c) → c.w + 64 ≤ 2 ^ m.bits) →
      m.deserialize human v = deserialize human v) ∧
    (∀ c, deserialize human v = .ok (.ok c) → ¬ c.w + 64 ≤ 2 ^ m.bits →
      m.deserialize human v = .error (if m.checks then .overflow else .panic)) := by
  rcases Machine.deserialize_cases h human v with ⟨h1, h2⟩ | ⟨h1, c, h2, h3⟩
  · exact ⟨fun _ => h1, fun c hc hn => absurd (h2 c hc) hn⟩
  · exact ⟨fun hall => absurd (hall c h2) h3, fun _ _ _ => h1⟩

/-- C81: an integer that exists on a machine is read back from its serialized form on every machine
on which it exists. -/
theorem C81_round_trip (human : Bool) {a : ApInt} (ha : a.WF) (hb : 7 ≤ m.bits)
    (hf : a.w + 64 ≤ 2 ^ m.bits) (hw : a.w < 2 ^ 64) :
    ∃ v, serialize human a = .ok v ∧ m.deserialize human v = .ok (.ok a) := by
  obtain ⟨ds, h1, h2, e1, e2⟩ := C47_serialized ha
  have hne : (BitVec.ofNat 64 a.w).toNat % 2 ^ m.bits = a.w := by
    rw [BitVec.toNat_ofNat, Nat.mod_eq_of_lt hw, Nat.mod_eq_of_lt (by omega)]
  have hp := a.pos_w
  have hnew : m.tryNewBitwidth (BitVec.ofNat 64 a.w) = .ok a.len := by
    unfold Machine.tryNewBitwidth Machine.ofU64 BitWidth.new
    rw [dif_neg (by omega)]
    dsimp only
    congr 1
    exact BitWidth.ext hne
  have hfin : m.deFinish a.len ds = .ok (.ok a) := by
    rw [Machine.deFinish_eq (by
      rw [BitWidth.requiredDigits_eq]; exact (m.room_iff (by omega) a.w).2 hf)]
    obtain ⟨c, e, g1, g2, g3⟩ := deFinish_ok (t := a.len) h2
    have : (.ok c : Run ApInt) = .ok a := by
      refine Returns.eq ⟨c, rfl, g1, g2, g3⟩ ?_
      rw [h1, Nat.mod_eq_of_lt ha.2]
      exact ha.self
    injection this with this
    rw [e, this]
  have hds : deDigits (.seq (ds.map .u64)) = .ok ds := by
    simp only [deDigits, deSeq, deDigitList_map]
  cases human with
  | true =>
    refine ⟨_, e1, ?_⟩
    simp [Machine.deserialize, Machine.visitMap, Machine.deFields, Machine.deBitWidth, deSeq, deU64,
      hnew, hds, hfin]
  | false =>
    refine ⟨_, e2, ?_⟩
    simp [Machine.deserialize, Machine.visitSeq, Machine.deBitWidth, deSeq, deU64, hnew, hds, hfin]

example : ∃ v, serialize true a150 = .ok v ∧
    (⟨32, true⟩ : Machine).deserialize true v = .ok (.ok a150) :=
  C81_round_trip true a150_wf (by decide) (by decide) (by decide)
example : ∃ c, (⟨32, false⟩ : Machine).deserialize false
      (.tuple [.u64 8#64, .seq [.u64 200#64]]) = .ok (.ok c) ∧ c.w = 8 % 2 ^ 32 :=
  ⟨_, rfl, rfl⟩

end Verif.Props
