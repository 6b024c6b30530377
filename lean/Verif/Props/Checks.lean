import Verif.Props.Typed
import Verif.Props.Clients
import Verif.Props.Text
import Verif.Props.Overflow

/-!
# Checks that only debug builds have (C74)

The fault `overflow` marks the places where a build with overflow checks and debug assertions stops
and a release build goes on: subtractions of `usize` (`csub`), shifts of primitive integers
(`rawShl`, `rawShr`), sums and differences of `i128` and `u128`, the products of the parser
(`mulAddU64`) and every `debug_assert!`.  No call a user can make ends in it, on any input: a
release build therefore takes the same path and gives the same answer, also when the call ends with
one of the panics that both builds have.
-/

namespace Verif.Props

open ApInt Ex

/-- C74: no call of any history trips a check that only debug builds have; a fault is a panic that
every build has. -/
theorem C74_calls {b : Bank} (hb : Reachable b) (i : Instr) :
    i.exec b ≠ .error .overflow ∧ ∀ f, i.exec b = .error f → f = .panic := by
  have h := exec_agrees i (reachable_wf hb)
  match i.spec (b.map ApInt.abs), h with
  | none, h =>
    have h : i.exec b = .error .panic := h
    rw [h]
    exact ⟨by decide, by rintro f ⟨⟩; rfl⟩
  | some (x, s), ⟨y, c, h, _⟩ =>
    rw [h]
    exact ⟨nofun, nofun⟩

/-- From the bank the program `demo` leaves: shifting the number of 100 bits by 64, where no bit
crosses from one digit to the next. -/
example : ∃ b, Reachable b ∧ b.length = 3 ∧ (Instr.un (.shl 64) 1).exec b ≠ .error .overflow := by
  obtain ⟨h1, h2, h3⟩ := C02_program demo (b := []) (by simp)
  have e : (specRun demo []).2 = _ := congrArg Prod.snd demo_spec
  cases h : (run demo []).2 with
  | error f =>
    have := (h3 f h).2
    rw [List.map_nil, e] at this
    cases this
  | ok b' =>
    have := (h2 b' h).2
    rw [List.map_nil, e] at this
    refine ⟨b', run_reachable demo .start h, ?_, (C74_calls (run_reachable demo .start h) _).1⟩
    simpa using congrArg List.length (Option.some.inj this).symm

/-- C74, whole programs from any bank of well-formed integers. -/
theorem C74_program (p : List Instr) {b : Bank} (hb : ∀ a ∈ b, a.WF) :
    (run p b).2 ≠ .error .overflow := by
  intro e
  cases ((C02_program p hb).2.2 _ e).1

example : (run [.bin .sdiv 0 1, .un (.ashr 85) 0, .ask .octal 0] [a150, b150]).2 ≠
    .error .overflow := C74_program _ (by simp [a150_wf, b150_wf])

/-- C74, programs over `UInt` and `Int`. -/
theorem C74_typed (p : List TInstr) {b : TBank} (hb : ∀ a ∈ b, a.WF) :
    (trun p b).2 ≠ .error .overflow := by
  intro e
  cases ((C69_program p hb).2.2 _ e).1

example : (trun tdemo []).2 ≠ .error .overflow := C74_typed _ (by simp)

/-- C74, clients that catch panics: none of the panics they catch is one of a debug build only. -/
theorem C74_client (c : Client) (n : Nat) {b : Bank} (hb : ∀ a ∈ b, a.WF) :
    play c n [] b ≠ .error .overflow := by
  obtain ⟨b', h, -⟩ := C63_client c n hb
  rw [h]
  nofun

example : play gcdClient 1000 [] [] ≠ .error .overflow := C74_client _ _ (by simp)

/-- C74, integers with heap buffers: neither do the calls that manage buffers. -/
theorem C74_heap [Allocator] {A : Growth} {b : HBank} {h : Heap} (hr : HReachable A b h)
    (i : Instr) : i.hexec A b h ≠ .error .overflow := by
  obtain ⟨bs, h1, h2⟩ := hreachable_rep hr
  have hs := hexec_sim A i h2 (reachable_wf h1)
  have n1 := (C74_calls h1 i).1
  cases he : i.exec bs with
  | error f =>
    rw [he] at hs n1
    intro e
    rw [show i.hexec A b h = .error f from hs] at e
    cases e
    exact n1 rfl
  | ok r =>
    rw [he] at hs
    obtain ⟨v, h', e, -⟩ := hs
    rw [e]
    nofun

attribute [local instance] reusing in
example : ∃ h, HReachable twice [⟨bw 200, .ext 2⟩, ⟨bw 150, .ext 0⟩] h ∧
    (Instr.un (.truncate (bw 150)) 0).hexec twice [⟨bw 200, .ext 2⟩, ⟨bw 150, .ext 0⟩] h ≠
      .error .overflow := by
  obtain ⟨h, hr⟩ := demoHeap_reachable
  exact ⟨h, hr, C74_heap hr _⟩

/-- C74, the calls left out of programs, on every input: reading text (any characters, any radix),
reading serialized data (any data), random integers (any generator), the sums reporting overflow,
and writing text in any radix. -/
theorem C74_others {a b : ApInt} (ha : a.WF) (hb : b.WF) (r : Nat) (s : List Char) (human : Bool)
    (v : SVal) (t : BitWidth) (rng : Nat → Digit) :
    a.isOne ≠ .error .overflow ∧ a.isAllSet ≠ .error .overflow ∧
    a.hashInput ≠ .error .overflow ∧ Serde.serialize human a ≠ .error .overflow ∧
    ApInt.fromStrRadix r s ≠ .error .overflow ∧ a.toStringRadix r ≠ .error .overflow ∧
    Serde.deserialize human v ≠ .error .overflow ∧
    randomWithWidthUsing t rng ≠ .error .overflow ∧ a.randomizeUsing rng ≠ .error .overflow ∧
    a.overflowingUaddAssign b ≠ .error .overflow ∧
    a.overflowingSaddAssign b ≠ .error .overflow := by
  have ok : ∀ {α : Type} {x : Run α}, (∃ y, x = .ok y) → x ≠ .error .overflow := by
    rintro α x ⟨y, rfl⟩
    nofun
  obtain ⟨h1, h2, h3, h4, h5, h6⟩ := C51_others ha r s human v
  have hr : ∀ t, ∃ y, randomWithWidthUsing t rng = .ok y := fun t => by
    obtain ⟨c, e, -⟩ := C46_random t rng
    exact ⟨_, e⟩
  refine ⟨ok h1, ok h2, ok h3, ok h4, ?_, ?_, ?_, ok (hr t), ?_, ?_, ?_⟩
  · by_cases h : 2 ≤ r ∧ r ≤ 36
    · exact ok (h5.mpr h)
    · rw [(C44_radix (r := r) (s := s)).2.2.mpr h]
      decide
  · rw [(C42_unimplemented (r := r) ha).2]
    decide
  · by_cases h : human = false ∧ SeqOf v []
    · rw [((C47_panics_iff human v).1).mpr h]
      decide
    · exact ok (h6.mpr h)
  · rw [C46_randomize ha rng]
    exact ok (hr _)
  · by_cases h : a.len = b.len
    · obtain ⟨c, e, -⟩ := C54_behaviour ha hb h _ rfl
      exact ok ⟨_, e⟩
    · exact ok ⟨_, (C55_mismatch ha hb h).1⟩
  · by_cases h : a.len = b.len
    · obtain ⟨c, e, -⟩ := C55_sadd ha hb h
      exact ok ⟨_, e⟩
    · exact ok ⟨_, (C55_mismatch ha hb h).2⟩

example : ApInt.fromStrRadix 19 "9999999999999999999999999999999999".toList ≠ .error .overflow :=
  (C74_others a7_wf a7_wf 19 _ true (.u64 0) (bw 1) fun _ => 0).2.2.2.2.1

/-- The checks are there: below the public interface a word shifted by its width is the fault. -/
example : ApInt.mulAddU64 (2 ^ 63) 2 0 = .error .overflow ∧ csub 1 2 = .error .overflow ∧
    rawShl (1#64) 64 = .error .overflow := by
  decide +kernel

end Verif.Props
