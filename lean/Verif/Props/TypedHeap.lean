import Verif.Proof.TypedHeap
import Verif.Props.Clients
import Verif.Props.Typed

/-!
# Clients of `UInt` and `Int`, and the memory they use (C82)

`TInstr.script` lists the calls a method of `UInt` or `Int` makes on the fields of its arguments.
`tplay` runs a client by these scripts, on the pure model (`Instr.caught`) or with pointers into a
heap (`pointerCall`); `tspecPlay` runs it on the machine over integers.
-/

namespace Verif.Props

open ApInt Ex

/-- C82: run by its script, a method does what C69 is about: it returns the same answer and the
same integers, and panics at the same inputs. -/
theorem C82_same_code (i : TInstr) {b : TBank} (hb : ∀ a ∈ b, a.WF) :
    (∀ r b', i.exec b = .ok (r, b') →
      i.caught Instr.caught (b.map WInt.kind) (b.map WInt.value) =
        .ok (.returned r, b'.map WInt.kind, b'.map WInt.value)) ∧
    (∀ f, i.exec b = .error f → f = .panic ∧ ∃ ks v,
      i.caught Instr.caught (b.map WInt.kind) (b.map WInt.value) = .ok (.panicked, ks, v)) := by
  have hl := lower_call b i
  unfold Lower at hl
  constructor
  · intro r b' e
    rw [e] at hl
    unfold TInstr.caught
    rw [play_ok hl]
    rfl
  · intro f e
    have h := texec_agrees hb i
    obtain ⟨s, b', e', _, h'⟩ := tcaught_agrees hb i
    cases hs : i.spec (b.map WInt.num) with
    | some p =>
      rw [hs] at h
      obtain ⟨y, b', h, _⟩ := h
      rw [h] at e; cases e
    | none =>
      rw [hs] at h
      have h : i.exec b = .error .panic := h
      rw [h] at e; cases e
      refine ⟨rfl, b'.map WInt.kind, b'.map WInt.value, ?_⟩
      rw [e']
      unfold TInstr.specCaught at h'
      rw [hs] at h'
      cases s with
      | returned r => cases congrArg Prod.fst h'
      | panicked => rfl

/-- C82: one call of a client agrees with the machine over integers, also in what a panic leaves. -/
theorem C82_call (i : TInstr) {b : TBank} (hb : ∀ a ∈ b, a.WF) :
    ∃ (s : TSeen) (b' : TBank), i.caught Instr.caught (b.map WInt.kind) (b.map WInt.value) =
        .ok (s, b'.map WInt.kind, b'.map WInt.value) ∧ (∀ a ∈ b', a.WF) ∧
      s.abs = (i.specCaught (b.map WInt.num)).1 ∧
      b'.map WInt.num = (i.specCaught (b.map WInt.num)).2 := by
  obtain ⟨s, b', e, w, h⟩ := tcaught_agrees hb i
  exact ⟨s, b', e, w, congrArg Prod.fst h, congrArg Prod.snd h⟩

/-- The calls that take an integer by value. -/
def TakesByValue (x : Nat) : TInstr → Prop
  | .intoUn _ y | .opUn _ y | .intoBin _ y _ | .op _ y _ => y = x
  | _ => False

/-- The in-place divisions. -/
def DividesInPlace : TInstr → Prop
  | .bin .div _ _ | .bin .rem _ _ | .opAssign .div _ _ | .opAssign .rem _ _ => True
  | _ => False

theorem num_bank_inj {b c : TBank} (hb : ∀ a ∈ b, a.WF) (hc : ∀ a ∈ c, a.WF)
    (h : b.map WInt.num = c.map WInt.num) : b = c := by
  induction b generalizing c with
  | nil => cases c with
    | nil => rfl
    | cons => cases h
  | cons x b ih =>
    cases c with
    | nil => cases h
    | cons y c =>
      have h1 : x.num = y.num := (List.cons.inj h).1
      have h2 := (C69_faithful (hb x (by simp)) (hc y (by simp))).2.2.mp h1
      rw [h2, ih (fun a ha => hb a (by simp [ha])) (fun a ha => hc a (by simp [ha]))
        (List.cons.inj h).2]

/-- C82: a call that panics drops the integer it took by value; all other integers are exactly as
before, unless it is an in-place division. -/
theorem C82_panic (i : TInstr) {b : TBank} (hb : ∀ a ∈ b, a.WF) (hp : i.exec b = .error .panic) :
    (∀ x, TakesByValue x i → i.caught Instr.caught (b.map WInt.kind) (b.map WInt.value) =
      .ok (.panicked, (b.eraseIdx x).map WInt.kind, (b.eraseIdx x).map WInt.value)) ∧
    ((∀ x, ¬ TakesByValue x i) → ¬ DividesInPlace i →
      i.caught Instr.caught (b.map WInt.kind) (b.map WInt.value) =
        .ok (.panicked, b.map WInt.kind, b.map WInt.value)) := by
  obtain ⟨s, b', e, w, h⟩ := tcaught_agrees hb i
  have ha := texec_agrees hb i
  have hs : i.spec (b.map WInt.num) = none := by
    cases hs : i.spec (b.map WInt.num) with
    | none => rfl
    | some p =>
      rw [hs] at ha
      obtain ⟨y, b', h, _⟩ := ha
      rw [h] at hp; cases hp
  unfold TInstr.specCaught at h
  rw [hs] at h
  have hsp : s = .panicked := by
    cases s with
    | returned r => cases congrArg Prod.fst h
    | panicked => rfl
  have h2 : b'.map WInt.num = i.specLeft (b.map WInt.num) := congrArg Prod.snd h
  subst hsp
  constructor
  · intro x hx
    have h3 : i.specLeft (b.map WInt.num) = (b.eraseIdx x).map WInt.num := by
      rw [← List.eraseIdx_map]
      cases i <;> cases hx <;> rfl
    rw [e, num_bank_inj w (fun a ha => hb a (List.mem_of_mem_eraseIdx ha)) (h2.trans h3)]
  · intro hx hd
    have h3 : i.specLeft (b.map WInt.num) = b.map WInt.num := by
      cases i with
      | intoUn o x => exact absurd rfl (hx x)
      | opUn o x => exact absurd rfl (hx x)
      | intoBin o x y => exact absurd rfl (hx x)
      | op o x y => exact absurd rfl (hx x)
      | bin o x y => cases o <;> first | rfl | exact absurd trivial hd
      | opAssign o x y => cases o <;> first | rfl | exact absurd trivial hd
      | _ => rfl
    rw [e, num_bank_inj w hb (h2.trans h3)]

/-- C82: whatever a client of `UInt` and `Int` does, it is told what the machine over integers
tells it, through caught panics, and its integers stand for the numbers of that machine. -/
theorem C82_client (c : TClient) (n : Nat) (seen : List ATSeen) {b : TBank} (hb : ∀ a ∈ b, a.WF) :
    ∃ b' : TBank, tplay Instr.caught c n seen (b.map WInt.kind) (b.map WInt.value) =
        .ok ((tspecPlay c n seen (b.map WInt.num)).1, b'.map WInt.kind, b'.map WInt.value) ∧
      (∀ a ∈ b', a.WF) ∧ b'.map WInt.num = (tspecPlay c n seen (b.map WInt.num)).2 := by
  induction n generalizing seen b with
  | zero => exact ⟨b, rfl, hb, rfl⟩
  | succ n ih =>
    unfold tplay tspecPlay
    cases c seen with
    | none => exact ⟨b, rfl, hb, rfl⟩
    | some i =>
      obtain ⟨s, b', e, w, h1, h2⟩ := C82_call i hb
      obtain ⟨b'', e', h⟩ := ih (seen ++ [s.abs]) w
      rw [h1, h2] at e' h
      refine ⟨b'', ?_, h⟩
      simp only [e, run_bind_ok, h1]
      exact e'

section

variable [Allocator] {A : Growth}

/-- A script with pointers follows the one of the pure model. -/
theorem script_sim (s : Script) {xs : HBank} {h : Heap} {v : Bank} (hh : HReachable A xs h)
    (hr : Rep h xs v) (hv : ∀ a ∈ v, a.WF) :
    ∃ o xs' h' v', s.play (pointerCall A) (xs, h) = .ok (o, xs', h') ∧
      s.play Instr.caught v = .ok (o, v') ∧ HReachable A xs' h' ∧ Rep h' xs' v' ∧
      ∀ a ∈ v', a.WF := by
  induction s generalizing xs h v with
  | done r ks => exact ⟨_, xs, h, v, rfl, rfl, hh, hr, hv⟩
  | panic => exact ⟨_, xs, h, v, rfl, rfl, hh, hr, hv⟩
  | call i k ih =>
    obtain ⟨s, xs', h', v', e1, e2, hr', hv'⟩ := hcaught_sim A i hr hv
    have hh' : HReachable A xs' h' := hcaught_reachable hh e1
    unfold Script.play
    simp only [pointerCall, e1, e2, run_bind_ok]
    cases s with
    | panicked => exact ⟨none, xs', h', v', rfl, rfl, hh', hr', hv'⟩
    | returned r => exact ih r hh' hr' hv'

/-- A method with pointers follows the one of the pure model. -/
theorem tcaught_sim (i : TInstr) (ks : List Kind) {xs : HBank} {h : Heap} {v : Bank}
    (hh : HReachable A xs h) (hr : Rep h xs v) (hv : ∀ a ∈ v, a.WF) :
    ∃ s ks' xs' h' v', i.caught (pointerCall A) ks (xs, h) = .ok (s, ks', xs', h') ∧
      i.caught Instr.caught ks v = .ok (s, ks', v') ∧ HReachable A xs' h' ∧ Rep h' xs' v' ∧
      ∀ a ∈ v', a.WF := by
  obtain ⟨o, xs', h', v', e1, e2, hh', hr', hv'⟩ := script_sim (i.script ks) hh hr hv
  unfold TInstr.caught
  simp only [e1, e2, run_bind_ok]
  cases o with
  | some p => exact ⟨_, _, xs', h', v', rfl, rfl, hh', hr', hv'⟩
  | none =>
    dsimp only
    cases i.consumes with
    | none => exact ⟨_, _, xs', h', v', rfl, rfl, hh', hr', hv'⟩
    | some x =>
      obtain ⟨s, xs'', h'', v'', e3, e4, hr'', hv''⟩ := hcaught_sim A (.drop x) hr' hv'
      refine ⟨.panicked, ks.eraseIdx x, xs'', h'', v'', ?_, ?_, hcaught_reachable hh' e3, hr'', hv''⟩
      · simp only [pointerCall, e3, run_bind_ok]
      · simp only [e4, run_bind_ok]

end

/-- C82: a client of `UInt` and `Int` with pointers, from no integer and an unused heap, is told
what the machine over integers tells it whatever the allocator does, through caught panics as well.
At any point of its run every buffer was freed at most once and with its capacity, the live buffers
are exactly those of its integers, reading them gives integers standing for the numbers of that
machine, and dropping these frees all that was ever allocated. -/
theorem C82_memory [Allocator] (A : Growth) (c : TClient) (n : Nat) :
    ∃ ks xs h, tplay (pointerCall A) c n [] [] ([], ⟨[], []⟩) =
        .ok ((tspecPlay c n [] []).1, ks, xs, h) ∧
      NoMisuse h.log ∧
      (∀ p cap, LiveAt h.log p cap ↔ ∃ x ∈ xs, x.data = .ext p ∧ cap = (x.len.toUsize + 63) / 64) ∧
      (∃ b : TBank, ks = b.map WInt.kind ∧
        List.Forall₂ (fun x a => x.load h = .ok (a, h)) xs (b.map WInt.value) ∧
        b.map WInt.num = (tspecPlay c n [] []).2) ∧
      ∃ h', dropAll xs h = .ok ((), h') ∧ h'.cells = [] ∧ AllFreed h'.log := by
  have key : ∀ n seen ks {xs : HBank} {h : Heap} {v : Bank}, HReachable A xs h → Rep h xs v →
      (∀ a ∈ v, a.WF) → ∃ seen' ks' xs' h' v',
        tplay (pointerCall A) c n seen ks (xs, h) = .ok (seen', ks', xs', h') ∧
        tplay Instr.caught c n seen ks v = .ok (seen', ks', v') ∧ HReachable A xs' h' ∧
        Rep h' xs' v' ∧ ∀ a ∈ v', a.WF := by
    intro n
    induction n with
    | zero => intro seen ks xs h v h1 h2 h3; exact ⟨seen, ks, xs, h, v, rfl, rfl, h1, h2, h3⟩
    | succ n ih =>
      intro seen ks xs h v h1 h2 h3
      unfold tplay
      cases c seen with
      | none => exact ⟨seen, ks, xs, h, v, rfl, rfl, h1, h2, h3⟩
      | some i =>
        obtain ⟨s, ks', xs', h', v', e1, e2, h4, h5, h6⟩ := tcaught_sim i ks h1 h2 h3
        simp only [e1, e2, run_bind_ok]
        exact ih (seen ++ [s.abs]) ks' h4 h5 h6
  obtain ⟨seen', ks, xs, h, v, e1, e2, hr, hrep, hwf⟩ := key n [] [] .start Rep.empty (by simp)
  obtain ⟨b, h1, _, h2⟩ := C82_client c n [] (b := []) (by simp)
  cases e2.symm.trans h1
  refine ⟨_, xs, h, e1, C53_freed_once hr, C53_live hr, ⟨b, rfl, ?_, h2⟩, C53_nothing_left hr⟩
  refine List.forall₂_iff_get.mpr ⟨hrep.mat.length_eq, ?_⟩
  intro i hi hi'
  have hx : xs[i]? = some (xs.get ⟨i, hi⟩) := by simp [hi]
  have ha : (b.map WInt.value)[i]? = some ((b.map WInt.value).get ⟨i, hi'⟩) := by
    rw [List.getElem?_eq_getElem hi']; rfl
  obtain ⟨s1, s2, s3⟩ := hrep.cells hwf hx ha
  exact Sees.load ⟨s1, s2, _, hrep.sep, s3⟩

/-- A client with an `Int` of 65 bits and one of 128 bits, dividing the first by the second. -/
def carelessIntClient : TClient := fun seen =>
  [.make (.i64 (-7)), .make (.i64 (-2)), .un (.extend (bw 65)) 0, .un (.extend (bw 128)) 1,
    .opAssign .div 0 1, .ask .lowerHex 0, .op .div 0 1, .clone 0, .op .mul 0 1, .intoUnsigned 0,
    .ask .signum 0, .ask2 .lt 0 0][seen.length]?

theorem carelessIntClient_spec : tspecPlay carelessIntClient 20 [] [] =
    ([.returned (.ok (.out .unit)), .returned (.ok (.out .unit)), .returned (.ok (.out .unit)),
      .returned (.ok (.out .unit)), .panicked, .returned (.ok (.out (.text ['7']))), .panicked,
      .returned (.ok (.out .unit)), .returned (.ok (.out .unit)), .returned (.ok (.out .unit)),
      .returned (.ok (.out .unit)), .returned (.ok (.out (.bool false)))],
     [⟨.unsigned, 128, 4⟩, ⟨.signed, 128, -2⟩]) := by
  decide +kernel

example : ∃ b' : TBank, tplay Instr.caught carelessIntClient 20 [] [] [] =
      .ok ((tspecPlay carelessIntClient 20 [] []).1, b'.map WInt.kind, b'.map WInt.value) ∧
    b'.map WInt.num = [⟨.unsigned, 128, 4⟩, ⟨.signed, 128, -2⟩] := by
  obtain ⟨b', h1, _, h2⟩ := C82_client carelessIntClient 20 [] (b := []) (by simp)
  have e : tspecPlay carelessIntClient 20 [] (List.map WInt.num []) = _ := carelessIntClient_spec
  rw [e] at h2
  exact ⟨b', h1, h2⟩

/-- Two `Int`s of 7 bits, -28 and 60 - 64, and an `Int` and a `UInt` of 7 bits. -/
example : ∃ (s : TSeen) (b' : TBank),
    (TInstr.bin .sub 0 1).caught Instr.caught [.signed, .signed, .unsigned] [a7, b7, b7] =
      .ok (s, b'.map WInt.kind, b'.map WInt.value) ∧ s.abs = .returned (.ok (.out .unit)) ∧
    b'.map WInt.num = [⟨.signed, 7, -88 + 128⟩, ⟨.signed, 7, 60⟩, ⟨.unsigned, 7, 60⟩] := by
  obtain ⟨s, b', h1, _, h2, h3⟩ := C82_call (.bin .sub 0 1) (b := [.s ⟨a7⟩, .s ⟨b7⟩, .u ⟨b7⟩])
    (by simp [WInt.WF, a7_wf, b7_wf])
  exact ⟨s, b', h1, h2.trans (by decide +kernel), h3.trans (by decide +kernel)⟩

/-- A shift of an `Int` is arithmetic, that of a `UInt` is not; -28 and 100 at 7 bits. -/
example : ∃ b' : TBank, (TInstr.opShift (.shr 2) 0).exec [.s ⟨a7⟩, .u ⟨a7⟩] =
      .ok (.ok (.out .unit), b') ∧ b'.map WInt.num = [⟨.signed, 7, -7⟩, ⟨.unsigned, 7, 100⟩] ∧
    (TInstr.opShift (.shr 2) 0).caught Instr.caught [.signed, .unsigned] [a7, a7] =
      .ok (.returned (.ok (.out .unit)), b'.map WInt.kind, b'.map WInt.value) :=
  ⟨_, rfl, by decide +kernel,
    (C82_same_code (.opShift (.shr 2) 0) (b := [.s ⟨a7⟩, .u ⟨a7⟩])
      (by simp [WInt.WF, a7_wf])).1 _ _ rfl⟩

-- A panicking operator drops its left operand; a panicking assignment keeps it.
example : (TInstr.op .add 0 1).caught Instr.caught [.signed, .signed] [a65, b128] =
    .ok (.panicked, [.signed], [b128]) :=
  (C82_panic (.op .add 0 1) (b := [.s ⟨a65⟩, .s ⟨b128⟩]) (by simp [WInt.WF, a65_wf, b128_wf])
    rfl).1 0 rfl
example : (TInstr.opAssign .add 0 1).caught Instr.caught [.signed, .signed] [a65, b128] =
    .ok (.panicked, [.signed, .signed], [a65, b128]) :=
  (C82_panic (.opAssign .add 0 1) (b := [.s ⟨a65⟩, .s ⟨b128⟩]) (by simp [WInt.WF, a65_wf, b128_wf])
    rfl).2 (fun _ => id) id

attribute [local instance] reusing

/-- The requests of the client to the allocator: extending -7 and -2, the copies of the divisor in
the two divisions that panic, the integer that the second one had taken by value, and a clone. -/
theorem carelessIntClient_heap :
    (tplay (pointerCall twice) carelessIntClient 20 [] [] ([], ⟨[], []⟩)).map
        (fun r => (r.2.1, r.2.2.1, r.2.2.2.log)) =
      .ok ([.unsigned, .signed], [⟨bw 128, .ext 1⟩, ⟨bw 128, .ext 0⟩],
        [.alloc 0 4, .free 0 4, .alloc 0 2, .alloc 1 4, .free 1 4, .alloc 1 2,
         .alloc 2 4, .free 2 4, .alloc 2 2, .free 2 2,
         .alloc 2 4, .free 2 4, .alloc 2 2, .free 2 2, .free 0 2,
         .alloc 0 4, .free 0 4, .alloc 0 2]) := by
  decide +kernel

end Verif.Props
