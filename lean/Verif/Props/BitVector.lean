import Verif.Proof.Expr
import Verif.Props.Witness

/-!
# C56: the API is the theory of fixed-width bit-vectors
-/

namespace Verif.Props

open ApInt Ex

variable {ι : Type} {Γ : ι → BitWidth}

/-- The variables hold well-formed integers of their widths. -/
def Env (Γ : ι → BitWidth) (ρ : ι → ApInt) : Prop := ∀ i, (ρ i).WF ∧ (ρ i).len = Γ i

/-- Two expressions give the same integer wherever one of them gives one, and report an error
together otherwise. -/
def Same {w : BitWidth} (e f : Expr Γ w) : Prop :=
  ∀ ρ, Env Γ ρ →
    (∃ c, e.eval ρ = .ok (.ok c) ∧ f.eval ρ = .ok (.ok c)) ∨
    (∃ x y, e.eval ρ = .ok (.error x) ∧ f.eval ρ = .ok (.error y))

/-- The evaluation gave an integer. -/
def gives (r : Run (Res ApInt)) : Bool :=
  match r with
  | .ok (.ok _) => true
  | _ => false

theorem Same.value {w : BitWidth} {e f : Expr Γ w} (h : Same e f) {ρ : ι → ApInt} (hρ : Env Γ ρ)
    (hd : gives (e.eval ρ) = true) : e.eval ρ = f.eval ρ := by
  rcases h ρ hρ with ⟨c, h1, h2⟩ | ⟨x, y, h1, h2⟩
  · rw [h1, h2]
  · rw [h1] at hd
    cases hd

theorem abs_of {a : ApInt} {w : BitWidth} {x : BitVec w.toUsize} (h : a.len = w)
    (hv : a.uval = x.toNat) : a.abs = AInt.ofBV x := by
  unfold ApInt.abs ApInt.w
  rw [h, hv]

theorem of_abs {a : ApInt} {w : BitWidth} {x : BitVec w.toUsize} (h : a.abs = AInt.ofBV x) :
    a.len = w ∧ a.uval = x.toNat :=
  ⟨BitWidth.ext (congrArg AInt.width h), congrArg AInt.bits h⟩

/-- C56: evaluating an expression with the calls of the API gives the bit-vector that is its
meaning, and reports an error exactly where it has none.  In particular it never panics. -/
theorem C56_eval {ρ : ι → ApInt} {β : (i : ι) → BitVec (Γ i).toUsize}
    (h : ∀ i, (ρ i).WF ∧ (ρ i).len = Γ i ∧ (ρ i).uval = (β i).toNat) {w : BitWidth}
    (e : Expr Γ w) :
    (∀ v, e.den β = some v →
      ∃ c, e.eval ρ = .ok (.ok c) ∧ c.WF ∧ c.len = w ∧ c.uval = v.toNat) ∧
    (e.den β = none → ∃ err, e.eval ρ = .ok (.error err)) := by
  have h1 := eval_agrees (fun i => ⟨(h i).1, abs_of (h i).2.1 (h i).2.2⟩) e
  constructor
  · intro v hv
    rw [hv] at h1
    obtain ⟨c, e, h2, h3⟩ := h1
    exact ⟨c, e, h2, (of_abs h3).1, (of_abs h3).2⟩
  · intro hv
    rw [hv] at h1
    exact h1

/-- Two variables of 150 bits. -/
abbrev two150 : Bool → BitWidth := fun _ => bw 150

/-- `if x <s y { x / y } else { (x << 131) - y }` at 150 bits, then the low 65 bits sign extended to
300 bits. -/
def demoExpr : Expr two150 (bw 300) :=
  .un (.signExtend (bw 300)) (.un (.truncate (bw 65))
    (.pick .slt (.var true) (.var false) (.bin .sdiv (.var true) (.var false))
      (.bin .sub (.un (.shl 131) (.var true)) (.var false))))

example : ∃ c, demoExpr.eval (fun i => if i then b150 else a150) = .ok (.ok c) ∧ c.WF ∧
    c.len = bw 300 := by
  have h := C56_eval (Γ := two150) (ρ := fun i => if i then b150 else a150)
    (β := fun i => BitVec.ofNat 150 (if i then b150.uval else a150.uval))
    (by
      intro i
      cases i
      · exact ⟨a150_wf, by decide, by decide +kernel⟩
      · exact ⟨b150_wf, by decide, by decide +kernel⟩) demoExpr
  obtain ⟨v, hv⟩ := Option.isSome_iff_exists.mp (show (demoExpr.den (fun i => BitVec.ofNat 150
    (if i then b150.uval else a150.uval))).isSome = true by decide +kernel)
  obtain ⟨c, h1, h2, h3, -⟩ := h.1 v hv
  exact ⟨c, h1, h2, h3⟩

/-- C56: integers of width `w` and bit-vectors of width `w` are the same thing: every bit-vector is
the value of exactly one well-formed integer of that width. -/
theorem C56_bijection (w : BitWidth) (x : BitVec w.toUsize) :
    ∃ a : ApInt, (a.WF ∧ a.len = w ∧ a.uval = x.toNat) ∧
      ∀ b : ApInt, b.WF → b.len = w → b.uval = x.toNat → b = a := by
  obtain ⟨a, h1, h2⟩ := exists_apint w x
  refine ⟨a, ⟨h1, of_abs h2⟩, fun b hb hl hv => ?_⟩
  exact abs_inj hb h1 ((abs_of hl hv).trans h2.symm)

example : ∃ a : ApInt, a.WF ∧ a.len = bw 150 ∧ a.uval = 2 ^ 149 + 7 := by
  obtain ⟨a, h, -⟩ := C56_bijection (bw 150) (BitVec.ofNat 150 (2 ^ 149 + 7))
  exact ⟨a, h.1, h.2.1, by rw [h.2.2]; decide +kernel⟩

/-- C56: an identity between expressions holds for the API exactly when it holds for
bit-vectors. -/
theorem C56_identity {w : BitWidth} (e f : Expr Γ w) :
    Same e f ↔ ∀ β, e.den β = f.den β := by
  constructor
  · intro h β
    have hex : ∀ i, ∃ a : ApInt, a.WF ∧ a.abs = AInt.ofBV (β i) := fun i => exists_apint (Γ i) (β i)
    let ρ : ι → ApInt := fun i => Classical.choose (hex i)
    have hρ : ∀ i, (ρ i).WF ∧ (ρ i).abs = AInt.ofBV (β i) := fun i => Classical.choose_spec (hex i)
    have he := eval_agrees hρ e
    have hf := eval_agrees hρ f
    rcases h ρ (fun i => ⟨(hρ i).1, (of_abs (hρ i).2).1⟩) with ⟨c, h1, h2⟩ | ⟨x, y, h1, h2⟩
    · match e.den β, f.den β, he, hf with
      | none, _, ⟨x, he⟩, _ => rw [h1] at he; cases he
      | some _, none, _, ⟨x, hf⟩ => rw [h2] at hf; cases hf
      | some u, some v, ⟨c1, e1, _, h3⟩, ⟨c2, e2, _, h4⟩ =>
        rw [h1] at e1
        rw [h2] at e2
        cases e1
        cases e2
        refine congrArg some (BitVec.eq_of_toNat_eq ?_)
        rw [← (of_abs h3).2, ← (of_abs h4).2]
    · match e.den β, f.den β, he, hf with
      | none, none, _, _ => rfl
      | some _, _, ⟨c, he, _⟩, _ => rw [h1] at he; cases he
      | none, some _, _, ⟨c, hf, _⟩ => rw [h2] at hf; cases hf
  · intro h ρ hρ
    let β : (i : ι) → BitVec (Γ i).toUsize := fun i => BitVec.ofNat _ (ρ i).uval
    have hβ : ∀ i, (ρ i).WF ∧ (ρ i).abs = AInt.ofBV (β i) := by
      intro i
      refine ⟨(hρ i).1, abs_of (hρ i).2 ?_⟩
      have := (hρ i).1.2
      unfold ApInt.w at this
      rw [(hρ i).2] at this
      show _ = (BitVec.ofNat _ _).toNat
      rw [BitVec.toNat_ofNat, Nat.mod_eq_of_lt this]
    have he := eval_agrees hβ e
    have hf := eval_agrees hβ f
    rw [h β] at he
    match f.den β, he, hf with
    | none, ⟨x, he⟩, ⟨y, hf⟩ => exact .inr ⟨x, y, he, hf⟩
    | some v, ⟨c, he, h1, h2⟩, ⟨d, hf, h3, h4⟩ =>
      refine .inl ⟨c, he, ?_⟩
      rw [hf, abs_inj h3 h1 (h4.trans h2.symm)]

end Verif.Props
