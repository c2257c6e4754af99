import Verif.Spec.Change
import Verif.Props.Faults

/-!
# Expressions under a change of units
-/

namespace Verif

namespace Change
variable (χ : Change)

theorem factor_pos (d : Dim) : 0 < χ.factor d := by
  have := fun i (q : ℝ) => Real.rpow_pos_of_pos (χ.pos i) q
  unfold factor
  exact mul_pos (this _ _) (mul_pos (this _ _) (mul_pos (this _ _) (mul_pos (this _ _) (mul_pos (this _ _) (this _ _)))))

theorem factor_zero : χ.factor 0 = 1 := by simp [factor]

theorem factor_add (d e : Dim) : χ.factor (d + e) = χ.factor d * χ.factor e := by
  unfold factor
  simp only [Prod.fst_add, Prod.snd_add, Rat.cast_add, Real.rpow_add (χ.pos _)]
  ring

theorem factor_smul (q : ℚ) (d : Dim) : χ.factor (q • d) = χ.factor d ^ (q : ℝ) := by
  have h := fun i => (χ.pos i).le
  have hp := fun i (q : ℝ) => Real.rpow_nonneg (h i) q
  unfold factor
  simp only [Prod.smul_fst, Prod.smul_snd, smul_eq_mul, Rat.cast_mul]
  have m2 := fun {x : ℝ} (hx : 0 ≤ x) i (q : ℝ) => mul_nonneg (hp i q) hx
  rw [Real.mul_rpow (hp _ _) (m2 (m2 (m2 (m2 (hp _ _) _ _) _ _) _ _) _ _),
    Real.mul_rpow (hp _ _) (m2 (m2 (m2 (hp _ _) _ _) _ _) _ _), Real.mul_rpow (hp _ _) (m2 (m2 (hp _ _) _ _) _ _),
    Real.mul_rpow (hp _ _) (m2 (hp _ _) _ _), Real.mul_rpow (hp _ _) (hp _ _)]
  simp only [← Real.rpow_mul (h _), mul_comm]

theorem factor_neg (d : Dim) : χ.factor (-d) = (χ.factor d)⁻¹ := by
  exact eq_inv_of_mul_eq_one_left (by rw [← factor_add, neg_add_cancel, factor_zero])

end Change

theorem mul_rpow_pos {l : ℝ} (hl : 0 < l) (x q : ℝ) : (l * x) ^ q = l ^ q * x ^ q := by
  rcases le_or_gt 0 x with hx | hx
  · exact Real.mul_rpow hl.le hx
  · rw [Real.rpow_def_of_neg (mul_neg_of_pos_of_neg hl hx), Real.rpow_def_of_neg hx, Real.rpow_def_of_pos hl,
      Real.log_mul hl.ne' hx.ne, add_mul, Real.exp_add]
    ring

theorem powFault_scale {l : ℝ} (hl : 0 < l) (x : ℝ) (q : ℚ) : powFault (l * x) q = powFault x q := by
  unfold powFault
  simp only [mul_eq_zero, hl.ne', false_or, mul_neg_iff, hl, true_and, hl.not_gt, false_and, or_false]

/-- Dimensional analysis of an expression on plain numbers; `none`: not homogeneous, or with constants in units. -/
def Code.dims (δ : ℕ → Option Dim) : Code → Option Dim
  | .var i => δ i
  | .lit _ | .pi => some 0
  | .const _ _ _ | .conv _ _ => none
  | .mul x y => match x.dims δ, y.dims δ with
    | some d, some e => some (d + e)
    | _, _ => none
  | .div x y => match x.dims δ, y.dims δ with
    | some d, some e => some (d + -e)
    | _, _ => none
  | .add x y | .sub x y => match x.dims δ, y.dims δ with
    | some d, some e => if d = e then some d else none
    | _, _ => none
  | .neg x => x.dims δ
  | .pow x q => match x.dims δ with
    | some d => some (q • d)
    | none => none
  | .fn _ x => match x.dims δ with
    | some d => if d = 0 then some 0 else none
    | none => none

theorem Code.dims_scale (χ : Change) {δ : ℕ → Option Dim} {x y : ℕ → ℝ}
    (h : ∀ i d, δ i = some d → y i = χ.factor d * x i) (c : Code) :
    ∀ d, c.dims δ = some d → c.eval y = χ.factor d * c.eval x ∧ c.fault y = c.fault x := by
  induction c with
  | var i => exact fun d hd => ⟨h i d hd, rfl⟩
  | lit q => rintro d ⟨⟩; exact ⟨by simp [Code.eval, χ.factor_zero], rfl⟩
  | pi => rintro d ⟨⟩; exact ⟨by simp [Code.eval, χ.factor_zero], rfl⟩
  | const c q u => intro d hd; cases hd
  | conv a t => intro d hd; cases hd
  | mul a b iha ihb =>
    intro d hd
    simp only [Code.dims] at hd
    split at hd
    next d1 d2 e1 e2 =>
      cases hd
      obtain ⟨a1, a2⟩ := iha _ e1
      obtain ⟨b1, b2⟩ := ihb _ e2
      refine ⟨?_, by simp only [Code.fault, a2, b2]⟩
      rw [Code.eval, Code.eval, a1, b1, χ.factor_add]; ring
    next => cases hd
  | div a b iha ihb =>
    intro d hd
    simp only [Code.dims] at hd
    split at hd
    next d1 d2 e1 e2 =>
      cases hd
      obtain ⟨a1, a2⟩ := iha _ e1
      obtain ⟨b1, b2⟩ := ihb _ e2
      have hp := (χ.factor_pos d2).ne'
      refine ⟨?_, by simp only [Code.fault, a2, b2, b1, mul_eq_zero, hp, false_or]⟩
      rw [Code.eval, Code.eval, a1, b1, χ.factor_add, χ.factor_neg]
      rw [mul_div_mul_comm, div_eq_mul_inv (χ.factor d1)]
    next => cases hd
  | add a b iha ihb =>
    intro d hd
    simp only [Code.dims] at hd
    split at hd
    next d1 d2 e1 e2 =>
      split at hd
      next h12 =>
        cases hd; subst h12
        obtain ⟨a1, a2⟩ := iha _ e1
        obtain ⟨b1, b2⟩ := ihb _ e2
        refine ⟨?_, by simp only [Code.fault, a2, b2]⟩
        rw [Code.eval, Code.eval, a1, b1]; ring
      next => cases hd
    next => cases hd
  | sub a b iha ihb =>
    intro d hd
    simp only [Code.dims] at hd
    split at hd
    next d1 d2 e1 e2 =>
      split at hd
      next h12 =>
        cases hd; subst h12
        obtain ⟨a1, a2⟩ := iha _ e1
        obtain ⟨b1, b2⟩ := ihb _ e2
        refine ⟨?_, by simp only [Code.fault, a2, b2]⟩
        rw [Code.eval, Code.eval, a1, b1]; ring
      next => cases hd
    next => cases hd
  | neg a ih =>
    intro d hd
    obtain ⟨a1, a2⟩ := ih d hd
    exact ⟨by rw [Code.eval, Code.eval, a1]; ring, a2⟩
  | pow a q ih =>
    intro d hd
    simp only [Code.dims] at hd
    split at hd
    next d1 e1 =>
      cases hd
      obtain ⟨a1, a2⟩ := ih _ e1
      exact ⟨by rw [Code.eval, Code.eval, a1, χ.factor_smul, mul_rpow_pos (χ.factor_pos _)], by
        simp only [Code.fault, a2, a1, powFault_scale (χ.factor_pos _)]⟩
    next => cases hd
  | fn f a ih =>
    intro d hd
    simp only [Code.dims] at hd
    split at hd
    next d1 e1 =>
      split at hd
      next h0 =>
        cases hd; subst h0
        obtain ⟨a1, a2⟩ := ih _ e1
        rw [χ.factor_zero, one_mul] at a1 ⊢
        exact ⟨by rw [Code.eval, Code.eval, a1], by simp only [Code.fault, a2, a1]⟩
      next => cases hd
    next => cases hd

/-- Whether the value moves with the zero of the temperature; `none`: it depends on it in another way. -/
def Code.moves (τ : ℕ → Option Bool) : Code → Option Bool
  | .var i => τ i
  | .lit _ | .pi => some false
  | .const _ _ _ | .conv _ _ => none
  | .mul x y | .div x y => match x.moves τ, y.moves τ with
    | some false, some false => some false
    | _, _ => none
  | .add x y => match x.moves τ, y.moves τ with
    | some false, some p => some p
    | some true, some false => some true
    | _, _ => none
  | .sub x y => match x.moves τ, y.moves τ with
    | some p, some false => some p
    | some true, some true => some false
    | _, _ => none
  | .neg x | .pow x _ | .fn _ x => match x.moves τ with
    | some false => some false
    | _ => none

theorem Code.moves_shift {s : ℝ} {τ : ℕ → Option Bool} {x y : ℕ → ℝ}
    (h : ∀ i p, τ i = some p → y i = x i + if p then s else 0) (c : Code) :
    ∀ p, c.moves τ = some p → c.eval y = c.eval x + (if p then s else 0) ∧ c.fault y = c.fault x := by
  induction c with
  | var i => exact fun p hp => ⟨h i p hp, rfl⟩
  | lit q => rintro p ⟨⟩; exact ⟨by simp [Code.eval], rfl⟩
  | pi => rintro p ⟨⟩; exact ⟨by simp [Code.eval], rfl⟩
  | const c q u => intro d hd; cases hd
  | conv a t => intro d hd; cases hd
  | mul a b iha ihb =>
    intro p hp
    simp only [Code.moves] at hp
    split at hp
    next e1 e2 =>
      cases hp
      obtain ⟨a1, a2⟩ := iha _ e1
      obtain ⟨b1, b2⟩ := ihb _ e2
      exact ⟨by simp only [Code.eval, a1, b1]; simp, by simp only [Code.fault, a2, b2]⟩
    next => cases hp
  | div a b iha ihb =>
    intro p hp
    simp only [Code.moves] at hp
    split at hp
    next e1 e2 =>
      cases hp
      obtain ⟨a1, a2⟩ := iha _ e1
      obtain ⟨b1, b2⟩ := ihb _ e2
      exact ⟨by simp only [Code.eval, a1, b1]; simp, by simp only [Code.fault, a2, b2, b1]; simp⟩
    next => cases hp
  | add a b iha ihb =>
    intro p hp
    simp only [Code.moves] at hp
    split at hp
    next p e1 e2 =>
      cases hp
      obtain ⟨a1, a2⟩ := iha _ e1
      obtain ⟨b1, b2⟩ := ihb _ e2
      exact ⟨by simp only [Code.eval, a1, b1]; simp [add_assoc], by simp only [Code.fault, a2, b2]⟩
    next e1 e2 =>
      cases hp
      obtain ⟨a1, a2⟩ := iha _ e1
      obtain ⟨b1, b2⟩ := ihb _ e2
      exact ⟨by simp only [Code.eval, a1, b1]; simp; ring, by simp only [Code.fault, a2, b2]⟩
    next => cases hp
  | sub a b iha ihb =>
    intro p hp
    simp only [Code.moves] at hp
    split at hp
    next p e1 e2 =>
      cases hp
      obtain ⟨a1, a2⟩ := iha _ e1
      obtain ⟨b1, b2⟩ := ihb _ e2
      exact ⟨by simp only [Code.eval, a1, b1]; simp; ring, by simp only [Code.fault, a2, b2]⟩
    next e1 e2 =>
      cases hp
      obtain ⟨a1, a2⟩ := iha _ e1
      obtain ⟨b1, b2⟩ := ihb _ e2
      exact ⟨by simp only [Code.eval, a1, b1]; simp, by simp only [Code.fault, a2, b2]⟩
    next => cases hp
  | neg a ih =>
    intro p hp
    simp only [Code.moves] at hp
    split at hp
    next e1 =>
      cases hp
      obtain ⟨a1, a2⟩ := ih _ e1
      exact ⟨by simp only [Code.eval, a1]; simp, by simp only [Code.fault, a2]⟩
    next => cases hp
  | pow a q ih =>
    intro p hp
    simp only [Code.moves] at hp
    split at hp
    next e1 =>
      cases hp
      obtain ⟨a1, a2⟩ := ih _ e1
      simp only [Bool.false_eq_true, if_false, add_zero] at a1 ⊢
      exact ⟨by simp only [Code.eval, a1], by simp only [Code.fault, a2, a1]⟩
    next => cases hp
  | fn f a ih =>
    intro p hp
    simp only [Code.moves] at hp
    split at hp
    next e1 =>
      cases hp
      obtain ⟨a1, a2⟩ := ih _ e1
      simp only [Bool.false_eq_true, if_false, add_zero] at a1 ⊢
      exact ⟨by simp only [Code.eval, a1], by simp only [Code.fault, a2, a1]⟩
    next => cases hp

/-- What is checked of a row: its dimension, and whether the result moves with the zero of the temperature. -/
def FCall.homogeneous (t : FCall) (moving : Bool) (d : Dim) (c : Code) : Bool :=
  decide (c.dims (fun i => (t.arg i).map fun k => k.1.dim) = some d) &&
    decide (c.moves (fun i => (t.arg i).map fun k => k.1.isTemperature) = some moving)

theorem FCall.homogeneous_spec {t : FCall} {p : Bool} {d : Dim} {c : Code} (hc : t.homogeneous p d c = true) {χ : Change}
    {a b : ℕ → Val ℝ} (h : t.Corresponds χ a b) :
    c.eval (fun i => (b i).amount) = χ.factor d * c.eval (fun i => (a i).amount) + (if p then χ.shift else 0) ∧
      c.fault (fun i => (b i).amount) = c.fault fun i => (a i).amount := by
  simp only [FCall.homogeneous, Bool.and_eq_true, decide_eq_true_eq] at hc
  obtain ⟨h1, h2⟩ := Code.dims_scale χ (x := fun i => (a i).amount)
    (y := fun i => match t.arg i with
      | some k => χ.factor k.1.dim * (a i).amount
      | none => 0)
    (fun i e he => by
      cases hk : t.arg i with
      | none => rw [hk] at he; cases he
      | some k => rw [hk] at he; cases he; rfl) c d hc.1
  obtain ⟨h3, h4⟩ := Code.moves_shift (s := χ.shift) (y := fun i => (b i).amount)
    (x := fun i => match t.arg i with
      | some k => χ.factor k.1.dim * (a i).amount
      | none => 0)
    (fun i q hq => by
      cases hk : t.arg i with
      | none => rw [hk] at hq; cases hq
      | some k => rw [hk] at hq; cases hq; exact h i k hk) c p hc.2
  exact ⟨by rw [h3, h1], by rw [h4, h2]⟩

end Verif
