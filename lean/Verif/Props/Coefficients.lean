import Verif.HeatTransfer.Coefficients
import Verif.Lemmas.ConvertCast
import Verif.Props.CompoundConv
import Verif.Props.Convertible
import Verif.Props.Expressions
import Verif.Spec.SI

/-!
# C72: heat transfer coefficient correlations
-/

namespace Verif

/-! ## C72 -/

theorem Arith.mul_inv {env : ℕ → Val ℝ} {a b : Arith} {r : Val ℝ} (h : (a.mul b).run env = .ok r) :
    ∃ x y, a.run env = .ok x ∧ b.run env = .ok y ∧ x.mul y = .ok r := lift2_inv h
theorem Arith.div_inv {env : ℕ → Val ℝ} {a b : Arith} {r : Val ℝ} (h : (a.div b).run env = .ok r) :
    ∃ x y, a.run env = .ok x ∧ b.run env = .ok y ∧ x.div y = .ok r := lift2_inv h
theorem Arith.add_inv {env : ℕ → Val ℝ} {a b : Arith} {r : Val ℝ} (h : (a.add b).run env = .ok r) :
    ∃ x y, a.run env = .ok x ∧ b.run env = .ok y ∧ x.add y = .ok r := lift2_inv h
theorem Arith.pow_inv {env : ℕ → Val ℝ} {a : Arith} {q : ℚ} {r : Val ℝ} (h : (a.pow q).run env = .ok r) :
    ∃ x, a.run env = .ok x ∧ x.pow q = .ok r := lift1_inv h

/-- A Nusselt number times `k` over a length, in any units. -/
theorem nusselt_mag (Nu : ℝ) (k : MultiV ℝ) (L : UnitV ℝ) (hk : k.Genuine) (hL : WellPrefixed L.unit) (h0 : L.value ≠ 0) :
    ∃ r, (pnum Nu * .ok (.multi k)) / .ok (.unit L) = (.ok r : PyM (Val ℝ)) ∧
      ∀ ρ, Coherent ρ → HasMag ρ r (Nu * k.mag ρ / L.mag ρ) := by
  obtain ⟨r, e, h⟩ := C04_div_by_unit ⟨.multi, Nu * k.value, k.top, k.bot⟩ L hk hL h0
  refine ⟨r, e, fun ρ hρ => (h ρ hρ).of_eq ?_⟩
  simp only [MultiV.mag, mag]
  ring

theorem pnum_mul (x y : ℝ) : (pnum x * pnum y : PyM (Val ℝ)) = pnum (x * y) := rfl
theorem pnum_sub (x y : ℝ) : (pnum x - pnum y : PyM (Val ℝ)) = pnum (x - y) := rfl
theorem pnum_add (x y : ℝ) : (pnum x + pnum y : PyM (Val ℝ)) = pnum (x + y) := rfl
theorem pnum_pow {x : ℝ} (hx : 0 < x) (q : ℚ) : ppow (pnum x) q = pnum (x ^ (q : ℝ)) := by
  simp only [ppow, pnum, lift1, Val.pow, pow_real_pos hx]

variable (Re Pr psi : ℝ) (hRe : 0 < Re) (hPr : 0 < Pr) (k : MultiV ℝ) (L : UnitV ℝ) (hk : k.Genuine)
  (hL : WellPrefixed L.unit) (h0 : L.value ≠ 0)

include hRe hPr hk hL h0

/-- Turbulent flow over a plate, average: `h L / k = (0.037 Re^0.8 - 871) Pr^(1/3) ψ`, whatever the units of `k` and
`L`. -/
theorem C72_turbulent_average : ∃ r, htcTurbulentAvg (pnum Re) (pnum Pr) (.ok (.unit L)) (.ok (.multi k)) (pnum psi) = .ok r ∧
    ∀ ρ, Coherent ρ → HasMag ρ r
      ((37 / 1000 * Re ^ (4 / 5 : ℝ) - 871) * Pr ^ (1 / 3 : ℝ) * psi * k.mag ρ / L.mag ρ) := by
  obtain ⟨r, e, h⟩ := nusselt_mag (37 / 1000 * Re ^ ((8 / 10 : ℚ) : ℝ) * Pr ^ ((1 / 3 : ℚ) : ℝ) * psi -
    871 * Pr ^ ((1 / 3 : ℚ) : ℝ) * psi) k L hk hL h0
  refine ⟨r, ?_, fun ρ hρ => (h ρ hρ).of_eq ?_⟩
  · simp only [htcTurbulentAvg, pnum_pow hRe, pnum_pow hPr, pnum_mul, pnum_sub, e]
  · norm_num; ring

/-- Turbulent flow over a plate, local: `h L / k = 0.0296 Re^0.8 Pr^(1/3) ψ`. -/
theorem C72_turbulent_local : ∃ r, htcTurbulentLocal (pnum Re) (pnum Pr) (.ok (.unit L)) (.ok (.multi k)) (pnum psi) = .ok r ∧
    ∀ ρ, Coherent ρ → HasMag ρ r (296 / 10000 * Re ^ (4 / 5 : ℝ) * Pr ^ (1 / 3 : ℝ) * psi * k.mag ρ / L.mag ρ) := by
  obtain ⟨r, e, h⟩ := nusselt_mag (296 / 10000 * Re ^ ((8 / 10 : ℚ) : ℝ) * Pr ^ ((1 / 3 : ℚ) : ℝ) * psi) k L hk hL h0
  refine ⟨r, ?_, fun ρ hρ => (h ρ hρ).of_eq ?_⟩
  · simp only [htcTurbulentLocal, pnum_pow hRe, pnum_pow hPr, pnum_mul, e]
  · norm_num

/-- Turbulent flow in a pipe: `h d / k = 0.023 Re^0.8 Pr^(1/3) ψ`. -/
theorem C72_pipe_turbulent : ∃ r, htcPipeTurbulent (pnum Re) (pnum Pr) (.ok (.unit L)) (.ok (.multi k)) (pnum psi) = .ok r ∧
    ∀ ρ, Coherent ρ → HasMag ρ r (23 / 1000 * Re ^ (4 / 5 : ℝ) * Pr ^ (1 / 3 : ℝ) * psi * k.mag ρ / L.mag ρ) := by
  obtain ⟨r, e, h⟩ := nusselt_mag (23 / 1000 * Re ^ ((8 / 10 : ℚ) : ℝ) * Pr ^ ((1 / 3 : ℚ) : ℝ) * psi) k L hk hL h0
  refine ⟨r, ?_, fun ρ hρ => (h ρ hρ).of_eq ?_⟩
  · simp only [htcPipeTurbulent, pnum_pow hRe, pnum_pow hPr, pnum_mul, e]
  · norm_num

/-- Flow across a cylinder: `h d / k = (0.35 + 0.56 Re^0.52) Pr^0.3`. -/
theorem C72_cross_cylinder : ∃ r, htcCrossCylinder (pnum Re) (pnum Pr) (.ok (.unit L)) (.ok (.multi k)) = .ok r ∧
    ∀ ρ, Coherent ρ → HasMag ρ r
      ((35 / 100 + 56 / 100 * Re ^ (13 / 25 : ℝ)) * Pr ^ (3 / 10 : ℝ) * k.mag ρ / L.mag ρ) := by
  obtain ⟨r, e, h⟩ := nusselt_mag (35 / 100 * Pr ^ ((3 / 10 : ℚ) : ℝ) +
    56 / 100 * Re ^ ((52 / 100 : ℚ) : ℝ) * Pr ^ ((3 / 10 : ℚ) : ℝ)) k L hk hL h0
  refine ⟨r, ?_, fun ρ hρ => (h ρ hρ).of_eq ?_⟩
  · simp only [htcCrossCylinder, pnum_pow hRe, pnum_pow hPr, pnum_mul, pnum_add, e]
  · norm_num; ring

/-- Flow across a sphere: `h d / k = 2 + 0.6 Re^(1/2) Pr^(1/3)`. -/
theorem C72_cross_sphere : ∃ r, htcCrossSphere (pnum Re) (pnum Pr) (.ok (.unit L)) (.ok (.multi k)) = .ok r ∧
    ∀ ρ, Coherent ρ → HasMag ρ r ((2 + 6 / 10 * Real.sqrt Re * Pr ^ (1 / 3 : ℝ)) * k.mag ρ / L.mag ρ) := by
  obtain ⟨r, e, h⟩ := nusselt_mag (2 + 60 / 100 * Re ^ ((1 / 2 : ℚ) : ℝ) * Pr ^ ((1 / 3 : ℚ) : ℝ)) k L hk hL h0
  refine ⟨r, ?_, fun ρ hρ => (h ρ hρ).of_eq ?_⟩
  · simp only [htcCrossSphere, pnum_pow hRe, pnum_pow hPr, pnum_mul, pnum_add, e]
  · rw [Real.sqrt_eq_rpow]; norm_num

omit hRe hPr hk hL h0

/-- Conductivity in BTU/hr·ft·F and a length in inches. -/
example : (⟨.multi, 1, [⟨c!"BTU", 1⟩], [⟨c!"hr", 1⟩, ⟨c!"ft", 1⟩, ⟨c!"F", 1⟩]⟩ : MultiV ℝ).Genuine ∧ WellPrefixed c!"in" := by
  decide

/-! Laminar pipe flow. -/

/-- Laminar flow in a pipe: `h d / k = 1.85 (Re Pr d / L)^(1/3) ψ`, whatever the units of `k`, `d` and `L`. -/
theorem C72_pipe_laminar (d : UnitV ℝ) (hk : k.Genuine) (hL : WellPrefixed L.unit) (hd : WellPrefixed d.unit)
    (cd : d.Constructed) (cL : L.Constructed) (he : d.exp = L.exp) (r : Val ℝ)
    (h : htcPipeLaminar (pnum Re) (pnum Pr) (.ok (.unit d)) (.ok (.unit L)) (.ok (.multi k)) (pnum psi) = .ok r)
    (ρ : Sym → ℝ) (hρ : Coherent ρ) :
    HasMag ρ r (185 / 100 * (Re * Pr * (d.mag ρ / L.mag ρ)) ^ (1 / 3 : ℝ) * psi * k.mag ρ / d.mag ρ) := by
  let env : ℕ → Val ℝ := fun | 0 => .unit d | 1 => .unit L | _ => .multi k
  let μ : ℕ → ℝ := fun | 0 => d.mag ρ | 1 => L.mag ρ | _ => k.mag ρ
  have key := C64_expression_partial (.div (.mul (.mul (.mul (.lit (185 / 100))
    (.pow (.mul (.mul (.lit Re) (.lit Pr)) (.div (.var 0) (.var 1))) (1 / 3))) (.lit psi)) (.var 2)) (.var 0)) env ?_ ?_
    ρ hρ μ ?_ r h
  · refine key.2.of_eq ?_
    simp only [Arith.meaning, μ]
    norm_num
  · have hdiv : ∀ x, ((Arith.var 0).div (.var 1)).run env = .ok x → NotSimple x := by
      intro x hx
      obtain ⟨a, b, ha, hb, hx⟩ := Arith.div_inv hx
      cases ha; cases hb
      simp only [env, Val.div, unitDiv] at hx
      split at hx
      · cases hx
      · split_ifs at hx with h1 h2
        · cases hx; trivial
        · exact (h2 (by rw [he, sub_self])).elim
        · cases hx; trivial
    have hRP : ∀ x, ((Arith.lit Re).mul (.lit Pr)).run env = .ok x → NotSimple x := by
      intro x hx; cases hx; trivial
    have hm1 : ∀ x, ((((Arith.lit Re).mul (.lit Pr)).mul ((Arith.var 0).div (.var 1)))).run env = .ok x → NotSimple x := by
      intro x hx
      obtain ⟨a, b, ha, hb, hx⟩ := Arith.mul_inv hx
      exact notSimple_mul (hRP a ha) (hdiv b hb) hx
    have hp : ∀ x, (((((Arith.lit Re).mul (.lit Pr)).mul ((Arith.var 0).div (.var 1)))).pow (1 / 3)).run env = .ok x →
        NotSimple x := by
      intro x hx
      obtain ⟨a, ha, hx⟩ := Arith.pow_inv hx
      exact notSimple_pow (hm1 a ha) hx
    have hm2 : ∀ x, ((Arith.lit (185 / 100)).mul
        (((((Arith.lit Re).mul (.lit Pr)).mul ((Arith.var 0).div (.var 1)))).pow (1 / 3))).run env = .ok x → NotSimple x := by
      intro x hx
      obtain ⟨a, b, ha, hb, hx⟩ := Arith.mul_inv hx
      cases ha
      exact notSimple_mul (x := .num _) trivial (hp b hb) hx
    have hm3 : ∀ x, (((Arith.lit (185 / 100)).mul
        (((((Arith.lit Re).mul (.lit Pr)).mul ((Arith.var 0).div (.var 1)))).pow (1 / 3))).mul (.lit psi)).run env = .ok x →
        NotSimple x := by
      intro x hx
      obtain ⟨a, b, ha, hb, hx⟩ := Arith.mul_inv hx
      cases hb
      exact notSimple_mul (y := .num _) (hm2 a ha) trivial hx
    have safe : ∀ {x y}, NotSimple x → NotSimple y → MulSafe x y := by
      intro x y hx hy; cases x <;> cases y <;> trivial
    have safeD : ∀ {x y}, NotSimple x → DivSafe x y := by
      intro x y hx; cases x <;> cases y <;> trivial
    refine ⟨⟨⟨⟨trivial, ⟨⟨trivial, trivial, ?_⟩, ⟨trivial, trivial, ?_⟩, ?_⟩, ?_⟩, trivial, ?_⟩, trivial, ?_⟩, trivial, ?_⟩
    · intro x y hx hy; cases hx; cases hy; trivial
    · intro x y hx hy; cases hx; cases hy; trivial
    · intro x y hx hy; exact safe (hRP x hx) (hdiv y hy)
    · intro x y hx hy; cases hx; exact safe (x := .num _) trivial (hp y hy)
    · intro x y hx hy; cases hy; exact safe (y := .num _) (hm2 x hx) trivial
    · intro x y hx hy; cases hy; exact safe (y := .multi _) (hm3 x hx) trivial
    · intro x y hx hy
      obtain ⟨a, b, ha, hb, hx⟩ := Arith.mul_inv hx
      cases hb
      exact safeD (notSimple_mul (y := .multi _) (hm3 a ha) trivial hx)
  · intro i
    match i with
    | 0 => exact ⟨cd, hd⟩
    | 1 => exact ⟨cL, hL⟩
    | _ + 2 => exact hk
  · intro i
    match i with
    | 0 => exact .unit _
    | 1 => exact .unit _
    | _ + 2 => exact .multi _

/-- It does return a value for positive numbers, with diameter and length in the same unit. -/
theorem C72_pipe_laminar_defined (d : UnitV ℝ) (hRe : 0 < Re) (hPr : 0 < Pr) (hk : k.Genuine) (hd : WellPrefixed d.unit)
    (hu : d.unit = L.unit) (he : d.exp = L.exp) (h1 : 0 < d.value) (h2 : 0 < L.value) :
    ∃ r, htcPipeLaminar (pnum Re) (pnum Pr) (.ok (.unit d)) (.ok (.unit L)) (.ok (.multi k)) (pnum psi) = .ok r := by
  have e : (.ok (.unit d) / .ok (.unit L) : PyM (Val ℝ)) = pnum (d.value / L.value) := by
    change Val.div (.unit d) (.unit L) = _
    simp only [Val.div, unitDiv, pyDiv_ne h2.ne', if_pos hu, he, sub_self, if_true, pnum]
  have hp : 0 < Re * Pr * (d.value / L.value) := by positivity
  obtain ⟨r, hr, -⟩ := nusselt_mag (185 / 100 * (Re * Pr * (d.value / L.value)) ^ ((1 / 3 : ℚ) : ℝ) * psi) k d hk hd h1.ne'
  exact ⟨r, by simp only [htcPipeLaminar, e, pnum_mul, pnum_pow hp, hr]⟩

/-! Corrections. -/

/-- The wall correction of two viscosities in the same unit is the 0.14th power of their ratio. -/
theorem C72_wall_correction (c c' : MCls) (mu mw : ℝ) (t b : UList) (h1 : 0 < mu) (h2 : 0 < mw) :
    wallViscosity (.ok (.multi ⟨c, mu, t, b⟩)) (.ok (.multi ⟨c', mw, t, b⟩)) = pnum ((mu / mw) ^ (7 / 50 : ℝ)) := by
  have e : (.ok (.multi ⟨c, mu, t, b⟩) / .ok (.multi ⟨c', mw, t, b⟩) : PyM (Val ℝ)) = pnum (mu / mw) := by
    change Val.div (.multi ⟨c, mu, t, b⟩) (.multi ⟨c', mw, t, b⟩) = _
    simp only [Val.div, multiDiv, multiDivMulti, and_self, if_true, pyDiv_ne h2.ne', pnum]
  rw [wallViscosity, e, pnum_pow (by positivity)]
  norm_num

/-- The wall correction of two viscosities in any units: whenever it returns, the 0.14th power of the ratio of the quantities. -/
theorem C72_wall_correction_size (mu mw : MultiV ℝ) (h1 : mu.Genuine) (h2 : mw.Genuine) (r : Val ℝ)
    (h : wallViscosity (.ok (.multi mu)) (.ok (.multi mw)) = .ok r) (ρ : Sym → ℝ) (hρ : Coherent ρ) :
    HasMag ρ r ((mu.mag ρ / mw.mag ρ) ^ (7 / 50 : ℝ)) := by
  let env : ℕ → Val ℝ := fun | 0 => .multi mu | _ => .multi mw
  let μ : ℕ → ℝ := fun | 0 => mu.mag ρ | _ => mw.mag ρ
  have key := C64_expression_partial (.pow (.div (.var 0) (.var 1)) (14 / 100)) env ?_ ?_ ρ hρ μ ?_ r h
  · refine key.2.of_eq ?_
    simp only [Arith.meaning, μ]
    norm_num
  · exact ⟨trivial, trivial, fun x y hx hy => by cases hx; cases hy; trivial⟩
  · intro i
    match i with
    | 0 => exact h1
    | _ + 1 => exact h2
  · intro i
    match i with
    | 0 => exact .multi _
    | _ + 1 => exact .multi _

/-- Equal viscosities: no correction. -/
theorem C72_no_wall_correction (c c' : MCls) (mu : ℝ) (t b : UList) (h1 : 0 < mu) :
    wallViscosity (.ok (.multi ⟨c, mu, t, b⟩)) (.ok (.multi ⟨c', mu, t, b⟩)) = pnum 1 := by
  rw [C72_wall_correction c c' mu mu t b h1 h1, div_self h1.ne', Real.one_rpow]

/-- Short pipes: whenever it returns, `h (1 + (d/L)^0.7)`. -/
theorem C72_short_pipe_partial (h : MultiV ℝ) (d L : UnitV ℝ) (hh : h.Genuine) (hL : WellPrefixed L.unit)
    (hd : WellPrefixed d.unit) (cd : d.Constructed) (cL : L.Constructed) (r : Val ℝ)
    (hr : htcShortPipe (.ok (.multi h)) (.ok (.unit d)) (.ok (.unit L)) = .ok r) (ρ : Sym → ℝ) (hρ : Coherent ρ) :
    HasMag ρ r (h.mag ρ * (1 + (d.mag ρ / L.mag ρ) ^ (7 / 10 : ℝ))) := by
  let env : ℕ → Val ℝ := fun | 0 => .unit d | 1 => .unit L | _ => .multi h
  let μ : ℕ → ℝ := fun | 0 => d.mag ρ | 1 => L.mag ρ | _ => h.mag ρ
  have key := C64_expression_partial (.mul (.var 2) (.add (.lit 1) (.pow (.div (.var 0) (.var 1)) (7 / 10)))) env ?_ ?_
    ρ hρ μ ?_ r hr
  · refine key.2.of_eq ?_
    simp only [Arith.meaning, μ]
    norm_num
  · refine ⟨trivial, ⟨trivial, ⟨trivial, trivial, ?_⟩, ?_⟩, ?_⟩
    · intro x y hx hy; cases hx; cases hy; trivial
    · intro x y hx hy; cases hx; trivial
    · intro x y hx hy
      obtain ⟨a, b, ha, hb, hx'⟩ := Arith.add_inv hy
      cases ha; cases hx
      cases b <;> first | (cases hx'; done) | skip
      cases hx'; trivial
  · intro i
    match i with
    | 0 => exact ⟨cd, hd⟩
    | 1 => exact ⟨cL, hL⟩
    | _ + 2 => exact hh
  · intro i
    match i with
    | 0 => exact .unit _
    | 1 => exact .unit _
    | _ + 2 => exact .multi _

/-- It returns when diameter and length have the same unit. -/
theorem C72_short_pipe_defined (h : MultiV ℝ) (d L : UnitV ℝ) (hu : d.unit = L.unit) (he : d.exp = L.exp)
    (h1 : 0 < d.value) (h2 : 0 < L.value) :
    htcShortPipe (.ok (.multi h)) (.ok (.unit d)) (.ok (.unit L)) =
      .ok (.multi ⟨.multi, h.value * (1 + (d.value / L.value) ^ (7 / 10 : ℝ)), h.top, h.bot⟩) := by
  have e : (.ok (.unit d) / .ok (.unit L) : PyM (Val ℝ)) = pnum (d.value / L.value) := by
    change Val.div (.unit d) (.unit L) = _
    simp only [Val.div, unitDiv, pyDiv_ne h2.ne', if_pos hu, he, sub_self, if_true, pnum]
  have hp : 0 < d.value / L.value := by positivity
  simp only [htcShortPipe, e, pnum_pow hp, pnum_add]
  change Except.ok _ = _
  norm_num

/-- Missing for the full claim: with two different length units it raises `TypeError`, although the ratio is a number. -/
theorem C72_short_pipe_raises (h : MultiV ℝ) (d L : UnitV ℝ) (hu : d.unit ≠ L.unit) (h1 : 0 < d.value) (h2 : 0 < L.value) :
    htcShortPipe (.ok (.multi h)) (.ok (.unit d)) (.ok (.unit L)) = .error .typeError := by
  have e : (.ok (.unit d) / .ok (.unit L) : PyM (Val ℝ)) =
      .ok (.multi ⟨.multi, d.value / L.value, [⟨d.unit, d.exp⟩], [⟨L.unit, L.exp⟩]⟩) := by
    change Val.div (.unit d) (.unit L) = _
    simp only [Val.div, unitDiv, pyDiv_ne h2.ne', if_neg hu]
  have hp : 0 < d.value / L.value := by positivity
  rcases C07_pow_multi ⟨.multi, d.value / L.value, [⟨d.unit, d.exp⟩], [⟨L.unit, L.exp⟩]⟩ hp.le (7 / 10) with
    ⟨h0, -, -⟩ | ⟨w, hw, -⟩
  · exact absurd h0 hp.ne'
  · have e2 : ppow (.ok (.multi ⟨.multi, d.value / L.value, [⟨d.unit, d.exp⟩], [⟨L.unit, L.exp⟩]⟩)) (7 / 10) =
        (.ok (.multi w) : PyM (Val ℝ)) := hw
    rw [htcShortPipe, e, e2]
    rfl

/-- The units of length used below. -/
def htcLengths : List Sym := [c!"m", c!"um", c!"mm", c!"cm", c!"dm", c!"km", c!"ft", c!"in", c!"yd"]

/-- The reduction of `k / L` and its conversion, at value one. -/
def FieldOK (top bot : UList) (tgt : Sym) (t' b' : UList) (size : ℚ) (u : Sym) : Prop :=
  match reduceUnits (K := ℚ) false true top (bot ++ [⟨u, 1⟩]) with
  | .error _ => False
  | .ok (t, b, f) => t ≠ [] ∧ b ≠ [] ∧ match convertMulti (K := ℚ) stdTables ⟨.multi, 1, t, b⟩ tgt with
    | .error _ => False
    | .ok m => m = ⟨.multi, m.value, t', b'⟩ ∧ f * m.value = size / siSize u

instance (top bot : UList) (tgt : Sym) (t' b' : UList) (size : ℚ) (u : Sym) :
    Decidable (FieldOK top bot tgt t' b' size u) := by
  unfold FieldOK
  split
  · infer_instance
  · split <;> infer_instance

theorem field_SI : ∀ u ∈ htcLengths,
    FieldOK [⟨c!"W", 1⟩] [⟨c!"m", 1⟩, ⟨c!"K", 1⟩] c!"W/m^2*K" [⟨c!"W", 1⟩] [⟨c!"m", 2⟩, ⟨c!"K", 1⟩] 1 u := by decide +kernel

theorem field_BTU : ∀ u ∈ htcLengths,
    FieldOK [⟨c!"BTU", 1⟩] [⟨c!"hr", 1⟩, ⟨c!"ft", 1⟩, ⟨c!"F", 1⟩] c!"BTU/hr*ft^2*F" [⟨c!"BTU", 1⟩]
      [⟨c!"hr", 1⟩, ⟨c!"ft", 2⟩, ⟨c!"F", 1⟩] (siSize c!"ft") u := by decide +kernel

theorem packDiv_multi {v : ℝ} {t b : UList} (ht : t ≠ []) (hb : b ≠ []) : packDiv v t b = .multi ⟨.multi, v, t, b⟩ := by
  obtain ⟨x, t, rfl⟩ := List.exists_cons_of_ne_nil ht
  obtain ⟨y, b, rfl⟩ := List.exists_cons_of_ne_nil hb
  cases t <;> rfl

theorem openField_eval {top bot t' b' : UList} {tgt u : Sym} {size : ℚ} (h : FieldOK top bot tgt t' b' size u)
    {fmt : ℚ → Sym} {Nu l v : ℝ} {n : Sym} {c : UCls} (hl : l ≠ 0)
    (ht : (if c!"BTU" <:+: reprUnits fmt (.multi ⟨.sub n, v, top, bot⟩) then c!"BTU/hr*ft^2*F" else c!"W/m^2*K") = tgt) :
    openField stdTables fmt (pnum Nu) (.ok (.unit ⟨c, l, u, 1⟩)) (.ok (.multi ⟨.sub n, v, top, bot⟩)) =
      .ok (.multi ⟨.sub c!"HeatTransferCoefficient", Nu * v / (l * ((siSize u : ℚ) : ℝ) / ((size : ℚ) : ℝ)), t', b'⟩) := by
  unfold FieldOK at h
  split at h
  · exact h.elim
  · next t b f hr =>
    obtain ⟨ht0, hb0, h⟩ := h
    split at h
    · exact h.elim
    · next m hm =>
      obtain ⟨hm', hq⟩ := h
      rw [hm'] at hm
      have e : (pnum Nu * .ok (.multi ⟨.sub n, v, top, bot⟩)) / .ok (.unit ⟨c, l, u, 1⟩) =
          (.ok (.multi ⟨.multi, Nu * v / l * (f : ℝ), t, b⟩) : PyM (Val ℝ)) := by
        change Val.div (.multi ⟨.multi, Nu * v, top, bot⟩) (.unit ⟨c, l, u, 1⟩) = _
        simp only [Val.div, multiDiv, multiDivUnit, reduceUnits_cast hr, pyDiv_ne hl]
        rw [packDiv_multi ht0 hb0]
      have hc := convertMulti_cast hm (Nu * v / l * (f : ℝ))
      simp only [openField, e, ht, hc]
      refine okMulti_congr ?_
      have hq' : (f : ℝ) * (m.value : ℝ) = (size : ℝ) / (siSize u : ℝ) := by exact_mod_cast hq
      rw [mul_assoc, hq']
      have : (siSize u : ℝ) ≠ 0 := by exact_mod_cast (siSize_pos u).ne'
      by_cases hs : (size : ℝ) = 0
      · simp [hs]
      · field_simp

/-- Laminar flow over a plate, local: `h = 0.332 Re^(1/2) Pr^(1/3) ψ k / L` in W/m²K, with `L` in any of nine length
units. -/
theorem C72_laminar_local_SI (fmt : ℚ → Sym) (l kv : ℝ) (hRe : 0 < Re) (hPr : 0 < Pr) (hl : l ≠ 0) (u : Sym) (hu : u ∈ htcLengths) :
    htcLaminarLocal stdTables fmt (pnum Re) (pnum Pr) (.ok (.unit ⟨.length, l, u, 1⟩)) (condSI kv) (pnum psi) =
      qM c!"HeatTransferCoefficient"
        (332 / 1000 * Real.sqrt Re * Pr ^ (1 / 3 : ℝ) * psi * kv / (l * ((siSize u : ℚ) : ℝ))) c!"W/m^2*K" := by
  have e : condSI kv = (.ok (.multi ⟨.sub c!"ThermalConductivity", kv, [⟨c!"W", 1⟩], [⟨c!"m", 1⟩, ⟨c!"K", 1⟩]⟩) : PyM (Val ℝ)) := by
    units_eval [condSI]
  have hb : (if c!"BTU" <:+: reprUnits fmt (.multi (⟨.sub c!"ThermalConductivity", kv, [⟨c!"W", 1⟩],
      [⟨c!"m", 1⟩, ⟨c!"K", 1⟩]⟩ : MultiV ℝ)) then c!"BTU/hr*ft^2*F" else c!"W/m^2*K") = c!"W/m^2*K" := by
    rw [if_neg]
    simp [reprUnits, getUnitString, joinWith, bottomStrings]
    decide
  rw [htcLaminarLocal, e, pnum_pow hRe, pnum_pow hPr, pnum_mul, pnum_mul, pnum_mul, openField_eval (field_SI u hu) hl hb]
  units_eval []
  refine okMulti_congr ?_
  rw [Real.sqrt_eq_rpow]
  norm_num

/-- Laminar flow over a plate, average: `h = 0.664 Re^(1/2) Pr^(1/3) ψ k / L` in W/m²K, with `L` in any of nine length
units. -/
theorem C72_laminar_average_SI (fmt : ℚ → Sym) (l kv : ℝ) (hRe : 0 < Re) (hPr : 0 < Pr) (hl : l ≠ 0) (u : Sym) (hu : u ∈ htcLengths) :
    htcLaminarAvg stdTables fmt (pnum Re) (pnum Pr) (.ok (.unit ⟨.length, l, u, 1⟩)) (condSI kv) (pnum psi) =
      qM c!"HeatTransferCoefficient"
        (664 / 1000 * Real.sqrt Re * Pr ^ (1 / 3 : ℝ) * psi * kv / (l * ((siSize u : ℚ) : ℝ))) c!"W/m^2*K" := by
  have e : condSI kv = (.ok (.multi ⟨.sub c!"ThermalConductivity", kv, [⟨c!"W", 1⟩], [⟨c!"m", 1⟩, ⟨c!"K", 1⟩]⟩) : PyM (Val ℝ)) := by
    units_eval [condSI]
  have hb : (if c!"BTU" <:+: reprUnits fmt (.multi (⟨.sub c!"ThermalConductivity", kv, [⟨c!"W", 1⟩],
      [⟨c!"m", 1⟩, ⟨c!"K", 1⟩]⟩ : MultiV ℝ)) then c!"BTU/hr*ft^2*F" else c!"W/m^2*K") = c!"W/m^2*K" := by
    rw [if_neg]
    simp [reprUnits, getUnitString, joinWith, bottomStrings]
    decide
  rw [htcLaminarAvg, e, pnum_pow hRe, pnum_pow hPr, pnum_mul, pnum_mul, pnum_mul, openField_eval (field_SI u hu) hl hb]
  units_eval []
  refine okMulti_congr ?_
  rw [Real.sqrt_eq_rpow]
  norm_num

/-- Laminar flow over a plate, local: `h = 0.332 Re^(1/2) Pr^(1/3) ψ k / L` in BTU/hr·ft²·F for a conductivity in BTU/hr·ft·F, with `L` in any of nine length
units. -/
theorem C72_laminar_local_BTU (fmt : ℚ → Sym) (l kv : ℝ) (hRe : 0 < Re) (hPr : 0 < Pr) (hl : l ≠ 0) (u : Sym) (hu : u ∈ htcLengths) :
    htcLaminarLocal stdTables fmt (pnum Re) (pnum Pr) (.ok (.unit ⟨.length, l, u, 1⟩)) (qM c!"ThermalConductivity" kv c!"BTU/hr*ft*F") (pnum psi) =
      qM c!"HeatTransferCoefficient"
        (332 / 1000 * Real.sqrt Re * Pr ^ (1 / 3 : ℝ) * psi * kv / (l * ((siSize u / siSize c!"ft" : ℚ) : ℝ))) c!"BTU/hr*ft^2*F" := by
  have e : qM c!"ThermalConductivity" kv c!"BTU/hr*ft*F" =
      (.ok (.multi ⟨.sub c!"ThermalConductivity", kv, [⟨c!"BTU", 1⟩], [⟨c!"hr", 1⟩, ⟨c!"ft", 1⟩, ⟨c!"F", 1⟩]⟩) : PyM (Val ℝ)) := by
    units_eval []
  have hb : (if c!"BTU" <:+: reprUnits fmt (.multi (⟨.sub c!"ThermalConductivity", kv, [⟨c!"BTU", 1⟩],
      [⟨c!"hr", 1⟩, ⟨c!"ft", 1⟩, ⟨c!"F", 1⟩]⟩ : MultiV ℝ)) then c!"BTU/hr*ft^2*F" else c!"W/m^2*K") = c!"BTU/hr*ft^2*F" := by
    rw [if_pos]
    simp [reprUnits, getUnitString, joinWith, bottomStrings]
    decide
  rw [htcLaminarLocal, e, pnum_pow hRe, pnum_pow hPr, pnum_mul, pnum_mul, pnum_mul, openField_eval (field_BTU u hu) hl hb]
  units_eval []
  refine okMulti_congr ?_
  rw [Real.sqrt_eq_rpow]
  norm_num [mul_div_assoc]

/-- Laminar flow over a plate, average: `h = 0.664 Re^(1/2) Pr^(1/3) ψ k / L` in BTU/hr·ft²·F for a conductivity in BTU/hr·ft·F, with `L` in any of nine length
units. -/
theorem C72_laminar_average_BTU (fmt : ℚ → Sym) (l kv : ℝ) (hRe : 0 < Re) (hPr : 0 < Pr) (hl : l ≠ 0) (u : Sym) (hu : u ∈ htcLengths) :
    htcLaminarAvg stdTables fmt (pnum Re) (pnum Pr) (.ok (.unit ⟨.length, l, u, 1⟩)) (qM c!"ThermalConductivity" kv c!"BTU/hr*ft*F") (pnum psi) =
      qM c!"HeatTransferCoefficient"
        (664 / 1000 * Real.sqrt Re * Pr ^ (1 / 3 : ℝ) * psi * kv / (l * ((siSize u / siSize c!"ft" : ℚ) : ℝ))) c!"BTU/hr*ft^2*F" := by
  have e : qM c!"ThermalConductivity" kv c!"BTU/hr*ft*F" =
      (.ok (.multi ⟨.sub c!"ThermalConductivity", kv, [⟨c!"BTU", 1⟩], [⟨c!"hr", 1⟩, ⟨c!"ft", 1⟩, ⟨c!"F", 1⟩]⟩) : PyM (Val ℝ)) := by
    units_eval []
  have hb : (if c!"BTU" <:+: reprUnits fmt (.multi (⟨.sub c!"ThermalConductivity", kv, [⟨c!"BTU", 1⟩],
      [⟨c!"hr", 1⟩, ⟨c!"ft", 1⟩, ⟨c!"F", 1⟩]⟩ : MultiV ℝ)) then c!"BTU/hr*ft^2*F" else c!"W/m^2*K") = c!"BTU/hr*ft^2*F" := by
    rw [if_pos]
    simp [reprUnits, getUnitString, joinWith, bottomStrings]
    decide
  rw [htcLaminarAvg, e, pnum_pow hRe, pnum_pow hPr, pnum_mul, pnum_mul, pnum_mul, openField_eval (field_BTU u hu) hl hb]
  units_eval []
  refine okMulti_congr ?_
  rw [Real.sqrt_eq_rpow]
  norm_num [mul_div_assoc]

/-- The average over the plate is twice the local value at its end. -/
theorem C72_average_twice_local (fmt : ℚ → Sym) (l kv : ℝ) (hRe : 0 < Re) (hPr : 0 < Pr) (hl : l ≠ 0) (u : Sym)
    (hu : u ∈ htcLengths) :
    pnum 2 * htcLaminarLocal stdTables fmt (pnum Re) (pnum Pr) (.ok (.unit ⟨.length, l, u, 1⟩)) (condSI kv) (pnum psi) =
    pnum 1 * htcLaminarAvg stdTables fmt (pnum Re) (pnum Pr) (.ok (.unit ⟨.length, l, u, 1⟩)) (condSI kv) (pnum psi) := by
  rw [C72_laminar_local_SI Re Pr psi fmt l kv hRe hPr hl u hu, C72_laminar_average_SI Re Pr psi fmt l kv hRe hPr hl u hu]
  units_eval []
  refine okMulti_congr ?_
  ring

/-- Whatever the units of `k` and `L`: if a value is returned it is in W/m²K or BTU/hr·ft²·F, and `k / L` has the
dimension of a heat transfer coefficient. -/
theorem C72_open_field_units (fmt : ℚ → Sym) (Nu L k : PyM (Val ℝ)) (r : Val ℝ)
    (h : openField stdTables fmt Nu L k = .ok r) : ∃ v m : MultiV ℝ, r = .multi v ∧ (Nu * k) / L = .ok (.multi m) ∧
      (v.top, v.bot) ∈ [([⟨c!"W", 1⟩], [⟨c!"m", 2⟩, ⟨c!"K", 1⟩]),
        (([⟨c!"BTU", 1⟩], [⟨c!"hr", 1⟩, ⟨c!"ft", 2⟩, ⟨c!"F", 1⟩]) : UList × UList)] ∧
      dimOfUnit m.top m.bot = (0, 1, -3, -1, 0, 0) := by
  unfold openField at h
  split at h
  · cases h
  · cases h
  · next m k' hm =>
    split at h
    · cases h
    · next v hv =>
      cases h
      refine ⟨_, m, rfl, hm, ?_, ?_⟩
      · obtain ⟨hp, -, -⟩ := convert_units hv
        split_ifs at hp
        · rw [show parseUnits c!"BTU/hr*ft^2*F" = .ok ([⟨c!"BTU", 1⟩], [⟨c!"hr", 1⟩, ⟨c!"ft", 2⟩, ⟨c!"F", 1⟩]) by
            decide +kernel, Except.ok.injEq] at hp
          rw [← hp]; simp
        · rw [show parseUnits c!"W/m^2*K" = .ok ([⟨c!"W", 1⟩], [⟨c!"m", 2⟩, ⟨c!"K", 1⟩]) by
            decide +kernel, Except.ok.injEq] at hp
          rw [← hp]; simp
      · have hd := C17_same_dimension _ _ _ hv
        obtain ⟨hp, -, -⟩ := convert_units hv
        split_ifs at hp
        · rw [show parseUnits c!"BTU/hr*ft^2*F" = .ok ([⟨c!"BTU", 1⟩], [⟨c!"hr", 1⟩, ⟨c!"ft", 2⟩, ⟨c!"F", 1⟩]) by
            decide +kernel, Except.ok.injEq, Prod.mk.injEq] at hp
          rw [hd, ← hp.1, ← hp.2]; decide +kernel
        · rw [show parseUnits c!"W/m^2*K" = .ok ([⟨c!"W", 1⟩], [⟨c!"m", 2⟩, ⟨c!"K", 1⟩]) by
            decide +kernel, Except.ok.injEq, Prod.mk.injEq] at hp
          rw [hd, ← hp.1, ← hp.2]; decide +kernel
  · split at h <;> cases h
  · cases h

/-- Dividing `Nu k` by `L` leaves the unit computed from those of `k` and `L` alone. -/
theorem nusselt_units {Nu f : ℝ} {k m : MultiV ℝ} {L : UnitV ℝ} {t b : UList}
    (hr : reduceUnits (K := ℝ) false true k.top (k.bot ++ [⟨L.unit, L.exp⟩]) = .ok (t, b, f))
    (e : (pnum Nu * .ok (.multi k)) / .ok (.unit L) = (.ok (.multi m) : PyM (Val ℝ))) : m.top = t ∧ m.bot = b := by
  have e' : multiDivUnit (⟨.multi, Nu * k.value, k.top, k.bot⟩ : MultiV ℝ) L = .ok (.multi m) := e
  simp only [multiDivUnit, hr] at e'
  split at e'
  · cases e'
  · rw [Except.ok.injEq] at e'
    unfold packDiv at e'
    split at e' <;> cases e'
    exact ⟨rfl, rfl⟩

/-- The open field correlations for all units of `k` and `L` and every Nusselt number: what they return has the SI size
`Nu k / L`, provided the unit of `k / L` can be converted faithfully (C18). -/
theorem C72_open_field_size (fmt : ℚ → Sym) (Nu f : ℝ) (k : MultiV ℝ) (L : UnitV ℝ) (hk : k.Genuine) (hL : WellPrefixed L.unit)
    (h0 : L.value ≠ 0) (t b : UList)
    (hr : reduceUnits (K := ℝ) false true k.top (k.bot ++ [⟨L.unit, L.exp⟩]) = .ok (t, b, f)) (hs : SafeUnits t b)
    (r : Val ℝ) (h : openField stdTables fmt (pnum Nu) (.ok (.unit L)) (.ok (.multi k)) = .ok r) :
    HasMag siR r (Nu * k.mag siR / L.mag siR) := by
  obtain ⟨v, m, rfl, e, hu, -⟩ := C72_open_field_units fmt _ _ _ r h
  obtain ⟨rfl, rfl⟩ := nusselt_units hr e
  obtain ⟨r', e', hmag⟩ := nusselt_mag Nu k L hk hL h0
  rw [e] at e'
  cases e'
  have h1 := hmag siR siSize_coherent
  unfold openField at h
  rw [e] at h
  simp only at h
  split at h
  · cases h
  next w hw =>
  cases h
  have hs' : SafeUnits w.top w.bot := by
    simp only [List.mem_cons, List.not_mem_nil, or_false, Prod.mk.injEq] at hu
    rcases hu with ⟨h2, h3⟩ | ⟨h2, h3⟩ <;> rw [h2, h3] <;> refine ⟨?_, ?_, ?_, ?_, ?_⟩ <;> decide +kernel
  have h2 := C18_same_magnitude_partial m w _ hw hs hs'
  refine (HasMag.multi _).of_eq ?_
  generalize Nu * k.mag siR / L.mag siR = x at h1
  cases h1
  exact h2

/-- In particular the two correlations for laminar flow along a plate, whatever the units of `k` and `L`. -/
theorem C72_laminar_plate_size (fmt : ℚ → Sym) (Re Pr psi f : ℝ) (k : MultiV ℝ) (L : UnitV ℝ) (hRe : 0 < Re) (hPr : 0 < Pr)
    (hk : k.Genuine) (hL : WellPrefixed L.unit) (h0 : L.value ≠ 0) (t b : UList)
    (hr : reduceUnits (K := ℝ) false true k.top (k.bot ++ [⟨L.unit, L.exp⟩]) = .ok (t, b, f)) (hs : SafeUnits t b) (r : Val ℝ) :
    (htcLaminarLocal stdTables fmt (pnum Re) (pnum Pr) (.ok (.unit L)) (.ok (.multi k)) (pnum psi) = .ok r →
      HasMag siR r (332 / 1000 * Re ^ ((1 / 2 : ℚ) : ℝ) * Pr ^ ((1 / 3 : ℚ) : ℝ) * psi * k.mag siR / L.mag siR)) ∧
    (htcLaminarAvg stdTables fmt (pnum Re) (pnum Pr) (.ok (.unit L)) (.ok (.multi k)) (pnum psi) = .ok r →
      HasMag siR r (664 / 1000 * Re ^ ((1 / 2 : ℚ) : ℝ) * Pr ^ ((1 / 3 : ℚ) : ℝ) * psi * k.mag siR / L.mag siR)) := by
  constructor <;> intro h
  · rw [htcLaminarLocal, pnum_pow hRe, pnum_pow hPr, pnum_mul, pnum_mul, pnum_mul] at h
    exact C72_open_field_size fmt _ f k L hk hL h0 t b hr hs r h
  · rw [htcLaminarAvg, pnum_pow hRe, pnum_pow hPr, pnum_mul, pnum_mul, pnum_mul] at h
    exact C72_open_field_size fmt _ f k L hk hL h0 t b hr hs r h

/-- They return whenever `k / L` is a compound unit from the vocabulary with the dimension of a heat transfer coefficient,
and no other unit of that vocabulary is accepted. -/
theorem C72_open_field_defined (fmt : ℚ → Sym) (Nu : PyM (Val ℝ)) (k : MultiV ℝ) (L : PyM (Val ℝ)) (m : MultiV ℝ)
    (e : (Nu * .ok (.multi k)) / L = .ok (.multi m)) (hm : Ordinary m.top m.bot) :
    (∃ r, openField stdTables fmt Nu L (.ok (.multi k)) = .ok r) ↔
      dimOfUnit m.top m.bot = (0, 1, -3, -1, 0, 0) ∧ forceOfUnit m.top m.bot = 0 := by
  have key : ∀ (tgt : Sym) (t b : UList), parseUnits tgt = .ok (t, b) → Ordinary t b →
      dimOfUnit t b = (0, 1, -3, -1, 0, 0) → forceOfUnit t b = 0 → ((∃ w, convertMulti stdTables m tgt = .ok w) ↔
        dimOfUnit m.top m.bot = (0, 1, -3, -1, 0, 0) ∧ forceOfUnit m.top m.bot = 0) := by
    intro tgt t b hp ht hd hf
    rw [C76_convertible_iff_partial m tgt t b hp hm ht, hd, hf]
  have k1 := key c!"BTU/hr*ft^2*F" [⟨c!"BTU", 1⟩] [⟨c!"hr", 1⟩, ⟨c!"ft", 2⟩, ⟨c!"F", 1⟩] (by decide +kernel)
    (by decide +kernel) (by decide +kernel) (by decide +kernel)
  have k2 := key c!"W/m^2*K" [⟨c!"W", 1⟩] [⟨c!"m", 2⟩, ⟨c!"K", 1⟩] (by decide +kernel)
    (by decide +kernel) (by decide +kernel) (by decide +kernel)
  unfold openField
  simp only [e]
  split_ifs
  · rw [← k1]
    constructor
    · rintro ⟨r, h⟩
      split at h
      · cases h
      next w hw => exact ⟨w, hw⟩
    · rintro ⟨w, hw⟩
      simp only [hw]
      exact ⟨_, rfl⟩
  · rw [← k2]
    constructor
    · rintro ⟨r, h⟩
      split at h
      · cases h
      next w hw => exact ⟨w, hw⟩
    · rintro ⟨w, hw⟩
      simp only [hw]
      exact ⟨_, rfl⟩

/-- Both hold of a conductivity in kJ/min*cm*R and a length in mm: the unit of `k / L`. -/
example : let t : UList := [⟨c!"kg", 1⟩]
    let b : UList := [⟨c!"min", 1⟩, ⟨c!"R", 1⟩, ⟨c!"s", 2⟩]
    reduceUnits (K := ℚ) false true [⟨c!"kJ", 1⟩] [⟨c!"min", 1⟩, ⟨c!"cm", 1⟩, ⟨c!"R", 1⟩, ⟨c!"mm", 1⟩] = .ok (t, b, 100000000) ∧
    SafeUnits t b ∧ Ordinary t b ∧ dimOfUnit t b = (0, 1, -3, -1, 0, 0) ∧ forceOfUnit t b = 0 := by
  refine ⟨?_, ⟨?_, ?_, ?_, ?_, ?_⟩, ?_, ?_, ?_⟩ <;> decide +kernel

end Verif
