import Mathlib.Analysis.Real.Pi.Bounds
import Verif.Props.CompoundConv
import Verif.Lemmas.ConvertCast
import Verif.Props.Expressions
import Verif.HeatTransfer.Exchangers
import Verif.HeatTransfer.Transient
import Verif.HeatTransfer.Radiation
import Verif.MassTransfer.Coefficients
import Verif.Safety.Basic
import Verif.Reactions.Parameters
import Verif.Spec.SI

/-!
# C65 to C70: single formulas of the library
-/

namespace Verif

/-! ## C65: reactor volume and melting time -/

/-- `cstr_volume` in any units: whatever it returns has the magnitude `(F_A0 - F_A) / (-r_A)`. -/
theorem C65_cstr_any_units (f0 f r : MultiV ℝ) (h0 : f0.Genuine) (h1 : f.Genuine) (h2 : r.Genuine) (v : Val ℝ)
    (h : cstrVolume (.ok (.multi f0)) (.ok (.multi f)) (.ok (.multi r)) = .ok v) (ρ : Sym → ℝ) (hρ : Coherent ρ) :
    HasMag ρ v ((f0.mag ρ - f.mag ρ) / -(r.mag ρ)) := by
  let env : ℕ → MultiV ℝ := fun | 0 => f0 | 1 => f | _ => r
  refine C64_compound (.div (.sub (.var 0) (.var 1)) (.neg (.var 2))) env
    (.inr ⟨_, _, rfl, ⟨trivial, trivial⟩, trivial⟩) ?_ v h ρ hρ
  intro i
  match i with
  | 0 => exact h0
  | 1 => exact h1
  | _ + 2 => exact h2

/-- `cstr_volume` returns a result exactly when the flow rates have the same units and the rate is not zero. -/
theorem C65_cstr_defined (f0 f r : MultiV ℝ) (h0 : f0.Genuine) (h2 : r.Genuine) :
    (∃ v, cstrVolume (.ok (.multi f0)) (.ok (.multi f)) (.ok (.multi r)) = .ok v) ↔
      (f0.top = f.top ∧ f0.bot = f.bot) ∧ r.value ≠ 0 := by
  have hd : ∀ x : ℝ, cstrVolume (.ok (.multi f0)) (.ok (.multi f)) (.ok (.multi r)) =
      if f0.top = f.top ∧ f0.bot = f.bot then
        Val.div (.multi ⟨.multi, f0.value - f.value, f0.top, f0.bot⟩) (.multi ⟨r.cls, -r.value, r.top, r.bot⟩)
      else .error .typeError := by
    intro x
    simp only [cstrVolume, ok_sub, ok_neg, Val.sub, multiSub, Val.neg, multiNeg]
    split
    · rw [ok_div]
    · rw [err_div]
  rw [hd 0]
  split
  · rename_i hu
    by_cases hr : r.value = 0
    · rw [C02_div_zero ⟨.multi, f0.value - f.value, f0.top, f0.bot⟩ ⟨r.cls, -r.value, r.top, r.bot⟩ h0 h2 (by simp [hr])]
      simp [hr]
    · obtain ⟨v, e, -⟩ := C02_div_magnitude ⟨.multi, f0.value - f.value, f0.top, f0.bot⟩ ⟨r.cls, -r.value, r.top, r.bot⟩
        h0 h2 (by simpa using hr)
      rw [e]
      simp [hu, hr]
  · rename_i hu
    simp [hu]

/-- In litres. -/
theorem C65_cstr_litres (f0 f r : ℝ) (hr : r ≠ 0) :
    cstrVolume (qM c!"MolarFlowRate" f0 c!"mol/s") (qM c!"MolarFlowRate" f c!"mol/s") (qM c!"ReactionRate" r c!"mol/L*s") =
      qU .unit ((f0 - f) / -r) c!"L" := by
  have : -r ≠ 0 := neg_ne_zero.2 hr
  units_eval [cstrVolume, pyDiv_ne this]

example : (⟨.sub c!"MolarFlowRate", 5, [⟨c!"mol", 1⟩], [⟨c!"min", 1⟩]⟩ : MultiV ℝ).Genuine ∧
    (⟨.sub c!"ReactionRate", -2, [⟨c!"mol", 1⟩], [⟨c!"cm", 3⟩, ⟨c!"s", 1⟩]⟩ : MultiV ℝ).Genuine :=
  ⟨⟨by decide, by decide⟩, ⟨by decide, by decide⟩⟩

/-- Melting time in SI units. -/
theorem C65_melting_SI_partial (rho hf k ts tm li lf : ℝ) (hk : k ≠ 0) (ht : ts ≠ tm) :
    pseudoSteadyTime (densSI rho) (qMulti hf c!"J/kg") (condSI k) (tempSI ts) (tempSI tm) (lenSI li) (lenSI lf) =
      qU .unit (rho * hf * (lf ^ 2 - li ^ 2) / (2 * k * (ts - tm))) c!"s" := by
  have h2 : ts - tm ≠ 0 := sub_ne_zero.2 ht
  units_eval [pseudoSteadyTime, densSI, condSI, lenSI, tempSI, h2, pyDiv_ne (mul_ne_zero h2 hk)]
  refine okUnit_congr ?_
  field_simp

/-- Melting times of consecutive layers add up. -/
theorem C65_melting_additive_partial (rho hf k ts tm l0 l1 l2 : ℝ) (hk : k ≠ 0) (ht : ts ≠ tm) :
    pseudoSteadyTime (densSI rho) (qMulti hf c!"J/kg") (condSI k) (tempSI ts) (tempSI tm) (lenSI l0) (lenSI l1) +
      pseudoSteadyTime (densSI rho) (qMulti hf c!"J/kg") (condSI k) (tempSI ts) (tempSI tm) (lenSI l1) (lenSI l2) =
    pseudoSteadyTime (densSI rho) (qMulti hf c!"J/kg") (condSI k) (tempSI ts) (tempSI tm) (lenSI l0) (lenSI l2) := by
  rw [C65_melting_SI_partial _ _ _ _ _ _ _ hk ht, C65_melting_SI_partial _ _ _ _ _ _ _ hk ht,
    C65_melting_SI_partial _ _ _ _ _ _ _ hk ht]
  have h2 : ts - tm ≠ 0 := sub_ne_zero.2 ht
  units_eval []
  refine okUnit_congr ?_
  field_simp
  ring

/-- Thicknesses in centimetres are read as metres: the time is 10⁴ times too long. -/
theorem C65_melting_cm (rho hf k ts tm li lf : ℝ) (hk : k ≠ 0) (ht : ts ≠ tm) :
    pseudoSteadyTime (densSI rho) (qMulti hf c!"J/kg") (condSI k) (tempSI ts) (tempSI tm) (qU .length li c!"cm")
      (qU .length lf c!"cm") = qU .unit (rho * hf * (lf ^ 2 - li ^ 2) / (2 * k * (ts - tm))) c!"s" := by
  have h2 : ts - tm ≠ 0 := sub_ne_zero.2 ht
  units_eval [pseudoSteadyTime, densSI, condSI, tempSI, h2, pyDiv_ne (mul_ne_zero h2 hk)]
  refine okUnit_congr ?_
  field_simp

/-- So the melting time depends on the unit of the thickness. -/
theorem C65_melting_unit_false : ¬ ∀ rho hf k ts tm li lf : ℝ, 0 < k → tm < ts →
    pseudoSteadyTime (densSI rho) (qMulti hf c!"J/kg") (condSI k) (tempSI ts) (tempSI tm) (qU .length (100 * li) c!"cm")
      (qU .length (100 * lf) c!"cm") =
    pseudoSteadyTime (densSI rho) (qMulti hf c!"J/kg") (condSI k) (tempSI ts) (tempSI tm) (lenSI li) (lenSI lf) := by
  intro h
  have := h 1 1 1 1 0 0 1 (by norm_num) (by norm_num)
  rw [C65_melting_cm _ _ _ _ _ _ _ (by norm_num) (by norm_num),
    C65_melting_SI_partial _ _ _ _ _ _ _ (by norm_num) (by norm_num)] at this
  units_eval [Except.ok.injEq, Val.unit.injEq, UnitV.mk.injEq] at this
  norm_num at this

/-! ## C66: heat exchanger geometry -/

/-- `equivalent_diameter` for any area and perimeter in length units. -/
theorem C66_equivalent_diameter (a p : UnitV ℝ) (ha : a.Constructed) (hae : a.exp = 2) (hpe : p.exp = 1)
    (hp : p.value ≠ 0) :
    ∃ r, equivalentDiameter (.ok (.unit a)) (.ok (.unit p)) = .ok r ∧
      ∀ ρ : Sym → ℝ, (∀ s, 0 < ρ s) → HasMag ρ r (4 * (a.mag ρ / p.mag ρ)) := by
  simp only [equivalentDiameter, pnum, ok_div, Val.div, unitDiv, pyDiv_ne hp]
  by_cases e : a.unit = p.unit
  · have h0 : ¬ (a.exp - p.exp = 0) := by rw [hae, hpe]; norm_num
    have ha' := ha.with (a.value / p.value) (a.exp - p.exp)
    rw [if_pos e, if_neg h0, ha.rebuild]
    simp only [wrapUnit, ok_mul, Val.mul, unitRmul]
    rw [ha'.rebuild]
    refine ⟨_, rfl, fun ρ hρ => (HasMag.unit _).of_eq ?_⟩
    simp only [UnitV.mag, e, hae, hpe]
    push_cast
    rw [Real.rpow_one, show (2 : ℝ) = 1 + 1 by norm_num, Real.rpow_add (hρ _), Real.rpow_one]
    have := (hρ p.unit).ne'
    field_simp
  · simp only [e, if_false, ok_mul, Val.mul, multiRmul]
    refine ⟨_, rfl, fun ρ hρ => (HasMag.multi _).of_eq ?_⟩
    simp only [MultiV.mag, mag, lsize_single, UnitV.mag]
    have := (Real.rpow_pos_of_pos (hρ p.unit) (p.exp : ℝ)).ne'
    field_simp

example : (⟨.area, 9, c!"ft", 2⟩ : UnitV ℝ).Constructed := ⟨9, c!"ft", 2, by simp [mkUnit]⟩

/-- A square duct of side `a`: the equivalent diameter is the side. -/
theorem C66_square_duct (a : ℝ) (ha : a ≠ 0) :
    equivalentDiameter (areaSI (a ^ 2)) (lenSI (4 * a)) = qU .area a c!"m" := by
  have : (4 * a) ≠ 0 := by simpa using ha
  units_eval [equivalentDiameter, areaSI, lenSI, ha, pyDiv_ne this]
  refine okUnit_congr ?_
  field_simp

/-- `z_factor` and `nh_factor` in any one temperature unit are the documented ratios. -/
theorem C66_factors (s : Sym) (hi ho ci co : ℝ) (h1 : co ≠ ci) (h2 : hi ≠ ci) :
    zFactor (qU .temperature hi s) (qU .temperature ho s) (qU .temperature ci s) (qU .temperature co s) =
      pnum ((hi - ho) / (co - ci)) ∧
    nhFactor (qU .temperature hi s) (qU .temperature ci s) (qU .temperature co s) =
      pnum ((co - ci) / (hi - ci)) := by
  have h1' : co - ci ≠ 0 := sub_ne_zero.2 h1
  have h2' : hi - ci ≠ 0 := sub_ne_zero.2 h2
  constructor
  · units_eval [zFactor, pyDiv_ne h1']
  · units_eval [nhFactor, pyDiv_ne h2']

/-- The effectiveness factor of a feasible exchanger lies between 0 and 1. -/
theorem C66_effectiveness (s : Sym) (hi ci co : ℝ) (h1 : ci ≤ co) (h2 : co ≤ hi) (h3 : ci < hi) :
    ∃ x, nhFactor (qU .temperature hi s) (qU .temperature ci s) (qU .temperature co s) = pnum x ∧ 0 ≤ x ∧ x ≤ 1 := by
  have h2' : hi - ci ≠ 0 := (sub_pos.2 h3).ne'
  refine ⟨(co - ci) / (hi - ci), ?_, ?_, ?_⟩
  · units_eval [nhFactor, pyDiv_ne h2']
  · exact div_nonneg (by linarith) (by linarith)
  · rw [div_le_one (by linarith)]; linarith

/-- The flow areas `Sb_calc` and `Sc_calc` are returned in metres: the right number of square metres, wrong unit. -/
theorem C66_flow_areas (fb ds nb dout P p : ℝ) (hp : p ≠ 0) :
    sbCalc (pnum fb) (lenSI ds) (pnum nb) (lenSI dout) =
      qU .length (fb * (Real.pi * ds ^ 2 / 4) - nb * (Real.pi * dout ^ 2 / 4)) c!"m" 1 ∧
    scCalc (lenSI P) (lenSI ds) (lenSI dout) (lenSI p) = qU .length (P * ds * (1 - dout / p)) c!"m" 1 := by
  constructor
  · units_eval [sbCalc, lenSI]
    exact okUnit_congr (by ring)
  · units_eval [scCalc, lenSI, hp]

/-- The same in every unit of length: the number of square units, called a length in that unit. So no area is ever
returned, whatever the unit. -/
theorem C66_flow_areas_any_unit (u : Sym) (fb ds nb dout P p : ℝ) (hp : p ≠ 0) :
    sbCalc (pnum fb) (qU .length ds u) (pnum nb) (qU .length dout u) =
      qU .length (fb * (Real.pi * ds ^ 2 / 4) - nb * (Real.pi * dout ^ 2 / 4)) u 1 ∧
    scCalc (qU .length P u) (qU .length ds u) (qU .length dout u) (qU .length p u) =
      qU .length (P * ds * (1 - dout / p)) u 1 := by
  constructor
  · units_eval [sbCalc]
    exact okUnit_congr (by ring)
  · units_eval [scCalc, hp]

/-- Diameters in two different units: `Sb_calc` raises TypeError. -/
theorem C66_flow_areas_mixed {u v : Sym} (huv : u ≠ v) (fb ds nb dout : ℝ) :
    sbCalc (pnum fb) (qU .length ds u) (pnum nb) (qU .length dout v) = .error .typeError := by
  units_eval [sbCalc, huv]

/-- So an area is not returned. -/
theorem C66_flow_area_false : ¬ ∀ fb ds nb dout : ℝ, 0 < fb → 0 < ds → 0 < nb → 0 < dout →
    ∃ a, sbCalc (pnum fb) (lenSI ds) (pnum nb) (lenSI dout) = qU .length a c!"m" 2 := by
  intro h
  obtain ⟨a, ha⟩ := h 1 1 1 1 one_pos one_pos one_pos one_pos
  rw [(C66_flow_areas 1 1 1 1 1 1 one_ne_zero).1] at ha
  units_eval [Except.ok.injEq, Val.unit.injEq, UnitV.mk.injEq] at ha

/-- `Ge_calc` with true areas: geometric mean of the two mass velocities. -/
theorem C66_mass_velocity (m sb sc : ℝ) (hm : 0 ≤ m) (hb : 0 < sb) (hc : 0 < sc) :
    geCalc (qM c!"MassFlowRate" m c!"kg/s") (areaSI sb) (areaSI sc) = qMulti (Real.sqrt (m / sb * (m / sc))) c!"kg/m^2*s" := by
  have : 0 ≤ m / sb * (m / sc) := by positivity
  units_eval [geCalc, areaSI, hb.ne', hc.ne', pyDiv_ne hb.ne', pyDiv_ne hc.ne', pow_real_half this]

/-- The value of the shell side Nusselt number correlation. -/
noncomputable def shellNu (re pr psi : ℝ) : ℝ := 2 / 10 * re ^ (6 / 10 : ℝ) * pr ^ (33 / 100 : ℝ) * psi

/-- `htc_shell` with a mass velocity in kg/m²s: `h Do / k` is the correlation. -/
theorem C66_shell_htc (dout ge mu pr k psi : ℝ) (hd : 0 < dout) (hg : 0 < ge) (hm : 0 < mu) (hp : 0 < pr) :
    htcShell (lenSI dout) (qMulti ge c!"kg/m^2*s") (viscSI mu) (pnum pr) (condSI k) (pnum psi) =
      qMulti (shellNu (dout * ge / mu) pr psi * k / dout) c!"W/m^2*K" := by
  have h1 : 0 < dout * ge / mu := by positivity
  units_eval [htcShell, lenSI, viscSI, condSI, pyDiv_ne hm.ne', pyDiv_ne hd.ne', pow_real_pos h1, pow_real_pos hp]
  refine okMulti_congr ?_
  simp only [shellNu]
  norm_num

/-- `shell_htc_full` chains these and returns a number of W/m·K: the flow areas have lost a metre each. -/
theorem C66_shell_full (fb ds dout nb P p m mu cp k : ℝ) (hp : p ≠ 0) (hm : 0 < m) (hmu : 0 < mu) (hcp : 0 < cp) (hk : 0 < k)
    (hd : 0 < dout) (h1 : 0 < fb * (Real.pi * ds ^ 2 / 4) - nb * (Real.pi * dout ^ 2 / 4))
    (h2 : 0 < P * ds * (1 - dout / p)) :
    shellHtcFull (pnum fb) (lenSI ds) (lenSI dout) (pnum nb) (lenSI P) (lenSI p) (qM c!"MassFlowRate" m c!"kg/s")
      (viscSI mu) (cpSI cp) (condSI k) =
    .ok (.multi ⟨.multi, shellNu (dout * Real.sqrt (m / (fb * (Real.pi * ds ^ 2 / 4) - nb * (Real.pi * dout ^ 2 / 4)) *
      (m / (P * ds * (1 - dout / p)))) / mu) (mu * cp / k) 1 * k / dout,
      [⟨c!"kg", 1⟩, ⟨c!"m", 1⟩], [⟨c!"K", 1⟩, ⟨c!"s", 3⟩]⟩) := by
  obtain ⟨e1, e2⟩ := C66_flow_areas fb ds nb dout P p hp
  unfold shellHtcFull
  simp only [e1, e2]
  generalize fb * (Real.pi * ds ^ 2 / 4) - nb * (Real.pi * dout ^ 2 / 4) = sb at h1
  generalize P * ds * (1 - dout / p) = sc at h2
  have h3 : 0 ≤ m / sb * (m / sc) := by positivity
  have h4 : 0 < dout * Real.sqrt (m / sb * (m / sc)) / mu := by positivity
  have h5 : 0 < mu * cp / k := by positivity
  units_eval [geCalc, prandtl, htcShell, lenSI, viscSI, cpSI, condSI, pyDiv_ne h1.ne', pyDiv_ne h2.ne', h1.ne', h2.ne', 
    pow_real_half h3, pyDiv_ne hmu.ne', pyDiv_ne hk.ne', pow_real_pos h4, pow_real_pos h5, pyDiv_ne hd.ne', hd.ne']
  refine okMulti_congr ?_
  simp only [shellNu]
  norm_num
  ring

theorem solvableFor_inv {V R : Type} {isNone : V → Bool} {s : Sig V} {solvable : List Sym} {unknowns : ℕ}
    {body : List (Sym × V) → Solving → PyM R} {args : List V} {kw : List (Sym × V)} {r : R}
    (h : solvableFor isNone s solvable unknowns body args kw = .ok r) : ∃ env sf, body env sf = .ok r := by
  unfold solvableFor at h
  simp only at h
  split at h
  · cases h
  · split at h
    · cases h
    · split at h
      · cases h
      · split at h
        · cases h
        · split at h
          · split at h
            · cases h
            · split at h
              · cases h
              · split at h
                · cases h
                · exact ⟨_, _, h⟩
          · split at h
            · cases h
            · split at h
              · cases h
              · exact ⟨_, _, h⟩

/-- `solve_heat_exchanger_system` never returns a solution: it raises or returns None. -/
theorem C66_system_never_solved {V : Type} (isNone : V → Bool) (f : V) (args : List V) (kw : List (Sym × V)) (v : V) :
    solveHeatExchanger isNone f args kw ≠ .ok (some v) := by
  intro h
  obtain ⟨env, s, hb⟩ := solvableFor_inv h
  revert hb
  unfold heatExchangerBody
  split
  · split_ifs <;> simp
  · simp
  · split <;> simp

/-- With several unknowns the body only ever sees a list of that many names in the order of the signature. -/
theorem solvableFor_congr_many {V R : Type} {isNone : V → Bool} {s : Sig V} {solvable : List Sym} {unknowns : ℕ}
    (hu : unknowns ≠ 1) {b b' : List (Sym × V) → Solving → PyM R}
    (h : ∀ env nn, nn.Sublist s.names → nn.length = unknowns → b env (.many nn) = b' env (.many nn))
    (args : List V) (kw : List (Sym × V)) :
    solvableFor isNone s solvable unknowns b args kw = solvableFor isNone s solvable unknowns b' args kw := by
  unfold solvableFor
  cases s.defaults with
  | none => rfl
  | some ds =>
    have hsub : (noneNames isNone (s.names.zip (args ++ kw.map (·.2) ++ ds))).Sublist s.names := by
      refine List.Sublist.trans (List.filter_sublist.map _) ?_
      generalize args ++ kw.map (·.2) ++ ds = l
      induction s.names generalizing l with
      | nil => simp
      | cons n ns ih => cases l with
        | nil => simp
        | cons x l => simpa using ih l
    revert hsub
    simp only [if_neg hu]
    generalize noneNames isNone _ = nn
    intro hsub
    split_ifs with h1 h2 h3 h4
    · rfl
    · rfl
    · rfl
    · rfl
    · cases bindCall s args kw with
      | error e => rfl
      | ok env => exact h env nn hsub (by omega)

/-- The guard of the body against one flow and its own heat capacity as the two unknowns never fires, in no call: the
decorator lists the unknowns in the order of the signature, the guard expects the opposite order.  Hence the whole body is
`return None`, and nothing but the decorator's checks raises. -/
theorem C66_system_guard_dead {V : Type} (isNone : V → Bool) (f : V) (args : List V) (kw : List (Sym × V)) :
    solveHeatExchanger isNone f args kw =
      solvableFor isNone (heatExchangerSig f)
        [c!"m1", c!"m2", c!"cp1", c!"cp2", c!"T0A", c!"T1A", c!"T0B", c!"T1B", c!"area", c!"U"] 2
        (fun _ _ => .ok none) args kw := by
  refine solvableFor_congr_many (by decide) ?_ args kw
  intro _ nn h hl
  match nn, hl, h with
  | [x, y], _, h =>
    simp only [heatExchangerBody]
    rw [if_neg]
    rintro (⟨rfl, rfl⟩ | ⟨rfl, rfl⟩) <;> revert h <;> simp only [heatExchangerSig] <;> decide +kernel

/-- One flow and its own heat capacity as the two unknowns: the guard means to raise UnsolvableEquation, the call returns
None. -/
theorem C66_system_guard_false : ¬ ∀ args : List ℕ,
    noneNames (fun v => decide (v = 0)) ((heatExchangerSig 1).names.zip args) = [c!"m1", c!"cp1"] →
    solveHeatExchanger (fun v => decide (v = 0)) 1 args [] = .error .unsolvable := by
  intro h
  have := h [0, 0, 1, 1, 1, 1, 1, 1, 1, 1] (by decide +kernel)
  revert this
  decide +kernel

example : solveHeatExchanger (fun v : ℕ => decide (v = 0)) 1 [1, 0, 1, 1, 0, 1, 1, 1, 1, 1] [] = .ok none := by
  decide +kernel

/-! ## C67: phase changes -/

/-- Heat transfer coefficient of a condensing bundle of tubes, SI units. -/
theorem C67_condensation_SI (k rho g hv n t2 t1 d mu : ℝ) (hk : 0 < k) (hr : 0 < rho) (hg : 0 < g) (hh : 0 < hv) (hn : 0 < n)
    (ht : t1 < t2) (hd : 0 < d) (hm : 0 < mu) :
    condensationCoefficient (condSI k) (densSI rho) (qM c!"Gravity" g c!"m/s^2") (qM c!"Hvap" hv c!"J/kg") (pnum n)
      (tempSI t2) (tempSI t1) (lenSI d) (viscSI mu) =
    qMulti (729 / 1000 * (k ^ 3 * rho ^ 2 * g * hv / (n * (t2 - t1) * d * mu)) ^ (1 / 4 : ℝ)) c!"W/m^2*K" := by
  have h0 : 0 < t2 - t1 := sub_pos.2 ht
  have h2 : (t2 - t1) * n * d * mu ≠ 0 := by positivity
  have h3 : 0 < k ^ 3 * rho ^ 2 * g * hv / ((t2 - t1) * n * d * mu) := by positivity
  units_eval [condensationCoefficient, condSI, densSI, tempSI, lenSI, viscSI, pyDiv_ne h2, pow_real_pos h3]
  refine okMulti_congr ?_
  rw [mul_comm (t2 - t1)]
  norm_num

/-- Maximal boiling flux in any units: the magnitude of the documented formula. -/
theorem C67_flux_any_units (hv rv rl st g : MultiV ℝ) (h1 : hv.Genuine) (h2 : rv.Genuine) (h3 : rl.Genuine) (h4 : st.Genuine)
    (h5 : g.Genuine) (r : Val ℝ) (h : fluxMaxBoilingValue (.ok (.multi hv)) (.ok (.multi rv)) (.ok (.multi rl))
      (.ok (.multi st)) (.ok (.multi g)) = .ok r) (ρ : Sym → ℝ) (hρ : Coherent ρ) :
    HasMag ρ r (15 / 100 * hv.mag ρ * rv.mag ρ ^ (1 / 2 : ℝ) *
      (st.mag ρ * g.mag ρ * (rl.mag ρ - rv.mag ρ)) ^ (1 / 4 : ℝ)) := by
  let env : ℕ → MultiV ℝ := fun | 0 => hv | 1 => rv | 2 => rl | 3 => st | _ => g
  have := C64_compound (.mul (.mul (.mul (.lit (15 / 100)) (.var 0)) (.pow (.var 1) (1 / 2)))
    (.pow (.mul (.mul (.var 3) (.var 4)) (.sub (.var 2) (.var 1))) (1 / 4))) env
    (.inl ⟨⟨⟨trivial, trivial⟩, trivial⟩, ⟨trivial, trivial⟩, trivial, trivial⟩) ?_ r h ρ hρ
  · refine this.of_eq ?_
    simp only [Arith.meaning, env]
    norm_num
  · intro i
    match i with
    | 0 => exact h1
    | 1 => exact h2
    | 2 => exact h3
    | 3 => exact h4
    | _ + 4 => exact h5

/-- In SI units the flux is in W/m². -/
theorem C67_flux_SI (hv rv rl st g : ℝ) (h1 : 0 < rv) (h2 : rv < rl) (h3 : 0 < st) (h4 : 0 < g) :
    fluxMaxBoilingValue (K := ℝ) (qM c!"Hvap" hv c!"J/kg") (densSI rv) (densSI rl) (qMulti st c!"kg/s^2")
      (qM c!"Gravity" g c!"m/s^2") =
    qMulti (15 / 100 * hv * Real.sqrt rv * (st * g * (rl - rv)) ^ (1 / 4 : ℝ)) c!"W/m^2" := by
  have h0 : 0 < rl - rv := sub_pos.2 h2
  have h5 : 0 < st * g * (rl - rv) := by positivity
  units_eval [fluxMaxBoilingValue, densSI, pow_real_half h1.le, pow_real_pos h5]
  refine okMulti_congr ?_
  norm_num

/-- `flux_max_boiling` returns this value in W/m². -/
theorem C67_flux_full_SI (hv rv rl st g : ℝ) (h1 : 0 < rv) (h2 : rv < rl) (h3 : 0 < st) (h4 : 0 < g) :
    fluxMaxBoiling (K := ℝ) stdTables (qM c!"Hvap" hv c!"J/kg") (densSI rv) (densSI rl) (qMulti st c!"kg/s^2")
      (qM c!"Gravity" g c!"m/s^2") =
    qMulti (15 / 100 * hv * Real.sqrt rv * (st * g * (rl - rv)) ^ (1 / 4 : ℝ)) c!"W/m^2" := by
  rw [fluxMaxBoiling, C67_flux_SI hv rv rl st g h1 h2 h3 h4]
  units_eval []
  rw [convertMulti_cast (q := 1) (t := [⟨c!"W", 1⟩]) (b := [⟨c!"m", 2⟩]) (by decide +kernel)]

/-- Whatever it returns is the unconverted product, and has the dimension of a heat flux. -/
theorem C67_flux_unconverted (hv rv rl st g : PyM (Val ℝ)) (r : Val ℝ) (h : fluxMaxBoiling stdTables hv rv rl st g = .ok r) :
    fluxMaxBoilingValue hv rv rl st g = .ok r ∧ ∀ m, r = .multi m → dimOfUnit m.top m.bot = (0, 1, -3, 0, 0, 0) := by
  unfold fluxMaxBoiling at h
  split at h
  · cases h
  · next q hq =>
    split at h
    · cases h
    · next w hw =>
      cases h
      refine ⟨hq, fun m hm => ?_⟩
      cases hm
      have hd := C17_same_dimension _ _ _ hw
      obtain ⟨hp, -, -⟩ := convert_units hw
      rw [show parseUnits c!"W/m^2" = .ok ([⟨c!"W", 1⟩], [⟨c!"m", 2⟩]) by decide +kernel, Except.ok.injEq,
        Prod.mk.injEq] at hp
      rw [hd, ← hp.1, ← hp.2]; decide +kernel
  · next q hq =>
    split at h
    · cases h
    · cases h
      exact ⟨hq, fun m hm => by cases hm⟩
  · cases h

/-- In customary units the result stays in BTU/ft²·s. -/
theorem C67_flux_customary (hv rv rl st g : ℝ) (h1 : 0 < rv) (h2 : rv < rl) (h3 : 0 < st) (h4 : 0 < g) :
    fluxMaxBoiling (K := ℝ) stdTables (qM c!"Hvap" hv c!"BTU/lb") (qM c!"Density" rv c!"lb/ft^3")
      (qM c!"Density" rl c!"lb/ft^3") (qMulti st c!"lb/s^2") (qM c!"Gravity" g c!"ft/s^2") =
    qMulti (15 / 100 * hv * Real.sqrt rv * (st * g * (rl - rv)) ^ (1 / 4 : ℝ)) c!"BTU/ft^2*s" := by
  have h0 : 0 < rl - rv := sub_pos.2 h2
  have h5 : 0 < st * g * (rl - rv) := by positivity
  units_eval [fluxMaxBoiling, fluxMaxBoilingValue, pow_real_half h1.le, pow_real_pos h5]
  rw [convertMulti_cast (q := 1648525000 / 145161) (t := [⟨c!"W", 1⟩]) (b := [⟨c!"m", 2⟩]) (by decide +kernel)]
  refine okMulti_congr ?_
  norm_num

/-- The documentation says the answer is cast to W/m² explicitly; it is not. -/
theorem C67_flux_cast_false : ¬ ∀ (hv rv rl st g : PyM (Val ℝ)) (m : MultiV ℝ),
    fluxMaxBoiling stdTables hv rv rl st g = .ok (.multi m) → m.top = [⟨c!"W", 1⟩] ∧ m.bot = [⟨c!"m", 2⟩] := by
  intro h
  have e := C67_flux_customary 1 1 2 1 1 one_pos one_lt_two one_pos one_pos
  units_eval [] at e
  have := (h _ _ _ _ _ _ e).1
  revert this
  decide

/-! ## C68: Stokes-Einstein and Nernst-Haskell -/

/-- Stokes-Einstein, radius in metres. -/
theorem C68_stokes_SI_partial (t mu r : ℝ) (h1 : mu ≠ 0) (h2 : r ≠ 0) :
    stokesEinstein (tempSI t) (viscSI mu) (lenSI r) =
      qMulti (1380649 / 10 ^ 29 * t / (6 * Real.pi * mu * r)) c!"m^2/s" := by
  have h3 : r * (6 * Real.pi * mu) ≠ 0 := mul_ne_zero h2 (mul_ne_zero (mul_ne_zero (by norm_num) Real.pi_ne_zero) h1)
  units_eval [stokesEinstein, boltzmann, tempSI, lenSI, viscSI, pyDiv_ne h3]
  refine okMulti_congr ?_
  rw [mul_comm t, mul_comm r]

/-- A radius in nanometres or centimetres: centimetres are read as metres. -/
theorem C68_stokes_cm (t mu r : ℝ) (h1 : mu ≠ 0) (h2 : r ≠ 0) :
    stokesEinstein (tempSI t) (viscSI mu) (qU .length r c!"cm") =
      qMulti (1380649 / 10 ^ 29 * t / (6 * Real.pi * mu * r)) c!"m^2/s" := by
  have h3 : r * (6 * Real.pi * mu) ≠ 0 := mul_ne_zero h2 (mul_ne_zero (mul_ne_zero (by norm_num) Real.pi_ne_zero) h1)
  units_eval [stokesEinstein, boltzmann, tempSI, viscSI, pyDiv_ne h3]
  refine okMulti_congr ?_
  rw [mul_comm t, mul_comm r]

/-- The diffusion coefficient depends on the unit of the radius. -/
theorem C68_stokes_unit_false : ¬ ∀ t mu r : ℝ, 0 < t → 0 < mu → 0 < r →
    stokesEinstein (tempSI t) (viscSI mu) (qU .length (100 * r) c!"cm") = stokesEinstein (tempSI t) (viscSI mu) (lenSI r) := by
  intro h
  have := h 1 1 1 one_pos one_pos one_pos
  rw [C68_stokes_cm _ _ _ (by norm_num) (by norm_num), C68_stokes_SI_partial _ _ _ (by norm_num) (by norm_num)] at this
  units_eval [Except.ok.injEq, Val.multi.injEq, MultiV.mk.injEq] at this
  have hp := Real.pi_pos
  field_simp at this
  norm_num at this

/-- Ionic diffusion with conductances in A·cm²/V·mol: the Nernst-Haskell equation, in m²/s. -/
theorem C68_ionic_partial (t np nm lp lm : ℝ) (h1 : 0 < np) (h2 : 0 < nm) (h3 : 0 < lp) (h4 : 0 < lm) :
    ionicDiffusion (getGasConstant (generic := true)) (tempSI t) (pnum np) (pnum nm) (qMulti lp c!"A*cm^2/V*mol")
      (qMulti lm c!"A*cm^2/V*mol") =
    qMulti (8314 / 1000 * t * (1 / np + 1 / nm) / (96500 ^ 2 * (1 / lp + 1 / lm)) / 10000) c!"m^2/s" := by
  have h5 : 96500 ^ 2 * (1 / lp + 1 / lm) * ((10000 : ℚ) : ℝ) ≠ 0 := by push_cast; positivity
  units_eval [ionicDiffusion, faraday, getGasConstant, tempSI, h1.ne', h2.ne', pyDiv_ne h1.ne', pyDiv_ne h2.ne', 
    pyDiv_ne h3.ne', pyDiv_ne h4.ne', pyDiv_ne h5]
  refine okMulti_congr ?_
  push_cast
  field_simp

/-- With the units of the documentation, A/cm²·V·mol, the result is not a diffusion coefficient: it is in 1/(s·m²). -/
theorem C68_ionic_documented (t np nm lp lm : ℝ) (h1 : 0 < np) (h2 : 0 < nm) (h3 : 0 < lp) (h4 : 0 < lm) :
    ionicDiffusion (getGasConstant (generic := true)) (tempSI t) (pnum np) (pnum nm) (qMulti lp c!"A/cm^2*V*mol")
      (qMulti lm c!"A/cm^2*V*mol") =
    .ok (.multi ⟨.multi, 8314 / 1000 * t * (1 / np + 1 / nm) / (96500 ^ 2 * (1 / lp + 1 / lm)) * 10000, [],
      [⟨c!"s", 1⟩, ⟨c!"m", 2⟩]⟩) := by
  have h5 : 96500 ^ 2 * (1 / lp + 1 / lm) * (((1 : ℚ) / 10000 : ℚ) : ℝ) ≠ 0 := by push_cast; positivity
  units_eval [ionicDiffusion, faraday, getGasConstant, tempSI, h1.ne', h2.ne', pyDiv_ne h1.ne', pyDiv_ne h2.ne', 
    pyDiv_ne h3.ne', pyDiv_ne h4.ne', pyDiv_ne h5]
  refine okMulti_congr ?_
  push_cast
  field_simp

/-! ## C69: evaporation -/

/-- `K_from_standard`: the reference 0.83 cm/s of water scaled by the cube root of the ratio of molecular weights. -/
theorem C69_mass_transfer (m : ℝ) (hm : 0 < m) :
    kFromStandard (K := ℝ) (qM c!"MolecularWeight" m c!"g/mol") = qMulti (83 / 100 * (18 / m) ^ (1 / 3 : ℝ)) c!"cm/s" := by
  have : 0 < 18 / m := by positivity
  units_eval [kFromStandard, pow_real_pos this, pyDiv_ne hm.ne']
  refine okMulti_congr ?_
  norm_num

/-- Water itself gets the reference value. -/
theorem C69_water : kFromStandard (K := ℝ) (qM c!"MolecularWeight" 18 c!"g/mol") = qMulti (83 / 100) c!"cm/s" := by
  rw [C69_mass_transfer 18 (by norm_num)]
  norm_num

/-- `Qm_evaporation` with the mass transfer coefficient of `K_from_standard` (cm/s), otherwise SI units: the documented
formula, in g/s. -/
theorem C69_evaporation (m k a p t : ℝ) (ht : t ≠ 0) :
    qmEvaporation (K := ℝ) (qM c!"MolecularWeight" m c!"g/mol") (qM c!"MassTransferCoefficient" k c!"cm/s") (areaSI a)
      (presSI p) getGasConstant (tempSI t) =
    qMulti (m * (k / 100) * a * p / (8314 / 1000 * t)) c!"g/s" := by
  have : t * (8314 / 1000) ≠ 0 := mul_ne_zero ht (by norm_num)
  units_eval [qmEvaporation, getGasConstant, areaSI, presSI, tempSI, pyDiv_ne this, Bool.false_eq_true]
  refine okMulti_congr ?_
  push_cast
  field_simp

/-! ## C70: constants and the expansion coefficient -/

/-- The supported unit combinations; anything else raises `ValueError`. -/
theorem C70_gas_constant_domain (t v p : Sym) (g : Bool) :
    (getGasConstant t v p g : PyM (Val ℝ)) = .error .valueError ∨
    (g = true ∧ getGasConstant t v p g = qMulti (8314 / 1000 : ℝ) c!"J/mol*K") ∨
    (g = false ∧ t = c!"K" ∧ v = c!"m^3" ∧ p = c!"Pa" ∧ getGasConstant t v p g = qMulti (8314 / 1000 : ℝ) c!"m^3*Pa/mol*K") ∨
    (g = false ∧ t = c!"K" ∧ v = c!"L" ∧ p = c!"atm" ∧
      getGasConstant t v p g = qMulti (8205 / 100000 : ℝ) c!"L*atm/mol*K") ∨
    (g = false ∧ t = c!"K" ∧ v = c!"m^3" ∧ p = c!"atm" ∧
      getGasConstant t v p g = qMulti (8205746 / 10 ^ 11 : ℝ) c!"m^3*atm/mol*K") := by
  cases g with
  | true => right; left; exact ⟨rfl, rfl⟩
  | false =>
    simp only [getGasConstant, Bool.false_eq_true, if_false]
    split_ifs with h1 h2 h3
    · right; right; left; exact ⟨trivial, h1.2.2, h1.1, h1.2.1, rfl⟩
    · right; right; right; left; exact ⟨trivial, h2.2.2, h2.1, h2.2.1, rfl⟩
    · right; right; right; right; exact ⟨trivial, h3.2.2, h3.1, h3.2.1, rfl⟩
    · left; rfl

/-- Every gas constant that is returned is the same quantity, to 0.001 J/mol·K. -/
theorem C70_gas_constant_consistent (t v p : Sym) (g : Bool) (r : Val ℝ) (h : getGasConstant t v p g = .ok r) :
    ∃ m : MultiV ℝ, r = .multi m ∧ |m.mag siR - 8314 / 1000| ≤ 1 / 1000 ∧ dimOfUnit m.top m.bot = (2, 1, -2, -1, 0, -1) := by
  have sz : ∀ s q, siSize s = q → siR s = (q : ℝ) := fun s q h => by unfold siR; rw [h]
  have hJ := sz c!"J" 1 (by decide +kernel)
  have hmol := sz c!"mol" 1 (by decide +kernel)
  have hK := sz c!"K" 1 (by decide +kernel)
  have hm := sz c!"m" 1 (by decide +kernel)
  have hPa := sz c!"Pa" 1 (by decide +kernel)
  have hL := sz c!"L" (1 / 1000) (by decide +kernel)
  have hatm := sz c!"atm" 101325 (by decide +kernel)
  rcases C70_gas_constant_domain t v p g with e | ⟨-, e⟩ | ⟨-, -, -, -, e⟩ | ⟨-, -, -, -, e⟩ | ⟨-, -, -, -, e⟩ <;> rw [e] at h
  · cases h
  all_goals
    units_eval [Except.ok.injEq] at h
    refine ⟨_, h.symm, ?_, by decide +kernel⟩
    simp only [MultiV.mag, Verif.mag, lsize, List.map_cons, List.map_nil, List.prod_cons, List.prod_nil, hJ, hmol, hK, hm, hPa,
      hL, hatm]
    rw [abs_le]
    norm_num

/-- Boltzmann's constant times Avogadro's number is the gas constant, in J/mol·K, to 0.001. -/
theorem C70_boltzmann_avogadro : ∃ x : ℝ, (boltzmann * avogadro : PyM (Val ℝ)) = qMulti x c!"J/mol*K" ∧
    |x - 8314 / 1000| ≤ 1 / 1000 := by
  refine ⟨602214076 * 10 ^ 15 * (1380649 / 10 ^ 29), ?_, ?_⟩
  · units_eval [boltzmann, avogadro]
  · rw [abs_le]; norm_num

/-- The four physical constants fit together.  `c` is the speed of light (m/s) and `q` the elementary charge (C), neither
of which is in the library: Planck's law integrated over all directions and frequencies gives the radiation constant to
one part in ten thousand, and the charge of a mole of electrons is Faraday's constant to two parts in ten thousand. -/
theorem C70_constants_agree :
    ∃ k n h s f : ℝ, boltzmann = qMulti k c!"m^2*kg/s^2*K" ∧ avogadro = qU .unit n c!"mol" (-1) ∧
      planck = qMulti h c!"m^2*kg/s" ∧ radiationConstant = qMulti s c!"W/m^2*K^4" ∧ faraday = qMulti f c!"C/mol" ∧
      (let c : ℝ := 299792458
       |s * (15 * h ^ 3 * c ^ 2) - 2 * Real.pi ^ 5 * k ^ 4| ≤ 1 / 10000 * (2 * Real.pi ^ 5 * k ^ 4)) ∧
      (let q : ℝ := 1602176634 / 10 ^ 28
       |n * q - f| ≤ 2 / 10000 * f) := by
  refine ⟨_, _, _, _, _, rfl, rfl, rfl, rfl, rfl, ?_, ?_⟩
  · have h1 := Real.pi_gt_d6
    have h2 := Real.pi_lt_d6
    have l : (3.141592 : ℝ) ^ 5 ≤ Real.pi ^ 5 := by gcongr
    have u : Real.pi ^ 5 ≤ (3.141593 : ℝ) ^ 5 := by gcongr
    dsimp only
    rw [abs_le]
    constructor <;> norm_num at l u ⊢ <;> linarith
  · dsimp only
    rw [abs_le]
    constructor <;> norm_num

/-- The values that define the kelvin, the mole and the kilogram in the International System of Units (2019), in units
made of metres, kilograms and seconds. -/
structure DefiningConstants where
  k : ℝ := 1.380649e-23
  n : ℝ := 6.02214076e23
  h : ℝ := 6.62607015e-34

/-- The constants that have exact values by definition have exactly these values. -/
theorem C70_defining_constants : (boltzmann : PyM (Val ℝ)) = qMulti ({} : DefiningConstants).k c!"m^2*kg/s^2*K" ∧
    (avogadro : PyM (Val ℝ)) = qU .unit ({} : DefiningConstants).n c!"mol" (-1) ∧
    (planck : PyM (Val ℝ)) = qMulti ({} : DefiningConstants).h c!"m^2*kg/s" := by
  refine ⟨?_, ?_, ?_⟩
  · unfold boltzmann; congr 1; norm_num
  · unfold avogadro; congr 1; norm_num
  · unfold planck; congr 1; norm_num

/-- `beta`: relative change of the density per kelvin, referred to the mean density. -/
theorem C70_thermal_beta (rho1 rho2 t2 t1 : ℝ) (hr : rho1 + rho2 ≠ 0) (ht : t2 ≠ t1) :
    thermalBeta (densSI rho1) (densSI rho2) (tempSI t2) (tempSI t1) =
      qU .unit ((rho1 - rho2) / ((rho1 + rho2) / 2 * (t2 - t1))) c!"K" (-1) := by
  have h1 : (rho1 + rho2) / 2 ≠ 0 := div_ne_zero hr two_ne_zero
  units_eval [thermalBeta, densSI, tempSI, pyDiv_ne (mul_ne_zero (sub_ne_zero.2 ht) h1)]
  exact okUnit_congr (by rw [mul_comm (t2 - t1)])

/-- Exchanging the two states does not change it, and a fluid that expands has a positive coefficient. -/
theorem C70_thermal_beta_symmetric (rho1 rho2 t2 t1 : ℝ) (hr : rho1 + rho2 ≠ 0) (ht : t2 ≠ t1) :
    thermalBeta (densSI rho1) (densSI rho2) (tempSI t2) (tempSI t1) =
      thermalBeta (densSI rho2) (densSI rho1) (tempSI t1) (tempSI t2) := by
  rw [C70_thermal_beta _ _ _ _ hr ht, C70_thermal_beta _ _ _ _ (by rwa [add_comm]) ht.symm]
  congr 1
  rw [add_comm rho2, ← neg_sub rho1, ← neg_sub t2 t1, mul_neg, neg_div_neg_eq]

theorem C70_thermal_beta_positive (rho1 rho2 t2 t1 : ℝ) (h2 : 0 < rho2) (hr : rho2 < rho1) (ht : t1 < t2) :
    ∃ x, 0 < x ∧ thermalBeta (densSI rho1) (densSI rho2) (tempSI t2) (tempSI t1) = qU .unit x c!"K" (-1) := by
  refine ⟨_, ?_, C70_thermal_beta _ _ _ _ (by linarith) ht.ne'⟩
  have := sub_pos.2 hr
  have := sub_pos.2 ht
  have : 0 < rho1 := h2.trans hr
  positivity

example : thermalBeta (densSI 1000) (densSI 990) (tempSI 330) (tempSI 320) = qU .unit (2 / 1990) c!"K" (-1) := by
  rw [C70_thermal_beta _ _ _ _ (by norm_num) (by norm_num)]
  norm_num

end Verif
