import Verif.Props.AnyUnits

/-!
# C33 and C34 in any units

Solving `planar_heat` or `planar_flux` for a parameter and putting the answer back in, for arguments in any known units
without prefix.  The returned heat flow is again an argument of the right kind, so the formulas can be chained.
-/

namespace Verif

open Kind

theorem Ty.Has.toAny {t : Ty} {v : Val ℝ} (h : t.Has v) : (Ty.any t.dim).Has v := ⟨h.plain, h.dim⟩

/-- What a checked expression returns is in known units without prefix, so it can be an argument again. -/
theorem Arith.result_has {ts : List Ty} {vs : List (Val ℝ)} (h : AllHave ts vs) (e : Arith) {d : Dim}
    (hd : (e.check (tyOf ts)).map Ty.dim = some d) {r : Val ℝ} (hr : e.run (envOf vs) = .ok r) : (Ty.any d).Has r := by
  obtain ⟨t, ht, rfl⟩ := Option.map_eq_some_iff.1 hd
  exact (C75_checked e (tyOf ts) (envOf vs) h.get t ht r hr).1.toAny

theorem HasMag.magn_eq {ρ : Sym → ℝ} {v : Val ℝ} {x : ℝ} (h : HasMag ρ v x) : v.magn ρ = x := by
  cases h <;> rfl

section
variable {k T1 T2 A x q y : Val ℝ} (hk : conductivity.Has k) (h1 : temperature.Has T1) (h2 : temperature.Has T2)
  (hA : area.Has A) (hx : length.Has x)
include hk h1 h2 hA hx

/-- The heat flow returned is a power in known units. -/
theorem planarHeat_has (hq : planarHeat [k, T1, T2, A, x] [] = .ok q) : power.Has q := by
  have e : planarHeat [k, T1, T2, A, x] [] = (-.ok k) * .ok A * ((.ok T2 - .ok T1) / .ok x) := by
    obtain ⟨k, rfl⟩ := hk.is_multi (by decide +kernel)
    obtain ⟨_, rfl, -⟩ := h1
    obtain ⟨_, rfl, -⟩ := h2
    obtain ⟨_, rfl, -⟩ := hx
    rcases hA.cases (by decide +kernel) with ⟨_, rfl⟩ | ⟨_, rfl⟩ <;> rfl
  rw [e] at hq
  exact Arith.result_has (ts := [conductivity, temperature, temperature, area, length]) (vs := [k, T1, T2, A, x])
    ⟨hk, h1, h2, hA, hx, trivial⟩ (-Arith.var 0 * Arith.var 3 * ((Arith.var 2 - Arith.var 1) / Arith.var 4)) (by decide +kernel) hq

variable (hq : planarHeat [k, T1, T2, A, x] [] = .ok q) {ρ : Sym → ℝ} (hρ : Coherent ρ)
include hq hρ

/-- The thickness comes back, whatever the units. -/
theorem C33_thickness_any_units (hy : planarHeat [k, T1, T2, A, .none, q] [] = .ok y) (nk : k.magn ρ ≠ 0)
    (nA : A.magn ρ ≠ 0) (nx : x.magn ρ ≠ 0) (nT : T2.magn ρ ≠ T1.magn ρ) : y.dim = length.dim ∧ HasMag ρ y (x.magn ρ) := by
  have e := ((C75_planar_heat hk h1 h2 hA hx q hq).2 ρ hρ).magn_eq
  obtain ⟨d, h⟩ := C75_planar_heat_thickness hk h1 h2 hA (planarHeat_has hk h1 h2 hA hx hq) y hy
  refine ⟨d, ?_⟩
  have := h ρ hρ
  beta_reduce at this e
  rw [e] at this
  have nT' := sub_ne_zero.2 nT
  convert this using 1
  field_simp

/-- The far temperature comes back. -/
theorem C33_T2_any_units (hy : planarHeat [k, T1, .none, A, x, q] [] = .ok y) (nk : k.magn ρ ≠ 0) (nA : A.magn ρ ≠ 0)
    (nx : x.magn ρ ≠ 0) : y.dim = temperature.dim ∧ HasMag ρ y (T2.magn ρ) := by
  have e := ((C75_planar_heat hk h1 h2 hA hx q hq).2 ρ hρ).magn_eq
  obtain ⟨d, h⟩ := C75_planar_heat_T2 hk h1 hA hx (planarHeat_has hk h1 h2 hA hx hq) y hy
  refine ⟨d, ?_⟩
  have := h ρ hρ
  beta_reduce at this e
  rw [e] at this
  convert this using 1
  field_simp
  ring

/-- The near temperature comes back. -/
theorem C33_T1_any_units (hy : planarHeat [k, .none, T2, A, x, q] [] = .ok y) (nk : k.magn ρ ≠ 0) (nA : A.magn ρ ≠ 0)
    (nx : x.magn ρ ≠ 0) : y.dim = temperature.dim ∧ HasMag ρ y (T1.magn ρ) := by
  have e := ((C75_planar_heat hk h1 h2 hA hx q hq).2 ρ hρ).magn_eq
  obtain ⟨d, h⟩ := C75_planar_heat_T1 hk h2 hA hx (planarHeat_has hk h1 h2 hA hx hq) y hy
  refine ⟨d, ?_⟩
  have := h ρ hρ
  beta_reduce at this e
  rw [e] at this
  convert this using 1
  field_simp
  ring

end

section
variable {k T1 T2 x q y : Val ℝ} (hk : conductivity.Has k) (h1 : temperature.Has T1) (h2 : temperature.Has T2)
  (hx : length.Has x)
include hk h1 h2 hx

/-- The heat flux returned is a heat flux in known units. -/
theorem planarFlux_has (hq : planarFlux [k, T1, T2, x] [] = .ok q) : heatFlux.Has q := by
  have e : planarFlux [k, T1, T2, x] [] = (-.ok k) * ((.ok T2 - .ok T1) / .ok x) := by
    obtain ⟨k, rfl⟩ := hk.is_multi (by decide +kernel)
    obtain ⟨_, rfl, -⟩ := h1
    obtain ⟨_, rfl, -⟩ := h2
    obtain ⟨_, rfl, -⟩ := hx
    rfl
  rw [e] at hq
  exact Arith.result_has (ts := [conductivity, temperature, temperature, length]) (vs := [k, T1, T2, x])
    ⟨hk, h1, h2, hx, trivial⟩ (-Arith.var 0 * ((Arith.var 2 - Arith.var 1) / Arith.var 3)) (by decide +kernel) hq

variable (hq : planarFlux [k, T1, T2, x] [] = .ok q) {ρ : Sym → ℝ} (hρ : Coherent ρ)
include hq hρ

/-- The thickness comes back, whatever the units. -/
theorem C34_thickness_any_units (hy : planarFlux [k, T1, T2, .none, q] [] = .ok y) (nk : k.magn ρ ≠ 0)
    (nx : x.magn ρ ≠ 0) (nT : T2.magn ρ ≠ T1.magn ρ) : y.dim = length.dim ∧ HasMag ρ y (x.magn ρ) := by
  have e := ((C75_planar_flux hk h1 h2 hx q hq).2 ρ hρ).magn_eq
  obtain ⟨d, h⟩ := C75_planar_flux_thickness hk h1 h2 (planarFlux_has hk h1 h2 hx hq) y hy
  refine ⟨d, ?_⟩
  have := h ρ hρ
  beta_reduce at this e
  rw [e] at this
  have nT' := sub_ne_zero.2 nT
  convert this using 1
  field_simp

/-- The far temperature comes back. -/
theorem C34_T2_any_units (hy : planarFlux [k, T1, .none, x, q] [] = .ok y) (nk : k.magn ρ ≠ 0)
    (nx : x.magn ρ ≠ 0) : y.dim = temperature.dim ∧ HasMag ρ y (T2.magn ρ) := by
  have e := ((C75_planar_flux hk h1 h2 hx q hq).2 ρ hρ).magn_eq
  obtain ⟨d, h⟩ := C75_planar_flux_T2 hk h1 hx (planarFlux_has hk h1 h2 hx hq) y hy
  refine ⟨d, ?_⟩
  have := h ρ hρ
  beta_reduce at this e
  rw [e] at this
  convert this using 1
  field_simp
  ring

/-- The near temperature comes back. -/
theorem C34_T1_any_units (hy : planarFlux [k, .none, T2, x, q] [] = .ok y) (nk : k.magn ρ ≠ 0)
    (nx : x.magn ρ ≠ 0) : y.dim = temperature.dim ∧ HasMag ρ y (T1.magn ρ) := by
  have e := ((C75_planar_flux hk h1 h2 hx q hq).2 ρ hρ).magn_eq
  obtain ⟨d, h⟩ := C75_planar_flux_T1 hk h2 hx (planarFlux_has hk h1 h2 hx hq) y hy
  refine ⟨d, ?_⟩
  have := h ρ hρ
  beta_reduce at this e
  rw [e] at this
  convert this using 1
  field_simp
  ring

end

/-- Non-vacuity: a wall in customary units.  The hypotheses hold and both calls return. -/
example : conductivity.Has (.multi ⟨.sub c!"ThermalConductivity", 3, [⟨c!"BTU", 1⟩], [⟨c!"hr", 1⟩, ⟨c!"ft", 1⟩, ⟨c!"F", 1⟩]⟩) ∧
    temperature.Has (.unit ⟨.temperature, 212, c!"F", 1⟩) ∧ temperature.Has (.unit ⟨.temperature, 32, c!"F", 1⟩) ∧
    area.Has (.multi ⟨.multi, 7, [⟨c!"ft", 2⟩], []⟩) ∧ length.Has (.unit ⟨.length, 2, c!"ft", 1⟩) ∧
    ∃ q y, planarHeat (K := ℝ) [.multi ⟨.sub c!"ThermalConductivity", 3, [⟨c!"BTU", 1⟩], [⟨c!"hr", 1⟩, ⟨c!"ft", 1⟩, ⟨c!"F", 1⟩]⟩,
      .unit ⟨.temperature, 212, c!"F", 1⟩, .unit ⟨.temperature, 32, c!"F", 1⟩, .multi ⟨.multi, 7, [⟨c!"ft", 2⟩], []⟩,
      .unit ⟨.length, 2, c!"ft", 1⟩] [] = .ok q ∧
    planarHeat (K := ℝ) [.multi ⟨.sub c!"ThermalConductivity", 3, [⟨c!"BTU", 1⟩], [⟨c!"hr", 1⟩, ⟨c!"ft", 1⟩, ⟨c!"F", 1⟩]⟩,
      .unit ⟨.temperature, 212, c!"F", 1⟩, .unit ⟨.temperature, 32, c!"F", 1⟩, .multi ⟨.multi, 7, [⟨c!"ft", 2⟩], []⟩,
      .none, q] [] = .ok y := by
  have kF : Known c!"F" ∧ dimOf c!"F" = (0, 0, 0, 1, 0, 0) := by unfold Known; decide +kernel
  have kft : Known c!"ft" ∧ dimOf c!"ft" = (1, 0, 0, 0, 0, 0) := by unfold Known; decide +kernel
  have ka : (Val.multi ⟨.multi, (0 : ℝ), [⟨c!"ft", 2⟩], []⟩).dim = (2, 0, 0, 0, 0, 0) := by decide +kernel
  have kk : (Val.multi ⟨.multi, (0 : ℝ), [⟨c!"BTU", 1⟩], [⟨c!"hr", 1⟩, ⟨c!"ft", 1⟩, ⟨c!"F", 1⟩]⟩).dim = (1, 1, -3, -1, 0, 0) := by
    decide +kernel
  refine ⟨⟨⟨by simp only [KnownList, Known]; decide +kernel, by simp only [KnownList, Known]; decide +kernel⟩, kk⟩,
    ⟨_, rfl, ⟨212, c!"F", 1, rfl⟩, kF.1, rfl, kF.2⟩, ⟨_, rfl, ⟨32, c!"F", 1, rfl⟩, kF.1, rfl, kF.2⟩,
    ⟨⟨by simp only [KnownList, Known]; decide +kernel, by simp only [KnownList, Known]; decide +kernel⟩, ka⟩,
    ⟨_, rfl, ⟨2, c!"ft", 1, rfl⟩, kft.1, rfl, kft.2⟩, ?_⟩
  have e : ∀ (k q : MultiV ℝ) (t1 t2 x : UnitV ℝ) (a : MultiV ℝ), planarHeat [.multi k, .unit t1, .unit t2, .multi a, .unit x] []
      = (-.ok (.multi k)) * .ok (.multi a) * ((.ok (.unit t2) - .ok (.unit t1)) / .ok (.unit x)) ∧
      planarHeat [.multi k, .unit t1, .unit t2, .multi a, .none, .multi q] []
      = ((-.ok (.multi k)) * .ok (.multi a) * (.ok (.unit t2) - .ok (.unit t1))) / .ok (.multi q) :=
    fun _ _ _ _ _ _ => ⟨rfl, rfl⟩
  have h2 : (2 : ℝ) ≠ 0 := two_ne_zero
  have hv : (-3 * 7 * ((32 - 212) / 2) : ℝ) ≠ 0 := by norm_num
  refine ⟨.multi ⟨.multi, -3 * 7 * ((32 - 212) / 2), [⟨c!"BTU", 1⟩], [⟨c!"hr", 1⟩]⟩, .unit ⟨.unit, 2, c!"ft", 1⟩, ?_, ?_⟩
  · rw [(e _ ⟨.multi, 0, [], []⟩ _ _ _ _).1]
    units_eval [h2]
  · rw [(e _ _ _ _ ⟨.length, 0, [], 1⟩ _).2]
    units_eval [hv, pyDiv_ne hv]
    exact okUnit_congr (by norm_num)

end Verif
