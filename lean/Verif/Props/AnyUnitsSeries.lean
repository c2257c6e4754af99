import Verif.Props.AnyUnits
import Verif.MassTransfer.Coefficients
import Verif.Tactic.UnitsEval

/-!
# C75: series and formulas with physical constants, in any units without prefix
-/

namespace Verif

open Kind

/-! ## Series -/

theorem Computes.of_magn {f : PyM (Val ℝ)} {d : Dim} {m m' : (Val ℝ → ℝ) → ℝ} (h : Computes f d m)
    (e : ∀ ρ, m (Val.magn ρ) = m' (Val.magn ρ)) : Computes f d m' :=
  fun r hr => ⟨(h r hr).1, fun ρ hρ => e ρ ▸ (h r hr).2 ρ hρ⟩

theorem foldl_sum_inv {term : ℕ → PyM (Val ℝ)} {f : ℕ → ℝ} (ht : ∀ n v, term n = .ok v → v = .num (f n)) (c : ℕ)
    {r : Val ℝ} (h : (List.range c).foldl (fun acc n => acc + term n) (pnum 0) = .ok r) :
    r = .num (∑ n ∈ Finset.range c, f n) := by
  induction c generalizing r with
  | zero => cases h; rfl
  | succ m ih =>
    rw [List.range_succ, List.foldl_append] at h
    obtain ⟨x, y, h1, h2, h3⟩ := lift2_inv h
    rw [ih h1, ht m y h2] at h3
    cases h3
    rw [Finset.sum_range_succ]

theorem Arith.number {ts : List Ty} {vs : List (Val ℝ)} (h : AllHave ts vs) (e : Arith)
    (hd : e.check (tyOf ts) = some .num) {r : Val ℝ} (hr : e.run (envOf vs) = .ok r) : ∃ x, r = .num x :=
  (C75_checked e (tyOf ts) (envOf vs) h.get _ hd r hr).1

/-- Each term is a number with the meaning `m n`. -/
def TermComputes (term : ℕ → PyM (Val ℝ)) (m : ℕ → (Val ℝ → ℝ) → ℝ) : Prop :=
  ∀ n, (∀ v, term n = .ok v → ∃ y, v = .num y) ∧ Computes (term n) 0 (m n)

/-- A sum of numbers is a number, the sum of the meanings. -/
theorem TermComputes.sum {count : ℤ} {term : ℕ → PyM (Val ℝ)} {m : ℕ → (Val ℝ → ℝ) → ℝ} (h : TermComputes term m)
    {r : Val ℝ} (hr : pySum count term = .ok r) :
    ∃ s, r = .num s ∧ ∀ ρ, Coherent ρ → s = ∑ n ∈ Finset.range count.toNat, m n (Val.magn ρ) := by
  have key (ρ : Sym → ℝ) (hρ : Coherent ρ) : r = .num (∑ n ∈ Finset.range count.toNat, m n (Val.magn ρ)) := by
    refine foldl_sum_inv (fun n v hv => ?_) _ hr
    obtain ⟨x, rfl⟩ := (h n).1 v hv
    rw [(HasMag.num x).unique (((h n).2 _ hv).2 ρ hρ)]
  refine ⟨_, key _ siSize_coherent, fun ρ hρ => ?_⟩
  have := (key _ siSize_coherent).symm.trans (key ρ hρ)
  injection this

section
variable {Ts To x s k rho cp t A : Val ℝ} (hTs : temperature.Has Ts) (hTo : temperature.Has To) (hx : length.Has x)
  (hs : length.Has s) (hk : conductivity.Has k) (hrho : density.Has rho) (hcp : heatCapacity.Has cp) (ht : time.Has t)
  (hA : area.Has A)

/-- One term of the temperature series. -/
noncomputable def slabTermE : Arith := (.lit 1 / .var 0) * .fn .sin ((.var 0 * .lit Real.pi * .var 1) / (.lit 2 * .var 2)) *
  .fn .exp ((-.pow (.var 0 * (.lit Real.pi / .lit 2)) 2) * (((.var 3 / (.var 4 * .var 5)) * .var 6) / .pow (.var 2) 2))

include hx hs hk hrho hcp ht in
theorem slabTerm_computes : TermComputes (slabTerm (.ok x) (.ok s) (.ok k / (.ok rho * .ok cp)) (.ok t)) fun n μ =>
      1 / (2 * n + 1) * Real.sin ((2 * n + 1) * Real.pi * μ x / (2 * μ s)) *
        Real.exp (-((2 * n + 1) * (Real.pi / 2)) ^ 2 * (μ k / (μ rho * μ cp) * μ t / μ s ^ 2)) := by
  intro n
  have hv : AllHave [num, length, length, conductivity, density, heatCapacity, time]
      [.num (2 * (n : ℝ) + 1), x, s, k, rho, cp, t] := ⟨⟨_, rfl⟩, hx, hs, hk, hrho, hcp, ht, trivial⟩
  refine ⟨fun v h => Arith.number hv slabTermE (by decide +kernel) h, ?_⟩
  exact (Arith.computes hv slabTermE (d := 0) (by decide +kernel)).of_magn fun ρ => by
    simp only [← rpow_two]; rfl

include hTs hTo hx hs hk hrho hcp ht in
/-- `finite_slab_conduction`: the temperature in the slab, in whatever units the arguments come. -/
theorem C75_finite_slab_conduction (iterations : ℤ) :
    Computes (finiteSlabConduction (.ok Ts) (.ok To) (.ok x) (.ok s) (.ok k) (.ok rho) (.ok cp) (.ok t) iterations)
      (dimOf c!"K") fun μ => μ Ts - (μ Ts - μ To) * (4 / Real.pi) * ∑ n ∈ Finset.range (iterations + 1).toNat,
        1 / (2 * n + 1) * Real.sin ((2 * n + 1) * Real.pi * μ x / (2 * μ s)) *
          Real.exp (-((2 * n + 1) * (Real.pi / 2)) ^ 2 * (μ k / (μ rho * μ cp) * μ t / μ s ^ 2)) := by
  intro r hr
  unfold finiteSlabConduction at hr
  obtain ⟨_, y, -, h1, -⟩ := lift2_inv hr
  obtain ⟨_, z, -, h2, -⟩ := lift2_inv h1
  obtain ⟨S, rfl, hS⟩ := (slabTerm_computes hx hs hk hrho hcp ht).sum h2
  dsimp only at hr
  rw [h2] at hr
  have hv : AllHave [temperature, temperature, num] [Ts, To, .num S] := ⟨hTs, hTo, ⟨_, rfl⟩, trivial⟩
  have key := Arith.computes hv (.var 0 - (.var 0 - .var 1) * (.lit 4 / .lit Real.pi) * .var 2 : Arith) (d := dimOf c!"K")
    (by decide +kernel)
  refine ⟨(key r hr).1, fun ρ hρ => ?_⟩
  have h := (key r hr).2 ρ hρ
  beta_reduce
  rw [← hS ρ hρ]
  exact h

/-- One term of the heat series. -/
noncomputable def slabHeatTermE : Arith := (.lit 1 / .pow (.var 0) 2) *
  (.lit 1 - .fn .exp ((-.pow (.var 0 * (.lit Real.pi / .lit 2)) 2) *
    (((.var 2 / (.var 3 * .var 4)) * .var 5) / .pow (.var 1) 2)))

include hs hk hrho hcp ht in
theorem slabHeatTerm_computes : TermComputes (slabHeatTerm (.ok s) (.ok k / (.ok rho * .ok cp)) (.ok t)) fun n μ =>
      1 / (2 * n + 1) ^ 2 *
        (1 - Real.exp (-((2 * n + 1) * (Real.pi / 2)) ^ 2 * (μ k / (μ rho * μ cp) * μ t / μ s ^ 2))) := by
  intro n
  have hv : AllHave [num, length, conductivity, density, heatCapacity, time]
      [.num (2 * (n : ℝ) + 1), s, k, rho, cp, t] := ⟨⟨_, rfl⟩, hs, hk, hrho, hcp, ht, trivial⟩
  refine ⟨fun v h => Arith.number hv slabHeatTermE (by decide +kernel) h, ?_⟩
  exact (Arith.computes hv slabHeatTermE (d := 0) (by decide +kernel)).of_magn fun ρ => by
    simp only [← rpow_two]; rfl

include hTs hTo hs hk hrho hcp ht hA in
/-- `finite_slab_total_heat`: the heat taken up by the slab. -/
theorem C75_finite_slab_total_heat (iterations : ℤ) :
    Computes (finiteSlabTotalHeat (.ok s) (.ok rho) (.ok cp) (.ok Ts) (.ok To) (.ok k) (.ok t) (.ok A) iterations)
      (dimOf c!"J") fun μ => 8 * μ s * μ rho * μ cp * (μ Ts - μ To) * μ A / Real.pi ^ 2 *
        ∑ n ∈ Finset.range iterations.toNat, 1 / (2 * n + 1) ^ 2 *
          (1 - Real.exp (-((2 * n + 1) * (Real.pi / 2)) ^ 2 * (μ k / (μ rho * μ cp) * μ t / μ s ^ 2))) := by
  intro r hr
  unfold finiteSlabTotalHeat at hr
  obtain ⟨_, y, -, h2, -⟩ := lift2_inv hr
  obtain ⟨S, rfl, hS⟩ := (slabHeatTerm_computes hs hk hrho hcp ht).sum h2
  dsimp only at hr
  rw [h2] at hr
  have hv : AllHave [length, density, heatCapacity, temperature, temperature, area, num] [s, rho, cp, Ts, To, A, .num S] :=
    ⟨hs, hrho, hcp, hTs, hTo, hA, ⟨_, rfl⟩, trivial⟩
  have key := Arith.computes hv ((.lit 8 * .var 0 * .var 1 * .var 2 * (.var 3 - .var 4) * .var 5) /
    .pow (.lit Real.pi) 2 * .var 6 : Arith) (d := dimOf c!"J") (by decide +kernel)
  refine ⟨(key r hr).1, fun ρ hρ => ?_⟩
  have h := (key r hr).2 ρ hρ
  beta_reduce
  rw [← hS ρ hρ, ← rpow_two Real.pi]
  exact h

end

section
variable {Cs Co a z D t : Val ℝ} (ha : length.Has a) (hz : length.Has z) (hD : diffusivity.Has D) (ht : time.Has t)

/-- One term of the concentration series. -/
noncomputable def slabDiffusionTermE : Arith := .var 0 *
  (.fn .erfc ((.var 1 * .var 2 + .var 3) / .pow (.lit 4 * .var 4 * .var 5) (1 / 2)) +
    .fn .erfc ((.var 1 * .var 2 - .var 3) / .pow (.lit 4 * .var 4 * .var 5) (1 / 2)))

include ha hz hD ht in
theorem slabDiffusionTerm_computes : TermComputes (slabDiffusionTerm (.ok a) (.ok z) (.ok D) (.ok t)) fun n μ =>
      (-1) ^ n * (1 - erf (((2 * n + 1) * μ a + μ z) / Real.sqrt (4 * μ D * μ t)) +
        (1 - erf (((2 * n + 1) * μ a - μ z) / Real.sqrt (4 * μ D * μ t)))) := by
  intro n
  have hv : AllHave [num, num, length, length, diffusivity, time]
      [.num ((-1) ^ n), .num (2 * (n : ℝ) + 1), a, z, D, t] := ⟨⟨_, rfl⟩, ⟨_, rfl⟩, ha, hz, hD, ht, trivial⟩
  refine ⟨fun v h => Arith.number hv slabDiffusionTermE (by decide +kernel) h, ?_⟩
  exact (Arith.computes hv slabDiffusionTermE (d := 0) (by decide +kernel)).of_magn fun ρ => by
    simp only [← rpow_half]; rfl

include ha hz hD ht in
/-- `finite_slab_diffusion`: the concentration in the slab, for mass and for molar concentrations. -/
theorem C75_finite_slab_diffusion (iterations : ℤ) (hCs : density.Has Cs) (hCo : density.Has Co) :
    Computes (finiteSlabDiffusion (.ok Cs) (.ok Co) (.ok a) (.ok z) (.ok D) (.ok t) iterations)
      (-3, 1, 0, 0, 0, 0) fun μ => μ Cs - (μ Cs - μ Co) * ∑ n ∈ Finset.range iterations.toNat,
        (-1) ^ n * (1 - erf (((2 * n + 1) * μ a + μ z) / Real.sqrt (4 * μ D * μ t)) +
          (1 - erf (((2 * n + 1) * μ a - μ z) / Real.sqrt (4 * μ D * μ t)))) := by
  intro r hr
  unfold finiteSlabDiffusion at hr
  obtain ⟨_, y, -, h1, -⟩ := lift2_inv hr
  obtain ⟨_, w, -, h2, -⟩ := lift2_inv h1
  obtain ⟨S, rfl, hS⟩ := (slabDiffusionTerm_computes ha hz hD ht).sum h2
  rw [h2] at hr
  have hv : AllHave [density, density, num] [Cs, Co, .num S] := ⟨hCs, hCo, ⟨_, rfl⟩, trivial⟩
  have key := Arith.computes hv (.var 0 - (.var 0 - .var 1) * .var 2 : Arith) (d := (-3, 1, 0, 0, 0, 0))
    (by decide +kernel)
  refine ⟨(key r hr).1, fun ρ hρ => ?_⟩
  have h := (key r hr).2 ρ hρ
  beta_reduce
  rw [← hS ρ hρ]
  exact h

end

/-! ## Formulas with constants -/

theorem boltzmann_eq : (boltzmann : PyM (Val ℝ)) = .ok (.multi ⟨.multi, 1380649 / 10 ^ 29,
    [⟨c!"m", 2⟩, ⟨c!"kg", 1⟩], [⟨c!"s", 2⟩, ⟨c!"K", 1⟩]⟩) := by
  units_eval [boltzmann]

theorem faraday_eq : (faraday : PyM (Val ℝ)) = .ok (.multi ⟨.multi, 96500, [⟨c!"C", 1⟩], [⟨c!"mol", 1⟩]⟩) := by
  units_eval [faraday]

instance (s : Sym) : Decidable (Known s) := by unfold Known; infer_instance
instance (l : UList) : Decidable (KnownList l) := by unfold KnownList; infer_instance

/-- `stokes_einstein`. -/
theorem C75_stokes_einstein {T mu R : Val ℝ} (hT : temperature.Has T) (hmu : viscosity.Has mu) (hR : length.Has R) :
    ∃ kB : Val ℝ, (boltzmann : PyM (Val ℝ)) = .ok kB ∧
      (∀ ρ, kB.magn ρ = 1380649 / 10 ^ 29 * (ρ c!"m" ^ 2 * ρ c!"kg" / (ρ c!"s" ^ 2 * ρ c!"K"))) ∧
      Computes (stokesEinstein (.ok T) (.ok mu) (.ok R)) diffusivity.dim fun μ =>
        μ kB * μ T / (6 * Real.pi * μ mu * μ R) := by
  refine ⟨_, boltzmann_eq, fun ρ => ?_, ?_⟩
  · simp [Val.magn, MultiV.mag, mag, lsize]
  · unfold stokesEinstein
    rw [boltzmann_eq]
    set kB : Val ℝ := .multi ⟨.multi, 1380649 / 10 ^ 29, [⟨c!"m", 2⟩, ⟨c!"kg", 1⟩], [⟨c!"s", 2⟩, ⟨c!"K", 1⟩]⟩
    have hk : (Ty.any (2, 1, -2, -1, 0, 0)).Has kB := ⟨⟨by decide +kernel, by decide +kernel⟩, by decide +kernel⟩
    checked (.var 0 * .var 1) / (.lit 6 * .lit Real.pi * .var 2 * .var 3), diffusivity.dim,
      [.any (2, 1, -2, -1, 0, 0), temperature, viscosity, length], [kB, T, mu, R], ⟨hk, hT, hmu, hR, trivial⟩

/-- The equivalent conductance of an ion. -/
def conductance : Ty := .any (0, -1, 3, 0, 2, -1)

/-- `ionic_diffusion_coefficient`. -/
theorem C75_ionic_diffusion {R T np nm lp lm : Val ℝ} (hR : gasConstant.Has R) (hT : temperature.Has T) (hnp : num.Has np)
    (hnm : num.Has nm) (hlp : conductance.Has lp) (hlm : conductance.Has lm) :
    ∃ F : Val ℝ, (faraday : PyM (Val ℝ)) = .ok F ∧ (∀ ρ, F.magn ρ = 96500 * (ρ c!"C" / ρ c!"mol")) ∧
      Computes (ionicDiffusion (.ok R) (.ok T) (.ok np) (.ok nm) (.ok lp) (.ok lm)) diffusivity.dim fun μ =>
        μ R * μ T * (1 / μ np + 1 / μ nm) / (μ F ^ 2 * (1 / μ lp + 1 / μ lm)) := by
  refine ⟨_, faraday_eq, fun ρ => ?_, ?_⟩
  · simp [Val.magn, MultiV.mag, mag, lsize]
  · unfold ionicDiffusion
    rw [faraday_eq]
    set F : Val ℝ := .multi ⟨.multi, 96500, [⟨c!"C", 1⟩], [⟨c!"mol", 1⟩]⟩
    have hF : (Ty.any (0, 0, 1, 0, 1, -1)).Has F :=
      ⟨⟨by decide +kernel, by decide +kernel⟩, by decide +kernel⟩
    checked (.var 1 * .var 2 * ((.lit 1 / .var 3) + (.lit 1 / .var 4))) /
        (.pow (.var 0) 2 * ((.lit 1 / .var 5) + (.lit 1 / .var 6))), diffusivity.dim,
      [.any (0, 0, 1, 0, 1, -1), gasConstant, temperature, num, num, conductance, conductance], [F, R, T, np, nm, lp, lm],
      ⟨hF, hR, hT, hnp, hnm, hlp, hlm, trivial⟩

/-- The Reynolds number of 62 lb/ft³ at 90 ft/min in a 2 in pipe with 1 cP: the hypotheses hold and a result is
returned. -/
example : ∃ rho v L mu : Val ℝ, density.Has rho ∧ velocity.Has v ∧ length.Has L ∧ viscosity.Has mu ∧
    ∃ r, reynolds (.ok rho) (.ok v) (.ok L) (.ok mu) = .ok r := by
  refine ⟨.multi ⟨.multi, 62, [⟨c!"lb", 1⟩], [⟨c!"ft", 3⟩]⟩, .multi ⟨.multi, 90, [⟨c!"ft", 1⟩], [⟨c!"min", 1⟩]⟩,
    .unit ⟨.length, 2, c!"in", 1⟩, .multi ⟨.multi, 1, [⟨c!"cP", 1⟩], []⟩,
    ⟨⟨by decide +kernel, by decide +kernel⟩, by decide +kernel⟩,
    ⟨⟨by decide +kernel, by decide +kernel⟩, by decide +kernel⟩,
    ⟨_, rfl, ⟨2, c!"in", 1, rfl⟩, by decide +kernel, rfl, by decide +kernel⟩, 
    ⟨⟨by decide +kernel, by decide +kernel⟩, by decide +kernel⟩, ?_⟩
  units_eval [reynolds, one_ne_zero]
  exact ⟨_, rfl⟩

/-- With a prefix the formulas are wrong: a length in centimetres is taken to be in metres. -/
theorem C75_prefix_ignored (rho v x mu : ℝ) :
    reynolds (qM c!"Density" rho c!"kg/m^3") (qM c!"Velocity" v c!"m/s") (qU .length x c!"cm") (qM c!"Viscosity" mu c!"Pa*s") =
      reynolds (qM c!"Density" rho c!"kg/m^3") (qM c!"Velocity" v c!"m/s") (qU .length x c!"m") (qM c!"Viscosity" mu c!"Pa*s") := by
  units_eval [reynolds]

end Verif
