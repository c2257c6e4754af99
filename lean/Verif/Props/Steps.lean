import Verif.Props.AnyUnitsSolve
import Verif.Props.Transient
import Verif.Props.Formulas

/-!
# C107: calculations done in steps

The result of one call is the argument of the next: cooling in several time steps, the layers of a composite wall, reactors
in series, melting layer by layer.  Any number of steps.
-/

namespace Verif

open Kind

/-! ## Cooling in steps -/

/-- Each step starts at the temperature the step before returned. -/
noncomputable def coolInSteps (Tf h A rho cp V T : PyM (Val ℝ)) (ts : List (PyM (Val ℝ))) : PyM (Val ℝ) :=
  ts.foldl (fun T t => lumpedParameter Tf T h A rho cp V t) T

/-- Cooling in any number of steps is cooling for the sum of the times. -/
theorem C107_cooling (tf t0 h a rho cp v : ℝ) (hr : rho ≠ 0) (hc : cp ≠ 0) (hv : v ≠ 0) (ts : List ℝ) :
    coolInSteps (tempSI tf) (htcSI h) (areaSI a) (densSI rho) (cpSI cp) (volSI v) (tempSI t0) (ts.map timeSI) =
      lumpedParameter (tempSI tf) (tempSI t0) (htcSI h) (areaSI a) (densSI rho) (cpSI cp) (volSI v) (timeSI ts.sum) := by
  unfold coolInSteps
  induction ts generalizing t0 with
  | nil => rw [List.map_nil, List.foldl_nil, List.sum_nil, C45_start tf t0 h a rho cp v hr hc hv]
  | cons t ts ih =>
    rw [List.map_cons, List.foldl_cons, C45_value tf t0 h a rho cp v t hr hc hv, ih, C45_value _ _ _ _ _ _ _ _ hr hc hv,
      C45_value _ _ _ _ _ _ _ _ hr hc hv, List.sum_cons]
    congr 2
    rw [show -(h * a * (t + ts.sum)) / (rho * cp * v) = -(h * a * t) / (rho * cp * v) + -(h * a * ts.sum) / (rho * cp * v) by
      ring, Real.exp_add]
    ring

/-- The order of the steps does not matter. -/
theorem C107_cooling_order (tf t0 h a rho cp v : ℝ) (hr : rho ≠ 0) (hc : cp ≠ 0) (hv : v ≠ 0) (ts ts' : List ℝ)
    (hp : ts.Perm ts') :
    coolInSteps (tempSI tf) (htcSI h) (areaSI a) (densSI rho) (cpSI cp) (volSI v) (tempSI t0) (ts.map timeSI) =
    coolInSteps (tempSI tf) (htcSI h) (areaSI a) (densSI rho) (cpSI cp) (volSI v) (tempSI t0) (ts'.map timeSI) := by
  rw [C107_cooling _ _ _ _ _ _ _ hr hc hv, C107_cooling _ _ _ _ _ _ _ hr hc hv, hp.sum_eq]

section
variable {Tf h A rho cp V : Val ℝ} (hf : temperature.Has Tf) (hh : htc.Has h) (hA : area.Has A)
  (hr : density.Has rho) (hc : heatCapacity.Has cp) (hV : volume.Has V)
include hf hh hA hr hc hV

/-- In any units without prefix, each argument and each step in its own: what the steps return has the magnitude of one call
over the sum of the times, whatever the number of steps. -/
theorem C107_cooling_any_units {ρ : Sym → ℝ} (hρ : Coherent ρ) (ts : List (Val ℝ)) (hts : ∀ t ∈ ts, time.Has t) {T r : Val ℝ}
    (hT : temperature.Has T)
    (hres : coolInSteps (.ok Tf) (.ok h) (.ok A) (.ok rho) (.ok cp) (.ok V) (.ok T) (ts.map .ok) = .ok r) :
    temperature.Has r ∧ r.magn ρ = Tf.magn ρ - (Tf.magn ρ - T.magn ρ) *
      Real.exp (-(h.magn ρ * A.magn ρ * (ts.map (Val.magn ρ)).sum) / (rho.magn ρ * cp.magn ρ * V.magn ρ)) := by
  unfold coolInSteps at hres
  induction ts generalizing T with
  | nil =>
    cases hres
    simp [hT]
  | cons t ts ih =>
    rw [List.map_cons, List.foldl_cons] at hres
    cases e : lumpedParameter (.ok Tf) (.ok T) (.ok h) (.ok A) (.ok rho) (.ok cp) (.ok V) (.ok t) with
    | error x =>
      exfalso
      rw [e] at hres
      have : ∀ l : List (PyM (Val ℝ)), l.foldl (fun T t => lumpedParameter (.ok Tf) T (.ok h) (.ok A) (.ok rho) (.ok cp)
          (.ok V) t) (.error x) = .error x := by
        intro l
        induction l with
        | nil => rfl
        | cons a l ih => exact ih
      rw [this] at hres; cases hres
    | ok y =>
      rw [e] at hres
      have ht := hts t (List.mem_cons_self ..)
      have hv : AllHave [temperature, temperature, htc, area, density, heatCapacity, volume, time]
          [Tf, T, h, A, rho, cp, V, t] := ⟨hf, hT, hh, hA, hr, hc, hV, ht, trivial⟩
      let E : Arith := .var 0 - (.var 0 - .var 1) *
        .fn .exp ((-(.var 2 * .var 3 * .var 7)) / (.var 4 * .var 5 * .var 6))
      have hy : temperature.Has y := (C75_checked E (tyOf _) (envOf _) hv.get temperature (by decide +kernel) y e).1
      obtain ⟨h1, h2⟩ := ih (fun t' ht' => hts t' (List.mem_cons_of_mem _ ht')) hy hres
      refine ⟨h1, ?_⟩
      have h3 := ((C75_lumped hf hT hh hA hr hc hV ht y e).2 ρ hρ).magn_eq
      beta_reduce at h3
      rw [h2, h3, List.map_cons, List.sum_cons]
      rw [show -(h.magn ρ * A.magn ρ * (t.magn ρ + (ts.map (Val.magn ρ)).sum)) / (rho.magn ρ * cp.magn ρ * V.magn ρ) =
        -(h.magn ρ * A.magn ρ * t.magn ρ) / (rho.magn ρ * cp.magn ρ * V.magn ρ) +
        -(h.magn ρ * A.magn ρ * (ts.map (Val.magn ρ)).sum) / (rho.magn ρ * cp.magn ρ * V.magn ρ) by ring, Real.exp_add]
      ring

end

/-! ## A composite wall -/

/-- From the hot face through the layers `(k, x)`: `planar_flux` gives the far temperature of each. -/
noncomputable def throughWall (q T : PyM (Val ℝ)) (layers : List (PyM (Val ℝ) × PyM (Val ℝ))) : PyM (Val ℝ) :=
  layers.foldl (fun T l => pcall (planarFlux · []) [l.1, T, pNone, l.2, q]) T

/-- The resistance per area of the layers. -/
noncomputable def wallResistance (layers : List (ℝ × ℝ)) : ℝ := (layers.map fun l => l.2 / l.1).sum

theorem flux_step (q t k x : ℝ) (hk : k ≠ 0) (c : UCls) (hc : c = .temperature ∨ c = .unit) :
    pcall (planarFlux · []) [condSI k, qU c t c!"K", pNone, lenSI x, qMulti q c!"W/m^2"] =
      qU .unit (t - q * (x / k)) c!"K" := by
  rcases hc with rfl | rfl <;>
  · units_eval [condSI, lenSI, planarFlux_T2, hk]
    exact okUnit_congr (by field_simp; ring)

/-- The cold face of a wall of any number of layers: the resistances add up. -/
theorem C107_wall (q t : ℝ) (layers : List (ℝ × ℝ)) (hne : layers ≠ []) (hl : ∀ l ∈ layers, l.1 ≠ 0) :
    throughWall (qMulti q c!"W/m^2") (tempSI t) (layers.map fun l => (condSI l.1, lenSI l.2)) =
      qU .unit (t - q * wallResistance layers) c!"K" := by
  have key : ∀ (layers : List (ℝ × ℝ)) (t : ℝ), (∀ l ∈ layers, l.1 ≠ 0) →
      throughWall (qMulti q c!"W/m^2") (qU .unit t c!"K") (layers.map fun l => (condSI l.1, lenSI l.2)) =
      qU .unit (t - q * wallResistance layers) c!"K" := by
    intro layers
    induction layers with
    | nil => intro t _; simp [throughWall, wallResistance]
    | cons l layers ih =>
      intro t hl
      have := ih (t - q * (l.2 / l.1)) fun l' h => hl l' (List.mem_cons_of_mem _ h)
      unfold throughWall wallResistance at this ⊢
      rw [List.map_cons, List.foldl_cons, flux_step q t l.1 l.2 (hl l (List.mem_cons_self ..)) .unit (.inr rfl), this,
        List.map_cons, List.sum_cons]
      congr 1; ring
  cases layers with
  | nil => exact absurd rfl hne
  | cons l layers =>
    have := key layers (t - q * (l.2 / l.1)) fun l' h => hl l' (List.mem_cons_of_mem _ h)
    unfold throughWall wallResistance at this ⊢
    rw [List.map_cons, List.foldl_cons, tempSI, flux_step q t l.1 l.2 (hl l (List.mem_cons_self ..)) .temperature (.inl rfl), this,
      List.map_cons, List.sum_cons]
    congr 1; ring

/-- So the flux through the whole wall is that through one layer of the total thickness whose conductivity is the thickness
over the resistance. -/
theorem C107_wall_equivalent (q t : ℝ) (layers : List (ℝ × ℝ)) (hne : layers ≠ []) (hl : ∀ l ∈ layers, 0 < l.1 ∧ 0 < l.2) :
    pcall (planarFlux · []) [condSI ((layers.map Prod.snd).sum / wallResistance layers), tempSI t,
        throughWall (qMulti q c!"W/m^2") (tempSI t) (layers.map fun l => (condSI l.1, lenSI l.2)),
        lenSI (layers.map Prod.snd).sum] = qMulti q c!"W/m^2" := by
  have hx : 0 < (layers.map Prod.snd).sum := by
    apply List.sum_pos
    · intro x hx; obtain ⟨l, h, rfl⟩ := List.mem_map.1 hx; exact (hl l h).2
    · simpa using hne
  have hR : 0 < wallResistance layers := by
    unfold wallResistance
    apply List.sum_pos
    · intro x hx; obtain ⟨l, h, rfl⟩ := List.mem_map.1 hx; exact div_pos (hl l h).2 (hl l h).1
    · simpa using hne
  rw [C107_wall q t layers hne fun l h => (hl l h).1.ne']
  generalize (layers.map Prod.snd).sum = X at *
  generalize wallResistance layers = R at *
  have hx' := hx.ne'
  units_eval [condSI, tempSI, lenSI, planarFlux_qA, hx']
  exact okMulti_congr (by field_simp; ring)

/-- In any units without prefix, each layer in its own. -/
theorem C107_wall_any_units {ρ : Sym → ℝ} (hρ : Coherent ρ) {q : Val ℝ} (hq : heatFlux.Has q) (layers : List (Val ℝ × Val ℝ))
    (hl : ∀ l ∈ layers, conductivity.Has l.1 ∧ length.Has l.2) {T r : Val ℝ} (hT : (Ty.any temperature.dim).Has T)
    (hres : throughWall (.ok q) (.ok T) (layers.map fun l => (.ok l.1, .ok l.2)) = .ok r) :
    (Ty.any temperature.dim).Has r ∧
      r.magn ρ = T.magn ρ - q.magn ρ * (layers.map fun l => l.2.magn ρ / l.1.magn ρ).sum := by
  unfold throughWall at hres
  induction layers generalizing T with
  | nil => cases hres; simp [hT]
  | cons l layers ih =>
    obtain ⟨hk, hx⟩ := hl l (List.mem_cons_self ..)
    rw [List.map_cons, List.foldl_cons] at hres
    have e0 : pcall (planarFlux · []) [.ok l.1, .ok T, pNone, .ok l.2, .ok q] =
        ((.ok l.2 * .ok q) / (-.ok l.1)) + .ok T := by
      obtain ⟨k, x⟩ := l
      obtain ⟨k, rfl⟩ := hk.is_multi (by decide +kernel)
      obtain ⟨_, rfl, -⟩ := hx
      rcases hT.cases (by decide +kernel) with ⟨_, rfl⟩ | ⟨_, rfl⟩ <;>
      rcases hq.cases (by decide +kernel) with ⟨_, rfl⟩ | ⟨_, rfl⟩ <;> rfl
    dsimp only at hres
    rw [e0] at hres
    cases e : (((.ok l.2 * .ok q) / (-.ok l.1)) + .ok T : PyM (Val ℝ)) with
    | error x =>
      exfalso
      rw [e] at hres
      have : ∀ ls : List (PyM (Val ℝ) × PyM (Val ℝ)), (∀ l ∈ ls, ∃ k, l.1 = .ok k) →
          ls.foldl (fun T l => pcall (planarFlux · []) [l.1, T, pNone, l.2, .ok q]) (.error x) = .error x := by
        intro ls
        induction ls with
        | nil => intro _; rfl
        | cons a ls ih =>
          intro h
          obtain ⟨k, hk⟩ := h a (List.mem_cons_self ..)
          rw [List.foldl_cons, hk]
          exact ih fun l h' => h l (List.mem_cons_of_mem _ h')
      rw [this _ (by
        intro l hl
        obtain ⟨l', -, rfl⟩ := List.mem_map.1 hl
        exact ⟨_, rfl⟩)] at hres
      cases hres
    | ok y =>
      rw [e] at hres
      have hv : AllHave [conductivity, .any temperature.dim, length, heatFlux] [l.1, T, l.2, q] :=
        ⟨hk, hT, hx, hq, trivial⟩
      let E : Arith := ((.var 2 * .var 3) / (-.var 0)) + .var 1
      have hy : (Ty.any temperature.dim).Has y :=
        (C75_checked E (tyOf _) (envOf _) hv.get (.any temperature.dim) (by decide +kernel) y e).1
      obtain ⟨h1, h2⟩ := ih (fun l' h => hl l' (List.mem_cons_of_mem _ h)) hy hres
      refine ⟨h1, ?_⟩
      have h3 := ((Arith.computes hv E (d := temperature.dim) (by decide +kernel) y e).2 ρ hρ).magn_eq
      have h3' : y.magn ρ = l.2.magn ρ * q.magn ρ / -l.1.magn ρ + T.magn ρ := h3
      rw [h2, h3', List.map_cons, List.sum_cons, div_neg]
      ring

/-- A furnace wall of brick and steel. -/
example : throughWall (qMulti 100 c!"W/m^2") (tempSI 500) [(condSI (1 / 2), lenSI (1 / 10)), (condSI 50, lenSI (1 / 100))] =
    qU .unit (500 - 100 * (20 / 100 + 2 / 10000)) c!"K" := by
  have := C107_wall 100 500 [(1 / 2, 1 / 10), (50, 1 / 100)] (by simp) (by simp)
  simp only [List.map_cons, List.map_nil] at this
  rw [this]
  congr 2
  simp [wallResistance]; norm_num

/-- Non-vacuity of `C107_wall_any_units`: the same in customary units, where the walk returns. -/
example : throughWall (qMulti 40 c!"BTU/hr*ft^2") (qU .temperature 440 c!"F")
    [(qM c!"ThermalConductivity" 2 c!"BTU/hr*ft*F", qU .length (1 / 2) c!"ft"),
      (qM c!"ThermalConductivity" 10 c!"BTU/hr*ft*F", qU .length (1 / 4) c!"ft")] = qU .unit 429 c!"F" := by
  units_eval [throughWall, List.foldl_cons, List.foldl_nil, planarFlux_T2]
  exact okUnit_congr (by norm_num)

/-- Cooling for a minute in three steps. -/
example : coolInSteps (tempSI 300) (htcSI 10) (areaSI 2) (densSI 1000) (cpSI 4000) (volSI 1) (tempSI 400)
    [timeSI 10, timeSI 20, timeSI 30] =
    lumpedParameter (tempSI 300) (tempSI 400) (htcSI 10) (areaSI 2) (densSI 1000) (cpSI 4000) (volSI 1) (timeSI 60) := by
  have := C107_cooling 300 400 10 2 1000 4000 1 (by norm_num) (by norm_num) one_ne_zero [10, 20, 30]
  simp only [List.map_cons, List.map_nil, List.sum_cons, List.sum_nil] at this
  rw [this]; norm_num

/-! ## Reactors in series -/

/-- The volumes of the reactors between the flows `f` and `fs`, added up by the library's `+`. -/
noncomputable def seriesVolume (r V f : PyM (Val ℝ)) : List (PyM (Val ℝ)) → PyM (Val ℝ)
  | [] => V
  | f' :: fs => seriesVolume r (V + cstrVolume f f' r) f' fs

/-- At one rate, stirred tanks in series need together what one tank needs. -/
theorem C107_reactors (f0 r : ℝ) (hr : r ≠ 0) (f1 : ℝ) (fs : List ℝ) :
    seriesVolume (qM c!"ReactionRate" r c!"mol/L*s")
      (cstrVolume (qM c!"MolarFlowRate" f0 c!"mol/s") (qM c!"MolarFlowRate" f1 c!"mol/s") (qM c!"ReactionRate" r c!"mol/L*s"))
      (qM c!"MolarFlowRate" f1 c!"mol/s") (fs.map fun f => qM c!"MolarFlowRate" f c!"mol/s") =
    cstrVolume (qM c!"MolarFlowRate" f0 c!"mol/s") (qM c!"MolarFlowRate" ((f1 :: fs).getLast (by simp)) c!"mol/s")
      (qM c!"ReactionRate" r c!"mol/L*s") := by
  induction fs generalizing f1 with
  | nil => rfl
  | cons f fs ih =>
    rw [List.getLast_cons (by simp), ← ih f, List.map_cons, seriesVolume]
    congr 1
    rw [C65_cstr_litres _ _ _ hr, C65_cstr_litres _ _ _ hr, C65_cstr_litres _ _ _ hr]
    units_eval []
    exact okUnit_congr (by field_simp; ring)

/-! ## Melting layer by layer -/

/-- The times between the positions `l` and `ls`, added up by the library's `+`. -/
noncomputable def meltingTime (f : PyM (Val ℝ) → PyM (Val ℝ) → PyM (Val ℝ)) (t l : PyM (Val ℝ)) :
    List (PyM (Val ℝ)) → PyM (Val ℝ)
  | [] => t
  | l' :: ls => meltingTime f (t + f l l') l' ls

/-- The melting times of any number of consecutive layers add up to the time for all of it. -/
theorem C107_melting (rho hf k ts tm l0 l1 : ℝ) (hk : k ≠ 0) (ht : ts ≠ tm) (ls : List ℝ) :
    meltingTime (pseudoSteadyTime (densSI rho) (qMulti hf c!"J/kg") (condSI k) (tempSI ts) (tempSI tm))
      (pseudoSteadyTime (densSI rho) (qMulti hf c!"J/kg") (condSI k) (tempSI ts) (tempSI tm) (lenSI l0) (lenSI l1))
      (lenSI l1) (ls.map lenSI) =
    pseudoSteadyTime (densSI rho) (qMulti hf c!"J/kg") (condSI k) (tempSI ts) (tempSI tm) (lenSI l0)
      (lenSI ((l1 :: ls).getLast (by simp))) := by
  induction ls generalizing l1 with
  | nil => rfl
  | cons l ls ih =>
    rw [List.getLast_cons (by simp), ← ih l, List.map_cons, meltingTime]
    congr 1
    exact C65_melting_additive_partial rho hf k ts tm l0 l1 l hk ht

end Verif
