import Verif.Props.AnyPrefix
import Verif.Tactic.UnitsEval
import Verif.Spec.SI

/-!
# C86: arguments whose prefix is ignored

For the arguments below a prefix changes nothing in what is returned: the number is taken as if the unit had no prefix, so
that the result is wrong by the factor of the prefix.  They are arguments that C86 does not allow to be prefixed.
-/

namespace Verif

theorem C86_ignored_pipe_heat (k T1 T2 L r2 r1 : ℝ) :
    (pipeHeat (qM c!"ThermalConductivity" k c!"kW/m*K") (tempSI T1) (tempSI T2) (lenSI L) (lenSI r2) (lenSI r1) =
      pipeHeat (condSI k) (tempSI T1) (tempSI T2) (lenSI L) (lenSI r2) (lenSI r1)) ∧
    (pipeHeat (condSI k) (tempSI T1) (tempSI T2) (qU .length L c!"cm") (lenSI r2) (lenSI r1) = pipeHeat (condSI k)
      (tempSI T1) (tempSI T2) (lenSI L) (lenSI r2) (lenSI r1)) := by
  refine ⟨?_, ?_⟩ <;> units_eval [pipeHeat, condSI, lenSI, tempSI]

theorem C86_ignored_pseudo_steady_time (rho H k Ts Tm l0 l1 : ℝ) :
    (pseudoSteadyTime (densSI rho) (qM c!"Hvap" H c!"J/kg") (qM c!"ThermalConductivity" k c!"kW/m*K") (tempSI Ts)
      (tempSI Tm) (lenSI l0) (lenSI l1) = pseudoSteadyTime (densSI rho) (qM c!"Hvap" H c!"J/kg") (condSI k) (tempSI
      Ts) (tempSI Tm) (lenSI l0) (lenSI l1)) ∧
    (pseudoSteadyTime (densSI rho) (qM c!"Hvap" H c!"J/kg") (condSI k) (qU .temperature Ts c!"mK") (qU .temperature Tm
      c!"mK") (lenSI l0) (lenSI l1) = pseudoSteadyTime (densSI rho) (qM c!"Hvap" H c!"J/kg") (condSI k) (tempSI Ts)
      (tempSI Tm) (lenSI l0) (lenSI l1)) := by
  refine ⟨?_, ?_⟩ <;> units_eval [pseudoSteadyTime, condSI, densSI, lenSI, tempSI]

theorem C86_ignored_lumped (Tf To h A rho cp V t : ℝ) :
    (lumpedParameter (tempSI Tf) (tempSI To) (qM c!"HeatTransferCoefficient" h c!"kW/m^2*K") (areaSI A) (densSI rho)
      (cpSI cp) (volSI V) (timeSI t) = lumpedParameter (tempSI Tf) (tempSI To) (htcSI h) (areaSI A) (densSI rho) (cpSI
      cp) (volSI V) (timeSI t)) ∧
    (lumpedParameter (tempSI Tf) (tempSI To) (htcSI h) (qU .area A c!"cm^2") (densSI rho) (cpSI cp) (volSI V) (timeSI
      t) = lumpedParameter (tempSI Tf) (tempSI To) (htcSI h) (areaSI A) (densSI rho) (cpSI cp) (volSI V) (timeSI t)) ∧
    (lumpedParameter (tempSI Tf) (tempSI To) (htcSI h) (areaSI A) (densSI rho) (cpSI cp) (qU .volume V c!"cm^3")
      (timeSI t) = lumpedParameter (tempSI Tf) (tempSI To) (htcSI h) (areaSI A) (densSI rho) (cpSI cp) (volSI V)
      (timeSI t)) ∧
    (lumpedParameter (tempSI Tf) (tempSI To) (htcSI h) (areaSI A) (densSI rho) (cpSI cp) (volSI V) (qU .time t c!"ms")
      = lumpedParameter (tempSI Tf) (tempSI To) (htcSI h) (areaSI A) (densSI rho) (cpSI cp) (volSI V) (timeSI t)) := by
  refine ⟨?_, ?_, ?_, ?_⟩ <;> units_eval [lumpedParameter, areaSI, cpSI, densSI, htcSI, tempSI, timeSI, volSI]

theorem C86_ignored_htc_shell (Do Ge mu Pr k psi : ℝ) :
    htcShell (lenSI Do) (qMulti Ge c!"kg/cm^2*s") (qM c!"DynamicViscosity" mu c!"Pa*s") (pnum Pr) (condSI k) (pnum
      psi) = htcShell (lenSI Do) (qMulti Ge c!"kg/m^2*s") (qM c!"DynamicViscosity" mu c!"Pa*s") (pnum Pr) (condSI k)
      (pnum psi) := by
  units_eval [htcShell, condSI, lenSI]

theorem C86_ignored_planar_mass_transfer (D A c2 c1 x : ℝ) :
    (planarMassTransfer (qM c!"DiffusionCoefficient" D c!"cm^2/s") (areaSI A) (densSI c2) (densSI c1) (lenSI x) =
      planarMassTransfer (diffSI D) (areaSI A) (densSI c2) (densSI c1) (lenSI x)) ∧
    (planarMassTransfer (diffSI D) (qU .area A c!"cm^2") (densSI c2) (densSI c1) (lenSI x) = planarMassTransfer
      (diffSI D) (areaSI A) (densSI c2) (densSI c1) (lenSI x)) := by
  refine ⟨?_, ?_⟩ <;> units_eval [planarMassTransfer, areaSI, densSI, diffSI, lenSI]

theorem C86_ignored_pipe_mass_transfer (D r2 r1 c2 c1 L : ℝ) :
    (pipeMassTransfer (qM c!"DiffusionCoefficient" D c!"cm^2/s") (lenSI r2) (lenSI r1) (densSI c2) (densSI c1) (lenSI
      L) = pipeMassTransfer (diffSI D) (lenSI r2) (lenSI r1) (densSI c2) (densSI c1) (lenSI L)) ∧
    (pipeMassTransfer (diffSI D) (lenSI r2) (lenSI r1) (densSI c2) (densSI c1) (qU .length L c!"cm") =
      pipeMassTransfer (diffSI D) (lenSI r2) (lenSI r1) (densSI c2) (densSI c1) (lenSI L)) := by
  refine ⟨?_, ?_⟩ <;> units_eval [pipeMassTransfer, densSI, diffSI, lenSI]

theorem C86_ignored_sphere_mass_transfer (D r2 r1 c2 c1 : ℝ) :
    sphereMassTransfer (qM c!"DiffusionCoefficient" D c!"cm^2/s") (lenSI r2) (lenSI r1) (densSI c2) (densSI c1) =
      sphereMassTransfer (diffSI D) (lenSI r2) (lenSI r1) (densSI c2) (densSI c1) := by
  units_eval [sphereMassTransfer, densSI, diffSI, lenSI]

theorem C86_ignored_semi_infinite_diffusion (cs c0 z D t : ℝ) :
    (semiInfiniteSlabDiffusion (densSI cs) (densSI c0) (lenSI z) (qM c!"DiffusionCoefficient" D c!"cm^2/s") (timeSI t)
      = semiInfiniteSlabDiffusion (densSI cs) (densSI c0) (lenSI z) (diffSI D) (timeSI t)) ∧
    (semiInfiniteSlabDiffusion (densSI cs) (densSI c0) (lenSI z) (diffSI D) (qU .time t c!"ms") =
      semiInfiniteSlabDiffusion (densSI cs) (densSI c0) (lenSI z) (diffSI D) (timeSI t)) := by
  refine ⟨?_, ?_⟩ <;> units_eval [semiInfiniteSlabDiffusion, densSI, diffSI, lenSI, timeSI]

theorem C86_ignored_two_d_pulse (m L x D t : ℝ) :
    (twoDPulse (massSI m) (lenSI L) (lenSI x) (qM c!"DiffusionCoefficient" D c!"cm^2/s") (timeSI t) = twoDPulse
      (massSI m) (lenSI L) (lenSI x) (diffSI D) (timeSI t)) ∧
    (twoDPulse (massSI m) (lenSI L) (lenSI x) (diffSI D) (qU .time t c!"ms") = twoDPulse (massSI m) (lenSI L) (lenSI
      x) (diffSI D) (timeSI t)) := by
  refine ⟨?_, ?_⟩ <;> units_eval [twoDPulse, diffSI, lenSI, massSI, timeSI]

theorem C86_ignored_one_d_pulse (m A x D t : ℝ) :
    (oneDPulse (massSI m) (areaSI A) (lenSI x) (qM c!"DiffusionCoefficient" D c!"cm^2/s") (timeSI t) = oneDPulse
      (massSI m) (areaSI A) (lenSI x) (diffSI D) (timeSI t)) ∧
    (oneDPulse (massSI m) (areaSI A) (lenSI x) (diffSI D) (qU .time t c!"ms") = oneDPulse (massSI m) (areaSI A) (lenSI
      x) (diffSI D) (timeSI t)) := by
  refine ⟨?_, ?_⟩ <;> units_eval [oneDPulse, areaSI, diffSI, lenSI, massSI, timeSI]

theorem C86_ignored_three_d_pulse_sphere (m x D t : ℝ) :
    (threeDPulse (massSI m) (lenSI x) (qM c!"DiffusionCoefficient" D c!"cm^2/s") (timeSI t) c!"sphere" = threeDPulse
      (massSI m) (lenSI x) (diffSI D) (timeSI t) c!"sphere") ∧
    (threeDPulse (massSI m) (lenSI x) (diffSI D) (qU .time t c!"ms") c!"sphere" = threeDPulse (massSI m) (lenSI x)
      (diffSI D) (timeSI t) c!"sphere") := by
  refine ⟨?_, ?_⟩ <;> units_eval [threeDPulse, diffSI, lenSI, massSI, timeSI]

theorem C86_ignored_three_d_pulse_hemisphere (m x D t : ℝ) :
    (threeDPulse (massSI m) (lenSI x) (qM c!"DiffusionCoefficient" D c!"cm^2/s") (timeSI t) c!"hemisphere" =
      threeDPulse (massSI m) (lenSI x) (diffSI D) (timeSI t) c!"hemisphere") ∧
    (threeDPulse (massSI m) (lenSI x) (diffSI D) (qU .time t c!"ms") c!"hemisphere" = threeDPulse (massSI m) (lenSI x)
      (diffSI D) (timeSI t) c!"hemisphere") := by
  refine ⟨?_, ?_⟩ <;> units_eval [threeDPulse, diffSI, lenSI, massSI, timeSI]

theorem C86_ignored_three_d_pulse_cube (m x D t : ℝ) :
    (threeDPulse (massSI m) (lenSI x) (qM c!"DiffusionCoefficient" D c!"cm^2/s") (timeSI t) c!"cube" = threeDPulse
      (massSI m) (lenSI x) (diffSI D) (timeSI t) c!"cube") ∧
    (threeDPulse (massSI m) (lenSI x) (diffSI D) (qU .time t c!"ms") c!"cube" = threeDPulse (massSI m) (lenSI x)
      (diffSI D) (timeSI t) c!"cube") := by
  refine ⟨?_, ?_⟩ <;> units_eval [threeDPulse, diffSI, lenSI, massSI, timeSI]

theorem C86_ignored_reynolds (rho v L mu : ℝ) :
    reynolds (densSI rho) (velSI v) (qU .length L c!"cm") (qM c!"DynamicViscosity" mu c!"Pa*s") = reynolds (densSI
      rho) (velSI v) (lenSI L) (qM c!"DynamicViscosity" mu c!"Pa*s") := by
  units_eval [reynolds, densSI, lenSI, velSI]

theorem C86_ignored_biot (h L k : ℝ) :
    (biot (qM c!"HeatTransferCoefficient" h c!"kW/m^2*K") (lenSI L) (condSI k) = biot (htcSI h) (lenSI L) (condSI k)) ∧
    (biot (htcSI h) (qU .length L c!"cm") (condSI k) = biot (htcSI h) (lenSI L) (condSI k)) := by
  refine ⟨?_, ?_⟩ <;> units_eval [biot, condSI, htcSI, lenSI]

theorem C86_ignored_gretz (d L cp cl rho v k : ℝ) :
    (gretz (qU .length d c!"cm") (lenSI L) (cpSI cp) (lenSI cl) (densSI rho) (velSI v) (condSI k) = gretz (lenSI d)
      (lenSI L) (cpSI cp) (lenSI cl) (densSI rho) (velSI v) (condSI k)) ∧
    (gretz (lenSI d) (qU .length L c!"cm") (cpSI cp) (lenSI cl) (densSI rho) (velSI v) (condSI k) = gretz (lenSI d)
      (lenSI L) (cpSI cp) (lenSI cl) (densSI rho) (velSI v) (condSI k)) ∧
    (gretz (lenSI d) (lenSI L) (qM c!"Cp" cp c!"kJ/kg*K") (lenSI cl) (densSI rho) (velSI v) (condSI k) = gretz (lenSI
      d) (lenSI L) (cpSI cp) (lenSI cl) (densSI rho) (velSI v) (condSI k)) ∧
    (gretz (lenSI d) (lenSI L) (cpSI cp) (qU .length cl c!"cm") (densSI rho) (velSI v) (condSI k) = gretz (lenSI d)
      (lenSI L) (cpSI cp) (lenSI cl) (densSI rho) (velSI v) (condSI k)) ∧
    (gretz (lenSI d) (lenSI L) (cpSI cp) (lenSI cl) (densSI rho) (velSI v) (qM c!"ThermalConductivity" k c!"kW/m*K") =
      gretz (lenSI d) (lenSI L) (cpSI cp) (lenSI cl) (densSI rho) (velSI v) (condSI k)) := by
  refine ⟨?_, ?_, ?_, ?_, ?_⟩ <;> units_eval [gretz, condSI, cpSI, densSI, lenSI, velSI]

theorem C86_ignored_grashof (g b T2 T1 L rho mu : ℝ) :
    (grashof (qM c!"Gravity" g c!"m/s^2") (qU .temperature b c!"mK" (-1)) (tempSI T2) (tempSI T1) (lenSI L) (densSI
      rho) (qM c!"DynamicViscosity" mu c!"Pa*s") = grashof (qM c!"Gravity" g c!"m/s^2") (qU .temperature b c!"K" (-1))
      (tempSI T2) (tempSI T1) (lenSI L) (densSI rho) (qM c!"DynamicViscosity" mu c!"Pa*s")) ∧
    (grashof (qM c!"Gravity" g c!"m/s^2") (qU .temperature b c!"K" (-1)) (qU .temperature T2 c!"mK") (qU .temperature
      T1 c!"mK") (lenSI L) (densSI rho) (qM c!"DynamicViscosity" mu c!"Pa*s") = grashof (qM c!"Gravity" g c!"m/s^2")
      (qU .temperature b c!"K" (-1)) (tempSI T2) (tempSI T1) (lenSI L) (densSI rho) (qM c!"DynamicViscosity" mu
      c!"Pa*s")) ∧
    (grashof (qM c!"Gravity" g c!"m/s^2") (qU .temperature b c!"K" (-1)) (tempSI T2) (tempSI T1) (qU .length L c!"cm")
      (densSI rho) (qM c!"DynamicViscosity" mu c!"Pa*s") = grashof (qM c!"Gravity" g c!"m/s^2") (qU .temperature b
      c!"K" (-1)) (tempSI T2) (tempSI T1) (lenSI L) (densSI rho) (qM c!"DynamicViscosity" mu c!"Pa*s")) ∧
    (grashof (qM c!"Gravity" g c!"m/s^2") (qU .temperature b c!"K" (-1)) (tempSI T2) (tempSI T1) (lenSI L) (qM
      c!"Density" rho c!"kg/dm^3") (qM c!"DynamicViscosity" mu c!"Pa*s") = grashof (qM c!"Gravity" g c!"m/s^2") (qU
      .temperature b c!"K" (-1)) (tempSI T2) (tempSI T1) (lenSI L) (densSI rho) (qM c!"DynamicViscosity" mu c!"Pa*s")) := by
  refine ⟨?_, ?_, ?_, ?_⟩ <;> units_eval [grashof, densSI, lenSI, tempSI]

theorem C86_ignored_thermal_beta (r1 r2 T2 T1 : ℝ) :
    thermalBeta (densSI r1) (densSI r2) (qU .temperature T2 c!"mK") (qU .temperature T1 c!"mK") = thermalBeta (densSI
      r1) (densSI r2) (tempSI T2) (tempSI T1) := by
  units_eval [thermalBeta, densSI, tempSI]

theorem C86_ignored_evaporation (M k A P R T : ℝ) :
    (qmEvaporation (qM c!"MolecularWeight" M c!"kg/mol") (velSI k) (qU .area A c!"cm^2") (presSI P) (qMulti R
      c!"m^3*Pa/mol*K") (tempSI T) = qmEvaporation (qM c!"MolecularWeight" M c!"kg/mol") (velSI k) (areaSI A) (presSI
      P) (qMulti R c!"m^3*Pa/mol*K") (tempSI T)) ∧
    (qmEvaporation (qM c!"MolecularWeight" M c!"kg/mol") (velSI k) (areaSI A) (qU .pressure P c!"kPa") (qMulti R
      c!"m^3*Pa/mol*K") (tempSI T) = qmEvaporation (qM c!"MolecularWeight" M c!"kg/mol") (velSI k) (areaSI A) (presSI
      P) (qMulti R c!"m^3*Pa/mol*K") (tempSI T)) ∧
    (qmEvaporation (qM c!"MolecularWeight" M c!"kg/mol") (velSI k) (areaSI A) (presSI P) (qMulti R c!"m^3*kPa/mol*K")
      (tempSI T) = qmEvaporation (qM c!"MolecularWeight" M c!"kg/mol") (velSI k) (areaSI A) (presSI P) (qMulti R
      c!"m^3*Pa/mol*K") (tempSI T)) ∧
    (qmEvaporation (qM c!"MolecularWeight" M c!"kg/mol") (velSI k) (areaSI A) (presSI P) (qMulti R c!"m^3*Pa/mol*K")
      (qU .temperature T c!"mK") = qmEvaporation (qM c!"MolecularWeight" M c!"kg/mol") (velSI k) (areaSI A) (presSI P)
      (qMulti R c!"m^3*Pa/mol*K") (tempSI T)) := by
  refine ⟨?_, ?_, ?_, ?_⟩ <;> units_eval [qmEvaporation, areaSI, presSI, tempSI, velSI]

theorem C86_ignored_enclosure (Q R T k V P M : ℝ) :
    (enclosureConcentration (qM c!"MassFlowRate" Q c!"kg/s") (qMulti R c!"m^3*Pa/mol*K") (qU .temperature T c!"mK")
      (pnum k) (qM c!"VolumetricFlowrate" V c!"m^3/s") (presSI P) (qM c!"MolecularWeight" M c!"kg/mol") =
      enclosureConcentration (qM c!"MassFlowRate" Q c!"kg/s") (qMulti R c!"m^3*Pa/mol*K") (tempSI T) (pnum k) (qM
      c!"VolumetricFlowrate" V c!"m^3/s") (presSI P) (qM c!"MolecularWeight" M c!"kg/mol")) ∧
    (enclosureConcentration (qM c!"MassFlowRate" Q c!"kg/s") (qMulti R c!"m^3*Pa/mol*K") (tempSI T) (pnum k) (qM
      c!"VolumetricFlowrate" V c!"dm^3/s") (presSI P) (qM c!"MolecularWeight" M c!"kg/mol") = enclosureConcentration
      (qM c!"MassFlowRate" Q c!"kg/s") (qMulti R c!"m^3*Pa/mol*K") (tempSI T) (pnum k) (qM c!"VolumetricFlowrate" V
      c!"m^3/s") (presSI P) (qM c!"MolecularWeight" M c!"kg/mol")) ∧
    (enclosureConcentration (qM c!"MassFlowRate" Q c!"kg/s") (qMulti R c!"m^3*Pa/mol*K") (tempSI T) (pnum k) (qM
      c!"VolumetricFlowrate" V c!"m^3/s") (qU .pressure P c!"kPa") (qM c!"MolecularWeight" M c!"kg/mol") =
      enclosureConcentration (qM c!"MassFlowRate" Q c!"kg/s") (qMulti R c!"m^3*Pa/mol*K") (tempSI T) (pnum k) (qM
      c!"VolumetricFlowrate" V c!"m^3/s") (presSI P) (qM c!"MolecularWeight" M c!"kg/mol")) ∧
    (enclosureConcentration (qM c!"MassFlowRate" Q c!"kg/s") (qMulti R c!"m^3*Pa/mol*K") (tempSI T) (pnum k) (qM
      c!"VolumetricFlowrate" V c!"m^3/s") (presSI P) (qM c!"MolecularWeight" M c!"kg/kmol") = enclosureConcentration
      (qM c!"MassFlowRate" Q c!"kg/s") (qMulti R c!"m^3*Pa/mol*K") (tempSI T) (pnum k) (qM c!"VolumetricFlowrate" V
      c!"m^3/s") (presSI P) (qM c!"MolecularWeight" M c!"kg/mol")) := by
  refine ⟨?_, ?_, ?_, ?_⟩ <;> units_eval [enclosureConcentration, presSI, tempSI]

theorem C86_ignored_ppm (C R T P M : ℝ) :
    (ppmToOther (pnum C) (qMulti R c!"m^3*kPa/mol*K") (tempSI T) (presSI P) (qM c!"MolecularWeight" M c!"kg/mol") =
      ppmToOther (pnum C) (qMulti R c!"m^3*Pa/mol*K") (tempSI T) (presSI P) (qM c!"MolecularWeight" M c!"kg/mol")) ∧
    (ppmToOther (pnum C) (qMulti R c!"m^3*Pa/mol*K") (qU .temperature T c!"mK") (presSI P) (qM c!"MolecularWeight" M
      c!"kg/mol") = ppmToOther (pnum C) (qMulti R c!"m^3*Pa/mol*K") (tempSI T) (presSI P) (qM c!"MolecularWeight" M
      c!"kg/mol")) ∧
    (ppmToOther (pnum C) (qMulti R c!"m^3*Pa/mol*K") (tempSI T) (qU .pressure P c!"kPa") (qM c!"MolecularWeight" M
      c!"kg/mol") = ppmToOther (pnum C) (qMulti R c!"m^3*Pa/mol*K") (tempSI T) (presSI P) (qM c!"MolecularWeight" M
      c!"kg/mol")) ∧
    (ppmToOther (pnum C) (qMulti R c!"m^3*Pa/mol*K") (tempSI T) (presSI P) (qM c!"MolecularWeight" M c!"kg/kmol") =
      ppmToOther (pnum C) (qMulti R c!"m^3*Pa/mol*K") (tempSI T) (presSI P) (qM c!"MolecularWeight" M c!"kg/mol")) := by
  refine ⟨?_, ?_, ?_, ?_⟩ <;> units_eval [ppmToOther, presSI, tempSI]

/-- The time in the semi-infinite slab. -/
theorem C86_ignored_semi_infinite_slab (Ts To z t rho cp k : ℝ) (hr : rho ≠ 0) (hc : cp ≠ 0) :
    semiInfiniteSlabConduction (tempSI Ts) (tempSI To) (lenSI z) (qU .time t c!"ms") (densSI rho) (cpSI cp) (condSI k) =
      semiInfiniteSlabConduction (tempSI Ts) (tempSI To) (lenSI z) (timeSI t) (densSI rho) (cpSI cp) (condSI k) := by
  units_eval [semiInfiniteSlabConduction, tempSI, lenSI, timeSI, densSI, cpSI, condSI, hr, hc]

theorem planarHeat_simple (k : MultiV ℝ) (T1 T2 A x : UnitV ℝ) :
    planarHeat [.multi k, .unit T1, .unit T2, .unit A, .unit x] [] =
      (-.ok (.multi k)) * .ok (.unit A) * ((.ok (.unit T2) - .ok (.unit T1)) / .ok (.unit x)) := rfl

/-- The conductivity and the area in `planar_heat`. -/
theorem C86_ignored_planar_heat (k A : ℝ) (T1 T2 x : UnitV ℝ) :
    (planarHeat [.multi ⟨.sub c!"ThermalConductivity", k, [⟨c!"kW", 1⟩], [⟨c!"m", 1⟩, ⟨c!"K", 1⟩]⟩, .unit T1, .unit T2,
        .unit ⟨.area, A, c!"m", 2⟩, .unit x] [] =
      planarHeat [.multi ⟨.sub c!"ThermalConductivity", k, [⟨c!"W", 1⟩], [⟨c!"m", 1⟩, ⟨c!"K", 1⟩]⟩, .unit T1, .unit T2,
        .unit ⟨.area, A, c!"m", 2⟩, .unit x] []) ∧
    planarHeat [.multi ⟨.sub c!"ThermalConductivity", k, [⟨c!"W", 1⟩], [⟨c!"m", 1⟩, ⟨c!"K", 1⟩]⟩, .unit T1, .unit T2,
        .unit ⟨.area, A, c!"cm", 2⟩, .unit x] [] =
      planarHeat [.multi ⟨.sub c!"ThermalConductivity", k, [⟨c!"W", 1⟩], [⟨c!"m", 1⟩, ⟨c!"K", 1⟩]⟩, .unit T1, .unit T2,
        .unit ⟨.area, A, c!"m", 2⟩, .unit x] [] := by
  refine ⟨?_, ?_⟩ <;> (rw [planarHeat_simple, planarHeat_simple]; congr 1; units_eval [])

end Verif
