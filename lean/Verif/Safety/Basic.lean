import Verif.Units.Expr

/-!
# Process safety

Model of `cheme_calculations/process_safety/` (explosions.py, incident_evaluation.py, ventilation.py).  `10E8` and `10E6`
are the Python literals of the source: 10·10⁸ and 10·10⁶.
-/

namespace Verif

section
variable {K : Type} [Field K] [LinearOrder K] [PyPow K]

/-- explosions.py:6-32 `max_vessel_pressure`. -/
def maxVesselPressure (strength thickness radius : PyM (Val K)) (shape : Sym) : PyM (Val K) :=
  if shape = c!"cylinder" then (strength * thickness) / (radius + (pnum (6 / 10) * thickness))
  else if shape = c!"sphere" then (pnum 2 * thickness * strength) / (radius + pnum (2 / 10) * thickness)
  else .error .typeError

/-- incident_evaluation.py:4-25 `FAR`. -/
def far (fatalities hours : PyM (Val K)) : PyM (Val K) := (fatalities * pnum (10 * 10 ^ 8)) / hours

/-- incident_evaluation.py:28-41 `OSHA_incidence_rate`. -/
def oshaRate (number hours : PyM (Val K)) : PyM (Val K) := (number * pnum 200000) / hours

/-- ventilation.py:9-13 `K_from_standard`. -/
def kFromStandard (M : PyM (Val K)) : PyM (Val K) :=
  qM c!"MassTransferCoefficient" (83 / 100) c!"cm/s" * ppow (qM c!"MolecularWeight" 18 c!"g/mol" / M) (1 / 3)

/-- ventilation.py:16-60 `Qm_evaporation`. -/
def qmEvaporation (M k A Psat R TL : PyM (Val K)) : PyM (Val K) := (M * k * A * Psat) / (R * TL)

/-- ventilation.py:63-117 `enclosure_concentration`. -/
def enclosureConcentration (Qm Rg T k Qv P M : PyM (Val K)) : PyM (Val K) :=
  (pnum (10 * 10 ^ 6) * (Qm * Rg * T)) / (k * Qv * P * M)

/-- ventilation.py:120-153 `ppm_to_other`. -/
def ppmToOther (C Rg T P M : PyM (Val K)) : PyM (Val K) := C / ((pnum (10 * 10 ^ 6) * (Rg * T)) / (P * M))

end

end Verif
