import Verif.Props.Safety

/-!
# C51: the vessel formulas in all units of pressure and length
-/

namespace Verif

/-- A unit of pressure, the unit of the result and the factor: the prefixes m, c, d, k and M are stripped, `u` is not; mmHg
becomes mHg, which is not a registered unit. -/
def strippedPressure : List (Sym × Sym × ℚ) :=
  [(c!"Pa", c!"Pa", 1), (c!"atm", c!"atm", 1), (c!"bar", c!"bar", 1), (c!"psi", c!"psi", 1), (c!"uPa", c!"uPa", 1),
   (c!"mmHg", c!"mHg", 1 / 1000), (c!"mPa", c!"Pa", 1 / 1000), (c!"cPa", c!"Pa", 1 / 100), (c!"dPa", c!"Pa", 1 / 10), (c!"kPa", c!"Pa", 1000), (c!"MPa", c!"Pa", 1000000)]

theorem strippedPressure_covers : ∀ u ∈ pressureUnits, ∃ p ∈ strippedPressure, p.1 = u := by decide +kernel

set_option linter.unusedTactic false in
/-- Any unit of length for the wall and the radius, the same for both, and any unit of pressure: the formula, in the unit of the
strength without its prefix. -/
theorem C51_units (u v l : Sym) (f : ℚ) (hu : (u, v, f) ∈ strippedPressure) (hl : l ∈ lengthUnits) (s t r : ℝ) :
    (r + 6 / 10 * t ≠ 0 → maxVesselPressure (qU .pressure s u) (qU .length t l) (qU .length r l) c!"cylinder"
      = qU .unit (f * (s * t / (r + 6 / 10 * t))) v) ∧
    (r + 2 / 10 * t ≠ 0 → maxVesselPressure (qU .pressure s u) (qU .length t l) (qU .length r l) c!"sphere"
      = qU .unit (f * (2 * s * t / (r + 2 / 10 * t))) v) := by
  have e : lengthUnits = [c!"um", c!"mm", c!"cm", c!"dm", c!"km", c!"Mm", c!"m", c!"ft", c!"in", c!"yd", c!"mile"] := by decide +kernel
  rw [e] at hl
  simp only [strippedPressure, List.mem_cons, Prod.mk.injEq, List.not_mem_nil, or_false] at hu hl
  rcases hl with rfl | rfl | rfl | rfl | rfl | rfl | rfl | rfl | rfl | rfl | rfl <;>
  rcases hu with ⟨rfl, rfl, rfl⟩ | ⟨rfl, rfl, rfl⟩ | ⟨rfl, rfl, rfl⟩ | ⟨rfl, rfl, rfl⟩ | ⟨rfl, rfl, rfl⟩ | ⟨rfl, rfl, rfl⟩ | ⟨rfl, rfl, rfl⟩ |
    ⟨rfl, rfl, rfl⟩ | ⟨rfl, rfl, rfl⟩ | ⟨rfl, rfl, rfl⟩ | ⟨rfl, rfl, rfl⟩
  all_goals
    refine ⟨fun h => ?_, fun h => ?_⟩
    all_goals
      rw [mul_comm _ t] at h
      units_eval [maxVesselPressure, h]
      exact okUnit_congr (by push_cast; ring)

/-- Wall and radius in different units are not added, whatever the units: TypeError. -/
theorem C51_mixed (u l l' : Sym) (hu : u ∈ pressureUnits) (hne : l' ≠ l) (s t r : ℝ) (shape : Sym) :
    maxVesselPressure (qU .pressure s u) (qU .length t l) (qU .length r l') shape = .error .typeError := by
  have e1 : (qU .pressure s u : PyM (Val ℝ)) = .ok (.unit ⟨.pressure, s, u, 1⟩) := by simp [qU, mkUnit, hu]
  have e2 : ∀ (x : ℝ) (w : Sym), (qU .length x w : PyM (Val ℝ)) = .ok (.unit ⟨.length, x, w, 1⟩) := by
    intro x w; simp [qU, mkUnit]
  unfold maxVesselPressure
  rw [e1, e2, e2]
  split_ifs
  all_goals
    simp [ok_mul, ok_add, Val.mul, Val.add, unitMul, unitRmul, unitAdd, pnum, mkUnit, hne, isInstance, wrapUnit]
    try rfl

/-- 2 MPa, a wall of 5 mm, a radius of 100 mm; and the radius in m instead. -/
example : maxVesselPressure (qU .pressure 2 c!"MPa") (qU .length 5 c!"mm") (qU .length 100 c!"mm") c!"cylinder" =
      (qU .unit (1000000 * (2 * 5 / 103)) c!"Pa" : PyM (Val ℝ)) ∧
    maxVesselPressure (qU .pressure 2 c!"MPa") (qU .length 5 c!"mm") (qU .length (1 / 10) c!"m") c!"cylinder" =
      (.error .typeError : PyM (Val ℝ)) := by
  refine ⟨?_, C51_mixed _ _ _ (by decide +kernel) (by decide) _ _ _ _⟩
  rw [(C51_units c!"MPa" c!"Pa" c!"mm" 1000000 (by decide +kernel) (by decide +kernel) 2 5 100).1 (by norm_num)]
  norm_num

end Verif
