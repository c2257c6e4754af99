import Verif.Units.MathFun

/-!
# Quantities in SI units, built by the library's own constructors
-/

namespace Verif

/-- `Temperature(t, "K")`. -/
def tempSI (t : ℝ) : PyM (Val ℝ) := qU .temperature t c!"K"
/-- `Area(a, "m^2")`. -/
def areaSI (a : ℝ) : PyM (Val ℝ) := qU .area a c!"m^2"
/-- `Volume(v, "m^3")`. -/
def volSI (v : ℝ) : PyM (Val ℝ) := qU .volume v c!"m^3"
/-- `Length(x, "m")`. -/
def lenSI (x : ℝ) : PyM (Val ℝ) := qU .length x c!"m"
/-- `Time(t, "s")`. -/
def timeSI (t : ℝ) : PyM (Val ℝ) := qU .time t c!"s"
/-- `Mass(m, "kg")`. -/
def massSI (m : ℝ) : PyM (Val ℝ) := qU .mass m c!"kg"
/-- `Pressure(p, "Pa")`. -/
def presSI (p : ℝ) : PyM (Val ℝ) := qU .pressure p c!"Pa"
/-- `ThermalConductivity(k, "W/m*K")`. -/
def condSI (k : ℝ) : PyM (Val ℝ) := qM c!"ThermalConductivity" k c!"W/m*K"
/-- `Density(rho, "kg/m^3")`. -/
def densSI (rho : ℝ) : PyM (Val ℝ) := qM c!"Density" rho c!"kg/m^3"
/-- `Cp(c, "J/kg*K")`. -/
def cpSI (c : ℝ) : PyM (Val ℝ) := qM c!"Cp" c c!"J/kg*K"
/-- `HeatTransferCoefficient(h, "W/m^2*K")`. -/
def htcSI (h : ℝ) : PyM (Val ℝ) := qM c!"HeatTransferCoefficient" h c!"W/m^2*K"
/-- `DynamicViscosity(mu, "kg/m*s")`. -/
def viscSI (mu : ℝ) : PyM (Val ℝ) := qM c!"DynamicViscosity" mu c!"kg/m*s"
/-- `DiffusionCoefficient(D, "m^2/s")`. -/
def diffSI (D : ℝ) : PyM (Val ℝ) := qM c!"DiffusionCoefficient" D c!"m^2/s"
/-- `Concentration(C, "kg/m^3")`. -/
def concSI (C : ℝ) : PyM (Val ℝ) := qM c!"Concentration" C c!"kg/m^3"
/-- `Concentration(C, "mol/m^3")`. -/
def molConcSI (C : ℝ) : PyM (Val ℝ) := qM c!"Concentration" C c!"mol/m^3"
/-- `Velocity(v, "m/s")`. -/
def velSI (v : ℝ) : PyM (Val ℝ) := qM c!"Velocity" v c!"m/s"

end Verif
