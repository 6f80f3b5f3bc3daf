/-
Density of liquid water (`nuto/physics/PhysicalEquationsSI.h`).
-/
import Verif.Model.Tables
import Mathlib.Data.Real.Basic

namespace NuTo.Water

/-- `nuto/physics/PhysicalEquationsSI.h` 17-31: the table of temperatures and densities -/
noncomputable def table : List (ℝ × ℝ) :=
  [(243.15, 983.854), (253.15, 993.547), (263.15, 998.117), (273.15, 999.8395), (277.15, 999.972), (283.15, 999.7026),
   (288.15, 999.1026), (293.15, 998.2071), (295.15, 997.7735), (298.15, 997.0479), (303.15, 995.6502), (313.15, 992.2),
   (333.15, 983.2), (353.15, 971.8), (373.15, 958.4)]

/-- `nuto/physics/PhysicalEquationsSI.h` 15-33: `DensityLiquidWater`; the possible results, as `std::sort` in the constructor of
the interpolation is only specified up to the order of equal abscissae. `LinearInterpolation.h` asks for two points. -/
def Density (temperature : ℝ) (r : Res ℝ) : Prop :=
  ∃ c, Table.Constructs table 2 c ∧ r = c.bind fun mData => Table.linear mData temperature

end NuTo.Water
