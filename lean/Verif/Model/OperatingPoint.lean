import Verif.Core.Py

/-!
# Model of `pterasoftware/operating_point.py`
-/

namespace Ptera

noncomputable section

/-- `OperatingPoint` (operating_point.py 17-88): the attributes set by `__init__` (46-88), with its
default values. `alpha` and `beta` are in degrees. -/
structure OperatingPoint where
  density : ℝ := 1.225
  velocity : ℝ := 10.0
  alpha : ℝ := 5.0
  beta : ℝ := 0.0
  externalThrust : ℝ := 0.0
  nu : ℝ := 15.06e-6

namespace OperatingPoint

/-- `calculate_dynamic_pressure` (operating_point.py 90-99). -/
def dynamicPressure (op : OperatingPoint) : ℝ := 0.5 * op.density * op.velocity ^ 2

/-- `alpha_rotation` (operating_point.py 115-117). -/
def alphaRotation (op : OperatingPoint) : M3 :=
  let s := Real.sin (radians op.alpha)
  let c := Real.cos (radians op.alpha)
  ⟨⟨c, 0, -s⟩, ⟨0, 1, 0⟩, ⟨s, 0, c⟩⟩

/-- `beta_rotation` (operating_point.py 118-120). -/
def betaRotation (op : OperatingPoint) : M3 :=
  let s := Real.sin (radians op.beta)
  let c := Real.cos (radians op.beta)
  ⟨⟨c, -s, 0⟩, ⟨s, c, 0⟩, ⟨0, 0, 1⟩⟩

/-- `axes_flip` (operating_point.py 125-131). -/
def axesFlip : M3 := ⟨⟨-1, 0, 0⟩, ⟨0, 1, 0⟩, ⟨0, 0, -1⟩⟩

/-- `calculate_rotation_matrix_wind_to_geometry` (operating_point.py 101-138). -/
def rotationWindToGeometry (op : OperatingPoint) : M3 :=
  ((axesFlip.mul op.alphaRotation).mul op.betaRotation).mul M3.one

/-- `calculate_freestream_direction_geometry_axes` (operating_point.py 140-153). -/
def freestreamDirection (op : OperatingPoint) : V3 :=
  op.rotationWindToGeometry.mulVec ⟨-1, 0, 0⟩

/-- `calculate_freestream_velocity_geometry_axes` (operating_point.py 155-166). -/
def freestreamVelocity (op : OperatingPoint) : V3 :=
  op.velocity • op.freestreamDirection

end OperatingPoint

end

end Ptera
