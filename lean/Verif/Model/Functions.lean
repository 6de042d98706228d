import Verif.Core.Py

/-!
# Model of `pterasoftware/functions.py` (geometric helpers)

The load-processing functions of the same file are in `Verif/Model/Solver.lean`.
-/

namespace Ptera

noncomputable section

/-- `cosspace` (functions.py 58-91). -/
def cosspace (minimum maximum : ℝ) (nPoints : ℕ := 50) (endpoint : Bool := true) : List ℝ :=
  let mean := (maximum + minimum) / 2
  let amp := (maximum - minimum) / 2
  (linspace Real.pi 0 nPoints endpoint).map fun t => mean + amp * Real.cos t

/-- The nine entries of the Rodrigues matrix (functions.py 124-148) for an axis that is used as given. -/
def rodrigues (angle : ℝ) (u : V3) : M3 :=
  let s := Real.sin angle
  let c := Real.cos angle
  ⟨⟨c + u.x ^ 2 * (1 - c), u.x * u.y * (1 - c) - u.z * s, u.x * u.z * (1 - c) + u.y * s⟩,
   ⟨u.y * u.x * (1 - c) + u.z * s, c + u.y ^ 2 * (1 - c), u.y * u.z * (1 - c) - u.x * s⟩,
   ⟨u.z * u.x * (1 - c) - u.y * s, u.z * u.y * (1 - c) + u.x * s, c + u.z ^ 2 * (1 - c)⟩⟩

/-- `angle_axis_rotation_matrix` (functions.py 94-151), scalar angle. A zero axis that is not declared
normalized gives NaN entries in Python; here `V3` division by zero gives the zero axis, so theorems carry
`axis ≠ 0`. -/
def angleAxisRotationMatrix (angle : ℝ) (axis : V3) (axisAlreadyNormalized : Bool := false) : M3 :=
  let axis := if axisAlreadyNormalized then axis else (1 / axis.norm) • axis
  rodrigues angle axis

/-- `numba_centroid_of_quadrilateral` (functions.py 154-197). -/
def centroidOfQuadrilateral (fl fr bl br : V3) : V3 :=
  ⟨(fl.x + fr.x + bl.x + br.x) / 4, (fl.y + fr.y + bl.y + br.y) / 4, (fl.z + fr.z + bl.z + br.z) / 4⟩

/-- `numba_1d_explicit_cross` (functions.py 626-658): row-wise cross product of two arrays. It is what the unsteady
solver calls; the steady solvers call `np.cross`, which is the same function of two such arrays. -/
abbrev explicitCross (a b : List V3) : List V3 := List.zipWith V3.cross a b

/-- `reflect_point_across_plane` (functions.py 661-718): the three affine rows of
`transformation_matrix @ [x, y, z, 1]`. -/
def reflectPointAcrossPlane (p n q : V3) : V3 :=
  let d := (-q).dot n
  let ab := n.x * n.y
  let ac := n.x * n.z
  let ad := n.x * d
  let bc := n.y * n.z
  let bd := n.y * d
  let cd := n.z * d
  let a2 := n.x ^ 2
  let b2 := n.y ^ 2
  let c2 := n.z ^ 2
  ⟨(1 - 2 * a2) * p.x + -2 * ab * p.y + -2 * ac * p.z + -2 * ad * 1,
   -2 * ab * p.x + (1 - 2 * b2) * p.y + -2 * bc * p.z + -2 * bd * 1,
   -2 * ac * p.x + -2 * bc * p.y + (1 - 2 * c2) * p.z + -2 * cd * 1⟩

/-- `interp_between_points` (functions.py 721-757): row `i`, column `j` is
`start_i + s_j * (end_i - start_i)`. Arrays of different length (an index error) are truncated. -/
def interpBetweenPoints (starts ends : List V3) (spacings : List ℝ) : List (List V3) :=
  List.zipWith (fun start stop =>
    let vector := stop - start
    spacings.map fun s => start + s • vector) starts ends

/-- One pass of the loop of `calculate_streamlines` (functions.py 224-244): `last_row + velocity * dt`,
`velocity` being `solver.calculate_solution_velocity` applied to every point. -/
def streamlineRow (velocity : V3 → V3) (dt : ℝ) (row : List V3) : List V3 :=
  row.map fun p => p + dt • velocity p

/-- `calculate_streamlines` (functions.py 200-244): the matrix of streamline points, first row the seed
points, then `num_steps` further rows, each computed from the last row. -/
def calculateStreamlines (velocity : V3 → V3) (seeds : List V3) (numSteps : ℕ := 25)
    (dt : ℝ := 0.02) : List (List V3) :=
  (List.range numSteps).foldl
    (fun rows _ => rows ++ [streamlineRow velocity dt (rows.getLast?.getD [])]) [seeds]

/-- `convert_logging_level_name_to_value` (functions.py 247-267): dictionary lookup, `Exception` for an
unknown name. Values are those of the `logging` module. -/
def convertLoggingLevelNameToValue (name : String) : Except Err ℕ :=
  if name = "Debug" then .ok 10
  else if name = "Info" then .ok 20
  else if name = "Warning" then .ok 30
  else if name = "Error" then .ok 40
  else if name = "Critical" then .ok 50
  else .error .exception

end

end Ptera
