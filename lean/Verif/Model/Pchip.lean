import Mathlib.Data.Nat.Find
import Mathlib.Data.Sign.Defs
import Verif.Core.Py

/-!
# Model of `scipy.interpolate.PchipInterpolator`

The interpolator called by `repanel_current_airfoil` (`pterasoftware/geometry.py` 1104-1110). SciPy is not part of the
repository; this is its published algorithm (monotone piecewise cubic Hermite interpolation of Fritsch and Butland, with
the one-sided end formulas of Moler). Only calls with two one-dimensional real arrays are modelled, as the code makes
them. `Verif/Model/Airfoil.lean` takes any interpolator as an argument; theorems about this one name it.
-/

namespace Ptera

noncomputable section

namespace Pchip

/-- `hk[i]`: the distance between nodes `i` and `i + 1` (called at geometry.py 1104-1110). -/
def step (x : ℕ → ℝ) (i : ℕ) : ℝ := x (i + 1) - x i

/-- `mk[i]`: the slope of the straight line between nodes `i` and `i + 1` (called at geometry.py 1104-1110). -/
def slope (x y : ℕ → ℝ) (i : ℕ) : ℝ := (y (i + 1) - y i) / step x i

open Classical in
/-- The derivative at an inner node with distances `h0`, `h1` and slopes `m0`, `m1` before and after it: 0 if the slopes
differ in sign or one of them is 0, else their weighted harmonic mean (called at geometry.py 1104-1110). -/
def innerDerivative (h0 h1 m0 m1 : ℝ) : ℝ :=
  if SignType.sign m1 ≠ SignType.sign m0 ∨ m1 = 0 ∨ m0 = 0 then 0
  else 1 / (((2 * h1 + h0) / m0 + (h1 + 2 * h0) / m1) / ((2 * h1 + h0) + (h1 + 2 * h0)))

open Classical in
/-- The derivative at an end, with distances `h0`, `h1` and slopes `m0`, `m1` counted from it: the three-point estimate,
limited so that the shape is kept (called at geometry.py 1104-1110). -/
def edgeDerivative (h0 h1 m0 m1 : ℝ) : ℝ :=
  if SignType.sign (((2 * h0 + h1) * m0 - h0 * m1) / (h0 + h1)) ≠ SignType.sign m0 then 0
  else if SignType.sign m0 ≠ SignType.sign m1 ∧ 3 * |m0| < |((2 * h0 + h1) * m0 - h0 * m1) / (h0 + h1)| then 3 * m0
  else ((2 * h0 + h1) * m0 - h0 * m1) / (h0 + h1)

/-- The derivative at node `k` of `n`; with two nodes, the slope of the line (called at geometry.py 1104-1110). -/
def derivative (n : ℕ) (x y : ℕ → ℝ) (k : ℕ) : ℝ :=
  if n = 2 then slope x y 0
  else if k = 0 then edgeDerivative (step x 0) (step x 1) (slope x y 0) (slope x y 1)
  else if k = n - 1 then edgeDerivative (step x (n - 2)) (step x (n - 3)) (slope x y (n - 2)) (slope x y (n - 3))
  else innerDerivative (step x (k - 1)) (step x k) (slope x y (k - 1)) (slope x y k)

/-- The cubic with value `y0` and derivative `d0` at 0, mean slope `m` and derivative `d1` over a distance `h`
(`CubicHermiteSpline`, called at geometry.py 1104-1110). -/
def cubic (h y0 m d0 d1 s : ℝ) : ℝ :=
  (d0 + d1 - 2 * m) / h / h * s ^ 3 + ((m - d0) / h - (d0 + d1 - 2 * m) / h) * s ^ 2 + d0 * s + y0

open Classical in
/-- The piece a query belongs to: the last one that does not start behind it; the first and the last piece also
extrapolate (called at geometry.py 1119-1120). -/
def piece (n : ℕ) (x : ℕ → ℝ) (q : ℝ) : ℕ := Nat.findGreatest (fun i => x i ≤ q) (n - 2)

/-- The value of the interpolant of `n` nodes at `q` (called at geometry.py 1119-1120). -/
def value (n : ℕ) (x y : ℕ → ℝ) (q : ℝ) : ℝ :=
  cubic (step x (piece n x q)) (y (piece n x q)) (slope x y (piece n x q)) (derivative n x y (piece n x q))
    (derivative n x y (piece n x q + 1)) (q - x (piece n x q))

end Pchip

open Classical in
/-- `PchipInterpolator(x=xs, y=ys)` (geometry.py 1104-1110): `ValueError` for fewer than two nodes, arrays of different
lengths or x that do not increase strictly. -/
def pchip (xs ys : List ℝ) : Except Err (ℝ → ℝ) :=
  if xs.length < 2 then .error .valueError
  else if xs.length ≠ ys.length then .error .valueError
  else if ∃ i, i + 1 < xs.length ∧ xs.getD (i + 1) 0 - xs.getD i 0 ≤ 0 then .error .valueError
  else .ok (Pchip.value xs.length (fun i => xs.getD i 0) fun i => ys.getD i 0)

end

end Ptera
