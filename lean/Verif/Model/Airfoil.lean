import Verif.Model.Functions

/-!
# Model of class `Airfoil` (`pterasoftware/geometry.py` 670-1204)

Rows of the N x 2 coordinate arrays are pairs `ℝ × ℝ`. Not modelled: `draw`. This file starts from the
four digits or from coordinates; names and the files of the airfoil database are in `Verif/Model/AirfoilName.lean`.
-/

namespace Ptera

noncomputable section

/-- The attributes of `Airfoil` set by `__init__` (geometry.py 717-771) and `populate_mcl_coordinates`
(917-948). -/
structure Airfoil where
  coordinates : List (ℝ × ℝ)
  mcl : List (ℝ × ℝ)
  upperMinusMcl : List (ℝ × ℝ)
  thickness : List (ℝ × ℝ)

/-- `np.argmin(coordinates[:, 0])` (geometry.py 959): the first index of the smallest x. (`np.argmin` of an
empty array raises; see `Airfoil.ofCoordinates`.) -/
def argminX : List (ℝ × ℝ) → ℕ
  | [] => 0
  | [_] => 0
  | a :: b :: l =>
    let k := argminX (b :: l)
    open Classical in if a.1 ≤ ((b :: l).getD k (0, 0)).1 then 0 else k + 1

/-- `upper_coordinates` (geometry.py 983-1000): trailing edge to leading edge, leading edge included. -/
def upperCoordinates (c : List (ℝ × ℝ)) : List (ℝ × ℝ) := c.take (argminX c + 1)

/-- `lower_coordinates` (geometry.py 964-981): leading edge to trailing edge, leading edge included. -/
def lowerCoordinates (c : List (ℝ × ℝ)) : List (ℝ × ℝ) := c.drop (argminX c)

/-- numpy broadcasting of an operation between an (m, 2) and an (n, 2) array: equal row counts, or one of them
a single row, else `ValueError`. -/
def bcast (f : ℝ × ℝ → ℝ × ℝ → ℝ × ℝ) (a b : List (ℝ × ℝ)) : Except Err (List (ℝ × ℝ)) :=
  if a.length = b.length then .ok (List.zipWith f a b)
  else if a.length = 1 then .ok (b.map (f (a.getD 0 (0, 0))))
  else if b.length = 1 then .ok (a.map fun x => f x (b.getD 0 (0, 0)))
  else .error .valueError

/-- `Airfoil(coordinates=c, repanel=False)`: `__init__` (geometry.py 717-771) with
`populate_mcl_coordinates` (917-948). -/
def Airfoil.ofCoordinates (c : List (ℝ × ℝ)) : Except Err Airfoil :=
  if c = [] then .error .valueError
  else do
    let upper := (upperCoordinates c).reverse
    let lower := lowerCoordinates c
    let mcl ← bcast (fun u l => (1 / 2 : ℝ) • (u + l)) upper lower
    let umm ← bcast (fun u m => u - m) upper mcl
    let thickness := List.zipWith (fun m u => (m.1, Real.sqrt (u.1 ^ 2 + u.2 ^ 2) * 2)) mcl umm
    return { coordinates := c, mcl := mcl, upperMinusMcl := umm, thickness := thickness }

/-- `repanel_current_airfoil` (geometry.py 1080-1126). `pchip xs ys` stands for
`scipy.interpolate.PchipInterpolator`, which may raise (x not strictly increasing). Simplification: for an outline
without points, for which `np.argmin` raises `ValueError`, `pchip` is asked about two empty lists (the `pchip` of
`Verif/Model/Pchip.lean` raises `ValueError` too). -/
def repanelCoordinates (pchip : List ℝ → List ℝ → Except Err (ℝ → ℝ)) (c : List (ℝ × ℝ)) (n : ℕ) :
    Except Err (List (ℝ × ℝ)) := do
  let upper := upperCoordinates c
  let lower := lowerCoordinates c
  let cs := cosspace 0 1 n
  let upperFunc ← pchip (upper.map Prod.fst).reverse (upper.map Prod.snd).reverse
  let lowerFunc ← pchip (lower.map Prod.fst) (lower.map Prod.snd)
  let xs := cs.reverse ++ cs.tail
  let ys := cs.reverse.map upperFunc ++ cs.tail.map lowerFunc
  return List.zip xs ys

/-- `Airfoil(coordinates=c, repanel=..., n_points_per_side=n)` (geometry.py 717-771). -/
def Airfoil.create (pchip : List ℝ → List ℝ → Except Err (ℝ → ℝ)) (c : List (ℝ × ℝ)) (repanel : Bool := true)
    (n : ℕ := 400) : Except Err Airfoil :=
  if repanel then do Airfoil.ofCoordinates (← repanelCoordinates pchip c n)
  else Airfoil.ofCoordinates c

/-! ## NACA four-digit outlines -/

/-- `y_t` (geometry.py 806-817). -/
def nacaThickness (t x : ℝ) : ℝ :=
  5 * t * (0.2969 * Real.sqrt x - 0.1260 * x - 0.3516 * x ^ 2 + 0.2843 * x ^ 3 - 0.1015 * x ^ 4)

/-- `camber_loc` after the guard (geometry.py 799, 820-821). -/
def nacaLoc (d2 : ℕ) : ℝ := if d2 = 0 then 0.5 else (d2 : ℝ) * 0.1

/-- The first camber polynomial (geometry.py 824-831). -/
def camber1 (m p x : ℝ) : ℝ := m / p ^ 2 * (2 * p * x - x ^ 2)
/-- The second camber polynomial (geometry.py 832-840). -/
def camber2 (m p x : ℝ) : ℝ := m / (1 - p) ^ 2 * ((1 - 2 * p) + 2 * p * x - x ^ 2)
/-- The first slope polynomial (geometry.py 844-849). -/
def slope1 (m p x : ℝ) : ℝ := 2 * m / p ^ 2 * (p - x)
/-- The second slope polynomial (geometry.py 850-855). -/
def slope2 (m p x : ℝ) : ℝ := 2 * m / (1 - p) ^ 2 * (p - x)

open Classical in
/-- `hstack` of a function of the points `<= p` and of one of the points `> p` (boolean-mask indexing,
geometry.py 824-856). -/
def masked (p : ℝ) (f g : ℝ → ℝ) (xs : List ℝ) : List ℝ :=
  (xs.filter (· ≤ p)).map f ++ (xs.filter (· > p)).map g

/-- The outline of the NACA four-digit airfoil `d1 d2 t1 t2`, `t = 10 t1 + t2`
(`populate_coordinates`, geometry.py 798-878). -/
def nacaCoordinates (d1 d2 t : ℕ) : List (ℝ × ℝ) :=
  let m := (d1 : ℝ) * 0.01
  let thick := (t : ℝ) * 0.01
  let xt := cosspace 0 1 100
  let yt := xt.map (nacaThickness thick)
  let p := nacaLoc d2
  let yc := masked p (camber1 m p) (camber2 m p) xt
  let theta := (masked p (slope1 m p) (slope2 m p) xt).map Real.arctan
  let xu := List.zipWith (· - ·) xt (List.zipWith (fun y th => y * Real.sin th) yt theta)
  let xl := List.zipWith (· + ·) xt (List.zipWith (fun y th => y * Real.sin th) yt theta)
  let yu := List.zipWith (· + ·) yc (List.zipWith (fun y th => y * Real.cos th) yt theta)
  let yl := List.zipWith (· - ·) yc (List.zipWith (fun y th => y * Real.cos th) yt theta)
  List.zip (xu.reverse ++ xl.tail) (yu.reverse ++ yl.tail)

/-! ## Mean camber line -/

/-- `np.interp(x, xp, fp)` (geometry.py 1036-1044) for increasing `xp`: constant outside, linear between nodes. -/
def npInterp (x : ℝ) : List ℝ → List ℝ → ℝ
  | x0 :: x1 :: xs, f0 :: f1 :: fs =>
    open Classical in
    if x ≤ x0 then f0
    else if x < x1 then f0 + (f1 - f0) / (x1 - x0) * (x - x0)
    else npInterp x (x1 :: xs) (f1 :: fs)
  | _, f0 :: _ => f0
  | _, [] => 0

/-- `np.cumsum` (geometry.py 1025-1027). -/
def cumsum (l : List ℝ) : List ℝ := (l.scanl (· + ·) 0).tail

/-- `mcl_distances_cumulative_normalized` (geometry.py 1018-1032). Simplification: a camber line of length zero, for
which numpy gives NaN, gives 0. -/
def mclFractions (mcl : List (ℝ × ℝ)) : List ℝ :=
  let d := List.zipWith (fun a b => Real.sqrt ((a.1 - b.1) ^ 2 + (a.2 - b.2) ^ 2)) mcl.dropLast mcl.tail
  let cumulative := 0 :: cumsum d
  cumulative.map (· / cumulative.getLast?.getD 0)

/-- `get_downsampled_mcl` (geometry.py 1002-1050): rows (x, y), one per requested fraction. -/
def Airfoil.downsampledMcl (a : Airfoil) (fractions : List ℝ) : List (ℝ × ℝ) :=
  let s := mclFractions a.mcl
  fractions.map fun f => (npInterp f s (a.mcl.map Prod.fst), npInterp f s (a.mcl.map Prod.snd))

/-- The linear interpolation with extrapolation of `scipy.interpolate.interp1d` on sorted nodes: the segment
whose right end is the first node not left of `x`, or the last segment. -/
def interpExtrapolate (x : ℝ) : List (ℝ × ℝ) → ℝ
  | a :: b :: [] => (b.2 - a.2) / (b.1 - a.1) * (x - a.1) + a.2
  | a :: b :: c :: l =>
    open Classical in
    if x ≤ b.1 then (b.2 - a.2) / (b.1 - a.1) * (x - a.1) + a.2
    else interpExtrapolate x (b :: c :: l)
  | [a] => a.2
  | [] => 0

/-- `get_camber_at_chord_fraction` (geometry.py 1052-1078). `interp1d` sorts the nodes by x. Simplification:
a camber line of fewer than two points is not treated as an error. -/
def Airfoil.camberAt (a : Airfoil) (x : ℝ) : ℝ :=
  open Classical in
  interpExtrapolate x (a.mcl.mergeSort fun p q => decide (p.1 ≤ q.1))

/-! ## Control surfaces -/

/-- `rotation_matrix @ v` for the rotation by `angle` radians (geometry.py 1148-1150). -/
def rotate2 (angle : ℝ) (v : ℝ × ℝ) : ℝ × ℝ :=
  (Real.cos angle * v.1 - Real.sin angle * v.2, Real.sin angle * v.1 + Real.cos angle * v.2)

open Classical in
/-- `np.where(mcl[:, 0] > hinge)[0][0]` (geometry.py 1158): the first camber point behind the hinge. -/
def splitIndex (mcl : List (ℝ × ℝ)) (hinge : ℝ) : Option ℕ :=
  mcl.findIdx? fun p => decide (p.1 > hinge)

/-- The coordinates assembled by `add_control_surface` (geometry.py 1158-1185) for a given hinge point and
split index. -/
def flappedCoordinates (a : Airfoil) (angle : ℝ) (hinge : ℝ × ℝ) (split : ℕ) : List (ℝ × ℝ) :=
  let newMcl := a.mcl.take split ++ (a.mcl.drop split).map fun p => rotate2 angle (p - hinge) + hinge
  let newUmm := a.upperMinusMcl.take split ++ (a.upperMinusMcl.drop split).map (rotate2 angle)
  let upper := (List.zipWith (· + ·) newMcl newUmm).reverse
  let lower := List.zipWith (· - ·) newMcl newUmm
  upper ++ lower.tail

/-- `add_control_surface` (geometry.py 1128-1191). -/
def Airfoil.addControlSurface (a : Airfoil) (deflection hinge : ℝ) : Except Err Airfoil :=
  open Classical in
  if deflection > 90 ∨ deflection < -90 then .error .exception
  else
    let hingePoint : ℝ × ℝ := (hinge, a.camberAt hinge)
    match splitIndex a.mcl hinge with
    | none => .error .indexError
    | some split => Airfoil.ofCoordinates (flappedCoordinates a (radians (-deflection)) hingePoint split)

end

end Ptera
