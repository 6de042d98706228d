import Verif.Model.Airfoil
import Verif.Model.Panel

/-!
# Model of `WingCrossSection`, `Wing`, `Airplane` (`pterasoftware/geometry.py`) and of
`pterasoftware/meshing.py`

Integer counts are `ℕ`; names of wings and airplanes are omitted.
-/

namespace Ptera

noncomputable section

/-! ## Cross sections -/

/-- The attributes of `WingCrossSection` set by `__init__` (geometry.py 524-622), with
`wing_unit_chordwise_vector`, which is `None` until a `Wing` sets it (333-334). -/
structure WingCrossSection where
  airfoil : Airfoil
  leadingEdge : V3
  chord : ℝ
  unitNormal : V3
  twist : ℝ
  controlSurfaceType : String
  hinge : ℝ
  deflection : ℝ
  numSpanwisePanels : ℕ
  spanwiseSpacing : String
  wingUnitChordwise : V3 := 0

/-- `WingCrossSection.__init__` (geometry.py 524-622): the three checks, in order. -/
def WingCrossSection.create (airfoil : Airfoil) (leadingEdge : V3 := 0) (chord : ℝ := 1)
    (unitNormal : V3 := ⟨0, 1, 0⟩) (twist : ℝ := 0) (controlSurfaceType : String := "symmetric")
    (hinge : ℝ := 0.75) (deflection : ℝ := 0) (numSpanwisePanels : ℕ := 8)
    (spanwiseSpacing : String := "cosine") : Except Err WingCrossSection :=
  open Classical in
  if chord ≤ 0 then .error .exception
  else if controlSurfaceType ∉ ["symmetric", "asymmetric"] then .error .exception
  else if spanwiseSpacing ∉ ["cosine", "uniform"] then .error .exception
  else .ok { airfoil, leadingEdge, chord, unitNormal, twist, controlSurfaceType, hinge, deflection,
             numSpanwisePanels, spanwiseSpacing }

namespace WingCrossSection

/-- `unit_chordwise_vector` (geometry.py 624-644). -/
def unitChordwise (s : WingCrossSection) : V3 :=
  (angleAxisRotationMatrix (s.twist * Real.pi / 180) s.unitNormal).mulVec s.wingUnitChordwise

/-- `unit_up_vector` (geometry.py 646-654). -/
def unitUp (s : WingCrossSection) : V3 := s.unitChordwise.cross s.unitNormal

/-- `trailing_edge` (geometry.py 656-667). -/
def trailingEdge (s : WingCrossSection) : V3 := s.leadingEdge + s.chord • s.unitChordwise

end WingCrossSection

/-! ## Meshing -/

/-- `get_transpose_mcl_vectors` (meshing.py 404-450) for one airfoil: the pairs (back, up). -/
def mclVectors (a : Airfoil) (coords : List ℝ) : List (ℝ × ℝ) := a.downsampledMcl coords

/-- The absolute positions of one cross section's camber points (meshing.py 335-384). -/
def sectionMcl (wingLeadingEdge : V3) (s : WingCrossSection) (mcl : List (ℝ × ℝ)) : List V3 :=
  mcl.map fun p => wingLeadingEdge + s.leadingEdge + (s.chord * p.1) • s.unitChordwise
    + (s.chord * p.2) • s.unitUp

/-- The four vertex arrays of a wing section (meshing.py 384-401). -/
structure SectionVertices where
  frontInner : List (List V3)
  frontOuter : List (List V3)
  backInner : List (List V3)
  backOuter : List (List V3)

/-- `get_wing_section_panel_vertices` (meshing.py 290-401). -/
def sectionVertices (wingLeadingEdge : V3) (inner outer : WingCrossSection) (innerMcl outerMcl : List (ℝ × ℝ))
    (spanwise : List ℝ) : SectionVertices :=
  let v := interpBetweenPoints (sectionMcl wingLeadingEdge inner innerMcl)
    (sectionMcl wingLeadingEdge outer outerMcl) spanwise
  { frontInner := v.dropLast.map List.dropLast
    frontOuter := v.dropLast.map List.tail
    backInner := v.tail.map List.dropLast
    backOuter := v.tail.map List.tail }

/-- Reading entry `[i, j]` of an array (meshing.py 496-515). -/
def at2 {α : Type*} (g : List (List α)) (d : α) (i j : ℕ) : α := (g.getD i []).getD j d

/-- `get_wing_section_panels` (meshing.py 453-519). -/
def sectionPanels (frontLeft frontRight backLeft backRight : List (List V3))
    (isTrailingEdge isLeadingEdge : List (List Bool)) : List (List Panel) :=
  let m := frontLeft.length
  let n := (frontLeft.getD 0 []).length
  (List.range m).map fun i => (List.range n).map fun j =>
    { frontLeft := at2 frontLeft 0 i j
      frontRight := at2 frontRight 0 i j
      backLeft := at2 backLeft 0 i j
      backRight := at2 backRight 0 i j
      isTrailingEdge := at2 isTrailingEdge false i j
      isLeadingEdge := at2 isLeadingEdge false i j }

/-- `wing_section_is_trailing_edge` (meshing.py 119-127). -/
def trailingMask (m n : ℕ) : List (List Bool) :=
  List.replicate (m - 1) (List.replicate n false) ++ [List.replicate n true]

/-- `wing_section_is_leading_edge` (meshing.py 129-137). -/
def leadingMask (m n : ℕ) : List (List Bool) :=
  [List.replicate n true] ++ List.replicate (m - 1) (List.replicate n false)

/-- `np.hstack` of two arrays with the same number of rows (meshing.py 151, 269). -/
def hstack {α : Type*} (a b : List (List α)) : List (List α) := List.zipWith (· ++ ·) a b

/-- The data of a wing the mesher reads (meshing.py 46-75; set in geometry.py 245-335). -/
structure WingSpec where
  leadingEdge : V3
  unitNormal : V3
  symmetric : Bool
  unitChordwise : V3
  numChordwisePanels : ℕ
  chordwiseSpacing : String

/-- `chordwise_coordinates` (meshing.py 46-54). -/
def WingSpec.chordwiseCoordinates (w : WingSpec) : List ℝ :=
  if w.chordwiseSpacing = "uniform" then linspace 0 1 (w.numChordwisePanels + 1)
  else cosspace 0 1 (w.numChordwisePanels + 1)

/-- `spanwise_coordinates` (meshing.py 94-103). -/
def WingCrossSection.spanwiseCoordinates (s : WingCrossSection) : List ℝ :=
  if s.spanwiseSpacing = "uniform" then linspace 0 1 (s.numSpanwisePanels + 1)
  else cosspace 0 1 (s.numSpanwisePanels + 1)

/-- `SectionVertices` mapped through `np.apply_along_axis(reflect_point_across_plane, ...)`
(meshing.py 227-255). -/
def SectionVertices.reflect (v : SectionVertices) (n q : V3) : SectionVertices :=
  let r := List.map (List.map fun p => reflectPointAcrossPlane p n q)
  { frontInner := r v.frontInner, frontOuter := r v.frontOuter
    backInner := r v.backInner, backOuter := r v.backOuter }

/-- The right-hand panels of one wing section (meshing.py 78-147). `M = 0` raises `ValueError` in
`np.zeros((M - 1, N))`. -/
def rightSection (w : WingSpec) (inner outer : WingCrossSection) : Except Err (List (List Panel)) := do
  let innerAirfoil ← inner.airfoil.addControlSurface inner.deflection inner.hinge
  let outerAirfoil ← outer.airfoil.addControlSurface inner.deflection inner.hinge
  let v := sectionVertices w.leadingEdge inner outer
    (mclVectors innerAirfoil w.chordwiseCoordinates) (mclVectors outerAirfoil w.chordwiseCoordinates)
    inner.spanwiseCoordinates
  if w.numChordwisePanels = 0 then .error .valueError
  else
    return sectionPanels v.frontInner v.frontOuter v.backInner v.backOuter
      (trailingMask w.numChordwisePanels inner.numSpanwisePanels)
      (leadingMask w.numChordwisePanels inner.numSpanwisePanels)

/-- The reflected panels of one wing section before flipping (meshing.py 154-265). `np.apply_along_axis` raises
`ValueError` if there are no vertices to reflect. -/
def leftSection (w : WingSpec) (inner outer : WingCrossSection) : Except Err (List (List Panel)) := do
  let deflection := if inner.controlSurfaceType = "symmetric" then inner.deflection else -inner.deflection
  let innerAirfoil ← inner.airfoil.addControlSurface deflection inner.hinge
  let outerAirfoil ← outer.airfoil.addControlSurface deflection inner.hinge
  let v := (sectionVertices w.leadingEdge inner outer
    (mclVectors innerAirfoil w.chordwiseCoordinates) (mclVectors outerAirfoil w.chordwiseCoordinates)
    inner.spanwiseCoordinates).reflect w.unitNormal w.leadingEdge
  if inner.numSpanwisePanels = 0 then .error .valueError
  else
    return sectionPanels v.frontOuter v.frontInner v.backOuter v.backInner
      (trailingMask w.numChordwisePanels inner.numSpanwisePanels)
      (leadingMask w.numChordwisePanels inner.numSpanwisePanels)

/-- One pass of the loop over wing sections (meshing.py 66-269): stack the section on the right and, if
symmetric, its flipped mirror image on the left. -/
def meshStep (w : WingSpec) (panels : List (List Panel)) (s : WingCrossSection × WingCrossSection) :
    Except Err (List (List Panel)) := do
  let right ← rightSection w s.1 s.2
  let panels := hstack panels right
  if w.symmetric then
    let left ← leftSection w s.1 s.2
    return hstack (left.map List.reverse) panels
  else
    return panels

/-- Setting the local position attributes (meshing.py 271-284) for `i < M`, `j < N`; reading outside the array
would be an `IndexError`. -/
def setPositions (m n : ℕ) (panels : List (List Panel)) : Except Err (List (List Panel)) :=
  if panels.length < m ∨ ((panels.take m).any fun row => row.length < n) then .error .indexError
  else .ok (panels.mapIdx fun i row => row.mapIdx fun j p =>
    if i < m ∧ j < n then
      { p with localChordwise := i, localSpanwise := j
               isLeftEdge := decide (j = 0), isRightEdge := decide (j + 1 = n) }
    else p)

/-- `mesh_wing` (meshing.py 33-287). -/
def meshWing (w : WingSpec) (sections : List WingCrossSection) (numSpanwise : ℕ) :
    Except Err (List (List Panel)) := do
  let panels ← (List.zip sections sections.tail).foldlM (meshStep w)
    (List.replicate w.numChordwisePanels [])
  setPositions w.numChordwisePanels numSpanwise panels

/-! ## Wings -/

/-- The attributes of `Wing` (geometry.py 187-344) other than the (initially empty) wake arrays. -/
structure Wing where
  sections : List WingCrossSection
  spec : WingSpec
  numSpanwisePanels : ℕ
  numPanels : ℕ
  panels : List (List Panel)

open Classical in
/-- `Wing.__init__` (geometry.py 187-344). -/
def Wing.create (sections : List WingCrossSection) (leadingEdge : V3 := 0) (unitNormal : V3 := ⟨0, 1, 0⟩)
    (symmetric : Bool := false) (unitChordwise : V3 := ⟨1, 0, 0⟩) (numChordwisePanels : ℕ := 8)
    (chordwiseSpacing : String := "cosine") : Except Err Wing :=
  match sections with
  | [] => .error .exception
  | [_] => .error .exception
  | root :: _ :: _ =>
    if chordwiseSpacing ∉ ["cosine", "uniform"] then .error .exception
    else if unitNormal ≠ root.unitNormal then .error .exception
    else if root.leadingEdge ≠ 0 then .error .exception
    else if unitChordwise.dot unitNormal ≠ 0 then .error .exception
    else
      let half := (sections.dropLast.map (·.numSpanwisePanels)).sum
      let numSpanwise := if symmetric then half * 2 else half
      if sections.any fun s => decide (((unitNormal.cross s.unitNormal).cross unitChordwise) ≠ 0) then
        .error .exception
      else do
        let spec : WingSpec := { leadingEdge, unitNormal, symmetric, unitChordwise, numChordwisePanels,
                                 chordwiseSpacing }
        let sections := sections.map fun s => { s with wingUnitChordwise := unitChordwise }
        let panels ← meshWing spec sections numSpanwise
        return { sections, spec, numSpanwisePanels := numSpanwise
                 numPanels := numSpanwise * numChordwisePanels, panels }

namespace Wing

/-- `unit_up_vector` (geometry.py 346-355). -/
def unitUp (w : Wing) : V3 := w.spec.unitChordwise.cross w.spec.unitNormal

/-- `projected_area` (geometry.py 357-378): the sum over the M x N loop (all panels, by C18). -/
def projectedArea (w : Wing) : ℝ := ((w.panels.flatten).map fun p => p.projectedArea w.unitUp).sum

/-- `wetted_area` (geometry.py 380-398). -/
def wettedArea (w : Wing) : ℝ := ((w.panels.flatten).map Panel.area).sum

/-- The length of the projection of `v` on the normal (geometry.py 418-423, 476-481). -/
def projectedSpan (n v : V3) : ℝ := ((v.dot n) • n).norm

/-- `span` (geometry.py 400-429). -/
def span (w : Wing) : ℝ :=
  let root := (w.sections.head?.map (·.leadingEdge)).getD 0
  let tip := (w.sections.getLast?.map (·.leadingEdge)).getD 0
  let s := projectedSpan w.spec.unitNormal (tip - root)
  if w.spec.symmetric then s * 2 else s

/-- `standard_mean_chord` (geometry.py 431-441). -/
def standardMeanChord (w : Wing) : ℝ := w.projectedArea / w.span

/-- The contribution of one section to the integral (geometry.py 460-491). -/
def macTerm (n : V3) (s : WingCrossSection × WingCrossSection) : ℝ :=
  projectedSpan n (s.2.leadingEdge - s.1.leadingEdge)
    * (s.1.chord ^ 2 + s.1.chord * s.2.chord + s.2.chord ^ 2) / 3

/-- `mean_aerodynamic_chord` (geometry.py 443-496). -/
def meanAerodynamicChord (w : Wing) : ℝ :=
  let integral := ((List.zip w.sections w.sections.tail).map (macTerm w.spec.unitNormal)).sum
  if w.spec.symmetric then 2 * integral / w.projectedArea else integral / w.projectedArea

end Wing

/-! ## Airplanes -/

/-- The attributes of `Airplane` (geometry.py 48-147) other than results. -/
structure Airplane where
  wings : List Wing
  xyzRef : V3
  weight : ℝ
  sRef : ℝ
  cRef : ℝ
  bRef : ℝ
  numPanels : ℕ

/-- `Airplane.__init__` with `set_reference_dimensions_from_main_wing` (geometry.py 48-147). -/
def Airplane.create (wings : List Wing) (xyzRef : V3 := 0) (weight : ℝ := 0) (sRef cRef bRef : Option ℝ := none) :
    Except Err Airplane :=
  match wings with
  | [] => .error .exception
  | main :: _ =>
    .ok { wings, xyzRef, weight
          sRef := sRef.getD main.projectedArea
          cRef := cRef.getD main.meanAerodynamicChord
          bRef := bRef.getD main.span
          numPanels := (wings.map (·.numPanels)).sum }

end

end Ptera
