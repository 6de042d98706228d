import Verif.Model.Geometry

/-!
# Wings that share their cross section objects

`Wing.__init__` keeps the list of cross section objects it is given and writes the wing's chordwise direction into
each of them (geometry.py 247-248, 333-334). The objects may be used in several wings; here they live in a heap and a
wing holds their identities. Simplification: the attributes of a cross section are not assigned to by the user, so that
`wing_unit_chordwise_vector` is the only one that changes.
-/

namespace Ptera

noncomputable section

/-- The cross section objects of a session (geometry.py 524-622), by their identities. -/
abbrev SectionHeap := ℕ → WingCrossSection

/-- The arguments of `Wing.__init__` other than the cross sections (geometry.py 187-199). -/
structure WingArgs where
  leadingEdge : V3 := 0
  unitNormal : V3 := ⟨0, 1, 0⟩
  symmetric : Bool := false
  unitChordwise : V3 := ⟨1, 0, 0⟩
  numChordwisePanels : ℕ := 8
  chordwiseSpacing : String := "cosine"

/-- A wing object (geometry.py 247-344): the identities of its cross sections and the attributes it holds itself. -/
structure WingObject where
  ids : List ℕ
  spec : WingSpec
  numSpanwisePanels : ℕ
  numPanels : ℕ
  panels : List (List Panel)

/-- What a user sees of a wing object while the cross sections are as in `h`: its properties (geometry.py 346-496) read the
attributes the cross sections have then. -/
def WingObject.seen (w : WingObject) (h : SectionHeap) : Wing :=
  { sections := w.ids.map h, spec := w.spec, numSpanwisePanels := w.numSpanwisePanels, numPanels := w.numPanels
    panels := w.panels }

open Classical in
/-- The checks of `Wing.__init__` (geometry.py 247-328), in order; the number of spanwise panels if all are passed. -/
def wingChecks (a : WingArgs) (sections : List WingCrossSection) : Except Err ℕ :=
  match sections with
  | [] => .error .exception
  | [_] => .error .exception
  | root :: _ :: _ =>
    if a.chordwiseSpacing ∉ ["cosine", "uniform"] then .error .exception
    else if a.unitNormal ≠ root.unitNormal then .error .exception
    else if root.leadingEdge ≠ 0 then .error .exception
    else if a.unitChordwise.dot a.unitNormal ≠ 0 then .error .exception
    else
      let half := (sections.dropLast.map (·.numSpanwisePanels)).sum
      if sections.any fun s => decide (((a.unitNormal.cross s.unitNormal).cross a.unitChordwise) ≠ 0) then
        .error .exception
      else .ok (if a.symmetric then half * 2 else half)

/-- Writing the wing's chordwise direction into its cross sections (geometry.py 333-334). -/
def SectionHeap.direct (h : SectionHeap) (ids : List ℕ) (direction : V3) : SectionHeap :=
  ids.foldl (fun h i => Function.update h i { h i with wingUnitChordwise := direction }) h

/-- `Wing.__init__` (geometry.py 187-344) with cross section objects: the heap afterwards, and the wing or the exception.
The cross sections are written to before the wing is meshed, so also if meshing raises. -/
def buildWing (h : SectionHeap) (ids : List ℕ) (a : WingArgs) : SectionHeap × Except Err WingObject :=
  match wingChecks a (ids.map h) with
  | .error e => (h, .error e)
  | .ok n =>
    let spec : WingSpec :=
      { leadingEdge := a.leadingEdge, unitNormal := a.unitNormal, symmetric := a.symmetric
        unitChordwise := a.unitChordwise, numChordwisePanels := a.numChordwisePanels
        chordwiseSpacing := a.chordwiseSpacing }
    let h := h.direct ids a.unitChordwise
    (h, (meshWing spec (ids.map h) n).map fun panels =>
      { ids, spec, numSpanwisePanels := n, numPanels := n * a.numChordwisePanels, panels })

/-- A session: wings are made one after the other (geometry.py 187-344). The heap in the end, and what each construction
gave. -/
def buildWings (h : SectionHeap) : List (List ℕ × WingArgs) → SectionHeap × List (Except Err WingObject)
  | [] => (h, [])
  | (ids, a) :: rest =>
    let first := buildWing h ids a
    let others := buildWings first.1 rest
    (others.1, first.2 :: others.2)

end

end Ptera
