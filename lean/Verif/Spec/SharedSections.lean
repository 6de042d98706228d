import Verif.Model.SharedSections

/-! Specification vocabulary: cross sections and wings that look the same to a user. -/

namespace Ptera

noncomputable section

/-- The two cross sections have the same attributes, as given by the user; the directions they have from their wings may
differ. -/
def WingCrossSection.SameGiven (s t : WingCrossSection) : Prop :=
  { s with wingUnitChordwise := t.wingUnitChordwise } = t

/-- The wing made with cross sections of its own, used nowhere else. -/
def WingArgs.own (a : WingArgs) (sections : List WingCrossSection) : Except Err Wing :=
  Wing.create sections a.leadingEdge a.unitNormal a.symmetric a.unitChordwise a.numChordwisePanels a.chordwiseSpacing

/-- Everything about the two wings is the same, other than directions and trailing edges of their cross sections: the
panels and their numbers, the span, the areas and the mean chords, and the given attributes of the cross sections. -/
structure Wing.SameWing (v w : Wing) : Prop where
  panels : v.panels = w.panels
  numSpanwisePanels : v.numSpanwisePanels = w.numSpanwisePanels
  numPanels : v.numPanels = w.numPanels
  spec : v.spec = w.spec
  span : v.span = w.span
  projectedArea : v.projectedArea = w.projectedArea
  wettedArea : v.wettedArea = w.wettedArea
  standardMeanChord : v.standardMeanChord = w.standardMeanChord
  meanAerodynamicChord : v.meanAerodynamicChord = w.meanAerodynamicChord
  sections : List.Forall₂ WingCrossSection.SameGiven v.sections w.sections

/-- Both fail with the same exception, or both are wings that `same` relates. -/
def SameOutcome (same : Wing → Wing → Prop) : Except Err Wing → Except Err Wing → Prop
  | .error e, .error e' => e = e'
  | .ok v, .ok w => same v w
  | _, _ => False

end

end Ptera
