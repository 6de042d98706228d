import Verif.Lemmas.MeshCells

/-! A flat-plate airfoil and wings made of it: the concrete cases used in examples and counterexamples. -/

namespace Ptera

noncomputable section

/-- The flat plate: outline trailing edge, leading edge, trailing edge. -/
def flatPlate : Airfoil :=
  { coordinates := [(1, 0), (0, 0), (1, 0)], mcl := [(0, 0), (1, 0)]
    upperMinusMcl := [(0, 0), (0, 0)], thickness := [(0, 0), (1, 0)] }

/-- A plate bent at `P`. -/
def bentPlate (P : ℝ × ℝ) : Airfoil :=
  { coordinates := [P, (0, 0), P], mcl := [(0, 0), P]
    upperMinusMcl := [(0, 0), (0, 0)], thickness := [(0, 0), (P.1, 0)] }

theorem ofCoordinates_plate (P : ℝ × ℝ) (h : 0 < P.1) :
    Airfoil.ofCoordinates [P, (0, 0), P] = .ok (bentPlate P) := by
  have ha : argminX [P, ((0 : ℝ), (0 : ℝ)), P] = 1 := by
    simp [argminX, h.le, not_le.mpr h]
  unfold Airfoil.ofCoordinates
  rw [if_neg (by simp)]
  simp only [upperCoordinates, lowerCoordinates, ha]
  simp [bcast, bind, Except.bind, pure, Except.pure, bentPlate]
  have e2 : (2 : ℝ)⁻¹ • P + (2 : ℝ)⁻¹ • P = P := by ext <;> simp <;> ring
  have e3 : ∀ x : ℝ, 2⁻¹ * x + 2⁻¹ * x = x := fun x => by ring
  rw [e2, e3, e3]
  simp
  rfl

theorem flatPlate_ofCoordinates : Airfoil.ofCoordinates [(1, 0), (0, 0), (1, 0)] = .ok flatPlate := by
  rw [ofCoordinates_plate (1, 0) (by simp)]; rfl

/-- Where the trailing edge of the flat plate goes. -/
def flapTip (d h : ℝ) : ℝ × ℝ :=
  (h + (1 - h) * Real.cos (radians (-d)), (1 - h) * Real.sin (radians (-d)))

theorem flatPlate_flap (d h : ℝ) (hd : |d| ≤ 90) (h0 : 0 < h) (h1 : h < 1) :
    flatPlate.addControlSurface d h = .ok (bentPlate (flapTip d h)) := by
  have hd' := abs_le.mp hd
  unfold Airfoil.addControlSurface
  rw [if_neg (by push Not; constructor <;> linarith)]
  have hc : flatPlate.camberAt h = 0 := by
    simp [Airfoil.camberAt, flatPlate, List.mergeSort, interpExtrapolate,
      List.MergeSort.Internal.splitInTwo]
  have hs : splitIndex flatPlate.mcl h = some 1 := by
    simp [splitIndex, flatPlate, List.findIdx?_cons, not_lt.mpr h0.le, h1]
  rw [hs, hc]
  simp only
  have hflap : flappedCoordinates flatPlate (radians (-d)) (h, 0) 1
      = [flapTip d h, (0, 0), flapTip d h] := by
    simp [flappedCoordinates, flatPlate, rotate2, flapTip]
    constructor <;> ring
  rw [hflap, ofCoordinates_plate]
  simp only [flapTip]
  have : 0 ≤ Real.cos (radians (-d)) := by
    apply Real.cos_nonneg_of_neg_pi_div_two_le_of_le
    · unfold radians; nlinarith [Real.pi_pos]
    · unfold radians; nlinarith [Real.pi_pos]
  nlinarith

/-- A flat-plate cross section with hinge 0.5. -/
def plateSection (le : V3) (chord twist deflection : ℝ) (ty : String) (n : ℕ) (sp : String) : WingCrossSection :=
  { airfoil := flatPlate, leadingEdge := le, chord := chord, unitNormal := ⟨0, 1, 0⟩, twist := twist
    controlSurfaceType := ty, hinge := 1 / 2, deflection := deflection, numSpanwisePanels := n
    spanwiseSpacing := sp }

theorem plate_meshable (sym : Bool) (le le' : V3) (c c' tw tw' d d' : ℝ) (ty ty' : String) (n n' : ℕ)
    (sp sp' : String) (hd : |d| ≤ 90) (hn : sym = true → 0 < n) :
    Meshable sym (plateSection le c tw d ty n sp) (plateSection le' c' tw' d' ty' n' sp') := by
  have hm : |mirroredDeflection (plateSection le c tw d ty n sp)| ≤ 90 := by
    unfold mirroredDeflection
    split
    · exact hd
    · rw [abs_neg]; exact hd
  have h0 : (0 : ℝ) < 1 / 2 := by norm_num
  have h1 : (1 / 2 : ℝ) < 1 := by norm_num
  exact ⟨⟨_, flatPlate_flap _ _ hd h0 h1⟩, ⟨_, flatPlate_flap _ _ hd h0 h1⟩,
    fun h => ⟨hn h, ⟨_, flatPlate_flap _ _ hm h0 h1⟩, ⟨_, flatPlate_flap _ _ hm h0 h1⟩⟩⟩

end

end Ptera
