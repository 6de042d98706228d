import Verif.Lemmas.UpsideDown
import Verif.Lemmas.InvertedMotion
import Verif.Lemmas.PlateSymmetric

/-!
# Airplanes upside down

C77: turning an airplane and its motion upside down and reversing the angle of attack turns the flow, the vortices and
the loads upside down.
-/

namespace Ptera

open List UnsteadySolver

/-! ## Which airplanes are upside down -/

/-- C77: from the inverted cross sections, at the inverted place and with the inverted directions, a wing can be built
whenever it can be built from the original ones; it is the original wing upside down, and has the same projected area
and mean aerodynamic chord. -/
theorem C77_inverted_wing (sections sections' : List WingCrossSection) (le n u : V3) (sym : Bool) (m : ℕ) (sp : String)
    (w : Wing) (h : Wing.create sections le n sym u m sp = .ok w)
    (hS : Forall₂ WingCrossSection.IsInverted sections sections') (hn : NosesKept sections) :
    ∃ w', Wing.create sections' (inverted le) (inverted n) sym (inverted u) m sp = .ok w' ∧ w.IsInverted w' ∧
      w'.projectedArea = w.projectedArea ∧ w'.meanAerodynamicChord = w.meanAerodynamicChord := by
  obtain ⟨w', hw'⟩ := inverted_accepted h hS hn
  have hb : w.BuiltInverted w' := ⟨_, _, _, _, _, _, _, _, hS, hn, h, hw'⟩
  exact ⟨w', hw', hb.isInverted, hb.projectedArea, hb.mac⟩

/-- C77: an airplane built from wings upside down is the original airplane upside down, with the same reference
dimensions, whether these are given or left to their defaults. -/
theorem C77_inverted_airplane (wings wings' : List Wing) (ref : V3) (weight : ℝ) (s c b : Option ℝ) (a : Airplane)
    (h : Airplane.create wings ref weight s c b = .ok a) (hw : Forall₂ Wing.BuiltInverted wings wings') :
    ∃ a', Airplane.create wings' (inverted ref) weight s c b = .ok a' ∧ a.IsInverted a' := by
  cases hw with
  | nil => cases h
  | cons h1 h2 => exact ⟨_, rfl, Airplane.create_inverted (.cons h1 h2) h rfl⟩

/-- C77: a deflected outline keeps its nose if the hinge is behind the nose and every point that turns with the control
surface is closer to the hinge than the nose is. -/
theorem C77_flap_keeps_nose {c : List (ℝ × ℝ)} {a a' : Airfoil} (hw : Airfoil.ofCoordinates c = .ok a)
    (hn : SharpNose c) (d hinge : ℝ) (hok : a.addControlSurface d hinge = .ok a')
    (hnose : (a.mcl.getD 0 (0, 0)).1 ≤ hinge)
    (hclose : ∀ k i, 0 < k → (i + k = argminX c ∨ i = argminX c + k) → i < c.length → ¬ InFront a hinge k →
      ((c.getD i (0, 0)).1 - hinge) ^ 2 + ((c.getD i (0, 0)).2 - a.camberAt hinge) ^ 2
        < (hinge - (c.getD (argminX c) (0, 0)).1) ^ 2) : SharpNose a'.coordinates := by
  obtain ⟨x, hx⟩ := hn.wellFormed
  have hxa : x = a := by
    have := hx.made
    rw [hw] at this
    exact (Except.ok.inj this).symm
  subst hxa
  obtain ⟨hlen, hpt⟩ := C25_rigid_rotation hx d hinge hok
  obtain ⟨h1, h2⟩ := hn.argmin
  have h0 : a'.coordinates.getD (argminX c) (0, 0) = c.getD (argminX c) (0, 0) :=
    (hpt 0 (by omega) (argminX c) (Or.inl (by omega))).1 (by
      intro k' hk'
      rw [Nat.le_zero.mp hk']
      exact hnose)
  have hx0 : (c.getD (argminX c) (0, 0)).1 ≤ hinge := by
    have := (hx.parts.2.2.2 0 (by omega)).1
    rw [this] at hnose
    simp at hnose ⊢
    linarith
  refine ⟨argminX c, by rw [hlen, h1], ?_⟩
  intro i hi hne
  rw [h0]
  rw [hlen] at hi
  have key : ∀ k ≤ argminX c, 0 < k → (i + k = argminX c ∨ i = argminX c + k) →
      (c.getD (argminX c) (0, 0)).1 < (a'.coordinates.getD i (0, 0)).1 := by
    intro k hk hk0 hik
    have hp := hpt k hk i (by omega)
    by_cases hf : InFront x hinge k
    · rw [hp.1 hf]
      exact h2 i hi hne
    · rw [hp.2 hf]
      have hc := hclose k i hk0 hik hi hf
      set θ := -d * Real.pi / 180
      set X := (c.getD i (0, 0)).1 - hinge
      set Y := (c.getD i (0, 0)).2 - x.camberAt hinge
      set r := hinge - (c.getD (argminX c) (0, 0)).1 with hr
      have hr0 : 0 ≤ r := by simp only [hr]; linarith
      have hcs := Real.sin_sq_add_cos_sq θ
      have hlt : (Real.cos θ * X - Real.sin θ * Y) ^ 2 < r ^ 2 := by
        have : (Real.cos θ * X - Real.sin θ * Y) ^ 2 + (Real.sin θ * X + Real.cos θ * Y) ^ 2 = X ^ 2 + Y ^ 2 := by
          have : (Real.cos θ * X - Real.sin θ * Y) ^ 2 + (Real.sin θ * X + Real.cos θ * Y) ^ 2
              = (Real.sin θ ^ 2 + Real.cos θ ^ 2) * (X ^ 2 + Y ^ 2) := by ring
          rw [this, hcs, _root_.one_mul]
        nlinarith [sq_nonneg (Real.sin θ * X + Real.cos θ * Y)]
      have := (abs_lt.mp (abs_lt_of_sq_lt_sq hlt hr0)).1
      simp only [rotateAbout]
      linarith
  rcases Nat.lt_or_ge i (argminX c) with hlt | hge
  · exact key (argminX c - i) (by omega) (by omega) (Or.inl (by omega))
  · exact key (i - argminX c) (by omega) (by omega) (Or.inr (by omega))

/-- The section is its own image upside down: a symmetric airfoil without twist or deflection, in the plane `z = 0`. -/
def WingCrossSection.Flat (s : WingCrossSection) : Prop :=
  Airfoil.ofCoordinates s.airfoil.coordinates = .ok s.airfoil ∧
  invertedOutline s.airfoil.coordinates = s.airfoil.coordinates ∧ SharpNose s.airfoil.coordinates ∧
  s.leadingEdge.z = 0 ∧ s.unitNormal.z = 0 ∧ s.twist = 0 ∧ s.deflection = 0

theorem inverted_flat {v : V3} (h : v.z = 0) : inverted v = v := by ext <;> simp [inverted, h]

theorem WingCrossSection.Flat.isInverted {s : WingCrossSection} (h : s.Flat) (hu : s.wingUnitChordwise.z = 0) :
    s.IsInverted s := by
  obtain ⟨h1, h2, -, h3, h4, h5, h6⟩ := h
  refine ⟨s.airfoil, h1, by rw [h2]; exact h1, ?_⟩
  cases s
  simp only at h3 h4 h5 h6 hu
  simp [inverted_flat h3, inverted_flat h4, inverted_flat hu, h5, h6]

theorem undeflected_coordinates {a a' : Airfoil} (ha : Airfoil.ofCoordinates a.coordinates = .ok a)
    (hn : SharpNose a.coordinates) {hinge : ℝ} (h : a.addControlSurface 0 hinge = .ok a') : a' = a := by
  obtain ⟨x, hx⟩ := hn.wellFormed
  have hxa : x = a := by
    have := hx.made
    rw [ha] at this
    exact (Except.ok.inj this).symm
  subst hxa
  obtain ⟨_, split, hs, -, -⟩ := addControlSurface_coordinates 0 hinge h
  have hb : ∃ p ∈ x.mcl, hinge < p.1 := by
    unfold splitIndex at hs
    obtain ⟨hlt, hp, -⟩ := List.findIdx?_eq_some_iff_getElem.mp hs
    exact ⟨_, List.getElem_mem hlt, by simpa using hp⟩
  rw [C25_zero_deflection hx hinge hb] at h
  exact (Except.ok.inj h).symm

theorem nosesKept_flat {S : List WingCrossSection} (h : ∀ s ∈ S, s.Flat) : NosesKept S := by
  refine ⟨fun s hs => (h s hs).2.2.1, ?_⟩
  intro s hs t ht d a hd ha
  have hd0 : d = 0 := by
    rw [(h s hs).2.2.2.2.2.2] at hd
    simpa using hd
  rw [hd0] at ha
  rw [undeflected_coordinates (h t ht).1 (h t ht).2.2.1 ha]
  exact (h t ht).2.2.1

/-- C77: a wing of symmetric airfoils without twist, dihedral or deflection, in the plane `z = 0`, is its own image
upside down. -/
theorem C77_flat_wing (sections : List WingCrossSection) (le n u : V3) (sym : Bool) (m : ℕ) (sp : String)
    (w : Wing) (h : Wing.create sections le n sym u m sp = .ok w) (hle : le.z = 0) (hn : n.z = 0) (hu : u.z = 0)
    (hs : ∀ s ∈ sections, s.Flat ∧ s.wingUnitChordwise.z = 0) : w.IsInverted w ∧ w.BuiltInverted w := by
  have hb : w.BuiltInverted w := by
    refine ⟨sections, sections, le, n, sym, u, m, sp, ?_, nosesKept_flat fun s h => (hs s h).1, h, ?_⟩
    · rw [List.forall₂_same]
      intro s h
      exact (hs s h).1.isInverted (hs s h).2
    · rw [inverted_flat hle, inverted_flat hn, inverted_flat hu]; exact h
  exact ⟨hb.isInverted, hb⟩

/-! ## Steady results -/

/-- C77: airplanes upside down, with the angle of attack reversed, have the velocities, forces and moments upside down.
(The image of a force is `(x, y, -z)`, that of a moment `(-x, -y, z)`.) The drag, side force and yawing moment
coefficients stay; the lift, rolling and pitching moment coefficients and the vortex strengths change sign. -/
theorem C77_upside_down (method : SteadyMethod) (op : OperatingPoint) (as as' : List Airplane)
    (hmade : ∀ a ∈ as, a.Made) (hmade' : ∀ a ∈ as', a.Made) (hinv : Forall₂ Airplane.IsInverted as as')
    (heap heap' : PanelHeap) (loads loads' : List AirplaneLoads) (R : SteadyResults)
    (h : steadyRun method ⟨as, op⟩ heap loads = .ok R) :
    ∃ R', steadyRun method ⟨as', { op with alpha := -op.alpha }⟩ heap' loads' = .ok R' ∧
      (∀ q, R'.velocity (inverted q) = inverted (R.velocity q)) ∧
      (∀ r p, panelAt as r = some p → ∃ (p' : Panel) (g : ℝ) (L L' : PanelLoads), panelAt as' r = some p' ∧
        p.IsInverted p' ∧ R.strength r = some g ∧ R'.strength r = some (-g) ∧
        R.loads r = some L ∧ R'.loads r = some L' ∧
        L'.forceGeometry = inverted L.forceGeometry ∧ L'.momentGeometry = -inverted L.momentGeometry ∧
        L'.forceWind = inverted L.forceWind ∧ L'.momentWind = -inverted L.momentWind) ∧
      (∀ (a : ℕ) A, as[a]? = some A → ∃ L L' : AirplaneLoads, R.totals[a]? = some L ∧ R'.totals[a]? = some L' ∧
        L'.forceWind = inverted L.forceWind ∧ L'.momentWind = -inverted L.momentWind ∧
        L'.forceCoefficients = inverted L.forceCoefficients ∧
        L'.momentCoefficients = -inverted L.momentCoefficients) := by
  have hs := SimilarProblems.of_inverted op hmade hmade' hinv
  obtain ⟨R', h1, hv, hp, ht⟩ := steady_similar (N := inversionMatrix) method hs (inversion_rotation op) h heap' loads'
  refine ⟨R', h1, ?_, ?_, ?_⟩
  · intro q
    have := hv q
    rwa [inversionMatrix_mulVec, inversionMatrix_mulVec, add_zero, one_smul] at this
  · intro r p hr
    obtain ⟨g, L, L', h1, h2, h3, h4, h5, h6, h7, h8⟩ := hp r p hr
    obtain ⟨p', hp', himg⟩ := hs.airplanes.shapes.similarWings.panel hmade hmade' hr
    rw [inversionMatrix_mulVec] at h5 h6 h7 h8
    rw [inversionMatrix_det] at h6 h8
    refine ⟨p', g, L, L', hp', ?_, h1, ?_, h3, h4, ?_, ?_, ?_, ?_⟩
    · simp only [IsImage, inversionMatrix_mulVec, add_zero] at himg
      exact himg
    · have e : imageRef as (fun _ _ => false) (fun a _ => id a) (fun _ => id) r = r := rfl
      rw [← e, h2]
      simp [orientation, inversionMatrix_det]
    · rw [h5]; norm_num
    · rw [h6]; norm_num
    · rw [h7]; norm_num
    · rw [h8]; norm_num
  · intro a A hA
    obtain ⟨A', L, L', h1, h2, h3, h4, h5, ⟨a1, a2⟩, b1, b2⟩ := ht a A hA
    rw [inversionMatrix_mulVec] at h4 h5
    rw [inversionMatrix_det] at h5
    have h4' : L'.forceWind = inverted L.forceWind := by rw [h4]; norm_num
    have h5' : L'.momentWind = -inverted L.momentWind := by rw [h5]; norm_num
    obtain ⟨r1, r2, r3⟩ := inverted_dims hinv a A A' hA h1
    simp only [r1, r2, r3, h4', h5'] at b1 b2
    refine ⟨L, L', h2, h3, h4', h5', ?_, ?_⟩
    · rw [b1, a1]
      ext <;> simp [inverted, neg_div]
    · rw [b2, a2]
      ext <;> simp [inverted, neg_div]

/-- C77: the lift, rolling and pitching moment coefficients of an airplane that is its own image upside down are odd
functions of the angle of attack; the drag, side force and yawing moment coefficients are even functions of it. -/
theorem C77_odd_lift (method : SteadyMethod) (op : OperatingPoint) (as : List Airplane)
    (hmade : ∀ a ∈ as, a.Made) (hflat : ∀ a ∈ as, a.IsInverted a)
    (heap heap' : PanelHeap) (loads loads' : List AirplaneLoads) (R : SteadyResults)
    (h : steadyRun method ⟨as, op⟩ heap loads = .ok R) :
    ∃ R', steadyRun method ⟨as, { op with alpha := -op.alpha }⟩ heap' loads' = .ok R' ∧
      ∀ (a : ℕ) A, as[a]? = some A → ∃ L L' : AirplaneLoads, R.totals[a]? = some L ∧ R'.totals[a]? = some L' ∧
        L'.forceCoefficients.x = L.forceCoefficients.x ∧ L'.forceCoefficients.y = L.forceCoefficients.y ∧
        L'.forceCoefficients.z = -L.forceCoefficients.z ∧ L'.momentCoefficients.x = -L.momentCoefficients.x ∧
        L'.momentCoefficients.y = -L.momentCoefficients.y ∧ L'.momentCoefficients.z = L.momentCoefficients.z := by
  obtain ⟨R', h', -, -, ht⟩ := C77_upside_down method op as as hmade hmade (by rw [forall₂_same]; exact hflat) heap heap'
    loads loads' R h
  refine ⟨R', h', ?_⟩
  intro a A hA
  obtain ⟨L, L', h1, h2, -, -, h5, h6⟩ := ht a A hA
  exact ⟨L, L', h1, h2, by rw [h5]; rfl, by rw [h5]; rfl, by rw [h5]; rfl, by rw [h6]; rfl, by rw [h6]; rfl,
    by rw [h6]; simp [inverted]⟩

/-- C77: at zero angle of attack such an airplane has no lift, no rolling and no pitching moment, and the flow does not
cross the plane `z = 0`. -/
theorem C77_no_lift (method : SteadyMethod) (op : OperatingPoint) (hα : op.alpha = 0) (as : List Airplane)
    (hmade : ∀ a ∈ as, a.Made) (hflat : ∀ a ∈ as, a.IsInverted a) (heap : PanelHeap) (loads : List AirplaneLoads)
    (R : SteadyResults) (h : steadyRun method ⟨as, op⟩ heap loads = .ok R) :
    (∀ q, q.z = 0 → (R.velocity q).z = 0) ∧
    ∀ (a : ℕ) A, as[a]? = some A → ∃ L : AirplaneLoads, R.totals[a]? = some L ∧ L.forceWind.z = 0 ∧
      L.momentWind.x = 0 ∧ L.momentWind.y = 0 ∧ L.forceCoefficients.z = 0 ∧ L.momentCoefficients.x = 0 ∧
      L.momentCoefficients.y = 0 := by
  obtain ⟨R', hR', hv, -, ht⟩ := C77_upside_down method op as as hmade hmade (by rw [forall₂_same]; exact hflat) heap heap
    loads loads R h
  have hop : ({ op with alpha := -op.alpha } : OperatingPoint) = op := by cases op; simp only at hα; simp [hα]
  rw [hop, h] at hR'
  cases hR'
  refine ⟨?_, ?_⟩
  · intro q hq
    have := hv q
    rw [inverted_flat hq] at this
    have := congrArg V3.z this
    simp only [inverted] at this
    linarith
  · intro a A hA
    obtain ⟨L, L', h1, h2, h3, h4, h5, h6⟩ := ht a A hA
    rw [h1, Option.some.injEq] at h2
    subst h2
    refine ⟨L, h1, ?_, ?_, ?_, ?_, ?_, ?_⟩
    · have := congrArg V3.z h3; simp only [inverted] at this; linarith
    · have := congrArg V3.x h4; simp [inverted] at this; linarith
    · have := congrArg V3.y h4; simp [inverted] at this; linarith
    · have := congrArg V3.z h5; simp only [inverted] at this; linarith
    · have := congrArg V3.x h6; simp [inverted] at this; linarith
    · have := congrArg V3.y h6; simp [inverted] at this; linarith

/-! ## Unsteady results -/

/-- C77: turning every airplane and its motion upside down and reversing the angle of attack gives a study that can be
made, and that shows every step of the original one upside down: flow, vortices, wake and loads. -/
theorem C77_unsteady (ams ams' : List AirplaneMovement) (om : OperatingPointMovement) (ns nc nch : Option ℕ)
    (dt : Option ℝ) (only : Bool) (p : UnsteadyProblem) (h : study ams om ns nc nch dt only = .ok p) (hc : p.Chordwise)
    (hinv : Forall₂ AirplaneMovement.IsInverted ams ams') :
    ∃ p', study ams' { om with base := { om.base with alpha := -om.base.alpha } } ns nc nch dt only = .ok p' ∧
      p'.numSteps = p.numSteps ∧ p'.deltaTime = p.deltaTime ∧ p'.maxPeriod = p.maxPeriod ∧
      p'.firstAveragingStep = p.firstAveragingStep ∧ p'.firstResultsStep = p.firstResultsStep ∧
      ∀ s s₁ z prescribed streamlines streamlines', Reached p s → s.run prescribed streamlines = .ok s₁ → Reached p' z →
        ∃ z₁, z.run prescribed streamlines' = .ok z₁ ∧ ∀ k < p.numSteps, StepInverted p p' s₁ z₁ k := by
  obtain ⟨p', h', hm', hn, hd, hP', ha', hf, hk⟩ := study_inverted hinv h
  refine ⟨p', h', hn, hd, hP', ha', hf, ?_⟩
  have hmade := (study_parts h).1
  have hs : SimilarUnsteady p p' inversionMatrix 0 (fun _ _ => false) 1 id (fun _ => id) :=
    { made := hmade, made' := hm', chordwise := hc, steps := hn.ge, time := hd
      similar := by
        intro k hkn
        have := SimilarProblems.of_inverted (p.operatingPointAt k) (hmade.regular.made k) (hm'.regular.made k) (hk k hkn).1
        rw [← (hk k hkn).2] at this
        exact this
      nu := by intro k hkn; rw [(hk k hkn).2]
      shared := by intro k _ a w hw; cases hw }
  intro s s₁ z pres sl sl' hr hrun hz
  exact hs.inverted hn.le hf (fun k hkn => (hk k hkn).2) (fun k hkn a A A' => inverted_dims (hk k hkn).1 a A A') hr hrun hz
    sl'

/-! ## Concrete cases -/

theorem plate_sharp {P : ℝ × ℝ} (h : 0 < P.1) : SharpNose [P, (0, 0), P] := by
  refine ⟨1, rfl, ?_⟩
  intro i hi hne
  have : i < 3 := hi
  interval_cases i
  · simpa using h
  · exact absurd rfl hne
  · simpa using h

theorem flatPlate_inverted : invertedOutline flatPlate.coordinates = flatPlate.coordinates := by
  simp [invertedOutline, flatPlate]

/-- A plate section upside down: the leading edge mirrored, twist and deflection reversed. -/
theorem plateSection_inverted (le : V3) (c tw d : ℝ) (ty : String) (n : ℕ) (sp : String) :
    (plateSection le c tw d ty n sp).IsInverted (plateSection (inverted le) c (-tw) (-d) ty n sp) := by
  refine ⟨flatPlate, flatPlate_ofCoordinates, ?_, ?_⟩
  · show Airfoil.ofCoordinates (invertedOutline flatPlate.coordinates) = _
    rw [flatPlate_inverted]
    exact flatPlate_ofCoordinates
  · simp [plateSection, inverted]
    rfl

theorem plates_nosesKept {S : List WingCrossSection}
    (hS : ∀ s ∈ S, ∃ le c tw d ty n sp, s = plateSection le c tw d ty n sp ∧ |d| ≤ 90) : NosesKept S := by
  refine ⟨?_, ?_⟩
  · intro s hs
    obtain ⟨_, _, _, _, _, _, _, rfl, _⟩ := hS s hs
    exact plate_sharp one_pos
  · intro s hs t ht d a hd ha
    obtain ⟨_, _, _, d', _, _, _, rfl, hd'⟩ := hS s hs
    obtain ⟨_, _, _, _, _, _, _, rfl, _⟩ := hS t ht
    have hd90 : |d| ≤ 90 := by
      rcases hd with rfl | rfl
      · exact hd'
      · rw [abs_neg]; exact hd'
    change flatPlate.addControlSurface d (1 / 2) = .ok a at ha
    rw [flatPlate_flap d (1 / 2) hd90 (by norm_num) (by norm_num)] at ha
    cases ha
    apply plate_sharp
    have hc : 0 ≤ Real.cos (radians (-d)) := by
      have := abs_le.mp hd90
      apply Real.cos_nonneg_of_mem_Icc
      unfold radians
      constructor <;> nlinarith [Real.pi_pos]
    simp only [flapTip]
    nlinarith

/-- A swept wing with dihedral, twist and deflected flaps: its image upside down, with anhedral, is built from sections
with the opposite twist and deflection. -/
example : ∃ S S' w w', Forall₂ WingCrossSection.IsInverted S S' ∧ NosesKept S ∧
    (∃ s ∈ S, s.leadingEdge.z = 1 ∧ s.twist = 3) ∧ (∃ s ∈ S, s.deflection = 20) ∧
    Wing.create S ⟨5, 0, 1⟩ ⟨0, 1, 0⟩ true ⟨1, 0, 0⟩ 4 "cosine" = .ok w ∧
    Wing.create S' (inverted ⟨5, 0, 1⟩) (inverted ⟨0, 1, 0⟩) true (inverted ⟨1, 0, 0⟩) 4 "cosine" = .ok w' ∧
    w.IsInverted w' := by
  let S : List WingCrossSection := [plateSection 0 2 0 20 "symmetric" 3 "cosine",
    plateSection ⟨1, 3, 1⟩ 1.5 3 0 "symmetric" 2 "uniform"]
  have hS : ∀ s ∈ S, ∃ le c tw d ty n sp, s = plateSection le c tw d ty n sp ∧ |d| ≤ 90 := by
    intro s hs
    simp only [S, List.mem_cons, List.not_mem_nil, or_false] at hs
    rcases hs with rfl | rfl <;> exact ⟨_, _, _, _, _, _, _, rfl, by norm_num [abs_le]⟩
  obtain ⟨w, hw⟩ : ∃ w, Wing.create S ⟨5, 0, 1⟩ ⟨0, 1, 0⟩ true ⟨1, 0, 0⟩ 4 "cosine" = .ok w := by
    apply plateWing_accepted _ _ _ (by norm_num) _ (by simp) (by simp [S]) (hn := by simp [S, plateSection])
    · intro r hr; simp [S] at hr; rw [← hr]; rfl
    · exact hS
  have hinv : Forall₂ WingCrossSection.IsInverted S _ :=
    .cons (plateSection_inverted _ _ _ _ _ _ _) (.cons (plateSection_inverted _ _ _ _ _ _ _) .nil)
  have hn := plates_nosesKept hS
  obtain ⟨w', hw', hi, -⟩ := C77_inverted_wing S _ _ _ _ _ _ _ w hw hinv hn
  exact ⟨S, _, w, w', hinv, hn, ⟨_, List.mem_cons_of_mem _ List.mem_cons_self, rfl, rfl⟩, ⟨_, List.mem_cons_self, rfl⟩,
    hw, hw', hi⟩

/-- A cambered outline and its image upside down. -/
example : SharpNose [(1, 0), (1 / 2, 1 / 5), (0, 0), (1 / 2, 1 / 20), (1, 0)] ∧
    invertedOutline [(1, 0), (1 / 2, 1 / 5), (0, 0), (1 / 2, 1 / 20), (1, 0)]
      = [(1, 0), (1 / 2, -(1 / 20)), (0, 0), (1 / 2, -(1 / 5)), (1, 0)] := by
  refine ⟨⟨2, rfl, ?_⟩, by simp [invertedOutline]⟩
  intro i hi hne
  have : i < 5 := hi
  interval_cases i <;> first | exact absurd rfl hne | norm_num

/-- A diamond-shaped airfoil keeps its nose when a control surface hinged at three quarters of the chord is deflected. -/
example : ∃ a, Airfoil.ofCoordinates diamond = .ok a ∧ ∀ d a', a.addControlSurface d (3 / 4) = .ok a' →
    SharpNose a'.coordinates := by
  obtain ⟨a, hw, hm⟩ := diamond_wellFormed
  have hc : a.camberAt (3 / 4) = 0 := by
    simp [Airfoil.camberAt, hm, List.mergeSort, List.MergeSort.Internal.splitInTwo, List.merge]
    unfold interpExtrapolate interpExtrapolate
    norm_num
  refine ⟨a, hw.made, ?_⟩
  intro d a' h
  refine C77_flap_keeps_nose hw.made ⟨2, rfl, ?_⟩ d (3 / 4) h (by rw [hm]; norm_num) ?_
  · intro i hi hne
    have : i < 5 := hi
    interval_cases i <;> first | exact absurd rfl hne | norm_num [diamond]
  · intro k i hk hik hi hf
    rw [diamond_argmin] at hik ⊢
    have hi5 : i < 5 := hi
    have hk2 : k ≤ 2 := by omega
    interval_cases k
    · exfalso
      apply hf
      intro k hk
      rw [hm]
      interval_cases k <;> norm_num
    · rw [hc]
      rcases hik with h | h
      · obtain rfl : i = 0 := by omega
        norm_num [diamond]
      · subst h
        norm_num [diamond]

theorem plate_flat (S : ℝ) : ∃ a : Airplane, a.Made ∧ a.IsInverted a ∧ panelRefs [a] = [⟨0, 0, 0, 0⟩] ∧
    panelAt [a] ⟨0, 0, 0, 0⟩ = some unitSquare ∧ (wingAt [a] ⟨0, 0, 0, 0⟩).map (·.span) = some 1 := by
  obtain ⟨a, hmade, hrefs, hp, hspan, -, -, -, href⟩ := plate_airplane_at S 0
  refine ⟨a, hmade, ⟨by rw [href, inverted_zero], rfl, rfl, rfl, ?_⟩, hrefs, hp, hspan⟩
  rw [List.forall₂_same]
  intro w hw
  obtain ⟨k, hk, rfl⟩ := List.getElem_of_mem hw
  refine ⟨rfl, rfl, rfl, ?_⟩
  intro i j q q' h1 h2
  rw [h1, Option.some.injEq] at h2
  subst h2
  have hat : panelAt [a] ⟨0, k, i, j⟩ = some q := by
    obtain ⟨row, hr, hq⟩ := Option.bind_eq_some_iff.mp h1
    simp [panelAt, wingAt, hr, hq, hk]
  have hmem := (mem_panelRefs [a] _).mpr ⟨q, hat⟩
  rw [hrefs, List.mem_singleton, PanelRef.mk.injEq] at hmem
  obtain ⟨-, rfl, rfl, rfl⟩ := hmem
  rw [hp, Option.some.injEq] at hat
  subst hat
  refine ⟨?_, ?_, ?_, ?_⟩ <;> ext <;> simp [unitSquare, inverted]

/-- A plate at any angle of attack up to a right angle: both solvers run, and run again with the angle reversed. -/
example (method : SteadyMethod) (α : ℝ) (hα : |α| ≤ 90) : ∃ (a : Airplane) (R R' : SteadyResults), a.Made ∧
    a.IsInverted a ∧ steadyRun method ⟨[a], { velocity := 10, density := 1, alpha := α, beta := 0 }⟩ = .ok R ∧
    steadyRun method ⟨[a], { velocity := 10, density := 1, alpha := -α, beta := 0 }⟩ = .ok R' ∧
    ∃ L L' : AirplaneLoads, R.totals[0]? = some L ∧ R'.totals[0]? = some L' ∧
      L'.forceCoefficients.z = -L.forceCoefficients.z := by
  obtain ⟨a, hmade, hflat, hrefs, hp, hspan⟩ := plate_flat 1
  set op : OperatingPoint := { velocity := 10, density := 1, alpha := α, beta := 0 } with hop
  have hd : |op.freestreamDirection.y| ≤ op.freestreamDirection.x := by
    have hc : 0 ≤ Real.cos (α * Real.pi / 180) := by
      have := abs_le.mp hα
      apply Real.cos_nonneg_of_mem_Icc
      constructor <;> nlinarith [Real.pi_pos]
    rw [C01_freestream_direction]
    simpa [op] using hc
  have hR : ∃ R, steadyRun method ⟨[a], op⟩ .fresh [] = .ok R := by
    cases method with
    | horseshoe =>
      obtain ⟨s, hs, -⟩ := plate_horseshoe_run op hmade hrefs hp hspan hd .fresh []
      exact ⟨s.results, by simp only [steadyRun, hs]; rfl⟩
    | ring =>
      obtain ⟨s, hs, -⟩ := plate_ring_run op hmade hrefs hp hspan hd .fresh []
      exact ⟨s.results, by simp only [steadyRun, hs]; rfl⟩
  obtain ⟨R, hR⟩ := hR
  obtain ⟨R', hR', ht⟩ := C77_odd_lift method op [a] (by simpa using hmade) (by simpa using hflat) .fresh .fresh [] [] R hR
  obtain ⟨L, L', h1, h2, -, -, h3, -⟩ := ht 0 a rfl
  exact ⟨a, R, R', hmade, hflat, hR, hR', L, L', h1, h2, h3⟩

/-- A heaving plate, for any amplitude, period, number and length of steps and any angle of attack up to a right angle;
upside down it heaves the other way. -/
example (A P : ℝ) (n : ℕ) (hn : 0 < n) (dt density velocity α : ℝ) (hdt : 0 < dt) (hv : 0 < velocity) (hα : |α| ≤ 90)
    (only pres sl : Bool) :
    ∃ ams ams' om p s s₁, Forall₂ AirplaneMovement.IsInverted ams ams' ∧ om.base.alpha = α ∧
      study ams om (some n) none none (some dt) only = .ok p ∧ p.Chordwise ∧ p.numSteps = n ∧
      Reached p s ∧ s.run pres sl = .ok s₁ := by
  obtain ⟨w, hw, -, hall⟩ := heaving_movement_of 1 A P
  have hflat : ∀ s ∈ plates 1, s.Flat ∧ s.wingUnitChordwise.z = 0 := by
    intro s hs
    simp only [plates, List.mem_cons, List.not_mem_nil, or_false] at hs
    rcases hs with rfl | rfl <;>
      exact ⟨⟨flatPlate_ofCoordinates, flatPlate_inverted, plate_sharp one_pos, rfl, rfl, rfl, rfl⟩, by simp [plateSection]⟩
  have hb := (C77_flat_wing _ _ _ _ _ _ _ w hw rfl rfl rfl hflat).2
  have hsec : ∀ s ∈ w.sections, s.Flat ∧ s.wingUnitChordwise.z = 0 := by
    intro s hs
    rw [(Wing.create_ok _ _ _ _ _ _ _ w hw).2.stored, (Wing.create_ok _ _ _ _ _ _ _ w hw).1] at hs
    simp only [withChordwise, List.mem_map] at hs
    obtain ⟨s, hs, rfl⟩ := hs
    exact ⟨(hflat s hs).1, rfl⟩
  obtain ⟨a, ha⟩ : ∃ a, Airplane.create [w] 0 0 none none none = .ok a := ⟨_, rfl⟩
  have hab : a.BuiltInverted a :=
    ⟨_, _, _, _, _, _, _, ha, by rw [inverted_zero]; exact ha, .cons hb .nil⟩
  have hwm : (heave w A P).IsInverted (heave w (-A) P) := by
    refine ⟨hb, ?_, ?_, rfl, rfl, rfl⟩
    · simp only [heave, plateMovement]
      rw [List.forall₂_same]
      intro m hm
      obtain ⟨s, hs, rfl⟩ := List.mem_map.mp hm
      exact ⟨(hsec s hs).1.isInverted (hsec s hs).2, by simp [Oscillation.negated], by simp [Oscillation.negated], rfl⟩
    · apply nosesKept_flat
      intro s hs
      simp only [heave, plateMovement, List.map_map, Function.comp_def, List.map_id'] at hs
      exact (hsec s hs).1
  obtain ⟨-, mv, p, h1, h2, hst, -⟩ := hall a n hn dt { density, velocity, alpha := α, beta := 0 } only
  obtain ⟨s, hs⟩ := hst.create hn
  have hr : Reached p s := .fresh hs
  have hd : |({ density, velocity, alpha := α, beta := 0 } : OperatingPoint).freestreamDirection.y|
      ≤ ({ density, velocity, alpha := α, beta := 0 } : OperatingPoint).freestreamDirection.x := by
    have hc : 0 ≤ Real.cos (α * Real.pi / 180) := by
      have := abs_le.mp hα
      apply Real.cos_nonneg_of_mem_Icc
      constructor <;> nlinarith [Real.pi_pos]
    rw [C01_freestream_direction]
    simpa using hc
  obtain ⟨s₁, hrun⟩ := hst.run hdt.le hv.le hd hr pres sl
  refine ⟨[{ base := a, wingMovements := [heave w A P] }], [{ base := a, wingMovements := [heave w (-A) P] }],
    { base := { density, velocity, alpha := α, beta := 0 } }, p, s, s₁, .cons ⟨hab, .cons hwm .nil, rfl, rfl, ?_⟩ .nil,
    rfl, ?_, hst.chordwise, hst.steps, hr, hrun⟩
  · simp [Oscillation.negated]
  · unfold study
    exact bind_ok.mpr ⟨mv, h1, h2⟩

end Ptera
