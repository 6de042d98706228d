import Verif.Lemmas.MovedWing
import Verif.Props.Scaling

/-!
# Steady results and the position and attitude of the airplanes

C64: only the attitude of the airplanes relative to the freestream and their positions relative to each other matter.
-/

namespace Ptera

open List

variable {M : M3} {t : V3}

theorem Wing.Moved.eq (hM : M.IsRot) {w w' : Wing} (h : Wing.Moved M t w w') : w' = w.move M t := by
  obtain ⟨S, le, n, sym, u, m, sp, h1, h2⟩ := h
  rw [Wing.create_moved hM, h1] at h2
  cases h2; rfl

theorem Wing.Moved.made {w w' : Wing} (h : Wing.Moved M t w w') : w.Made ∧ w'.Made := by
  obtain ⟨S, le, n, sym, u, m, sp, h1, h2⟩ := h
  exact ⟨⟨_, _, _, _, _, _, _, h1⟩, _, _, _, _, _, _, _, h2⟩

theorem Wing.Moved.of_made (hM : M.IsRot) (t : V3) {w : Wing} (h : w.Made) : Wing.Moved M t w (w.move M t) := by
  obtain ⟨S, le, n, sym, u, m, sp, h1⟩ := h
  exact ⟨S, le, n, sym, u, m, sp, h1, by rw [Wing.create_moved hM, h1]; rfl⟩

theorem projectedSpan_turned (hM : M.IsRot) (n v : V3) :
    Wing.projectedSpan (M.mulVec n) (M.mulVec v) = Wing.projectedSpan n v := by
  unfold Wing.projectedSpan
  rw [hM.1.dot, ← M3.mulVec_smul, hM.1.norm]

theorem Wing.move_span (hM : M.IsRot) (w : Wing) : (w.move M t).span = w.span := by
  have h0 : M.mulVec 0 = 0 := hM.1.mulVec_eq_zero.mpr rfl
  unfold Wing.span
  simp only [Wing.move, WingSpec.move, List.head?_map, List.getLast?_map, Option.map_map]
  have e : ∀ o : Option WingCrossSection,
      (o.map ((fun s : WingCrossSection => s.leadingEdge) ∘ WingCrossSection.move M)).getD 0
        = M.mulVec ((o.map fun s => s.leadingEdge).getD 0) := by
    intro o
    cases o with
    | none => exact h0.symm
    | some s => rfl
  rw [e, e, ← M3.mulVec_sub, projectedSpan_turned hM]

theorem Panel.move_projectedArea (hM : M.IsRot) (p : Panel) (n : V3) :
    (p.move M t).projectedArea (M.mulVec n) = p.projectedArea n := by
  unfold Panel.projectedArea Panel.firstDiagonal Panel.secondDiagonal
  simp only [Panel.move, add_sub_add_right_eq_sub, ← M3.mulVec_sub, hM.1.dot, ← M3.mulVec_smul, hM.cross, hM.1.norm]

theorem Wing.move_projectedArea (hM : M.IsRot) (w : Wing) : (w.move M t).projectedArea = w.projectedArea := by
  unfold Wing.projectedArea
  have e : (w.move M t).unitUp = M.mulVec w.unitUp := by
    unfold Wing.unitUp
    rw [← hM.cross]; rfl
  have e2 : (w.move M t).panels.flatten = w.panels.flatten.map (Panel.move M t) := by
    simp [Wing.move, movePanels, List.map_flatten]
  rw [e, e2, List.map_map]
  congr 1
  apply List.map_congr_left
  intro p _
  exact p.move_projectedArea hM _

theorem Wing.move_mac (hM : M.IsRot) (w : Wing) : (w.move M t).meanAerodynamicChord = w.meanAerodynamicChord := by
  unfold Wing.meanAerodynamicChord
  rw [Wing.move_projectedArea hM]
  have e : List.zip (w.move M t).sections (w.move M t).sections.tail
      = (List.zip w.sections w.sections.tail).map fun s => (s.1.move M, s.2.move M) := by
    simp only [Wing.move]
    rw [← List.map_tail, List.zip_map]
    rfl
  have e2 : ((List.zip (w.move M t).sections (w.move M t).sections.tail).map
      (Wing.macTerm (w.move M t).spec.unitNormal))
      = (List.zip w.sections w.sections.tail).map (Wing.macTerm w.spec.unitNormal) := by
    rw [e, List.map_map]
    apply List.map_congr_left
    intro s _
    simp only [Function.comp, Wing.macTerm, WingCrossSection.move, ← M3.mulVec_sub]
    rw [show (w.move M t).spec.unitNormal = M.mulVec w.spec.unitNormal from rfl, projectedSpan_turned hM]
  rw [e2]
  rfl

/-- C64: an airplane can be built in any other attitude and position: if the constructors accept the wings, they
accept the turned and moved ones. -/
theorem C64_can_be_built (hM : M.IsRot) (t : V3) (a : Airplane) (ha : a.Made) : ∃ a', Airplane.Moved M t a a' := by
  obtain ⟨wings, ref, weight, s, c, b, h, hw⟩ := ha
  cases wings with
  | nil => cases h
  | cons main rest =>
    refine ⟨_, main :: rest, (main :: rest).map (Wing.move M t), ref, weight, s, c, b, h, rfl, ?_⟩
    rw [forall₂_map_right_iff, forall₂_same]
    exact fun w hw' => Wing.Moved.of_made hM t (hw w hw')

/-- C64: turning and moving an airplane changes none of its reference dimensions and moves its reference point along;
each wing's panels are the turned and moved panels, with the same flags and places. -/
theorem C64_geometry (hM : M.IsRot) (a a' : Airplane) (h : Airplane.Moved M t a a') :
    a'.sRef = a.sRef ∧ a'.cRef = a.cRef ∧ a'.bRef = a.bRef ∧ a'.weight = a.weight ∧ a'.numPanels = a.numPanels ∧
    a'.xyzRef = M.mulVec a.xyzRef + t ∧ a'.wings.length = a.wings.length ∧
    ∀ (i : ℕ) w w', a.wings[i]? = some w → a'.wings[i]? = some w' →
      w'.span = w.span ∧ w'.projectedArea = w.projectedArea ∧ w'.meanAerodynamicChord = w.meanAerodynamicChord ∧
      w'.panels = w.panels.map (List.map fun p =>
        { p with frontLeft := M.mulVec p.frontLeft + t, frontRight := M.mulVec p.frontRight + t
                 backLeft := M.mulVec p.backLeft + t, backRight := M.mulVec p.backRight + t }) := by
  obtain ⟨wings, wings', ref, weight, s, c, b, h1, h2, hw⟩ := h
  cases hw with
  | nil => cases h1
  | cons hmain hrest =>
    rename_i main main' rest rest'
    cases h1
    cases h2
    have hwings : main' :: rest' = (main :: rest).map (Wing.move M t) := by
      have : ∀ l l', Forall₂ (Wing.Moved M t) l l' → l' = l.map (Wing.move M t) := by
        intro l l' hl
        induction hl with
        | nil => rfl
        | cons h _ ih => rw [List.map_cons, h.eq hM, ih]
      exact this _ _ (.cons hmain hrest)
    have hm' := hmain.eq hM
    refine ⟨?_, ?_, ?_, rfl, ?_, rfl, ?_, ?_⟩
    · simp only [hm', Wing.move_projectedArea hM]
    · simp only [hm', Wing.move_mac hM]
    · simp only [hm', Wing.move_span hM]
    · simp only [hwings, List.map_map]; rfl
    · simp only [hwings, List.length_map]
    · intro i w w' hi hi'
      simp only [hwings, List.getElem?_map] at hi'
      rw [hi, Option.map_some, Option.some.injEq] at hi'
      subst hi'
      exact ⟨Wing.move_span hM w, Wing.move_projectedArea hM w, Wing.move_mac hM w, rfl⟩

theorem Airplane.Moved.made {a a' : Airplane} (h : Airplane.Moved M t a a') : a.Made ∧ a'.Made := by
  obtain ⟨wings, wings', ref, weight, s, c, b, h1, h2, hw⟩ := h
  refine ⟨⟨wings, ref, weight, s, c, b, h1, ?_⟩, wings', _, weight, s, c, b, h2, ?_⟩
  · intro w hw'
    obtain ⟨i, hi, rfl⟩ := List.getElem_of_mem hw'
    exact (List.forall₂_iff_get.mp hw).2 i hi (by rw [← hw.length_eq]; exact hi) |>.made.1
  · intro w hw'
    obtain ⟨i, hi, rfl⟩ := List.getElem_of_mem hw'
    exact (List.forall₂_iff_get.mp hw).2 i (by rw [hw.length_eq]; exact hi) hi |>.made.2

theorem SimilarAirplanes.of_moved (hM : M.IsRot) {as as' : List Airplane} (h : Forall₂ (Airplane.Moved M t) as as') :
    SimilarAirplanes as as' M t (fun _ _ => false) id (fun _ => id) where
  ortho := hM.1
  airplanes := by
    intro a A hA
    have hlt : a < as.length := (List.getElem?_eq_some_iff.mp hA).1
    have hlt' : a < as'.length := by rw [← h.length_eq]; exact hlt
    have hmv : Airplane.Moved M t A as'[a] := by
      have := (List.forall₂_iff_get.mp h).2 a hlt hlt'
      rw [List.getElem?_eq_getElem hlt, Option.some.injEq] at hA
      rw [← hA]; exact this
    obtain ⟨-, -, -, -, -, hx, hl, hw⟩ := C64_geometry hM A _ hmv
    refine ⟨as'[a], List.getElem?_eq_getElem hlt', hx, ?_, fun w' hw' => ⟨w', by rw [← hl]; exact hw', rfl⟩,
      fun _ _ _ _ h => h⟩
    intro w W hW
    have hwl : w < as'[a].wings.length := by rw [hl]; exact (List.getElem?_eq_some_iff.mp hW).1
    obtain ⟨h1, -, -, h4⟩ := hw w W _ hW (List.getElem?_eq_getElem hwl)
    have hWm : as'[a].wings[w] = W.move M t := by
      obtain ⟨wings, wings', ref, weight, s, c, b, c1, c2, hf⟩ := hmv
      have e1 : A.wings = wings := by cases wings with | nil => cases c1 | cons _ _ => cases c1; rfl
      have e2 : as'[a].wings = wings' := by
        cases wings' with | nil => cases c2 | cons _ _ => injection c2 with c2; rw [← c2]
      have e3 := (List.forall₂_iff_get.mp hf).2 w (by rw [← e1]; exact (List.getElem?_eq_some_iff.mp hW).1)
        (by rw [← e2]; exact hwl)
      have e4 := e3.eq hM
      simp only [List.get_eq_getElem] at e4
      have e5 : wings[w]? = some W := by rw [← e1]; exact hW
      rw [(List.getElem?_eq_some_iff.mp e5).2] at e4
      rw [← e4]
      simp only [e2]
    refine ⟨as'[a].wings[w], List.getElem?_eq_getElem hwl, h1, by rw [hWm]; rfl, by rw [h4, List.length_map], ?_⟩
    intro i j p p' hp hp'
    simp only [Bool.false_eq_true, if_false] at hp'
    rw [h4] at hp'
    have : cell (W.panels.map (List.map (Panel.move M t))) i j = (cell W.panels i j).map (Panel.move M t) := by
      simp only [cell, List.getElem?_map]
      cases W.panels[i]? <;> simp
    have hp2 : cell (W.panels.map (List.map (Panel.move M t))) i j = some p' := hp'
    rw [this, hp, Option.map_some, Option.some.injEq] at hp2
    subst hp2
    exact ⟨rfl, rfl, rfl, rfl⟩
  onto := fun a ha => ⟨a, by rw [h.length_eq]; exact ha, rfl⟩
  injective := fun _ _ _ _ h => h

/-- C64: let `M` be the rotation that takes the wind axes of the operating point `op` to those of an operating point
`op'` that differs in its angles only. Airplanes turned by `M` and moved by any `t` then have, at `op'`, the loads in
wind axes and the coefficients they had at `op`, panel by panel; velocities turn along. -/
theorem C64_attitude (method : SteadyMethod) (op op' : OperatingPoint) (α β : ℝ)
    (hop : op' = { op with alpha := α, beta := β }) (M : M3)
    (hMdef : M = op'.rotationWindToGeometry.mul op.rotationWindToGeometry.transpose) (t : V3)
    (as as' : List Airplane) (hmoved : Forall₂ (Airplane.Moved M t) as as')
    (heap heap' : PanelHeap) (loads loads' : List AirplaneLoads) (R : SteadyResults)
    (h : steadyRun method ⟨as, op⟩ heap loads = .ok R) :
    ∃ R', steadyRun method ⟨as', op'⟩ heap' loads' = .ok R' ∧
      (∀ q, R'.velocity (M.mulVec q + t) = M.mulVec (R.velocity q)) ∧
      (∀ r p, panelAt as r = some p → ∃ g, ∃ L L' : PanelLoads, R.strength r = some g ∧ R'.strength r = some g ∧
        R.loads r = some L ∧ R'.loads r = some L' ∧ L'.forceWind = L.forceWind ∧ L'.momentWind = L.momentWind) ∧
      (∀ (a : ℕ) A, as[a]? = some A → ∃ L L' : AirplaneLoads, R.totals[a]? = some L ∧ R'.totals[a]? = some L' ∧
        L'.forceWind = L.forceWind ∧ L'.momentWind = L.momentWind ∧
        L'.forceCoefficients = L.forceCoefficients ∧ L'.momentCoefficients = L.momentCoefficients) := by
  have hv0 : op'.velocity = op.velocity := by rw [hop]
  have hd0 : op'.density = op.density := by rw [hop]
  have hR := C01_rotation_is_proper op
  have hR' := C01_rotation_is_proper op'
  have hM : M.IsRot := by rw [hMdef]; exact hR'.mul hR.transpose
  have hMR : M.mul op.rotationWindToGeometry = op'.rotationWindToGeometry := by
    rw [hMdef, M3.mul_assoc, show op.rotationWindToGeometry.transpose.mul op.rotationWindToGeometry = M3.one from hR.1,
      M3.mul_one]
  have hdir : op'.freestreamDirection = M.mulVec op.freestreamDirection := by
    unfold OperatingPoint.freestreamDirection
    rw [← M3.mul_mulVec, hMR]
  have hs : SimilarProblems ⟨as, op⟩ ⟨as', op'⟩ M t (fun _ _ => false) 1 1 id (fun _ => id) :=
    { airplanes := SimilarAirplanes.of_moved hM hmoved
      made := by
        intro a ha
        obtain ⟨i, hi, rfl⟩ := List.getElem_of_mem ha
        exact ((List.forall₂_iff_get.mp hmoved).2 i hi (by rw [← hmoved.length_eq]; exact hi)).made.1
      made' := by
        intro a ha
        obtain ⟨i, hi, rfl⟩ := List.getElem_of_mem ha
        exact ((List.forall₂_iff_get.mp hmoved).2 i (by rw [hmoved.length_eq]; exact hi) hi).made.2
      nonzero := one_ne_zero
      direction := hdir
      velocity := by
        show op'.velocity • op'.freestreamDirection = (1 : ℝ) • M.mulVec (op.velocity • op.freestreamDirection)
        rw [hdir, M3.mulVec_smul, one_smul, hv0]
      density := by show op'.density = 1 * op.density; rw [hd0, _root_.one_mul] }
  obtain ⟨R', h1, hv, hp, ht⟩ := steady_similar (N := M3.one) method hs
    (by
      show op'.rotationWindToGeometry.transpose.mul M = M3.one.mul op.rotationWindToGeometry.transpose
      rw [hMdef, ← M3.mul_assoc,
        show op'.rotationWindToGeometry.transpose.mul op'.rotationWindToGeometry = M3.one from hR'.1]) h heap' loads'
  have hor : orientation M false = 1 := by simp [orientation, hM.2]
  refine ⟨R', h1, ?_, ?_, ?_⟩
  · intro q
    rw [hv, one_smul]
  · intro r p hr
    obtain ⟨g, L, L', h1, h2, h3, h4, -, -, h7, h8⟩ := hp r p hr
    rw [imageRef_same] at h2 h4
    rw [hor, _root_.one_mul, _root_.one_mul] at h2
    rw [one_mulVec] at h7 h8
    rw [hM.2] at h8
    refine ⟨g, L, L', h1, h2, h3, h4, by rw [h7]; simp, by rw [h8]; simp⟩
  · intro a A hA
    obtain ⟨A', L, L', h1, h2, h3, h4, h5, h6, h7⟩ := ht a A hA
    rw [one_mulVec] at h4 h5
    rw [hM.2, _root_.one_mul] at h5
    rw [show (1 : ℝ) * 1 ^ 2 = 1 by norm_num] at h4 h5
    have hlt : a < as.length := (List.getElem?_eq_some_iff.mp hA).1
    have hlt' : a < as'.length := by rw [← hmoved.length_eq]; exact hlt
    have hmv : Airplane.Moved M t A A' := by
      have := (List.forall₂_iff_get.mp hmoved).2 a hlt hlt'
      have e1 := (List.getElem?_eq_some_iff.mp hA).2
      have e2 := (List.getElem?_eq_some_iff.mp h1).2
      simp only [List.get_eq_getElem] at this
      rw [e1] at this
      simp only [id] at e2
      rwa [e2] at this
    obtain ⟨r1, r2, r3, -⟩ := C64_geometry hM A A' hmv
    have hc := h6.scale h7 one_ne_zero (by rw [_root_.one_mul]; show 0.5 * op'.density * op'.velocity ^ 2 = _; rw [hv0, hd0]) r1 r2 r3 h4 h5
    rw [one_smul] at h4 h5
    exact ⟨L, L', h2, h3, h4, h5, hc⟩

theorem turned_one (s : WingCrossSection) : s.turned M3.one = s := by
  cases s; simp [WingCrossSection.turned]

/-- C64: a wing built from the same arguments at a leading edge moved by `t` is the wing moved by `t`: the same
number of panels, each moved by `t`. Symmetric wings are included. -/
theorem C64_translated_wing (sections : List WingCrossSection) (le n : V3) (sym : Bool) (u : V3) (m : ℕ) (sp : String)
    (w : Wing) (h : Wing.create sections le n sym u m sp = .ok w) (t : V3) :
    ∃ w', Wing.create sections (le + t) n sym u m sp = .ok w' ∧ Wing.Moved M3.one t w w' ∧
      w'.panels = w.panels.map (List.map fun p =>
        { p with frontLeft := p.frontLeft + t, frontRight := p.frontRight + t
                 backLeft := p.backLeft + t, backRight := p.backRight + t }) := by
  have h' := Wing.create_moved (t := t) one_isRot sections le n sym u m sp
  have e : sections.map (WingCrossSection.turned M3.one) = sections := by
    conv_rhs => rw [← List.map_id sections]
    apply List.map_congr_left
    intro s _
    exact turned_one s
  have h2 := h'
  rw [h, e, one_mulVec, one_mulVec, one_mulVec] at h2
  refine ⟨w.move M3.one t, h2, ⟨sections, le, n, sym, u, m, sp, h, by rw [h', h]; rfl⟩, ?_⟩
  simp only [Wing.move, movePanels]
  apply List.map_congr_left
  intro row _
  apply List.map_congr_left
  intro p _
  simp only [Panel.move, one_mulVec]

/-- C64: airplanes moved by `t`, all together, have the same loads and coefficients at the same operating point;
velocities are those at the moved point. -/
theorem C64_position (method : SteadyMethod) (op : OperatingPoint) (t : V3) (as as' : List Airplane)
    (hmoved : Forall₂ (Airplane.Moved M3.one t) as as')
    (heap heap' : PanelHeap) (loads loads' : List AirplaneLoads) (R : SteadyResults)
    (h : steadyRun method ⟨as, op⟩ heap loads = .ok R) :
    ∃ R', steadyRun method ⟨as', op⟩ heap' loads' = .ok R' ∧
      (∀ q, R'.velocity (q + t) = R.velocity q) ∧
      (∀ r p, panelAt as r = some p → ∃ g, ∃ L L' : PanelLoads, R.strength r = some g ∧ R'.strength r = some g ∧
        R.loads r = some L ∧ R'.loads r = some L' ∧ L'.forceWind = L.forceWind ∧ L'.momentWind = L.momentWind) ∧
      (∀ (a : ℕ) A, as[a]? = some A → ∃ L L' : AirplaneLoads, R.totals[a]? = some L ∧ R'.totals[a]? = some L' ∧
        L'.forceWind = L.forceWind ∧ L'.momentWind = L.momentWind ∧
        L'.forceCoefficients = L.forceCoefficients ∧ L'.momentCoefficients = L.momentCoefficients) := by
  obtain ⟨R', h1, h2, h3⟩ := C64_attitude method op op op.alpha op.beta rfl M3.one
    (C01_rotation_is_proper op).1.mul_transpose.symm t as as' hmoved heap heap' loads loads' R h
  refine ⟨R', h1, ?_, h3⟩
  intro q
  have := h2 q
  rwa [one_mulVec, one_mulVec] at this

/-- The rotation about the `y` axis that lifts the tail (`x` axis) by `δ` degrees, as a larger angle of attack does
with the freestream. -/
noncomputable def pitchRotation (δ : ℝ) : M3 :=
  ⟨⟨Real.cos (δ * Real.pi / 180), 0, -Real.sin (δ * Real.pi / 180)⟩, ⟨0, 1, 0⟩,
    ⟨Real.sin (δ * Real.pi / 180), 0, Real.cos (δ * Real.pi / 180)⟩⟩

theorem pitchRotation_eq (op : OperatingPoint) (δ : ℝ) :
    pitchRotation δ = ({ op with alpha := op.alpha + δ } : OperatingPoint).rotationWindToGeometry.mul
      op.rotationWindToGeometry.transpose := by
  have hr : radians (op.alpha + δ) = radians op.alpha + δ * Real.pi / 180 := by unfold radians; ring
  have key : (pitchRotation δ).mul op.rotationWindToGeometry
      = ({ op with alpha := op.alpha + δ } : OperatingPoint).rotationWindToGeometry := by
    simp only [OperatingPoint.rotationWindToGeometry, M3.mul_one]
    rw [← M3.mul_assoc]
    show _ = (OperatingPoint.axesFlip.mul _).mul op.betaRotation
    congr 1
    simp only [OperatingPoint.alphaRotation, hr, Real.cos_add, Real.sin_add]
    ext <;> simp [M3.mul, M3.transpose, M3.mulVec, pitchRotation, OperatingPoint.axesFlip, V3.dot] <;> ring
  rw [← key, M3.mul_assoc, (C01_rotation_is_proper op).1.mul_transpose, M3.mul_one]

/-- C64: pitching all airplanes by `δ` degrees is the same as decreasing the angle of attack by `δ` degrees: airplanes
pitched tail-up by `δ`, at an angle of attack larger by `δ`, have the same loads and coefficients. -/
theorem C64_pitch (method : SteadyMethod) (op : OperatingPoint) (δ : ℝ) (t : V3) (as as' : List Airplane)
    (hmoved : Forall₂ (Airplane.Moved (pitchRotation δ) t) as as')
    (heap heap' : PanelHeap) (loads loads' : List AirplaneLoads) (R : SteadyResults)
    (h : steadyRun method ⟨as, op⟩ heap loads = .ok R) :
    ∃ R', steadyRun method ⟨as', { op with alpha := op.alpha + δ }⟩ heap' loads' = .ok R' ∧
      (∀ q, R'.velocity ((pitchRotation δ).mulVec q + t) = (pitchRotation δ).mulVec (R.velocity q)) ∧
      (∀ r p, panelAt as r = some p → ∃ g, ∃ L L' : PanelLoads, R.strength r = some g ∧ R'.strength r = some g ∧
        R.loads r = some L ∧ R'.loads r = some L' ∧ L'.forceWind = L.forceWind ∧ L'.momentWind = L.momentWind) ∧
      (∀ (a : ℕ) A, as[a]? = some A → ∃ L L' : AirplaneLoads, R.totals[a]? = some L ∧ R'.totals[a]? = some L' ∧
        L'.forceWind = L.forceWind ∧ L'.momentWind = L.momentWind ∧
        L'.forceCoefficients = L.forceCoefficients ∧ L'.momentCoefficients = L.momentCoefficients) :=
  C64_attitude method op _ (op.alpha + δ) op.beta rfl _ (pitchRotation_eq op δ) t as as' hmoved heap heap' loads loads' R h

/-- The hypotheses are met: the plate that faces a freestream from below, turned by a quarter so that the freestream
comes from the front, and moved. -/
example (method : SteadyMethod) : ∃ (a a' : Airplane) (R R' : SteadyResults),
    Airplane.Moved (pitchRotation (-90)) ⟨1, 2, 3⟩ a a' ∧
    steadyRun method ⟨[a], { velocity := 10, density := 1, alpha := 90, beta := 0 }⟩ = .ok R ∧
    steadyRun method ⟨[a'], { velocity := 10, density := 1, alpha := 90 + -90, beta := 0 }⟩ = .ok R' ∧
    ∃ L L' : AirplaneLoads, R.totals[0]? = some L ∧ R'.totals[0]? = some L' ∧ L'.forceWind = L.forceWind := by
  obtain ⟨a, hmade, -, -, -, R, hR⟩ := plate_steadyRun method 10 1 .fresh []
  have hrot : (pitchRotation (-90)).IsRot := by
    rw [pitchRotation_eq { velocity := 10, density := 1, alpha := 90, beta := 0 }]
    exact (C01_rotation_is_proper _).mul (C01_rotation_is_proper _).transpose
  obtain ⟨a', ha'⟩ := C64_can_be_built hrot ⟨1, 2, 3⟩ a hmade
  obtain ⟨R', hR', -, -, ht⟩ := C64_pitch method _ (-90) ⟨1, 2, 3⟩ [a] [a'] (by simpa using ha') .fresh .fresh [] [] R hR
  obtain ⟨L, L', h1, h2, h3, -⟩ := ht 0 a rfl
  exact ⟨a, a', R, R', ha', hR, hR', L, L', h1, h2, h3⟩

end Ptera
