import Verif.Spec.Remesh
import Verif.Lemmas.Remesh
import Verif.Lemmas.PlateUnsteady

/-!
# C56: the meshes of a convergence study differ from the reference only in their panels

True of everything but the planes of the cross sections: the study drops the unit normal vectors, so it is limited to
wings in the x-y plane; it raises for vertical wings and can lose whole wing sections.
-/

namespace Ptera

theorem remesh_wing {renew : Airfoil → Except Err Airfoil} {chordwise ratio : ℤ} {w w' : Wing}
    {sections : List WingCrossSection} (h1 : remeshSections renew chordwise ratio w.sections = .ok sections)
    (h2 : remeshWing w sections chordwise = .ok w') :
    0 ≤ chordwise ∧ w.Remeshed w' chordwise.toNat ratio ∧ w'.spec.unitNormal = ⟨0, 1, 0⟩ ∧
      w'.spec.unitChordwise = ⟨1, 0, 0⟩ ∧ ∀ s' ∈ w'.sections, s'.unitNormal = ⟨0, 1, 0⟩ := by
  obtain ⟨g0, g1, g2, _⟩ := remeshWing_ok h2
  obtain ⟨l1, l2⟩ := remeshSections_ok h1
  refine ⟨g0, ⟨by rw [g1], by rw [g1], by rw [g1], by rw [g1], by rw [g2]; simpa using l1, ?_⟩, by rw [g1], by rw [g1],
    ?_⟩
  · intro i s hs
    obtain ⟨s', k1, k2⟩ := l2 i s hs
    refine ⟨{ s' with wingUnitChordwise := ⟨1, 0, 0⟩ }, by rw [g2]; simp [k1], ?_, ?_⟩
    · obtain ⟨af, n, _, e, _⟩ := remeshSection_ok k2
      subst e; exact ⟨rfl, rfl, rfl, rfl, rfl, rfl, rfl⟩
    · intro t ht
      rw [ht] at k2
      obtain ⟨af, n, _, e, hn⟩ := remeshSection_ok k2
      obtain ⟨_, _, h3⟩ := spanwiseCount_ok hn
      unfold NearestCount
      subst e
      have hc : ((chordwise.toNat : ℕ) : ℝ) = chordwise := by
        have := Int.toNat_of_nonneg g0
        exact_mod_cast this
      rw [hc]
      simp only
      by_cases h0 : (chordwise : ℝ) = 0
      · rw [h0] at h3 ⊢; simpa using h3
      · convert h3 using 2
        congr 1
        rw [div_mul_eq_mul_div, div_div_eq_mul_div]
  · intro s' hs'
    rw [g2] at hs'
    obtain ⟨t, ht, rfl⟩ := List.mem_map.1 hs'
    obtain ⟨i, hi⟩ := List.mem_iff_getElem?.1 ht
    have hlt : i < w.sections.length := by
      rw [← l1]; exact (List.getElem?_eq_some_iff.1 hi).1
    obtain ⟨t', k1, k2⟩ := l2 i _ (List.getElem?_eq_getElem hlt)
    obtain ⟨_, _, _, e, _⟩ := remeshSection_ok k2
    rw [hi] at k1
    obtain rfl := Option.some.inj k1
    rw [e]

/-- C56 for the steady study: an airplane of an iteration has the reference point, weight, wings and cross sections of
the reference airplane, the requested number of chordwise panels, and the number of spanwise panels that comes nearest
to the requested panel aspect ratio. -/
theorem C56_steady_partial {renew : Airfoil → Except Err Airfoil} {chordwise ratio : ℤ} {a a' : Airplane}
    (h : remeshAirplane renew chordwise ratio a = .ok a') :
    a'.xyzRef = a.xyzRef ∧ a'.weight = a.weight ∧
      List.Forall₂ (fun w w' => w.Remeshed w' chordwise.toNat ratio) a.wings a'.wings := by
  obtain ⟨_, h1, h2, h3⟩ := remeshAirplane_ok h
  exact ⟨h1, h2, h3.imp fun w w' ⟨_, g1, g2⟩ => (remesh_wing g1 g2).2.1⟩

/-- C56: the copies use the same airfoils, created anew. -/
theorem C56_airfoils {renew : Airfoil → Except Err Airfoil} {chordwise ratio : ℤ} {a a' : Airplane}
    (h : remeshAirplane renew chordwise ratio a = .ok a') :
    List.Forall₂ (fun w w' => ∀ (i : ℕ) s, w.sections[i]? = some s →
      ∃ s', w'.sections[i]? = some s' ∧ renew s.airfoil = .ok s'.airfoil) a.wings a'.wings := by
  obtain ⟨_, _, _, h3⟩ := remeshAirplane_ok h
  refine h3.imp fun w w' ⟨sections, g1, g2⟩ i s hs => ?_
  obtain ⟨_, _, g3, _⟩ := remeshWing_ok g2
  obtain ⟨s', k1, k2⟩ := (remeshSections_ok g1).2 i s hs
  obtain ⟨af, n, hr, e, _⟩ := remeshSection_ok k2
  refine ⟨{ s' with wingUnitChordwise := ⟨1, 0, 0⟩ }, by rw [g3]; simp [k1], ?_⟩
  rw [hr, e]

theorem zipWith_bases (ms : List WingCrossSectionMovement) (ts : List WingCrossSection) (h : ts.length = ms.length) :
    (List.zipWith (fun s t => ({ s with base := t } : WingCrossSectionMovement)) ms ts).map (·.base) = ts ∧
      List.Forall₂ (fun (s s' : WingCrossSectionMovement) => s' = { s with base := s'.base }) ms
        (List.zipWith (fun s t => { s with base := t }) ms ts) := by
  induction ms generalizing ts with
  | nil => cases ts with
    | nil => simp
    | cons t ts => simp at h
  | cons m ms ih => cases ts with
    | nil => simp at h
    | cons t ts =>
      obtain ⟨h1, h2⟩ := ih ts (by simpa using h)
      simp [h1, h2]

/-- C56 for the unsteady study: the copy of a movement keeps the motion of every airplane, wing and cross section, and
its base objects are remeshed as above, with the cross sections of the movements. -/
theorem C56_unsteady_partial {renew : Airfoil → Except Err Airfoil} {chordwise ratio : ℤ} {m m' : AirplaneMovement}
    (h : remeshAirplaneMovement renew chordwise ratio m = .ok m') :
    m'.xRef = m.xRef ∧ m'.yRef = m.yRef ∧ m'.zRef = m.zRef ∧ m'.base.xyzRef = m.base.xyzRef ∧
      m'.base.weight = m.base.weight ∧ m'.base.wings = m'.wingMovements.map (·.base) ∧
      List.Forall₂ (fun w w' =>
        w'.xLe = w.xLe ∧ w'.yLe = w.yLe ∧ w'.zLe = w.zLe ∧
        ({ w.base with sections := w.sectionMovements.map (·.base) } : Wing).Remeshed w'.base chordwise.toNat ratio ∧
        w'.sectionMovements.map (·.base) = w'.base.sections ∧
        List.Forall₂ (fun s s' => s'.sweeping = s.sweeping ∧ s'.pitching = s.pitching ∧ s'.heaving = s.heaving)
          w.sectionMovements w'.sectionMovements)
        m.wingMovements m'.wingMovements := by
  unfold remeshAirplaneMovement at h
  simp only [bind, Except.bind] at h
  split at h
  · simp at h
  rename_i wings hw
  split at h
  · simp at h
  rename_i base hb
  simp only [pure, Except.pure, Except.ok.injEq] at h
  subst h
  unfold Airplane.create at hb
  cases wings with
  | nil => simp at hb
  | cons w0 ws =>
    obtain rfl := (Except.ok.inj hb).symm
    refine ⟨rfl, rfl, rfl, rfl, rfl, rfl, ?_⟩
    refine (mapM_forall₂.1 hw).imp fun w w' hww => ?_
    unfold remeshWingMovement at hww
    simp only [bind, Except.bind] at hww
    split at hww
    · simp at hww
    rename_i sections hs
    split at hww
    · simp at hww
    rename_i base hb
    simp only [pure, Except.pure, Except.ok.injEq] at hww
    subst hww
    have hrem := remesh_wing (w := { w.base with sections := w.sectionMovements.map (·.base) }) hs hb
    have hl : base.sections.length = w.sectionMovements.length := by
      have := hrem.2.1.2.2.2.2.1
      simpa using this
    obtain ⟨z1, z2⟩ := zipWith_bases w.sectionMovements base.sections hl
    refine ⟨rfl, rfl, rfl, hrem.2.1, z1, z2.imp fun s s' e => ?_⟩
    rw [e]; exact ⟨rfl, rfl, rfl⟩

/-- What is missing: whatever the planes of the reference's cross sections and the axes of its wings, those of the
copies are the default ones. -/
theorem C56_normals_dropped {renew : Airfoil → Except Err Airfoil} {chordwise ratio : ℤ} {a a' : Airplane}
    (h : remeshAirplane renew chordwise ratio a = .ok a') (w' : Wing) (hw : w' ∈ a'.wings) :
    w'.spec.unitNormal = ⟨0, 1, 0⟩ ∧ w'.spec.unitChordwise = ⟨1, 0, 0⟩ ∧
      ∀ s' ∈ w'.sections, s'.unitNormal = ⟨0, 1, 0⟩ := by
  obtain ⟨_, _, _, h3⟩ := remeshAirplane_ok h
  obtain ⟨w, _, g1, g2⟩ := forall₂_right h3 w' hw
  exact (remesh_wing g1 g2).2.2

/-- A wing with two neighbouring cross sections at the same y-coordinate, such as a vertical tail, cannot be studied:
the study divides by zero. -/
theorem C56_vertical_fails (renew : Airfoil → Except Err Airfoil) (chordwise ratio : ℤ) (s t : WingCrossSection)
    (rest : List WingCrossSection) (hy : t.leadingEdge.y = s.leadingEdge.y) :
    remeshSections renew chordwise ratio (s :: t :: rest) = .error .zeroDivisionError := by
  simp [remeshSections, remeshSection, spanwiseCount, hy, bind, Except.bind]

/-- A wing section whose length is less than half the width of the requested panels gets no panels at all: it is missing
from the mesh. -/
theorem C56_section_lost (length root tip : ℝ) (chordwise ratio : ℤ) (hl : 0 < length) (hr : 0 < root) (ht : 0 < tip)
    (hc : 0 < chordwise) (ha : 0 < ratio)
    (hsmall : length < (root + tip) / 2 / chordwise * ratio / 2) :
    spanwiseCount length root tip chordwise ratio = .ok 0 := by
  have hc' : (0 : ℝ) < chordwise := by exact_mod_cast hc
  have ha' : (0 : ℝ) < ratio := by exact_mod_cast ha
  have e : length * (root + tip) / 2 / length = (root + tip) / 2 := by field_simp
  have hpos : 0 < (root + tip) / 2 * ratio := by positivity
  have hx0 : 0 < length * chordwise / ((root + tip) / 2 * ratio) := by positivity
  have hx1 : length * chordwise / ((root + tip) / 2 * ratio) < 1 / 2 := by
    rw [div_lt_iff₀ hpos]
    have : length * chordwise < (root + tip) / 2 / chordwise * ratio / 2 * chordwise := by
      exact mul_lt_mul_of_pos_right hsmall hc'
    have e2 : (root + tip) / 2 / chordwise * ratio / 2 * chordwise = 1 / 2 * ((root + tip) / 2 * ratio) := by
      field_simp
    linarith
  have hround : pyRound (length * chordwise / ((root + tip) / 2 * ratio)) = 0 := by
    have hf : ⌊length * chordwise / ((root + tip) / 2 * ratio)⌋ = 0 := by
      rw [Int.floor_eq_iff]; constructor <;> push_cast <;> linarith
    have hfr : Int.fract (length * chordwise / ((root + tip) / 2 * ratio)) < 1 / 2 := by
      rw [Int.fract, hf]; simpa using hx1
    rw [pyRound, if_pos hfr, hf]
  unfold spanwiseCount
  dsimp only
  rw [e, if_neg hl.ne', if_neg hpos.ne', hround]
  simp

/-- The hypotheses of `C56_section_lost` are met: a section of length 1 and chord 5, with 3 chordwise panels and panels
of the aspect ratio 4. -/
example : spanwiseCount 1 5 5 3 4 = .ok 0 :=
  C56_section_lost 1 5 5 3 4 (by norm_num) (by norm_num) (by norm_num) (by norm_num) (by norm_num) (by norm_num)

/-- On a symmetric wing such a section makes the whole study raise an error. -/
theorem C56_symmetric_section_fails (renew : Airfoil → Except Err Airfoil) (chordwise ratio : ℤ) (a : Airplane)
    (w : Wing) (hw : w ∈ a.wings) (hsym : w.spec.symmetric = true) (i : ℕ) (s t : WingCrossSection)
    (hs : w.sections[i]? = some s) (ht : w.sections[i + 1]? = some t) (hl : s.leadingEdge.y < t.leadingEdge.y)
    (hr : 0 < s.chord) (htc : 0 < t.chord) (hc : 0 < chordwise) (ha : 0 < ratio)
    (hsmall : t.leadingEdge.y - s.leadingEdge.y < (s.chord + t.chord) / 2 / chordwise * ratio / 2) :
    ∃ e, remeshAirplane renew chordwise ratio a = .error e := by
  cases h : remeshAirplane renew chordwise ratio a with
  | error e => exact ⟨e, rfl⟩
  | ok a' =>
    exfalso
    obtain ⟨_, _, _, h3⟩ := remeshAirplane_ok h
    obtain ⟨w', sections, h4, h5⟩ := forall₂_left h3 w hw
    obtain ⟨l1, l2⟩ := remeshSections_ok h4
    obtain ⟨s', k1, k2⟩ := l2 i s hs
    obtain ⟨t', k3, -⟩ := l2 (i + 1) t ht
    rw [ht] at k2
    obtain ⟨af, n, _, e, hn⟩ := remeshSection_ok k2
    simp only at hn
    rw [C56_section_lost _ _ _ _ _ (by linarith) hr htc hc ha hsmall, Except.ok.injEq] at hn
    unfold remeshWing at h5
    split_ifs at h5
    rw [hsym] at h5
    have hm := ((C17_wing_accepts _ _ _ _ _ _ _).mp ⟨_, h5⟩).2.2 (s', t') (mem_zip_tail.mpr ⟨i, k1, k3⟩)
    have := (hm.2.2 rfl).1
    simp only [e, ← hn] at this
    exact absurd this (lt_irrefl 0)

/-- The hypotheses of `C56_symmetric_section_fails` are met: a symmetric plate of the half span 1 and the chord 5, which
is an accepted airplane, cannot be remeshed with 3 chordwise panels of the aspect ratio 4. -/
example : ∃ a : Airplane, a.Made ∧ ∃ e, remeshAirplane (fun f => .ok f) 3 4 a = .error e := by
  obtain ⟨w, hw⟩ := plateWing_accepted
    [plateSection ⟨0, 0, 0⟩ 5 0 0 "symmetric" 3 "uniform", plateSection ⟨0, 1, 0⟩ 5 0 0 "symmetric" 3 "uniform"]
    true 4 (by norm_num) "uniform" (by simp) (by simp) (by simp [plateSection]; rfl) (by
      intro s hs
      simp only [List.mem_cons, List.not_mem_nil, or_false] at hs
      rcases hs with rfl | rfl <;> exact ⟨_, _, _, _, _, _, _, rfl, by norm_num⟩) 0
  obtain ⟨f1, f2⟩ := Wing.create_fields hw
  refine ⟨_, ⟨[w], 0, 0, none, none, none, rfl, by simpa using ⟨_, _, _, _, _, _, _, hw⟩⟩,
    C56_symmetric_section_fails _ 3 4 _ w (by simp) (by rw [f1]) 0 _ _ (by rw [f2]; rfl) (by rw [f2]; rfl)
      ?_ ?_ ?_ (by norm_num) (by norm_num) ?_⟩
  all_goals norm_num [plateSection]

/-- A case that meets the hypothesis: a plate of the span 3 and the chord 2, remeshed with 4 chordwise panels of the
aspect ratio 2, gets 3 spanwise panels. -/
example : ∃ a a' : Airplane, a.Made ∧ remeshAirplane (fun f => .ok f) 4 2 a = .ok a' ∧
    a'.wings.map (·.numSpanwisePanels) = [3] := by
  obtain ⟨w, hw, hmade, -⟩ := strip_wing 0 2 [0, 3] (by simp) rfl
  obtain ⟨f1, f2⟩ := Wing.create_fields hw
  have c1 : spanwiseCount 3 2 2 4 2 = .ok 3 := by
    have e : ((3 : ℝ) * 4 / (2 * 2)) = ((3 : ℤ) : ℝ) := by norm_num
    have : pyRound ((3 : ℝ) * 4 / (2 * 2)) = 3 := by rw [e]; exact pyRound_int 3
    norm_num [spanwiseCount] at this ⊢
    rw [this]; rfl
  have hs : remeshSections (fun f => .ok f) 4 2 w.sections = .ok
      [plateSection ⟨0, 0, 0⟩ 2 0 0 "symmetric" 3 "uniform", plateSection ⟨0, 3, 0⟩ 2 0 0 "symmetric" 0 "uniform"] := by
    rw [f2]
    have h2 : ¬ (2 : ℝ) ≤ 0 := by norm_num
    simp [stripSections, plateSection, remeshSections, remeshSection, c1, bind, Except.bind, pure, Except.pure,
      WingCrossSection.create, h2]
  obtain ⟨w', hw'⟩ := plateWing_accepted
    [plateSection ⟨0, 0, 0⟩ 2 0 0 "symmetric" 3 "uniform", plateSection ⟨0, 3, 0⟩ 2 0 0 "symmetric" 0 "uniform"]
    false 4 (by norm_num) "uniform" (by simp) (by simp) (by simp [plateSection]; rfl) (by
      intro s hs
      simp only [List.mem_cons, List.not_mem_nil, or_false] at hs
      rcases hs with rfl | rfl <;> exact ⟨_, _, _, _, _, _, _, rfl, by norm_num⟩) 0
  obtain ⟨g1, g2⟩ := Wing.create_ok _ _ _ _ _ _ _ w' hw'
  have hn : w'.numSpanwisePanels = 3 := by
    rw [g2.nspan, g1]; simp [plateSection]
  obtain ⟨a', ha', hwings⟩ : ∃ a' : Airplane, Airplane.create [w'] (xyzRef := 0) (weight := 0) = .ok a' ∧
      a'.wings = [w'] := ⟨_, rfl, rfl⟩
  refine ⟨{ wings := [w], xyzRef := 0, weight := 0, sRef := 1, cRef := 1, bRef := 1
            numPanels := ([w].map (·.numPanels)).sum }, a',
    ⟨[w], 0, 0, some 1, some 1, some 1, rfl, by simpa using hmade⟩, ?_, by rw [hwings]; simp [hn]⟩
  have hw2 : remeshWing w
      [plateSection ⟨0, 0, 0⟩ 2 0 0 "symmetric" 3 "uniform", plateSection ⟨0, 3, 0⟩ 2 0 0 "symmetric" 0 "uniform"] 4 =
        .ok w' := by
    unfold remeshWing
    rw [f1]
    exact hw'
  simp only [remeshAirplane, List.mapM_cons, List.mapM_nil, hs, hw2, bind, Except.bind, pure, Except.pure]
  exact ha'

end Ptera
