import Verif.Spec.Unsteady
import Verif.Props.Flapping
import Verif.Lemmas.Loads

/-! The steps of an unsteady problem have the same airplanes, wings and numbers of panels. -/

namespace Ptera

/-- Numbers of chordwise and spanwise panels of a wing. -/
def Wing.dims (w : Wing) : ℕ × ℕ := (w.spec.numChordwisePanels, w.numSpanwisePanels)

/-- The panel counts of the wings of each airplane. -/
def layout (as : List Airplane) : List (List (ℕ × ℕ)) := as.map fun a => a.wings.map Wing.dims

theorem Wing.create_dims {S : List WingCrossSection} {le n : V3} {sym : Bool} {u : V3} {m : ℕ} {sp : String}
    {w : Wing} (h : Wing.create S le n sym u m sp = .ok w) :
    w.dims = (m, (if sym then 2 else 1) * (S.dropLast.map (·.numSpanwisePanels)).sum) := by
  obtain ⟨hs, _⟩ := Wing.create_ok S le n sym u m sp w h
  obtain ⟨_, _, h3, _⟩ := C18_wing_counts S le n sym u m sp w h
  unfold Wing.dims
  rw [h3, hs]

/-- Panel counts of the wings a wing movement generates. -/
def WingMovement.dims (wm : WingMovement) : ℕ × ℕ :=
  (wm.base.spec.numChordwisePanels,
    (if wm.base.spec.symmetric then 2 else 1)
      * ((wm.sectionMovements.map (·.base.numSpanwisePanels)).dropLast).sum)

theorem sectionHistory_count {n : ℕ} {dt : ℝ} {last : Option (List WingCrossSection)}
    {m : WingCrossSectionMovement} {h : List WingCrossSection}
    (hh : WingMovement.sectionHistory n dt last m = .ok h) :
    h.length = n ∧ ∀ s ∈ h, s.numSpanwisePanels = m.base.numSpanwisePanels := by
  have key : ∀ {v : Bool} {l : List V3} {a b c : ℝ}, m.generate n dt l v a b c = .ok h →
      h.length = n ∧ ∀ s ∈ h, s.numSpanwisePanels = m.base.numSpanwisePanels := by
    intro v l a b c hg
    obtain ⟨sw, pi, he, _, _, _, hl, hk⟩ := WingCrossSectionMovement.generate_ok hg
    refine ⟨hl, ?_⟩
    intro s hs
    obtain ⟨k, hk'⟩ := List.getElem?_of_mem hs
    obtain ⟨s', e1, e2⟩ := hk k (by have := (List.getElem?_eq_some_iff.mp hk').1; omega)
    rw [hk'] at e1
    cases e1
    split_ifs at e2 <;> rw [rebuild_ok e2]
  unfold WingMovement.sectionHistory at hh
  cases last with
  | none =>
    simp only at hh
    split_ifs at hh
    exact key hh
  | some prev =>
    cases prev with
    | nil => simp at hh
    | cons a l =>
      simp only at hh
      split_ifs at hh
      all_goals exact key hh

theorem WingMovement.generate_dims {wm : WingMovement} {n : ℕ} {dt : ℝ} {wings : List Wing}
    (h : wm.generate n dt = .ok wings) : wings.length = n ∧ ∀ w ∈ wings, w.Made ∧ w.dims = wm.dims := by
  obtain ⟨xs, ys, zs, hs, _, _, _, h4, hl, hk⟩ := WingMovement.generate_ok h
  refine ⟨hl, ?_⟩
  intro w hw
  obtain ⟨k, hk'⟩ := List.getElem?_of_mem hw
  have hkn : k < n := by have := (List.getElem?_eq_some_iff.mp hk').1; omega
  obtain ⟨w', e1, e2⟩ := hk k hkn
  rw [hk'] at e1; cases e1
  refine ⟨⟨_, _, _, _, _, _, _, e2⟩, ?_⟩
  rw [Wing.create_dims e2]
  obtain ⟨hlen, hj⟩ := sectionHistories_ok h4
  have hcol : (hs.filterMap (·[k]?)).map (·.numSpanwisePanels)
      = wm.sectionMovements.map (·.base.numSpanwisePanels) := by
    have hall : ∀ h ∈ hs, k < h.length := by
      intro hh hmem
      obtain ⟨j, hjj⟩ := List.getElem?_of_mem hmem
      have hjlt := (List.getElem?_eq_some_iff.mp hjj).1
      obtain ⟨h', e, hl', _⟩ := hj j _ (List.getElem?_eq_getElem (by omega))
      rw [hjj] at e; cases e; omega
    apply List.ext_getElem?
    intro j
    rw [List.getElem?_map, List.getElem?_map, column_getElem? _ _ hall]
    cases hm : wm.sectionMovements[j]? with
    | none =>
      have : hs[j]? = none := by
        rw [List.getElem?_eq_none_iff] at hm ⊢; omega
      simp [this]
    | some m =>
      obtain ⟨h', e, hl', hh⟩ := hj j m hm
      obtain ⟨_, hc⟩ := sectionHistory_count hh
      have hkl : k < h'.length := by omega
      rw [e]
      simp only [Option.bind_some, List.getElem?_eq_getElem hkl, Option.map_some, Option.some.injEq]
      exact hc _ (List.getElem_mem hkl)
  unfold WingMovement.dims
  rw [← hcol, List.map_dropLast]

theorem AirplaneMovement.generate_dims {am : AirplaneMovement} {n : ℕ} {dt : ℝ} {as : List Airplane}
    (h : am.generate n dt = .ok as) :
    as.length = n ∧ ∀ a ∈ as, a.Made ∧ a.wings.map Wing.dims = am.wingMovements.map WingMovement.dims := by
  obtain ⟨xs, ys, zs, ws, _, _, _, h4, hl, hk⟩ := AirplaneMovement.generate_ok h
  refine ⟨hl, ?_⟩
  intro a ha
  obtain ⟨k, hk'⟩ := List.getElem?_of_mem ha
  have hkn : k < n := by have := (List.getElem?_eq_some_iff.mp hk').1; omega
  obtain ⟨a', e1, e2⟩ := hk k hkn
  rw [hk'] at e1; cases e1
  have hgen : ∀ ws' ∈ ws, ∃ wm ∈ am.wingMovements, wm.generate n dt = .ok ws' := fun ws' h' => mapM_mem' h4 h'
  have hall : ∀ h ∈ ws, k < h.length := by
    intro h' hm
    obtain ⟨wm, _, hg⟩ := hgen h' hm
    rw [(WingMovement.generate_dims hg).1]; exact hkn
  have hmade : ∀ w ∈ ws.filterMap (·[k]?), w.Made := by
    intro w hw
    obtain ⟨h', hm, e⟩ := List.mem_filterMap.mp hw
    obtain ⟨wm, _, hg⟩ := hgen h' hm
    exact ((WingMovement.generate_dims hg).2 w (List.mem_of_getElem? e)).1
  refine ⟨⟨_, _, _, _, _, _, e2, hmade⟩, ?_⟩
  have hw : a.wings = ws.filterMap (·[k]?) := by
    unfold Airplane.create at e2
    cases hws : ws.filterMap (·[k]?) with
    | nil => rw [hws] at e2; simp at e2
    | cons w l => rw [hws] at e2; simp only [Except.ok.injEq] at e2; rw [← e2]
  rw [hw]
  apply List.ext_getElem?
  intro j
  rw [List.getElem?_map, List.getElem?_map, column_getElem? _ _ hall]
  cases hm : am.wingMovements[j]? with
  | none =>
    have : ws[j]? = none := by
      have := mapM_length h4
      rw [List.getElem?_eq_none_iff] at hm ⊢; omega
    simp [this]
  | some wm =>
    obtain ⟨h', e, hg⟩ := mapM_getElem? h4 j wm hm
    obtain ⟨hl', hd⟩ := WingMovement.generate_dims hg
    have hkl : k < h'.length := by omega
    rw [e]
    simp only [Option.bind_some, List.getElem?_eq_getElem hkl, Option.map_some, Option.some.injEq]
    exact (hd _ (List.getElem_mem hkl)).2

/-- What the constructors guarantee about the steps of an unsteady problem. -/
structure UnsteadyProblem.Regular (p : UnsteadyProblem) : Prop where
  steps : p.steadyProblems.length = p.numSteps
  made : ∀ k, ∀ a ∈ p.airplanesAt k, a.Made
  same : ∀ k < p.numSteps, layout (p.airplanesAt k) = layout (p.airplanesAt 0)

theorem UnsteadyProblem.create_regular {ams : List AirplaneMovement} {om : OperatingPointMovement} {ns nc nch : Option ℕ}
    {dt : Option ℝ} {mv : Movement} {only : Bool} {p : UnsteadyProblem}
    (h1 : Movement.create ams om ns nc nch dt = .ok mv) (h2 : UnsteadyProblem.create mv only = .ok p) : p.Regular := by
  obtain ⟨_, _, _, ha, _, hams, hom⟩ := Movement.create_ok h1
  have hP : ∃ P, movementMaxPeriod ams om = .ok P := by
    unfold UnsteadyProblem.create at h2
    obtain ⟨P, hP, _⟩ := bind_ok.mp h2
    unfold Movement.maxPeriod at hP
    rw [hams, hom] at hP
    exact ⟨P, hP⟩
  obtain ⟨P, hP⟩ := hP
  obtain ⟨up, e, hn, _, _, hl, hk⟩ := C31_steady_problems ams om ns nc nch dt mv h1 P hP only
  rw [h2] at e; cases e
  obtain ⟨hf, _⟩ := C31_histories ams om ns nc nch dt mv h1
  have key : ∀ k < p.numSteps, (∀ a ∈ p.airplanesAt k, a.Made) ∧
      layout (p.airplanesAt k) = ams.map fun am => am.wingMovements.map WingMovement.dims := by
    intro k hk'
    obtain ⟨sp, hsp, hpair, _⟩ := hk k (by omega)
    have e : p.airplanesAt k = sp.airplanes := by simp [UnsteadyProblem.airplanesAt, hsp]
    rw [e]
    have key2 : ∀ {hs : List (List Airplane)} {as : List Airplane},
        List.Forall₂ (fun (history : List Airplane) a => history[k]? = some a) hs as → ∀ {ams' : List AirplaneMovement},
        List.Forall₂ (fun (am : AirplaneMovement) history => am.generate mv.numSteps mv.deltaTime = .ok history ∧
          history.length = mv.numSteps) ams' hs →
        (∀ a ∈ as, a.Made) ∧ layout as = ams'.map fun am => am.wingMovements.map WingMovement.dims := by
      intro hs as hp
      induction hp with
      | nil => intro ams' h'; cases h'; simp [layout]
      | cons hab _ ih =>
        intro ams' h'
        cases h' with
        | cons hg ht =>
          obtain ⟨i1, i2⟩ := ih ht
          obtain ⟨_, hd⟩ := AirplaneMovement.generate_dims hg.1
          have := hd _ (List.mem_of_getElem? hab)
          refine ⟨?_, ?_⟩
          · intro a ha
            rcases List.mem_cons.mp ha with rfl | ha
            · exact this.1
            · exact i1 a ha
          · simp only [layout, List.map_cons, List.cons.injEq] at i2 ⊢
            exact ⟨this.2, i2⟩
    exact key2 hpair hf
  refine ⟨by rw [hl, hn], ?_, ?_⟩
  · intro k a ha
    by_cases hk' : k < p.numSteps
    · exact (key k hk').1 a ha
    · have : p.steadyProblems[k]? = none := List.getElem?_eq_none_iff.mpr (by omega)
      simp [UnsteadyProblem.airplanesAt, this] at ha
  · intro k hk'
    rw [(key k hk').2, (key 0 (by omega)).2]

theorem UnsteadyProblem.withViscosity_airplanes (p : UnsteadyProblem) (nu : ℕ → ℝ) (k : ℕ) :
    (p.withViscosity nu).airplanesAt k = p.airplanesAt k := by
  unfold UnsteadyProblem.airplanesAt UnsteadyProblem.withViscosity
  simp only [List.getElem?_mapIdx, Option.map_map]
  rfl

theorem UnsteadyProblem.withViscosity_operatingPoint (p : UnsteadyProblem) (nu : ℕ → ℝ) (k : ℕ)
    (hk : k < p.steadyProblems.length) :
    (p.withViscosity nu).operatingPointAt k = { p.operatingPointAt k with nu := nu k } := by
  unfold UnsteadyProblem.operatingPointAt UnsteadyProblem.withViscosity
  simp [List.getElem?_mapIdx, List.getElem?_eq_getElem hk]

theorem UnsteadyProblem.Regular.withViscosity {p : UnsteadyProblem} (h : p.Regular) (nu : ℕ → ℝ) :
    (p.withViscosity nu).Regular := by
  refine ⟨?_, ?_, ?_⟩
  · simp only [UnsteadyProblem.withViscosity, List.length_mapIdx]
    exact h.steps
  · intro k
    rw [p.withViscosity_airplanes nu k]
    exact h.made k
  · intro k hk
    rw [p.withViscosity_airplanes nu k, p.withViscosity_airplanes nu 0]
    exact h.same k hk

theorem UnsteadyProblem.Made.regular {p : UnsteadyProblem} (h : p.Made) : p.Regular := by
  obtain ⟨_, _, _, _, _, _, mv, only, q, h1, h2, rfl | ⟨nu, -, rfl⟩⟩ := h
  · exact UnsteadyProblem.create_regular h1 h2
  · exact (UnsteadyProblem.create_regular h1 h2).withViscosity nu

/-- Viscosities of an accepted problem can be set. -/
theorem UnsteadyProblem.Made.withViscosity {p : UnsteadyProblem} (h : p.Made) (nu : ℕ → ℝ) (hnu : ∀ k, 0 ≤ nu k) :
    (p.withViscosity nu).Made := by
  obtain ⟨_, _, _, _, _, _, mv, only, q, h1, h2, rfl | ⟨nu', -, rfl⟩⟩ := h
  · exact ⟨_, _, _, _, _, _, mv, only, p, h1, h2, .inr ⟨nu, hnu, rfl⟩⟩
  · refine ⟨_, _, _, _, _, _, mv, only, q, h1, h2, .inr ⟨nu, hnu, ?_⟩⟩
    unfold UnsteadyProblem.withViscosity
    simp only [List.mapIdx_mapIdx]
    rfl

theorem UnsteadyProblem.wing?_dims (p : UnsteadyProblem) (w : WingRef) :
    (p.wing? w).map Wing.dims = ((layout (p.airplanesAt w.step))[w.airplane]?).bind (·[w.wing]?) := by
  unfold UnsteadyProblem.wing? layout
  rw [List.getElem?_map]
  cases (p.airplanesAt w.step)[w.airplane]? with
  | none => rfl
  | some a => simp

/-- Wings at the same place in different steps have the same panel counts. -/
theorem UnsteadyProblem.Regular.wing_same {p : UnsteadyProblem} (h : p.Regular) {j k : ℕ} (hj : j < p.numSteps)
    (hk : k < p.numSteps) (a w : ℕ) :
    (p.wing? ⟨j, a, w⟩).map Wing.dims = (p.wing? ⟨k, a, w⟩).map Wing.dims := by
  rw [p.wing?_dims, p.wing?_dims, h.same j hj, h.same k hk]

theorem UnsteadyProblem.Regular.wing_made {p : UnsteadyProblem} (h : p.Regular) {w : WingRef} {wing : Wing}
    (hw : p.wing? w = some wing) : wing.Made := by
  unfold UnsteadyProblem.wing? at hw
  obtain ⟨a, ha, hw⟩ := Option.bind_eq_some_iff.mp hw
  exact (h.made _ a (List.mem_of_getElem? ha)).wings wing (List.mem_of_getElem? hw)

theorem mem_wingRefs {p : UnsteadyProblem} {k : ℕ} {w : WingRef} :
    w ∈ wingRefs k (p.airplanesAt k) ↔ w.step = k ∧ ∃ wing, p.wing? w = some wing := by
  unfold wingRefs UnsteadyProblem.wing?
  simp only [List.mem_flatMap, List.mem_map, List.mem_range, Prod.exists, List.mk_mem_zipIdx_iff_getElem?]
  constructor
  · rintro ⟨a, i, ha, j, hj, rfl⟩
    exact ⟨rfl, a.wings[j], by simp [ha, hj]⟩
  · rintro ⟨rfl, wing, h⟩
    obtain ⟨a, ha, hw⟩ := Option.bind_eq_some_iff.mp h
    exact ⟨a, w.airplane, ha, w.wing, (List.getElem?_eq_some_iff.mp hw).1, rfl⟩

theorem wingRefs_nodup (k : ℕ) (as : List Airplane) : (wingRefs k as).Nodup := by
  unfold wingRefs
  apply nodup_zipIdx_flatMap _ _ _ (·.airplane)
  · intro x _ b hb
    simp only [List.mem_map] at hb
    obtain ⟨_, _, rfl⟩ := hb; rfl
  · intro x _
    apply List.Nodup.map _ List.nodup_range
    intro i j h
    simpa using h

end Ptera
