import Verif.Lemmas.UnsteadyLayout
import Verif.Props.Motion

/-! The airplanes of an unsteady problem are generated by airplane movements: their reference dimensions are those of their
first wings, and their cross sections lie in planes with the default normal. -/

namespace Ptera

/-- The airplanes at each step, movement by movement. -/
theorem UnsteadyProblem.create_generated {ams : List AirplaneMovement} {om : OperatingPointMovement} {ns nc nch : Option ℕ}
    {dt : Option ℝ} {mv : Movement} {only : Bool} {p : UnsteadyProblem}
    (h1 : Movement.create ams om ns nc nch dt = .ok mv) (h2 : UnsteadyProblem.create mv only = .ok p) {k : ℕ}
    (hk : k < p.numSteps) : p.numSteps = mv.numSteps ∧ p.deltaTime = mv.deltaTime ∧
    List.Forall₂ (fun (am : AirplaneMovement) a => ∃ as, am.generate mv.numSteps mv.deltaTime = .ok as ∧ as[k]? = some a)
      ams (p.airplanesAt k) ∧
    ∃ ops, om.generate mv.numSteps mv.deltaTime = .ok ops ∧ ops[k]? = some (p.operatingPointAt k) := by
  obtain ⟨_, _, _, _, g2, hams, hom⟩ := Movement.create_ok h1
  have hP : ∃ P, movementMaxPeriod ams om = .ok P := by
    unfold UnsteadyProblem.create at h2
    obtain ⟨P, hP, _⟩ := bind_ok.mp h2
    unfold Movement.maxPeriod at hP
    rw [hams, hom] at hP
    exact ⟨P, hP⟩
  obtain ⟨P, hP⟩ := hP
  obtain ⟨up, e, hn, hdt, _, _, hall⟩ := C31_steady_problems ams om ns nc nch dt mv h1 P hP only
  rw [h2] at e; cases e
  obtain ⟨hf, _⟩ := C31_histories ams om ns nc nch dt mv h1
  obtain ⟨sp, hsp, hpair, hop⟩ := hall k (by omega)
  refine ⟨hn, hdt, ?_, _, g2, by simpa [UnsteadyProblem.operatingPointAt, hsp] using hop⟩
  have e : p.airplanesAt k = sp.airplanes := by simp [UnsteadyProblem.airplanesAt, hsp]
  rw [e]
  have key : ∀ {hs : List (List Airplane)} {as : List Airplane},
      List.Forall₂ (fun (history : List Airplane) a => history[k]? = some a) hs as → ∀ {ams' : List AirplaneMovement},
      List.Forall₂ (fun (am : AirplaneMovement) history => am.generate mv.numSteps mv.deltaTime = .ok history ∧
        history.length = mv.numSteps) ams' hs →
      List.Forall₂ (fun (am : AirplaneMovement) a => ∃ as, am.generate mv.numSteps mv.deltaTime = .ok as ∧ as[k]? = some a)
        ams' as := by
    intro hs as hp
    induction hp with
    | nil => intro ams' h'; cases h'; exact .nil
    | cons hab _ ih =>
      intro ams' h'
      cases h' with
      | cons hg ht => exact .cons ⟨_, hg.1, hab⟩ (ih ht)
  exact key hpair hf

/-- A generated airplane has the dimensions of its first wing and default normals. -/
theorem AirplaneMovement.generate_defaults {am : AirplaneMovement} {n : ℕ} {dt : ℝ} {as : List Airplane}
    (h : am.generate n dt = .ok as) {k : ℕ} {a : Airplane} (ha : as[k]? = some a) :
    Airplane.create a.wings a.xyzRef = .ok a ∧ (∀ main, a.wings.head? = some main → a.sRef = main.projectedArea) ∧
      ∀ w ∈ a.wings, w.spec.unitNormal = ⟨0, 1, 0⟩ ∧ w.spec.unitChordwise = ⟨1, 0, 0⟩ ∧
        ∀ s ∈ w.sections, s.unitNormal = ⟨0, 1, 0⟩ := by
  obtain ⟨xs, ys, zs, ws, _, _, _, h4, hl, hk⟩ := AirplaneMovement.generate_ok h
  have hkn : k < n := by have := (List.getElem?_eq_some_iff.mp ha).1; omega
  obtain ⟨a', e1, e2⟩ := hk k hkn
  rw [ha] at e1; cases e1
  have hgen : ∀ ws' ∈ ws, ∃ wm ∈ am.wingMovements, wm.generate n dt = .ok ws' := fun ws' h' => mapM_mem' h4 h'
  have hw : a.wings = ws.filterMap (·[k]?) ∧ a.xyzRef = ⟨xs.getD k 0, ys.getD k 0, zs.getD k 0⟩ := by
    unfold Airplane.create at e2
    cases hws : ws.filterMap (·[k]?) with
    | nil => rw [hws] at e2; simp at e2
    | cons w l => rw [hws] at e2; simp only [Except.ok.injEq] at e2; rw [← e2]; exact ⟨rfl, rfl⟩
  rw [← hw.1, ← hw.2] at e2
  have hself : Airplane.create a.wings a.xyzRef = .ok a := by
    unfold Airplane.create at e2 ⊢; exact e2
  refine ⟨hself, ?_, ?_⟩
  · intro main hm
    unfold Airplane.create at e2
    cases hws : a.wings with
    | nil => rw [hws] at hm; simp at hm
    | cons w l =>
      rw [hws] at hm e2
      simp only [List.head?_cons, Option.some.injEq] at hm
      subst hm
      simp only [Except.ok.injEq] at e2
      rw [← e2]; rfl
  · intro w hwm
    rw [hw.1] at hwm
    obtain ⟨h', hm, e⟩ := List.mem_filterMap.mp hwm
    obtain ⟨wm, _, hg⟩ := hgen h' hm
    obtain ⟨_, _, _, H, _, _, _, hH, _, hall⟩ := WingMovement.generate_ok hg
    obtain ⟨w', e1, e3⟩ := hall k hkn
    rw [e] at e1; cases e1
    obtain ⟨hspec, _⟩ := Wing.create_ok _ _ _ _ _ _ _ w e3
    refine ⟨by rw [hspec], by rw [hspec], ?_⟩
    obtain ⟨_, _, _, _, _, _, _, hk'⟩ := C67_wings wm n dt h' hg
    have hlen := (hk' k w e).2.2.2.2
    intro s hs
    obtain ⟨j, hj⟩ := List.mem_iff_getElem?.mp hs
    obtain ⟨m, hmj⟩ : ∃ m, wm.sectionMovements[j]? = some m :=
      ⟨_, List.getElem?_eq_getElem (by have := (List.getElem?_eq_some_iff.mp hj).1; omega)⟩
    obtain ⟨s', e4, _, _, _, _, _, _, _, e5⟩ := C67_kept wm n dt h' hg j m hmj k w e
    rw [hj] at e4; cases e4
    exact e5

/-- The same for the airplanes of an unsteady problem. -/
theorem UnsteadyProblem.Made.defaults {p : UnsteadyProblem} (h : p.Made) {k : ℕ} (hk : k < p.numSteps) {a : Airplane}
    (ha : a ∈ p.airplanesAt k) :
    Airplane.create a.wings a.xyzRef = .ok a ∧ (∀ main, a.wings.head? = some main → a.sRef = main.projectedArea) ∧
      ∀ w ∈ a.wings, w.spec.unitNormal = ⟨0, 1, 0⟩ ∧ w.spec.unitChordwise = ⟨1, 0, 0⟩ ∧
        ∀ s ∈ w.sections, s.unitNormal = ⟨0, 1, 0⟩ := by
  have key : ∀ {q : UnsteadyProblem} {ams om ns nc nch dt mv only}, Movement.create ams om ns nc nch dt = .ok mv →
      UnsteadyProblem.create mv only = .ok q → k < q.numSteps → a ∈ q.airplanesAt k → ∃ (am : AirplaneMovement) (n : ℕ)
        (t : ℝ) (as : List Airplane), am.generate n t = .ok as ∧ as[k]? = some a := by
    intro q ams om ns nc nch dt mv only h1 h2 hk ha
    obtain ⟨_, _, hf, _⟩ := UnsteadyProblem.create_generated h1 h2 hk
    obtain ⟨i, hi⟩ := List.mem_iff_getElem?.mp ha
    obtain ⟨l, rfl⟩ := List.getElem?_eq_some_iff.mp hi
    obtain ⟨as, g1, g2⟩ := hf.get (by rw [hf.length_eq]; exact l) l
    exact ⟨_, _, _, as, g1, g2⟩
  obtain ⟨_, _, _, _, _, _, mv, only, q, h1, h2, rfl | ⟨nu, -, rfl⟩⟩ := h
  · obtain ⟨_, _, _, _, g1, g2⟩ := key h1 h2 hk ha
    exact AirplaneMovement.generate_defaults g1 g2
  · rw [UnsteadyProblem.withViscosity_airplanes] at ha
    obtain ⟨_, _, _, _, g1, g2⟩ := key h1 h2 hk ha
    exact AirplaneMovement.generate_defaults g1 g2

end Ptera
