import Verif.Lemmas.Motion
import Verif.Props.MaxPeriod

/-!
# Properties C30, C31 and C32: rigid flapping, aligned time steps, averaging window
-/

namespace Ptera

noncomputable section

/-! ## C30 -/

theorem movedLeadingEdge_dist (last : V3) (span sweep heave : ℝ) (hs : 0 ≤ span) :
    (WingCrossSectionMovement.movedLeadingEdge last span sweep heave - last).norm = span := by
  have h1 := Real.sin_sq_add_cos_sq (sweep * Real.pi / 180)
  have h2 := Real.sin_sq_add_cos_sq (heave * Real.pi / 180)
  unfold V3.norm
  have : (WingCrossSectionMovement.movedLeadingEdge last span sweep heave - last).dot
      (WingCrossSectionMovement.movedLeadingEdge last span sweep heave - last) = span ^ 2 := by
    simp only [V3.dot, WingCrossSectionMovement.movedLeadingEdge, V3.sub_x, V3.sub_y, V3.sub_z,
      add_sub_cancel_left]
    linear_combination span ^ 2 * h1 + span ^ 2 * Real.cos (sweep * Real.pi / 180) ^ 2 * h2
  rw [this, Real.sqrt_sq hs]

/-- C30: in every wing snapshot of every accepted wing movement, each section that is not straight above or below its
inner neighbour (at the first step) keeps its base distance from it, whatever the oscillations; sections straight above
or below stay at their base position and twist; chords, airfoils, control surfaces and panel counts never change. -/
theorem C30_rigid_sections (wm : WingMovement) (n : ℕ) (dt : ℝ) (wings : List Wing)
    (h : wm.generate n dt = .ok wings) (j : ℕ) (m : WingCrossSectionMovement)
    (hm : wm.sectionMovements[j + 1]? = some m) (w0 : Wing) (hw0 : wings[0]? = some w0)
    (s0 : WingCrossSection) (hs0 : w0.sections[j]? = some s0) (k : ℕ) (w : Wing) (hw : wings[k]? = some w) :
    ∃ inner outer, w.sections[j]? = some inner ∧ w.sections[j + 1]? = some outer ∧
      (m.base.leadingEdge.y ≠ s0.leadingEdge.y →
        (outer.leadingEdge - inner.leadingEdge).norm = (m.base.leadingEdge - s0.leadingEdge).norm) ∧
      (m.base.leadingEdge.y = s0.leadingEdge.y →
        outer.leadingEdge = m.base.leadingEdge ∧ outer.twist = m.base.twist) ∧
      outer.chord = m.base.chord ∧ outer.airfoil = m.base.airfoil ∧ outer.deflection = m.base.deflection ∧
      outer.hinge = m.base.hinge ∧ outer.controlSurfaceType = m.base.controlSurfaceType ∧
      outer.numSpanwisePanels = m.base.numSpanwisePanels ∧
      outer.spanwiseSpacing = m.base.spanwiseSpacing := by
  obtain ⟨xs, ys, zs, hs, _, _, _, hh, hlen, hk⟩ := WingMovement.generate_ok h
  obtain ⟨hsl, hj⟩ := sectionHistories_ok hh
  have hkn : k < n := by rw [← hlen]; exact (List.getElem?_eq_some_iff.mp hw).1
  have h0n : 0 < n := by omega
  have hmem : ∀ k < n, ∀ h ∈ hs, k < h.length := by
    intro k hk' h' hh'
    obtain ⟨i, hi⟩ := List.mem_iff_getElem?.mp hh'
    have hil : i < hs.length := (List.getElem?_eq_some_iff.mp hi).1
    obtain ⟨m', hm'⟩ : ∃ m', wm.sectionMovements[i]? = some m' :=
      ⟨_, List.getElem?_eq_getElem (by omega)⟩
    obtain ⟨h'', e1, e2, _⟩ := hj i m' hm'
    rw [hi] at e1; rw [Option.some.inj e1]; omega
  -- sections of a snapshot are the columns of the histories
  have hcol : ∀ k < n, ∀ w, wings[k]? = some w → ∀ i : ℕ, w.sections[i]? =
      ((hs[i]?).bind (·[k]?)).map fun s : WingCrossSection => { s with wingUnitChordwise := ⟨1, 0, 0⟩ } := by
    intro k hk' w hw i
    obtain ⟨w', hw', hc⟩ := hk k hk'
    rw [hw] at hw'; rw [← Option.some.inj hw'] at hc
    obtain ⟨hspec, hacc⟩ := Wing.create_ok _ _ _ _ _ _ _ _ hc
    rw [hacc.stored, hspec, withChordwise, List.getElem?_map, column_getElem? _ _ (hmem k hk')]
  obtain ⟨outerH, ho1, ho2, ho3⟩ := hj (j + 1) m hm
  rw [if_neg (by omega), Nat.add_sub_cancel] at ho3
  have hjlt : j < wm.sectionMovements.length := by
    have := (List.getElem?_eq_some_iff.mp hm).1; omega
  obtain ⟨innerH, hi1, hi2, _⟩ := hj j _ (List.getElem?_eq_getElem hjlt)
  rw [hi1] at ho3
  have i0 := hcol 0 h0n w0 hw0 j
  rw [hs0, hi1] at i0
  cases hinner : innerH with
  | nil => rw [hinner] at hi2; simp at hi2; omega
  | cons first rest =>
    have hfirst : s0 = { first with wingUnitChordwise := ⟨1, 0, 0⟩ } := by
      rw [hinner] at i0; simpa using i0
    have hs0le : s0.leadingEdge = first.leadingEdge := by rw [hfirst]
    rw [hinner] at ho3
    obtain ⟨ik, hik⟩ : ∃ s, innerH[k]? = some s := ⟨_, List.getElem?_eq_getElem (by omega)⟩
    have hinnerk := hcol k hkn w hw j
    have houterk := hcol k hkn w hw (j + 1)
    rw [hi1] at hinnerk
    rw [ho1] at houterk
    simp only [Option.bind_some, hik, Option.map_some] at hinnerk
    simp only [WingMovement.sectionHistory] at ho3
    rw [hs0le]
    split_ifs at ho3 with hy
    · obtain ⟨sw, pi, he, _, _, _, hl, hg⟩ := WingCrossSectionMovement.generate_ok ho3
      obtain ⟨ok, hok, hb⟩ := hg k hkn
      simp only [Bool.false_eq_true, if_false] at hb
      have hb' := rebuild_ok hb
      simp only [Option.bind_some, hok, Option.map_some] at houterk
      refine ⟨_, _, hinnerk, houterk, ?_, ?_, by rw [hb'], by rw [hb'], by rw [hb'], by rw [hb'], by rw [hb'],
        by rw [hb'], by rw [hb']⟩
      · intro _
        rw [hb']
        have e : (List.map (fun x => x.leadingEdge) (first :: rest)).getD k 0 = ik.leadingEdge := by
          rw [← hinner]; simp [List.getD, hik]
        simp only [e]
        rw [movedLeadingEdge_dist _ _ _ _ (Real.sqrt_nonneg _)]
        unfold V3.norm
        congr 1
        simp [V3.dot, pow_two]
      · intro e; exact absurd e hy
    · obtain ⟨sw, pi, he, _, _, _, hl, hg⟩ := WingCrossSectionMovement.generate_ok ho3
      obtain ⟨ok, hok, hb⟩ := hg k hkn
      simp only [if_true] at hb
      have hb' := rebuild_ok hb
      simp only [Option.bind_some, hok, Option.map_some] at houterk
      refine ⟨_, _, hinnerk, houterk, ?_, ?_, by rw [hb'], by rw [hb'], by rw [hb'], by rw [hb'], by rw [hb'],
        by rw [hb'], by rw [hb']⟩
      · intro e; exact absurd e (by simpa using hy)
      · intro _; rw [hb']; exact ⟨rfl, rfl⟩

/-! ## C31 -/

/-- C31: an accepted movement has one airplane history per airplane movement, in order, each with one snapshot per time
step, and one operating point per time step. -/
theorem C31_histories (ams : List AirplaneMovement) (om : OperatingPointMovement)
    (numSteps numCycles numChords : Option ℕ) (dt : Option ℝ) (mv : Movement)
    (h : Movement.create ams om numSteps numCycles numChords dt = .ok mv) :
    List.Forall₂ (fun (am : AirplaneMovement) history => am.generate mv.numSteps mv.deltaTime = .ok history ∧
      history.length = mv.numSteps) ams mv.airplanes ∧ mv.operatingPoints.length = mv.numSteps := by
  obtain ⟨_, _, _, ha, ho, _, _⟩ := Movement.create_ok h
  constructor
  · refine (mapM_forall₂.mp ha).imp ?_
    intro am hist hg
    obtain ⟨_, _, _, _, _, _, _, _, hl, _⟩ := AirplaneMovement.generate_ok hg
    exact ⟨hg, hl⟩
  · obtain ⟨_, _, hl, _⟩ := OperatingPointMovement.generate_ok ho; exact hl

/-- C31: the unsteady problem of an accepted movement exists and has exactly `num_steps` steady problems; the one of
step `k` holds exactly the k-th snapshot of every airplane, in order, and the k-th operating point. -/
theorem C31_steady_problems (ams : List AirplaneMovement) (om : OperatingPointMovement)
    (numSteps numCycles numChords : Option ℕ) (dt : Option ℝ) (mv : Movement)
    (h : Movement.create ams om numSteps numCycles numChords dt = .ok mv) (P : ℝ)
    (hP : movementMaxPeriod ams om = .ok P) (only : Bool) :
    ∃ up, UnsteadyProblem.create mv only = .ok up ∧ up.numSteps = mv.numSteps ∧ up.deltaTime = mv.deltaTime ∧
      up.maxPeriod = P ∧ up.steadyProblems.length = mv.numSteps ∧
      ∀ k < mv.numSteps, ∃ sp, up.steadyProblems[k]? = some sp ∧
        List.Forall₂ (fun (history : List Airplane) a => history[k]? = some a) mv.airplanes sp.airplanes ∧
        mv.operatingPoints[k]? = some sp.operatingPoint := by
  obtain ⟨hf, hol⟩ := C31_histories ams om numSteps numCycles numChords dt mv h
  obtain ⟨_, _, _, _, _, hams, hom⟩ := Movement.create_ok h
  have hstep : ∀ k < mv.numSteps, ∃ sp, steadyProblemAt mv k = .ok sp ∧
        List.Forall₂ (fun (history : List Airplane) a => history[k]? = some a) mv.airplanes sp.airplanes ∧
        mv.operatingPoints[k]? = some sp.operatingPoint := by
    intro k hk
    have hlen : ∀ hist ∈ mv.airplanes, hist.length = mv.numSteps := by
      intro hist hmem
      have key : ∀ {as : List AirplaneMovement} {L : List (List Airplane)}, List.Forall₂ (fun
          (am : AirplaneMovement) history => am.generate mv.numSteps mv.deltaTime = .ok history ∧
          history.length = mv.numSteps) as L → hist ∈ L → hist.length = mv.numSteps := by
        intro as L hf hmem
        induction hf with
        | nil => simp at hmem
        | cons hab _ ih =>
          rcases List.mem_cons.mp hmem with rfl | hmem
          · exact hab.2
          · exact ih hmem
      exact key hf hmem
    obtain ⟨as, has⟩ := mapM_exists (l := mv.airplanes)
      (f := fun (history : List Airplane) => match history[k]? with
        | some a => (.ok a : Except Err Airplane) | none => .error .indexError) (by
        intro hist hmem
        rw [List.getElem?_eq_getElem (by rw [hlen hist hmem]; exact hk)]
        exact ⟨_, rfl⟩)
    have hop : mv.operatingPoints[k]? = some mv.operatingPoints[k] := List.getElem?_eq_getElem (by omega)
    refine ⟨{ airplanes := as, operatingPoint := mv.operatingPoints[k] }, ?_, ?_, hop⟩
    · unfold steadyProblemAt
      refine bind_ok.mpr ⟨as, has, ?_⟩
      rw [hop]; rfl
    · refine (mapM_forall₂.mp has).imp ?_
      intro hist a ha
      cases hhk : hist[k]? with
      | none => rw [hhk] at ha; simp at ha
      | some a' => rw [hhk] at ha; rw [Except.ok.inj ha]
  obtain ⟨ps, hps⟩ := mapM_exists (f := steadyProblemAt mv) (l := List.range mv.numSteps) (by
    intro k hk
    obtain ⟨sp, hsp, _⟩ := hstep k (by simpa using hk)
    exact ⟨sp, hsp⟩)
  obtain ⟨hpl, hpk⟩ := mapM_range hps
  have hPm : mv.maxPeriod = .ok P := by unfold Movement.maxPeriod; rw [hams, hom, hP]
  refine ⟨_, bind_ok.mpr ⟨P, hPm, bind_ok.mpr ⟨ps, hps, pure_ok.mpr rfl⟩⟩, rfl, rfl, rfl, hpl, ?_⟩
  intro k hk
  obtain ⟨sp, h1, h2⟩ := hpk k hk
  obtain ⟨sp', h3, h4⟩ := hstep k hk
  rw [h2] at h3
  rw [← Except.ok.inj h3] at h4
  exact ⟨sp, h1, h4⟩

/-! ## C32 -/

/-- C32: the averaging window. For a static problem it is the last step. Otherwise it starts at step 0 if the run is not
longer than the period, else at the last step from which the rest of the run covers a period. -/
theorem C32_window (n : ℕ) (P dt : ℝ) (hn : 0 < n) (hP : 0 ≤ P) (hdt : 0 < dt) :
    let first := averagingStart n P dt
    0 ≤ first ∧ first < n ∧ (P = 0 → first = n - 1) ∧
    (0 < P → (n : ℝ) * dt ≤ P → first = 0) ∧
    (0 < P → P ≤ n * dt → P ≤ (n - first) * dt) ∧
    (0 < P → (n - (first + 1)) * dt < P) := by
  intro first
  rcases eq_or_lt_of_le hP with h | h
  · subst h
    have hf : first = n - 1 := by simp [first, averagingStart]
    refine ⟨by omega, by omega, fun _ => hf, ?_, ?_, ?_⟩ <;> intro h0 <;> exact absurd h0 (lt_irrefl _)
  · have hf : first = max 0 ⌊(n : ℝ) - P / dt⌋ := by simp [first, averagingStart, h.ne']
    have hpos : 0 < P / dt := by positivity
    have hlt : ⌊(n : ℝ) - P / dt⌋ < (n : ℤ) := by
      rw [Int.floor_lt]; push_cast; linarith
    have hle := Int.floor_le ((n : ℝ) - P / dt)
    have hlt2 := Int.lt_floor_add_one ((n : ℝ) - P / dt)
    refine ⟨by rw [hf]; exact le_max_left _ _, by rw [hf]; exact max_lt (by omega) hlt,
      fun h0 => absurd h0 h.ne', ?_, ?_, ?_⟩
    · intro _ hshort
      have : ⌊(n : ℝ) - P / dt⌋ ≤ 0 := by
        have : (n : ℝ) ≤ P / dt := by rw [le_div_iff₀ hdt]; exact hshort
        have h3 : (⌊(n : ℝ) - P / dt⌋ : ℝ) ≤ 0 := by linarith
        exact_mod_cast h3
      rw [hf]; exact max_eq_left this
    · intro _ hlong
      have h3 : 0 ≤ ⌊(n : ℝ) - P / dt⌋ := by
        rw [Int.le_floor]
        have : P / dt ≤ n := by rw [div_le_iff₀ hdt]; exact hlong
        push_cast; linarith
      rw [hf, max_eq_right h3]
      have : P / dt ≤ n - ⌊(n : ℝ) - P / dt⌋ := by linarith
      rwa [div_le_iff₀ hdt] at this
    · intro _
      have h4 : (n : ℝ) - P / dt < (first : ℝ) + 1 := by
        have : ⌊(n : ℝ) - P / dt⌋ ≤ first := by rw [hf]; exact le_max_right _ _
        have : (⌊(n : ℝ) - P / dt⌋ : ℝ) ≤ first := by exact_mod_cast this
        linarith
      have h5 : (n : ℝ) - (first + 1) < P / dt := by linarith
      rwa [lt_div_iff₀ hdt] at h5

/-- C32: in an unsteady problem results are calculated from a step at or before the start of the averaging window (its
start if only the final results are asked for, else the first step), which is a step of the run. -/
theorem C32_results_cover_window (mv : Movement) (only : Bool) (up : UnsteadyProblem)
    (h : UnsteadyProblem.create mv only = .ok up) (hn : 0 < mv.numSteps) (hdt : 0 < mv.deltaTime)
    (hP : 0 ≤ up.maxPeriod) :
    up.firstAveragingStep = averagingStart mv.numSteps up.maxPeriod mv.deltaTime ∧
    0 ≤ up.firstResultsStep ∧ up.firstResultsStep ≤ up.firstAveragingStep ∧
    up.firstAveragingStep < up.numSteps ∧ (only = true → up.firstResultsStep = up.firstAveragingStep) ∧
    (only = false → up.firstResultsStep = 0) := by
  unfold UnsteadyProblem.create at h
  obtain ⟨P, hp, h⟩ := bind_ok.mp h
  obtain ⟨ps, hps, h⟩ := bind_ok.mp h
  rw [pure_ok] at h
  subst h
  obtain ⟨h1, h2, _⟩ := C32_window mv.numSteps P mv.deltaTime hn hP hdt
  refine ⟨rfl, ?_, ?_, h2, ?_, ?_⟩
  · cases only <;> simp [h1]
  · cases only <;> simp [h1]
  · intro e; simp [e]
  · intro e; simp [e]

/-- Non-vacuity: ten steps of 0.1 s with a period of 0.25 s: the window starts at step 7. -/
example : averagingStart 10 0.25 0.1 = 7 := by
  unfold averagingStart
  rw [if_neg (by norm_num)]
  have : ⌊((10 : ℕ) : ℝ) - 0.25 / 0.1⌋ = 7 := by rw [Int.floor_eq_iff]; norm_num
  rw [this]; rfl

end

end Ptera
