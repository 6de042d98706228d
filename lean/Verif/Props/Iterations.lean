import Verif.Props.Remesh
import Verif.Props.Convergence
import Verif.Props.Output
import Verif.Props.UnsteadyExample

/-!
# C50: what the settings of a convergence study are judged by; C54: the streamlines that are drawn
-/

namespace Ptera

open UnsteadySolver

/-- The airplane `a'` is the airplane `a` with other panels. -/
def Airplane.Remeshed (a a' : Airplane) (chordwise : ℕ) (ratio : ℤ) : Prop :=
  a'.xyzRef = a.xyzRef ∧ a'.weight = a.weight ∧
    List.Forall₂ (fun w w' => w.Remeshed w' chordwise ratio) a.wings a'.wings

/-- The result of a setting of a steady study is what the study says it is: for every airplane the magnitudes of the
force and moment coefficients that a new solver of the given type finds for the reference's operating point and the
remeshed airplanes. -/
theorem C50_steady_iteration {renew : Airfoil → Except Err Airfoil} {ref : SteadyProblem} {solverType : String}
    {ratio chordwise : ℤ} {r : List (ℝ × ℝ)} (h : steadyIteration renew ref solverType ratio chordwise = .ok r) :
    ∃ (airplanes : List Airplane) (loads : List AirplaneLoads),
      List.Forall₂ (fun a a' => a.Remeshed a' chordwise.toNat ratio) ref.airplanes airplanes ∧
      ((solverType = "steady horseshoe vortex lattice method" ∧
          ∃ s, (HorseshoeSolver.create ⟨airplanes, ref.operatingPoint⟩).run = .ok s ∧ s.loads = loads) ∨
        (solverType = "steady ring vortex lattice method" ∧
          ∃ s, (RingSolver.create ⟨airplanes, ref.operatingPoint⟩).run = .ok s ∧ s.loads = loads)) ∧
      r.length = loads.length ∧
      ∀ (i : ℕ) (L : AirplaneLoads), loads[i]? = some L → r[i]? = some
        (√(L.forceCoefficients.x ^ 2 + L.forceCoefficients.y ^ 2 + L.forceCoefficients.z ^ 2),
          √(L.momentCoefficients.x ^ 2 + L.momentCoefficients.y ^ 2 + L.momentCoefficients.z ^ 2)) := by
  unfold steadyIteration at h
  obtain ⟨airplanes, ha, h⟩ := bind_ok.mp h
  obtain ⟨loads, hl, h⟩ := bind_ok.mp h
  rw [pure_ok] at h
  refine ⟨airplanes, loads, ?_, ?_, by rw [← h, List.length_map], ?_⟩
  · exact (mapM_forall₂.1 ha).imp fun a a' e => C56_steady_partial e
  · unfold solveSteady at hl
    split_ifs at hl with h1 h2
    · obtain ⟨s, hs, e⟩ := bind_ok.mp hl
      exact Or.inl ⟨h1, s, hs, pure_ok.mp e⟩
    · obtain ⟨s, hs, e⟩ := bind_ok.mp hl
      exact Or.inr ⟨h2, s, hs, pure_ok.mp e⟩
  · intro i L hi
    rw [← h, List.getElem?_map, hi]
    simp [V3.norm, V3.dot, pow_two]

/-- Remeshing the plate of span 1 and chord 1 with panels of the aspect ratio 1. -/
theorem plates_remesh {e : ℕ} {w : Wing}
    (hw : Wing.create (plates e) ⟨0, 0, 0⟩ ⟨0, 1, 0⟩ false ⟨1, 0, 0⟩ 1 "uniform" = .ok w) :
    remeshSections (fun f => .ok f) 1 1 w.sections = .ok (plates 0) ∧
      remeshWing w (plates 0) 1 = Wing.create (plates 0) ⟨0, 0, 0⟩ ⟨0, 1, 0⟩ false ⟨1, 0, 0⟩ 1 "uniform" := by
  obtain ⟨f1, f2⟩ := Wing.create_fields hw
  have c1 : spanwiseCount 1 1 1 1 1 = .ok 1 := by
    have : pyRound (1 : ℝ) = 1 := by
      have := pyRound_int 1
      simpa using this
    norm_num [spanwiseCount] at this ⊢
    rw [this]; rfl
  constructor
  · rw [f2]
    have h2 : ¬ (1 : ℝ) ≤ 0 := by norm_num
    simp [plates, plateSection, remeshSections, remeshSection, c1, bind, Except.bind, pure, Except.pure,
      WingCrossSection.create, h2]
  · unfold remeshWing
    rw [f1]
    rfl

/-- A case that meets the hypothesis: a plate in any flow mostly from ahead. -/
example (op : OperatingPoint) (hd : |op.freestreamDirection.y| ≤ op.freestreamDirection.x) :
    ∃ (a : Airplane) (r : List (ℝ × ℝ)), a.Made ∧
      steadyIteration (fun f => .ok f) ⟨[a], op⟩ "steady horseshoe vortex lattice method" 1 1 = .ok r := by
  obtain ⟨w, hw⟩ : ∃ w, Wing.create (plates 1) ⟨0, 0, 0⟩ ⟨0, 1, 0⟩ false ⟨1, 0, 0⟩ 1 "uniform" = .ok w :=
    let ⟨_, _, h⟩ := plates_create 1 0; ⟨_, h⟩
  obtain ⟨w', hw'⟩ : ∃ w, Wing.create (plates 0) ⟨0, 0, 0⟩ ⟨0, 1, 0⟩ false ⟨1, 0, 0⟩ 1 "uniform" = .ok w :=
    let ⟨_, _, h⟩ := plates_create 0 0; ⟨_, h⟩
  obtain ⟨h1, h2⟩ := plates_remesh hw
  obtain ⟨p1, p2, p3, p4⟩ := strip_panels 0 0 hw'
  obtain ⟨q1, q2⟩ := strip_references 0 0 hw'
  obtain ⟨a', ha', hwings⟩ : ∃ a' : Airplane, Airplane.create [w'] (xyzRef := 0) (weight := 0) = .ok a' ∧
      a'.wings = [w'] := ⟨_, rfl, rfl⟩
  have hm' : a'.Made := ⟨[w'], 0, 0, none, none, none, ha', by simpa using ⟨_, _, _, _, _, _, _, hw'⟩⟩
  obtain ⟨s, hs⟩ : ∃ s, (HorseshoeSolver.create ⟨[a'], op⟩).run = .ok s :=
    (plate_horseshoe_run op hm' (by simp [panelRefs, airplaneRefs, hwings, p2, List.zipIdx])
      (by simp [panelAt, wingAt, hwings, p2, squareAt, unitSquare]) (by simp [wingAt, hwings, q1]) hd _ _).imp
      fun _ h => h.1
  let a : Airplane := { wings := [w], xyzRef := 0, weight := 0, sRef := 1, cRef := 1, bRef := 1
                        numPanels := ([w].map (·.numPanels)).sum }
  refine ⟨a, s.loads.map fun l => (l.forceCoefficients.norm, l.momentCoefficients.norm),
    ⟨[w], 0, 0, some 1, some 1, some 1, rfl, by simpa using ⟨_, _, _, _, _, _, _, hw⟩⟩, ?_⟩
  have hr : remeshAirplane (fun f => .ok f) 1 1 a = .ok a' := by
    simp only [remeshAirplane, a, List.mapM_cons, List.mapM_nil, h1, h2, hw', bind, Except.bind, pure, Except.pure]
    exact ha'
  simp only [steadyIteration, List.mapM_cons, List.mapM_nil, hr, bind, Except.bind, pure, Except.pure, solveSteady,
    if_true, hs]

/-- The movement `m'` is the movement `m` with other panels. -/
def AirplaneMovement.Remeshed (m m' : AirplaneMovement) (chordwise : ℕ) (ratio : ℤ) : Prop :=
  m'.xRef = m.xRef ∧ m'.yRef = m.yRef ∧ m'.zRef = m.zRef ∧ m'.base.xyzRef = m.base.xyzRef ∧
    m'.base.weight = m.base.weight ∧ m'.base.wings = m'.wingMovements.map (·.base) ∧
    List.Forall₂ (fun w w' =>
      w'.xLe = w.xLe ∧ w'.yLe = w.yLe ∧ w'.zLe = w.zLe ∧
      ({ w.base with sections := w.sectionMovements.map (·.base) } : Wing).Remeshed w'.base chordwise ratio ∧
      w'.sectionMovements.map (·.base) = w'.base.sections ∧
      List.Forall₂ (fun s s' => s'.sweeping = s.sweeping ∧ s'.pitching = s.pitching ∧ s'.heaving = s.heaving)
        w.sectionMovements w'.sectionMovements) m.wingMovements m'.wingMovements

/-- `l` lists the entries of `all` at the places where the mask is set, in order. -/
def Selects (mask : List Bool) (all l : List ℝ) : Prop :=
  l.length = mask.count true ∧
    ∀ j, mask[j]? = some true → ∃ x, all[j]? = some x ∧ l[(mask.take j).count true]? = some x

theorem selects_zip : ∀ (mask : List Bool) (all : List ℝ), mask.length = all.length →
    Selects mask all ((List.zip mask all).filterMap fun t => if t.1 then some t.2 else none)
  | [], all, _ => ⟨by simp, fun j h => by simp at h⟩
  | b :: mask, [], h => by simp at h
  | b :: mask, x :: all, h => by
    obtain ⟨h1, h2⟩ := selects_zip mask all (by simpa using h)
    cases b with
    | true =>
      refine ⟨by simpa using h1, ?_⟩
      rintro (_ | j) hj
      · exact ⟨x, by simp, by simp⟩
      · obtain ⟨y, e1, e2⟩ := h2 j (by simpa using hj)
        exact ⟨y, by simpa using e1, by simpa using e2⟩
    | false =>
      refine ⟨by simpa using h1, ?_⟩
      rintro (_ | j) hj
      · simp at hj
      · obtain ⟨y, e1, e2⟩ := h2 j (by simpa using hj)
        exact ⟨y, by simpa using e1, by simpa using e2⟩

/-- The result of a setting of an unsteady study is what the study says it is: a new solver is run with the setting's
wake state on the remeshed airplanes in the reference's motion, for as many chords (if nothing moves) or cycles as the
setting says, and for every airplane the selected coefficients are the final ones (if nothing moves) or the root mean
squares. -/
theorem C50_unsteady_iteration {renew : Airfoil → Except Err Airfoil} {ref : Movement} {static : Bool}
    {mask : List Bool} {prescribed : Bool} {length ratio chordwise : ℤ} {r : List (List ℝ)}
    (h : unsteadyIteration renew ref static mask prescribed length ratio chordwise = .ok r) :
    ∃ (airplanes : List AirplaneMovement) (movement : Movement) (p : UnsteadyProblem) (s s' : UnsteadySolver),
      List.Forall₂ (fun m m' => m.Remeshed m' chordwise.toNat ratio) ref.airplaneMovements airplanes ∧
      0 ≤ length ∧
      (static = true →
        Movement.create airplanes ref.operatingPointMovement (numChords := some length.toNat) = .ok movement) ∧
      (static = false →
        Movement.create airplanes ref.operatingPointMovement (numCycles := some length.toNat) = .ok movement) ∧
      UnsteadyProblem.create movement true = .ok p ∧ UnsteadySolver.create p = .ok s ∧
      s.run prescribed false = .ok s' ∧ r.length = ref.airplaneMovements.length ∧
      ∀ i < ref.airplaneMovements.length, ∃ (f m : V3) (l : List ℝ),
        (static = true → s'.final.forceCoefficients[i]? = some f ∧ s'.final.momentCoefficients[i]? = some m) ∧
        (static = false → s'.finalRms.forceCoefficients[i]? = some f ∧ s'.finalRms.momentCoefficients[i]? = some m) ∧
        r[i]? = some l ∧ Selects mask [f.x, f.y, f.z, m.x, m.y, m.z] l := by
  unfold unsteadyIteration at h
  obtain ⟨airplanes, ha, h⟩ := bind_ok.mp h
  obtain ⟨movement, hm, h⟩ := bind_ok.mp h
  obtain ⟨p, hp, h⟩ := bind_ok.mp h
  obtain ⟨s, hs, h⟩ := bind_ok.mp h
  obtain ⟨s', hs', h⟩ := bind_ok.mp h
  unfold lengthenedMovement at hm
  have hlen : ¬ length < 0 := by
    intro hneg
    rw [if_pos hneg] at hm
    cases hm
  rw [if_neg hlen] at hm
  have hal := mapM_length ha
  refine ⟨airplanes, movement, p, s, s', (mapM_forall₂.1 ha).imp fun m m' e => C56_unsteady_partial e, by omega, ?_, ?_,
    hp, hs, hs', ?_, ?_⟩
  · rintro rfl; simpa using hm
  · rintro rfl; simpa using hm
  · unfold selectedResults at h
    rw [(mapM_range h).1, hal]
  · intro i hi
    unfold selectedResults at h
    obtain ⟨l, hl, hf⟩ := (mapM_range h).2 i (by omega)
    split at hf
    · rename_i f m e1 e2
      unfold selectCoefficients at hf
      split_ifs at hf with h6
      refine ⟨f, m, l, ?_, ?_, hl, ?_⟩
      · rintro rfl; exact ⟨by simpa using e1, by simpa using e2⟩
      · rintro rfl; exact ⟨by simpa using e1, by simpa using e2⟩
      · rw [← Except.ok.inj hf]
        exact selects_zip mask _ (by simpa using h6)
    · cases hf

/-- A case that meets the hypothesis: one cycle of a heaving plate. -/
example (density : ℝ) (prescribed : Bool) (mask : List Bool) (hmask : mask.length = 6) :
    ∃ (ref : Movement) (r : List (List ℝ)),
      unsteadyIteration (fun f => .ok f) ref false mask prescribed 1 1 1 = .ok r := by
  obtain ⟨w, hw, hch, h⟩ := heaving_movement_of 1 (1 / 10) 1
  obtain ⟨w', hw', hch', h'⟩ := heaving_movement_of 0 (1 / 10) 1
  obtain ⟨r1, r2⟩ := plates_remesh hw
  obtain ⟨q1, q2⟩ := strip_references 0 0 hw'
  let op : OperatingPoint := { density, velocity := 10, alpha := 5, beta := 0 }
  let a : Airplane := { wings := [w], xyzRef := 0, weight := 0, sRef := 1, cRef := 1, bRef := 1
                        numPanels := ([w].map (·.numPanels)).sum }
  obtain ⟨a', ha', hwings, href⟩ : ∃ a' : Airplane, Airplane.create [w'] (xyzRef := 0) (weight := 0) = .ok a' ∧
      a'.wings = [w'] ∧ a'.cRef = w'.meanAerodynamicChord := ⟨_, rfl, rfl, rfl⟩
  obtain ⟨_, mv, _, h1, -⟩ := h a 10 (by norm_num) (1 / 10) op true
  obtain ⟨hP, mv', p, e1, e2, hp, _⟩ := h' a' 10 (by norm_num) (1 / 10) op true
  obtain ⟨-, -, -, -, -, m1, m2⟩ := Movement.create_ok h1
  refine ⟨mv, ?_⟩
  have hr : remeshAirplaneMovement (fun f => .ok f) 1 1 { base := a, wingMovements := [heave w (1 / 10) 1] } =
      .ok { base := a', wingMovements := [heave w' (1 / 10) 1] } := by
    have hsm : (heave w (1 / 10) 1).sectionMovements.map (·.base) = w.sections := by
      simp [heave, plateMovement, Function.comp_def]
    have hb : (heave w (1 / 10) 1).base = w := rfl
    have hz : List.zipWith (fun (s : WingCrossSectionMovement) t => { s with base := t })
        (heave w (1 / 10) 1).sectionMovements w'.sections = (heave w' (1 / 10) 1).sectionMovements := by
      obtain ⟨-, f2⟩ := Wing.create_fields hw
      obtain ⟨-, f2'⟩ := Wing.create_fields hw'
      simp [heave, plateMovement, f2, f2', plates]
    have hwm : remeshWingMovement (fun f => .ok f) 1 1 (heave w (1 / 10) 1) = .ok (heave w' (1 / 10) 1) := by
      simp only [remeshWingMovement, hsm, hb, r1, r2, hw', bind, Except.bind, pure, Except.pure, hz]
      rfl
    simp only [remeshAirplaneMovement, List.mapM_cons, List.mapM_nil, hwm, bind, Except.bind, pure, Except.pure,
      List.map_cons, List.map_nil]
    have hb' : (heave w' (1 / 10) 1).base = w' := rfl
    have hax : Airplane.create [w'] (xyzRef := a.xyzRef) (weight := a.weight) = .ok a' := ha'
    rw [hb', hax]
  have hl : lengthenedMovement false [{ base := a', wingMovements := [heave w' (1 / 10) 1] }] { base := op } 1 =
      .ok mv' := by
    rw [← e1]
    have hdt : chooseDeltaTime [{ base := a', wingMovements := [heave w' (1 / 10) 1] }] { base := op } none =
        .ok (1 / 10) := by
      simp [chooseDeltaTime, defaultDeltaTime, hwings, href, q2, op, hch', bind, Except.bind, pure, Except.pure]
    have hP' : movementMaxPeriod [{ base := a', wingMovements := [heave w' (1 / 10) 1] }] { base := op } = .ok 1 := by
      rw [hP]; norm_num
    have hn : runLength [{ base := a', wingMovements := [heave w' (1 / 10) 1] }] { base := op } (1 / 10) none (some 1)
        none = .ok 10 := by
      have hceil : ⌈((some 1).getD 3 : ℕ) * (1 : ℝ) / (1 / 10)⌉ = 10 := by
        have : (((some 1).getD 3 : ℕ) : ℝ) * 1 / (1 / 10) = ((10 : ℤ) : ℝ) := by norm_num
        rw [this, Int.ceil_intCast]
      simp only [runLength, hP', bind, Except.bind, pure, Except.pure, one_ne_zero, if_false]
      rw [hceil]
      rfl
    have hc : checkRunLength (.ok 1) none (some 1) none = .ok () := by
      simp [checkRunLength, bind, Except.bind, pure, Except.pure]
    have hc' : checkRunLength (.ok 1) (some 10) none none = .ok () := by
      simp [checkRunLength, pure, Except.pure]
    unfold lengthenedMovement Movement.create
    rw [if_neg (by norm_num), if_neg (by simp), hdt, hP']
    simp only [bind, Except.bind]
    rw [show (1 : ℤ).toNat = 1 from rfl, hc, hc']
    simp only [hn]
    rfl
  obtain ⟨s, hs⟩ := hp.create (by norm_num)
  have hreach : Reached p s := .fresh hs
  obtain ⟨s', hs'⟩ := hp.run (by norm_num) (by norm_num) (flies_ahead density 10 5 (by norm_num)) hreach prescribed
    false
  obtain ⟨-, -, hall⟩ := C47_periodic hp.made hreach hs' (by rw [hp.dt]; norm_num) (by rw [hp.period]; norm_num)
  obtain ⟨-, b, _, hone, -⟩ := hp.step 0 (by norm_num)
  have hlen : (p.airplanesAt 0).length = 1 := by rw [hone]; rfl
  have hfresh : s.finalRms.forceCoefficients = [] ∧ s.finalRms.momentCoefficients = [] := by
    unfold UnsteadySolver.create at hs
    split at hs
    · cases hs
    · rw [← Except.ok.inj hs]; exact ⟨rfl, rfl⟩
  obtain ⟨-, -, hF⟩ := hall (ResultLists.forceCoefficients, AirplaneLoads.forceCoefficients) (by simp [loadQuantities])
  obtain ⟨-, -, hM⟩ := hall (ResultLists.momentCoefficients, AirplaneLoads.momentCoefficients)
    (by simp [loadQuantities])
  obtain ⟨_, F, _, -, hF, -⟩ := hF 0 (by rw [hlen]; norm_num)
  obtain ⟨_, M, _, -, hM, -⟩ := hM 0 (by rw [hlen]; norm_num)
  simp only [hfresh.1, hfresh.2, List.length_nil, zero_add] at hF hM
  refine ⟨[(List.zip mask [F.x, F.y, F.z, M.x, M.y, M.z]).filterMap fun t => if t.1 then some t.2 else none], ?_⟩
  have hsel : selectedResults mask [{ base := a', wingMovements := [heave w' (1 / 10) 1] : AirplaneMovement }].length
      s'.finalRms = .ok
        [(List.zip mask [F.x, F.y, F.z, M.x, M.y, M.z]).filterMap fun t => if t.1 then some t.2 else none] := by
    simp [selectedResults, List.range_succ, hF, hM, selectCoefficients, hmask, bind, Except.bind, pure, Except.pure]
  unfold unsteadyIteration
  simp only [m1, m2, List.mapM_cons, List.mapM_nil, hr, hl, e2, hs, hs', bind, Except.bind, pure, Except.pure]
  exact hsel

/-- C54: the lines drawn for the streamlines join every point of a streamline with the next point of the same
streamline, and there are no other lines. -/
theorem C54_drawn (vel : V3 → V3) (seeds : List V3) (n : ℕ) (dt : ℝ) (a b : V3) :
    (a, b) ∈ streamlineSegments (calculateStreamlines vel seeds n dt) ↔
      ∃ (k j : ℕ) (row next : List V3), k < n ∧ (calculateStreamlines vel seeds n dt)[k]? = some row ∧
        (calculateStreamlines vel seeds n dt)[k + 1]? = some next ∧ row[j]? = some a ∧ next[j]? = some b := by
  obtain ⟨hlen, h0, hs⟩ := C54_streamlines vel seeds n dt
  have hw := C54_streamlines_width vel seeds n dt
  set P := calculateStreamlines vel seeds n dt with hP
  have hhead : (P.headD []).length = seeds.length := by
    cases hc : P with
    | nil => rw [hc] at hlen; simp at hlen
    | cons x xs => exact hw x (by rw [hc]; simp)
  unfold streamlineSegments
  simp only [List.mem_flatMap, List.mem_range, List.mem_map, Prod.mk.injEq, hhead, List.length_map, hlen]
  have hat : ∀ (k j : ℕ) (row : List V3) (x : V3), P[k]? = some row → row[j]? = some x →
      (P.map fun row => row.getD j 0).getD k 0 = x := by
    intro k j row x h1 h2
    simp [List.getD_eq_getElem?_getD, h1, h2]
  constructor
  · rintro ⟨j, hj, k, hk, e1, e2⟩
    have hk1 : k < P.length := by omega
    have hk2 : k + 1 < P.length := by omega
    have w1 := hw _ (List.getElem_mem hk1)
    have w2 := hw _ (List.getElem_mem hk2)
    refine ⟨k, j, P[k], P[k + 1], by omega, List.getElem?_eq_getElem hk1, List.getElem?_eq_getElem hk2, ?_, ?_⟩
    · rw [← e1, hat k j P[k] (P[k][j]) (List.getElem?_eq_getElem hk1) (List.getElem?_eq_getElem (by omega))]
      exact List.getElem?_eq_getElem (by omega)
    · rw [← e2, hat (k + 1) j P[k + 1] (P[k + 1][j]) (List.getElem?_eq_getElem hk2) (List.getElem?_eq_getElem (by omega))]
      exact List.getElem?_eq_getElem (by omega)
  · rintro ⟨k, j, row, next, hk, e1, e2, e3, e4⟩
    have hr := hw row (List.mem_of_getElem? e1)
    have hj := (List.getElem?_eq_some_iff.mp e3).1
    exact ⟨j, by omega, k, by omega, hat k j row a e1 e3, hat (k + 1) j next b e2 e4⟩

/-- The hypotheses are met and lines are drawn: from any seed point. -/
example (vel : V3 → V3) (p : V3) (dt : ℝ) :
    (p, p + dt • vel p) ∈ streamlineSegments (calculateStreamlines vel [p] 1 dt) := by
  obtain ⟨_, h0, hs⟩ := C54_streamlines vel [p] 1 dt
  obtain ⟨next, e1, _, e2⟩ := hs 0 _ (by norm_num) h0
  exact (C54_drawn vel [p] 1 dt _ _).mpr ⟨0, 0, _, next, by norm_num, h0, e1, rfl, e2 0 p rfl⟩

end Ptera
