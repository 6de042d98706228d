import Verif.Lemmas.ScaledUnsteadyLoads
import Verif.Lemmas.FasterStudy

/-! Helper lemmas: a study in other units of length and time. -/

namespace Ptera

variable {ℓ c t : ℝ}

theorem Oscillation.scaled_eq (e : ℝ) (o : Oscillation) :
    o.scaled e t = { o.faster t⁻¹ with amplitude := e * o.amplitude } := by
  simp only [Oscillation.scaled, Oscillation.faster, div_inv_eq_mul, mul_comm o.period]

theorem values_scaled (ht : 0 < t) (o : Oscillation) (base : ℝ) (n : ℕ) (dt e : ℝ) (he : e ≠ 0) :
    (o.scaled e t).values (e * base) n (t * dt) = (o.values base n dt).map (List.map (e * ·)) := by
  have := values_faster (inv_pos.mpr ht) o base n dt e he
  rw [Oscillation.scaled_eq, mul_comm t, ← div_inv_eq_mul dt t]
  exact this

theorem valuesCustom_scaled (ht : 0 < t) (o : Oscillation) (base : ℝ) (n : ℕ) (dt : ℝ) :
    (o.scaled 1 t).valuesCustom base n (t * dt) = o.valuesCustom base n dt := by
  have := valuesCustom_same (inv_pos.mpr ht) o base n dt
  rw [Oscillation.scaled_eq, mul_comm t, ← div_inv_eq_mul dt t, _root_.one_mul]
  exact this

theorem rebuild_scaled (hℓ : 0 < ℓ) (b : WingCrossSection) (le : V3) (twist : ℝ) :
    WingCrossSectionMovement.rebuild (b.inUnits ℓ) (ℓ • le) twist
      = (WingCrossSectionMovement.rebuild b le twist).map (WingCrossSection.inUnits ℓ) := by
  unfold WingCrossSectionMovement.rebuild WingCrossSection.create
  have h : ℓ * b.chord ≤ 0 ↔ b.chord ≤ 0 := by
    constructor
    · intro h
      by_contra hb
      push Not at hb
      have := mul_pos hℓ hb
      linarith
    · intro h
      exact mul_nonpos_of_nonneg_of_nonpos hℓ.le h
  have k2 : (b.inUnits ℓ).controlSurfaceType ∉ ["symmetric", "asymmetric"] ↔
      b.controlSurfaceType ∉ ["symmetric", "asymmetric"] := Iff.rfl
  have k3 : (b.inUnits ℓ).spanwiseSpacing ∉ ["cosine", "uniform"] ↔ b.spanwiseSpacing ∉ ["cosine", "uniform"] := Iff.rfl
  by_cases h1 : b.chord ≤ 0
  · rw [if_pos (show (b.inUnits ℓ).chord ≤ 0 from h.mpr h1), if_pos h1]; rfl
  · rw [if_neg (show ¬ (b.inUnits ℓ).chord ≤ 0 from fun e => h1 (h.mp e)), if_neg h1]
    by_cases h2 : b.controlSurfaceType ∉ ["symmetric", "asymmetric"]
    · rw [if_pos (k2.mpr h2), if_pos h2]; rfl
    · rw [if_neg (fun e => h2 (k2.mp e)), if_neg h2]
      by_cases h3 : b.spanwiseSpacing ∉ ["cosine", "uniform"]
      · rw [if_pos (k3.mpr h3), if_pos h3]; rfl
      · rw [if_neg (fun e => h3 (k3.mp e)), if_neg h3]; rfl

theorem movedLeadingEdge_scaled (last : V3) (span sweep heave : ℝ) :
    WingCrossSectionMovement.movedLeadingEdge (ℓ • last) (ℓ * span) sweep heave
      = ℓ • WingCrossSectionMovement.movedLeadingEdge last span sweep heave := by
  unfold WingCrossSectionMovement.movedLeadingEdge
  ext <;> simp <;> ring

theorem mapM_map_ok' {α β γ : Type} (f : α → Except Err β) (g : α → Except Err γ) (h : β → γ) (l : List α)
    (hfg : ∀ a ∈ l, g a = (f a).map h) : l.mapM g = (l.mapM f).map (List.map h) := by
  induction l with
  | nil => rfl
  | cons a l ih =>
    rw [List.mapM_cons, List.mapM_cons, hfg a (by simp), ih fun b hb => hfg b (by simp [hb])]
    cases f a with
    | error e => rfl
    | ok b =>
      cases l.mapM f with
      | error e => rfl
      | ok bs => rfl

theorem getD_smul (l : List V3) (k : ℕ) : (l.map (ℓ • ·)).getD k 0 = ℓ • l.getD k 0 := by
  simp only [List.getD_eq_getElem?_getD, List.getElem?_map]
  cases l[k]? <;> simp

theorem getD_scale (l : List ℝ) (k : ℕ) : (l.map (ℓ * ·)).getD k 0 = ℓ * l.getD k 0 := by
  simp only [List.getD_eq_getElem?_getD, List.getElem?_map]
  cases l[k]? <;> simp

theorem section_generate_scaled (hℓ : 0 < ℓ) (ht : 0 < t) (m : WingCrossSectionMovement) (n : ℕ) (dt : ℝ) (last : List V3)
    (v : Bool) (span sweep heave : ℝ) :
    (m.scaled ℓ t).generate n (t * dt) (last.map (ℓ • ·)) v (ℓ * span) sweep heave
      = (m.generate n dt last v span sweep heave).map (List.map (WingCrossSection.inUnits ℓ)) := by
  unfold WingCrossSectionMovement.generate
  have h0 : (m.base.inUnits ℓ).twist = m.base.twist := rfl
  have h1 : (m.base.inUnits ℓ).leadingEdge = ℓ • m.base.leadingEdge := rfl
  simp only [WingCrossSectionMovement.scaled, valuesCustom_scaled ht, h0, h1]
  cases m.sweeping.valuesCustom sweep n dt with
  | error e => rfl
  | ok S =>
    cases m.pitching.valuesCustom m.base.twist n dt with
    | error e => rfl
    | ok P =>
      cases m.heaving.valuesCustom heave n dt with
      | error e => rfl
      | ok H =>
        simp only [bind, Except.bind]
        apply mapM_map_ok'
        intro k _
        split
        · exact rebuild_scaled hℓ _ _ _
        · rw [getD_smul, movedLeadingEdge_scaled]
          exact rebuild_scaled hℓ _ _ _

theorem sectionHistory_scaled (hℓ : 0 < ℓ) (ht : 0 < t) (n : ℕ) (dt : ℝ) (last : Option (List WingCrossSection))
    (m : WingCrossSectionMovement) :
    WingMovement.sectionHistory n (t * dt) (last.map (List.map (WingCrossSection.inUnits ℓ))) (m.scaled ℓ t)
      = (WingMovement.sectionHistory n dt last m).map (List.map (WingCrossSection.inUnits ℓ)) := by
  have hz : ∀ x : ℝ, t * x ≠ 0 ↔ x ≠ 0 := fun x => by simp [ht.ne']
  unfold WingMovement.sectionHistory
  rcases last with - | - | ⟨first, rest⟩
  · simp only [Option.map_none]
    have h1 : ((m.scaled ℓ t).sweeping.amplitude ≠ 0 ∨ (m.scaled ℓ t).sweeping.period ≠ 0 ∨
        (m.scaled ℓ t).heaving.amplitude ≠ 0 ∨ (m.scaled ℓ t).heaving.period ≠ 0) ↔
        (m.sweeping.amplitude ≠ 0 ∨ m.sweeping.period ≠ 0 ∨ m.heaving.amplitude ≠ 0 ∨ m.heaving.period ≠ 0) := by
      simp only [WingCrossSectionMovement.scaled, Oscillation.scaled, _root_.one_mul, hz]
    by_cases h : m.sweeping.amplitude ≠ 0 ∨ m.sweeping.period ≠ 0 ∨ m.heaving.amplitude ≠ 0 ∨ m.heaving.period ≠ 0
    · rw [if_pos (h1.mpr h), if_pos h]; rfl
    · rw [if_neg (fun h2 => h (h1.mp h2)), if_neg h]
      have := section_generate_scaled hℓ ht m n dt (List.replicate n 0) false 0 0 0
      rw [List.map_replicate, smul_zero, mul_zero] at this
      exact this
  · rfl
  · simp only [Option.map_some, List.map_cons]
    have e1 : (m.scaled ℓ t).base.leadingEdge = ℓ • m.base.leadingEdge := rfl
    have e2 : (first.inUnits ℓ).leadingEdge = ℓ • first.leadingEdge := rfl
    have e3 : (rest.map (WingCrossSection.inUnits ℓ)).map (·.leadingEdge) = (rest.map (·.leadingEdge)).map (ℓ • ·) := by
      rw [List.map_map, List.map_map]; rfl
    rw [e1, e2, e3, ← smul_sub]
    generalize hd : m.base.leadingEdge - first.leadingEdge = d
    have e4 : Real.sqrt ((ℓ • d).x ^ 2 + (ℓ • d).y ^ 2 + (ℓ • d).z ^ 2) = ℓ * Real.sqrt (d.x ^ 2 + d.y ^ 2 + d.z ^ 2) := by
      have : (ℓ • d).x ^ 2 + (ℓ • d).y ^ 2 + (ℓ • d).z ^ 2 = ℓ ^ 2 * (d.x ^ 2 + d.y ^ 2 + d.z ^ 2) := by
        simp only [V3.smul_x, V3.smul_y, V3.smul_z]; ring
      rw [this, Real.sqrt_mul (sq_nonneg ℓ), Real.sqrt_sq hℓ.le]
    have e5 : (ℓ • d).z / (ℓ • d).y = d.z / d.y := by
      simp only [V3.smul_y, V3.smul_z]; exact mul_div_mul_left _ _ hℓ.ne'
    have e6 : (ℓ • d).x / (ℓ • d).y = d.x / d.y := by
      simp only [V3.smul_y, V3.smul_x]; exact mul_div_mul_left _ _ hℓ.ne'
    have e7 : ((ℓ • m.base.leadingEdge).y ≠ (ℓ • first.leadingEdge).y) ↔ m.base.leadingEdge.y ≠ first.leadingEdge.y := by
      simp [hℓ.ne']
    have e8 : ℓ • first.leadingEdge :: (rest.map (·.leadingEdge)).map (ℓ • ·)
        = (first.leadingEdge :: rest.map (·.leadingEdge)).map (ℓ • ·) := rfl
    rw [e4, e5, e6, e8]
    by_cases hy : m.base.leadingEdge.y ≠ first.leadingEdge.y
    · rw [if_pos (e7.mpr hy), if_pos hy]
      exact section_generate_scaled hℓ ht m n dt _ _ _ _ _
    · rw [if_neg (fun h => hy (e7.mp h)), if_neg hy]
      exact section_generate_scaled hℓ ht m n dt _ _ _ _ _

theorem sectionHistories_scaled (hℓ : 0 < ℓ) (ht : 0 < t) (n : ℕ) (dt : ℝ) (ms : List WingCrossSectionMovement) :
    ∀ last : Option (List WingCrossSection),
      WingMovement.sectionHistories n (t * dt) (last.map (List.map (WingCrossSection.inUnits ℓ))) (ms.map (·.scaled ℓ t))
        = (WingMovement.sectionHistories n dt last ms).map (List.map (List.map (WingCrossSection.inUnits ℓ))) := by
  induction ms with
  | nil => intro last; rfl
  | cons m ms ih =>
    intro last
    simp only [List.map_cons, WingMovement.sectionHistories, sectionHistory_scaled hℓ ht]
    cases WingMovement.sectionHistory n dt last m with
    | error e => rfl
    | ok h =>
      have := ih (some h)
      simp only [Option.map_some] at this
      simp only [Except.map, bind, Except.bind, this]
      cases WingMovement.sectionHistories n dt (some h) ms with
      | error e => rfl
      | ok rest => rfl

/-- The movements in other units. -/
noncomputable def WingMovement.scale (ℓ t : ℝ) (m : WingMovement) : WingMovement :=
  { base := m.base.scale ℓ, sectionMovements := m.sectionMovements.map (·.scaled ℓ t), xLe := m.xLe.scaled ℓ t
    yLe := m.yLe.scaled ℓ t, zLe := m.zLe.scaled ℓ t }

noncomputable def AirplaneMovement.scale (ℓ t : ℝ) (m : AirplaneMovement) : AirplaneMovement :=
  { base := m.base.scale ℓ, wingMovements := m.wingMovements.map (·.scale ℓ t), xRef := m.xRef.scaled ℓ t
    yRef := m.yRef.scaled ℓ t, zRef := m.zRef.scaled ℓ t }

theorem WingMovement.Scaled.eq (hℓ : 0 < ℓ) {m m' : WingMovement} (h : m.Scaled ℓ t m') : m' = m.scale ℓ t := by
  obtain ⟨h1, h2⟩ := h
  rw [h2, h1.eq hℓ]
  rfl

theorem AirplaneMovement.Scaled.eq (hℓ : 0 < ℓ) {m m' : AirplaneMovement} (h : m.Scaled ℓ t m') : m' = m.scale ℓ t := by
  obtain ⟨h1, h2, h3⟩ := h
  have hw : m'.wingMovements = m.wingMovements.map (·.scale ℓ t) := by
    clear h1 h3
    generalize m.wingMovements = ws at h2 ⊢
    generalize m'.wingMovements = ws' at h2 ⊢
    induction h2 with
    | nil => rfl
    | cons h _ ih => rw [List.map_cons, h.eq hℓ, ih]
  rw [h3, h1.eq hℓ, hw]
  rfl

theorem wing_generate_scaled (hℓ : 0 < ℓ) (ht : 0 < t) (m : WingMovement) (n : ℕ) (dt : ℝ) :
    (m.scale ℓ t).generate n (t * dt) = (m.generate n dt).map (List.map (Wing.scale ℓ)) := by
  unfold WingMovement.generate
  have e1 : (m.base.scale ℓ).spec.leadingEdge.x = ℓ * m.base.spec.leadingEdge.x := rfl
  have e2 : (m.base.scale ℓ).spec.leadingEdge.y = ℓ * m.base.spec.leadingEdge.y := rfl
  have e3 : (m.base.scale ℓ).spec.leadingEdge.z = ℓ * m.base.spec.leadingEdge.z := rfl
  have e4 := sectionHistories_scaled hℓ ht n dt m.sectionMovements none
  simp only [Option.map_none] at e4
  simp only [WingMovement.scale, e1, e2, e3, values_scaled ht _ _ _ _ _ hℓ.ne', e4]
  cases m.xLe.values m.base.spec.leadingEdge.x n dt with
  | error e => rfl
  | ok X =>
    cases m.yLe.values m.base.spec.leadingEdge.y n dt with
    | error e => rfl
    | ok Y =>
      cases m.zLe.values m.base.spec.leadingEdge.z n dt with
      | error e => rfl
      | ok Z =>
        cases WingMovement.sectionHistories n dt none m.sectionMovements with
        | error e => rfl
        | ok H =>
          simp only [Except.map, bind, Except.bind]
          apply mapM_map_ok'
          intro k _
          rw [getD_scale, getD_scale, getD_scale]
          have f1 : (H.map (List.map (WingCrossSection.inUnits ℓ))).filterMap (·[k]?)
              = (H.filterMap (·[k]?)).map (WingCrossSection.inUnits ℓ) := by
            rw [List.filterMap_map, List.map_filterMap]
            congr 1
            funext x
            simp
          rw [f1]
          exact Wing.create_scaled hℓ.ne' _ ⟨X.getD k 0, Y.getD k 0, Z.getD k 0⟩ _ _ _ _ _

theorem Airplane.create_scaled (hℓ : 0 < ℓ) (wings : List Wing) (ref : V3) :
    Airplane.create (wings.map (Wing.scale ℓ)) (xyzRef := ℓ • ref)
      = (Airplane.create wings (xyzRef := ref)).map (Airplane.scale ℓ) := by
  cases wings with
  | nil => rfl
  | cons main rest =>
    simp only [List.map_cons, Airplane.create, Except.map, Airplane.scale, Wing.scale_projectedArea hℓ, Wing.scale_mac hℓ,
      Wing.scale_span hℓ, List.map_map, Option.getD_none]
    rfl

theorem airplane_generate_scaled (hℓ : 0 < ℓ) (ht : 0 < t) (m : AirplaneMovement) (n : ℕ) (dt : ℝ) :
    (m.scale ℓ t).generate n (t * dt) = (m.generate n dt).map (List.map (Airplane.scale ℓ)) := by
  unfold AirplaneMovement.generate
  have e1 : (m.base.scale ℓ).xyzRef.x = ℓ * m.base.xyzRef.x := rfl
  have e2 : (m.base.scale ℓ).xyzRef.y = ℓ * m.base.xyzRef.y := rfl
  have e3 : (m.base.scale ℓ).xyzRef.z = ℓ * m.base.xyzRef.z := rfl
  have e4 : (m.wingMovements.map (·.scale ℓ t)).mapM (fun w : WingMovement => w.generate n (t * dt))
      = (m.wingMovements.mapM (fun w : WingMovement => w.generate n dt)).map (List.map (List.map (Wing.scale ℓ))) := by
    simp only [List.mapM_map]
    exact mapM_map_ok' _ _ _ _ fun w _ => wing_generate_scaled hℓ ht w n dt
  simp only [AirplaneMovement.scale, e1, e2, e3, values_scaled ht _ _ _ _ _ hℓ.ne', e4]
  cases m.xRef.values m.base.xyzRef.x n dt with
  | error e => rfl
  | ok X =>
    cases m.yRef.values m.base.xyzRef.y n dt with
    | error e => rfl
    | ok Y =>
      cases m.zRef.values m.base.xyzRef.z n dt with
      | error e => rfl
      | ok Z =>
        cases m.wingMovements.mapM (fun w : WingMovement => w.generate n dt) with
        | error e => rfl
        | ok H =>
          simp only [Except.map, bind, Except.bind]
          apply mapM_map_ok'
          intro k _
          rw [getD_scale, getD_scale, getD_scale]
          have f1 : (H.map (List.map (Wing.scale ℓ))).filterMap (·[k]?)
              = (H.filterMap (·[k]?)).map (Wing.scale ℓ) := by
            rw [List.filterMap_map, List.map_filterMap]
            congr 1
            funext x
            simp
          rw [f1]
          exact Airplane.create_scaled hℓ _ ⟨X.getD k 0, Y.getD k 0, Z.getD k 0⟩

theorem point_generate_scaled (hc : 0 < c) (ht : 0 < t) (om : OperatingPointMovement) (n : ℕ) (dt : ℝ) :
    (om.scaled c t).generate n (t * dt)
      = (om.generate n dt).map (List.map fun op => { op with velocity := c * op.velocity }) := by
  unfold OperatingPointMovement.generate
  simp only [OperatingPointMovement.scaled, values_scaled ht _ _ _ _ _ hc.ne']
  cases om.velocity.values om.base.velocity n dt with
  | error e => rfl
  | ok vs =>
    simp only [Except.map, bind, Except.bind, pure, Except.pure, List.map_map]
    congr 1
    apply List.map_congr_left
    intro k _
    simp only [Function.comp]
    congr 1
    exact getD_scale _ _

theorem pyMax_mul (ht : 0 < t) (l : List ℝ) : pyMax (l.map (t * ·)) = (pyMax l).map (t * ·) := by
  have := pyMax_div (inv_pos.mpr ht) l
  simp only [div_inv_eq_mul, mul_comm _ t] at this
  exact this

theorem wing_maxPeriod_scaled (ht : 0 < t) (m : WingMovement) : (m.scale ℓ t).maxPeriod = m.maxPeriod.map (t * ·) := by
  unfold WingMovement.maxPeriod
  have e : (m.scale ℓ t).sectionMovements.map (·.maxPeriod) = (m.sectionMovements.map (·.maxPeriod)).map (t * ·) := by
    simp only [WingMovement.scale, List.map_map]
    apply List.map_congr_left
    intro a _
    simp only [Function.comp, WingCrossSectionMovement.maxPeriod, WingCrossSectionMovement.scaled, Oscillation.scaled,
      mul_max_of_nonneg _ _ ht.le]
  rw [e, pyMax_mul ht]
  cases pyMax (m.sectionMovements.map (·.maxPeriod)) with
  | error e => rfl
  | ok x =>
    simp only [Except.map, bind, Except.bind, pure, Except.pure, WingMovement.scale, Oscillation.scaled,
      mul_max_of_nonneg _ _ ht.le]

theorem airplane_maxPeriod_scaled (ht : 0 < t) (m : AirplaneMovement) :
    (m.scale ℓ t).maxPeriod = m.maxPeriod.map (t * ·) := by
  unfold AirplaneMovement.maxPeriod
  have e : (m.scale ℓ t).wingMovements.mapM (fun w : WingMovement => w.maxPeriod)
      = (m.wingMovements.mapM (fun w : WingMovement => w.maxPeriod)).map (List.map (t * ·)) := by
    simp only [AirplaneMovement.scale, List.mapM_map]
    exact mapM_map_ok _ _ _ _ fun a _ => wing_maxPeriod_scaled ht a
  rw [e]
  cases m.wingMovements.mapM (fun w : WingMovement => w.maxPeriod) with
  | error e => rfl
  | ok x =>
    simp only [Except.map, bind, Except.bind, pyMax_mul ht]
    cases pyMax x with
    | error e => rfl
    | ok y =>
      simp only [pure, Except.pure, AirplaneMovement.scale, Oscillation.scaled, mul_max_of_nonneg _ _ ht.le]

theorem movement_maxPeriod_scaled (ht : 0 < t) (ams : List AirplaneMovement) (om : OperatingPointMovement) :
    movementMaxPeriod (ams.map (·.scale ℓ t)) (om.scaled c t) = (movementMaxPeriod ams om).map (t * ·) := by
  unfold movementMaxPeriod
  have e : (ams.map (·.scale ℓ t)).mapM (fun a : AirplaneMovement => a.maxPeriod)
      = (ams.mapM (fun a : AirplaneMovement => a.maxPeriod)).map (List.map (t * ·)) := by
    simp only [List.mapM_map]
    exact mapM_map_ok _ _ _ _ fun a _ => airplane_maxPeriod_scaled ht a
  rw [e]
  cases ams.mapM (fun a : AirplaneMovement => a.maxPeriod) with
  | error e => rfl
  | ok x =>
    simp only [Except.map, bind, Except.bind, pyMax_mul ht]
    cases pyMax x with
    | error e => rfl
    | ok y =>
      simp only [pure, Except.pure, OperatingPointMovement.scaled, OperatingPointMovement.maxPeriod, Oscillation.scaled,
        mul_max_of_nonneg _ _ ht.le]

theorem deltaTime_scaled (ams : List AirplaneMovement) (om : OperatingPointMovement) (dt : Option ℝ) :
    chooseDeltaTime (ams.map (·.scale ℓ (ℓ / c))) (om.scaled c (ℓ / c)) (dt.map (ℓ / c * ·))
      = (chooseDeltaTime ams om dt).map (ℓ / c * ·) := by
  cases dt with
  | some d => rfl
  | none =>
    simp only [Option.map_none, chooseDeltaTime, defaultDeltaTime_eq]
    have e : (ams.map (·.scale ℓ (ℓ / c))).mapM (chordTime (om.scaled c (ℓ / c)).base.velocity)
        = (ams.mapM (chordTime om.base.velocity)).map (List.map (ℓ / c * ·)) := by
      simp only [List.mapM_map]
      apply mapM_map_ok
      intro a _
      simp only [Function.comp, chordTime, AirplaneMovement.scale, OperatingPointMovement.scaled, Airplane.scale]
      cases a.base.wings with
      | nil => rfl
      | cons w ws =>
        simp only [List.map_cons, Except.map, Except.ok.injEq, Wing.scale, WingSpec.scale]
        rw [div_div, div_div, mul_left_comm, mul_div_mul_comm]
    rw [e]
    cases ams.mapM (chordTime om.base.velocity) with
    | error e => rfl
    | ok ts =>
      simp only [Except.map, Except.bind, List.map_eq_nil_iff]
      split
      · rfl
      · simp only [Except.ok.injEq, List.length_map]
        rw [List.sum_map_mul_left, List.map_id', mul_div_assoc]

theorem runLength_scaled (hℓ : 0 < ℓ) (hc : 0 < c) (ams : List AirplaneMovement) (om : OperatingPointMovement) (d : ℝ)
    (ns nc nch : Option ℕ) :
    runLength (ams.map (·.scale ℓ (ℓ / c))) (om.scaled c (ℓ / c)) (ℓ / c * d) ns nc nch = runLength ams om d ns nc nch := by
  have ht : 0 < ℓ / c := div_pos hℓ hc
  unfold runLength
  cases ns with
  | some n => rfl
  | none =>
    simp only
    rw [movement_maxPeriod_scaled ht]
    cases movementMaxPeriod ams om with
    | error e => rfl
    | ok P =>
      have e1 : (ams.map (·.scale ℓ (ℓ / c))).map (·.base.cRef) = (ams.map (·.base.cRef)).map (ℓ * ·) := by
        rw [List.map_map, List.map_map]; rfl
      have e2 : ∀ (x y : ℝ), x * (ℓ * y) / (ℓ / c * d * (om.scaled c (ℓ / c)).base.velocity)
          = x * y / (d * om.base.velocity) := by
        intro x y
        simp only [OperatingPointMovement.scaled]
        have : ℓ / c * d * (c * om.base.velocity) = ℓ * (d * om.base.velocity) := by field_simp
        rw [this, mul_left_comm, mul_div_mul_left _ _ hℓ.ne']
      have e3 : ∀ m : ℝ, m * (ℓ / c * P) / (ℓ / c * d) = m * P / d := by
        intro m
        rw [mul_left_comm, mul_div_mul_left _ _ ht.ne']
      simp only [Except.map, bind, Except.bind, e1, e3, mul_eq_zero, ht.ne', false_or, pyMax_mul hℓ]
      split
      · cases pyMax (ams.map (·.base.cRef)) with
        | error e => rfl
        | ok y => simp only [e2]
      · rfl

theorem checkRunLength_scaled (ht : 0 < t) (P : Except Err ℝ) (ns nc nch : Option ℕ) :
    checkRunLength (P.map (t * ·)) ns nc nch = checkRunLength P ns nc nch := by
  have := ht.ne'
  cases P with
  | error e => rfl
  | ok P => simp only [checkRunLength, Except.map, bind, Except.bind, mul_eq_zero, this, false_or, ne_eq]

theorem averagingStart_scaled (ht : 0 < t) (n : ℕ) (P d : ℝ) : averagingStart n (t * P) (t * d) = averagingStart n P d := by
  unfold averagingStart
  rw [mul_div_mul_left _ _ ht.ne']
  simp only [mul_eq_zero, ht.ne', false_or]

/-- The same study in other units. -/
theorem study_scaled (hℓ : 0 < ℓ) (hc : 0 < c) {ams ams' : List AirplaneMovement} {om : OperatingPointMovement}
    {ns nc nch : Option ℕ} {dt : Option ℝ} {only : Bool} {p : UnsteadyProblem}
    (hams : List.Forall₂ (AirplaneMovement.Scaled ℓ (ℓ / c)) ams ams') (h : study ams om ns nc nch dt only = .ok p) :
    ∃ p', study ams' (om.scaled c (ℓ / c)) ns nc nch (dt.map (ℓ / c * ·)) only = .ok p' ∧ p'.Made ∧
      p'.numSteps = p.numSteps ∧ p'.deltaTime = ℓ / c * p.deltaTime ∧ p'.maxPeriod = ℓ / c * p.maxPeriod ∧
      p'.firstAveragingStep = p.firstAveragingStep ∧ p'.firstResultsStep = p.firstResultsStep ∧
      p'.onlyFinalResults = p.onlyFinalResults ∧
      ∀ k < p.numSteps, p'.airplanesAt k = (p.airplanesAt k).map (Airplane.scale ℓ) ∧
        p'.operatingPointAt k = { p.operatingPointAt k with velocity := c * (p.operatingPointAt k).velocity } := by
  have ht : 0 < ℓ / c := div_pos hℓ hc
  obtain rfl : ams' = ams.map (·.scale ℓ (ℓ / c)) := by
    clear h
    induction hams with
    | nil => rfl
    | cons h _ ih => rw [List.map_cons, h.eq hℓ, ih]
  obtain ⟨-, a1, a2, a3, a4, a5, a6, a7, H, O, hHH, hOO, hk⟩ := study_parts h
  have hH' : (ams.map (·.scale ℓ (ℓ / c))).mapM (fun am => am.generate p.numSteps (ℓ / c * p.deltaTime))
      = .ok (H.map (List.map (Airplane.scale ℓ))) := by
    simp only [List.mapM_map]
    refine (mapM_map_ok' (fun am => am.generate p.numSteps p.deltaTime) _ (List.map (Airplane.scale ℓ)) ams
      fun m _ => airplane_generate_scaled hℓ ht m _ _).trans ?_
    rw [hHH]
    rfl
  have hO' : (om.scaled c (ℓ / c)).generate p.numSteps (ℓ / c * p.deltaTime)
      = .ok (O.map fun op => { op with velocity := c * op.velocity }) := by
    rw [point_generate_scaled hc ht, hOO]; rfl
  have hP' : movementMaxPeriod (ams.map (·.scale ℓ (ℓ / c))) (om.scaled c (ℓ / c)) = .ok (ℓ / c * p.maxPeriod) := by
    rw [movement_maxPeriod_scaled ht, a4]; rfl
  have hmv : Movement.create (ams.map (·.scale ℓ (ℓ / c))) (om.scaled c (ℓ / c)) ns nc nch (dt.map (ℓ / c * ·)) = .ok
      { airplaneMovements := ams.map (·.scale ℓ (ℓ / c)), operatingPointMovement := om.scaled c (ℓ / c)
        numSteps := p.numSteps, deltaTime := ℓ / c * p.deltaTime, airplanes := H.map (List.map (Airplane.scale ℓ))
        operatingPoints := O.map fun op => { op with velocity := c * op.velocity } } := by
    unfold Movement.create
    rw [movement_maxPeriod_scaled ht, checkRunLength_scaled ht, a5, deltaTime_scaled, a6]
    simp only [Except.map, bind, Except.bind, runLength_scaled hℓ hc, a7, hH', hO']
    rfl
  obtain ⟨p', e, e1, e2, e3, -⟩ := C31_steady_problems _ _ ns nc nch _ _ hmv (ℓ / c * p.maxPeriod) hP' only
  have hst : study (ams.map (·.scale ℓ (ℓ / c))) (om.scaled c (ℓ / c)) ns nc nch (dt.map (ℓ / c * ·)) only = .ok p' :=
    bind_ok.mpr ⟨_, hmv, e⟩
  obtain ⟨b0, b1, b2, b3, b4, b5, b6, b7, H'', O'', hH2, hO2, hk2⟩ := study_parts hst
  simp only at e1 e2
  rw [e1, e2] at hH2 hO2
  rw [hH', Except.ok.injEq] at hH2
  rw [hO', Except.ok.injEq] at hO2
  subst hH2 hO2
  have hav : p'.firstAveragingStep = p.firstAveragingStep := by rw [b2, a2, e1, e2, e3, averagingStart_scaled ht]
  refine ⟨p', hst, b0, e1, e2, e3, hav, by rw [b3, a3, hav], by rw [b1, a1], ?_⟩
  intro k hkn
  obtain ⟨x1, x2⟩ := hk k hkn
  obtain ⟨y1, y2⟩ := hk2 k (by rw [e1]; exact hkn)
  constructor
  · apply List.ext_getElem?
    intro i
    rw [List.getElem?_map]
    rcases Nat.lt_or_ge i H.length with hi | hi
    · have hx := List.getElem?_eq_getElem hi
      obtain ⟨A, hA, e⟩ := forall₂_at x1 i _ hx
      obtain ⟨A', hA', e'⟩ := forall₂_at y1 i ((H[i]).map (Airplane.scale ℓ)) (by rw [List.getElem?_map, hx]; rfl)
      rw [List.getElem?_map, e, Option.map_some, Option.some.injEq] at e'
      rw [hA, hA', ← e', Option.map_some]
    · rw [List.getElem?_eq_none (by rw [← y1.length_eq, List.length_map]; exact hi),
        List.getElem?_eq_none (by rw [← x1.length_eq]; exact hi)]
      rfl
  · rw [List.getElem?_map, x2, Option.map_some, Option.some.injEq] at y2
    exact y2.symm

/-- The two studies with viscosities. -/
theorem ScaledProblem.of_study (hℓ : 0 < ℓ) (hc : 0 < c) {p p' : UnsteadyProblem} (hp : p.Made) (hp' : p'.Made)
    (hn : p'.numSteps = p.numSteps) (hd : p'.deltaTime = ℓ / c * p.deltaTime)
    (hf : p'.firstResultsStep = p.firstResultsStep)
    (hk : ∀ k < p.numSteps, p'.airplanesAt k = (p.airplanesAt k).map (Airplane.scale ℓ) ∧
        p'.operatingPointAt k = { p.operatingPointAt k with velocity := c * (p.operatingPointAt k).velocity })
    (nu : ℕ → ℝ) (hnu : ∀ k, 0 ≤ nu k) :
    ScaledProblem (p.withViscosity nu) (p'.withViscosity fun k => ℓ * c * nu k) ℓ c where
  made := hp.withViscosity nu hnu
  made' := hp'.withViscosity _ fun k => mul_nonneg (mul_nonneg hℓ.le hc.le) (hnu k)
  pos := hℓ
  speed := hc
  steps := hn
  time := hd
  first := hf
  airplanes := by
    intro k hkn
    rw [UnsteadyProblem.withViscosity_airplanes, UnsteadyProblem.withViscosity_airplanes]
    exact (hk k hkn).1
  point := by
    intro k hkn
    have h1 : k < p.steadyProblems.length := by rw [hp.regular.steps]; exact hkn
    have h2 : k < p'.steadyProblems.length := by rw [hp'.regular.steps, hn]; exact hkn
    rw [UnsteadyProblem.withViscosity_operatingPoint _ nu k h1, UnsteadyProblem.withViscosity_operatingPoint _ _ k h2,
      (hk k hkn).2]

end Ptera
