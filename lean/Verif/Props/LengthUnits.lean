import Verif.Lemmas.ScaledTiny
import Verif.Props.Scaling

/-!
# Steady results and the unit of length

C76: an airplane whose lengths are all multiplied by the same factor, in the same flow, has the velocities and the
coefficients it had, forces multiplied by the square of the factor and moments by its cube - as long as no point gets so
near to a vortex filament that the solvers leave the filament out.
-/

namespace Ptera

open List Filter Topology

variable {ℓ : ℝ}

theorem forall_scaled (hℓ : 0 < ℓ) {as as' : List Airplane} (h : Forall₂ (Airplane.Scaled ℓ) as as') :
    as' = as.map (Airplane.scale ℓ) ∧ (∀ a ∈ as, a.Made) ∧ ∀ a ∈ as', a.Made := by
  induction h with
  | nil => simp
  | cons h1 _ ih =>
    obtain ⟨e, m, m'⟩ := ih
    simp only [List.mem_cons, forall_eq_or_imp]
    exact ⟨by rw [List.map_cons, h1.eq hℓ, e], ⟨h1.made.1, m⟩, h1.made.2, m'⟩

/-- C76: if the constructors accept an airplane, they accept it with every length multiplied by `ℓ`. -/
theorem C76_can_be_built (hℓ : 0 < ℓ) (a : Airplane) (ha : a.Made) : ∃ a', Airplane.Scaled ℓ a a' := by
  obtain ⟨wings, ref, weight, s, c, b, h, hw⟩ := ha
  cases wings with
  | nil => cases h
  | cons main rest =>
    refine ⟨_, main :: rest, (main :: rest).map (Wing.scale ℓ), ref, weight, s, c, b, h, rfl, ?_⟩
    rw [forall₂_map_right_iff, forall₂_same]
    exact fun w hw' => Wing.Scaled.of_made hℓ (hw w hw')

/-- C76: multiplying every length by `ℓ` multiplies the reference lengths by `ℓ` and the reference area by `ℓ²`, whether
they were given or taken from the main wing; each wing has `ℓ` times the span and mean aerodynamic chord, `ℓ²` times the
area, and the panels with every vertex multiplied by `ℓ`, with the same flags and places. -/
theorem C76_geometry (hℓ : 0 < ℓ) (a a' : Airplane) (h : Airplane.Scaled ℓ a a') :
    a'.sRef = ℓ ^ 2 * a.sRef ∧ a'.cRef = ℓ * a.cRef ∧ a'.bRef = ℓ * a.bRef ∧ a'.weight = a.weight ∧
    a'.numPanels = a.numPanels ∧ a'.xyzRef = ℓ • a.xyzRef ∧ a'.wings.length = a.wings.length ∧
    ∀ (i : ℕ) w w', a.wings[i]? = some w → a'.wings[i]? = some w' →
      w'.span = ℓ * w.span ∧ w'.projectedArea = ℓ ^ 2 * w.projectedArea ∧
      w'.meanAerodynamicChord = ℓ * w.meanAerodynamicChord ∧
      w'.panels = w.panels.map (List.map fun p =>
        { p with frontLeft := ℓ • p.frontLeft, frontRight := ℓ • p.frontRight
                 backLeft := ℓ • p.backLeft, backRight := ℓ • p.backRight }) := by
  rw [h.eq hℓ]
  refine ⟨rfl, rfl, rfl, rfl, rfl, rfl, by simp [Airplane.scale], ?_⟩
  intro i w w' hi hi'
  simp only [Airplane.scale, List.getElem?_map, hi, Option.map_some, Option.some.injEq] at hi'
  subst hi'
  exact ⟨w.scale_span hℓ, w.scale_projectedArea hℓ, w.scale_mac hℓ, rfl⟩

theorem IsCoefficients.scaled (hℓ : 0 < ℓ) {op : OperatingPoint} {A : Airplane} {L L' : AirplaneLoads}
    (h : IsCoefficients op A L) (h' : IsCoefficients op (A.scale ℓ) L') (hf : L'.forceWind = (ℓ ^ 2) • L.forceWind)
    (hm : L'.momentWind = (ℓ ^ 3) • L.momentWind) :
    L'.forceCoefficients = L.forceCoefficients ∧ L'.momentCoefficients = L.momentCoefficients := by
  obtain ⟨a1, a2⟩ := h
  obtain ⟨b1, b2⟩ := h'
  have k1 : ∀ q x s : ℝ, ℓ ^ 2 * x / (q * (ℓ ^ 2 * s)) = x / (q * s) := by
    intro q x s
    rw [show q * (ℓ ^ 2 * s) = ℓ ^ 2 * (q * s) by ring, mul_div_mul_left _ _ (pow_ne_zero 2 hℓ.ne')]
  have k2 : ∀ q x s c : ℝ, ℓ ^ 3 * x / (q * (ℓ ^ 2 * s) * (ℓ * c)) = x / (q * s * c) := by
    intro q x s c
    rw [show q * (ℓ ^ 2 * s) * (ℓ * c) = ℓ ^ 3 * (q * s * c) by ring, mul_div_mul_left _ _ (pow_ne_zero 3 hℓ.ne')]
  simp only [Airplane.scale, hf, hm, V3.smul_x, V3.smul_y, V3.smul_z, ← mul_neg, k1, k2] at b1 b2
  exact ⟨b1.trans a1.symm, b2.trans a2.symm⟩

/-- C76: let every length of the airplanes be multiplied by `ℓ`, the flow being the same. If this does not change which
filaments are left out at the points where the solver evaluates the velocity, then a run that succeeded succeeds again;
the velocity at `ℓ q` is the velocity that was at `q`, wherever the same filaments are left out; the vortex strengths are
multiplied by `ℓ`, the forces by `ℓ²` and the moments by `ℓ³`, panel by panel and in total; and all the coefficients are
the same. (Partial: the solvers leave out filaments nearer than a fixed distance; see `C76_small_fails`.) -/
theorem C76_length_unit_partial (method : SteadyMethod) (op : OperatingPoint) (hℓ : 0 < ℓ) (as as' : List Airplane)
    (hscaled : Forall₂ (Airplane.Scaled ℓ) as as')
    (hcut : ∀ l q, IsFilament method ⟨as, op⟩ l → IsEvaluated method ⟨as, op⟩ q → SameCutOff ℓ l q)
    (heap heap' : PanelHeap) (loads loads' : List AirplaneLoads) (R : SteadyResults)
    (h : steadyRun method ⟨as, op⟩ heap loads = .ok R) :
    ∃ R', steadyRun method ⟨as', op⟩ heap' loads' = .ok R' ∧
      (∀ q, (∀ l, IsFilament method ⟨as, op⟩ l → SameCutOff ℓ l q) → R'.velocity (ℓ • q) = R.velocity q) ∧
      (∀ r p, panelAt as r = some p → ∃ g, ∃ L L' : PanelLoads, R.strength r = some g ∧ R'.strength r = some (ℓ * g) ∧
        R.loads r = some L ∧ R'.loads r = some L' ∧
        L'.forceGeometry = (ℓ ^ 2) • L.forceGeometry ∧ L'.momentGeometry = (ℓ ^ 3) • L.momentGeometry ∧
        L'.forceWind = (ℓ ^ 2) • L.forceWind ∧ L'.momentWind = (ℓ ^ 3) • L.momentWind) ∧
      (∀ (a : ℕ) A, as[a]? = some A → ∃ L L' : AirplaneLoads, R.totals[a]? = some L ∧ R'.totals[a]? = some L' ∧
        L'.forceWind = (ℓ ^ 2) • L.forceWind ∧ L'.momentWind = (ℓ ^ 3) • L.momentWind ∧
        L'.forceCoefficients = L.forceCoefficients ∧ L'.momentCoefficients = L.momentCoefficients) := by
  obtain ⟨has', hm, hm'⟩ := forall_scaled hℓ hscaled
  subst has'
  obtain ⟨R', hR', hv, hp⟩ : ∃ R', steadyRun method ⟨as.map (Airplane.scale ℓ), op⟩ heap' loads' = .ok R' ∧
      (∀ q, (∀ l, IsFilament method ⟨as, op⟩ l → SameCutOff ℓ l q) → R'.velocity (ℓ • q) = R.velocity q) ∧
      (∀ r p, panelAt as r = some p → ∃ g, ∃ L L' : PanelLoads, R.strength r = some g ∧ R'.strength r = some (ℓ * g) ∧
        R.loads r = some L ∧ R'.loads r = some L' ∧
        L'.forceGeometry = (ℓ ^ 2) • L.forceGeometry ∧ L'.momentGeometry = (ℓ ^ 3) • L.momentGeometry) := by
    cases method with
    | horseshoe =>
      simp only [steadyRun] at h ⊢
      cases hr : (HorseshoeSolver.create ⟨as, op⟩ heap loads).run with
      | error e => rw [hr] at h; cases h
      | ok s =>
        rw [hr] at h
        cases h
        obtain ⟨s', hs', hv, hp⟩ := horseshoe_scaled hℓ hm hm' hcut hr heap' loads'
        refine ⟨s'.results, by rw [hs']; rfl, ?_, ?_⟩
        · intro q hq
          obtain ⟨u, h1, h2⟩ := hv q hq
          simp only [HorseshoeSolver.results, h1, h2, List.headD_cons]
        · intro r p hr
          obtain ⟨v, v', L, L', h1, h2, h3, h4, h5, h6, h7⟩ := hp r p hr
          exact ⟨v.strength, L, L', by simp [HorseshoeSolver.results, h1], by simp [HorseshoeSolver.results, h2, h3],
            h4, h5, h6, h7⟩
    | ring =>
      simp only [steadyRun] at h ⊢
      cases hr : (RingSolver.create ⟨as, op⟩ heap loads).run with
      | error e => rw [hr] at h; cases h
      | ok s =>
        rw [hr] at h
        cases h
        obtain ⟨s', hs', hv, hp⟩ := ring_scaled hℓ hm hm' hcut hr heap' loads'
        refine ⟨s'.results, by rw [hs']; rfl, ?_, ?_⟩
        · intro q hq
          obtain ⟨u, h1, h2⟩ := hv q hq
          simp only [RingSolver.results, h1, h2, List.headD_cons]
        · intro r p hr
          obtain ⟨v, v', L, L', h1, h2, h3, h4, h5, h6, h7⟩ := hp r p hr
          exact ⟨v.strength, L, L', by simp [RingSolver.results, h1], by simp [RingSolver.results, h2, h3],
            h4, h5, h6, h7⟩
  refine ⟨R', hR', hv, ?_, ?_⟩
  · intro r p hr
    obtain ⟨g, L, L', h1, h2, h3, h4, h5, h6⟩ := hp r p hr
    obtain ⟨A, -, hA, -, -⟩ := panelAt_cell hr
    have hA' : (as.map (Airplane.scale ℓ))[r.airplane]? = some (A.scale ℓ) := by rw [List.getElem?_map, hA]; rfl
    obtain ⟨-, Q, -, hQ, -⟩ := steadyRun_totals method _ hm heap loads R h _ A hA
    obtain ⟨-, Q', -, hQ', -⟩ := steadyRun_totals method _ hm' heap' loads' R' hR' _ _ hA'
    have hmem := (mem_panelRefs as r).mpr ⟨p, hr⟩
    obtain ⟨q1, q2, q3⟩ := hQ r (List.mem_filter.mpr ⟨hmem, by simp⟩)
    obtain ⟨q1', q2', q3'⟩ := hQ' r (List.mem_filter.mpr ⟨by rw [panelRefs_scale]; exact hmem, by simp⟩)
    rw [h3, Option.some.injEq] at q1
    rw [h4, Option.some.injEq] at q1'
    subst q1
    subst q1'
    refine ⟨g, _, _, h1, h2, h3, h4, h5, h6, ?_, ?_⟩
    · rw [q2', h5, M3.mulVec_smul, q2]
    · rw [q3', h6, M3.mulVec_smul, q3]
  · intro a A hA
    have hA' : (as.map (Airplane.scale ℓ))[a]? = some (A.scale ℓ) := by rw [List.getElem?_map, hA]; rfl
    obtain ⟨L, Q, hL, hQ, f1, f2, f3⟩ := steadyRun_totals method _ hm heap loads R h _ A hA
    obtain ⟨L', Q', hL', hQ', g1, g2, g3⟩ := steadyRun_totals method _ hm' heap' loads' R' hR' _ _ hA'
    have hq : ∀ r ∈ (panelRefs as).filter fun r => r.airplane = a,
        (Q' r).forceWind = (ℓ ^ 2) • (Q r).forceWind ∧ (Q' r).momentWind = (ℓ ^ 3) • (Q r).momentWind := by
      intro r hr
      obtain ⟨p, hpr⟩ := (mem_panelRefs _ _).mp (List.mem_filter.mp hr).1
      obtain ⟨g, M, M', -, -, h3, h4, h5, h6⟩ := hp r p hpr
      obtain ⟨q1, q2, q3⟩ := hQ r hr
      obtain ⟨q1', q2', q3'⟩ := hQ' r (by simp only [panelRefs_scale]; exact hr)
      rw [h3, Option.some.injEq] at q1
      rw [h4, Option.some.injEq] at q1'
      subst q1
      subst q1'
      exact ⟨by rw [q2', h5, M3.mulVec_smul, q2], by rw [q3', h6, M3.mulVec_smul, q3]⟩
    have e1 : L'.forceWind = (ℓ ^ 2) • L.forceWind := by
      rw [g1, f1, List.smul_sum, List.map_map]
      simp only [panelRefs_scale]
      congr 1
      exact List.map_congr_left fun r hr => (hq r hr).1
    have e2 : L'.momentWind = (ℓ ^ 3) • L.momentWind := by
      rw [g2, f2, List.smul_sum, List.map_map]
      simp only [panelRefs_scale]
      congr 1
      exact List.map_congr_left fun r hr => (hq r hr).2
    obtain ⟨c1, c2⟩ := f3.scaled hℓ g3 e1 e2
    exact ⟨L, L', hL, hL', e1, e2, c1, c2⟩

/-- Enlarging never brings a point too near to a filament. -/
theorem SameCutOff.of_enlarged (hℓ : 1 ≤ ℓ) {l : LineVortex} {q : V3}
    (h : (l.origin - q).cross (l.termination - q) = 0 ∨ ¬ NearFilament l.origin l.termination q) : SameCutOff ℓ l q := by
  rcases h with h | h
  · exact Or.inl h
  · refine Or.inr ⟨fun h' => ?_, fun h' => absurd h' h⟩
    exfalso
    apply h
    have h0 : 0 < ℓ := by linarith
    have hle : ∀ x : ℝ, 0 ≤ x → x ≤ ℓ * x := fun x hx => by nlinarith
    unfold NearFilament at h' ⊢
    simp only [← smul_sub, V3.smul_cross, V3.cross_smul, V3.norm_smul, abs_of_pos h0] at h'
    rcases h' with h' | h' | h'
    · exact Or.inl ((hle _ (V3.norm_nonneg _)).trans_lt h')
    · exact Or.inr (Or.inl ((hle _ (V3.norm_nonneg _)).trans_lt h'))
    · refine Or.inr (Or.inr (lt_of_le_of_lt ?_ h'))
      have hn := V3.norm_nonneg ((l.origin - q).cross (l.termination - q))
      have h1 := hle _ hn
      have h2 := hle _ (mul_nonneg h0.le hn)
      exact pow_le_pow_left₀ hn (h1.trans h2) 2

/-- C76: enlarging. If no filament is left out at the points where the solver evaluates the velocity, except where they
lie on its line, then the airplanes enlarged `ℓ` times, `ℓ ≥ 1`, have the same coefficients. -/
theorem C76_enlarged (method : SteadyMethod) (op : OperatingPoint) (hℓ : 1 ≤ ℓ) (as as' : List Airplane)
    (hscaled : Forall₂ (Airplane.Scaled ℓ) as as')
    (hfar : ∀ l q, IsFilament method ⟨as, op⟩ l → IsEvaluated method ⟨as, op⟩ q →
      (l.origin - q).cross (l.termination - q) = 0 ∨ ¬ NearFilament l.origin l.termination q)
    (R : SteadyResults) (h : steadyRun method ⟨as, op⟩ = .ok R) :
    ∃ R', steadyRun method ⟨as', op⟩ = .ok R' ∧
      ∀ (a : ℕ) A, as[a]? = some A → ∃ L L' : AirplaneLoads, R.totals[a]? = some L ∧ R'.totals[a]? = some L' ∧
        L'.forceCoefficients = L.forceCoefficients ∧ L'.momentCoefficients = L.momentCoefficients := by
  obtain ⟨R', hR', -, -, ht⟩ := C76_length_unit_partial method op (lt_of_lt_of_le one_pos hℓ) as as' hscaled
    (fun l q hl hq => SameCutOff.of_enlarged hℓ (hfar l q hl hq)) .fresh .fresh [] [] R h
  refine ⟨R', hR', ?_⟩
  intro a A hA
  obtain ⟨L, L', h1, h2, -, -, h3, h4⟩ := ht a A hA
  exact ⟨L, L', h1, h2, h3, h4⟩

/-- C76 does not hold without the condition on the distances: every airplane with a panel, in every flow, can be made so
small that the solvers find the system of equations singular and raise an error. -/
theorem C76_small_fails (method : SteadyMethod) (op : OperatingPoint) (as : List Airplane)
    (hpanel : ∃ r p, panelAt as r = some p) : ∃ ℓ₀ > 0, ∀ ℓ, 0 < ℓ → ℓ < ℓ₀ →
      ∀ as', Forall₂ (Airplane.Scaled ℓ) as as' → steadyRun method ⟨as', op⟩ = .error .linAlgError := by
  have hne : panelRefs as ≠ [] := by
    obtain ⟨r, p, h⟩ := hpanel
    exact List.ne_nil_of_mem ((mem_panelRefs as r).mpr ⟨p, h⟩)
  have hcoef : ∀ᶠ ℓ : ℝ in 𝓝[>] 0, ∀ i ∈ {r | r ∈ panelRefs as}, ∀ j ∈ {r | r ∈ panelRefs as},
      HorseshoeSolver.coefficient ⟨as.map (Airplane.scale ℓ), op⟩ i j = 0 ∧
      RingSolver.coefficient ⟨as.map (Airplane.scale ℓ), op⟩ i j = 0 := by
    refine (eventually_all_finite (List.finite_toSet _)).mpr fun i _ =>
      (eventually_all_finite (List.finite_toSet _)).mpr fun j _ => ?_
    filter_upwards [horseshoeUnit_small as op j (geometryOf as i).collocationPoint,
      ringUnit_small as op j (geometryOf as i).collocationPoint] with ℓ h1 h2
    constructor
    · unfold HorseshoeSolver.coefficient
      simp only [geometryOf_scale, (Panel.scale_points _).2.2, h1, V3.zero_dot]
    · unfold RingSolver.coefficient
      simp only [geometryOf_scale, (Panel.scale_points _).2.2, h2, V3.zero_dot]
  obtain ⟨ℓ₀, h0, hall⟩ := (mem_nhdsGT_iff_exists_Ioo_subset).mp hcoef
  refine ⟨ℓ₀, h0, ?_⟩
  intro ℓ hℓ hlt as' hs
  obtain ⟨rfl, -, hm'⟩ := forall_scaled hℓ hs
  have hz := hall ⟨hℓ, hlt⟩
  cases method with
  | horseshoe =>
    obtain ⟨e1, e2⟩ := HorseshoeSolver.system_eq ⟨as.map (Airplane.scale ℓ), op⟩ hm' .fresh []
    simp only [steadyRun]
    rw [HorseshoeSolver.run_eq _ (counted_of_made hm') (by simp [HorseshoeSolver.create]), e1, e2,
      linalgSolve_degenerate (by simpa only [panelRefs_scale] using hne)]
    · rfl
    · simp only [panelRefs_scale]
      exact fun i hi j hj => (hz i hi j hj).1
  | ring =>
    obtain ⟨e1, e2⟩ := RingSolver.system_eq ⟨as.map (Airplane.scale ℓ), op⟩ hm' .fresh []
    simp only [steadyRun]
    rw [RingSolver.run_eq _ (counted_of_made hm') (by simp [RingSolver.create]) (by simp [RingSolver.create]), e1, e2,
      linalgSolve_degenerate (by simpa only [panelRefs_scale] using hne)]
    · rfl
    · simp only [panelRefs_scale]
      exact fun i hi j hj => (hz i hi j hj).2

/-! ## The unit plate -/

theorem far_of_sq {a b q : V3} (h1 : 1 / 16 ≤ (a - q).dot (a - q)) (h2 : 1 / 16 ≤ (b - q).dot (b - q))
    (h3 : 1 / 16 ≤ ((a - q).cross (b - q)).dot ((a - q).cross (b - q))) : ¬ NearFilament a b q := by
  have he : eps ≤ 1 / 16 := by unfold eps; norm_num
  have hn : ∀ v : V3, 1 / 16 ≤ v.dot v → eps ≤ v.norm := by
    intro v hv
    refine he.trans ?_
    unfold V3.norm
    apply Real.le_sqrt_of_sq_le
    linarith
  unfold NearFilament
  push Not
  exact ⟨hn _ h1, hn _ h2, by rw [V3.norm_sq]; exact he.trans h3⟩

/-- No filament is left out where the solvers evaluate the velocity on the unit plate in a freestream from below. -/
theorem plate_far (method : SteadyMethod) (op : OperatingPoint) (hd : op.freestreamDirection = ⟨0, 0, 1⟩) {a : Airplane}
    (hrefs : panelRefs [a] = [⟨0, 0, 0, 0⟩]) (hp : panelAt [a] ⟨0, 0, 0, 0⟩ = some unitSquare)
    (hspan : (wingAt [a] ⟨0, 0, 0, 0⟩).map (·.span) = some 1) (l : LineVortex) (q : V3)
    (hl : IsFilament method ⟨[a], op⟩ l) (hq : IsEvaluated method ⟨[a], op⟩ q) :
    (l.origin - q).cross (l.termination - q) = 0 ∨ ¬ NearFilament l.origin l.termination q := by
  have hone : ∀ r p, panelAt [a] r = some p → r = ⟨0, 0, 0, 0⟩ ∧ p = unitSquare := by
    intro r p h
    have := (mem_panelRefs _ _).mpr ⟨p, h⟩
    rw [hrefs, List.mem_singleton] at this
    subst this
    exact ⟨rfl, Option.some.inj (h.symm.trans hp)⟩
  have hgeo := plate_geometry hp
  obtain ⟨g1, g2, g3⟩ := unitSquare_points
  have hte : unitSquare.isTrailingEdge = true := rfl
  have b1 : RingSolver.backLeftVertex [a] ⟨0, 0, 0, 0⟩ = ⟨5 / 4, 0, 0⟩ := by
    unfold RingSolver.backLeftVertex
    simp only [hgeo, hte, if_true, g3]
    ext <;> simp [unitSquare]
    norm_num
  have b2 : RingSolver.backRightVertex [a] ⟨0, 0, 0, 0⟩ = ⟨5 / 4, 1, 0⟩ := by
    unfold RingSolver.backRightVertex
    simp only [hgeo, hte, if_true, g2]
    ext <;> simp [unitSquare]
    norm_num
  obtain ⟨r, p, hr, hl⟩ := hl
  obtain ⟨r', p', hr', hq⟩ := hq
  obtain ⟨rfl, rfl⟩ := hone r p hr
  obtain ⟨rfl, rfl⟩ := hone r' p' hr'
  cases method with
  | horseshoe =>
    simp only [HorseshoeSolver.panelVortex, HorseshoeSolver.create, HorseshoeVortex.mk', LineVortex.mk', hgeo, g1, g2, g3,
      hspan, hd, Option.getD_some, HorseshoeVortex.legs, List.mem_cons, List.not_mem_nil, or_false] at hl hq
    rcases hq with rfl | rfl <;> rcases hl with rfl | rfl | rfl <;>
      first
      | (left; ext <;> simp <;> norm_num; done)
      | (right; apply far_of_sq <;> simp [V3.dot] <;> norm_num)
  | ring =>
    simp only [RingSolver.panelRing, RingSolver.panelHorseshoe, RingSolver.create, HorseshoeVortex.mk', RingVortex.mk',
      LineVortex.mk', hgeo, g1, g2, g3, b1, b2, hspan, hd, Option.getD_some, HorseshoeVortex.legs, RingVortex.legs,
      List.mem_cons, List.not_mem_nil, or_false, hte, true_and] at hl hq
    rcases hq with rfl | rfl | rfl | rfl <;> rcases hl with (rfl | rfl | rfl | rfl) | rfl | rfl | rfl <;>
      first
      | (left; ext <;> simp <;> norm_num; done)
      | (right; apply far_of_sq <;> simp [V3.dot] <;> norm_num)

/-- The hypotheses are met: a plate of 1 m by 1 m, in metres and in millimetres, has the same coefficients; and shrunk
too far, no solver runs. -/
example (method : SteadyMethod) : ∃ (op : OperatingPoint) (a a' : Airplane) (R R' : SteadyResults),
    Airplane.Scaled 1000 a a' ∧ steadyRun method ⟨[a], op⟩ = .ok R ∧ steadyRun method ⟨[a'], op⟩ = .ok R' ∧
    (∃ L L' : AirplaneLoads, R.totals[0]? = some L ∧ R'.totals[0]? = some L' ∧
      L'.forceCoefficients = L.forceCoefficients) ∧
    ∃ ℓ₀ > 0, ∀ ℓ, 0 < ℓ → ℓ < ℓ₀ → ∃ a'', Airplane.Scaled ℓ a a'' ∧
      steadyRun method ⟨[a''], op⟩ = .error .linAlgError := by
  obtain ⟨a, hmade, hrefs, hp, hspan, -⟩ := plate_airplane
  set op : OperatingPoint := { velocity := 10, density := 1, alpha := 90, beta := 0 } with hop
  have hd : op.freestreamDirection = ⟨0, 0, 1⟩ := by
    rw [C01_freestream_direction, show op.alpha * Real.pi / 180 = Real.pi / 2 by simp only [op]; ring]
    simp [op]
  have hd' : |op.freestreamDirection.y| ≤ op.freestreamDirection.x := by rw [hd]; simp
  obtain ⟨R, hR⟩ : ∃ R, steadyRun method ⟨[a], op⟩ = .ok R := by
    cases method with
    | horseshoe =>
      obtain ⟨s, hs, -⟩ := plate_horseshoe_run op hmade hrefs hp hspan hd' .fresh []
      exact ⟨s.results, by simp only [steadyRun, hs]; rfl⟩
    | ring =>
      obtain ⟨s, hs, -⟩ := plate_ring_run op hmade hrefs hp hspan hd' .fresh []
      exact ⟨s.results, by simp only [steadyRun, hs]; rfl⟩
  obtain ⟨a', ha'⟩ := C76_can_be_built (ℓ := 1000) (by norm_num) a hmade
  obtain ⟨R', hR', ht⟩ := C76_enlarged method op (ℓ := 1000) (by norm_num) [a] [a'] (.cons ha' .nil)
    (plate_far method op hd hrefs hp hspan) R hR
  obtain ⟨L, L', h1, h2, h3, -⟩ := ht 0 a rfl
  obtain ⟨ℓ₀, h0, hs⟩ := C76_small_fails method op [a] ⟨_, _, hp⟩
  refine ⟨op, a, a', R, R', ha', hR, hR', ⟨L, L', h1, h2, h3⟩, ℓ₀, h0, ?_⟩
  intro ℓ hℓ hlt
  obtain ⟨a'', ha''⟩ := C76_can_be_built hℓ a hmade
  exact ⟨a'', ha'', hs ℓ hℓ hlt [a''] (.cons ha'' .nil)⟩

end Ptera
