import Verif.Lemmas.ScaledUnsteadyCut
import Verif.Props.Faster
import Verif.Props.Finals
import Verif.Props.NearbyUnsteady

/-!
# Unsteady results and the units of length and time

C103: a study whose lengths are all multiplied by `ℓ` and whose velocities are all multiplied by `c`, with times in
proportion and a viscosity that keeps the Reynolds number, shows the same flow in the other units - as long as no point
gets so near to a vortex filament that the solver leaves the filament out.
-/

namespace Ptera

open UnsteadySolver List

variable {ℓ c : ℝ}

/-- C103: if the constructors accepted the airplanes and wings a study starts from, they accept them with every length
multiplied by `ℓ`, so the study can be described in the other units. -/
theorem C103_can_be_described (hℓ : 0 < ℓ) (t : ℝ) (ams : List AirplaneMovement)
    (hmade : ∀ m ∈ ams, m.base.Made ∧ ∀ w ∈ m.wingMovements, w.base.Made) :
    ∃ ams', Forall₂ (AirplaneMovement.Scaled ℓ t) ams ams' := by
  have hw : ∀ ws : List WingMovement, (∀ w ∈ ws, w.base.Made) → ∃ ws', Forall₂ (WingMovement.Scaled ℓ t) ws ws' := by
    intro ws
    induction ws with
    | nil => intro _; exact ⟨[], .nil⟩
    | cons w ws ih =>
      intro h
      obtain ⟨ws', hws⟩ := ih fun x hx => h x (by simp [hx])
      exact ⟨w.scale ℓ t :: ws', .cons ⟨Wing.Scaled.of_made hℓ (h w (by simp)), rfl⟩ hws⟩
  induction ams with
  | nil => exact ⟨[], .nil⟩
  | cons m ms ih =>
    obtain ⟨ms', hms⟩ := ih fun x hx => hmade x (by simp [hx])
    obtain ⟨h1, h2⟩ := hmade m (by simp)
    obtain ⟨b, hb⟩ := C76_can_be_built hℓ m.base h1
    obtain ⟨ws', hws⟩ := hw _ h2
    exact ⟨⟨b, ws', m.xRef.scaled ℓ t, m.yRef.scaled ℓ t, m.zRef.scaled ℓ t⟩ :: ms', .cons ⟨hb, hws, rfl⟩ hms⟩

/-- C103: take any study that is accepted, multiply its lengths by `ℓ` and its velocities by `c`, and with them all
periods and the time step, if given, by `ℓ / c`. The changed study is accepted, with the same number of steps, `ℓ / c`
times the time step (chosen or given) and the longest period, and the same steps to average over; at every step its
airplanes are those of the first study with all lengths multiplied by `ℓ`, and its velocity is multiplied by `c`. -/
theorem C103_study (hℓ : 0 < ℓ) (hc : 0 < c) (ams ams' : List AirplaneMovement) (om : OperatingPointMovement)
    (ns nc nch : Option ℕ) (dt : Option ℝ) (only : Bool) (p : UnsteadyProblem)
    (hams : Forall₂ (AirplaneMovement.Scaled ℓ (ℓ / c)) ams ams') (h : study ams om ns nc nch dt only = .ok p) :
    ∃ p', study ams' (om.scaled c (ℓ / c)) ns nc nch (dt.map (ℓ / c * ·)) only = .ok p' ∧
      p'.numSteps = p.numSteps ∧ p'.deltaTime = ℓ / c * p.deltaTime ∧ p'.maxPeriod = ℓ / c * p.maxPeriod ∧
      p'.firstAveragingStep = p.firstAveragingStep ∧ p'.firstResultsStep = p.firstResultsStep ∧
      ∀ k < p.numSteps, Forall₂ (Airplane.Scaled ℓ) (p.airplanesAt k) (p'.airplanesAt k) ∧
        p'.operatingPointAt k = { p.operatingPointAt k with velocity := c * (p.operatingPointAt k).velocity } := by
  obtain ⟨p', h', hm', hn, hd, hP, ha, hf, -, hk⟩ := study_scaled hℓ hc hams h
  refine ⟨p', h', hn, hd, hP, ha, hf, ?_⟩
  intro k hkn
  refine ⟨?_, (hk k hkn).2⟩
  rw [(hk k hkn).1, forall₂_map_right_iff, forall₂_same]
  intro a ham
  obtain ⟨a', ha'⟩ := C76_can_be_built hℓ a ((study_parts h).1.regular.made k a ham)
  rw [← ha'.eq hℓ]
  exact ha'

/-- C103: with viscosities multiplied by `ℓ c` (the same Reynolds number), if the change of units does not change which
filaments are left out at the points where the solver evaluates the velocity, a run of the changed study succeeds if the
run of the first did. Then at every step the velocity at `ℓ q` is `c` times that at `q`, wherever the same filaments are
left out; bound and wake vortices are at `ℓ` times their places, with `ℓ c` times the strengths and `ℓ / c` times the
ages; forces are multiplied by `(ℓ c)²` and moments by `ℓ (ℓ c)²`; and all coefficients are the same. (Partial: the
solver leaves out filaments nearer than a fixed distance; see `C103_small_fails`.) -/
theorem C103_similarity_partial (hℓ : 0 < ℓ) (hc : 0 < c) (ams ams' : List AirplaneMovement) (om : OperatingPointMovement)
    (ns nc nch : Option ℕ) (dt : Option ℝ) (only : Bool) (p p' : UnsteadyProblem)
    (hams : Forall₂ (AirplaneMovement.Scaled ℓ (ℓ / c)) ams ams') (h : study ams om ns nc nch dt only = .ok p)
    (h' : study ams' (om.scaled c (ℓ / c)) ns nc nch (dt.map (ℓ / c * ·)) only = .ok p')
    (nu : ℕ → ℝ) (hnu : ∀ k, 0 ≤ nu k) (s s₁ z : UnsteadySolver) (prescribed streamlines streamlines' : Bool)
    (hs : Reached (p.withViscosity nu) s) (hrun : s.run prescribed streamlines = .ok s₁)
    (hcut : ∀ k < p.numSteps, ∀ l q, IsUnsteadyFilament s₁ k l → IsUnsteadyEvaluated s₁ prescribed k q → SameCutOff ℓ l q)
    (hz : Reached (p'.withViscosity fun k => ℓ * c * nu k) z) :
    ∃ z₁, z.run prescribed streamlines' = .ok z₁ ∧
      ∀ k < p.numSteps, StepScaled (p.withViscosity nu) ℓ c s₁ z₁ k := by
  obtain ⟨p₂, h₂, hm', hn, hd, -, -, hf, -, hk⟩ := study_scaled hℓ hc hams h
  obtain rfl : p' = p₂ := Except.ok.inj (h'.symm.trans h₂)
  exact (ScaledProblem.of_study hℓ hc (study_parts h).1 hm' hn hd hf hk nu hnu).corresponds hs hrun hcut hz streamlines'

/-- C103: under the same condition the final forces of a static study and the means over the last cycle of a periodic one
are multiplied by `(ℓ c)²`, the moments by `ℓ (ℓ c)²`, the root-mean-squares by the same numbers, and all final and averaged
coefficients are the same. -/
theorem C103_finals_partial (hℓ : 0 < ℓ) (hc : 0 < c) (ams ams' : List AirplaneMovement) (om : OperatingPointMovement)
    (ns nc nch : Option ℕ) (dt : Option ℝ) (only : Bool) (p p' : UnsteadyProblem)
    (hams : Forall₂ (AirplaneMovement.Scaled ℓ (ℓ / c)) ams ams') (h : study ams om ns nc nch dt only = .ok p)
    (h' : study ams' (om.scaled c (ℓ / c)) ns nc nch (dt.map (ℓ / c * ·)) only = .ok p') (hdt : 0 < p.deltaTime)
    (hP : 0 ≤ p.maxPeriod)
    (nu : ℕ → ℝ) (hnu : ∀ k, 0 ≤ nu k) (s s₁ z z₁ : UnsteadySolver) (prescribed streamlines streamlines' : Bool)
    (hs : Reached (p.withViscosity nu) s) (hrun : s.run prescribed streamlines = .ok s₁)
    (hcut : ∀ k < p.numSteps, ∀ l q, IsUnsteadyFilament s₁ k l → IsUnsteadyEvaluated s₁ prescribed k q → SameCutOff ℓ l q)
    (hz : Reached (p'.withViscosity fun k => ℓ * c * nu k) z) (hrun' : z.run prescribed streamlines' = .ok z₁) :
    FinalsFollow ams.length id
      ⟨⟨(ℓ * c) ^ 2, (ℓ * c) ^ 2, (ℓ * c) ^ 2⟩,
       ⟨ℓ * (ℓ * c) ^ 2, ℓ * (ℓ * c) ^ 2, ℓ * (ℓ * c) ^ 2⟩, ⟨1, 1, 1⟩, ⟨1, 1, 1⟩⟩ s s₁ z z₁ := by
  obtain ⟨p₂, h₂, hn, hd, hP', ha, hf, -⟩ := C103_study hℓ hc ams ams' om ns nc nch dt only p hams h
  obtain rfl : p' = p₂ := Except.ok.inj (h'.symm.trans h₂)
  obtain ⟨z₂, hz₂, hk⟩ := C103_similarity_partial hℓ hc ams ams' om ns nc nch dt only p p' hams h h' nu hnu s s₁ z
    prescribed streamlines streamlines' hs hrun hcut hz
  obtain rfl : z₁ = z₂ := Except.ok.inj (hrun'.symm.trans hz₂)
  have hlc := mul_pos hℓ hc
  refine finals_of_steps (p := p.withViscosity nu) (p' := p'.withViscosity fun k => ℓ * c * nu k)
    ((study_parts h).1.withViscosity nu hnu) ((study_parts h').1.withViscosity _ fun k => mul_nonneg hlc.le (hnu k))
    (fun k hkn => by rw [p.withViscosity_airplanes, study_airplanes_length h k hkn])
    (fun k hkn => by rw [p'.withViscosity_airplanes, study_airplanes_length h' k hkn, hams.length_eq])
    hdt hP hn ha ?_ hs hrun hz hrun' id (fun _ hi => hi) _ ?_
  · show p'.maxPeriod = 0 ↔ p.maxPeriod = 0
    rw [hP', mul_eq_zero]
    simp [(div_pos hℓ hc).ne']
  · intro k hkn hfr a A hA
    obtain ⟨L, L', e1, e2, e3, e4, e5, e6⟩ := (hk k hkn).totals hfr a A hA
    refine ⟨L, L', e1, e2, ?_⟩
    simp only [LoadFactors.Holds, V3.const_times, one_smul]
    exact ⟨e3, e4, e5, e6⟩

/-- C103: enlarging. If no filament is left out at the points where the solver evaluates the velocity, except where they
lie on its line, then all this holds for every `ℓ ≥ 1`. -/
theorem C103_enlarged (hℓ : 1 ≤ ℓ) (hc : 0 < c) (ams ams' : List AirplaneMovement) (om : OperatingPointMovement)
    (ns nc nch : Option ℕ) (dt : Option ℝ) (only : Bool) (p p' : UnsteadyProblem)
    (hams : Forall₂ (AirplaneMovement.Scaled ℓ (ℓ / c)) ams ams') (h : study ams om ns nc nch dt only = .ok p)
    (h' : study ams' (om.scaled c (ℓ / c)) ns nc nch (dt.map (ℓ / c * ·)) only = .ok p')
    (nu : ℕ → ℝ) (hnu : ∀ k, 0 ≤ nu k) (s s₁ z : UnsteadySolver) (prescribed streamlines streamlines' : Bool)
    (hs : Reached (p.withViscosity nu) s) (hrun : s.run prescribed streamlines = .ok s₁)
    (hfar : ∀ k < p.numSteps, ∀ l q, IsUnsteadyFilament s₁ k l → IsUnsteadyEvaluated s₁ prescribed k q →
      (l.origin - q).cross (l.termination - q) = 0 ∨ ¬ NearFilament l.origin l.termination q)
    (hz : Reached (p'.withViscosity fun k => ℓ * c * nu k) z) :
    ∃ z₁, z.run prescribed streamlines' = .ok z₁ ∧
      ∀ k < p.numSteps, StepScaled (p.withViscosity nu) ℓ c s₁ z₁ k :=
  C103_similarity_partial (lt_of_lt_of_le one_pos hℓ) hc ams ams' om ns nc nch dt only p p' hams h h' nu hnu s s₁ z
    prescribed streamlines streamlines' hs hrun
    (fun k hk l q hl hq => SameCutOff.of_enlarged hℓ (hfar k hk l q hl hq)) hz

/-- C103: for every run that succeeds there are enlargements, from 1 up to a number above 1, for which all this holds
without any condition on distances, for every change `c` of the velocities. -/
theorem C103_slightly_enlarged (ams : List AirplaneMovement) (om : OperatingPointMovement)
    (ns nc nch : Option ℕ) (dt : Option ℝ) (only : Bool) (p : UnsteadyProblem) (h : study ams om ns nc nch dt only = .ok p)
    (nu : ℕ → ℝ) (hnu : ∀ k, 0 ≤ nu k) (s s₁ : UnsteadySolver) (prescribed streamlines : Bool)
    (hs : Reached (p.withViscosity nu) s) (hrun : s.run prescribed streamlines = .ok s₁) :
    ∃ ℓ₀ > 1, ∀ ℓ, 1 ≤ ℓ → ℓ < ℓ₀ → ∀ c > 0, ∀ ams', Forall₂ (AirplaneMovement.Scaled ℓ (ℓ / c)) ams ams' →
      ∃ p', study ams' (om.scaled c (ℓ / c)) ns nc nch (dt.map (ℓ / c * ·)) only = .ok p' ∧
        ∀ z streamlines', Reached (p'.withViscosity fun k => ℓ * c * nu k) z →
          ∃ z₁, z.run prescribed streamlines' = .ok z₁ ∧
            ∀ k < p.numSteps, StepScaled (p.withViscosity nu) ℓ c s₁ z₁ k := by
  obtain ⟨ℓ₀, h0, hall⟩ := cut_near_one s₁ prescribed p.numSteps
  refine ⟨ℓ₀, h0, ?_⟩
  intro ℓ h1 h2 c hc ams' hams
  have hℓ : 0 < ℓ := lt_of_lt_of_le one_pos h1
  obtain ⟨p', h', -⟩ := study_scaled hℓ hc hams h
  refine ⟨p', h', ?_⟩
  intro z sl' hz
  exact C103_similarity_partial hℓ hc ams ams' om ns nc nch dt only p p' hams h h' nu hnu s s₁ z prescribed streamlines sl'
    hs hrun (hall ℓ h1 h2) hz

/-- C103 does not hold without the condition on the distances: every study with a panel at some step can be made so small
that all its runs raise an error, whatever the velocities and viscosities. -/
theorem C103_small_fails (ams : List AirplaneMovement) (om : OperatingPointMovement)
    (ns nc nch : Option ℕ) (dt : Option ℝ) (only : Bool) (p : UnsteadyProblem) (h : study ams om ns nc nch dt only = .ok p)
    (k : ℕ) (hk : k < p.numSteps) (hpanel : ∃ r q, panelAt (p.airplanesAt k) r = some q) :
    ∃ ℓ₀ > 0, ∀ ℓ, 0 < ℓ → ℓ < ℓ₀ → ∀ c > 0, ∀ ams', Forall₂ (AirplaneMovement.Scaled ℓ (ℓ / c)) ams ams' →
      ∃ p', study ams' (om.scaled c (ℓ / c)) ns nc nch (dt.map (ℓ / c * ·)) only = .ok p' ∧
        ∀ nu : ℕ → ℝ, (∀ j, 0 ≤ nu j) → ∀ z prescribed streamlines, Reached (p'.withViscosity nu) z →
          z.run prescribed streamlines = .error .linAlgError := by
  obtain ⟨ℓ₀, h0, hall⟩ := small_fails hk (by rw [(study_parts h).1.regular.steps]; exact hk) hpanel
  refine ⟨ℓ₀, h0, ?_⟩
  intro ℓ hℓ hlt c hc ams' hams
  obtain ⟨p', h', hm', hn, hd, -, -, hf, -, hkk⟩ := study_scaled hℓ hc hams h
  refine ⟨p', h', ?_⟩
  intro nu hnu z pres sl hz
  have hne : ℓ * c ≠ 0 := (mul_pos hℓ hc).ne'
  have e : nu = fun j => ℓ * c * (nu j / (ℓ * c)) := by
    funext j
    field_simp
  rw [e] at hz
  exact hall ℓ hℓ hlt _ _ c (ScaledProblem.of_study hℓ hc (study_parts h).1 hm' hn hd hf hkk (fun j => nu j / (ℓ * c))
    fun j => div_nonneg (hnu j) (mul_pos hℓ hc).le) z hz pres sl

/-! ## The plate in a flow from below -/

theorem far_behind {l : LineVortex} {q : V3} (h1 : l.origin.x = 5 / 4) (h2 : l.termination.x = 5 / 4) (hq : q.x ≤ 3 / 4)
    (h : 1 ≤ (l.termination.y - l.origin.y) ^ 2 + (l.termination.z - l.origin.z) ^ 2) :
    ¬ NearFilament l.origin l.termination q := by
  have hx : 1 / 4 ≤ (5 / 4 - q.x) ^ 2 := by nlinarith
  apply far_of_sq
  · simp only [V3.dot, V3.sub_x, V3.sub_y, V3.sub_z, h1]
    nlinarith [sq_nonneg (l.origin.y - q.y), sq_nonneg (l.origin.z - q.z)]
  · simp only [V3.dot, V3.sub_x, V3.sub_y, V3.sub_z, h2]
    nlinarith [sq_nonneg (l.termination.y - q.y), sq_nonneg (l.termination.z - q.z)]
  · have hy : ((l.origin - q).cross (l.termination - q)).y = (5 / 4 - q.x) * (l.origin.z - l.termination.z) := by
      simp [h1, h2]; ring
    have hz : ((l.origin - q).cross (l.termination - q)).z = (5 / 4 - q.x) * (l.termination.y - l.origin.y) := by
      simp [h1, h2]; ring
    simp only [V3.dot]
    rw [hy, hz]
    have : 1 / 4 * 1 ≤ (5 / 4 - q.x) ^ 2 * ((l.termination.y - l.origin.y) ^ 2 + (l.termination.z - l.origin.z) ^ 2) :=
      mul_le_mul hx h (by norm_num) (by positivity)
    nlinarith [mul_self_nonneg ((l.origin - q).cross (l.termination - q)).x]

/-- No filament of the plate or of its rising wake is left out where the solver evaluates the velocity. -/
theorem plate_rising_far {p : UnsteadyProblem} {n : ℕ} {P : ℝ} {op : OperatingPoint}
    (hp : HeavingPlate p n 1 P (fun _ => 0) op) (hv : op.freestreamVelocity = ⟨0, 0, 1⟩) {s s₁ : UnsteadySolver} {sl : Bool}
    (hs : Reached p s) (h₁ : s.run true sl = .ok s₁) (k : ℕ) (hk : k < p.numSteps) (l : LineVortex) (q : V3)
    (hl : IsUnsteadyFilament s₁ k l) (hq : IsUnsteadyEvaluated s₁ true k q) :
    (l.origin - q).cross (l.termination - q) = 0 ∨ ¬ NearFilament l.origin l.termination q := by
  obtain ⟨hring, hwake⟩ := plate_rising_wake hp hv hs h₁
  obtain ⟨st, sm, ht⟩ := hs.trace hp.made h₁
  have hk' : k < n := by rw [← hp.steps]; exact hk
  obtain ⟨hr, hpan⟩ := hp.refs hk'
  obtain ⟨v, v1, v2, v3, v4, v5⟩ := hring k hk'
  have hprob := ht.final_eq.2.2.2.2.2.2
  have hone : ∀ r d, panelAt (p.airplanesAt k) r = some d → r = ⟨0, 0, 0, 0⟩ ∧ d = squareAt 0 := by
    intro r d h
    have := (mem_panelRefs _ _).mpr ⟨d, h⟩
    rw [hr, List.mem_singleton] at this
    subst this
    exact ⟨rfl, Option.some.inj (h.symm.trans hpan)⟩
  have hpoint : q = ⟨3 / 4, 1 / 2, 0⟩ ∨ q = ⟨1 / 4, 1 / 2, 0⟩ ∨ q = ⟨3 / 4, 0, 1 / 8⟩ ∨ q = ⟨3 / 4, 1, 1 / 8⟩ := by
    rcases hq with ⟨r, d, h, rfl | ⟨-, u, hu, hm⟩⟩ | ⟨h, -⟩
    · rw [hprob] at h
      obtain ⟨-, rfl⟩ := hone _ _ h
      exact .inl (squareAt_points 0).1
    · rw [hprob] at h
      obtain ⟨rfl, -⟩ := hone _ _ h
      rw [v1, Option.some.injEq] at hu
      subst hu
      rcases hm with rfl | rfl | rfl
      · right; left
        unfold RingVortex.frontMiddle
        rw [v2, v3]
        ext <;> simp; norm_num
      · right; right; left
        unfold RingVortex.leftMiddle
        rw [v2, v4]
        ext <;> simp <;> norm_num
      · right; right; right
        unfold RingVortex.rightMiddle
        rw [v3, v5]
        ext <;> simp <;> norm_num
    · cases h
  have hx3 : q.x ≤ 3 / 4 := by rcases hpoint with rfl | rfl | rfl | rfl <;> norm_num
  rcases hl with ⟨r, d, u, h, hu, hl⟩ | ⟨place, w, hw, hl⟩
  · rw [hprob] at h
    obtain ⟨rfl, -⟩ := hone _ _ h
    obtain ⟨g, hg⟩ := ht.rings hk (r := ⟨0, 0, 0, 0⟩) (by rw [hr]; simp)
    rw [hg, Option.some.injEq] at hu v1
    rw [← v1] at v2 v3 v4 v5
    subst hu
    have v2' : (boundRing p k ⟨0, 0, 0, 0⟩).frontLeft = ⟨1 / 4, 0, 0⟩ := v2
    have v3' : (boundRing p k ⟨0, 0, 0, 0⟩).frontRight = ⟨1 / 4, 1, 0⟩ := v3
    have v4' : (boundRing p k ⟨0, 0, 0, 0⟩).backLeft = ⟨5 / 4, 0, 1 / 4⟩ := v4
    have v5' : (boundRing p k ⟨0, 0, 0, 0⟩).backRight = ⟨5 / 4, 1, 1 / 4⟩ := v5
    have hlegs : ((boundRing p k ⟨0, 0, 0, 0⟩).updateStrength g).legs = (RingVortex.mk'
        (boundRing p k ⟨0, 0, 0, 0⟩).frontLeft (boundRing p k ⟨0, 0, 0, 0⟩).frontRight
        (boundRing p k ⟨0, 0, 0, 0⟩).backLeft (boundRing p k ⟨0, 0, 0, 0⟩).backRight g).legs := rfl
    rw [hlegs, v2', v3', v4', v5'] at hl
    simp only [RingVortex.legs, RingVortex.mk', LineVortex.mk', List.mem_cons, List.not_mem_nil, or_false] at hl
    rcases hpoint with rfl | rfl | rfl | rfl <;> rcases hl with rfl | rfl | rfl | rfl <;>
      first
      | (left; ext <;> simp <;> norm_num; done)
      | (right; apply far_of_sq <;> simp [V3.dot] <;> norm_num)
  · obtain ⟨i, hi, hw'⟩ : ∃ i < k, wakeRecord s₁ k ⟨0, 0, i, 0⟩ = some w := by
      have hmem : w ∈ (wakePlaces p k).map (placeRing p s₁ k) := by
        unfold wakeRecord at hw
        rw [ht.places hk] at hw
        exact List.mem_of_getElem? hw
      obtain ⟨d, hd, rfl⟩ := List.mem_map.mp hmem
      obtain ⟨hrow, W, hW, hcol⟩ := mem_wakePlaces.mp hd
      have hd' : d = ⟨0, 0, d.row, 0⟩ := by
        obtain ⟨_, a, w, h1, h2, h3, h4, _, _⟩ := hp.step k hk'
        unfold UnsteadyProblem.wing? at hW
        rw [h1, Option.bind_eq_some_iff] at hW
        obtain ⟨b, hb, hW⟩ := hW
        obtain ⟨a0, -⟩ := List.getElem?_eq_some_iff.mp hb
        have hb' := List.mem_of_getElem? hb
        rw [List.mem_singleton] at hb'
        subst hb'
        rw [h2] at hW
        obtain ⟨w0, -⟩ := List.getElem?_eq_some_iff.mp hW
        have hw' := List.mem_of_getElem? hW
        rw [List.mem_singleton] at hw'
        subst hw'
        obtain ⟨d1, d2, d3, d4⟩ := d
        rw [h3] at hcol
        simp only [List.length_singleton] at a0 w0 hcol
        simp only [WakePlace.mk.injEq]
        exact ⟨by omega, by omega, trivial, by omega⟩
      exact ⟨d.row, hrow, by rw [← hd']; exact ht.wakeRecord hk hd⟩
    obtain ⟨u, u1, u2, u3, u4, u5⟩ := hwake k hk' i hi
    rw [hw', Option.some.injEq] at u1
    subst u1
    rw [u2, u3, u4, u5] at hl
    simp only [RingVortex.legs, RingVortex.mk', LineVortex.mk', List.mem_cons, List.not_mem_nil, or_false] at hl
    right
    rcases hl with rfl | rfl | rfl | rfl <;> refine far_behind rfl rfl hx3 ?_ <;> simp <;> norm_num

/-- The hypotheses are met: a plate of 1 m by 1 m in a flow of any viscosity from below, flown for any number of steps
with a prescribed wake, in metres and seconds, and in any smaller units of length and any units of time. -/
example (n : ℕ) (hn : 0 < n) (only sl sl' : Bool) (viscosity : ℝ) (hnu : 0 ≤ viscosity) (ℓ c : ℝ) (hℓ : 1 ≤ ℓ)
    (hc : 0 < c) : ∃ ams om p s s₁, study ams om (some n) none none (some 1) only = .ok p ∧ p.numSteps = n ∧
      UnsteadySolver.create (p.withViscosity fun _ => viscosity) = .ok s ∧ s.run true sl = .ok s₁ ∧
      (∀ k < n, ∀ i < k, (⟨0, 0, i, 0⟩ : WakePlace) ∈ wakePlaces (p.withViscosity fun _ => viscosity) k) ∧
      ∃ ams' p', Forall₂ (AirplaneMovement.Scaled ℓ (ℓ / c)) ams ams' ∧
        study ams' (om.scaled c (ℓ / c)) (some n) none none (some (ℓ / c * 1)) only = .ok p' ∧
        ∀ z, Reached (p'.withViscosity fun _ => ℓ * c * viscosity) z → ∃ z₁, z.run true sl' = .ok z₁ ∧
          ∀ k < n, StepScaled (p.withViscosity fun _ => viscosity) ℓ c s₁ z₁ k := by
  obtain ⟨w, hw, -, h⟩ := heaving_movement_of 1 0 0
  obtain ⟨a, ha1⟩ : ∃ a, Airplane.create [w] = .ok a := ⟨_, rfl⟩
  obtain ⟨-, mv, p, h1, h2, hp, -⟩ := h a n hn 1 { velocity := 1, alpha := 90, beta := 0 } only
  have hz : (fun k => (oscillatingSinspace 0 0 0 n 1).getD k 0) = fun _ => (0 : ℝ) := by
    funext k
    unfold oscillatingSinspace
    rw [if_pos (.inl rfl)]
    unfold constList
    rw [List.getD_eq_getElem?_getD, List.getElem?_replicate]
    split <;> simp
  rw [hz] at hp
  set op : OperatingPoint := { density := 1.225, velocity := 1, alpha := 90, beta := 0, nu := viscosity } with hop
  have hd : op.freestreamDirection = ⟨0, 0, 1⟩ := by
    rw [C01_freestream_direction, show op.alpha * Real.pi / 180 = Real.pi / 2 by simp only [op]; ring]
    simp [op]
  have hv : op.freestreamVelocity = ⟨0, 0, 1⟩ := by
    rw [OperatingPoint.freestreamVelocity, hd]
    ext <;> simp [op]
  have hp' : HeavingPlate (p.withViscosity fun _ => viscosity) n 1 (max 0 0) (fun _ => 0) op := by
    refine ⟨hp.made.withViscosity _ fun _ => hnu, hp.steps, hp.dt, hp.period, ?_, ?_⟩
    · intro k hk
      rw [p.withViscosity_operatingPoint _ k (by rw [hp.made.regular.steps, hp.steps]; exact hk),
        p.withViscosity_airplanes, (hp.step k hk).1]
      exact ⟨rfl, (hp.step k hk).2⟩
    · intro k hk
      rw [p.withViscosity_airplanes]
      exact hp.references k hk
  obtain ⟨s, hs⟩ := hp'.create hn
  have hr := Reached.fresh hs
  obtain ⟨s₁, hrun⟩ := hp'.run zero_le_one (by simp [op]) (by rw [hd]; simp) hr true sl
  have hst : study [{ base := a, wingMovements := [heave w 0 0] }] { base := { velocity := 1, alpha := 90, beta := 0 } }
      (some n) none none (some 1) only = .ok p := bind_ok.mpr ⟨mv, h1, h2⟩
  refine ⟨_, _, p, s, s₁, hst, hp.steps, hs, hrun, fun k hk i hi => hp'.place hk hi, ?_⟩
  have hwm : w.Made := ⟨_, _, _, _, _, _, _, hw⟩
  obtain ⟨ams', hams⟩ := C103_can_be_described (lt_of_lt_of_le one_pos hℓ) (ℓ / c)
    [({ base := a, wingMovements := [heave w 0 0] } : AirplaneMovement)] (by
      intro m hm
      rw [List.mem_singleton] at hm
      subst hm
      refine ⟨⟨[w], _, _, _, _, _, ha1, by simpa using hwm⟩, ?_⟩
      intro v hv
      rw [List.mem_singleton] at hv
      subst hv
      exact hwm)
  obtain ⟨p', h', -⟩ := C103_study (lt_of_lt_of_le one_pos hℓ) hc _ ams' _ _ _ _ _ _ p hams hst
  refine ⟨ams', p', hams, h', ?_⟩
  intro z hz'
  have := C103_enlarged hℓ hc _ ams' _ _ _ _ _ _ p p' hams hst h' (fun _ => viscosity) (fun _ => hnu) s s₁ z true sl sl' hr
    hrun (plate_rising_far hp' hv hr hrun) hz'
  rw [hp.steps] at this
  exact this

/-- The hypotheses of the other theorems are met: a heaving plate, with a free wake or a prescribed one, enlarged a
little; and made small, where its runs fail. -/
example (A P : ℝ) (n : ℕ) (hn : 0 < n) (dt velocity alpha viscosity c : ℝ) (ha : |alpha| ≤ 90) (hdt : 0 < dt)
    (hv : 0 < velocity) (hnu : 0 ≤ viscosity) (hc : 0 < c) (only pres sl sl' : Bool) :
    ∃ ams om p s s₁, study ams om (some n) none none (some dt) only = .ok p ∧ p.numSteps = n ∧
      UnsteadySolver.create (p.withViscosity fun _ => viscosity) = .ok s ∧ s.run pres sl = .ok s₁ ∧
      (∃ ℓ > 1, ∃ ams' p', Forall₂ (AirplaneMovement.Scaled ℓ (ℓ / c)) ams ams' ∧
        study ams' (om.scaled c (ℓ / c)) (some n) none none (some (ℓ / c * dt)) only = .ok p' ∧
        ∀ z, Reached (p'.withViscosity fun _ => ℓ * c * viscosity) z → ∃ z₁, z.run pres sl' = .ok z₁ ∧
          ∀ k < n, StepScaled (p.withViscosity fun _ => viscosity) ℓ c s₁ z₁ k) ∧
      ∃ ℓ > 0, ∃ ams' p', Forall₂ (AirplaneMovement.Scaled ℓ (ℓ / c)) ams ams' ∧
        study ams' (om.scaled c (ℓ / c)) (some n) none none (some (ℓ / c * dt)) only = .ok p' ∧
        ∀ z, Reached (p'.withViscosity fun _ => viscosity) z → z.run pres sl' = .error .linAlgError := by
  obtain ⟨w, hw, -, h⟩ := heaving_movement_of 1 A P
  obtain ⟨a, ha1⟩ : ∃ a, Airplane.create [w] = .ok a := ⟨_, rfl⟩
  obtain ⟨-, mv, p, h1, h2, hp, -⟩ := h a n hn dt { velocity := velocity, alpha := alpha, beta := 0 } only
  have hp' : HeavingPlate (p.withViscosity fun _ => viscosity) n dt (max 0 P)
      (fun k => (oscillatingSinspace A P 0 n dt).getD k 0)
      { density := 1.225, velocity := velocity, alpha := alpha, beta := 0, nu := viscosity } := by
    refine ⟨hp.made.withViscosity _ fun _ => hnu, hp.steps, hp.dt, hp.period, ?_, ?_⟩
    · intro k hk
      rw [p.withViscosity_operatingPoint _ k (by rw [hp.made.regular.steps, hp.steps]; exact hk),
        p.withViscosity_airplanes, (hp.step k hk).1]
      exact ⟨rfl, (hp.step k hk).2⟩
    · intro k hk
      rw [p.withViscosity_airplanes]
      exact hp.references k hk
  obtain ⟨s, hs⟩ := hp'.create hn
  have hr := Reached.fresh hs
  obtain ⟨s₁, hrun⟩ := hp'.run hdt.le hv.le (flies_ahead 1.225 velocity alpha ha) hr pres sl
  have hst : study [{ base := a, wingMovements := [heave w A P] }]
      { base := { velocity := velocity, alpha := alpha, beta := 0 } }
      (some n) none none (some dt) only = .ok p := bind_ok.mpr ⟨mv, h1, h2⟩
  have hwm : w.Made := ⟨_, _, _, _, _, _, _, hw⟩
  have hdesc : ∀ ℓ > 0, ∃ ams', Forall₂ (AirplaneMovement.Scaled ℓ (ℓ / c))
      [({ base := a, wingMovements := [heave w A P] } : AirplaneMovement)] ams' := by
    intro ℓ hℓ
    refine C103_can_be_described hℓ (ℓ / c) _ ?_
    intro m hm
    rw [List.mem_singleton] at hm
    subst hm
    refine ⟨⟨[w], _, _, _, _, _, ha1, by simpa using hwm⟩, ?_⟩
    intro v hv
    rw [List.mem_singleton] at hv
    subst hv
    exact hwm
  refine ⟨_, _, p, s, s₁, hst, hp.steps, hs, hrun, ?_, ?_⟩
  · obtain ⟨ℓ₀, h0, hall⟩ := C103_slightly_enlarged _ _ _ _ _ _ _ p hst (fun _ => viscosity) (fun _ => hnu) s s₁ pres sl hr
      hrun
    obtain ⟨ℓ, hℓ1, hℓ2⟩ := exists_between h0
    obtain ⟨ams', hams⟩ := hdesc ℓ (by linarith)
    obtain ⟨p', h', hz⟩ := hall ℓ hℓ1.le hℓ2 c hc ams' hams
    refine ⟨ℓ, hℓ1, ams', p', hams, h', ?_⟩
    intro z hz'
    obtain ⟨z₁, e1, e2⟩ := hz z sl' hz'
    rw [hp.steps] at e2
    exact ⟨z₁, e1, e2⟩
  · obtain ⟨ℓ₀, h0, hall⟩ := C103_small_fails _ _ _ _ _ _ _ p hst 0 (by rw [hp.steps]; exact hn)
      ⟨_, _, (hp.refs hn).2⟩
    obtain ⟨ℓ, hℓ1, hℓ2⟩ := exists_between h0
    obtain ⟨ams', hams⟩ := hdesc ℓ hℓ1
    obtain ⟨p', h', hz⟩ := hall ℓ hℓ1 hℓ2 c hc ams' hams
    exact ⟨ℓ, hℓ1, ams', p', hams, h', fun z hz' => hz (fun _ => viscosity) (fun _ => hnu) z pres sl' hz'⟩

end Ptera
