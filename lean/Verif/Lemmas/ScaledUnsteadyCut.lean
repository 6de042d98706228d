import Mathlib.Topology.Order.OrderClosed
import Verif.Lemmas.ScaledStudy
import Verif.Lemmas.ScaledTiny
import Verif.Props.Aborted
import Verif.Props.LengthUnits

/-! Helper lemmas: which filaments unsteady runs leave out, in another unit of length. -/

namespace Ptera

open UnsteadySolver Filter Topology

theorem near_one (a b q : V3) (h : NearFilament a b q) :
    ∀ᶠ ℓ : ℝ in 𝓝 1, NearFilament (ℓ • a) (ℓ • b) (ℓ • q) := by
  have key : ∀ f : ℝ → ℝ, Continuous f → f 1 < eps → ∀ᶠ ℓ : ℝ in 𝓝 1, f ℓ < eps := by
    intro f hf h1
    exact hf.continuousAt.eventually_lt continuousAt_const h1
  have hn : ∀ (ℓ : ℝ) (u v : V3), (ℓ • u - ℓ • v).norm = |ℓ| * (u - v).norm := by
    intro ℓ u v
    rw [← smul_sub, V3.norm_smul]
  have hc : ∀ ℓ : ℝ, ((ℓ • a - ℓ • q).cross (ℓ • b - ℓ • q)).norm = |ℓ| * (|ℓ| * ((a - q).cross (b - q)).norm) := by
    intro ℓ
    rw [← smul_sub, ← smul_sub, V3.smul_cross, V3.cross_smul, V3.norm_smul, V3.norm_smul]
  unfold NearFilament at h ⊢
  simp only [hn, hc]
  rcases h with h | h | h
  · filter_upwards [key (fun ℓ => |ℓ| * (a - q).norm) (by fun_prop) (by simpa using h)] with ℓ hl
    exact Or.inl hl
  · filter_upwards [key (fun ℓ => |ℓ| * (b - q).norm) (by fun_prop) (by simpa using h)] with ℓ hl
    exact Or.inr (Or.inl hl)
  · filter_upwards [key (fun ℓ => (|ℓ| * (|ℓ| * ((a - q).cross (b - q)).norm)) ^ 2) (by fun_prop) (by simpa using h)] with ℓ hl
    exact Or.inr (Or.inr hl)

theorem sameCutOff_near_one (l : LineVortex) (q : V3) : ∀ᶠ ℓ : ℝ in 𝓝[≥] 1, SameCutOff ℓ l q := by
  by_cases h : NearFilament l.origin l.termination q
  · filter_upwards [mem_nhdsWithin_of_mem_nhds (near_one l.origin l.termination q h)] with ℓ hl
    exact Or.inr ⟨fun _ => h, fun _ => hl⟩
  · filter_upwards [self_mem_nhdsWithin] with ℓ hl
    exact SameCutOff.of_enlarged hl (Or.inr h)

theorem finite_slots (s : UnsteadySolver) (k : ℕ) : {w | ∃ q, wakeRecord s k q = some w}.Finite := by
  refine Set.Finite.subset (List.finite_toSet ((s.wakeArrays[k]?).getD [])) ?_
  rintro w ⟨q, hq⟩
  unfold wakeRecord at hq
  cases h : s.wakeArrays[k]? with
  | none => rw [h] at hq; cases hq
  | some l =>
    rw [h] at hq
    exact List.mem_of_getElem? hq

theorem finite_rings (s : UnsteadySolver) (k : ℕ) :
    {v | ∃ r panel, panelAt (s.problem.airplanesAt k) r = some panel ∧ (s.panels k r).ring = some v}.Finite := by
  have := (List.finite_toSet (panelRefs (s.problem.airplanesAt k))).image fun r => ((s.panels k r).ring).getD (RingVortex.mk' 0 0 0 0 0)
  refine this.subset ?_
  rintro v ⟨r, panel, h1, h2⟩
  exact ⟨r, (mem_panelRefs _ _).mpr ⟨panel, h1⟩, by simp only [h2, Option.getD_some]⟩

theorem finite_filaments (s : UnsteadySolver) (k : ℕ) : {l | IsUnsteadyFilament s k l}.Finite := by
  have h1 := (finite_rings s k).biUnion fun v _ => List.finite_toSet v.legs
  have h2 := (finite_slots s k).biUnion fun w _ =>
    List.finite_toSet (RingVortex.mk' w.frontLeft w.frontRight w.backLeft w.backRight w.strength).legs
  refine (h1.union h2).subset ?_
  rintro l (⟨r, panel, v, a, b, c⟩ | ⟨q, w, a, b⟩)
  · left; simp only [Set.mem_iUnion, Set.mem_ofPred_eq]; exact ⟨v, ⟨r, panel, a, b⟩, c⟩
  · right; simp only [Set.mem_iUnion, Set.mem_ofPred_eq]; exact ⟨w, ⟨q, a⟩, b⟩

theorem finite_evaluated (s : UnsteadySolver) (pres : Bool) (k : ℕ) : {q | IsUnsteadyEvaluated s pres k q}.Finite := by
  have h0 := (List.finite_toSet (panelRefs (s.problem.airplanesAt k))).image
    fun r => (geometryOf (s.problem.airplanesAt k) r).collocationPoint
  have h1 := (finite_rings s k).biUnion fun v _ => List.finite_toSet [v.frontMiddle, v.leftMiddle, v.rightMiddle]
  have h2 := (finite_slots s k).biUnion fun w _ =>
    List.finite_toSet [w.frontLeft, w.frontRight, w.backLeft, w.backRight]
  have h3 := (finite_slots s 1).biUnion fun w _ => List.finite_toSet [w.frontLeft, w.frontRight]
  refine ((h0.union h1).union (h2.union h3)).subset ?_
  rintro q (⟨r, panel, a, rfl | ⟨-, v, b, c⟩⟩ | ⟨-, -, ⟨place, w, a, b⟩ | ⟨-, place, w, a, b⟩⟩)
  · left; left
    exact ⟨r, (mem_panelRefs _ _).mpr ⟨panel, a⟩, by simp only [geometryOf_eq a]⟩
  · left; right
    simp only [Set.mem_iUnion, Set.mem_ofPred_eq]
    exact ⟨v, ⟨r, panel, a, b⟩, by simpa using c⟩
  · right; left
    simp only [Set.mem_iUnion, Set.mem_ofPred_eq]
    exact ⟨w, ⟨place, a⟩, by simpa using b⟩
  · right; right
    simp only [Set.mem_iUnion, Set.mem_ofPred_eq]
    exact ⟨w, ⟨place, a⟩, by simpa using b⟩

/-- Enlarging a run a little does not change which filaments are left out. -/
theorem cut_near_one (s : UnsteadySolver) (pres : Bool) (n : ℕ) : ∃ ℓ₀ > 1, ∀ ℓ, 1 ≤ ℓ → ℓ < ℓ₀ → ∀ k < n, ∀ l q,
    IsUnsteadyFilament s k l → IsUnsteadyEvaluated s pres k q → SameCutOff ℓ l q := by
  have : ∀ᶠ ℓ : ℝ in 𝓝[≥] 1, ∀ k ∈ Set.Iio n, ∀ l ∈ {l | IsUnsteadyFilament s k l},
      ∀ q ∈ {q | IsUnsteadyEvaluated s pres k q}, SameCutOff ℓ l q :=
    (eventually_all_finite (Set.finite_Iio n)).mpr fun k _ =>
      (eventually_all_finite (finite_filaments s k)).mpr fun l _ =>
        (eventually_all_finite (finite_evaluated s pres k)).mpr fun q _ => sameCutOff_near_one l q
  obtain ⟨ℓ₀, h0, hall⟩ := (mem_nhdsGE_iff_exists_Ico_subset).mp this
  exact ⟨ℓ₀, h0, fun ℓ h1 h2 k hk l q hl hq => hall ⟨h1, h2⟩ k hk l hl q hq⟩

/-- The bound rings of one step made so small that all their sides are left out, whatever the viscosities. -/
theorem unitRing_small {p : UnsteadyProblem} {k : ℕ} (hk : k < p.steadyProblems.length) (r : PanelRef) (q : V3) :
    ∀ᶠ ℓ : ℝ in 𝓝[>] 0, ∀ nu p' c, ScaledProblem (p.withViscosity nu) p' ℓ c → k < p.numSteps →
      unitRing p' k r (ℓ • q) = 0 := by
  filter_upwards [unitVelocity_small (ringLegs (boundRing p k r).backRight (boundRing p k r).frontRight
    (boundRing p k r).frontLeft (boundRing p k r).backLeft) q] with ℓ h nu p' c hs hkn
  obtain ⟨e1, e2, e3, e4⟩ := hs.ring hkn r
  have e : boundRing (p.withViscosity nu) k r = boundRing p k r := by
    unfold boundRing
    rw [UnsteadyProblem.withViscosity_airplanes, UnsteadyProblem.withViscosity_operatingPoint _ _ _ hk]
    rfl
  rw [e] at e1 e2 e3 e4
  unfold unitRing
  rw [e1, e2, e3, e4]
  exact h

theorem small_fails {p : UnsteadyProblem} {k : ℕ} (hk : k < p.numSteps) (hl : k < p.steadyProblems.length)
    (hpanel : ∃ r q, panelAt (p.airplanesAt k) r = some q) :
    ∃ ℓ₀ > 0, ∀ ℓ, 0 < ℓ → ℓ < ℓ₀ → ∀ nu p' c, ScaledProblem (p.withViscosity nu) p' ℓ c → ∀ s, Reached p' s →
      ∀ pres sl, s.run pres sl = .error .linAlgError := by
  have hne : panelRefs (p.airplanesAt k) ≠ [] := by
    obtain ⟨r, q, h⟩ := hpanel
    exact List.ne_nil_of_mem ((mem_panelRefs _ r).mpr ⟨q, h⟩)
  have hall : ∀ᶠ ℓ : ℝ in 𝓝[>] 0, ∀ i ∈ {r | r ∈ panelRefs (p.airplanesAt k)}, ∀ j ∈ {r | r ∈ panelRefs (p.airplanesAt k)},
      ∀ nu p' c, ScaledProblem (p.withViscosity nu) p' ℓ c → k < p.numSteps →
        unitRing p' k j (ℓ • (geometryOf (p.airplanesAt k) i).collocationPoint) = 0 :=
    (eventually_all_finite (List.finite_toSet _)).mpr fun i _ =>
      (eventually_all_finite (List.finite_toSet _)).mpr fun j _ => unitRing_small hl j _
  obtain ⟨ℓ₀, h0, hall⟩ := (mem_nhdsGT_iff_exists_Ioo_subset).mp hall
  refine ⟨ℓ₀, h0, ?_⟩
  intro ℓ hℓ hlt nu p' c hs s hr pres sl
  have hz := hall ⟨hℓ, hlt⟩
  have hk2 : k < (p.withViscosity nu).numSteps := hk
  cases hrun : s.run pres sl with
  | error e => rw [C40_only_singular_fails hs.made' hr e hrun]
  | ok s' =>
    exfalso
    obtain ⟨st, sm, ht⟩ := hr.trace hs.made' hrun
    obtain ⟨Γ, hΓ, -⟩ := ht.values hs.made'.regular (k := k) (by rw [hs.steps]; exact hk)
    have hu : UnsteadySolver.wingMatrix p' k = (panelRefs (p'.airplanesAt k)).map fun i =>
        (panelRefs (p'.airplanesAt k)).map fun j =>
          (UnsteadySolver.unitRing p' k j (geometryOf (p'.airplanesAt k) i).collocationPoint).dot
            (geometryOf (p'.airplanesAt k) i).unitNormal := rfl
    have hrefs := hs.refs hk2
    rw [UnsteadyProblem.withViscosity_airplanes] at hrefs
    rw [hu, hrefs, linalgSolve_degenerate hne] at hΓ
    · cases hΓ
    · intro i hi j hj
      rw [(hs.collocation hk2 i).1, UnsteadyProblem.withViscosity_airplanes, hz i hi j hj nu p' c hs hk, V3.zero_dot]

end Ptera
