import Verif.Lemmas.Nearby
import Verif.Props.FarApart
import Verif.Props.LengthUnits

/-!
# C96: a small change of a steady problem changes the results only a little
-/

namespace Ptera

open Filter Topology

/-- A steady problem that can be solved has nearby problems that can be solved too, with nearby results; the problem must
not have a point exactly where the solvers begin to leave out a filament. -/
theorem C96_nearby (method : SteadyMethod) (P : SteadyProblem) (hmade : ∀ a ∈ P.airplanes, a.Made) (heap₀ : PanelHeap)
    (loads₀ : List AirplaneLoads) (R₀ : SteadyResults) (hR₀ : steadyRun method P heap₀ loads₀ = .ok R₀)
    (hcut : ∀ l q, IsFilament method P l → IsEvaluated method P q → ¬ AtCutOff l q) (ε : ℝ) (hε : 0 < ε) :
    ∃ δ > 0, ∀ Q : SteadyProblem, (∀ a ∈ Q.airplanes, a.Made) → P.Near δ Q → ∀ heap loads,
      ∃ R, steadyRun method Q heap loads = .ok R ∧
        (∀ r p, panelAt P.airplanes r = some p → ∃ (g g₀ : ℝ) (L L₀ : PanelLoads), R.strength r = some g ∧
          R₀.strength r = some g₀ ∧ R.loads r = some L ∧ R₀.loads r = some L₀ ∧
          |g - g₀| < ε ∧ (L.forceWind - L₀.forceWind).norm < ε ∧ (L.momentWind - L₀.momentWind).norm < ε) ∧
        (∀ (i : ℕ) a, P.airplanes[i]? = some a → ∃ T T₀ : AirplaneLoads, R.totals[i]? = some T ∧
          R₀.totals[i]? = some T₀ ∧ (T.forceWind - T₀.forceWind).norm < ε ∧ (T.momentWind - T₀.momentWind).norm < ε ∧
          (P.operatingPoint.density ≠ 0 → P.operatingPoint.velocity ≠ 0 → a.sRef ≠ 0 → a.cRef ≠ 0 → a.bRef ≠ 0 →
            (T.forceCoefficients - T₀.forceCoefficients).norm < ε ∧
            (T.momentCoefficients - T₀.momentCoefficients).norm < ε)) := by
  by_contra hcon
  push Not at hcon
  choose Q hm' hn heap loads hbad using fun n : ℕ => hcon (1 / ((n : ℝ) + 1)) (by positivity)
  have hQ : Approach atTop Q P := Approach.of_near tendsto_one_div_add_atTop_nhds_zero_nat hn hmade hm'
  obtain ⟨R, hR, hg, -, hf⟩ := hQ.limits hR₀ hcut heap loads
  have hpanels : ∀ᶠ n in atTop, ∀ r p, panelAt P.airplanes r = some p → ∃ (g g₀ : ℝ) (L L₀ : PanelLoads),
      (R n).strength r = some g ∧ R₀.strength r = some g₀ ∧ (R n).loads r = some L ∧ R₀.loads r = some L₀ ∧
      |g - g₀| < ε ∧ (L.forceWind - L₀.forceWind).norm < ε ∧ (L.momentWind - L₀.momentWind).norm < ε := by
    apply eventually_panels
    intro r p hp
    obtain ⟨a, w, ha, -⟩ := panelAt_cell hp
    obtain ⟨⟨L₀, hL₀⟩, -⟩ := steady_loads_wind hmade hR₀ hp ha
    obtain ⟨b, hb, -⟩ := hQ.references _ a ha
    obtain ⟨g₀, g, h0, hg1, hg2⟩ := hg r p hp
    obtain ⟨hf1, hf2⟩ := hf r p hp
    filter_upwards [hR, hg1, Metric.tendsto_nhds.mp hg2 ε hε, hf1.close hε, hf2.close hε] with n e1 e2 e3 e4 e5
    obtain ⟨p', hp'⟩ := (hQ.panels n r).mp ⟨p, hp⟩
    obtain ⟨⟨L, hL⟩, -⟩ := steady_loads_wind (hm' n) e1 hp' (hb n)
    simp only [SteadyResults.forceOf, SteadyResults.momentOf, hL, hL₀, Option.map_some, Option.getD_some] at e4 e5
    exact ⟨g n, g₀, L, L₀, e2, h0, hL, hL₀, by rwa [Real.dist_eq] at e3, e4, e5⟩
  have htotals : ∀ᶠ n in atTop, ∀ (i : ℕ) a, P.airplanes[i]? = some a → ∃ T T₀ : AirplaneLoads,
      (R n).totals[i]? = some T ∧ R₀.totals[i]? = some T₀ ∧
      (T.forceWind - T₀.forceWind).norm < ε ∧ (T.momentWind - T₀.momentWind).norm < ε ∧
      (P.operatingPoint.density ≠ 0 → P.operatingPoint.velocity ≠ 0 → a.sRef ≠ 0 → a.cRef ≠ 0 → a.bRef ≠ 0 →
        (T.forceCoefficients - T₀.forceCoefficients).norm < ε ∧
        (T.momentCoefficients - T₀.momentCoefficients).norm < ε) := by
    have hall : ∀ᶠ n in atTop, ∀ (i : ℕ) a, P.airplanes[i]? = some a → ∀ a, P.airplanes[i]? = some a →
        ∃ T T₀ : AirplaneLoads, (R n).totals[i]? = some T ∧ R₀.totals[i]? = some T₀ ∧
      (T.forceWind - T₀.forceWind).norm < ε ∧ (T.momentWind - T₀.momentWind).norm < ε ∧
      (P.operatingPoint.density ≠ 0 → P.operatingPoint.velocity ≠ 0 → a.sRef ≠ 0 → a.cRef ≠ 0 → a.bRef ≠ 0 →
        (T.forceCoefficients - T₀.forceCoefficients).norm < ε ∧
        (T.momentCoefficients - T₀.momentCoefficients).norm < ε) := by
      apply eventually_airplanes
      intro i a ha
      obtain ⟨T₀, t1, t2, t3, t4⟩ := steady_totals_own hmade hR₀ ha
      obtain ⟨b, hb, -, hbs, hbc, hbb⟩ := hQ.references _ a ha
      have mem : ∀ r ∈ (panelRefs P.airplanes).filter fun r => r.airplane = i, ∃ p, panelAt P.airplanes r = some p :=
        fun r hr => (mem_panelRefs _ _).mp (List.mem_filter.mp hr).1
      have hF := V3.Tends.listSum (F := atTop) ((panelRefs P.airplanes).filter fun r => r.airplane = i)
        (f := fun r n => (R n).forceOf r) (v := fun r => R₀.forceOf r)
        (fun r hr => by obtain ⟨p, hp⟩ := mem r hr; exact (hf r p hp).1)
      have hM := V3.Tends.listSum (F := atTop) ((panelRefs P.airplanes).filter fun r => r.airplane = i)
        (f := fun r n => (R n).momentOf r) (v := fun r => R₀.momentOf r)
        (fun r hr => by obtain ⟨p, hp⟩ := mem r hr; exact (hf r p hp).2)
      rw [← t2] at hF
      rw [← t3] at hM
      have hq : Tendsto (fun n => 0.5 * (Q n).operatingPoint.density * (Q n).operatingPoint.velocity ^ 2) atTop
          (𝓝 (0.5 * P.operatingPoint.density * P.operatingPoint.velocity ^ 2)) :=
        (hQ.density.const_mul 0.5).mul (hQ.velocity.pow 2)
      have hcoef : P.operatingPoint.density ≠ 0 → P.operatingPoint.velocity ≠ 0 → a.sRef ≠ 0 → a.cRef ≠ 0 →
          a.bRef ≠ 0 → ∀ᶠ n in atTop, ∀ T : AirplaneLoads, T.forceWind =
              (((panelRefs P.airplanes).filter fun r => r.airplane = i).map (R n).forceOf).sum → T.momentWind =
              (((panelRefs P.airplanes).filter fun r => r.airplane = i).map (R n).momentOf).sum →
            IsCoefficients (Q n).operatingPoint (b n) T → (T.forceCoefficients - T₀.forceCoefficients).norm < ε ∧
              (T.momentCoefficients - T₀.momentCoefficients).norm < ε := by
        intro n1 n2 n3 n4 n5
        have hq0 : 0.5 * P.operatingPoint.density * P.operatingPoint.velocity ^ 2 ≠ 0 := by positivity
        have hs := hq.mul hbs
        have hs0 := mul_ne_zero hq0 n3
        have hCF : V3.Tends (fun n => (⟨
            -(((panelRefs P.airplanes).filter fun r => r.airplane = i).map (R n).forceOf).sum.x
              / (0.5 * (Q n).operatingPoint.density * (Q n).operatingPoint.velocity ^ 2 * (b n).sRef),
            (((panelRefs P.airplanes).filter fun r => r.airplane = i).map (R n).forceOf).sum.y
              / (0.5 * (Q n).operatingPoint.density * (Q n).operatingPoint.velocity ^ 2 * (b n).sRef),
            -(((panelRefs P.airplanes).filter fun r => r.airplane = i).map (R n).forceOf).sum.z
              / (0.5 * (Q n).operatingPoint.density * (Q n).operatingPoint.velocity ^ 2 * (b n).sRef)⟩ : V3)) atTop
            T₀.forceCoefficients := by
          rw [t4.1]
          exact ⟨hF.1.neg.div hs hs0, hF.2.1.div hs hs0, hF.2.2.neg.div hs hs0⟩
        have hCM : V3.Tends (fun n => (⟨
            (((panelRefs P.airplanes).filter fun r => r.airplane = i).map (R n).momentOf).sum.x
              / (0.5 * (Q n).operatingPoint.density * (Q n).operatingPoint.velocity ^ 2 * (b n).sRef * (b n).bRef),
            (((panelRefs P.airplanes).filter fun r => r.airplane = i).map (R n).momentOf).sum.y
              / (0.5 * (Q n).operatingPoint.density * (Q n).operatingPoint.velocity ^ 2 * (b n).sRef * (b n).cRef),
            (((panelRefs P.airplanes).filter fun r => r.airplane = i).map (R n).momentOf).sum.z
              / (0.5 * (Q n).operatingPoint.density * (Q n).operatingPoint.velocity ^ 2 * (b n).sRef * (b n).bRef)⟩ : V3))
            atTop T₀.momentCoefficients := by
          rw [t4.2]
          exact ⟨hM.1.div (hs.mul hbb) (mul_ne_zero hs0 n5), hM.2.1.div (hs.mul hbc) (mul_ne_zero hs0 n4),
            hM.2.2.div (hs.mul hbb) (mul_ne_zero hs0 n5)⟩
        filter_upwards [hCF.close hε, hCM.close hε] with n e1 e2 T k1 k2 k3
        rw [k3.1, k3.2, k1, k2]
        exact ⟨e1, e2⟩
      by_cases hc : P.operatingPoint.density ≠ 0 ∧ P.operatingPoint.velocity ≠ 0 ∧ a.sRef ≠ 0 ∧ a.cRef ≠ 0 ∧ a.bRef ≠ 0
      · filter_upwards [hR, hF.close hε, hM.close hε, hcoef hc.1 hc.2.1 hc.2.2.1 hc.2.2.2.1 hc.2.2.2.2] with
          n e1 e2 e3 e4 a' ha'
        rw [ha] at ha'; cases ha'
        obtain ⟨T, k1, k2, k3, k4⟩ := steady_totals_own (hm' n) e1 (hb n)
        have hp : ((panelRefs (Q n).airplanes).filter fun r => r.airplane = i).Perm
            ((panelRefs P.airplanes).filter fun r => r.airplane = i) := by
          have := hQ.refs n
          rw [List.map_id] at this
          exact this.filter _
        rw [(hp.map _).sum_eq] at k2 k3
        exact ⟨T, T₀, k1, t1, by rw [k2]; exact e2, by rw [k3]; exact e3, fun _ _ _ _ _ => e4 T k2 k3 k4⟩
      · filter_upwards [hR, hF.close hε, hM.close hε] with n e1 e2 e3 a' ha'
        rw [ha] at ha'; cases ha'
        obtain ⟨T, k1, k2, k3, k4⟩ := steady_totals_own (hm' n) e1 (hb n)
        have hp : ((panelRefs (Q n).airplanes).filter fun r => r.airplane = i).Perm
            ((panelRefs P.airplanes).filter fun r => r.airplane = i) := by
          have := hQ.refs n
          rw [List.map_id] at this
          exact this.filter _
        rw [(hp.map _).sum_eq] at k2 k3
        exact ⟨T, T₀, k1, t1, by rw [k2]; exact e2, by rw [k3]; exact e3,
          fun n1 n2 n3 n4 n5 => absurd ⟨n1, n2, n3, n4, n5⟩ hc⟩
    exact hall.mono fun n hn i a ha => hn i a ha a ha
  obtain ⟨n, h1, h2, h3⟩ := (hR.and (hpanels.and htotals)).exists
  obtain ⟨i, a, ha, hno⟩ := hbad n (R n) h1 h2
  obtain ⟨T, T₀, e1, e2, e3, e4, e5⟩ := h3 i a ha
  obtain ⟨n1, n2, n3, n4, n5, hc⟩ := hno T T₀ e1 e2 e3 e4
  obtain ⟨c1, c2⟩ := e5 n1 n2 n3 n4 n5
  exact absurd c2 (not_lt.mpr (hc c1))

/-- C96: the velocities at nearby points of nearby problems are near, unless the point is exactly where the solvers begin
to leave out a filament. -/
theorem C96_velocity (method : SteadyMethod) (P : SteadyProblem) (hmade : ∀ a ∈ P.airplanes, a.Made) (heap₀ : PanelHeap)
    (loads₀ : List AirplaneLoads) (R₀ : SteadyResults) (hR₀ : steadyRun method P heap₀ loads₀ = .ok R₀)
    (hcut : ∀ l q, IsFilament method P l → IsEvaluated method P q → ¬ AtCutOff l q) (x₀ : V3)
    (hx₀ : ∀ l, IsFilament method P l → ¬ AtCutOff l x₀) (ε : ℝ) (hε : 0 < ε) :
    ∃ δ > 0, ∀ Q : SteadyProblem, (∀ a ∈ Q.airplanes, a.Made) → P.Near δ Q → ∀ heap loads x, (x - x₀).norm < δ →
      ∃ R, steadyRun method Q heap loads = .ok R ∧ (R.velocity x - R₀.velocity x₀).norm < ε := by
  by_contra hcon
  push Not at hcon
  choose Q hm' hn heap loads x hx hbad using fun n : ℕ => hcon (1 / ((n : ℝ) + 1)) (by positivity)
  have hQ : Approach atTop Q P := Approach.of_near tendsto_one_div_add_atTop_nhds_zero_nat hn hmade hm'
  obtain ⟨R, hR, -, hv, -⟩ := hQ.limits hR₀ hcut heap loads
  have hxt : V3.Tends x atTop x₀ := V3.tends_of_norm (squeeze_zero (fun n => V3.norm_nonneg _) (fun n => (hx n).le)
    tendsto_one_div_add_atTop_nhds_zero_nat)
  obtain ⟨n, h1, h2⟩ := (hR.and ((hv x x₀ hx₀ hxt).close hε)).exists
  exact absurd h2 (not_lt.mpr (hbad n (R n) h1))

/-- C96: the same airplanes in a slightly different flow. -/
theorem C96_flow (method : SteadyMethod) (op : OperatingPoint) (as : List Airplane) (hmade : ∀ a ∈ as, a.Made)
    (R₀ : SteadyResults) (hR₀ : steadyRun method ⟨as, op⟩ = .ok R₀)
    (hcut : ∀ l q, IsFilament method ⟨as, op⟩ l → IsEvaluated method ⟨as, op⟩ q → ¬ AtCutOff l q)
    (hq : op.density ≠ 0 ∧ op.velocity ≠ 0) (href : ∀ a ∈ as, a.sRef ≠ 0 ∧ a.cRef ≠ 0 ∧ a.bRef ≠ 0) (ε : ℝ) (hε : 0 < ε) :
    ∃ δ > 0, ∀ op' : OperatingPoint, |op'.alpha - op.alpha| < δ → |op'.beta - op.beta| < δ →
      |op'.velocity - op.velocity| < δ → |op'.density - op.density| < δ →
      ∃ R, steadyRun method ⟨as, op'⟩ = .ok R ∧
        ∀ (i : ℕ) a, as[i]? = some a → ∃ T T₀ : AirplaneLoads, R.totals[i]? = some T ∧ R₀.totals[i]? = some T₀ ∧
          (T.forceWind - T₀.forceWind).norm < ε ∧ (T.momentWind - T₀.momentWind).norm < ε ∧
          (T.forceCoefficients - T₀.forceCoefficients).norm < ε ∧
          (T.momentCoefficients - T₀.momentCoefficients).norm < ε := by
  obtain ⟨δ, hδ, h⟩ := C96_nearby method ⟨as, op⟩ hmade .fresh [] R₀ hR₀ hcut ε hε
  refine ⟨δ, hδ, ?_⟩
  intro op' h1 h2 h3 h4
  have hz : ∀ v : V3, (v - v).norm < δ := fun v => by rw [sub_self, V3.norm_zero]; exact hδ
  have hz' : ∀ v : ℝ, |v - v| < δ := fun v => by rw [sub_self, abs_zero]; exact hδ
  obtain ⟨R, hR, -, ht⟩ := h ⟨as, op'⟩ hmade
    { velocity := h3, density := h4, alpha := h1, beta := h2, airplanes := rfl
      references := by
        intro i a b ha hb
        simp only at ha hb
        rw [ha] at hb; cases hb
        exact ⟨hz _, hz' _, hz' _, hz' _⟩
      spans := by
        intro r v w hv hw
        simp only at hv hw
        rw [hv] at hw; cases hw
        exact hz' _
      panels := fun r => Iff.rfl
      vertices := by
        intro r p q hp hq
        simp only at hp hq
        rw [hp] at hq; cases hq
        exact ⟨hz _, hz _, hz _, hz _⟩ } .fresh []
  refine ⟨R, hR, ?_⟩
  intro i a ha
  obtain ⟨T, T₀, e1, e2, e3, e4, e5⟩ := ht i a ha
  obtain ⟨n1, n2, n3⟩ := href a (List.mem_of_getElem? ha)
  exact ⟨T, T₀, e1, e2, e3, e4, e5 hq.1 hq.2 n1 n2 n3⟩

/-- C96: at the edge of the left-out region the velocity does jump: there is a line vortex and a point such that
arbitrarily near to the point the velocity differs by a fixed amount. -/
theorem C96_cut_off_jumps : ∃ (A B x : V3) (c : ℝ), 0 < c ∧ ∀ δ > 0, ∃ y : V3, (y - x).norm < δ ∧
    ∃ u v : V3, collapsedLine [x] [A] [B] [1] none 0 = [u] ∧ collapsedLine [y] [A] [B] [1] none 0 = [v] ∧
      c ≤ (u - v).norm := by
  have hone : ∀ x A B : V3, collapsedLine [x] [A] [B] [1] none 0 = [expandedEntry 0 ⟨A, B, 1, 0⟩ x] := by
    intro x A B
    simp [collapsedLine, segs, collapsedStep_eq]
  have hs : (0 : ℝ) < 1 / 2 ^ 26 := by norm_num
  have hcross : ∀ t : ℝ, ((0 : V3) - ⟨t, 0, 0⟩).cross (⟨0, 0, 1⟩ - ⟨t, 0, 0⟩) = ⟨0, t, 0⟩ := by
    intro t; ext <;> simp
  have hn3 : ∀ t : ℝ, (⟨0, t, 0⟩ : V3).norm ^ 2 = t ^ 2 := by
    intro t; rw [V3.norm_sq]; simp [V3.dot]; ring
  have hn1 : ∀ t : ℝ, 0 < t → ((0 : V3) - ⟨t, 0, 0⟩).norm = t := by
    intro t ht
    have : ((0 : V3) - ⟨t, 0, 0⟩).norm = Real.sqrt (t ^ 2) := by unfold V3.norm; congr 1; simp [V3.dot]; ring
    rw [this, Real.sqrt_sq ht.le]
  have hn2 : ∀ t : ℝ, 1 ≤ ((⟨0, 0, 1⟩ : V3) - ⟨t, 0, 0⟩).norm := by
    intro t
    have := V3.abs_z_le ((⟨0, 0, 1⟩ : V3) - ⟨t, 0, 0⟩)
    simpa using this
  have hdot : ∀ t : ℝ, ((0 : V3) - ⟨t, 0, 0⟩).dot (⟨0, 0, 1⟩ - ⟨t, 0, 0⟩) = t ^ 2 := by
    intro t; simp [V3.dot]; ring
  refine ⟨0, ⟨0, 0, 1⟩, ⟨1 / 2 ^ 26, 0, 0⟩, (expandedEntry 0 ⟨0, ⟨0, 0, 1⟩, 1, 0⟩ ⟨1 / 2 ^ 26, 0, 0⟩).norm, ?_, ?_⟩
  · have hnc : ¬ Cutoff ⟨0, ⟨0, 0, 1⟩, 1, 0⟩ ⟨1 / 2 ^ 26, 0, 0⟩ := by
      unfold Cutoff
      simp only
      rw [hcross, hn3, hn1 _ hs]
      have := hn2 (1 / 2 ^ 26)
      unfold eps
      push Not
      exact ⟨by norm_num, le_trans (by norm_num) this, by norm_num⟩
    rw [expandedEntry_eq, if_neg hnc]
    simp only [kernelCoeff, coreRadius, mul_zero, Real.sqrt_zero, zero_pow (two_ne_zero), add_zero]
    rw [hcross, hn3, hn1 _ hs, hdot, V3.norm_smul]
    have h2 := hn2 (1 / 2 ^ 26)
    have hy : 0 < (⟨0, 1 / 2 ^ 26, 0⟩ : V3).norm :=
      lt_of_lt_of_le (by norm_num) (le_trans (le_abs_self _) (V3.abs_y_le (⟨0, 1 / 2 ^ 26, 0⟩ : V3)))
    have hπ := Real.pi_pos
    refine mul_pos (abs_pos.mpr (ne_of_gt (div_pos (mul_pos (mul_pos (by positivity) (by linarith)) ?_) ?_))) hy
    · nlinarith
    · have : 0 < ((⟨0, 0, 1⟩ : V3) - ⟨1 / 2 ^ 26, 0, 0⟩).norm := by linarith
      positivity
  · intro δ hδ
    set t : ℝ := 1 / 2 ^ 26 - min (δ / 2) (1 / 2 ^ 27) with ht
    have m1 : 0 < min (δ / 2) (1 / 2 ^ 27) := lt_min (by linarith) (by norm_num)
    have m2 : min (δ / 2) (1 / 2 ^ 27) ≤ 1 / 2 ^ 27 := min_le_right _ _
    have m3 : min (δ / 2) (1 / 2 ^ 27) ≤ δ / 2 := min_le_left _ _
    have hc : Cutoff ⟨0, ⟨0, 0, 1⟩, 1, 0⟩ ⟨t, 0, 0⟩ := by
      unfold Cutoff
      simp only
      rw [hcross, hn3]
      right; right
      have h0 : 0 < t := by rw [ht]; norm_num at m2 ⊢
      have h1 : t < 1 / 2 ^ 26 := by rw [ht]; linarith
      have : t ^ 2 < (1 / 2 ^ 26) ^ 2 := by nlinarith
      unfold eps
      norm_num at this ⊢
      linarith
    refine ⟨⟨t, 0, 0⟩, ?_, _, _, hone _ _ _, hone _ _ _, ?_⟩
    · have e : (⟨t, 0, 0⟩ : V3) - ⟨1 / 2 ^ 26, 0, 0⟩ = -(0 - ⟨-min (δ / 2) (1 / 2 ^ 27), 0, 0⟩ : V3) := by
        ext <;> simp [ht]
      rw [e, V3.norm_neg, ← V3.norm_neg, show -((0 : V3) - ⟨-min (δ / 2) (1 / 2 ^ 27), 0, 0⟩)
        = 0 - ⟨min (δ / 2) (1 / 2 ^ 27), 0, 0⟩ by ext <;> simp, hn1 _ m1]
      linarith
    · have hz : expandedEntry 0 ⟨0, ⟨0, 0, 1⟩, 1, 0⟩ ⟨t, 0, 0⟩ = 0 := by rw [expandedEntry_eq, if_pos hc]
      rw [hz, sub_zero]

/-! ## The unit plate -/

theorem not_atCutOff {l : LineVortex} {q : V3} (h1 : 1 / 16 ≤ (l.origin - q).dot (l.origin - q))
    (h2 : 1 / 16 ≤ (l.termination - q).dot (l.termination - q))
    (h3 : (l.origin - q).cross (l.termination - q) = 0 ∨
      1 / 16 ≤ ((l.origin - q).cross (l.termination - q)).dot ((l.origin - q).cross (l.termination - q))) :
    ¬ AtCutOff l q := by
  have he : eps < 1 / 16 := by unfold eps; norm_num
  have hn : ∀ v : V3, 1 / 16 ≤ v.dot v → eps < v.norm := by
    intro v hv
    refine he.trans_le ?_
    unfold V3.norm
    apply Real.le_sqrt_of_sq_le
    linarith
  unfold AtCutOff
  push Not
  refine ⟨(hn _ h1).ne', (hn _ h2).ne', ?_⟩
  rw [V3.norm_sq]
  rcases h3 with h3 | h3
  · rw [h3]
    simp only [V3.zero_dot]
    exact eps_pos.ne
  · exact (he.trans_le h3).ne'

/-- On the unit plate in a freestream from below no point is exactly where a filament begins to be left out. -/
theorem plate_not_atCutOff (method : SteadyMethod) (op : OperatingPoint) (hd : op.freestreamDirection = ⟨0, 0, 1⟩)
    {a : Airplane} (hrefs : panelRefs [a] = [⟨0, 0, 0, 0⟩]) (hp : panelAt [a] ⟨0, 0, 0, 0⟩ = some unitSquare)
    (hspan : (wingAt [a] ⟨0, 0, 0, 0⟩).map (·.span) = some 1) (l : LineVortex) (q : V3)
    (hl : IsFilament method ⟨[a], op⟩ l) (hq : IsEvaluated method ⟨[a], op⟩ q) : ¬ AtCutOff l q := by
  have hone : ∀ r p, panelAt [a] r = some p → r = ⟨0, 0, 0, 0⟩ ∧ p = unitSquare := by
    intro r p h
    have := (mem_panelRefs _ _).mpr ⟨p, h⟩
    rw [hrefs, List.mem_singleton] at this
    subst this
    exact ⟨rfl, Option.some.inj (h.symm.trans hp)⟩
  have hgeo := plate_geometry hp
  obtain ⟨g1, g2, g3⟩ := unitSquare_points
  have hte : unitSquare.isTrailingEdge = true := rfl
  have b1 : RingSolver.backLeftVertex [a] ⟨0, 0, 0, 0⟩ = ⟨5 / 4, 0, 0⟩ := by
    unfold RingSolver.backLeftVertex
    simp only [hgeo, hte, if_true, g3]
    ext <;> simp [unitSquare]
    norm_num
  have b2 : RingSolver.backRightVertex [a] ⟨0, 0, 0, 0⟩ = ⟨5 / 4, 1, 0⟩ := by
    unfold RingSolver.backRightVertex
    simp only [hgeo, hte, if_true, g2]
    ext <;> simp [unitSquare]
    norm_num
  obtain ⟨r, p, hr, hl⟩ := hl
  obtain ⟨r', p', hr', hq⟩ := hq
  obtain ⟨rfl, rfl⟩ := hone r p hr
  obtain ⟨rfl, rfl⟩ := hone r' p' hr'
  cases method with
  | horseshoe =>
    simp only [HorseshoeSolver.panelVortex, HorseshoeSolver.create, HorseshoeVortex.mk', LineVortex.mk', hgeo, g1, g2, g3,
      hspan, hd, Option.getD_some, HorseshoeVortex.legs, List.mem_cons, List.not_mem_nil, or_false] at hl hq
    rcases hq with rfl | rfl <;> rcases hl with rfl | rfl | rfl <;> apply not_atCutOff <;>
      first
      | (simp [V3.dot]; norm_num; done)
      | (simp [V3.dot]; done)
      | (left; ext <;> simp)
  | ring =>
    simp only [RingSolver.panelRing, RingSolver.panelHorseshoe, RingSolver.create, HorseshoeVortex.mk', RingVortex.mk',
      LineVortex.mk', hgeo, g1, g2, g3, b1, b2, hspan, hd, Option.getD_some, HorseshoeVortex.legs, RingVortex.legs,
      List.mem_cons, List.not_mem_nil, or_false, hte, true_and] at hl hq
    rcases hq with rfl | rfl | rfl | rfl <;> rcases hl with (rfl | rfl | rfl | rfl) | rfl | rfl | rfl <;>
      apply not_atCutOff <;>
      first
      | (simp [V3.dot]; norm_num; done)
      | (simp [V3.dot]; done)
      | (left; ext <;> simp)

/-- The hypotheses are met by the unit plate in a freestream from below: turned a little, it has nearly the same loads. -/
example (method : SteadyMethod) : ∃ (a : Airplane) (R₀ : SteadyResults),
    steadyRun method ⟨[a], { velocity := 10, density := 1, alpha := 90, beta := 0 }⟩ = .ok R₀ ∧
    ∃ δ > 0, ∀ α, |α - 90| < δ → ∃ R T T₀,
      steadyRun method ⟨[a], { velocity := 10, density := 1, alpha := α, beta := 0 }⟩ = .ok R ∧
      R.totals[0]? = some T ∧ R₀.totals[0]? = some T₀ ∧
      (T.forceCoefficients - T₀.forceCoefficients).norm < 1 / 1000 := by
  obtain ⟨a, hmade, hrefs, hp, hspan, hs, hc, hb, -⟩ := plate_airplane
  set op : OperatingPoint := { velocity := 10, density := 1, alpha := 90, beta := 0 } with hop
  have hd : op.freestreamDirection = ⟨0, 0, 1⟩ := by
    rw [C01_freestream_direction, show op.alpha * Real.pi / 180 = Real.pi / 2 by simp only [op]; ring]
    simp [op]
  have hd' : |op.freestreamDirection.y| ≤ op.freestreamDirection.x := by rw [hd]; simp
  obtain ⟨R, hR⟩ : ∃ R, steadyRun method ⟨[a], op⟩ = .ok R := by
    cases method with
    | horseshoe =>
      obtain ⟨s, hs, -⟩ := plate_horseshoe_run op hmade hrefs hp hspan hd' .fresh []
      exact ⟨s.results, by simp only [steadyRun, hs]; rfl⟩
    | ring =>
      obtain ⟨s, hs, -⟩ := plate_ring_run op hmade hrefs hp hspan hd' .fresh []
      exact ⟨s.results, by simp only [steadyRun, hs]; rfl⟩
  have hm : ∀ b ∈ [a], b.Made := by intro b hb; rw [List.mem_singleton] at hb; rwa [hb]
  obtain ⟨δ, hδ, h⟩ := C96_flow method op [a] hm R hR (plate_not_atCutOff method op hd hrefs hp hspan)
    (by simp [op]) (by intro b hb'; rw [List.mem_singleton] at hb'; rw [hb', hs, hc, hb]; simp) (1 / 1000) (by norm_num)
  refine ⟨a, R, hR, δ, hδ, ?_⟩
  intro α hα
  obtain ⟨R', hR', ht⟩ := h { velocity := 10, density := 1, alpha := α, beta := 0 } hα (by simpa [op] using hδ)
    (by simpa [op] using hδ) (by simpa [op] using hδ)
  obtain ⟨T, T₀, e1, e2, -, -, e3, -⟩ := ht 0 a rfl
  exact ⟨R', T, T₀, hR', e1, e2, e3⟩

end Ptera
