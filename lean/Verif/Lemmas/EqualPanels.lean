import Verif.Lemmas.TwoPanels

/-! A flat rectangular wing of chord 1 with two panels of the width 1, in a flow from straight below: the ring solver
solves it. -/

namespace Ptera

open Real

namespace TwoPanels

theorem H_equal : 0 < H (3 / 2) ∧ H (3 / 2) < 3 * H (1 / 2) := by
  obtain ⟨⟨a1, a2⟩, -⟩ := H_bounds
  have hR := R_pos (3 / 2)
  have h := half_le_R (3 / 2)
  have h1 : (3 / 2) / R (3 / 2) ≤ 1 := by
    rw [div_le_one hR]
    unfold R
    exact Real.le_sqrt_of_sq_le (by norm_num)
  have h2 : 1 / (3 / 2 * R (3 / 2)) ≤ 2 := by
    rw [div_le_iff₀ (by positivity)]
    linarith
  constructor
  · unfold H; positivity
  · have : H (3 / 2) ≤ 4 := by unfold H; linarith
    linarith

theorem run_equal {as : List Airplane} {r₀ r₁ : PanelRef} {m₀ m₁ j₀ j₁ : ℕ} (hmade : ∀ a ∈ as, a.Made)
    (hrefs : panelRefs as = [r₀, r₁]) (hp : panelAt as r₀ = some (stripPanel 0 1 0 1 m₀ j₀))
    (hq : panelAt as r₁ = some (stripPanel 0 1 1 2 m₁ j₁)) (heap : PanelHeap) (loads : List AirplaneLoads) :
    ∃ s, (RingSolver.create ⟨as, upFlow 1⟩ heap loads).run = .ok s := by
  have hc : Counted as := counted_of_made hmade
  set S := RingSolver.create ⟨as, upFlow 1⟩ heap loads with hS
  have hu : S.Unsolved := RingSolver.create_unsolved ⟨as, upFlow 1⟩ hc heap loads
  have hd : S.operatingPoint.freestreamDirection = ⟨0, 0, 1⟩ := upFlow_direction 1
  have hfree : S.finalFreestream = [1, 1] := by
    unfold RingSolver.finalFreestream RingSolver.finalSlots
    have hv : S.freestreamVelocity = ⟨0, 0, 1⟩ := upFlow_velocity 1
    have ha : S.airplanes = as := rfl
    rw [hv, ha, hrefs]
    simp [ringSlot, geometryOf_eq hp, geometryOf_eq hq, strip_normal 0 1 m₀ j₀ (by norm_num),
      strip_normal 1 2 m₁ j₁ (by norm_num), freestreamInfluences, V3.dot]
  have hmat : S.finalInfluences = [[1 / (4 * π) * (2 * H (1 / 2)), 1 / (4 * π) * (H (3 / 2) - H (1 / 2))],
      [1 / (4 * π) * (H (3 / 2) - H (1 / 2)), 1 / (4 * π) * (2 * H (1 / 2))]] := by
    have hz : ∀ v : V3, v.dot ⟨0, 0, 1⟩ = v.z := by intro v; simp [V3.dot]
    have ha : S.airplanes = as := rfl
    rw [RingSolver.influences_first hu, ha, hrefs]
    simp only [List.map_cons, List.map_nil, geometryOf_eq hp, geometryOf_eq hq, (strip_points _ _ _ _).1,
      strip_normal 0 1 m₀ j₀ (by norm_num), strip_normal 1 2 m₁ j₁ (by norm_num), hz]
    rw [panelUnit_z (s := S) hp hd _ (by norm_num) (by norm_num) (by norm_num),
      panelUnit_z (s := S) hq hd _ (by norm_num) (by norm_num) (by norm_num),
      panelUnit_z (s := S) hp hd _ (by norm_num) (by norm_num) (by norm_num),
      panelUnit_z (s := S) hq hd _ (by norm_num) (by norm_num) (by norm_num)]
    have e1 : (1 : ℝ) - (0 + 1) / 2 = 1 / 2 := by norm_num
    have e2 : (0 : ℝ) - (0 + 1) / 2 = -(1 / 2) := by norm_num
    have e3 : (2 : ℝ) - (0 + 1) / 2 = 3 / 2 := by norm_num
    have e4 : (1 : ℝ) - (1 + 2) / 2 = -(1 / 2) := by norm_num
    have e5 : (0 : ℝ) - (1 + 2) / 2 = -(3 / 2) := by norm_num
    have e6 : (2 : ℝ) - (1 + 2) / 2 = 1 / 2 := by norm_num
    rw [e1, e2, e3, e4, e5, e6, H_neg, H_neg]
    simp only [List.cons.injEq, and_true]
    refine ⟨?_, ?_, ?_⟩ <;> ring
  obtain ⟨b1, b2⟩ := H_equal
  have hk0 : (0 : ℝ) < 1 / (4 * π) := by positivity
  have hrun := RingSolver.run_eq S hc (by simp [S, RingSolver.create]) (by simp [S, RingSolver.create])
  rw [hmat, hfree, List.map_cons, List.map_cons, List.map_nil, linalgSolve_two] at hrun
  · exact ⟨_, hrun⟩
  · generalize 1 / (4 * π) = c at *
    have e : c * (2 * H (1 / 2)) * (c * (2 * H (1 / 2))) - c * (H (3 / 2) - H (1 / 2)) * (c * (H (3 / 2) - H (1 / 2)))
        = c ^ 2 * ((3 * H (1 / 2) - H (3 / 2)) * (H (1 / 2) + H (3 / 2))) := by ring
    rw [e]
    have h3 : 0 < 3 * H (1 / 2) - H (3 / 2) := by linarith
    have h4 : 0 < H (1 / 2) + H (3 / 2) := by
      obtain ⟨⟨a1, a2⟩, -⟩ := H_bounds
      linarith
    positivity

end TwoPanels

end Ptera
