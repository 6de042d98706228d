import Verif.Lemmas.TwoPanels
import Verif.Lemmas.Nearby
import Verif.Lemmas.PlateUnsteady
import Verif.Lemmas.UnsteadySimilar

/-! The two panels of `Verif/Lemmas/TwoPanels.lean` in the first step of an unsteady run with a short time step. Witness
for C36. -/

namespace Ptera

open Real Filter Topology

namespace TwoPanels

/-- Unit velocity of the bound ring of a strip between the chordwise lines at `Y₀` and `Y₁`; `t` is the time step. -/
noncomputable def stepRing (t Y₀ Y₁ : ℝ) (q : V3) : V3 :=
  unitVelocity (ringLegs ⟨5 / 4, Y₁, t / 4⟩ ⟨1 / 4, Y₁, 0⟩ ⟨1 / 4, Y₀, 0⟩ ⟨5 / 4, Y₀, t / 4⟩) q

/-- The back filament of a ring. -/
theorem back_entry (Y₀ Y₁ y : ℝ) (h : Y₀ + 1 ≤ Y₁) :
    (expandedEntry 0 ⟨⟨5 / 4, Y₀, 0⟩, ⟨5 / 4, Y₁, 0⟩, 1, 0⟩ ⟨3 / 4, y, 0⟩).z
      = 1 / (4 * π) * (2 * ((Y₁ - y) / R (Y₁ - y) - (Y₀ - y) / R (Y₀ - y))) := by
  set s := Y₀ - y with hs
  set t := Y₁ - y with ht
  have hst : 1 ≤ t - s := by rw [hs, ht]; linarith
  have e1 : (⟨5 / 4, Y₀, 0⟩ : V3) - ⟨3 / 4, y, 0⟩ = ⟨1 / 2, s, 0⟩ := by ext <;> simp [hs]; norm_num
  have e2 : (⟨5 / 4, Y₁, 0⟩ : V3) - ⟨3 / 4, y, 0⟩ = ⟨1 / 2, t, 0⟩ := by ext <;> simp [ht]; norm_num
  have e3 : (⟨1 / 2, s, 0⟩ : V3).cross ⟨1 / 2, t, 0⟩ = ⟨0, 0, (t - s) / 2⟩ := by ext <;> simp [V3.cross]; ring
  have e4 : (⟨0, 0, (t - s) / 2⟩ : V3).norm ^ 2 = (t - s) ^ 2 / 4 := by rw [V3.norm_sq]; simp [V3.dot]; ring
  have e5 : (⟨1 / 2, s, 0⟩ : V3).dot ⟨1 / 2, t, 0⟩ = s * t + 1 / 4 := by simp [V3.dot]; ring
  have n1 := norm_half (1 / 2) s (by norm_num)
  have n2 := norm_half (1 / 2) t (by norm_num)
  have hR := R_pos s
  have hT := R_pos t
  have hne : t - s ≠ 0 := by intro h0; rw [h0] at hst; norm_num at hst
  have hR2 := R_sq s
  have hT2 := R_sq t
  have hpi := Real.pi_pos
  rw [expandedEntry_eq, if_neg]
  · simp only [kernelCoeff, coreRadius, e1, e2, e3, e4, e5, n1, n2, mul_zero, Real.sqrt_zero]
    simp only [V3.smul_z]
    have key : (R s + R t) * (R s * R t - (s * t + 1 / 4)) = (t - s) * (R s * t - R t * s) := by
      linear_combination R s * hT2 + R t * hR2
    rw [show (1 : ℝ) / (4 * π) * (R s + R t) * (R s * R t - (s * t + 1 / 4))
      = 1 / (4 * π) * ((R s + R t) * (R s * R t - (s * t + 1 / 4))) by ring, key]
    field_simp
    ring
  · unfold Cutoff
    simp only [e1, e2, e3, e4, n1, n2]
    push Not
    have := eps_small
    have := half_le_R s
    have := half_le_R t
    refine ⟨by linarith, by linarith, by nlinarith⟩

/-- Vertical velocity, times `4 π`, due to the part of a plane ring on one side of a chordwise line. -/
noncomputable def G (s : ℝ) : ℝ := 4 * (s / R s) + 1 / (s * R s)

theorem ring_z (Y₀ Y₁ y : ℝ) (h : Y₀ + 1 ≤ Y₁) (h₀ : Y₀ = y ∨ 1 / 4 ≤ (Y₀ - y) ^ 2)
    (h₁ : Y₁ = y ∨ 1 / 4 ≤ (Y₁ - y) ^ 2) :
    (stepRing 0 Y₀ Y₁ ⟨3 / 4, y, 0⟩).z = 1 / (4 * π) * (G (Y₁ - y) - G (Y₀ - y)) := by
  unfold stepRing unitVelocity ringLegs
  simp only [List.map_cons, List.map_nil, List.sum_cons, List.sum_nil, add_zero, V3.add_z, zero_div]
  rw [side_entry' Y₁ y h₁, front_entry Y₀ Y₁ y h, reverse_z ⟨1 / 4, Y₀, 0⟩, side_entry' Y₀ y h₀, back_entry Y₀ Y₁ y h]
  unfold G
  ring

theorem G_bounds : (565 / 100 ≤ G (1 / 2) ∧ G (1 / 2) ≤ 566 / 100) ∧ (447 / 100 ≤ G 1 ∧ G 1 ≤ 448 / 100) ∧
    (412 / 100 ≤ G 2 ∧ G 2 ≤ 413 / 100) ∧ (407 / 100 ≤ G (5 / 2) ∧ G (5 / 2) ≤ 408 / 100) := by
  have key : ∀ s lo hi : ℝ, 0 < s → 0 < lo → 0 < hi → (lo * s) ^ 2 ≤ 16 * (1 / 4 + s ^ 2) →
      16 * (1 / 4 + s ^ 2) ≤ (hi * s) ^ 2 → lo ≤ G s ∧ G s ≤ hi := by
    intro s lo hi hs hlo hhi h1 h2
    have hR := R_pos s
    have hR2 := R_sq s
    have e : G s = 4 * R s / s := by
      unfold G
      field_simp
      nlinarith
    rw [e]
    constructor
    · rw [le_div_iff₀ (by positivity)]
      refine (sq_le_sq₀ (by positivity) (by positivity)).mp ?_
      rw [mul_pow 4, hR2]; linarith
    · rw [div_le_iff₀ (by positivity)]
      refine (sq_le_sq₀ (by positivity) (by positivity)).mp ?_
      rw [mul_pow 4, hR2]; linarith
  refine ⟨key _ _ _ ?_ ?_ ?_ ?_ ?_, key _ _ _ ?_ ?_ ?_ ?_ ?_, key _ _ _ ?_ ?_ ?_ ?_ ?_, key _ _ _ ?_ ?_ ?_ ?_ ?_⟩ <;>
    norm_num

theorem G_neg (s : ℝ) : G (-s) = -G s := by
  unfold G
  rw [R_neg]
  rw [neg_mul, div_neg, neg_div]
  ring

theorem G_zero : G 0 = 0 := by simp [G]

/-! ## Short time steps -/

theorem norm_ne_eps (x s : ℝ) (hx : x ^ 2 = 1 / 4) : (⟨x, s, 0⟩ : V3).norm ≠ eps := by
  rw [norm_half x s hx]
  have := eps_small
  have := half_le_R s
  linarith

theorem cross_ne_eps (v : V3) (h : v.z = 0 ∨ 1 / 4 ≤ v.z ^ 2) (hx : v.x = 0) (hy : v.y = 0) : v.norm ^ 2 ≠ eps := by
  rw [V3.norm_sq]
  have := eps_small
  have := eps_pos
  unfold V3.dot
  rw [hx, hy]
  rcases h with h | h
  · rw [h]; intro h0; linarith
  · intro h0; nlinarith

theorem stepRing_tends (Y₀ Y₁ y c : ℝ) (h : Y₀ + 1 ≤ Y₁) (h₀ : Y₀ = y ∨ 1 / 4 ≤ (Y₀ - y) ^ 2)
    (h₁ : Y₁ = y ∨ 1 / 4 ≤ (Y₁ - y) ^ 2) :
    V3.Tends (fun t => stepRing t Y₀ Y₁ ⟨3 / 4, y, c * t⟩) (𝓝[>] 0) (stepRing 0 Y₀ Y₁ ⟨3 / 4, y, 0⟩) := by
  have ht : Tendsto (fun t : ℝ => t) (𝓝[>] 0) (𝓝 0) := tendsto_nhdsWithin_of_tendsto_nhds tendsto_id
  have h4 : Tendsto (fun t : ℝ => t / 4) (𝓝[>] 0) (𝓝 (0 / 4)) := ht.div_const 4
  have hc : Tendsto (fun t : ℝ => c * t) (𝓝[>] 0) (𝓝 0) := by simpa using ht.const_mul c
  have cut : ∀ (a b : ℝ) (A B : ℝ), (a = 1 / 4 ∨ a = 5 / 4) → (b = 1 / 4 ∨ b = 5 / 4) →
      ((a - 3 / 4) * (B - y) - (A - y) * (b - 3 / 4) = 0 ∨ 1 / 4 ≤ ((a - 3 / 4) * (B - y) - (A - y) * (b - 3 / 4)) ^ 2) →
      ¬ AtCutOff (LineVortex.mk' ⟨a, A, 0⟩ ⟨b, B, 0⟩ 0) ⟨3 / 4, y, 0⟩ := by
    intro a b A B ha hb hz
    have e : ∀ u v : ℝ, (⟨u, v, 0⟩ : V3) - ⟨3 / 4, y, 0⟩ = ⟨u - 3 / 4, v - y, 0⟩ := by intro u v; ext <;> simp
    have sq : ∀ u : ℝ, (u = 1 / 4 ∨ u = 5 / 4) → (u - 3 / 4) ^ 2 = 1 / 4 := by rintro u (rfl | rfl) <;> norm_num
    unfold AtCutOff LineVortex.mk'
    simp only [e]
    push Not
    refine ⟨norm_ne_eps _ _ (sq a ha), norm_ne_eps _ _ (sq b hb), cross_ne_eps _ ?_ ?_ ?_⟩
    · simpa [V3.cross] using hz
    · simp [V3.cross]
    · simp [V3.cross]
  refine ring_tends ⟨tendsto_const_nhds, tendsto_const_nhds, h4⟩ (V3.Tends.const _) (V3.Tends.const _)
    ⟨tendsto_const_nhds, tendsto_const_nhds, h4⟩ ⟨tendsto_const_nhds, tendsto_const_nhds, hc⟩ ?_ ?_ ?_ ?_ <;>
    try simp only [zero_div]
  · refine cut _ _ _ _ (Or.inr rfl) (Or.inl rfl) ?_
    rcases h₁ with h₁ | h₁
    · left; rw [h₁]; ring
    · right; nlinarith
  · refine cut _ _ _ _ (Or.inl rfl) (Or.inl rfl) ?_
    right; nlinarith
  · refine cut _ _ _ _ (Or.inl rfl) (Or.inr rfl) ?_
    rcases h₀ with h₀ | h₀
    · left; rw [h₀]; ring
    · right; nlinarith
  · refine cut _ _ _ _ (Or.inr rfl) (Or.inr rfl) ?_
    right; nlinarith

/-- There is a time step for which the system has one solution, its strengths differ, and the force on the filament
between the panels is not zero. -/
theorem short_step : ∃ t : ℝ, 0 < t ∧
    let a := (stepRing t 0 2 ⟨3 / 4, 1, 0⟩).z
    let b := (stepRing t 2 3 ⟨3 / 4, 1, 0⟩).z
    let c := (stepRing t 0 2 ⟨3 / 4, 5 / 2, 0⟩).z
    let d := (stepRing t 2 3 ⟨3 / 4, 5 / 2, 0⟩).z
    a * d - b * c ≠ 0 ∧ ∀ x y : ℝ, a * x + b * y = -1 → c * x + d * y = -1 →
      (y - x) * ((x • stepRing t 0 2 ⟨3 / 4, 2, t / 8⟩ + y • stepRing t 2 3 ⟨3 / 4, 2, t / 8⟩ + ⟨0, 0, 1⟩).cross
        ⟨1, 0, t / 4⟩).y ≠ 0 := by
  set k : ℝ := 1 / (4 * π) with hk
  have hk0 : 0 < k := by rw [hk]; positivity
  have ta := (stepRing_tends 0 2 1 0 (by norm_num) (by norm_num) (by norm_num)).2.2
  have tb := (stepRing_tends 2 3 1 0 (by norm_num) (by norm_num) (by norm_num)).2.2
  have tc := (stepRing_tends 0 2 (5 / 2) 0 (by norm_num) (by norm_num) (by norm_num)).2.2
  have td := (stepRing_tends 2 3 (5 / 2) 0 (by norm_num) (by norm_num) (by norm_num)).2.2
  have tp := stepRing_tends 0 2 2 (1 / 8) (by norm_num) (by norm_num) (by norm_num)
  have tq := stepRing_tends 2 3 2 (1 / 8) (by norm_num) (by norm_num) (by norm_num)
  have zp := ring_z 0 2 2 (by norm_num) (by norm_num) (by norm_num)
  have zq := ring_z 2 3 2 (by norm_num) (by norm_num) (by norm_num)
  rw [ring_z _ _ _ (by norm_num) (by norm_num) (by norm_num), ← hk] at ta tb tc td
  rw [← hk] at zp zq
  have e1 : (2 : ℝ) - 1 = 1 := by norm_num
  have e2 : (0 : ℝ) - 1 = -1 := by norm_num
  have e3 : (3 : ℝ) - 1 = 2 := by norm_num
  have e4 : (2 : ℝ) - 5 / 2 = -(1 / 2) := by norm_num
  have e5 : (0 : ℝ) - 5 / 2 = -(5 / 2) := by norm_num
  have e6 : (3 : ℝ) - 5 / 2 = 1 / 2 := by norm_num
  have e7 : (0 : ℝ) - 2 = -2 := by norm_num
  have e8 : (3 : ℝ) - 2 = 1 := by norm_num
  simp only [e1, e2, e3, e4, e5, e6, e7, e8, sub_self, G_neg, G_zero, zero_mul] at ta tb tc td zp zq
  obtain ⟨⟨a1, a2⟩, ⟨b1, b2⟩, ⟨c1, c2⟩, d1, d2⟩ := G_bounds
  set g₁ := G (1 / 2)
  set g₂ := G 1
  set g₃ := G 2
  set g₄ := G (5 / 2)
  have hD : 100 ≤ 4 * g₂ * g₁ - (g₃ - g₂) * (g₄ - g₁) := by
    have h1 : 447 / 100 * (565 / 100) ≤ g₂ * g₁ := mul_le_mul b1 a1 (by norm_num) (by linarith)
    have h2 : (g₂ - g₃) * (g₁ - g₄) ≤ 36 / 100 * (159 / 100) :=
      mul_le_mul (by linarith) (by linarith) (by linarith) (by norm_num)
    nlinarith
  have hN : (2 * g₁ - g₃ + g₂) * g₃ + (2 * g₂ - g₄ + g₁) * g₂ ≤ 96 := by
    have h1 : (2 * g₁ - g₃ + g₂) * g₃ ≤ 1168 / 100 * (413 / 100) :=
      mul_le_mul (by linarith) c2 (by linarith) (by norm_num)
    have h2 : (2 * g₂ - g₄ + g₁) * g₂ ≤ 1055 / 100 * (448 / 100) :=
      mul_le_mul (by linarith) b2 (by linarith) (by norm_num)
    linarith
  set D := 4 * g₂ * g₁ - (g₃ - g₂) * (g₄ - g₁) with hDdef
  have hD0 : D ≠ 0 := by linarith
  have tdet := (ta.mul td).sub (tb.mul tc)
  have edet : k * (g₂ - -g₂) * (k * (g₁ - -g₁)) - k * (g₃ - g₂) * (k * (-g₁ - -g₄)) = k ^ 2 * D := by
    rw [hDdef]; ring
  rw [edet] at tdet
  have hdet : k ^ 2 * D ≠ 0 := by positivity
  have tx := ((tb.sub td).div tdet hdet)
  have ty := ((tc.sub ta).div tdet hdet)
  have tlast : V3.Tends (fun t : ℝ => (⟨1, 0, t / 4⟩ : V3)) (𝓝[>] 0) ⟨1, 0, 0 / 4⟩ :=
    ⟨tendsto_const_nhds, tendsto_const_nhds, (tendsto_nhdsWithin_of_tendsto_nhds tendsto_id).div_const 4⟩
  have tv := (((V3.Tends.smul tx tp).add (V3.Tends.smul ty tq)).add (V3.Tends.const ⟨0, 0, 1⟩)).cross tlast
  have tforce := (ty.sub tx).mul tv.2.1
  set x₀ := (k * (g₃ - g₂) - k * (g₁ - -g₁)) / (k ^ 2 * D) with hx0
  set y₀ := (k * (-g₁ - -g₄) - k * (g₂ - -g₂)) / (k ^ 2 * D) with hy0
  have hx' : x₀ = -(2 * g₁ - g₃ + g₂) / (k * D) := by rw [hx0]; field_simp; ring
  have hy' : y₀ = -(2 * g₂ - g₄ + g₁) / (k * D) := by rw [hy0]; field_simp; ring
  have hyx : y₀ - x₀ ≠ 0 := by
    rw [hx', hy', ← sub_div]
    refine div_ne_zero ?_ (by positivity)
    intro hcon
    linarith
  have hlim : (y₀ - x₀) * ((x₀ • stepRing 0 0 2 ⟨3 / 4, 2, 0⟩ + y₀ • stepRing 0 2 3 ⟨3 / 4, 2, 0⟩ + ⟨0, 0, 1⟩ : V3).cross
      ⟨1, 0, 0 / 4⟩).y ≠ 0 := by
    refine mul_ne_zero hyx ?_
    simp only [V3.cross, V3.add_z, V3.smul_z, zp, zq]
    rw [hx', hy']
    have hfin : -(2 * g₁ - g₃ + g₂) / (k * D) * (k * (0 - -g₃))
          + -(2 * g₂ - g₄ + g₁) / (k * D) * (k * (g₂ - 0)) + 1
        = (D - ((2 * g₁ - g₃ + g₂) * g₃ + (2 * g₂ - g₄ + g₁) * g₂)) / D := by
      field_simp
      ring
    rw [hfin]
    simp only [zero_div, mul_zero, mul_one, sub_zero]
    exact (div_pos (by linarith) (by linarith)).ne'
  obtain ⟨t, ⟨h1, h2⟩, h3⟩ := (((tdet.eventually_ne hdet).and (tforce.eventually_ne hlim)).and
    self_mem_nhdsWithin).exists
  refine ⟨t, h3, ?_⟩
  intro a b c d
  refine ⟨h1, ?_⟩
  intro x y hx hy
  have hdt : a * d - b * c ≠ 0 := h1
  have ex : x = (b - d) / (a * d - b * c) := by
    rw [eq_div_iff hdt]; linear_combination d * hx - b * hy
  have ey : y = (c - a) / (a * d - b * c) := by
    rw [eq_div_iff hdt]; linear_combination a * hy - c * hx
  rw [ex, ey]
  have e8 : (1 : ℝ) / 8 * t = t / 8 := by ring
  rw [← e8]
  exact h2

/-! ## The problem -/

/-- A motionless strip wing is what its movement generates. -/
theorem strip_proper (c : ℝ) (hc : 0 < c) (ys : List ℝ) {w : Wing}
    (hw : Wing.create (stripSections c ys) ⟨0, 0, 0⟩ ⟨0, 1, 0⟩ false ⟨1, 0, 0⟩ 1 "uniform" = .ok w) :
    (plateMovement w).Proper (stripSections c ys) ∧ (plateMovement w).Still := by
  obtain ⟨hspec, hacc⟩ := Wing.create_ok _ _ _ _ _ _ _ _ hw
  refine ⟨⟨?_, ?_, ?_, ?_, ?_, ?_⟩, ⟨⟨Or.inl rfl, Or.inl rfl, Or.inl rfl⟩, ?_⟩⟩
  · simp only [plateMovement, hspec]; exact hw
  · intro s hs
    obtain ⟨y, _, rfl⟩ := List.mem_map.mp hs
    unfold WingCrossSection.create
    rw [if_neg (by simp [plateSection, hc]), if_neg (by simp [plateSection, hc]), if_neg (by simp [plateSection])]
    rfl
  · simp [plateMovement, Function.comp_def]
  · exact ⟨Or.inl rfl, Or.inl rfl, Or.inl rfl⟩
  · intro m' hm'
    simp only [plateMovement, List.mem_map] at hm'
    obtain ⟨s, _, rfl⟩ := hm'
    exact ⟨Or.inl rfl, Or.inl rfl, Or.inl rfl⟩
  · intro m' hm'
    simp only [plateMovement, List.getElem?_map, Option.map_eq_some_iff] at hm'
    obtain ⟨s, _, rfl⟩ := hm'
    exact ⟨rfl, rfl, rfl, rfl⟩
  · intro m' hm'
    simp only [plateMovement, List.mem_map] at hm'
    obtain ⟨s, _, rfl⟩ := hm'
    exact ⟨Or.inl rfl, Or.inl rfl, Or.inl rfl⟩

/-- One step of the motionless wing of two panels. -/
theorem problem (t : ℝ) : ∃ p : UnsteadyProblem, p.Made ∧ p.numSteps = 1 ∧ p.deltaTime = t ∧ p.firstResultsStep = 0 ∧
    (p.operatingPointAt 0).freestreamVelocity = ⟨0, 0, 1⟩ ∧ (p.operatingPointAt 0).density = 1 ∧
    panelRefs (p.airplanesAt 0) = [⟨0, 0, 0, 0⟩, ⟨0, 0, 0, 1⟩] ∧
    panelAt (p.airplanesAt 0) ⟨0, 0, 0, 0⟩ = some (stripPanel 0 1 0 2 2 0) ∧
    panelAt (p.airplanesAt 0) ⟨0, 0, 0, 1⟩ = some (stripPanel 0 1 2 3 2 1) ∧
    ∃ w, wingAt (p.airplanesAt 0) ⟨0, 0, 0, 0⟩ = some w ∧ w.numSpanwisePanels = 2 ∧ w.panels.length = 1 := by
  obtain ⟨w, hw, hmade, hn, hl, hspan, hcell⟩ := strip_wing 0 1 [0, 2, 3] (by simp) rfl
  obtain ⟨hprop, hstill⟩ := strip_proper _ one_pos _ hw
  obtain ⟨a, ha⟩ : ∃ a, Airplane.create [w] = .ok a := ⟨_, rfl⟩
  have haw : a.wings = [w] ∧ a.xyzRef = 0 := by
    simp only [Airplane.create, Except.ok.injEq] at ha
    rw [← ha]; exact ⟨rfl, rfl⟩
  set am : AirplaneMovement := { base := a, wingMovements := [plateMovement w] } with ham
  set om : OperatingPointMovement := { base := upFlow 1 } with hom
  obtain ⟨mv, e1, e2, e3⟩ := C31_movement_accepted [am] om (by simp [am]) (by
      intro am' ham' wm hwm
      simp at ham'; subst ham'
      simp [am] at hwm; subst hwm
      exact ⟨_, hprop⟩) (by
      intro am' ham'
      simp at ham'; subst ham'
      exact ⟨Or.inl rfl, Or.inl rfl, Or.inl rfl⟩) (Or.inl rfl) 1 one_pos t
  have hP : movementMaxPeriod [am] om = .ok 0 := by
    have hsec : w.sections = withChordwise ⟨1, 0, 0⟩ (stripSections 1 [0, 2, 3]) := hprop.sections.1
    have hw' : (plateMovement w).maxPeriod = .ok 0 := by
      simp [WingMovement.maxPeriod, hsec, withChordwise, stripSections, pyMax, WingCrossSectionMovement.maxPeriod,
        Bind.bind, Except.bind, pure, Except.pure, plateMovement]
    have ha' : am.maxPeriod = .ok 0 := by
      simp [AirplaneMovement.maxPeriod, am, hw', pyMax, Bind.bind, Except.bind, pure, Except.pure]
    simp [movementMaxPeriod, ha', pyMax, Bind.bind, Except.bind, pure, Except.pure, OperatingPointMovement.maxPeriod, om]
  obtain ⟨p, u1, u2, u3, u4, u5, u6⟩ := C31_steady_problems [am] om _ _ _ _ mv e1 0 hP false
  obtain ⟨_, _, _, g1, g2, _, _⟩ := Movement.create_ok e1
  have hgen : am.generate mv.numSteps mv.deltaTime = .ok (List.replicate mv.numSteps a) := by
    refine C29_static_airplane_partial am ?_ ?_ ?_ ⟨Or.inl rfl, Or.inl rfl, Or.inl rfl⟩
      ⟨Or.inl rfl, Or.inl rfl, Or.inl rfl⟩ _ (by omega) _
    · simp only [am, haw.1, haw.2]; exact ha
    · simp only [am, haw.1, List.map_cons, List.map_nil]; rfl
    · intro wm hwm
      simp [am] at hwm; subst hwm
      refine ⟨_, hprop, hstill, ?_⟩
      intro q hq
      simp only [stripSections, List.map_cons, List.map_nil, List.tail_cons, List.zip_cons_cons, List.zip_nil_right,
        List.mem_cons, List.not_mem_nil, or_false] at hq
      rcases hq with rfl | rfl <;> right <;> simp [plateSection] <;> norm_num
  obtain ⟨sp, s1, s2, s3⟩ := u6 0 (by omega)
  obtain ⟨hist, tail, hh, ht, hmv⟩ := List.forall₂_cons_left_iff.mp (mapM_forall₂.mp g1)
  obtain rfl := List.forall₂_nil_left_iff.mp ht
  rw [hmv] at s2
  obtain ⟨ak, tail', hak, ht', hsp⟩ := List.forall₂_cons_left_iff.mp s2
  obtain rfl := List.forall₂_nil_left_iff.mp ht'
  rw [hgen] at hh
  obtain rfl := Except.ok.inj hh
  rw [e2] at hak
  simp at hak
  subst hak
  have hair : p.airplanesAt 0 = [a] := by simp [UnsteadyProblem.airplanesAt, s1, hsp]
  have hops := C29_static_operating_point_partial om (Or.inl rfl) (Or.inl rfl) mv.numSteps mv.deltaTime
  rw [hops] at g2
  rw [← Except.ok.inj g2, List.getElem?_replicate, if_pos (by omega)] at s3
  have hop : p.operatingPointAt 0 = { upFlow 1 with externalThrust := 0.0, nu := 15.06e-6 } := by
    simp only [UnsteadyProblem.operatingPointAt, s1, Option.map_some, Option.getD_some]
    rw [← Option.some.inj s3]
  refine ⟨p, ⟨_, _, _, _, _, _, mv, false, _, e1, u1, .inl rfl⟩, by rw [u2, e2], by rw [u3, e3], ?_, ?_, ?_, ?_, ?_, ?_,
    w, ?_, by simpa using hn, hl⟩
  · unfold UnsteadyProblem.create at u1
    obtain ⟨_, _, u1⟩ := bind_ok.mp u1
    obtain ⟨_, _, u1⟩ := bind_ok.mp u1
    rw [pure_ok] at u1
    rw [← u1]
    rfl
  · rw [hop]
    exact upFlow_velocity 1
  · rw [hop]; rfl
  · have h2 := (C18_wing_counts _ _ _ _ _ _ _ w hw).2.1
    obtain ⟨row, hrow⟩ := List.length_eq_one_iff.mp hl
    have hr : row.length = 2 := by
      have := h2 row (by rw [hrow]; simp)
      rw [this, hn]
      rfl
    rw [hair]
    simp [panelRefs, airplaneRefs, haw.1, hrow, hr, List.zipIdx, List.range_succ]
  · have := hcell 0 0 2 rfl rfl
    unfold cell at this
    rw [hair]
    simpa [panelAt, wingAt, haw.1] using this
  · have := hcell 1 2 3 rfl rfl
    unfold cell at this
    rw [hair]
    simpa [panelAt, wingAt, haw.1] using this
  · rw [hair]
    simp [wingAt, haw.1]

open UnsteadySolver in
/-- The bound ring of a strip in the first step. -/
theorem boundRing_strip {p : UnsteadyProblem} {r : PanelRef} {y₀ y₁ : ℝ} {n j : ℕ}
    (hp : panelAt (p.airplanesAt 0) r = some (stripPanel 0 1 y₀ y₁ n j))
    (hv : (p.operatingPointAt 0).freestreamVelocity = ⟨0, 0, 1⟩) :
    boundRing p 0 r = RingVortex.mk' ⟨1 / 4, y₀, 0⟩ ⟨1 / 4, y₁, 0⟩ ⟨5 / 4, y₀, p.deltaTime / 4⟩ ⟨5 / 4, y₁, p.deltaTime / 4⟩ 0 := by
  have hg := geometryOf_eq hp
  obtain ⟨g1, g2, g3⟩ := strip_points y₀ y₁ n j
  have hte : (stripPanel 0 1 y₀ y₁ n j).isTrailingEdge = true := rfl
  have b1 : backLeftVertex (p.airplanesAt 0) ⟨0, 0, 1⟩ p.deltaTime r = ⟨5 / 4, y₀, p.deltaTime / 4⟩ := by
    unfold backLeftVertex
    simp only [hg, hte, if_true, g3]
    ext <;> simp [stripPanel]
    · norm_num
    · ring
  have b2 : backRightVertex (p.airplanesAt 0) ⟨0, 0, 1⟩ p.deltaTime r = ⟨5 / 4, y₁, p.deltaTime / 4⟩ := by
    unfold backRightVertex
    simp only [hg, hte, if_true, g2]
    ext <;> simp [stripPanel]
    · norm_num
    · ring
  unfold boundRing panelRing
  rw [hv]
  simp only [hg, g2, g3, b1, b2]

open UnsteadySolver in
theorem unitRing_strip {p : UnsteadyProblem} {r : PanelRef} {y₀ y₁ : ℝ} {n j : ℕ}
    (hp : panelAt (p.airplanesAt 0) r = some (stripPanel 0 1 y₀ y₁ n j))
    (hv : (p.operatingPointAt 0).freestreamVelocity = ⟨0, 0, 1⟩) (q : V3) :
    unitRing p 0 r q = stepRing p.deltaTime y₀ y₁ q := by
  unfold unitRing
  rw [boundRing_strip hp hv]
  rfl

open UnsteadySolver in
/-- A run of one step in which the filament between the two panels carries a force. -/
theorem unsteady_run : ∃ (p : UnsteadyProblem) (s s' : UnsteadySolver) (x y : ℝ), p.Made ∧ p.numSteps = 1 ∧
    0 < p.deltaTime ∧ p.firstResultsStep = 0 ∧ UnsteadySolver.create p = .ok s ∧ s.run = .ok s' ∧
    (p.operatingPointAt 0).density = 1 ∧ panelRefs (p.airplanesAt 0) = [⟨0, 0, 0, 0⟩, ⟨0, 0, 0, 1⟩] ∧
    panelAt (p.airplanesAt 0) ⟨0, 0, 0, 0⟩ = some (stripPanel 0 1 0 2 2 0) ∧
    panelAt (p.airplanesAt 0) ⟨0, 0, 0, 1⟩ = some (stripPanel 0 1 2 3 2 1) ∧
    (∃ w, wingAt (p.airplanesAt 0) ⟨0, 0, 0, 0⟩ = some w ∧ w.numSpanwisePanels = 2 ∧ w.panels.length = 1) ∧
    (s'.panels 0 ⟨0, 0, 0, 0⟩).ring = some ((boundRing p 0 ⟨0, 0, 0, 0⟩).updateStrength x) ∧
    (s'.panels 0 ⟨0, 0, 0, 1⟩).ring = some ((boundRing p 0 ⟨0, 0, 0, 1⟩).updateStrength y) ∧
    kuttaJoukowski 1 (y - x) (relativeFlow s' 0 ⟨0, 0, 0, 1⟩ RingVortex.leftMiddle)
      ((boundRing p 0 ⟨0, 0, 0, 1⟩).backLeft - (boundRing p 0 ⟨0, 0, 0, 1⟩).frontLeft) ≠ 0 := by
  obtain ⟨t, ht, hdet, hforce⟩ := short_step
  obtain ⟨p, hmade, hn, hdt, hfirst, hv, hd, hrefs, hp, hq, hW⟩ := problem t
  subst hdt
  obtain ⟨s, hs⟩ : ∃ s, UnsteadySolver.create p = .ok s := by
    have hl := hmade.regular.steps
    rw [hn] at hl
    unfold UnsteadySolver.create
    cases hsp : p.steadyProblems with
    | nil => rw [hsp] at hl; simp at hl
    | cons a l => exact ⟨_, rfl⟩
  have hre : Reached p s := .fresh hs
  have hz : ∀ v : V3, v.dot ⟨0, 0, 1⟩ = v.z := by intro v; simp [V3.dot]
  have m1 : ((0 : ℝ) + 2) / 2 = 1 := by norm_num
  have m2 : ((2 : ℝ) + 3) / 2 = 5 / 2 := by norm_num
  obtain ⟨s', hrun⟩ : ∃ s', s.run = .ok s' := by
    refine run_solvable hmade.regular (hre.good hmade.regular) ?_ _ _
    intro k hk b hb
    obtain rfl : k = 0 := by omega
    rw [hrefs] at hb
    obtain ⟨e, f, rfl⟩ := List.length_eq_two.mp hb
    unfold wingMatrix
    rw [hrefs]
    simp only [List.map_cons, List.map_nil, geometryOf_eq hp, geometryOf_eq hq, (strip_points _ _ _ _).1,
      strip_normal 0 2 2 0 (by norm_num), strip_normal 2 3 2 1 (by norm_num), hz, unitRing_strip hp hv,
      unitRing_strip hq hv, m1, m2]
    exact ⟨_, linalgSolve_two _ _ _ _ _ _ hdet⟩
  have h0 : 0 < p.numSteps := by omega
  obtain ⟨st, sm, tr⟩ := hre.trace hmade hrun
  obtain ⟨Γ, -, hrings, hbound⟩ := tr.values hmade.regular h0
  have hr0 := hrings ⟨0, 0, 0, 0⟩ (by rw [hrefs]; simp)
  have hr1 := hrings ⟨0, 0, 0, 1⟩ (by rw [hrefs]; simp)
  obtain ⟨c0, -⟩ := C45_no_penetration hmade hre hrun 0 h0 _ _ hp
  obtain ⟨c1, -⟩ := C45_no_penetration hmade hre hrun 0 h0 _ _ hq
  obtain ⟨hwake, c0⟩ := c0 rfl
  obtain ⟨-, c1⟩ := c1 rfl
  have hprob : s'.problem = p := tr.final_eq.2.2.2.2.2.2
  have hflow : ∀ q, flow s' 0 q = Γ ⟨0, 0, 0, 0⟩ • stepRing p.deltaTime 0 2 q + Γ ⟨0, 0, 0, 1⟩ • stepRing p.deltaTime 2 3 q
      + ⟨0, 0, 1⟩ := by
    intro q
    unfold flow
    rw [hwake, hbound, hprob, hv, hrefs]
    simp only [List.map_cons, List.map_nil, List.sum_cons, List.sum_nil, add_zero, unitRing_strip hp hv,
      unitRing_strip hq hv]
  simp only [hflow, (strip_points _ _ _ _).1, strip_normal 0 2 2 0 (by norm_num), strip_normal 2 3 2 1 (by norm_num), hz,
    m1, m2, V3.add_z, V3.smul_z] at c0 c1
  have hne := hforce (Γ ⟨0, 0, 0, 0⟩) (Γ ⟨0, 0, 0, 1⟩) (by linarith) (by linarith)
  refine ⟨p, s, s', Γ ⟨0, 0, 0, 0⟩, Γ ⟨0, 0, 0, 1⟩, hmade, hn, ht, hfirst, hs, hrun, hd, hrefs, hp, hq, hW, hr0, hr1, ?_⟩
  have hmid : ringPoint s' 0 ⟨0, 0, 0, 1⟩ RingVortex.leftMiddle = ⟨3 / 4, 2, p.deltaTime / 8⟩ := by
    unfold ringPoint
    rw [hr1, boundRing_strip hq hv]
    simp only [Option.map_some, Option.getD_some, RingVortex.leftMiddle, RingVortex.updateStrength, RingVortex.mk']
    ext <;> simp
    · norm_num
    · norm_num
    · ring
  have hrel : relativeFlow s' 0 ⟨0, 0, 0, 1⟩ RingVortex.leftMiddle
      = Γ ⟨0, 0, 0, 0⟩ • stepRing p.deltaTime 0 2 ⟨3 / 4, 2, p.deltaTime / 8⟩
        + Γ ⟨0, 0, 0, 1⟩ • stepRing p.deltaTime 2 3 ⟨3 / 4, 2, p.deltaTime / 8⟩ + ⟨0, 0, 1⟩ := by
    unfold relativeFlow
    rw [hmid, hflow]
    simp [pointVelocity]
  have hleg : (boundRing p 0 ⟨0, 0, 0, 1⟩).backLeft - (boundRing p 0 ⟨0, 0, 0, 1⟩).frontLeft = ⟨1, 0, p.deltaTime / 4⟩ := by
    rw [boundRing_strip hq hv]
    simp only [RingVortex.mk']
    ext <;> simp
    norm_num
  rw [hrel, hleg]
  intro hcon
  apply hne
  have hy := congrArg V3.y hcon
  unfold kuttaJoukowski at hy
  simpa [V3.smul_y] using hy

end TwoPanels

end Ptera
