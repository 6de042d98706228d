import Verif.Lemmas.SolverLemmas
import Verif.Lemmas.LinearSystem
import Mathlib.Topology.Instances.Matrix
import Mathlib.Topology.Algebra.Order.Field
import Mathlib.LinearAlgebra.Matrix.Adjugate
import Mathlib.Analysis.SpecialFunctions.Sqrt

/-! Limits of vectors, of the velocity of a far filament and of the solutions of linear systems. -/

namespace Ptera

open Filter Topology

variable {ι : Type*} {F : Filter ι}

namespace V3

/-- The vectors `f` tend to `v`, component by component. -/
def Tends (f : ι → V3) (F : Filter ι) (v : V3) : Prop :=
  Tendsto (fun n => (f n).x) F (𝓝 v.x) ∧ Tendsto (fun n => (f n).y) F (𝓝 v.y) ∧ Tendsto (fun n => (f n).z) F (𝓝 v.z)

namespace Tends

variable {f g : ι → V3} {v w : V3}

theorem const (v : V3) : Tends (fun _ : ι => v) F v := ⟨tendsto_const_nhds, tendsto_const_nhds, tendsto_const_nhds⟩

theorem add (hf : Tends f F v) (hg : Tends g F w) : Tends (fun n => f n + g n) F (v + w) :=
  ⟨hf.1.add hg.1, hf.2.1.add hg.2.1, hf.2.2.add hg.2.2⟩

theorem sub (hf : Tends f F v) (hg : Tends g F w) : Tends (fun n => f n - g n) F (v - w) :=
  ⟨hf.1.sub hg.1, hf.2.1.sub hg.2.1, hf.2.2.sub hg.2.2⟩

theorem smul {c : ι → ℝ} {k : ℝ} (hc : Tendsto c F (𝓝 k)) (hf : Tends f F v) : Tends (fun n => c n • f n) F (k • v) :=
  ⟨hc.mul hf.1, hc.mul hf.2.1, hc.mul hf.2.2⟩

theorem cross (hf : Tends f F v) (hg : Tends g F w) : Tends (fun n => (f n).cross (g n)) F (v.cross w) :=
  ⟨(hf.2.1.mul hg.2.2).sub (hf.2.2.mul hg.2.1), (hf.2.2.mul hg.1).sub (hf.1.mul hg.2.2),
    (hf.1.mul hg.2.1).sub (hf.2.1.mul hg.1)⟩

theorem dot (hf : Tends f F v) (hg : Tends g F w) : Tendsto (fun n => (f n).dot (g n)) F (𝓝 (v.dot w)) :=
  ((hf.1.mul hg.1).add (hf.2.1.mul hg.2.1)).add (hf.2.2.mul hg.2.2)

theorem mulVec (M : M3) (hf : Tends f F v) : Tends (fun n => M.mulVec (f n)) F (M.mulVec v) :=
  ⟨(const M.r0).dot hf, (const M.r1).dot hf, (const M.r2).dot hf⟩

theorem listSum {α : Type*} (l : List α) {f : α → ι → V3} {v : α → V3} (h : ∀ a ∈ l, Tends (f a) F (v a)) :
    Tends (fun n => (l.map fun a => f a n).sum) F (l.map v).sum := by
  induction l with
  | nil => exact const 0
  | cons a l ih =>
    simp only [List.map_cons, List.sum_cons]
    exact (h a (by simp)).add (ih fun b hb => h b (by simp [hb]))

theorem congr' (hf : Tends f F v) (h : ∀ᶠ n in F, f n = g n) : Tends g F v :=
  ⟨hf.1.congr' (h.mono fun n e => by rw [e]), hf.2.1.congr' (h.mono fun n e => by rw [e]),
    hf.2.2.congr' (h.mono fun n e => by rw [e])⟩

theorem norm (hf : Tends f F v) : Tendsto (fun n => (f n).norm) F (𝓝 v.norm) :=
  (Real.continuous_sqrt.tendsto _).comp (hf.dot hf)

theorem close (hf : Tends f F v) {ε : ℝ} (hε : 0 < ε) : ∀ᶠ n in F, (f n - v).norm < ε := by
  have h := (hf.sub (const v)).norm
  rw [sub_self, norm_zero] at h
  exact h.eventually_lt_const hε

end Tends

theorem abs_x_le (v : V3) : |v.x| ≤ v.norm := by
  rw [← Real.sqrt_sq_eq_abs]
  apply Real.sqrt_le_sqrt
  unfold V3.dot
  nlinarith [sq_nonneg v.y, sq_nonneg v.z]

theorem abs_y_le (v : V3) : |v.y| ≤ v.norm := by
  rw [← Real.sqrt_sq_eq_abs]
  apply Real.sqrt_le_sqrt
  unfold V3.dot
  nlinarith [sq_nonneg v.x, sq_nonneg v.z]

theorem abs_z_le (v : V3) : |v.z| ≤ v.norm := by
  rw [← Real.sqrt_sq_eq_abs]
  apply Real.sqrt_le_sqrt
  unfold V3.dot
  nlinarith [sq_nonneg v.x, sq_nonneg v.y]

theorem tends_zero {f : ι → V3} {b : ι → ℝ} (h : ∀ᶠ n in F, (f n).norm ≤ b n) (hb : Tendsto b F (𝓝 0)) :
    Tends f F 0 :=
  ⟨squeeze_zero_norm' (h.mono fun n e => by rw [Real.norm_eq_abs]; exact (abs_x_le _).trans e) hb,
    squeeze_zero_norm' (h.mono fun n e => by rw [Real.norm_eq_abs]; exact (abs_y_le _).trans e) hb,
    squeeze_zero_norm' (h.mono fun n e => by rw [Real.norm_eq_abs]; exact (abs_z_le _).trans e) hb⟩

end V3

/-! ## A filament seen from far away -/

/-- Far from a filament its velocity is at most the sum of the inverse distances of its ends over `4π`. -/
theorem entry_le (A B x : V3) (hc : 0 ≤ (A - x).dot (B - x)) :
    (expandedEntry 0 ⟨A, B, 1, 0⟩ x).norm ≤ 1 / (4 * Real.pi) * (1 / (A - x).norm + 1 / (B - x).norm) := by
  have hπ := Real.pi_pos
  have n1 := (A - x).norm_nonneg
  have n2 := (B - x).norm_nonneg
  rw [expandedEntry_eq]
  by_cases h : Cutoff ⟨A, B, 1, 0⟩ x
  · rw [if_pos h, V3.norm_zero]
    positivity
  · rw [if_neg h]
    unfold Cutoff at h
    push Not at h
    obtain ⟨h1, h2, h3⟩ := h
    have he : (0 : ℝ) < eps := by unfold eps; norm_num
    simp only [kernelCoeff, coreRadius, mul_zero, Real.sqrt_zero, zero_pow (two_ne_zero), add_zero] at *
    set r1 := (A - x).norm with hr1
    set r2 := (B - x).norm with hr2
    set c := (A - x).dot (B - x) with hcd
    set u := (A - x).cross (B - x) with hu
    have p1 : 0 < r1 := lt_of_lt_of_le he h1
    have p2 : 0 < r2 := lt_of_lt_of_le he h2
    have p3 : 0 < u.norm ^ 2 := lt_of_lt_of_le he h3
    have p3' : 0 < u.norm := lt_of_le_of_ne u.norm_nonneg fun e => by rw [← e] at p3; norm_num at p3
    have hcs : c ≤ r1 * r2 := V3.dot_le _ _
    have hsq : u.norm ^ 2 = (r1 * r2 - c) * (r1 * r2 + c) := by
      have := V3.norm_cross_sq (A - x) (B - x)
      rw [← hu, ← hr1, ← hr2, ← hcd] at this
      rw [this]; ring
    have hle : r1 * r2 - c ≤ u.norm := by
      apply le_of_sq_le_sq _ (le_of_lt p3')
      rw [hsq]
      nlinarith
    rw [V3.norm_smul, abs_of_nonneg (by
      apply div_nonneg
      · have : 0 ≤ r1 * r2 - c := by linarith
        positivity
      · positivity)]
    have e : 1 / (4 * Real.pi) * (r1 + r2) * (r1 * r2 - c) / (r1 * r2 * u.norm ^ 2) * u.norm
        = 1 / (4 * Real.pi) * (1 / r1 + 1 / r2) * ((r1 * r2 - c) / u.norm) := by
      field_simp
      ring
    rw [e]
    have hq : (r1 * r2 - c) / u.norm ≤ 1 := (div_le_one p3').mpr hle
    have : 0 ≤ 1 / (4 * Real.pi) * (1 / r1 + 1 / r2) := by positivity
    nlinarith

/-- The points `x n` go to infinity. -/
def Far (x : ι → V3) (F : Filter ι) : Prop := Tendsto (fun n => (x n).norm) F atTop

theorem Far.distance {x : ι → V3} (h : Far x F) (A : V3) : Tendsto (fun n => (A - x n).norm) F atTop := by
  refine tendsto_atTop_mono (f := fun n => (x n).norm - A.norm) (fun n => ?_) (tendsto_atTop_add_const_right _ _ h)
  have := V3.norm_add_le A (x n - A)
  rw [show A + (x n - A) = x n by abel, V3.norm_sub_comm] at this
  linarith

theorem Far.shift {x : ι → V3} (h : Far x F) (A : V3) : Far (fun n => A + x n) F := by
  have := h.distance (-A)
  refine this.congr fun n => ?_
  show _ = (A + x n).norm
  rw [show A + x n = -(-A - x n) by abel, V3.norm_neg]

theorem Far.entry {x : ι → V3} (h : Far x F) (A B : V3) : V3.Tends (fun n => expandedEntry 0 ⟨A, B, 1, 0⟩ (x n)) F 0 := by
  have hA := h.distance A
  have hB := h.distance B
  refine V3.tends_zero (b := fun n => 1 / (4 * Real.pi) * (1 / (A - x n).norm + 1 / (B - x n).norm)) ?_ ?_
  · have hp := hA.atTop_mul_atTop₀ hB
    filter_upwards [hp.eventually_ge_atTop ((A - B).dot (A - B))] with n hn
    apply entry_le
    have e : (A - B).dot (A - B) = (A - x n).norm ^ 2 + (B - x n).norm ^ 2 - 2 * (A - x n).dot (B - x n) := by
      rw [V3.norm_sq, V3.norm_sq]
      simp only [V3.dot, V3.sub_x, V3.sub_y, V3.sub_z]; ring
    nlinarith [sq_nonneg ((A - x n).norm - (B - x n).norm)]
  · have hA' : Tendsto (fun n => 1 / (A - x n).norm) F (𝓝 0) := by
      simpa [one_div, Function.comp_def] using tendsto_inv_atTop_zero.comp hA
    have hB' : Tendsto (fun n => 1 / (B - x n).norm) F (𝓝 0) := by
      simpa [one_div, Function.comp_def] using tendsto_inv_atTop_zero.comp hB
    have := (hA'.add hB').const_mul (1 / (4 * Real.pi))
    simpa using this

theorem Far.unitVelocity {x : ι → V3} (h : Far x F) (legs : List (V3 × V3)) :
    V3.Tends (fun n => unitVelocity legs (x n)) F 0 := by
  have := V3.Tends.listSum (F := F) legs (f := fun l n => expandedEntry 0 ⟨l.1, l.2, 1, 0⟩ (x n)) (v := fun _ => 0)
    fun l _ => h.entry l.1 l.2
  simpa [Ptera.unitVelocity] using this

/-! ## Solutions of linear systems -/

/-- The system with unknowns indexed by a list, as a matrix. -/
def systemMatrix {α : Type*} (l : List α) (A : α → α → ℝ) : Matrix (Fin l.length) (Fin l.length) ℝ :=
  Matrix.of fun i j => A l[i] l[j]

theorem sum_fin {α : Type*} (l : List α) (f : α → ℝ) : (l.map f).sum = ∑ j : Fin l.length, f l[j] := by
  rw [← List.sum_ofFn]
  congr 1
  apply List.ext_getElem <;> simp

/-- The system has a unique solution exactly if the determinant is not zero. -/
theorem solve_values_iff {α : Type*} (l : List α) (A : α → α → ℝ) (b : α → ℝ) :
    (∃ x, linalgSolve (l.map fun i => l.map fun j => A i j) (l.map b) = .ok x) ↔ (systemMatrix l A).det ≠ 0 := by
  have hsq : ∀ row ∈ l.map fun i => l.map fun j => A i j, row.length = (l.map fun i => l.map fun j => A i j).length := by
    intro row hrow
    obtain ⟨i, -, rfl⟩ := List.mem_map.mp hrow
    simp
  rw [linalgSolve_iff hsq (by simp)]
  have e : asMatrix (l.map fun i => l.map fun j => A i j)
      = (systemMatrix l A).submatrix (Fin.cast (by simp)) (Fin.cast (by simp)) := by
    ext i j
    have hi : i.1 < l.length := by simpa using i.2
    have hj : j.1 < l.length := by simpa using j.2
    simp [asMatrix, systemMatrix, List.getD_eq_getElem?_getD, hj]
  have hdet : (asMatrix (l.map fun i => l.map fun j => A i j)).det = (systemMatrix l A).det := by
    rw [e]
    exact Matrix.det_submatrix_equiv_self (finCongr (by simp)) (systemMatrix l A)
  rw [hdet]

/-- Cramer's rule. -/
theorem solve_values {α : Type*} {l : List α} {A : α → α → ℝ} {b Γ : α → ℝ}
    (h : linalgSolve (l.map fun i => l.map fun j => A i j) (l.map b) = .ok (l.map Γ)) (i : Fin l.length) :
    Γ l[i] = (systemMatrix l A).cramer (fun j => b l[j]) i / (systemMatrix l A).det := by
  have hdet : (systemMatrix l A).det ≠ 0 := (solve_values_iff l A b).mp ⟨_, h⟩
  have hsol := (linalgSolve_ok h).2
  rw [matVec_values] at hsol
  have hsol' := map_inj_left hsol
  have e : (systemMatrix l A).mulVec (fun j => Γ l[j]) = fun j => b l[j] := by
    funext k
    have := hsol' l[k] (List.getElem_mem k.2)
    rw [sum_fin] at this
    exact this
  rw [← e, Matrix.cramer_eq_adjugate_mulVec, Matrix.mulVec_mulVec, Matrix.adjugate_mul, Matrix.smul_mulVec,
    Matrix.one_mulVec]
  simp only [Pi.smul_apply, smul_eq_mul]
  field_simp

theorem tendsto_systemMatrix {α : Type*} {l : List α} {A : ι → α → α → ℝ} {A₀ : α → α → ℝ}
    (h : ∀ i ∈ l, ∀ j ∈ l, Tendsto (fun n => A n i j) F (𝓝 (A₀ i j))) :
    Tendsto (fun n => systemMatrix l (A n)) F (𝓝 (systemMatrix l A₀)) := by
  refine tendsto_pi_nhds.mpr fun i => tendsto_pi_nhds.mpr fun j => ?_
  exact h _ (List.getElem_mem i.2) _ (List.getElem_mem j.2)

/-- Near a system with a unique solution all systems have unique solutions. -/
theorem solve_near {α : Type*} [DecidableEq α] {l : List α} (hl : l.Nodup) {A : ι → α → α → ℝ} {A₀ : α → α → ℝ}
    {b₀ : α → ℝ} {x : List ℝ} (hA : ∀ i ∈ l, ∀ j ∈ l, Tendsto (fun n => A n i j) F (𝓝 (A₀ i j)))
    (h : linalgSolve (l.map fun i => l.map fun j => A₀ i j) (l.map b₀) = .ok x) (b : α → ℝ) :
    ∀ᶠ n in F, ∃ Γ : α → ℝ, linalgSolve (l.map fun i => l.map fun j => A n i j) (l.map b) = .ok (l.map Γ) := by
  have hdet : (systemMatrix l A₀).det ≠ 0 := (solve_values_iff l A₀ b₀).mp ⟨_, h⟩
  have ht := ((Continuous.matrix_det continuous_id).tendsto (systemMatrix l A₀)).comp (tendsto_systemMatrix hA)
  filter_upwards [ht.eventually_ne hdet] with n hn
  obtain ⟨y, hy⟩ := (solve_values_iff l (A n) b).mpr hn
  obtain ⟨Γ, rfl⟩ := exists_values hl (show y.length = l.length by simpa using (linalgSolve_ok hy).1)
  exact ⟨Γ, hy⟩

/-- The solutions of systems that tend to a system with a unique solution tend to that solution. -/
theorem solve_tendsto {α : Type*} {l : List α} {A : ι → α → α → ℝ} {A₀ : α → α → ℝ}
    {b Γ₀ : α → ℝ} (hA : ∀ i ∈ l, ∀ j ∈ l, Tendsto (fun n => A n i j) F (𝓝 (A₀ i j)))
    (h : linalgSolve (l.map fun i => l.map fun j => A₀ i j) (l.map b) = .ok (l.map Γ₀)) {Γ : ι → α → ℝ}
    (hΓ : ∀ᶠ n in F, linalgSolve (l.map fun i => l.map fun j => A n i j) (l.map b) = .ok (l.map (Γ n))) :
    ∀ r ∈ l, Tendsto (fun n => Γ n r) F (𝓝 (Γ₀ r)) := by
  intro r hr
  obtain ⟨k, hk, rfl⟩ := List.getElem_of_mem hr
  have hdet : (systemMatrix l A₀).det ≠ 0 := (solve_values_iff l A₀ b).mp ⟨_, h⟩
  have hM := tendsto_systemMatrix hA
  have hd : Tendsto (fun n => (systemMatrix l (A n)).det) F (𝓝 (systemMatrix l A₀).det) :=
    ((Continuous.matrix_det continuous_id).tendsto (systemMatrix l A₀)).comp hM
  have hc : Tendsto (fun n => (systemMatrix l (A n)).cramer (fun j => b l[j]) ⟨k, hk⟩) F
      (𝓝 ((systemMatrix l A₀).cramer (fun j => b l[j]) ⟨k, hk⟩)) := by
    have hcont : Continuous fun M : Matrix (Fin l.length) (Fin l.length) ℝ => M.cramer (fun j => b l[j]) ⟨k, hk⟩ := by
      simp only [Matrix.cramer_apply]
      fun_prop
    exact (hcont.tendsto _).comp hM
  have := hc.div hd hdet
  rw [← solve_values h ⟨k, hk⟩] at this
  refine this.congr' ?_
  filter_upwards [hΓ] with n hn
  exact (solve_values hn ⟨k, hk⟩).symm

end Ptera
