import Verif.Lemmas.NoPenetration

/-! Linear systems whose unknowns are indexed by a list, and their images under a relabelling. -/

namespace Ptera

theorem exists_values {α : Type*} [DecidableEq α] {l : List α} (hl : l.Nodup) {x : List ℝ} (hx : x.length = l.length) :
    ∃ Γ : α → ℝ, x = l.map Γ := by
  refine ⟨fun r => x.getD (l.idxOf r) 0, ?_⟩
  apply List.ext_getElem
  · simp [hx]
  · intro i h1 h2
    simp only [List.getElem_map]
    rw [hl.idxOf_getElem, List.getD_eq_getElem?_getD, List.getElem?_eq_getElem h1]
    rfl

theorem matVec_values {α : Type*} (l : List α) (A : α → α → ℝ) (Γ : α → ℝ) :
    matVec (l.map fun i => l.map fun j => A i j) (l.map Γ) = l.map fun i => (l.map fun j => A i j * Γ j).sum := by
  unfold matVec
  rw [List.map_map]
  apply List.map_congr_left
  intro i _
  simp only [Function.comp]
  rw [zipWith_map_self]

theorem map_inj_left {α β : Type*} {l : List α} {f g : α → β} (h : l.map f = l.map g) : ∀ a ∈ l, f a = g a :=
  List.map_inj_left.mp h

/-- A linear system and its image under a relabelling `σ` of the unknowns, with the signs of some unknowns
and equations changed and the right-hand side multiplied by `c`. -/
theorem linalgSolve_similar {α : Type*} [DecidableEq α] {l l' : List α} (hl' : l'.Nodup) (σ : α → α)
    (hp : l'.Perm (l.map σ)) (A A' : α → α → ℝ) (b b' e : α → ℝ) (c : ℝ) (hc : c ≠ 0)
    (he : ∀ i, e i * e i = 1) (hA : ∀ i ∈ l, ∀ j ∈ l, A' (σ i) (σ j) = e i * e j * A i j)
    (hb : ∀ i ∈ l, b' (σ i) = c * e i * b i) (Γ : α → ℝ)
    (h : linalgSolve (l.map fun i => l.map fun j => A i j) (l.map b) = .ok (l.map Γ)) :
    ∃ Γ' : α → ℝ, linalgSolve (l'.map fun i => l'.map fun j => A' i j) (l'.map b') = .ok (l'.map Γ') ∧
      ∀ r ∈ l, Γ' (σ r) = c * e r * Γ r := by
  classical
  have hinj : ∀ r ∈ l, ∀ r' ∈ l, σ r = σ r' → r = r' := by
    have := hp.nodup hl'
    exact fun r hr r' hr' => List.inj_on_of_nodup_map this hr hr'
  have hsum : ∀ f : α → ℝ, (l'.map f).sum = (l.map fun r => f (σ r)).sum := by
    intro f
    rw [(hp.map f).sum_eq, List.map_map]
    rfl
  have hmem : ∀ r' ∈ l', ∃ r ∈ l, σ r = r' := fun r' hr' => List.mem_map.mp (hp.mem_iff.mp hr')
  have hsol := (linalgSolve_ok h).2
  rw [matVec_values] at hsol
  have hsol' := map_inj_left hsol
  -- the relabelled solution
  let Γ' : α → ℝ := fun r' => if hr : ∃ r ∈ l, σ r = r' then c * e hr.choose * Γ hr.choose else 0
  have hΓ : ∀ r ∈ l, Γ' (σ r) = c * e r * Γ r := by
    intro r hr
    have hex : ∃ q ∈ l, σ q = σ r := ⟨r, hr, rfl⟩
    simp only [Γ']
    rw [dif_pos hex, hinj _ hex.choose_spec.1 _ hr hex.choose_spec.2]
  refine ⟨Γ', ?_, hΓ⟩
  apply linalgSolve_of_unique
  · refine ⟨by simp, ?_⟩
    rw [matVec_values]
    apply List.map_congr_left
    intro i' hi'
    obtain ⟨i, hi, rfl⟩ := hmem i' hi'
    rw [hsum, hb i hi, ← hsol' i hi, ← List.sum_map_mul_left]
    congr 1
    apply List.map_congr_left
    intro j hj
    rw [hA i hi j hj, hΓ j hj]
    linear_combination (c * e i * A i j * Γ j) * he j
  · intro y hy hm
    obtain ⟨Δ', rfl⟩ := exists_values hl' (show y.length = l'.length by simpa using hy)
    rw [matVec_values] at hm
    have hm' := map_inj_left hm
    have hΔ : l.map (fun r => c⁻¹ * e r * Δ' (σ r)) = l.map Γ := by
      apply linalgSolve_unique h
      refine ⟨by simp, ?_⟩
      rw [matVec_values]
      apply List.map_congr_left
      intro i hi
      have h1 := hm' (σ i) (hp.mem_iff.mpr (List.mem_map_of_mem hi))
      rw [hsum, hb i hi] at h1
      have h2 : (l.map fun j => A i j * (c⁻¹ * e j * Δ' (σ j))).sum
          = c⁻¹ * e i * (l.map fun j => A' (σ i) (σ j) * Δ' (σ j)).sum := by
        rw [← List.sum_map_mul_left]
        congr 1
        apply List.map_congr_left
        intro j hj
        rw [hA i hi j hj]
        linear_combination (-(c⁻¹ * e j * A i j * Δ' (σ j))) * he i
      rw [h2, h1]
      linear_combination (c⁻¹ * c * b i) * he i + b i * inv_mul_cancel₀ hc
    have hΔ' := map_inj_left hΔ
    apply List.map_congr_left
    intro r' hr'
    obtain ⟨r, hr, rfl⟩ := hmem r' hr'
    rw [hΓ r hr, ← hΔ' r hr]
    linear_combination (-(c * c⁻¹ * Δ' (σ r))) * he r - Δ' (σ r) * mul_inv_cancel₀ hc

end Ptera
