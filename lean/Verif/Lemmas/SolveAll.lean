import Verif.Lemmas.SimilarSolve
import Mathlib.LinearAlgebra.Matrix.ToLin
import Mathlib.LinearAlgebra.FiniteDimensional.Lemmas

/-! Systems that can be solved for one right-hand side. -/

namespace Ptera

theorem matVec_ofFn {α : Type*} (l : List α) (A : α → α → ℝ) (y : Fin l.length → ℝ) :
    matVec (l.map fun i => l.map fun j => A i j) (List.ofFn y)
      = List.ofFn ((Matrix.of fun i j => A l[i] l[j]).mulVec y) := by
  unfold matVec
  apply List.ext_getElem
  · simp
  · intro i h1 h2
    have hi : i < l.length := by simpa using h1
    simp only [List.getElem_map, List.getElem_ofFn, Matrix.mulVec, dotProduct, Matrix.of_apply]
    rw [← List.sum_ofFn]
    congr 1
    apply List.ext_getElem
    · simp
    · intro j h3 h4
      simp

/-- A system that has one solution has one for every right-hand side. -/
theorem linalgSolve_all {α : Type*} (l : List α) (A : α → α → ℝ) {b x : List ℝ}
    (h : linalgSolve (l.map fun i => l.map fun j => A i j) b = .ok x) (b' : List ℝ) (hb : b'.length = l.length) :
    ∃ x', linalgSolve (l.map fun i => l.map fun j => A i j) b' = .ok x' := by
  set B : Matrix (Fin l.length) (Fin l.length) ℝ := Matrix.of fun i j => A l[i] l[j] with hB
  have hfn : ∀ z : List ℝ, z.length = l.length → ∃ y : Fin l.length → ℝ, z = List.ofFn y := by
    intro z hz
    refine ⟨fun i => z[i], ?_⟩
    apply List.ext_getElem
    · simp [hz]
    · intro i h1 h2; simp
  have hinj : Function.Injective (Matrix.mulVecLin B) := by
    rw [← LinearMap.ker_eq_bot, LinearMap.ker_eq_bot']
    intro y hy
    obtain ⟨hlen, hx⟩ := linalgSolve_ok h
    obtain ⟨x0, rfl⟩ := hfn x (by simpa using hlen)
    have hy' : B.mulVec y = 0 := hy
    have h2 : matVec (l.map fun i => l.map fun j => A i j) (List.ofFn (x0 + y)) = b := by
      rw [matVec_ofFn, ← hB, Matrix.mulVec_add, hy', add_zero, hB, ← matVec_ofFn, hx]
    have := linalgSolve_unique h ⟨by simp, h2⟩
    have h3 := List.ofFn_injective this
    funext i
    have := congrFun h3 i
    simp only [Pi.add_apply] at this
    simp only [Pi.zero_apply]
    linarith
  have hsurj : Function.Surjective (Matrix.mulVecLin B) := LinearMap.injective_iff_surjective.mp hinj
  obtain ⟨b0, rfl⟩ := hfn b' hb
  obtain ⟨y, hy⟩ := hsurj b0
  have hex : ∃! x : List ℝ, x.length = (l.map fun i => l.map fun j => A i j).length ∧
      matVec (l.map fun i => l.map fun j => A i j) x = List.ofFn b0 := by
    refine ⟨List.ofFn y, ⟨by simp, ?_⟩, ?_⟩
    · rw [matVec_ofFn]; exact congrArg _ hy
    · rintro z ⟨hz, hz2⟩
      obtain ⟨z0, rfl⟩ := hfn z (by simpa using hz)
      rw [matVec_ofFn] at hz2
      have := List.ofFn_injective hz2
      congr 1
      exact hinj (this.trans hy.symm)
  unfold linalgSolve
  rw [dif_pos hex]
  exact ⟨_, rfl⟩

end Ptera
