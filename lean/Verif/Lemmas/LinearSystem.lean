import Verif.Lemmas.SimilarSolve
import Verif.Lemmas.SimilarRuns
import Mathlib.LinearAlgebra.Matrix.ToLinearEquiv
import Mathlib.LinearAlgebra.Matrix.NonsingularInverse

/-! The linear system of the solvers and the determinant of its matrix. -/

namespace Ptera

/-- The square array of numbers as a Mathlib matrix. -/
def asMatrix (A : List (List ℝ)) : Matrix (Fin A.length) (Fin A.length) ℝ :=
  Matrix.of fun i j => (A[i]).getD j 0

theorem zipWith_mul_sum {n : ℕ} (row x : List ℝ) (hr : row.length = n) (hx : x.length = n) :
    (List.zipWith (· * ·) row x).sum = ∑ j : Fin n, row.getD j 0 * x.getD j 0 := by
  induction n generalizing row x with
  | zero =>
    obtain rfl := List.length_eq_zero_iff.mp hr
    simp
  | succ n ih =>
    match row, x, hr, hx with
    | a :: row, b :: x, hr, hx =>
      rw [Fin.sum_univ_succ]
      simp only [List.zipWith_cons_cons, List.sum_cons, Fin.val_zero, List.getD_cons_zero, Fin.val_succ,
        List.getD_cons_succ]
      rw [ih row x (by simpa using hr) (by simpa using hx)]

theorem matVec_asMatrix {A : List (List ℝ)} (hA : ∀ row ∈ A, row.length = A.length) {x : List ℝ}
    (hx : x.length = A.length) (i : Fin A.length) :
    (matVec A x).getD i 0 = (asMatrix A).mulVec (fun j => x.getD j 0) i := by
  have h1 : (matVec A x).getD i 0 = (List.zipWith (· * ·) A[i] x).sum := by
    unfold matVec
    rw [List.getD_eq_getElem?_getD, List.getElem?_map, List.getElem?_eq_getElem i.2]
    rfl
  rw [h1, zipWith_mul_sum A[i] x (hA A[i] (List.getElem_mem i.2)) hx]
  rfl

theorem list_eq_getD {x y : List ℝ} {n : ℕ} (hx : x.length = n) (hy : y.length = n)
    (h : ∀ i : Fin n, x.getD i 0 = y.getD i 0) : x = y := by
  apply List.ext_getElem (by omega)
  intro i h1 h2
  have h3 := h ⟨i, by omega⟩
  simpa [List.getD_eq_getElem?_getD, List.getElem?_eq_getElem h1, List.getElem?_eq_getElem h2] using h3

/-- A square system is solved exactly if the determinant of its matrix is not zero. -/
theorem linalgSolve_iff {A : List (List ℝ)} (hA : ∀ row ∈ A, row.length = A.length) {b : List ℝ}
    (hb : b.length = A.length) : (∃ x, linalgSolve A b = .ok x) ↔ (asMatrix A).det ≠ 0 := by
  have hlen : ∀ x, (matVec A x).length = A.length := by intro x; simp [matVec]
  constructor
  · rintro ⟨x, hx⟩ hdet
    obtain ⟨h1, h2⟩ := linalgSolve_ok hx
    obtain ⟨v, hv, hv0⟩ := Matrix.exists_mulVec_eq_zero_iff.mpr hdet
    have hget : ∀ i : Fin A.length, (List.ofFn fun i : Fin A.length => x.getD i 0 + v i).getD i 0 = x.getD i 0 + v i := by
      intro i
      simp [List.getD_eq_getElem?_getD]
    have h3 : (List.ofFn fun i : Fin A.length => x.getD i 0 + v i) = x := by
      refine linalgSolve_unique hx ⟨by simp, ?_⟩
      rw [← h2]
      refine list_eq_getD (hlen _) (hlen _) fun i => ?_
      rw [matVec_asMatrix hA (by simp), matVec_asMatrix hA h1]
      have e : (fun j : Fin A.length => (List.ofFn fun i : Fin A.length => x.getD i 0 + v i).getD j 0)
          = (fun j : Fin A.length => x.getD j 0) + v := by
        funext j
        rw [hget]; rfl
      rw [e, Matrix.mulVec_add, hv0, add_zero]
    apply hv
    funext i
    have h4 := hget i
    rw [h3] at h4
    simpa using h4
  · intro hdet
    set M := asMatrix A with hM
    have hu : IsUnit M.det := isUnit_iff_ne_zero.mpr hdet
    set y : Fin A.length → ℝ := M⁻¹.mulVec fun j : Fin A.length => b.getD j 0 with hy
    have hMy : M.mulVec y = fun j : Fin A.length => b.getD j 0 := by
      rw [hy, Matrix.mulVec_mulVec, Matrix.mul_nonsing_inv _ hu, Matrix.one_mulVec]
    have hget : (fun j : Fin A.length => (List.ofFn y).getD j 0) = y := by
      funext j
      simp [List.getD_eq_getElem?_getD]
    have hex : ∃! x : List ℝ, x.length = A.length ∧ matVec A x = b := by
      refine ⟨List.ofFn y, ⟨by simp, ?_⟩, ?_⟩
      · refine list_eq_getD (hlen _) hb fun i => ?_
        rw [matVec_asMatrix hA (by simp), hget, ← hM, hMy]
      · rintro z ⟨z1, z2⟩
        refine list_eq_getD z1 (by simp) fun i => ?_
        have e : M.mulVec (fun j : Fin A.length => z.getD j 0) = M.mulVec y := by
          funext i
          rw [hM, ← matVec_asMatrix hA z1, z2, ← hM, hMy]
        have e2 : (fun j : Fin A.length => z.getD j 0) = y := by
          have := congrArg (fun w => M⁻¹.mulVec w) e
          simpa [Matrix.mulVec_mulVec, Matrix.nonsing_inv_mul _ hu] using this
        rw [congrFun e2 i, congrFun hget i]
    unfold linalgSolve
    rw [dif_pos hex]
    exact ⟨_, rfl⟩

/-- A row of zeros makes a system singular. -/
theorem linalgSolve_row {α : Type} {l : List α} {A : α → α → ℝ} {a : α} (ha : a ∈ l)
    (hA : ∀ j ∈ l, A a j = 0)
    {v : List ℝ} (hv : v.length = l.length) :
    linalgSolve (l.map fun i => l.map fun j => A i j) v = .error .linAlgError := by
  cases h : linalgSolve (l.map fun i => l.map fun j => A i j) v with
  | error e => rw [linalgSolve_error h]
  | ok x =>
    exfalso
    refine (linalgSolve_iff (A := l.map fun i => l.map fun j => A i j) ?_ (by simpa using hv)).mp ⟨x, h⟩ ?_
    · intro row hrow
      obtain ⟨i, -, rfl⟩ := List.mem_map.mp hrow
      simp
    · obtain ⟨n, hn, rfl⟩ := List.mem_iff_getElem.mp ha
      refine Matrix.det_eq_zero_of_row_eq_zero ⟨n, by simpa using hn⟩ fun j => ?_
      have hj : (j : ℕ) < l.length := by have := j.2; simpa using this
      simp [asMatrix, List.getD_eq_getElem?_getD, List.getElem?_eq_getElem hj, hA _ (List.getElem_mem hj)]

end Ptera
