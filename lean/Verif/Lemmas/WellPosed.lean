import Verif.Spec.WellPosed
import Verif.Lemmas.LinearSystem
import Verif.Lemmas.Filaments
import Verif.Props.RingLattice

/-! Strengths for which no flow passes through the panels, and the linear systems of the solvers. -/

namespace Ptera

section

variable {ι : Type} [DecidableEq ι] {l : List ι} {A : ι → ι → ℝ}

omit [DecidableEq ι] in
theorem matVec_map (l m : List ι) (A : ι → ι → ℝ) (Γ : ι → ℝ) :
    matVec (m.map fun i => l.map fun j => A i j) (l.map Γ) = m.map fun i => (l.map fun j => A i j * Γ j).sum := by
  unfold matVec
  rw [List.map_map]
  apply List.map_congr_left
  intro i _
  simp only [Function.comp]
  congr 1
  induction l with
  | nil => rfl
  | cons a l ih => simp [ih]

/-- A square system is solved exactly if only zero strengths give zero. -/
theorem solve_iff_injective (hl : l.Nodup) (b : List ℝ) (hb : b.length = l.length) :
    (∃ x, linalgSolve (l.map fun i => l.map fun j => A i j) b = .ok x) ↔
      ∀ Γ : ι → ℝ, (∀ i ∈ l, (l.map fun j => A i j * Γ j).sum = 0) → ∀ i ∈ l, Γ i = 0 := by
  constructor
  · rintro ⟨x, hx⟩ Γ hΓ
    obtain ⟨h1, h2⟩ := linalgSolve_ok hx
    obtain ⟨X, rfl⟩ := exists_values hl (x := x) (by simpa using h1)
    rw [matVec_map] at h2
    have h3 : l.map (fun i => X i + Γ i) = l.map X := by
      refine linalgSolve_unique hx ⟨by simp, ?_⟩
      rw [matVec_map, ← h2]
      apply List.map_congr_left
      intro i hi
      simp only [mul_add, List.sum_map_add, hΓ i hi, add_zero]
    intro i hi
    have := List.map_inj_left.mp h3 i hi
    linarith
  · intro h
    have hA : ∀ row ∈ l.map (fun i => l.map fun j => A i j), row.length = (l.map fun i => l.map fun j => A i j).length := by
      intro row hrow
      obtain ⟨i, _, rfl⟩ := List.mem_map.mp hrow
      simp
    rw [linalgSolve_iff hA (by simpa using hb)]
    intro hdet
    obtain ⟨v, hv, hv0⟩ := Matrix.exists_mulVec_eq_zero_iff.mpr hdet
    obtain ⟨Γ, hΓ⟩ := exists_values hl (x := List.ofFn v) (by simp)
    have hget : ∀ j : Fin (l.map fun i => l.map fun j => A i j).length, (l.map Γ).getD j 0 = v j := by
      intro j
      rw [← hΓ]
      have hj : (j : ℕ) < l.length := by simpa using j.2
      simp [List.getD_eq_getElem?_getD, hj]
    have hz : ∀ i ∈ l, (l.map fun j => A i j * Γ j).sum = 0 := by
      have hmv : matVec (l.map fun i => l.map fun j => A i j) (l.map Γ) = l.map fun _ => (0 : ℝ) := by
        refine list_eq_getD (n := (l.map fun i => l.map fun j => A i j).length) (by simp [matVec]) (by simp) fun i => ?_
        rw [matVec_asMatrix hA (by simp)]
        have : (fun j : Fin (l.map fun i => l.map fun j => A i j).length => (l.map Γ).getD j 0) = v := funext hget
        rw [this, hv0]
        have hi : (i : ℕ) < l.length := by simpa using i.2
        simp [List.getD_eq_getElem?_getD, hi]
      rw [matVec_map] at hmv
      intro i hi
      exact List.map_inj_left.mp hmv i hi
    apply hv
    funext j
    rw [← hget j]
    have hj : (j : ℕ) < l.length := by simpa using j.2
    simp [List.getD_eq_getElem?_getD, List.getElem?_map, List.getElem?_eq_getElem hj, h Γ hz _ (List.getElem_mem hj)]

omit [DecidableEq ι] in
/-- The solution of a square system is the only one. -/
theorem solve_iff_eq {b : ι → ℝ} {Γ : ι → ℝ}
    (h : linalgSolve (l.map fun i => l.map fun j => A i j) (l.map b) = .ok (l.map Γ)) (Γ' : ι → ℝ) :
    (∀ i ∈ l, (l.map fun j => A i j * Γ' j).sum = b i) ↔ ∀ i ∈ l, Γ i = Γ' i := by
  constructor
  · intro h'
    have : l.map Γ' = l.map Γ := by
      refine linalgSolve_unique h ⟨by simp, ?_⟩
      rw [matVec_map]
      exact List.map_congr_left h'
    intro i hi
    exact (List.map_inj_left.mp this i hi).symm
  · intro h'
    obtain ⟨_, h2⟩ := linalgSolve_ok h
    rw [matVec_map] at h2
    intro i hi
    have := List.map_inj_left.mp h2 i hi
    rw [← this]
    congr 1
    apply List.map_congr_left
    intro j hj
    rw [h' j hj]

end

theorem filamentFlow_young (nu : ℝ) (l : List Seg) (hl : ∀ f ∈ l, f.age = 0) (q : V3) :
    filamentFlow nu l q = filamentFlow 0 l q := by
  unfold filamentFlow
  congr 1
  apply List.map_congr_left
  rintro ⟨a, b, Γ, age⟩ hf
  have := hl _ hf
  simp only at this
  rw [this, expandedEntry_scale nu, expandedEntry_scale 0 Γ]

theorem ringsWith_young (as : List Airplane) (extra : V3) (Γ : PanelRef → ℝ) : ∀ f ∈ ringsWith as extra Γ, f.age = 0 := by
  intro f hf
  obtain ⟨r, _, h⟩ := List.mem_flatMap.mp hf
  cases hp : panelAt as r with
  | none => simp [hp] at h
  | some p =>
    simp only [hp, ringFilaments, List.mem_cons, List.not_mem_nil, or_false] at h
    rcases h with rfl | rfl | rfl | rfl <;> rfl

theorem dot_sum_smul {ι : Type} (l : List ι) (u : ι → V3) (Γ : ι → ℝ) (n : V3) :
    ((l.map fun j => Γ j • u j).sum).dot n = (l.map fun j => (u j).dot n * Γ j).sum := by
  induction l with
  | nil => simp [V3.dot]
  | cons a l ih =>
    simp only [List.map_cons, List.sum_cons, V3.add_dot, ih, V3.smul_dot]
    ring

theorem Panel.vertexRight (p : Panel) : p.frontRightVortexVertex = p.quarterRight := by
  unfold Panel.frontRightVortexVertex Panel.quarterRight Panel.rightLeg
  ext <;> simp [-mul_eq_mul_right_iff, -mul_eq_mul_left_iff] <;> ring
theorem Panel.vertexLeft (p : Panel) : p.frontLeftVortexVertex = p.quarterLeft := by
  unfold Panel.frontLeftVortexVertex Panel.quarterLeft Panel.leftLeg
  ext <;> simp [-mul_eq_mul_right_iff, -mul_eq_mul_left_iff] <;> ring

theorem wingAt_of_panelAt {as : List Airplane} {r : PanelRef} {p : Panel} (h : panelAt as r = some p) :
    ∃ w, wingAt as r = some w := by
  unfold panelAt at h
  cases hw : wingAt as r with
  | none => rw [hw] at h; simp at h
  | some w => exact ⟨w, rfl⟩

theorem HorseshoeSolver.flow_with {P : SteadyProblem} (Γ : PanelRef → ℝ) (q : V3) :
    filamentFlow 0 (horseshoesWith P.airplanes P.operatingPoint.freestreamDirection Γ) q
      = ((panelRefs P.airplanes).map fun r => Γ r • panelUnit P r q).sum := by
  unfold horseshoesWith
  rw [filamentFlow_flatMap]
  congr 1
  apply List.map_congr_left
  intro r hr
  obtain ⟨p, hp⟩ := (mem_panelRefs _ _).mp hr
  obtain ⟨w, hw⟩ := wingAt_of_panelAt hp
  unfold panelUnit unit
  rw [unitVelocity_smul]
  simp only [hp, hw]
  have hv : (create P).panelVortex r = HorseshoeVortex.mk' p.quarterRight p.quarterLeft 0
      P.operatingPoint.freestreamDirection (20 * w.span) := by
    unfold panelVortex
    have : (create P).airplanes = P.airplanes := rfl
    simp only [this, geometryOf_eq hp, hw, Panel.vertexRight, Panel.vertexLeft, Option.map_some, Option.getD_some]
    rw [mul_comm]
    rfl
  rw [hv]
  rfl

theorem ringBack_eq {as : List Airplane} (hm : ∀ a ∈ as, a.Made) {r : PanelRef} {p : Panel}
    (hp : panelAt as r = some p) :
    RingSolver.backRightVertex as r = ringBackRight as 0 r p ∧ RingSolver.backLeftVertex as r = ringBackLeft as 0 r p := by
  have hf := made_flags hm hp
  unfold RingSolver.backRightVertex RingSolver.backLeftVertex ringBackRight ringBackLeft
  simp only [geometryOf_eq hp]
  cases hq : panelAt as { r with row := r.row + 1 } with
  | none =>
    have hte : p.isTrailingEdge = true := hf.trailing.mpr hq
    simp [hte, Panel.vertexRight, Panel.vertexLeft]
  | some q =>
    have hte : p.isTrailingEdge = false := by
      by_contra h
      rw [hf.trailing.mp (by simpa using h)] at hq
      simp at hq
    simp [hte, Panel.vertexRight, Panel.vertexLeft, geometryOf_eq hq]

theorem RingSolver.flow_with {P : SteadyProblem} (hm : ∀ a ∈ P.airplanes, a.Made) (Γ : PanelRef → ℝ) (q : V3) :
    filamentFlow 0 (ringsWith P.airplanes 0 Γ ++ trailingWith P.airplanes P.operatingPoint.freestreamDirection Γ) q
      = ((panelRefs P.airplanes).map fun r => Γ r • (create P).panelUnit r q).sum := by
  unfold ringsWith trailingWith
  rw [filamentFlow_append, filamentFlow_flatMap, filamentFlow_flatMap, ← List.sum_map_add]
  congr 1
  apply List.map_congr_left
  intro r hr
  obtain ⟨p, hp⟩ := (mem_panelRefs _ _).mp hr
  obtain ⟨w, hw⟩ := wingAt_of_panelAt hp
  obtain ⟨b1, b2⟩ := ringBack_eq hm hp
  have hS : (create P).airplanes = P.airplanes := rfl
  unfold panelUnit
  rw [smul_add]
  congr 1
  · unfold unit
    rw [unitVelocity_smul]
    simp only [hp]
    have hv : panelRing P.airplanes r = RingVortex.mk' p.quarterLeft p.quarterRight (ringBackLeft P.airplanes 0 r p)
        (ringBackRight P.airplanes 0 r p) 0 := by
      unfold panelRing
      simp only [geometryOf_eq hp, b1, b2, Panel.vertexRight, Panel.vertexLeft]
    rw [hS, hv]
    rfl
  · have hflag := (made_flags hm hp).trailing
    unfold firstTrailing
    rw [hS, geometryOf_eq hp]
    simp only [hp, hw]
    by_cases hte : p.isTrailingEdge = true
    · rw [if_pos hte, hflag.mp hte]
      simp only [trailingSlot, one_smul]
      unfold unitT
      rw [unitVelocity_smul]
      have hv : (create P).panelHorseshoe r = HorseshoeVortex.mk' (ringBackRight P.airplanes 0 r p)
          (ringBackLeft P.airplanes 0 r p) 0 P.operatingPoint.freestreamDirection (20 * w.span) := by
        unfold panelHorseshoe
        simp only [hS, b1, b2, hw, Option.map_some, Option.getD_some]
        rw [mul_comm]
        rfl
      rw [hv]
      rfl
    · rw [if_neg hte]
      obtain ⟨c, hc⟩ := Option.ne_none_iff_exists'.mp (fun e => hte (hflag.mpr e))
      simp [hc, filamentFlow]

theorem unsteadyBack_eq {as : List Airplane} (hm : ∀ a ∈ as, a.Made) {r : PanelRef} {p : Panel}
    (hp : panelAt as r = some p) (v : V3) (dt : ℝ) :
    UnsteadySolver.backRightVertex as v dt r = ringBackRight as ((dt / 4) • v) r p ∧
    UnsteadySolver.backLeftVertex as v dt r = ringBackLeft as ((dt / 4) • v) r p := by
  have hf := made_flags hm hp
  unfold UnsteadySolver.backRightVertex UnsteadySolver.backLeftVertex ringBackRight ringBackLeft
  simp only [geometryOf_eq hp]
  have e : (0.25 : ℝ) • (dt • v) = (dt / 4) • v := by rw [smul_smul]; congr 1; norm_num; ring
  cases hq : panelAt as { r with row := r.row + 1 } with
  | none =>
    have hte : p.isTrailingEdge = true := hf.trailing.mpr hq
    simp [hte, Panel.vertexRight, Panel.vertexLeft, e]
  | some q =>
    have hte : p.isTrailingEdge = false := by
      by_contra h
      rw [hf.trailing.mp (by simpa using h)] at hq
      simp at hq
    simp [hte, Panel.vertexRight, Panel.vertexLeft, geometryOf_eq hq]

namespace UnsteadySolver

variable {p : UnsteadyProblem}

theorem flow_with (hm : ∀ k, ∀ a ∈ p.airplanesAt k, a.Made) (k : ℕ) (Γ : PanelRef → ℝ) (q : V3) :
    filamentFlow 0 (ringsWith (p.airplanesAt k) ((p.deltaTime / 4) • (p.operatingPointAt k).freestreamVelocity) Γ) q
      = ((panelRefs (p.airplanesAt k)).map fun r => Γ r • unitRing p k r q).sum := by
  unfold ringsWith
  rw [filamentFlow_flatMap]
  congr 1
  apply List.map_congr_left
  intro r hr
  obtain ⟨c, hc⟩ := (mem_panelRefs _ _).mp hr
  obtain ⟨b1, b2⟩ := unsteadyBack_eq (hm k) hc (p.operatingPointAt k).freestreamVelocity p.deltaTime
  unfold unitRing
  rw [unitVelocity_smul]
  simp only [hc]
  have hv : boundRing p k r = RingVortex.mk' c.quarterLeft c.quarterRight
      (ringBackLeft (p.airplanesAt k) ((p.deltaTime / 4) • (p.operatingPointAt k).freestreamVelocity) r c)
      (ringBackRight (p.airplanesAt k) ((p.deltaTime / 4) • (p.operatingPointAt k).freestreamVelocity) r c) 0 := by
    unfold boundRing panelRing
    simp only [geometryOf_eq hc, b1, b2, Panel.vertexRight, Panel.vertexLeft]
  rw [hv]
  rfl

end UnsteadySolver

end Ptera
