import Verif.Model.Solver
import Verif.Lemmas.Aero
import Verif.Lemmas.MapM
import Mathlib.Data.List.FinRange

/-! Helper lemmas about panel references, the panel heap, the flattened arrays and the linear solve. -/

namespace Ptera

/-! ## References -/

theorem mem_airplaneRefs (a : Airplane) (k : ℕ) (r : PanelRef) :
    r ∈ airplaneRefs a k ↔ r.airplane = k ∧ ∃ w row p, a.wings[r.wing]? = some w ∧ w.panels[r.row]? = some row ∧
      row[r.col]? = some p := by
  unfold airplaneRefs
  simp only [List.mem_flatMap, List.mem_map, List.mem_range, Prod.exists, List.mk_mem_zipIdx_iff_getElem?]
  constructor
  · rintro ⟨w, iw, hw, row, i, hrow, j, hj, rfl⟩
    exact ⟨rfl, w, row, row[j], hw, hrow, List.getElem?_eq_getElem hj⟩
  · rintro ⟨rfl, w, row, p, hw, hrow, hp⟩
    exact ⟨w, r.wing, hw, row, r.row, hrow, r.col, (List.getElem?_eq_some_iff.mp hp).1, rfl⟩

theorem mem_panelRefs (as : List Airplane) (r : PanelRef) :
    r ∈ panelRefs as ↔ ∃ p, panelAt as r = some p := by
  unfold panelRefs
  simp only [List.mem_flatMap, Prod.exists, List.mk_mem_zipIdx_iff_getElem?, mem_airplaneRefs]
  unfold panelAt wingAt
  constructor
  · rintro ⟨a, k, ha, rfl, w, row, p, hw, hrow, hp⟩
    exact ⟨p, by simp [ha, hw, hrow, hp]⟩
  · rintro ⟨p, hp⟩
    obtain ⟨w, hw, hp⟩ := Option.bind_eq_some_iff.mp hp
    obtain ⟨a, ha, hw⟩ := Option.bind_eq_some_iff.mp hw
    obtain ⟨row, hrow, hp⟩ := Option.bind_eq_some_iff.mp hp
    exact ⟨a, _, ha, rfl, w, row, p, hw, hrow, hp⟩

theorem nodup_zipIdx_flatMap {α β : Type*} (l : List α) (f : α × ℕ → List β) (k : ℕ)
    (key : β → ℕ) (hkey : ∀ x ∈ l.zipIdx k, ∀ b ∈ f x, key b = x.2) (hf : ∀ x ∈ l.zipIdx k, (f x).Nodup) :
    ((l.zipIdx k).flatMap f).Nodup := by
  induction l generalizing k with
  | nil => simp
  | cons a l ih =>
    rw [List.zipIdx_cons] at hkey hf ⊢
    rw [List.flatMap_cons, List.nodup_append]
    refine ⟨hf _ (by simp), ih (k + 1) (fun x hx => hkey x (List.mem_cons_of_mem _ hx))
      (fun x hx => hf x (List.mem_cons_of_mem _ hx)), ?_⟩
    intro b hb b' hb' e
    subst e
    obtain ⟨x, hx, hbx⟩ := List.mem_flatMap.mp hb'
    have h1 := hkey _ (by simp) b hb
    have h2 := hkey x (List.mem_cons_of_mem _ hx) b hbx
    have h3 := List.mem_zipIdx hx
    simp only at h1
    omega

theorem airplaneRefs_nodup (a : Airplane) (k : ℕ) : (airplaneRefs a k).Nodup := by
  unfold airplaneRefs
  apply nodup_zipIdx_flatMap _ _ _ (·.wing)
  · intro x _ b hb
    simp only [List.mem_flatMap, List.mem_map] at hb
    obtain ⟨_, _, _, _, rfl⟩ := hb; rfl
  · intro x _
    apply nodup_zipIdx_flatMap _ _ _ (·.row)
    · intro y _ b hb
      simp only [List.mem_map] at hb
      obtain ⟨_, _, rfl⟩ := hb; rfl
    · intro y _
      apply List.Nodup.map _ List.nodup_range
      intro i j h
      simpa using h

theorem panelRefs_nodup (as : List Airplane) : (panelRefs as).Nodup := by
  unfold panelRefs
  apply nodup_zipIdx_flatMap _ _ _ (·.airplane)
  · intro x _ b hb
    exact ((mem_airplaneRefs _ _ _).mp hb).1
  · intro x _; exact airplaneRefs_nodup _ _

theorem sum_map_zipIdx {α : Type*} (l : List α) (k : ℕ) (f : α → ℕ) :
    ((l.zipIdx k).map fun x => f x.1).sum = (l.map f).sum := by
  have : (l.zipIdx k).map (fun x => f x.1) = l.map f := by
    rw [← List.zipIdx_map_fst k l, List.map_map, List.zipIdx_map_fst]; rfl
  rw [this]

theorem airplaneRefs_length (a : Airplane) (k : ℕ) :
    (airplaneRefs a k).length = (a.wings.flatMap fun w => w.panels.flatten).length := by
  unfold airplaneRefs
  simp only [List.length_flatMap, List.length_map, List.length_range, List.length_flatten]
  rw [sum_map_zipIdx a.wings 0 (fun w => (w.panels.zipIdx.map fun row => row.1.length).sum)]
  congr 1
  apply List.map_congr_left
  intro w _
  exact sum_map_zipIdx w.panels 0 List.length

/-- The stored panel counts are the numbers of panels. -/
def Counted (as : List Airplane) : Prop :=
  ∀ a ∈ as, a.numPanels = (a.wings.flatMap fun w => w.panels.flatten).length

theorem panelRefs_length (as : List Airplane) (h : Counted as) : (panelRefs as).length = totalPanels as := by
  unfold panelRefs totalPanels
  rw [List.length_flatMap]
  simp only [airplaneRefs_length]
  rw [sum_map_zipIdx as 0 (fun a => (a.wings.flatMap fun w => w.panels.flatten).length)]
  congr 1
  exact List.map_congr_left fun a ha => (h a ha).symm

theorem geometryOf_eq {as : List Airplane} {r : PanelRef} {p : Panel} (h : panelAt as r = some p) :
    geometryOf as r = p := by simp [geometryOf, h]

/-! ## The heap -/

/-- Updating the objects at distinct keys one after the other. -/
theorem foldl_update {κ σ τ : Type} [DecidableEq κ] (l : List τ) (key : τ → κ) (F : τ → σ → σ) (h : κ → σ)
    (hn : (l.map key).Nodup) :
    (∀ x ∈ l, (l.foldl (fun h x => Function.update h (key x) (F x (h (key x)))) h) (key x) = F x (h (key x))) ∧
    (∀ k, k ∉ l.map key → (l.foldl (fun h x => Function.update h (key x) (F x (h (key x)))) h) k = h k) := by
  induction l generalizing h with
  | nil => simp
  | cons a l ih =>
    rw [List.map_cons, List.nodup_cons] at hn
    obtain ⟨ih1, ih2⟩ := ih (Function.update h (key a) (F a (h (key a)))) hn.2
    constructor
    · intro x hx
      rw [List.foldl_cons]
      rcases List.mem_cons.mp hx with rfl | hx
      · rw [ih2 _ hn.1, Function.update_self]
      · have hne : key x ≠ key a := fun e => hn.1 (e ▸ List.mem_map_of_mem hx)
        rw [ih1 x hx, Function.update_of_ne hne]
    · intro k hk
      rw [List.map_cons, List.mem_cons, not_or] at hk
      rw [List.foldl_cons, ih2 k hk.2, Function.update_of_ne hk.1]

theorem writeAt_append {α : Type} (pre rest : List α) (b a : α) :
    writeAt (pre ++ b :: rest) pre.length a = .ok (pre ++ a :: rest) := by
  unfold writeAt
  rw [if_pos (by simp)]
  simp

/-! ## Linear algebra -/

theorem linalgSolve_ok {A : List (List ℝ)} {b x : List ℝ} (h : linalgSolve A b = .ok x) :
    x.length = A.length ∧ matVec A x = b := by
  unfold linalgSolve at h
  split at h
  · rename_i hex
    simp only [Except.ok.injEq] at h
    subst h
    exact hex.choose_spec.1
  · simp at h

theorem linalgSolve_unique {A : List (List ℝ)} {b x y : List ℝ} (h : linalgSolve A b = .ok x)
    (hy : y.length = A.length ∧ matVec A y = b) : y = x := by
  unfold linalgSolve at h
  split at h
  · rename_i hex
    simp only [Except.ok.injEq] at h
    subst h
    exact hex.choose_spec.2 y hy
  · simp at h

theorem linalgSolve_of_unique {A : List (List ℝ)} {b x : List ℝ} (hx : x.length = A.length ∧ matVec A x = b)
    (hu : ∀ y : List ℝ, y.length = A.length → matVec A y = b → y = x) : linalgSolve A b = .ok x := by
  have hex : ∃! x : List ℝ, x.length = A.length ∧ matVec A x = b := ⟨x, hx, fun y hy => hu y hy.1 hy.2⟩
  unfold linalgSolve
  rw [dif_pos hex]
  rw [hu _ hex.choose_spec.1.1 hex.choose_spec.1.2]

theorem linalgSolve_error {A : List (List ℝ)} {b : List ℝ} {e : Err} (h : linalgSolve A b = .error e) :
    e = .linAlgError := by
  unfold linalgSolve at h
  split at h <;> simp_all

/-! ## Influences are linear in the strengths -/

/-- Velocity at `p` induced by a vortex made of the given legs with unit strength and age zero. -/
noncomputable def unitVelocity (legs : List (V3 × V3)) (p : V3) : V3 :=
  (legs.map fun l => expandedEntry 0 ⟨l.1, l.2, 1, 0⟩ p).sum

theorem expandedEntry_scale (nu o : ℝ) (A B p : V3) :
    expandedEntry nu ⟨A, B, o, 0⟩ p = o • expandedEntry 0 ⟨A, B, 1, 0⟩ p := by
  rw [expandedEntry_eq, expandedEntry_eq]
  have hc : Cutoff ⟨A, B, o, 0⟩ p ↔ Cutoff ⟨A, B, 1, 0⟩ p := Iff.rfl
  by_cases h : Cutoff ⟨A, B, 1, 0⟩ p
  · rw [if_pos (hc.mpr h), if_pos h, smul_zero]
  · rw [if_neg (fun h' => h (hc.mp h')), if_neg h, ← mul_smul]
    congr 1
    simp only [kernelCoeff, coreRadius]
    simp
    ring

theorem segs_map {α : Type*} (l : List α) (fo ft : α → V3) (ss : List ℝ) (hs : ss.length = l.length) :
    segs (l.map fo) (l.map ft) ss none = List.zipWith (fun a s => (⟨fo a, ft a, s, 0⟩ : Seg)) l ss := by
  unfold segs
  apply List.ext_getElem
  · simp [hs]
  · intro i h1 h2; simp

theorem expandedLegs_slots {α : Type*} (points : List V3) (l : List α) (fs : List ((α → V3) × (α → V3)))
    (ss : List ℝ) (nu : ℝ) (hs : ss.length = l.length) :
    expandedLegs points (fs.map fun f => (l.map f.1, l.map f.2)) ss none nu
      = points.map fun p => List.zipWith
          (fun a s => s • unitVelocity (fs.map fun f => (f.1 a, f.2 a)) p) l ss := by
  rw [expandedLegs_eq]
  apply List.map_congr_left
  intro p _
  have key : ∀ (fs : List ((α → V3) × (α → V3))) (g : α → ℝ → V3),
      (fs.map fun f => (l.map f.1, l.map f.2)).foldl
        (fun acc l => addRow acc ((segs l.1 l.2 ss none).map fun s => expandedEntry nu s p))
        (List.zipWith g l ss)
      = List.zipWith (fun a s => g a s + s • unitVelocity (fs.map fun f => (f.1 a, f.2 a)) p) l ss := by
    intro fs
    induction fs with
    | nil => intro g; simp [unitVelocity]
    | cons f fs ih =>
      intro g
      rw [List.map_cons, List.foldl_cons]
      have : addRow (List.zipWith g l ss)
            ((segs (l.map f.1) (l.map f.2) ss none).map fun s => expandedEntry nu s p)
          = List.zipWith (fun a s => g a s + s • expandedEntry 0 ⟨f.1 a, f.2 a, 1, 0⟩ p) l ss := by
        rw [segs_map _ _ _ _ hs]
        unfold addRow
        apply List.ext_getElem
        · simp
        · intro i h1 h2
          simp only [List.getElem_zipWith, List.getElem_map]
          rw [expandedEntry_scale]
      rw [this, ih]
      simp [unitVelocity, smul_add, add_assoc]
  have h0 : List.replicate ss.length (0 : V3) = List.zipWith (fun _ _ => 0) l ss := by
    apply List.ext_getElem
    · simp [hs]
    · intro i h1 h2; simp
  rw [h0, key]
  simp

theorem collapsedLegs_slots {α : Type*} (points : List V3) (l : List α) (fs : List ((α → V3) × (α → V3)))
    (ss : List ℝ) (nu : ℝ) (hs : ss.length = l.length) :
    collapsedLegs points (fs.map fun f => (l.map f.1, l.map f.2)) ss none nu
      = points.map fun p => (List.zipWith
          (fun a s => s • unitVelocity (fs.map fun f => (f.1 a, f.2 a)) p) l ss).sum := by
  rw [← expandedLegs_sum, expandedLegs_slots _ _ _ _ _ hs, List.map_map]
  · rfl
  · intro x hx
    obtain ⟨f, _, rfl⟩ := List.mem_map.mp hx
    simp only
    rw [segs_map _ _ _ _ hs]
    simp [hs]

theorem sum_dot (l : List V3) (n : V3) : l.sum.dot n = (l.map fun v => v.dot n).sum := by
  induction l with
  | nil => simp
  | cons a l ih => simp [V3.add_dot, ih]

end Ptera
