import Verif.Model.Aerodynamics

/-! Helper lemmas about the Biot–Savart kernel and the loops over vortices. -/

namespace Ptera

/-- The accumulating kernel adds the value stored by the expanded kernel. -/
theorem collapsedStep_eq (nu : ℝ) (s : Seg) (p acc : V3) :
    collapsedStep nu s p acc = acc + expandedEntry nu s p := by
  simp only [collapsedStep, expandedEntry]
  split <;> simp

theorem collapsedLine_eq (points o t : List V3) (ss : List ℝ) (ages : Option (List ℝ)) (nu : ℝ) :
    collapsedLine points o t ss ages nu
      = points.map fun p => ((segs o t ss ages).map fun s => expandedEntry nu s p).sum := by
  unfold collapsedLine
  have key : ∀ (l : List Seg) (acc : List V3), acc.length = points.length →
      l.foldl (fun v s => List.zipWith (collapsedStep nu s) points v) acc
        = List.zipWith (fun p a => a + (l.map fun s => expandedEntry nu s p).sum) points acc := by
    intro l
    induction l with
    | nil =>
      intro acc h
      simp only [List.foldl_nil, List.map_nil, List.sum_nil, add_zero]
      apply List.ext_getElem
      · simp [h]
      · intro i h1 h2; simp
    | cons s l ih =>
      intro acc h
      rw [List.foldl_cons, ih _ (by simp [h])]
      apply List.ext_getElem
      · simp [h]
      · intro i h1 h2
        simp [collapsedStep_eq, add_assoc]
  rw [key _ _ (by simp)]
  apply List.ext_getElem
  · simp
  · intro i h1 h2; simp

theorem collapsedLine_length (points o t : List V3) (ss : List ℝ) (ages : Option (List ℝ)) (nu : ℝ) :
    (collapsedLine points o t ss ages nu).length = points.length := by
  rw [collapsedLine_eq]; simp

theorem addRow_map (points : List V3) (f g : V3 → V3) :
    addRow (points.map f) (points.map g) = points.map fun p => f p + g p := by
  unfold addRow
  apply List.ext_getElem
  · simp
  · intro i h1 h2; simp

theorem collapsedLegs_eq (points : List V3) (legs : List (List V3 × List V3)) (ss : List ℝ)
    (ages : Option (List ℝ)) (nu : ℝ) :
    collapsedLegs points legs ss ages nu = points.map fun p =>
      (legs.map fun l => ((segs l.1 l.2 ss ages).map fun s => expandedEntry nu s p).sum).sum := by
  unfold collapsedLegs
  have key : ∀ (legs : List (List V3 × List V3)) (f : V3 → V3),
      legs.foldl (fun acc l => addRow acc (collapsedLine points l.1 l.2 ss ages nu)) (points.map f)
        = points.map fun p => f p +
          (legs.map fun l => ((segs l.1 l.2 ss ages).map fun s => expandedEntry nu s p).sum).sum := by
    intro legs
    induction legs with
    | nil => intro f; simp
    | cons l legs ih =>
      intro f
      rw [List.foldl_cons, collapsedLine_eq, addRow_map, ih]
      simp [add_assoc]
  have := key legs (fun _ => 0)
  simp only [List.map_const', zero_add] at this
  exact this

theorem sum_zipWith_add (a b : List V3) (h : a.length = b.length) :
    (List.zipWith (· + ·) a b).sum = a.sum + b.sum := by
  induction a generalizing b with
  | nil => cases b <;> simp_all
  | cons x a ih =>
    cases b with
    | nil => simp at h
    | cons y b => simp at h; simp [ih b h]; abel

theorem segs_length (o t : List V3) (ss : List ℝ) (ages : Option (List ℝ)) (n : ℕ)
    (ho : o.length = n) (ht : t.length = n) (hs : ss.length = n)
    (ha : ∀ l, ages = some l → l.length = n) : (segs o t ss ages).length = n := by
  unfold segs
  cases ages with
  | none => simp [ho, ht, hs]
  | some l => simp [ho, ht, hs, ha l rfl]

theorem segs_getElem? (o t : List V3) (ss : List ℝ) (ages : Option (List ℝ)) (i : ℕ) (a b : V3)
    (g age : ℝ) (ho : o[i]? = some a) (ht : t[i]? = some b) (hs : ss[i]? = some g)
    (ha : (ages.getD (List.replicate o.length 0))[i]? = some age) :
    (segs o t ss ages)[i]? = some ⟨a, b, g, age⟩ := by
  unfold segs
  simp [List.getElem?_zipWith, List.zip, ho, ht, hs, ha]

theorem expandedLegs_length (points : List V3) (legs : List (List V3 × List V3)) (ss : List ℝ)
    (ages : Option (List ℝ)) (nu : ℝ) : (expandedLegs points legs ss ages nu).length = points.length := by
  unfold expandedLegs
  have key : ∀ (legs : List (List V3 × List V3)) (acc : List (List V3)), acc.length = points.length →
      (legs.foldl (fun acc l => addGrid acc (expandedLine points l.1 l.2 ss ages nu)) acc).length
        = points.length := by
    intro legs
    induction legs with
    | nil => intro acc h; simpa
    | cons l legs ih =>
      intro acc h
      rw [List.foldl_cons]
      exact ih _ (by simp [addGrid, expandedLine, h])
  exact key _ _ (by simp)

/-- Entry of the expanded array: the sum over the legs of the kernel values of vortex `j`. -/
theorem expandedLegs_eq (points : List V3) (legs : List (List V3 × List V3)) (ss : List ℝ)
    (ages : Option (List ℝ)) (nu : ℝ) :
    expandedLegs points legs ss ages nu = points.map fun p =>
      legs.foldl (fun acc l => addRow acc ((segs l.1 l.2 ss ages).map fun s => expandedEntry nu s p))
        (List.replicate ss.length 0) := by
  unfold expandedLegs
  have key : ∀ (legs : List (List V3 × List V3)) (f : V3 → List V3),
      legs.foldl (fun acc l => addGrid acc (expandedLine points l.1 l.2 ss ages nu)) (points.map f)
        = points.map fun p => legs.foldl
          (fun acc l => addRow acc ((segs l.1 l.2 ss ages).map fun s => expandedEntry nu s p)) (f p) := by
    intro legs
    induction legs with
    | nil => intro f; simp
    | cons l legs ih =>
      intro f
      rw [List.foldl_cons]
      have : addGrid (points.map f) (expandedLine points l.1 l.2 ss ages nu)
          = points.map fun p => addRow (f p) ((segs l.1 l.2 ss ages).map fun s => expandedEntry nu s p) := by
        unfold addGrid expandedLine
        apply List.ext_getElem
        · simp
        · intro i h1 h2; simp
      rw [this, ih]
      simp
  have := key legs (fun _ => List.replicate ss.length 0)
  simp only [List.map_const'] at this
  exact this

theorem foldl_addRow_sum {α : Type*} (legs : List α) (f : α → List V3) (n : ℕ)
    (hf : ∀ l ∈ legs, (f l).length = n) (acc : List V3) (ha : acc.length = n) :
    (legs.foldl (fun acc l => addRow acc (f l)) acc).sum = acc.sum + (legs.map fun l => (f l).sum).sum := by
  induction legs generalizing acc with
  | nil => simp
  | cons l legs ih =>
    rw [List.foldl_cons, ih (fun l' h' => hf l' (List.mem_cons_of_mem _ h'))]
    · have h1 := hf l (by simp)
      rw [addRow, sum_zipWith_add _ _ (by rw [ha, h1])]
      simp [add_assoc]
    · have h1 := hf l (by simp)
      simp [addRow, ha, h1]

/-- Summing the rows of the expanded array gives the collapsed array. -/
theorem expandedLegs_sum (points : List V3) (legs : List (List V3 × List V3)) (ss : List ℝ)
    (ages : Option (List ℝ)) (nu : ℝ)
    (hl : ∀ l ∈ legs, (segs l.1 l.2 ss ages).length = ss.length) :
    (expandedLegs points legs ss ages nu).map List.sum = collapsedLegs points legs ss ages nu := by
  rw [expandedLegs_eq, collapsedLegs_eq, List.map_map]
  apply List.map_congr_left
  intro p _
  simp only [Function.comp]
  rw [foldl_addRow_sum legs _ ss.length (fun l hl' => by simp [hl l hl']) _ (by simp)]
  simp

/-! ## Algebra of the kernel -/

/-- The scalar factor of the kernel's main branch. -/
noncomputable def kernelCoeff (nu : ℝ) (s : Seg) (p : V3) : ℝ :=
  s.strength / (4 * Real.pi) * ((s.origin - p).norm + (s.termination - p).norm)
    * ((s.origin - p).norm * (s.termination - p).norm - (s.origin - p).dot (s.termination - p))
    / ((s.origin - p).norm * (s.termination - p).norm
      * (((s.origin - p).cross (s.termination - p)).norm ^ 2
        + (s.termination - s.origin).norm ^ 2 * coreRadius nu s ^ 2))

/-- The cut-off test of the kernel. -/
def Cutoff (s : Seg) (p : V3) : Prop :=
  (s.origin - p).norm < eps ∨ (s.termination - p).norm < eps ∨
    ((s.origin - p).cross (s.termination - p)).norm ^ 2 < eps

open Classical in
theorem expandedEntry_eq (nu : ℝ) (s : Seg) (p : V3) :
    expandedEntry nu s p
      = if Cutoff s p then 0 else kernelCoeff nu s p • (s.origin - p).cross (s.termination - p) := by
  by_cases h : Cutoff s p
  · rw [if_pos h]
    unfold Cutoff at h
    simp only [expandedEntry]
    rw [if_pos h]
  · rw [if_neg h]
    unfold Cutoff at h
    simp only [expandedEntry, kernelCoeff]
    rw [if_neg h]

theorem coreRadius_age_zero (nu : ℝ) (s : Seg) (h : s.age = 0) : coreRadius nu s = 0 := by
  simp [coreRadius, h]

theorem expandedEntry_neg_strength (nu : ℝ) (s : Seg) (p : V3) :
    expandedEntry nu { s with strength := -s.strength } p = -expandedEntry nu s p := by
  rw [expandedEntry_eq, expandedEntry_eq]
  have hc : Cutoff { s with strength := -s.strength } p ↔ Cutoff s p := Iff.rfl
  by_cases h : Cutoff s p
  · rw [if_pos (hc.mpr h), if_pos h, neg_zero]
  · rw [if_neg (fun h' => h (hc.mp h')), if_neg h, ← neg_smul]
    congr 1
    simp only [kernelCoeff, coreRadius, abs_neg]
    ring

theorem cutoff_swap (s : Seg) (p : V3) :
    Cutoff { s with origin := s.termination, termination := s.origin } p ↔ Cutoff s p := by
  unfold Cutoff
  simp only
  rw [V3.cross_anticomm (s.termination - p), V3.norm_neg]
  tauto

theorem expandedEntry_swap (nu : ℝ) (s : Seg) (p : V3) :
    expandedEntry nu { s with origin := s.termination, termination := s.origin } p
      = -expandedEntry nu s p := by
  rw [expandedEntry_eq, expandedEntry_eq]
  by_cases h : Cutoff s p
  · rw [if_pos ((cutoff_swap s p).mpr h), if_pos h, neg_zero]
  · rw [if_neg (fun h' => h ((cutoff_swap s p).mp h')), if_neg h]
    have hk : kernelCoeff nu { s with origin := s.termination, termination := s.origin } p
        = kernelCoeff nu s p := by
      simp only [kernelCoeff]
      rw [V3.cross_anticomm (s.termination - p), V3.norm_neg, V3.dot_comm (s.termination - p),
        V3.norm_sub_comm s.origin s.termination]
      have : coreRadius nu { s with origin := s.termination, termination := s.origin } = coreRadius nu s := rfl
      rw [this]
      ring
    rw [hk]
    simp only
    rw [V3.cross_anticomm (s.termination - p), smul_neg]

end Ptera
