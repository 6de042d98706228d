import Verif.Lemmas.RingRun
import Verif.Lemmas.Loads

/-! The velocities and influence matrices of the steady solvers in terms of unit vortices. -/

namespace Ptera

/-- The three legs of a horseshoe given by its four vertices. -/
def horseshoeLegs (br fr fl bl : V3) : List (V3 × V3) := [(br, fr), (fr, fl), (fl, bl)]
/-- The four legs of a ring given by its four vertices. -/
def ringLegs (br fr fl bl : V3) : List (V3 × V3) := [(br, fr), (fr, fl), (fl, bl), (bl, br)]

theorem collapsedHorseshoe_slots {α : Type*} (points : List V3) (l : List α) (br fr fl bl : α → V3)
    (ss : List ℝ) (nu : ℝ) (hs : ss.length = l.length) :
    collapsedHorseshoe points (l.map br) (l.map fr) (l.map fl) (l.map bl) ss none nu
      = points.map fun p => (List.zipWith
          (fun a s => s • unitVelocity (horseshoeLegs (br a) (fr a) (fl a) (bl a)) p) l ss).sum :=
  collapsedLegs_slots points l [(br, fr), (fr, fl), (fl, bl)] ss nu hs

theorem expandedHorseshoe_slots {α : Type*} (points : List V3) (l : List α) (br fr fl bl : α → V3)
    (ss : List ℝ) (nu : ℝ) (hs : ss.length = l.length) :
    expandedHorseshoe points (l.map br) (l.map fr) (l.map fl) (l.map bl) ss none nu
      = points.map fun p => List.zipWith
          (fun a s => s • unitVelocity (horseshoeLegs (br a) (fr a) (fl a) (bl a)) p) l ss :=
  expandedLegs_slots points l [(br, fr), (fr, fl), (fl, bl)] ss nu hs

theorem collapsedRing_slots {α : Type*} (points : List V3) (l : List α) (br fr fl bl : α → V3)
    (ss : List ℝ) (nu : ℝ) (hs : ss.length = l.length) :
    collapsedRing points (l.map br) (l.map fr) (l.map fl) (l.map bl) ss none nu
      = points.map fun p => (List.zipWith
          (fun a s => s • unitVelocity (ringLegs (br a) (fr a) (fl a) (bl a)) p) l ss).sum :=
  collapsedLegs_slots points l [(br, fr), (fr, fl), (fl, bl), (bl, br)] ss nu hs

theorem expandedRing_slots {α : Type*} (points : List V3) (l : List α) (br fr fl bl : α → V3)
    (ss : List ℝ) (nu : ℝ) (hs : ss.length = l.length) :
    expandedRing points (l.map br) (l.map fr) (l.map fl) (l.map bl) ss none nu
      = points.map fun p => List.zipWith
          (fun a s => s • unitVelocity (ringLegs (br a) (fr a) (fl a) (bl a)) p) l ss :=
  expandedLegs_slots points l [(br, fr), (fr, fl), (fl, bl), (bl, br)] ss nu hs

/-- The core of no-penetration: if `x` solves `A x = -b` with `A i j = U j (c i) · n i`, `b i = V · n i`, the
velocity `Σ x j • U j (c i) + V` has no normal component. -/
theorem no_penetration {α : Type*} (slots : List α) (U : α → V3 → V3) (c n : α → V3) (V : V3) (x : List ℝ)
    (hx : matVec (slots.map fun i => slots.map fun j => (U j (c i)).dot (n i)) x
      = (slots.map fun i => V.dot (n i)).map fun b => -b) (a : α) (ha : a ∈ slots) :
    ((List.zipWith (fun j s => s • U j (c a)) slots x).sum + V).dot (n a) = 0 := by
  obtain ⟨i, hi, rfl⟩ := List.getElem_of_mem ha
  have h := congrArg (fun l : List ℝ => l[i]?) hx
  unfold matVec at h
  simp only [List.map_map, List.getElem?_map, List.getElem?_eq_getElem hi, Option.map_some, Function.comp,
    Option.some.injEq] at h
  rw [V3.add_dot, sum_dot]
  have e : (List.zipWith (fun j s => s • U j (c slots[i])) slots x).map (fun v => v.dot (n slots[i]))
      = List.zipWith (· * ·) (slots.map fun j => (U j (c slots[i])).dot (n slots[i])) x := by
    apply List.ext_getElem
    · simp
    · intro k h1 h2
      simp only [List.getElem_map, List.getElem_zipWith]
      rw [V3.smul_dot]
      exact mul_comm _ _
  rw [e, h]
  ring

theorem zipWith_replicate_map {α β γ : Type*} (l : List α) (n : ℕ) (b : β) (f : α → β → γ) (h : n = l.length) :
    List.zipWith f l (List.replicate n b) = l.map fun a => f a b := by
  apply List.ext_getElem
  · simp [h]
  · intro i h1 h2; simp

theorem zipWith_map_self {α β γ δ : Type*} (l : List α) (f : α → β) (g : α → γ) (h : β → γ → δ) :
    List.zipWith h (l.map f) (l.map g) = l.map fun a => h (f a) (g a) := by
  apply List.ext_getElem
  · simp
  · intro i h1 h2; simp

namespace HorseshoeSolver

/-- Unit velocity of a slot. -/
noncomputable def unit (a : HorseshoeSlot) (p : V3) : V3 :=
  unitVelocity (horseshoeLegs a.backRight a.frontRight a.frontLeft a.backLeft) p

theorem velocity_eq (s : HorseshoeSolver) (points : List V3) (h : s.strengths.length = s.slots.length) :
    s.solutionVelocity points = points.map fun p =>
      (List.zipWith (fun a x => x • unit a p) s.slots s.strengths).sum + s.freestreamVelocity := by
  unfold solutionVelocity
  rw [collapsedHorseshoe_slots _ _ _ _ _ _ _ _ h, List.map_map]
  rfl

theorem finalSlots_length (s : HorseshoeSolver) : s.finalSlots.length = (panelRefs s.airplanes).length := by
  simp [finalSlots]

theorem finalInfluences_eq (s : HorseshoeSolver) (hc : Counted s.airplanes) :
    s.finalInfluences = s.finalSlots.map fun i => s.finalSlots.map fun j => (unit j i.collocation).dot i.normal := by
  unfold finalInfluences
  have hl : (List.replicate (totalPanels s.airplanes) (1 : ℝ)).length = s.finalSlots.length := by
    rw [finalSlots_length, panelRefs_length _ hc]; simp
  rw [expandedHorseshoe_slots _ _ _ _ _ _ _ _ hl]
  unfold normalComponents
  rw [List.map_map, zipWith_map_self]
  apply List.map_congr_left
  intro i _
  simp only [Function.comp]
  rw [zipWith_replicate_map _ _ _ _ (by rw [finalSlots_length, panelRefs_length _ hc])]
  rw [List.map_map]
  apply List.map_congr_left
  intro j _
  simp [unit]

/-- The result of a run: everything a second look at the solver can see. -/
theorem run_result {s s' : HorseshoeSolver} (hc : Counted s.airplanes)
    (hl : s.slots.length = totalPanels s.airplanes) (h : s.run = .ok s') :
    ∃ x, linalgSolve s.finalInfluences (s.finalFreestream.map fun x => -x) = .ok x ∧
      x.length = s.finalSlots.length ∧ s' = (s.solved x).calculateForces.calculateStreamlines := by
  rw [run_eq s hc hl] at h
  cases hx : linalgSolve s.finalInfluences (s.finalFreestream.map fun x => -x) with
  | error e => rw [hx] at h; simp [Except.map] at h
  | ok x =>
    rw [hx] at h
    simp only [Except.map, Except.ok.injEq] at h
    refine ⟨x, rfl, ?_, h.symm⟩
    rw [(linalgSolve_ok hx).1, finalInfluences_eq s hc]
    simp

end HorseshoeSolver

namespace RingSolver

/-- Unit velocity of a bound ring. -/
noncomputable def unit (a : RingSlot) (p : V3) : V3 :=
  unitVelocity (ringLegs a.backRight a.frontRight a.frontLeft a.backLeft) p
/-- Unit velocity of a trailing horseshoe. -/
noncomputable def unitT (a : TrailingSlot) (p : V3) : V3 :=
  unitVelocity (horseshoeLegs a.backRight a.frontRight a.frontLeft a.backLeft) p

theorem velocity_eq (s : RingSolver) (points : List V3) (h : s.strengths.length = s.slots.length) :
    s.solutionVelocity points = points.map fun p =>
      (List.zipWith (fun a x => x • unit a p) s.slots s.strengths).sum
        + (s.trailing.map fun t => t.strength • unitT t p).sum + s.freestreamVelocity := by
  unfold solutionVelocity
  simp only
  rw [collapsedRing_slots _ _ _ _ _ _ _ _ h, collapsedHorseshoe_slots _ _ _ _ _ _ _ _ (by simp),
    addRow_map, List.map_map]
  apply List.map_congr_left
  intro p _
  simp only [Function.comp]
  congr 3
  conv_lhs => rw [← List.map_id s.trailing, List.map_map]
  rw [zipWith_map_self]
  rfl

theorem finalSlots_length (s : RingSolver) : s.finalSlots.length = (panelRefs s.airplanes).length := by
  simp [finalSlots]

theorem unitTrailing_length (s : RingSolver) (hc : Counted s.airplanes)
    (hlt : s.trailing.length = totalPanels s.airplanes) :
    s.unitTrailing.length = (panelRefs s.airplanes).length := by
  simp [unitTrailing, trailingOf, hlt, panelRefs_length _ hc]

theorem finalInfluences_eq (s : RingSolver) (hs : s.strengths.length = s.finalSlots.length) :
    s.finalInfluences = s.finalSlots.map fun i => List.zipWith (fun r t => (r + t).dot i.normal)
      (List.zipWith (fun a x => x • unit a i.collocation) s.finalSlots s.strengths)
      (s.unitTrailing.map fun t => t.strength • unitT t i.collocation) := by
  unfold finalInfluences
  rw [expandedRing_slots _ _ _ _ _ _ _ _ hs, expandedHorseshoe_slots _ _ _ _ _ _ _ _ (by simp)]
  unfold normalComponents addGrid
  rw [zipWith_map_self, List.map_map, zipWith_map_self]
  apply List.map_congr_left
  intro i _
  simp only [Function.comp, addRow]
  rw [List.map_zipWith]
  congr 1
  conv_lhs => rw [← List.map_id s.unitTrailing, List.map_map]
  rw [zipWith_map_self]
  rfl

theorem run_result {s s' : RingSolver} (hc : Counted s.airplanes)
    (hl : s.slots.length = totalPanels s.airplanes) (hlt : s.trailing.length = totalPanels s.airplanes)
    (hs : s.strengths.length = totalPanels s.airplanes) (h : s.run = .ok s') :
    ∃ x, linalgSolve s.finalInfluences (s.finalFreestream.map fun x => -x) = .ok x ∧
      x.length = s.finalSlots.length ∧ s' = (s.solved x).calculateForces.calculateStreamlines := by
  rw [run_eq s hc hl hlt] at h
  cases hx : linalgSolve s.finalInfluences (s.finalFreestream.map fun x => -x) with
  | error e => rw [hx] at h; simp [Except.map] at h
  | ok x =>
    rw [hx] at h
    simp only [Except.map, Except.ok.injEq] at h
    refine ⟨x, rfl, ?_, h.symm⟩
    rw [(linalgSolve_ok hx).1, finalInfluences_eq s (by rw [hs, finalSlots_length, panelRefs_length _ hc])]
    simp

/-- The horseshoe arrays after the write-back, entry by entry. -/
theorem solved_trailing (s : RingSolver) (x : List ℝ) (hc : Counted s.airplanes)
    (hlt : s.trailing.length = totalPanels s.airplanes) :
    (s.solved x).trailing = List.zipWith (fun (a : RingSlot × ℕ) t =>
      if (s.initializePanelVortices.heap a.1.panel).horseshoe.isSome then { t with strength := x.getD a.2 0 } else t)
      s.finalSlots.zipIdx s.unitTrailing := by
  have := storeStrength_snd x s.finalSlots 0 s.initializePanelVortices.heap [] s.unitTrailing rfl
    (by rw [unitTrailing_length s hc hlt, finalSlots_length])
    (by rw [finalSlots_panels]; exact panelRefs_nodup _)
  simpa [solved] using this

end RingSolver
end Ptera
