import Verif.Lemmas.SteadyVelocity
import Verif.Props.Vortex

/-! The linear solve of the steady solvers makes the normal velocity vanish. -/

namespace Ptera

theorem horseshoe_no_penetration {s s' : HorseshoeSolver} (hc : Counted s.airplanes)
    (hl : s.slots.length = totalPanels s.airplanes) (h : s.run = .ok s') (r : PanelRef) (p : Panel)
    (hp : panelAt s.airplanes r = some p) :
    ∃ v, s'.solutionVelocity [p.collocationPoint] = [v] ∧ v.dot p.unitNormal = 0 := by
  obtain ⟨x, hx, hlen, rfl⟩ := HorseshoeSolver.run_result hc hl h
  have e : (s.solved x).calculateForces.calculateStreamlines.solutionVelocity [p.collocationPoint]
      = (s.solved x).solutionVelocity [p.collocationPoint] := rfl
  rw [e, HorseshoeSolver.velocity_eq _ _ hlen]
  refine ⟨_, rfl, ?_⟩
  have hA := (linalgSolve_ok hx).2
  rw [HorseshoeSolver.finalInfluences_eq s hc] at hA
  unfold HorseshoeSolver.finalFreestream freestreamInfluences at hA
  rw [List.map_map (f := fun a : HorseshoeSlot => a.normal)] at hA
  have hr : r ∈ panelRefs s.airplanes := (mem_panelRefs _ _).mpr ⟨p, hp⟩
  have hmem : HorseshoeSolver.slotOf s.airplanes r (s.panelVortex r) ∈ s.finalSlots :=
    List.mem_map_of_mem hr
  have := no_penetration s.finalSlots HorseshoeSolver.unit (·.collocation) (·.normal) s.freestreamVelocity x hA
    _ hmem
  simp only [HorseshoeSolver.slotOf, geometryOf_eq hp] at this
  exact this

namespace RingSolver

/-- The horseshoe array entry of a panel before the first solve. -/
noncomputable def firstTrailing (s : RingSolver) (r : PanelRef) : TrailingSlot :=
  if (geometryOf s.airplanes r).isTrailingEdge then trailingSlot (s.panelHorseshoe r) else {}

theorem unitT_empty (x : ℝ) (p : V3) : unitT { ({} : TrailingSlot) with strength := x } p = 0 := by
  simp [unitT, horseshoeLegs, unitVelocity, C13_zero_length]

/-- The velocity of a panel's vortices with unit strength: its ring and, at the trailing edge, its horseshoe. -/
noncomputable def panelUnit (s : RingSolver) (r : PanelRef) (p : V3) : V3 :=
  unit (ringSlot s.airplanes r (panelRing s.airplanes r)) p
    + (s.firstTrailing r).strength • unitT (s.firstTrailing r) p

/-- State of the solver before its first run. -/
structure Unsolved (s : RingSolver) : Prop where
  counted : Counted s.airplanes
  slots : s.slots.length = totalPanels s.airplanes
  trailing : s.trailing = List.replicate (totalPanels s.airplanes) {}
  strengths : s.strengths = List.replicate (totalPanels s.airplanes) 1

theorem create_unsolved (problem : SteadyProblem) (h : Counted problem.airplanes) (heap : PanelHeap)
    (loads : List AirplaneLoads) : Unsolved (create problem heap loads) :=
  ⟨h, by simp [create], rfl, rfl⟩

theorem unitTrailing_first {s : RingSolver} (hs : Unsolved s) :
    s.unitTrailing = (panelRefs s.airplanes).map s.firstTrailing := by
  unfold unitTrailing trailingOf
  rw [hs.trailing, zipWith_replicate_map _ _ _ _ (panelRefs_length _ hs.counted).symm]
  rfl

theorem influences_first {s : RingSolver} (hs : Unsolved s) :
    s.finalInfluences = (panelRefs s.airplanes).map fun i => (panelRefs s.airplanes).map fun j =>
      (s.panelUnit j (geometryOf s.airplanes i).collocationPoint).dot (geometryOf s.airplanes i).unitNormal := by
  have hn := panelRefs_length _ hs.counted
  rw [finalInfluences_eq s (by rw [hs.strengths, finalSlots_length, hn]; simp), unitTrailing_first hs, hs.strengths]
  unfold finalSlots
  rw [List.map_map]
  apply List.map_congr_left
  intro i _
  simp only [Function.comp]
  rw [zipWith_replicate_map _ _ _ _ (by rw [List.length_map, hn]), List.map_map, List.map_map, zipWith_map_self]
  apply List.map_congr_left
  intro j _
  simp [panelUnit, ringSlot]

theorem trailing_velocity {s : RingSolver} (hs : Unsolved s) (x : List ℝ) (p : V3)
    (hx : x.length = s.finalSlots.length) :
    (List.zipWith (fun a x => x • unit a p) s.finalSlots x).sum
        + ((s.solved x).trailing.map fun t => t.strength • unitT t p).sum
      = (List.zipWith (fun r x => x • s.panelUnit r p) (panelRefs s.airplanes) x).sum := by
  have hn := panelRefs_length _ hs.counted
  have hx' : x.length = (panelRefs s.airplanes).length := by rw [hx, finalSlots_length]
  rw [solved_trailing s x hs.counted (by rw [hs.trailing]; simp), unitTrailing_first hs]
  have e : (List.zipWith (fun (a : RingSlot × ℕ) t =>
        if (s.initializePanelVortices.heap a.1.panel).horseshoe.isSome then { t with strength := x.getD a.2 0 }
        else t) s.finalSlots.zipIdx ((panelRefs s.airplanes).map s.firstTrailing)).map
          (fun t => t.strength • unitT t p)
      = List.zipWith (fun r x => x • ((s.firstTrailing r).strength • unitT (s.firstTrailing r) p))
          (panelRefs s.airplanes) x := by
    apply List.ext_getElem
    · simp [hx', finalSlots_length]
    · intro i h1 h2
      have hi : i < (panelRefs s.airplanes).length := by simp [hx'] at h2; exact h2
      have hmem : (panelRefs s.airplanes)[i] ∈ panelRefs s.airplanes := List.getElem_mem hi
      have hslot : (s.finalSlots[i]'(by rw [finalSlots_length]; exact hi)).panel = (panelRefs s.airplanes)[i] := by
        simp [finalSlots, ringSlot]
      simp only [List.getElem_map, List.getElem_zipWith, List.getElem_zipIdx, hslot, s.init_heap.1 _ hmem]
      have hxi : x.getD (0 + i) 0 = x[i]'(by omega) := by
        rw [Nat.zero_add, List.getD_eq_getElem?_getD, List.getElem?_eq_getElem (by omega)]; rfl
      rw [hxi]
      by_cases hte : (geometryOf s.airplanes (panelRefs s.airplanes)[i]).isTrailingEdge
      · simp only [initState, hte, if_true, Option.isSome_some, firstTrailing, trailingSlot, one_smul]
        rfl
      · simp only [initState, hte, Bool.false_eq_true, if_false, firstTrailing]
        split
        · rw [unitT_empty]; simp
        · simp
  rw [e]
  have hsum : ∀ (l : List PanelRef) (y : List ℝ) (f g : PanelRef → V3), y.length = l.length →
      (List.zipWith (fun r x => x • f r) l y).sum + (List.zipWith (fun r x => x • g r) l y).sum
        = (List.zipWith (fun r x => x • (f r + g r)) l y).sum := by
    intro l
    induction l with
    | nil => intro y f g _; simp
    | cons a l ih =>
      intro y f g hy
      cases y with
      | nil => simp at hy
      | cons b y =>
        simp only [List.zipWith_cons_cons, List.sum_cons]
        rw [← ih y f g (by simpa using hy), smul_add]
        abel
  unfold finalSlots
  rw [List.zipWith_map_left, hsum _ _ _ _ hx']
  rfl

end RingSolver

theorem ring_no_penetration {s s' : RingSolver} (hs : s.Unsolved) (h : s.run = .ok s') (r : PanelRef) (p : Panel)
    (hp : panelAt s.airplanes r = some p) :
    ∃ v, s'.solutionVelocity [p.collocationPoint] = [v] ∧ v.dot p.unitNormal = 0 := by
  obtain ⟨x, hx, hlen, rfl⟩ := RingSolver.run_result hs.counted hs.slots (by rw [hs.trailing]; simp)
    (by rw [hs.strengths]; simp) h
  have e : (s.solved x).calculateForces.calculateStreamlines.solutionVelocity [p.collocationPoint]
      = (s.solved x).solutionVelocity [p.collocationPoint] := rfl
  rw [e, RingSolver.velocity_eq _ _ hlen]
  refine ⟨_, rfl, ?_⟩
  have hA := (linalgSolve_ok hx).2
  rw [RingSolver.influences_first hs] at hA
  have hb : s.finalFreestream = (panelRefs s.airplanes).map fun i =>
      s.freestreamVelocity.dot (geometryOf s.airplanes i).unitNormal := by
    simp [RingSolver.finalFreestream, freestreamInfluences, RingSolver.finalSlots, ringSlot]
  rw [hb] at hA
  have hr : r ∈ panelRefs s.airplanes := (mem_panelRefs _ _).mpr ⟨p, hp⟩
  have := no_penetration (panelRefs s.airplanes) s.panelUnit (fun i => (geometryOf s.airplanes i).collocationPoint)
    (fun i => (geometryOf s.airplanes i).unitNormal) s.freestreamVelocity x hA r hr
  simp only [geometryOf_eq hp] at this
  rw [← RingSolver.trailing_velocity hs x p.collocationPoint hlen] at this
  exact this

end Ptera
