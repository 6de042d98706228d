import Verif.Model.SteadyHorseshoe
import Verif.Lemmas.SolverLemmas

/-! What one run of the steady horseshoe solver computes. -/

namespace Ptera

/-- Seed points of a list of panels. -/
noncomputable def seedsOf (as : List Airplane) (refs : List PanelRef) : List V3 :=
  ((refs.map (geometryOf as)).filter (·.isTrailingEdge)).map seedPoint

theorem seedsOf_cons (as : List Airplane) (r : PanelRef) (l : List PanelRef) (seeds : List V3) :
    (if (geometryOf as r).isTrailingEdge then seeds ++ [seedPoint (geometryOf as r)] else seeds) ++ seedsOf as l
      = seeds ++ seedsOf as (r :: l) := by
  unfold seedsOf
  by_cases h : (geometryOf as r).isTrailingEdge <;> simp [h]

/-- Entries written while enumerating distinct references, read back by index. -/
theorem foldl_update_zipIdx {σ : Type} (refs : List PanelRef) (F : ℕ → PanelRef → σ → σ) (h : PanelRef → σ)
    (hn : refs.Nodup) :
    (∀ (g : ℕ) (r : PanelRef), refs[g]? = some r →
      (refs.zipIdx.foldl (fun h x => Function.update h x.1 (F x.2 x.1 (h x.1))) h) r = F g r (h r)) ∧
    (∀ r, r ∉ refs → (refs.zipIdx.foldl (fun h x => Function.update h x.1 (F x.2 x.1 (h x.1))) h) r = h r) := by
  have hk : (refs.zipIdx.map Prod.fst) = refs := List.zipIdx_map_fst 0 refs
  obtain ⟨h1, h2⟩ := foldl_update refs.zipIdx Prod.fst (fun x => F x.2 x.1) h (by rw [hk]; exact hn)
  rw [hk] at h2
  refine ⟨fun g r hg => ?_, h2⟩
  exact h1 (r, g) (List.mk_mem_zipIdx_iff_getElem?.mpr hg)

/-- Heap after storing the loads. -/
theorem storePanelLoads_spec (op : OperatingPoint) (as : List Airplane) (refs : List PanelRef)
    (F M : List V3) (heap : PanelHeap) (hn : refs.Nodup) :
    (∀ (g : ℕ) (r : PanelRef), refs[g]? = some r → storePanelLoads op as refs F M heap r
      = { heap r with loads := some (panelLoads op (geometryOf as r) (F.getD g 0) (M.getD g 0)) }) ∧
    (∀ r, r ∉ refs → storePanelLoads op as refs F M heap r = heap r) := by
  unfold storePanelLoads
  exact foldl_update_zipIdx refs
    (fun g r st => { st with loads := some (panelLoads op (geometryOf as r) (F.getD g 0) (M.getD g 0)) }) heap hn

namespace HorseshoeSolver

theorem init_heap (s : HorseshoeSolver) :
    (∀ r ∈ panelRefs s.airplanes,
      s.initializePanelVortices.heap r = { s.heap r with horseshoe := some (s.panelVortex r) }) ∧
    (∀ r, r ∉ panelRefs s.airplanes → s.initializePanelVortices.heap r = s.heap r) := by
  have := foldl_update (panelRefs s.airplanes) id
    (fun r st => { st with horseshoe := some (s.panelVortex r) }) s.heap
    (by simpa using panelRefs_nodup s.airplanes)
  simpa [initializePanelVortices] using this

theorem collapse_fold (v : PanelRef → HorseshoeVortex) (L : List PanelRef) :
    ∀ (s : HorseshoeSolver) (pre rest : List HorseshoeSlot), s.slots = pre ++ rest → rest.length = L.length →
      (∀ r ∈ L, (s.heap r).horseshoe = some (v r)) →
      L.foldlM collapsePanel (s, pre.length)
        = .ok ({ s with slots := pre ++ L.map (fun r => slotOf s.airplanes r (v r))
                        seedPoints := s.seedPoints ++ seedsOf s.airplanes L }, pre.length + L.length) := by
  induction L with
  | nil =>
    intro s pre rest hs hl _
    simp at hl; subst hl
    cases s
    simp_all [seedsOf, pure, Except.pure]
  | cons r L ih =>
    intro s pre rest hs hl hv
    cases rest with
    | nil => simp at hl
    | cons b rest =>
      have hr := hv r (by simp)
      rw [List.foldlM_cons]
      have hstep : collapsePanel (s, pre.length) r = .ok
          ({ s with slots := (pre ++ [slotOf s.airplanes r (v r)]) ++ rest
                    seedPoints := if (geometryOf s.airplanes r).isTrailingEdge
                      then s.seedPoints ++ [seedPoint (geometryOf s.airplanes r)] else s.seedPoints },
            pre.length + 1) := by
        unfold collapsePanel
        simp only [hr, hs, writeAt_append, bind, Except.bind, pure, Except.pure, List.append_assoc,
          List.cons_append, List.nil_append]
      rw [hstep]
      simp only [bind, Except.bind]
      have := ih (pre := pre ++ [slotOf s.airplanes r (v r)]) (rest := rest)
        (s := { s with slots := (pre ++ [slotOf s.airplanes r (v r)]) ++ rest
                       seedPoints := if (geometryOf s.airplanes r).isTrailingEdge
                         then s.seedPoints ++ [seedPoint (geometryOf s.airplanes r)] else s.seedPoints })
        rfl (by simpa using hl) (fun r' hr' => hv r' (List.mem_cons_of_mem _ hr'))
      rw [List.length_append, List.length_singleton] at this
      rw [this, seedsOf_cons]
      simp [Nat.add_assoc, Nat.add_comm 1]

/-- The slots one run computes. -/
noncomputable def finalSlots (s : HorseshoeSolver) : List HorseshoeSlot :=
  (panelRefs s.airplanes).map fun r => slotOf s.airplanes r (s.panelVortex r)

theorem collapse_eq (s : HorseshoeSolver) (hc : Counted s.airplanes)
    (hl : s.slots.length = totalPanels s.airplanes) :
    s.initializePanelVortices.collapseGeometry
      = .ok { s with heap := s.initializePanelVortices.heap, slots := s.finalSlots
                     seedPoints := s.seedPoints ++ seedsOf s.airplanes (panelRefs s.airplanes) } := by
  unfold collapseGeometry
  have h := collapse_fold s.panelVortex (panelRefs s.airplanes) s.initializePanelVortices [] s.slots rfl
    (by rw [hl, panelRefs_length _ hc]) (fun r hr => by rw [s.init_heap.1 r hr])
  have ha : s.initializePanelVortices.airplanes = s.airplanes := rfl
  rw [ha]
  rw [List.length_nil] at h
  rw [h]
  rfl

/-- The normal components of unit horseshoes: the influence matrix of one run. -/
noncomputable def finalInfluences (s : HorseshoeSolver) : List (List ℝ) :=
  normalComponents (expandedHorseshoe (s.finalSlots.map (·.collocation)) (s.finalSlots.map (·.backRight))
    (s.finalSlots.map (·.frontRight)) (s.finalSlots.map (·.frontLeft)) (s.finalSlots.map (·.backLeft))
    (List.replicate (totalPanels s.airplanes) 1)) (s.finalSlots.map (·.normal))

noncomputable def finalFreestream (s : HorseshoeSolver) : List ℝ :=
  freestreamInfluences s.freestreamVelocity (s.finalSlots.map (·.normal))

/-- The solver after the strengths have been written back. -/
noncomputable def solved (s : HorseshoeSolver) (x : List ℝ) : HorseshoeSolver :=
  { s with
    slots := s.finalSlots
    seedPoints := s.seedPoints ++ seedsOf s.airplanes (panelRefs s.airplanes)
    influences := s.finalInfluences
    freestream := s.finalFreestream
    strengths := x
    heap := s.finalSlots.zipIdx.foldl
      (fun heap t => Function.update heap t.1.panel
        { heap t.1.panel with
          horseshoe := (heap t.1.panel).horseshoe.map fun v => v.updateStrength (x.getD t.2 0) })
      s.initializePanelVortices.heap }

/-- A run is: the linear solve, then loads and streamlines. -/
theorem run_eq (s : HorseshoeSolver) (hc : Counted s.airplanes)
    (hl : s.slots.length = totalPanels s.airplanes) :
    s.run = (linalgSolve s.finalInfluences (s.finalFreestream.map fun x => -x)).map
      fun x => (s.solved x).calculateForces.calculateStreamlines := by
  unfold run
  rw [collapse_eq s hc hl]
  simp only [bind, Except.bind]
  unfold calculateVortexStrengths
  have h1 : ({ s with heap := s.initializePanelVortices.heap, slots := s.finalSlots
                      seedPoints := s.seedPoints ++ seedsOf s.airplanes (panelRefs s.airplanes) }
      : HorseshoeSolver).calculateWingWingInfluences.calculateFreestreamInfluences
      = { s with heap := s.initializePanelVortices.heap, slots := s.finalSlots
                 seedPoints := s.seedPoints ++ seedsOf s.airplanes (panelRefs s.airplanes)
                 influences := s.finalInfluences, freestream := s.finalFreestream } := rfl
  rw [h1]
  simp only
  cases linalgSolve s.finalInfluences (s.finalFreestream.map fun x => -x) with
  | error e => rfl
  | ok x => rfl

theorem finalSlots_panels (s : HorseshoeSolver) : s.finalSlots.map (·.panel) = panelRefs s.airplanes := by
  unfold finalSlots
  rw [List.map_map]
  exact List.map_id _

/-- The horseshoe vortices after the strengths have been written back. -/
theorem solved_heap (s : HorseshoeSolver) (x : List ℝ) :
    (∀ (g : ℕ) (r : PanelRef), (panelRefs s.airplanes)[g]? = some r → (s.solved x).heap r
      = { s.heap r with horseshoe := some ((s.panelVortex r).updateStrength (x.getD g 0)) }) ∧
    (∀ r, r ∉ panelRefs s.airplanes → (s.solved x).heap r = s.heap r) := by
  have hk : s.finalSlots.zipIdx.map (fun t => t.1.panel) = panelRefs s.airplanes := by
    rw [← s.finalSlots_panels]
    conv_rhs => rw [← List.zipIdx_map_fst 0 s.finalSlots, List.map_map]
    rfl
  obtain ⟨h1, h2⟩ := foldl_update s.finalSlots.zipIdx (fun t => t.1.panel)
    (fun t st => { st with horseshoe := st.horseshoe.map fun v => v.updateStrength (x.getD t.2 0) })
    s.initializePanelVortices.heap (by rw [hk]; exact panelRefs_nodup _)
  rw [hk] at h2
  constructor
  · intro g r hg
    have hslot : s.finalSlots[g]? = some (slotOf s.airplanes r (s.panelVortex r)) := by
      simp [finalSlots, hg]
    have := h1 (_, g) (List.mk_mem_zipIdx_iff_getElem?.mpr hslot)
    have hr : r ∈ panelRefs s.airplanes := List.mem_of_getElem? hg
    simp only [slotOf] at this
    rw [s.init_heap.1 r hr] at this
    simpa [solved] using this
  · intro r hr
    have := h2 r hr
    rw [s.init_heap.2 r hr] at this
    simpa [solved] using this

end HorseshoeSolver

end Ptera
