import Verif.Model.SteadyRing
import Verif.Lemmas.HorseshoeRun

/-! What one run of the steady ring solver computes. -/

namespace Ptera
namespace RingSolver

/-- State of a panel after `initialize_panel_vortices`. -/
noncomputable def initState (s : RingSolver) (r : PanelRef) (st : PanelState) : PanelState :=
  { st with
    ring := some (panelRing s.airplanes r)
    horseshoe := if (geometryOf s.airplanes r).isTrailingEdge then some (s.panelHorseshoe r) else st.horseshoe }

theorem init_heap (s : RingSolver) :
    (∀ r ∈ panelRefs s.airplanes, s.initializePanelVortices.heap r = s.initState r (s.heap r)) ∧
    (∀ r, r ∉ panelRefs s.airplanes → s.initializePanelVortices.heap r = s.heap r) := by
  have := foldl_update (panelRefs s.airplanes) id s.initState s.heap
    (by simpa using panelRefs_nodup s.airplanes)
  simpa [initializePanelVortices, initState] using this

/-- The horseshoe arrays after collapsing, given their old contents. -/
noncomputable def trailingOf (as : List Airplane) (w : PanelRef → HorseshoeVortex) (L : List PanelRef)
    (old : List TrailingSlot) : List TrailingSlot :=
  List.zipWith (fun r t => if (geometryOf as r).isTrailingEdge then trailingSlot (w r) else t) L old

theorem collapse_fold (v : PanelRef → RingVortex) (w : PanelRef → HorseshoeVortex) (L : List PanelRef) :
    ∀ (s : RingSolver) (pre rest : List RingSlot) (preT restT : List TrailingSlot), s.slots = pre ++ rest →
      s.trailing = preT ++ restT → rest.length = L.length → restT.length = L.length → preT.length = pre.length →
      (∀ r ∈ L, (s.heap r).ring = some (v r)) →
      (∀ r ∈ L, (geometryOf s.airplanes r).isTrailingEdge → (s.heap r).horseshoe = some (w r)) →
      L.foldlM collapsePanel (s, pre.length)
        = .ok ({ s with slots := pre ++ L.map (fun r => ringSlot s.airplanes r (v r))
                        trailing := preT ++ trailingOf s.airplanes w L restT
                        seedPoints := s.seedPoints ++ seedsOf s.airplanes L }, pre.length + L.length) := by
  induction L with
  | nil =>
    intro s pre rest preT restT hs ht hl hlt _ _ _
    simp at hl hlt; subst hl hlt
    cases s
    simp_all [seedsOf, trailingOf, pure, Except.pure]
  | cons r L ih =>
    intro s pre rest preT restT hs ht hl hlt hp hv hw
    cases rest with
    | nil => simp at hl
    | cons b rest =>
    cases restT with
    | nil => simp at hlt
    | cons bt restT =>
      have hr := hv r (by simp)
      have hwr := hw r (by simp)
      rw [List.foldlM_cons]
      have htr : collapseTrailing s pre.length r
          = .ok ((preT ++ [if (geometryOf s.airplanes r).isTrailingEdge then trailingSlot (w r) else bt])
              ++ restT) := by
        unfold collapseTrailing
        by_cases hte : (geometryOf s.airplanes r).isTrailingEdge
        · simp only [hte, if_true, hwr hte, ht, ← hp, writeAt_append, List.append_assoc, List.cons_append,
            List.nil_append]
        · simp only [hte, Bool.false_eq_true, if_false, ht, List.append_assoc, List.cons_append, List.nil_append]
      have hstep : collapsePanel (s, pre.length) r = .ok
          ({ s with slots := (pre ++ [ringSlot s.airplanes r (v r)]) ++ rest
                    trailing := (preT ++
                      [if (geometryOf s.airplanes r).isTrailingEdge then trailingSlot (w r) else bt]) ++ restT
                    seedPoints := if (geometryOf s.airplanes r).isTrailingEdge
                      then s.seedPoints ++ [seedPoint (geometryOf s.airplanes r)] else s.seedPoints },
            pre.length + 1) := by
        unfold collapsePanel
        simp only [hr, hs, writeAt_append, bind, Except.bind, pure, Except.pure, htr]
        simp
      rw [hstep]
      simp only [bind, Except.bind]
      have := ih (pre := pre ++ [ringSlot s.airplanes r (v r)]) (rest := rest)
        (preT := preT ++ [if (geometryOf s.airplanes r).isTrailingEdge then trailingSlot (w r) else bt])
        (restT := restT)
        (s := { s with slots := (pre ++ [ringSlot s.airplanes r (v r)]) ++ rest
                       trailing := (preT ++
                         [if (geometryOf s.airplanes r).isTrailingEdge then trailingSlot (w r) else bt]) ++ restT
                       seedPoints := if (geometryOf s.airplanes r).isTrailingEdge
                         then s.seedPoints ++ [seedPoint (geometryOf s.airplanes r)] else s.seedPoints })
        rfl rfl (by simpa using hl) (by simpa using hlt) (by simp [hp])
        (fun r' hr' => hv r' (List.mem_cons_of_mem _ hr')) (fun r' hr' => hw r' (List.mem_cons_of_mem _ hr'))
      rw [List.length_append, List.length_singleton] at this
      rw [this, seedsOf_cons]
      simp [Nat.add_assoc, Nat.add_comm 1, trailingOf]

/-- The slots one run computes. -/
noncomputable def finalSlots (s : RingSolver) : List RingSlot :=
  (panelRefs s.airplanes).map fun r => ringSlot s.airplanes r (panelRing s.airplanes r)

/-- The horseshoe arrays before the solve. -/
noncomputable def unitTrailing (s : RingSolver) : List TrailingSlot :=
  trailingOf s.airplanes s.panelHorseshoe (panelRefs s.airplanes) s.trailing

theorem collapse_eq (s : RingSolver) (hc : Counted s.airplanes)
    (hl : s.slots.length = totalPanels s.airplanes) (hlt : s.trailing.length = totalPanels s.airplanes) :
    s.initializePanelVortices.collapseGeometry
      = .ok { s with heap := s.initializePanelVortices.heap, slots := s.finalSlots, trailing := s.unitTrailing
                     seedPoints := s.seedPoints ++ seedsOf s.airplanes (panelRefs s.airplanes) } := by
  unfold collapseGeometry
  have h := collapse_fold (panelRing s.airplanes) s.panelHorseshoe (panelRefs s.airplanes)
    s.initializePanelVortices [] s.slots [] s.trailing rfl rfl
    (by rw [hl, panelRefs_length _ hc]) (by rw [hlt, panelRefs_length _ hc]) rfl
    (fun r hr => by rw [s.init_heap.1 r hr]; rfl)
    (fun r hr hte => by
      rw [s.init_heap.1 r hr]
      have hte' : (geometryOf s.airplanes r).isTrailingEdge = true := hte
      simp [initState, hte'])
  have ha : s.initializePanelVortices.airplanes = s.airplanes := rfl
  rw [ha]
  rw [List.length_nil] at h
  rw [h]
  rfl

/-- The influence matrix of one run, with the strengths the solver holds. -/
noncomputable def finalInfluences (s : RingSolver) : List (List ℝ) :=
  normalComponents (addGrid
    (expandedRing (s.finalSlots.map (·.collocation)) (s.finalSlots.map (·.backRight))
      (s.finalSlots.map (·.frontRight)) (s.finalSlots.map (·.frontLeft)) (s.finalSlots.map (·.backLeft))
      s.strengths)
    (expandedHorseshoe (s.finalSlots.map (·.collocation)) (s.unitTrailing.map (·.backRight))
      (s.unitTrailing.map (·.frontRight)) (s.unitTrailing.map (·.frontLeft)) (s.unitTrailing.map (·.backLeft))
      (s.unitTrailing.map (·.strength)))) (s.finalSlots.map (·.normal))

noncomputable def finalFreestream (s : RingSolver) : List ℝ :=
  freestreamInfluences s.freestreamVelocity (s.finalSlots.map (·.normal))

/-- The solver after the strengths have been written back. -/
noncomputable def solved (s : RingSolver) (x : List ℝ) : RingSolver :=
  { s with
    slots := s.finalSlots
    seedPoints := s.seedPoints ++ seedsOf s.airplanes (panelRefs s.airplanes)
    influences := s.finalInfluences
    freestream := s.finalFreestream
    strengths := x
    heap := (s.finalSlots.zipIdx.foldl (storeStrength x) (s.initializePanelVortices.heap, s.unitTrailing)).1
    trailing := (s.finalSlots.zipIdx.foldl (storeStrength x) (s.initializePanelVortices.heap, s.unitTrailing)).2 }

theorem run_eq (s : RingSolver) (hc : Counted s.airplanes)
    (hl : s.slots.length = totalPanels s.airplanes) (hlt : s.trailing.length = totalPanels s.airplanes) :
    s.run = (linalgSolve s.finalInfluences (s.finalFreestream.map fun x => -x)).map
      fun x => (s.solved x).calculateForces.calculateStreamlines := by
  unfold run
  rw [collapse_eq s hc hl hlt]
  simp only [bind, Except.bind]
  unfold calculateVortexStrengths
  have h1 : ({ s with heap := s.initializePanelVortices.heap, slots := s.finalSlots, trailing := s.unitTrailing
                      seedPoints := s.seedPoints ++ seedsOf s.airplanes (panelRefs s.airplanes) }
      : RingSolver).calculateWingWingInfluences.calculateFreestreamInfluences
      = { s with heap := s.initializePanelVortices.heap, slots := s.finalSlots, trailing := s.unitTrailing
                 seedPoints := s.seedPoints ++ seedsOf s.airplanes (panelRefs s.airplanes)
                 influences := s.finalInfluences, freestream := s.finalFreestream } := rfl
  rw [h1]
  simp only
  cases linalgSolve s.finalInfluences (s.finalFreestream.map fun x => -x) with
  | error e => rfl
  | ok x => rfl

theorem finalSlots_panels (s : RingSolver) : s.finalSlots.map (·.panel) = panelRefs s.airplanes := by
  unfold finalSlots
  rw [List.map_map]
  exact List.map_id _

/-- The heap part of the write-back. -/
theorem storeStrength_fst (x : List ℝ) (L : List (RingSlot × ℕ)) :
    ∀ (h : PanelHeap) (t : List TrailingSlot), (L.foldl (storeStrength x) (h, t)).1
      = L.foldl (fun heap t => Function.update heap t.1.panel
          { heap t.1.panel with
            ring := (heap t.1.panel).ring.map fun v => v.updateStrength (x.getD t.2 0)
            horseshoe := (heap t.1.panel).horseshoe.map fun v => v.updateStrength (x.getD t.2 0) }) h := by
  induction L with
  | nil => intro h t; rfl
  | cons a L ih => intro h t; rw [List.foldl_cons, List.foldl_cons, ← ih]; rfl

theorem solved_heap (s : RingSolver) (x : List ℝ) :
    (∀ (g : ℕ) (r : PanelRef), (panelRefs s.airplanes)[g]? = some r → (s.solved x).heap r
      = { s.heap r with
          ring := some ((panelRing s.airplanes r).updateStrength (x.getD g 0))
          horseshoe := (if (geometryOf s.airplanes r).isTrailingEdge then some (s.panelHorseshoe r)
            else (s.heap r).horseshoe).map fun v => v.updateStrength (x.getD g 0) }) ∧
    (∀ r, r ∉ panelRefs s.airplanes → (s.solved x).heap r = s.heap r) := by
  have hk : s.finalSlots.zipIdx.map (fun t => t.1.panel) = panelRefs s.airplanes := by
    rw [← s.finalSlots_panels]
    conv_rhs => rw [← List.zipIdx_map_fst 0 s.finalSlots, List.map_map]
    rfl
  obtain ⟨h1, h2⟩ := foldl_update s.finalSlots.zipIdx (fun t => t.1.panel)
    (fun t st => { st with
      ring := st.ring.map fun v => v.updateStrength (x.getD t.2 0)
      horseshoe := st.horseshoe.map fun v => v.updateStrength (x.getD t.2 0) })
    s.initializePanelVortices.heap (by rw [hk]; exact panelRefs_nodup _)
  rw [hk] at h2
  constructor
  · intro g r hg
    have hslot : s.finalSlots[g]? = some (ringSlot s.airplanes r (panelRing s.airplanes r)) := by
      simp [finalSlots, hg]
    have := h1 (_, g) (List.mk_mem_zipIdx_iff_getElem?.mpr hslot)
    have hr : r ∈ panelRefs s.airplanes := List.mem_of_getElem? hg
    simp only [ringSlot] at this
    rw [s.init_heap.1 r hr] at this
    simp only [solved, storeStrength_fst]
    rw [this]
    rfl
  · intro r hr
    have := h2 r hr
    rw [s.init_heap.2 r hr] at this
    simp only [solved, storeStrength_fst]
    exact this

/-- The horseshoe arrays after the write-back, over a suffix of the panels. -/
theorem storeStrength_snd (x : List ℝ) :
    ∀ (L : List RingSlot) (k : ℕ) (h : PanelHeap) (pre rest : List TrailingSlot), pre.length = k →
      rest.length = L.length → (L.map (·.panel)).Nodup →
      ((L.zipIdx k).foldl (storeStrength x) (h, pre ++ rest)).2
        = pre ++ List.zipWith (fun (a : RingSlot × ℕ) t =>
            if (h a.1.panel).horseshoe.isSome then { t with strength := x.getD a.2 0 } else t) (L.zipIdx k) rest := by
  intro L
  induction L with
  | nil => intro k h pre rest _ hl _; simp at hl; simp [hl]
  | cons a L ih =>
    intro k h pre rest hk hl hn
    cases rest with
    | nil => simp at hl
    | cons t rest =>
      rw [List.map_cons, List.nodup_cons] at hn
      rw [List.zipIdx_cons, List.foldl_cons]
      have hstep : storeStrength x (h, pre ++ t :: rest) (a, k)
          = (Function.update h a.panel
              { h a.panel with
                ring := (h a.panel).ring.map fun v => v.updateStrength (x.getD k 0)
                horseshoe := (h a.panel).horseshoe.map fun v => v.updateStrength (x.getD k 0) },
             (pre ++ [if (h a.panel).horseshoe.isSome then { t with strength := x.getD k 0 } else t]) ++ rest) := by
        unfold storeStrength
        refine Prod.ext rfl ?_
        simp only
        split
        · rw [List.modify_eq_set_getElem?]
          simp [← hk]
        · simp
      rw [hstep, ih (k + 1) _ _ rest (by simp [hk]) (by simpa using hl) hn.2]
      rw [List.append_assoc]
      congr 1
      rw [List.zipWith_cons_cons]
      simp only [List.cons_append, List.nil_append, List.cons.injEq, true_and]
      apply List.ext_getElem
      · simp
      · intro i h1 h2
        simp only [List.getElem_zipWith, List.getElem_zipIdx]
        have hi : i < L.length := by simp at h1; omega
        have hne : L[i].panel ≠ a.panel := by
          intro e
          apply hn.1
          rw [← e]
          exact List.mem_map_of_mem (List.getElem_mem hi)
        rw [Function.update_of_ne hne]

end RingSolver
end Ptera
