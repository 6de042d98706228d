import Verif.Model.Unsteady
import Verif.Lemmas.HorseshoeRun

/-! What the part of a time step before shedding computes. -/

namespace Ptera
namespace UnsteadySolver

theorem collapse_fold (v : PanelRef → RingVortex) (L : List PanelRef) :
    ∀ (s : UnsteadySolver) (pre rest : List RingSlot), s.slots = pre ++ rest → rest.length = L.length →
      (∀ r ∈ L, (s.panels s.step r).ring = some (v r)) →
      L.foldlM collapsePanel (s, pre.length)
        = .ok ({ s with slots := pre ++ L.map (fun r => ringSlot s.airplanes r (v r))
                        seedPoints := s.seedPoints ++ seedsOf s.airplanes L }, pre.length + L.length) := by
  induction L with
  | nil =>
    intro s pre rest hs hl _
    simp at hl; subst hl
    cases s
    simp_all [seedsOf, pure, Except.pure]
  | cons r L ih =>
    intro s pre rest hs hl hv
    cases rest with
    | nil => simp at hl
    | cons b rest =>
      have hr := hv r (by simp)
      rw [List.foldlM_cons]
      have hstep : collapsePanel (s, pre.length) r = .ok
          ({ s with slots := (pre ++ [ringSlot s.airplanes r (v r)]) ++ rest
                    seedPoints := if (geometryOf s.airplanes r).isTrailingEdge
                      then s.seedPoints ++ [seedPoint (geometryOf s.airplanes r)] else s.seedPoints },
            pre.length + 1) := by
        unfold collapsePanel
        simp only [hr, hs, writeAt_append, bind, Except.bind, pure, Except.pure]
        simp
      rw [hstep]
      simp only [bind, Except.bind]
      have := ih (pre := pre ++ [ringSlot s.airplanes r (v r)]) (rest := rest)
        (s := { s with slots := (pre ++ [ringSlot s.airplanes r (v r)]) ++ rest
                       seedPoints := if (geometryOf s.airplanes r).isTrailingEdge
                         then s.seedPoints ++ [seedPoint (geometryOf s.airplanes r)] else s.seedPoints })
        rfl (by simpa using hl) (fun r' hr' => hv r' (List.mem_cons_of_mem _ hr'))
      rw [List.length_append, List.length_singleton] at this
      rw [this, ← seedsOf_cons]
      simp [airplanes, Nat.add_assoc, Nat.add_comm 1]

theorem collapse_wake (objects : ℕ → RingVortex) (refs : List ℕ) :
    ∀ (pre rest : List WakeSlot), rest.length = refs.length →
      (refs.map some).foldlM (collapseWakeRing objects) (pre ++ rest, pre.length)
        = .ok (pre ++ refs.map (fun a => wakeSlot (objects a)), pre.length + refs.length) := by
  induction refs with
  | nil => intro pre rest hl; simp at hl; subst hl; simp [pure, Except.pure]
  | cons a refs ih =>
    intro pre rest hl
    cases rest with
    | nil => simp at hl
    | cons b rest =>
      rw [List.map_cons, List.foldlM_cons]
      have hstep : collapseWakeRing objects (pre ++ b :: rest, pre.length) (some a)
          = .ok ((pre ++ [wakeSlot (objects a)]) ++ rest, pre.length + 1) := by
        unfold collapseWakeRing
        simp [writeAt_append, bind, Except.bind, pure, Except.pure]
      rw [hstep]
      simp only [bind, Except.bind]
      have := ih (pre ++ [wakeSlot (objects a)]) rest (by simpa using hl)
      rw [List.length_append, List.length_singleton] at this
      rw [this]
      simp [Nat.add_assoc, Nat.add_comm 1]

theorem collapse_last (as : List Airplane) (heap : PanelHeap) (v : PanelRef → RingVortex) (L : List PanelRef) :
    ∀ (pre rest : List LastSlot), rest.length = L.length → (∀ r ∈ L, (heap r).ring = some (v r)) →
      L.foldlM (collapseLast as heap) (pre ++ rest, pre.length)
        = .ok (pre ++ L.map (fun r => lastSlot (geometryOf as r) (v r)), pre.length + L.length) := by
  induction L with
  | nil => intro pre rest hl _; simp at hl; subst hl; simp [pure, Except.pure]
  | cons a L ih =>
    intro pre rest hl hv
    cases rest with
    | nil => simp at hl
    | cons b rest =>
      rw [List.foldlM_cons]
      have hstep : collapseLast as heap (pre ++ b :: rest, pre.length) a
          = .ok ((pre ++ [lastSlot (geometryOf as a) (v a)]) ++ rest, pre.length + 1) := by
        unfold collapseLast
        simp [hv a (by simp), writeAt_append, bind, Except.bind, pure, Except.pure]
      rw [hstep]
      simp only [bind, Except.bind]
      have := ih (pre ++ [lastSlot (geometryOf as a) (v a)]) rest (by simpa using hl)
        (fun r hr => hv r (List.mem_cons_of_mem _ hr))
      rw [List.length_append, List.length_singleton] at this
      rw [this]
      simp [Nat.add_assoc, Nat.add_comm 1]

/-- What a step needs to find: rings on the panels of this step and the previous one, ring objects in the wake,
and wake arrays of the right size. -/
structure Ready (s : UnsteadySolver) (k : ℕ) (v vlast : PanelRef → RingVortex) (refs : List ℕ) : Prop where
  counted : Counted (s.problem.airplanesAt k)
  rings : ∀ r ∈ panelRefs (s.problem.airplanesAt k), (s.panels k r).ring = some (v r)
  wake : (wingRefs k (s.problem.airplanesAt k)).flatMap (fun w => (s.wakes w).flatten) = refs.map some
  array : (s.wakeArrays.getD k []).length = refs.length
  last : 0 < k → (panelRefs (s.problem.airplanesAt (k - 1))).length = totalPanels (s.problem.airplanesAt k) ∧
    ∀ r ∈ panelRefs (s.problem.airplanesAt (k - 1)), (s.panels (k - 1) r).ring = some (vlast r)

/-- The panel arrays of step `k`. -/
noncomputable def slotsAt (s : UnsteadySolver) (k : ℕ) (v : PanelRef → RingVortex) : List RingSlot :=
  (panelRefs (s.problem.airplanesAt k)).map fun r => ringSlot (s.problem.airplanesAt k) r (v r)

/-- The previous panels' arrays of step `k`. -/
noncomputable def lastsAt (s : UnsteadySolver) (k : ℕ) (vlast : PanelRef → RingVortex) : List LastSlot :=
  if 0 < k then (panelRefs (s.problem.airplanesAt (k - 1))).map
    fun r => lastSlot (geometryOf (s.problem.airplanesAt (k - 1)) r) (vlast r)
  else List.replicate (totalPanels (s.problem.airplanesAt k)) {}

/-- The solver after `collapse_geometry`. -/
noncomputable def collapsed (s : UnsteadySolver) (k : ℕ) (v vlast : PanelRef → RingVortex) (refs : List ℕ) :
    UnsteadySolver :=
  { s.beginStep k with
    slots := s.slotsAt k v
    seedPoints := seedsOf (s.problem.airplanesAt k) (panelRefs (s.problem.airplanesAt k))
    wakeArrays := s.wakeArrays.set k (refs.map fun a => wakeSlot (s.objects a))
    lasts := s.lastsAt k vlast }

theorem collapse_eq {s : UnsteadySolver} {k : ℕ} {v vlast : PanelRef → RingVortex} {refs : List ℕ}
    (h : Ready s k v vlast refs) :
    (s.beginStep k).collapseGeometry = .ok (s.collapsed k v vlast refs) := by
  unfold collapseGeometry
  have h1 := collapse_fold v (panelRefs (s.problem.airplanesAt k)) (s.beginStep k) []
    (List.replicate (totalPanels (s.problem.airplanesAt k)) {}) rfl
    (by rw [panelRefs_length _ h.counted]; simp) h.rings
  have ha : (s.beginStep k).airplanes = s.problem.airplanesAt k := rfl
  rw [List.length_nil, ← ha] at h1
  rw [h1]
  simp only [bind, Except.bind, List.nil_append]
  have hw : wakeRefs { s.beginStep k with
      slots := (panelRefs (s.beginStep k).airplanes).map fun r => ringSlot (s.beginStep k).airplanes r (v r)
      seedPoints := (s.beginStep k).seedPoints ++ seedsOf (s.beginStep k).airplanes
        (panelRefs (s.beginStep k).airplanes) } = refs.map some := h.wake
  rw [hw]
  have h2 := collapse_wake s.objects refs [] (s.wakeArrays.getD k []) h.array
  simp only [List.nil_append, List.length_nil] at h2
  have e2 : (refs.map some).foldlM (collapseWakeRing (s.beginStep k).objects)
      ((s.beginStep k).wakeArrays.getD (s.beginStep k).step [], 0) = .ok (refs.map (fun a => wakeSlot (s.objects a)),
        0 + refs.length) := h2
  rw [e2]
  simp only
  by_cases hk : 0 < k
  · have hk' : 0 < (s.beginStep k).step := hk
    rw [if_pos hk']
    obtain ⟨hl, hr⟩ := h.last hk
    have h3 := collapse_last (s.problem.airplanesAt (k - 1)) (s.panels (k - 1)) vlast
      (panelRefs (s.problem.airplanesAt (k - 1))) [] (List.replicate (totalPanels (s.problem.airplanesAt k)) {})
      (by simp [hl]) hr
    simp only [List.nil_append, List.length_nil] at h3
    have e3 : (panelRefs ((s.beginStep k).problem.airplanesAt ((s.beginStep k).step - 1))).foldlM
        (collapseLast ((s.beginStep k).problem.airplanesAt ((s.beginStep k).step - 1))
          ((s.beginStep k).panels ((s.beginStep k).step - 1))) ((s.beginStep k).lasts, 0) = _ := h3
    rw [e3]
    simp only [pure, Except.pure, Except.ok.injEq, collapsed, lastsAt, if_pos hk, slotsAt]
    rfl
  · have hk' : ¬ 0 < (s.beginStep k).step := hk
    rw [if_neg hk']
    simp only [pure, Except.pure, Except.ok.injEq, collapsed, lastsAt, if_neg hk, slotsAt]
    rfl

/-- The solver with its linear system set up. -/
noncomputable def assembled (s : UnsteadySolver) (k : ℕ) (v vlast : PanelRef → RingVortex) (refs : List ℕ) :
    UnsteadySolver :=
  (s.collapsed k v vlast refs).calculateWingWingInfluences.calculateFreestreamInfluences.calculateWakeInfluences

/-- The solver with strengths `x` written back. -/
noncomputable def solved (s : UnsteadySolver) (k : ℕ) (v vlast : PanelRef → RingVortex) (refs : List ℕ)
    (x : List ℝ) : UnsteadySolver :=
  { s.assembled k v vlast refs with
    strengths := x
    panels := Function.update s.panels k ((s.slotsAt k v).zipIdx.foldl (storeStrength x) (s.panels k)) }

/-- The solver at the end of the first part of a step. -/
noncomputable def stepped (s : UnsteadySolver) (k : ℕ) (v vlast : PanelRef → RingVortex) (refs : List ℕ)
    (x : List ℝ) : UnsteadySolver :=
  if s.problem.firstResultsStep ≤ (k : ℤ) then (s.solved k v vlast refs x).calculateForces
  else s.solved k v vlast refs x

theorem solveStep_eq {s : UnsteadySolver} {k : ℕ} {v vlast : PanelRef → RingVortex} {refs : List ℕ}
    (h : Ready s k v vlast refs) :
    s.solveStep k = (linalgSolve (s.assembled k v vlast refs).influences
      (List.zipWith (fun w f => -w - f) (s.assembled k v vlast refs).wake
        (s.assembled k v vlast refs).freestream)).map (s.stepped k v vlast refs) := by
  unfold solveStep
  rw [collapse_eq h]
  simp only [bind, Except.bind]
  unfold calculateVortexStrengths
  change (do
    let s_2 ← (do
      let x ← linalgSolve (s.assembled k v vlast refs).influences
        (List.zipWith (fun w f => -w - f) (s.assembled k v vlast refs).wake
          (s.assembled k v vlast refs).freestream)
      pure _)
    pure _) = _
  cases linalgSolve (s.assembled k v vlast refs).influences
      (List.zipWith (fun w f => -w - f) (s.assembled k v vlast refs).wake
        (s.assembled k v vlast refs).freestream) with
  | error e => rfl
  | ok x => rfl

theorem slotsAt_panels (s : UnsteadySolver) (k : ℕ) (v : PanelRef → RingVortex) :
    (s.slotsAt k v).map (·.panel) = panelRefs (s.problem.airplanesAt k) := by
  unfold slotsAt
  rw [List.map_map]
  exact List.map_id _

/-- The panels of step `k` after the strengths have been written back. -/
theorem solved_panels {s : UnsteadySolver} {k : ℕ} {v vlast : PanelRef → RingVortex} {refs : List ℕ}
    (h : Ready s k v vlast refs) (x : List ℝ) :
    (∀ (g : ℕ) (r : PanelRef), (panelRefs (s.problem.airplanesAt k))[g]? = some r →
      (s.solved k v vlast refs x).panels k r
        = { s.panels k r with ring := some ((v r).updateStrength (x.getD g 0)) }) ∧
    (∀ r, r ∉ panelRefs (s.problem.airplanesAt k) → (s.solved k v vlast refs x).panels k r = s.panels k r) := by
  have hk : (s.slotsAt k v).zipIdx.map (fun t => t.1.panel) = panelRefs (s.problem.airplanesAt k) := by
    rw [← s.slotsAt_panels k v]
    conv_rhs => rw [← List.zipIdx_map_fst 0 (s.slotsAt k v), List.map_map]
    rfl
  obtain ⟨h1, h2⟩ := foldl_update (s.slotsAt k v).zipIdx (fun t => t.1.panel)
    (fun t st => { st with ring := st.ring.map fun v => v.updateStrength (x.getD t.2 0) })
    (s.panels k) (by rw [hk]; exact panelRefs_nodup _)
  rw [hk] at h2
  have e : (s.solved k v vlast refs x).panels k
      = (s.slotsAt k v).zipIdx.foldl (storeStrength x) (s.panels k) := by
    simp only [solved, Function.update_self]
  rw [e]
  refine ⟨?_, h2⟩
  intro g r hg
  have hslot : (s.slotsAt k v)[g]? = some (ringSlot (s.problem.airplanesAt k) r (v r)) := by simp [slotsAt, hg]
  have := h1 (_, g) (List.mk_mem_zipIdx_iff_getElem?.mpr hslot)
  simp only [ringSlot] at this
  rw [h.rings r (List.mem_of_getElem? hg)] at this
  exact this

/-- Rings after the first part of a step. -/
theorem stepped_rings {s : UnsteadySolver} {k : ℕ} {v vlast : PanelRef → RingVortex} {refs : List ℕ}
    (h : Ready s k v vlast refs) (x : List ℝ) (g : ℕ) (r : PanelRef)
    (hg : (panelRefs (s.problem.airplanesAt k))[g]? = some r) :
    ((s.stepped k v vlast refs x).panels k r).ring = some ((v r).updateStrength (x.getD g 0)) := by
  have h1 := (solved_panels h x).1 g r hg
  unfold stepped
  split_ifs
  · have e : (s.solved k v vlast refs x).calculateForces.panels k
        = storePanelLoads (s.solved k v vlast refs x).operatingPoint (s.solved k v vlast refs x).airplanes
          ((s.solved k v vlast refs x).slots.map (·.panel)) (s.solved k v vlast refs x).nearFieldForces
          (s.solved k v vlast refs x).nearFieldMoments ((s.solved k v vlast refs x).panels k) := by
      change Function.update _ k _ k = _
      rw [Function.update_self]
      rfl
    have hp : (s.solved k v vlast refs x).slots.map (·.panel) = panelRefs (s.problem.airplanesAt k) :=
      s.slotsAt_panels k v
    rw [e, hp, (storePanelLoads_spec _ _ _ _ _ _ (panelRefs_nodup _)).1 g r hg]
    simp only
    rw [h1]
  · rw [h1]

/-- What the first part of a step leaves alone. -/
theorem stepped_frame (s : UnsteadySolver) (k : ℕ) (v vlast : PanelRef → RingVortex) (refs : List ℕ) (x : List ℝ) :
    (s.stepped k v vlast refs x).problem = s.problem ∧
    (s.stepped k v vlast refs x).step = k ∧
    (s.stepped k v vlast refs x).strengths = x ∧
    (s.stepped k v vlast refs x).slots = s.slotsAt k v ∧
    (s.stepped k v vlast refs x).lasts = s.lastsAt k vlast ∧
    (s.stepped k v vlast refs x).wakeArrays = s.wakeArrays.set k (refs.map fun a => wakeSlot (s.objects a)) ∧
    (s.stepped k v vlast refs x).wakeCounts = s.wakeCounts ∧
    (s.stepped k v vlast refs x).vertices = s.vertices ∧
    (s.stepped k v vlast refs x).wakes = s.wakes ∧
    (s.stepped k v vlast refs x).objects = s.objects ∧
    (s.stepped k v vlast refs x).allocated = s.allocated ∧
    (s.stepped k v vlast refs x).final = s.final ∧
    (s.stepped k v vlast refs x).finalMean = s.finalMean ∧
    (s.stepped k v vlast refs x).finalRms = s.finalRms ∧
    (∀ j, j ≠ k → (s.stepped k v vlast refs x).panels j = s.panels j) ∧
    (∀ j, j ≠ k → (s.stepped k v vlast refs x).loads j = s.loads j) := by
  unfold stepped
  split_ifs
  · refine ⟨rfl, rfl, rfl, rfl, rfl, rfl, rfl, rfl, rfl, rfl, rfl, rfl, rfl, rfl, ?_, ?_⟩
    · intro j hj
      change Function.update (Function.update s.panels k _) k _ j = _
      rw [Function.update_of_ne hj, Function.update_of_ne hj]
    · intro j hj
      change Function.update s.loads k _ j = _
      rw [Function.update_of_ne hj]
  · refine ⟨rfl, rfl, rfl, rfl, rfl, rfl, rfl, rfl, rfl, rfl, rfl, rfl, rfl, rfl, ?_, ?_⟩
    · intro j hj
      change Function.update s.panels k _ j = _
      rw [Function.update_of_ne hj]
    · intro j hj; rfl

end UnsteadySolver
end Ptera
