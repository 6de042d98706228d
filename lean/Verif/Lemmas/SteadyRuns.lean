import Verif.Lemmas.NoPenetration
import Verif.Props.Loads
import Verif.Spec.Lattice

/-! The panels and loads after a run of a steady solver. -/

namespace Ptera

/-- The Kutta–Joukowski array over slots. -/
theorem kuttaForces_get (density : ℝ) (strengths : List ℝ) (velocities vectors : List V3) (i : ℕ) (s : ℝ) (v l : V3)
    (hs : strengths[i]? = some s) (hv : velocities[i]? = some v) (hl : vectors[i]? = some l) :
    (kuttaForces density strengths velocities vectors)[i]? = some (kuttaJoukowski density s v l) :=
  C35_forces density strengths velocities vectors i s v l hs hv hl

theorem momentsAbout_get (centers references forces : List V3) (i : ℕ) (c r f : V3)
    (hc : centers[i]? = some c) (hr : references[i]? = some r) (hf : forces[i]? = some f) :
    (momentsAbout centers references forces)[i]? = some ((c - r).cross f) :=
  (C35_moments centers references forces 0 i c r f hc hr hf).1

theorem getD_some {α : Type*} {l : List α} {i : ℕ} {a d : α} (h : l[i]? = some a) : l.getD i d = a := by
  rw [List.getD_eq_getElem?_getD, h]; rfl

theorem getElem?_of_length {α β : Type*} {l : List α} {l' : List β} (h : l.length = l'.length) {i : ℕ} {a : α}
    (ha : l[i]? = some a) : ∃ b, l'[i]? = some b :=
  ⟨l'[i]'(by rw [← h]; exact (List.getElem?_eq_some_iff.mp ha).1), List.getElem?_eq_getElem _⟩

namespace HorseshoeSolver

/-- The panels after a run. -/
theorem final_heap (s : HorseshoeSolver) (x : List ℝ) :
    (∀ (g : ℕ) (r : PanelRef), (panelRefs s.airplanes)[g]? = some r → (s.solved x).calculateForces.heap r
      = { s.heap r with
          horseshoe := some ((s.panelVortex r).updateStrength (x.getD g 0))
          loads := some (panelLoads s.operatingPoint (geometryOf s.airplanes r)
            ((s.solved x).nearFieldForces.getD g 0) ((s.solved x).nearFieldMoments.getD g 0)) }) ∧
    (∀ r, r ∉ panelRefs s.airplanes → (s.solved x).calculateForces.heap r = s.heap r) := by
  have hp : (s.solved x).slots.map (·.panel) = panelRefs s.airplanes := s.finalSlots_panels
  have hspec := storePanelLoads_spec s.operatingPoint s.airplanes (panelRefs s.airplanes)
    (s.solved x).nearFieldForces (s.solved x).nearFieldMoments (s.solved x).heap (panelRefs_nodup _)
  have he : (s.solved x).calculateForces.heap = storePanelLoads s.operatingPoint s.airplanes
      ((s.solved x).slots.map (·.panel)) (s.solved x).nearFieldForces (s.solved x).nearFieldMoments
      (s.solved x).heap := rfl
  rw [hp] at he
  rw [he]
  constructor
  · intro g r hg
    rw [hspec.1 g r hg, (s.solved_heap x).1 g r hg]
  · intro r hr
    rw [hspec.2 r hr, (s.solved_heap x).2 r hr]

theorem slot_get (s : HorseshoeSolver) {g : ℕ} {r : PanelRef} (hg : (panelRefs s.airplanes)[g]? = some r) :
    s.finalSlots[g]? = some (slotOf s.airplanes r (s.panelVortex r)) := by
  simp [finalSlots, hg]

/-- Force and moment rows of a panel. -/
theorem forces_get (s : HorseshoeSolver) (x : List ℝ) (hx : x.length = s.finalSlots.length) {g : ℕ} {r : PanelRef}
    (hg : (panelRefs s.airplanes)[g]? = some r) :
    let v := s.panelVortex r
    ∃ u, (s.solved x).solutionVelocity [v.finiteLeg.center] = [u] ∧
      (s.solved x).nearFieldForces[g]?
        = some (kuttaJoukowski s.operatingPoint.density (x.getD g 0) u v.finiteLeg.vector) ∧
      (s.solved x).nearFieldMoments[g]?
        = some ((v.finiteLeg.center - ((s.airplanes[r.airplane]?.map (·.xyzRef)).getD 0)).cross
          (kuttaJoukowski s.operatingPoint.density (x.getD g 0) u v.finiteLeg.vector)) := by
  intro v
  have hslot := s.slot_get hg
  obtain ⟨xg, hxg⟩ := getElem?_of_length hx.symm hslot
  rw [getD_some hxg]
  have hv : (s.solved x).strengths.length = (s.solved x).slots.length := hx
  rw [velocity_eq _ _ hv]
  refine ⟨_, rfl, ?_⟩
  have hF : (s.solved x).nearFieldForces[g]? = some (kuttaJoukowski s.operatingPoint.density xg
      ((List.zipWith (fun a x => x • unit a v.finiteLeg.center) (s.solved x).slots (s.solved x).strengths).sum
        + (s.solved x).freestreamVelocity) v.finiteLeg.vector) := by
    unfold nearFieldForces
    apply kuttaForces_get
    · exact hxg
    · rw [velocity_eq _ _ hv]
      have : (s.solved x).slots[g]? = _ := hslot
      simp [this, slotOf, v]
    · have : (s.solved x).slots[g]? = _ := hslot
      simp [this, slotOf, v]
  refine ⟨hF, ?_⟩
  unfold nearFieldMoments
  apply momentsAbout_get _ _ _ _ _ _ _ _ _ hF
  · have : (s.solved x).slots[g]? = _ := hslot
    simp [this, slotOf, v]
  · have : (s.solved x).slots[g]? = _ := hslot
    simp [this, slotOf]

/-- A solver that has been run, up to seed points and streamlines. -/
noncomputable def after (s : HorseshoeSolver) (x : List ℝ) (seeds : List V3) (lines : Option (List (List V3))) :
    HorseshoeSolver :=
  { (s.solved x).calculateForces with seedPoints := seeds, streamlines := lines }

/-- A further run starts from slots, strengths and vortices that do not matter. -/
theorem rerun_eq (s : HorseshoeSolver) (x : List ℝ) (hc : Counted s.airplanes)
    (hx : linalgSolve s.finalInfluences (s.finalFreestream.map fun x => -x) = .ok x)
    (seeds : List V3) (lines : Option (List (List V3))) :
    ∃ lines', (s.after x seeds lines).run
      = .ok (s.after x (seeds ++ seedsOf s.airplanes (panelRefs s.airplanes)) lines') := by
  set s' := s.after x seeds lines with hs'
  have hl' : s'.slots.length = totalPanels s'.airplanes := by
    show s.finalSlots.length = totalPanels s.airplanes
    rw [finalSlots_length, panelRefs_length _ hc]
  rw [run_eq s' hc hl']
  have e1 : s'.finalInfluences = s.finalInfluences := rfl
  have e2 : s'.finalFreestream = s.finalFreestream := rfl
  rw [e1, e2, hx]
  simp only [Except.map, Except.ok.injEq]
  have eF : (s'.solved x).nearFieldForces = (s.solved x).nearFieldForces := rfl
  have eM : (s'.solved x).nearFieldMoments = (s.solved x).nearFieldMoments := rfl
  have hheap : (s'.solved x).calculateForces.heap = s'.heap := by
    funext r
    by_cases hr : r ∈ panelRefs s.airplanes
    · obtain ⟨g, hg⟩ := List.getElem?_of_mem hr
      rw [(s'.final_heap x).1 g r hg, eF, eM]
      have h1 : s'.heap r = _ := (s.final_heap x).1 g r hg
      rw [h1]
      rfl
    · exact (s'.final_heap x).2 r hr
  have hloads : (s'.solved x).calculateForces.loads = s'.loads := by
    have a1 : (s'.solved x).calculateForces.loads = s.airplanes.zipIdx.map fun a =>
      airplaneLoads s.operatingPoint (s'.solved x).calculateForces.heap a.1 a.2 := rfl
    have a2 : s'.loads = s.airplanes.zipIdx.map fun a => airplaneLoads s.operatingPoint s'.heap a.1 a.2 := rfl
    rw [a1, a2, hheap]
  refine ⟨(s'.solved x).calculateForces.calculateStreamlines.streamlines, ?_⟩
  have e3 : (s'.solved x).calculateForces.calculateStreamlines
      = { s' with
          seedPoints := seeds ++ seedsOf s.airplanes (panelRefs s.airplanes)
          streamlines := (s'.solved x).calculateForces.calculateStreamlines.streamlines
          heap := (s'.solved x).calculateForces.heap, loads := (s'.solved x).calculateForces.loads } := rfl
  conv_lhs => rw [e3, hheap, hloads]
  rfl

/-- Any number of further runs. -/
theorem reruns_eq (s : HorseshoeSolver) (x : List ℝ) (hc : Counted s.airplanes)
    (hx : linalgSolve s.finalInfluences (s.finalFreestream.map fun x => -x) = .ok x) (n : ℕ) :
    ∀ (seeds : List V3) (lines : Option (List (List V3))), ∃ lines', runTimes run n (s.after x seeds lines)
      = .ok (s.after x (seeds ++ (List.replicate n (seedsOf s.airplanes (panelRefs s.airplanes))).flatten) lines') := by
  induction n with
  | zero => intro seeds lines; exact ⟨lines, by simp [runTimes]⟩
  | succ n ih =>
    intro seeds lines
    obtain ⟨l1, h1⟩ := rerun_eq s x hc hx seeds lines
    obtain ⟨l2, h2⟩ := ih (seeds ++ seedsOf s.airplanes (panelRefs s.airplanes)) l1
    refine ⟨l2, ?_⟩
    unfold runTimes
    rw [h1]
    simp only [bind, Except.bind]
    rw [h2]
    simp [List.replicate_succ]

end HorseshoeSolver

namespace RingSolver

theorem final_heap (s : RingSolver) (x : List ℝ) :
    (∀ (g : ℕ) (r : PanelRef), (panelRefs s.airplanes)[g]? = some r → (s.solved x).calculateForces.heap r
      = { ring := some ((panelRing s.airplanes r).updateStrength (x.getD g 0))
          horseshoe := (if (geometryOf s.airplanes r).isTrailingEdge then some (s.panelHorseshoe r)
            else (s.heap r).horseshoe).map fun v => v.updateStrength (x.getD g 0)
          loads := some (panelLoads s.operatingPoint (geometryOf s.airplanes r)
            ((s.solved x).nearFieldForces.getD g 0) ((s.solved x).nearFieldMoments.getD g 0)) }) ∧
    (∀ r, r ∉ panelRefs s.airplanes → (s.solved x).calculateForces.heap r = s.heap r) := by
  have hp : (s.solved x).slots.map (·.panel) = panelRefs s.airplanes := s.finalSlots_panels
  have hspec := storePanelLoads_spec s.operatingPoint s.airplanes (panelRefs s.airplanes)
    (s.solved x).nearFieldForces (s.solved x).nearFieldMoments (s.solved x).heap (panelRefs_nodup _)
  have he : (s.solved x).calculateForces.heap = storePanelLoads s.operatingPoint s.airplanes
      ((s.solved x).slots.map (·.panel)) (s.solved x).nearFieldForces (s.solved x).nearFieldMoments
      (s.solved x).heap := rfl
  rw [hp] at he
  rw [he]
  constructor
  · intro g r hg
    rw [hspec.1 g r hg, (s.solved_heap x).1 g r hg]
  · intro r hr
    rw [hspec.2 r hr, (s.solved_heap x).2 r hr]

theorem slot_get (s : RingSolver) {g : ℕ} {r : PanelRef} (hg : (panelRefs s.airplanes)[g]? = some r) :
    s.finalSlots[g]? = some (ringSlot s.airplanes r (panelRing s.airplanes r)) := by
  simp [finalSlots, hg]

/-- Velocity of the solver at one point. -/
noncomputable def velocityAt (s : RingSolver) (p : V3) : V3 :=
  (List.zipWith (fun a x => x • unit a p) s.slots s.strengths).sum
    + (s.trailing.map fun t => t.strength • unitT t p).sum + s.freestreamVelocity

theorem velocity_at (s : RingSolver) (points : List V3) (h : s.strengths.length = s.slots.length) :
    s.solutionVelocity points = points.map s.velocityAt := velocity_eq s points h

theorem effective_get (f : List Airplane → PanelHeap → ℝ → PanelRef → ℝ) (s : RingSolver) {g : ℕ} {r : PanelRef}
    (hg : (panelRefs s.airplanes)[g]? = some r) :
    (s.effective f)[g]? = some (f s.airplanes s.heap (s.strengths.getD g 0) r) := by
  simp [effective, hg]

/-- The three leg forces, the panel force and the panel moment. -/
theorem forces_get (s : RingSolver) (x : List ℝ) (hx : x.length = s.finalSlots.length) {g : ℕ} {r : PanelRef}
    (hg : (panelRefs s.airplanes)[g]? = some r) :
    let v := panelRing s.airplanes r
    let S := s.solved x
    let kj := fun (f : List Airplane → PanelHeap → ℝ → PanelRef → ℝ) (leg : LineVortex) =>
      kuttaJoukowski s.operatingPoint.density (f s.airplanes S.heap (x.getD g 0) r) (S.velocityAt leg.center) leg.vector
    let ref := ((s.airplanes[r.airplane]?.map (·.xyzRef)).getD 0)
    let F := kj effectiveFront v.frontLeg
    let L := kj effectiveLeft v.leftLeg
    let R := kj effectiveRight v.rightLeg
    S.frontForces[g]? = some F ∧ S.leftForces[g]? = some L ∧ S.rightForces[g]? = some R ∧
    S.nearFieldForces[g]? = some (F + L + R) ∧
    S.nearFieldMoments[g]? = some ((v.frontLeg.center - ref).cross F + (v.leftLeg.center - ref).cross L
      + (v.rightLeg.center - ref).cross R) := by
  intro v S kj ref F L R
  have hslot : S.slots[g]? = _ := s.slot_get hg
  have hv : S.strengths.length = S.slots.length := hx
  have hF : S.frontForces[g]? = some F := by
    unfold frontForces
    apply kuttaForces_get _ _ _ _ _ _ _ _ (effective_get effectiveFront S hg)
    · rw [velocity_at _ _ hv]; simp [hslot, ringSlot, v]
    · simp [hslot, ringSlot, v]
  have hL : S.leftForces[g]? = some L := by
    unfold leftForces
    apply kuttaForces_get _ _ _ _ _ _ _ _ (effective_get effectiveLeft S hg)
    · rw [velocity_at _ _ hv]; simp [hslot, ringSlot, v]
    · simp [hslot, ringSlot, v]
  have hR : S.rightForces[g]? = some R := by
    unfold rightForces
    apply kuttaForces_get _ _ _ _ _ _ _ _ (effective_get effectiveRight S hg)
    · rw [velocity_at _ _ hv]; simp [hslot, ringSlot, v]
    · simp [hslot, ringSlot, v]
  refine ⟨hF, hL, hR, ?_, ?_⟩
  · simp [nearFieldForces, addRow, List.getElem?_zipWith, hF, hL, hR]
  · have hmF := momentsAbout_get (S.slots.map (·.frontCenter)) (S.slots.map (·.momentReference)) S.frontForces g
      v.frontLeg.center ref F (by simp [hslot, ringSlot, v]) (by simp [hslot, ringSlot, ref]) hF
    have hmL := momentsAbout_get (S.slots.map (·.leftCenter)) (S.slots.map (·.momentReference)) S.leftForces g
      v.leftLeg.center ref L (by simp [hslot, ringSlot, v]) (by simp [hslot, ringSlot, ref]) hL
    have hmR := momentsAbout_get (S.slots.map (·.rightCenter)) (S.slots.map (·.momentReference)) S.rightForces g
      v.rightLeg.center ref R (by simp [hslot, ringSlot, v]) (by simp [hslot, ringSlot, ref]) hR
    simp only [nearFieldMoments, addRow, List.getElem?_zipWith, hmF, hmL, hmR]

end RingSolver
end Ptera
