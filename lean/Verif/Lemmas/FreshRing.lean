import Verif.Lemmas.FreshRun
import Verif.Lemmas.MadePanels
import Verif.Lemmas.NoPenetration

/-!
# What a run of the ring solver does not depend on
-/

namespace Ptera

theorem strengthAt_congr_panels {as : List Airplane} {heap heap' : PanelHeap}
    (h : ∀ r p, panelAt as r = some p → (heap r).ring = (heap' r).ring) (r : PanelRef) :
    strengthAt as heap r = strengthAt as heap' r := by
  cases hp : panelAt as r with
  | none => rw [strengthAt_none hp, strengthAt_none hp]
  | some p => rw [strengthAt_some hp, strengthAt_some hp, h r p hp]

namespace RingSolver

variable {S₁ S₂ : RingSolver}

/-- Solvers with the same airplanes and operating point, before their first solve. -/
structure Alike (S₁ S₂ : RingSolver) : Prop where
  unsolved₁ : S₁.Unsolved
  unsolved₂ : S₂.Unsolved
  airplanes : S₂.airplanes = S₁.airplanes
  operatingPoint : S₂.operatingPoint = S₁.operatingPoint
  freestream : S₂.freestreamVelocity = S₁.freestreamVelocity

theorem Alike.horseshoe (h : Alike S₁ S₂) : S₂.panelHorseshoe = S₁.panelHorseshoe := by
  funext r
  unfold panelHorseshoe
  rw [h.airplanes, h.operatingPoint]

theorem Alike.panelUnit (h : Alike S₁ S₂) : S₂.panelUnit = S₁.panelUnit := by
  funext r p
  unfold RingSolver.panelUnit firstTrailing
  rw [h.airplanes, h.horseshoe]

theorem Alike.finalSlots (h : Alike S₁ S₂) : S₂.finalSlots = S₁.finalSlots := by
  unfold RingSolver.finalSlots
  rw [h.airplanes]

theorem Alike.influences (h : Alike S₁ S₂) : S₂.finalInfluences = S₁.finalInfluences := by
  rw [influences_first h.unsolved₁, influences_first h.unsolved₂, h.airplanes, h.panelUnit]

theorem Alike.finalFreestream (h : Alike S₁ S₂) : S₂.finalFreestream = S₁.finalFreestream := by
  unfold RingSolver.finalFreestream
  rw [h.finalSlots, h.freestream]

theorem Alike.velocityAt (h : Alike S₁ S₂) {x : List ℝ} (hx : x.length = S₁.finalSlots.length) :
    (S₂.solved x).velocityAt = (S₁.solved x).velocityAt := by
  funext p
  have e1 : (S₁.solved x).velocityAt p
      = (List.zipWith (fun a x => x • unit a p) S₁.finalSlots x).sum
        + ((S₁.solved x).trailing.map fun t => t.strength • unitT t p).sum + S₁.freestreamVelocity := rfl
  have e2 : (S₂.solved x).velocityAt p
      = (List.zipWith (fun a x => x • unit a p) S₂.finalSlots x).sum
        + ((S₂.solved x).trailing.map fun t => t.strength • unitT t p).sum + S₂.freestreamVelocity := rfl
  rw [e1, e2, trailing_velocity h.unsolved₁ x p hx, trailing_velocity h.unsolved₂ x p (by rw [h.finalSlots]; exact hx),
    h.airplanes, h.panelUnit, h.freestream]

theorem Alike.solutionVelocity (h : Alike S₁ S₂) {x : List ℝ} (hx : x.length = S₁.finalSlots.length) (points : List V3) :
    (S₂.solved x).solutionVelocity points = (S₁.solved x).solutionVelocity points := by
  rw [velocity_at (S₁.solved x) points hx,
    velocity_at (S₂.solved x) points (show x.length = S₂.finalSlots.length by rw [h.finalSlots]; exact hx),
    h.velocityAt hx]

/-- The rings after the solve. -/
theorem Alike.rings (h : Alike S₁ S₂) (x : List ℝ) (r : PanelRef) (p : Panel) (hp : panelAt S₁.airplanes r = some p) :
    ((S₂.solved x).heap r).ring = ((S₁.solved x).heap r).ring := by
  obtain ⟨g, hg⟩ := List.getElem?_of_mem ((mem_panelRefs S₁.airplanes r).mpr ⟨p, hp⟩)
  rw [(S₁.solved_heap x).1 g r hg, (S₂.solved_heap x).1 g r (by rw [h.airplanes]; exact hg), h.airplanes]

theorem Alike.strength (S : RingSolver) (x : List ℝ) {g : ℕ} {r : PanelRef} {p : Panel}
    (hp : panelAt S.airplanes r = some p) (hg : (panelRefs S.airplanes)[g]? = some r) :
    x.getD g 0 = strengthAt S.airplanes (S.solved x).heap r := by
  rw [strengthAt_some hp, (S.solved_heap x).1 g r hg]
  rfl

/-- Effective strengths after the solve. -/
theorem Alike.effective (h : Alike S₁ S₂) (hm : ∀ a ∈ S₁.airplanes, a.Made) (x : List ℝ) {g : ℕ} {r : PanelRef}
    (hg : (panelRefs S₁.airplanes)[g]? = some r) :
    effectiveRight S₁.airplanes (S₂.solved x).heap (x.getD g 0) r
      = effectiveRight S₁.airplanes (S₁.solved x).heap (x.getD g 0) r ∧
    effectiveFront S₁.airplanes (S₂.solved x).heap (x.getD g 0) r
      = effectiveFront S₁.airplanes (S₁.solved x).heap (x.getD g 0) r ∧
    effectiveLeft S₁.airplanes (S₂.solved x).heap (x.getD g 0) r
      = effectiveLeft S₁.airplanes (S₁.solved x).heap (x.getD g 0) r := by
  obtain ⟨p, hp⟩ := (mem_panelRefs S₁.airplanes r).mp (List.mem_of_getElem? hg)
  have hs := strengthAt_congr_panels (h.rings x)
  have e1 := Alike.strength S₁ x hp hg
  have e2 : x.getD g 0 = strengthAt S₁.airplanes (S₂.solved x).heap r := by rw [hs r]; exact e1
  refine ⟨?_, ?_, ?_⟩
  · conv_lhs => rw [e2]
    conv_rhs => rw [e1]
    rw [effectiveRight_eq hm _ hp, effectiveRight_eq hm _ hp]
    unfold netRight
    rw [hs, hs]
  · conv_lhs => rw [e2]
    conv_rhs => rw [e1]
    rw [effectiveFront_eq hm _ hp, effectiveFront_eq hm _ hp]
    unfold netFront
    rw [hs, hs]
  · conv_lhs => rw [e2]
    conv_rhs => rw [e1]
    rw [effectiveLeft_eq hm _ hp, effectiveLeft_eq hm _ hp]
    unfold netLeft
    rw [hs, hs]

theorem Alike.effectives (h : Alike S₁ S₂) (hm : ∀ a ∈ S₁.airplanes, a.Made) (x : List ℝ) :
    (S₂.solved x).effective effectiveRight = (S₁.solved x).effective effectiveRight ∧
    (S₂.solved x).effective effectiveFront = (S₁.solved x).effective effectiveFront ∧
    (S₂.solved x).effective effectiveLeft = (S₁.solved x).effective effectiveLeft := by
  have key : ∀ f : List Airplane → PanelHeap → ℝ → PanelRef → ℝ,
      (∀ (g : ℕ) (r : PanelRef), (panelRefs S₁.airplanes)[g]? = some r →
        f S₁.airplanes (S₂.solved x).heap (x.getD g 0) r = f S₁.airplanes (S₁.solved x).heap (x.getD g 0) r) →
      (S₂.solved x).effective f = (S₁.solved x).effective f := by
    intro f hf
    unfold RingSolver.effective
    have ea : (S₂.solved x).airplanes = S₁.airplanes := h.airplanes
    have ea' : (S₁.solved x).airplanes = S₁.airplanes := rfl
    rw [ea, ea']
    apply List.map_congr_left
    rintro ⟨r, g⟩ hrg
    exact hf g r (List.mk_mem_zipIdx_iff_getElem?.mp hrg)
  exact ⟨key _ fun g r hg => (h.effective hm x hg).1, key _ fun g r hg => (h.effective hm x hg).2.1,
    key _ fun g r hg => (h.effective hm x hg).2.2⟩

/-- Forces and moments after the solve. -/
theorem Alike.forces (h : Alike S₁ S₂) (hm : ∀ a ∈ S₁.airplanes, a.Made) {x : List ℝ}
    (hx : x.length = S₁.finalSlots.length) :
    (S₂.solved x).nearFieldForces = (S₁.solved x).nearFieldForces ∧
    (S₂.solved x).nearFieldMoments = (S₁.solved x).nearFieldMoments := by
  obtain ⟨e1, e2, e3⟩ := h.effectives hm x
  have eo : (S₂.solved x).operatingPoint = (S₁.solved x).operatingPoint := h.operatingPoint
  have es : (S₂.solved x).slots = (S₁.solved x).slots := h.finalSlots
  have f1 : (S₂.solved x).rightForces = (S₁.solved x).rightForces := by
    unfold rightForces
    rw [e1, eo, es, h.solutionVelocity hx]
  have f2 : (S₂.solved x).frontForces = (S₁.solved x).frontForces := by
    unfold frontForces
    rw [e2, eo, es, h.solutionVelocity hx]
  have f3 : (S₂.solved x).leftForces = (S₁.solved x).leftForces := by
    unfold leftForces
    rw [e3, eo, es, h.solutionVelocity hx]
  constructor
  · unfold nearFieldForces
    rw [f1, f2, f3]
  · unfold nearFieldMoments
    rw [f1, f2, f3, es]

/-- A run of either solver: the other one succeeds as well, with the same strengths, loads and velocities. -/
theorem Alike.run (h : Alike S₁ S₂) (hm : ∀ a ∈ S₁.airplanes, a.Made) {s₁ : RingSolver} (h₁ : S₁.run = .ok s₁) :
    ∃ s₂, S₂.run = .ok s₂ ∧ s₂.strengths = s₁.strengths ∧ s₂.slots = s₁.slots ∧ s₂.influences = s₁.influences ∧
      s₂.loads = s₁.loads ∧ (∀ points, s₂.solutionVelocity points = s₁.solutionVelocity points) ∧
      ∀ r p, panelAt S₁.airplanes r = some p → (s₂.heap r).ring = (s₁.heap r).ring ∧
        (s₂.heap r).loads = (s₁.heap r).loads ∧
        (p.isTrailingEdge = true → (s₂.heap r).horseshoe = (s₁.heap r).horseshoe) := by
  obtain ⟨x, hx, hlen, rfl⟩ := run_result (s := S₁) h.unsolved₁.counted h.unsolved₁.slots
    (by rw [h.unsolved₁.trailing]; simp) (by rw [h.unsolved₁.strengths]; simp) h₁
  have hrun := run_eq S₂ h.unsolved₂.counted h.unsolved₂.slots (by rw [h.unsolved₂.trailing]; simp)
  rw [h.influences, h.finalFreestream, hx] at hrun
  obtain ⟨hF, hM⟩ := h.forces hm hlen
  refine ⟨_, hrun, rfl, h.finalSlots, h.influences, ?_, fun points => h.solutionVelocity hlen points, ?_⟩
  · have p1 : (S₁.solved x).slots.map (·.panel) = panelRefs S₁.airplanes := S₁.finalSlots_panels
    have p2 : (S₂.solved x).slots.map (·.panel) = panelRefs S₁.airplanes := by
      rw [← h.airplanes]; exact S₂.finalSlots_panels
    show (processForces S₂.operatingPoint S₂.airplanes ((S₂.solved x).slots.map (·.panel)) (S₂.solved x).nearFieldForces
        (S₂.solved x).nearFieldMoments (S₂.solved x).heap).2
      = (processForces S₁.operatingPoint S₁.airplanes ((S₁.solved x).slots.map (·.panel)) (S₁.solved x).nearFieldForces
        (S₁.solved x).nearFieldMoments (S₁.solved x).heap).2
    rw [p1, p2, hF, hM, h.airplanes, h.operatingPoint]
    exact processForces_fresh _ _ _ _ _ _
  · intro r p hp
    obtain ⟨g, hg⟩ := List.getElem?_of_mem ((mem_panelRefs S₁.airplanes r).mpr ⟨p, hp⟩)
    have a1 : (S₁.solved x).calculateForces.calculateStreamlines.heap r = _ := (S₁.final_heap x).1 g r hg
    have a2 : (S₂.solved x).calculateForces.calculateStreamlines.heap r = _ :=
      (S₂.final_heap x).1 g r (by rw [h.airplanes]; exact hg)
    rw [a1, a2]
    refine ⟨?_, ?_, ?_⟩
    · simp only [h.airplanes]
    · simp only [h.airplanes, h.operatingPoint, hF, hM]
    · intro ht
      simp only [h.airplanes, geometryOf_eq hp, ht, if_true, h.horseshoe]

/-- And errors are the same. -/
theorem Alike.run_error (h : Alike S₁ S₂) {e : Err} (h₁ : S₁.run = .error e) :
    e = .linAlgError ∧ S₂.run = .error e := by
  have e1 := run_eq S₁ h.unsolved₁.counted h.unsolved₁.slots (by rw [h.unsolved₁.trailing]; simp)
  have e2 := run_eq S₂ h.unsolved₂.counted h.unsolved₂.slots (by rw [h.unsolved₂.trailing]; simp)
  rw [h.influences, h.finalFreestream] at e2
  rw [e1] at h₁
  cases hx : linalgSolve S₁.finalInfluences (S₁.finalFreestream.map fun x => -x) with
  | ok x => rw [hx] at h₁; cases h₁
  | error e' =>
    rw [hx] at h₁ e2
    cases h₁
    exact ⟨linalgSolve_error hx, e2⟩

end RingSolver
end Ptera
