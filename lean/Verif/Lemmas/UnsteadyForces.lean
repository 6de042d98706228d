import Verif.Lemmas.WakeRecords
import Verif.Lemmas.SteadyRuns
import Verif.Spec.Unsteady

/-! The loads of one unsteady step. -/

namespace Ptera
namespace UnsteadySolver

theorem LineVortex.center_mk (o t : V3) (g : ℝ) : (LineVortex.mk' o t g).center = (1 / 2 : ℝ) • (o + t) := by
  simp only [LineVortex.mk']
  ext <;> simp <;> ring

theorem calculateForces_ring (T : UnsteadySolver) (hn : (T.slots.map (·.panel)).Nodup) (r : PanelRef) :
    ((T.calculateForces.panels T.step r).ring) = (T.panels T.step r).ring := by
  unfold calculateForces processForces
  simp only [Function.update_self]
  obtain ⟨h1, h2⟩ := storePanelLoads_spec T.operatingPoint T.airplanes (T.slots.map (·.panel)) T.nearFieldForces
    T.nearFieldMoments (T.panels T.step) hn
  by_cases hr : r ∈ T.slots.map (·.panel)
  · obtain ⟨g, hg⟩ := List.getElem?_of_mem hr
    rw [h1 g r hg]
  · rw [h2 r hr]

theorem effective_get (f : List Airplane → PanelHeap → ℝ → PanelRef → ℝ) (s : UnsteadySolver) {g : ℕ} {r : PanelRef}
    (hg : (panelRefs s.airplanes)[g]? = some r) :
    (s.effective f)[g]? = some (f s.airplanes (s.panels s.step) (s.strengths.getD g 0) r) := by
  simp [effective, hg]

section
variable {p : UnsteadyProblem} {pres : Bool} {s s' : UnsteadySolver} {st sm : ℕ → UnsteadySolver}

/-- What the flapping term of a step is for the points of rings. -/
theorem Trace.apparent_ring (h : Trace p pres s s' st sm) {k : ℕ} (hk : k < p.numSteps) {r : PanelRef}
    (hp : p.Regular) (hr : r ∈ panelRefs (p.airplanesAt k)) (point : RingVortex → V3)
    (hpoint : ∀ (v : RingVortex) g, point (v.updateStrength g) = point v) :
    ringPoint s' k r point = point (boundRing p k r) ∧
    (if k < 1 then 0 else (1 / p.deltaTime) • (-(point (boundRing p k r) - point (boundRing p (k - 1) r))))
      = -pointVelocity s' k r point := by
  have hrp : ∀ j < p.numSteps, r ∈ panelRefs (p.airplanesAt j) → ringPoint s' j r point = point (boundRing p j r) := by
    intro j hj hrj
    obtain ⟨g, hg⟩ := h.rings hj hrj
    unfold ringPoint
    rw [hg]
    simp [hpoint]
  refine ⟨hrp k hk hr, ?_⟩
  cases k with
  | zero => simp [pointVelocity]
  | succ j =>
    simp only [pointVelocity]
    rw [if_neg (by omega), hrp _ hk hr, hrp j (by omega) (by
      rw [panelRefs_same hp (by omega : j < p.numSteps) hk]; exact hr), h.final_eq.2.2.2.2.2.2, smul_neg]
    rfl

/-- The four forces, the panel force and the panel moment at a step. -/
theorem Trace.forces (hp : p.Regular) (h : Trace p pres s s' st sm) {k : ℕ} (hk : k < p.numSteps)
    (hfirst : p.firstResultsStep ≤ (k : ℤ)) :
    ∃ T : UnsteadySolver, sm k = T.calculateForces ∧ T.step = k ∧ T.problem = p ∧
      T.slots.map (·.panel) = panelRefs (p.airplanesAt k) ∧
      ∀ (g : ℕ) (r : PanelRef), (panelRefs (p.airplanesAt k))[g]? = some r →
        let v := boundRing p k r
        let a := p.airplanesAt k
        let H := s'.panels k
        let panel := geometryOf a r
        let d := (p.operatingPointAt k).density
        let F := kuttaJoukowski d (netFront a H r) (relativeFlow s' k r RingVortex.frontMiddle)
          (v.frontLeft - v.frontRight)
        let L := kuttaJoukowski d (netLeft a H r) (relativeFlow s' k r RingVortex.leftMiddle)
          (v.backLeft - v.frontLeft)
        let R := kuttaJoukowski d (netRight a H r) (relativeFlow s' k r RingVortex.rightMiddle)
          (v.frontRight - v.backRight)
        let U := (d * (strengthAt a H r - previousStrength s' k r) * panel.area / p.deltaTime) • panel.unitNormal
        let ref := (a[r.airplane]?.map (·.xyzRef)).getD 0
        T.nearFieldForces[g]? = some (F + L + R + U) ∧
        T.nearFieldMoments[g]? = some ((v.frontMiddle - ref).cross F + (v.leftMiddle - ref).cross L
          + (v.rightMiddle - ref).cross R + (panel.collocationPoint - ref).cross U) := by
  have hinv := h.inv k (by omega)
  obtain ⟨addr, hw⟩ := hinv.wake hk
  obtain ⟨x, hx, hs1, hf⟩ := hinv.solve hp hk hw (h.solve k hk)
  have hxl : x.length = (panelRefs (p.airplanesAt k)).length := by
    obtain ⟨hlen, _⟩ := linalgSolve_ok hx
    rw [hinv.influences hp hk] at hlen
    simpa using hlen
  set T := (st k).solved k ((st k).ringAt k) ((st k).ringAt (k - 1)) (wakeAddresses p k addr) x with hT
  have hsm : sm k = T.calculateForces := by
    rw [hs1]; unfold stepped; rw [if_pos (by rw [hinv.problem]; exact hfirst)]
  have hTp : T.problem = p := hinv.problem
  have hTs : T.step = k := rfl
  have hTa : T.airplanes = p.airplanesAt k := by unfold airplanes; rw [hTp, hTs]
  have hTo : T.operatingPoint = p.operatingPointAt k := by unfold operatingPoint; rw [hTp, hTs]
  have hTsl : T.slots = (st k).slotsAt k ((st k).ringAt k) := rfl
  have hTl : T.lasts = (st k).lastsAt k ((st k).ringAt (k - 1)) := rfl
  have hpan : T.slots.map (·.panel) = panelRefs (p.airplanesAt k) := by
    rw [hTsl]; unfold slotsAt
    rw [hinv.problem, List.map_map]
    conv_rhs => rw [← List.map_id (panelRefs (p.airplanesAt k))]
    rfl
  refine ⟨T, hsm, rfl, hTp, hpan, ?_⟩
  intro g r hg v a H panel d F L R U ref
  have hmem : r ∈ panelRefs a := List.mem_of_getElem? hg
  obtain ⟨q, hq⟩ := (mem_panelRefs _ _).mp hmem
  have hgT : (panelRefs T.airplanes)[g]? = some r := by rw [hTa]; exact hg
  have hring : ∀ r, (T.panels T.step r).ring = (H r).ring := by
    intro r
    rw [← calculateForces_ring T (by rw [hpan]; exact panelRefs_nodup _) r, ← hsm]
    change _ = (s'.panels k r).ring
    rw [h.panels hk, hTs]
  have hstr : strengthAt a (T.panels T.step) r = x.getD g 0 := by
    rw [strengthAt_congr hring, strengthAt_some hq]
    change (((s'.panels k r).ring).map _).getD 0 = _
    rw [h.panels hk, hf.rings g r hg]
    rfl
  have hnF : effectiveFront T.airplanes (T.panels T.step) (T.strengths.getD g 0) r = netFront a H r := by
    change effectiveFront T.airplanes (T.panels T.step) (x.getD g 0) r = _
    rw [← hstr, hTa, effectiveFront_eq (hp.made k) _ hq]
    unfold netFront
    simp only [strengthAt_congr hring]
    rfl
  have hnL : effectiveLeft T.airplanes (T.panels T.step) (T.strengths.getD g 0) r = netLeft a H r := by
    change effectiveLeft T.airplanes (T.panels T.step) (x.getD g 0) r = _
    rw [← hstr, hTa, effectiveLeft_eq (hp.made k) _ hq]
    unfold netLeft
    simp only [strengthAt_congr hring]
    rfl
  have hnR : effectiveRight T.airplanes (T.panels T.step) (T.strengths.getD g 0) r = netRight a H r := by
    change effectiveRight T.airplanes (T.panels T.step) (x.getD g 0) r = _
    rw [← hstr, hTa, effectiveRight_eq (hp.made k) _ hq]
    unfold netRight
    simp only [strengthAt_congr hring]
    rfl
  have hvel : ∀ pts, T.solutionVelocity pts = pts.map (flow s' k) := by
    intro pts
    have : T.solutionVelocity pts = (sm k).solutionVelocity pts := by rw [hsm]; rfl
    rw [this, h.velocity hp hk]
  -- velocities at the centres
  have hV : ∀ (f : RingSlot → V3) (f' : LastSlot → V3) (point : RingVortex → V3)
      (_ : ∀ (v : RingVortex) g, point (v.updateStrength g) = point v)
      (_ : ∀ r g, f (ringSlot (p.airplanesAt k) r ((boundRing p k r).updateStrength g)) = point (boundRing p k r))
      (_ : ∀ r g, f' (lastSlot (geometryOf (p.airplanesAt (k - 1)) r) ((boundRing p (k - 1) r).updateStrength g))
        = point (boundRing p (k - 1) r)),
      (addRow (T.solutionVelocity (T.slots.map f)) (T.flapping f f'))[g]? = some (relativeFlow s' k r point) := by
    intro f f' point h1 h2 h3
    rw [hvel, hTsl, hinv.slots hk h2, hinv.flapping hp hk hTp hTs hTsl hTl
      (F := fun k r => point (boundRing p k r)) h2 h3]
    obtain ⟨e1, e2⟩ := h.apparent_ring hk hp hmem point h1
    unfold addRow
    simp only [List.getElem?_zipWith, List.getElem?_map, hg, Option.map_some]
    rw [e2, ← e1, ← sub_eq_add_neg]
    rfl
  have hcF : ∀ (v : RingVortex) (j : ℕ) r, (boundRing p j r).frontLeg.center = (boundRing p j r).frontMiddle := by
    intro v j r
    exact LineVortex.center_mk _ _ _
  have hcL : ∀ (j : ℕ) r, (boundRing p j r).leftLeg.center = (boundRing p j r).leftMiddle :=
    fun j r => LineVortex.center_mk _ _ _
  have hcR : ∀ (j : ℕ) r, (boundRing p j r).rightLeg.center = (boundRing p j r).rightMiddle :=
    fun j r => LineVortex.center_mk _ _ _
  have hvF : T.frontVelocities[g]? = some (relativeFlow s' k r RingVortex.frontMiddle) :=
    hV (·.frontCenter) (·.frontCenter) _ (fun _ _ => rfl) (fun r g => hcF (boundRing p k r) k r)
      (fun r g => hcF (boundRing p k r) (k - 1) r)
  have hvL : T.leftVelocities[g]? = some (relativeFlow s' k r RingVortex.leftMiddle) :=
    hV (·.leftCenter) (·.leftCenter) _ (fun _ _ => rfl) (fun r g => hcL k r) (fun r g => hcL (k - 1) r)
  have hvR : T.rightVelocities[g]? = some (relativeFlow s' k r RingVortex.rightMiddle) :=
    hV (·.rightCenter) (·.rightCenter) _ (fun _ _ => rfl) (fun r g => hcR k r) (fun r g => hcR (k - 1) r)
  have hslot : ∀ (f : RingSlot → V3) (c : V3)
      (_ : ∀ e, f (ringSlot (p.airplanesAt k) r ((boundRing p k r).updateStrength e)) = c),
      (T.slots.map f)[g]? = some c := by
    intro f c hfc
    obtain ⟨e, he⟩ := hinv.rings k hk r hmem
    rw [hTsl]
    unfold slotsAt
    rw [hinv.problem, List.map_map, List.getElem?_map, hg]
    simp only [Option.map_some, Function.comp, ringAt, he, Option.getD_some, hfc]
  have hF : T.frontForces[g]? = some F := by
    have := kuttaForces_get T.operatingPoint.density _ _ _ g _ _ _ (effective_get effectiveFront T hgT) hvF
      (hslot (·.frontVector) (v.frontLeft - v.frontRight) (fun _ => rfl))
    rw [hnF] at this
    rw [show F = kuttaJoukowski T.operatingPoint.density _ _ _ by rw [hTo]]
    exact this
  have hL : T.leftForces[g]? = some L := by
    have := kuttaForces_get T.operatingPoint.density _ _ _ g _ _ _ (effective_get effectiveLeft T hgT) hvL
      (hslot (·.leftVector) (v.backLeft - v.frontLeft) (fun _ => rfl))
    rw [hnL] at this
    rw [show L = kuttaJoukowski T.operatingPoint.density _ _ _ by rw [hTo]]
    exact this
  have hR : T.rightForces[g]? = some R := by
    have := kuttaForces_get T.operatingPoint.density _ _ _ g _ _ _ (effective_get effectiveRight T hgT) hvR
      (hslot (·.rightVector) (v.frontRight - v.backRight) (fun _ => rfl))
    rw [hnR] at this
    rw [show R = kuttaJoukowski T.operatingPoint.density _ _ _ by rw [hTo]]
    exact this
  have hlast : (T.lasts.map (·.strength))[g]? = some (previousStrength s' k r) := by
    rw [hTl]
    unfold lastsAt
    cases k with
    | zero =>
      rw [if_neg (by omega)]
      have hgl : g < totalPanels (p.airplanesAt 0) := by
        rw [← panelRefs_length _ (hp.counted 0)]; exact (List.getElem?_eq_some_iff.mp hg).1
      simp [hinv.problem, hgl, previousStrength]
    | succ j =>
      have hsame := panelRefs_same hp (by omega : j < p.numSteps) hk
      rw [if_pos (by omega), hinv.problem]
      simp only [Nat.add_sub_cancel, List.map_map, List.getElem?_map]
      rw [hsame, hg]
      simp only [Option.map_some, Function.comp, previousStrength, h.final_eq.2.2.2.2.2.2]
      obtain ⟨q', hq'⟩ := (mem_panelRefs (p.airplanesAt j) r).mp (by rw [hsame]; exact hmem)
      rw [strengthAt_some hq', ← h.panels_before (by omega : j < j + 1) (by omega)]
      obtain ⟨e, he⟩ := hinv.rings j (by omega) r (by rw [hsame]; exact hmem)
      simp only [ringAt, he]
      rfl
  have hxg : T.strengths[g]? = some (strengthAt a H r) := by
    have : strengthAt a H r = x.getD g 0 := by rw [← hstr]; exact (strengthAt_congr hring r).symm
    rw [this]
    have hgl : g < x.length := by rw [hxl]; exact (List.getElem?_eq_some_iff.mp hg).1
    change x[g]? = _
    rw [List.getD_eq_getElem?_getD, List.getElem?_eq_getElem hgl]
    rfl
  have hU : T.unsteadyForces[g]? = some U := by
    unfold unsteadyForces
    obtain ⟨e, he⟩ := hinv.rings k hk r hmem
    have hsl : T.slots[g]? = some (ringSlot (p.airplanesAt k) r ((boundRing p k r).updateStrength e)) := by
      rw [hTsl]
      unfold slotsAt
      rw [hinv.problem, List.getElem?_map, hg]
      simp only [Option.map_some, ringAt, he, Option.getD_some]
    simp only [List.getElem?_zipWith, hsl, hxg, hlast]
    unfold deltaTime
    rw [hTo, hTp]
    rfl
  refine ⟨?_, ?_⟩
  · simp only [nearFieldForces, addRow, List.getElem?_zipWith, hF, hL, hR, hU]
  · have hr : (T.slots.map (·.momentReference))[g]? = some ref := hslot _ _ (fun _ => rfl)
    have hmF := momentsAbout_get _ _ _ g _ _ _ (hslot (·.frontCenter) v.frontMiddle (fun _ => hcF v k r)) hr hF
    have hmL := momentsAbout_get _ _ _ g _ _ _ (hslot (·.leftCenter) v.leftMiddle (fun _ => hcL k r)) hr hL
    have hmR := momentsAbout_get _ _ _ g _ _ _ (hslot (·.rightCenter) v.rightMiddle (fun _ => hcR k r)) hr hR
    have hmU := momentsAbout_get _ _ _ g _ _ _ (hslot (·.collocation) panel.collocationPoint (fun _ => rfl)) hr hU
    simp only [nearFieldMoments, addRow, List.getElem?_zipWith, hmF, hmL, hmR, hmU]

end

end UnsteadySolver
end Ptera
