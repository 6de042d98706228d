import Verif.Lemmas.UnsteadyTrace
import Verif.Lemmas.SteadyVelocity

/-! The linear system and the velocities of one unsteady step in terms of the flow. -/

namespace Ptera

theorem zipIdx_flatMap_range {α β : Type} (l : List α) (f : α × ℕ → List β) (g : ℕ → List β)
    (h : ∀ (i : ℕ) (hi : i < l.length), f (l[i], i) = g i) : l.zipIdx.flatMap f = (List.range l.length).flatMap g := by
  rw [List.flatMap_def, List.flatMap_def]
  congr 1
  apply List.ext_getElem
  · simp
  · intro i h1 h2
    have hi : i < l.length := by simpa using h1
    simp [h i hi]

/-- The panels listed from the panel counts. -/
def refsOf (l : List (List (ℕ × ℕ))) : List PanelRef :=
  l.zipIdx.flatMap fun a => a.1.zipIdx.flatMap fun d =>
    (List.range d.1.1).flatMap fun i => (List.range d.1.2).map fun j => ⟨a.2, d.2, i, j⟩

theorem panelRefs_layout {as : List Airplane} (h : ∀ a ∈ as, a.Made) : panelRefs as = refsOf (layout as) := by
  unfold panelRefs refsOf layout
  rw [List.zipIdx_map, List.flatMap_map]
  apply List.flatMap_congr
  rintro ⟨a, i⟩ ha
  have hm := h a (List.mem_of_getElem? (List.mk_mem_zipIdx_iff_getElem?.mp ha))
  unfold airplaneRefs
  simp only [Prod.map, id]
  rw [List.zipIdx_map, List.flatMap_map]
  apply List.flatMap_congr
  rintro ⟨w, j⟩ hw
  have hwm := hm.wings w (List.mem_of_getElem? (List.mk_mem_zipIdx_iff_getElem?.mp hw))
  obtain ⟨S, le, n, sym, u, m, sp, hc⟩ := hwm
  obtain ⟨h1, h2, _⟩ := C18_wing_counts S le n sym u m sp w hc
  obtain ⟨hs, _⟩ := Wing.create_ok S le n sym u m sp w hc
  simp only [Prod.map, id, Wing.dims]
  have hmm : w.spec.numChordwisePanels = w.panels.length := by rw [h1, hs]
  rw [hmm]
  apply zipIdx_flatMap_range
  intro k hk
  simp only
  rw [h2 _ (List.getElem_mem hk)]

theorem panelRefs_same {p : UnsteadyProblem} (hp : p.Regular) {j k : ℕ} (hj : j < p.numSteps)
    (hk : k < p.numSteps) : panelRefs (p.airplanesAt j) = panelRefs (p.airplanesAt k) := by
  rw [panelRefs_layout (hp.made j), panelRefs_layout (hp.made k), hp.same j hj, hp.same k hk]

theorem scaled_ring (nu x : ℝ) (br fr fl bl q : V3) :
    x • unitVelocity (ringLegs br fr fl bl) q = ringInduced nu fr fl bl br x 0 q := by
  unfold unitVelocity ringLegs ringInduced
  simp only [List.map_cons, List.map_nil, List.sum_cons, List.sum_nil, add_zero, smul_add]
  rw [expandedEntry_scale nu, expandedEntry_scale nu x fr fl, expandedEntry_scale nu x fl bl,
    expandedEntry_scale nu x bl br]
  abel

theorem segs_ages {α : Type} (l : List α) (fo ft : α → V3) (fs fa : α → ℝ) :
    segs (l.map fo) (l.map ft) (l.map fs) (some (l.map fa)) = l.map fun a => (⟨fo a, ft a, fs a, fa a⟩ : Seg) := by
  unfold segs
  apply List.ext_getElem
  · simp
  · intro i h1 h2; simp

theorem collapsedRing_ages {α : Type} (points : List V3) (l : List α) (br fr fl bl : α → V3) (fs fa : α → ℝ)
    (nu : ℝ) :
    collapsedRing points (l.map br) (l.map fr) (l.map fl) (l.map bl) (l.map fs) (some (l.map fa)) nu
      = points.map fun q => (l.map fun a => ringInduced nu (fr a) (fl a) (bl a) (br a) (fs a) (fa a) q).sum := by
  unfold collapsedRing
  rw [collapsedLegs_eq]
  apply List.map_congr_left
  intro q _
  simp only [List.map_cons, List.map_nil, List.sum_cons, List.sum_nil, add_zero]
  rw [segs_ages, segs_ages, segs_ages, segs_ages]
  simp only [List.map_map]
  induction l with
  | nil => simp
  | cons a l ih =>
    simp only [List.map_cons, List.sum_cons, ringInduced, Function.comp] at ih ⊢
    rw [← ih]
    abel

namespace UnsteadySolver

theorem wakeVelocity_eq (s : UnsteadySolver) (points : List V3) :
    s.wakeVelocity points = points.map fun q => wakeFlow s s.step q := by
  unfold wakeVelocity
  rw [collapsedRing_ages]
  have : s.currentWake = s.wakeArrays[s.step]?.getD [] := by
    unfold currentWake
    rw [List.getD_eq_getElem?_getD]
  rw [this]
  rfl

theorem boundRing_vertices (p : UnsteadyProblem) (k : ℕ) (r : PanelRef) (g : ℝ) :
    ((boundRing p k r).updateStrength g).rightLeg.origin = (boundRing p k r).backRight ∧
    ((boundRing p k r).updateStrength g).rightLeg.termination = (boundRing p k r).frontRight ∧
    ((boundRing p k r).updateStrength g).leftLeg.origin = (boundRing p k r).frontLeft ∧
    ((boundRing p k r).updateStrength g).leftLeg.termination = (boundRing p k r).backLeft := by
  refine ⟨rfl, rfl, rfl, rfl⟩

/-- Unit velocity of the ring of a panel of step `k`. -/
noncomputable def unitRing (p : UnsteadyProblem) (k : ℕ) (r : PanelRef) (q : V3) : V3 :=
  unitVelocity (ringLegs (boundRing p k r).backRight (boundRing p k r).frontRight (boundRing p k r).frontLeft
    (boundRing p k r).backLeft) q

theorem Inv.slots {p : UnsteadyProblem} {k : ℕ} {s : UnsteadySolver} (h : Inv p k s) (hk : k < p.numSteps)
    {f : RingSlot → V3} {F : PanelRef → V3}
    (hf : ∀ r g, f (ringSlot (p.airplanesAt k) r ((boundRing p k r).updateStrength g)) = F r) :
    (s.slotsAt k (s.ringAt k)).map f = (panelRefs (p.airplanesAt k)).map F := by
  unfold slotsAt
  rw [h.problem, List.map_map]
  apply List.map_congr_left
  intro r hr
  obtain ⟨g, hg⟩ := h.rings k hk r hr
  simp only [Function.comp, ringAt, hg, Option.getD_some, hf]

section
variable {p : UnsteadyProblem} {k : ℕ} {s : UnsteadySolver}

/-- Apparent velocity of a point of a panel due to the motion of the wing. -/
noncomputable def apparent (p : UnsteadyProblem) (k : ℕ) (c : List Airplane → V3) : V3 :=
  if k < 1 then 0 else (1 / p.deltaTime) • (-(c (p.airplanesAt k) - c (p.airplanesAt (k - 1))))

theorem Inv.influences (hp : p.Regular) (h : Inv p k s) (hk : k < p.numSteps) (refs : List ℕ) :
    (s.assembled k (s.ringAt k) (s.ringAt (k - 1)) refs).influences
      = (panelRefs (p.airplanesAt k)).map fun i => (panelRefs (p.airplanesAt k)).map fun j =>
          (unitRing p k j (geometryOf (p.airplanesAt k) i).collocationPoint).dot
            (geometryOf (p.airplanesAt k) i).unitNormal := by
  set L := panelRefs (p.airplanesAt k) with hL
  have e : (s.assembled k (s.ringAt k) (s.ringAt (k - 1)) refs).influences
      = normalComponents (expandedRing ((s.slotsAt k (s.ringAt k)).map (·.collocation))
          ((s.slotsAt k (s.ringAt k)).map (·.backRight)) ((s.slotsAt k (s.ringAt k)).map (·.frontRight))
          ((s.slotsAt k (s.ringAt k)).map (·.frontLeft)) ((s.slotsAt k (s.ringAt k)).map (·.backLeft))
          (List.replicate (totalPanels (s.problem.airplanesAt k)) 1) none
          (s.problem.operatingPointAt k).nu) ((s.slotsAt k (s.ringAt k)).map (·.normal)) := rfl
  rw [e, h.slots hk (f := (·.collocation)) (F := fun r => (geometryOf (p.airplanesAt k) r).collocationPoint)
      (fun _ _ => rfl),
    h.slots hk (f := (·.backRight)) (F := fun r => (boundRing p k r).backRight) (fun _ _ => rfl),
    h.slots hk (f := (·.frontRight)) (F := fun r => (boundRing p k r).frontRight) (fun _ _ => rfl),
    h.slots hk (f := (·.frontLeft)) (F := fun r => (boundRing p k r).frontLeft) (fun _ _ => rfl),
    h.slots hk (f := (·.backLeft)) (F := fun r => (boundRing p k r).backLeft) (fun _ _ => rfl),
    h.slots hk (f := (·.normal)) (F := fun r => (geometryOf (p.airplanesAt k) r).unitNormal) (fun _ _ => rfl),
    h.problem, ← hL]
  have hlen : (List.replicate (totalPanels (p.airplanesAt k)) (1 : ℝ)).length = L.length := by
    rw [hL, panelRefs_length _ (hp.counted k)]; simp
  rw [expandedRing_slots _ _ _ _ _ _ _ _ hlen]
  unfold normalComponents
  rw [List.map_map, zipWith_map_self]
  apply List.map_congr_left
  intro i _
  simp only [Function.comp]
  rw [zipWith_replicate_map _ _ _ _ (by rw [hL, panelRefs_length _ (hp.counted k)]), List.map_map]
  apply List.map_congr_left
  intro j _
  simp [unitRing]

theorem Inv.lasts (hp : p.Regular) (h : Inv p k s) (hk : k < p.numSteps) (h0 : 0 < k)
    {f : LastSlot → V3} {F : PanelRef → V3}
    (hf : ∀ r g, f (lastSlot (geometryOf (p.airplanesAt (k - 1)) r) ((boundRing p (k - 1) r).updateStrength g))
      = F r) :
    (s.lastsAt k (s.ringAt (k - 1))).map f = (panelRefs (p.airplanesAt k)).map F := by
  unfold lastsAt
  rw [if_pos h0, h.problem, List.map_map, ← panelRefs_same hp (by omega : k - 1 < p.numSteps) hk]
  apply List.map_congr_left
  intro r hr
  obtain ⟨g, hg⟩ := h.rings (k - 1) (by omega) r hr
  simp only [Function.comp, ringAt, hg, Option.getD_some, hf]

/-- The flapping velocities of a step. -/
theorem Inv.flapping (hp : p.Regular) (h : Inv p k s) (hk : k < p.numSteps) {t : UnsteadySolver}
    (htp : t.problem = p) (hts : t.step = k) (htsl : t.slots = s.slotsAt k (s.ringAt k))
    (htl : t.lasts = s.lastsAt k (s.ringAt (k - 1))) {f : RingSlot → V3} {f' : LastSlot → V3}
    {F : ℕ → PanelRef → V3}
    (hf : ∀ r g, f (ringSlot (p.airplanesAt k) r ((boundRing p k r).updateStrength g)) = F k r)
    (hf' : ∀ r g, f' (lastSlot (geometryOf (p.airplanesAt (k - 1)) r) ((boundRing p (k - 1) r).updateStrength g))
      = F (k - 1) r) :
    t.flapping f f' = (panelRefs (p.airplanesAt k)).map fun r =>
      if k < 1 then 0 else (1 / p.deltaTime) • (-(F k r - F (k - 1) r)) := by
  unfold UnsteadySolver.flapping
  rw [hts]
  by_cases h0 : k < 1
  · rw [if_pos h0]
    unfold airplanes
    rw [htp, hts, ← panelRefs_length _ (hp.counted k)]
    simp only [h0, if_true, List.map_const']
  · rw [if_neg h0]
    have e : List.zipWith (fun a b => (1 / t.deltaTime) • (-(f a - f' b))) t.slots t.lasts
        = List.zipWith (fun a b => (1 / t.deltaTime) • (-(a - b))) (t.slots.map f) (t.lasts.map f') := by
      rw [List.zipWith_map]
    rw [e, htsl, htl, h.slots hk hf, h.lasts hp hk (by omega) hf', zipWith_map_self]
    apply List.map_congr_left
    intro r _
    rw [if_neg h0]
    unfold deltaTime
    rw [htp]

theorem Inv.rhs (hp : p.Regular) (h : Inv p k s) (hk : k < p.numSteps) (refs : List ℕ)
    (h0 : k = 0 → refs = []) :
    List.zipWith (fun w f => -w - f) (s.assembled k (s.ringAt k) (s.ringAt (k - 1)) refs).wake
        (s.assembled k (s.ringAt k) (s.ringAt (k - 1)) refs).freestream
      = (panelRefs (p.airplanesAt k)).map fun i =>
          -((wakeFlow (s.collapsed k (s.ringAt k) (s.ringAt (k - 1)) refs) k
              (geometryOf (p.airplanesAt k) i).collocationPoint
            + (p.operatingPointAt k).freestreamVelocity
            + apparent p k fun as => (geometryOf as i).collocationPoint).dot
              (geometryOf (p.airplanesAt k) i).unitNormal) := by
  set C := s.collapsed k (s.ringAt k) (s.ringAt (k - 1)) refs with hC
  set L := panelRefs (p.airplanesAt k) with hL
  have hCp : C.problem = p := h.problem
  have hCs : C.step = k := rfl
  have hcol : C.slots.map (·.collocation) = L.map fun r => (geometryOf (p.airplanesAt k) r).collocationPoint :=
    h.slots hk (f := (·.collocation)) (fun _ _ => rfl)
  have hnor : C.slots.map (·.normal) = L.map fun r => (geometryOf (p.airplanesAt k) r).unitNormal :=
    h.slots hk (f := (·.normal)) (fun _ _ => rfl)
  have hwake : (s.assembled k (s.ringAt k) (s.ringAt (k - 1)) refs).wake
      = L.map fun i => (wakeFlow C k (geometryOf (p.airplanesAt k) i).collocationPoint).dot
          (geometryOf (p.airplanesAt k) i).unitNormal := by
    change (if 0 < k then List.zipWith V3.dot (C.wakeVelocity (C.slots.map (·.collocation)))
      (C.slots.map (·.normal)) else List.replicate (totalPanels (s.problem.airplanesAt k)) 0) = _
    by_cases hpos : 0 < k
    · rw [if_pos hpos, wakeVelocity_eq, hcol, hnor, List.map_map, zipWith_map_self]
      rfl
    · rw [if_neg hpos]
      have hk0 : k = 0 := by omega
      have hempty : C.wakeArrays[k]?.getD [] = [] := by
        change (s.wakeArrays.set k _)[k]?.getD [] = []
        rw [List.getElem?_set_self (by have := h.arraysLen; omega), Option.getD_some, h0 hk0]
        rfl
      rw [h.problem, ← panelRefs_length _ (hp.counted k), ← List.map_const']
      apply List.map_congr_left
      intro i _
      unfold wakeFlow
      rw [hempty]
      simp
  have hfree : (s.assembled k (s.ringAt k) (s.ringAt (k - 1)) refs).freestream
      = L.map fun i => (geometryOf (p.airplanesAt k) i).unitNormal.dot (p.operatingPointAt k).freestreamVelocity
          + (geometryOf (p.airplanesAt k) i).unitNormal.dot
            (apparent p k fun as => (geometryOf as i).collocationPoint) := by
    change List.zipWith (· + ·) ((C.slots.map (·.normal)).map fun n =>
        n.dot (s.problem.operatingPointAt k).freestreamVelocity)
      (List.zipWith V3.dot (C.slots.map (·.normal)) (C.flapping (·.collocation) (·.collocation))) = _
    rw [h.flapping hp hk (t := C) hCp hCs rfl rfl (f := (·.collocation)) (f' := (·.collocation))
      (F := fun k r => (geometryOf (p.airplanesAt k) r).collocationPoint) (fun _ _ => rfl) (fun _ _ => rfl),
      hnor, h.problem, List.map_map, zipWith_map_self, zipWith_map_self]
    rfl
  rw [hwake, hfree, zipWith_map_self]
  apply List.map_congr_left
  intro i _
  simp only [V3.add_dot, V3.dot_comm (geometryOf (p.airplanesAt k) i).unitNormal]
  ring

end

section trace
variable {p : UnsteadyProblem} {pres : Bool} {s s' : UnsteadySolver} {st sm : ℕ → UnsteadySolver}

/-- The strengths of a step solve its linear system. -/
theorem Trace.system (hp : p.Regular) (h : Trace p pres s s' st sm) {k : ℕ} (hk : k < p.numSteps) :
    ∃ x, SolvedFacts p k (st k) (sm k) x ∧ x.length = (panelRefs (p.airplanesAt k)).length ∧
      ∀ i ∈ panelRefs (p.airplanesAt k),
        ((List.zipWith (fun j y => y • unitRing p k j (geometryOf (p.airplanesAt k) i).collocationPoint)
            (panelRefs (p.airplanesAt k)) x).sum
          + wakeFlow s' k (geometryOf (p.airplanesAt k) i).collocationPoint
          + (p.operatingPointAt k).freestreamVelocity
          + apparent p k fun as => (geometryOf as i).collocationPoint).dot
            (geometryOf (p.airplanesAt k) i).unitNormal = 0 := by
  have hinv := h.inv k (by omega)
  obtain ⟨addr, hw⟩ := hinv.wake hk
  obtain ⟨x, hx, hs1, hf⟩ := hinv.solve hp hk hw (h.solve k hk)
  obtain ⟨hlen, hA⟩ := linalgSolve_ok hx
  rw [hinv.influences hp hk] at hlen hA
  rw [hinv.rhs hp hk _ (by
    intro h0
    apply List.eq_nil_of_length_eq_zero
    rw [wakeAddresses_length, h0]
    simp)] at hA
  rw [List.length_map] at hlen
  refine ⟨x, hf, hlen, ?_⟩
  intro i hi
  have hwf : ∀ q, wakeFlow ((st k).collapsed k ((st k).ringAt k) ((st k).ringAt (k - 1)) (wakeAddresses p k addr)) k q
      = wakeFlow s' k q := by
    intro q
    unfold wakeFlow
    have e := h.record hk
    rw [List.getD_eq_getElem?_getD, List.getD_eq_getElem?_getD] at e
    rw [e, hs1, (stepped_frame _ _ _ _ _ _).2.2.2.2.2.1, h.final_eq.2.2.2.2.2.2]
    have : ((st k).collapsed k ((st k).ringAt k) ((st k).ringAt (k - 1)) (wakeAddresses p k addr)).problem = p :=
      hinv.problem
    rw [this]
    rfl
  unfold matVec at hA
  rw [List.map_map] at hA
  have := List.map_inj_left.mp hA i hi
  simp only [Function.comp, hwf] at this
  simp only [V3.add_dot]
  simp only [V3.add_dot] at this
  have e : (List.zipWith (fun j y => y • unitRing p k j (geometryOf (p.airplanesAt k) i).collocationPoint)
        (panelRefs (p.airplanesAt k)) x).sum.dot (geometryOf (p.airplanesAt k) i).unitNormal
      = (List.zipWith (fun a b => a * b) ((panelRefs (p.airplanesAt k)).map fun j =>
          (unitRing p k j (geometryOf (p.airplanesAt k) i).collocationPoint).dot
            (geometryOf (p.airplanesAt k) i).unitNormal) x).sum := by
    rw [sum_dot, List.map_zipWith]
    rw [List.zipWith_map_left]
    congr 2
    funext a b
    rw [V3.smul_dot]
    ring
  rw [e, this]
  ring

theorem Trace.bound_flow (h : Trace p pres s s' st sm) {k : ℕ} (hk : k < p.numSteps) {x : List ℝ}
    (hx : SolvedFacts p k (st k) (sm k) x) (hl : x.length = (panelRefs (p.airplanesAt k)).length) (q : V3) :
    boundFlow s' k q
      = (List.zipWith (fun j y => y • unitRing p k j q) (panelRefs (p.airplanesAt k)) x).sum := by
  unfold boundFlow
  rw [h.final_eq.2.2.2.2.2.2, h.panels hk]
  congr 1
  apply List.ext_getElem
  · simp [hl]
  · intro i h1 h2
    have hi : i < (panelRefs (p.airplanesAt k)).length := by simpa using h1
    have hr := hx.rings i _ (List.getElem?_eq_getElem hi)
    obtain ⟨g, hg⟩ := (h.inv k (by omega)).rings k hk _ (List.getElem_mem hi)
    simp only [List.getElem_map, List.getElem_zipWith]
    have hpi : ∀ (st : PanelState) (v : RingVortex), st.ring = some v →
        panelInduced (p.operatingPointAt k).nu st q
          = ringInduced (p.operatingPointAt k).nu v.frontRight v.frontLeft v.backLeft v.backRight v.strength 0 q := by
      intro st v e
      unfold panelInduced
      rw [e]
    rw [hpi _ _ hr]
    have hxi : x.getD i 0 = x[i]'(by omega) := by
      rw [List.getD_eq_getElem?_getD, List.getElem?_eq_getElem (by omega)]; rfl
    rw [hxi]
    unfold unitRing
    rw [scaled_ring (p.operatingPointAt k).nu]
    simp only [ringAt, hg, Option.getD_some]
    rfl

/-- C45 for the lemmas: the velocity at a collocation point, relative to the moving wing, is tangential. -/
theorem Trace.no_penetration (hp : p.Regular) (h : Trace p pres s s' st sm) {k : ℕ} (hk : k < p.numSteps)
    {r : PanelRef} (hr : r ∈ panelRefs (p.airplanesAt k)) :
    (flow s' k (geometryOf (p.airplanesAt k) r).collocationPoint
      + apparent p k fun as => (geometryOf as r).collocationPoint).dot
        (geometryOf (p.airplanesAt k) r).unitNormal = 0 := by
  obtain ⟨x, hx, hl, hs⟩ := h.system hp hk
  unfold flow
  rw [h.bound_flow hk hx hl, h.final_eq.2.2.2.2.2.2]
  exact hs r hr

/-- The velocities a step computes are those of the flow. -/
theorem Trace.velocity (hp : p.Regular) (h : Trace p pres s s' st sm) {k : ℕ} (hk : k < p.numSteps)
    (points : List V3) : (sm k).solutionVelocity points = points.map (flow s' k) := by
  obtain ⟨x, hx, hl, hs⟩ := h.system hp hk
  have hinv := h.inv k (by omega)
  unfold solutionVelocity
  rw [wakeVelocity_eq, hx.slots, hx.strengths, hx.step,
    hinv.slots hk (f := (·.backRight)) (F := fun r => (boundRing p k r).backRight) (fun _ _ => rfl),
    hinv.slots hk (f := (·.frontRight)) (F := fun r => (boundRing p k r).frontRight) (fun _ _ => rfl),
    hinv.slots hk (f := (·.frontLeft)) (F := fun r => (boundRing p k r).frontLeft) (fun _ _ => rfl),
    hinv.slots hk (f := (·.backLeft)) (F := fun r => (boundRing p k r).backLeft) (fun _ _ => rfl)]
  simp only
  rw [collapsedRing_slots _ _ _ _ _ _ _ _ hl, addRow_map, List.map_map]
  apply List.map_congr_left
  intro q _
  simp only [Function.comp, flow]
  rw [h.bound_flow hk hx hl]
  have hw : wakeFlow (sm k) k q = wakeFlow s' k q := by
    unfold wakeFlow
    have e := h.record hk
    rw [List.getD_eq_getElem?_getD, List.getD_eq_getElem?_getD] at e
    rw [e, hx.problem, h.final_eq.2.2.2.2.2.2]
  have hf : (sm k).freestreamVelocity = (p.operatingPointAt k).freestreamVelocity := by
    unfold freestreamVelocity operatingPoint
    rw [hx.problem, hx.step]
  rw [hw, hf, h.final_eq.2.2.2.2.2.2]
  rfl

/-- A wake vertex moves with the flow, or with the freestream if the wake is prescribed. -/
theorem Trace.convect (hp : p.Regular) (h : Trace p pres s s' st sm) {k : ℕ} (hk : k < p.numSteps) (q : V3) :
    (sm k).convect pres q = q + p.deltaTime •
      (if pres then (p.operatingPointAt k).freestreamVelocity else flow s' k q) := by
  obtain ⟨x, hx⟩ := h.solved k hk
  unfold UnsteadySolver.convect
  rw [h.velocity hp hk]
  have hf : (sm k).freestreamVelocity = (p.operatingPointAt k).freestreamVelocity := by
    unfold freestreamVelocity operatingPoint
    rw [hx.problem, hx.step]
  have hd : (sm k).deltaTime = p.deltaTime := by
    unfold deltaTime
    rw [hx.problem]
  rw [hf, hd]
  rfl

end trace

end UnsteadySolver
end Ptera
