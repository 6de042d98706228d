import Verif.Lemmas.UnsteadyLattice

/-!
# C39, C45, C46: bound rings, no penetration and apparent velocities in the unsteady solver

`s` is any solver a user can have for a problem `p` (`Reached`), `s'` the solver after `run`. The flow (`flow`) is
spelt out in `Verif/Spec/Unsteady.lean` from the rings and wake arrays `s'` shows. `Verif/Props/UnsteadyExample.lean`
has a run that finishes.
-/

namespace Ptera

open UnsteadySolver

variable {p : UnsteadyProblem} {s s' : UnsteadySolver} {pres sl : Bool}

/-! ## C39 -/

/-- C39 (unsteady solver): after a run, at every step the front side of every bound ring lies on the quarter-chord
line of its panel; its back side is the front side of the ring behind it, or, in the last row, its front side moved
by the panel's own side vectors and a quarter of the distance the freestream travels in a time step; and next to each
other, the rings share their common side if the panels do. -/
theorem C39_unsteady (hp : p.Made) (hs : Reached p s) (h : s.run pres sl = .ok s') (k : ℕ) (hk : k < p.numSteps)
    (r : PanelRef) (panel : Panel) (hpanel : panelAt (p.airplanesAt k) r = some panel) :
    let step := (p.deltaTime / 4) • (p.operatingPointAt k).freestreamVelocity
    ∃ v, (s'.panels k r).ring = some v ∧
      v.frontLeft = panel.frontLeft + (1 / 4 : ℝ) • (panel.backLeft - panel.frontLeft) ∧
      v.frontRight = panel.frontRight + (1 / 4 : ℝ) • (panel.backRight - panel.frontRight) ∧
      (∀ q, panelAt (p.airplanesAt k) { r with row := r.row + 1 } = some q →
        ∃ v', (s'.panels k { r with row := r.row + 1 }).ring = some v' ∧
          v.backLeft = v'.frontLeft ∧ v.backRight = v'.frontRight) ∧
      (panelAt (p.airplanesAt k) { r with row := r.row + 1 } = none →
        v.backLeft = v.frontLeft + (panel.backLeft - panel.frontLeft) + step ∧
        v.backRight = v.frontRight + (panel.backRight - panel.frontRight) + step) ∧
      (∀ q, panelAt (p.airplanesAt k) { r with col := r.col + 1 } = some q →
        SidesShared (p.airplanesAt k) r.airplane r.wing →
        ∃ v', (s'.panels k { r with col := r.col + 1 }).ring = some v' ∧
          v.frontRight = v'.frontLeft ∧ v.backRight = v'.backLeft) := by
  intro step
  obtain ⟨st, sm, ht⟩ := hs.trace hp h
  have hm := hp.regular.made k
  have ring : ∀ r q, panelAt (p.airplanesAt k) r = some q →
      ∃ g, (s'.panels k r).ring = some ((boundRing p k r).updateStrength g) :=
    fun r q hq => ht.rings hk ((mem_panelRefs _ _).mpr ⟨q, hq⟩)
  obtain ⟨g, hg⟩ := ring r panel hpanel
  obtain ⟨v1, v2⟩ := ring_vertices (V := (p.operatingPointAt k).freestreamVelocity) (dt := p.deltaTime) hpanel
  obtain ⟨b1, b2⟩ := ring_back (V := (p.operatingPointAt k).freestreamVelocity) (dt := p.deltaTime) hm hpanel
  have estep : (1 / 4 * p.deltaTime : ℝ) • (p.operatingPointAt k).freestreamVelocity = step := by
    change _ = (p.deltaTime / 4) • _
    congr 1; ring
  rw [estep] at b2
  refine ⟨_, hg, v1, v2, ?_, b2, ?_⟩
  · intro q hq
    obtain ⟨g', hg'⟩ := ring _ q hq
    exact ⟨_, hg', b1 q hq⟩
  · intro q hq hs
    obtain ⟨g', hg'⟩ := ring _ q hq
    exact ⟨_, hg', ring_side hm hpanel hq hs⟩

/-! ## C45 -/

/-- C45: after a run, at every step and every collocation point, the flow of bound rings, wake and freestream, less
the velocity of the moving wall (the displacement of the collocation point since the step before, over the time
step), has no component along the panel's normal. At the first step there is no wake and the wall is at rest. -/
theorem C45_no_penetration (hp : p.Made) (hs : Reached p s) (h : s.run pres sl = .ok s') (k : ℕ)
    (hk : k < p.numSteps) (r : PanelRef) (panel : Panel) (hpanel : panelAt (p.airplanesAt k) r = some panel) :
    (k = 0 → (∀ q, wakeFlow s' k q = 0) ∧ (flow s' k panel.collocationPoint).dot panel.unitNormal = 0) ∧
    (∀ j last, k = j + 1 → panelAt (p.airplanesAt j) r = some last →
      (flow s' k panel.collocationPoint
        - (1 / p.deltaTime) • (panel.collocationPoint - last.collocationPoint)).dot panel.unitNormal = 0) := by
  obtain ⟨st, sm, ht⟩ := hs.trace hp h
  have hn := ht.no_penetration hp.regular hk ((mem_panelRefs _ _).mpr ⟨panel, hpanel⟩)
  simp only [geometryOf_eq hpanel] at hn
  constructor
  · intro h0
    subst h0
    constructor
    · intro q
      unfold wakeFlow
      have := ht.record_eq hk
      rw [List.getD_eq_getElem?_getD] at this
      have hnil : s'.wakeArrays[0]?.getD [] = [] := by
        rw [this, List.flatMap_eq_nil_iff]
        simp [cellsOf]
      rw [hnil]
      simp
    · simpa [apparent] using hn
  · intro j last hj hlast
    subst hj
    unfold apparent at hn
    rw [if_neg (by omega)] at hn
    simp only [Nat.add_sub_cancel, geometryOf_eq hpanel, geometryOf_eq hlast, smul_neg] at hn
    rw [sub_eq_add_neg]
    exact hn

/-- C45: the flow at the last step is what `calculate_solution_velocity` of the finished solver answers. -/
theorem C45_solution_velocity (hp : p.Made) (hs : Reached p s) (h : s.run pres sl = .ok s') (k : ℕ)
    (hk : p.numSteps = k + 1) (points : List V3) : s'.solutionVelocity points = points.map (flow s' k) := by
  obtain ⟨st, sm, ht⟩ := hs.trace hp h
  rw [← ht.velocity hp.regular (by omega)]
  obtain ⟨sl', e⟩ := ht.finish
  have hlast : st (k + 1) = sm k := (ht.shed k (by omega)).last (by omega)
  have hfin : ((st (k + 1)).finalize).solutionVelocity points = (sm k).solutionVelocity points := by
    rw [finalize_rest, hlast]
    rfl
  rw [e, hk]
  cases sl'
  · exact hfin
  · exact hfin

/-! ## C46 -/

/-- The four apparent velocities the solver has methods for, of the panel at position `g` of the panel list. -/
noncomputable def UnsteadySolver.apparentVelocities (t : UnsteadySolver) (g : ℕ) : List (Option V3) :=
  [(t.flapping (·.collocation) (·.collocation))[g]?, (t.flapping (·.frontCenter) (·.frontCenter))[g]?,
   (t.flapping (·.leftCenter) (·.leftCenter))[g]?, (t.flapping (·.rightCenter) (·.rightCenter))[g]?]

/-- C46: after `k + 1` steps of a run (state `t`), the apparent velocities computed for the panel `r` at its
collocation point and at the middles of the front, left and right sides of its ring are all zero at the first step,
and afterwards minus the displacement since the previous step over the time step. -/
theorem C46_difference (hp : p.Made) (hs : Reached p s) (h : s.run pres sl = .ok s') (k : ℕ) (hk : k < p.numSteps)
    (t : UnsteadySolver)
    (ht : (List.range (k + 1)).foldlM (runStep pres) s.preallocate.initializePanelVortices = .ok t)
    (g : ℕ) (r : PanelRef) (hr : (panelRefs (p.airplanesAt k))[g]? = some r) :
    (k = 0 → t.apparentVelocities g = [some 0, some 0, some 0, some 0]) ∧
    (∀ j panel last, k = j + 1 → panelAt (p.airplanesAt k) r = some panel → panelAt (p.airplanesAt j) r = some last →
      ∃ now before : RingVortex, (s'.panels k r).ring = some now ∧ (s'.panels j r).ring = some before ∧
        t.apparentVelocities g =
          [some (-(1 / p.deltaTime) • (panel.collocationPoint - last.collocationPoint)),
           some (-(1 / p.deltaTime) • (now.frontMiddle - before.frontMiddle)),
           some (-(1 / p.deltaTime) • (now.leftMiddle - before.leftMiddle)),
           some (-(1 / p.deltaTime) • (now.rightMiddle - before.rightMiddle))]) := by
  obtain ⟨st, sm, tr⟩ := hs.trace hp h
  have e := tr.reached (k + 1) (by omega)
  rw [begun, ht] at e
  cases e
  obtain ⟨x, hx⟩ := tr.solved k hk
  obtain ⟨_, _, _, f4, f5, f6, _, f8, _⟩ := (tr.shed k hk).same
  have hinv := tr.inv k (by omega)
  have key : ∀ (f : RingSlot → V3) (f' : LastSlot → V3) (F : ℕ → PanelRef → V3)
      (_ : ∀ r g, f (ringSlot (p.airplanesAt k) r ((boundRing p k r).updateStrength g)) = F k r)
      (_ : ∀ r g, f' (lastSlot (geometryOf (p.airplanesAt (k - 1)) r) ((boundRing p (k - 1) r).updateStrength g))
        = F (k - 1) r),
      ((st (k + 1)).flapping f f')[g]?
        = some (if k < 1 then 0 else (1 / p.deltaTime) • (-(F k r - F (k - 1) r))) := by
    intro f f' F h1 h2
    rw [hinv.flapping hp.regular hk (t := st (k + 1)) (by rw [f4, hx.problem]) (by rw [f5, hx.step])
      (by rw [f6, hx.slots]) (by rw [f8, hx.lasts]) h1 h2, List.getElem?_map, hr]
    rfl
  have k1 := key (·.collocation) (·.collocation) (fun k r => (geometryOf (p.airplanesAt k) r).collocationPoint)
    (fun _ _ => rfl) (fun _ _ => rfl)
  have k2 := key (·.frontCenter) (·.frontCenter) (fun k r => (boundRing p k r).frontMiddle)
    (fun _ g => LineVortex.center_mk _ _ g) (fun _ g => LineVortex.center_mk _ _ g)
  have k3 := key (·.leftCenter) (·.leftCenter) (fun k r => (boundRing p k r).leftMiddle)
    (fun _ g => LineVortex.center_mk _ _ g) (fun _ g => LineVortex.center_mk _ _ g)
  have k4 := key (·.rightCenter) (·.rightCenter) (fun k r => (boundRing p k r).rightMiddle)
    (fun _ g => LineVortex.center_mk _ _ g) (fun _ g => LineVortex.center_mk _ _ g)
  unfold apparentVelocities
  rw [k1, k2, k3, k4]
  constructor
  · intro h0
    simp [h0]
  · intro j panel last hj h1 h2
    subst hj
    obtain ⟨g1, e1⟩ := tr.rings hk ((mem_panelRefs _ _).mpr ⟨panel, h1⟩)
    obtain ⟨g2, e2⟩ := tr.rings (by omega : j < p.numSteps) ((mem_panelRefs _ _).mpr ⟨last, h2⟩)
    refine ⟨_, _, e1, e2, ?_⟩
    have hneg : ∀ (c : ℝ) (v : V3), c • (-v) = (-c) • v := fun c v => by rw [smul_neg, neg_smul]
    simp only [Nat.add_sub_cancel, geometryOf_eq h1, geometryOf_eq h2, hneg]
    simp only [show ¬ j + 1 < 1 by omega, if_false]
    rfl

/-- Panel `q` is panel `p` moved by `d`. -/
def Panel.MovedBy (p q : Panel) (d : V3) : Prop :=
  q.frontLeft = p.frontLeft + d ∧ q.frontRight = p.frontRight + d ∧ q.backLeft = p.backLeft + d ∧
    q.backRight = p.backRight + d

theorem Panel.MovedBy.points {p q : Panel} {d : V3} (h : p.MovedBy q d) :
    q.collocationPoint = p.collocationPoint + d ∧
    q.frontLeftVortexVertex = p.frontLeftVortexVertex + d ∧
    q.frontRightVortexVertex = p.frontRightVortexVertex + d := by
  obtain ⟨h1, h2, h3, h4⟩ := h
  simp only [Panel.collocationPoint, Panel.frontLeftVortexVertex, Panel.frontRightVortexVertex, Panel.rightLeg,
    Panel.leftLeg, h1, h2, h3, h4]
  refine ⟨?_, ?_, ?_⟩ <;> ext <;> simp [-mul_eq_mul_right_iff] <;> ring

/-- The whole wing moves by `d` from step `j` to step `j + 1`, in the same freestream. -/
structure UnsteadyProblem.Translates (p : UnsteadyProblem) (j airplane wing : ℕ) (d : V3) : Prop where
  panels : ∀ row col q q', panelAt (p.airplanesAt j) ⟨airplane, wing, row, col⟩ = some q →
    panelAt (p.airplanesAt (j + 1)) ⟨airplane, wing, row, col⟩ = some q' → q.MovedBy q' d
  freestream : (p.operatingPointAt (j + 1)).freestreamVelocity = (p.operatingPointAt j).freestreamVelocity

theorem UnsteadyProblem.Translates.ring (hp : p.Regular) {j : ℕ} {d : V3} {r : PanelRef}
    (ht : p.Translates j r.airplane r.wing d) (hj : j + 1 < p.numSteps) {q q' : Panel}
    (hq : panelAt (p.airplanesAt j) r = some q) (hq' : panelAt (p.airplanesAt (j + 1)) r = some q') :
    (boundRing p (j + 1) r).frontLeft = (boundRing p j r).frontLeft + d ∧
    (boundRing p (j + 1) r).frontRight = (boundRing p j r).frontRight + d ∧
    (boundRing p (j + 1) r).backLeft = (boundRing p j r).backLeft + d ∧
    (boundRing p (j + 1) r).backRight = (boundRing p j r).backRight + d := by
  have hsame := panelRefs_same hp (by omega : j < p.numSteps) hj
  have front : ∀ row (q q' : Panel), panelAt (p.airplanesAt j) { r with row := row } = some q →
      panelAt (p.airplanesAt (j + 1)) { r with row := row } = some q' →
      (boundRing p (j + 1) { r with row := row }).frontLeft = (boundRing p j { r with row := row }).frontLeft + d ∧
      (boundRing p (j + 1) { r with row := row }).frontRight
        = (boundRing p j { r with row := row }).frontRight + d := by
    intro row q q' h1 h2
    obtain ⟨_, p2, p3⟩ := (ht.panels row r.col q q' h1 h2).points
    simp only [boundRing, panelRing, RingVortex.mk', geometryOf_eq h1, geometryOf_eq h2]
    exact ⟨p2, p3⟩
  have hr : ({ r with row := r.row } : PanelRef) = r := rfl
  obtain ⟨f1, f2⟩ := front r.row q q' hq hq'
  refine ⟨f1, f2, ?_⟩
  have hm := hp.made
  cases hb : panelAt (p.airplanesAt j) { r with row := r.row + 1 } with
  | none =>
    have hb' : panelAt (p.airplanesAt (j + 1)) { r with row := r.row + 1 } = none := by
      by_contra hcon
      obtain ⟨b, e⟩ := Option.ne_none_iff_exists'.mp hcon
      have := (mem_panelRefs (p.airplanesAt (j + 1)) _).mpr ⟨b, e⟩
      rw [← hsame, mem_panelRefs, hb] at this
      simp at this
    obtain ⟨a1, a2⟩ := (ring_back (V := (p.operatingPointAt j).freestreamVelocity) (dt := p.deltaTime) (hm j) hq).2 hb
    obtain ⟨c1, c2⟩ := (ring_back (V := (p.operatingPointAt (j + 1)).freestreamVelocity) (dt := p.deltaTime)
      (hm (j + 1)) hq').2 hb'
    obtain ⟨m1, m2, m3, m4⟩ := ht.panels r.row r.col q q' hq hq'
    have f1' : (panelRing (p.airplanesAt (j + 1)) (p.operatingPointAt (j + 1)).freestreamVelocity p.deltaTime r).frontLeft
      = (panelRing (p.airplanesAt j) (p.operatingPointAt j).freestreamVelocity p.deltaTime r).frontLeft + d := f1
    have f2' : (panelRing (p.airplanesAt (j + 1)) (p.operatingPointAt (j + 1)).freestreamVelocity p.deltaTime r).frontRight
      = (panelRing (p.airplanesAt j) (p.operatingPointAt j).freestreamVelocity p.deltaTime r).frontRight + d := f2
    constructor
    · change (panelRing _ _ _ r).backLeft = (panelRing _ _ _ r).backLeft + d
      rw [a1, c1, f1', m1, m3, ht.freestream]
      abel
    · change (panelRing _ _ _ r).backRight = (panelRing _ _ _ r).backRight + d
      rw [a2, c2, f2', m2, m4, ht.freestream]
      abel
  | some b =>
    obtain ⟨b', hb'⟩ : ∃ b', panelAt (p.airplanesAt (j + 1)) { r with row := r.row + 1 } = some b' := by
      rw [← mem_panelRefs, ← hsame, mem_panelRefs]; exact ⟨b, hb⟩
    obtain ⟨a1, a2⟩ := (ring_back (V := (p.operatingPointAt j).freestreamVelocity) (dt := p.deltaTime) (hm j) hq).1 b hb
    obtain ⟨c1, c2⟩ := (ring_back (V := (p.operatingPointAt (j + 1)).freestreamVelocity) (dt := p.deltaTime)
      (hm (j + 1)) hq').1 b' hb'
    obtain ⟨f3, f4⟩ := front (r.row + 1) b b' hb hb'
    exact ⟨by
      change (panelRing _ _ _ r).backLeft = (panelRing _ _ _ r).backLeft + d
      rw [a1, c1]; exact f3, by
      change (panelRing _ _ _ r).backRight = (panelRing _ _ _ r).backRight + d
      rw [a2, c2]; exact f4⟩

/-- C46: for a wing that moves by `d` without turning or deforming, all apparent velocities of all its panels are
minus `d` over the time step; in particular they are zero for a wing that does not move (`d = 0`). -/
theorem C46_translation (hp : p.Made) (hs : Reached p s) (h : s.run pres sl = .ok s') (j : ℕ)
    (hj : j + 1 < p.numSteps) (t : UnsteadySolver)
    (ht : (List.range (j + 1 + 1)).foldlM (runStep pres) s.preallocate.initializePanelVortices = .ok t)
    (g : ℕ) (r : PanelRef) (hr : (panelRefs (p.airplanesAt (j + 1)))[g]? = some r) (d : V3)
    (hmove : p.Translates j r.airplane r.wing d) :
    let v := -(1 / p.deltaTime) • d
    t.apparentVelocities g = [some v, some v, some v, some v] ∧
      (d = 0 → t.apparentVelocities g = [some 0, some 0, some 0, some 0]) := by
  intro v
  have hmem := List.mem_of_getElem? hr
  obtain ⟨q', hq'⟩ := (mem_panelRefs _ _).mp hmem
  rw [← panelRefs_same hp.regular (by omega : j < p.numSteps) hj] at hmem
  obtain ⟨q, hq⟩ := (mem_panelRefs _ _).mp hmem
  obtain ⟨now, before, e1, e2, e3⟩ :=
    (C46_difference hp hs h (j + 1) hj t ht g r hr).2 j q' q rfl hq' hq
  obtain ⟨st, sm, tr⟩ := hs.trace hp h
  obtain ⟨g1, i1⟩ := tr.rings hj ((mem_panelRefs _ _).mpr ⟨q', hq'⟩)
  obtain ⟨g2, i2⟩ := tr.rings (by omega : j < p.numSteps) ((mem_panelRefs _ _).mpr ⟨q, hq⟩)
  rw [i1] at e1
  rw [i2] at e2
  have n1 := Option.some.inj e1
  have n2 := Option.some.inj e2
  obtain ⟨m1, m2, m3, m4⟩ := hmove.ring hp.regular hj hq hq'
  have hc := (hmove.panels r.row r.col q q' hq hq').points.1
  have c1 : q'.collocationPoint - q.collocationPoint = d := by rw [hc]; abel
  have half : ∀ a b c e : V3, a = c + d → b = e + d → (1 / 2 : ℝ) • (a + b) - (1 / 2 : ℝ) • (c + e) = d := by
    rintro a b c e rfl rfl
    ext <;> simp <;> ring
  have c2 : now.frontMiddle - before.frontMiddle = d := by
    rw [← n1, ← n2]; exact half _ _ _ _ m2 m1
  have c3 : now.leftMiddle - before.leftMiddle = d := by
    rw [← n1, ← n2]; exact half _ _ _ _ m1 m3
  have c4 : now.rightMiddle - before.rightMiddle = d := by
    rw [← n1, ← n2]; exact half _ _ _ _ m4 m2
  rw [c1, c2, c3, c4] at e3
  refine ⟨e3, ?_⟩
  intro h0
  rw [e3, h0]
  simp

/-- C46: seen from such a wing, the flow is that of the rings and the wake in a freestream reduced by the wing's
velocity: moving the wing and moving the air are the same. -/
theorem C46_superposition (hp : p.Made) (hs : Reached p s) (h : s.run pres sl = .ok s') (j : ℕ)
    (hj : j + 1 < p.numSteps) (r : PanelRef) (q' : Panel) (hr : panelAt (p.airplanesAt (j + 1)) r = some q') (d : V3)
    (hmove : p.Translates j r.airplane r.wing d) (point : RingVortex → V3)
    (hpoint : point = RingVortex.frontMiddle ∨ point = RingVortex.leftMiddle ∨ point = RingVortex.rightMiddle) :
    relativeFlow s' (j + 1) r point
      = boundFlow s' (j + 1) (ringPoint s' (j + 1) r point) + wakeFlow s' (j + 1) (ringPoint s' (j + 1) r point)
        + ((p.operatingPointAt (j + 1)).freestreamVelocity - (1 / p.deltaTime) • d) := by
  have hmem := (mem_panelRefs _ _).mpr ⟨q', hr⟩
  rw [← panelRefs_same hp.regular (by omega : j < p.numSteps) hj] at hmem
  obtain ⟨q, hq⟩ := (mem_panelRefs _ _).mp hmem
  obtain ⟨st, sm, tr⟩ := hs.trace hp h
  obtain ⟨g1, i1⟩ := tr.rings hj ((mem_panelRefs _ _).mpr ⟨q', hr⟩)
  obtain ⟨g2, i2⟩ := tr.rings (by omega : j < p.numSteps) ((mem_panelRefs _ _).mpr ⟨q, hq⟩)
  obtain ⟨m1, m2, m3, m4⟩ := hmove.ring hp.regular hj hq hr
  have half : ∀ a b c e : V3, a = c + d → b = e + d → (1 / 2 : ℝ) • (a + b) - (1 / 2 : ℝ) • (c + e) = d := by
    rintro a b c e rfl rfl
    ext <;> simp <;> ring
  have hd : ringPoint s' (j + 1) r point - ringPoint s' j r point = d := by
    unfold ringPoint
    rw [i1, i2]
    simp only [Option.map_some, Option.getD_some]
    rcases hpoint with rfl | rfl | rfl
    · exact half _ _ _ _ m2 m1
    · exact half _ _ _ _ m1 m3
    · exact half _ _ _ _ m4 m2
  unfold relativeFlow pointVelocity flow
  simp only
  rw [hd, tr.final_eq.2.2.2.2.2.2]
  abel

end Ptera
