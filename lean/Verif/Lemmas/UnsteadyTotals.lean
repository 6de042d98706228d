import Verif.Lemmas.UnsteadyImages

/-! Total loads of similar unsteady problems. -/

namespace Ptera

open UnsteadySolver

variable {p p' : UnsteadyProblem} {M N : M3} {t : V3} {sw : ℕ → ℕ → Bool} {κ : ℝ} {pres sl : Bool}
  {s s₁ z z₁ : UnsteadySolver}

theorem idxOf_getElem? {α : Type*} [DecidableEq α] {l : List α} {a : α} (h : a ∈ l) : l[l.idxOf a]? = some a := by
  rw [List.getElem?_eq_getElem (List.idxOf_lt_length_of_mem h), List.getElem_idxOf]

section

variable {ρ ω : ℕ → ℕ → ℕ}

namespace SimilarWingMotion

/-- The image of the run exists. -/
theorem run_exists (hs : SimilarWingMotion p p' M t sw κ ρ ω) (hr : Reached p s) (hrun : s.run pres sl = .ok s₁)
    (hz : Reached p' z) (hn : p'.numSteps ≤ p.numSteps) (pres' sl' : Bool) : ∃ z₁, z.run pres' sl' = .ok z₁ := by
  obtain ⟨st, sm, h⟩ := hr.trace hs.made hrun
  refine C40_run_finishes hs.made' hz ?_ pres' sl'
  intro k hk b hb
  exact hs.solvable h (hk.trans_le hn) b hb

/-- Flow, strengths and wake. -/
theorem run_flow (hs : SimilarWingMotion p p' M t sw κ ρ ω) (hr : Reached p s) (hrun : s.run pres sl = .ok s₁)
    (hz : Reached p' z) {sl' : Bool} (hrun' : z.run pres sl' = .ok z₁) (k : ℕ) (hk : k < p.numSteps) :
    (∀ q, flow z₁ k (M.mulVec q + t) = M.mulVec (flow s₁ k q)) ∧
    (∀ r c, panelAt (p.airplanesAt k) r = some c → ∃ v v', (s₁.panels k r).ring = some v ∧
      (z₁.panels k (imageRef (p.airplanesAt k) sw ρ ω r)).ring = some v' ∧
      v'.strength = orientation M (sw r.airplane r.wing) * v.strength) ∧
    (∀ c ∈ wakePlaces p k, ∃ w w', wakeRecord s₁ k c = some w ∧
      wakeRecord z₁ k (placeImage p sw ρ ω k c) = some w' ∧
      w'.frontLeft = M.mulVec (if sw c.airplane c.wing then w.frontRight else w.frontLeft) + t ∧
      w'.frontRight = M.mulVec (if sw c.airplane c.wing then w.frontLeft else w.frontRight) + t ∧
      w'.backLeft = M.mulVec (if sw c.airplane c.wing then w.backRight else w.backLeft) + t ∧
      w'.backRight = M.mulVec (if sw c.airplane c.wing then w.backLeft else w.backRight) + t ∧
      w'.strength = orientation M (sw c.airplane c.wing) * w.strength ∧ w'.age = w.age) := by
  obtain ⟨st, sm, h⟩ := hr.trace hs.made hrun
  obtain ⟨zt, zm, h'⟩ := hz.trace hs.made' hrun'
  obtain ⟨hv, hst, hf⟩ := hs.steps_similar h h' k hk
  have hk' : k < p'.numSteps := hk.trans_le hs.steps
  refine ⟨hf, ?_, ?_⟩
  · intro r c hc
    obtain ⟨g, h1, h2⟩ := hst r ((mem_panelRefs _ _).mpr ⟨c, hc⟩)
    exact ⟨_, _, h1, h2, rfl⟩
  · intro c hc
    obtain ⟨hrow, W, hW, hcol⟩ := mem_wakePlaces.mp hc
    have hc' : placeImage p sw ρ ω k c ∈ wakePlaces p' k :=
      (hs.places_perm hk).mem_iff.mpr (List.mem_map_of_mem hc)
    refine ⟨placeRing p s₁ k c, placeRing p' z₁ k (placeImage p sw ρ ω k c), ?_, ?_, ?_⟩
    · unfold wakeRecord
      rw [h.places hk, h.final_eq.2.2.2.2.2.2, Option.bind_some, List.getElem?_map, idxOf_getElem? hc, Option.map_some]
    · unfold wakeRecord
      rw [h'.places hk', h'.final_eq.2.2.2.2.2.2, Option.bind_some, List.getElem?_map, idxOf_getElem? hc', Option.map_some]
    · have hpos : 0 < W.numSpanwisePanels := by omega
      have hspan' : p.spanOf ⟨k, c.airplane, c.wing⟩ = W.numSpanwisePanels := by simp [UnsteadyProblem.spanOf, hW]
      have hstr := hs.edge_strength (j := k - 1 - c.row) (by omega) hk
        ((hs.steps_similar h h' (k - 1 - c.row) (by omega)).2.1) hW hcol
      have hvert := hv (by omega) c.airplane c.wing W hW hpos
      simp only [placeRing, placeImage, WakePlace.ref, wakeSlot, wakeRing, RingVortex.mk', hs.time]
      rw [hspan', hstr]
      have a1 := hvert c.row (by omega) c.col (by omega)
      have a2 := hvert c.row (by omega) (c.col + 1) (by omega)
      have a3 := hvert (c.row + 1) (by omega) c.col (by omega)
      have a4 := hvert (c.row + 1) (by omega) (c.col + 1) (by omega)
      rcases Bool.eq_false_or_eq_true (sw c.airplane c.wing) with hm | hm
      rotate_left
      all_goals rw [hm] at a1 a2 a3 a4 ⊢
      · simp only [Bool.false_eq_true, if_false] at a1 a2 a3 a4 ⊢
        exact ⟨a1, a2, a3, a4, trivial, trivial⟩
      · simp only [if_true] at a1 a2 a3 a4 ⊢
        have e1 : W.numSpanwisePanels - 1 - c.col = W.numSpanwisePanels - (c.col + 1) := by omega
        have e2 : W.numSpanwisePanels - 1 - c.col + 1 = W.numSpanwisePanels - c.col := by omega
        rw [e2, e1]
        exact ⟨a2, a1, a4, a3, trivial, trivial⟩

/-- Loads of the panels. -/
theorem run_panel_loads (hs : SimilarWingMotion p p' M t sw κ ρ ω) (hr : Reached p s) (hrun : s.run pres sl = .ok s₁)
    (hz : Reached p' z) {sl' : Bool} (hrun' : z.run pres sl' = .ok z₁) (k : ℕ) (hk : k < p.numSteps)
    (hN : (p'.operatingPointAt k).rotationWindToGeometry.transpose.mul M
      = N.mul (p.operatingPointAt k).rotationWindToGeometry.transpose)
    (hfirst : p.firstResultsStep ≤ (k : ℤ)) (hfirst' : p'.firstResultsStep ≤ (k : ℤ)) :
    ∀ r q, panelAt (p.airplanesAt k) r = some q → ∃ L L', (s₁.panels k r).loads = some L ∧
      (z₁.panels k (imageRef (p.airplanesAt k) sw ρ ω r)).loads = some L' ∧
      L'.forceGeometry = κ • M.mulVec L.forceGeometry ∧
      L'.forceWind = κ • N.mulVec L.forceWind ∧
      ∀ A A', (p.airplanesAt k)[r.airplane]? = some A → (p'.airplanesAt k)[ρ r.airplane r.wing]? = some A' →
        L'.momentGeometry = (M.det * κ) • M.mulVec L.momentGeometry
          + (M.mulVec A.xyzRef + t - A'.xyzRef).cross L'.forceGeometry ∧
        L'.momentWind = (M.det * κ) • N.mulVec L.momentWind
          + ((p'.operatingPointAt k).rotationWindToGeometry.transpose.mulVec (M.mulVec A.xyzRef + t - A'.xyzRef)).cross
            L'.forceWind := by
  have hk' : k < p'.numSteps := hk.trans_le hs.steps
  have hsk := hs.similar k hk
  have hm := hs.made.regular.made k
  have hm' := hs.made'.regular.made k
  have hp := fun r q hq => hs.panel_loads hr hz hrun hrun' hk hfirst hfirst' r q hq
  have wind : ∀ v : V3, (p'.operatingPointAt k).rotationWindToGeometry.transpose.mulVec (M.mulVec v)
      = N.mulVec ((p.operatingPointAt k).rotationWindToGeometry.transpose.mulVec v) := by
    intro v
    rw [← M3.mul_mulVec, ← M3.mul_mulVec, hN]
  have hrot := (C01_rotation_is_proper (p'.operatingPointAt k)).transpose
  intro r q hq
  obtain ⟨L, L', h3, h4, h5, h6⟩ := hp r q hq
  obtain ⟨A, V, hA, hV, -⟩ := panelAt_cell hq
  obtain ⟨A', _, hA', -⟩ := hsk.airplanes.wings _ _ _ _ hA hV
  obtain ⟨-, Q, -, hQ, -⟩ := C37_unsteady hs.made hr hrun k hk hfirst _ A hA
  obtain ⟨-, Q', -, hQ', -⟩ := C37_unsteady hs.made' hz hrun' k hk' hfirst' _ A' hA'
  obtain ⟨q1, q2, q3⟩ := hQ r (List.mem_filter.mpr ⟨(mem_panelRefs _ _).mpr ⟨q, hq⟩, by simp⟩)
  obtain ⟨c', hc', -⟩ := hsk.airplanes.panel hm hm' hq
  obtain ⟨q1', q2', q3'⟩ := hQ' (imageRef (p.airplanesAt k) sw ρ ω r)
    (List.mem_filter.mpr ⟨(mem_panelRefs _ _).mpr ⟨c', hc'⟩, by simp [imageRef]⟩)
  rw [h3, Option.some.injEq] at q1
  rw [h4, Option.some.injEq] at q1'
  subst q1
  subst q1'
  refine ⟨_, _, h3, h4, h5, ?_, ?_⟩
  · rw [q2', h5, M3.mulVec_smul, wind, q2]
  · intro B B' hB hB'
    refine ⟨h6 B B' hB hB', ?_⟩
    rw [q3', h6 B B' hB hB', M3.mulVec_add, M3.mulVec_smul, wind, q3, q2', ← hrot.cross]

end SimilarWingMotion

end

variable {ρ : ℕ → ℕ} {ω : ℕ → ℕ → ℕ}

namespace SimilarMotion

/-- The image of the run exists. -/
theorem run_exists (hs : SimilarMotion p p' M t sw κ ρ ω) (hr : Reached p s) (hrun : s.run pres sl = .ok s₁)
    (hz : Reached p' z) (hn : p'.numSteps ≤ p.numSteps) (pres' sl' : Bool) : ∃ z₁, z.run pres' sl' = .ok z₁ :=
  hs.wings.run_exists hr hrun hz hn pres' sl'

/-- Flow, strengths and wake. -/
theorem run_flow (hs : SimilarMotion p p' M t sw κ ρ ω) (hr : Reached p s) (hrun : s.run pres sl = .ok s₁)
    (hz : Reached p' z) {sl' : Bool} (hrun' : z.run pres sl' = .ok z₁) (k : ℕ) (hk : k < p.numSteps) :
    (∀ q, flow z₁ k (M.mulVec q + t) = M.mulVec (flow s₁ k q)) ∧
    (∀ r c, panelAt (p.airplanesAt k) r = some c → ∃ v v', (s₁.panels k r).ring = some v ∧
      (z₁.panels k (imageRef (p.airplanesAt k) sw (fun a _ => ρ a) ω r)).ring = some v' ∧
      v'.strength = orientation M (sw r.airplane r.wing) * v.strength) ∧
    (∀ c ∈ wakePlaces p k, ∃ w w', wakeRecord s₁ k c = some w ∧
      wakeRecord z₁ k (placeImage p sw (fun a _ => ρ a) ω k c) = some w' ∧
      w'.frontLeft = M.mulVec (if sw c.airplane c.wing then w.frontRight else w.frontLeft) + t ∧
      w'.frontRight = M.mulVec (if sw c.airplane c.wing then w.frontLeft else w.frontRight) + t ∧
      w'.backLeft = M.mulVec (if sw c.airplane c.wing then w.backRight else w.backLeft) + t ∧
      w'.backRight = M.mulVec (if sw c.airplane c.wing then w.backLeft else w.backRight) + t ∧
      w'.strength = orientation M (sw c.airplane c.wing) * w.strength ∧ w'.age = w.age) :=
  hs.wings.run_flow hr hrun hz hrun' k hk

/-- Loads of the panels and the airplanes. -/
theorem run_loads (hs : SimilarMotion p p' M t sw κ ρ ω) (hr : Reached p s) (hrun : s.run pres sl = .ok s₁)
    (hz : Reached p' z) {sl' : Bool} (hrun' : z.run pres sl' = .ok z₁) (k : ℕ) (hk : k < p.numSteps)
    (hN : (p'.operatingPointAt k).rotationWindToGeometry.transpose.mul M
      = N.mul (p.operatingPointAt k).rotationWindToGeometry.transpose)
    (hfirst : p.firstResultsStep ≤ (k : ℤ)) (hfirst' : p'.firstResultsStep ≤ (k : ℤ)) :
    (∀ r q, panelAt (p.airplanesAt k) r = some q → ∃ L L', (s₁.panels k r).loads = some L ∧
      (z₁.panels k (imageRef (p.airplanesAt k) sw (fun a _ => ρ a) ω r)).loads = some L' ∧
      L'.forceGeometry = κ • M.mulVec L.forceGeometry ∧
      L'.forceWind = κ • N.mulVec L.forceWind ∧
      ∀ A A', (p.airplanesAt k)[r.airplane]? = some A → (p'.airplanesAt k)[ρ r.airplane]? = some A' →
        L'.momentGeometry = (M.det * κ) • M.mulVec L.momentGeometry
          + (M.mulVec A.xyzRef + t - A'.xyzRef).cross L'.forceGeometry ∧
        L'.momentWind = (M.det * κ) • N.mulVec L.momentWind
          + ((p'.operatingPointAt k).rotationWindToGeometry.transpose.mulVec (M.mulVec A.xyzRef + t - A'.xyzRef)).cross
            L'.forceWind) ∧
    (∀ a A, (p.airplanesAt k)[a]? = some A → ∃ A' L L', (p'.airplanesAt k)[ρ a]? = some A' ∧
      (s₁.loads k)[a]? = some L ∧ (z₁.loads k)[ρ a]? = some L' ∧
      L'.forceWind = κ • N.mulVec L.forceWind ∧ L'.momentWind = (M.det * κ) • N.mulVec L.momentWind
        + ((p'.operatingPointAt k).rotationWindToGeometry.transpose.mulVec (M.mulVec A.xyzRef + t - A'.xyzRef)).cross
          L'.forceWind ∧
      IsCoefficients (p.operatingPointAt k) A L ∧ IsCoefficients (p'.operatingPointAt k) A' L') := by
  have hk' : k < p'.numSteps := hk.trans_le hs.steps
  have hsk := hs.similar k hk
  have hm := hs.made.regular.made k
  have hm' := hs.made'.regular.made k
  have hp := fun r q hq => hs.wings.panel_loads hr hz hrun hrun' hk hfirst hfirst' r q hq
  refine ⟨hs.wings.run_panel_loads hr hrun hz hrun' k hk hN hfirst hfirst', ?_⟩
  · intro a A hA
    obtain ⟨A', hA', -⟩ := hsk.airplanes.airplanes _ _ hA
    have ha : a < (p.airplanesAt k).length := (List.getElem?_eq_some_iff.mp hA).1
    obtain ⟨L, Q, hL, hQ, f1, f2, f3⟩ := C37_unsteady hs.made hr hrun k hk hfirst _ A hA
    obtain ⟨L', Q', hL', hQ', g1, g2, g3⟩ := C37_unsteady hs.made' hz hrun' k hk' hfirst' _ A' hA'
    have e0 : (((panelRefs (p'.airplanesAt k)).filter fun r => r.airplane = ρ a).map fun r => (Q' r).forceWind)
          = ((panelRefs (p'.airplanesAt k)).filter fun r => r.airplane = ρ a).map fun r =>
            (p'.operatingPointAt k).rotationWindToGeometry.transpose.mulVec
              ((((z₁.panels k r).loads).map (·.forceGeometry)).getD 0) := by
      apply List.map_congr_left
      intro r hr
      rw [(hQ' r hr).1, (hQ' r hr).2.1]; rfl
    refine ⟨A', L, L', hA', hL, hL', ?_, ?_, f3, g3⟩
    · rw [g1, f1]
      have e1 : (((panelRefs (p'.airplanesAt k)).filter fun r => r.airplane = ρ a).map fun r => (Q' r).forceWind)
          = ((panelRefs (p'.airplanesAt k)).filter fun r => r.airplane = ρ a).map fun r =>
            (p'.operatingPointAt k).rotationWindToGeometry.transpose.mulVec
              ((((z₁.panels k r).loads).map (·.forceGeometry)).getD 0) := by
        apply List.map_congr_left
        intro r hr
        rw [(hQ' r hr).1, (hQ' r hr).2.1]; rfl
      have e2 : (((panelRefs (p.airplanesAt k)).filter fun r => r.airplane = a).map fun r => (Q r).forceWind)
          = ((panelRefs (p.airplanesAt k)).filter fun r => r.airplane = a).map fun r =>
            (p.operatingPointAt k).rotationWindToGeometry.transpose.mulVec
              ((((s₁.panels k r).loads).map (·.forceGeometry)).getD 0) := by
        apply List.map_congr_left
        intro r hr
        rw [(hQ r hr).1, (hQ r hr).2.1]; rfl
      rw [e1, e2]
      apply hsk.totals hN ha κ (fun r => (((s₁.panels k r).loads).map (·.forceGeometry)).getD 0)
        (fun r => (((z₁.panels k r).loads).map (·.forceGeometry)).getD 0)
      intro r q hr
      obtain ⟨L, L', h3, h4, h5, -⟩ := hp r q hr
      simp only at h4 ⊢
      rw [h3, h4]; exact h5
    · rw [g2, f2, g1, e0]
      have e1 : (((panelRefs (p'.airplanesAt k)).filter fun r => r.airplane = ρ a).map fun r => (Q' r).momentWind)
          = ((panelRefs (p'.airplanesAt k)).filter fun r => r.airplane = ρ a).map fun r =>
            (p'.operatingPointAt k).rotationWindToGeometry.transpose.mulVec
              ((((z₁.panels k r).loads).map (·.momentGeometry)).getD 0) := by
        apply List.map_congr_left
        intro r hr
        rw [(hQ' r hr).1, (hQ' r hr).2.2]; rfl
      have e2 : (((panelRefs (p.airplanesAt k)).filter fun r => r.airplane = a).map fun r => (Q r).momentWind)
          = ((panelRefs (p.airplanesAt k)).filter fun r => r.airplane = a).map fun r =>
            (p.operatingPointAt k).rotationWindToGeometry.transpose.mulVec
              ((((s₁.panels k r).loads).map (·.momentGeometry)).getD 0) := by
        apply List.map_congr_left
        intro r hr
        rw [(hQ r hr).1, (hQ r hr).2.2]; rfl
      rw [e1, e2]
      apply hsk.moments hN ha (M.det * κ) (M.mulVec A.xyzRef + t - A'.xyzRef)
        (fun r => (((s₁.panels k r).loads).map (·.momentGeometry)).getD 0)
        (fun r => (((z₁.panels k r).loads).map (·.momentGeometry)).getD 0)
        (fun r => (((z₁.panels k r).loads).map (·.forceGeometry)).getD 0)
      intro r q hr hra
      obtain ⟨L, L', h3, h4, -, h6⟩ := hp r q hr
      simp only at h4 ⊢
      rw [h3, h4]; exact h6 A A' (hra ▸ hA) (hra ▸ hA')

end SimilarMotion

namespace SimilarUnsteady

theorem run_exists (hs : SimilarUnsteady p p' M t sw κ ρ ω) (hr : Reached p s) (hrun : s.run pres sl = .ok s₁)
    (hz : Reached p' z) (hn : p'.numSteps ≤ p.numSteps) (pres' sl' : Bool) : ∃ z₁, z.run pres' sl' = .ok z₁ :=
  hs.motion.run_exists hr hrun hz hn pres' sl'

theorem run_flow (hs : SimilarUnsteady p p' M t sw κ ρ ω) (hr : Reached p s) (hrun : s.run pres sl = .ok s₁)
    (hz : Reached p' z) {sl' : Bool} (hrun' : z.run pres sl' = .ok z₁) (k : ℕ) (hk : k < p.numSteps) :
    (∀ q, flow z₁ k (M.mulVec q + t) = M.mulVec (flow s₁ k q)) ∧
    (∀ r c, panelAt (p.airplanesAt k) r = some c → ∃ v v', (s₁.panels k r).ring = some v ∧
      (z₁.panels k (imageRef (p.airplanesAt k) sw (fun a _ => ρ a) ω r)).ring = some v' ∧
      v'.strength = orientation M (sw r.airplane r.wing) * v.strength) ∧
    (∀ c ∈ wakePlaces p k, ∃ w w', wakeRecord s₁ k c = some w ∧
      wakeRecord z₁ k (placeImage p sw (fun a _ => ρ a) ω k c) = some w' ∧
      w'.frontLeft = M.mulVec (if sw c.airplane c.wing then w.frontRight else w.frontLeft) + t ∧
      w'.frontRight = M.mulVec (if sw c.airplane c.wing then w.frontLeft else w.frontRight) + t ∧
      w'.backLeft = M.mulVec (if sw c.airplane c.wing then w.backRight else w.backLeft) + t ∧
      w'.backRight = M.mulVec (if sw c.airplane c.wing then w.backLeft else w.backRight) + t ∧
      w'.strength = orientation M (sw c.airplane c.wing) * w.strength ∧ w'.age = w.age) :=
  hs.motion.run_flow hr hrun hz hrun' k hk

theorem run_loads (hs : SimilarUnsteady p p' M t sw κ ρ ω) (hr : Reached p s) (hrun : s.run pres sl = .ok s₁)
    (hz : Reached p' z) {sl' : Bool} (hrun' : z.run pres sl' = .ok z₁) (k : ℕ) (hk : k < p.numSteps)
    (hN : (p'.operatingPointAt k).rotationWindToGeometry.transpose.mul M
      = N.mul (p.operatingPointAt k).rotationWindToGeometry.transpose)
    (hfirst : p.firstResultsStep ≤ (k : ℤ)) (hfirst' : p'.firstResultsStep ≤ (k : ℤ)) :
    (∀ r q, panelAt (p.airplanesAt k) r = some q → ∃ L L', (s₁.panels k r).loads = some L ∧
      (z₁.panels k (imageRef (p.airplanesAt k) sw (fun a _ => ρ a) ω r)).loads = some L' ∧
      L'.forceGeometry = κ • M.mulVec L.forceGeometry ∧
      L'.momentGeometry = (M.det * κ) • M.mulVec L.momentGeometry ∧
      L'.forceWind = κ • N.mulVec L.forceWind ∧
      L'.momentWind = (M.det * κ) • N.mulVec L.momentWind) ∧
    (∀ a A, (p.airplanesAt k)[a]? = some A → ∃ A' L L', (p'.airplanesAt k)[ρ a]? = some A' ∧
      (s₁.loads k)[a]? = some L ∧ (z₁.loads k)[ρ a]? = some L' ∧
      L'.forceWind = κ • N.mulVec L.forceWind ∧ L'.momentWind = (M.det * κ) • N.mulVec L.momentWind ∧
      IsCoefficients (p.operatingPointAt k) A L ∧ IsCoefficients (p'.operatingPointAt k) A' L') := by
  obtain ⟨h3, h4⟩ := hs.motion.run_loads hr hrun hz hrun' k hk hN hfirst hfirst'
  have hz : ∀ {a A A'}, (p.airplanesAt k)[a]? = some A → (p'.airplanesAt k)[ρ a]? = some A' →
      M.mulVec A.xyzRef + t - A'.xyzRef = 0 := by
    intro a A A' hA hA'
    rw [(hs.similar k hk).airplanes.reference hA hA', sub_self]
  have hc : ∀ v : V3, (0 : V3).cross v = 0 := by
    intro v
    ext <;> simp [V3.cross]
  refine ⟨?_, ?_⟩
  · intro r q hr
    obtain ⟨L, L', a3, a4, a5, a6, a7⟩ := h3 r q hr
    obtain ⟨A, w, hA, -, -⟩ := panelAt_cell hr
    obtain ⟨A', hA', -⟩ := (hs.similar k hk).airplanes.airplanes _ A hA
    obtain ⟨b1, b2⟩ := a7 A A' hA hA'
    rw [hz hA hA', hc, add_zero] at b1
    rw [hz hA hA', M3.mulVec_zero, hc, add_zero] at b2
    exact ⟨L, L', a3, a4, a5, b1, a6, b2⟩
  · intro a A hA
    obtain ⟨A', L, L', a1, a2, a3, a4, a5, a6⟩ := h4 a A hA
    rw [hz hA a1, M3.mulVec_zero, hc, add_zero] at a5
    exact ⟨A', L, L', a1, a2, a3, a4, a5, a6⟩

end SimilarUnsteady

end Ptera
