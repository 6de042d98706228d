import Verif.Lemmas.Finals
import Verif.Props.References

/-!
# Final and averaged results about other reference points

C87 for changed reference points (C80): final, averaged and root-mean-square forces and force coefficients are the same;
final and averaged moments are transferred if the new reference point keeps its distance from the old one.
-/

namespace Ptera

open List UnsteadySolver

/-- What a run appends to its final, mean and root-mean-square results. -/
theorem added_finals {p : UnsteadyProblem} {s s₁ : UnsteadySolver} {pres sl : Bool} (hp : p.Made) (hs : Reached p s)
    (h : s.run pres sl = .ok s₁) (i : ℕ) (hi : i < (p.airplanesAt 0).length) :
    ∀ q ∈ [(ResultLists.forces, AirplaneLoads.forceWind), (ResultLists.forceCoefficients, AirplaneLoads.forceCoefficients),
        (ResultLists.moments, AirplaneLoads.momentWind),
        (ResultLists.momentCoefficients, AirplaneLoads.momentCoefficients)],
      (p.maxPeriod = 0 → addedResult (q.1 s.final) (q.1 s₁.final) i = some ((s₁.history q.2 i).getLastD 0) ∧
        addedResult (q.1 s.finalMean) (q.1 s₁.finalMean) i = none ∧
        addedResult (q.1 s.finalRms) (q.1 s₁.finalRms) i = none) ∧
      (p.maxPeriod ≠ 0 → addedResult (q.1 s.final) (q.1 s₁.final) i = none ∧
        addedResult (q.1 s.finalMean) (q.1 s₁.finalMean) i = some (meanOf (s₁.history q.2 i)) ∧
        addedResult (q.1 s.finalRms) (q.1 s₁.finalRms) i = some (rmsOf (s₁.history q.2 i))) := by
  obtain ⟨st, sm, ht⟩ := hs.trace hp h
  obtain ⟨f1, f2⟩ := ht.run_finals
  have entry : ∀ (e : List V3 → V3) (l : ResultLists),
      ∀ q ∈ [(ResultLists.forces, AirplaneLoads.forceWind), (ResultLists.forceCoefficients, AirplaneLoads.forceCoefficients),
        (ResultLists.moments, AirplaneLoads.momentWind),
        (ResultLists.momentCoefficients, AirplaneLoads.momentCoefficients)],
      addedResult (q.1 l) (q.1 ((List.range (p.airplanesAt 0).length).foldl (s₁.appendResults e) l)) i =
        some (e (s₁.history q.2 i)) := by
    intro e l q hq
    rw [foldl_appendResults]
    simp only [List.mem_cons, List.not_mem_nil, or_false] at hq
    rcases hq with rfl | rfl | rfl | rfl <;>
      simp only [addedResult_append, List.getElem?_map, List.getElem?_range hi, Option.map_some]
  intro q hq
  constructor
  · intro h0
    obtain ⟨a1, a2, a3⟩ := f1 h0
    rw [a1, a2, a3, addedResult_self, addedResult_self]
    exact ⟨entry _ _ q hq, rfl, rfl⟩
  · intro h0
    obtain ⟨a1, a2, a3⟩ := f2 h0
    rw [a1, a2, a3, addedResult_self]
    exact ⟨rfl, entry _ _ q hq, entry _ _ q hq⟩

/-- The mean of moments transferred by the same vector. -/
theorem mean_transferred (δ : V3) (F M : ℕ → V3) (l : List ℕ) :
    meanOf (l.map fun k => M k + δ.cross (F k)) = meanOf (l.map M) + δ.cross (meanOf (l.map F)) := by
  have hsum : ∀ (a b c : ℕ → ℝ) (u v : ℝ), mean (l.map fun k => a k + (u * b k - v * c k))
      = mean (l.map a) + (u * mean (l.map b) - v * mean (l.map c)) := by
    intro a b c u v
    have : (l.map fun k => a k + (u * b k - v * c k)).sum
        = (l.map a).sum + (u * (l.map b).sum - v * (l.map c).sum) := by
      induction l with
      | nil => simp
      | cons k l ih => simp only [List.map_cons, List.sum_cons, ih]; ring
    unfold mean
    rw [this]
    simp only [List.length_map]
    ring
  unfold meanOf
  simp only [List.map_map]
  ext
  · exact hsum (fun k => (M k).x) (fun k => (F k).z) (fun k => (F k).y) δ.y δ.z
  · exact hsum (fun k => (M k).y) (fun k => (F k).x) (fun k => (F k).z) δ.z δ.x
  · exact hsum (fun k => (M k).z) (fun k => (F k).y) (fun k => (F k).x) δ.x δ.y

theorem last_transferred (δ : V3) (F M : ℕ → V3) (l : List ℕ) :
    (l.map fun k => M k + δ.cross (F k)).getLastD 0 = (l.map M).getLastD 0 + δ.cross ((l.map F).getLastD 0) := by
  rw [List.getLastD_eq_getLast?, List.getLastD_eq_getLast?, List.getLastD_eq_getLast?]
  simp only [List.getLast?_map]
  cases l.getLast? with
  | none => ext <;> simp [V3.cross]
  | some k => rfl

/-- C87, other reference points and reference dimensions: final, averaged and root-mean-square forces and force coefficients
are the same, however the reference points move. If the new reference point of an airplane keeps its distance from the
old one, the final and averaged moments, in wind axes, are the old ones transferred to it. -/
theorem C87_references (ams ams' : List AirplaneMovement) (om : OperatingPointMovement)
    (ns nc nch ns' nc' nch' : Option ℕ) (dt dt' : Option ℝ) (only only' : Bool) (p p' : UnsteadyProblem)
    (h : study ams om ns nc nch dt only = .ok p) (h' : study ams' om ns' nc' nch' dt' only' = .ok p')
    (hsame : Forall₂ SameWingMotion ams ams') (hn : p'.numSteps = p.numSteps) (hd : p'.deltaTime = p.deltaTime)
    (hP' : p'.maxPeriod = p.maxPeriod) (hc : p.Chordwise) (hdt : 0 < p.deltaTime) (hP : 0 ≤ p.maxPeriod)
    (s s₁ z z₁ : UnsteadySolver) (prescribed streamlines streamlines' : Bool) (hr : Reached p s)
    (hrun : s.run prescribed streamlines = .ok s₁) (hz : Reached p' z)
    (hrun' : z.run prescribed streamlines' = .ok z₁) (i : ℕ) (hi : i < ams.length) :
    (∀ q ∈ [ResultLists.forces, ResultLists.forceCoefficients],
      addedResult (q z.final) (q z₁.final) i = addedResult (q s.final) (q s₁.final) i ∧
      addedResult (q z.finalMean) (q z₁.finalMean) i = addedResult (q s.finalMean) (q s₁.finalMean) i ∧
      addedResult (q z.finalRms) (q z₁.finalRms) i = addedResult (q s.finalRms) (q s₁.finalRms) i) ∧
    ∀ δ, (∀ k < p.numSteps, ∀ A A', (p.airplanesAt k)[i]? = some A → (p'.airplanesAt k)[i]? = some A' →
        A.xyzRef - A'.xyzRef = δ) →
      ∀ lists ∈ [fun s : UnsteadySolver => s.final, fun s => s.finalMean],
        addedResult (lists z).moments (lists z₁).moments i =
          (addedResult (lists s).moments (lists s₁).moments i).bind fun M =>
            (addedResult (lists s).forces (lists s₁).forces i).map fun F =>
              M + (om.base.rotationWindToGeometry.transpose.mulVec δ).cross F := by
  obtain ⟨z₂, hz₂, hall⟩ := C80_unsteady ams ams' om ns nc nch ns' nc' nch' dt dt' only only' p p' h h' hsame hn hd hc
    s s₁ z prescribed streamlines streamlines' hr hrun hz
  rw [hrun', Except.ok.injEq] at hz₂
  subst hz₂
  obtain ⟨hm, -, e1, -, -, -, -, -, H, O, hH, hO, hk⟩ := study_parts h
  obtain ⟨hm', -, e1', -, -, -, -, -, -, -, -, -, hk'⟩ := study_parts h'
  have hlen := study_airplanes_length h
  have hlen' := study_airplanes_length h'
  have hpos : 0 < p.numSteps := hr.steps hm
  obtain ⟨w1, w2, w3, -⟩ := hm.window hpos hdt hP
  obtain ⟨-, w2', -, -⟩ := hm'.window (by omega) (by rw [hd]; exact hdt) (by rw [hP']; exact hP)
  have ha : p'.firstAveragingStep = p.firstAveragingStep := by rw [e1, e1', hn, hP', hd]
  have hrot : ∀ k < p.numSteps,
      (p.operatingPointAt k).rotationWindToGeometry = om.base.rotationWindToGeometry := by
    intro k hkn
    have e := (hk k hkn).2
    unfold OperatingPointMovement.generate at hO
    obtain ⟨vs, -, hO⟩ := bind_ok.mp hO
    simp only [pure, Except.pure, Except.ok.injEq] at hO
    rw [← hO, List.getElem?_map, List.getElem?_range hkn, Option.map_some, Option.some.injEq] at e
    rw [← e]
    rfl
  set ks := (List.range p.numSteps).drop p.firstAveragingStep.toNat with hks
  have hsp : s₁.problem = p := by
    obtain ⟨st, sm, ht⟩ := hr.trace hm hrun
    exact ht.final_eq.2.2.2.2.2.2
  have hzp : z₁.problem = p' := by
    obtain ⟨st, sm, ht⟩ := hz.trace hm' hrun'
    exact ht.final_eq.2.2.2.2.2.2
  have hist : ∀ g : AirplaneLoads → V3, s₁.history g i = ks.map fun k => (((s₁.loads k)[i]?).map g).getD 0 := by
    intro g
    unfold history averagingSteps
    rw [hsp]
  have hist' : ∀ g : AirplaneLoads → V3, z₁.history g i = ks.map fun k => (((z₁.loads k)[i]?).map g).getD 0 := by
    intro g
    unfold history averagingSteps
    rw [hzp, hn, ha]
  have hL : ∀ k ∈ ks, k < p.numSteps ∧ ∃ A A' L L', (p.airplanesAt k)[i]? = some A ∧ (p'.airplanesAt k)[i]? = some A' ∧
      (s₁.loads k)[i]? = some L ∧ (z₁.loads k)[i]? = some L' ∧ L'.forceWind = L.forceWind ∧
      L'.forceCoefficients = L.forceCoefficients ∧
      L'.momentWind = L.momentWind
        + (om.base.rotationWindToGeometry.transpose.mulVec A.xyzRef
            - om.base.rotationWindToGeometry.transpose.mulVec A'.xyzRef).cross L.forceWind := by
    intro k hkm
    obtain ⟨j, hj, hjk⟩ := List.getElem_of_mem hkm
    rw [List.getElem_drop, List.getElem_range] at hjk
    rw [List.length_drop, List.length_range] at hj
    have hkn : k < p.numSteps := by omega
    have hA := List.getElem?_eq_getElem (l := p.airplanesAt k) (i := i) (by rw [hlen k hkn]; exact hi)
    have hA' := List.getElem?_eq_getElem (l := p'.airplanesAt k) (i := i)
      (by rw [hlen' k (by omega), ← hsame.length_eq]; exact hi)
    obtain ⟨-, -, -, hres⟩ := hall k hkn
    obtain ⟨L, L', a1, a2, a3, a4, a5, -⟩ := (hres (by omega) (by omega)).2 i _ _ hA hA'
    rw [hrot k hkn] at a5
    exact ⟨hkn, _, _, L, L', hA, hA', a1, a2, a3, a4, a5⟩
  have hlen0 : (p.airplanesAt 0).length = ams.length := hlen 0 hpos
  have hlen0' : (p'.airplanesAt 0).length = ams.length := by rw [hlen' 0 (by omega), hsame.length_eq]
  have added := added_finals hm hr hrun i (by rw [hlen0]; exact hi)
  have added' := added_finals hm' hz hrun' i (by rw [hlen0']; exact hi)
  rw [hP'] at added'
  constructor
  · have same : ∀ g : AirplaneLoads → V3, (∀ L L' : AirplaneLoads, L'.forceWind = L.forceWind →
        L'.forceCoefficients = L.forceCoefficients → g L' = g L) → z₁.history g i = s₁.history g i := by
      intro g hg
      rw [hist, hist']
      refine List.map_congr_left fun k hkm => ?_
      obtain ⟨-, A, A', L, L', -, -, a1, a2, a3, a4, -⟩ := hL k hkm
      rw [a1, a2, Option.map_some, Option.map_some, Option.getD_some, Option.getD_some, hg L L' a3 a4]
    have both : ∀ q ∈ [(ResultLists.forces, AirplaneLoads.forceWind),
        (ResultLists.forceCoefficients, AirplaneLoads.forceCoefficients)],
        addedResult (q.1 z.final) (q.1 z₁.final) i = addedResult (q.1 s.final) (q.1 s₁.final) i ∧
        addedResult (q.1 z.finalMean) (q.1 z₁.finalMean) i = addedResult (q.1 s.finalMean) (q.1 s₁.finalMean) i ∧
        addedResult (q.1 z.finalRms) (q.1 z₁.finalRms) i = addedResult (q.1 s.finalRms) (q.1 s₁.finalRms) i := by
      intro q hq
      have hqh : z₁.history q.2 i = s₁.history q.2 i := by
        simp only [List.mem_cons, List.not_mem_nil, or_false] at hq
        rcases hq with rfl | rfl
        · exact same _ fun L L' h1 _ => h1
        · exact same _ fun L L' _ h2 => h2
      have hq4 : q ∈ [(ResultLists.forces, AirplaneLoads.forceWind),
          (ResultLists.forceCoefficients, AirplaneLoads.forceCoefficients),
          (ResultLists.moments, AirplaneLoads.momentWind),
          (ResultLists.momentCoefficients, AirplaneLoads.momentCoefficients)] := by
        simp only [List.mem_cons, List.not_mem_nil, or_false] at hq ⊢
        tauto
      by_cases h0 : p.maxPeriod = 0
      · obtain ⟨b1, b2, b3⟩ := (added q hq4).1 h0
        obtain ⟨c1, c2, c3⟩ := (added' q hq4).1 h0
        rw [b1, b2, b3, c1, c2, c3, hqh]
        exact ⟨rfl, rfl, rfl⟩
      · obtain ⟨b1, b2, b3⟩ := (added q hq4).2 h0
        obtain ⟨c1, c2, c3⟩ := (added' q hq4).2 h0
        rw [b1, b2, b3, c1, c2, c3, hqh]
        exact ⟨rfl, rfl, rfl⟩
    intro q hq
    simp only [List.mem_cons, List.not_mem_nil, or_false] at hq
    rcases hq with rfl | rfl
    · exact both (ResultLists.forces, AirplaneLoads.forceWind) List.mem_cons_self
    · exact both (ResultLists.forceCoefficients, AirplaneLoads.forceCoefficients)
        (List.mem_cons_of_mem _ List.mem_cons_self)
  · intro δ hδ
    set w := om.base.rotationWindToGeometry.transpose.mulVec δ with hw
    have hmom : z₁.history (·.momentWind) i = ks.map fun k => (((s₁.loads k)[i]?).map (·.momentWind)).getD 0
        + w.cross ((((s₁.loads k)[i]?).map (·.forceWind)).getD 0) := by
      rw [hist']
      refine List.map_congr_left fun k hkm => ?_
      obtain ⟨hkn, A, A', L, L', hA, hA', a1, a2, a3, a4, a5⟩ := hL k hkm
      rw [a1, a2]
      simp only [Option.map_some, Option.getD_some]
      rw [a5, hw, ← hδ k hkn A A' hA hA', M3.mulVec_sub]
    have m1 := added _ (List.mem_cons_of_mem _ (List.mem_cons_of_mem _ List.mem_cons_self))
    have m2 := added' _ (List.mem_cons_of_mem _ (List.mem_cons_of_mem _ List.mem_cons_self))
    have f1 := added _ List.mem_cons_self
    intro lists hl
    simp only [List.mem_cons, List.not_mem_nil, or_false] at hl
    by_cases h0 : p.maxPeriod = 0
    · obtain ⟨b1, b2, -⟩ := m1.1 h0
      obtain ⟨c1, c2, -⟩ := m2.1 h0
      obtain ⟨d1, d2, -⟩ := f1.1 h0
      rcases hl with rfl | rfl
      · dsimp only
        rw [b1, c1, d1]
        simp only [Option.bind_some, Option.map_some]
        rw [hmom, last_transferred, hist, hist]
      · dsimp only
        rw [b2, c2]
        rfl
    · obtain ⟨b1, b2, -⟩ := m1.2 h0
      obtain ⟨c1, c2, -⟩ := m2.2 h0
      obtain ⟨d1, d2, -⟩ := f1.2 h0
      rcases hl with rfl | rfl
      · dsimp only
        rw [b1, c1]
        rfl
      · dsimp only
        rw [b2, c2, d2]
        simp only [Option.bind_some, Option.map_some]
        rw [hmom, mean_transferred, hist, hist]

/-- The reference point of an airplane whose movement does not move it. -/
theorem fixed_reference {ams : List AirplaneMovement} {om : OperatingPointMovement} {ns nc nch : Option ℕ}
    {dt : Option ℝ} {only : Bool} {p : UnsteadyProblem} (h : study ams om ns nc nch dt only = .ok p) (i : ℕ)
    (m : AirplaneMovement) (hm : ams[i]? = some m) (hx : m.xRef = {}) (hy : m.yRef = {}) (hz : m.zRef = {}) (k : ℕ)
    (hk : k < p.numSteps) (A : Airplane) (hA : (p.airplanesAt k)[i]? = some A) : A.xyzRef = m.base.xyzRef := by
  obtain ⟨-, -, -, -, -, -, -, -, H, O, hH, -, hall⟩ := study_parts h
  obtain ⟨l, hl, hg⟩ := mapM_getElem? hH i _ hm
  obtain ⟨B, hB, e⟩ := forall₂_at (hall k hk).1 i _ hl
  rw [hA, Option.some.injEq] at hB
  subst hB
  obtain ⟨xs, ys, zs, ws, e1, e2, e3, -, -, e5⟩ := AirplaneMovement.generate_ok hg
  obtain ⟨a, ea, hc⟩ := e5 k hk
  rw [e, Option.some.injEq] at ea
  subst ea
  have still : ∀ {l : List ℝ} {c : ℝ}, ({} : Oscillation).values c p.numSteps p.deltaTime = .ok l → l.getD k 0 = c := by
    intro l c hl
    have hv : ({} : Oscillation).Valid := Or.inl rfl
    rw [hv.values_still (Or.inl rfl) c p.numSteps p.deltaTime] at hl
    cases hl
    simp [hk]
  rw [hx] at e1
  rw [hy] at e2
  rw [hz] at e3
  have hr : A.xyzRef = ⟨xs.getD k 0, ys.getD k 0, zs.getD k 0⟩ := by
    unfold Airplane.create at hc
    split at hc
    · cases hc
    · cases hc
      rfl
  rw [hr, still e1, still e2, still e3]

/-- The hypotheses are met: a heaving plate and the same with any other reference point (periodic or, with amplitude and
period zero, static); both run. -/
example (A P : ℝ) (n : ℕ) (hn : 0 < n) (dt velocity alpha : ℝ) (ha : |alpha| ≤ 90) (hdt : 0 < dt) (hv : 0 < velocity)
    (only only' pres sl : Bool) (x : V3) :
    ∃ ams ams' om p p' s s₁ z z₁, study ams om (some n) none none (some dt) only = .ok p ∧
      study ams' om (some n) none none (some dt) only' = .ok p' ∧ Forall₂ SameWingMotion ams ams' ∧ ams.length = 1 ∧
      p'.numSteps = p.numSteps ∧ p'.deltaTime = p.deltaTime ∧ p'.maxPeriod = p.maxPeriod ∧ p.maxPeriod = max 0 P ∧
      p.Chordwise ∧ 0 < p.deltaTime ∧ Reached p s ∧ s.run pres sl = .ok s₁ ∧ Reached p' z ∧ z.run pres sl = .ok z₁ ∧
      ∀ k < p.numSteps, ∀ A A', (p.airplanesAt k)[0]? = some A → (p'.airplanesAt k)[0]? = some A' →
        A.xyzRef - A'.xyzRef = -x := by
  obtain ⟨w, hw, -, h⟩ := heaving_movement_of 1 A P
  obtain ⟨a, ha1, hax⟩ : ∃ a, Airplane.create [w] = .ok a ∧ a.xyzRef = 0 := ⟨_, rfl, rfl⟩
  obtain ⟨a', ha2, hax'⟩ : ∃ a', Airplane.create [w] x 3 (some 2) (some 3) (some 4) = .ok a' ∧ a'.xyzRef = x :=
    ⟨_, rfl, rfl⟩
  obtain ⟨hP, mv, p, h1, h2, hp, -⟩ := h a n hn dt { velocity := velocity, alpha := alpha, beta := 0 } only
  obtain ⟨hP', mv', p', h1', h2', hp', -⟩ := h a' n hn dt { velocity := velocity, alpha := alpha, beta := 0 } only'
  obtain ⟨s, hs⟩ := hp.create hn
  obtain ⟨z, hz⟩ := hp'.create hn
  have hr : Reached p s := .fresh hs
  have hr' : Reached p' z := .fresh hz
  obtain ⟨s₁, hrun⟩ := hp.run hdt.le hv.le (flies_ahead _ velocity alpha ha) hr pres sl
  obtain ⟨z₁, hrun'⟩ := hp'.run hdt.le hv.le (flies_ahead _ velocity alpha ha) hr' pres sl
  have hst : study [{ base := a, wingMovements := [heave w A P] }] { base := { velocity := velocity, alpha := alpha, beta := 0 } }
      (some n) none none (some dt) only = .ok p := bind_ok.mpr ⟨mv, h1, h2⟩
  have hst' : study [{ base := a', wingMovements := [heave w A P] }] { base := { velocity := velocity, alpha := alpha, beta := 0 } }
      (some n) none none (some dt) only' = .ok p' := bind_ok.mpr ⟨mv', h1', h2'⟩
  have m1 : p.maxPeriod = max 0 P := by
    have := (study_parts hst).2.2.2.2.1
    rw [hP] at this
    exact (Except.ok.inj this).symm
  have m2 : p'.maxPeriod = max 0 P := by
    have := (study_parts hst').2.2.2.2.1
    rw [hP'] at this
    exact (Except.ok.inj this).symm
  refine ⟨[{ base := a, wingMovements := [heave w A P] }], [{ base := a', wingMovements := [heave w A P] }], _, p, p', s,
    s₁, z, z₁, hst, hst', .cons rfl .nil, rfl, by rw [hp.steps, hp'.steps], by rw [hp.dt, hp'.dt], by rw [m1, m2], m1,
    hp.chordwise, by rw [hp.dt]; exact hdt, hr, hrun, hr', hrun', ?_⟩
  intro k hk B B' hB hB'
  rw [fixed_reference hst 0 _ rfl rfl rfl rfl k hk B hB,
    fixed_reference hst' 0 _ rfl rfl rfl rfl k (by rw [hp'.steps, ← hp.steps]; exact hk) B' hB']
  simp only [hax, hax', zero_sub]

end Ptera
