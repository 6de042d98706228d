import Verif.Lemmas.UnsteadyLattice

/-! Two solvers of one problem go through the same steps, whatever they did before. -/

namespace Ptera
namespace UnsteadySolver

section
variable {p : UnsteadyProblem} {pres : Bool} {k : ℕ} {t1 t2 u1 : UnsteadySolver}

theorem Inv.collapsed_record {s : UnsteadySolver} (h : Inv p k s) (hk : k < p.numSteps)
    {addr : WingRef → ℕ × ℕ → ℕ} (hw : WakeInv p k s addr) :
    (s.collapsed k (s.ringAt k) (s.ringAt (k - 1)) (wakeAddresses p k addr)).wakeArrays.getD k []
      = (wingRefs k (p.airplanesAt k)).flatMap fun w => (cellsOf k (p.spanOf w)).map fun c =>
          wakeSlot (wakeRing (s.vertices w) c.1 c.2 (edgeStrength p s (k - 1 - c.1) w c.2) (c.1 * p.deltaTime)) := by
  have hkl : k < s.wakeArrays.length := by have := h.arraysLen; omega
  change (s.wakeArrays.set k _).getD k [] = _
  rw [List.getD_eq_getElem?_getD, List.getElem?_set_self hkl, Option.getD_some]
  unfold wakeAddresses
  rw [List.map_flatMap]
  apply List.flatMap_congr
  intro w hmem
  rw [List.map_map]
  apply List.map_congr_left
  rintro ⟨i, j⟩ hc
  obtain ⟨h1, h2⟩ := mem_cellsOf.mp hc
  simp only [Function.comp]
  rw [hw.objs w hmem i h1 j h2]

/-- What two solvers must share before step `k` to continue alike: the rings of the steps before (those of later steps
have no strengths yet) and the wake vertices of this step. -/
structure Agree (p : UnsteadyProblem) (k : ℕ) (t1 t2 : UnsteadySolver) : Prop where
  rings : ∀ j < k, j < p.numSteps → ∀ r ∈ panelRefs (p.airplanesAt j), (t1.panels j r).ring = (t2.panels j r).ring
  vertices : 0 < k → k < p.numSteps → ∀ w ∈ wingRefs k (p.airplanesAt k), t1.vertices w = t2.vertices w

theorem Agree.ringAt (h : Agree p k t1 t2) {j : ℕ} (hjk : j < k) (hj : j < p.numSteps) {r : PanelRef}
    (hr : r ∈ panelRefs (p.airplanesAt j)) : t1.ringAt j r = t2.ringAt j r := by
  unfold UnsteadySolver.ringAt
  rw [h.rings j hjk hj r hr]

/-- Rings of the two solvers differ at most in strength. -/
theorem Inv.ringAt_updateStrength (h1 : Inv p k t1) (h2 : Inv p k t2) {j : ℕ} (hj : j < p.numSteps) {r : PanelRef}
    (hr : r ∈ panelRefs (p.airplanesAt j)) (x : ℝ) :
    (t1.ringAt j r).updateStrength x = (t2.ringAt j r).updateStrength x := by
  obtain ⟨g1, e1⟩ := h1.rings j hj r hr
  obtain ⟨g2, e2⟩ := h2.rings j hj r hr
  unfold UnsteadySolver.ringAt
  rw [e1, e2]
  rfl

theorem edge_mem (hp : p.Regular) (hc : p.Chordwise) {j : ℕ} {w : WingRef} (hk : k < p.numSteps)
    (hj : j < p.numSteps) (hw : w ∈ wingRefs k (p.airplanesAt k)) {c : ℕ} (hcol : c < p.spanOf w) :
    (⟨w.airplane, w.wing, p.chordOf w - 1, c⟩ : PanelRef) ∈ panelRefs (p.airplanesAt j) := by
  rw [panelRefs_same hp hj hk]
  obtain ⟨hs, wing, hwing⟩ := mem_wingRefs.mp hw
  have hwing' : p.wing? ⟨k, w.airplane, w.wing⟩ = some wing := by rw [← hs]; exact hwing
  rw [mem_panelRefs, ← Option.isSome_iff_exists, panelAt_isSome hp hwing']
  have := hc w wing hwing
  simp only [UnsteadyProblem.chordOf, UnsteadyProblem.spanOf, hwing, Option.map_some, Option.getD_some] at hcol ⊢
  omega

theorem Agree.edgeStrength (hp : p.Regular) (hc : p.Chordwise) (h : Agree p k t1 t2) {j : ℕ} {w : WingRef}
    (hk : k < p.numSteps) (hjk : j < k) (hw : w ∈ wingRefs k (p.airplanesAt k)) {c : ℕ}
    (hcol : c < p.spanOf w) : edgeStrength p t1 j w c = edgeStrength p t2 j w c := by
  unfold UnsteadySolver.edgeStrength
  rw [h.ringAt hjk (by omega) (edge_mem hp hc hk (by omega) hw hcol)]

theorem Agree.record (hp : p.Regular) (hc : p.Chordwise) (h : Agree p k t1 t2) (hk : k < p.numSteps)
    (h1 : Inv p k t1) (h2 : Inv p k t2) {a1 a2 : WingRef → ℕ × ℕ → ℕ} (w1 : WakeInv p k t1 a1)
    (w2 : WakeInv p k t2 a2) :
    (t1.collapsed k (t1.ringAt k) (t1.ringAt (k - 1)) (wakeAddresses p k a1)).wakeArrays.getD k []
      = (t2.collapsed k (t2.ringAt k) (t2.ringAt (k - 1)) (wakeAddresses p k a2)).wakeArrays.getD k [] := by
  rw [h1.collapsed_record hk w1, h2.collapsed_record hk w2]
  apply List.flatMap_congr
  intro w hw
  apply List.map_congr_left
  rintro ⟨i, j⟩ hcell
  obtain ⟨hi, hj⟩ := mem_cellsOf.mp hcell
  simp only at hi ⊢
  rw [h.vertices (by omega) hk w hw, h.edgeStrength hp hc hk (by omega) hw hj]

theorem Inv.slots_same (h1 : Inv p k t1) (h2 : Inv p k t2) (hk : k < p.numSteps) :
    t1.slotsAt k (t1.ringAt k) = t2.slotsAt k (t2.ringAt k) := by
  unfold slotsAt
  rw [h1.problem, h2.problem]
  apply List.map_congr_left
  intro r hr
  have := h1.ringAt_updateStrength h2 hk hr 0
  change ringSlot _ r ((t1.ringAt k r).updateStrength 0) = ringSlot _ r ((t2.ringAt k r).updateStrength 0)
  rw [this]

theorem solutionVelocity_congr {a b : UnsteadySolver} (h1 : a.problem = b.problem) (h2 : a.step = b.step)
    (h3 : a.slots = b.slots) (h4 : a.strengths = b.strengths) (h5 : a.currentWake = b.currentWake) (pts : List V3) :
    a.solutionVelocity pts = b.solutionVelocity pts := by
  unfold solutionVelocity wakeVelocity freestreamVelocity operatingPoint
  rw [h1, h2, h3, h4, h5]

/-- The step after. -/
theorem Agree.step (hp : p.Regular) (hc : p.Chordwise) (hk : k < p.numSteps) (h1 : Inv p k t1) (h2 : Inv p k t2)
    (h : Agree p k t1 t2) (hr : runStep pres t1 k = .ok u1) :
    ∃ u2, runStep pres t2 k = .ok u2 ∧ Agree p (k + 1) u1 u2 := by
  unfold runStep at hr
  obtain ⟨m1, hm1, hu1⟩ := bind_ok.mp hr
  simp only [pure, Except.pure, Except.ok.injEq] at hu1
  obtain ⟨a1, w1⟩ := h1.wake hk
  obtain ⟨a2, w2⟩ := h2.wake hk
  obtain ⟨x, hx, e1, f1⟩ := h1.solve hp hk w1 hm1
  have hrec := h.record hp hc hk h1 h2 w1 w2
  have hA : (t2.assembled k (t2.ringAt k) (t2.ringAt (k - 1)) (wakeAddresses p k a2)).influences
      = (t1.assembled k (t1.ringAt k) (t1.ringAt (k - 1)) (wakeAddresses p k a1)).influences := by
    rw [h2.influences hp hk, h1.influences hp hk]
  have hnil : ∀ a, k = 0 → wakeAddresses p k a = [] := by
    intro a h0
    apply List.eq_nil_of_length_eq_zero
    rw [wakeAddresses_length, h0]
    simp
  have hb : List.zipWith (fun w f => -w - f)
        (t2.assembled k (t2.ringAt k) (t2.ringAt (k - 1)) (wakeAddresses p k a2)).wake
        (t2.assembled k (t2.ringAt k) (t2.ringAt (k - 1)) (wakeAddresses p k a2)).freestream
      = List.zipWith (fun w f => -w - f)
        (t1.assembled k (t1.ringAt k) (t1.ringAt (k - 1)) (wakeAddresses p k a1)).wake
        (t1.assembled k (t1.ringAt k) (t1.ringAt (k - 1)) (wakeAddresses p k a1)).freestream := by
    rw [h2.rhs hp hk _ (hnil a2), h1.rhs hp hk _ (hnil a1)]
    apply List.map_congr_left
    intro i _
    have hwf : ∀ q, wakeFlow (t2.collapsed k (t2.ringAt k) (t2.ringAt (k - 1)) (wakeAddresses p k a2)) k q
        = wakeFlow (t1.collapsed k (t1.ringAt k) (t1.ringAt (k - 1)) (wakeAddresses p k a1)) k q := by
      intro q
      unfold wakeFlow
      rw [List.getD_eq_getElem?_getD, List.getD_eq_getElem?_getD] at hrec
      rw [hrec]
      have p1 : (t1.collapsed k (t1.ringAt k) (t1.ringAt (k - 1)) (wakeAddresses p k a1)).problem = p := h1.problem
      have p2 : (t2.collapsed k (t2.ringAt k) (t2.ringAt (k - 1)) (wakeAddresses p k a2)).problem = p := h2.problem
      rw [p1, p2]
    rw [hwf]
  have hs2 : t2.solveStep k = .ok (t2.stepped k (t2.ringAt k) (t2.ringAt (k - 1)) (wakeAddresses p k a2) x) := by
    rw [solveStep_eq (h2.ready hp hk w2), hA, hb, hx]
    rfl
  obtain ⟨x2, hx2, e2, f2⟩ := h2.solve hp hk w2 hs2
  have hxx : x2 = x := by
    rw [hA, hb, hx] at hx2
    exact (Except.ok.inj hx2).symm
  subst hxx
  set m2 := t2.stepped k (t2.ringAt k) (t2.ringAt (k - 1)) (wakeAddresses p k a2) x2 with hm2
  refine ⟨m2.populateNextWake pres, ?_, ?_⟩
  · unfold runStep
    rw [hs2]
    rfl
  obtain ⟨s1, _⟩ := h1.shed hp hk w1 f1 pres
  obtain ⟨s2, _⟩ := h2.shed hp hk w2 f2 pres
  rw [hu1] at s1
  have hrings : ∀ j < k + 1, j < p.numSteps → ∀ r ∈ panelRefs (p.airplanesAt j),
      (m1.panels j r).ring = (m2.panels j r).ring := by
    intro j hjk1 hj r hmem
    by_cases hjk : j = k
    · rw [hjk] at hj hmem ⊢
      obtain ⟨g, hg⟩ := List.getElem?_of_mem hmem
      rw [f1.rings g r hg, f2.rings g r hg, h1.ringAt_updateStrength h2 hj hmem]
    · rw [f1.panels j hjk, f2.panels j hjk, h.rings j (by omega) hj r hmem]
  constructor
  · intro j hjk hj r hr
    rw [s1.same.1, s2.same.1]
    exact hrings j hjk hj r hr
  · intro _ hk1 w hw
    have hw0 := hp.wingRefs_move hk1 hk hw
    have hws : w.step = k + 1 := (mem_wingRefs.mp hw).1
    obtain ⟨_, wing, hwing⟩ := mem_wingRefs.mp hw0
    have n1 := s1.next hk1 _ hw0 wing hwing
    have n2 := s2.next hk1 _ hw0 wing hwing
    have ew : ({ ({ w with step := k } : WingRef) with step := k + 1 } : WingRef) = w := by
      cases w; simp only at hws; subst hws; rfl
    rw [ew] at n1 n2
    rw [n1, n2]
    have hvel : ∀ pts, m1.solutionVelocity pts = m2.solutionVelocity pts := by
      apply solutionVelocity_congr
      · rw [f1.problem, f2.problem]
      · rw [f1.step, f2.step]
      · rw [f1.slots, f2.slots, h1.slots_same h2 hk]
      · rw [f1.strengths, f2.strengths]
      · unfold currentWake
        rw [f1.step, f2.step, e1, hm2, (stepped_frame _ _ _ _ _ _).2.2.2.2.2.1,
          (stepped_frame _ _ _ _ _ _).2.2.2.2.2.1]
        exact hrec
    have hcv : m1.convect pres = m2.convect pres := by
      funext q
      unfold convect freestreamVelocity operatingPoint deltaTime
      rw [hvel, f1.problem, f2.problem, f1.step, f2.step]
    have htr : m1.trailingVertices w wing = m2.trailingVertices w wing := by
      have hw' : p.wing? ⟨k, w.airplane, w.wing⟩ = some wing := hwing
      have hmem : ∀ c < wing.numSpanwisePanels,
          (⟨w.airplane, w.wing, wing.spec.numChordwisePanels - 1, c⟩ : PanelRef)
            ∈ panelRefs (p.airplanesAt (k + 1)) := by
        intro c hcol
        have := edge_mem hp hc hk hk1 hw0 (c := c) (by simpa [UnsteadyProblem.spanOf, hw'] using hcol)
        simpa [UnsteadyProblem.chordOf, hw'] using this
      have hwr : ∀ c < wing.numSpanwisePanels,
          (m1.wingRing w (wing.spec.numChordwisePanels - 1) c).backLeft
            = (m2.wingRing w (wing.spec.numChordwisePanels - 1) c).backLeft ∧
          (m1.wingRing w (wing.spec.numChordwisePanels - 1) c).backRight
            = (m2.wingRing w (wing.spec.numChordwisePanels - 1) c).backRight := by
        intro c hcol
        obtain ⟨b1, hb1⟩ := h1.rings (k + 1) hk1 _ (hmem c hcol)
        obtain ⟨b2, hb2⟩ := h2.rings (k + 1) hk1 _ (hmem c hcol)
        unfold wingRing
        rw [hws, f1.panels _ (by omega), f2.panels _ (by omega), hb1, hb2]
        exact ⟨rfl, rfl⟩
      unfold trailingVertices
      apply List.map_congr_left
      intro j hj
      by_cases hjn : j < wing.numSpanwisePanels
      · rw [if_pos hjn, if_pos hjn, (hwr j hjn).1]
      · rw [if_neg hjn, if_neg hjn]
        by_cases h0 : 0 < wing.numSpanwisePanels
        · rw [if_pos h0, if_pos h0, (hwr _ (by omega)).2]
        · rw [if_neg h0, if_neg h0]
    unfold nextVertices
    simp only [ew, htr, hcv, f1.step, f2.step, f1.vertices, f2.vertices]
    by_cases h0 : k = 0
    · rw [if_pos h0, if_pos h0]
    · rw [if_neg h0, if_neg h0, h.vertices (by omega) hk _ hw0]

end

section
variable {p : UnsteadyProblem} {pres : Bool} {s1 s2 : UnsteadySolver}

/-- The whole time loop, from any two states that differ before it in what is not looked at. -/
theorem agree_loop (hp : p.Regular) (hc : p.Chordwise) {b1 b2 : UnsteadySolver} (g1 : Inv p 0 b1) (g2 : Inv p 0 b2) :
    ∀ n ≤ p.numSteps, ∀ t1, (List.range n).foldlM (runStep pres) b1 = .ok t1 →
      ∃ t2, (List.range n).foldlM (runStep pres) b2 = .ok t2 ∧ Agree p n t1 t2 ∧ Inv p n t1 ∧ Inv p n t2 := by
  intro n
  induction n with
  | zero =>
    intro _ t1 h
    simp only [List.range_zero, List.foldlM_nil, pure, Except.pure, Except.ok.injEq] at h
    subst h
    exact ⟨b2, rfl, ⟨fun j hj => absurd hj (by omega), fun h => absurd h (by omega)⟩, g1, g2⟩
  | succ n ih =>
    intro hn t1 h
    rw [List.range_succ, List.foldlM_append] at h
    obtain ⟨v1, hv1, h⟩ := bind_ok.mp h
    simp only [List.foldlM_cons, List.foldlM_nil] at h
    obtain ⟨u1, hu1, h⟩ := bind_ok.mp h
    simp only [pure, Except.pure, Except.ok.injEq] at h
    subst h
    obtain ⟨v2, hv2, ha, i1, i2⟩ := ih (by omega) v1 hv1
    obtain ⟨u2, hu2, hau⟩ := ha.step hp hc (by omega) i1 i2 hu1
    have next : ∀ {v u : UnsteadySolver}, Inv p n v → runStep pres v n = .ok u → Inv p (n + 1) u := by
      intro v u hi hr
      unfold runStep at hr
      obtain ⟨m, hm, hu⟩ := bind_ok.mp hr
      simp only [pure, Except.pure, Except.ok.injEq] at hu
      subst hu
      obtain ⟨a, w⟩ := hi.wake (by omega)
      obtain ⟨x, _, _, f⟩ := hi.solve hp (by omega) w hm
      exact (hi.shed hp (by omega) w f pres).2
    refine ⟨u2, ?_, hau, next i1 hu1, next i2 hu2⟩
    rw [List.range_succ, List.foldlM_append, hv2]
    simp [bind, Except.bind, hu2, pure, Except.pure]

theorem agree_steps (hp : p.Regular) (hc : p.Chordwise) {b1 b2 : UnsteadySolver} (g2 : Inv p 0 b2)
    {s1' : UnsteadySolver} {st sm : ℕ → UnsteadySolver} (tr : Trace p pres b1 s1' st sm) (sl2 : Bool) :
    ∃ t2, (List.range p.numSteps).foldlM (runStep pres) b2 = .ok t2 ∧
      ∀ j < p.numSteps, ∀ r ∈ panelRefs (p.airplanesAt j),
        (s1'.panels j r).ring
          = ((if sl2 then t2.finalize.calculateStreamlines else t2.finalize).panels j r).ring := by
  have g1 : Inv p 0 b1 := by rw [← tr.start]; exact tr.inv 0 (Nat.zero_le _)
  obtain ⟨t2, h2, ha, _⟩ := agree_loop (pres := pres) hp hc g1 g2 p.numSteps le_rfl _ (tr.reached _ le_rfl)
  refine ⟨t2, h2, ?_⟩
  intro j hj r hr
  rw [tr.final_eq.1]
  have : (if sl2 then t2.finalize.calculateStreamlines else t2.finalize).panels = t2.panels := by
    rw [finalize_rest]
    cases sl2 <;> rfl
  rw [this]
  exact ha.rings j hj hj r hr

theorem agree_run (hp : p.Regular) (hc : p.Chordwise) (g1 : Good p s1) (g2 : Good p s2) {sl1 : Bool}
    {s1' : UnsteadySolver} (h : s1.run pres sl1 = .ok s1') (sl2 : Bool) :
    ∃ s2', s2.run pres sl2 = .ok s2' ∧ ∀ j < p.numSteps, ∀ r ∈ panelRefs (p.airplanesAt j),
      (s1'.panels j r).ring = (s2'.panels j r).ring := by
  obtain ⟨st, sm, tr⟩ := run_trace hp g1 h
  obtain ⟨t2, h2, hr⟩ := agree_steps hp hc g2.inv tr sl2
  refine ⟨_, ?_, hr⟩
  unfold run
  have h2' : (List.range p.numSteps).foldlM (runStep pres) s2.preallocate.initializePanelVortices = .ok t2 := h2
  rw [g2.problem, h2']
  rfl

/-- What two finished runs show is the same as soon as the rings are the same. -/
theorem agree_finished {s1' s2' : UnsteadySolver} (hp : p.Regular) (hc : p.Chordwise)
    {st1 sm1 st2 sm2 : ℕ → UnsteadySolver} (t1 : Trace p pres s1 s1' st1 sm1) (t2 : Trace p pres s2 s2' st2 sm2)
    (hr : ∀ j < p.numSteps, ∀ r ∈ panelRefs (p.airplanesAt j), (s1'.panels j r).ring = (s2'.panels j r).ring) :
    ∀ k < p.numSteps,
      (0 < k → ∀ w ∈ wingRefs k (p.airplanesAt k), s1'.vertices w = s2'.vertices w) ∧
      s1'.wakeArrays.getD k [] = s2'.wakeArrays.getD k [] ∧
      (∀ q, flow s1' k q = flow s2' k q) := by
  have hagree : Agree p p.numSteps s1' s2' := ⟨fun j _ => hr j, fun _ h => absurd h (by omega)⟩
  intro k
  induction k with
  | zero =>
    intro hk
    have hrec : s1'.wakeArrays.getD 0 [] = s2'.wakeArrays.getD 0 [] := by
      rw [t1.record_eq hk, t2.record_eq hk]
      have : ∀ (f g : WingRef → List WakeSlot), (∀ w, f w = []) → (∀ w, g w = []) →
          (wingRefs 0 (p.airplanesAt 0)).flatMap f = (wingRefs 0 (p.airplanesAt 0)).flatMap g := by
        intro f g hf hg
        apply List.flatMap_congr
        intro w _
        rw [hf, hg]
      apply this <;> intro w <;> simp [cellsOf]
    refine ⟨fun h => absurd h (by omega), hrec, ?_⟩
    intro q
    unfold flow boundFlow wakeFlow
    rw [List.getD_eq_getElem?_getD, List.getD_eq_getElem?_getD] at hrec
    rw [hrec, t1.final_eq.2.2.2.2.2.2, t2.final_eq.2.2.2.2.2.2]
    congr 3
    apply List.map_congr_left
    intro r hmem
    unfold panelInduced
    rw [hr 0 hk r hmem]
  | succ k ih =>
    intro hk
    obtain ⟨ihv, _, ihf⟩ := ih (by omega)
    have hv : ∀ w ∈ wingRefs (k + 1) (p.airplanesAt (k + 1)), s1'.vertices w = s2'.vertices w := by
      intro w hw
      have hkn : k < p.numSteps := by omega
      have hw0 := hp.wingRefs_move hk hkn hw
      have hws : w.step = k + 1 := (mem_wingRefs.mp hw).1
      obtain ⟨_, wing, hwing⟩ := mem_wingRefs.mp hw0
      have n1 := t1.next hk hw0 hwing
      have n2 := t2.next hk hw0 hwing
      have ew : ({ ({ w with step := k } : WingRef) with step := k + 1 } : WingRef) = w := by
        cases w; simp only at hws; subst hws; rfl
      rw [ew] at n1 n2
      rw [n1, n2]
      obtain ⟨x1, f1⟩ := t1.solved k hkn
      obtain ⟨x2, f2⟩ := t2.solved k hkn
      have hcv : (sm1 k).convect pres = (sm2 k).convect pres := by
        funext q
        rw [t1.convect hp hkn, t2.convect hp hkn, ihf]
      have hm : ∀ r ∈ panelRefs (p.airplanesAt (k + 1)),
          ((sm1 k).panels (k + 1) r).ring.map (fun v => (v.backLeft, v.backRight))
            = ((sm2 k).panels (k + 1) r).ring.map (fun v => (v.backLeft, v.backRight)) := by
        intro r hmem
        rw [f1.panels _ (by omega), f2.panels _ (by omega)]
        obtain ⟨b1, hb1⟩ := (t1.inv k (by omega)).rings (k + 1) hk r hmem
        obtain ⟨b2, hb2⟩ := (t2.inv k (by omega)).rings (k + 1) hk r hmem
        rw [hb1, hb2]
        rfl
      have htr : (sm1 k).trailingVertices w wing = (sm2 k).trailingVertices w wing := by
        have hw' : p.wing? ⟨k, w.airplane, w.wing⟩ = some wing := hwing
        have hmem : ∀ c < wing.numSpanwisePanels,
            (⟨w.airplane, w.wing, wing.spec.numChordwisePanels - 1, c⟩ : PanelRef)
              ∈ panelRefs (p.airplanesAt (k + 1)) := by
          intro c hcol
          have := edge_mem hp hc hkn hk hw0 (c := c) (by simpa [UnsteadyProblem.spanOf, hw'] using hcol)
          simpa [UnsteadyProblem.chordOf, hw'] using this
        have hwr : ∀ c < wing.numSpanwisePanels,
            ((sm1 k).wingRing w (wing.spec.numChordwisePanels - 1) c).backLeft
              = ((sm2 k).wingRing w (wing.spec.numChordwisePanels - 1) c).backLeft ∧
            ((sm1 k).wingRing w (wing.spec.numChordwisePanels - 1) c).backRight
              = ((sm2 k).wingRing w (wing.spec.numChordwisePanels - 1) c).backRight := by
          intro c hcol
          have := hm _ (hmem c hcol)
          obtain ⟨b1, hb1⟩ := (t1.inv k (by omega)).rings (k + 1) hk _ (hmem c hcol)
          obtain ⟨b2, hb2⟩ := (t2.inv k (by omega)).rings (k + 1) hk _ (hmem c hcol)
          unfold wingRing
          rw [hws, f1.panels _ (by omega), f2.panels _ (by omega), hb1, hb2]
          exact ⟨rfl, rfl⟩
        unfold trailingVertices
        apply List.map_congr_left
        intro j hj
        by_cases hjn : j < wing.numSpanwisePanels
        · rw [if_pos hjn, if_pos hjn, (hwr j hjn).1]
        · rw [if_neg hjn, if_neg hjn]
          by_cases h0 : 0 < wing.numSpanwisePanels
          · rw [if_pos h0, if_pos h0, (hwr _ (by omega)).2]
          · rw [if_neg h0, if_neg h0]
      unfold nextVertices
      simp only [ew, htr, hcv, f1.step, f2.step]
      by_cases h0 : k = 0
      · rw [if_pos h0, if_pos h0]
      · rw [if_neg h0, if_neg h0, f1.vertices, f2.vertices]
        have := ihv (by omega) _ hw0
        rw [t1.vertices (k := k) (by omega) (le_refl _), t2.vertices (k := k) (by omega) (le_refl _)] at this
        rw [this]
    have hrec : s1'.wakeArrays.getD (k + 1) [] = s2'.wakeArrays.getD (k + 1) [] := by
      rw [t1.record_eq hk, t2.record_eq hk]
      apply List.flatMap_congr
      intro w hw
      apply List.map_congr_left
      rintro ⟨i, j⟩ hcell
      obtain ⟨hi, hj⟩ := mem_cellsOf.mp hcell
      simp only at hi ⊢
      rw [hv w hw]
      congr 2
      unfold UnsteadySolver.edgeStrength
      rw [hagree.ringAt (by omega) (by omega) (edge_mem hp hc hk (by omega) hw hj)]
    refine ⟨fun _ => hv, hrec, ?_⟩
    intro q
    unfold flow boundFlow wakeFlow
    rw [List.getD_eq_getElem?_getD, List.getD_eq_getElem?_getD] at hrec
    rw [hrec, t1.final_eq.2.2.2.2.2.2, t2.final_eq.2.2.2.2.2.2]
    congr 3
    apply List.map_congr_left
    intro r hmem
    unfold panelInduced
    rw [hr (k + 1) hk r hmem]

end

end UnsteadySolver
end Ptera
