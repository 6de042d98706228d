import Verif.Lemmas.UnsteadyInv

/-! One time step preserves the invariant. -/

namespace Ptera

theorem nonempty_wing : Nonempty Wing := ⟨⟨[], ⟨0, 0, false, 0, 0, ""⟩, 0, 0, []⟩⟩

namespace UnsteadySolver

theorem shedVertices_rest (s : UnsteadySolver) (pres : Bool) :
    s.shedVertices pres = { s with vertices := (s.shedVertices pres).vertices } := by
  unfold shedVertices
  split_ifs <;> rfl

theorem shedVertices_eq {s : UnsteadySolver} (hp : s.problem.Regular) (hk : s.step + 1 < s.problem.numSteps)
    (pres : Bool) :
    (∀ w ∈ wingRefs s.step s.airplanes, ∀ wing, s.problem.wing? w = some wing →
      (s.shedVertices pres).vertices { w with step := s.step + 1 } = s.nextVertices pres w wing) ∧
    (∀ w : WingRef, w.step ≠ s.step + 1 → (s.shedVertices pres).vertices w = s.vertices w) := by
  set L := wingRefs (s.step + 1) (s.problem.airplanesAt (s.step + 1)) with hL
  have hex : ∀ w ∈ L, ∃ wing, s.problem.wing? { w with step := s.step } = some wing := by
    intro w hw
    have := hp.wingRefs_move hk (Nat.lt_of_succ_lt hk) hw
    exact (mem_wingRefs.mp this).2
  have := nonempty_wing
  choose! W hW using hex
  have hfold : ∀ (M : List WingRef), (∀ w ∈ M, w ∈ L) → ∀ V, M.foldl (s.shedVerticesOf pres) V
      = M.foldl (fun V w => Function.update V (id w)
          ((fun w _ => s.nextVertices pres { w with step := s.step } (W w)) w (V (id w)))) V := by
    intro M
    induction M with
    | nil => intro _ V; rfl
    | cons w M ih =>
      intro hM V
      rw [List.foldl_cons, List.foldl_cons, ih fun w' h => hM w' (List.mem_cons_of_mem _ h)]
      congr 1
      unfold shedVerticesOf
      simp only [hW w (hM w (by simp)), id]
  have hv : (s.shedVertices pres).vertices = L.foldl (s.shedVerticesOf pres) s.vertices := by
    unfold shedVertices
    rw [if_pos hk]
  obtain ⟨u1, u2⟩ := foldl_update L id (fun w (_ : List (List V3)) =>
    s.nextVertices pres { w with step := s.step } (W w)) s.vertices (by simpa using wingRefs_nodup _ _)
  rw [hv, hfold L (fun _ h => h)]
  constructor
  · intro w hw wing hwing
    have hwstep : w.step = s.step := (mem_wingRefs.mp hw).1
    have hmem : { w with step := s.step + 1 } ∈ L := hp.wingRefs_move (Nat.lt_of_succ_lt hk) hk hw
    have := u1 _ hmem
    simp only [id] at this
    have e1 : ({ w with step := s.step } : WingRef) = w := by cases w; simp_all
    have e2 : W { w with step := s.step + 1 } = wing := by
      have := hW _ hmem
      simp only [e1] at this
      rw [hwing] at this
      exact (Option.some.inj this).symm
    rw [e2] at this
    simp only [e1] at this
    exact this
  · intro w hw
    apply u2
    intro hmem
    exact hw (mem_wingRefs.mp (by simpa using hmem)).1

theorem trailingVertices_length (s : UnsteadySolver) (next : WingRef) (wing : Wing) :
    (s.trailingVertices next wing).length = wing.numSpanwisePanels + 1 := by simp [trailingVertices]

theorem nextVertices_shape (s : UnsteadySolver) (pres : Bool) (w : WingRef) (wing : Wing)
    (hv : 0 < s.step → (s.vertices w).length = s.step + 1 ∧
      ∀ row ∈ s.vertices w, row.length = wing.numSpanwisePanels + 1) :
    (s.nextVertices pres w wing).length = s.step + 2 ∧
    ∀ row ∈ s.nextVertices pres w wing, row.length = wing.numSpanwisePanels + 1 := by
  unfold nextVertices
  simp only
  split_ifs with h0
  · refine ⟨by simp [h0], ?_⟩
    intro row hrow
    simp only [List.mem_cons, List.not_mem_nil, or_false] at hrow
    rcases hrow with rfl | rfl <;> simp [trailingVertices_length]
  · obtain ⟨h1, h2⟩ := hv (by omega)
    refine ⟨by simp [h1], ?_⟩
    intro row hrow
    rcases List.mem_cons.mp hrow with rfl | hrow
    · exact trailingVertices_length _ _ _
    · obtain ⟨row', hm, rfl⟩ := List.mem_map.mp hrow
      simp [h2 row' hm]

/-- The first part of a step within a run: what was solved and what was recorded. -/
structure SolvedFacts (p : UnsteadyProblem) (k : ℕ) (s s1 : UnsteadySolver) (x : List ℝ) : Prop where
  problem : s1.problem = p
  step : s1.step = k
  strengths : s1.strengths = x
  slots : s1.slots = s.slotsAt k (s.ringAt k)
  lasts : s1.lasts = s.lastsAt k (s.ringAt (k - 1))
  rings : ∀ g r, (panelRefs (p.airplanesAt k))[g]? = some r →
    (s1.panels k r).ring = some ((s.ringAt k r).updateStrength (x.getD g 0))
  panels : ∀ j, j ≠ k → s1.panels j = s.panels j
  loads : ∀ j, j ≠ k → s1.loads j = s.loads j
  arrays : ∀ j, j ≠ k → s1.wakeArrays.getD j [] = s.wakeArrays.getD j []
  arraysLen : s1.wakeArrays.length = s.wakeArrays.length
  record : s1.wakeArrays.getD k [] = (wingRefs k (p.airplanesAt k)).flatMap fun w =>
    (cellsOf k (p.spanOf w)).map fun c =>
      wakeSlot (wakeRing (s.vertices w) c.1 c.2 (edgeStrength p s (k - 1 - c.1) w c.2) (c.1 * p.deltaTime))
  vertices : s1.vertices = s.vertices
  wakes : s1.wakes = s.wakes
  objects : s1.objects = s.objects
  allocated : s1.allocated = s.allocated
  counts : s1.wakeCounts = s.wakeCounts
  finals : s1.final = s.final ∧ s1.finalMean = s.finalMean ∧ s1.finalRms = s.finalRms

theorem Inv.solve {p : UnsteadyProblem} (hp : p.Regular) {k : ℕ} {s s1 : UnsteadySolver} (h : Inv p k s)
    (hk : k < p.numSteps) {addr : WingRef → ℕ × ℕ → ℕ} (hw : WakeInv p k s addr) (hs : s.solveStep k = .ok s1) :
    ∃ x, linalgSolve (s.assembled k (s.ringAt k) (s.ringAt (k - 1)) (wakeAddresses p k addr)).influences
        (List.zipWith (fun w f => -w - f)
          (s.assembled k (s.ringAt k) (s.ringAt (k - 1)) (wakeAddresses p k addr)).wake
          (s.assembled k (s.ringAt k) (s.ringAt (k - 1)) (wakeAddresses p k addr)).freestream) = .ok x ∧
      s1 = s.stepped k (s.ringAt k) (s.ringAt (k - 1)) (wakeAddresses p k addr) x ∧
      SolvedFacts p k s s1 x := by
  have hr := h.ready hp hk hw
  rw [solveStep_eq hr] at hs
  cases hx : linalgSolve (s.assembled k (s.ringAt k) (s.ringAt (k - 1)) (wakeAddresses p k addr)).influences
        (List.zipWith (fun w f => -w - f)
          (s.assembled k (s.ringAt k) (s.ringAt (k - 1)) (wakeAddresses p k addr)).wake
          (s.assembled k (s.ringAt k) (s.ringAt (k - 1)) (wakeAddresses p k addr)).freestream) with
  | error e => rw [hx] at hs; simp [Except.map] at hs
  | ok x =>
    rw [hx] at hs
    simp only [Except.map, Except.ok.injEq] at hs
    refine ⟨x, rfl, hs.symm, ?_⟩
    obtain ⟨f1, f2, f3, f4, f5, f6, f7, f8, f9, f10, f11, f12, f13, f14, f15, f16⟩ :=
      s.stepped_frame k (s.ringAt k) (s.ringAt (k - 1)) (wakeAddresses p k addr) x
    rw [hs] at f1 f2 f3 f4 f5 f6 f7 f8 f9 f10 f11 f12 f13 f14 f15 f16
    have hkl : k < s.wakeArrays.length := by have := h.arraysLen; omega
    refine ⟨by rw [f1, h.problem], f2, f3, f4, f5, ?_, f15, f16, ?_, by rw [f6]; simp, ?_, f8, f9, f10, f11, f7,
      ⟨f12, f13, f14⟩⟩
    · intro g r hg
      have := stepped_rings hr x g r (by rw [h.problem]; exact hg)
      rw [hs] at this
      exact this
    · intro j hj
      rw [f6, List.getD_eq_getElem?_getD, List.getElem?_set_ne (Ne.symm hj), List.getD_eq_getElem?_getD]
    · rw [f6, List.getD_eq_getElem?_getD, List.getElem?_set_self hkl, Option.getD_some]
      unfold wakeAddresses
      rw [List.map_flatMap]
      apply List.flatMap_congr
      intro w hmem
      rw [List.map_map]
      apply List.map_congr_left
      rintro ⟨i, j⟩ hc
      obtain ⟨h1, h2⟩ := mem_cellsOf.mp hc
      simp only [Function.comp]
      rw [hw.objs w hmem i h1 j h2]

/-- A whole step within a run. -/
structure StepFacts (p : UnsteadyProblem) (pres : Bool) (k : ℕ) (s s1 s' : UnsteadySolver) : Prop where
  rest : s' = { s1 with vertices := s'.vertices, wakes := s'.wakes, objects := s'.objects, allocated := s'.allocated }
  vertices : ∀ w : WingRef, w.step ≠ k + 1 → s'.vertices w = s1.vertices w
  wakes : ∀ w : WingRef, w.step ≠ k + 1 → s'.wakes w = s1.wakes w
  next : k + 1 < p.numSteps → ∀ w ∈ wingRefs k (p.airplanesAt k), ∀ wing, p.wing? w = some wing →
    s'.vertices { w with step := k + 1 } = s1.nextVertices pres w wing
  shared : k + 1 < p.numSteps → ∀ w ∈ wingRefs k (p.airplanesAt k), ∀ i < k, ∀ j < p.spanOf w,
    refAt (s'.wakes { w with step := k + 1 }) (i + 1) j = refAt (s1.wakes w) i j
  last : ¬ k + 1 < p.numSteps → s' = s1

theorem edgeStrength_congr {p : UnsteadyProblem} {s s' : UnsteadySolver} {j : ℕ} (h : s'.panels j = s.panels j)
    (w : WingRef) (c : ℕ) : edgeStrength p s' j w c = edgeStrength p s j w c := by
  simp [edgeStrength, ringAt, h]

theorem Inv.shed {p : UnsteadyProblem} (hp : p.Regular) {k : ℕ} {s s1 : UnsteadySolver} (h : Inv p k s)
    (hk : k < p.numSteps) {addr : WingRef → ℕ × ℕ → ℕ} (hw : WakeInv p k s addr) {x : List ℝ}
    (hf : SolvedFacts p k s s1 x) (pres : Bool) :
    StepFacts p pres k s s1 (s1.populateNextWake pres) ∧ Inv p (k + 1) (s1.populateNextWake pres) := by
  -- the parts of the invariant that shedding does not touch
  have hrings : ∀ j < p.numSteps, ∀ r ∈ panelRefs (p.airplanesAt j), ∃ g,
      (s1.panels j r).ring = some ((boundRing p j r).updateStrength g) := by
    intro j hj r hr
    by_cases hjk : j = k
    · subst hjk
      obtain ⟨g, hg⟩ := List.getElem?_of_mem hr
      obtain ⟨g0, hg0⟩ := h.rings j hj r hr
      refine ⟨x.getD g 0, ?_⟩
      rw [hf.rings g r hg]
      simp [ringAt, hg0, RingVortex.updateStrength]
    · rw [hf.panels j hjk]; exact h.rings j hj r hr
  have harrays : ∀ j < p.numSteps, (s1.wakeArrays.getD j []).length = j * totalSpanwise (p.airplanesAt j) := by
    intro j hj
    by_cases hjk : j = k
    · subst hjk
      rw [hf.record, ← sum_wingRefs, List.length_flatMap, ← List.sum_map_mul_left]
      simp [cellsOf_length]
    · rw [hf.arrays j hjk]; exact h.arrays j hj
  by_cases hlast : k + 1 < p.numSteps
  swap
  · have e : s1.populateNextWake pres = s1 := by
      have hc : ¬ (s1.step + 1 < s1.problem.numSteps) := by rw [hf.step, hf.problem]; exact hlast
      unfold populateNextWake shedVertices
      rw [if_neg hc]
      unfold shedRings
      rw [if_neg hc]
    rw [e]
    refine ⟨⟨rfl, fun _ _ => rfl, fun _ _ => rfl, fun hcon => absurd hcon hlast, fun hcon => absurd hcon hlast,
        fun _ => rfl⟩,
      ⟨hf.problem, by rw [hf.arraysLen]; exact h.arraysLen, harrays, hrings, fun hcon => absurd hcon hlast⟩⟩
  · have hlast1 : s1.step + 1 < s1.problem.numSteps := by rw [hf.step, hf.problem]; exact hlast
    have hp1 : s1.problem.Regular := by rw [hf.problem]; exact hp
    obtain ⟨hv1, hv2⟩ := shedVertices_eq hp1 hlast1 pres
    set s2 := s1.shedVertices pres with hs2
    have hrest2 : s2 = { s1 with vertices := s2.vertices } := s1.shedVertices_rest pres
    have hairp : s1.airplanes = p.airplanesAt k := by unfold airplanes; rw [hf.step, hf.problem]
    have hstep2 : s2.step = k := by rw [hrest2]; exact hf.step
    have hprob2 : s2.problem = p := by rw [hrest2]; exact hf.problem
    have hairp2 : s2.airplanes = p.airplanesAt k := by unfold airplanes; rw [hstep2, hprob2]
    rw [hf.step, hairp] at hv1
    rw [hf.step] at hv2
    have hex : ∀ w ∈ wingRefs k (p.airplanesAt k), ∃ wing, p.wing? w = some wing :=
      fun w h => (mem_wingRefs.mp h).2
    have := nonempty_wing
    choose! W hW using hex
    have hspan : ∀ w ∈ wingRefs k (p.airplanesAt k), (W w).numSpanwisePanels = p.spanOf w := by
      intro w hmem; simp [UnsteadyProblem.spanOf, hW w hmem]
    have hchord : ∀ w ∈ wingRefs k (p.airplanesAt k), (W w).spec.numChordwisePanels = p.chordOf w := by
      intro w hmem; simp [UnsteadyProblem.chordOf, hW w hmem]
    have hV : ∀ w ∈ wingRefs k (p.airplanesAt k),
        s2.vertices { w with step := k + 1 } = s1.nextVertices pres w (W w) := by
      intro w hmem
      exact hv1 w hmem (W w) (by rw [hf.problem]; exact hW w hmem)
    have hshape : ∀ w ∈ wingRefs k (p.airplanesAt k), (s2.vertices { w with step := k + 1 }).length = k + 2 ∧
        ∀ row ∈ s2.vertices { w with step := k + 1 }, row.length = p.spanOf w + 1 := by
      intro w hmem
      rw [hV w hmem, ← hspan w hmem, ← hf.step]
      apply nextVertices_shape
      intro hpos
      rw [hf.vertices, hf.step, hspan w hmem]
      rw [hf.step] at hpos
      exact hw.verts hpos w hmem
    have hhead : ∀ w ∈ wingRefs k (p.airplanesAt k),
        ((s2.vertices { w with step := k + 1 }).headD []).length = p.spanOf w + 1 := by
      intro w hmem
      obtain ⟨h1, h2⟩ := hshape w hmem
      cases hc : s2.vertices { w with step := k + 1 } with
      | nil => rw [hc] at h1; simp at h1
      | cons row l => exact h2 row (by rw [hc]; simp)
    have hobj2 : s2.toUnsteadyObjects = { s1.toUnsteadyObjects with vertices := s2.vertices } :=
      congrArg UnsteadySolver.toUnsteadyObjects hrest2
    have hwakes2 : s2.wakes = s.wakes := by rw [hobj2]; exact hf.wakes
    have halloc2 : s2.allocated = s.allocated := by rw [hobj2]; exact hf.allocated
    have hobjs2 : s2.objects = s.objects := by rw [hobj2]; exact hf.objects
    have hpanels2 : s2.panels = s1.panels := by rw [hobj2]
    have hwk2 : ∀ w ∈ wingRefs k (p.airplanesAt k), WakeAt s2.toUnsteadyObjects w k (p.spanOf w) (addr w) := by
      intro w hmem
      have h1 := hw.wakeAt w hmem
      exact ⟨by rw [hwakes2]; exact h1.rows, by rw [hwakes2]; exact h1.cols, by rw [hwakes2]; exact h1.refs,
        by rw [halloc2]; exact h1.bound, h1.inj⟩
    obtain ⟨addr', hall⟩ := shed_all s2 k W p.spanOf addr (wingRefs k (p.airplanesAt k)) s2.toUnsteadyObjects
      (wingRefs_nodup _ _) (fun t ht => by rw [hstep2]; exact (mem_wingRefs.mp ht).1)
      (fun t ht => by rw [hprob2]; exact hW t ht) hwk2 hw.apart
      (fun t ht => by rw [hstep2]; exact (hshape t ht).1) (fun t ht => by rw [hstep2]; exact hhead t ht)
    have hpop : s1.populateNextWake pres
        = { s2 with toUnsteadyObjects := (wingRefs k (p.airplanesAt k)).foldl s2.shedRingsOf s2.toUnsteadyObjects } := by
      unfold populateNextWake shedRings
      rw [← hs2, if_pos (by rw [hstep2, hprob2]; exact hlast), hstep2, hairp2]
    set o' := (wingRefs k (p.airplanesAt k)).foldl s2.shedRingsOf s2.toUnsteadyObjects with ho'
    rw [hpop]
    have hother := hall.others
    have hwat := hall.wakeAt
    have hnew := hall.new
    have hmoved := hall.moved
    rw [hstep2] at hother hwat hnew hmoved
    have hpan' : o'.panels = s1.panels := by rw [hall.rest]; exact hpanels2
    have hver' : o'.vertices = s2.vertices := by rw [hall.rest]
    constructor
    · constructor
      · have e := hall.rest
        have : o' = { s1.toUnsteadyObjects with
            vertices := o'.vertices, wakes := o'.wakes, objects := o'.objects, allocated := o'.allocated } := by
          rw [hver']
          conv_lhs => rw [e]
          rw [hobj2]
        rw [hrest2]
        simp only
        rw [← this]
      · intro w hne
        change o'.vertices w = _
        rw [hver']
        exact hv2 w hne
      · intro w hne
        change o'.wakes w = _
        rw [hother w (fun t _ e => hne (by rw [e])), hwakes2, hf.wakes]
      · intro _ w hmem wing hwing
        change o'.vertices _ = _
        rw [hver']
        exact hv1 w hmem wing (by rw [hf.problem]; exact hwing)
      · intro _ w hmem i hi j hj
        change refAt (o'.wakes _) _ _ = _
        rw [(hwat w hmem).refs (i + 1) (by omega) j hj, hall.old w hmem i hi j hj, hf.wakes,
          (hw.wakeAt w hmem).refs i hi j hj]
      · intro hcon; exact absurd hlast hcon
    · constructor
      · exact hprob2
      · change p.numSteps ≤ s2.wakeArrays.length
        rw [hrest2]
        simp only
        rw [hf.arraysLen]; exact h.arraysLen
      · intro j hj
        change (s2.wakeArrays.getD j []).length = _
        rw [hrest2]
        exact harrays j hj
      · intro j hj r hr
        change ∃ g, (o'.panels j r).ring = _
        rw [hpan']
        exact hrings j hj r hr
      · intro _
        -- wings of step k + 1 and of step k
        have hback : ∀ w ∈ wingRefs (k + 1) (p.airplanesAt (k + 1)),
            { w with step := k } ∈ wingRefs k (p.airplanesAt k) ∧
            ({ ({ w with step := k } : WingRef) with step := k + 1 } : WingRef) = w ∧
            p.spanOf { w with step := k } = p.spanOf w ∧ p.chordOf { w with step := k } = p.chordOf w := by
          intro w hmem
          have h1 := (mem_wingRefs.mp hmem).1
          refine ⟨hp.wingRefs_move hlast hk hmem, by cases w; cases h1; rfl, ?_, ?_⟩
          · have := hp.span_same hk hlast w.airplane w.wing
            rw [← h1] at this
            exact this
          · have := hp.chord_same hk hlast w.airplane w.wing
            rw [← h1] at this
            exact this
        refine ⟨fun w => addr' { w with step := k }, ?_, ?_, ?_, ?_⟩
        · intro w hmem
          obtain ⟨h1, h2, h3, h4⟩ := hback w hmem
          have := hwat _ h1
          rw [h2, h3] at this
          exact this
        · intro t ht t' ht' hne i hi j hj i' hi' j' hj'
          obtain ⟨h1, h2, h3, h4⟩ := hback t ht
          obtain ⟨h1', h2', h3', h4'⟩ := hback t' ht'
          refine hall.apart _ h1 _ h1' ?_ i (by omega) j (by rw [h3]; exact hj) i' (by omega) j' (by rw [h3']; exact hj')
          intro e
          apply hne
          rw [← h2, ← h2', e]
        · intro _ w hmem
          obtain ⟨h1, h2, h3, h4⟩ := hback w hmem
          have := hshape _ h1
          rw [h2, h3] at this
          change (o'.vertices w).length = _ ∧ ∀ row ∈ o'.vertices w, _
          rw [hver']
          exact this
        · intro w hmem i hi j hj
          obtain ⟨h1, h2, h3, h4⟩ := hback w hmem
          have hedge : ∀ a, a ≠ k → edgeStrength p { s2 with toUnsteadyObjects := o' } a w j
              = edgeStrength p s a { w with step := k } j := by
            intro a ha
            unfold edgeStrength ringAt
            simp only [hpan', h4, hf.panels a ha]
          change o'.objects _ = wakeRing (o'.vertices w) i j _ _
          rw [hver']
          have hstep0 : ({ s2 with toUnsteadyObjects := o' } : UnsteadySolver).step = k := hstep2
          cases i with
          | zero =>
            have := hnew _ h1 j (by rw [h3]; exact hj)
            simp only at this
            rw [this]
            have e2 : s2.toUnsteadyObjects.vertices { ({ w with step := k } : WingRef) with step := k + 1 }
                = s2.vertices w := by rw [h2]
            unfold newRing wakeRing
            rw [e2]
            simp only [Nat.zero_add, Nat.cast_zero, zero_mul, Nat.add_sub_cancel, Nat.sub_zero]
            have hstr : (s2.wingRing { w with step := k } ((W { w with step := k }).spec.numChordwisePanels - 1) j).strength
                = edgeStrength p { s2 with toUnsteadyObjects := o' } k w j := by
              unfold edgeStrength ringAt wingRing
              rw [hchord _ h1, h4]
              simp only [hpan', hpanels2]
            rw [hstr]
            rfl
          | succ i =>
            have hold := hall.old _ h1 i (by omega) j (by rw [h3]; exact hj)
            rw [hold]
            have := hmoved _ h1 i (by omega) j (by rw [h3]; exact hj)
            rw [this, hobjs2, hw.objs _ h1 i (by omega) j (by rw [h3]; exact hj)]
            have e2 : s2.toUnsteadyObjects.vertices { ({ w with step := k } : WingRef) with step := k + 1 }
                = s2.vertices w := by rw [h2]
            rw [e2]
            have hidx : k + 1 - 1 - (i + 1) = k - 1 - i := by omega
            rw [hidx, hedge (k - 1 - i) (by omega)]
            unfold moveRing
            rw [hstep2, if_neg (by omega)]
            simp only [wakeRing, RingVortex.updatePosition, RingVortex.mk', deltaTime, hprob2]
            congr 1
            push_cast
            ring

end UnsteadySolver
end Ptera
