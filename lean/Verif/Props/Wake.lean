import Verif.Lemmas.WakeRecords

/-!
# C40 to C44: the wake of an unsteady run

Hypotheses of the theorems: the problem was made by the constructors, the solver is one a user can have for it, and
the run finished. `Verif/Props/UnsteadyExample.lean` shows a run that finishes for every number of steps.
-/

namespace Ptera

open UnsteadySolver

variable {p : UnsteadyProblem} {s s' : UnsteadySolver} {pres sl : Bool}

theorem place_ref {k : ℕ} {q : WakePlace} (hq : q ∈ wakePlaces p k) :
    q.ref k ∈ wingRefs k (p.airplanesAt k) ∧ q.col < p.spanOf (q.ref k) ∧
      (p.Chordwise → 0 < p.chordOf (q.ref k)) := by
  obtain ⟨_, wing, hw, hc⟩ := mem_wakePlaces.mp hq
  have hw' : p.wing? (q.ref k) = some wing := hw
  refine ⟨mem_wingRefs.mpr ⟨rfl, wing, hw⟩, ?_, ?_⟩
  · simpa [UnsteadyProblem.spanOf, hw'] using hc
  · intro h
    simpa [UnsteadyProblem.chordOf, hw'] using h _ _ hw'

/-! ## C40 -/

theorem inv_prefix (hp : p.Regular) (hg : Good p s) (k : ℕ) (hk : k ≤ p.numSteps) (t : UnsteadySolver)
    (h : (List.range k).foldlM (runStep pres) s.begun = .ok t) : Inv p k t := by
  induction k generalizing t with
  | zero =>
    simp only [List.range_zero, List.foldlM_nil, pure, Except.pure, Except.ok.injEq] at h
    rw [← h]; exact hg.inv
  | succ k ih =>
    rw [List.range_succ, List.foldlM_append] at h
    obtain ⟨t1, h1, h2⟩ := bind_ok.mp h
    have hi := ih (by omega) t1 h1
    simp only [List.foldlM_cons, List.foldlM_nil] at h2
    obtain ⟨t2, h3, h4⟩ := bind_ok.mp h2
    simp only [pure, Except.pure, Except.ok.injEq] at h4
    subst h4
    unfold runStep at h3
    obtain ⟨t3, h5, h6⟩ := bind_ok.mp h3
    simp only [pure, Except.pure, Except.ok.injEq] at h6
    subst h6
    obtain ⟨addr, hw⟩ := hi.wake (by omega)
    obtain ⟨x, _, _, hf⟩ := hi.solve hp (by omega) hw h5
    exact (hi.shed hp (by omega) hw hf pres).2

/-- C40: no write is out of bounds and no ring is missing: the only way a run fails is a singular system. -/
theorem C40_only_singular_fails (hp : p.Made) (hs : Reached p s) (e : Err)
    (h : s.run pres sl = .error e) : e = .linAlgError := by
  have hg := hs.good hp.regular
  have key : ∀ n ≤ p.numSteps, (List.range n).foldlM (runStep pres) s.begun = .error e → e = .linAlgError := by
    intro n
    induction n with
    | zero => intro _ h; simp [pure, Except.pure] at h
    | succ n ih =>
      intro hn h
      rw [List.range_succ, List.foldlM_append] at h
      cases hx : (List.range n).foldlM (runStep pres) s.begun with
      | error e' =>
        rw [hx] at h
        simp only [bind, Except.bind, Except.error.injEq] at h
        exact ih (by omega) (by rw [hx, h])
      | ok t =>
        rw [hx] at h
        simp only [bind, Except.bind, List.foldlM_cons, List.foldlM_nil] at h
        have hi := inv_prefix hp.regular hg n (by omega) t hx
        obtain ⟨addr, hw⟩ := hi.wake (by omega)
        have hr := hi.ready hp.regular (by omega) hw
        cases hy : runStep pres t n with
        | ok u => rw [hy] at h; simp [pure, Except.pure] at h
        | error e' =>
          rw [hy] at h
          simp only [Except.error.injEq] at h
          subst h
          unfold runStep at hy
          rw [solveStep_eq hr] at hy
          cases hz : linalgSolve (t.assembled n (t.ringAt n) (t.ringAt (n - 1)) (wakeAddresses p n addr)).influences
              (List.zipWith (fun w f => -w - f)
                (t.assembled n (t.ringAt n) (t.ringAt (n - 1)) (wakeAddresses p n addr)).wake
                (t.assembled n (t.ringAt n) (t.ringAt (n - 1)) (wakeAddresses p n addr)).freestream) with
          | ok x => rw [hz] at hy; simp [Except.map, bind, Except.bind, pure, Except.pure] at hy
          | error e'' =>
            rw [hz] at hy
            simp only [Except.map, bind, Except.bind, Except.error.injEq] at hy
            rw [← hy]
            exact linalgSolve_error hz
  unfold run at h
  rw [hg.problem] at h
  cases hx : (List.range p.numSteps).foldlM (runStep pres) s.begun with
  | error e' =>
    have hx' : (List.range p.numSteps).foldlM (runStep pres) s.preallocate.initializePanelVortices = .error e' := hx
    rw [hx'] at h
    simp only [bind, Except.bind, Except.error.injEq] at h
    exact key _ le_rfl (by rw [hx, h])
  | ok t =>
    have hx' : (List.range p.numSteps).foldlM (runStep pres) s.preallocate.initializePanelVortices = .ok t := hx
    rw [hx'] at h
    simp [bind, Except.bind, pure, Except.pure] at h

/-- C40: at step `k` the wake of a wing has `k` rows of as many rings as the wing has spanwise panels, none missing,
and (from the second step on) `k + 1` rows of one vertex more. -/
theorem C40_shape (hp : p.Made) (hs : Reached p s) (h : s.run pres sl = .ok s') (k : ℕ) (hk : k < p.numSteps)
    (w : WingRef) (wing : Wing) (hw : p.wing? w = some wing) (hstep : w.step = k) :
    (s'.wakes w).length = k ∧
    (∀ row ∈ s'.wakes w, row.length = wing.numSpanwisePanels ∧ ∀ ring ∈ row, ring ≠ none) ∧
    (0 < k → (s'.vertices w).length = k + 1 ∧ ∀ row ∈ s'.vertices w, row.length = wing.numSpanwisePanels + 1) := by
  obtain ⟨st, sm, ht⟩ := hs.trace hp h
  have hmem : w ∈ wingRefs k (p.airplanesAt k) := mem_wingRefs.mpr ⟨hstep, wing, hw⟩
  have hspan : p.spanOf w = wing.numSpanwisePanels := by simp [UnsteadyProblem.spanOf, hw]
  obtain ⟨addr, hi⟩ := (ht.inv k (by omega)).wake hk
  have hat := hi.wakeAt w hmem
  have hwk := ht.wakes (k := k) (by omega) (w := w) (by omega)
  refine ⟨by rw [hwk]; exact hat.rows, ?_, ?_⟩
  · rw [hwk, ← hspan, hat.eq]
    intro row hrow
    obtain ⟨i, _, rfl⟩ := List.mem_map.mp hrow
    refine ⟨by simp, ?_⟩
    intro ring hring
    obtain ⟨j, _, rfl⟩ := List.mem_map.mp hring
    simp
  · intro h0
    rw [← hspan]
    exact ht.shape hk h0 hmem

/-- C40: the arrays of step `k` hold one record per place of the wake, and at every place there is one: nothing is
left over and nothing is missing. The number of places is `k` times the spanwise panels of all wings. -/
theorem C40_arrays (hp : p.Made) (hs : Reached p s) (h : s.run pres sl = .ok s') (k : ℕ) (hk : k < p.numSteps) :
    (∃ l, s'.wakeArrays[k]? = some l ∧ l.length = (wakePlaces p k).length) ∧
    (wakePlaces p k).length
      = k * ((p.airplanesAt k).map fun a => (a.wings.map (·.numSpanwisePanels)).sum).sum ∧
    (wakePlaces p k).Nodup := by
  obtain ⟨st, sm, ht⟩ := hs.trace hp h
  refine ⟨⟨_, ht.places hk, by simp⟩, ?_, ?_⟩
  · have := wakeAddresses_length p k (fun _ _ => 0)
    rw [wakePlaces_eq]
    unfold wakeAddresses at this
    simp only [List.length_flatMap, List.length_map] at this ⊢
    exact this
  · unfold wakePlaces
    apply nodup_zipIdx_flatMap _ _ _ (·.airplane)
    · intro x _ b hb
      simp only [List.mem_flatMap, List.mem_map] at hb
      obtain ⟨_, _, _, _, _, _, rfl⟩ := hb
      rfl
    · intro x _
      apply nodup_zipIdx_flatMap _ _ _ (·.wing)
      · intro y _ b hb
        simp only [List.mem_flatMap, List.mem_map] at hb
        obtain ⟨_, _, _, _, rfl⟩ := hb
        rfl
      · intro y _
        rw [List.nodup_flatMap]
        constructor
        · intro r _
          refine List.Nodup.map ?_ List.nodup_range
          intro x y hxy
          simpa using hxy
        · refine List.Pairwise.imp_of_mem ?_ (List.nodup_range (n := k))
          intro x y _ _ hxy
          simp only [Function.onFun, List.disjoint_left, List.mem_map]
          rintro _ ⟨_, _, rfl⟩ ⟨_, _, h⟩
          simp only [WakePlace.mk.injEq] at h
          exact hxy h.2.2.1.symm

/-! ## C41, C42 -/

/-- C41: the strength recorded in row `r` of the wake at step `k` is the strength that the trailing-edge ring of the
same column had at step `k - 1 - r`. -/
theorem C41_strength (hp : p.Made) (hs : Reached p s) (h : s.run pres sl = .ok s') (k : ℕ) (hk : k < p.numSteps)
    (q : WakePlace) (hq : q ∈ wakePlaces p k) (r : PanelRef) (hr : IsTrailing p (k - 1 - q.row) q r) :
    ∃ ring, (s'.panels (k - 1 - q.row) r).ring = some ring ∧
      (wakeRecord s' k q).map (·.strength) = some ring.strength := by
  obtain ⟨st, sm, ht⟩ := hs.trace hp h
  have hrow := (mem_wakePlaces.mp hq).1
  have hm : k - 1 - q.row < p.numSteps := by omega
  have hr' : r ∈ panelRefs (p.airplanesAt (k - 1 - q.row)) := by
    rw [mem_panelRefs, ← Option.isSome_iff_exists]; exact hr.2.2.2.1
  obtain ⟨g, hg⟩ := ht.rings hm hr'
  refine ⟨_, hg, ?_⟩
  rw [ht.wakeRecord hk hq]
  have e := (hr.eq hp.regular).1
  have hch : p.chordOf (q.ref k) = p.chordOf (q.ref (k - 1 - q.row)) := hp.regular.chord_same hk hm _ _
  simp only [placeRing, wakeSlot, wakeRing, RingVortex.mk', edgeStrength, Option.map_some, Option.some.injEq]
  rw [hch]
  change (s'.ringAt (k - 1 - q.row) ⟨q.airplane, q.wing, _, q.col⟩).strength = _
  rw [← e, ringAt_of_panels hg]

/-- C41: the recorded strength of a ring does not change while it moves from row to row. -/
theorem C41_kept (hp : p.Made) (hs : Reached p s) (h : s.run pres sl = .ok s') (k d : ℕ) (hk : k + d < p.numSteps)
    (q : WakePlace) (hq : q ∈ wakePlaces p k) :
    (wakeRecord s' (k + d) { q with row := q.row + d }).map (·.strength)
      = (wakeRecord s' k q).map (·.strength) ∧ (wakeRecord s' k q).isSome := by
  obtain ⟨st, sm, ht⟩ := hs.trace hp h
  obtain ⟨hrow, wing, hw, hc⟩ := mem_wakePlaces.mp hq
  have hq' : ({ q with row := q.row + d } : WakePlace) ∈ wakePlaces p (k + d) := by
    have h1 : ({ q with row := 0 } : WakePlace) ∈ wakePlaces p k := mem_wakePlaces.mpr ⟨by simp; omega, wing, hw, hc⟩
    have h2 := hp.regular.place_move (by omega) hk h1 (by simp; omega)
    obtain ⟨_, wing', hw', hc'⟩ := mem_wakePlaces.mp h2
    exact mem_wakePlaces.mpr ⟨by simp; omega, wing', hw', hc'⟩
  rw [ht.wakeRecord (by omega) hq, ht.wakeRecord hk hq']
  refine ⟨?_, rfl⟩
  have hch : p.chordOf (q.ref (k + d)) = p.chordOf (q.ref k) := hp.regular.chord_same hk (by omega) _ _
  have hsub : k + d - 1 - (q.row + d) = k - 1 - q.row := by omega
  simp only [placeRing, wakeSlot, wakeRing, RingVortex.mk', edgeStrength, Option.map_some, Option.some.injEq]
  rw [hsub]
  have href : ({ q with row := q.row + d } : WakePlace).ref (k + d) = q.ref (k + d) := rfl
  rw [href, hch]
  rfl

/-- C42: the ring in row `r` of the wake has age `r` times the time step. -/
theorem C42_age (hp : p.Made) (hs : Reached p s) (h : s.run pres sl = .ok s') (k : ℕ) (hk : k < p.numSteps)
    (q : WakePlace) (hq : q ∈ wakePlaces p k) :
    (wakeRecord s' k q).map (·.age) = some (q.row * p.deltaTime) := by
  obtain ⟨st, sm, ht⟩ := hs.trace hp h
  rw [ht.wakeRecord hk hq]
  rfl

/-! ## C43 -/

/-- C43 (attached): the front edge of the first wake row runs along the back edges of the trailing-edge rings of the
same step: its left end is the back-left vertex of the ring in front; its right end is the back-left vertex of that
ring's right neighbour, or the ring's own back-right vertex if it is the last. -/
theorem C43_attached (hp : p.Made) (hs : Reached p s) (h : s.run pres sl = .ok s') (k : ℕ) (hk : k < p.numSteps)
    (q : WakePlace) (hq : q ∈ wakePlaces p k) (h0 : q.row = 0) (r : PanelRef) (hr : IsTrailing p k q r) :
    ∃ v ring, wakeRecord s' k q = some v ∧ (s'.panels k r).ring = some ring ∧ v.frontLeft = ring.backLeft ∧
      (∀ ring', (s'.panels k { r with col := r.col + 1 }).ring = some ring' →
        (panelAt (p.airplanesAt k) { r with col := r.col + 1 }).isSome → v.frontRight = ring'.backLeft) ∧
      (panelAt (p.airplanesAt k) { r with col := r.col + 1 } = none → v.frontRight = ring.backRight) := by
  obtain ⟨st, sm, ht⟩ := hs.trace hp h
  have hrow := (mem_wakePlaces.mp hq).1
  have hr' : r ∈ panelRefs (p.airplanesAt k) := by
    rw [mem_panelRefs, ← Option.isSome_iff_exists]; exact hr.2.2.2.1
  obtain ⟨g, hg⟩ := ht.rings hk hr'
  obtain ⟨hmem, hcol, _⟩ := place_ref hq
  obtain ⟨e, hc0, _⟩ := hr.eq hp.regular
  obtain ⟨hf, hl⟩ := ht.first_row hp.regular hk (by omega) hmem hc0
  obtain ⟨_, wing, hw, hcw⟩ := mem_wakePlaces.mp hq
  have hspan : p.spanOf (q.ref k) = wing.numSpanwisePanels := by
    simp [UnsteadyProblem.spanOf, WakePlace.ref, hw]
  have hchord : p.chordOf (q.ref k) = wing.spec.numChordwisePanels := by
    simp [UnsteadyProblem.chordOf, WakePlace.ref, hw]
  have hnext := panelAt_isSome hp.regular hw (p.chordOf (q.ref k) - 1) (q.col + 1)
  refine ⟨_, _, ht.wakeRecord hk hq, hg, ?_, ?_, ?_⟩
  · change vertexAt (s'.vertices (q.ref k)) q.row q.col = _
    rw [h0, hf q.col hcol]
    change (s'.ringAt k ⟨q.airplane, q.wing, _, q.col⟩).backLeft = _
    rw [← e, ringAt_of_panels hg]
  · intro ring' hring' hsome
    rw [e] at hsome hring'
    have hlt := (hnext.mp hsome).2
    change vertexAt (s'.vertices (q.ref k)) q.row (q.col + 1) = _
    rw [h0, hf (q.col + 1) (by omega)]
    change (s'.ringAt k ⟨q.airplane, q.wing, _, q.col + 1⟩).backLeft = _
    rw [ringAt_of_panels hring']
  · intro hnone
    rw [e] at hnone
    have hge : ¬ (q.col + 1 < wing.numSpanwisePanels) := by
      intro hlt
      have := hnext.mpr ⟨by omega, hlt⟩
      simp only at hnone
      rw [hnone] at this
      simp at this
    have hlast : q.col + 1 = p.spanOf (q.ref k) := by omega
    change vertexAt (s'.vertices (q.ref k)) q.row (q.col + 1) = _
    rw [h0, hlast, hl (by omega)]
    have : p.spanOf (q.ref k) - 1 = q.col := by omega
    rw [this]
    change (s'.ringAt k ⟨q.airplane, q.wing, _, q.col⟩).backRight = _
    rw [← e, ringAt_of_panels hg]

/-- C43 (connected): wake rings next to each other share their common edge, spanwise and streamwise. -/
theorem C43_connected (hp : p.Made) (hs : Reached p s) (h : s.run pres sl = .ok s') (k : ℕ) (hk : k < p.numSteps)
    (q : WakePlace) (hq : q ∈ wakePlaces p k) :
    (({ q with col := q.col + 1 } : WakePlace) ∈ wakePlaces p k →
      ∃ v v', wakeRecord s' k q = some v ∧ wakeRecord s' k { q with col := q.col + 1 } = some v' ∧
        v.frontRight = v'.frontLeft ∧ v.backRight = v'.backLeft) ∧
    (({ q with row := q.row + 1 } : WakePlace) ∈ wakePlaces p k →
      ∃ v v', wakeRecord s' k q = some v ∧ wakeRecord s' k { q with row := q.row + 1 } = some v' ∧
        v.backLeft = v'.frontLeft ∧ v.backRight = v'.frontRight) := by
  obtain ⟨st, sm, ht⟩ := hs.trace hp h
  exact ⟨fun hq' => ⟨_, _, ht.wakeRecord hk hq, ht.wakeRecord hk hq', rfl, rfl⟩,
    fun hq' => ⟨_, _, ht.wakeRecord hk hq, ht.wakeRecord hk hq', rfl, rfl⟩⟩

/-- The place one row further back. -/
def WakePlace.behind (q : WakePlace) : WakePlace := { q with row := q.row + 1 }

/-- C43 (convected): from one step to the next every corner of a wake ring moves by the time step times the flow
velocity of the step at the corner (free wake), or times the freestream velocity of the step (prescribed wake), and
the ring moves one row back. -/
theorem C43_convected (hp : p.Made) (hs : Reached p s) (h : s.run pres sl = .ok s') (k : ℕ)
    (hk : k + 1 < p.numSteps) (q : WakePlace) (hq : q ∈ wakePlaces p k) (velocity : V3 → V3)
    (hv : ∀ x, velocity x = if pres then (p.operatingPointAt k).freestreamVelocity else flow s' k x) :
    ∃ v v', wakeRecord s' k q = some v ∧ wakeRecord s' (k + 1) q.behind = some v' ∧
      v'.frontLeft = v.frontLeft + p.deltaTime • velocity v.frontLeft ∧
      v'.frontRight = v.frontRight + p.deltaTime • velocity v.frontRight ∧
      v'.backLeft = v.backLeft + p.deltaTime • velocity v.backLeft ∧
      v'.backRight = v.backRight + p.deltaTime • velocity v.backRight := by
  obtain ⟨st, sm, ht⟩ := hs.trace hp h
  have hrow := (mem_wakePlaces.mp hq).1
  have hq' : q.behind ∈ wakePlaces p (k + 1) := by
    obtain ⟨_, wing, hw, hc⟩ := mem_wakePlaces.mp hq
    have h2 := hp.regular.place_move (by omega) hk hq (by omega)
    obtain ⟨_, wing', hw', hc'⟩ := mem_wakePlaces.mp h2
    exact mem_wakePlaces.mpr ⟨by simp [WakePlace.behind]; omega, wing', hw', hc'⟩
  obtain ⟨hmem, hcol, _⟩ := place_ref hq
  have key : ∀ i ≤ k, ∀ j ≤ p.spanOf (q.ref k), vertexAt (s'.vertices (q.ref (k + 1))) (i + 1) j
      = vertexAt (s'.vertices (q.ref k)) i j + p.deltaTime • velocity (vertexAt (s'.vertices (q.ref k)) i j) := by
    intro i hi j hj
    have := ht.later_rows hk hmem hi hj
    rw [if_neg (by omega), ht.convect hp.regular (by omega), ← hv] at this
    exact this
  refine ⟨_, _, ht.wakeRecord (by omega) hq, ht.wakeRecord hk hq', ?_, ?_, ?_, ?_⟩
  · exact key q.row (by omega) q.col (by omega)
  · exact key q.row (by omega) (q.col + 1) (by omega)
  · exact key (q.row + 1) (by omega) q.col (by omega)
  · exact key (q.row + 1) (by omega) (q.col + 1) (by omega)

/-- C43 (first wake): at step one there is one row; its back edge is its front edge moved with the flow of the first
step (there is no earlier wake edge to move). -/
theorem C43_first (hp : p.Made) (hs : Reached p s) (h : s.run pres sl = .ok s') (h1 : 1 < p.numSteps)
    (q : WakePlace) (hq : q ∈ wakePlaces p 1) (velocity : V3 → V3)
    (hv : ∀ x, velocity x = if pres then (p.operatingPointAt 0).freestreamVelocity else flow s' 0 x) :
    ∃ v, wakeRecord s' 1 q = some v ∧
      v.backLeft = v.frontLeft + p.deltaTime • velocity v.frontLeft ∧
      v.backRight = v.frontRight + p.deltaTime • velocity v.frontRight := by
  obtain ⟨st, sm, ht⟩ := hs.trace hp h
  obtain ⟨hrow, wing, hw, hc⟩ := mem_wakePlaces.mp hq
  have hrow0 : q.row = 0 := by omega
  obtain ⟨hmem, hcol, _⟩ := place_ref hq
  have hmem0 : q.ref 0 ∈ wingRefs 0 (p.airplanesAt 0) :=
    hp.regular.wingRefs_move (j := 1) (k := 0) h1 (by omega) hmem
  have hspan : p.spanOf (q.ref 0) = p.spanOf (q.ref 1) := hp.regular.span_same (by omega) h1 _ _
  have key : ∀ j ≤ p.spanOf (q.ref 1), vertexAt (s'.vertices (q.ref 1)) 1 j
      = vertexAt (s'.vertices (q.ref 1)) 0 j + p.deltaTime • velocity (vertexAt (s'.vertices (q.ref 1)) 0 j) := by
    intro j hj
    have := ht.later_rows (k := 0) h1 hmem0 (i := 0) le_rfl (j := j) (by omega)
    rw [if_pos rfl, ht.convect hp.regular (by omega), ← hv] at this
    exact this
  refine ⟨_, ht.wakeRecord h1 hq, ?_, ?_⟩
  · change vertexAt (s'.vertices (q.ref 1)) (q.row + 1) q.col = vertexAt (s'.vertices (q.ref 1)) q.row q.col
      + p.deltaTime • velocity (vertexAt (s'.vertices (q.ref 1)) q.row q.col)
    rw [hrow0]; exact key q.col (by omega)
  · change vertexAt (s'.vertices (q.ref 1)) (q.row + 1) (q.col + 1)
      = vertexAt (s'.vertices (q.ref 1)) q.row (q.col + 1)
        + p.deltaTime • velocity (vertexAt (s'.vertices (q.ref 1)) q.row (q.col + 1))
    rw [hrow0]; exact key (q.col + 1) (by omega)

/-- The displacement of a prescribed wake from step `a` to step `b`. -/
noncomputable def drift (p : UnsteadyProblem) (a b : ℕ) : V3 :=
  ((List.range' a (b - a)).map fun m => p.deltaTime • (p.operatingPointAt m).freestreamVelocity).sum

theorem drift_succ (p : UnsteadyProblem) {a b : ℕ} (h : a ≤ b) :
    drift p a (b + 1) = drift p a b + p.deltaTime • (p.operatingPointAt b).freestreamVelocity := by
  unfold drift
  have e : b + 1 - a = (b - a) + 1 := by omega
  rw [e, List.range'_concat, List.map_append, List.sum_append]
  have : a + (b - a) = b := by omega
  simp [this]

/-- C43 (prescribed wake): the front-left corner of the ring in row `r` at step `k` is where the trailing-edge
ring's back-left corner was at step `k - r`, moved by the freestream displacements since; the last row's back-left
corner is the trailing-edge ring's back-left corner of step one moved by all freestream displacements from step zero
on. -/
theorem C43_prescribed (hp : p.Made) (hs : Reached p s) (h : s.run true sl = .ok s') (k : ℕ) (hk : k < p.numSteps)
    (q : WakePlace) (hq : q ∈ wakePlaces p k) :
    (∀ r, IsTrailing p (k - q.row) q r → ∃ v ring, wakeRecord s' k q = some v ∧
      (s'.panels (k - q.row) r).ring = some ring ∧ v.frontLeft = ring.backLeft + drift p (k - q.row) k) ∧
    (q.row + 1 = k → ∀ r, IsTrailing p 1 q r → ∃ v ring, wakeRecord s' k q = some v ∧
      (s'.panels 1 r).ring = some ring ∧ v.backLeft = ring.backLeft + drift p 0 k) := by
  obtain ⟨st, sm, ht⟩ := hs.trace hp h
  have hrow := (mem_wakePlaces.mp hq).1
  obtain ⟨hmem, hcol, _⟩ := place_ref hq
  have hstep : ∀ m, m + 1 < p.numSteps → 0 < m → ∀ i ≤ m, ∀ j ≤ p.spanOf (q.ref k),
      vertexAt (s'.vertices (q.ref (m + 1))) (i + 1) j = vertexAt (s'.vertices (q.ref m)) i j
        + p.deltaTime • (p.operatingPointAt m).freestreamVelocity := by
    intro m hm h0 i hi j hj
    have hmem' : q.ref m ∈ wingRefs m (p.airplanesAt m) :=
      hp.regular.wingRefs_move hk (by omega) hmem
    have hspan : p.spanOf (q.ref m) = p.spanOf (q.ref k) := hp.regular.span_same (by omega) hk _ _
    have := ht.later_rows hm hmem' hi (j := j) (by omega)
    rw [if_neg (by omega), ht.convect hp.regular (by omega), if_pos rfl] at this
    exact this
  have front : ∀ i m, 0 < m → m + i < p.numSteps → ∀ j ≤ p.spanOf (q.ref k),
      vertexAt (s'.vertices (q.ref (m + i))) i j = vertexAt (s'.vertices (q.ref m)) 0 j + drift p m (m + i) := by
    intro i
    induction i with
    | zero => intro m _ _ j _; simp [drift]
    | succ i ih =>
      intro m h0 hm j hj
      rw [← Nat.add_assoc, hstep (m + i) (by omega) (by omega) i (by omega) j hj, ih m h0 (by omega) j hj,
        drift_succ p (by omega), add_assoc]
  have hfirst : ∀ m, 0 < m → m < p.numSteps → ∀ r, IsTrailing p m q r → ∃ ring,
      (s'.panels m r).ring = some ring ∧ vertexAt (s'.vertices (q.ref m)) 0 q.col = ring.backLeft := by
    intro m h0 hm r hr
    have hr' : r ∈ panelRefs (p.airplanesAt m) := by
      rw [mem_panelRefs, ← Option.isSome_iff_exists]; exact hr.2.2.2.1
    obtain ⟨g, hg⟩ := ht.rings hm hr'
    obtain ⟨e, hc0, hcs⟩ := hr.eq hp.regular
    have hmem' : q.ref m ∈ wingRefs m (p.airplanesAt m) := hp.regular.wingRefs_move hk hm hmem
    obtain ⟨hf, _⟩ := ht.first_row hp.regular hm h0 hmem' hc0
    refine ⟨_, hg, ?_⟩
    rw [hf q.col hcs]
    change (s'.ringAt m ⟨q.airplane, q.wing, _, q.col⟩).backLeft = _
    rw [← e, ringAt_of_panels hg]
  constructor
  · intro r hr
    obtain ⟨ring, hring, hv⟩ := hfirst (k - q.row) (by omega) (by omega) r hr
    refine ⟨_, ring, ht.wakeRecord hk hq, hring, ?_⟩
    have := front q.row (k - q.row) (by omega) (by omega) q.col (by omega)
    have e : k - q.row + q.row = k := by omega
    rw [e] at this
    change vertexAt (s'.vertices (q.ref k)) q.row q.col = _
    rw [this, hv]
  · intro hlast r hr
    obtain ⟨ring, hring, hv⟩ := hfirst 1 (by omega) (by omega) r hr
    refine ⟨_, ring, ht.wakeRecord hk hq, hring, ?_⟩
    have back : ∀ m, m + 1 < p.numSteps → vertexAt (s'.vertices (q.ref (m + 1))) (m + 1) q.col
        = vertexAt (s'.vertices (q.ref 1)) 0 q.col + drift p 0 (m + 1) := by
      intro m
      induction m with
      | zero =>
        intro hm
        have hmem0 : q.ref 0 ∈ wingRefs 0 (p.airplanesAt 0) := hp.regular.wingRefs_move hk (by omega) hmem
        have hspan : p.spanOf (q.ref 0) = p.spanOf (q.ref k) := hp.regular.span_same (by omega) hk _ _
        have := ht.later_rows (k := 0) hm hmem0 (i := 0) le_rfl (j := q.col) (by omega)
        rw [if_pos rfl, ht.convect hp.regular (by omega), if_pos rfl] at this
        have hd : drift p 0 (0 + 1) = p.deltaTime • (p.operatingPointAt 0).freestreamVelocity := by simp [drift]
        rw [hd]
        exact this
      | succ m ih =>
        intro hm
        rw [hstep (m + 1) hm (by omega) (m + 1) le_rfl q.col (by omega), ih (by omega),
          drift_succ p (a := 0) (b := m + 1) (by omega), add_assoc]
    have e : q.row + 1 = (k - 1) + 1 := by omega
    have := back (k - 1) (by omega)
    change vertexAt (s'.vertices (q.ref k)) (q.row + 1) q.col = _
    have e2 : k - 1 + 1 = k := by omega
    rw [e, e2]
    rw [e2] at this
    rw [this, hv]

/-- C43 (prescribed wake): every ring of the wake is the ring that was shed where its row says, moved as a whole by the
freestream displacements since: the ring in row `r` at step `k` is the ring of the first row at step `k - r`, all four
corners moved alike. -/
theorem C43_prescribed_rings (hp : p.Made) (hs : Reached p s) (h : s.run true sl = .ok s') (k : ℕ) (hk : k < p.numSteps)
    (q : WakePlace) (hq : q ∈ wakePlaces p k) :
    ∃ v v₀, wakeRecord s' k q = some v ∧ wakeRecord s' (k - q.row) { q with row := 0 } = some v₀ ∧
      v.frontLeft = v₀.frontLeft + drift p (k - q.row) k ∧ v.frontRight = v₀.frontRight + drift p (k - q.row) k ∧
      v.backLeft = v₀.backLeft + drift p (k - q.row) k ∧ v.backRight = v₀.backRight + drift p (k - q.row) k := by
  obtain ⟨a, w, row, col⟩ := q
  induction row generalizing k with
  | zero =>
    obtain ⟨st, sm, ht⟩ := hs.trace hp h
    have hr := ht.wakeRecord hk hq
    have hd : drift p (k - 0) k = 0 := by simp [drift]
    refine ⟨_, _, hr, hr, ?_⟩
    simp only [hd, add_zero, and_self]
  | succ i ih =>
    obtain ⟨hrow, wing, hw, hc⟩ := mem_wakePlaces.mp hq
    simp only at hrow
    obtain ⟨m, rfl⟩ : ∃ m, k = m + 1 := ⟨k - 1, by omega⟩
    have hq1 : (⟨a, w, i, col⟩ : WakePlace) ∈ wakePlaces p (m + 1) :=
      mem_wakePlaces.mpr ⟨by simp only; omega, wing, hw, hc⟩
    have hq' : (⟨a, w, i, col⟩ : WakePlace) ∈ wakePlaces p m :=
      hp.regular.place_move hk (by omega) hq1 (by simp only; omega)
    obtain ⟨v, v₀, e1, e2, e3, e4, e5, e6⟩ := ih m (by omega) hq'
    obtain ⟨u, u', f1, f2, f3, f4, f5, f6⟩ := C43_convected hp hs h m hk _ hq'
      (fun _ => (p.operatingPointAt m).freestreamVelocity) (fun _ => by rw [if_pos rfl])
    rw [e1, Option.some.injEq] at f1
    subst f1
    simp only at e2 e3 e4 e5 e6 ⊢
    have hm : m + 1 - (i + 1) = m - i := by omega
    rw [hm]
    refine ⟨u', v₀, f2, e2, ?_⟩
    rw [f3, f4, f5, f6, e3, e4, e5, e6, drift_succ p (a := m - i) (b := m) (by omega)]
    simp only [add_assoc, and_self]

/-! ## C44 -/

/-- C44: the arrays the finished solver keeps for step `k` are those it had right after step `k`. -/
theorem C44_recorded (hp : p.Made) (hs : Reached p s) (h : s.run pres sl = .ok s') (k : ℕ) (hk : k < p.numSteps) :
    ∃ t, (List.range (k + 1)).foldlM (runStep pres) s.preallocate.initializePanelVortices = .ok t ∧
      s'.wakeArrays[k]? = t.wakeArrays[k]? := by
  obtain ⟨st, sm, ht⟩ := hs.trace hp h
  refine ⟨st (k + 1), ht.reached (k + 1) (by omega), ?_⟩
  have hl := ht.arraysLen
  have hl' := (ht.inv (k + 1) (by omega)).arraysLen
  have := ht.record hk
  rw [List.getD_eq_getElem?_getD, List.getD_eq_getElem?_getD, ← (ht.shed k hk).same.2.2.1,
    List.getElem?_eq_getElem (by omega), List.getElem?_eq_getElem (by omega)] at this
  rw [List.getElem?_eq_getElem (by omega), List.getElem?_eq_getElem (by omega)]
  simpa using this

/-- C44 fails for the wing objects: after the run, the ring object in row `r` of the wake of step `k`'s wing is the
one of the last step, further back: it has the age and the position of that place, not those it had at step `k`. -/
theorem C44_objects (hp : p.Made) (hs : Reached p s) (h : s.run pres sl = .ok s') (k d : ℕ)
    (hd : k + d + 1 = p.numSteps) (q : WakePlace) (hq : q ∈ wakePlaces p k) :
    ∃ a v, refAt (s'.wakes ⟨k, q.airplane, q.wing⟩) q.row q.col = some a ∧
      wakeRecord s' (k + d) { q with row := q.row + d } = some v ∧
      (s'.objects a).age = (q.row + d : ℕ) * p.deltaTime ∧ (s'.objects a).frontLeft = v.frontLeft ∧
      (s'.objects a).frontRight = v.frontRight ∧ (s'.objects a).backLeft = v.backLeft ∧
      (s'.objects a).backRight = v.backRight := by
  obtain ⟨st, sm, ht⟩ := hs.trace hp h
  obtain ⟨hrow, wing, hw, hc⟩ := mem_wakePlaces.mp hq
  obtain ⟨hmem, hcol, _⟩ := place_ref hq
  have hkd : k + d < p.numSteps := by omega
  have hmem' : q.ref (k + d) ∈ wingRefs (k + d) (p.airplanesAt (k + d)) :=
    hp.regular.wingRefs_move (by omega) hkd hmem
  have hspan : p.spanOf (q.ref (k + d)) = p.spanOf (q.ref k) := hp.regular.span_same hkd (by omega) _ _
  have hlast : p.numSteps - 1 = k + d := by omega
  have hq' : ({ q with row := q.row + d } : WakePlace) ∈ wakePlaces p (k + d) := by
    obtain ⟨_, wing', hw'⟩ := mem_wingRefs.mp hmem'
    refine mem_wakePlaces.mpr ⟨by simp; omega, wing', hw', ?_⟩
    have : p.spanOf (q.ref (k + d)) = wing'.numSpanwisePanels := by simp [UnsteadyProblem.spanOf, hw']
    simp only
    omega
  obtain ⟨a, ha, ho⟩ := ht.objects (by omega) (w := q.ref (k + d)) (by rw [hlast]; exact hmem')
    (i := q.row + d) (by omega) (j := q.col) (by omega)
  have hsh := ht.shared hp.regular hkd hmem hrow hcol
  refine ⟨a, _, ?_, ht.wakeRecord hkd hq', ?_, ?_, ?_, ?_, ?_⟩
  · rw [← ha]; exact hsh.symm
  all_goals rw [ho]; rfl

/-- C44 fails for the wing objects: with a time step other than zero, no ring object on the wing of a step before
the last has the age the record of that step shows. -/
theorem C44_objects_rewritten (hp : p.Made) (hs : Reached p s) (h : s.run pres sl = .ok s') (hdt : p.deltaTime ≠ 0)
    (k : ℕ) (hk : k + 1 < p.numSteps) (q : WakePlace) (hq : q ∈ wakePlaces p k) :
    ∃ a v, refAt (s'.wakes ⟨k, q.airplane, q.wing⟩) q.row q.col = some a ∧ wakeRecord s' k q = some v ∧
      (s'.objects a).age ≠ v.age := by
  obtain ⟨d, hd⟩ : ∃ d, k + (d + 1) + 1 = p.numSteps := ⟨p.numSteps - k - 2, by omega⟩
  obtain ⟨a, v, h1, h2, h3, _⟩ := C44_objects hp hs h k (d + 1) hd q hq
  have hage := C42_age hp hs h k (by omega) q hq
  obtain ⟨v', hv', he⟩ := Option.map_eq_some_iff.mp hage
  refine ⟨a, v', h1, hv', ?_⟩
  rw [h3, he]
  intro hcon
  have := mul_right_cancel₀ hdt hcon
  push_cast at this
  have : (d : ℝ) + 1 = 0 := by linarith
  have hd0 : (0 : ℝ) ≤ d := Nat.cast_nonneg d
  linarith

end Ptera
