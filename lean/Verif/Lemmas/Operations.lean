import Verif.Lemmas.UnsteadyTrace
import Verif.Spec.Aborted

/-! What the single operations of a run leave alone. -/

namespace Ptera
namespace UnsteadySolver

variable {p : UnsteadyProblem} {s s' : UnsteadySolver}

/-- What every operation of a run keeps holds after an aborted run. -/
theorem perform_keeps (P : UnsteadySolver → Prop) : ∀ (ops : List Operation) (s s' : UnsteadySolver),
    (∀ op ∈ ops, ∀ t t', P t → op t = .ok t' → P t') → P s → perform ops s = .ok s' → P s'
  | [], s, s', _, hs, h => by
    unfold perform at h
    simp only [List.foldlM_nil, pure, Except.pure, Except.ok.injEq] at h
    rwa [← h]
  | op :: ops, s, s', hk, hs, h => by
    unfold perform at h
    rw [List.foldlM_cons] at h
    obtain ⟨t, h1, h2⟩ := bind_ok.mp h
    exact perform_keeps P ops t s' (fun o ho => hk o (by simp [ho])) (hk op (by simp) s t hs h1) h2

/-- The operations of a run. -/
theorem mem_runOperations {n : ℕ} {pres sl : Bool} {op : Operation} (h : op ∈ runOperations n pres sl) :
    op = (fun s => .ok s.preallocate) ∨ op = (fun s => .ok s.initializePanelVortices) ∨
    (∃ k < n, op ∈ stepOperations pres k) ∨ op = (fun s => .ok s.finalize) ∨
    op = (fun s => .ok (if sl then s.calculateStreamlines else s)) := by
  unfold runOperations at h
  simp only [List.mem_append, List.mem_cons, List.not_mem_nil, or_false, List.mem_flatMap, List.mem_range] at h
  rcases h with ((h | h) | h) | h | h <;> simp [h]

theorem aborted_keeps (P : UnsteadySolver → Prop) {pres sl : Bool} {ops : List Operation}
    (hops : ops <+: runOperations p.numSteps pres sl) (h : perform ops s = .ok s') (hs : P s)
    (h1 : ∀ t, P t → P t.preallocate) (h2 : ∀ t, P t → P t.initializePanelVortices)
    (h3 : ∀ k < p.numSteps, ∀ op ∈ stepOperations pres k, ∀ t t', P t → op t = .ok t' → P t')
    (h4 : ∀ t, P t → P t.finalize) (h5 : ∀ t, P t → P t.calculateStreamlines) : P s' := by
  refine perform_keeps P ops s s' ?_ hs h
  intro op hop t t' ht he
  rcases mem_runOperations (hops.subset hop) with e | e | ⟨k, hk, e⟩ | e | e
  · subst e; cases he; exact h1 t ht
  · subst e; cases he; exact h2 t ht
  · exact h3 k hk op e t t' ht he
  · subst e; cases he; exact h4 t ht
  · subst e; cases he
    split
    · exact h5 t ht
    · exact ht

theorem writeAt_keeps {α : Type} {l l' : List α} {i : ℕ} {x : α} (h : writeAt l i x = .ok l') :
    l'.length = l.length := by
  unfold writeAt at h
  split at h
  · cases h; simp
  · cases h

theorem collapsePanels_keeps : ∀ (refs : List PanelRef) (s : UnsteadySolver) (i : ℕ) (r : UnsteadySolver × ℕ),
    refs.foldlM collapsePanel (s, i) = .ok r →
    ∃ slots seeds, r.1 = { s with slots := slots, seedPoints := seeds }
  | [], s, i, r, h => by
    simp only [List.foldlM_nil, pure, Except.pure, Except.ok.injEq] at h
    subst h
    exact ⟨s.slots, s.seedPoints, rfl⟩
  | a :: refs, s, i, r, h => by
    rw [List.foldlM_cons] at h
    obtain ⟨⟨t, j⟩, h1, h2⟩ := bind_ok.mp h
    obtain ⟨slots, seeds, h3⟩ := collapsePanels_keeps refs t j r h2
    unfold collapsePanel at h1
    dsimp only at h1
    split at h1
    · cases h1
    · obtain ⟨sl, h4, h5⟩ := bind_ok.mp h1
      simp only [pure, Except.pure, Except.ok.injEq, Prod.mk.injEq] at h5
      refine ⟨slots, seeds, ?_⟩
      rw [h3, ← h5.1]

theorem collapseWake_keeps (objects : ℕ → RingVortex) : ∀ (refs : List (Option ℕ)) (st r : List WakeSlot × ℕ),
    refs.foldlM (collapseWakeRing objects) st = .ok r → r.1.length = st.1.length
  | [], st, r, h => by
    simp only [List.foldlM_nil, pure, Except.pure, Except.ok.injEq] at h
    rw [h]
  | a :: refs, st, r, h => by
    rw [List.foldlM_cons] at h
    obtain ⟨t, h1, h2⟩ := bind_ok.mp h
    rw [collapseWake_keeps objects refs t r h2]
    unfold collapseWakeRing at h1
    split at h1
    · cases h1
    · obtain ⟨sl, h4, h5⟩ := bind_ok.mp h1
      simp only [pure, Except.pure, Except.ok.injEq] at h5
      rw [← h5]
      exact writeAt_keeps h4

theorem collapseGeometry_keeps (h : s.collapseGeometry = .ok s') : ∃ slots seeds w lasts,
    w.length = (s.wakeArrays.getD s.step []).length ∧
    s' = { s with slots := slots, seedPoints := seeds, wakeArrays := s.wakeArrays.set s.step w, lasts := lasts } := by
  unfold collapseGeometry at h
  obtain ⟨⟨t, j⟩, h1, h2⟩ := bind_ok.mp h
  obtain ⟨slots, seeds, h3⟩ := collapsePanels_keeps _ _ _ _ h1
  obtain ⟨w, h4, h5⟩ := bind_ok.mp h2
  have hw := collapseWake_keeps _ _ _ _ h4
  dsimp only at h3 h5 hw
  subst h3
  split at h5
  · obtain ⟨l, h6, h7⟩ := bind_ok.mp h5
    simp only [pure, Except.pure, Except.ok.injEq] at h7
    exact ⟨slots, seeds, w.1, l.1, hw, h7.symm⟩
  · simp only [pure, Except.pure, Except.ok.injEq] at h5
    exact ⟨slots, seeds, w.1, s.lasts, hw, h5.symm⟩

theorem calculateVortexStrengths_keeps (h : s.calculateVortexStrengths = .ok s') : ∃ x,
    s' = { s with
      strengths := x
      panels := Function.update s.panels s.step (s.slots.zipIdx.foldl (storeStrength x) (s.panels s.step)) } := by
  unfold calculateVortexStrengths at h
  obtain ⟨x, _, h2⟩ := bind_ok.mp h
  simp only [pure, Except.pure, Except.ok.injEq] at h2
  exact ⟨x, h2.symm⟩

theorem step_step {k : ℕ} (hk : s.step = k) (h : s.collapseGeometry = .ok s') : s'.step = k := by
  obtain ⟨_, _, _, _, _, rfl⟩ := collapseGeometry_keeps h
  exact hk

theorem perform_append (a b : List Operation) (s : UnsteadySolver) :
    perform (a ++ b) s = perform a s >>= perform b := by
  unfold perform
  rw [List.foldlM_append]

theorem perform_step (prescribed : Bool) (k : ℕ) (s : UnsteadySolver) :
    perform (stepOperations prescribed k) s = s.runStep prescribed k := by
  unfold perform stepOperations runStep solveStep populateNextWake
  simp only [List.foldlM_cons, List.foldlM_nil, bind, Except.bind, pure, Except.pure]
  cases hc : (s.beginStep k).collapseGeometry with
  | error e => rfl
  | ok a =>
    have ha : a.step = k := step_step rfl hc
    dsimp only
    cases hx : a.calculateWingWingInfluences.calculateFreestreamInfluences.calculateWakeInfluences.calculateVortexStrengths with
    | error e => rfl
    | ok b =>
      have hb : b.step = k := by
        obtain ⟨x, rfl⟩ := calculateVortexStrengths_keeps hx
        exact ha
      dsimp only
      rw [hb]

theorem perform_steps (prescribed : Bool) : ∀ (l : List ℕ) (s : UnsteadySolver),
    perform (l.flatMap (stepOperations prescribed)) s = l.foldlM (runStep prescribed) s
  | [], _ => rfl
  | k :: l, s => by
    rw [List.flatMap_cons, perform_append, perform_step, List.foldlM_cons]
    congr 1
    funext t
    exact perform_steps prescribed l t

/-- `run` is its operations. -/
theorem run_operations (s : UnsteadySolver) (prescribed streamlines : Bool) :
    s.run prescribed streamlines = perform (runOperations s.problem.numSteps prescribed streamlines) s := by
  unfold runOperations
  rw [perform_append, perform_append]
  change _ = (perform _ s.preallocate.initializePanelVortices) >>= _
  rw [perform_steps]
  rfl

theorem shedVertices_keeps (s : UnsteadySolver) (pres : Bool) : ∃ v, s.shedVertices pres = { s with vertices := v } := by
  unfold shedVertices
  split
  · exact ⟨_, rfl⟩
  · exact ⟨s.vertices, rfl⟩

theorem shedRingsOf_keeps (s : UnsteadySolver) : ∀ (refs : List WingRef) (o : UnsteadyObjects),
    ∃ objects allocated wakes, refs.foldl s.shedRingsOf o =
      { o with objects := objects, allocated := allocated, wakes := wakes } ∧
      ∀ w : WingRef, w.step ≠ s.step + 1 → wakes w = o.wakes w
  | [], o => ⟨o.objects, o.allocated, o.wakes, rfl, fun _ _ => rfl⟩
  | r :: refs, o => by
    rw [List.foldl_cons]
    obtain ⟨a, b, c, h, hw⟩ := shedRingsOf_keeps s refs (s.shedRingsOf o r)
    have key : ∃ a' b' c', s.shedRingsOf o r = { o with objects := a', allocated := b', wakes := c' } ∧
        ∀ w : WingRef, w.step ≠ s.step + 1 → c' w = o.wakes w := by
      unfold shedRingsOf
      dsimp only
      split
      · exact ⟨o.objects, o.allocated, o.wakes, rfl, fun _ _ => rfl⟩
      · refine ⟨_, _, _, rfl, ?_⟩
        intro w hw
        rw [Function.update_of_ne]
        rintro rfl
        exact hw rfl
    obtain ⟨a', b', c', h', hw'⟩ := key
    rw [h'] at h hw
    rw [h']
    exact ⟨a, b, c, h, fun w hws => (hw w hws).trans (hw' w hws)⟩

theorem shedRings_keeps (s : UnsteadySolver) : ∃ objects allocated wakes,
    s.shedRings = { s with objects := objects, allocated := allocated, wakes := wakes } ∧
      ∀ w : WingRef, w.step ≠ s.step + 1 → wakes w = s.wakes w := by
  unfold shedRings
  split
  · obtain ⟨a, b, c, h, hw⟩ := shedRingsOf_keeps s (wingRefs s.step s.airplanes) s.toUnsteadyObjects
    refine ⟨a, b, c, ?_, hw⟩
    rw [h]
  · exact ⟨s.objects, s.allocated, s.wakes, rfl, fun _ _ => rfl⟩

/-- One operation of step `k`: what it leaves. The panels change only at the current step. -/
theorem step_keeps {pres : Bool} {k : ℕ} {op : Operation} (hop : op ∈ stepOperations pres k) (h : op s = .ok s') :
    s'.problem = s.problem ∧ s'.wakeCounts = s.wakeCounts ∧ s'.final = s.final ∧ s'.finalMean = s.finalMean ∧
    s'.finalRms = s.finalRms ∧
    (∀ w : WingRef, w.step = 0 → s'.wakes w = s.wakes w) ∧
    s'.wakeArrays.length = s.wakeArrays.length ∧
    (∀ j, (s'.wakeArrays.getD j []).length = (s.wakeArrays.getD j []).length) := by
  unfold stepOperations at hop
  simp only [List.mem_cons, List.not_mem_nil, or_false] at hop
  rcases hop with e | e | e | e | e | e | e | e | e <;> subst e
  · cases h; simp [beginStep]
  · obtain ⟨a, b, w, l, hw, rfl⟩ := collapseGeometry_keeps h
    refine ⟨rfl, rfl, rfl, rfl, rfl, fun _ _ => rfl, by simp, ?_⟩
    intro j
    dsimp only
    by_cases hj : s.step = j
    · subst hj
      by_cases hl : s.step < s.wakeArrays.length
      · rw [List.getD_eq_getElem?_getD, List.getElem?_set_self hl, Option.getD_some, hw]
      · rw [List.set_eq_of_length_le (by omega)]
    · rw [List.getD_eq_getElem?_getD, List.getElem?_set_ne hj, List.getD_eq_getElem?_getD]
  · cases h; simp [calculateWingWingInfluences]
  · cases h; simp [calculateFreestreamInfluences]
  · cases h; simp [calculateWakeInfluences]
  · obtain ⟨x, rfl⟩ := calculateVortexStrengths_keeps h
    simp
  · cases h
    split <;> simp [calculateForces]
  · cases h
    obtain ⟨v, e⟩ := shedVertices_keeps s pres
    rw [e]; simp
  · cases h
    obtain ⟨a, b, c, e, hw⟩ := shedRings_keeps s
    rw [e]
    refine ⟨rfl, rfl, rfl, rfl, rfl, ?_, rfl, fun _ => rfl⟩
    intro w h0
    exact hw w (by omega)

theorem Good.preallocated (h : Good p s) : Good p s.preallocate := by
  refine ⟨h.problem, h.wakes, Or.inr ?_⟩
  have hi := h.inv
  exact ⟨hi.arraysLen, hi.arrays⟩

theorem finalize_keeps (s : UnsteadySolver) : ∃ a b c, s.finalize = { s with final := a, finalMean := b, finalRms := c } ∧
    (s.problem.maxPeriod = 0 → b = s.finalMean ∧ c = s.finalRms) := by
  unfold finalize
  dsimp only
  by_cases h : s.problem.maxPeriod = 0
  · rw [if_pos h]
    exact ⟨_, _, _, rfl, fun _ => ⟨rfl, rfl⟩⟩
  · rw [if_neg h]
    exact ⟨_, _, _, rfl, fun h' => absurd h' h⟩

theorem Good.aborted {pres sl : Bool} {ops : List Operation} (hg : Good p s)
    (hops : ops <+: runOperations p.numSteps pres sl) (h : perform ops s = .ok s') : Good p s' := by
  refine aborted_keeps (Good p) hops h hg (fun t ht => ht.preallocated) (fun t ht => ⟨ht.problem, ht.wakes, ht.arrays⟩)
    ?_ ?_ (fun t ht => ⟨ht.problem, ht.wakes, ht.arrays⟩)
  · intro k _ op hop t t' ht he
    obtain ⟨e1, _, _, _, _, e2, e3, e4⟩ := step_keeps hop he
    refine ⟨e1.trans ht.problem, fun w hw => (e2 w hw).trans (ht.wakes w hw), ?_⟩
    rcases ht.arrays with h0 | ⟨h1, h2⟩
    · left
      rw [h0] at e3
      exact List.length_eq_zero_iff.mp e3
    · right
      exact ⟨by omega, fun j hj => (e4 j).trans (h2 j hj)⟩
  · intro t ht
    obtain ⟨a, b, c, e, _⟩ := finalize_keeps t
    rw [e]
    exact ⟨ht.problem, ht.wakes, ht.arrays⟩

theorem storeStrengths_loads (x : List ℝ) (r : PanelRef) : ∀ (L : List (RingSlot × ℕ)) (heap : PanelHeap),
    (L.foldl (storeStrength x) heap r).loads = (heap r).loads
  | [], _ => rfl
  | t :: L, heap => by
    rw [List.foldl_cons, storeStrengths_loads x r L]
    unfold storeStrength
    by_cases h : r = t.1.panel
    · subst h; simp
    · rw [Function.update_of_ne h]

/-- The panels of steps before the first results step get no loads. -/
theorem aborted_early {pres sl : Bool} {ops : List Operation} (hp : s.problem = p)
    (hops : ops <+: runOperations p.numSteps pres sl) (h : perform ops s = .ok s') {k : ℕ}
    (hfirst : (k : ℤ) < p.firstResultsStep) (r : PanelRef) (hl : (s.panels k r).loads = none) :
    (s'.panels k r).loads = none := by
  refine (aborted_keeps (fun t => t.problem = p ∧ (t.panels k r).loads = none) hops h ⟨hp, hl⟩
    (fun t ht => ht) ?_ ?_ ?_ (fun t ht => ht)).2
  · rintro t ⟨ht, e⟩
    refine ⟨ht, ?_⟩
    change (initializeStep _ _ _ (t.panels k) r).loads = none
    obtain ⟨h1, h2⟩ := initializeStep_spec (t.problem.airplanesAt k)
      (t.problem.operatingPointAt k).freestreamVelocity t.problem.deltaTime (t.panels k)
    by_cases hr : r ∈ panelRefs (t.problem.airplanesAt k)
    · rw [h1 r hr]; exact e
    · rw [h2 r hr]; exact e
  · rintro j _ op hop t t' ⟨ht, e⟩ he
    refine ⟨(step_keeps hop he).1.trans ht, ?_⟩
    unfold stepOperations at hop
    simp only [List.mem_cons, List.not_mem_nil, or_false] at hop
    rcases hop with o | o | o | o | o | o | o | o | o <;> subst o
    · cases he; exact e
    · obtain ⟨a, b, w, l, hw, rfl⟩ := collapseGeometry_keeps he
      exact e
    · cases he; exact e
    · cases he; exact e
    · cases he; exact e
    · obtain ⟨x, rfl⟩ := calculateVortexStrengths_keeps he
      dsimp only
      by_cases hk : k = t.step
      · subst hk
        rw [Function.update_self, storeStrengths_loads]
        exact e
      · rw [Function.update_of_ne hk]; exact e
    · cases he
      split
      case isTrue hf =>
        have hk : k ≠ t.step := by
          rintro rfl
          rw [ht] at hf
          omega
        unfold calculateForces
        dsimp only
        rw [Function.update_of_ne hk]; exact e
      case isFalse => exact e
    · cases he
      obtain ⟨v, e'⟩ := shedVertices_keeps t pres
      rw [e']; exact e
    · cases he
      obtain ⟨a, b, c, e', hw⟩ := shedRings_keeps t
      rw [e']; exact e
  · intro t ht
    obtain ⟨a, b, c, e, _⟩ := finalize_keeps t
    rw [e]
    exact ht

/-- The means of a static problem are never filled. -/
theorem aborted_static {pres sl : Bool} {ops : List Operation} (hp : s.problem = p)
    (hops : ops <+: runOperations p.numSteps pres sl) (h : perform ops s = .ok s') (h0 : p.maxPeriod = 0) :
    s'.finalMean = s.finalMean := by
  refine (aborted_keeps (fun t => t.problem = p ∧ t.finalMean = s.finalMean) hops h ⟨hp, rfl⟩
    (fun t ht => ht) (fun t ht => ht) ?_ ?_ (fun t ht => ht)).2
  · intro k _ op hop t t' ht he
    obtain ⟨e1, _, _, e2, _⟩ := step_keeps hop he
    rw [e1, e2]
    exact ht
  · rintro t ⟨ht, e⟩
    obtain ⟨a, b, c, e', hm⟩ := finalize_keeps t
    rw [e']
    refine ⟨ht, ?_⟩
    rw [← e, ← (hm (by rw [ht]; exact h0)).1]

theorem SameBefore.trans' {k : ℕ} {a b c : UnsteadySolver} (h : SameBefore k a b) (h' : SameBefore k b c) :
    SameBefore k a c :=
  ⟨fun j hj => ⟨(h.1 j hj).1.trans (h'.1 j hj).1, (h.1 j hj).2.1.trans (h'.1 j hj).2.1,
    (h.1 j hj).2.2.trans (h'.1 j hj).2.2⟩, fun w hw => (h.2 w hw).trans (h'.2 w hw)⟩

theorem SameBefore.symm' {k : ℕ} {a b : UnsteadySolver} (h : SameBefore k a b) : SameBefore k b a :=
  ⟨fun j hj => ⟨(h.1 j hj).1.symm, (h.1 j hj).2.1.symm, (h.1 j hj).2.2.symm⟩, fun w hw => (h.2 w hw).symm⟩

theorem shedVerticesOf_keeps (s : UnsteadySolver) (pres : Bool) : ∀ (refs : List WingRef)
    (_ : ∀ r ∈ refs, r.step = s.step + 1) (v : WingRef → List (List V3)) (w : WingRef), w.step ≠ s.step + 1 →
    refs.foldl (s.shedVerticesOf pres) v w = v w
  | [], _, _, _, _ => rfl
  | r :: refs, hr, v, w, hw => by
    rw [List.foldl_cons, shedVerticesOf_keeps s pres refs (fun r h => hr r (by simp [h])) _ w hw]
    unfold shedVerticesOf
    cases s.problem.wing? { step := s.step, airplane := r.airplane, wing := r.wing } with
    | none => rfl
    | some wing =>
      change Function.update v r _ w = v w
      rw [Function.update_of_ne]
      rintro rfl
      exact hw (hr _ (by simp))

/-- An operation of a step keeps what the solver showed before the step. -/
theorem step_before {pres : Bool} {m k : ℕ} (hmk : k ≤ m) {op : Operation} (hop : op ∈ stepOperations pres m)
    (hs : k ≤ s.step) (h : op s = .ok s') : SameBefore k s' s ∧ k ≤ s'.step := by
  unfold stepOperations at hop
  simp only [List.mem_cons, List.not_mem_nil, or_false] at hop
  have refl : ∀ {t : UnsteadySolver}, SameBefore k t t := ⟨fun _ _ => ⟨rfl, rfl, rfl⟩, fun _ _ => rfl⟩
  rcases hop with e | e | e | e | e | e | e | e | e <;> subst e
  · cases h; exact ⟨refl (t := s), hmk⟩
  · obtain ⟨a, b, w, l, hw, rfl⟩ := collapseGeometry_keeps h
    refine ⟨⟨fun j hj => ⟨rfl, rfl, ?_⟩, fun _ _ => rfl⟩, hs⟩
    dsimp only
    rw [List.getD_eq_getElem?_getD, List.getElem?_set_ne (by omega), List.getD_eq_getElem?_getD]
  · cases h; exact ⟨refl (t := s), hs⟩
  · cases h; exact ⟨refl (t := s), hs⟩
  · cases h; exact ⟨refl (t := s), hs⟩
  · obtain ⟨x, rfl⟩ := calculateVortexStrengths_keeps h
    refine ⟨⟨fun j hj => ⟨?_, rfl, rfl⟩, fun _ _ => rfl⟩, hs⟩
    dsimp only
    rw [Function.update_of_ne (by omega)]
  · cases h
    split
    · refine ⟨⟨fun j hj => ⟨?_, ?_, rfl⟩, fun _ _ => rfl⟩, hs⟩
      · unfold calculateForces
        dsimp only
        rw [Function.update_of_ne (by omega)]
      · unfold calculateForces
        dsimp only
        rw [Function.update_of_ne (by omega)]
    · exact ⟨refl, hs⟩
  · cases h
    unfold shedVertices
    split
    · refine ⟨⟨fun j hj => ⟨rfl, rfl, rfl⟩, fun w hw => ?_⟩, hs⟩
      dsimp only
      rw [shedVerticesOf_keeps]
      · intro r hr
        exact (mem_wingRefs.mp hr).1
      · omega
    · exact ⟨refl, hs⟩
  · cases h
    obtain ⟨a, b, c, e, hw⟩ := shedRings_keeps s
    rw [e]
    exact ⟨⟨fun j hj => ⟨rfl, rfl, rfl⟩, fun w hw => rfl⟩, hs⟩

theorem mem_later {n k : ℕ} {pres sl : Bool} {op : Operation} {later : List Operation}
    (hlater : runOperations n pres sl = beforeStep pres k ++ later) (hk : k ≤ n) (h : op ∈ later) :
    (∃ m, k ≤ m ∧ m < n ∧ op ∈ stepOperations pres m) ∨ op = (fun s => .ok s.finalize) ∨
    op = (fun s => .ok (if sl then s.calculateStreamlines else s)) := by
  obtain ⟨d, rfl⟩ := Nat.exists_eq_add_of_le hk
  unfold runOperations beforeStep at hlater
  rw [List.range_add, List.flatMap_append, ← List.append_assoc, List.append_assoc,
    List.append_cancel_left_eq] at hlater
  rw [← hlater] at h
  simp only [List.mem_append, List.mem_flatMap, List.mem_map, List.mem_range, List.mem_cons, List.not_mem_nil,
    or_false] at h
  rcases h with ⟨a, ⟨b, hb, rfl⟩, ha⟩ | h | h
  · exact Or.inl ⟨k + b, by omega, by omega, ha⟩
  · exact Or.inr (Or.inl h)
  · exact Or.inr (Or.inr h)

/-- A run begins with the operations before its step `k`, and step `k` begins with setting its attributes. -/
theorem beforeStep_prefix {n k : ℕ} (pres sl : Bool) (hk : k ≤ n) :
    ∃ later, runOperations n pres sl = beforeStep pres k ++ later ∧
      (k < n → ∃ rest, later = (fun s => .ok (s.beginStep k)) :: rest) := by
  obtain ⟨d, rfl⟩ := Nat.exists_eq_add_of_le hk
  refine ⟨((List.range d).map (k + ·)).flatMap (stepOperations pres) ++
    [fun s => .ok s.finalize, fun s => .ok (if sl then s.calculateStreamlines else s)], ?_, ?_⟩
  · unfold runOperations beforeStep
    rw [List.range_add, List.flatMap_append]
    simp only [List.append_assoc]
  · intro hd
    obtain ⟨e, rfl⟩ : ∃ e, d = e + 1 := ⟨d - 1, by omega⟩
    rw [List.range_succ_eq_map, List.map_cons, List.flatMap_cons, Nat.add_zero]
    exact ⟨_, rfl⟩

theorem later_before {n k : ℕ} {pres sl : Bool} (hk : k ≤ n) {later rest : List Operation}
    (hlater : runOperations n pres sl = beforeStep pres k ++ later) (hrest : rest <+: later)
    (h : perform rest s = .ok s') : SameBefore k s' s := by
  have refl : ∀ {t : UnsteadySolver}, SameBefore k t t := ⟨fun _ _ => ⟨rfl, rfl, rfl⟩, fun _ _ => rfl⟩
  have fin : ∀ t : UnsteadySolver, SameBefore k t.finalize t := by
    intro t
    obtain ⟨a, b, c, e, _⟩ := finalize_keeps t
    rw [e]
    exact ⟨fun _ _ => ⟨rfl, rfl, rfl⟩, fun _ _ => rfl⟩
  have str : ∀ t : UnsteadySolver, SameBefore k (if sl then t.calculateStreamlines else t) t := by
    intro t
    split
    · exact ⟨fun _ _ => ⟨rfl, rfl, rfl⟩, fun _ _ => rfl⟩
    · exact refl
  rcases Nat.lt_or_ge k n with hkn | hkn
  · obtain ⟨later', h1, h2⟩ := beforeStep_prefix pres sl hk
    obtain ⟨tail, h2⟩ := h2 hkn
    have hl : later = later' := by
      rw [h1] at hlater
      exact (List.append_cancel_left hlater).symm
    rw [← hl] at h2
    cases rest with
    | nil =>
      unfold perform at h
      simp only [List.foldlM_nil, pure, Except.pure, Except.ok.injEq] at h
      rw [← h]; exact refl
    | cons op rest =>
      have hop : op = fun s => .ok (s.beginStep k) := by
        rw [h2] at hrest
        exact (List.cons_prefix_cons.mp hrest).1
      have hmem : ∀ o ∈ rest, o ∈ later := fun o ho => hrest.subset (by simp [ho])
      subst hop
      have h' : perform rest (s.beginStep k) = .ok s' := h
      refine (perform_keeps (fun u => SameBefore k u s ∧ k ≤ u.step) rest _ _ ?_ ?_ h').1
      · rintro o ho t t' ⟨e1, e2⟩ he
        rcases mem_later hlater hk (hmem o ho) with ⟨m, hm, _, hop⟩ | e | e
        · obtain ⟨e3, e4⟩ := step_before hm hop e2 he
          exact ⟨e3.trans' e1, e4⟩
        · subst e; cases he
          refine ⟨(fin t).trans' e1, ?_⟩
          obtain ⟨a, b, c, e, _⟩ := finalize_keeps t
          rw [e]; exact e2
        · subst e; cases he
          refine ⟨(str t).trans' e1, ?_⟩
          split <;> exact e2
      · exact ⟨⟨fun _ _ => ⟨rfl, rfl, rfl⟩, fun _ _ => rfl⟩, le_refl k⟩
  · refine perform_keeps (fun u => SameBefore k u s) rest _ _ ?_ refl h
    intro o ho t t' e1 he
    rcases mem_later hlater hk (hrest.subset ho) with ⟨m, hm, hn, _⟩ | e | e
    · omega
    · subst e; cases he; exact (fin t).trans' e1
    · subst e; cases he; exact (str t).trans' e1

/-- The first operation that raises. -/
theorem perform_error : ∀ (ops : List Operation) (s : UnsteadySolver) (e : Err), perform ops s = .error e →
    ∃ first op a, first ++ [op] <+: ops ∧ perform first s = .ok a ∧ op a = .error e
  | [], s, e, h => by cases h
  | op :: ops, s, e, h => by
    cases hop : op s with
    | error e' =>
      unfold perform at h
      rw [List.foldlM_cons, hop] at h
      cases h
      exact ⟨[], op, s, by simp, rfl, hop⟩
    | ok t =>
      have h' : perform ops t = .error e := by
        unfold perform at h
        rw [List.foldlM_cons, hop] at h
        exact h
      obtain ⟨first, o, a, h1, h2, h3⟩ := perform_error ops t e h'
      refine ⟨op :: first, o, a, ?_, ?_, h3⟩
      · rw [List.cons_append]
        exact List.cons_prefix_cons.mpr ⟨rfl, h1⟩
      · unfold perform
        rw [List.foldlM_cons, hop]
        exact h2

end UnsteadySolver
end Ptera
