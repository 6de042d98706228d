import Verif.Spec.Unset
import Verif.Lemmas.UnsteadyLayout
import Verif.Lemmas.MapM

/-! An unsteady run does not look at strengths that are not set yet. -/

namespace Ptera

/-- The two states of a panel are the same but for the strength of the ring. -/
def PanelState.RingUp (a b : PanelState) : Prop :=
  a.horseshoe = b.horseshoe ∧ a.loads = b.loads ∧
    a.ring.map (fun v => v.updateStrength 0) = b.ring.map (fun v => v.updateStrength 0)

theorem PanelState.RingUp.of_eq {a b : PanelState} (h : a = b) : a.RingUp b := by
  subst h; exact ⟨rfl, rfl, rfl⟩

theorem PanelState.RingUp.ring_cases {a b : PanelState} (h : a.RingUp b) :
    (a.ring = none ∧ b.ring = none) ∨
    ∃ v w, a.ring = some v ∧ b.ring = some w ∧ v.updateStrength 0 = w.updateStrength 0 := by
  have := h.2.2
  cases ha : a.ring with
  | none =>
    rw [ha] at this
    cases hb : b.ring with
    | none => exact Or.inl ⟨rfl, rfl⟩
    | some w => rw [hb] at this; simp at this
  | some v =>
    rw [ha] at this
    cases hb : b.ring with
    | none => rw [hb] at this; simp at this
    | some w =>
      rw [hb] at this
      exact Or.inr ⟨v, w, rfl, rfl, by simpa using this⟩

theorem RingVortex.up {v w : RingVortex} (h : v.updateStrength 0 = w.updateStrength 0) (x : ℝ) :
    v.updateStrength x = w.updateStrength x := by
  change (v.updateStrength 0).updateStrength x = (w.updateStrength 0).updateStrength x
  rw [h]

theorem ringSlot_up {v w : RingVortex} (h : v.updateStrength 0 = w.updateStrength 0) (as : List Airplane)
    (r : PanelRef) : ringSlot as r v = ringSlot as r w := by
  change ringSlot as r (v.updateStrength 0) = ringSlot as r (w.updateStrength 0)
  rw [h]

namespace UnsteadySolver

/-- The same solver with other panels. -/
def withPanels (P : ℕ → PanelHeap) (s : UnsteadySolver) : UnsteadySolver := { s with panels := P }

theorem collapsePanel_with {P : ℕ → PanelHeap} {k : ℕ} {s : UnsteadySolver} (hk : s.step = k)
    (h : ∀ r, (s.panels k r).RingUp (P k r)) (g : ℕ) (r : PanelRef) :
    collapsePanel (s.withPanels P, g) r = (collapsePanel (s, g) r).map fun t => (t.1.withPanels P, t.2) := by
  unfold collapsePanel
  change (match (P s.step r).ring with | none => _ | some v => _) = _
  subst hk
  rcases (h r).ring_cases with ⟨h1, h2⟩ | ⟨v, w, h1, h2, e⟩
  · simp only [h1, h2]; rfl
  · simp only [h1, h2]
    change (writeAt s.slots g (ringSlot s.airplanes r w) >>= _) = _
    rw [← ringSlot_up e]
    cases writeAt s.slots g (ringSlot s.airplanes r v) with
    | error e => rfl
    | ok a => rfl

theorem collapsePanel_leaves {s t : UnsteadySolver} {g g' : ℕ} {r : PanelRef} (h : collapsePanel (s, g) r = .ok (t, g')) :
    t.step = s.step ∧ t.panels = s.panels ∧ g' = g + 1 ∧ g < s.slots.length ∧ ∃ v, t.slots = s.slots.set g (ringSlot s.airplanes r v) := by
  unfold collapsePanel at h
  cases hr : (s.panels s.step r).ring with
  | none => simp only [hr] at h; cases h
  | some v =>
    simp only [hr] at h
    unfold writeAt at h
    split at h
    · rename_i hl
      cases h
      exact ⟨rfl, rfl, rfl, hl, v, rfl⟩
    · cases h

theorem collapsePanels_with {P : ℕ → PanelHeap} {k : ℕ} (L : List PanelRef) :
    ∀ (s : UnsteadySolver) (g : ℕ), s.step = k → (∀ r, (s.panels k r).RingUp (P k r)) →
      L.foldlM collapsePanel (s.withPanels P, g)
        = (L.foldlM collapsePanel (s, g)).map fun t => (t.1.withPanels P, t.2) := by
  induction L with
  | nil => intro s g _ _; rfl
  | cons r L ih =>
    intro s g hk h
    rw [List.foldlM_cons, List.foldlM_cons, collapsePanel_with hk h]
    cases hc : collapsePanel (s, g) r with
    | error e => rfl
    | ok t =>
      obtain ⟨t, g'⟩ := t
      obtain ⟨e1, e2, _⟩ := collapsePanel_leaves hc
      exact ih t g' (e1.trans hk) (by rw [e2]; exact h)

/-- After the loop the slots filled hold the panels visited, in order. -/
theorem collapsePanels_slots (L : List PanelRef) :
    ∀ (s t : UnsteadySolver) (g g' : ℕ), L.foldlM collapsePanel (s, g) = .ok (t, g') →
      t.step = s.step ∧ t.panels = s.panels ∧
      (t.slots.take (g + L.length)).map (·.panel) = (s.slots.take g).map (·.panel) ++ L := by
  induction L with
  | nil =>
    intro s t g g' h
    cases h
    simp
  | cons r L ih =>
    intro s t g g' h
    rw [List.foldlM_cons] at h
    obtain ⟨⟨u, g1⟩, h1, h2⟩ := bind_ok.mp h
    obtain ⟨e1, e2, e3, e4, v, e5⟩ := collapsePanel_leaves h1
    subst e3
    obtain ⟨f1, f2, f3⟩ := ih u t _ _ h2
    refine ⟨f1.trans e1, f2.trans e2, ?_⟩
    have : g + 1 + L.length = g + (r :: L).length := by simp; omega
    rw [← this, f3, e5, List.take_add_one]
    rw [List.take_set_of_le (le_refl g)]
    simp [e4, ringSlot]

theorem collapseGeometry_with {P : ℕ → PanelHeap} {k : ℕ} {s : UnsteadySolver} (hk : s.step = k)
    (h : ∀ r, (s.panels k r).RingUp (P k r)) (hb : 0 < k → s.panels (k - 1) = P (k - 1)) :
    (s.withPanels P).collapseGeometry = (s.collapseGeometry).map fun t => t.withPanels P := by
  unfold collapseGeometry
  change ((panelRefs s.airplanes).foldlM collapsePanel (s.withPanels P, 0) >>= _) = _
  rw [collapsePanels_with _ s 0 hk h]
  cases hc : (panelRefs s.airplanes).foldlM collapsePanel (s, 0) with
  | error e => rfl
  | ok t =>
    obtain ⟨t, g⟩ := t
    obtain ⟨e1, e2, _⟩ := collapsePanels_slots _ s t 0 g hc
    change (t.wakeRefs.foldlM (collapseWakeRing t.objects) (t.wakeArrays.getD t.step [], 0) >>= _)
      = Except.map _ (t.wakeRefs.foldlM (collapseWakeRing t.objects) (t.wakeArrays.getD t.step [], 0) >>= _)
    cases t.wakeRefs.foldlM (collapseWakeRing t.objects) (t.wakeArrays.getD t.step [], 0) with
    | error e => rfl
    | ok w =>
      change (if 0 < t.step then _ else _) = Except.map _ (if 0 < t.step then _ else _)
      by_cases h0 : 0 < t.step
      · rw [if_pos h0, if_pos h0]
        have hp : t.panels (t.step - 1) = P (t.step - 1) := by
          rw [e2, e1, hk]; exact hb (by rw [← hk, ← e1]; exact h0)
        change ((panelRefs (t.problem.airplanesAt (t.step - 1))).foldlM
          (collapseLast (t.problem.airplanesAt (t.step - 1)) (P (t.step - 1))) (t.lasts, 0) >>= _)
          = Except.map _ ((panelRefs (t.problem.airplanesAt (t.step - 1))).foldlM
          (collapseLast (t.problem.airplanesAt (t.step - 1)) (t.panels (t.step - 1))) (t.lasts, 0) >>= _)
        rw [hp]
        cases (panelRefs (t.problem.airplanesAt (t.step - 1))).foldlM
          (collapseLast (t.problem.airplanesAt (t.step - 1)) (P (t.step - 1))) (t.lasts, 0) with
        | error e => rfl
        | ok l => rfl
      · rw [if_neg h0, if_neg h0]; rfl

theorem collapseGeometry_leaves {s t : UnsteadySolver} (h : s.collapseGeometry = .ok t) :
    t.step = s.step ∧ t.panels = s.panels ∧ t.problem = s.problem ∧
    ∀ r ∈ panelRefs s.airplanes, r ∈ t.slots.map (·.panel) := by
  unfold collapseGeometry at h
  obtain ⟨⟨u, g⟩, h1, h2⟩ := bind_ok.mp h
  obtain ⟨e1, e2, e3⟩ := collapsePanels_slots _ s u 0 g h1
  have e0 : u.problem = s.problem := by
    have key : ∀ (L : List PanelRef) (a b : UnsteadySolver) (g g' : ℕ), L.foldlM collapsePanel (a, g) = .ok (b, g') →
        b.problem = a.problem := by
      intro L
      induction L with
      | nil => intro a b g g' h; cases h; rfl
      | cons r L ih =>
        intro a b g g' h
        rw [List.foldlM_cons] at h
        obtain ⟨⟨c, g1⟩, h1, h2⟩ := bind_ok.mp h
        rw [ih c b g1 g' h2]
        unfold collapsePanel at h1
        cases hr : (a.panels a.step r).ring with
        | none => simp only [hr] at h1; cases h1
        | some v =>
          simp only [hr] at h1
          obtain ⟨x, _, h3⟩ := bind_ok.mp h1
          cases h3
          rfl
    exact key _ _ _ _ _ h1
  have e4 : ∀ r ∈ panelRefs s.airplanes, r ∈ u.slots.map (·.panel) := by
    intro r hr
    have : r ∈ (u.slots.take (0 + (panelRefs s.airplanes).length)).map (·.panel) := by rw [e3]; simpa using hr
    rw [List.map_take] at this
    exact List.mem_of_mem_take this
  obtain ⟨w, h3, h4⟩ := bind_ok.mp h2
  change (if 0 < u.step then _ else _) = _ at h4
  by_cases h0 : 0 < u.step
  · rw [if_pos h0] at h4
    obtain ⟨l, h5, h6⟩ := bind_ok.mp h4
    cases h6
    exact ⟨e1, e2, e0, e4⟩
  · rw [if_neg h0] at h4
    cases h4
    exact ⟨e1, e2, e0, e4⟩

/-- Writing the strengths back makes the panels the same. -/
theorem storeStrengths_same (x : List ℝ) (L : List (RingSlot × ℕ)) :
    ∀ a b : PanelHeap, (∀ r, (a r).RingUp (b r)) → (∀ r, r ∉ L.map (fun t => t.1.panel) → a r = b r) →
      L.foldl (storeStrength x) a = L.foldl (storeStrength x) b := by
  induction L with
  | nil =>
    intro a b _ h
    have : a = b := funext fun r => h r (by simp)
    rw [this]
  | cons c L ih =>
    intro a b h1 h2
    rw [List.foldl_cons, List.foldl_cons]
    have hc : storeStrength x a c c.1.panel = storeStrength x b c c.1.panel := by
      unfold storeStrength
      rw [Function.update_self, Function.update_self]
      obtain ⟨u1, u2, _⟩ := h1 c.1.panel
      rcases (h1 c.1.panel).ring_cases with ⟨h3, h4⟩ | ⟨v, w, h3, h4, e⟩
      · simp only [h3, h4, u1, u2]
      · simp only [h3, h4, u1, u2, Option.map_some, RingVortex.up e]
    have ho : ∀ r ≠ c.1.panel, storeStrength x a c r = a r ∧ storeStrength x b c r = b r := by
      intro r hr
      unfold storeStrength
      rw [Function.update_of_ne hr, Function.update_of_ne hr]
      exact ⟨rfl, rfl⟩
    apply ih
    · intro r
      by_cases hr : r = c.1.panel
      · subst hr; exact .of_eq hc
      · rw [(ho r hr).1, (ho r hr).2]; exact h1 r
    · intro r hr
      by_cases hrc : r = c.1.panel
      · subst hrc; exact hc
      · rw [(ho r hrc).1, (ho r hrc).2]
        exact h2 r (by simp only [List.map_cons, List.mem_cons, not_or]; exact ⟨hrc, hr⟩)

/-- Panels that are the same before step `k` and, from step `k` on, the same but for the strengths of rings on the
problem's panels. -/
structure SameUntil (p : UnsteadyProblem) (k : ℕ) (P Q : ℕ → PanelHeap) : Prop where
  past : ∀ j < k, P j = Q j
  up : ∀ j r, (P j r).RingUp (Q j r)
  off : ∀ j, ∀ r, ¬ (j < p.numSteps ∧ r ∈ panelRefs (p.airplanesAt j)) → P j r = Q j r

theorem wingRing_next {P : ℕ → PanelHeap} {s : UnsteadySolver} (h : ∀ j r, (s.panels j r).RingUp (P j r))
    (w : WingRef) (i j : ℕ) :
    ((s.withPanels P).wingRing w i j).backLeft = (s.wingRing w i j).backLeft ∧
    ((s.withPanels P).wingRing w i j).backRight = (s.wingRing w i j).backRight := by
  unfold wingRing
  change (((P w.step _).ring).getD _).backLeft = _ ∧ (((P w.step _).ring).getD _).backRight = _
  rcases (h w.step ⟨w.airplane, w.wing, i, j⟩).ring_cases with ⟨h1, h2⟩ | ⟨v, u, h1, h2, e⟩
  · rw [h1, h2]; exact ⟨rfl, rfl⟩
  · rw [h1, h2]
    exact ⟨(congrArg RingVortex.backLeft e).symm, (congrArg RingVortex.backRight e).symm⟩

theorem shedVertices_with {P : ℕ → PanelHeap} {s : UnsteadySolver} (h : ∀ j r, (s.panels j r).RingUp (P j r))
    (pres : Bool) : (s.withPanels P).shedVertices pres = (s.shedVertices pres).withPanels P := by
  have htr : (s.withPanels P).trailingVertices = s.trailingVertices := by
    funext w wing
    unfold trailingVertices
    apply List.map_congr_left
    intro j _
    rw [(wingRing_next h w _ j).1, (wingRing_next h w _ (wing.numSpanwisePanels - 1)).2]
  have hnv : (s.withPanels P).nextVertices pres = s.nextVertices pres := by
    funext w wing
    unfold nextVertices
    rw [htr]
    rfl
  have hsv : (s.withPanels P).shedVerticesOf pres = s.shedVerticesOf pres := by
    funext v w
    unfold shedVerticesOf
    rw [hnv]
    rfl
  unfold shedVertices
  rw [hsv]
  change (if s.step + 1 < s.problem.numSteps then _ else _) = withPanels P (if s.step + 1 < s.problem.numSteps then _ else _)
  by_cases h0 : s.step + 1 < s.problem.numSteps
  · rw [if_pos h0, if_pos h0]; rfl
  · rw [if_neg h0, if_neg h0]

theorem shedRings_with {P : ℕ → PanelHeap} {s : UnsteadySolver} (h : s.panels s.step = P s.step) :
    (s.withPanels P).shedRings = (s.shedRings).withPanels P := by
  have key : ∀ (L : List WingRef) (o : UnsteadyObjects), (∀ w ∈ L, w.step = s.step) →
      L.foldl (s.withPanels P).shedRingsOf { o with panels := P } = { L.foldl s.shedRingsOf o with panels := P } := by
    intro L
    induction L with
    | nil => intro o _; rfl
    | cons w L ih =>
      intro o hL
      rw [List.foldl_cons, List.foldl_cons, ← ih _ fun w' hw' => hL w' (List.mem_cons_of_mem _ hw')]
      congr 1
      have hw : w.step = s.step := hL w (List.mem_cons_self ..)
      have hcell : ∀ wing V, (s.withPanels P).shedCell w wing V = s.shedCell w wing V := by
        intro wing V
        funext state cell
        have hnew : ∀ j, (s.withPanels P).newRing w wing V j = s.newRing w wing V j := by
          intro j
          have : ∀ i j, (s.withPanels P).wingRing w i j = s.wingRing w i j := by
            intro i j
            unfold wingRing
            change ((P w.step _).ring).getD _ = _
            rw [hw, h]
          unfold newRing
          rw [this]
        unfold shedCell
        rw [hnew]
        rfl
      unfold shedRingsOf
      change (match s.problem.wing? w with | none => _ | some wing => _) = _
      cases s.problem.wing? w with
      | none => rfl
      | some wing =>
        simp only [hcell]
        rfl
  unfold shedRings
  change (if s.step + 1 < s.problem.numSteps then _ else _) = withPanels P (if s.step + 1 < s.problem.numSteps then _ else _)
  by_cases h0 : s.step + 1 < s.problem.numSteps
  · rw [if_pos h0, if_pos h0]
    have hw : ∀ w ∈ wingRefs s.step s.airplanes, w.step = s.step := by
      intro w hw
      exact (mem_wingRefs (p := s.problem).mp hw).1
    have := key (wingRefs s.step s.airplanes) s.toUnsteadyObjects hw
    unfold withPanels
    unfold withPanels at this
    simp only [UnsteadySolver.mk.injEq, and_true]
    exact this
  · rw [if_neg h0, if_neg h0]

theorem SameUntil.update {p : UnsteadyProblem} {k : ℕ} {P Q : ℕ → PanelHeap} (h : SameUntil p k P Q) (H : PanelHeap) :
    SameUntil p (k + 1) (Function.update P k H) (Function.update Q k H) := by
  constructor
  · intro j hj
    by_cases hjk : j = k
    · subst hjk; rw [Function.update_self, Function.update_self]
    · rw [Function.update_of_ne hjk, Function.update_of_ne hjk, h.past j (by omega)]
  · intro j r
    by_cases hjk : j = k
    · subst hjk; rw [Function.update_self, Function.update_self]; exact .of_eq rfl
    · rw [Function.update_of_ne hjk, Function.update_of_ne hjk]; exact h.up j r
  · intro j r hr
    by_cases hjk : j = k
    · subst hjk; rw [Function.update_self, Function.update_self]
    · rw [Function.update_of_ne hjk, Function.update_of_ne hjk]; exact h.off j r hr

theorem calculateForces_with {k : ℕ} {v : UnsteadySolver} (hk : v.step = k) (P : ℕ → PanelHeap) :
    (v.withPanels (Function.update P k (v.panels k))).calculateForces
      = v.calculateForces.withPanels (Function.update P k (v.calculateForces.panels k)) ∧
    v.calculateForces.panels = Function.update v.panels k (v.calculateForces.panels k) := by
  subst hk
  have hf : ∀ Q : ℕ → PanelHeap, Q v.step = v.panels v.step →
      (v.withPanels Q).nearFieldForces = v.nearFieldForces ∧ (v.withPanels Q).nearFieldMoments = v.nearFieldMoments := by
    intro Q hQ
    have he : ∀ f, (v.withPanels Q).effective f = v.effective f := by
      intro f
      unfold effective
      change (panelRefs v.airplanes).zipIdx.map (fun r => f v.airplanes (Q v.step) (v.strengths.getD r.2 0) r.1) = _
      rw [hQ]
    have h1 : (v.withPanels Q).rightForces = v.rightForces := by unfold rightForces; rw [he]; rfl
    have h2 : (v.withPanels Q).frontForces = v.frontForces := by unfold frontForces; rw [he]; rfl
    have h3 : (v.withPanels Q).leftForces = v.leftForces := by unfold leftForces; rw [he]; rfl
    unfold nearFieldForces nearFieldMoments
    rw [h1, h2, h3]
    exact ⟨rfl, rfl⟩
  obtain ⟨h1, h2⟩ := hf (Function.update P v.step (v.panels v.step)) (Function.update_self ..)
  constructor
  · unfold calculateForces
    simp only [h1, h2]
    unfold withPanels
    simp only [Function.update_self, Function.update_idem]
    rfl
  · unfold calculateForces
    simp only [Function.update_self]

theorem shedVertices_leaves (s : UnsteadySolver) (pres : Bool) :
    (s.shedVertices pres).panels = s.panels ∧ (s.shedVertices pres).step = s.step ∧
    (s.shedVertices pres).problem = s.problem := by
  unfold shedVertices
  split_ifs <;> exact ⟨rfl, rfl, rfl⟩

theorem shedRings_leaves (s : UnsteadySolver) : s.shedRings.panels = s.panels ∧ s.shedRings.problem = s.problem := by
  have key : ∀ (L : List WingRef) (o : UnsteadyObjects), (L.foldl s.shedRingsOf o).panels = o.panels := by
    intro L
    induction L with
    | nil => intro o; rfl
    | cons w L ih =>
      intro o
      rw [List.foldl_cons, ih]
      unfold shedRingsOf
      split <;> rfl
  unfold shedRings
  split_ifs
  · exact ⟨key _ _, rfl⟩
  · exact ⟨rfl, rfl⟩

theorem populate_with {P : ℕ → PanelHeap} {s : UnsteadySolver} (h : ∀ j r, (s.panels j r).RingUp (P j r))
    (hk : s.panels s.step = P s.step) (pres : Bool) :
    (s.withPanels P).populateNextWake pres = (s.populateNextWake pres).withPanels P := by
  unfold populateNextWake
  rw [shedVertices_with h, shedRings_with]
  rw [(shedVertices_leaves s pres).1, (shedVertices_leaves s pres).2.1, hk]

theorem runStep_with {p : UnsteadyProblem} {P : ℕ → PanelHeap} {k : ℕ} {s : UnsteadySolver} (hp : s.problem = p)
    (h : SameUntil p k s.panels P) (pres : Bool) :
    (∃ e, runStep pres s k = .error e ∧ runStep pres (s.withPanels P) k = .error e) ∨
    ∃ t Q, runStep pres s k = .ok t ∧ runStep pres (s.withPanels P) k = .ok (t.withPanels Q) ∧ t.problem = p ∧
      SameUntil p (k + 1) t.panels Q := by
  have hcol := collapseGeometry_with (P := P) (s := s.beginStep k) (k := k) rfl (fun r => h.up k r)
    (fun h0 => h.past (k - 1) (by omega))
  have hb : (s.withPanels P).beginStep k = (s.beginStep k).withPanels P := rfl
  cases hc : (s.beginStep k).collapseGeometry with
  | error e =>
    rw [hc] at hcol
    refine Or.inl ⟨e, ?_, ?_⟩
    · unfold runStep solveStep; rw [hc]; rfl
    · unfold runStep solveStep; rw [hb, hcol]; rfl
  | ok u =>
    rw [hc] at hcol
    obtain ⟨e1, e2, e3, e4⟩ := collapseGeometry_leaves hc
    have e1 : u.step = k := e1
    have e2 : u.panels = s.panels := e2
    have e3 : u.problem = p := e3.trans hp
    have e4 : ∀ r ∈ panelRefs (p.airplanesAt k), r ∈ u.slots.map (·.panel) := by rw [← hp]; exact e4
    set m := u.calculateWingWingInfluences.calculateFreestreamInfluences.calculateWakeInfluences with hm
    have hm' : (u.withPanels P).calculateWingWingInfluences.calculateFreestreamInfluences.calculateWakeInfluences
        = m.withPanels P := rfl
    cases hx : linalgSolve m.influences (List.zipWith (fun w f => -w - f) m.wake m.freestream) with
    | error e =>
      refine Or.inl ⟨e, ?_, ?_⟩
      · unfold runStep solveStep; rw [hc]
        change (m.calculateVortexStrengths >>= _) >>= _ = _
        unfold calculateVortexStrengths
        rw [hx]; rfl
      · unfold runStep solveStep; rw [hb, hcol]
        change ((m.withPanels P).calculateVortexStrengths >>= _) >>= _ = _
        unfold calculateVortexStrengths
        change ((linalgSolve m.influences (List.zipWith (fun w f => -w - f) m.wake m.freestream) >>= _) >>= _) >>= _ = _
        rw [hx]; rfl
    | ok x =>
      have hstore : u.slots.zipIdx.foldl (storeStrength x) (s.panels k)
          = u.slots.zipIdx.foldl (storeStrength x) (P k) := by
        apply storeStrengths_same x _ _ _ (fun r => h.up k r)
        intro r hr
        apply h.off k r
        rintro ⟨_, hr'⟩
        apply hr
        have : (fun t : RingSlot × ℕ => t.1.panel) = (fun t : RingSlot => t.panel) ∘ Prod.fst := rfl
        rw [this, ← List.map_map, List.zipIdx_map_fst]
        exact e4 r hr'
      -- the state after the strengths are stored
      set v : UnsteadySolver := { m with
        strengths := x
        panels := Function.update m.panels m.step (m.slots.zipIdx.foldl (storeStrength x) (m.panels m.step)) } with hv
      set Q : ℕ → PanelHeap := Function.update P k (v.panels k) with hQ
      have hvp : v.panels = Function.update s.panels k (v.panels k) := by
        have : m.panels = s.panels := e2
        have h3 : m.step = k := e1
        rw [hv]
        simp only [this, h3, Function.update_self]
      have hvs : v.step = k := e1
      have hvQ : { m.withPanels P with
          strengths := x
          panels := Function.update (m.withPanels P).panels (m.withPanels P).step
            ((m.withPanels P).slots.zipIdx.foldl (storeStrength x) ((m.withPanels P).panels (m.withPanels P).step)) }
          = v.withPanels Q := by
        have h3 : m.step = k := e1
        have h4 : v.panels k = u.slots.zipIdx.foldl (storeStrength x) (P k) := by
          rw [hv]
          change Function.update m.panels m.step _ k = _
          have h5 : m.panels = s.panels := e2
          rw [h3, Function.update_self, h5]
          exact hstore
        rw [hQ, h4]
        have : Function.update (m.withPanels P).panels (m.withPanels P).step
            ((m.withPanels P).slots.zipIdx.foldl (storeStrength x) ((m.withPanels P).panels (m.withPanels P).step))
            = Function.update P k (u.slots.zipIdx.foldl (storeStrength x) (P k)) := by
          change Function.update P m.step (m.slots.zipIdx.foldl (storeStrength x) (P m.step)) = _
          rw [h3]
          rfl
        rw [this]
        rfl
      have hsv : m.calculateVortexStrengths = .ok v := by
        unfold calculateVortexStrengths
        rw [hx]
        rfl
      have hsv' : (m.withPanels P).calculateVortexStrengths = .ok (v.withPanels Q) := by
        rw [← hvQ]
        unfold calculateVortexStrengths
        change (linalgSolve m.influences (List.zipWith (fun w f => -w - f) m.wake m.freestream) >>= _) = _
        rw [hx]
        rfl
      have hvprob : v.problem = p := e3
      -- the state after the forces
      set w := if v.problem.firstResultsStep ≤ (k : ℤ) then v.calculateForces else v with hw
      have hwk : w.step = k ∧ w.problem = p ∧ w.panels = Function.update s.panels k (w.panels k) ∧
          (if (v.withPanels Q).problem.firstResultsStep ≤ (k : ℤ) then (v.withPanels Q).calculateForces
            else v.withPanels Q) = w.withPanels (Function.update P k (w.panels k)) := by
        change _ ∧ _ ∧ _ ∧ (if v.problem.firstResultsStep ≤ (k : ℤ) then _ else _) = _
        rw [hw]
        by_cases hfirst : v.problem.firstResultsStep ≤ (k : ℤ)
        · rw [if_pos hfirst, if_pos hfirst]
          obtain ⟨f1, f2⟩ := calculateForces_with hvs P
          refine ⟨hvs, hvprob, ?_, ?_⟩
          · rw [f2, Function.update_self, hvp, Function.update_idem]
          · rw [hQ]; exact f1
        · rw [if_neg hfirst, if_neg hfirst]
          exact ⟨hvs, hvprob, hvp, by rw [hQ]⟩
      obtain ⟨w1, w2, w3, w4⟩ := hwk
      have hsame : SameUntil p (k + 1) w.panels (Function.update P k (w.panels k)) := by
        rw [w3]
        simp only [Function.update_self]
        exact h.update _
      refine Or.inr ⟨w.populateNextWake pres, Function.update P k (w.panels k), ?_, ?_, ?_, ?_⟩
      · unfold runStep solveStep
        rw [hc]
        change (m.calculateVortexStrengths >>= _) >>= _ = _
        rw [hsv]
        rfl
      · rw [← populate_with hsame.up (by rw [w1, Function.update_self]) pres, ← w4]
        unfold runStep solveStep
        rw [hb, hcol]
        change ((m.withPanels P).calculateVortexStrengths >>= _) >>= _ = _
        rw [hsv']
        rfl
      · unfold populateNextWake
        rw [(shedRings_leaves _).2, (shedVertices_leaves _ _).2.2, w2]
      · unfold populateNextWake
        rw [(shedRings_leaves _).1, (shedVertices_leaves _ _).1]
        exact hsame

theorem steps_with {p : UnsteadyProblem} {P : ℕ → PanelHeap} {s : UnsteadySolver} (hp : s.problem = p)
    (h : SameUntil p 0 s.panels P) (pres : Bool) (n : ℕ) :
    (∃ e, (List.range n).foldlM (runStep pres) s = .error e ∧
      (List.range n).foldlM (runStep pres) (s.withPanels P) = .error e) ∨
    ∃ t Q, (List.range n).foldlM (runStep pres) s = .ok t ∧
      (List.range n).foldlM (runStep pres) (s.withPanels P) = .ok (t.withPanels Q) ∧ t.problem = p ∧
      SameUntil p n t.panels Q := by
  induction n with
  | zero => exact Or.inr ⟨s, P, rfl, rfl, hp, h⟩
  | succ n ih =>
    rw [List.range_succ, List.foldlM_append, List.foldlM_append]
    rcases ih with ⟨e, h1, h2⟩ | ⟨t, Q, h1, h2, h3, h4⟩
    · rw [h1, h2]
      exact Or.inl ⟨e, rfl, rfl⟩
    · rw [h1, h2]
      simp only [bind, Except.bind, List.foldlM_cons, List.foldlM_nil, pure, Except.pure]
      rcases runStep_with h3 h4 pres with ⟨e, g1, g2⟩ | ⟨u, R, g1, g2, g3, g4⟩
      · rw [g1, g2]
        exact Or.inl ⟨e, rfl, rfl⟩
      · rw [g1, g2]
        exact Or.inr ⟨u, R, rfl, rfl, g3, g4⟩

theorem runUnset_eq (σ : ℕ → PanelRef → ℝ) (s : UnsteadySolver) (pres sl : Bool) :
    s.runUnset σ pres sl = s.run pres sl := by
  set b := s.preallocate.initializePanelVortices with hb
  have hbp : b.problem = s.problem := rfl
  have hsame : SameUntil s.problem 0 b.panels (b.withUnset σ).panels := by
    constructor
    · intro j hj; omega
    · intro j r
      unfold withUnset
      simp only
      split_ifs
      · refine ⟨rfl, rfl, ?_⟩
        rw [Option.map_map]
        rfl
      · exact .of_eq rfl
    · intro j r hr
      unfold withUnset
      simp only
      rw [if_neg (by rw [hbp]; exact hr)]
  unfold runUnset run
  rw [← hb]
  have e : b.withUnset σ = b.withPanels (b.withUnset σ).panels := rfl
  rw [e]
  rcases steps_with hbp hsame pres s.problem.numSteps with ⟨e, h1, h2⟩ | ⟨t, Q, h1, h2, h3, h4⟩
  · rw [h1, h2]
  · have : t.withPanels Q = t := by
      have : Q = t.panels := by
        funext j
        by_cases hj : j < s.problem.numSteps
        · exact (h4.past j hj).symm
        · funext r
          exact (h4.off j r fun h => hj h.1).symm
      rw [this]
      rfl
    rw [h1, h2, this]

end UnsteadySolver
end Ptera
