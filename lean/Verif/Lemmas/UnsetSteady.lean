import Verif.Lemmas.UnsetUnsteady

/-! Steady runs do not look at strengths that are not set yet. -/

namespace Ptera

/-- The two states of a panel are the same but for the strength of the vortices. -/
def PanelState.Up (a b : PanelState) : Prop :=
  a.loads = b.loads ∧ a.ring.map (fun v => v.updateStrength 0) = b.ring.map (fun v => v.updateStrength 0) ∧
    a.horseshoe.map (fun v => v.updateStrength 0) = b.horseshoe.map (fun v => v.updateStrength 0)

theorem option_map_cases {α β : Type} {f : α → β} {a b : Option α} (h : a.map f = b.map f) :
    (a = none ∧ b = none) ∨ ∃ v w, a = some v ∧ b = some w ∧ f v = f w := by
  cases a with
  | none =>
    cases b with
    | none => exact Or.inl ⟨rfl, rfl⟩
    | some w => simp at h
  | some v =>
    cases b with
    | none => simp at h
    | some w => exact Or.inr ⟨v, w, rfl, rfl, by simpa using h⟩

theorem PanelState.Up.of_eq {a b : PanelState} (h : a = b) : a.Up b := by
  subst h; exact ⟨rfl, rfl, rfl⟩

theorem HorseshoeVortex.up {v w : HorseshoeVortex} (h : v.updateStrength 0 = w.updateStrength 0) (x : ℝ) :
    v.updateStrength x = w.updateStrength x := by
  change (v.updateStrength 0).updateStrength x = (w.updateStrength 0).updateStrength x
  rw [h]

namespace HorseshoeSolver

/-- The same solver with other panels. -/
def withHeap (P : PanelHeap) (s : HorseshoeSolver) : HorseshoeSolver := { s with heap := P }

theorem slotOf_up {v w : HorseshoeVortex} (h : v.updateStrength 0 = w.updateStrength 0) (as : List Airplane)
    (r : PanelRef) : slotOf as r v = slotOf as r w := by
  change slotOf as r (v.updateStrength 0) = slotOf as r (w.updateStrength 0)
  rw [h]

theorem collapsePanel_with {P : PanelHeap} {s : HorseshoeSolver} (h : ∀ r, (s.heap r).Up (P r)) (g : ℕ) (r : PanelRef) :
    collapsePanel (s.withHeap P, g) r = (collapsePanel (s, g) r).map fun t => (t.1.withHeap P, t.2) := by
  unfold collapsePanel
  change (match (P r).horseshoe with | none => _ | some v => _) = _
  rcases option_map_cases (h r).2.2 with ⟨h1, h2⟩ | ⟨v, w, h1, h2, e⟩
  · simp only [h1, h2]; rfl
  · simp only [h1, h2]
    change (writeAt s.slots g (slotOf s.airplanes r w) >>= _) = _
    rw [← slotOf_up e]
    cases writeAt s.slots g (slotOf s.airplanes r v) with
    | error e => rfl
    | ok a => rfl

theorem collapsePanel_leaves {s t : HorseshoeSolver} {g g' : ℕ} {r : PanelRef}
    (h : collapsePanel (s, g) r = .ok (t, g')) :
    t.heap = s.heap ∧ g' = g + 1 ∧ g < s.slots.length ∧ ∃ v, t.slots = s.slots.set g (slotOf s.airplanes r v) := by
  unfold collapsePanel at h
  cases hr : (s.heap r).horseshoe with
  | none => simp only [hr] at h; cases h
  | some v =>
    simp only [hr] at h
    unfold writeAt at h
    split at h
    · rename_i hl
      cases h
      exact ⟨rfl, rfl, hl, v, rfl⟩
    · cases h

theorem collapsePanels_with {P : PanelHeap} (L : List PanelRef) :
    ∀ (s : HorseshoeSolver) (g : ℕ), (∀ r, (s.heap r).Up (P r)) →
      L.foldlM collapsePanel (s.withHeap P, g)
        = (L.foldlM collapsePanel (s, g)).map fun t => (t.1.withHeap P, t.2) := by
  induction L with
  | nil => intro s g _; rfl
  | cons r L ih =>
    intro s g h
    rw [List.foldlM_cons, List.foldlM_cons, collapsePanel_with h]
    cases hc : collapsePanel (s, g) r with
    | error e => rfl
    | ok t =>
      obtain ⟨t, g'⟩ := t
      obtain ⟨e2, _⟩ := collapsePanel_leaves hc
      exact ih t g' (by rw [e2]; exact h)

theorem collapsePanels_slots (L : List PanelRef) :
    ∀ (s t : HorseshoeSolver) (g g' : ℕ), L.foldlM collapsePanel (s, g) = .ok (t, g') →
      t.heap = s.heap ∧ (t.slots.take (g + L.length)).map (·.panel) = (s.slots.take g).map (·.panel) ++ L := by
  induction L with
  | nil =>
    intro s t g g' h
    cases h
    simp
  | cons r L ih =>
    intro s t g g' h
    rw [List.foldlM_cons] at h
    obtain ⟨⟨u, g1⟩, h1, h2⟩ := bind_ok.mp h
    obtain ⟨e2, e3, e4, v, e5⟩ := collapsePanel_leaves h1
    subst e3
    obtain ⟨f2, f3⟩ := ih u t _ _ h2
    refine ⟨f2.trans e2, ?_⟩
    have : g + 1 + L.length = g + (r :: L).length := by simp; omega
    rw [← this, f3, e5, List.take_add_one]
    rw [List.take_set_of_le (le_refl g)]
    simp [e4, slotOf]

/-- Storing one strength (the loop body of `calculateVortexStrengths`). -/
noncomputable def store (strengths : List ℝ) (heap : PanelHeap) (t : HorseshoeSlot × ℕ) : PanelHeap :=
  Function.update heap t.1.panel
    { heap t.1.panel with
      horseshoe := (heap t.1.panel).horseshoe.map fun v => v.updateStrength (strengths.getD t.2 0) }

theorem store_same (x : List ℝ) (L : List (HorseshoeSlot × ℕ)) :
    ∀ a b : PanelHeap, (∀ r, (a r).Up (b r) ∧ (a r).ring = (b r).ring) →
      (∀ r, r ∉ L.map (fun t => t.1.panel) → a r = b r) → L.foldl (store x) a = L.foldl (store x) b := by
  induction L with
  | nil =>
    intro a b _ h
    have : a = b := funext fun r => h r (by simp)
    rw [this]
  | cons c L ih =>
    intro a b h1 h2
    rw [List.foldl_cons, List.foldl_cons]
    have hc : store x a c c.1.panel = store x b c c.1.panel := by
      unfold store
      rw [Function.update_self, Function.update_self]
      obtain ⟨⟨u1, _, u3⟩, u2⟩ := h1 c.1.panel
      rcases option_map_cases u3 with ⟨h3, h4⟩ | ⟨v, w, h3, h4, e⟩
      · simp only [h3, h4, u1, u2]
      · simp only [h3, h4, u1, u2, Option.map_some, HorseshoeVortex.up e]
    have ho : ∀ r ≠ c.1.panel, store x a c r = a r ∧ store x b c r = b r := by
      intro r hr
      unfold store
      rw [Function.update_of_ne hr, Function.update_of_ne hr]
      exact ⟨rfl, rfl⟩
    apply ih
    · intro r
      by_cases hr : r = c.1.panel
      · subst hr; rw [hc]; exact ⟨.of_eq rfl, rfl⟩
      · rw [(ho r hr).1, (ho r hr).2]; exact h1 r
    · intro r hr
      by_cases hrc : r = c.1.panel
      · subst hrc; exact hc
      · rw [(ho r hrc).1, (ho r hrc).2]
        exact h2 r (by simp only [List.map_cons, List.mem_cons, not_or]; exact ⟨hrc, hr⟩)

theorem runUnset_eq (σ : PanelRef → ℝ) (s : HorseshoeSolver) : s.runUnset σ = s.run := by
  set b := s.initializePanelVortices with hb
  set P := (b.withUnset σ).heap with hP
  have hup : ∀ r, (b.heap r).Up (P r) ∧ (b.heap r).ring = (P r).ring := by
    intro r
    rw [hP]
    unfold withUnset
    simp only
    split_ifs
    · refine ⟨⟨rfl, rfl, ?_⟩, rfl⟩
      rw [Option.map_map]
      rfl
    · exact ⟨.of_eq rfl, rfl⟩
  have hoff : ∀ r, r ∉ panelRefs b.airplanes → b.heap r = P r := by
    intro r hr
    rw [hP]
    unfold withUnset
    simp only
    rw [if_neg hr]
  unfold runUnset run
  rw [← hb]
  have e : b.withUnset σ = b.withHeap P := rfl
  rw [e]
  have hcol : (b.withHeap P).collapseGeometry = b.collapseGeometry.map fun t => t.withHeap P := by
    unfold collapseGeometry
    change ((panelRefs b.airplanes).foldlM collapsePanel (b.withHeap P, 0) >>= _) = _
    rw [collapsePanels_with _ b 0 fun r => (hup r).1]
    cases (panelRefs b.airplanes).foldlM collapsePanel (b, 0) with
    | error e => rfl
    | ok t => rfl
  rw [hcol]
  cases hc : b.collapseGeometry with
  | error e => rfl
  | ok u =>
    unfold collapseGeometry at hc
    obtain ⟨⟨u', g⟩, h1, h2⟩ := bind_ok.mp hc
    obtain rfl : u' = u := by cases h2; rfl
    obtain ⟨e2, e3⟩ := collapsePanels_slots _ b _ 0 g h1
    set m := u'.calculateWingWingInfluences.calculateFreestreamInfluences with hm
    change ((m.withHeap P).calculateVortexStrengths >>= _) = (m.calculateVortexStrengths >>= _)
    have : (m.withHeap P).calculateVortexStrengths = m.calculateVortexStrengths := by
      unfold calculateVortexStrengths
      change (linalgSolve m.influences (m.freestream.map fun x => -x) >>= _) = _
      cases linalgSolve m.influences (m.freestream.map fun x => -x) with
      | error e => rfl
      | ok x =>
        have hs : m.slots.zipIdx.foldl (store x) P = m.slots.zipIdx.foldl (store x) m.heap := by
          symm
          have : m.heap = b.heap := e2
          rw [this]
          apply store_same x _ _ _ hup
          intro r hr
          apply hoff r
          intro hr'
          apply hr
          have h5 : (fun t : HorseshoeSlot × ℕ => t.1.panel) = (fun t : HorseshoeSlot => t.panel) ∘ Prod.fst := rfl
          rw [h5, ← List.map_map, List.zipIdx_map_fst]
          have h6 : r ∈ (u'.slots.take (0 + (panelRefs b.airplanes).length)).map (·.panel) := by
            rw [e3]; simpa using hr'
          rw [List.map_take] at h6
          exact List.mem_of_mem_take h6
        change Except.ok { m with strengths := x, heap := m.slots.zipIdx.foldl (store x) P }
          = Except.ok { m with strengths := x, heap := m.slots.zipIdx.foldl (store x) m.heap }
        rw [hs]
    rw [this]

end HorseshoeSolver

namespace RingSolver

/-- The same solver with other panels. -/
def withHeap (P : PanelHeap) (s : RingSolver) : RingSolver := { s with heap := P }

theorem trailingSlot_up {v w : HorseshoeVortex} (h : v.updateStrength 0 = w.updateStrength 0) :
    trailingSlot v = trailingSlot w := by
  change trailingSlot (v.updateStrength 0) = trailingSlot (w.updateStrength 0)
  rw [h]

theorem collapseTrailing_with {P : PanelHeap} {s : RingSolver} (h : ∀ r, (s.heap r).Up (P r)) (g : ℕ) (r : PanelRef) :
    collapseTrailing (s.withHeap P) g r = collapseTrailing s g r := by
  unfold collapseTrailing
  change (if (geometryOf s.airplanes r).isTrailingEdge then (match (P r).horseshoe with | none => _ | some v => _)
    else _) = _
  rcases option_map_cases (h r).2.2 with ⟨h1, h2⟩ | ⟨v, w, h1, h2, e⟩
  · simp only [h1, h2]; rfl
  · simp only [h1, h2, trailingSlot_up e]; rfl

theorem collapsePanel_with {P : PanelHeap} {s : RingSolver} (h : ∀ r, (s.heap r).Up (P r)) (g : ℕ) (r : PanelRef) :
    collapsePanel (s.withHeap P, g) r = (collapsePanel (s, g) r).map fun t => (t.1.withHeap P, t.2) := by
  unfold collapsePanel
  change (match (P r).ring with | none => _ | some v => _) = _
  rcases option_map_cases (h r).2.1 with ⟨h1, h2⟩ | ⟨v, w, h1, h2, e⟩
  · simp only [h1, h2]; rfl
  · simp only [h1, h2, collapseTrailing_with h]
    change (writeAt s.slots g (ringSlot s.airplanes r w) >>= _) = _
    rw [← ringSlot_up e]
    cases writeAt s.slots g (ringSlot s.airplanes r v) with
    | error e => rfl
    | ok a =>
      change (collapseTrailing s g r >>= _) = Except.map _ (collapseTrailing s g r >>= _)
      cases collapseTrailing s g r with
      | error e => rfl
      | ok b => rfl

theorem collapsePanel_leaves {s t : RingSolver} {g g' : ℕ} {r : PanelRef}
    (h : collapsePanel (s, g) r = .ok (t, g')) :
    t.heap = s.heap ∧ g' = g + 1 ∧ g < s.slots.length ∧ ∃ v, t.slots = s.slots.set g (ringSlot s.airplanes r v) := by
  unfold collapsePanel at h
  cases hr : (s.heap r).ring with
  | none => simp only [hr] at h; cases h
  | some v =>
    simp only [hr] at h
    unfold writeAt at h
    split at h
    · rename_i hl
      obtain ⟨a, ha, h2⟩ := bind_ok.mp h
      cases ha
      obtain ⟨b, _, h3⟩ := bind_ok.mp h2
      cases h3
      exact ⟨rfl, rfl, hl, v, rfl⟩
    · cases h

theorem collapsePanels_with {P : PanelHeap} (L : List PanelRef) :
    ∀ (s : RingSolver) (g : ℕ), (∀ r, (s.heap r).Up (P r)) →
      L.foldlM collapsePanel (s.withHeap P, g)
        = (L.foldlM collapsePanel (s, g)).map fun t => (t.1.withHeap P, t.2) := by
  induction L with
  | nil => intro s g _; rfl
  | cons r L ih =>
    intro s g h
    rw [List.foldlM_cons, List.foldlM_cons, collapsePanel_with h]
    cases hc : collapsePanel (s, g) r with
    | error e => rfl
    | ok t =>
      obtain ⟨t, g'⟩ := t
      obtain ⟨e2, _⟩ := collapsePanel_leaves hc
      exact ih t g' (by rw [e2]; exact h)

theorem collapsePanels_slots (L : List PanelRef) :
    ∀ (s t : RingSolver) (g g' : ℕ), L.foldlM collapsePanel (s, g) = .ok (t, g') →
      t.heap = s.heap ∧ (t.slots.take (g + L.length)).map (·.panel) = (s.slots.take g).map (·.panel) ++ L := by
  induction L with
  | nil =>
    intro s t g g' h
    cases h
    simp
  | cons r L ih =>
    intro s t g g' h
    rw [List.foldlM_cons] at h
    obtain ⟨⟨u, g1⟩, h1, h2⟩ := bind_ok.mp h
    obtain ⟨e2, e3, e4, v, e5⟩ := collapsePanel_leaves h1
    subst e3
    obtain ⟨f2, f3⟩ := ih u t _ _ h2
    refine ⟨f2.trans e2, ?_⟩
    have : g + 1 + L.length = g + (r :: L).length := by simp; omega
    rw [← this, f3, e5, List.take_add_one]
    rw [List.take_set_of_le (le_refl g)]
    simp [e4, ringSlot]

theorem store_same (x : List ℝ) (L : List (RingSlot × ℕ)) :
    ∀ (a b : PanelHeap) (T : List TrailingSlot), (∀ r, (a r).Up (b r)) →
      (∀ r, r ∉ L.map (fun t => t.1.panel) → a r = b r) →
      L.foldl (storeStrength x) (a, T) = L.foldl (storeStrength x) (b, T) := by
  induction L with
  | nil =>
    intro a b T _ h
    have : a = b := funext fun r => h r (by simp)
    rw [this]
  | cons c L ih =>
    intro a b T h1 h2
    rw [List.foldl_cons, List.foldl_cons]
    have hc : (storeStrength x (a, T) c).1 c.1.panel = (storeStrength x (b, T) c).1 c.1.panel ∧
        (storeStrength x (a, T) c).2 = (storeStrength x (b, T) c).2 := by
      unfold storeStrength
      simp only [Function.update_self]
      obtain ⟨u1, u2, u3⟩ := h1 c.1.panel
      rcases option_map_cases u3 with ⟨h3, h4⟩ | ⟨v, w, h3, h4, e⟩
      · rcases option_map_cases u2 with ⟨h5, h6⟩ | ⟨v', w', h5, h6, e'⟩
        · simp only [h3, h4, h5, h6, u1, and_self]
        · simp only [h3, h4, h5, h6, u1, Option.map_some, RingVortex.up e', and_self]
      · rcases option_map_cases u2 with ⟨h5, h6⟩ | ⟨v', w', h5, h6, e'⟩
        · simp only [h3, h4, h5, h6, u1, Option.map_some, HorseshoeVortex.up e, Option.isSome_some, and_self]
        · simp only [h3, h4, h5, h6, u1, Option.map_some, HorseshoeVortex.up e, RingVortex.up e',
            Option.isSome_some, and_self]
    have ho : ∀ r ≠ c.1.panel, (storeStrength x (a, T) c).1 r = a r ∧ (storeStrength x (b, T) c).1 r = b r := by
      intro r hr
      unfold storeStrength
      simp only
      rw [Function.update_of_ne hr, Function.update_of_ne hr]
      exact ⟨rfl, rfl⟩
    have h3 := ih (storeStrength x (a, T) c).1 (storeStrength x (b, T) c).1 (storeStrength x (a, T) c).2 (by
        intro r
        by_cases hr : r = c.1.panel
        · subst hr; exact .of_eq hc.1
        · rw [(ho r hr).1, (ho r hr).2]; exact h1 r) (by
        intro r hr
        by_cases hrc : r = c.1.panel
        · subst hrc; exact hc.1
        · rw [(ho r hrc).1, (ho r hrc).2]
          exact h2 r (by simp only [List.map_cons, List.mem_cons, not_or]; exact ⟨hrc, hr⟩))
    rw [Prod.mk.eta] at h3
    rw [h3, hc.2]

theorem runUnset_eq (σ τ : PanelRef → ℝ) (s : RingSolver) : s.runUnset σ τ = s.run := by
  set b := s.initializePanelVortices with hb
  set P := (b.withUnset σ τ).heap with hP
  have hup : ∀ r, (b.heap r).Up (P r) := by
    intro r
    rw [hP]
    unfold withUnset
    simp only
    split_ifs
    · refine ⟨rfl, ?_, ?_⟩
      · rw [Option.map_map]; rfl
      · rw [Option.map_map]; rfl
    · refine ⟨rfl, ?_, rfl⟩
      rw [Option.map_map]; rfl
    · exact .of_eq rfl
  have hoff : ∀ r, r ∉ panelRefs b.airplanes → b.heap r = P r := by
    intro r hr
    rw [hP]
    unfold withUnset
    simp only
    rw [if_neg hr]
  unfold runUnset run
  rw [← hb]
  have e : b.withUnset σ τ = b.withHeap P := rfl
  rw [e]
  have hcol : (b.withHeap P).collapseGeometry = b.collapseGeometry.map fun t => t.withHeap P := by
    unfold collapseGeometry
    change ((panelRefs b.airplanes).foldlM collapsePanel (b.withHeap P, 0) >>= _) = _
    rw [collapsePanels_with _ b 0 hup]
    cases (panelRefs b.airplanes).foldlM collapsePanel (b, 0) with
    | error e => rfl
    | ok t => rfl
  rw [hcol]
  cases hc : b.collapseGeometry with
  | error e => rfl
  | ok u =>
    unfold collapseGeometry at hc
    obtain ⟨⟨u', g⟩, h1, h2⟩ := bind_ok.mp hc
    obtain rfl : u' = u := by cases h2; rfl
    obtain ⟨e2, e3⟩ := collapsePanels_slots _ b _ 0 g h1
    set m := u'.calculateWingWingInfluences.calculateFreestreamInfluences with hm
    change ((m.withHeap P).calculateVortexStrengths >>= _) = (m.calculateVortexStrengths >>= _)
    have : (m.withHeap P).calculateVortexStrengths = m.calculateVortexStrengths := by
      unfold calculateVortexStrengths
      change (linalgSolve m.influences (m.freestream.map fun x => -x) >>= _) = _
      cases linalgSolve m.influences (m.freestream.map fun x => -x) with
      | error e => rfl
      | ok x =>
        have hs : m.slots.zipIdx.foldl (storeStrength x) (P, m.trailing)
            = m.slots.zipIdx.foldl (storeStrength x) (m.heap, m.trailing) := by
          symm
          have : m.heap = b.heap := e2
          rw [this]
          apply store_same x _ _ _ _ hup
          intro r hr
          apply hoff r
          intro hr'
          apply hr
          have h5 : (fun t : RingSlot × ℕ => t.1.panel) = (fun t : RingSlot => t.panel) ∘ Prod.fst := rfl
          rw [h5, ← List.map_map, List.zipIdx_map_fst]
          have h6 : r ∈ (u'.slots.take (0 + (panelRefs b.airplanes).length)).map (·.panel) := by
            rw [e3]; simpa using hr'
          rw [List.map_take] at h6
          exact List.mem_of_mem_take h6
        change Except.ok { m with
            strengths := x
            heap := (m.slots.zipIdx.foldl (storeStrength x) (P, m.trailing)).1
            trailing := (m.slots.zipIdx.foldl (storeStrength x) (P, m.trailing)).2 }
          = Except.ok { m with
            strengths := x
            heap := (m.slots.zipIdx.foldl (storeStrength x) (m.heap, m.trailing)).1
            trailing := (m.slots.zipIdx.foldl (storeStrength x) (m.heap, m.trailing)).2 }
        rw [hs]
    rw [this]

end RingSolver
end Ptera
