import Verif.Spec.AbortedSteady
import Verif.Lemmas.FreshRing

/-! # What the methods called by the steady solvers' `run` keep (C88) -/

namespace Ptera

theorem performSteady_cons {σ : Type} (op : σ → Except Err σ) (ops : List (σ → Except Err σ)) (s : σ) :
    performSteady (op :: ops) s = (op s).bind (performSteady ops) := rfl

theorem performSteady_keeps {σ : Type} (P : σ → Prop) : ∀ (ops : List (σ → Except Err σ)) (s s' : σ),
    (∀ op ∈ ops, ∀ t t', P t → op t = .ok t' → P t') → P s → performSteady ops s = .ok s' → P s'
  | [], s, s', _, hs, h => by cases h; exact hs
  | op :: ops, s, s', hk, hs, h => by
    rw [performSteady_cons] at h
    cases ho : op s with
    | error e => rw [ho] at h; cases h
    | ok t =>
      rw [ho] at h
      exact performSteady_keeps P ops t s' (fun o hm => hk o (by simp [hm])) (hk op (by simp) s t hs ho) h

theorem performSteady_append {σ : Type} : ∀ (ops ops' : List (σ → Except Err σ)) (s s' : σ),
    performSteady (ops ++ ops') s = .ok s' → ∃ t, performSteady ops s = .ok t ∧ performSteady ops' t = .ok s'
  | [], _, s, _, h => ⟨s, rfl, h⟩
  | op :: ops, ops', s, s', h => by
    rw [List.cons_append, performSteady_cons] at h
    cases ho : op s with
    | error e => rw [ho] at h; cases h
    | ok t =>
      rw [ho] at h
      obtain ⟨u, h1, h2⟩ := performSteady_append ops ops' t s' h
      exact ⟨u, by rw [performSteady_cons, ho]; exact h1, h2⟩

theorem writeAt_length {α : Type} {l l' : List α} {i : ℕ} {x : α} (h : writeAt l i x = .ok l') :
    l'.length = l.length := by
  unfold writeAt at h
  split at h
  · cases h; simp
  · cases h

namespace HorseshoeSolver

/-- What all solvers of a problem have in common. -/
structure Of (problem : SteadyProblem) (s : HorseshoeSolver) : Prop where
  airplanes : s.airplanes = problem.airplanes
  operatingPoint : s.operatingPoint = problem.operatingPoint
  freestream : s.freestreamVelocity = problem.operatingPoint.freestreamVelocity
  slots : s.slots.length = totalPanels problem.airplanes

theorem collapsePanels_of {problem : SteadyProblem} : ∀ (refs : List PanelRef) (s : HorseshoeSolver) (i : ℕ)
    (r : HorseshoeSolver × ℕ), Of problem s → refs.foldlM collapsePanel (s, i) = .ok r → Of problem r.1
  | [], s, i, r, hs, h => by cases h; exact hs
  | ref :: refs, s, i, r, hs, h => by
    rw [List.foldlM_cons] at h
    obtain ⟨t, h1, h2⟩ := bind_ok.mp h
    refine collapsePanels_of refs t.1 t.2 r ?_ h2
    unfold collapsePanel at h1
    dsimp only at h1
    split at h1
    · cases h1
    · obtain ⟨slots, h3, h4⟩ := bind_ok.mp h1
      cases h4
      exact ⟨hs.airplanes, hs.operatingPoint, hs.freestream, by rw [← hs.slots]; exact writeAt_length h3⟩

theorem operation_of {problem : SteadyProblem} {op : HorseshoeSolver → Except Err HorseshoeSolver}
    (hop : op ∈ runOperations) (s s' : HorseshoeSolver) (hs : Of problem s) (h : op s = .ok s') : Of problem s' := by
  unfold runOperations at hop
  simp only [List.mem_cons, List.not_mem_nil, or_false] at hop
  rcases hop with rfl | rfl | rfl | rfl | rfl | rfl | rfl
  · cases h; exact ⟨hs.airplanes, hs.operatingPoint, hs.freestream, hs.slots⟩
  · unfold collapseGeometry at h
    obtain ⟨t, h1, h2⟩ := bind_ok.mp h
    cases h2
    exact collapsePanels_of _ _ _ _ hs h1
  · cases h; exact ⟨hs.airplanes, hs.operatingPoint, hs.freestream, hs.slots⟩
  · cases h; exact ⟨hs.airplanes, hs.operatingPoint, hs.freestream, hs.slots⟩
  · unfold calculateVortexStrengths at h
    obtain ⟨x, h1, h2⟩ := bind_ok.mp h
    cases h2
    exact ⟨hs.airplanes, hs.operatingPoint, hs.freestream, hs.slots⟩
  · cases h; exact ⟨hs.airplanes, hs.operatingPoint, hs.freestream, hs.slots⟩
  · cases h; exact ⟨hs.airplanes, hs.operatingPoint, hs.freestream, hs.slots⟩

theorem Reached.of {problem : SteadyProblem} {s : HorseshoeSolver} (h : Reached problem s) : Of problem s := by
  induction h with
  | new heap loads => exact ⟨rfl, rfl, rfl, by simp [create]⟩
  | stopped _ hops hp ih =>
    exact performSteady_keeps (Of problem) _ _ _
      (fun op hop t t' ht he => operation_of (hops.subset hop) t t' ht he) ih hp
  | used heap loads _ ih => exact ⟨ih.airplanes, ih.operatingPoint, ih.freestream, ih.slots⟩

theorem run_operations (s : HorseshoeSolver) : s.run = performSteady runOperations s := by
  unfold run runOperations
  simp only [performSteady_cons, Except.bind]
  cases s.initializePanelVortices.collapseGeometry with
  | error e => rfl
  | ok t =>
    simp only [bind, Except.bind]
    cases t.calculateWingWingInfluences.calculateFreestreamInfluences.calculateVortexStrengths with
    | error e => rfl
    | ok u => rfl

/-- A run of any solver of the problem is the run of a new one, up to the seed points collected before. -/
theorem Of.run_eq {problem : SteadyProblem} {a : HorseshoeSolver} (h : Of problem a)
    (hc : Counted problem.airplanes) :
    a.run = (create problem a.heap a.loads).run.map fun s =>
      ({ s with seedPoints := a.seedPoints ++ s.seedPoints } : HorseshoeSolver).calculateStreamlines := by
  obtain ⟨as, op, fv, slots, seeds, infl, fs, str, lines, heap, loads⟩ := a
  obtain ⟨h1, h2, h3, h4⟩ := h
  dsimp only at h1 h2 h3 h4
  subst h1 h2 h3
  rw [HorseshoeSolver.run_eq _ hc h4, HorseshoeSolver.run_eq (create problem heap loads) hc (by simp [create])]
  have hI : (create problem heap loads).finalInfluences = HorseshoeSolver.finalInfluences
      ⟨problem.airplanes, problem.operatingPoint, problem.operatingPoint.freestreamVelocity, slots, seeds, infl, fs, str,
        lines, heap, loads⟩ := rfl
  have hF : (create problem heap loads).finalFreestream = HorseshoeSolver.finalFreestream
      ⟨problem.airplanes, problem.operatingPoint, problem.operatingPoint.freestreamVelocity, slots, seeds, infl, fs, str,
        lines, heap, loads⟩ := rfl
  rw [hI, hF]
  cases linalgSolve _ _ with
  | error e => rfl
  | ok x => rfl

end HorseshoeSolver

namespace RingSolver

/-- What all solvers of a problem that have not solved yet have in common. -/
structure Of (problem : SteadyProblem) (s : RingSolver) : Prop where
  airplanes : s.airplanes = problem.airplanes
  operatingPoint : s.operatingPoint = problem.operatingPoint
  freestream : s.freestreamVelocity = problem.operatingPoint.freestreamVelocity
  slots : s.slots.length = totalPanels problem.airplanes
  strengths : s.strengths = List.replicate (totalPanels problem.airplanes) 1
  trailing : s.trailing.length = totalPanels problem.airplanes
  empty : ∀ (i : ℕ) (r : PanelRef), (panelRefs problem.airplanes)[i]? = some r →
    (geometryOf problem.airplanes r).isTrailingEdge = false → s.trailing[i]? = some {}

theorem Of.collapse {problem : SteadyProblem} {s s' : RingSolver} (hs : Of problem s)
    (h : s.collapseGeometry = .ok s') : Of problem s' := by
  have key : ∀ (refs pre : List PanelRef) (t : RingSolver) (r : RingSolver × ℕ),
      pre ++ refs = panelRefs problem.airplanes → Of problem t →
      refs.foldlM collapsePanel (t, pre.length) = .ok r → Of problem r.1 := by
    intro refs
    induction refs with
    | nil => intro pre t r _ ht h; cases h; exact ht
    | cons ref refs ih =>
      intro pre t r hpre ht h
      rw [List.foldlM_cons] at h
      obtain ⟨u, h1, h2⟩ := bind_ok.mp h
      unfold collapsePanel at h1
      dsimp only at h1
      split at h1
      · cases h1
      · obtain ⟨slots, h3, h4⟩ := bind_ok.mp h1
        obtain ⟨trailing, h5, h6⟩ := bind_ok.mp h4
        cases h6
        have hlen : (pre ++ [ref]).length = pre.length + 1 := by simp
        refine ih (pre ++ [ref]) _ r (by rw [← hpre]; simp) ?_ (by rw [hlen]; exact h2)
        have hgeo : geometryOf t.airplanes ref = geometryOf problem.airplanes ref := by rw [ht.airplanes]
        unfold collapseTrailing at h5
        rw [hgeo] at h5
        have hslots := writeAt_length h3
        by_cases hte : (geometryOf problem.airplanes ref).isTrailingEdge
        · rw [if_pos hte] at h5
          split at h5
          · cases h5
          · refine ⟨ht.airplanes, ht.operatingPoint, ht.freestream, by rw [← ht.slots]; exact hslots, ht.strengths,
              by rw [← ht.trailing]; exact writeAt_length h5, ?_⟩
            intro i r' hi hr'
            have hne : pre.length ≠ i := by
              rintro rfl
              rw [← hpre] at hi
              simp at hi
              subst hi
              rw [hte] at hr'
              cases hr'
            unfold writeAt at h5
            split at h5
            · cases h5
              show (t.trailing.set pre.length _)[i]? = some {}
              rw [List.getElem?_set_ne hne]
              exact ht.empty i r' hi hr'
            · cases h5
        · rw [if_neg hte] at h5
          cases h5
          exact ⟨ht.airplanes, ht.operatingPoint, ht.freestream, by rw [← ht.slots]; exact hslots, ht.strengths,
            ht.trailing, ht.empty⟩
  unfold collapseGeometry at h
  obtain ⟨t, h1, h2⟩ := bind_ok.mp h
  cases h2
  exact key _ [] s t (by rw [hs.airplanes]; rfl) hs h1

theorem preparation_of {problem : SteadyProblem} {op : RingSolver → Except Err RingSolver}
    (hop : op ∈ preparations) (s s' : RingSolver) (hs : Of problem s) (h : op s = .ok s') : Of problem s' := by
  unfold preparations at hop
  simp only [List.mem_cons, List.not_mem_nil, or_false] at hop
  rcases hop with rfl | rfl | rfl | rfl
  · cases h; exact ⟨hs.airplanes, hs.operatingPoint, hs.freestream, hs.slots, hs.strengths, hs.trailing, hs.empty⟩
  · exact hs.collapse h
  · cases h; exact ⟨hs.airplanes, hs.operatingPoint, hs.freestream, hs.slots, hs.strengths, hs.trailing, hs.empty⟩
  · cases h; exact ⟨hs.airplanes, hs.operatingPoint, hs.freestream, hs.slots, hs.strengths, hs.trailing, hs.empty⟩

theorem NotSolved.of {problem : SteadyProblem} (hc : Counted problem.airplanes) {s : RingSolver}
    (h : NotSolved problem s) : Of problem s := by
  induction h with
  | new heap loads =>
    refine ⟨rfl, rfl, rfl, by simp [create], rfl, by simp [create], ?_⟩
    intro i r hi _
    have : i < totalPanels problem.airplanes := by
      rw [← panelRefs_length _ hc]
      exact (List.getElem?_eq_some_iff.mp hi).1
    show (List.replicate (totalPanels problem.airplanes) ({} : TrailingSlot))[i]? = some {}
    rw [List.getElem?_replicate, if_pos this]
  | stopped _ hops hp ih =>
    exact performSteady_keeps (Of problem) _ _ _
      (fun op hop t t' ht he => preparation_of (hops.subset hop) t t' ht he) ih hp
  | used heap loads _ ih =>
    exact ⟨ih.airplanes, ih.operatingPoint, ih.freestream, ih.slots, ih.strengths, ih.trailing, ih.empty⟩

theorem run_operations (s : RingSolver) : s.run = performSteady runOperations s := by
  unfold run runOperations preparations
  simp only [List.cons_append, List.nil_append, performSteady_cons, Except.bind]
  cases s.initializePanelVortices.collapseGeometry with
  | error e => rfl
  | ok t =>
    simp only [bind, Except.bind]
    cases t.calculateWingWingInfluences.calculateFreestreamInfluences.calculateVortexStrengths with
    | error e => rfl
    | ok u => rfl

/-- The solver with its horseshoe arrays emptied. -/
noncomputable def emptied (s : RingSolver) : RingSolver :=
  { s with trailing := List.replicate (totalPanels s.airplanes) {} }

/-- Emptying the horseshoe arrays does not change a run. -/
theorem Of.run_emptied {problem : SteadyProblem} {a : RingSolver} (h : Of problem a)
    (hc : Counted problem.airplanes) : a.run = a.emptied.run := by
  have hT : a.emptied.unitTrailing = a.unitTrailing := by
    show trailingOf a.airplanes a.panelHorseshoe (panelRefs a.airplanes)
        (List.replicate (totalPanels a.airplanes) {})
      = trailingOf a.airplanes a.panelHorseshoe (panelRefs a.airplanes) a.trailing
    have hn : (panelRefs a.airplanes).length = totalPanels a.airplanes := by
      rw [h.airplanes]; exact panelRefs_length _ hc
    have hlt := h.trailing
    rw [← h.airplanes] at hlt
    unfold trailingOf
    apply List.ext_getElem?
    intro i
    simp only [List.getElem?_zipWith]
    cases hi : (panelRefs a.airplanes)[i]? with
    | none => rfl
    | some r =>
      have hi' : i < totalPanels a.airplanes := by
        rw [← hn]; exact (List.getElem?_eq_some_iff.mp hi).1
      rw [List.getElem?_replicate, if_pos hi']
      have ht : a.trailing[i]? = some (a.trailing[i]'(by rw [hlt]; exact hi')) :=
        List.getElem?_eq_getElem (by rw [hlt]; exact hi')
      by_cases hte : (geometryOf a.airplanes r).isTrailingEdge
      · rw [ht]
        simp only [hte, if_true]
      · rw [h.empty i r (by rw [← h.airplanes]; exact hi)
          (by rw [← h.airplanes]; exact Bool.not_eq_true _ ▸ hte)]
  have hc' : Counted a.airplanes := by rw [h.airplanes]; exact hc
  rw [RingSolver.run_eq a hc' (by rw [h.slots, h.airplanes]) (by rw [h.trailing, h.airplanes]),
    RingSolver.run_eq a.emptied hc' (by rw [show a.emptied.slots = a.slots from rfl, h.slots,
      show a.emptied.airplanes = a.airplanes from rfl, h.airplanes]) (by simp [emptied])]
  have hI : a.emptied.finalInfluences = a.finalInfluences := by
    unfold finalInfluences
    rw [hT]
    rfl
  have hF : a.emptied.finalFreestream = a.finalFreestream := rfl
  have hS : ∀ x, a.emptied.solved x = a.solved x := by
    intro x
    unfold solved
    rw [hT, hI, hF]
    rfl
  rw [hI, hF]
  simp only [hS]

/-- A solver of the problem that has not solved is like a new one. -/
theorem Of.alike {problem : SteadyProblem} {a : RingSolver} (h : Of problem a) (hc : Counted problem.airplanes)
    (heap : PanelHeap) (loads : List AirplaneLoads) : Alike (create problem heap loads) a.emptied where
  unsolved₁ := create_unsolved problem hc heap loads
  unsolved₂ := ⟨by rw [show a.emptied.airplanes = a.airplanes from rfl, h.airplanes]; exact hc,
    by rw [show a.emptied.airplanes = a.airplanes from rfl, h.airplanes]; exact h.slots, rfl,
    by rw [show a.emptied.airplanes = a.airplanes from rfl, h.airplanes]; exact h.strengths⟩
  airplanes := h.airplanes
  operatingPoint := h.operatingPoint
  freestream := h.freestream

end RingSolver
end Ptera
