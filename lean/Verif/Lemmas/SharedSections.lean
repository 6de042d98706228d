import Verif.Spec.SharedSections

/-! Helper lemmas for C106. -/

namespace Ptera

noncomputable section

/-- A cross section with another direction. -/
def WingCrossSection.directedTo (s : WingCrossSection) (d : V3) : WingCrossSection := { s with wingUnitChordwise := d }

theorem WingCrossSection.sameGiven_iff (s t : WingCrossSection) : s.SameGiven t ↔ ∃ d, s = t.directedTo d := by
  obtain ⟨_, _, _, _, _, _, _, _, _, _, _⟩ := s
  obtain ⟨_, _, _, _, _, _, _, _, _, _, _⟩ := t
  simp [SameGiven, directedTo]

theorem SectionHeap.direct_apply (h : SectionHeap) (ids : List ℕ) (d : V3) (i : ℕ) :
    h.direct ids d i = if i ∈ ids then (h i).directedTo d else h i := by
  induction ids generalizing h with
  | nil => simp [direct]
  | cons j ids ih =>
    have : h.direct (j :: ids) d = SectionHeap.direct (Function.update h j ((h j).directedTo d)) ids d := rfl
    rw [this, ih]
    by_cases hj : i = j
    · subst hj
      by_cases hi : i ∈ ids <;> simp [hi, WingCrossSection.directedTo]
    · by_cases hi : i ∈ ids <;> simp [hi, hj]

/-- The heap with other directions. -/
def SectionHeap.Directed (h₀ h : SectionHeap) : Prop := ∃ d : ℕ → V3, h = fun i => (h₀ i).directedTo (d i)

theorem SectionHeap.Directed.refl (h : SectionHeap) : h.Directed h := ⟨fun i => (h i).wingUnitChordwise, rfl⟩

theorem SectionHeap.Directed.direct {h₀ h : SectionHeap} (ht : h₀.Directed h) (ids : List ℕ) (d : V3) :
    h₀.Directed (h.direct ids d) := by
  obtain ⟨e, rfl⟩ := ht
  refine ⟨fun i => if i ∈ ids then d else e i, ?_⟩
  funext i
  rw [SectionHeap.direct_apply]
  by_cases hi : i ∈ ids
  · simp [hi, WingCrossSection.directedTo]
  · simp [hi]

theorem wingChecks_directedTo (a : WingArgs) {h₀ h : SectionHeap} (ht : h₀.Directed h) (ids : List ℕ) :
    wingChecks a (ids.map h) = wingChecks a (ids.map h₀) := by
  obtain ⟨e, rfl⟩ := ht
  cases ids with
  | nil => rfl
  | cons i ids =>
    cases ids with
    | nil => rfl
    | cons j ids =>
      have hn : (((i :: j :: ids).map fun i => (h₀ i).directedTo (e i)).dropLast.map (·.numSpanwisePanels))
          = (((i :: j :: ids).map h₀).dropLast.map (·.numSpanwisePanels)) := by
        rw [← List.map_dropLast, ← List.map_dropLast, List.map_map, List.map_map]
        rfl
      have ha : ∀ f : WingCrossSection → Bool, (∀ s d, f (s.directedTo d) = f s) →
          ((i :: j :: ids).map fun i => (h₀ i).directedTo (e i)).any f = ((i :: j :: ids).map h₀).any f := by
        intro f hf
        rw [List.any_map, List.any_map]
        congr 1
        funext k
        exact hf _ _
      simp only [List.map_cons] at hn ha ⊢
      unfold wingChecks
      simp only [hn]
      rw [ha _ fun _ _ => rfl]
      rfl

/-- The data of the mesher. -/
def WingArgs.spec (a : WingArgs) : WingSpec :=
  { leadingEdge := a.leadingEdge, unitNormal := a.unitNormal, symmetric := a.symmetric
    unitChordwise := a.unitChordwise, numChordwisePanels := a.numChordwisePanels
    chordwiseSpacing := a.chordwiseSpacing }

theorem WingArgs.own_eq (a : WingArgs) (sections : List WingCrossSection) :
    a.own sections = (wingChecks a sections).bind fun n =>
      (meshWing a.spec (sections.map (·.directedTo a.unitChordwise)) n).map fun panels =>
        { sections := sections.map (·.directedTo a.unitChordwise), spec := a.spec, numSpanwisePanels := n
          numPanels := n * a.numChordwisePanels, panels } := by
  unfold WingArgs.own Wing.create wingChecks
  match sections with
  | [] => rfl
  | [_] => rfl
  | root :: second :: rest =>
    dsimp only
    split_ifs <;> rfl

theorem map_direct {h₀ h : SectionHeap} (ht : h₀.Directed h) (ids : List ℕ) (d : V3) :
    ids.map (h.direct ids d) = (ids.map h₀).map (·.directedTo d) := by
  obtain ⟨e, rfl⟩ := ht
  rw [List.map_map]
  refine List.map_congr_left fun i hi => ?_
  rw [SectionHeap.direct_apply, if_pos hi]
  rfl

theorem buildWing_heap (h : SectionHeap) (ids : List ℕ) (a : WingArgs) :
    (buildWing h ids a).1 = match wingChecks a (ids.map h) with
      | .error _ => h
      | .ok _ => h.direct ids a.unitChordwise := by
  unfold buildWing
  cases wingChecks a (ids.map h) <;> rfl

theorem SectionHeap.Directed.buildWing {h₀ h : SectionHeap} (ht : h₀.Directed h) (ids : List ℕ) (a : WingArgs) :
    h₀.Directed (buildWing h ids a).1 := by
  rw [buildWing_heap]
  cases wingChecks a (ids.map h) with
  | error _ => exact ht
  | ok _ => exact ht.direct _ _

theorem SectionHeap.Directed.buildWings {h₀ h : SectionHeap} (ht : h₀.Directed h) (l : List (List ℕ × WingArgs)) :
    h₀.Directed (buildWings h l).1 := by
  induction l generalizing h with
  | nil => exact ht
  | cons e l ih => exact ih (ht.buildWing e.1 e.2)

/-- A wing object's attributes and those of a wing with its own sections. -/
theorem buildWing_own {h₀ h h' : SectionHeap} (ht : h₀.Directed h) (ids : List ℕ) (a : WingArgs)
    (same : Wing → Wing → Prop)
    (hsame : ∀ w : WingObject, w.ids = ids →
      (∀ n, wingChecks a (ids.map h) = .ok n →
        same (w.seen h') { (w.seen h') with sections := (ids.map h₀).map (·.directedTo a.unitChordwise) })) :
    SameOutcome same ((buildWing h ids a).2.map (·.seen h')) (a.own (ids.map h₀)) := by
  rw [a.own_eq, ← wingChecks_directedTo a ht]
  unfold buildWing
  cases hc : wingChecks a (ids.map h) with
  | error e => exact rfl
  | ok n =>
    simp only [Except.bind]
    rw [map_direct ht, ← WingArgs.spec]
    cases meshWing a.spec ((ids.map h₀).map (·.directedTo a.unitChordwise)) n with
    | error e => exact rfl
    | ok P => exact hsame _ rfl n hc

theorem WingObject.sameWing {h₀ h' : SectionHeap} (ht : h₀.Directed h') (w : WingObject) (d : V3) :
    (w.seen h').SameWing { (w.seen h') with sections := (w.ids.map h₀).map (·.directedTo d) } := by
  obtain ⟨e, rfl⟩ := ht
  have hspan : (w.seen fun i => (h₀ i).directedTo (e i)).span
      = Wing.span { (w.seen fun i => (h₀ i).directedTo (e i)) with sections := (w.ids.map h₀).map (·.directedTo d) } := by
    unfold Wing.span WingObject.seen
    simp only [List.map_map, List.head?_map, List.getLast?_map, Option.map_map]
    rfl
  refine ⟨rfl, rfl, rfl, rfl, hspan, rfl, rfl, ?_, ?_, ?_⟩
  · unfold Wing.standardMeanChord
    rw [hspan]
    rfl
  · unfold Wing.meanAerodynamicChord WingObject.seen
    simp only [← List.map_tail, List.zip_map, List.map_map]
    rfl
  · simp only [WingObject.seen, List.map_map]
    generalize w.ids = ids
    induction ids with
    | nil => exact .nil
    | cons i ids ih => exact .cons rfl ih

theorem buildWings_get {h₀ h : SectionHeap} (ht : h₀.Directed h) (l : List (List ℕ × WingArgs)) (k : ℕ) (ids : List ℕ)
    (a : WingArgs) (hk : l[k]? = some (ids, a)) :
    ∃ h₁, h₀.Directed h₁ ∧ (buildWings h l).2[k]? = some (buildWing h₁ ids a).2 ∧
      (buildWings h l).1 = (buildWings (buildWing h₁ ids a).1 (l.drop (k + 1))).1 := by
  induction l generalizing h k with
  | nil => simp at hk
  | cons e l ih =>
    cases k with
    | zero =>
      simp only [List.getElem?_cons_zero, Option.some.injEq] at hk
      subst hk
      exact ⟨h, ht, rfl, rfl⟩
    | succ k => exact ih (ht.buildWing e.1 e.2) k hk

theorem direction_stays {h₀ h : SectionHeap} (ht : h₀.Directed h) (l : List (List ℕ × WingArgs)) (i : ℕ) (d : V3)
    (hi : (h i).wingUnitChordwise = d)
    (hl : ∀ e ∈ l, e.2.unitChordwise = d ∨ i ∉ e.1 ∨ ∀ n, wingChecks e.2 (e.1.map h₀) ≠ .ok n) :
    ((buildWings h l).1 i).wingUnitChordwise = d := by
  induction l generalizing h with
  | nil => exact hi
  | cons e l ih =>
    refine ih (ht.buildWing e.1 e.2) ?_ fun e' he' => hl e' (List.mem_cons_of_mem _ he')
    rw [buildWing_heap]
    cases hc : wingChecks e.2 (e.1.map h) with
    | error _ => exact hi
    | ok n =>
      simp only
      rw [SectionHeap.direct_apply]
      rcases hl e List.mem_cons_self with hd | hn | hf
      · by_cases hm : i ∈ e.1
        · rw [if_pos hm]
          exact hd
        · rw [if_neg hm]
          exact hi
      · rw [if_neg hn]
        exact hi
      · exact (hf n (by rw [← wingChecks_directedTo e.2 ht, hc])).elim

end

end Ptera
