import Verif.Spec.Split
import Verif.Lemmas.ScaledWing

/-!
# A further cross section between two others: lemmas
-/

namespace Ptera

open List

variable {s t : WingCrossSection} {k l : ℕ}

theorem linspace_getD (n j : ℕ) (hj : j < n) : (linspace 0 1 n).getD j 0 = (j : ℝ) / ((n : ℝ) - 1) := by
  unfold linspace
  simp [List.getD, hj, div_eq_mul_inv]

theorem spanwise_getD (hs : s.spanwiseSpacing = "uniform") {j : ℕ} (hj : j ≤ s.numSpanwisePanels) :
    s.spanwiseCoordinates.getD j 0 = (j : ℝ) / s.numSpanwisePanels := by
  unfold WingCrossSection.spanwiseCoordinates
  rw [if_pos hs, linspace_getD _ _ (by omega)]
  push_cast
  rw [add_sub_cancel_right]

theorem unitChordwise_of_same (h : SameProfile s t) (hu : t.wingUnitChordwise = s.wingUnitChordwise) :
    t.unitChordwise = s.unitChordwise := by
  unfold WingCrossSection.unitChordwise
  rw [h.twist, h.normal, hu]

/-- The points of the section in between. -/
theorem sectionMcl_between (h : SameProfile s t) (hu : t.wingUnitChordwise = s.wingUnitChordwise) (hkl : 0 < k + l)
    (q : V3) (c : List (ℝ × ℝ)) (i : ℕ) :
    (sectionMcl q (s.between t k l) c).getD i 0 =
      (l / (k + l) : ℝ) • (sectionMcl q s c).getD i 0 + (k / (k + l) : ℝ) • (sectionMcl q t c).getD i 0 := by
  have hne : (k : ℝ) + l ≠ 0 := by exact_mod_cast hkl.ne'
  have e1 : (s.between t k l).unitChordwise = s.unitChordwise := rfl
  have e2 : (s.between t k l).unitUp = s.unitUp := rfl
  have e3 : t.unitUp = s.unitUp := by
    unfold WingCrossSection.unitUp
    rw [unitChordwise_of_same h hu, h.normal]
  unfold sectionMcl
  rw [e1, e2, unitChordwise_of_same h hu, e3]
  simp only [List.getD_eq_getElem?_getD, List.getElem?_map]
  cases c[i]? with
  | none => simp
  | some p =>
    simp only [Option.map_some, Option.getD_some, WingCrossSection.between]
    have e : (l / (k + l) : ℝ) = 1 - k / (k + l) := by field_simp; ring
    rw [e]
    module

theorem sectionVertex_first (h : SameProfile s t) (hu : t.wingUnitChordwise = s.wingUnitChordwise)
    (hs : s.spanwiseSpacing = "uniform") (hn : s.numSpanwisePanels = k + l) (hk : 0 < k) (w : WingSpec) (a : Airfoil)
    (i j : ℕ) (hj : j ≤ k) :
    sectionVertex w (s.withPanels k) (s.between t k l) a a i j = sectionVertex w s t a a i j := by
  have hk' : (k : ℝ) ≠ 0 := by exact_mod_cast hk.ne'
  have hne : (k : ℝ) + l ≠ 0 := by positivity
  unfold sectionVertex
  rw [spanwise_getD hs (by omega), spanwise_getD (s := s.withPanels k) hs hj, sectionMcl_between h hu (by omega)]
  have e : (s.withPanels k).numSpanwisePanels = k := rfl
  have e1 : sectionMcl w.leadingEdge (s.withPanels k) = sectionMcl w.leadingEdge s := rfl
  have e2 : (l / (k + l) : ℝ) = 1 - k / (k + l) := by field_simp; ring
  have e3 : (j / (k + l) : ℝ) = j / k * (k / (k + l)) := by field_simp
  simp only [e, e1, hn]
  push_cast
  rw [e2, e3]
  module

theorem sectionVertex_second (h : SameProfile s t) (hu : t.wingUnitChordwise = s.wingUnitChordwise)
    (hs : s.spanwiseSpacing = "uniform") (hn : s.numSpanwisePanels = k + l) (hl : 0 < l) (w : WingSpec) (a : Airfoil)
    (i j : ℕ) (hj : j ≤ l) :
    sectionVertex w (s.between t k l) t a a i j = sectionVertex w s t a a i (k + j) := by
  have hl' : (l : ℝ) ≠ 0 := by exact_mod_cast hl.ne'
  have hne : (k : ℝ) + l ≠ 0 := by positivity
  unfold sectionVertex
  rw [spanwise_getD hs (by omega), spanwise_getD (s := s.between t k l) hs hj, sectionMcl_between h hu (by omega)]
  have e : (s.between t k l).numSpanwisePanels = l := rfl
  have e2 : (l / (k + l) : ℝ) = 1 - k / (k + l) := by field_simp; ring
  have e3 : ((k + j) / (k + l) : ℝ) = k / (k + l) + j / l * (l / (k + l)) := by field_simp
  simp only [e, hn]
  push_cast
  rw [e3, e2]
  module

theorem grid_hstack {α : Type*} (m k l : ℕ) (f g : ℕ → ℕ → α) (F : ℕ → ℕ → α) (h1 : ∀ i < m, ∀ j < k, f i j = F i j)
    (h2 : ∀ i < m, ∀ j < l, g i j = F i (k + j)) : hstack (grid m k f) (grid m l g) = grid m (k + l) F := by
  unfold hstack grid
  rw [List.zipWith_map, List.zipWith_self]
  apply List.map_congr_left
  intro i hi
  rw [List.mem_range] at hi
  rw [List.range_add, List.map_append, List.map_map]
  congr 1
  · exact List.map_congr_left fun j hj => h1 i hi j (List.mem_range.mp hj)
  · exact List.map_congr_left fun j hj => h2 i hi j (List.mem_range.mp hj)

theorem hstack_assoc {α : Type*} : ∀ a b c : List (List α), hstack (hstack a b) c = hstack a (hstack b c)
  | [], b, c => by simp [hstack]
  | a, [], c => by simp [hstack]
  | a, b, [] => by simp [hstack]
  | x :: a, y :: b, z :: c => by
    have := hstack_assoc a b c
    simp only [hstack, List.zipWith_cons_cons, List.append_assoc] at this ⊢
    rw [this]

theorem hstack_reverse {α : Type*} (a b : List (List α)) :
    (hstack a b).map List.reverse = hstack (b.map List.reverse) (a.map List.reverse) := by
  unfold hstack
  rw [List.map_zipWith, List.zipWith_map, List.zipWith_comm]
  simp

/-- What splitting needs. -/
structure Splits (s t : WingCrossSection) (k l : ℕ) : Prop where
  same : SameProfile s t
  chordwise : t.wingUnitChordwise = s.wingUnitChordwise
  uniform : s.spanwiseSpacing = "uniform"
  panels : s.numSpanwisePanels = k + l
  first : 0 < k
  second : 0 < l

namespace Splits

theorem right (h : Splits s t k l) (w : WingSpec) :
    (∀ e, rightSection w s t = .error e → rightSection w (s.withPanels k) (s.between t k l) = .error e) ∧
    ∀ g, rightSection w s t = .ok g → ∃ g₁ g₂, rightSection w (s.withPanels k) (s.between t k l) = .ok g₁ ∧
      rightSection w (s.between t k l) t = .ok g₂ ∧ g = hstack g₁ g₂ := by
  have e1 : (s.withPanels k).airfoil = s.airfoil := rfl
  have e2 : (s.between t k l).airfoil = s.airfoil := rfl
  have e3 : (s.withPanels k).deflection = s.deflection := rfl
  have e4 : (s.between t k l).deflection = s.deflection := rfl
  have e5 : (s.withPanels k).hinge = s.hinge := rfl
  have e6 : (s.between t k l).hinge = s.hinge := rfl
  cases ha : s.airfoil.addControlSurface s.deflection s.hinge with
  | error e =>
    unfold rightSection
    rw [e1, e2, e3, e5, h.same.airfoil, ha]
    simp only [bind, Except.bind]
    exact ⟨fun _ h => h, fun _ h => by simp at h⟩
  | ok a =>
    by_cases hm : w.numChordwisePanels = 0
    · unfold rightSection
      rw [e1, e2, e3, e5, h.same.airfoil, ha]
      simp only [bind, Except.bind, if_pos hm]
      exact ⟨fun _ h => h, fun _ h => by simp at h⟩
    · have hm' : 0 < w.numChordwisePanels := by omega
      obtain ⟨g₀, h0⟩ := rightSection_exists w s t hm' a a ha (by rw [h.same.airfoil]; exact ha)
      obtain ⟨g₁, h1⟩ := rightSection_exists w (s.withPanels k) (s.between t k l) hm' a a ha ha
      obtain ⟨g₂, h2⟩ := rightSection_exists w (s.between t k l) t hm' a a ha (by rw [h.same.airfoil]; exact ha)
      refine ⟨fun e he => (by rw [h0] at he; cases he), fun g hg => ⟨g₁, g₂, h1, h2, ?_⟩⟩
      rw [h0, Except.ok.injEq] at hg
      subst hg
      obtain ⟨a0, b0, p0, q0, -, r0⟩ := rightSection_ok _ _ _ _ h0
      obtain ⟨a1, b1, p1, q1, -, r1⟩ := rightSection_ok _ _ _ _ h1
      obtain ⟨a2, b2, p2, q2, -, r2⟩ := rightSection_ok _ _ _ _ h2
      rw [e1, e3, e5, ha, Except.ok.injEq] at p1
      rw [e2, e3, e5, ha, Except.ok.injEq] at q1
      rw [e2, e4, e6, ha, Except.ok.injEq] at p2
      rw [h.same.airfoil, e4, e6, ha, Except.ok.injEq] at q2
      rw [ha, Except.ok.injEq] at p0
      rw [h.same.airfoil, ha, Except.ok.injEq] at q0
      subst p0 p1 p2 q0 q1 q2
      rw [r0, r1, r2, h.panels]
      symm
      apply grid_hstack
      · intro i _ j hj
        simp only [rightPanel]
        rw [sectionVertex_first h.same h.chordwise h.uniform h.panels h.first _ _ _ _ hj.le,
          sectionVertex_first h.same h.chordwise h.uniform h.panels h.first _ _ _ _ hj.le,
          sectionVertex_first h.same h.chordwise h.uniform h.panels h.first _ _ _ _ hj,
          sectionVertex_first h.same h.chordwise h.uniform h.panels h.first _ _ _ _ hj]
      · intro i _ j hj
        simp only [rightPanel]
        have hj1 : j + 1 ≤ l := hj
        rw [sectionVertex_second h.same h.chordwise h.uniform h.panels h.second _ _ _ _ hj.le,
          sectionVertex_second h.same h.chordwise h.uniform h.panels h.second _ _ _ _ hj.le,
          sectionVertex_second h.same h.chordwise h.uniform h.panels h.second _ _ _ _ hj1,
          sectionVertex_second h.same h.chordwise h.uniform h.panels h.second _ _ _ _ hj1]
        rfl

theorem left (h : Splits s t k l) (w : WingSpec) (hm : 0 < w.numChordwisePanels) :
    (∀ e, leftSection w s t = .error e → leftSection w (s.withPanels k) (s.between t k l) = .error e) ∧
    ∀ g, leftSection w s t = .ok g → ∃ g₁ g₂, leftSection w (s.withPanels k) (s.between t k l) = .ok g₁ ∧
      leftSection w (s.between t k l) t = .ok g₂ ∧ g = hstack g₁ g₂ := by
  have e1 : (s.withPanels k).airfoil = s.airfoil := rfl
  have e2 : (s.between t k l).airfoil = s.airfoil := rfl
  have e3 : mirroredDeflection (s.withPanels k) = mirroredDeflection s := rfl
  have e4 : mirroredDeflection (s.between t k l) = mirroredDeflection s := rfl
  have e5 : (s.withPanels k).hinge = s.hinge := rfl
  have e6 : (s.between t k l).hinge = s.hinge := rfl
  have n0 : 0 < s.numSpanwisePanels := by rw [h.panels]; have := h.first; omega
  cases ha : s.airfoil.addControlSurface (mirroredDeflection s) s.hinge with
  | error e =>
    have e7 : (s.withPanels k).controlSurfaceType = s.controlSurfaceType := rfl
    have e8 : (s.withPanels k).deflection = s.deflection := rfl
    unfold leftSection
    unfold mirroredDeflection at ha
    simp only [e1, e2, e5, e7, e8, h.same.airfoil, ha, bind, Except.bind]
    exact ⟨fun _ h => h, fun _ h => by simp at h⟩
  | ok a =>
    obtain ⟨g₀, h0⟩ := leftSection_exists w s t n0 a a ha (by rw [h.same.airfoil]; exact ha)
    obtain ⟨g₁, h1⟩ := leftSection_exists w (s.withPanels k) (s.between t k l) h.first a a ha ha
    obtain ⟨g₂, h2⟩ := leftSection_exists w (s.between t k l) t h.second a a ha (by rw [h.same.airfoil]; exact ha)
    refine ⟨fun e he => (by rw [h0] at he; cases he), fun g hg => ⟨g₁, g₂, h1, h2, ?_⟩⟩
    rw [h0, Except.ok.injEq] at hg
    subst hg
    obtain ⟨a0, b0, p0, q0, r0, -⟩ := leftSection_ok _ _ _ _ hm h0
    obtain ⟨a1, b1, p1, q1, r1, -⟩ := leftSection_ok _ _ _ _ hm h1
    obtain ⟨a2, b2, p2, q2, r2, -⟩ := leftSection_ok _ _ _ _ hm h2
    change (s.withPanels k).airfoil.addControlSurface (mirroredDeflection (s.withPanels k)) (s.withPanels k).hinge = _ at p1
    change (s.between t k l).airfoil.addControlSurface (mirroredDeflection (s.withPanels k)) (s.withPanels k).hinge = _ at q1
    change (s.between t k l).airfoil.addControlSurface (mirroredDeflection (s.between t k l)) (s.between t k l).hinge = _ at p2
    change t.airfoil.addControlSurface (mirroredDeflection (s.between t k l)) (s.between t k l).hinge = _ at q2
    change s.airfoil.addControlSurface (mirroredDeflection s) s.hinge = _ at p0
    change t.airfoil.addControlSurface (mirroredDeflection s) s.hinge = _ at q0
    rw [e1, e3, e5, ha, Except.ok.injEq] at p1
    rw [e2, e3, e5, ha, Except.ok.injEq] at q1
    rw [e2, e4, e6, ha, Except.ok.injEq] at p2
    rw [h.same.airfoil, e4, e6, ha, Except.ok.injEq] at q2
    rw [ha, Except.ok.injEq] at p0
    rw [h.same.airfoil, ha, Except.ok.injEq] at q0
    subst p0 p1 p2 q0 q1 q2
    rw [r0, r1, r2, h.panels]
    symm
    apply grid_hstack
    · intro i _ j hj
      simp only [leftPanel]
      rw [sectionVertex_first h.same h.chordwise h.uniform h.panels h.first _ _ _ _ hj.le,
        sectionVertex_first h.same h.chordwise h.uniform h.panels h.first _ _ _ _ hj.le,
        sectionVertex_first h.same h.chordwise h.uniform h.panels h.first _ _ _ _ hj,
        sectionVertex_first h.same h.chordwise h.uniform h.panels h.first _ _ _ _ hj]
    · intro i _ j hj
      simp only [leftPanel]
      have hj1 : j + 1 ≤ l := hj
      rw [sectionVertex_second h.same h.chordwise h.uniform h.panels h.second _ _ _ _ hj.le,
        sectionVertex_second h.same h.chordwise h.uniform h.panels h.second _ _ _ _ hj.le,
        sectionVertex_second h.same h.chordwise h.uniform h.panels h.second _ _ _ _ hj1,
        sectionVertex_second h.same h.chordwise h.uniform h.panels h.second _ _ _ _ hj1]
      rfl

theorem step (h : Splits s t k l) (w : WingSpec) (P : List (List Panel)) :
    (do let Q ← meshStep w P (s.withPanels k, s.between t k l); meshStep w Q (s.between t k l, t))
      = meshStep w P (s, t) := by
  obtain ⟨r1, r2⟩ := h.right w
  unfold meshStep
  cases hr : rightSection w s t with
  | error e => simp only [r1 e hr, bind, Except.bind]
  | ok g =>
    obtain ⟨g₁, g₂, q1, q2, rfl⟩ := r2 g hr
    obtain ⟨-, -, -, -, hm, -⟩ := rightSection_ok _ _ _ _ hr
    obtain ⟨l1, l2⟩ := h.left w hm
    simp only [q1, q2]
    cases w.symmetric
    · simp only [bind, Except.bind, pure, Except.pure, Bool.false_eq_true, if_false, hstack_assoc]
    · simp only [if_true]
      cases hl : leftSection w s t with
      | error e => simp only [l1 e hl, bind, Except.bind]
      | ok f =>
        obtain ⟨f₁, f₂, p1, p2, rfl⟩ := l2 f hl
        simp only [p1, p2, bind, Except.bind, pure, Except.pure, hstack_assoc, hstack_reverse]

theorem fold (h : Splits s t k l) (w : WingSpec) (after : List WingCrossSection) :
    ∀ (before : List WingCrossSection) (P : List (List Panel)),
      (zip (before ++ s.withPanels k :: s.between t k l :: t :: after)
        (before ++ s.withPanels k :: s.between t k l :: t :: after).tail).foldlM (meshStep w) P =
      (zip (before ++ s :: t :: after) (before ++ s :: t :: after).tail).foldlM (meshStep w) P
  | [], P => by
    simp only [List.nil_append, List.tail_cons, List.zip_cons_cons, List.foldlM_cons]
    rw [← h.step w P, bind_assoc]
  | [b], P => by
    have ih := fold h w after []
    simp only [List.nil_append, List.tail_cons] at ih
    simp only [List.cons_append, List.nil_append, List.tail_cons, List.zip_cons_cons (a := b), List.foldlM_cons]
    have e : meshStep w P (b, s.withPanels k) = meshStep w P (b, s) := rfl
    rw [e]
    congr 1
    funext Q
    exact ih Q
  | b :: c :: before, P => by
    have ih := fold h w after (c :: before)
    simp only [List.cons_append, List.tail_cons] at ih
    simp only [List.cons_append, List.tail_cons, List.zip_cons_cons (a := b), List.foldlM_cons]
    congr 1
    funext Q
    exact ih Q

theorem mesh (h : Splits s t k l) (w : WingSpec) (before after : List WingCrossSection) (n : ℕ) :
    meshWing w (before ++ s.withPanels k :: s.between t k l :: t :: after) n
      = meshWing w (before ++ s :: t :: after) n := by
  unfold meshWing
  rw [h.fold w after before]

end Splits

theorem half_split (hn : s.numSpanwisePanels = k + l) (before after : List WingCrossSection) :
    ((before ++ s.withPanels k :: s.between t k l :: t :: after).dropLast.map (·.numSpanwisePanels)).sum
      = ((before ++ s :: t :: after).dropLast.map (·.numSpanwisePanels)).sum := by
  rw [List.dropLast_append_of_ne_nil (by simp), List.dropLast_append_of_ne_nil (by simp), List.dropLast_cons_cons,
    List.dropLast_cons_cons, List.dropLast_cons_cons]
  simp only [List.map_append, List.map_cons, List.sum_append, List.sum_cons, hn]
  simp only [WingCrossSection.withPanels, WingCrossSection.between]
  omega

open Classical in
/-- Building the wing with the further cross section succeeds or fails as without it. -/
theorem Wing.create_split (h : SameProfile s t) (hs : s.spanwiseSpacing = "uniform")
    (hn : s.numSpanwisePanels = k + l) (hk : 0 < k) (hl : 0 < l) (before after : List WingCrossSection) (le n : V3)
    (sym : Bool) (u : V3) (m : ℕ) (sp : String) :
    Wing.create (before ++ s.withPanels k :: s.between t k l :: t :: after) le n sym u m sp =
      (Wing.create (before ++ s :: t :: after) le n sym u m sp).map fun w =>
        { w with sections := (before ++ s.withPanels k :: s.between t k l :: t :: after).map fun s =>
            { s with wingUnitChordwise := u } } := by
  obtain ⟨root, second, rest, hS, root', second', rest', hS', hr1, hr2⟩ : ∃ root second rest,
      before ++ s :: t :: after = root :: second :: rest ∧ ∃ root' second' rest',
      before ++ s.withPanels k :: s.between t k l :: t :: after = root' :: second' :: rest' ∧
      root'.unitNormal = root.unitNormal ∧ root'.leadingEdge = root.leadingEdge := by
    cases before with
    | nil => exact ⟨_, _, _, rfl, _, _, _, rfl, rfl, rfl⟩
    | cons b before =>
      cases before with
      | nil => exact ⟨_, _, _, rfl, _, _, _, rfl, rfl, rfl⟩
      | cons c before => exact ⟨_, _, _, rfl, _, _, _, rfl, rfl, rfl⟩
  rw [Wing.create_two _ _ _ _ hS, Wing.create_two _ _ _ _ hS', hr1, hr2, half_split hn]
  have hany : ((before ++ s.withPanels k :: s.between t k l :: t :: after).any fun s =>
      decide ((n.cross s.unitNormal).cross u ≠ 0)) =
      ((before ++ s :: t :: after).any fun s => decide ((n.cross s.unitNormal).cross u ≠ 0)) := by
    have e1 : (s.withPanels k).unitNormal = s.unitNormal := rfl
    have e2 : (s.between t k l).unitNormal = s.unitNormal := rfl
    simp only [List.any_append, List.any_cons, e1, e2]
    cases decide ((n.cross s.unitNormal).cross u ≠ 0) <;> simp
  have hsp : Splits { s with wingUnitChordwise := u } { t with wingUnitChordwise := u } k l :=
    ⟨⟨h.airfoil, h.twist, h.normal⟩, rfl, hs, hn, hk, hl⟩
  generalize hN : ((before ++ s :: t :: after).dropLast.map (·.numSpanwisePanels)).sum = half
  have hmesh := hsp.mesh ⟨le, n, sym, u, m, sp⟩ (before.map fun s => { s with wingUnitChordwise := u })
    (after.map fun s => { s with wingUnitChordwise := u }) (if sym then half * 2 else half)
  have e1 : (before ++ s.withPanels k :: s.between t k l :: t :: after).map (fun s => { s with wingUnitChordwise := u })
      = before.map (fun s => { s with wingUnitChordwise := u }) ++
        (WingCrossSection.withPanels { s with wingUnitChordwise := u } k) ::
        (WingCrossSection.between { s with wingUnitChordwise := u } { t with wingUnitChordwise := u } k l) ::
        { t with wingUnitChordwise := u } :: after.map (fun s => { s with wingUnitChordwise := u }) := by
    simp only [List.map_append, List.map_cons]
    rfl
  have e2 : (before ++ s :: t :: after).map (fun s => { s with wingUnitChordwise := u })
      = before.map (fun s => { s with wingUnitChordwise := u }) ++ { s with wingUnitChordwise := u } ::
        { t with wingUnitChordwise := u } :: after.map (fun s => { s with wingUnitChordwise := u }) := by
    simp only [List.map_append, List.map_cons]
  rw [← e1, ← e2] at hmesh
  simp only [hany, hmesh]
  split_ifs
  all_goals first
    | rfl
    | (cases meshWing ⟨le, n, sym, u, m, sp⟩ _ _ <;> rfl)

theorem macTerm_split {s t : WingCrossSection} {k l : ℕ} (hk : 0 < k) (hl : 0 < l) (n : V3) :
    Wing.macTerm n (s.withPanels k, s.between t k l) + Wing.macTerm n (s.between t k l, t) = Wing.macTerm n (s, t) := by
  have hk' : (0 : ℝ) < k := by exact_mod_cast hk
  have hl' : (0 : ℝ) < l := by exact_mod_cast hl
  have e : (l / (k + l) : ℝ) = 1 - k / (k + l) := by field_simp; ring
  have h1 : (s.between t k l).leadingEdge - (s.withPanels k).leadingEdge
      = (k / (k + l) : ℝ) • (t.leadingEdge - s.leadingEdge) := by
    simp only [WingCrossSection.between, WingCrossSection.withPanels]
    rw [e]
    module
  have h2 : t.leadingEdge - (s.between t k l).leadingEdge = (l / (k + l) : ℝ) • (t.leadingEdge - s.leadingEdge) := by
    simp only [WingCrossSection.between]
    rw [e]
    module
  unfold Wing.macTerm
  simp only [h1, h2]
  rw [projectedSpan_scaled (by positivity), projectedSpan_scaled (by positivity)]
  simp only [WingCrossSection.between, WingCrossSection.withPanels]
  rw [e]
  ring

theorem mac_split {s t : WingCrossSection} {k l : ℕ} (hk : 0 < k) (hl : 0 < l) (n : V3)
    (after : List WingCrossSection) : ∀ before : List WingCrossSection,
    ((zip (before ++ s.withPanels k :: s.between t k l :: t :: after)
      (before ++ s.withPanels k :: s.between t k l :: t :: after).tail).map (Wing.macTerm n)).sum =
    ((zip (before ++ s :: t :: after) (before ++ s :: t :: after).tail).map (Wing.macTerm n)).sum
  | [] => by
    simp only [List.nil_append, List.tail_cons, List.zip_cons_cons, List.map_cons, List.sum_cons]
    rw [← macTerm_split hk hl n (s := s) (t := t)]
    ring
  | [b] => by
    have ih := mac_split hk hl n after [] (s := s) (t := t)
    simp only [List.nil_append, List.tail_cons] at ih
    simp only [List.cons_append, List.nil_append, List.tail_cons, List.zip_cons_cons (a := b), List.map_cons,
      List.sum_cons]
    rw [ih]
    rfl
  | b :: c :: before => by
    have ih := mac_split hk hl n after (c :: before) (s := s) (t := t)
    simp only [List.cons_append, List.tail_cons] at ih
    simp only [List.cons_append, List.tail_cons, List.zip_cons_cons (a := b), List.map_cons, List.sum_cons]
    rw [ih]

end Ptera
