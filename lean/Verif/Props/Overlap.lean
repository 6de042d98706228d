import Verif.Lemmas.Overlap
import Verif.Lemmas.Studies
import Verif.Lemmas.PlatePair
import Verif.Lemmas.PlateSymmetric
import Verif.Props.Watertight
import Verif.Props.Wake

/-!
# C89: wings in the same place
-/

namespace Ptera

open UnsteadySolver

/-- C89: if two wings of the airplanes given to a steady solver are in the same place, or if one that lies in its own
mirror was declared symmetric, both steady solvers raise NumPy's error for a singular matrix, whatever the operating
point and whatever was computed before. -/
theorem C89_steady (as : List Airplane) (hm : ∀ a ∈ as, a.Made) (h : WingTwice as ∨ WingInItsMirror as)
    (op : OperatingPoint) (heap : PanelHeap) (loads : List AirplaneLoads) :
    (HorseshoeSolver.create ⟨as, op⟩ heap loads).run = .error .linAlgError ∧
    (RingSolver.create ⟨as, op⟩ heap loads).run = .error .linAlgError := by
  rcases h with h | h
  · obtain ⟨r, r', ho⟩ := h.onTop
    exact ho.singular hm op heap loads
  · obtain ⟨r, r', ho⟩ := h.onTop hm
    exact ho.singular hm op heap loads

/-- C89: if that is so at one step of an unsteady problem, every run of it raises the same error, with a prescribed wake
or a free one and whatever was run or interrupted before. -/
theorem C89_unsteady {p : UnsteadyProblem} (hp : p.Made) {s : UnsteadySolver} (hs : Reached p s) {k : ℕ}
    (hk : k < p.numSteps) (h : WingTwice (p.airplanesAt k) ∨ WingInItsMirror (p.airplanesAt k)) (pres sl : Bool) :
    s.run pres sl = .error .linAlgError := by
  obtain ⟨e, he⟩ : ∃ e, s.run pres sl = .error e := by
    rcases h with h | h
    · obtain ⟨r, r', ho⟩ := h.onTop
      exact ho.unsteady hp hs hk pres sl
    · obtain ⟨r, r', ho⟩ := h.onTop (hp.regular.made k)
      exact ho.unsteady hp hs hk pres sl
  rw [he, C40_only_singular_fails hp hs e he]

/-- C89: an airplane given twice to a steady solver is such a case if it has a panel. -/
theorem C89_airplane_twice (as : List Airplane) (a a' : ℕ) (A : Airplane) (hne : a ≠ a') (ha : as[a]? = some A)
    (ha' : as[a']? = some A) (w : ℕ) (W : Wing) (hw : A.wings[w]? = some W) (hp : ∃ i j p, cell W.panels i j = some p) :
    WingTwice as :=
  ⟨a, w, a', w, A, A, W, fun h => hne (Prod.mk.inj h).1, ha, ha', hw, hw, hp⟩

/-- C89: an airplane movement given twice to a study makes all its runs fail if its airplane has a panel at a step. -/
theorem C89_movement_twice {ams : List AirplaneMovement} {om : OperatingPointMovement} {ns nc nch : Option ℕ}
    {dt : Option ℝ} {only : Bool} {p : UnsteadyProblem} (h : study ams om ns nc nch dt only = .ok p) (a a' : ℕ)
    (am : AirplaneMovement) (hne : a ≠ a') (ha : ams[a]? = some am) (ha' : ams[a']? = some am) {k : ℕ}
    (hk : k < p.numSteps) (hpan : ∃ A, (p.airplanesAt k)[a]? = some A ∧ ∃ W ∈ A.wings, ∃ i j q, cell W.panels i j = some q) :
    WingTwice (p.airplanesAt k) ∧
      ∀ (s : UnsteadySolver) (pres sl : Bool), Reached p s → s.run pres sl = .error .linAlgError := by
  obtain ⟨hp, -, -, -, -, -, -, -, H, O, hH, -, hall⟩ := study_parts h
  obtain ⟨A, hA, W, hW, hcell⟩ := hpan
  obtain ⟨w, hw⟩ := List.mem_iff_getElem?.mp hW
  suffices ht : WingTwice (p.airplanesAt k) from ⟨ht, fun s pres sl hs => C89_unsteady hp hs hk (Or.inl ht) pres sl⟩
  refine C89_airplane_twice _ a a' A hne hA ?_ w W hw hcell
  have hf := mapM_forall₂.mp hH
  have key : ∀ b : ℕ, ams[b]? = some am → ∃ hist, am.generate p.numSteps p.deltaTime = .ok hist ∧
      (p.airplanesAt k)[b]? = hist[k]? := by
    intro b hb
    obtain ⟨hb1, hb2⟩ := List.getElem?_eq_some_iff.mp hb
    obtain ⟨l1, f1⟩ := List.forall₂_iff_get.mp hf
    obtain ⟨l2, f2⟩ := List.forall₂_iff_get.mp (hall k hk).1
    have g1 := f1 b hb1 (by omega)
    have g2 := f2 b (by omega) (by omega)
    simp only [List.get_eq_getElem] at g1 g2
    rw [hb2] at g1
    exact ⟨_, g1, by rw [g2, List.getElem?_eq_getElem (by omega)]⟩
  obtain ⟨x, x1, x2⟩ := key a ha
  obtain ⟨y, y1, y2⟩ := key a' ha'
  rw [x1] at y1
  obtain rfl := Except.ok.inj y1
  rw [y2, ← x2, hA]

theorem sectionVertex_plane {w : WingSpec} {n : V3} {s t : WingCrossSection} (hn : n.norm = 1)
    (hs : s.unitNormal = n) (ht : t.unitNormal = n) (hsl : s.leadingEdge.dot n = 0) (htl : t.leadingEdge.dot n = 0)
    (hsu : s.wingUnitChordwise.dot n = 0) (htu : t.wingUnitChordwise.dot n = 0) (ia oa : Airfoil) (i j : ℕ)
    (hi : i ≤ w.numChordwisePanels) : (sectionVertex w s t ia oa i j - w.leadingEdge).dot n = 0 := by
  have hn0 : n ≠ 0 := by rintro rfl; simp at hn
  have key : ∀ (c : WingCrossSection), c.unitNormal = n → c.leadingEdge.dot n = 0 → c.wingUnitChordwise.dot n = 0 →
      ∀ a : Airfoil, (((sectionMcl w.leadingEdge c (mclVectors a w.chordwiseCoordinates)).getD i 0)
        - w.leadingEdge).dot n = 0 := by
    intro c hc hcl hcu a
    have h1 : c.unitChordwise.dot n = 0 := by
      unfold WingCrossSection.unitChordwise
      rw [hc]
      have h2 := (C06_proper_rotation (c.twist * Real.pi / 180) n hn0).1.dot c.wingUnitChordwise n
      rw [C06_fixes_axis _ n hn0] at h2
      rw [h2, hcu]
    have h2 : c.unitUp.dot n = 0 := by
      unfold WingCrossSection.unitUp
      rw [hc]
      simp only [V3.dot, V3.cross]; ring
    have hlen := sectionMcl_length w.leadingEdge c a w
    rw [List.getD_eq_getElem?_getD, List.getElem?_eq_getElem (by rw [hlen]; omega), Option.getD_some]
    have hmem := List.getElem_mem (l := sectionMcl w.leadingEdge c (mclVectors a w.chordwiseCoordinates)) (n := i)
      (by rw [hlen]; omega)
    generalize (sectionMcl w.leadingEdge c (mclVectors a w.chordwiseCoordinates))[i]'_ = x at hmem ⊢
    unfold sectionMcl at hmem
    obtain ⟨y, -, rfl⟩ := List.mem_map.mp hmem
    have e : w.leadingEdge + c.leadingEdge + (c.chord * y.1) • c.unitChordwise + (c.chord * y.2) • c.unitUp
        - w.leadingEdge = c.leadingEdge + (c.chord * y.1) • c.unitChordwise + (c.chord * y.2) • c.unitUp := by module
    rw [e, V3.add_dot, V3.add_dot, V3.smul_dot, V3.smul_dot, hcl, h1, h2]
    ring
  have k1 := key s hs hsl hsu ia
  have k2 := key t ht htl htu oa
  unfold sectionVertex
  dsimp only
  generalize (sectionMcl w.leadingEdge s (mclVectors ia w.chordwiseCoordinates)).getD i 0 = x at k1 ⊢
  generalize (sectionMcl w.leadingEdge t (mclVectors oa w.chordwiseCoordinates)).getD i 0 = y at k2 ⊢
  simp only [V3.dot, V3.sub_x, V3.sub_y, V3.sub_z, V3.add_x, V3.add_y, V3.add_z, V3.smul_x, V3.smul_y, V3.smul_z]
    at k1 k2 ⊢
  linear_combination (1 - s.spanwiseCoordinates.getD j 0) * k1 + s.spanwiseCoordinates.getD j 0 * k2

/-- C89: a wing declared symmetric lies in its own mirror if the planes of all its cross sections and their leading
edges do, like a fin that was given the default normals. -/
theorem C89_fin (sections : List WingCrossSection) (le n u : V3) (m : ℕ) (sp : String) (W : Wing)
    (h : Wing.create sections le n true u m sp = .ok W) (hn : n.norm = 1)
    (hcs : ∀ s ∈ sections.dropLast, s.controlSurfaceType = "symmetric" ∨ s.deflection = 0)
    (hs : ∀ s ∈ sections, s.unitNormal = n ∧ s.leadingEdge.dot n = 0) (as : List Airplane) (A : Airplane) (hA : A ∈ as)
    (hW : W ∈ A.wings) : WingInItsMirror as := by
  obtain ⟨hspec, ha⟩ := Wing.create_ok _ _ _ _ _ _ _ W h
  have hcells := made_cells (w := W) ⟨_, _, _, _, _, _, _, h⟩
  obtain ⟨hm, _, _, _, _, hlen, _⟩ := ha.grid
  rw [hlen] at hcells
  have hsym : W.spec.symmetric = true := by rw [hspec]
  have hNs : W.numSpanwisePanels = halfSpan sections * 2 := by rw [ha.nspan, hsym]; rfl
  obtain ⟨⟨d1, -, -, -, d5, -⟩, -, hmesh⟩ := (C17_wing_accepts sections le n true u m sp).mp ⟨W, h⟩
  have hhalf : 0 < halfSpan sections := by
    match sections, d1, hmesh with
    | a :: b :: l, _, hmesh =>
      have : 0 < a.numSpanwisePanels := ((hmesh (a, b) (by simp)).2.2 rfl).1
      unfold halfSpan
      simp only [List.dropLast_cons_cons, List.map_cons, List.sum_cons]
      omega
  refine ⟨A, W, sections, le, n, u, m, sp, hA, hW, h, hn, hcs, ?_, ?_⟩
  · obtain ⟨p, hp⟩ := (hcells 0 0).mpr ⟨hm, by omega⟩
    exact ⟨_, _, p, hp⟩
  · intro i j p hp
    obtain ⟨hi, hj⟩ := (hcells i j).mp ⟨p, hp⟩
    obtain ⟨J, hJ, hcol⟩ : ∃ J, J < halfSpan sections ∧ (j = halfSpan sections + J ∨ j = halfSpan sections - 1 - J) := by
      rcases Nat.lt_or_ge j (halfSpan sections) with hlt | hge
      · exact ⟨halfSpan sections - 1 - j, by omega, Or.inr (by omega)⟩
      · exact ⟨j - halfSpan sections, by omega, Or.inl (by omega)⟩
    obtain ⟨pre, s, t, post, e, h1, h2⟩ := section_of_column sections J hJ
    obtain ⟨s1, s2⟩ := hs s (by rw [e]; simp)
    obtain ⟨t1, t2⟩ := hs t (by rw [e]; simp)
    obtain ⟨hR, hL⟩ := ha.section pre s t post e i hi
    have hu : W.spec.unitChordwise.dot n = 0 := by rw [hspec]; exact d5
    have hle : W.spec.leadingEdge = le := by rw [hspec]
    have hnn : W.spec.unitNormal = n := by rw [hspec]
    have hJe : (pre.map (·.numSpanwisePanels)).sum + (J - (pre.map (·.numSpanwisePanels)).sum) = J := by omega
    have key : ∀ (ia oa : Airfoil) (i' j' : ℕ), i' ≤ W.spec.numChordwisePanels →
        (sectionVertex W.spec { s with wingUnitChordwise := W.spec.unitChordwise }
          { t with wingUnitChordwise := W.spec.unitChordwise } ia oa i' j' - le).dot n = 0 := by
      intro ia oa i' j' hi'
      rw [← hle]
      exact sectionVertex_plane (s := { s with wingUnitChordwise := W.spec.unitChordwise })
        (t := { t with wingUnitChordwise := W.spec.unitChordwise }) hn s1 t1 s2 t2 hu hu ia oa i' j' hi'
    rcases hcol with hcol | hcol
    · obtain ⟨ia, oa, -, -, g3⟩ := hR
      have c := g3 (J - (pre.map (·.numSpanwisePanels)).sum) (by omega)
      rw [hsym, if_pos rfl, hJe, ← hcol, hp, Option.some.injEq] at c
      rw [c]
      intro q hq
      simp only [Panel.place, rightPanel, List.mem_cons, List.not_mem_nil, or_false] at hq
      rcases hq with rfl | rfl | rfl | rfl <;> exact key _ _ _ _ (by omega)
    · obtain ⟨ia, oa, -, -, g3⟩ := hL hsym
      have c := (g3 (J - (pre.map (·.numSpanwisePanels)).sum) (by omega)).2
      rw [hJe, ← hcol, hp, Option.some.injEq] at c
      rw [c]
      intro q hq
      simp only [Panel.place, Panel.mirror, rightPanel, hnn, hle, List.mem_cons, List.not_mem_nil, or_false] at hq
      rcases hq with rfl | rfl | rfl | rfl <;>
        (rw [(C05_reflect_fixed_iff _ _ _ hn).mpr (key _ _ _ _ (by omega))]; exact key _ _ _ _ (by omega))

/-- A concrete case: an airplane with a flat rectangular wing, given twice. -/
example (c : ℝ) (op : OperatingPoint) (heap : PanelHeap) : ∃ A w, Wing.create [plateSection 0 c 0 0 "symmetric" 3 "cosine",
      plateSection ⟨0, 2, 0⟩ c 0 0 "symmetric" 3 "cosine"] 0 ⟨0, 1, 0⟩ true ⟨1, 0, 0⟩ 2 "uniform" = .ok w ∧
    Airplane.create [w] = .ok A ∧ A.Made ∧ WingTwice [A, A] ∧
    (HorseshoeSolver.create ⟨[A, A], op⟩ heap []).run = .error .linAlgError := by
  obtain ⟨w, hw⟩ := plateWing_accepted [plateSection 0 c 0 0 "symmetric" 3 "cosine",
    plateSection ⟨0, 2, 0⟩ c 0 0 "symmetric" 3 "cosine"] true 2 two_pos "uniform" (by simp) (by simp)
    (by simp [plateSection]) (by
      intro s hs
      simp only [List.mem_cons, List.not_mem_nil, or_false] at hs
      rcases hs with rfl | rfl <;> exact ⟨_, _, _, _, _, _, _, rfl, by norm_num⟩) 0 (by simp [plateSection])
  obtain ⟨A, hA⟩ : ∃ A, Airplane.create [w] = .ok A := ⟨_, rfl⟩
  have hmade : A.Made :=
    ⟨_, _, _, _, _, _, hA, fun w' hw' => by rw [List.mem_singleton.mp hw']; exact ⟨_, _, _, _, _, _, _, hw⟩⟩
  have hAw : A.wings = [w] := by
    simp only [Airplane.create, Except.ok.injEq] at hA
    rw [← hA]
  obtain ⟨hspec, ha⟩ := Wing.create_ok _ _ _ _ _ _ _ w hw
  obtain ⟨hm, _, _, _, _, hlen, _⟩ := ha.grid
  obtain ⟨p, hp⟩ := (made_cells (w := w) ⟨_, _, _, _, _, _, _, hw⟩ 0 0).mpr
    ⟨by rw [hlen]; exact hm, by rw [ha.nspan, hspec]; simp [plateSection]⟩
  have ht : WingTwice [A, A] := C89_airplane_twice _ 0 1 A (by simp) rfl rfl 0 w (by rw [hAw]; rfl) ⟨_, _, _, hp⟩
  exact ⟨A, w, hw, hA, hmade, ht, (C89_steady _ (by simpa using hmade) (Or.inl ht) op heap []).1⟩

/-- A concrete case: a fin of any height, swept and tapered, with the default normals, declared symmetric. -/
example (c c' x z : ℝ) (op : OperatingPoint) (heap : PanelHeap) : ∃ A w,
    Wing.create [plateSection 0 c 0 0 "symmetric" 3 "cosine", plateSection ⟨x, 0, z⟩ c' 0 0 "symmetric" 3 "cosine"]
      ⟨1, 0, 0⟩ ⟨0, 1, 0⟩ true ⟨1, 0, 0⟩ 2 "uniform" = .ok w ∧
    Airplane.create [w] = .ok A ∧ A.Made ∧ WingInItsMirror [A] ∧
    (RingSolver.create ⟨[A], op⟩ heap []).run = .error .linAlgError := by
  obtain ⟨w, hw⟩ := plateWing_accepted [plateSection 0 c 0 0 "symmetric" 3 "cosine",
    plateSection ⟨x, 0, z⟩ c' 0 0 "symmetric" 3 "cosine"] true 2 two_pos "uniform" (by simp) (by simp)
    (by simp [plateSection]) (by
      intro s hs
      simp only [List.mem_cons, List.not_mem_nil, or_false] at hs
      rcases hs with rfl | rfl <;> exact ⟨_, _, _, _, _, _, _, rfl, by norm_num⟩) ⟨1, 0, 0⟩ (by simp [plateSection])
  obtain ⟨A, hA⟩ : ∃ A, Airplane.create [w] = .ok A := ⟨_, rfl⟩
  have hmade : A.Made :=
    ⟨_, _, _, _, _, _, hA, fun w' hw' => by rw [List.mem_singleton.mp hw']; exact ⟨_, _, _, _, _, _, _, hw⟩⟩
  have hAw : A.wings = [w] := by
    simp only [Airplane.create, Except.ok.injEq] at hA
    rw [← hA]
  have ht : WingInItsMirror [A] := C89_fin _ _ _ _ _ _ w hw (by simp [V3.norm, V3.dot]) (by simp [plateSection])
    (by simp [plateSection, V3.dot]) [A] A (by simp) (by rw [hAw]; simp)
  exact ⟨A, w, hw, hA, hmade, ht, (C89_steady _ (by simpa using hmade) (Or.inr ht) op heap []).2⟩

/-- A concrete case: a heaving plate, given twice to a study of any length. -/
example (A P : ℝ) (n : ℕ) (hn : 0 < n) (dt : ℝ) (op : OperatingPoint) (only pres sl : Bool) :
    ∃ am p s, study [am, am] { base := op } (some n) none none (some dt) only = .ok p ∧ p.numSteps = n ∧ Reached p s ∧
      (∀ k < n, WingTwice (p.airplanesAt k)) ∧ s.run pres sl = .error .linAlgError := by
  obtain ⟨m, -, hm⟩ := PlatePair.movement_at A P
  obtain ⟨-, p, hp, hmade, hsteps, -, -, hst⟩ := hm 0 0 n hn dt op only
  obtain ⟨s, hs⟩ : ∃ s, UnsteadySolver.create p = .ok s := by
    have hlen := hmade.regular.steps
    rw [hsteps] at hlen
    unfold UnsteadySolver.create
    cases hsp : p.steadyProblems with
    | nil => rw [hsp] at hlen; simp at hlen; omega
    | cons a l => exact ⟨_, rfl⟩
  have hpan : ∀ k < n, ∃ A, (p.airplanesAt k)[0]? = some A ∧ ∃ W ∈ A.wings, ∃ i j q, cell W.panels i j = some q := by
    intro k hk
    obtain ⟨-, a, b, u, v, C, D, c1, c2, c3, c4, -⟩ := hst k hk
    exact ⟨a, by rw [c1]; rfl, u, by rw [c2]; simp, 0, 0, C, by rw [c4]; rfl⟩
  refine ⟨m 0, p, s, hp, hsteps, .fresh hs, ?_, ?_⟩
  · intro k hk
    exact (C89_movement_twice hp 0 1 _ (by simp) rfl rfl (by rw [hsteps]; exact hk) (hpan k hk)).1
  · exact (C89_movement_twice hp 0 1 _ (by simp) rfl rfl (by rw [hsteps]; exact hn) (hpan 0 hn)).2 s pres sl (.fresh hs)

end Ptera
