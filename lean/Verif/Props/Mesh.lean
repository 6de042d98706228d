import Verif.Lemmas.MeshAssembly

/-!
# Properties C18–C21: the panel mesh

`cell g i j` is entry `[i, j]` of a two-dimensional array, if there is one; `SpanAdj p q` / `ChordAdj p q` say
that `q`, to the right of / behind `p`, has the two vertices of the common edge in common with `p`;
`Panel.mirror n q p` is the mirror image of `p` in the plane through `q` with normal `n`, left and right
exchanged (all in `Verif/Lemmas/MeshAssembly.lean`).
-/

namespace Ptera

open List

theorem getD_getElem {α : Type} (l : List α) (d : α) {i : ℕ} (h : i < l.length) : l.getD i d = l[i] := by
  simp [List.getD, h]

/-! ## C18 -/

/-- C18: an accepted wing's panel array has `num_chordwise_panels` rows and `num_spanwise_panels` columns; the
latter is the sum over all sections but the tip, doubled for a symmetric wing; `num_panels` is the number of
panels. -/
theorem C18_wing_counts (sections : List WingCrossSection) (le n : V3) (sym : Bool) (u : V3) (m : ℕ)
    (sp : String) (w : Wing) (h : Wing.create sections le n sym u m sp = .ok w) :
    w.panels.length = m ∧ (∀ row ∈ w.panels, row.length = w.numSpanwisePanels) ∧
    w.numSpanwisePanels = (if sym then 2 else 1) * (sections.dropLast.map (·.numSpanwisePanels)).sum ∧
    w.numPanels = w.panels.flatten.length ∧ w.numPanels = m * w.numSpanwisePanels := by
  obtain ⟨hs, ha⟩ := Wing.create_ok sections le n sym u m sp w h
  obtain ⟨hm, Rs, Ls, hR, hL, hlen, hrows⟩ := ha.grid
  have hspec : w.spec.numChordwisePanels = m := by rw [hs]
  have hsym : w.spec.symmetric = sym := by rw [hs]
  have hns : w.numSpanwisePanels
      = (if sym then 2 else 1) * (sections.dropLast.map (·.numSpanwisePanels)).sum := by
    rw [ha.nspan, hsym]; cases sym <;> simp; ring
  have hzip : ∀ l : List WingCrossSection, (List.zip l l.tail).map (fun s => s.1.numSpanwisePanels)
      = l.dropLast.map (·.numSpanwisePanels) := by
    intro l
    induction l with
    | nil => rfl
    | cons a l ih => cases l with
      | nil => rfl
      | cons b l => simpa using ih
  have hsum : ((List.zip w.sections w.sections.tail).map fun s => s.1.numSpanwisePanels).sum
      = (sections.dropLast.map (·.numSpanwisePanels)).sum := by
    rw [ha.stored, hzip]
    unfold withChordwise
    rw [← List.map_dropLast, List.map_map]
    rfl
  have hrow : ∀ row ∈ w.panels, row.length = w.numSpanwisePanels := by
    intro row hr
    obtain ⟨i, hi, rfl⟩ := List.getElem_of_mem hr
    have hi' : i < w.spec.numChordwisePanels := hlen ▸ hi
    have e : w.panels[i] = w.panels.getD i [] := by simp [List.getD, hi]
    rw [e, hrows i hi', List.length_mapIdx, List.length_append, List.length_reverse, List.length_map,
      blockRow_length _ _ _ i hi' Rs hR, hsum, hns]
    by_cases h1 : w.spec.symmetric = true
    · rw [if_pos h1] at hL
      rw [blockRow_length _ _ _ i hi' Ls hL, hsum, ← hsym, if_pos h1]; ring
    · rw [if_neg h1] at hL
      rw [hL, ← hsym, if_neg h1]; simp [blockRow]
  refine ⟨by rw [hlen, hspec], hrow, hns, ?_, ?_⟩
  · rw [ha.npanels, List.length_flatten, hspec]
    have : w.panels.map List.length = List.replicate m w.numSpanwisePanels := by
      rw [List.eq_replicate_iff]
      refine ⟨by rw [List.length_map, hlen, hspec], ?_⟩
      intro b hb
      obtain ⟨row, hr, rfl⟩ := List.mem_map.mp hb
      exact hrow row hr
    rw [this]; simp; ring
  · rw [ha.npanels, hspec]; ring

/-- C18: at least one chordwise panel is always required. -/
theorem C18_at_least_one_row (sections : List WingCrossSection) (le n : V3) (sym : Bool) (u : V3) (m : ℕ)
    (sp : String) (w : Wing) (h : Wing.create sections le n sym u m sp = .ok w) : 0 < m := by
  obtain ⟨hs, ha⟩ := Wing.create_ok sections le n sym u m sp w h
  have := ha.grid.1
  rwa [hs] at this

/-- C18: an airplane's panel count is the number of panels of all its wings. -/
theorem C18_airplane_count (wings : List Wing) (ref : V3) (weight : ℝ) (s c b : Option ℝ) (a : Airplane)
    (hw : ∀ w ∈ wings, w.numPanels = w.panels.flatten.length)
    (h : Airplane.create wings ref weight s c b = .ok a) :
    a.numPanels = (a.wings.flatMap fun w => w.panels.flatten).length := by
  unfold Airplane.create at h
  cases wings with
  | nil => simp at h
  | cons w ws =>
    simp only [Except.ok.injEq] at h
    subst h
    rw [List.length_flatMap]
    simp only
    congr 1
    exact List.map_congr_left hw

/-! ## C19 -/

/-- C19: the flags and local indices of every panel of an accepted wing. -/
theorem C19_flags (sections : List WingCrossSection) (le n : V3) (sym : Bool) (u : V3) (m : ℕ)
    (sp : String) (w : Wing) (h : Wing.create sections le n sym u m sp = .ok w) (i j : ℕ) (p : Panel)
    (hp : cell w.panels i j = some p) :
    (p.isLeadingEdge = true ↔ i = 0) ∧ (p.isTrailingEdge = true ↔ i + 1 = m) ∧
    (p.isLeftEdge = true ↔ j = 0) ∧ (p.isRightEdge = true ↔ j + 1 = w.numSpanwisePanels) ∧
    p.localChordwise = i ∧ p.localSpanwise = j := by
  obtain ⟨hs, ha⟩ := Wing.create_ok sections le n sym u m sp w h
  obtain ⟨hm, Rs, Ls, hR, hL, hlen, hrows⟩ := ha.grid
  have hspec : w.spec.numChordwisePanels = m := by rw [hs]
  unfold cell at hp
  cases hrow : w.panels[i]? with
  | none => rw [hrow] at hp; simp at hp
  | some row =>
    rw [hrow] at hp
    simp only [Option.bind_some] at hp
    have hi : i < w.panels.length := (List.getElem?_eq_some_iff.mp hrow).1
    have hi' : i < w.spec.numChordwisePanels := hlen ▸ hi
    have e : row = w.panels.getD i [] := by simp [List.getD, hrow]
    rw [e, hrows i hi', List.getElem?_mapIdx] at hp
    obtain ⟨q, hq, rfl⟩ := Option.map_eq_some_iff.mp hp
    have hblock : ∀ (δ : WingCrossSection → ℝ) (pairs : List (WingCrossSection × WingCrossSection)) (Bs),
        Forall₂ (IsBlock w.spec δ) pairs Bs → ∀ x ∈ blockRow Bs i,
          x.isLeadingEdge = decide (i = 0) ∧ x.isTrailingEdge = decide (i + 1 = w.spec.numChordwisePanels) := by
      intro δ pairs
      induction pairs with
      | nil => intro Bs hB; cases hB; simp [blockRow]
      | cons s pairs ih =>
        intro Bs hB x hx
        cases hB with
        | cons hb hr =>
          obtain ⟨ia, oa, _, _, rfl⟩ := hb
          unfold blockRow at hx
          rw [List.flatMap_cons, List.mem_append, grid_getD _ _ _ _ hi'] at hx
          rcases hx with hx | hx
          · obtain ⟨k, _, rfl⟩ := List.mem_map.mp hx
            exact ⟨rfl, rfl⟩
          · exact ih _ hr x hx
    have hq' : q.isLeadingEdge = decide (i = 0) ∧
        q.isTrailingEdge = decide (i + 1 = w.spec.numChordwisePanels) := by
      have hmem := List.mem_of_getElem? hq
      rw [List.mem_append, List.mem_reverse] at hmem
      rcases hmem with hx | hx
      · obtain ⟨y, hy, rfl⟩ := List.mem_map.mp hx
        by_cases h1 : w.spec.symmetric = true
        · rw [if_pos h1] at hL
          exact hblock _ _ Ls hL y hy
        · rw [if_neg h1] at hL
          rw [hL] at hy; simp [blockRow] at hy
      · exact hblock _ _ Rs hR q hx
    simp [Panel.place, hq'.1, hq'.2, hspec]

/-- C19: neighbour lookups (right, left, front, behind) never leave the array. -/
theorem C19_neighbours_exist (sections : List WingCrossSection) (le n : V3) (sym : Bool) (u : V3) (m : ℕ)
    (sp : String) (w : Wing) (h : Wing.create sections le n sym u m sp = .ok w) (i j : ℕ) (p : Panel)
    (hp : cell w.panels i j = some p) :
    (p.isRightEdge = false → ∃ q, cell w.panels p.localChordwise (p.localSpanwise + 1) = some q) ∧
    (p.isLeftEdge = false → 0 < p.localSpanwise ∧
      ∃ q, cell w.panels p.localChordwise (p.localSpanwise - 1) = some q) ∧
    (p.isLeadingEdge = false → 0 < p.localChordwise ∧
      ∃ q, cell w.panels (p.localChordwise - 1) p.localSpanwise = some q) ∧
    (p.isTrailingEdge = false → ∃ q, cell w.panels (p.localChordwise + 1) p.localSpanwise = some q) := by
  obtain ⟨f1, f2, f3, f4, f5, f6⟩ := C19_flags sections le n sym u m sp w h i j p hp
  obtain ⟨c1, c2, _⟩ := C18_wing_counts sections le n sym u m sp w h
  have hex : ∀ a b, a < m → b < w.numSpanwisePanels → ∃ q, cell w.panels a b = some q := by
    intro a b ha hb
    have h1 : a < w.panels.length := by omega
    have h2 : b < w.panels[a].length := by rw [c2 _ (List.getElem_mem h1)]; exact hb
    exact ⟨w.panels[a][b], by simp [cell, h1, h2]⟩
  have hij : i < m ∧ j < w.numSpanwisePanels := by
    unfold cell at hp
    cases hrow : w.panels[i]? with
    | none => rw [hrow] at hp; simp at hp
    | some row =>
      rw [hrow] at hp
      simp only [Option.bind_some] at hp
      have h1 := (List.getElem?_eq_some_iff.mp hrow).1
      have h2 := (List.getElem?_eq_some_iff.mp hp).1
      rw [c2 row (List.mem_of_getElem? hrow)] at h2
      exact ⟨by omega, h2⟩
  rw [f5, f6]
  refine ⟨fun hf => hex _ _ hij.1 ?_, fun hf => ⟨?_, hex _ _ hij.1 (by omega)⟩,
    fun hf => ⟨?_, hex _ _ (by omega) hij.2⟩, fun hf => hex _ _ ?_ hij.2⟩
  · have : ¬ j + 1 = w.numSpanwisePanels := fun e => by rw [f4.mpr e] at hf; simp at hf
    omega
  · have : ¬ j = 0 := fun e => by rw [f3.mpr e] at hf; simp at hf
    omega
  · have : ¬ i = 0 := fun e => by rw [f1.mpr e] at hf; simp at hf
    omega
  · have : ¬ i + 1 = m := fun e => by rw [f2.mpr e] at hf; simp at hf
    omega

/-! ## C20 -/

theorem cell_some_row {w : Wing} {S : List WingCrossSection} (ha : WingAccepted S w) {i j : ℕ} {p : Panel}
    (hp : cell w.panels i j = some p) :
    i < w.spec.numChordwisePanels ∧ (w.panels.getD i [])[j]? = some p := by
  obtain ⟨hm, Rs, Ls, hR, hL, hlen, hrows⟩ := ha.grid
  unfold cell at hp
  cases hrow : w.panels[i]? with
  | none => rw [hrow] at hp; simp at hp
  | some row =>
    rw [hrow] at hp
    simp only [Option.bind_some] at hp
    exact ⟨hlen ▸ (List.getElem?_eq_some_iff.mp hrow).1, by simpa [List.getD, hrow] using hp⟩

/-- C20: panels behind one another share the common edge, on every accepted wing. -/
theorem C20_chordwise (sections : List WingCrossSection) (le n : V3) (sym : Bool) (u : V3) (m : ℕ)
    (sp : String) (w : Wing) (h : Wing.create sections le n sym u m sp = .ok w) (i j : ℕ) (p q : Panel)
    (hp : cell w.panels i j = some p) (hq : cell w.panels (i + 1) j = some q) :
    p.backLeft = q.frontLeft ∧ p.backRight = q.frontRight := by
  obtain ⟨hs, ha⟩ := Wing.create_ok sections le n sym u m sp w h
  obtain ⟨hi, hp⟩ := cell_some_row ha hp
  obtain ⟨hi1, hq⟩ := cell_some_row ha hq
  obtain ⟨hm, Rs, Ls, hR, hL, hlen, hrows⟩ := ha.grid
  have hadj : Forall₂ ChordAdj
      (((blockRow Ls i).map (Panel.mirror w.spec.unitNormal w.spec.leadingEdge)).reverse ++ blockRow Rs i)
      (((blockRow Ls (i + 1)).map (Panel.mirror w.spec.unitNormal w.spec.leadingEdge)).reverse
        ++ blockRow Rs (i + 1)) := by
    refine rel_append ?_ (blockRow_chordAdj _ _ _ i hi1 Rs hR)
    apply rel_reverse
    rw [forall₂_map_left_iff, forall₂_map_right_iff]
    have base : Forall₂ ChordAdj (blockRow Ls i) (blockRow Ls (i + 1)) := by
      by_cases h1 : w.spec.symmetric = true
      · rw [if_pos h1] at hL
        exact blockRow_chordAdj _ _ _ i hi1 Ls hL
      · rw [if_neg h1] at hL
        rw [hL]; exact Forall₂.nil
    refine base.imp ?_
    intro a b hab
    exact ⟨by simp [Panel.mirror, hab.2], by simp [Panel.mirror, hab.1]⟩
  rw [hrows i hi, List.getElem?_mapIdx] at hp
  rw [hrows (i + 1) hi1, List.getElem?_mapIdx] at hq
  obtain ⟨p', hp', rfl⟩ := Option.map_eq_some_iff.mp hp
  obtain ⟨q', hq', rfl⟩ := Option.map_eq_some_iff.mp hq
  obtain ⟨l1, e1⟩ := List.getElem?_eq_some_iff.mp hp'
  obtain ⟨l2, e2⟩ := List.getElem?_eq_some_iff.mp hq'
  have := (List.forall₂_iff_get.mp hadj).2 j l1 l2
  rw [List.get_eq_getElem, List.get_eq_getElem, e1, e2] at this
  exact this

theorem reflect_of_perp (v n q : V3) (h : v.dot n = 0) : reflectPointAcrossPlane (q + v) n q = q + v := by
  have h' : v.x * n.x + v.y * n.y + v.z * n.z = 0 := h
  ext
  · simp [reflectPointAcrossPlane, V3.dot]; linear_combination (-2 * n.x) * h'
  · simp [reflectPointAcrossPlane, V3.dot]; linear_combination (-2 * n.y) * h'
  · simp [reflectPointAcrossPlane, V3.dot]; linear_combination (-2 * n.z) * h'

/-- Rotating about an axis parallel to `n` keeps orthogonality to `n`. -/
theorem rotation_perp (angle : ℝ) (n v : V3) (h : v.dot n = 0) :
    ((angleAxisRotationMatrix angle n).mulVec v).dot n = 0 := by
  simp only [angleAxisRotationMatrix, Bool.false_eq_true, if_false]
  set k := 1 / n.norm
  have h' : v.x * n.x + v.y * n.y + v.z * n.z = 0 := h
  simp only [rodrigues, M3.mulVec, V3.dot, V3.smul_x, V3.smul_y, V3.smul_z]
  linear_combination (Real.cos angle + k ^ 2 * (1 - Real.cos angle) * (n.x ^ 2 + n.y ^ 2 + n.z ^ 2)) * h'

/-- The root section of an accepted wing lies in the symmetry plane. -/
theorem root_on_plane {S : List WingCrossSection} {w : Wing} (ha : WingAccepted S w) (root : WingCrossSection)
    (hroot : w.sections.head? = some root) (a : Airfoil) (i : ℕ) (hi : i < w.spec.numChordwisePanels + 1) :
    reflectPointAcrossPlane (sectionPoint w.spec root a i) w.spec.unitNormal w.spec.leadingEdge
      = sectionPoint w.spec root a i := by
  rw [ha.stored] at hroot
  unfold withChordwise at hroot
  rw [List.head?_map] at hroot
  obtain ⟨r0, hr0, rfl⟩ := Option.map_eq_some_iff.mp hroot
  have hn := ha.rootNormal r0 hr0
  have hl := ha.rootLE r0 hr0
  unfold sectionPoint
  have hlen := sectionMcl_length w.spec.leadingEdge
    { r0 with wingUnitChordwise := w.spec.unitChordwise } a w.spec
  rw [getD_getElem _ _ (by rw [hlen]; exact hi)]
  simp only [sectionMcl, List.getElem_map]
  rw [add_assoc, add_assoc]
  apply reflect_of_perp
  have hc : (WingCrossSection.unitChordwise { r0 with wingUnitChordwise := w.spec.unitChordwise }).dot
      w.spec.unitNormal = 0 := by
    unfold WingCrossSection.unitChordwise
    simp only
    rw [← hn]
    exact rotation_perp _ _ _ ha.perp
  have hu : (WingCrossSection.unitUp { r0 with wingUnitChordwise := w.spec.unitChordwise }).dot
      w.spec.unitNormal = 0 := by
    unfold WingCrossSection.unitUp
    simp only
    rw [← hn]
    simp only [V3.cross, V3.dot]
    ring
  rw [V3.add_dot, V3.add_dot, V3.smul_dot, V3.smul_dot, hc, hu]
  have hl' : r0.leadingEdge.dot w.spec.unitNormal = 0 := by rw [hl]; simp [V3.dot]
  rw [hl']; simp

/-- C20: panels beside one another share the common edge when all sections but the tip have the same deflection
`d` and hinge `hg` and at least one panel. On a symmetric wing with deflected asymmetric control surfaces
(`ty` other than "symmetric", `d ≠ 0`) this excludes only the two columns meeting at the symmetry plane. -/
theorem C20_spanwise (sections : List WingCrossSection) (le n : V3) (sym : Bool) (u : V3) (m : ℕ)
    (sp : String) (w : Wing) (h : Wing.create sections le n sym u m sp = .ok w) (d hg : ℝ) (ty : String)
    (hsame : ∀ s ∈ sections.dropLast, s.deflection = d ∧ s.hinge = hg ∧ s.controlSurfaceType = ty ∧
      0 < s.numSpanwisePanels)
    (i j : ℕ) (hplane : sym = false ∨ ty = "symmetric" ∨ d = 0 ∨
      j + 1 ≠ (sections.dropLast.map (·.numSpanwisePanels)).sum)
    (p q : Panel) (hp : cell w.panels i j = some p) (hq : cell w.panels i (j + 1) = some q) :
    p.frontRight = q.frontLeft ∧ p.backRight = q.backLeft := by
  obtain ⟨hs, ha⟩ := Wing.create_ok sections le n sym u m sp w h
  obtain ⟨hi, hp⟩ := cell_some_row ha hp
  obtain ⟨_, hq⟩ := cell_some_row ha hq
  obtain ⟨hm, Rs, Ls, hR, hL, hlen, hrows⟩ := ha.grid
  have hsym : w.spec.symmetric = sym := by rw [hs]
  have hsec : ∀ s ∈ w.sections.dropLast, s.deflection = d ∧ s.hinge = hg ∧ s.controlSurfaceType = ty ∧
      0 < s.numSpanwisePanels := by
    intro s hs'
    rw [ha.stored] at hs'
    unfold withChordwise at hs'
    rw [← List.map_dropLast] at hs'
    obtain ⟨t, ht, rfl⟩ := List.mem_map.mp hs'
    exact hsame t ht
  set d' : ℝ := if ty = "symmetric" then d else -d with hd'
  have cR := blockRow_chain w.spec (·.deflection) d hg i hi w.sections
    (fun s hs' => ⟨(hsec s hs').1, (hsec s hs').2.1, (hsec s hs').2.2.2⟩) Rs hR
  set mir := Panel.mirror w.spec.unitNormal w.spec.leadingEdge with hmir
  -- the mirrored half is a chain
  have cL : (blockRow Ls i).IsChain SpanAdj ∧ ∀ s a, w.sections.head? = some s →
      s.airfoil.addControlSurface d' hg = .ok a → ∀ p ∈ (blockRow Ls i).head?,
        p.frontLeft = sectionPoint w.spec s a i ∧ p.backLeft = sectionPoint w.spec s a (i + 1) := by
    by_cases h1 : w.spec.symmetric = true
    · rw [if_pos h1] at hL
      refine blockRow_chain w.spec mirroredDeflection d' hg i hi w.sections (fun s hs' => ?_) Ls hL
      obtain ⟨e1, e2, e3, e4⟩ := hsec s hs'
      exact ⟨by rw [mirroredDeflection, e1, e3], e2, e4⟩
    · rw [if_neg h1] at hL
      rw [hL]; simp [blockRow]
  have cL' : ((blockRow Ls i).map mir).reverse.IsChain SpanAdj := by
    rw [List.isChain_reverse, List.isChain_map]
    refine cL.1.imp ?_
    intro a b hab
    exact ⟨by simp [hmir, Panel.mirror, hab.1], by simp [hmir, Panel.mirror, hab.2]⟩
  rw [hrows i hi, List.getElem?_mapIdx] at hp hq
  obtain ⟨p', hp', rfl⟩ := Option.map_eq_some_iff.mp hp
  obtain ⟨q', hq', rfl⟩ := Option.map_eq_some_iff.mp hq
  show SpanAdj p' q'
  have lenL : (((blockRow Ls i).map mir).reverse).length = (blockRow Ls i).length := by simp
  have key : ∀ (l : List Panel), l.IsChain SpanAdj → ∀ k a b, l[k]? = some a → l[k + 1]? = some b →
      SpanAdj a b := by
    intro l hl k a b h1 h2
    obtain ⟨l1, e1⟩ := List.getElem?_eq_some_iff.mp h1
    obtain ⟨l2, e2⟩ := List.getElem?_eq_some_iff.mp h2
    have := List.isChain_iff_getElem.mp hl k l2
    rwa [e1, e2] at this
  rcases lt_trichotomy (j + 1) (blockRow Ls i).length with hlt | heq | hgt
  · rw [List.getElem?_append_left (by omega)] at hp' hq'
    exact key _ cL' j _ _ hp' hq'
  · -- the two columns at the symmetry plane
    rw [List.getElem?_append_left (by omega)] at hp'
    rw [List.getElem?_append_right (by omega)] at hq'
    have hsy : w.spec.symmetric = true := by
      by_contra h1
      rw [if_neg h1] at hL
      rw [hL] at heq; simp [blockRow] at heq
    rw [if_pos hsy] at hL
    have hz : j + 1 - (((blockRow Ls i).map mir).reverse).length = 0 := by omega
    rw [hz] at hq'
    have hq0 : q' ∈ (blockRow Rs i).head? := by rw [List.head?_eq_getElem?]; exact hq'
    have hp0 : ∃ x ∈ (blockRow Ls i).head?, p' = mir x := by
      rw [List.getElem?_reverse (by simp; omega)] at hp'
      simp only [List.length_map, List.getElem?_map] at hp'
      rw [show (blockRow Ls i).length - 1 - j = 0 by omega] at hp'
      obtain ⟨x, hx, rfl⟩ := Option.map_eq_some_iff.mp hp'
      exact ⟨x, by rw [List.head?_eq_getElem?]; exact hx, rfl⟩
    obtain ⟨x, hx, rfl⟩ := hp0
    have hsum : (blockRow Ls i).length = (sections.dropLast.map (·.numSpanwisePanels)).sum := by
      obtain ⟨_, c2, c3, _⟩ := C18_wing_counts sections le n sym u m sp w h
      have hi2 : i < w.panels.length := hlen ▸ hi
      have h3 : (w.panels.getD i []).length = w.numSpanwisePanels := by
        rw [getD_getElem _ _ hi2]; exact c2 _ (List.getElem_mem hi2)
      rw [hrows i hi, List.length_mapIdx, List.length_append, lenL,
        blockRow_length _ _ _ i hi Rs hR, c3, ← hsym, if_pos hsy] at h3
      have := blockRow_length _ _ _ i hi Ls hL
      omega
    have hdd : d' = d := by
      rcases hplane with e | e | e | e
      · rw [← hsym, hsy] at e; simp at e
      · rw [hd', if_pos e]
      · rw [hd', e]; simp
      · exact absurd (by rw [heq, hsum]) e
    -- the root section and its flapped airfoil
    have h2 : 2 ≤ w.sections.length := by rw [ha.stored]; simpa [withChordwise] using ha.two
    match hw : w.sections, h2 with
    | r :: t :: rest, _ =>
      rw [hw] at hR
      simp only [List.tail_cons, List.zip_cons_cons] at hR
      cases hR with
      | cons hb _ =>
        obtain ⟨ia, oa, e1, _, _⟩ := hb
        have hr := hsec r (by rw [hw]; simp)
        simp only at e1
        rw [hr.1, hr.2.1] at e1
        have A := cR.2 r ia (by rw [hw]; rfl) e1 q' hq0
        have B := cL.2 r ia (by rw [hw]; rfl) (by rw [hdd]; exact e1) x hx
        have hroot : w.sections.head? = some r := by rw [hw]; rfl
        refine ⟨?_, ?_⟩
        · rw [A.1]
          show reflectPointAcrossPlane x.frontLeft _ _ = _
          rw [B.1]; exact root_on_plane ha r hroot ia i (by omega)
        · rw [A.2]
          show reflectPointAcrossPlane x.backLeft _ _ = _
          rw [B.2]; exact root_on_plane ha r hroot ia (i + 1) (by omega)
  · rw [List.getElem?_append_right (by omega)] at hp' hq'
    rw [lenL] at hp' hq'
    rw [show j + 1 - (blockRow Ls i).length = (j - (blockRow Ls i).length) + 1 by omega] at hq'
    exact key _ cR.1 _ _ _ hp' hq'

/-! ## C21 -/

/-- C21: on a symmetric wing whose control surfaces are symmetric or undeflected, the panel in the mirrored
column is the mirror image (left and right exchanged, same row flags). -/
theorem C21_mirror (sections : List WingCrossSection) (le n : V3) (u : V3) (m : ℕ)
    (sp : String) (w : Wing) (h : Wing.create sections le n true u m sp = .ok w)
    (hcs : ∀ s ∈ sections.dropLast, s.controlSurfaceType = "symmetric" ∨ s.deflection = 0)
    (hn : n.norm = 1)
    (i j : ℕ) (p q : Panel) (hp : cell w.panels i j = some p)
    (hq : cell w.panels i (w.numSpanwisePanels - 1 - j) = some q) :
    q.frontLeft = reflectPointAcrossPlane p.frontRight n le ∧
    q.frontRight = reflectPointAcrossPlane p.frontLeft n le ∧
    q.backLeft = reflectPointAcrossPlane p.backRight n le ∧
    q.backRight = reflectPointAcrossPlane p.backLeft n le ∧
    q.isLeadingEdge = p.isLeadingEdge ∧ q.isTrailingEdge = p.isTrailingEdge := by
  obtain ⟨hs, ha⟩ := Wing.create_ok sections le n true u m sp w h
  obtain ⟨hi, hp⟩ := cell_some_row ha hp
  obtain ⟨_, hq⟩ := cell_some_row ha hq
  obtain ⟨c1, c2, c3, _⟩ := C18_wing_counts sections le n true u m sp w h
  obtain ⟨hm, Rs, Ls, hR, hL, hlen, hrows⟩ := ha.grid
  have hsym : w.spec.symmetric = true := by rw [hs]
  have hnn : w.spec.unitNormal = n := by rw [hs]
  have hle : w.spec.leadingEdge = le := by rw [hs]
  rw [if_pos hsym] at hL
  have hLR : Ls = Rs := by
    refine isBlock_unique w.spec mirroredDeflection (·.deflection) _ ?_ Ls Rs hL hR
    intro s hs'
    have hmem : s.1 ∈ w.sections.dropLast := by
      have : ∀ l : List WingCrossSection, ∀ s ∈ List.zip l l.tail, s.1 ∈ l.dropLast := by
        intro l
        induction l with
        | nil => simp
        | cons a l ih => cases l with
          | nil => simp
          | cons b l =>
            intro s hs
            simp only [List.tail_cons, List.zip_cons_cons, List.mem_cons] at hs
            rcases hs with rfl | hs
            · simp
            · have := ih s hs
              simp only [List.dropLast_cons_cons, List.mem_cons]
              exact Or.inr this
      exact this _ s hs'
    rw [ha.stored] at hmem
    unfold withChordwise at hmem
    rw [← List.map_dropLast] at hmem
    obtain ⟨t, ht, he⟩ := List.mem_map.mp hmem
    rw [← he]
    unfold mirroredDeflection
    rcases hcs t ht with e | e
    · simp [e]
    · simp [e]
  have hi2 : i < w.panels.length := hlen ▸ hi
  have h3 : (w.panels.getD i []).length = w.numSpanwisePanels := by
    rw [getD_getElem _ _ hi2]; exact c2 _ (List.getElem_mem hi2)
  have hj : j < w.numSpanwisePanels := by rw [← h3]; exact (List.getElem?_eq_some_iff.mp hp).1
  rw [hLR] at hrows
  set mir := Panel.mirror w.spec.unitNormal w.spec.leadingEdge with hmir
  have hinv : ∀ x : Panel, mir (mir x) = x := by
    intro x
    have r : ∀ v : V3, reflectPointAcrossPlane (reflectPointAcrossPlane v n le) n le = v :=
      fun v => C05_reflect_involutive v n le hn
    simp only [hmir, Panel.mirror, hnn, hle, r]
  have hlenN : (blockRow Rs i).length + (blockRow Rs i).length = w.numSpanwisePanels := by
    rw [hrows i hi] at h3; simpa using h3
  have hrev : ∀ l : List Panel, ((l.map mir).reverse ++ l).reverse = ((l.map mir).reverse ++ l).map mir := by
    intro l
    simp only [List.reverse_append, List.reverse_reverse, List.map_append, List.map_reverse, List.map_map]
    congr 1
    rw [show mir ∘ mir = id from funext hinv, List.map_id]
  rw [hrows i hi, List.getElem?_mapIdx] at hp hq
  obtain ⟨p', hp', rfl⟩ := Option.map_eq_some_iff.mp hp
  obtain ⟨q', hq', rfl⟩ := Option.map_eq_some_iff.mp hq
  have hq2 : ((((blockRow Rs i).map mir).reverse ++ blockRow Rs i).reverse)[j]? = some q' := by
    rw [List.getElem?_reverse (by simp; omega)]
    rw [← hq']
    congr 1
    simp only [List.length_append, List.length_reverse, List.length_map]
    omega
  rw [hrev, List.getElem?_map, hp'] at hq2
  simp only [Option.map_some, Option.some.injEq] at hq2
  subst hq2
  simp [hmir, Panel.mirror, Panel.place, hnn, hle]

end Ptera
