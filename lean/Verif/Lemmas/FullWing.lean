import Verif.Spec.FullWing
import Verif.Lemmas.Split
import Verif.Lemmas.MeshAssembly
import Verif.Props.Loft

/-!
# A symmetric wing and the same wing with both halves given: lemmas
-/

namespace Ptera

open List

variable {n : V3}

/-- Half a turn about `n`. -/
noncomputable def halfTurn (n : V3) : M3 := rodrigues Real.pi n

theorem halfTurn_mulVec (n v : V3) : (halfTurn n).mulVec v = -(n.across v) := by
  unfold halfTurn V3.across
  rw [rodrigues_mulVec]
  simp only [Real.cos_pi, Real.sin_pi]
  ext <;> simp [V3.dot] <;> ring

theorem halfTurn_isRot (hn : n.dot n = 1) : (halfTurn n).IsRot := rodrigues_isRot _ _ hn

theorem across_of_perp {u : V3} (h : u.dot n = 0) : n.across u = u := by
  unfold V3.across; rw [h]; simp

theorem across_self (hn : n.dot n = 1) : n.across n = -n := by
  unfold V3.across; rw [hn]; module

theorem across_zero : n.across 0 = 0 := by
  unfold V3.across; ext <;> simp [V3.dot]

theorem across_add (v w : V3) : n.across (v + w) = n.across v + n.across w := by
  unfold V3.across; ext <;> simp [V3.dot] <;> ring

theorem across_smul (c : ℝ) (v : V3) : n.across (c • v) = c • n.across v := by
  unfold V3.across; ext <;> simp [V3.dot] <;> ring

theorem across_sub (v w : V3) : n.across (v - w) = n.across v - n.across w := by
  unfold V3.across; ext <;> simp [V3.dot] <;> ring

theorem reflect_across (p q : V3) : reflectPointAcrossPlane p n q = q + n.across (p - q) := by
  rw [reflect_eq]; unfold V3.across; module

/-- `x` is the mirror image of `s` as far as its shape and place are concerned. -/
structure MirrorPlace (n o : V3) (s x : WingCrossSection) : Prop where
  airfoil : x.airfoil = s.airfoil
  chord : x.chord = s.chord
  twist : x.twist = s.twist
  place : x.leadingEdge = n.across s.leadingEdge - o
  normal : x.unitNormal = -(n.across s.unitNormal)
  chordwise : x.wingUnitChordwise = s.wingUnitChordwise
  perp : s.wingUnitChordwise.dot n = 0

namespace MirrorPlace

variable {o : V3} {s x : WingCrossSection}

theorem unitChordwise (hn : n.dot n = 1) (h : MirrorPlace n o s x) : x.unitChordwise = n.across s.unitChordwise := by
  unfold WingCrossSection.unitChordwise
  rw [h.twist, h.normal, h.chordwise, ← halfTurn_mulVec]
  have e : (halfTurn n).mulVec s.wingUnitChordwise = -s.wingUnitChordwise := by
    rw [halfTurn_mulVec, across_of_perp h.perp]
  have e' : s.wingUnitChordwise = (halfTurn n).mulVec (-s.wingUnitChordwise) := by
    rw [show -s.wingUnitChordwise = (-1 : ℝ) • s.wingUnitChordwise by module, M3.mulVec_smul, e]; module
  conv_lhs => rw [e']
  rw [angleAxis_turned (halfTurn_isRot hn), halfTurn_mulVec,
    show -s.wingUnitChordwise = (-1 : ℝ) • s.wingUnitChordwise by module, M3.mulVec_smul, across_smul]
  module

theorem unitUp (hn : n.dot n = 1) (h : MirrorPlace n o s x) : x.unitUp = n.across s.unitUp := by
  unfold WingCrossSection.unitUp
  rw [h.unitChordwise hn, h.normal]
  have e := (halfTurn_isRot hn).cross s.unitChordwise s.unitNormal
  rw [halfTurn_mulVec, halfTurn_mulVec, halfTurn_mulVec] at e
  have e2 : ∀ a b : V3, (-a).cross (-b) = -(a.cross (-b)) := by
    intro a b; ext <;> simp [V3.cross] <;> ring
  rw [e2] at e
  exact neg_injective e

theorem mcl (hn : n.dot n = 1) (h : MirrorPlace n o s x) (q : V3) (l : List (ℝ × ℝ)) :
    sectionMcl (q + o) x l = (sectionMcl q s l).map fun p => reflectPointAcrossPlane p n q := by
  unfold sectionMcl
  rw [List.map_map]
  apply List.map_congr_left
  intro p _
  simp only [Function.comp, reflect_across, h.unitChordwise hn, h.unitUp hn, h.place, h.chord]
  rw [show q + s.leadingEdge + (s.chord * p.1) • s.unitChordwise + (s.chord * p.2) • s.unitUp - q
    = s.leadingEdge + (s.chord * p.1) • s.unitChordwise + (s.chord * p.2) • s.unitUp by module]
  simp only [across_add, across_smul]
  module

theorem mcl_getD (hn : n.dot n = 1) (h : MirrorPlace n o s x) (q : V3) (l : List (ℝ × ℝ)) (i : ℕ) (hi : i < l.length) :
    (sectionMcl (q + o) x l).getD i 0 = q + n.across ((sectionMcl q s l).getD i 0 - q) := by
  rw [h.mcl hn q l]
  have : i < (sectionMcl q s l).length := by simpa [sectionMcl] using hi
  simp only [List.getD_eq_getElem?_getD, List.getElem?_map, List.getElem?_eq_getElem this, Option.map_some,
    Option.getD_some, reflect_across]

end MirrorPlace

/-- Both spacings are the same from either end. -/
theorem spanwise_reversed (s : WingCrossSection) (j : ℕ) (h0 : 0 < s.numSpanwisePanels) (hj : j ≤ s.numSpanwisePanels) :
    s.spanwiseCoordinates.getD (s.numSpanwisePanels - j) 0 = 1 - s.spanwiseCoordinates.getD j 0 := by
  rw [spanwise_spaced _ _ h0 (by omega), spanwise_spaced _ _ h0 hj]
  have hne : (s.numSpanwisePanels : ℝ) ≠ 0 := by exact_mod_cast h0.ne'
  unfold spaced
  split_ifs
  · rw [Nat.cast_sub hj]; field_simp
  · rw [Nat.cast_sub hj, show Real.pi * (((s.numSpanwisePanels : ℝ) - j) / s.numSpanwisePanels)
      = Real.pi - Real.pi * (j / s.numSpanwisePanels) by field_simp, Real.cos_pi_sub]
    ring

theorem grid_map_reverse {α : Type*} (m k : ℕ) (f : ℕ → ℕ → α) :
    (grid m k f).map List.reverse = grid m k fun i j => f i (k - 1 - j) := by
  unfold grid
  rw [List.map_map]
  apply List.map_congr_left
  intro i _
  simp only [Function.comp]
  apply List.ext_getElem
  · simp
  · intro j h1 h2
    simp

/-- The section of the whole wing that replaces the mirrored section. -/
theorem rightSection_of_left (hn : n.dot n = 1) (w w' : WingSpec) (o : V3) (hwn : w.unitNormal = n)
    (hle : w'.leadingEdge = w.leadingEdge + o) (hm : w'.numChordwisePanels = w.numChordwisePanels)
    (hsp : w'.chordwiseSpacing = w.chordwiseSpacing) (hm0 : 0 < w.numChordwisePanels) (s t x : WingCrossSection)
    (hx : MirrorPlace n o s x) (hpt : t.wingUnitChordwise.dot n = 0) (L : List (List Panel))
    (hL : leftSection w s t = .ok L) :
    rightSection w' (s.onLeft n o t) x = .ok (L.map List.reverse) := by
  obtain ⟨ia, oa, h1, h2, hg, h0⟩ := leftSection_ok w s t L hm0 hL
  have ht : MirrorPlace n o t (s.onLeft n o t) := ⟨rfl, rfl, rfl, rfl, rfl, rfl, hpt⟩
  obtain ⟨g, hg'⟩ := rightSection_exists w' (s.onLeft n o t) x (by omega) oa ia h2 (by rw [hx.airfoil]; exact h1)
  rw [hg']
  obtain ⟨a, b, p, q, -, r⟩ := rightSection_ok _ _ _ _ hg'
  have p' : t.airfoil.addControlSurface
        (if s.controlSurfaceType = "symmetric" then s.deflection else -s.deflection) s.hinge = .ok a := p
  have q' : x.airfoil.addControlSurface
        (if s.controlSurfaceType = "symmetric" then s.deflection else -s.deflection) s.hinge = .ok b := q
  rw [h2, Except.ok.injEq] at p'
  rw [hx.airfoil, h1, Except.ok.injEq] at q'
  subst p' q'
  have hcoord : w'.chordwiseCoordinates = w.chordwiseCoordinates := by
    unfold WingSpec.chordwiseCoordinates; rw [hm, hsp]
  have hv : ∀ i ≤ w.numChordwisePanels, ∀ j ≤ s.numSpanwisePanels,
      sectionVertex w' (s.onLeft n o t) x oa ia i j =
        reflectPointAcrossPlane (sectionVertex w s t ia oa i (s.numSpanwisePanels - j)) w.unitNormal w.leadingEdge := by
    intro i hi j hj
    unfold sectionVertex
    have hl : ∀ a : Airfoil, i < (mclVectors a w.chordwiseCoordinates).length := by
      intro a
      have := chordwiseCoordinates_length w
      simp [mclVectors, Airfoil.downsampledMcl, this]; omega
    rw [hle, hcoord, ht.mcl_getD hn _ _ _ (hl _), hx.mcl_getD hn _ _ _ (hl _), spanwise_reversed s j h0 hj, hwn,
      reflect_across]
    have es : (s.onLeft n o t).spanwiseCoordinates = s.spanwiseCoordinates := rfl
    rw [es]
    generalize (sectionMcl w.leadingEdge s (mclVectors ia w.chordwiseCoordinates)).getD i 0 = A
    generalize (sectionMcl w.leadingEdge t (mclVectors oa w.chordwiseCoordinates)).getD i 0 = B
    generalize s.spanwiseCoordinates.getD j 0 = c
    simp only [across_add, across_sub, across_smul]
    module
  rw [r, hg, grid_map_reverse, hm]
  congr 1
  apply grid_congr
  intro i hi j hj
  have hj : j < s.numSpanwisePanels := hj
  simp only [rightPanel, leftPanel]
  rw [hv i hi.le j hj.le, hv i hi.le (j + 1) hj, hv (i + 1) hi j hj.le, hv (i + 1) hi (j + 1) hj, hm]
  rw [show s.numSpanwisePanels - 1 - j + 1 = s.numSpanwisePanels - j by omega,
    show s.numSpanwisePanels - 1 - j = s.numSpanwisePanels - (j + 1) by omega]

theorem sectionMcl_seenFrom (q o : V3) (s : WingCrossSection) (l : List (ℝ × ℝ)) :
    sectionMcl (q + o) (s.seenFrom o) l = sectionMcl q s l := by
  unfold sectionMcl
  apply List.map_congr_left
  intro p _
  have e1 : (s.seenFrom o).unitChordwise = s.unitChordwise := rfl
  have e2 : (s.seenFrom o).unitUp = s.unitUp := rfl
  rw [e1, e2]
  simp only [WingCrossSection.seenFrom]
  module

/-- The sections on the right stay as they are. -/
theorem rightSection_seenFrom (w w' : WingSpec) (o : V3) (hle : w'.leadingEdge = w.leadingEdge + o)
    (hm : w'.numChordwisePanels = w.numChordwisePanels) (hsp : w'.chordwiseSpacing = w.chordwiseSpacing)
    (s t : WingCrossSection) : rightSection w' (s.seenFrom o) (t.seenFrom o) = rightSection w s t := by
  have hcoord : w'.chordwiseCoordinates = w.chordwiseCoordinates := by
    unfold WingSpec.chordwiseCoordinates; rw [hm, hsp]
  unfold rightSection sectionVertices
  simp only [hle, hm, hcoord, sectionMcl_seenFrom]
  rfl

/-- The sections of the whole wing. -/
theorem sections_of_halves (hn : n.dot n = 1) (w w' : WingSpec) (o : V3) (hwn : w.unitNormal = n)
    (hle : w'.leadingEdge = w.leadingEdge + o) (hm : w'.numChordwisePanels = w.numChordwisePanels)
    (hsp : w'.chordwiseSpacing = w.chordwiseSpacing) (hm0 : 0 < w.numChordwisePanels) :
    ∀ (S : List WingCrossSection) (s : WingCrossSection) (y : WingCrossSection) (Y : List WingCrossSection)
      (Ls Q : List (List (List Panel))), (∀ t ∈ s :: S, t.wingUnitChordwise.dot n = 0) → MirrorPlace n o s y →
      Forall₂ (fun s g => leftSection w s.1 s.2 = .ok g) (zip (s :: S) S) Ls →
      Forall₂ (fun s g => rightSection w' s.1 s.2 = .ok g) (zip (y :: Y) Y) Q →
      Forall₂ (fun s g => rightSection w' s.1 s.2 = .ok g)
        (zip (leftHalf n o (s :: S) ++ y :: Y) (leftHalf n o (s :: S) ++ y :: Y).tail)
        ((Ls.map (List.map List.reverse)).reverse ++ Q)
  | [], s, y, Y, Ls, Q, _, _, hL, hQ => by
    simp only [List.zip_nil_right] at hL
    cases hL
    simpa [leftHalf] using hQ
  | t :: S, s, y, Y, Ls, Q, hp, hy, hL, hQ => by
    simp only [List.zip_cons_cons] at hL
    cases hL with
    | cons h1 h2 =>
      rename_i L Ls
      have ht : MirrorPlace n o t (s.onLeft n o t) := ⟨rfl, rfl, rfl, rfl, rfl, rfl, hp t (by simp)⟩
      have := sections_of_halves hn w w' o hwn hle hm hsp hm0 S t (s.onLeft n o t) (y :: Y) Ls
        (L.map List.reverse :: Q) (fun z hz => hp z (List.mem_cons_of_mem _ hz)) ht h2
        (by
          rw [List.zip_cons_cons]
          exact .cons (rightSection_of_left hn w w' o hwn hle hm hsp hm0 s t y hy (hp t (by simp)) L h1) hQ)
      simpa [leftHalf] using this

/-- Meshing without symmetry stacks the sections. -/
theorem meshFold_of_sections (w : WingSpec) (hs : w.symmetric = false) :
    ∀ (pairs : List (WingCrossSection × WingCrossSection)) (Rs : List (List (List Panel))) (acc : List (List Panel)),
      Forall₂ (fun s g => rightSection w s.1 s.2 = .ok g) pairs Rs →
      pairs.foldlM (meshStep w) acc = .ok (Rs.foldl hstack acc)
  | _, _, acc, .nil => rfl
  | _, _, acc, .cons (l₁ := pairs) (l₂ := Rs) h1 h2 => by
    have ih := meshFold_of_sections w hs pairs Rs
    rw [List.foldlM_cons, List.foldl_cons, ← ih _ h2]
    unfold meshStep
    rw [h1]
    simp only [bind, Except.bind, hs, Bool.false_eq_true, if_false, pure, Except.pure]

/-- The rows of the whole wing are the rows of the symmetric one. -/
theorem meshFold_halves (hn : n.dot n = 1) (w w' : WingSpec) (o : V3) (hwn : w.unitNormal = n)
    (hle : w'.leadingEdge = w.leadingEdge + o) (hm : w'.numChordwisePanels = w.numChordwisePanels)
    (hsp : w'.chordwiseSpacing = w.chordwiseSpacing) (hs : w.symmetric = true) (hs' : w'.symmetric = false)
    (root t : WingCrossSection) (S : List WingCrossSection) (hroot : MirrorPlace n o root (root.seenFrom o))
    (hp : ∀ s ∈ root :: t :: S, s.wingUnitChordwise.dot n = 0) (P : List (List Panel))
    (h : (zip (root :: t :: S) (t :: S)).foldlM (meshStep w) (replicate w.numChordwisePanels []) = .ok P) :
    (zip (bothHalves n o (root :: t :: S)) (bothHalves n o (root :: t :: S)).tail).foldlM (meshStep w')
      (replicate w'.numChordwisePanels []) = .ok P := by
  obtain ⟨Ls, Rs, d⟩ := meshFold w _ _ P (by simp) h
  have hl := d.left
  rw [if_pos hs] at hl
  have hm0 : 0 < w.numChordwisePanels := by
    have := d.right
    rw [List.zip_cons_cons] at this
    cases this with
    | cons h1 h2 =>
      obtain ⟨-, -, -, -, h, -⟩ := rightSection_ok _ _ _ _ h1
      exact h
  have hQ : Forall₂ (fun s g => rightSection w' s.1 s.2 = .ok g)
      (zip ((root :: t :: S).map (WingCrossSection.seenFrom o)) ((t :: S).map (WingCrossSection.seenFrom o))) Rs := by
    rw [List.zip_map, List.forall₂_map_left_iff]
    refine d.right.imp ?_
    intro a g hag
    simp only [Prod.map]
    rw [rightSection_seenFrom w w' o hle hm hsp]
    exact hag
  have hall := sections_of_halves hn w w' o hwn hle hm hsp hm0 (t :: S) root (root.seenFrom o)
    ((t :: S).map (WingCrossSection.seenFrom o)) Ls Rs hp hroot hl hQ
  have hfold := meshFold_of_sections w' hs' _ _ (replicate w'.numChordwisePanels []) hall
  have e : leftHalf n o (root :: t :: S) ++ root.seenFrom o :: (t :: S).map (WingCrossSection.seenFrom o)
      = bothHalves n o (root :: t :: S) := rfl
  rw [e] at hfold hall
  rw [hfold]
  obtain ⟨Ls', Rs', d'⟩ := meshFold w' _ _ _ (by simp) hfold
  have hRs : Rs' = (Ls.map (List.map List.reverse)).reverse ++ Rs := by
    have h1 := d'.right
    clear hfold d' d h e hQ
    generalize (Ls.map (List.map List.reverse)).reverse ++ Rs = T at hall
    generalize zip _ _ = Z at hall h1
    induction hall generalizing Rs' with
    | nil => cases h1; rfl
    | cons a b ih =>
      cases h1 with
      | cons c d =>
        rw [a, Except.ok.injEq] at c
        rw [c, ih _ d]
  have hL' := d'.left
  rw [hs'] at hL'
  simp only [Bool.false_eq_true, if_false] at hL'
  congr 1
  apply List.ext_getElem
  · rw [d'.len, d.len, hm]
  · intro i h1 h2
    have hi : i < w.numChordwisePanels := by rw [← d.len]; exact h2
    have r := d.rows i hi
    have r' := d'.rows i (by omega)
    rw [hL', hRs] at r'
    have e1 : ∀ (l : List (List Panel)) (hl : i < l.length), l[i] = l.getD i [] := by
      intro l hl; simp [List.getD, hl]
    rw [e1 _ h1, e1 _ h2, r, r']
    have e2 : ∀ k, (replicate k ([] : List Panel)).getD i [] = [] := by
      intro k
      simp only [List.getD, List.getElem?_replicate]
      split <;> rfl
    rw [e2, e2]
    simp only [List.flatMap_nil, List.reverse_nil, List.nil_append, List.flatMap_append]
    congr 1
    rw [List.reverse_flatMap, ← List.map_reverse, List.flatMap_map]
    congr 1
    funext l
    exact map_reverse_getD l i

theorem cross_cross_eq (a b c : V3) : (a.cross b).cross c = (a.dot c) • b - (b.dot c) • a := by
  ext <;> simp [V3.cross, V3.dot] <;> ring

/-- Accepted normals are perpendicular to the chordwise direction. -/
theorem perp_of_accepted (hn : n.dot n = 1) {u ν : V3} (hu : u.dot n = 0) (h : (n.cross ν).cross u = 0) :
    ν.dot u = 0 := by
  rw [cross_cross_eq, V3.dot_comm n u, hu] at h
  have h2 := congrArg (fun v : V3 => v.dot n) h
  simp only [V3.dot] at h2 hn ⊢
  simp at h2
  nlinarith

theorem across_perp {u v : V3} (hu : u.dot n = 0) (hv : v.dot u = 0) : (n.across v).dot u = 0 := by
  have e : (n.across v).dot u = v.dot u - 2 * v.dot n * u.dot n := by
    unfold V3.across; simp [V3.dot]; ring
  rw [e, hu, hv]; ring

theorem leftHalf_head (o : V3) : ∀ (s t : WingCrossSection) (S : List WingCrossSection),
    ∃ (a : WingCrossSection) (Z : List WingCrossSection), leftHalf n o (s :: t :: S) = a.onLeft n o ((t :: S).getLast (by simp)) :: Z
  | s, t, [] => ⟨s, [], rfl⟩
  | s, t, r :: S => by
    obtain ⟨a, Z, h⟩ := leftHalf_head o t r S
    refine ⟨a, Z ++ [s.onLeft n o t], ?_⟩
    rw [leftHalf, h]
    simp

theorem leftHalf_mem (o : V3) : ∀ (S : List WingCrossSection) (x : WingCrossSection), x ∈ leftHalf n o S →
    ∃ a b : WingCrossSection, b ∈ S ∧ x = a.onLeft n o b
  | [], x, h => by simp [leftHalf] at h
  | [_], x, h => by simp [leftHalf] at h
  | s :: t :: S, x, h => by
    rw [leftHalf, List.mem_append, List.mem_singleton] at h
    rcases h with h | rfl
    · obtain ⟨a, b, hb, e⟩ := leftHalf_mem o (t :: S) x h
      exact ⟨a, b, List.mem_cons_of_mem _ hb, e⟩
    · exact ⟨s, t, by simp, rfl⟩

theorem leftHalf_count (o : V3) : ∀ S : List WingCrossSection,
    ((leftHalf n o S).map (·.numSpanwisePanels)).sum = (S.dropLast.map (·.numSpanwisePanels)).sum
  | [] => rfl
  | [_] => rfl
  | s :: t :: S => by
    rw [leftHalf, List.map_append, List.sum_append, leftHalf_count o (t :: S), List.dropLast_cons_cons]
    simp only [List.map_cons, List.map_nil, List.sum_cons, List.sum_nil, WingCrossSection.onLeft]
    omega

theorem bothHalves_count (o : V3) (s t : WingCrossSection) (S : List WingCrossSection) :
    ((bothHalves n o (s :: t :: S)).dropLast.map (·.numSpanwisePanels)).sum
      = ((s :: t :: S).dropLast.map (·.numSpanwisePanels)).sum * 2 := by
  unfold bothHalves
  rw [List.dropLast_append_of_ne_nil (by simp), List.map_append, List.sum_append, leftHalf_count,
    ← List.map_dropLast, List.map_map]
  have : ((fun x => x.numSpanwisePanels) ∘ WingCrossSection.seenFrom o) = fun x => x.numSpanwisePanels := rfl
  rw [this]
  omega

theorem leftHalf_withChordwise (o u : V3) : ∀ S : List WingCrossSection,
    (leftHalf n o S).map (fun s => { s with wingUnitChordwise := u })
      = leftHalf n o (S.map fun s => { s with wingUnitChordwise := u })
  | [] => rfl
  | [_] => rfl
  | s :: t :: S => by
    have ih := leftHalf_withChordwise o u (t :: S)
    rw [leftHalf, List.map_append, ih]
    rfl

theorem bothHalves_withChordwise (o u : V3) (S : List WingCrossSection) :
    (bothHalves n o S).map (fun s => { s with wingUnitChordwise := u })
      = bothHalves n o (S.map fun s => { s with wingUnitChordwise := u }) := by
  unfold bothHalves
  rw [List.map_append, leftHalf_withChordwise, List.map_map, List.map_map]
  rfl

open Classical in
/-- The wing with both halves given is accepted, with the panels of the symmetric wing. -/
theorem Wing.create_bothHalves (hn : n.dot n = 1) (S : List WingCrossSection) (tip : WingCrossSection)
    (htip : S.getLast? = some tip) (le u : V3) (m : ℕ) (sp : String) (w : Wing)
    (hw : Wing.create S le n true u m sp = .ok w) :
    Wing.create (bothHalves n (n.across tip.leadingEdge) S) (le + n.across tip.leadingEdge) (-(n.across tip.unitNormal))
      false u m sp = .ok
      { w with
        sections := (bothHalves n (n.across tip.leadingEdge) S).map fun s => { s with wingUnitChordwise := u }
        spec := ⟨le + n.across tip.leadingEdge, -(n.across tip.unitNormal), false, u, m, sp⟩ } := by
  obtain ⟨hspec, ha⟩ := Wing.create_ok _ _ _ _ _ _ _ w hw
  obtain ⟨root, t, rest, rfl⟩ : ∃ root t rest, S = root :: t :: rest := by
    have := ha.two
    match S, this with
    | root :: t :: rest, _ => exact ⟨root, t, rest, rfl⟩
  set o := n.across tip.leadingEdge with ho
  have h1 := ha.spacing
  have h2 := ha.rootNormal root rfl
  have h3 := ha.rootLE root rfl
  have h4 := ha.perp
  have h5 := ha.normals
  have h6 := ha.stored
  have h7 := ha.nspan
  have h8 := ha.npanels
  have h9 := ha.mesh
  rw [hspec] at h1 h2 h4 h5 h6 h7 h8 h9
  simp only at h1 h2 h4 h5 h6 h7 h8
  have hperp : ∀ s ∈ root :: t :: rest, s.unitNormal.dot u = 0 := fun s hs => perp_of_accepted hn h4 (h5 s hs)
  have hlast : (t :: rest).getLast (by simp) = tip := by
    rw [List.getLast?_cons_cons, List.getLast?_eq_some_getLast (by simp), Option.some.injEq] at htip
    exact htip
  have htipm : tip ∈ root :: t :: rest := by
    rw [← hlast]; exact List.mem_cons_of_mem _ (List.getLast_mem _)
  obtain ⟨a, Z, hhead⟩ := leftHalf_head (n := n) o root t rest
  rw [hlast] at hhead
  obtain ⟨second, rest', hF⟩ : ∃ second rest', bothHalves n o (root :: t :: rest) = a.onLeft n o tip :: second :: rest' := by
    unfold bothHalves
    rw [hhead]
    cases Z with
    | nil => exact ⟨_, _, rfl⟩
    | cons z Z => exact ⟨_, _, rfl⟩
  rw [Wing.create_two _ _ _ _ hF, if_neg (not_not.mpr h1), if_neg (by simp [WingCrossSection.onLeft]),
    if_neg (by simp [WingCrossSection.onLeft, ho])]
  have hnu : u.dot (-(n.across tip.unitNormal)) = 0 := by
    have := across_perp h4 (hperp tip htipm)
    rw [V3.dot_comm] at this
    have e : u.dot (-(n.across tip.unitNormal)) = -(u.dot (n.across tip.unitNormal)) := by simp [V3.dot]; ring
    rw [e, this, neg_zero]
  rw [if_neg (by simpa using hnu)]
  have hall : ∀ s ∈ bothHalves n o (root :: t :: rest), s.unitNormal.dot u = 0 := by
    intro s hs
    unfold bothHalves at hs
    rw [List.mem_append, List.mem_map] at hs
    rcases hs with hs | ⟨x, hx, rfl⟩
    · obtain ⟨a, b, hb, rfl⟩ := leftHalf_mem o _ _ hs
      have := across_perp h4 (hperp b hb)
      have e : (a.onLeft n o b).unitNormal.dot u = -((n.across b.unitNormal).dot u) := by
        simp [WingCrossSection.onLeft, V3.dot]; ring
      rw [e, this, neg_zero]
    · exact hperp x hx
  rw [if_neg]
  swap
  · rw [Bool.not_eq_true, List.any_eq_false]
    intro s hs
    rw [decide_eq_true_eq, not_not, cross_cross_eq, hall s hs, V3.dot_comm, hnu]
    simp
  have hN : w.numSpanwisePanels = ((bothHalves n o (root :: t :: rest)).dropLast.map (·.numSpanwisePanels)).sum := by
    rw [h7, bothHalves_count]; rfl
  have hmesh : meshWing ⟨le + o, -(n.across tip.unitNormal), false, u, m, sp⟩
      ((bothHalves n o (root :: t :: rest)).map fun s => { s with wingUnitChordwise := u }) w.numSpanwisePanels
      = .ok w.panels := by
    unfold meshWing at h9 ⊢
    rw [h6] at h9
    cases hf : (zip (withChordwise u (root :: t :: rest)) (withChordwise u (root :: t :: rest)).tail).foldlM
        (meshStep ⟨le, n, true, u, m, sp⟩) (replicate m []) with
    | error e => rw [hf] at h9; simp [bind, Except.bind] at h9
    | ok P =>
      rw [hf] at h9
      have := meshFold_halves hn ⟨le, n, true, u, m, sp⟩ ⟨le + o, -(n.across tip.unitNormal), false, u, m, sp⟩ o rfl rfl
        rfl rfl rfl rfl { root with wingUnitChordwise := u } { t with wingUnitChordwise := u } (withChordwise u rest)
        ⟨rfl, rfl, rfl, by simp [WingCrossSection.seenFrom, h3, across_zero],
          by simp [WingCrossSection.seenFrom, ← h2, across_self hn], rfl, h4⟩
        (by
          intro s hs
          have hs' : s ∈ withChordwise u (root :: t :: rest) := hs
          unfold withChordwise at hs'
          obtain ⟨x, -, rfl⟩ := List.mem_map.mp hs'
          exact h4) P hf
      rw [bothHalves_withChordwise]
      have e : (root :: t :: rest).map (fun s => { s with wingUnitChordwise := u })
        = { root with wingUnitChordwise := u } :: { t with wingUnitChordwise := u } :: withChordwise u rest := rfl
      rw [e, this]
      exact h9
  simp only [Bool.false_eq_true, if_false, ← hN, hmesh, bind, Except.bind, pure, Except.pure, Except.ok.injEq]
  rw [h8]

/-! ## Span and mean chord -/

theorem projectedSpan_across (hn : n.dot n = 1) (v : V3) : Wing.projectedSpan n (n.across v) = Wing.projectedSpan n v := by
  unfold Wing.projectedSpan
  have e : (n.across v).dot n = -(v.dot n) := by
    have : (n.across v).dot n = v.dot n - 2 * v.dot n * n.dot n := by unfold V3.across; simp [V3.dot]; ring
    rw [this, hn]; ring
  rw [e, show -(v.dot n) • n = (-1 : ℝ) • (v.dot n • n) by module, V3.norm_smul]
  simp

theorem projectedSpan_neg (v : V3) : Wing.projectedSpan n (-v) = Wing.projectedSpan n v := by
  unfold Wing.projectedSpan
  have e : (-v).dot n = -(v.dot n) := by simp [V3.dot]; ring
  rw [e, show -(v.dot n) • n = (-1 : ℝ) • (v.dot n • n) by module, V3.norm_smul]
  simp

theorem macTerm_seenFrom (o : V3) (s t : WingCrossSection) :
    Wing.macTerm n (s.seenFrom o, t.seenFrom o) = Wing.macTerm n (s, t) := by
  unfold Wing.macTerm WingCrossSection.seenFrom
  simp only
  rw [show t.leadingEdge - o - (s.leadingEdge - o) = t.leadingEdge - s.leadingEdge by module]

theorem macTerm_onLeft (hn : n.dot n = 1) (o : V3) (s t x : WingCrossSection) (hc : x.chord = s.chord)
    (hx : x.leadingEdge = n.across s.leadingEdge - o) :
    Wing.macTerm n (s.onLeft n o t, x) = Wing.macTerm n (s, t) := by
  unfold Wing.macTerm WingCrossSection.onLeft
  simp only [hx, hc]
  rw [show n.across s.leadingEdge - o - (n.across t.leadingEdge - o)
      = -(n.across (t.leadingEdge - s.leadingEdge)) by rw [across_sub]; module, projectedSpan_neg,
    projectedSpan_across hn]
  ring

theorem mac_left (hn : n.dot n = 1) (o : V3) : ∀ (S : List WingCrossSection) (s y : WingCrossSection)
    (Y : List WingCrossSection), y.chord = s.chord → y.leadingEdge = n.across s.leadingEdge - o →
    ((zip (leftHalf n o (s :: S) ++ y :: Y) (leftHalf n o (s :: S) ++ y :: Y).tail).map (Wing.macTerm n)).sum
      = ((zip (s :: S) S).map (Wing.macTerm n)).sum + ((zip (y :: Y) Y).map (Wing.macTerm n)).sum
  | [], s, y, Y, _, _ => by simp [leftHalf]
  | t :: S, s, y, Y, hc, hy => by
    have ih := mac_left hn o S t (s.onLeft n o t) (y :: Y) rfl rfl
    simp only [leftHalf, List.append_assoc, List.cons_append, List.nil_append]
    rw [ih, List.zip_cons_cons, List.zip_cons_cons, List.map_cons, List.map_cons, List.sum_cons, List.sum_cons,
      macTerm_onLeft hn o s t y hc hy]
    ring

/-- The integral of the mean chord over both halves is twice that over one. -/
theorem mac_bothHalves (hn : n.dot n = 1) (o : V3) (root : WingCrossSection) (S : List WingCrossSection)
    (hr : root.leadingEdge = 0) :
    ((zip (bothHalves n o (root :: S)) (bothHalves n o (root :: S)).tail).map (Wing.macTerm n)).sum
      = 2 * ((zip (root :: S) S).map (Wing.macTerm n)).sum := by
  have h := mac_left hn o S root (root.seenFrom o) (S.map (WingCrossSection.seenFrom o)) rfl
    (by simp [WingCrossSection.seenFrom, hr, across_zero])
  have e : leftHalf n o (root :: S) ++ root.seenFrom o :: S.map (WingCrossSection.seenFrom o)
      = bothHalves n o (root :: S) := rfl
  rw [e] at h
  rw [h]
  have e2 : zip (root.seenFrom o :: S.map (WingCrossSection.seenFrom o)) (S.map (WingCrossSection.seenFrom o))
      = (zip (root :: S) S).map (Prod.map (WingCrossSection.seenFrom o) (WingCrossSection.seenFrom o)) := by
    rw [← List.zip_map]; rfl
  rw [e2, List.map_map]
  have e3 : Wing.macTerm n ∘ Prod.map (WingCrossSection.seenFrom o) (WingCrossSection.seenFrom o) = Wing.macTerm n := by
    funext ⟨s, t⟩
    exact macTerm_seenFrom o s t
  rw [e3]
  ring

theorem macTerm_withChordwise (u : V3) (S : List WingCrossSection) :
    ((zip (S.map fun s => { s with wingUnitChordwise := u }) (S.map fun s => { s with wingUnitChordwise := u }).tail).map
      (Wing.macTerm n)).sum = ((zip S S.tail).map (Wing.macTerm n)).sum := by
  rw [← List.map_tail, List.zip_map, List.map_map]
  rfl

end Ptera
