import Verif.Lemmas.Mesh
import Verif.Props.Spacing
import Verif.Props.Frames

/-! Helper lemmas: adjacency and mirror structure of the assembled mesh. -/

namespace Ptera

open List

/-- Entry `[i, j]` of a two-dimensional array, if there is one. -/
def cell {α : Type*} (g : List (List α)) (i j : ℕ) : Option α := g[i]?.bind (·[j]?)

/-- `q` lies directly to the right of `p`: they share an edge. -/
def SpanAdj (p q : Panel) : Prop := p.frontRight = q.frontLeft ∧ p.backRight = q.backLeft

/-- `q` lies directly behind `p`: they share an edge. -/
def ChordAdj (p q : Panel) : Prop := p.backLeft = q.frontLeft ∧ p.backRight = q.frontRight

/-- The mirror image of a panel: vertices reflected, left and right exchanged, flags kept. -/
noncomputable def Panel.mirror (n q : V3) (p : Panel) : Panel :=
  { p with
    frontLeft := reflectPointAcrossPlane p.frontRight n q
    frontRight := reflectPointAcrossPlane p.frontLeft n q
    backLeft := reflectPointAcrossPlane p.backRight n q
    backRight := reflectPointAcrossPlane p.backLeft n q }

/-- The block of a section whose airfoils are flapped by `δ inner`. -/
def IsBlock (w : WingSpec) (δ : WingCrossSection → ℝ) (s : WingCrossSection × WingCrossSection)
    (g : List (List Panel)) : Prop :=
  ∃ ia oa, s.1.airfoil.addControlSurface (δ s.1) s.1.hinge = .ok ia ∧
    s.2.airfoil.addControlSurface (δ s.1) s.1.hinge = .ok oa ∧
    g = grid w.numChordwisePanels s.1.numSpanwisePanels (rightPanel w s.1 s.2 ia oa)

/-- The deflection used on the mirrored side (meshing.py 158-181). -/
def mirroredDeflection (s : WingCrossSection) : ℝ :=
  if s.controlSurfaceType = "symmetric" then s.deflection else -s.deflection

theorem leftPanel_eq_mirror (w : WingSpec) (inner outer : WingCrossSection) (ia oa : Airfoil) (i j : ℕ) :
    leftPanel w inner outer ia oa i j = (rightPanel w inner outer ia oa i j).mirror w.unitNormal w.leadingEdge :=
  rfl

theorem isBlock_right (w : WingSpec) (pairs : List (WingCrossSection × WingCrossSection))
    (Rs : List (List (List Panel))) (h : Forall₂ (fun s g => rightSection w s.1 s.2 = .ok g) pairs Rs) :
    Forall₂ (IsBlock w (·.deflection)) pairs Rs :=
  h.imp fun s g hg => by
    obtain ⟨ia, oa, h1, h2, _, h4⟩ := rightSection_ok w s.1 s.2 g hg
    exact ⟨ia, oa, h1, h2, h4⟩

theorem isBlock_left (w : WingSpec) (hm : 0 < w.numChordwisePanels)
    (pairs : List (WingCrossSection × WingCrossSection)) :
    ∀ Ls : List (List (List Panel)), Forall₂ (fun s g => leftSection w s.1 s.2 = .ok g) pairs Ls →
    ∃ Bs, Forall₂ (IsBlock w mirroredDeflection) pairs Bs ∧
      Ls = Bs.map (List.map (List.map (Panel.mirror w.unitNormal w.leadingEdge))) := by
  induction pairs with
  | nil => intro Ls h; cases h; exact ⟨[], Forall₂.nil, rfl⟩
  | cons s pairs ih =>
    intro Ls h
    cases h with
    | cons hg hr =>
      obtain ⟨Bs, hB, rfl⟩ := ih _ hr
      obtain ⟨ia, oa, h1, h2, h3, _⟩ := leftSection_ok w s.1 s.2 _ hm hg
      refine ⟨grid w.numChordwisePanels s.1.numSpanwisePanels (rightPanel w s.1 s.2 ia oa) :: Bs,
        Forall₂.cons ⟨ia, oa, h1, h2, rfl⟩ hB, ?_⟩
      rw [List.map_cons, grid_map, h3]
      rfl

/-- Blocks depend on the deflections only. -/
theorem isBlock_unique (w : WingSpec) (δ ε : WingCrossSection → ℝ)
    (pairs : List (WingCrossSection × WingCrossSection)) (h : ∀ s ∈ pairs, δ s.1 = ε s.1) :
    ∀ As Bs, Forall₂ (IsBlock w δ) pairs As → Forall₂ (IsBlock w ε) pairs Bs → As = Bs := by
  induction pairs with
  | nil => intro As Bs h1 h2; cases h1; cases h2; rfl
  | cons s pairs ih =>
    intro As Bs h1 h2
    cases h1 with
    | cons a1 r1 =>
      cases h2 with
      | cons a2 r2 =>
        obtain ⟨ia, oa, e1, e2, rfl⟩ := a1
        obtain ⟨ja, ka, f1, f2, rfl⟩ := a2
        rw [h s (by simp)] at e1 e2
        rw [e1] at f1
        rw [e2] at f2
        cases f1
        cases f2
        rw [ih (fun t ht => h t (by simp [ht])) _ _ r1 r2]

/-- Row `i` of a list of blocks. -/
def blockRow (Bs : List (List (List Panel))) (i : ℕ) : List Panel := Bs.flatMap (·.getD i [])

theorem blockRow_mirror (Bs : List (List (List Panel))) (f : Panel → Panel) (i : ℕ) :
    blockRow (Bs.map (List.map (List.map f))) i = (blockRow Bs i).map f := by
  unfold blockRow
  induction Bs with
  | nil => rfl
  | cons b Bs ih =>
    simp only [List.map_cons, List.flatMap_cons, List.map_append, ih]
    congr 1
    simp only [List.getD, List.getElem?_map]
    cases b[i]? <;> simp

theorem blockRow_length (w : WingSpec) (δ : WingCrossSection → ℝ)
    (pairs : List (WingCrossSection × WingCrossSection)) (i : ℕ) (hi : i < w.numChordwisePanels) :
    ∀ Bs, Forall₂ (IsBlock w δ) pairs Bs →
      (blockRow Bs i).length = (pairs.map fun s => s.1.numSpanwisePanels).sum := by
  induction pairs with
  | nil => intro Bs h; cases h; rfl
  | cons s pairs ih =>
    intro Bs h
    cases h with
    | cons hb hr =>
      obtain ⟨ia, oa, _, _, rfl⟩ := hb
      have := ih _ hr
      unfold blockRow at this ⊢
      rw [List.flatMap_cons, List.length_append, this, grid_getD _ _ _ _ hi]
      simp

theorem blockRow_chordAdj (w : WingSpec) (δ : WingCrossSection → ℝ)
    (pairs : List (WingCrossSection × WingCrossSection)) (i : ℕ) (hi : i + 1 < w.numChordwisePanels) :
    ∀ Bs, Forall₂ (IsBlock w δ) pairs Bs → Forall₂ ChordAdj (blockRow Bs i) (blockRow Bs (i + 1)) := by
  induction pairs with
  | nil => intro Bs h; cases h; exact Forall₂.nil
  | cons s pairs ih =>
    intro Bs h
    cases h with
    | cons hb hr =>
      obtain ⟨ia, oa, _, _, rfl⟩ := hb
      have := ih _ hr
      unfold blockRow at this ⊢
      rw [List.flatMap_cons, List.flatMap_cons]
      refine rel_append ?_ this
      rw [grid_getD _ _ _ _ (by omega), grid_getD _ _ _ _ hi]
      rw [forall₂_map_left_iff, forall₂_map_right_iff, forall₂_same]
      intro j _
      exact ⟨rfl, rfl⟩

/-! Spanwise adjacency -/

/-- Point `i` of a section's (flapped) camber line in space. -/
noncomputable def sectionPoint (w : WingSpec) (s : WingCrossSection) (a : Airfoil) (i : ℕ) : V3 :=
  (sectionMcl w.leadingEdge s (mclVectors a w.chordwiseCoordinates)).getD i 0

theorem spanwise_ends (s : WingCrossSection) (h : 0 < s.numSpanwisePanels) :
    s.spanwiseCoordinates.getD 0 0 = 0 ∧ s.spanwiseCoordinates.getD s.numSpanwisePanels 0 = 1 := by
  unfold WingCrossSection.spanwiseCoordinates
  split
  · have g := C07_linspace 0 1 (s.numSpanwisePanels + 1) one_pos (by omega)
    have h1 := g.first
    have h2 := g.last
    simp only [Nat.add_sub_cancel] at h2
    simp [List.getD, h1, h2]
  · have g := C07_cosspace 0 1 (s.numSpanwisePanels + 1) one_pos (by omega)
    have h1 := g.first
    have h2 := g.last
    simp only [Nat.add_sub_cancel] at h2
    simp [List.getD, h1, h2]

theorem sectionVertex_inner (w : WingSpec) (s t : WingCrossSection) (ia oa : Airfoil) (i : ℕ)
    (h : 0 < s.numSpanwisePanels) : sectionVertex w s t ia oa i 0 = sectionPoint w s ia i := by
  unfold sectionVertex sectionPoint
  simp only [(spanwise_ends s h).1]
  simp

theorem sectionVertex_outer (w : WingSpec) (s t : WingCrossSection) (ia oa : Airfoil) (i : ℕ)
    (h : 0 < s.numSpanwisePanels) :
    sectionVertex w s t ia oa i s.numSpanwisePanels = sectionPoint w t oa i := by
  unfold sectionVertex sectionPoint
  simp only [(spanwise_ends s h).2]
  simp

theorem row_isChain (w : WingSpec) (s t : WingCrossSection) (ia oa : Airfoil) (i n : ℕ) :
    ((range n).map (rightPanel w s t ia oa i)).IsChain SpanAdj := by
  rw [List.isChain_iff_getElem]
  intro j hj
  simp only [List.getElem_map, List.getElem_range]
  exact ⟨rfl, rfl⟩

/-- A row of consecutive sections with one deflection `d` and one hinge `h` is a chain of panels sharing edges,
starting on the first section's camber line. -/
theorem blockRow_chain (w : WingSpec) (δ : WingCrossSection → ℝ) (d h : ℝ) (i : ℕ)
    (hi : i < w.numChordwisePanels) (S : List WingCrossSection) :
    (∀ s ∈ S.dropLast, δ s = d ∧ s.hinge = h ∧ 0 < s.numSpanwisePanels) →
    ∀ Bs, Forall₂ (IsBlock w δ) (List.zip S S.tail) Bs →
      (blockRow Bs i).IsChain SpanAdj ∧
      ∀ s a, S.head? = some s → s.airfoil.addControlSurface d h = .ok a →
        ∀ p ∈ (blockRow Bs i).head?,
          p.frontLeft = sectionPoint w s a i ∧ p.backLeft = sectionPoint w s a (i + 1) := by
  induction S with
  | nil => intro _ Bs hB; cases hB; simp [blockRow]
  | cons s S ih =>
    intro hS Bs hB
    cases S with
    | nil => cases hB; simp [blockRow]
    | cons t S =>
      simp only [List.tail_cons, List.zip_cons_cons] at hB
      cases hB with
      | cons hb hr =>
        rename_i b Bs
        obtain ⟨ia, oa, h1, h2, hb⟩ := hb
        simp only at h1 h2 hb
        have hs := hS s (by simp)
        have hr' : Forall₂ (IsBlock w δ) (List.zip (t :: S) (t :: S).tail) Bs := hr
        obtain ⟨c, e⟩ := ih (fun x hx => hS x (by simp at hx ⊢; tauto)) Bs hr'
        rw [hs.1, hs.2.1] at h1 h2
        have hrow : blockRow (b :: Bs) i
            = (range s.numSpanwisePanels).map (rightPanel w s t ia oa i) ++ blockRow Bs i := by
          unfold blockRow
          rw [List.flatMap_cons, hb, grid_getD _ _ _ _ hi]
        obtain ⟨k, hk⟩ : ∃ k, s.numSpanwisePanels = k + 1 := ⟨s.numSpanwisePanels - 1, by omega⟩
        constructor
        · rw [hrow, List.isChain_append]
          refine ⟨row_isChain w s t ia oa i _, c, ?_⟩
          intro p hp q hq
          obtain ⟨e1, e2⟩ := e t oa (by simp) h2 q hq
          have : p = rightPanel w s t ia oa i k := by
            rw [hk, List.range_succ, List.map_append] at hp
            simp at hp
            exact hp.symm
          subst this
          refine ⟨?_, ?_⟩
          · rw [e1, ← sectionVertex_outer w s t ia oa i hs.2.2, hk]; rfl
          · rw [e2, ← sectionVertex_outer w s t ia oa (i + 1) hs.2.2, hk]; rfl
        · intro s' a hs' ha p hp
          simp only [List.head?_cons, Option.some.injEq] at hs'
          subst hs'
          rw [h1] at ha
          cases ha
          rw [hrow, hk, List.range_succ_eq_map] at hp
          simp only [List.map_cons, List.cons_append, List.head?_cons, Option.mem_def, Option.some.injEq] at hp
          subst hp
          exact ⟨sectionVertex_inner w s t ia oa i hs.2.2, sectionVertex_inner w s t ia oa (i + 1) hs.2.2⟩

/-! The final grid -/

/-- The grid of an accepted wing in terms of its blocks. -/
theorem WingAccepted.grid {S : List WingCrossSection} {w : Wing} (h : WingAccepted S w) :
    0 < w.spec.numChordwisePanels ∧
    ∃ Rs Ls, Forall₂ (IsBlock w.spec (·.deflection)) (List.zip w.sections w.sections.tail) Rs ∧
      (if w.spec.symmetric then
        Forall₂ (IsBlock w.spec mirroredDeflection) (List.zip w.sections w.sections.tail) Ls else Ls = []) ∧
      w.panels.length = w.spec.numChordwisePanels ∧
      ∀ i < w.spec.numChordwisePanels, w.panels.getD i []
        = (((blockRow Ls i).map (Panel.mirror w.spec.unitNormal w.spec.leadingEdge)).reverse
            ++ blockRow Rs i).mapIdx fun j p => p.place w.numSpanwisePanels i j := by
  have hmesh := h.mesh
  unfold meshWing at hmesh
  simp only [bind, Except.bind] at hmesh
  split at hmesh
  · simp at hmesh
  · rename_i P hP
    obtain ⟨Ls, Rs, d⟩ := meshFold w.spec _ _ P (by simp) hP
    have hm : 0 < w.spec.numChordwisePanels := by
      have h2 : 2 ≤ w.sections.length := by rw [h.stored]; simpa [withChordwise] using h.two
      have hr := d.right
      match hsec : w.sections, h2 with
      | a :: b :: l, _ =>
        rw [hsec] at hr
        simp only [List.tail_cons, List.zip_cons_cons] at hr
        cases hr with
        | cons hg _ =>
          obtain ⟨_, _, _, _, hm, _⟩ := rightSection_ok _ _ _ _ hg
          exact hm
    have hR := isBlock_right _ _ _ d.right
    have hsum : ((List.zip w.sections w.sections.tail).map fun s => s.1.numSpanwisePanels).sum
        = (S.dropLast.map (·.numSpanwisePanels)).sum := by
      rw [h.stored]
      have : ∀ l : List WingCrossSection, (List.zip l l.tail).map (fun s => s.1.numSpanwisePanels)
          = l.dropLast.map (·.numSpanwisePanels) := by
        intro l
        induction l with
        | nil => rfl
        | cons a l ih => cases l with
          | nil => rfl
          | cons b l => simpa using ih
      rw [this]
      unfold withChordwise
      rw [← List.map_dropLast, List.map_map]
      rfl
    have hrows : ∀ (Bs : List (List (List Panel))),
        (if w.spec.symmetric then
          Forall₂ (IsBlock w.spec mirroredDeflection) (List.zip w.sections w.sections.tail) Bs else Bs = []) →
        Ls = Bs.map (List.map (List.map (Panel.mirror w.spec.unitNormal w.spec.leadingEdge))) →
        ∀ row ∈ P, row.length = w.numSpanwisePanels := by
      intro Bs hBs hLs row hrow
      obtain ⟨i, hi, rfl⟩ := List.getElem_of_mem hrow
      have hi' : i < w.spec.numChordwisePanels := by rw [← d.len]; exact hi
      have e : P[i] = P.getD i [] := by simp [List.getD, hi]
      rw [e, d.rows i hi', h.nspan]
      have l1 := blockRow_length w.spec _ _ i hi' Rs hR
      unfold blockRow at l1
      rw [List.length_append, List.length_append, l1, List.length_reverse, hsum]
      have l2 : ((List.replicate w.spec.numChordwisePanels ([] : List Panel)).getD i []).length = 0 := by
        simp [List.getD, hi']
      rw [l2, hLs]
      have l3 : ((Bs.map (List.map (List.map (Panel.mirror w.spec.unitNormal w.spec.leadingEdge)))).flatMap
          (·.getD i [])).length = (blockRow Bs i).length := by
        have := blockRow_mirror Bs (Panel.mirror w.spec.unitNormal w.spec.leadingEdge) i
        unfold blockRow at this ⊢
        rw [this]; simp
      rw [l3]
      by_cases hsym : w.spec.symmetric = true
      · rw [if_pos hsym] at hBs
        rw [if_pos hsym, blockRow_length w.spec _ _ i hi' Bs hBs, hsum]; omega
      · rw [if_neg hsym] at hBs
        rw [if_neg hsym, hBs]; simp [blockRow]
    obtain ⟨Bs, hBs, hLs⟩ : ∃ Bs, (if w.spec.symmetric then
          Forall₂ (IsBlock w.spec mirroredDeflection) (List.zip w.sections w.sections.tail) Bs else Bs = []) ∧
        Ls = Bs.map (List.map (List.map (Panel.mirror w.spec.unitNormal w.spec.leadingEdge))) := by
      have hl := d.left
      by_cases hsym : w.spec.symmetric = true
      · simp only [if_pos hsym] at hl ⊢
        exact isBlock_left w.spec hm _ Ls hl
      · simp only [if_neg hsym] at hl ⊢
        exact ⟨[], rfl, by rw [hl]; rfl⟩
    have hQ := setPositions_ok _ _ P w.panels d.len (hrows Bs hBs hLs) hmesh
    refine ⟨hm, Rs, Bs, hR, hBs, by rw [hQ]; simpa using d.len, ?_⟩
    intro i hi
    have hi2 : i < P.length := by rw [d.len]; exact hi
    have e : w.panels.getD i [] = (P.getD i []).mapIdx fun j p => p.place w.numSpanwisePanels i j := by
      rw [hQ]; simp [List.getD, hi2]
    rw [e, d.rows i hi]
    have l2 : (List.replicate w.spec.numChordwisePanels ([] : List Panel)).getD i [] = [] := by
      simp [List.getD, hi]
    have := blockRow_mirror Bs (Panel.mirror w.spec.unitNormal w.spec.leadingEdge) i
    rw [l2, hLs]
    unfold blockRow at this ⊢
    rw [this]
    simp

end Ptera
