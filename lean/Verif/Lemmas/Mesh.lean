import Verif.Model.Geometry
import Verif.Lemmas.Lists

/-! Helper lemmas about the mesher: explicit form of every block and of the assembled grid. -/

namespace Ptera

open List

/-- The grid of the values `f i j`. -/
def grid {α : Type*} (m n : ℕ) (f : ℕ → ℕ → α) : List (List α) :=
  (range m).map fun i => (range n).map (f i)

@[simp] theorem grid_length {α : Type*} (m n : ℕ) (f : ℕ → ℕ → α) : (grid m n f).length = m := by
  simp [grid]

theorem grid_getD {α : Type*} (m n : ℕ) (f : ℕ → ℕ → α) (i : ℕ) (hi : i < m) :
    (grid m n f).getD i [] = (range n).map (f i) := by
  simp [grid, List.getD, hi]

theorem at2_grid {α : Type*} (m n : ℕ) (f : ℕ → ℕ → α) (d : α) (i j : ℕ) (hi : i < m) (hj : j < n) :
    at2 (grid m n f) d i j = f i j := by
  rw [at2, grid_getD m n f i hi]
  simp [List.getD, hj]

theorem grid_congr {α : Type*} (m n : ℕ) (f g : ℕ → ℕ → α) (h : ∀ i < m, ∀ j < n, f i j = g i j) :
    grid m n f = grid m n g := by
  unfold grid
  apply List.map_congr_left
  intro i hi
  apply List.map_congr_left
  intro j hj
  exact h i (List.mem_range.mp hi) j (List.mem_range.mp hj)

theorem grid_map {α β : Type*} (m n : ℕ) (f : ℕ → ℕ → α) (g : α → β) :
    (grid m n f).map (List.map g) = grid m n fun i j => g (f i j) := by
  simp [grid, List.map_map, Function.comp_def]

theorem grid_tail {α : Type*} (m n : ℕ) (f : ℕ → ℕ → α) :
    (grid (m + 1) n f).tail = grid m n fun i j => f (i + 1) j := by
  simp [grid, List.range_succ_eq_map, List.map_map, Function.comp_def]

theorem grid_dropLast {α : Type*} (m n : ℕ) (f : ℕ → ℕ → α) :
    (grid (m + 1) n f).dropLast = grid m n f := by
  simp [grid, List.range_succ]

theorem grid_map_dropLast {α : Type*} (m n : ℕ) (f : ℕ → ℕ → α) :
    (grid m (n + 1) f).map List.dropLast = grid m n f := by
  simp [grid, List.range_succ, Function.comp_def]

theorem grid_map_tail {α : Type*} (m n : ℕ) (f : ℕ → ℕ → α) :
    (grid m (n + 1) f).map List.tail = grid m n fun i j => f i (j + 1) := by
  simp [grid, List.map_map, Function.comp_def, List.range_succ_eq_map]

theorem interp_grid (a b : List V3) (s : List ℝ) (m n : ℕ) (ha : a.length = m) (hb : b.length = m)
    (hs : s.length = n) :
    interpBetweenPoints a b s
      = grid m n fun i j => a.getD i 0 + (s.getD j 0) • (b.getD i 0 - a.getD i 0) := by
  unfold interpBetweenPoints grid
  apply List.ext_getElem
  · simp [ha, hb]
  · intro i h1 h2
    have hi : i < m := by simpa using h2
    simp only [List.getElem_zipWith, List.getElem_map, List.getElem_range]
    apply List.ext_getElem
    · simp [hs]
    · intro j h3 h4
      have hj : j < n := by simpa using h4
      have e1 : a.getD i 0 = a[i]'(by omega) := by simp [List.getD, show i < a.length by omega]
      have e2 : b.getD i 0 = b[i]'(by omega) := by simp [List.getD, show i < b.length by omega]
      have e3 : s.getD j 0 = s[j]'(by omega) := by simp [List.getD, show j < s.length by omega]
      simp only [List.getElem_map, List.getElem_range, e1, e2, e3]

/-- Vertex `[i, j]` of the section between `inner` and `outer`, with the given (flapped) airfoils. -/
noncomputable def sectionVertex (w : WingSpec) (inner outer : WingCrossSection) (ia oa : Airfoil)
    (i j : ℕ) : V3 :=
  let a := (sectionMcl w.leadingEdge inner (mclVectors ia w.chordwiseCoordinates)).getD i 0
  let b := (sectionMcl w.leadingEdge outer (mclVectors oa w.chordwiseCoordinates)).getD i 0
  a + (inner.spanwiseCoordinates.getD j 0) • (b - a)

theorem chordwiseCoordinates_length (w : WingSpec) :
    w.chordwiseCoordinates.length = w.numChordwisePanels + 1 := by
  unfold WingSpec.chordwiseCoordinates; split <;> simp [cosspace, linspace_length]

theorem spanwiseCoordinates_length (s : WingCrossSection) :
    s.spanwiseCoordinates.length = s.numSpanwisePanels + 1 := by
  unfold WingCrossSection.spanwiseCoordinates; split <;> simp [cosspace, linspace_length]

theorem sectionMcl_length (q : V3) (s : WingCrossSection) (a : Airfoil) (w : WingSpec) :
    (sectionMcl q s (mclVectors a w.chordwiseCoordinates)).length = w.numChordwisePanels + 1 := by
  simp [sectionMcl, mclVectors, Airfoil.downsampledMcl, chordwiseCoordinates_length]

theorem sectionVertices_eq (w : WingSpec) (inner outer : WingCrossSection) (ia oa : Airfoil) :
    let v := sectionVertices w.leadingEdge inner outer (mclVectors ia w.chordwiseCoordinates)
      (mclVectors oa w.chordwiseCoordinates) inner.spanwiseCoordinates
    let f := sectionVertex w inner outer ia oa
    let m := w.numChordwisePanels
    let n := inner.numSpanwisePanels
    v.frontInner = grid m n f ∧ v.frontOuter = grid m n (fun i j => f i (j + 1)) ∧
    v.backInner = grid m n (fun i j => f (i + 1) j) ∧
    v.backOuter = grid m n (fun i j => f (i + 1) (j + 1)) := by
  intro v f m n
  have hv : interpBetweenPoints (sectionMcl w.leadingEdge inner (mclVectors ia w.chordwiseCoordinates))
      (sectionMcl w.leadingEdge outer (mclVectors oa w.chordwiseCoordinates)) inner.spanwiseCoordinates
      = grid (m + 1) (n + 1) f :=
    interp_grid _ _ _ _ _ (sectionMcl_length _ _ _ _) (sectionMcl_length _ _ _ _)
      (spanwiseCoordinates_length _)
  refine ⟨?_, ?_, ?_, ?_⟩
  · show (interpBetweenPoints _ _ _).dropLast.map List.dropLast = _
    rw [hv, grid_dropLast, grid_map_dropLast]
  · show (interpBetweenPoints _ _ _).dropLast.map List.tail = _
    rw [hv, grid_dropLast, grid_map_tail]
  · show (interpBetweenPoints _ _ _).tail.map List.dropLast = _
    rw [hv, grid_tail, grid_map_dropLast]
  · show (interpBetweenPoints _ _ _).tail.map List.tail = _
    rw [hv, grid_tail, grid_map_tail]

theorem trailingMask_at (m n i j : ℕ) (hm : 0 < m) (hi : i < m) (hj : j < n) :
    at2 (trailingMask m n) false i j = decide (i + 1 = m) := by
  unfold trailingMask at2
  by_cases h : i + 1 = m
  · have : i = m - 1 := by omega
    subst this
    have e : (List.replicate (m - 1) (List.replicate n false) ++ [List.replicate n true])[m - 1]?
        = some (List.replicate n true) := by
      rw [List.getElem?_append_right (by simp)]; simp
    simp [List.getD, e, hj, h]
  · have : i < m - 1 := by omega
    simp [List.getD, List.getElem?_append, this, hj, h]

theorem leadingMask_at (m n i j : ℕ) (hi : i < m) (hj : j < n) :
    at2 (leadingMask m n) false i j = decide (i = 0) := by
  unfold leadingMask at2
  cases i with
  | zero => simp [List.getD, hj]
  | succ i =>
    have : i < m - 1 := by omega
    simp [List.getD, this, hj]

/-- The panel of a right-hand section at `[i, j]`. -/
noncomputable def rightPanel (w : WingSpec) (inner outer : WingCrossSection) (ia oa : Airfoil)
    (i j : ℕ) : Panel :=
  let f := sectionVertex w inner outer ia oa
  { frontLeft := f i j, frontRight := f i (j + 1), backLeft := f (i + 1) j, backRight := f (i + 1) (j + 1)
    isTrailingEdge := decide (i + 1 = w.numChordwisePanels), isLeadingEdge := decide (i = 0) }

/-- The panel of a left-hand (mirrored) section at `[i, j]`, `j` counted from the symmetry plane. -/
noncomputable def leftPanel (w : WingSpec) (inner outer : WingCrossSection) (ia oa : Airfoil)
    (i j : ℕ) : Panel :=
  let f := fun i j => reflectPointAcrossPlane (sectionVertex w inner outer ia oa i j) w.unitNormal w.leadingEdge
  { frontLeft := f i (j + 1), frontRight := f i j, backLeft := f (i + 1) (j + 1), backRight := f (i + 1) j
    isTrailingEdge := decide (i + 1 = w.numChordwisePanels), isLeadingEdge := decide (i = 0) }

theorem sectionPanels_grid (m n : ℕ) (hm : 0 < m) (fl fr bl br : ℕ → ℕ → V3) :
    sectionPanels (grid m n fl) (grid m n fr) (grid m n bl) (grid m n br) (trailingMask m n) (leadingMask m n)
      = grid m n fun i j =>
        { frontLeft := fl i j, frontRight := fr i j, backLeft := bl i j, backRight := br i j
          isTrailingEdge := decide (i + 1 = m), isLeadingEdge := decide (i = 0) } := by
  unfold sectionPanels
  have h0 : ((grid m n fl).getD 0 []).length = n := by rw [grid_getD m n fl 0 hm]; simp
  simp only [grid_length, h0]
  show grid m n _ = grid m n _
  apply grid_congr
  intro i hi j hj
  simp only [at2_grid _ _ _ _ i j hi hj, trailingMask_at m n i j hm hi hj, leadingMask_at m n i j hi hj]

theorem rightSection_ok (w : WingSpec) (inner outer : WingCrossSection) (g : List (List Panel))
    (h : rightSection w inner outer = .ok g) :
    ∃ ia oa, inner.airfoil.addControlSurface inner.deflection inner.hinge = .ok ia ∧
      outer.airfoil.addControlSurface inner.deflection inner.hinge = .ok oa ∧
      0 < w.numChordwisePanels ∧
      g = grid w.numChordwisePanels inner.numSpanwisePanels (rightPanel w inner outer ia oa) := by
  unfold rightSection at h
  cases hi : inner.airfoil.addControlSurface inner.deflection inner.hinge with
  | error e => rw [hi] at h; exact absurd h (by simp [bind, Except.bind])
  | ok ia =>
    cases ho : outer.airfoil.addControlSurface inner.deflection inner.hinge with
    | error e => rw [hi, ho] at h; exact absurd h (by simp [bind, Except.bind])
    | ok oa =>
      rw [hi, ho] at h
      simp only [bind, Except.bind] at h
      by_cases hm : w.numChordwisePanels = 0
      · rw [if_pos hm] at h; exact absurd h (by simp)
      · rw [if_neg hm] at h
        have hm' : 0 < w.numChordwisePanels := Nat.pos_of_ne_zero hm
        obtain ⟨e1, e2, e3, e4⟩ := sectionVertices_eq w inner outer ia oa
        refine ⟨ia, oa, rfl, rfl, hm', ?_⟩
        simp only [pure, Except.pure, Except.ok.injEq] at h
        rw [← h, e1, e2, e3, e4, sectionPanels_grid _ _ hm']
        rfl

theorem leftSection_ok (w : WingSpec) (inner outer : WingCrossSection) (g : List (List Panel))
    (hm : 0 < w.numChordwisePanels) (h : leftSection w inner outer = .ok g) :
    ∃ ia oa,
      inner.airfoil.addControlSurface
        (if inner.controlSurfaceType = "symmetric" then inner.deflection else -inner.deflection) inner.hinge
        = .ok ia ∧
      outer.airfoil.addControlSurface
        (if inner.controlSurfaceType = "symmetric" then inner.deflection else -inner.deflection) inner.hinge
        = .ok oa ∧
      g = grid w.numChordwisePanels inner.numSpanwisePanels (leftPanel w inner outer ia oa) ∧
      0 < inner.numSpanwisePanels := by
  unfold leftSection at h
  generalize (if inner.controlSurfaceType = "symmetric" then inner.deflection else -inner.deflection) = d at *
  cases hi : inner.airfoil.addControlSurface d inner.hinge with
  | error e => simp only [hi] at h; exact absurd h (by simp [bind, Except.bind])
  | ok ia =>
    cases ho : outer.airfoil.addControlSurface d inner.hinge with
    | error e => simp only [hi, ho] at h; exact absurd h (by simp [bind, Except.bind])
    | ok oa =>
      simp only [hi, ho, bind, Except.bind] at h
      by_cases hn : inner.numSpanwisePanels = 0
      · rw [if_pos hn] at h; cases h
      rw [if_neg hn] at h
      obtain ⟨e1, e2, e3, e4⟩ := sectionVertices_eq w inner outer ia oa
      refine ⟨ia, oa, rfl, rfl, ?_, Nat.pos_of_ne_zero hn⟩
      simp only [pure, Except.pure, Except.ok.injEq, SectionVertices.reflect] at h
      rw [← h, e1, e2, e3, e4, grid_map, grid_map, grid_map, grid_map, sectionPanels_grid _ _ hm]
      rfl

/-! ## The assembled grid -/

/-- How the grid built by the section loop is composed: row `i` is the mirrored sections from the tip inwards,
then the right-hand sections from the root outwards. -/
structure MeshDecomp (w : WingSpec) (pairs : List (WingCrossSection × WingCrossSection))
    (acc P : List (List Panel)) (Ls Rs : List (List (List Panel))) : Prop where
  len : P.length = w.numChordwisePanels
  rows : ∀ i < w.numChordwisePanels, P.getD i []
    = (Ls.flatMap (·.getD i [])).reverse ++ (acc.getD i [] ++ Rs.flatMap (·.getD i []))
  right : Forall₂ (fun s g => rightSection w s.1 s.2 = .ok g) pairs Rs
  left : if w.symmetric then Forall₂ (fun s g => leftSection w s.1 s.2 = .ok g) pairs Ls else Ls = []

theorem hstack_getD {α : Type*} (a b : List (List α)) (i : ℕ) (h : a.length = b.length) :
    (hstack a b).getD i [] = a.getD i [] ++ b.getD i [] := by
  unfold hstack
  by_cases hi : i < a.length
  · have : i < b.length := h ▸ hi
    simp [List.getD, hi, this]
  · have : ¬ i < b.length := h ▸ hi
    simp [List.getD, List.getElem?_zipWith, List.getElem?_eq_none (not_lt.mp hi),
      List.getElem?_eq_none (not_lt.mp this)]

theorem hstack_length {α : Type*} (a b : List (List α)) (h : a.length = b.length) :
    (hstack a b).length = b.length := by simp [hstack, h]

theorem map_reverse_getD {α : Type*} (a : List (List α)) (i : ℕ) :
    (a.map List.reverse).getD i [] = (a.getD i []).reverse := by
  simp only [List.getD, List.getElem?_map]
  cases a[i]? <;> simp

theorem meshFold (w : WingSpec) (pairs : List (WingCrossSection × WingCrossSection)) :
    ∀ (acc P : List (List Panel)), acc.length = w.numChordwisePanels →
      pairs.foldlM (meshStep w) acc = .ok P → ∃ Ls Rs, MeshDecomp w pairs acc P Ls Rs := by
  induction pairs with
  | nil =>
    intro acc P hacc h
    simp only [List.foldlM_nil, pure, Except.pure, Except.ok.injEq] at h
    subst h
    refine ⟨[], [], hacc, ?_, Forall₂.nil, ?_⟩
    · intro i _; simp
    · split
      · exact Forall₂.nil
      · rfl
  | cons s pairs ih =>
    intro acc P hacc h
    simp only [List.foldlM_cons, bind, Except.bind] at h
    cases hs : meshStep w acc s with
    | error e => rw [hs] at h; simp at h
    | ok acc' =>
      rw [hs] at h
      simp only at h
      simp only [meshStep, bind, Except.bind] at hs
      cases hr : rightSection w s.1 s.2 with
      | error e => rw [hr] at hs; simp at hs
      | ok R =>
        rw [hr] at hs
        simp only at hs
        obtain ⟨ia, oa, _, _, hm, hR⟩ := rightSection_ok w s.1 s.2 R hr
        have hRlen : R.length = w.numChordwisePanels := by rw [hR]; simp
        by_cases hsym : w.symmetric = true
        · rw [if_pos hsym] at hs
          cases hl : leftSection w s.1 s.2 with
          | error e => rw [hl] at hs; simp at hs
          | ok L =>
            rw [hl] at hs
            simp only [pure, Except.pure, Except.ok.injEq] at hs
            obtain ⟨ja, ka, _, _, hL, _⟩ := leftSection_ok w s.1 s.2 L hm hl
            have hLlen : L.length = w.numChordwisePanels := by rw [hL]; simp
            have h1 : acc.length = R.length := by rw [hacc, hRlen]
            have h2 : (L.map List.reverse).length = (hstack acc R).length := by
              rw [hstack_length _ _ h1, List.length_map, hLlen, hRlen]
            have hacc' : acc'.length = w.numChordwisePanels := by
              rw [← hs, hstack_length _ _ h2, hstack_length _ _ h1, hRlen]
            obtain ⟨Ls, Rs, d⟩ := ih acc' P hacc' h
            refine ⟨L :: Ls, R :: Rs, d.len, ?_, Forall₂.cons hr d.right, ?_⟩
            · intro i hi
              rw [d.rows i hi, ← hs, hstack_getD _ _ _ h2, hstack_getD _ _ _ h1, map_reverse_getD]
              simp
            · have := d.left
              rw [if_pos hsym] at this ⊢
              exact Forall₂.cons hl this
        · rw [if_neg hsym] at hs
          simp only [pure, Except.pure, Except.ok.injEq] at hs
          have h1 : acc.length = R.length := by rw [hacc, hRlen]
          have hacc' : acc'.length = w.numChordwisePanels := by
            rw [← hs, hstack_length _ _ h1, hRlen]
          obtain ⟨Ls, Rs, d⟩ := ih acc' P hacc' h
          have hLs := d.left
          rw [if_neg hsym] at hLs
          refine ⟨[], R :: Rs, d.len, ?_, Forall₂.cons hr d.right, ?_⟩
          · intro i hi
            rw [d.rows i hi, ← hs, hstack_getD _ _ _ h1, hLs]
            simp
          · rw [if_neg hsym]

/-- The panel with its local position attributes set, in an M x N grid. -/
def Panel.place (n : ℕ) (i j : ℕ) (p : Panel) : Panel :=
  { p with localChordwise := i, localSpanwise := j
           isLeftEdge := decide (j = 0), isRightEdge := decide (j + 1 = n) }

theorem setPositions_ok (m n : ℕ) (P Q : List (List Panel)) (hlen : P.length = m)
    (hrow : ∀ row ∈ P, row.length = n) (h : setPositions m n P = .ok Q) :
    Q = P.mapIdx fun i row => row.mapIdx fun j p => p.place n i j := by
  unfold setPositions at h
  split at h
  · simp at h
  · simp only [Except.ok.injEq] at h
    rw [← h]
    apply List.ext_getElem
    · simp
    · intro i h1 h2
      simp only [List.getElem_mapIdx]
      have hi : i < P.length := by simpa using h1
      apply List.ext_getElem
      · simp
      · intro j h3 h4
        simp only [List.getElem_mapIdx]
        have hj : j < P[i].length := by simpa using h3
        have hn : P[i].length = n := hrow _ (List.getElem_mem hi)
        rw [if_pos ⟨hlen ▸ hi, hn ▸ hj⟩]
        rfl

theorem setPositions_no_error (m n : ℕ) (P : List (List Panel)) (hlen : P.length = m)
    (hrow : ∀ row ∈ P, row.length = n) : ∃ Q, setPositions m n P = .ok Q := by
  unfold setPositions
  rw [if_neg]
  · exact ⟨_, rfl⟩
  · rintro (h | h)
    · omega
    · rw [List.any_eq_true] at h
      obtain ⟨row, hmem, hlt⟩ := h
      have := hrow row (List.mem_of_mem_take hmem)
      simp at hlt
      omega

/-! ## Facts about an accepted wing -/

/-- The sections as the wing stores them (geometry.py 333). -/
def withChordwise (u : V3) (sections : List WingCrossSection) : List WingCrossSection :=
  sections.map fun s => { s with wingUnitChordwise := u }

/-- What a successful `Wing(...)` call establishes. -/
structure WingAccepted (sections : List WingCrossSection) (w : Wing) : Prop where
  two : 2 ≤ sections.length
  spacing : w.spec.chordwiseSpacing ∈ ["cosine", "uniform"]
  rootNormal : ∀ root, sections.head? = some root → w.spec.unitNormal = root.unitNormal
  rootLE : ∀ root, sections.head? = some root → root.leadingEdge = 0
  perp : w.spec.unitChordwise.dot w.spec.unitNormal = 0
  normals : ∀ s ∈ sections, (w.spec.unitNormal.cross s.unitNormal).cross w.spec.unitChordwise = 0
  stored : w.sections = withChordwise w.spec.unitChordwise sections
  nspan : w.numSpanwisePanels
    = if w.spec.symmetric then (sections.dropLast.map (·.numSpanwisePanels)).sum * 2
      else (sections.dropLast.map (·.numSpanwisePanels)).sum
  npanels : w.numPanels = w.numSpanwisePanels * w.spec.numChordwisePanels
  mesh : meshWing w.spec w.sections w.numSpanwisePanels = .ok w.panels

theorem Wing.create_ok (sections : List WingCrossSection) (le n : V3) (sym : Bool) (u : V3) (m : ℕ)
    (sp : String) (w : Wing) (h : Wing.create sections le n sym u m sp = .ok w) :
    w.spec = ⟨le, n, sym, u, m, sp⟩ ∧ WingAccepted sections w := by
  unfold Wing.create at h
  match sections, h with
  | [], h => simp at h
  | [_], h => simp at h
  | root :: s2 :: rest, h =>
    simp only at h
    split_ifs at h with c1 c2 c3 c4 c5 c6 <;>
      (simp only [bind, Except.bind] at h
       split at h
       · simp at h
       · rename_i P hP
         simp only [pure, Except.pure, Except.ok.injEq] at h
         rw [not_not] at c2 c3 c4
         subst h
         refine ⟨rfl, ⟨by simp, c1, ?_, ?_, c4, ?_, rfl, ?_, rfl, ?_⟩⟩
         · intro r hr; simp at hr; rw [← hr]; exact c2
         · intro r hr; simp at hr; rw [← hr]; exact c3
         · intro s hs
           by_contra hne
           exact c5 (List.any_eq_true.mpr ⟨s, hs, by simpa using hne⟩)
         · simp_all
         · simpa [withChordwise] using hP)

end Ptera
