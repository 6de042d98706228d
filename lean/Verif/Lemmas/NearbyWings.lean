import Verif.Lemmas.NearbyFlaps
import Verif.Lemmas.Nearby
import Verif.Props.Watertight
import Verif.Props.Loft
import Mathlib.Analysis.SpecialFunctions.Trigonometric.Basic

/-! The mesh and the dimensions of wings whose cross sections tend to those of a wing. -/

namespace Ptera

open Filter Topology List

variable {ι : Type*} {F : Filter ι}

/-! ## Rotations -/

theorem V3.Tends.normalized {f : ι → V3} {v : V3} (hf : V3.Tends f F v) (hv : v ≠ 0) :
    V3.Tends (fun n => (1 / (f n).norm) • f n) F ((1 / v.norm) • v) :=
  V3.Tends.smul (tendsto_const_nhds.div hf.norm fun h => hv (V3.norm_eq_zero.mp h)) hf

theorem rodrigues_tends {a : ι → ℝ} {a₀ : ℝ} (ha : Tendsto a F (𝓝 a₀)) {f : ι → V3} {v : V3} (hf : V3.Tends f F v) :
    M3.Tends (fun n => rodrigues (a n) (f n)) F (rodrigues a₀ v) := by
  obtain ⟨hx, hy, hz⟩ := hf
  have hs := (Real.continuous_sin.tendsto a₀).comp ha
  have hc := (Real.continuous_cos.tendsto a₀).comp ha
  have h1 : Tendsto (fun n => 1 - Real.cos (a n)) F (𝓝 (1 - Real.cos a₀)) := hc.const_sub 1
  refine ⟨⟨hc.add ((hx.pow 2).mul h1), ((hx.mul hy).mul h1).sub (hz.mul hs), ((hx.mul hz).mul h1).add (hy.mul hs)⟩,
    ⟨((hy.mul hx).mul h1).add (hz.mul hs), hc.add ((hy.pow 2).mul h1), ((hy.mul hz).mul h1).sub (hx.mul hs)⟩,
    ⟨((hz.mul hx).mul h1).sub (hy.mul hs), ((hz.mul hy).mul h1).add (hx.mul hs), hc.add ((hz.pow 2).mul h1)⟩⟩

theorem angleAxis_tends {a : ι → ℝ} {a₀ : ℝ} (ha : Tendsto a F (𝓝 a₀)) {f : ι → V3} {v : V3} (hf : V3.Tends f F v)
    (hv : v ≠ 0) : M3.Tends (fun n => angleAxisRotationMatrix (a n) (f n)) F (angleAxisRotationMatrix a₀ v) := by
  unfold angleAxisRotationMatrix
  simp only [Bool.false_eq_true, if_false]
  exact rodrigues_tends ha (hf.normalized hv)

theorem reflect_tends {f g h : ι → V3} {u v w : V3} (hf : V3.Tends f F u) (hg : V3.Tends g F v) (hh : V3.Tends h F w) :
    V3.Tends (fun n => reflectPointAcrossPlane (f n) (g n) (h n)) F (reflectPointAcrossPlane u v w) := by
  have e : ∀ p n q : V3, reflectPointAcrossPlane p n q = p - (2 * (p - q).dot n) • n := by
    intro p n q
    ext <;> simp [reflectPointAcrossPlane, V3.dot] <;> ring
  simp only [e]
  exact hf.sub (V3.Tends.smul (((hf.sub hh).dot hg).const_mul 2) hg)

/-! ## Cross sections -/

/-- The numbers of the cross sections `t` tend to those of `s`. -/
structure SectionTends (F : Filter ι) (t : ι → WingCrossSection) (s : WingCrossSection) : Prop where
  numSpanwisePanels : ∀ n, (t n).numSpanwisePanels = s.numSpanwisePanels
  spanwiseSpacing : ∀ n, (t n).spanwiseSpacing = s.spanwiseSpacing
  leadingEdge : V3.Tends (fun n => (t n).leadingEdge) F s.leadingEdge
  chord : Tendsto (fun n => (t n).chord) F (𝓝 s.chord)
  unitNormal : V3.Tends (fun n => (t n).unitNormal) F s.unitNormal
  twist : Tendsto (fun n => (t n).twist) F (𝓝 s.twist)
  nonzero : s.unitNormal ≠ 0

/-- The wings `W` with the cross sections `T` tend to the wing `w` with the cross sections `S`. -/
structure WingTends (F : Filter ι) (T : ι → List WingCrossSection) (W : ι → Wing) (S : List WingCrossSection) (w : Wing) :
    Prop where
  made : w.Made
  made' : ∀ n, (W n).Made
  accepted : WingAccepted S w
  accepted' : ∀ n, WingAccepted (T n) (W n)
  symmetric : ∀ n, (W n).spec.symmetric = w.spec.symmetric
  numChordwisePanels : ∀ n, (W n).spec.numChordwisePanels = w.spec.numChordwisePanels
  chordwiseSpacing : ∀ n, (W n).spec.chordwiseSpacing = w.spec.chordwiseSpacing
  leadingEdge : V3.Tends (fun n => (W n).spec.leadingEdge) F w.spec.leadingEdge
  unitNormal : V3.Tends (fun n => (W n).spec.unitNormal) F w.spec.unitNormal
  unitChordwise : V3.Tends (fun n => (W n).spec.unitChordwise) F w.spec.unitChordwise
  length : ∀ n, (T n).length = S.length
  sections : ∀ (i : ℕ) s, S[i]? = some s → ∃ t : ι → WingCrossSection, (∀ n, (T n)[i]? = some (t n)) ∧ SectionTends F t s
  camber : ∀ (i : ℕ) s s' (t t' : ι → WingCrossSection), S[i]? = some s → S[i + 1]? = some s' →
    (∀ n, (T n)[i]? = some (t n)) → (∀ n, (T n)[i + 1]? = some (t' n)) →
    ∀ d : WingCrossSection → ℝ, d = (·.deflection) ∨ (w.spec.symmetric = true ∧ d = mirroredDeflection) → ∀ k,
      PairTends F (fun n => camberPoint (t n).airfoil (d (t n)) (t n).hinge w.spec.chordwiseCoordinates k)
        (camberPoint s.airfoil (d s) s.hinge w.spec.chordwiseCoordinates k) ∧
      PairTends F (fun n => camberPoint (t' n).airfoil (d (t n)) (t n).hinge w.spec.chordwiseCoordinates k)
        (camberPoint s'.airfoil (d s) s.hinge w.spec.chordwiseCoordinates k)

/-- Where a point of a camber line is. -/
theorem SectionTends.place {t : ι → WingCrossSection} {s : WingCrossSection} (h : SectionTends F t s) {le : ι → V3}
    {le₀ : V3} (hle : V3.Tends le F le₀) {u : ι → V3} {u₀ : V3} (hu : V3.Tends u F u₀) {q : ι → ℝ × ℝ} {q₀ : ℝ × ℝ}
    (hq : PairTends F q q₀) :
    V3.Tends (fun n => sectionPosition (le n) (u n) (t n) (q n)) F (sectionPosition le₀ u₀ s q₀) := by
  have hb : V3.Tends (fun n => (angleAxisRotationMatrix ((t n).twist * Real.pi / 180) (t n).unitNormal).mulVec (u n)) F
      ((angleAxisRotationMatrix (s.twist * Real.pi / 180) s.unitNormal).mulVec u₀) :=
    (angleAxis_tends ((h.twist.mul_const _).div_const _) h.unitNormal h.nonzero).mulVec hu
  unfold sectionPosition
  exact (hle.add h.leadingEdge).add (V3.Tends.smul h.chord
    ((V3.Tends.smul hq.1 hb).add (V3.Tends.smul hq.2 (hb.cross h.unitNormal))))

theorem sectionVertex_position (w : WingSpec) (s t : WingCrossSection) {d h : ℝ} {ia oa : Airfoil}
    (h1 : s.airfoil.addControlSurface d h = .ok ia) (h2 : t.airfoil.addControlSurface d h = .ok oa) (i j : ℕ)
    (hi : i ≤ w.numChordwisePanels) :
    sectionVertex w { s with wingUnitChordwise := w.unitChordwise } { t with wingUnitChordwise := w.unitChordwise } ia oa
      i j = sectionPosition w.leadingEdge w.unitChordwise s (camberPoint s.airfoil d h w.chordwiseCoordinates i)
        + s.spanwiseCoordinates.getD j 0 •
          (sectionPosition w.leadingEdge w.unitChordwise t (camberPoint t.airfoil d h w.chordwiseCoordinates i)
            - sectionPosition w.leadingEdge w.unitChordwise s (camberPoint s.airfoil d h w.chordwiseCoordinates i)) := by
  have key : ∀ (s : WingCrossSection) (a : Airfoil), s.airfoil.addControlSurface d h = .ok a →
      (sectionMcl w.leadingEdge { s with wingUnitChordwise := w.unitChordwise }
        (mclVectors a w.chordwiseCoordinates)).getD i 0
      = sectionPosition w.leadingEdge w.unitChordwise s (camberPoint s.airfoil d h w.chordwiseCoordinates i) := by
    intro s a ha
    have hlen : i < (a.downsampledMcl w.chordwiseCoordinates).length := by
      unfold Airfoil.downsampledMcl
      rw [List.length_map, chordwiseCoordinates_length]
      omega
    unfold sectionMcl mclVectors camberPoint
    rw [ha]
    simp only [List.getD_eq_getElem?_getD, List.getElem?_map, List.getElem?_eq_getElem hlen, Option.map_some,
      Option.getD_some]
    unfold sectionPosition WingCrossSection.unitUp WingCrossSection.unitChordwise
    generalize (angleAxisRotationMatrix (s.twist * Real.pi / 180) s.unitNormal).mulVec w.unitChordwise = b
    ext <;> simp <;> ring
  unfold sectionVertex
  simp only [key s ia h1, key t oa h2]
  rfl

theorem Wing.Made.rows {w : Wing} (h : w.Made) :
    w.panels.length = w.spec.numChordwisePanels ∧ ∀ row ∈ w.panels, row.length = w.numSpanwisePanels := by
  obtain ⟨S, le, n, sym, u, m, sp, h⟩ := h
  obtain ⟨c1, c2, -⟩ := C18_wing_counts _ _ _ _ _ _ _ w h
  obtain ⟨hs, -⟩ := Wing.create_ok _ _ _ _ _ _ _ w h
  exact ⟨by rw [c1, hs], c2⟩

/-- A sum over lists of the same length whose elements correspond. -/
theorem sum_tends {α : Type*} {l : List α} {L : ι → List α} {f : ι → α → ℝ} {f₀ : α → ℝ}
    (hlen : ∀ n, (L n).length = l.length)
    (h : ∀ (k : ℕ) x, l[k]? = some x → ∃ y : ι → α, (∀ n, (L n)[k]? = some (y n)) ∧
      Tendsto (fun n => f n (y n)) F (𝓝 (f₀ x))) :
    Tendsto (fun n => ((L n).map (f n)).sum) F (𝓝 (l.map f₀).sum) := by
  induction l generalizing L with
  | nil =>
    have : ∀ n, L n = [] := fun n => List.eq_nil_of_length_eq_zero (hlen n)
    simp only [this, List.map_nil, List.sum_nil]
    exact tendsto_const_nhds
  | cons x l ih =>
    obtain ⟨y, hy, hyt⟩ := h 0 x rfl
    have e : ∀ n, L n = y n :: (L n).tail := by
      intro n
      have := hy n
      cases hL : L n with
      | nil => rw [hL] at this; simp at this
      | cons a r => rw [hL] at this; simp at this; simp [this]
    have ht := ih (L := fun n => (L n).tail) (fun n => by rw [List.length_tail, hlen n]; simp) (by
      intro k z hz
      obtain ⟨y', hy', hyt'⟩ := h (k + 1) z (by simpa using hz)
      refine ⟨y', fun n => ?_, hyt'⟩
      have := hy' n
      rw [e n] at this
      simpa using this)
    have : (fun n => ((L n).map (f n)).sum) = fun n => f n (y n) + ((L n).tail.map (f n)).sum := by
      funext n
      conv_lhs => rw [e n]
      simp
    rw [this, List.map_cons, List.sum_cons]
    exact hyt.add ht

theorem sum_flatten_map {α : Type*} (f : α → ℝ) (G : List (List α)) :
    (G.flatten.map f).sum = (G.map fun row => (row.map f).sum).sum := by
  induction G with
  | nil => rfl
  | cons r G ih => rw [List.flatten_cons, List.map_append, List.sum_append, ih, List.map_cons, List.sum_cons]

theorem projectedArea_tends {P : ι → Panel} {p : Panel} {n : ι → V3} {n₀ : V3} (hn : V3.Tends n F n₀)
    (h1 : V3.Tends (fun k => (P k).frontLeft) F p.frontLeft) (h2 : V3.Tends (fun k => (P k).frontRight) F p.frontRight)
    (h3 : V3.Tends (fun k => (P k).backLeft) F p.backLeft) (h4 : V3.Tends (fun k => (P k).backRight) F p.backRight) :
    Tendsto (fun k => (P k).projectedArea (n k)) F (𝓝 (p.projectedArea n₀)) := by
  have d1 : V3.Tends (fun k => (P k).firstDiagonal) F p.firstDiagonal := h2.sub h3
  have d2 : V3.Tends (fun k => (P k).secondDiagonal) F p.secondDiagonal := h1.sub h4
  unfold Panel.projectedArea
  exact ((d1.sub (V3.Tends.smul (d1.dot hn) hn)).cross (d2.sub (V3.Tends.smul (d2.dot hn) hn))).norm.div_const 2

theorem area_tends {P : ι → Panel} {p : Panel}
    (h1 : V3.Tends (fun k => (P k).frontLeft) F p.frontLeft) (h2 : V3.Tends (fun k => (P k).frontRight) F p.frontRight)
    (h3 : V3.Tends (fun k => (P k).backLeft) F p.backLeft) (h4 : V3.Tends (fun k => (P k).backRight) F p.backRight) :
    Tendsto (fun k => (P k).area) F (𝓝 p.area) := by
  have d1 : V3.Tends (fun k => (P k).firstDiagonal) F p.firstDiagonal := h2.sub h3
  have d2 : V3.Tends (fun k => (P k).secondDiagonal) F p.secondDiagonal := h1.sub h4
  exact (d1.cross d2).norm.div_const 2

theorem projectedSpan_tends {n v : ι → V3} {n₀ v₀ : V3} (hn : V3.Tends n F n₀) (hv : V3.Tends v F v₀) :
    Tendsto (fun k => Wing.projectedSpan (n k) (v k)) F (𝓝 (Wing.projectedSpan n₀ v₀)) :=
  (V3.Tends.smul (hv.dot hn) hn).norm

namespace WingTends

variable {T : ι → List WingCrossSection} {W : ι → Wing} {S : List WingCrossSection} {w : Wing}

theorem counts (h : WingTends F T W S w) (n : ι) : (T n).map (·.numSpanwisePanels) = S.map (·.numSpanwisePanels) := by
  apply List.ext_getElem?
  intro i
  simp only [List.getElem?_map]
  cases hs : S[i]? with
  | none =>
    rw [List.getElem?_eq_none_iff] at hs
    rw [List.getElem?_eq_none_iff.mpr (by rw [h.length n]; exact hs)]
  | some s =>
    obtain ⟨t, ht, hst⟩ := h.sections i s hs
    rw [ht n, Option.map_some, Option.map_some, hst.numSpanwisePanels n]

theorem half (h : WingTends F T W S w) (n : ι) : halfSpan (T n) = halfSpan S := by
  unfold halfSpan
  rw [List.map_dropLast, List.map_dropLast, h.counts n]

theorem numSpanwise (h : WingTends F T W S w) (n : ι) : (W n).numSpanwisePanels = w.numSpanwisePanels := by
  have e := h.half n
  unfold halfSpan at e
  rw [(h.accepted' n).nspan, h.accepted.nspan, h.symmetric n, e]

theorem coordinates (h : WingTends F T W S w) (n : ι) :
    (W n).spec.chordwiseCoordinates = w.spec.chordwiseCoordinates := by
  unfold WingSpec.chordwiseCoordinates
  rw [h.chordwiseSpacing n, h.numChordwisePanels n]

/-- The panel in a place of the grid tends to the panel in the same place. -/
theorem cell_tends (h : WingTends F T W S w) {i j : ℕ} {p : Panel} (hp : cell w.panels i j = some p) :
    ∃ P : ι → Panel, (∀ n, cell (W n).panels i j = some (P n)) ∧
      V3.Tends (fun n => (P n).frontLeft) F p.frontLeft ∧ V3.Tends (fun n => (P n).frontRight) F p.frontRight ∧
      V3.Tends (fun n => (P n).backLeft) F p.backLeft ∧ V3.Tends (fun n => (P n).backRight) F p.backRight := by
  have ha := h.accepted
  obtain ⟨hi, hrow⟩ := cell_some_row ha hp
  have hjN : j < w.numSpanwisePanels := by
    have hlt := (List.getElem?_eq_some_iff.mp hrow).1
    obtain ⟨c1, c2⟩ := h.made.rows
    have hip : i < w.panels.length := by rw [c1]; exact hi
    rw [List.getD_eq_getElem?_getD, List.getElem?_eq_getElem hip, Option.getD_some, c2 _ (List.getElem_mem hip)] at hlt
    exact hlt
  obtain ⟨J, hJ, hcol⟩ : ∃ J, J < halfSpan S ∧ (j = (if w.spec.symmetric then halfSpan S else 0) + J ∨
      (w.spec.symmetric = true ∧ j = halfSpan S - 1 - J)) := by
    have hNs : w.numSpanwisePanels = if w.spec.symmetric then halfSpan S * 2 else halfSpan S := by
      rw [ha.nspan]; rfl
    by_cases hsym : w.spec.symmetric = true
    · simp only [hsym, if_true] at hNs ⊢
      rcases Nat.lt_or_ge j (halfSpan S) with hlt | hge
      · exact ⟨halfSpan S - 1 - j, by omega, Or.inr ⟨trivial, by omega⟩⟩
      · exact ⟨j - halfSpan S, by omega, Or.inl (by omega)⟩
    · rw [if_neg hsym] at hNs
      exact ⟨j, by omega, Or.inl (by simp [hsym])⟩
  obtain ⟨pre, s, s', post, e, h1, h2⟩ := section_of_column S J hJ
  have hs : S[pre.length]? = some s := by rw [e]; simp
  have hs' : S[pre.length + 1]? = some s' := by rw [e]; simp
  obtain ⟨t, ht, hts⟩ := h.sections _ s hs
  obtain ⟨t', ht', hts'⟩ := h.sections _ s' hs'
  have hcam := h.camber _ s s' t t' hs hs' ht ht'
  have hpre : ∀ n, ∃ pre' post', T n = pre' ++ t n :: t' n :: post' ∧
      (pre'.map (·.numSpanwisePanels)).sum = (pre.map (·.numSpanwisePanels)).sum := by
    intro n
    obtain ⟨l1, g1⟩ := List.getElem?_eq_some_iff.mp (ht n)
    obtain ⟨l2, g2⟩ := List.getElem?_eq_some_iff.mp (ht' n)
    refine ⟨(T n).take pre.length, (T n).drop (pre.length + 2), ?_, ?_⟩
    · conv_lhs => rw [← List.take_append_drop pre.length (T n)]
      rw [List.drop_eq_getElem_cons l1, g1, List.drop_eq_getElem_cons l2, g2]
    · rw [List.map_take, h.counts n, ← List.map_take, e, List.take_left']
      rfl
  -- the right-hand panel of this section, flapped by `d`
  have key : ∀ d : WingCrossSection → ℝ, d = (·.deflection) ∨ (w.spec.symmetric = true ∧ d = mirroredDeflection) →
      ∀ (ia oa : Airfoil) (ia' oa' : ι → Airfoil), s.airfoil.addControlSurface (d s) s.hinge = .ok ia →
      s'.airfoil.addControlSurface (d s) s.hinge = .ok oa →
      (∀ n, (t n).airfoil.addControlSurface (d (t n)) (t n).hinge = .ok (ia' n)) →
      (∀ n, (t' n).airfoil.addControlSurface (d (t n)) (t n).hinge = .ok (oa' n)) → ∀ a b, a ≤ w.spec.numChordwisePanels →
      V3.Tends (fun n => sectionVertex (W n).spec { t n with wingUnitChordwise := (W n).spec.unitChordwise }
          { t' n with wingUnitChordwise := (W n).spec.unitChordwise } (ia' n) (oa' n) a b) F
        (sectionVertex w.spec { s with wingUnitChordwise := w.spec.unitChordwise }
          { s' with wingUnitChordwise := w.spec.unitChordwise } ia oa a b) := by
    intro d hd ia oa ia' oa' k1 k2 k3 k4 a b hab
    obtain ⟨c1, c2⟩ := hcam d hd a
    rw [sectionVertex_position w.spec s s' k1 k2 a b hab]
    have e : ∀ n, (t n).spanwiseCoordinates = s.spanwiseCoordinates := by
      intro n
      unfold WingCrossSection.spanwiseCoordinates
      rw [hts.spanwiseSpacing n, hts.numSpanwisePanels n]
    have : (fun n => sectionVertex (W n).spec { t n with wingUnitChordwise := (W n).spec.unitChordwise }
          { t' n with wingUnitChordwise := (W n).spec.unitChordwise } (ia' n) (oa' n) a b) = fun n =>
        sectionPosition (W n).spec.leadingEdge (W n).spec.unitChordwise (t n)
          (camberPoint (t n).airfoil (d (t n)) (t n).hinge w.spec.chordwiseCoordinates a)
        + s.spanwiseCoordinates.getD b 0 •
          (sectionPosition (W n).spec.leadingEdge (W n).spec.unitChordwise (t' n)
            (camberPoint (t' n).airfoil (d (t n)) (t n).hinge w.spec.chordwiseCoordinates a)
          - sectionPosition (W n).spec.leadingEdge (W n).spec.unitChordwise (t n)
            (camberPoint (t n).airfoil (d (t n)) (t n).hinge w.spec.chordwiseCoordinates a)) := by
      funext n
      rw [sectionVertex_position (W n).spec (t n) (t' n) (k3 n) (k4 n) a b (by rw [h.numChordwisePanels n]; exact hab),
        h.coordinates n, e n]
    rw [this]
    have p1 := hts.place h.leadingEdge h.unitChordwise c1
    have p2 := hts'.place h.leadingEdge h.unitChordwise c2
    exact p1.add (V3.Tends.smul tendsto_const_nhds (p2.sub p1))
  choose pre' post' e' hsum using hpre
  have hJe : (pre.map (·.numSpanwisePanels)).sum + (J - (pre.map (·.numSpanwisePanels)).sum) = J := by omega
  obtain ⟨hR, hL⟩ := ha.section pre s s' post e i hi
  have hsec := fun n => (h.accepted' n).section (pre' n) (t n) (t' n) (post' n) (e' n) i
    (by rw [h.numChordwisePanels n]; exact hi)
  set k := J - (pre.map (·.numSpanwisePanels)).sum with hk
  have hks : k < s.numSpanwisePanels := by omega
  rcases hcol with hcol | ⟨hsym, hcol⟩
  · obtain ⟨ia, oa, g1, g2, g3⟩ := hR
    choose ia' oa' g1' g2' g3' using fun n => (hsec n).1
    have c := g3 k hks
    rw [hJe, ← hcol, hp, Option.some.injEq] at c
    have c' : ∀ n, cell (W n).panels i j = some _ := fun n => by
      have := g3' n k (by rw [hts.numSpanwisePanels n]; exact hks)
      rw [hsum n, h.half n, h.symmetric n, hJe, ← hcol] at this
      exact this
    have hv := key (·.deflection) (Or.inl rfl) ia oa ia' oa' g1 g2 g1' g2'
    refine ⟨_, c', ?_⟩
    rw [c]
    simp only [Panel.place, rightPanel]
    exact ⟨hv _ _ hi.le, hv _ _ hi.le, hv _ _ hi, hv _ _ hi⟩
  · obtain ⟨ia, oa, g1, g2, g3⟩ := hL hsym
    choose ia' oa' g1' g2' g3' using fun n => (hsec n).2 (by rw [h.symmetric n]; exact hsym)
    have c := (g3 k hks).2
    rw [hJe, ← hcol, hp, Option.some.injEq] at c
    have c' : ∀ n, cell (W n).panels i j = some _ := fun n => by
      have := (g3' n k (by rw [hts.numSpanwisePanels n]; exact hks)).2
      rw [hsum n, h.half n, hJe, ← hcol] at this
      exact this
    have hv := key mirroredDeflection (Or.inr ⟨hsym, rfl⟩) ia oa ia' oa' g1 g2 g1' g2'
    have hr := fun a b hab => reflect_tends (hv a b hab) h.unitNormal h.leadingEdge
    refine ⟨_, c', ?_⟩
    rw [c]
    simp only [Panel.place, Panel.mirror, rightPanel]
    exact ⟨hr _ _ hi.le, hr _ _ hi.le, hr _ _ hi, hr _ _ hi⟩

/-- A sum over all panels of the wings. -/
theorem panelSum (h : WingTends F T W S w) {f : ι → Panel → ℝ} {f₀ : Panel → ℝ}
    (hf : ∀ (P : ι → Panel) p, V3.Tends (fun n => (P n).frontLeft) F p.frontLeft →
      V3.Tends (fun n => (P n).frontRight) F p.frontRight → V3.Tends (fun n => (P n).backLeft) F p.backLeft →
      V3.Tends (fun n => (P n).backRight) F p.backRight → Tendsto (fun n => f n (P n)) F (𝓝 (f₀ p))) :
    Tendsto (fun n => (((W n).panels.flatten).map (f n)).sum) F (𝓝 ((w.panels.flatten).map f₀).sum) := by
  obtain ⟨l, r⟩ := h.made.rows
  simp only [sum_flatten_map]
  refine sum_tends (f := fun n (row : List Panel) => (row.map (f n)).sum) (f₀ := fun row : List Panel => (row.map f₀).sum)
    (fun n => by rw [(h.made' n).rows.1, h.numChordwisePanels n, l]) fun i row hi => ?_
  have hrow : ∀ n, ∃ row', (W n).panels[i]? = some row' ∧ row'.length = row.length := by
    intro n
    obtain ⟨l', r'⟩ := (h.made' n).rows
    have hlt := (List.getElem?_eq_some_iff.mp hi).1
    have hlt' : i < (W n).panels.length := by rw [l', h.numChordwisePanels n, ← l]; exact hlt
    exact ⟨_, List.getElem?_eq_getElem hlt',
      by rw [r' _ (List.getElem_mem _), r _ (List.mem_of_getElem? hi), h.numSpanwise n]⟩
  choose row' e1 e2 using hrow
  refine ⟨row', e1, sum_tends e2 fun j p hj => ?_⟩
  obtain ⟨P, hP, v1, v2, v3, v4⟩ := h.cell_tends (i := i) (j := j) (p := p) (by unfold cell; rw [hi]; exact hj)
  refine ⟨P, fun n => ?_, hf P p v1 v2 v3 v4⟩
  have := hP n
  unfold cell at this
  rw [e1 n] at this
  exact this

theorem unitUp (h : WingTends F T W S w) : V3.Tends (fun n => (W n).unitUp) F w.unitUp :=
  h.unitChordwise.cross h.unitNormal

theorem projectedArea (h : WingTends F T W S w) : Tendsto (fun n => (W n).projectedArea) F (𝓝 w.projectedArea) :=
  h.panelSum fun _ _ v1 v2 v3 v4 => projectedArea_tends h.unitUp v1 v2 v3 v4

theorem wettedArea (h : WingTends F T W S w) : Tendsto (fun n => (W n).wettedArea) F (𝓝 w.wettedArea) :=
  h.panelSum fun _ _ v1 v2 v3 v4 => area_tends v1 v2 v3 v4

theorem span (h : WingTends F T W S w) : Tendsto (fun n => (W n).span) F (𝓝 w.span) := by
  have end_ : ∀ k, k < S.length → V3.Tends (fun n => (((T n)[k]?).map (·.leadingEdge)).getD 0) F
      ((S[k]?.map (·.leadingEdge)).getD 0) := by
    intro k hk
    obtain ⟨t, ht, hts⟩ := h.sections k S[k] (List.getElem?_eq_getElem hk)
    simp only [ht, List.getElem?_eq_getElem hk, Option.map_some, Option.getD_some]
    exact hts.leadingEdge
  have h2 := h.accepted.two
  have key := projectedSpan_tends h.unitNormal ((end_ (S.length - 1) (by omega)).sub (end_ 0 (by omega)))
  have e : ∀ (u : V3) (l : List WingCrossSection) (k : ℕ),
      ((withChordwise u l)[k]?.map (·.leadingEdge)).getD 0 = (l[k]?.map (·.leadingEdge)).getD 0 := by
    intro u l k
    unfold withChordwise
    rw [List.getElem?_map, Option.map_map]; rfl
  have el : ∀ (u : V3) (l : List WingCrossSection), (withChordwise u l).length = l.length := by
    intro u l; unfold withChordwise; simp
  unfold Wing.span
  simp only [h.symmetric, h.accepted.stored, (h.accepted' _).stored, List.head?_eq_getElem?, List.getLast?_eq_getElem?,
    e, el, h.length]
  by_cases hs : w.spec.symmetric = true
  · simp only [hs, if_true]
    exact key.mul_const 2
  · simp only [hs]
    exact key

theorem meanAerodynamicChord (h : WingTends F T W S w) (hA : w.projectedArea ≠ 0) :
    Tendsto (fun n => (W n).meanAerodynamicChord) F (𝓝 w.meanAerodynamicChord) := by
  have key : Tendsto (fun n => ((List.zip (W n).sections (W n).sections.tail).map
      (Wing.macTerm (W n).spec.unitNormal)).sum) F
      (𝓝 ((List.zip w.sections w.sections.tail).map (Wing.macTerm w.spec.unitNormal)).sum) := by
    have el : ∀ (u : V3) (l : List WingCrossSection), (withChordwise u l).length = l.length := by
      intro u l; unfold withChordwise; simp
    refine sum_tends (fun n => ?_) fun k x hx => ?_
    · rw [List.length_zip, List.length_zip, List.length_tail, List.length_tail, h.accepted.stored,
        (h.accepted' n).stored, el, el, h.length n]
    · rw [List.getElem?_zip_eq_some, List.getElem?_tail, h.accepted.stored] at hx
      unfold withChordwise at hx
      rw [List.getElem?_map, List.getElem?_map] at hx
      obtain ⟨x1, x2⟩ := x
      obtain ⟨h1, h2⟩ := hx
      simp only [Option.map_eq_some_iff] at h1 h2
      obtain ⟨s, hs, rfl⟩ := h1
      obtain ⟨s', hs', rfl⟩ := h2
      obtain ⟨t, ht, hts⟩ := h.sections _ s hs
      obtain ⟨t', ht', hts'⟩ := h.sections _ s' hs'
      refine ⟨fun n => ({ t n with wingUnitChordwise := (W n).spec.unitChordwise },
        { t' n with wingUnitChordwise := (W n).spec.unitChordwise }), fun n => ?_, ?_⟩
      · rw [List.getElem?_zip_eq_some, List.getElem?_tail, (h.accepted' n).stored]
        unfold withChordwise
        rw [List.getElem?_map, List.getElem?_map, ht n, ht' n]
        exact ⟨rfl, rfl⟩
      · unfold Wing.macTerm
        exact ((projectedSpan_tends h.unitNormal (hts'.leadingEdge.sub hts.leadingEdge)).mul
          (((hts.chord.pow 2).add (hts.chord.mul hts'.chord)).add (hts'.chord.pow 2))).div_const 3
  unfold Wing.meanAerodynamicChord
  simp only [h.symmetric]
  by_cases hs : w.spec.symmetric = true
  · simp only [hs, if_true]
    exact (key.const_mul 2).div h.projectedArea hA
  · simp only [hs]
    exact key.div h.projectedArea hA

end WingTends

/-! ## Nearby wings -/

theorem WingAccepted.own {S : List WingCrossSection} {w : Wing} (h : WingAccepted S w) : WingAccepted w.sections w := by
  have hs := h.stored
  unfold withChordwise at hs
  refine ⟨?_, h.spacing, ?_, ?_, h.perp, ?_, ?_, ?_, h.npanels, h.mesh⟩
  · rw [hs, List.length_map]; exact h.two
  · intro root hr
    rw [hs, List.head?_map, Option.map_eq_some_iff] at hr
    obtain ⟨r, hr, rfl⟩ := hr
    exact h.rootNormal r hr
  · intro root hr
    rw [hs, List.head?_map, Option.map_eq_some_iff] at hr
    obtain ⟨r, hr, rfl⟩ := hr
    exact h.rootLE r hr
  · intro s hs'
    rw [hs, List.mem_map] at hs'
    obtain ⟨r, hr, rfl⟩ := hs'
    exact h.normals r hr
  · unfold withChordwise
    rw [hs, List.map_map]; rfl
  · rw [h.nspan, hs, ← List.map_dropLast, List.map_map]; rfl

theorem Wing.Made.accepted {w : Wing} (h : w.Made) : WingAccepted w.sections w := by
  obtain ⟨S, le, n, sym, u, m, sp, h⟩ := h
  exact (Wing.create_ok _ _ _ _ _ _ _ w h).2.own

theorem num_tends {δ : ι → ℝ} (hδ : Tendsto δ F (𝓝 0)) {f : ι → ℝ} {x : ℝ} (h : ∀ n, |f n - x| < δ n) :
    Tendsto f F (𝓝 x) :=
  tendsto_iff_dist_tendsto_zero.mpr (squeeze_zero (fun _ => dist_nonneg) (fun n => by rw [Real.dist_eq]; exact (h n).le) hδ)

theorem vec_tends {δ : ι → ℝ} (hδ : Tendsto δ F (𝓝 0)) {f : ι → V3} {x : V3} (h : ∀ n, (f n - x).norm < δ n) :
    V3.Tends f F x :=
  V3.tends_of_norm (squeeze_zero (fun _ => V3.norm_nonneg _) (fun n => (h n).le) hδ)

/-- The airfoils of a section of an accepted wing take its deflections. -/
theorem Wing.Made.flaps {w : Wing} (h : w.Made) {i : ℕ} {s s' : WingCrossSection} (hs : w.sections[i]? = some s)
    (hs' : w.sections[i + 1]? = some s') :
    (∃ b, s.airfoil.addControlSurface s.deflection s.hinge = .ok b) ∧
      (∃ b, s'.airfoil.addControlSurface s.deflection s.hinge = .ok b) ∧ (w.spec.symmetric = true →
        (∃ b, s.airfoil.addControlSurface (mirroredDeflection s) s.hinge = .ok b) ∧
        ∃ b, s'.airfoil.addControlSurface (mirroredDeflection s) s.hinge = .ok b) := by
  have ha := h.accepted
  obtain ⟨l1, rfl⟩ := List.getElem?_eq_some_iff.mp hs
  obtain ⟨l2, rfl⟩ := List.getElem?_eq_some_iff.mp hs'
  have e : w.sections = w.sections.take i ++ w.sections[i] :: w.sections[i + 1] :: w.sections.drop (i + 2) := by
    conv_lhs => rw [← List.take_append_drop i w.sections]
    rw [List.drop_eq_getElem_cons l1, List.drop_eq_getElem_cons l2]
  obtain ⟨hR, hL⟩ := ha.section _ _ _ _ e 0 ha.grid.1
  obtain ⟨ia, oa, g1, g2, -⟩ := hR
  refine ⟨⟨ia, g1⟩, ⟨oa, g2⟩, fun hsym => ?_⟩
  obtain ⟨ia, oa, g1, g2, -⟩ := hL hsym
  exact ⟨⟨ia, g1⟩, ⟨oa, g2⟩⟩

theorem WingTends.of_near {W : ι → Wing} {w : Wing} {δ : ι → ℝ} (hδ : Tendsto δ F (𝓝 0)) (hw : w.Made)
    (hn : ∀ n, w.Near (δ n) (W n)) (hne : ∀ s ∈ w.sections, s.unitNormal ≠ 0) :
    WingTends F (fun n => (W n).sections) W w.sections w := by
  have hsec : ∀ (i : ℕ) s (t : ι → WingCrossSection), w.sections[i]? = some s → (∀ n, (W n).sections[i]? = some (t n)) →
      ∀ n, s.Near (δ n) (t n) := by
    intro i s t hs ht n
    obtain ⟨l1, rfl⟩ := List.getElem?_eq_some_iff.mp hs
    obtain ⟨l2, e2⟩ := List.getElem?_eq_some_iff.mp (ht n)
    rw [← e2]
    exact (List.forall₂_iff_get.mp (hn n).sections).2 i l1 l2
  refine
    { made := hw
      made' := fun n => (hn n).made'
      accepted := hw.accepted
      accepted' := fun n => (hn n).made'.accepted
      symmetric := fun n => (hn n).symmetric
      numChordwisePanels := fun n => (hn n).numChordwisePanels
      chordwiseSpacing := fun n => (hn n).chordwiseSpacing
      leadingEdge := vec_tends hδ fun n => (hn n).leadingEdge
      unitNormal := vec_tends hδ fun n => (hn n).unitNormal
      unitChordwise := vec_tends hδ fun n => (hn n).unitChordwise
      length := fun n => (hn n).sections.length_eq.symm
      sections := ?_
      camber := ?_ }
  · intro i s hs
    have hlt := (List.getElem?_eq_some_iff.mp hs).1
    have hlt' : ∀ n, i < (W n).sections.length := fun n => by rw [← (hn n).sections.length_eq]; exact hlt
    have hN := hsec i s (fun n => (W n).sections[i]'(hlt' n)) hs fun n => List.getElem?_eq_getElem (hlt' n)
    exact ⟨_, fun n => List.getElem?_eq_getElem (hlt' n),
      { numSpanwisePanels := fun n => (hN n).numSpanwisePanels
        spanwiseSpacing := fun n => (hN n).spanwiseSpacing
        leadingEdge := vec_tends hδ fun n => (hN n).leadingEdge
        chord := num_tends hδ fun n => (hN n).chord
        unitNormal := vec_tends hδ fun n => (hN n).unitNormal
        twist := num_tends hδ fun n => (hN n).twist
        nonzero := hne s (List.mem_of_getElem? hs) }⟩
  · intro i s s' t t' hs hs' ht ht' d hd k
    have hN := hsec i s t hs ht
    have hN' := hsec (i + 1) s' t' hs' ht'
    have hdn : Tendsto (fun n => (t n).deflection) F (𝓝 s.deflection) := num_tends hδ fun n => (hN n).deflection
    have hdt : Tendsto (fun n => d (t n)) F (𝓝 (d s)) := by
      rcases hd with rfl | ⟨-, rfl⟩
      · exact hdn
      · unfold mirroredDeflection
        simp only [(hN _).controlSurfaceType]
        split_ifs
        · exact hdn
        · exact hdn.neg
    simp only [(hN _).airfoil, (hN' _).airfoil, (hN _).hinge]
    have hok : ∀ n, (∃ b, s.airfoil.addControlSurface (d (t n)) s.hinge = .ok b) ∧
        ∃ b, s'.airfoil.addControlSurface (d (t n)) s.hinge = .ok b := by
      intro n
      obtain ⟨f1, f2, f3⟩ := (hn n).made'.flaps (ht n) (ht' n)
      rw [(hN n).airfoil, (hN n).hinge] at f1 f3
      rw [(hN' n).airfoil, (hN n).hinge] at f2
      rw [(hN' n).airfoil] at f3
      rcases hd with rfl | ⟨hsym, rfl⟩
      · exact ⟨f1, f2⟩
      · exact f3 (by rw [(hn n).symmetric]; exact hsym)
    by_cases hreg : RegularFlaps w.sections
    · obtain ⟨l1, rfl⟩ := List.getElem?_eq_some_iff.mp hs
      obtain ⟨l2, rfl⟩ := List.getElem?_eq_some_iff.mp hs'
      have e : w.sections = w.sections.take i ++ w.sections[i] :: w.sections[i + 1] :: w.sections.drop (i + 2) := by
        conv_lhs => rw [← List.take_append_drop i w.sections]
        rw [List.drop_eq_getElem_cons l1, List.drop_eq_getElem_cons l2]
      obtain ⟨r1, r2⟩ := hreg _ _ _ _ e (d w.sections[i]) (by
        rcases hd with rfl | ⟨-, rfl⟩
        · exact Or.inl rfl
        · unfold mirroredDeflection
          split_ifs
          · exact Or.inl rfl
          · exact Or.inr rfl)
      exact ⟨flap_tends r1 hdt (fun n => (hok n).1) _ k, flap_tends r2 hdt (fun n => (hok n).2) _ k⟩
    · have hsame : ∀ n, (t n).deflection = s.deflection := by
        intro n
        have hm := (hn n).flaps.resolve_right hreg
        have := congrArg (fun l : List ℝ => l[i]?) hm
        simp only [List.getElem?_map, hs, ht n, Option.map_some, Option.some.injEq] at this
        exact this
      have hsame' : ∀ n, d (t n) = d s := by
        intro n
        rcases hd with rfl | ⟨-, rfl⟩
        · exact hsame n
        · unfold mirroredDeflection
          rw [hsame n, (hN n).controlSurfaceType]
      simp only [hsame']
      exact ⟨PairTends.const _, PairTends.const _⟩

end Ptera
