import Verif.Lemmas.InvertedAirfoil
import Verif.Lemmas.UpsideDown
import Verif.Props.ControlSurface

/-! Helper lemmas: the panels of a wing whose cross sections are upside down. -/

namespace Ptera

open List

theorem inverted_add (a b : V3) : inverted (a + b) = inverted a + inverted b := by
  ext <;> simp [inverted]; ring

theorem inverted_sub (a b : V3) : inverted (a - b) = inverted a - inverted b := by
  ext <;> simp [inverted]; ring

theorem inverted_smul (c : ℝ) (a : V3) : inverted (c • a) = c • inverted a := by
  ext <;> simp [inverted]

theorem inverted_zero : inverted 0 = 0 := by ext <;> simp [inverted]

theorem inverted_dot (a b : V3) : (inverted a).dot (inverted b) = a.dot b := by simp [inverted, V3.dot]

theorem inverted_norm (a : V3) : (inverted a).norm = a.norm := by simp [inverted, V3.norm, V3.dot]

theorem inverted_cross (a b : V3) : (inverted a).cross (inverted b) = -inverted (a.cross b) := by
  ext <;> simp [inverted, V3.cross] <;> ring

theorem inverted_reflect (p n q : V3) :
    reflectPointAcrossPlane (inverted p) (inverted n) (inverted q) = inverted (reflectPointAcrossPlane p n q) := by
  rw [reflect_eq, reflect_eq, inverted_sub, inverted_smul, ← inverted_sub, inverted_dot]

theorem inverted_rotation (θ : ℝ) (n u : V3) :
    (angleAxisRotationMatrix (-θ) (inverted n)).mulVec (inverted u)
      = inverted ((angleAxisRotationMatrix θ n).mulVec u) := by
  unfold angleAxisRotationMatrix
  rw [inverted_norm, ← inverted_smul]
  generalize (1 / n.norm) • n = m
  simp only [Bool.false_eq_true, if_false]
  ext <;> simp [rodrigues, M3.mulVec, V3.dot, inverted] <;> ring

/-- The part of `IsInverted` the panels depend on. -/
structure SectionInverted (s s' : WingCrossSection) : Prop where
  leadingEdge : s'.leadingEdge = inverted s.leadingEdge
  chord : s'.chord = s.chord
  chordwise : s'.unitChordwise = inverted s.unitChordwise
  up : s'.unitUp = -inverted s.unitUp

theorem WingCrossSection.IsInverted.stored {s s' : WingCrossSection} (h : s.IsInverted s') (u : V3) :
    SectionInverted { s with wingUnitChordwise := u } { s' with wingUnitChordwise := inverted u } := by
  obtain ⟨a, -, -, rfl⟩ := h
  have hc : (WingCrossSection.unitChordwise { s with
      airfoil := a, leadingEdge := inverted s.leadingEdge, unitNormal := inverted s.unitNormal, twist := -s.twist
      deflection := -s.deflection, wingUnitChordwise := inverted u })
      = inverted (WingCrossSection.unitChordwise { s with wingUnitChordwise := u }) := by
    unfold WingCrossSection.unitChordwise
    simp only
    rw [show -s.twist * Real.pi / 180 = -(s.twist * Real.pi / 180) by ring, inverted_rotation]
  refine ⟨rfl, rfl, hc, ?_⟩
  unfold WingCrossSection.unitUp
  rw [hc]
  exact inverted_cross _ _

theorem sectionMcl_inverted {s s' : WingCrossSection} (h : SectionInverted s s') (le : V3) (l : List (ℝ × ℝ)) :
    sectionMcl (inverted le) s' (l.map flip2) = (sectionMcl le s l).map inverted := by
  unfold sectionMcl
  rw [List.map_map, List.map_map]
  apply List.map_congr_left
  intro p _
  simp only [Function.comp, flip2, h.leadingEdge, h.chord, h.chordwise, h.up, inverted_add, inverted_smul]
  ext <;> simp

theorem sectionVertex_inverted {w w' : WingSpec} {s s' t t' : WingCrossSection} {ia ia' oa oa' : Airfoil}
    (hle : w'.leadingEdge = inverted w.leadingEdge) (hcs : w'.chordwiseCoordinates = w.chordwiseCoordinates)
    (hs : SectionInverted s s') (ht : SectionInverted t t') (hsp : s'.spanwiseCoordinates = s.spanwiseCoordinates)
    (hi : AirfoilInverted ia ia') (ho : AirfoilInverted oa oa') (i j : ℕ) :
    sectionVertex w' s' t' ia' oa' i j = inverted (sectionVertex w s t ia oa i j) := by
  unfold sectionVertex
  have key : ∀ l : List V3, (l.map inverted).getD i 0 = inverted (l.getD i 0) := by
    intro l
    rw [List.getD_eq_getElem?_getD, List.getD_eq_getElem?_getD, List.getElem?_map]
    cases l[i]? with
    | none => exact inverted_zero.symm
    | some _ => rfl
  simp only [hle, hcs, hsp, hi.vectors, ho.vectors, sectionMcl_inverted hs, sectionMcl_inverted ht, key, inverted_add,
    inverted_smul, inverted_sub]

theorem forall₂_split {α β : Type} {R : α → β → Prop} : ∀ (pre : List α) (post : List α) (l : List β),
    Forall₂ R (pre ++ post) l → ∃ pre' post', l = pre' ++ post' ∧ Forall₂ R pre pre' ∧ Forall₂ R post post'
  | [], post, l, h => ⟨[], l, rfl, .nil, h⟩
  | a :: pre, post, l, h => by
    cases h with
    | cons h1 h2 =>
      obtain ⟨pre', post', rfl, h3, h4⟩ := forall₂_split pre post _ h2
      exact ⟨_ :: pre', post', rfl, .cons h1 h3, h4⟩

theorem Forall₂.counts {S S' : List WingCrossSection} (h : Forall₂ WingCrossSection.IsInverted S S') :
    S'.map (·.numSpanwisePanels) = S.map (·.numSpanwisePanels) := by
  induction h with
  | nil => rfl
  | cons h1 _ ih =>
    obtain ⟨a, -, -, rfl⟩ := h1
    simp [ih]

theorem Forall₂.half {S S' : List WingCrossSection} (h : Forall₂ WingCrossSection.IsInverted S S') :
    halfSpan S' = halfSpan S := by
  unfold halfSpan
  rw [List.map_dropLast, List.map_dropLast, Forall₂.counts h]

theorem mirroredDeflection_inverted {s s' : WingCrossSection} (h : s.IsInverted s') :
    mirroredDeflection s' = -mirroredDeflection s := by
  obtain ⟨a, -, -, rfl⟩ := h
  unfold mirroredDeflection
  simp only
  split_ifs <;> simp

theorem mirroredDeflection_cases (s : WingCrossSection) :
    mirroredDeflection s = s.deflection ∨ mirroredDeflection s = -s.deflection := by
  unfold mirroredDeflection
  split_ifs <;> simp

theorem WingCrossSection.IsInverted.airfoils {s s' : WingCrossSection} (h : s.IsInverted s')
    (hn : SharpNose s.airfoil.coordinates) : AirfoilInverted s.airfoil s'.airfoil := by
  obtain ⟨a, h1, h2, rfl⟩ := h
  exact AirfoilInverted.of hn h1 h2

theorem AirfoilInverted.flap_exists {a b a' : Airfoil} (h : AirfoilInverted a b) {d hinge : ℝ}
    (ha : a.addControlSurface d hinge = .ok a') (hn : SharpNose a'.coordinates) :
    ∃ b', b.addControlSurface (-d) hinge = .ok b' := by
  obtain ⟨hd, split, hs, h1, h2⟩ := addControlSurface_coordinates d hinge ha
  have := abs_le.mp hd
  unfold Airfoil.addControlSurface
  rw [if_neg (by push Not; constructor <;> linarith)]
  rw [h.split, hs]
  have hr : radians (- -d) = -radians (-d) := by unfold radians; ring
  have hp : ((hinge, b.camberAt hinge) : ℝ × ℝ) = flip2 (hinge, a.camberAt hinge) := by
    simp [flip2, h.camber]
  simp only
  rw [hr, hp, flappedCoordinates_inverted h, ← h2]
  obtain ⟨x, hx⟩ := hn.inverted.wellFormed
  exact ⟨x, hx.made⟩

theorem zip_tail_forall₂ {R : WingCrossSection → WingCrossSection → Prop} : ∀ {S S' : List WingCrossSection},
    Forall₂ R S S' → ∀ x' ∈ List.zip S' S'.tail, ∃ x ∈ List.zip S S.tail, R x.1 x'.1 ∧ R x.2 x'.2
  | _, _, .nil => by simp
  | _, _, .cons _ .nil => by simp
  | _, _, .cons (a := a) (b := a') h1 (.cons (a := c) (b := c') h2 h3) => by
    intro x' hx'
    simp only [List.tail_cons, List.zip_cons_cons, List.mem_cons] at hx'
    rcases hx' with rfl | hx'
    · exact ⟨(a, c), by simp, h1, h2⟩
    · obtain ⟨x, hx, h4⟩ := zip_tail_forall₂ (Forall₂.cons h2 h3) x' (by simpa using hx')
      refine ⟨x, ?_, h4⟩
      simp only [List.tail_cons, List.zip_cons_cons, List.mem_cons] at hx ⊢
      exact Or.inr hx

theorem mem_of_zip_tail {S : List WingCrossSection} {x : WingCrossSection × WingCrossSection} (h : x ∈ List.zip S S.tail) :
    x.1 ∈ S ∧ x.2 ∈ S := by
  obtain ⟨h1, h2⟩ := List.of_mem_zip (a := x.1) (b := x.2) h
  exact ⟨h1, List.mem_of_mem_tail h2⟩

/-- The inverted wing can be built. -/
theorem inverted_accepted {S S' : List WingCrossSection} {le n u : V3} {sym : Bool} {m : ℕ} {sp : String} {w : Wing}
    (h : Wing.create S le n sym u m sp = .ok w) (hS : Forall₂ WingCrossSection.IsInverted S S') (hn : NosesKept S) :
    ∃ w', Wing.create S' (inverted le) (inverted n) sym (inverted u) m sp = .ok w' := by
  obtain ⟨⟨d1, d2, d3, d4, d5, d6⟩, hm, hmesh⟩ := (C17_wing_accepts S le n sym u m sp).mp ⟨w, h⟩
  rw [C17_wing_accepts]
  have hroot : ∀ r', S'[0]? = some r' → ∃ r, S[0]? = some r ∧ r.IsInverted r' := by
    intro r' hr'
    obtain ⟨r, hr, h1⟩ := forall₂_at hS.flip 0 r' hr'
    exact ⟨r, hr, h1⟩
  refine ⟨⟨by rw [← hS.length_eq]; exact d1, d2, ?_, ?_, by rw [inverted_dot]; exact d5, ?_⟩, hm, ?_⟩
  · intro r' hr'
    obtain ⟨r, hr, a, -, -, rfl⟩ := hroot r' hr'
    simp only [d3 r hr]
  · intro r' hr'
    obtain ⟨r, hr, a, -, -, rfl⟩ := hroot r' hr'
    simp only [d4 r hr, inverted_zero]
  · intro s' hs'
    obtain ⟨i, hi, rfl⟩ := List.getElem_of_mem hs'
    obtain ⟨s, hs, a, -, -, e⟩ := forall₂_at hS.flip i _ (List.getElem?_eq_getElem hi)
    rw [e]
    simp only
    have e1 : ∀ a b : V3, (-a).cross b = -(a.cross b) := by intro a b; ext <;> simp [V3.cross] <;> ring
    rw [inverted_cross, e1, inverted_cross, d6 s (List.mem_of_getElem? hs), inverted_zero]
    simp
  · intro x' hx'
    obtain ⟨x, hx, r1, r2⟩ := zip_tail_forall₂ hS x' hx'
    obtain ⟨m1, m2⟩ := mem_of_zip_tail hx
    obtain ⟨⟨ia, k1⟩, ⟨oa, k2⟩, k3⟩ := hmesh x hx
    have f1 := r1.airfoils (hn.1 _ m1)
    have f2 := r2.airfoils (hn.1 _ m2)
    have hmd := mirroredDeflection_inverted r1
    have hmc := mirroredDeflection_cases x.1
    have e1 : x'.1.deflection = -x.1.deflection := by obtain ⟨_, -, -, e⟩ := r1; rw [e]
    have e2 : x'.1.hinge = x.1.hinge := by obtain ⟨_, -, -, e⟩ := r1; rw [e]
    have e3 : x'.1.numSpanwisePanels = x.1.numSpanwisePanels := by obtain ⟨_, -, -, e⟩ := r1; rw [e]
    refine ⟨?_, ?_, ?_⟩
    · rw [e1, e2]; exact f1.flap_exists k1 (hn.2 _ m1 _ m1 _ _ (Or.inl rfl) k1)
    · rw [e1, e2]; exact f2.flap_exists k2 (hn.2 _ m1 _ m2 _ _ (Or.inl rfl) k2)
    · intro hsym
      obtain ⟨k4, ⟨ia', k5⟩, ⟨oa', k6⟩⟩ := k3 hsym
      refine ⟨by rw [e3]; exact k4, ?_, ?_⟩
      · rw [hmd, e2]; exact f1.flap_exists k5 (hn.2 _ m1 _ m1 _ _ hmc k5)
      · rw [hmd, e2]; exact f2.flap_exists k6 (hn.2 _ m1 _ m2 _ _ hmc k6)

theorem inverted_wing {S S' : List WingCrossSection} {le n u : V3} {sym : Bool} {m : ℕ} {sp : String} {w w' : Wing}
    (h : Wing.create S le n sym u m sp = .ok w) (hS : Forall₂ WingCrossSection.IsInverted S S') (hn : NosesKept S)
    (h' : Wing.create S' (inverted le) (inverted n) sym (inverted u) m sp = .ok w') : w.IsInverted w' := by
  obtain ⟨hspec, ha⟩ := Wing.create_ok _ _ _ _ _ _ _ w h
  obtain ⟨hspec', ha'⟩ := Wing.create_ok _ _ _ _ _ _ _ w' h'
  have hcounts := Forall₂.counts hS
  have hhalf := Forall₂.half hS
  have hN : w'.numSpanwisePanels = w.numSpanwisePanels := by
    rw [ha.nspan, ha'.nspan, hspec, hspec', List.map_dropLast, List.map_dropLast, hcounts]
  have hsym : w.spec.symmetric = sym := by rw [hspec]
  have hsym' : w'.spec.symmetric = sym := by rw [hspec']
  have hle : w'.spec.leadingEdge = inverted w.spec.leadingEdge := by rw [hspec, hspec']
  have hnn : w'.spec.unitNormal = inverted w.spec.unitNormal := by rw [hspec, hspec']
  have hu : w'.spec.unitChordwise = inverted w.spec.unitChordwise := by rw [hspec, hspec']
  have hcs : w'.spec.chordwiseCoordinates = w.spec.chordwiseCoordinates := by rw [hspec, hspec']; rfl
  have hm : w'.spec.numChordwisePanels = w.spec.numChordwisePanels := by rw [hspec, hspec']
  refine ⟨?_, hN, ?_, ?_⟩
  · unfold Wing.span
    rw [hsym, hsym', hnn]
    have ends : ∀ o o' : Option WingCrossSection, Option.Rel WingCrossSection.IsInverted o o' →
        (o'.map (·.leadingEdge)).getD 0 = inverted ((o.map (·.leadingEdge)).getD 0) := by
      intro o o' ho
      cases ho with
      | none => exact inverted_zero.symm
      | some h1 => obtain ⟨a, -, -, rfl⟩ := h1; rfl
    have hst : ∀ (u : V3) (T : List WingCrossSection) (f : List WingCrossSection → Option WingCrossSection),
        (∀ (g : WingCrossSection → WingCrossSection) l, f (l.map g) = (f l).map g) →
        ((f (withChordwise u T)).map (·.leadingEdge)).getD 0 = ((f T).map (·.leadingEdge)).getD 0 := by
      intro u T f hf
      unfold withChordwise
      rw [hf, Option.map_map]; rfl
    have hhead : Option.Rel WingCrossSection.IsInverted S.head? S'.head? := by
      cases hS with
      | nil => exact .none
      | cons h1 _ => exact .some h1
    have hlast : Option.Rel WingCrossSection.IsInverted S.getLast? S'.getLast? := by
      have hr : Forall₂ WingCrossSection.IsInverted S.reverse S'.reverse := List.forall₂_reverse_iff.mpr hS
      rw [List.getLast?_eq_head?_reverse, List.getLast?_eq_head?_reverse]
      revert hr
      generalize S.reverse = T
      generalize S'.reverse = T'
      intro hr
      cases hr with
      | nil => exact .none
      | cons h1 _ => exact .some h1
    rw [ha.stored, ha'.stored, hst _ S _ (fun g l => by simp), hst _ S _ (fun g l => by simp),
      hst _ S' _ (fun g l => by simp), hst _ S' _ (fun g l => by simp), ends _ _ hhead, ends _ _ hlast]
    have hps : ∀ n v, Wing.projectedSpan (inverted n) (inverted v) = Wing.projectedSpan n v := by
      intro n v
      unfold Wing.projectedSpan
      rw [inverted_dot, ← inverted_smul, inverted_norm]
    simp only [← inverted_sub, hps]
  · obtain ⟨-, -, -, -, -, l, -⟩ := ha.grid
    obtain ⟨-, -, -, -, -, l', -⟩ := ha'.grid
    rw [l, l', hm]
  · intro i j p p' hp hp'
    obtain ⟨hi, hrow⟩ := cell_some_row ha hp
    have hjN : j < w.numSpanwisePanels := by
      have hlt := (List.getElem?_eq_some_iff.mp hrow).1
      obtain ⟨c1, c2, c3, -⟩ := C18_wing_counts _ _ _ _ _ _ _ w h
      have hip : i < w.panels.length := by
        rw [c1, ← show w.spec.numChordwisePanels = m by rw [hspec]]; exact hi
      rw [List.getD_eq_getElem?_getD, List.getElem?_eq_getElem hip, Option.getD_some, c2 _ (List.getElem_mem hip)] at hlt
      exact hlt
    have hNs : w.numSpanwisePanels = if sym then halfSpan S * 2 else halfSpan S := by
      rw [ha.nspan, hsym]; rfl
    -- the column, counted from the root of its half
    obtain ⟨J, hJ, hcol⟩ : ∃ J, J < halfSpan S ∧ (j = (if sym then halfSpan S else 0) + J ∨
        (sym = true ∧ j = halfSpan S - 1 - J)) := by
      cases sym with
      | false => exact ⟨j, by rw [hNs] at hjN; simpa using hjN, Or.inl (by simp)⟩
      | true =>
        simp only [if_true] at hNs ⊢
        rcases Nat.lt_or_ge j (halfSpan S) with hlt | hge
        · exact ⟨halfSpan S - 1 - j, by omega, Or.inr ⟨trivial, by omega⟩⟩
        · exact ⟨j - halfSpan S, by omega, Or.inl (by omega)⟩
    obtain ⟨pre, s, t, post, e, h1, h2⟩ := section_of_column S J hJ
    have hS2 := hS
    rw [e] at hS2
    obtain ⟨pre', post', e', hpre, hpost⟩ := forall₂_split _ _ _ hS2
    cases hpost with
    | @cons _ s' _ _ hss hpost =>
    cases hpost with
    | @cons _ t' _ post' htt hpost =>
    have hsm : s ∈ S := by rw [e]; simp
    have htm : t ∈ S := by rw [e]; simp
    have ms := hss.airfoils (hn.1 _ hsm)
    have mt := htt.airfoils (hn.1 _ htm)
    have hdef : s'.deflection = -s.deflection := by obtain ⟨_, -, -, e⟩ := hss; rw [e]
    have hhin : s'.hinge = s.hinge := by obtain ⟨_, -, -, e⟩ := hss; rw [e]
    have hnum : s'.numSpanwisePanels = s.numSpanwisePanels := by obtain ⟨_, -, -, e⟩ := hss; rw [e]
    have hoff : (pre'.map (·.numSpanwisePanels)).sum = (pre.map (·.numSpanwisePanels)).sum := by
      rw [Forall₂.counts hpre]
    have hsst := hss.stored w.spec.unitChordwise
    have htst := htt.stored w.spec.unitChordwise
    have hspn : WingCrossSection.spanwiseCoordinates { s' with wingUnitChordwise := inverted w.spec.unitChordwise }
        = WingCrossSection.spanwiseCoordinates { s with wingUnitChordwise := w.spec.unitChordwise } := by
      obtain ⟨_, -, -, e⟩ := hss; rw [e]; rfl
    obtain ⟨hR, hL⟩ := ha.section pre s t post e i hi
    obtain ⟨hR', hL'⟩ := ha'.section pre' s' t' post' e' i (by rw [hm]; exact hi)
    rw [hu] at hR' hL'
    have hJe : (pre.map (·.numSpanwisePanels)).sum + (J - (pre.map (·.numSpanwisePanels)).sum) = J := by omega
    rcases hcol with hcol | ⟨hst, hcol⟩
    · obtain ⟨ia, oa, g1, g2, g3⟩ := hR
      obtain ⟨ia', oa', g1', g2', g3'⟩ := hR'
      rw [hdef, hhin] at g1' g2'
      have k1 := ms.flapped g1 g1' (hn.2 _ hsm _ hsm _ _ (Or.inl rfl) g1)
      have k2 := mt.flapped g2 g2' (hn.2 _ hsm _ htm _ _ (Or.inl rfl) g2)
      have c := g3 (J - (pre.map (·.numSpanwisePanels)).sum) (by omega)
      have c' := g3' (J - (pre.map (·.numSpanwisePanels)).sum) (by rw [hnum]; omega)
      rw [hoff, hhalf, hsym', hJe, ← hcol, hp', Option.some.injEq] at c'
      rw [hsym, hJe, ← hcol, hp, Option.some.injEq] at c
      have hv := sectionVertex_inverted hle hcs hsst htst hspn k1 k2
      rw [c, c']
      simp only [Panel.IsInverted, Panel.place, rightPanel]
      exact ⟨hv _ _, hv _ _, hv _ _, hv _ _⟩
    · obtain ⟨ia, oa, g1, g2, g3⟩ := hL (by rw [hsym]; exact hst)
      obtain ⟨ia', oa', g1', g2', g3'⟩ := hL' (by rw [hsym']; exact hst)
      rw [mirroredDeflection_inverted hss, hhin] at g1' g2'
      have k1 := ms.flapped g1 g1' (hn.2 _ hsm _ hsm _ _ (mirroredDeflection_cases s) g1)
      have k2 := mt.flapped g2 g2' (hn.2 _ hsm _ htm _ _ (mirroredDeflection_cases s) g2)
      have c := (g3 (J - (pre.map (·.numSpanwisePanels)).sum) (by omega)).2
      have c' := (g3' (J - (pre.map (·.numSpanwisePanels)).sum) (by rw [hnum]; omega)).2
      rw [hoff, hhalf, hJe, ← hcol, hp', Option.some.injEq] at c'
      rw [hJe, ← hcol, hp, Option.some.injEq] at c
      have hv := sectionVertex_inverted hle hcs hsst htst hspn k1 k2
      rw [c, c']
      simp only [Panel.IsInverted, Panel.place, Panel.mirror, rightPanel, hle, hnn, hv, inverted_reflect, and_self]

end Ptera
