import Verif.Lemmas.InvertedWing
import Verif.Lemmas.Shifted

/-! Helper lemmas: reference dimensions of airplanes upside down, and the motion generated for them. -/

namespace Ptera

open List

/-! ## Reference dimensions -/

theorem Panel.IsInverted.projectedArea {p p' : Panel} (h : p.IsInverted p') (n : V3) :
    p'.projectedArea (-inverted n) = p.projectedArea n := by
  obtain ⟨h1, h2, h3, h4⟩ := h
  unfold Panel.projectedArea Panel.firstDiagonal Panel.secondDiagonal
  have hd : ∀ v : V3, v - (v.dot (-inverted n)) • (-inverted n) = v - (v.dot (inverted n)) • inverted n := by
    intro v; ext <;> simp [V3.dot] <;> ring
  have hneg : ∀ v : V3, (-v).norm = v.norm := by intro v; simp [V3.norm, V3.dot]
  simp only [h1, h2, h3, h4, hd, ← inverted_sub, inverted_dot, ← inverted_smul, inverted_cross, hneg, inverted_norm]

theorem Wing.BuiltInverted.isInverted {w w' : Wing} (h : w.BuiltInverted w') : w.IsInverted w' := by
  obtain ⟨S, S', le, n, sym, u, m, sp, hS, hn, h1, h2⟩ := h
  exact inverted_wing h1 hS hn h2

theorem Wing.BuiltInverted.spec {w w' : Wing} (h : w.BuiltInverted w') :
    w'.spec.leadingEdge = inverted w.spec.leadingEdge ∧ w'.spec.unitNormal = inverted w.spec.unitNormal ∧
    w'.spec.unitChordwise = inverted w.spec.unitChordwise ∧ w'.spec.symmetric = w.spec.symmetric ∧
    w'.spec.numChordwisePanels = w.spec.numChordwisePanels ∧ w'.spec.chordwiseSpacing = w.spec.chordwiseSpacing := by
  obtain ⟨S, S', le, n, sym, u, m, sp, hS, hn, h1, h2⟩ := h
  rw [(Wing.create_ok _ _ _ _ _ _ _ _ h1).1, (Wing.create_ok _ _ _ _ _ _ _ _ h2).1]
  exact ⟨rfl, rfl, rfl, rfl, rfl, rfl⟩

theorem Wing.BuiltInverted.projectedArea {w w' : Wing} (h : w.BuiltInverted w') :
    w'.projectedArea = w.projectedArea := by
  have hi := h.isInverted
  obtain ⟨s1, s2, s3, s4, s5, s6⟩ := h.spec
  have hup : w'.unitUp = -inverted w.unitUp := by
    unfold Wing.unitUp
    rw [s2, s3, inverted_cross]
  unfold Wing.projectedArea
  rw [hup]
  obtain ⟨S, S', le, n, sym, u, m, sp, hS, hn, h1, h2⟩ := h
  obtain ⟨c1, c2, c3, -⟩ := C18_wing_counts _ _ _ _ _ _ _ w h1
  obtain ⟨d1, d2, d3, -⟩ := C18_wing_counts _ _ _ _ _ _ _ w' h2
  have hN : w'.numSpanwisePanels = w.numSpanwisePanels := hi.2.1
  have hp : Forall₂ (Forall₂ Panel.IsInverted) w.panels w'.panels := by
    apply forall₂_of_getElem? (by rw [c1, d1])
    intro i row row' hr hr'
    apply forall₂_of_getElem? (by rw [c2 _ (List.mem_of_getElem? hr), d2 _ (List.mem_of_getElem? hr'), hN])
    intro j p p' hp hp'
    exact hi.2.2.2 i j p p' (by simp [cell, hr, hp]) (by simp [cell, hr', hp'])
  have hf : Forall₂ Panel.IsInverted w.panels.flatten w'.panels.flatten := by
    generalize w.panels = P at hp ⊢
    generalize w'.panels = P' at hp ⊢
    induction hp with
    | nil => exact .nil
    | cons h1 _ ih =>
      rw [List.flatten_cons, List.flatten_cons]
      exact List.rel_append h1 ih
  congr 1
  generalize w.panels.flatten = P at hf ⊢
  generalize w'.panels.flatten = P' at hf ⊢
  generalize w.unitUp = up
  induction hf with
  | nil => rfl
  | cons h1 _ ih => rw [List.map_cons, List.map_cons, h1.projectedArea, ih]

theorem projectedSpan_inverted (n v : V3) : Wing.projectedSpan (inverted n) (inverted v) = Wing.projectedSpan n v := by
  unfold Wing.projectedSpan
  rw [inverted_dot, ← inverted_smul, inverted_norm]

theorem Wing.BuiltInverted.mac {w w' : Wing} (h : w.BuiltInverted w') :
    w'.meanAerodynamicChord = w.meanAerodynamicChord := by
  have ha := h.projectedArea
  obtain ⟨s1, s2, s3, s4, s5, s6⟩ := h.spec
  unfold Wing.meanAerodynamicChord
  rw [ha, s4, s2]
  obtain ⟨S, S', le, n, sym, u, m, sp, hS, hn, h1, h2⟩ := h
  have hsec : ∀ T T' : List WingCrossSection, Forall₂ WingCrossSection.IsInverted T T' → ∀ (n u u' : V3),
      (List.zip (withChordwise u' T') (withChordwise u' T').tail).map (Wing.macTerm (inverted n))
        = (List.zip (withChordwise u T) (withChordwise u T).tail).map (Wing.macTerm n) := by
    intro T T' hT n u u'
    induction hT with
    | nil => rfl
    | cons k1 kr ih =>
      cases kr with
      | nil => rfl
      | cons k2 kr =>
        simp only [withChordwise, List.map_cons, List.tail_cons, List.zip_cons_cons] at ih ⊢
        rw [ih]
        congr 1
        obtain ⟨_, -, -, rfl⟩ := k1
        obtain ⟨_, -, -, rfl⟩ := k2
        simp only [Wing.macTerm, ← inverted_sub, projectedSpan_inverted]
  rw [(Wing.create_ok _ _ _ _ _ _ _ _ h1).2.stored, (Wing.create_ok _ _ _ _ _ _ _ _ h2).2.stored, hsec S S' hS]

theorem Airplane.create_inverted {wings wings' : List Wing} (hw : Forall₂ Wing.BuiltInverted wings wings') {ref : V3}
    {weight : ℝ} {s c b : Option ℝ} {a a' : Airplane} (h : Airplane.create wings ref weight s c b = .ok a)
    (h' : Airplane.create wings' (inverted ref) weight s c b = .ok a') : a.IsInverted a' := by
  cases hw with
  | nil => cases h
  | cons h1 h2 =>
    cases h
    cases h'
    refine ⟨rfl, ?_, ?_, ?_, ?_⟩
    · simp only [h1.projectedArea]
    · simp only [h1.mac]
    · simp only [h1.isInverted.1]
    · exact (Forall₂.cons h1 h2).imp fun _ _ h => h.isInverted

theorem Airplane.BuiltInverted.isInverted {a a' : Airplane} (h : a.BuiltInverted a') : a.IsInverted a' := by
  obtain ⟨wings, wings', ref, weight, s, c, b, h1, h2, hw⟩ := h
  exact Airplane.create_inverted hw h1 h2

/-! ## Motion -/

theorem getD_neg (l : List ℝ) (k : ℕ) : (l.map fun x => -x).getD k 0 = -(l.getD k 0) := by
  rw [List.getD_eq_getElem?_getD, List.getD_eq_getElem?_getD, List.getElem?_map]
  cases l[k]? <;> simp

theorem Oscillation.values_negated (o : Oscillation) (b : ℝ) (n : ℕ) (dt : ℝ) :
    o.negated.values (-b) n dt = (o.values b n dt).map (List.map fun x => -x) := by
  unfold Oscillation.values Oscillation.negated
  simp only
  split_ifs
  · simp only [Except.map, oscillatingSinspace, constList, neg_eq_zero]
    split_ifs
    · simp
    · simp [Function.comp_def]; intros; ring
  · simp only [Except.map, oscillatingLinspace, constList, neg_eq_zero]
    split_ifs
    · simp
    · simp [Function.comp_def]; intros; ring
  · rfl

theorem Oscillation.valuesCustom_negated (o : Oscillation) (b : ℝ) (n : ℕ) (dt : ℝ) :
    o.negated.valuesCustom (-b) n dt = (o.valuesCustom b n dt).map (List.map fun x => -x) := by
  unfold Oscillation.valuesCustom Oscillation.negated
  simp only
  split_ifs
  · simp only [Except.map, oscillatingSinspace, constList, neg_eq_zero]
    split_ifs
    · simp
    · simp [Function.comp_def]; intros; ring
  · simp only [Except.map, oscillatingLinspace, constList, neg_eq_zero]
    split_ifs
    · simp
    · simp [Function.comp_def]; intros; ring
  · cases o.custom with
    | none => rfl
    | some f =>
      simp only [Except.map, oscillatingCustomspace, constList, neg_eq_zero]
      split_ifs
      · simp
      · simp [Function.comp_def]; intros; ring
  · rfl

theorem rebuild_inverted {b b' : WingCrossSection} (h : b.IsInverted b') {le : V3} {twist : ℝ} {s : WingCrossSection}
    (hs : WingCrossSectionMovement.rebuild b le twist = .ok s) :
    ∃ s', WingCrossSectionMovement.rebuild b' (inverted le) (-twist) = .ok s' ∧ s.IsInverted s' := by
  obtain ⟨a, h1, h2, rfl⟩ := h
  unfold WingCrossSectionMovement.rebuild WingCrossSection.create at hs ⊢
  split_ifs at hs with c1 c2 c3
  simp only [c1, c2, c3, if_false]
  cases hs
  refine ⟨_, rfl, a, h1, h2, ?_⟩
  simp [inverted_zero]
  ext <;> simp [inverted]

theorem movedLeadingEdge_inverted (last : V3) (span sweep heave : ℝ) :
    WingCrossSectionMovement.movedLeadingEdge (inverted last) span (-sweep) heave
      = inverted (WingCrossSectionMovement.movedLeadingEdge last span sweep heave) := by
  unfold WingCrossSectionMovement.movedLeadingEdge inverted
  have : -sweep * Real.pi / 180 = -(sweep * Real.pi / 180) := by ring
  simp only [this, Real.cos_neg, Real.sin_neg]
  ext <;> simp
  ring

theorem WingCrossSectionMovement.IsInverted.generate {m m' : WingCrossSectionMovement} (h : m.IsInverted m') {n : ℕ}
    {dt : ℝ} {last : List V3} {v : Bool} {span sweep heave : ℝ} {hist : List WingCrossSection}
    (hg : m.generate n dt last v span sweep heave = .ok hist) :
    ∃ hist', m'.generate n dt (last.map inverted) v span (-sweep) heave = .ok hist' ∧
      Forall₂ WingCrossSection.IsInverted hist hist' := by
  obtain ⟨hb, e1, e2, e3⟩ := h
  have htw : m'.base.twist = -m.base.twist := by obtain ⟨_, -, -, e⟩ := hb; rw [e]
  have hle : m'.base.leadingEdge = inverted m.base.leadingEdge := by obtain ⟨_, -, -, e⟩ := hb; rw [e]
  unfold WingCrossSectionMovement.generate at hg ⊢
  obtain ⟨sw, g1, hg⟩ := bind_ok.mp hg
  obtain ⟨pi, g2, hg⟩ := bind_ok.mp hg
  obtain ⟨he, g3, hg⟩ := bind_ok.mp hg
  rw [e1, e2, e3, htw, Oscillation.valuesCustom_negated, Oscillation.valuesCustom_negated, g1, g2, g3]
  simp only [Except.map, bind, Except.bind]
  have hlast : ∀ k, (last.map inverted).getD k 0 = inverted (last.getD k 0) := by
    intro k
    rw [List.getD_eq_getElem?_getD, List.getD_eq_getElem?_getD, List.getElem?_map]
    cases last[k]? with
    | none => exact inverted_zero.symm
    | some _ => rfl
  refine mapM_related (R := Eq) ?_ (forall₂_eq_eq_eq ▸ rfl) hg
  intro k k' s hk hs
  subst hk
  cases v with
  | true =>
    simp only [if_true] at hs ⊢
    rw [hle]
    exact rebuild_inverted hb hs
  | false =>
    simp only [Bool.false_eq_true, if_false] at hs ⊢
    rw [getD_neg, getD_neg, hlast, movedLeadingEdge_inverted]
    exact rebuild_inverted hb hs

theorem leadingEdges_inverted {l l' : List WingCrossSection} (h : Forall₂ WingCrossSection.IsInverted l l') :
    l'.map (·.leadingEdge) = (l.map (·.leadingEdge)).map inverted := by
  induction h with
  | nil => rfl
  | cons h1 _ ih =>
    obtain ⟨_, -, -, rfl⟩ := h1
    simp [ih]

theorem WingCrossSectionMovement.IsInverted.history {m m' : WingCrossSectionMovement} (h : m.IsInverted m') {n : ℕ}
    {dt : ℝ} {last last' : Option (List WingCrossSection)}
    (hl : Option.Rel (Forall₂ WingCrossSection.IsInverted) last last') {hist : List WingCrossSection}
    (hg : WingMovement.sectionHistory n dt last m = .ok hist) :
    ∃ hist', WingMovement.sectionHistory n dt last' m' = .ok hist' ∧ Forall₂ WingCrossSection.IsInverted hist hist' := by
  have hle : m'.base.leadingEdge = inverted m.base.leadingEdge := by obtain ⟨_, -, -, e⟩ := h.1; rw [e]
  cases hl with
  | none =>
    simp only [WingMovement.sectionHistory] at hg ⊢
    split_ifs at hg with hc
    rw [if_neg (by rw [h.2.1, h.2.2.2]; simpa [Oscillation.negated] using hc)]
    obtain ⟨hist', g1, g2⟩ := h.generate hg
    refine ⟨hist', ?_, g2⟩
    simpa [inverted_zero] using g1
  | some hl =>
    cases hl with
    | nil => simp [WingMovement.sectionHistory] at hg
    | @cons a _ _ _ h1 h2 =>
      have hles := leadingEdges_inverted (Forall₂.cons h1 h2)
      obtain ⟨_, -, -, rfl⟩ := h1
      simp only [WingMovement.sectionHistory] at hg ⊢
      rw [hles, hle]
      simp only [inverted] at hg ⊢
      by_cases hy : m.base.leadingEdge.y ≠ a.leadingEdge.y
      · rw [@if_pos _ _ hy] at hg
        simp only [hy, ne_eq, not_false_eq_true, ↓reduceIte]
        obtain ⟨hist', g1, g2⟩ := h.generate hg
        refine ⟨hist', ?_, g2⟩
        rw [← g1]
        simp only [V3.sub_x, V3.sub_y, V3.sub_z]
        congr 1
        · congr 1
          ring
        · rw [← neg_sub', neg_div, Real.arctan_neg]
          ring
      · rw [@if_neg _ _ hy] at hg
        rw [not_not] at hy
        simp only [hy, ne_eq, not_true_eq_false, ↓reduceIte]
        obtain ⟨hist', g1, g2⟩ := h.generate hg
        refine ⟨hist', ?_, g2⟩
        rw [← g1]
        simp only [V3.sub_x, V3.sub_y, V3.sub_z, neg_zero]
        congr 1
        congr 1
        rw [hy]
        ring

theorem histories_inverted {n : ℕ} {dt : ℝ} {ms ms' : List WingCrossSectionMovement}
    (h : Forall₂ WingCrossSectionMovement.IsInverted ms ms') : ∀ {last last' : Option (List WingCrossSection)}
    {hs : List (List WingCrossSection)}, Option.Rel (Forall₂ WingCrossSection.IsInverted) last last' →
    WingMovement.sectionHistories n dt last ms = .ok hs →
    ∃ hs', WingMovement.sectionHistories n dt last' ms' = .ok hs' ∧
      Forall₂ (Forall₂ WingCrossSection.IsInverted) hs hs' := by
  induction h with
  | nil =>
    intro last last' hs _ hg
    cases hg
    exact ⟨[], rfl, .nil⟩
  | cons h1 _ ih =>
    intro last last' hs hl hg
    simp only [WingMovement.sectionHistories] at hg ⊢
    obtain ⟨h0, g0, hg⟩ := bind_ok.mp hg
    obtain ⟨rest, gr, hg⟩ := bind_ok.mp hg
    rw [pure_ok] at hg
    subst hg
    obtain ⟨h0', k1, k2⟩ := h1.history hl g0
    obtain ⟨rest', k3, k4⟩ := ih (.some k2) gr
    exact ⟨h0' :: rest', bind_ok.mpr ⟨_, k1, bind_ok.mpr ⟨_, k3, rfl⟩⟩, .cons k2 k4⟩

/-- Generated sections have the airfoils and control surfaces of the base sections. -/
theorem generated_like {n : ℕ} {dt : ℝ} : ∀ {ms : List WingCrossSectionMovement} {last : Option (List WingCrossSection)}
    {hs : List (List WingCrossSection)}, WingMovement.sectionHistories n dt last ms = .ok hs → ∀ h ∈ hs, ∀ s ∈ h,
    ∃ m ∈ ms, s.airfoil = m.base.airfoil ∧ s.deflection = m.base.deflection ∧ s.hinge = m.base.hinge
  | [], _, hs, hg => by cases hg; simp
  | m :: ms, last, hs, hg => by
    simp only [WingMovement.sectionHistories] at hg
    obtain ⟨h0, g0, hg⟩ := bind_ok.mp hg
    obtain ⟨rest, gr, hg⟩ := bind_ok.mp hg
    rw [pure_ok] at hg
    subst hg
    have key : ∀ {v : Bool} {l : List V3} {a b c : ℝ}, m.generate n dt l v a b c = .ok h0 → ∀ s ∈ h0,
        s.airfoil = m.base.airfoil ∧ s.deflection = m.base.deflection ∧ s.hinge = m.base.hinge := by
      intro v l a b c hgen s hs
      obtain ⟨sw, pi, he, _, _, _, hl, hk⟩ := WingCrossSectionMovement.generate_ok hgen
      obtain ⟨k, hk'⟩ := List.getElem?_of_mem hs
      obtain ⟨s', e1, e2⟩ := hk k (by have := (List.getElem?_eq_some_iff.mp hk').1; omega)
      rw [hk'] at e1
      cases e1
      split_ifs at e2 <;> rw [rebuild_ok e2] <;> exact ⟨rfl, rfl, rfl⟩
    have h0' : ∀ s ∈ h0, s.airfoil = m.base.airfoil ∧ s.deflection = m.base.deflection ∧ s.hinge = m.base.hinge := by
      unfold WingMovement.sectionHistory at g0
      cases last with
      | none =>
        simp only at g0
        split_ifs at g0
        exact key g0
      | some prev =>
        cases prev with
        | nil => simp at g0
        | cons a l =>
          simp only at g0
          split_ifs at g0 <;> exact key g0
    intro h hh s hs
    rcases List.mem_cons.mp hh with rfl | hh
    · exact ⟨m, by simp, h0' s hs⟩
    · obtain ⟨m', hm', e⟩ := generated_like gr h hh s hs
      exact ⟨m', by simp [hm'], e⟩

theorem nosesKept_generated {n : ℕ} {dt : ℝ} {ms : List WingCrossSectionMovement} {last : Option (List WingCrossSection)}
    {hs : List (List WingCrossSection)} (hg : WingMovement.sectionHistories n dt last ms = .ok hs)
    (hn : NosesKept (ms.map (·.base))) (k : ℕ) : NosesKept (hs.filterMap (·[k]?)) := by
  have key : ∀ s ∈ hs.filterMap (·[k]?), ∃ m ∈ ms, s.airfoil = m.base.airfoil ∧ s.deflection = m.base.deflection ∧
      s.hinge = m.base.hinge := by
    intro s hs'
    obtain ⟨h, hh, e⟩ := List.mem_filterMap.mp hs'
    exact generated_like hg h hh s (List.mem_of_getElem? e)
  obtain ⟨n1, n2⟩ := hn
  refine ⟨?_, ?_⟩
  · intro s hs'
    obtain ⟨m, hm, e, -, -⟩ := key s hs'
    rw [e]
    exact n1 _ (List.mem_map_of_mem hm)
  · intro s hs' t ht d a hd ha
    obtain ⟨m, hm, -, e2, e3⟩ := key s hs'
    obtain ⟨m', hm', e4, -, -⟩ := key t ht
    rw [e2] at hd
    rw [e3, e4] at ha
    exact n2 _ (List.mem_map_of_mem hm) _ (List.mem_map_of_mem hm') d a hd ha

theorem WingMovement.IsInverted.generate {m m' : WingMovement} (h : m.IsInverted m') {n : ℕ} {d : ℝ} {ws : List Wing}
    (hg : m.generate n d = .ok ws) :
    ∃ ws', m'.generate n d = .ok ws' ∧ Forall₂ Wing.BuiltInverted ws ws' := by
  obtain ⟨hb, hsec, hn, e1, e2, e3⟩ := h
  obtain ⟨b1, b2, b3, b4, b5, b6⟩ := hb.spec
  unfold WingMovement.generate at hg ⊢
  obtain ⟨xs, g1, hg⟩ := bind_ok.mp hg
  obtain ⟨ys, g2, hg⟩ := bind_ok.mp hg
  obtain ⟨zs, g3, hg⟩ := bind_ok.mp hg
  obtain ⟨hs, g4, hg⟩ := bind_ok.mp hg
  obtain ⟨hs', g4', hrel⟩ := histories_inverted hsec .none g4
  rw [e1, e2, e3, b1, b4, b5, b6]
  have hx : (inverted m.base.spec.leadingEdge).x = m.base.spec.leadingEdge.x := rfl
  have hy : (inverted m.base.spec.leadingEdge).y = m.base.spec.leadingEdge.y := rfl
  have hz : (inverted m.base.spec.leadingEdge).z = -m.base.spec.leadingEdge.z := rfl
  rw [hx, hy, hz, Oscillation.values_negated, g1, g2, g3, g4']
  simp only [Except.map, bind, Except.bind]
  refine mapM_related (R := Eq) ?_ (forall₂_eq_eq_eq ▸ rfl) hg
  intro k k' w hk hw
  subst hk
  have hcol := column_forall₂ hrel k
  have hnk := nosesKept_generated g4 hn k
  have i1 : inverted ⟨0, 1, 0⟩ = ⟨0, 1, 0⟩ := by simp [inverted]
  have i2 : inverted ⟨1, 0, 0⟩ = ⟨1, 0, 0⟩ := by simp [inverted]
  obtain ⟨w', hw'⟩ := inverted_accepted hw hcol hnk
  refine ⟨w', ?_, _, _, _, _, _, _, _, _, hcol, hnk, hw, hw'⟩
  rw [i1, i2] at hw'
  rw [getD_neg]
  exact hw'

theorem AirplaneMovement.IsInverted.generate {m m' : AirplaneMovement} (h : m.IsInverted m') {n : ℕ} {d : ℝ}
    {as : List Airplane} (hg : m.generate n d = .ok as) :
    ∃ as', m'.generate n d = .ok as' ∧ Forall₂ Airplane.IsInverted as as' := by
  obtain ⟨hb, hw, e1, e2, e3⟩ := h
  have hx := hb.isInverted.1
  unfold AirplaneMovement.generate at hg ⊢
  obtain ⟨xs, g1, hg⟩ := bind_ok.mp hg
  obtain ⟨ys, g2, hg⟩ := bind_ok.mp hg
  obtain ⟨zs, g3, hg⟩ := bind_ok.mp hg
  obtain ⟨ws, g4, hg⟩ := bind_ok.mp hg
  obtain ⟨ws', g4', hws⟩ := mapM_related (f := fun w : WingMovement => w.generate n d)
    (f' := fun w : WingMovement => w.generate n d) (R := WingMovement.IsInverted) (S := Forall₂ Wing.BuiltInverted)
    (fun a a' b hab ha => hab.generate ha) hw g4
  rw [e1, e2, e3, hx]
  have hx : (inverted m.base.xyzRef).x = m.base.xyzRef.x := rfl
  have hy : (inverted m.base.xyzRef).y = m.base.xyzRef.y := rfl
  have hz : (inverted m.base.xyzRef).z = -m.base.xyzRef.z := rfl
  rw [hx, hy, hz, Oscillation.values_negated, g1, g2, g3, g4']
  simp only [Except.map, bind, Except.bind]
  refine mapM_related (R := Eq) ?_ (forall₂_eq_eq_eq ▸ rfl) hg
  intro k k' a hk ha
  subst hk
  have hcol := column_forall₂ hws k
  rw [getD_neg]
  have hne : ∃ a', Airplane.create (ws'.filterMap (·[k]?)) (inverted ⟨xs.getD k 0, ys.getD k 0, zs.getD k 0⟩) = .ok a' := by
    generalize ws.filterMap (·[k]?) = l at ha hcol
    generalize ws'.filterMap (·[k]?) = l' at hcol
    cases hcol with
    | nil => cases ha
    | cons _ _ => exact ⟨_, rfl⟩
  obtain ⟨a', ha'⟩ := hne
  exact ⟨a', ha', Airplane.create_inverted hcol ha ha'⟩

theorem WingMovement.IsInverted.maxPeriod {m m' : WingMovement} (h : m.IsInverted m') : m'.maxPeriod = m.maxPeriod := by
  obtain ⟨-, hs, -, e1, e2, e3⟩ := h
  have : m'.sectionMovements.map (·.maxPeriod) = m.sectionMovements.map (·.maxPeriod) := by
    generalize m.sectionMovements = l at hs ⊢
    generalize m'.sectionMovements = l' at hs ⊢
    induction hs with
    | nil => rfl
    | cons h1 _ ih =>
      rw [List.map_cons, List.map_cons, ih]
      congr 1
      obtain ⟨-, f1, f2, f3⟩ := h1
      unfold WingCrossSectionMovement.maxPeriod
      rw [f1, f2, f3]
      rfl
  unfold WingMovement.maxPeriod
  rw [this, e1, e2, e3]
  rfl

theorem AirplaneMovement.IsInverted.maxPeriod {m m' : AirplaneMovement} (h : m.IsInverted m') :
    m'.maxPeriod = m.maxPeriod := by
  obtain ⟨-, hw, e1, e2, e3⟩ := h
  unfold AirplaneMovement.maxPeriod
  rw [mapM_congr₂ (fun _ _ h => WingMovement.IsInverted.maxPeriod h) hw, e1, e2, e3]
  rfl

variable {ams ams' : List AirplaneMovement} {om : OperatingPointMovement}

theorem inverted_cRef (h : Forall₂ AirplaneMovement.IsInverted ams ams') :
    ams'.map (·.base.cRef) = ams.map (·.base.cRef) := by
  induction h with
  | nil => rfl
  | cons h1 _ ih => rw [List.map_cons, List.map_cons, h1.1.isInverted.2.2.1, ih]

theorem study_inverted {ns nc nch : Option ℕ} {dt : Option ℝ} {only : Bool} {p : UnsteadyProblem}
    (hams : Forall₂ AirplaneMovement.IsInverted ams ams') (h : study ams om ns nc nch dt only = .ok p) :
    ∃ p', study ams' { om with base := { om.base with alpha := -om.base.alpha } } ns nc nch dt only = .ok p' ∧
      p'.Made ∧ p'.numSteps = p.numSteps ∧ p'.deltaTime = p.deltaTime ∧ p'.maxPeriod = p.maxPeriod ∧
      p'.firstAveragingStep = p.firstAveragingStep ∧ p'.firstResultsStep = p.firstResultsStep ∧
      ∀ k < p.numSteps, Forall₂ Airplane.IsInverted (p.airplanesAt k) (p'.airplanesAt k) ∧
        p'.operatingPointAt k = { p.operatingPointAt k with alpha := -(p.operatingPointAt k).alpha } := by
  have hP : movementMaxPeriod ams' { om with base := { om.base with alpha := -om.base.alpha } }
      = movementMaxPeriod ams om := by
    unfold movementMaxPeriod
    rw [mapM_congr₂ (fun _ _ h => AirplaneMovement.IsInverted.maxPeriod h) hams]
    rfl
  obtain ⟨p', h', hm', hn, hd, hP', ha', hf, -, H, H', O, O', hH, hO, hk⟩ :=
    study_varied (ams' := ams') (om' := { om with base := { om.base with alpha := -om.base.alpha } }) h hP
      (by
        cases dt with
        | some d => rfl
        | none =>
          unfold chooseDeltaTime defaultDeltaTime
          rw [mapM_congr₂ (R := AirplaneMovement.IsInverted) ?_ hams]
          intro m m' hm
          rw [hm.1.isInverted.2.2.1]
          obtain ⟨wings, wings', ref, weight, s, c, b, h1, h2, hw⟩ := hm.1
          cases hw with
          | nil => cases h1
          | cons hw _ =>
            simp only [Airplane.create, Except.ok.injEq] at h1 h2
            rw [← h1, ← h2]
            simp only
            rw [hw.spec.2.2.2.2.1])
      (fun d => by
        unfold runLength
        rw [hP, inverted_cRef hams])
      (fun H H' => Forall₂ (Forall₂ Airplane.IsInverted) H H')
      (fun O O' => O' = O.map fun o => { o with alpha := -o.alpha })
      (fun n d H hH => mapM_related (R := AirplaneMovement.IsInverted) (fun a a' b hab ha => hab.generate ha) hams hH) (by
        intro n d O hO
        unfold OperatingPointMovement.generate at hO ⊢
        obtain ⟨vs, h1, h2⟩ := bind_ok.mp hO
        rw [pure_ok] at h2
        subst h2
        refine ⟨_, bind_ok.mpr ⟨vs, h1, rfl⟩, ?_⟩
        rw [List.map_map]; rfl)
  refine ⟨p', h', hm', hn, hd, hP', ha', hf, fun k hkn => ⟨?_, ?_⟩⟩
  · obtain ⟨a1, a2, -, -⟩ := hk k hkn
    apply forall₂_of_getElem? (by rw [← a1.length_eq, ← a2.length_eq, hH.length_eq])
    intro i A A' hA hA'
    obtain ⟨l, hl, e⟩ := forall₂_at a1.flip i A hA
    obtain ⟨l', hl', e'⟩ := forall₂_at a2.flip i A' hA'
    obtain ⟨l'', hl'', hr⟩ := forall₂_at hH i l hl
    rw [hl', Option.some.injEq] at hl''
    subst hl''
    obtain ⟨B, hB, hrel⟩ := forall₂_at hr k A e
    rw [e', Option.some.injEq] at hB
    rwa [hB]
  · obtain ⟨-, -, a3, a4⟩ := hk k hkn
    rw [hO, List.getElem?_map, a3, Option.map_some, Option.some.injEq] at a4
    exact a4.symm

end Ptera
