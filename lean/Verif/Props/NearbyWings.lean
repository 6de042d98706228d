import Verif.Lemmas.NearbyWings
import Verif.Lemmas.GeneratedAirplanes
import Verif.Props.Nearby
import Verif.Props.NearbyUnsteady

/-!
# C99: a small change of the description of a wing changes its mesh, and the results, only a little
-/

namespace Ptera

open Filter Topology List UnsteadySolver

/-! ## Smaller changes -/

theorem WingCrossSection.Near.mono {δ δ' : ℝ} (h : δ ≤ δ') {s t : WingCrossSection} (n : s.Near δ t) : s.Near δ' t :=
  { n with
    deflection := n.deflection.trans_le h
    leadingEdge := n.leadingEdge.trans_le h
    chord := n.chord.trans_le h
    unitNormal := n.unitNormal.trans_le h
    twist := n.twist.trans_le h }

theorem Wing.Near.mono {δ δ' : ℝ} (h : δ ≤ δ') {w w' : Wing} (n : w.Near δ w') : w.Near δ' w' :=
  { n with
    leadingEdge := n.leadingEdge.trans_le h
    unitNormal := n.unitNormal.trans_le h
    unitChordwise := n.unitChordwise.trans_le h
    sections := n.sections.imp fun _ _ => WingCrossSection.Near.mono h }

theorem NearIfGiven.mono {δ δ' : ℝ} (h : δ ≤ δ') : ∀ {x y : Option ℝ}, NearIfGiven δ x y → NearIfGiven δ' x y
  | none, none, _ => trivial
  | some _, some _, n => lt_of_lt_of_le n h
  | none, some _, n => n.elim
  | some _, none, n => n.elim

theorem Airplane.Near.mono {δ δ' : ℝ} (h : δ ≤ δ') {a a' : Airplane} (n : a.Near δ a') : a.Near δ' a' := by
  obtain ⟨w, w', s, s', c, c', b, b', h1, h2, h3, h4, h5, h6, h7⟩ := n
  exact ⟨w, w', s, s', c, c', b, b', h1, h2, h3.imp fun _ _ => Wing.Near.mono h, h4.trans_le h, h5.mono h, h6.mono h,
    h7.mono h⟩

/-- One bound for all members of a list. -/
theorem forall₂_delta {α : Type*} {R : ℝ → α → α → Prop} (mono : ∀ {δ δ' a b}, δ ≤ δ' → R δ a b → R δ' a b)
    {Q : α → α → Prop} (l : List α) (h : ∀ a ∈ l, ∃ δ > 0, ∀ b, R δ a b → Q a b) :
    ∃ δ > 0, ∀ m, Forall₂ (R δ) l m → Forall₂ Q l m := by
  induction l with
  | nil => exact ⟨1, one_pos, fun m hm => by cases hm; exact .nil⟩
  | cons a l ih =>
    obtain ⟨d1, p1, h1⟩ := h a (by simp)
    obtain ⟨d2, p2, h2⟩ := ih fun b hb => h b (by simp [hb])
    refine ⟨min d1 d2, lt_min p1 p2, fun m hm => ?_⟩
    cases hm with
    | cons hh ht =>
      exact .cons (h1 _ (mono (min_le_left _ _) hh)) (h2 _ (ht.imp fun _ _ => mono (min_le_right _ _)))

/-- One bound for all steps. -/
theorem steps_delta {Q : ℕ → ℝ → Prop} (mono : ∀ {k δ δ'}, δ ≤ δ' → Q k δ' → Q k δ) (N : ℕ)
    (h : ∀ k < N, ∃ δ > 0, Q k δ) : ∃ δ > 0, ∀ k < N, Q k δ := by
  induction N with
  | zero => exact ⟨1, one_pos, fun k hk => by omega⟩
  | succ N ih =>
    obtain ⟨d1, p1, h1⟩ := ih fun k hk => h k (by omega)
    obtain ⟨d2, p2, h2⟩ := h N (by omega)
    refine ⟨min d1 d2, lt_min p1 p2, fun k hk => ?_⟩
    rcases Nat.lt_succ_iff_lt_or_eq.mp hk with hk | rfl
    · exact mono (min_le_left _ _) (h1 k hk)
    · exact mono (min_le_right _ _) h2

/-! ## Wings -/

/-- C99: a wing and a wing given with slightly different numbers have meshes of the same shape with nearby vertices, nearby
spans and areas and, unless the projected area is zero, nearby mean aerodynamic chords. -/
theorem C99_wing (w : Wing) (hw : w.Made) (hne : ∀ s ∈ w.sections, s.unitNormal ≠ 0) (ε : ℝ) (hε : 0 < ε) :
    ∃ δ > 0, ∀ w', w.Near δ w' → Forall₂ (Forall₂ (Panel.Near ε)) w.panels w'.panels ∧ |w'.span - w.span| < ε ∧
      |w'.projectedArea - w.projectedArea| < ε ∧ |w'.wettedArea - w.wettedArea| < ε ∧
      (w.projectedArea ≠ 0 → |w'.meanAerodynamicChord - w.meanAerodynamicChord| < ε) := by
  by_contra hcon
  push Not at hcon
  choose W hn hbad using fun n : ℕ => hcon (1 / ((n : ℝ) + 1)) (by positivity)
  have h := WingTends.of_near tendsto_one_div_add_atTop_nhds_zero_nat hw hn hne
  obtain ⟨l, r⟩ := hw.rows
  have hcells : ∀ᶠ n in atTop, ∀ i ∈ Finset.range w.spec.numChordwisePanels,
      ∀ j ∈ Finset.range w.numSpanwisePanels, ∀ p, cell w.panels i j = some p →
        ∃ q, cell (W n).panels i j = some q ∧ p.Near ε q := by
    rw [Filter.eventually_all_finset]
    intro i _
    rw [Filter.eventually_all_finset]
    intro j _
    cases hp : cell w.panels i j with
    | none => exact Eventually.of_forall fun n p e => by simp at e
    | some p =>
      obtain ⟨P, hP, v1, v2, v3, v4⟩ := h.cell_tends hp
      filter_upwards [v1.close hε, v2.close hε, v3.close hε, v4.close hε] with n k1 k2 k3 k4 p' e
      cases e
      exact ⟨P n, hP n, k1, k2, k3, k4⟩
  have hpan : ∀ᶠ n in atTop, Forall₂ (Forall₂ (Panel.Near ε)) w.panels (W n).panels := by
    filter_upwards [hcells] with n hn'
    obtain ⟨l', r'⟩ := (hn n).made'.rows
    rw [List.forall₂_iff_get]
    refine ⟨by rw [l, l', h.numChordwisePanels n], fun i h1 h2 => ?_⟩
    rw [List.forall₂_iff_get]
    have e1 : (w.panels.get ⟨i, h1⟩).length = w.numSpanwisePanels := r _ (List.get_mem _ _)
    have e2 : ((W n).panels.get ⟨i, h2⟩).length = (W n).numSpanwisePanels := r' _ (List.get_mem _ _)
    refine ⟨by rw [e1, e2, h.numSpanwise n], fun j h3 h4 => ?_⟩
    obtain ⟨q, hq, hnear⟩ := hn' i (Finset.mem_range.mpr (by rw [← l]; exact h1)) j
      (Finset.mem_range.mpr (by rw [← e1]; exact h3)) ((w.panels.get ⟨i, h1⟩).get ⟨j, h3⟩) (by
        unfold cell
        rw [List.getElem?_eq_getElem h1, Option.bind_some]
        exact List.getElem?_eq_getElem h3)
    unfold cell at hq
    rw [List.getElem?_eq_getElem h2, Option.bind_some] at hq
    have := List.getElem?_eq_getElem h4
    simp only [List.get_eq_getElem] at this hnear ⊢
    rw [this, Option.some.injEq] at hq
    rw [hq]
    exact hnear
  have close : ∀ {f : ℕ → ℝ} {x : ℝ}, Tendsto f atTop (𝓝 x) → ∀ᶠ n in atTop, |f n - x| < ε :=
    fun hf => (Metric.tendsto_nhds.mp hf ε hε).mono fun n hn => by rwa [Real.dist_eq] at hn
  by_cases hA : w.projectedArea = 0
  · obtain ⟨n, k1, k2, k3, k4⟩ := (hpan.and ((close h.span).and ((close h.projectedArea).and (close h.wettedArea)))).exists
    exact (hbad n k1 k2 k3 k4).1 hA
  · obtain ⟨n, k1, k2, k3, k4, k5⟩ := (hpan.and ((close h.span).and ((close h.projectedArea).and
      ((close h.wettedArea).and (close (h.meanAerodynamicChord hA)))))).exists
    exact absurd k5 (not_lt.mpr (hbad n k1 k2 k3 k4).2)

theorem split_at {S : List WingCrossSection} {i : ℕ} {s t : WingCrossSection} (hs : S[i]? = some s) (ht : S[i + 1]? = some t) :
    S = S.take i ++ s :: t :: S.drop (i + 2) := by
  obtain ⟨l1, rfl⟩ := List.getElem?_eq_some_iff.mp hs
  obtain ⟨l2, rfl⟩ := List.getElem?_eq_some_iff.mp ht
  conv_lhs => rw [← List.take_append_drop i S]
  rw [List.drop_eq_getElem_cons l1, List.drop_eq_getElem_cons l2]

theorem RegularFlaps.withChordwise {S : List WingCrossSection} (h : RegularFlaps S) (u : V3) :
    RegularFlaps (withChordwise u S) := by
  intro pre s t post e d hd
  have hs : (Ptera.withChordwise u S)[pre.length]? = some s := by rw [e]; simp
  have ht : (Ptera.withChordwise u S)[pre.length + 1]? = some t := by
    rw [e, List.getElem?_append_right (by omega)]; simp
  unfold Ptera.withChordwise at hs ht
  rw [List.getElem?_map, Option.map_eq_some_iff] at hs ht
  obtain ⟨s, hs, rfl⟩ := hs
  obtain ⟨t, ht, rfl⟩ := ht
  exact h _ s t _ (split_at hs ht) d hd

/-- C99: the constructor accepts every list of cross sections given with slightly different numbers (with the normals left as
they are and the root still at the leading edge of the wing), and the mesh and the dimensions of the wing are nearby. Where
deflections change, the control surfaces must be regular and deflected by less than ninety degrees. -/
theorem C99_given {S : List WingCrossSection} {le n u : V3} {sym : Bool} {m : ℕ} {sp : String} {w : Wing}
    (hw : Wing.create S le n sym u m sp = .ok w) (hne : ∀ s ∈ S, s.unitNormal ≠ 0) (ε : ℝ) (hε : 0 < ε) :
    ∃ δ > 0, ∀ (S' : List WingCrossSection) (le' : V3),
      Forall₂ (fun s t : WingCrossSection => s.Near δ t ∧ t.unitNormal = s.unitNormal) S S' →
      (∀ root, S'[0]? = some root → root.leadingEdge = 0) → (le' - le).norm < δ →
      (S'.map (·.deflection) = S.map (·.deflection) ∨ (RegularFlaps S ∧ ∀ s ∈ S, |s.deflection| < 90)) →
      ∃ w', Wing.create S' le' n sym u m sp = .ok w' ∧ Forall₂ (Forall₂ (Panel.Near ε)) w.panels w'.panels ∧
        |w'.span - w.span| < ε ∧ |w'.projectedArea - w.projectedArea| < ε ∧ |w'.wettedArea - w.wettedArea| < ε ∧
        (w.projectedArea ≠ 0 → |w'.meanAerodynamicChord - w.meanAerodynamicChord| < ε) := by
  have hmade : w.Made := ⟨_, _, _, _, _, _, _, hw⟩
  obtain ⟨hspec, hacc⟩ := Wing.create_ok _ _ _ _ _ _ _ w hw
  obtain ⟨hdoc, hm, hmesh⟩ := (C17_wing_accepts S le n sym u m sp).mp ⟨w, hw⟩
  have hst : w.sections = S.map fun s => { s with wingUnitChordwise := u } := by
    have := hacc.stored; rw [hspec] at this; exact this
  obtain ⟨d₁, hd₁, h₁⟩ := C99_wing w hmade (by
    intro s hs
    rw [hst, List.mem_map] at hs
    obtain ⟨r, hr, rfl⟩ := hs
    exact hne r hr) ε hε
  obtain ⟨d₂, hd₂, h₂⟩ := steps_delta
    (Q := fun k δ => RegularFlaps S → (∀ s ∈ S, |s.deflection| < 90) → ∀ s t, S[k]? = some s → S[k + 1]? = some t →
      ∀ d e, |d - s.deflection| < δ → e = d ∨ e = -d → (∃ b, s.airfoil.addControlSurface e s.hinge = .ok b) ∧
        ∃ b, t.airfoil.addControlSurface e s.hinge = .ok b)
    (fun hle hq g1 g2 s t hs ht d e hd => hq g1 g2 s t hs ht d e (hd.trans_le hle)) S.length (by
      intro k hk
      by_cases hreg : RegularFlaps S ∧ ∀ s ∈ S, |s.deflection| < 90
      swap
      · exact ⟨1, one_pos, fun g1 g2 => absurd ⟨g1, g2⟩ hreg⟩
      obtain ⟨g1, g2⟩ := hreg
      rcases ht : S[k + 1]? with - | t
      · exact ⟨1, one_pos, fun _ _ s t _ h => by cases h⟩
      obtain ⟨s, hs⟩ : ∃ s, S[k]? = some s := ⟨_, List.getElem?_eq_getElem hk⟩
      have hs90 := g2 s (List.mem_of_getElem? hs)
      have hE := split_at hs ht
      obtain ⟨p1, p2⟩ := g1 _ _ _ _ hE s.deflection (Or.inl rfl)
      obtain ⟨q1, q2⟩ := g1 _ _ _ _ hE (-s.deflection) (Or.inr rfl)
      have hneg : Tendsto (fun d : ℝ => -d) (𝓝 s.deflection) (𝓝 (-s.deflection)) := tendsto_neg _
      have hev := ((p1.accepted hs90).and (p2.accepted hs90)).and
        ((hneg.eventually (q1.accepted (by rwa [abs_neg]))).and (hneg.eventually (q2.accepted (by rwa [abs_neg]))))
      obtain ⟨δ, hδ, h⟩ := Metric.eventually_nhds_iff.mp hev
      refine ⟨δ, hδ, fun _ _ s' t' hs' ht' d e hd he => ?_⟩
      rw [hs] at hs'; cases hs'
      cases ht'
      obtain ⟨⟨a1, a2⟩, a3, a4⟩ := h (by rw [Real.dist_eq]; exact hd)
      rcases he with rfl | rfl
      · exact ⟨a1, a2⟩
      · exact ⟨a3, a4⟩)
  refine ⟨min d₁ d₂, lt_min hd₁ hd₂, ?_⟩
  intro S' le' hS hroot hle hflap
  have hlen := hS.length_eq
  have hget : ∀ (i : ℕ) (t : WingCrossSection), S'[i]? = some t →
      ∃ s : WingCrossSection, S[i]? = some s ∧ s.Near (min d₁ d₂) t ∧ t.unitNormal = s.unitNormal := by
    intro i t ht
    obtain ⟨l, rfl⟩ := List.getElem?_eq_some_iff.mp ht
    exact ⟨_, List.getElem?_eq_getElem (by omega), hS.get (by omega) l⟩
  obtain ⟨w', hw'⟩ := (C17_wing_accepts S' le' n sym u m sp).mpr (by
    refine ⟨⟨hlen ▸ hdoc.two, hdoc.spacing, ?_, hroot, hdoc.perp, ?_⟩, hm, ?_⟩
    · intro r hr
      obtain ⟨s, hs, -, h⟩ := hget 0 r hr
      rw [h]; exact hdoc.rootNormal s hs
    · intro t ht
      obtain ⟨i, hi⟩ := List.mem_iff_getElem?.mp ht
      obtain ⟨s, hs, -, h⟩ := hget i t hi
      rw [h]; exact hdoc.normals s (List.mem_of_getElem? hs)
    · rintro ⟨s', t'⟩ hx
      obtain ⟨i, hi⟩ := List.mem_iff_getElem?.mp hx
      rw [List.getElem?_zip_eq_some, List.getElem?_tail] at hi
      obtain ⟨hs', ht'⟩ := hi
      obtain ⟨s, hs, hN, -⟩ := hget i s' hs'
      obtain ⟨t, ht, hN', -⟩ := hget (i + 1) t' ht'
      have hM : Meshable sym s t := hmesh (s, t) (List.mem_iff_getElem?.mpr ⟨i, by
        rw [List.getElem?_zip_eq_some, List.getElem?_tail]; exact ⟨hs, ht⟩⟩)
      have key : ∀ e, e = s'.deflection ∨ (sym = true ∧ e = mirroredDeflection s') →
          (∃ b, s'.airfoil.addControlSurface e s'.hinge = .ok b) ∧ ∃ b, t'.airfoil.addControlSurface e s'.hinge = .ok b := by
        intro e he
        rw [hN.airfoil, hN'.airfoil, hN.hinge]
        rcases hflap with hsame | ⟨g1, g2⟩
        · have hd : s'.deflection = s.deflection := by
            have := congrArg (fun l : List ℝ => l[i]?) hsame
            simp only [List.getElem?_map, hs, hs', Option.map_some, Option.some.injEq] at this
            exact this
          obtain ⟨m1, m2, m3⟩ := hM
          rcases he with rfl | ⟨hsym, rfl⟩
          · rw [hd]; exact ⟨m1, m2⟩
          · have : mirroredDeflection s' = mirroredDeflection s := by
              unfold mirroredDeflection; rw [hd, hN.controlSurfaceType]
            rw [this]; exact (m3 hsym).2
        · refine h₂ i (List.getElem?_eq_some_iff.mp hs).1 g1 g2 s t hs ht s'.deflection e
            (hN.deflection.trans_le (min_le_right _ _)) ?_
          rcases he with rfl | ⟨-, rfl⟩
          · exact Or.inl rfl
          · unfold mirroredDeflection
            split_ifs
            · exact Or.inl rfl
            · exact Or.inr rfl
      refine ⟨(key _ (Or.inl rfl)).1, (key _ (Or.inl rfl)).2, fun hsym => ⟨?_, key _ (Or.inr ⟨hsym, rfl⟩)⟩⟩
      show 0 < s'.numSpanwisePanels
      rw [hN.numSpanwisePanels]; exact (hM.2.2 hsym).1)
  obtain ⟨hspec', hacc'⟩ := Wing.create_ok _ _ _ _ _ _ _ w' hw'
  have hst' : w'.sections = S'.map fun s => { s with wingUnitChordwise := u } := by
    have := hacc'.stored; rw [hspec'] at this; exact this
  refine ⟨w', hw', h₁ w' ⟨hmade, ⟨_, _, _, _, _, _, _, hw'⟩, ?_, ?_, ?_, ?_, ?_, ?_, ?_, ?_⟩⟩
  · rw [hspec, hspec']
  · rw [hspec, hspec']
  · rw [hspec, hspec']
  · rw [hspec, hspec']; exact hle.trans_le (min_le_left _ _)
  · rw [hspec, hspec']; simpa using hd₁
  · rw [hspec, hspec']; simpa using hd₁
  · rw [hst, hst', List.forall₂_map_left_iff, List.forall₂_map_right_iff]
    refine hS.imp ?_
    rintro s t ⟨h, -⟩
    have h := h.mono (min_le_left d₁ d₂)
    exact ⟨h.airfoil, h.controlSurfaceType, h.hinge, h.deflection, h.numSpanwisePanels, h.spanwiseSpacing, h.leadingEdge,
      h.chord, h.unitNormal, h.twist⟩
  · rcases hflap with h | ⟨h, -⟩
    · left
      rw [hst, hst', List.map_map, List.map_map]
      exact h
    · right
      have := h.withChordwise u
      unfold Ptera.withChordwise at this
      rw [hst]; exact this

/-! ## Airplanes -/

/-- C99: an airplane given with slightly different numbers has nearby reference dimensions, also if they are taken from its
main wing, and nearby meshes. -/
theorem C99_airplane (a : Airplane) (ha : a.Made) (hne : ∀ w ∈ a.wings, ∀ s ∈ w.sections, s.unitNormal ≠ 0)
    (hA : ∀ main, a.wings.head? = some main → main.projectedArea ≠ 0) (ε : ℝ) (hε : 0 < ε) :
    ∃ δ > 0, ∀ a', a.Near δ a' → a.MeshNear ε a' := by
  obtain ⟨d, hd, hw⟩ := forall₂_delta (R := Wing.Near) (fun h n => n.mono h)
    (Q := fun w w' => w'.Made ∧ Forall₂ (Forall₂ (Panel.Near ε)) w.panels w'.panels ∧ |w'.span - w.span| < ε ∧
      |w'.projectedArea - w.projectedArea| < ε ∧ |w'.wettedArea - w.wettedArea| < ε ∧
      (w.projectedArea ≠ 0 → |w'.meanAerodynamicChord - w.meanAerodynamicChord| < ε)) a.wings (by
      intro w hw
      obtain ⟨δ, hδ, h⟩ := C99_wing w (ha.wings w hw) (hne w hw) ε hε
      exact ⟨δ, hδ, fun w' hn => ⟨hn.made', h w' hn⟩⟩)
  refine ⟨min d ε, lt_min hd hε, ?_⟩
  intro a' hn
  obtain ⟨wt, wt', s, s', c, c', b, b', h1, h2, h3, h4, h5, h6, h7⟩ := hn
  have hall := hw _ (h3.imp fun _ _ => Wing.Near.mono (min_le_left _ _))
  have h5 := h5.mono (min_le_right _ _)
  have h6 := h6.mono (min_le_right _ _)
  have h7 := h7.mono (min_le_right _ _)
  have hmade' : a'.Made := by
    refine ⟨_, _, _, _, _, _, h2, ?_⟩
    intro w hw
    obtain ⟨k, hk, rfl⟩ := List.getElem_of_mem hw
    exact ((List.forall₂_iff_get.mp hall).2 k (by rw [hall.length_eq]; exact hk) hk).1
  have opt : ∀ (x y : Option ℝ) (u v : ℝ), NearIfGiven ε x y → |v - u| < ε → |y.getD v - x.getD u| < ε := by
    intro x y u v hxy huv
    cases x <;> cases y
    · exact huv
    · exact hxy.elim
    · exact hxy.elim
    · exact hxy
  have key : |a'.sRef - a.sRef| < ε ∧ |a'.cRef - a.cRef| < ε ∧ |a'.bRef - a.bRef| < ε := by
    revert h1 h2 hall hA
    generalize a.wings = ws
    generalize a'.wings = ws'
    intro hA h1 h2 hall
    cases hall with
    | nil => simp [Airplane.create] at h1
    | @cons w w' _ _ hh ht =>
      simp only [Airplane.create, Except.ok.injEq] at h1 h2
      rw [← h1, ← h2]
      exact ⟨opt _ _ _ _ h5 hh.2.2.2.1, opt _ _ _ _ h6 (hh.2.2.2.2.2 (hA w rfl)), opt _ _ _ _ h7 hh.2.2.1⟩
  exact
    { made' := hmade'
      xyzRef := h4.trans_le (min_le_right _ _)
      sRef := key.1
      cRef := key.2.1
      bRef := key.2.2
      wings := hall.imp fun _ _ h => ⟨h.2.1, h.2.2.1⟩ }

/-- Problems with near meshes are near. -/
theorem SteadyProblem.near_of_meshes {ε : ℝ} {as as' : List Airplane} (h : Forall₂ (Airplane.MeshNear ε) as as')
    {op op' : OperatingPoint} (h1 : |op'.velocity - op.velocity| < ε) (h2 : |op'.density - op.density| < ε)
    (h3 : |op'.alpha - op.alpha| < ε) (h4 : |op'.beta - op.beta| < ε) :
    SteadyProblem.Near ε ⟨as, op⟩ ⟨as', op'⟩ := by
  have get : ∀ {α : Type} {R : α → α → Prop} {l m : List α}, Forall₂ R l m → ∀ (i : ℕ) a b, l[i]? = some a →
      m[i]? = some b → R a b := by
    intro α R l m h i a b ha hb
    obtain ⟨k1, rfl⟩ := List.getElem?_eq_some_iff.mp ha
    obtain ⟨k2, rfl⟩ := List.getElem?_eq_some_iff.mp hb
    exact (List.forall₂_iff_get.mp h).2 i k1 k2
  have ex : ∀ {α : Type} {R : α → α → Prop} {l m : List α}, Forall₂ R l m → ∀ i : ℕ,
      (∃ a, l[i]? = some a) ↔ ∃ b, m[i]? = some b := by
    intro α R l m h i
    simp only [List.getElem?_eq_some_iff, h.length_eq, exists_comm (α := α)]
    simp
  have wing : ∀ r v w, wingAt as r = some v → wingAt as' r = some w →
      Forall₂ (Forall₂ (Panel.Near ε)) v.panels w.panels ∧ |w.span - v.span| < ε := by
    intro r v w hv hw
    unfold wingAt at hv hw
    simp only [Option.bind_eq_some_iff] at hv hw
    obtain ⟨a, ha, hv⟩ := hv
    obtain ⟨b, hb, hw⟩ := hw
    exact get (get h _ a b ha hb).wings _ v w hv hw
  have wingEx : ∀ r, (∃ v, wingAt as r = some v) ↔ ∃ w, wingAt as' r = some w := by
    intro r
    unfold wingAt
    simp only [Option.bind_eq_some_iff]
    constructor
    · rintro ⟨v, a, ha, hv⟩
      obtain ⟨b, hb⟩ := (ex h _).mp ⟨a, ha⟩
      obtain ⟨w, hw⟩ := (ex (get h _ a b ha hb).wings _).mp ⟨v, hv⟩
      exact ⟨w, b, hb, hw⟩
    · rintro ⟨w, b, hb, hw⟩
      obtain ⟨a, ha⟩ := (ex h _).mpr ⟨b, hb⟩
      obtain ⟨v, hv⟩ := (ex (get h _ a b ha hb).wings _).mpr ⟨w, hw⟩
      exact ⟨v, a, ha, hv⟩
  exact
    { velocity := h1, density := h2, alpha := h3, beta := h4
      airplanes := h.length_eq.symm
      references := fun i a b ha hb => by
        have := get h i a b ha hb
        exact ⟨this.xyzRef, this.sRef, this.cRef, this.bRef⟩
      spans := fun r v w hv hw => (wing r v w hv hw).2
      panels := by
        intro r
        unfold panelAt
        simp only [Option.bind_eq_some_iff]
        constructor
        · rintro ⟨p, v, hv, row, hrow, hp⟩
          obtain ⟨w, hw⟩ := (wingEx r).mp ⟨v, hv⟩
          have hg := (wing r v w hv hw).1
          obtain ⟨row', hrow'⟩ := (ex hg _).mp ⟨row, hrow⟩
          obtain ⟨q, hq⟩ := (ex (get hg _ _ _ hrow hrow') _).mp ⟨p, hp⟩
          exact ⟨q, w, hw, row', hrow', hq⟩
        · rintro ⟨q, w, hw, row', hrow', hq⟩
          obtain ⟨v, hv⟩ := (wingEx r).mpr ⟨w, hw⟩
          have hg := (wing r v w hv hw).1
          obtain ⟨row, hrow⟩ := (ex hg _).mpr ⟨row', hrow'⟩
          obtain ⟨p, hp⟩ := (ex (get hg _ _ _ hrow hrow') _).mpr ⟨q, hq⟩
          exact ⟨p, v, hv, row, hrow, hp⟩
      vertices := by
        intro r p q hp hq
        unfold panelAt at hp hq
        simp only [Option.bind_eq_some_iff] at hp hq
        obtain ⟨v, hv, row, hrow, hp⟩ := hp
        obtain ⟨w, hw, row', hrow', hq⟩ := hq
        exact get (get (wing r v w hv hw).1 _ _ _ hrow hrow') _ p q hp hq }

/-! ## Results -/

theorem Airplane.meshes_near (as : List Airplane) (hmade : ∀ a ∈ as, a.Made)
    (hne : ∀ a ∈ as, ∀ w ∈ a.wings, ∀ s ∈ w.sections, s.unitNormal ≠ 0)
    (hA : ∀ a ∈ as, ∀ main, a.wings.head? = some main → main.projectedArea ≠ 0) (ε : ℝ) (hε : 0 < ε) :
    ∃ δ > 0, ∀ as', Forall₂ (Airplane.Near δ) as as' → Forall₂ (Airplane.MeshNear ε) as as' :=
  forall₂_delta (fun h n => n.mono h) as fun a ha => C99_airplane a (hmade a ha) (hne a ha) (hA a ha) ε hε

theorem made_of_meshes {ε : ℝ} {as as' : List Airplane} (h : Forall₂ (Airplane.MeshNear ε) as as') :
    ∀ a ∈ as', a.Made := by
  intro a ha
  obtain ⟨k, hk, rfl⟩ := List.getElem_of_mem ha
  exact ((List.forall₂_iff_get.mp h).2 k (by rw [h.length_eq]; exact hk) hk).made'

/-- C99: airplanes given with slightly different numbers, in a slightly different flow, can be solved too, with nearby
results; no point of the problem may be exactly where the solvers begin to leave out a filament. -/
theorem C99_steady (method : SteadyMethod) (P : SteadyProblem) (hmade : ∀ a ∈ P.airplanes, a.Made)
    (hne : ∀ a ∈ P.airplanes, ∀ w ∈ a.wings, ∀ s ∈ w.sections, s.unitNormal ≠ 0)
    (hA : ∀ a ∈ P.airplanes, ∀ main, a.wings.head? = some main → main.projectedArea ≠ 0) (heap₀ : PanelHeap)
    (loads₀ : List AirplaneLoads) (R₀ : SteadyResults) (hR₀ : steadyRun method P heap₀ loads₀ = .ok R₀)
    (hcut : ∀ l q, IsFilament method P l → IsEvaluated method P q → ¬ AtCutOff l q) (ε : ℝ) (hε : 0 < ε) :
    ∃ δ > 0, ∀ Q : SteadyProblem, Forall₂ (Airplane.Near δ) P.airplanes Q.airplanes →
      |Q.operatingPoint.velocity - P.operatingPoint.velocity| < δ →
      |Q.operatingPoint.density - P.operatingPoint.density| < δ →
      |Q.operatingPoint.alpha - P.operatingPoint.alpha| < δ → |Q.operatingPoint.beta - P.operatingPoint.beta| < δ →
      ∀ heap loads, ∃ R, steadyRun method Q heap loads = .ok R ∧
        (∀ r p, panelAt P.airplanes r = some p → ∃ (g g₀ : ℝ) (L L₀ : PanelLoads), R.strength r = some g ∧
          R₀.strength r = some g₀ ∧ R.loads r = some L ∧ R₀.loads r = some L₀ ∧
          |g - g₀| < ε ∧ (L.forceWind - L₀.forceWind).norm < ε ∧ (L.momentWind - L₀.momentWind).norm < ε) ∧
        (∀ (i : ℕ) a, P.airplanes[i]? = some a → ∃ T T₀ : AirplaneLoads, R.totals[i]? = some T ∧
          R₀.totals[i]? = some T₀ ∧ (T.forceWind - T₀.forceWind).norm < ε ∧ (T.momentWind - T₀.momentWind).norm < ε ∧
          (P.operatingPoint.density ≠ 0 → P.operatingPoint.velocity ≠ 0 → a.sRef ≠ 0 → a.cRef ≠ 0 → a.bRef ≠ 0 →
            (T.forceCoefficients - T₀.forceCoefficients).norm < ε ∧
            (T.momentCoefficients - T₀.momentCoefficients).norm < ε)) := by
  obtain ⟨d, hd, h⟩ := C96_nearby method P hmade heap₀ loads₀ R₀ hR₀ hcut ε hε
  obtain ⟨d', hd', h'⟩ := Airplane.meshes_near P.airplanes hmade hne hA d hd
  refine ⟨min d d', lt_min hd hd', ?_⟩
  intro Q hQ h1 h2 h3 h4
  have hm := h' _ (hQ.imp fun _ _ => Airplane.Near.mono (min_le_right _ _))
  exact h Q (made_of_meshes hm) (SteadyProblem.near_of_meshes hm (h1.trans_le (min_le_left _ _))
    (h2.trans_le (min_le_left _ _)) (h3.trans_le (min_le_left _ _)) (h4.trans_le (min_le_left _ _)))

/-- C99: an unsteady problem whose airplanes at every step are given with slightly different numbers, in a slightly
different flow, can be run too, with nearby results at every step. (The projected areas are those of the main wings: an
unsteady problem drops the reference dimensions a user gives.) -/
theorem C99_unsteady {p : UnsteadyProblem} {s s₁ : UnsteadySolver} {pres sl : Bool} (hp : p.Made) (hdt : p.deltaTime ≠ 0)
    (hs : Reached p s) (h₁ : s.run pres sl = .ok s₁)
    (hcut : ∀ k < p.numSteps, ∀ x, EvaluatedAt p pres s₁ k x → ∀ f ∈ s₁.filaments k, f.OffBorder x)
    (hA : ∀ k < p.numSteps, ∀ a ∈ p.airplanesAt k, a.sRef ≠ 0)
    (ε : ℝ) (hε : 0 < ε) :
    ∃ δ > 0, ∀ q : UnsteadyProblem, q.Made → q.numSteps = p.numSteps → q.firstResultsStep = p.firstResultsStep →
      |q.deltaTime - p.deltaTime| < δ →
      (∀ k < p.numSteps, Forall₂ (Airplane.Near δ) (p.airplanesAt k) (q.airplanesAt k) ∧
        |(q.operatingPointAt k).velocity - (p.operatingPointAt k).velocity| < δ ∧
        |(q.operatingPointAt k).density - (p.operatingPointAt k).density| < δ ∧
        |(q.operatingPointAt k).alpha - (p.operatingPointAt k).alpha| < δ ∧
        |(q.operatingPointAt k).beta - (p.operatingPointAt k).beta| < δ ∧
        |(q.operatingPointAt k).nu - (p.operatingPointAt k).nu| < δ) →
      ∀ z, Reached q z → ∀ sl', ∃ z₁, z.run pres sl' = .ok z₁ ∧ ∀ k < p.numSteps, StepNear p ε s₁ z₁ k := by
  obtain ⟨d, hd, h⟩ := C97_nearby hp hdt hs h₁ hcut ε hε
  obtain ⟨d', hd', h'⟩ := steps_delta (Q := fun k δ => ∀ as', Forall₂ (Airplane.Near δ) (p.airplanesAt k) as' →
      Forall₂ (Airplane.MeshNear d) (p.airplanesAt k) as')
    (fun hle hq as' hn => hq as' (hn.imp fun _ _ => Airplane.Near.mono hle)) p.numSteps
    (fun k hk => Airplane.meshes_near _ (hp.regular.made k)
      (fun a ha w hw s hs => by rw [((hp.defaults hk ha).2.2 w hw).2.2 s hs]; simp [V3.ext_iff])
      (fun a ha main hm => by rw [← (hp.defaults hk ha).2.1 main hm]; exact hA k hk a ha) d hd)
  refine ⟨min d d', lt_min hd hd', ?_⟩
  intro q hq h1 h2 h3 h4
  refine h q hq ⟨h1, h2, h3.trans_le (min_le_left _ _), ?_, fun k hk => (h4 k hk).2.2.2.2.2.trans_le (min_le_left _ _)⟩
  intro k hk
  obtain ⟨g1, g2, g3, g4, g5, -⟩ := h4 k hk
  exact SteadyProblem.near_of_meshes (h' k hk _ (g1.imp fun _ _ => Airplane.Near.mono (min_le_right _ _)))
    (g2.trans_le (min_le_left _ _)) (g3.trans_le (min_le_left _ _)) (g4.trans_le (min_le_left _ _))
    (g5.trans_le (min_le_left _ _))

/-! ## Examples -/

/-- The flat plate deflects regularly by any angle up to ninety degrees. -/
theorem flatPlate_flapsRegularly (d h : ℝ) (hd : |d| ≤ 90) (h0 : 0 < h) (h1 : h < 1) : flatPlate.FlapsRegularly d h := by
  have ha : argminX [((1 : ℝ), (0 : ℝ)), (0, 0), (1, 0)] = 1 := by
    simp [argminX, not_le.mpr (zero_lt_one (α := ℝ))]
  have hP : 0 < (flapTip d h).1 := by
    have hd' := abs_le.mp hd
    have : 0 ≤ Real.cos (radians (-d)) := by
      apply Real.cos_nonneg_of_neg_pi_div_two_le_of_le
      · unfold radians; nlinarith [Real.pi_pos]
      · unfold radians; nlinarith [Real.pi_pos]
    simp only [flapTip]
    nlinarith
  refine ⟨_, _, flatPlate_ofCoordinates, by rw [ha]; simp, by simpa [flatPlate] using h0.le, flatPlate_flap d h hd h0 h1, ?_, ?_⟩
  · rw [ha]
    intro i hi hne
    simp only [List.length_cons, List.length_nil] at hi
    obtain rfl | rfl : i = 0 ∨ i = 2 := by omega
    · simpa [bentPlate] using hP
    · simpa [bentPlate] using hP
  · simp only [bentPlate]
    refine List.isChain_pair.mpr ?_
    intro h
    rw [← h] at hP
    simp at hP

/-- A wing with a flap: deflecting it a little more, with a slightly longer tip chord, is accepted and hardly changes the mesh. -/
example (ε : ℝ) (hε : 0 < ε) : ∃ w, Wing.create
    [plateSection 0 1 0 5 "symmetric" 8 "cosine", plateSection ⟨0, 4, 0⟩ 1 0 5 "symmetric" 8 "cosine"] 0 ⟨0, 1, 0⟩ true
    ⟨1, 0, 0⟩ 6 "cosine" = .ok w ∧
    ∃ δ > 0, ∀ e c : ℝ, |e| < δ → |c| < δ → ∃ w', Wing.create
      [plateSection 0 1 0 (5 + e) "symmetric" 8 "cosine", plateSection ⟨0, 4, 0⟩ (1 + c) 0 5 "symmetric" 8 "cosine"] 0
      ⟨0, 1, 0⟩ true ⟨1, 0, 0⟩ 6 "cosine" = .ok w' ∧ Forall₂ (Forall₂ (Panel.Near ε)) w.panels w'.panels := by
  obtain ⟨w, hw⟩ := plateWing_accepted
    [plateSection 0 1 0 5 "symmetric" 8 "cosine", plateSection ⟨0, 4, 0⟩ 1 0 5 "symmetric" 8 "cosine"] true 6 (by norm_num)
    "cosine" (by simp) (by simp) (by simp [plateSection]) (by
      intro s hs
      simp only [List.mem_cons, List.not_mem_nil, or_false] at hs
      rcases hs with rfl | rfl <;> exact ⟨_, _, _, _, _, _, _, rfl, by norm_num⟩) 0 (by simp [plateSection])
  refine ⟨w, hw, ?_⟩
  obtain ⟨δ, hδ, h⟩ := C99_given hw (by simp [plateSection, V3.ext_iff]) ε hε
  refine ⟨δ, hδ, fun e c he hc => ?_⟩
  obtain ⟨w', h1, h2, -⟩ := h
    [plateSection 0 1 0 (5 + e) "symmetric" 8 "cosine", plateSection ⟨0, 4, 0⟩ (1 + c) 0 5 "symmetric" 8 "cosine"] 0 (by
      refine .cons ⟨⟨rfl, rfl, rfl, ?_, rfl, rfl, ?_, ?_, ?_, ?_⟩, rfl⟩
        (.cons ⟨⟨rfl, rfl, rfl, ?_, rfl, rfl, ?_, ?_, ?_, ?_⟩, rfl⟩ .nil) <;> simp [plateSection, he, hc, hδ])
    (by simp [plateSection]) (by simpa using hδ) (Or.inr ⟨by
      intro pre s t post hE d hd
      match pre, hE with
      | [], hE =>
        simp only [List.nil_append, List.cons.injEq] at hE
        obtain ⟨rfl, rfl, -⟩ := hE
        have h90 : |d| ≤ 90 := by
          rcases hd with rfl | rfl <;> simp [plateSection] <;> norm_num
        exact ⟨flatPlate_flapsRegularly d _ h90 (by simp [plateSection]) (by simp [plateSection]; norm_num),
          flatPlate_flapsRegularly d _ h90 (by simp [plateSection]) (by simp [plateSection]; norm_num)⟩
      | [_], hE => simp at hE
      | _ :: _ :: _, hE => simp at hE, by simp [plateSection]; norm_num⟩)
  exact ⟨w', h1, h2⟩

/-- A square plate facing the flow: its chord, twist and position may change a little. -/
example (method : SteadyMethod) (ε : ℝ) (hε : 0 < ε) : ∃ (P : SteadyProblem) (R₀ : SteadyResults),
    steadyRun method P = .ok R₀ ∧ (∀ a ∈ P.airplanes, a.Made) ∧ P.airplanes.length = 1 ∧
    ∃ δ > 0, ∀ Q : SteadyProblem, Forall₂ (Airplane.Near δ) P.airplanes Q.airplanes →
      Q.operatingPoint = P.operatingPoint → ∃ R T T₀, steadyRun method Q = .ok R ∧
        R.totals[0]? = some T ∧ R₀.totals[0]? = some T₀ ∧ (T.forceWind - T₀.forceWind).norm < ε := by
  obtain ⟨w, hw, hmade, hn, hl, hspan, hcell⟩ := strip_wing 0 1 [0, 1] (by simp) rfl
  obtain ⟨w', hw', hw''⟩ := plates_create 1 0
  rw [hw] at hw'; cases hw'
  obtain ⟨-, -, -, harea⟩ := strip_panels 1 0 hw''
  replace harea : w.projectedArea = 1 := harea
  set a : Airplane := { wings := [w], xyzRef := 0, weight := 0, sRef := 1, cRef := 1, bRef := 1
                        numPanels := ([w].map (·.numPanels)).sum } with haDef
  have hm : ∀ b ∈ [a], b.Made := by
    intro b hb
    rw [List.mem_singleton] at hb
    exact ⟨[w], 0, 0, some 1, some 1, some 1, by rw [hb]; rfl, by simpa using hmade⟩
  have hrefs : panelRefs [a] = [⟨0, 0, 0, 0⟩] := by
    have h2 := (C18_wing_counts _ _ _ _ _ _ _ w hw).2.1
    obtain ⟨row, hrow⟩ := List.length_eq_one_iff.mp hl
    have hr : row.length = 1 := by
      have := h2 row (by rw [hrow]; simp)
      rw [this, hn]
      rfl
    simp [panelRefs, airplaneRefs, hrow, hr, List.zipIdx, haDef]
  have hp : panelAt [a] ⟨0, 0, 0, 0⟩ = some unitSquare := by
    have := hcell 0 0 1 rfl rfl
    simp only [panelAt, wingAt]
    unfold cell at this
    simpa [stripPanel, unitSquare, haDef] using this
  have hs : (wingAt [a] ⟨0, 0, 0, 0⟩).map (·.span) = some 1 := by simp [wingAt, hspan, haDef]
  set op : OperatingPoint := { velocity := 10, density := 1, alpha := 90, beta := 0 } with hop
  have hd : op.freestreamDirection = ⟨0, 0, 1⟩ := by
    rw [C01_freestream_direction, show op.alpha * Real.pi / 180 = Real.pi / 2 by simp only [op]; ring]
    simp [op]
  have hd' : |op.freestreamDirection.y| ≤ op.freestreamDirection.x := by rw [hd]; simp
  obtain ⟨R, hR⟩ : ∃ R, steadyRun method ⟨[a], op⟩ = .ok R := by
    cases method with
    | horseshoe =>
      obtain ⟨s, hs, -⟩ := plate_horseshoe_run op (hm a (by simp)) hrefs hp hs hd' .fresh []
      exact ⟨s.results, by simp only [steadyRun, hs]; rfl⟩
    | ring =>
      obtain ⟨s, hs, -⟩ := plate_ring_run op (hm a (by simp)) hrefs hp hs hd' .fresh []
      exact ⟨s.results, by simp only [steadyRun, hs]; rfl⟩
  refine ⟨⟨[a], op⟩, R, hR, hm, rfl, ?_⟩
  obtain ⟨δ, hδ, h⟩ := C99_steady method ⟨[a], op⟩ hm (by
      intro b hb v hv s hsv
      simp only [List.mem_singleton] at hb
      subst hb
      simp only [a, List.mem_singleton] at hv
      subst hv
      obtain ⟨hspec, hacc⟩ := Wing.create_ok _ _ _ _ _ _ _ _ hw
      rw [hacc.stored] at hsv
      unfold withChordwise stripSections at hsv
      simp only [List.map_cons, List.map_nil, List.mem_cons, List.not_mem_nil, or_false] at hsv
      rcases hsv with rfl | rfl <;> simp [plateSection, V3.ext_iff]) (by
      intro b hb main hmain
      simp only [List.mem_singleton] at hb
      subst hb
      simp only [a, List.head?_cons, Option.some.injEq] at hmain
      rw [← hmain, harea]; exact one_ne_zero) .fresh [] R hR (plate_not_atCutOff method op hd hrefs hp hs) ε hε
  refine ⟨δ, hδ, fun Q hQ hQop => ?_⟩
  obtain ⟨R', e1, -, e2⟩ := h Q hQ (by rw [hQop]; simpa using hδ) (by rw [hQop]; simpa using hδ)
    (by rw [hQop]; simpa using hδ) (by rw [hQop]; simpa using hδ) .fresh []
  obtain ⟨T, T₀, e3, e4, e5, -⟩ := e2 0 a rfl
  exact ⟨R', T, T₀, e1, e3, e4, e5⟩

/-- A plate rising against the flow for any number of steps. -/
example (n : ℕ) (hn : 0 < n) (ε : ℝ) (hε : 0 < ε) : ∃ (p : UnsteadyProblem) (s s₁ : UnsteadySolver), p.Made ∧
    UnsteadySolver.create p = .ok s ∧ s.run true false = .ok s₁ ∧ p.numSteps = n ∧
    ∃ δ > 0, ∀ q : UnsteadyProblem, q.Made → q.numSteps = n → q.firstResultsStep = p.firstResultsStep →
      q.deltaTime = p.deltaTime → (∀ k < n, Forall₂ (Airplane.Near δ) (p.airplanesAt k) (q.airplanesAt k) ∧
        q.operatingPointAt k = p.operatingPointAt k) → ∀ z, Reached q z → ∃ z₁, z.run true false = .ok z₁ ∧
          ∀ k < n, StepNear p ε s₁ z₁ k := by
  obtain ⟨p, hp, _⟩ := heaving_problem 0 0 n hn 1 1 1 90 0 false
  have hz : (fun k => (oscillatingSinspace 0 0 0 n 1).getD k 0) = fun _ => 0 := by
    funext k
    unfold oscillatingSinspace
    rw [if_pos (.inl rfl)]
    unfold constList
    rw [List.getD_eq_getElem?_getD, List.getElem?_replicate]
    split <;> simp
  rw [hz] at hp
  set op : OperatingPoint := { density := 1, velocity := 1, alpha := 90, beta := 0 } with hop
  have hd : op.freestreamDirection = ⟨0, 0, 1⟩ := by
    rw [C01_freestream_direction, show op.alpha * Real.pi / 180 = Real.pi / 2 by simp only [op]; ring]
    simp [op]
  have hv : op.freestreamVelocity = ⟨0, 0, 1⟩ := by
    rw [OperatingPoint.freestreamVelocity, hd]
    ext <;> simp [op]
  obtain ⟨s, hs⟩ := hp.create hn
  have hr : Reached p s := .fresh hs
  obtain ⟨s₁, h₁⟩ := hp.run zero_le_one (by simp [op]) (by rw [hd]; simp) hr true false
  refine ⟨p, s, s₁, hp.made, hs, h₁, hp.steps, ?_⟩
  obtain ⟨δ, hδ, h⟩ := C99_unsteady hp.made (by rw [hp.dt]; norm_num) hr h₁ (plate_rising_offBorder hp hv hr h₁) (by
      intro k hk a ha
      rw [hp.steps] at hk
      obtain ⟨_, b, w, h1, _, _, _, _, h6⟩ := hp.step k hk
      rw [h1, List.mem_singleton] at ha
      rw [ha, h6]; exact one_ne_zero) ε hε
  refine ⟨δ, hδ, fun q hq g1 g2 g3 g4 z hzr => ?_⟩
  rw [hp.steps] at h
  refine h q hq g1 g2 (by rw [g3]; simpa using hδ) (fun k hk => ?_) z hzr false
  rw [(g4 k hk).2]
  exact ⟨(g4 k hk).1, by simpa using hδ, by simpa using hδ, by simpa using hδ, by simpa using hδ, by simpa using hδ⟩

end Ptera
