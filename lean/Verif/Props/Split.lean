import Verif.Lemmas.Split
import Verif.Lemmas.EqualPanels
import Verif.Props.References

/-!
# A further cross section on the straight lines between two others

C82: it changes neither the panels nor the dimensions of a wing, and so not the results.
-/

namespace Ptera

open List

/-- C82: let `s` and `t` be neighbouring cross sections of a wing, with the same airfoil, twist and orientation, and with
`k + l` panels of equal width between them (`k` and `l` positive). With a further cross section between them, after `k`
of these panels, with its leading edge on the line between theirs and its chord in between, the wing is accepted if and
only if it was before (with the same error otherwise), and it has the same panels, areas, span and mean chords. -/
theorem C82_wing (before after : List WingCrossSection) (s t : WingCrossSection) (k l : ℕ) (h : SameProfile s t)
    (hs : s.spanwiseSpacing = "uniform") (hn : s.numSpanwisePanels = k + l) (hk : 0 < k) (hl : 0 < l) (le n : V3)
    (sym : Bool) (u : V3) (m : ℕ) (sp : String) :
    let sections := before ++ s :: t :: after
    let sections' := before ++ s.withPanels k :: s.between t k l :: t :: after
    (∀ w, Wing.create sections le n sym u m sp = .ok w → ∃ w', Wing.create sections' le n sym u m sp = .ok w' ∧
      w'.panels = w.panels ∧ w'.numSpanwisePanels = w.numSpanwisePanels ∧ w'.numPanels = w.numPanels ∧
      w'.projectedArea = w.projectedArea ∧ w'.wettedArea = w.wettedArea ∧ w'.span = w.span ∧
      w'.standardMeanChord = w.standardMeanChord ∧ w'.meanAerodynamicChord = w.meanAerodynamicChord) ∧
    (∀ e, Wing.create sections le n sym u m sp = .error e → Wing.create sections' le n sym u m sp = .error e) ∧
    (0 < s.chord → 0 < t.chord → 0 < (s.between t k l).chord) := by
  intro S S'
  have heq := Wing.create_split h hs hn hk hl before after le n sym u m sp
  refine ⟨?_, ?_, ?_⟩
  · intro w hw
    rw [hw] at heq
    refine ⟨_, heq, rfl, rfl, rfl, rfl, rfl, ?_⟩
    have hsec : w.sections = S.map fun s => { s with wingUnitChordwise := u } := by
      obtain ⟨hsp, ha⟩ := Wing.create_ok _ _ _ _ _ _ _ w hw
      rw [ha.stored, hsp]
      rfl
    have hspan : Wing.span { w with sections := S'.map fun s => { s with wingUnitChordwise := u } } = w.span := by
      unfold Wing.span
      have e1 : (S'.head?.map (·.leadingEdge)).getD 0 = (S.head?.map (·.leadingEdge)).getD 0 := by
        cases before <;> rfl
      have e2 : S'.getLast? = S.getLast? := by
        simp only [S, S', List.getLast?_append, List.getLast?_cons_cons]
      rw [hsec]
      simp only [List.head?_map, List.getLast?_map, Option.map_map, e2]
      have e3 : ((fun s : WingCrossSection => s.leadingEdge) ∘ fun s : WingCrossSection => { s with wingUnitChordwise := u })
          = fun s : WingCrossSection => s.leadingEdge := rfl
      rw [e3, e1]
    refine ⟨hspan, ?_, ?_⟩
    · unfold Wing.standardMeanChord
      rw [hspan]
      rfl
    · have e : ∀ L : List WingCrossSection,
          (zip (L.map fun s => { s with wingUnitChordwise := u })
            (L.map fun s => { s with wingUnitChordwise := u }).tail).map (Wing.macTerm w.spec.unitNormal)
            = (zip L L.tail).map (Wing.macTerm w.spec.unitNormal) := by
        intro L
        rw [← List.map_tail, List.zip_map, List.map_map]
        rfl
      unfold Wing.meanAerodynamicChord
      rw [hsec]
      simp only [e]
      rw [mac_split hk hl]
      rfl
  · intro e he
    rw [heq, he]
    rfl
  · intro h1 h2
    have hk' : (0 : ℝ) < k := by exact_mod_cast hk
    have hl' : (0 : ℝ) < l := by exact_mod_cast hl
    simp only [WingCrossSection.between]
    positivity

/-- C82 for the steady solvers: the airplane with the further cross section in one of its wings has the same results, in
a problem with any other wings and airplanes. -/
theorem C82_steady (method : SteadyMethod) (before after : List WingCrossSection) (s t : WingCrossSection) (k l : ℕ)
    (h : SameProfile s t) (hs : s.spanwiseSpacing = "uniform") (hn : s.numSpanwisePanels = k + l) (hk : 0 < k)
    (hl : 0 < l) (le n : V3) (sym : Bool) (u : V3) (m : ℕ) (sp : String) (w w' : Wing)
    (hw : Wing.create (before ++ s :: t :: after) le n sym u m sp = .ok w)
    (hw' : Wing.create (before ++ s.withPanels k :: s.between t k l :: t :: after) le n sym u m sp = .ok w')
    (W₁ W₂ : List Wing) (hW₁ : ∀ v ∈ W₁, v.Made) (hW₂ : ∀ v ∈ W₂, v.Made) (ref : V3) (weight : ℝ)
    (sRef cRef bRef : Option ℝ) (a a' : Airplane)
    (ha : Airplane.create (W₁ ++ w :: W₂) ref weight sRef cRef bRef = .ok a)
    (ha' : Airplane.create (W₁ ++ w' :: W₂) ref weight sRef cRef bRef = .ok a')
    (A₁ A₂ : List Airplane) (hA₁ : ∀ b ∈ A₁, b.Made) (hA₂ : ∀ b ∈ A₂, b.Made) (op : OperatingPoint)
    (heap heap' : PanelHeap) (loads loads' : List AirplaneLoads) (R : SteadyResults)
    (hR : steadyRun method ⟨A₁ ++ a :: A₂, op⟩ heap loads = .ok R) :
    (a'.sRef = a.sRef ∧ a'.cRef = a.cRef ∧ a'.bRef = a.bRef) ∧
    ∃ R', steadyRun method ⟨A₁ ++ a' :: A₂, op⟩ heap' loads' = .ok R' ∧
      (∀ q, R'.velocity q = R.velocity q) ∧
      (∀ r p, panelAt (A₁ ++ a :: A₂) r = some p → ∃ g L L', R.strength r = some g ∧ R'.strength r = some g ∧
        R.loads r = some L ∧ R'.loads r = some L' ∧ L'.forceGeometry = L.forceGeometry ∧ L'.forceWind = L.forceWind ∧
        L'.momentGeometry = L.momentGeometry ∧ L'.momentWind = L.momentWind) ∧
      (∀ (i : ℕ) A, (A₁ ++ a :: A₂)[i]? = some A → ∃ L L', R.totals[i]? = some L ∧ R'.totals[i]? = some L' ∧
        L'.forceWind = L.forceWind ∧ L'.momentWind = L.momentWind ∧
        (A.sRef ≠ 0 → L'.forceCoefficients = L.forceCoefficients) ∧
        (A.sRef ≠ 0 → A.bRef ≠ 0 → A.cRef ≠ 0 → L'.momentCoefficients = L.momentCoefficients)) := by
  obtain ⟨hacc, -, -⟩ := C82_wing before after s t k l h hs hn hk hl le n sym u m sp
  obtain ⟨w'', e0, e1, e2, e3, e4, -, e6, -, e8⟩ := hacc w hw
  rw [hw', Except.ok.injEq] at e0
  subst e0
  have hlat : SameLattice w w' := ⟨e1, e6, e2⟩
  have hsame : ∀ v : Wing, SameLattice v v := fun v => ⟨rfl, rfl, rfl⟩
  have href : (a'.sRef = a.sRef ∧ a'.cRef = a.cRef ∧ a'.bRef = a.bRef) ∧ a'.xyzRef = a.xyzRef ∧ SameWings a a' := by
    cases W₁ with
    | nil =>
      simp only [List.nil_append, Airplane.create, Except.ok.injEq] at ha ha'
      subst ha ha'
      refine ⟨⟨by rw [e4], by rw [e8], by rw [e6]⟩, rfl, .cons hlat ?_⟩
      rw [List.forall₂_same]
      exact fun v _ => hsame v
    | cons v W₁ =>
      simp only [List.cons_append, Airplane.create, Except.ok.injEq] at ha ha'
      subst ha ha'
      refine ⟨⟨rfl, rfl, rfl⟩, rfl, .cons (hsame v) ?_⟩
      refine List.rel_append ?_ (.cons hlat ?_)
      · rw [List.forall₂_same]; exact fun v _ => hsame v
      · rw [List.forall₂_same]; exact fun v _ => hsame v
  obtain ⟨hdim, hx, hwings⟩ := href
  refine ⟨hdim, ?_⟩
  have hwm : w.Made := ⟨_, _, _, _, _, _, _, hw⟩
  have hwm' : w'.Made := ⟨_, _, _, _, _, _, _, hw'⟩
  have ham : a.Made := ⟨_, _, _, _, _, _, ha, by
    intro v hv
    simp only [List.mem_append, List.mem_cons] at hv
    rcases hv with hv | rfl | hv
    · exact hW₁ v hv
    · exact hwm
    · exact hW₂ v hv⟩
  have ham' : a'.Made := ⟨_, _, _, _, _, _, ha', by
    intro v hv
    simp only [List.mem_append, List.mem_cons] at hv
    rcases hv with hv | rfl | hv
    · exact hW₁ v hv
    · exact hwm'
    · exact hW₂ v hv⟩
  have hall : ∀ b : Airplane, b.Made → ∀ c ∈ A₁ ++ b :: A₂, c.Made := by
    intro b hb c hc
    simp only [List.mem_append, List.mem_cons] at hc
    rcases hc with hc | rfl | hc
    · exact hA₁ c hc
    · exact hb
    · exact hA₂ c hc
  have hF : Forall₂ (fun A A' : Airplane => SameWings A A' ∧ A'.xyzRef = A.xyzRef ∧ A'.sRef = A.sRef ∧ A'.cRef = A.cRef ∧
      A'.bRef = A.bRef) (A₁ ++ a :: A₂) (A₁ ++ a' :: A₂) := by
    refine List.rel_append ?_ (.cons ⟨hwings, hx, hdim⟩ ?_)
    · rw [List.forall₂_same]; exact fun v _ => ⟨.of_eq rfl, rfl, rfl, rfl, rfl⟩
    · rw [List.forall₂_same]; exact fun v _ => ⟨.of_eq rfl, rfl, rfl, rfl, rfl⟩
  obtain ⟨R', hR', hv, hp, ht⟩ := C80_steady method _ _ (hall a ham) (hall a' ham') (hF.imp fun _ _ h => h.1) op heap heap'
    loads loads' R hR
  have trans : ∀ {x x' f m m' : V3}, Transferred x x' f m m' → x' = x → m' = m := by
    intro x x' f m m' h e
    unfold Transferred at h
    rw [h, e, sub_self]
    ext <;> simp [V3.cross]
  refine ⟨R', hR', hv, ?_, ?_⟩
  · intro r p hr
    obtain ⟨A, hA⟩ : ∃ A, (A₁ ++ a :: A₂)[r.airplane]? = some A := by
      cases hA : (A₁ ++ a :: A₂)[r.airplane]? with
      | none => simp [panelAt, wingAt, hA] at hr
      | some A => exact ⟨A, rfl⟩
    obtain ⟨A', hA', -, hxx, -⟩ := forall₂_at hF _ _ hA
    obtain ⟨g, L, L', h1, h2, h3, h4, h5, h6, h7, h8⟩ := hp r p A A' hr hA hA'
    exact ⟨g, L, L', h1, h2, h3, h4, h5, h6, trans h7 hxx, trans h8 (by rw [hxx])⟩
  · intro i A hA
    obtain ⟨A', hA', -, hxx, d1, d2, d3⟩ := forall₂_at hF _ _ hA
    obtain ⟨L, L', h1, h2, h3, h4, h5, h6⟩ := ht i A A' hA hA'
    refine ⟨L, L', h1, h2, h3, trans h4 (by rw [hxx]), ?_, ?_⟩
    · intro hne
      rw [h5 hne, d1, div_self hne, one_smul]
    · intro hne hb hc
      obtain ⟨m1, m2, m3⟩ := h6 hxx hne hb hc
      rw [d1, d3, div_self (mul_ne_zero hne hb), _root_.one_mul] at m1 m3
      rw [d1, d2, div_self (mul_ne_zero hne hc), _root_.one_mul] at m2
      ext <;> assumption

/-- The hypotheses are met: the ring solver solves a flat plate of chord 1 and span 2 with two panels, and the further
cross section comes between them. -/
example : ∃ (s t : WingCrossSection) (w w' : Wing) (a a' : Airplane) (R : SteadyResults), SameProfile s t ∧
    s.spanwiseSpacing = "uniform" ∧ s.numSpanwisePanels = 1 + 1 ∧
    Wing.create ([] ++ s :: t :: []) 0 ⟨0, 1, 0⟩ false ⟨1, 0, 0⟩ 1 "uniform" = .ok w ∧
    Wing.create ([] ++ s.withPanels 1 :: s.between t 1 1 :: t :: []) 0 ⟨0, 1, 0⟩ false ⟨1, 0, 0⟩ 1 "uniform" = .ok w' ∧
    Airplane.create ([] ++ w :: []) = .ok a ∧ Airplane.create ([] ++ w' :: []) = .ok a' ∧
    steadyRun .ring ⟨[] ++ a :: [], TwoPanels.upFlow 1⟩ = .ok R := by
  obtain ⟨w', hw', -, hn, hlen, -, hcell⟩ := strip_wing 0 1 [0, 1, 2] (by simp) rfl
  set s := plateSection ⟨0, 0, 0⟩ 1 0 0 "symmetric" 2 "uniform" with hs
  set t := plateSection ⟨0, 2, 0⟩ 1 0 0 "symmetric" 1 "uniform" with ht
  have hsplit : [] ++ s.withPanels 1 :: s.between t 1 1 :: t :: [] = stripSections 1 [0, 1, 2] := by
    simp only [stripSections, List.map_cons, List.map_nil, List.nil_append, List.cons.injEq, and_true]
    refine ⟨rfl, ?_, rfl⟩
    simp only [WingCrossSection.between, hs, ht, plateSection, WingCrossSection.mk.injEq, true_and, and_true]
    constructor
    · ext <;> simp
      norm_num
    · norm_num
  rw [← hsplit] at hw'
  have heq := Wing.create_split (s := s) (t := t) ⟨rfl, rfl, rfl⟩ rfl (k := 1) (l := 1) rfl one_pos one_pos [] [] 0 ⟨0, 1, 0⟩
    false ⟨1, 0, 0⟩ 1 "uniform"
  have h0 : (⟨0, 0, 0⟩ : V3) = 0 := rfl
  rw [h0] at hw'
  rw [hw'] at heq
  cases hw : Wing.create ([] ++ s :: t :: []) 0 ⟨0, 1, 0⟩ false ⟨1, 0, 0⟩ 1 "uniform" with
  | error e => rw [hw] at heq; cases heq
  | ok w =>
    rw [hw] at heq
    simp only [Except.map, Except.ok.injEq] at heq
    have hpan : w.panels = w'.panels := by rw [heq]
    obtain ⟨a, ha, haw⟩ : ∃ a, Airplane.create ([] ++ w :: []) = .ok a ∧ a.wings = [w] := ⟨_, rfl, rfl⟩
    have hmade : a.Made := ⟨_, _, _, _, _, _, ha, by
      intro v hv
      simp only [List.nil_append, List.mem_singleton] at hv
      subst hv
      exact ⟨_, _, _, _, _, _, _, hw⟩⟩
    have hrefs : panelRefs [a] = [⟨0, 0, 0, 0⟩, ⟨0, 0, 0, 1⟩] := by
      have h2 := (C18_wing_counts _ _ _ _ _ _ _ w' hw').2.1
      obtain ⟨row, hrow⟩ := List.length_eq_one_iff.mp hlen
      have hr : row.length = 2 := by
        have := h2 row (by rw [hrow]; simp)
        rw [this, hn]
        rfl
      simp [panelRefs, airplaneRefs, haw, hpan, hrow, hr, List.zipIdx, List.range_succ]
    have hp0 : panelAt [a] ⟨0, 0, 0, 0⟩ = some (stripPanel 0 1 0 1 2 0) := by
      have := hcell 0 0 1 rfl rfl
      unfold cell at this
      simpa [panelAt, wingAt, haw, hpan] using this
    have hp1 : panelAt [a] ⟨0, 0, 0, 1⟩ = some (stripPanel 0 1 1 2 2 1) := by
      have := hcell 1 1 2 rfl rfl
      unfold cell at this
      simpa [panelAt, wingAt, haw, hpan] using this
    obtain ⟨S, hS⟩ := TwoPanels.run_equal (as := [a]) (by simpa using hmade) hrefs hp0 hp1 .fresh []
    refine ⟨s, t, w, w', a, _, S.results, ⟨rfl, rfl, rfl⟩, rfl, rfl, hw, hw', ha, rfl, ?_⟩
    simp only [List.nil_append, steadyRun, hS]
    rfl

end Ptera
