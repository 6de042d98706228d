import Verif.Lemmas.FullWing
import Verif.Lemmas.SameLattice
import Verif.Lemmas.EqualPanels

/-!
# A symmetric wing, and the same wing with both halves given

C98: a wing made with `symmetric=True` has the panels, and so the results, of the wing whose cross sections are all given,
from the left tip to the right tip.
-/

namespace Ptera

open List

/-- C98: let a symmetric wing with the unit normal `n` be accepted, and let `tip` be its last cross section. The wing
without symmetry whose cross sections are those of both halves, beginning with the mirror image of the tip, is accepted,
and it has the same panels in the same places of the grid, and the same wetted area. Its normal has to be that of its
first cross section; if the tip has the same normal as the root, then the projected area, the span and the mean chords
are the same too. -/
theorem C98_wing (sections : List WingCrossSection) (tip : WingCrossSection) (htip : sections.getLast? = some tip)
    (le n u : V3) (hn : n.norm = 1) (m : ℕ) (sp : String) (w : Wing)
    (hw : Wing.create sections le n true u m sp = .ok w) :
    let origin := n.across tip.leadingEdge
    ∃ w', Wing.create (bothHalves n origin sections) (le + origin) (-(n.across tip.unitNormal)) false u m sp = .ok w' ∧
      w'.panels = w.panels ∧ w'.numSpanwisePanels = w.numSpanwisePanels ∧ w'.numPanels = w.numPanels ∧
      w'.wettedArea = w.wettedArea ∧
      (tip.unitNormal = n → w'.spec.unitNormal = n ∧ w'.projectedArea = w.projectedArea ∧ w'.span = w.span ∧
        w'.standardMeanChord = w.standardMeanChord ∧ w'.meanAerodynamicChord = w.meanAerodynamicChord) ∧
      (tip.unitNormal.norm = 1 → w'.span = |n.dot tip.unitNormal| * w.span) := by
  intro o
  have hn1 : n.dot n = 1 := by rw [← V3.norm_sq, hn, one_pow]
  refine ⟨_, Wing.create_bothHalves hn1 sections tip htip le u m sp w hw, rfl, rfl, rfl, rfl, ?_⟩
  obtain ⟨hspec, ha⟩ := Wing.create_ok _ _ _ _ _ _ _ w hw
  obtain ⟨root, t, rest, rfl⟩ : ∃ root t rest, sections = root :: t :: rest := by
    have := ha.two
    match sections, this with
    | root :: t :: rest, _ => exact ⟨root, t, rest, rfl⟩
  have hr := ha.rootLE root rfl
  have hst := ha.stored
  rw [hspec] at hst
  have hlast : (t :: rest).getLast (by simp) = tip := by
    rw [List.getLast?_cons_cons, List.getLast?_eq_some_getLast (by simp), Option.some.injEq] at htip
    exact htip
  have hspan : w.span = |tip.leadingEdge.dot n| * 2 := by
    unfold Wing.span Wing.projectedSpan
    rw [hst, hspec]
    unfold withChordwise
    simp only [List.head?_map, List.getLast?_map, htip, List.head?_cons, Option.map_some, Option.getD_some, hr, sub_zero,
      if_true, V3.norm_smul, hn, mul_one]
  obtain ⟨a, Z, hhead⟩ := leftHalf_head (n := n) o root t rest
  rw [hlast] at hhead
  have h1 : (bothHalves n o (root :: t :: rest)).head? = some (a.onLeft n o tip) := by
    unfold bothHalves
    rw [hhead]
    rfl
  have h2 : (bothHalves n o (root :: t :: rest)).getLast? = some (tip.seenFrom o) := by
    unfold bothHalves
    rw [List.getLast?_append_of_ne_nil _ (by simp), List.getLast?_map, htip]
    rfl
  have hd : tip.leadingEdge - o - (n.across tip.leadingEdge - o) = (2 * tip.leadingEdge.dot n) • n := by
    simp only [V3.across]; module
  have hs : ∀ (v : V3), v.norm = 1 → Wing.projectedSpan v ((2 * tip.leadingEdge.dot n) • n)
      = |n.dot v| * (|tip.leadingEdge.dot n| * 2) := by
    intro v hv
    unfold Wing.projectedSpan
    rw [V3.norm_smul, hv, V3.smul_dot, abs_mul, abs_mul, abs_two]
    ring
  have hs' : ∀ v : V3, v.norm = 1 →
      Wing.span { w with sections := (bothHalves n o (root :: t :: rest)).map fun s => { s with wingUnitChordwise := u }
                         spec := ⟨le + o, v, false, u, m, sp⟩ } = |n.dot v| * w.span := by
    intro v hv
    unfold Wing.span
    simp only [List.head?_map, List.getLast?_map, h1, h2, Option.map_some, Option.getD_some, Bool.false_eq_true, if_false]
    simp only [WingCrossSection.onLeft, WingCrossSection.seenFrom]
    rw [hd, hs v hv]
    congr 1
    exact hspan.symm
  constructor
  · intro htn
    have hneg : -(n.across tip.unitNormal) = n := by rw [htn, across_self hn1, neg_neg]
    rw [hneg]
    have hA : Wing.projectedArea { w with sections := (bothHalves n o (root :: t :: rest)).map fun s =>
          { s with wingUnitChordwise := u }, spec := ⟨le + o, n, false, u, m, sp⟩ } = w.projectedArea := by
      unfold Wing.projectedArea Wing.unitUp
      rw [hspec]
    have hS := hs' n hn
    rw [hn1, abs_one, one_mul] at hS
    refine ⟨rfl, hA, hS, ?_, ?_⟩
    · unfold Wing.standardMeanChord
      rw [hA, hS]
    · unfold Wing.meanAerodynamicChord
      rw [hA, hst, hspec]
      simp only [Bool.false_eq_true, if_false, if_true]
      unfold withChordwise
      rw [macTerm_withChordwise, macTerm_withChordwise, mac_bothHalves hn1 o root _ hr]
      rfl
  · intro hν
    have hh : (-(n.across tip.unitNormal)).norm = 1 := by
      rw [← halfTurn_mulVec, (halfTurn_isRot hn1).1.norm, hν]
    rw [hs' _ hh]
    congr 2
    rw [← halfTurn_mulVec]
    have e : n = (halfTurn n).mulVec n := by rw [halfTurn_mulVec, across_self hn1, neg_neg]
    conv_lhs => rw [e]
    rw [← e]
    nth_rewrite 1 [e]
    exact (halfTurn_isRot hn1).1.dot _ _

/-- C98 for the steady solvers: if the tip has the normal of the root, the airplane with the wing given in full has the
same results as the one with the symmetric wing, in a problem with any other wings and airplanes. -/
theorem C98_steady (method : SteadyMethod) (sections : List WingCrossSection) (tip : WingCrossSection)
    (htip : sections.getLast? = some tip) (le n u : V3) (hn : n.norm = 1) (htn : tip.unitNormal = n) (m : ℕ) (sp : String)
    (w w' : Wing) (hw : Wing.create sections le n true u m sp = .ok w)
    (hw' : Wing.create (bothHalves n (n.across tip.leadingEdge) sections) (le + n.across tip.leadingEdge) n false u m sp
      = .ok w')
    (W₁ W₂ : List Wing) (hW₁ : ∀ v ∈ W₁, v.Made) (hW₂ : ∀ v ∈ W₂, v.Made) (ref : V3) (weight : ℝ)
    (sRef cRef bRef : Option ℝ) (a a' : Airplane)
    (ha : Airplane.create (W₁ ++ w :: W₂) ref weight sRef cRef bRef = .ok a)
    (ha' : Airplane.create (W₁ ++ w' :: W₂) ref weight sRef cRef bRef = .ok a')
    (A₁ A₂ : List Airplane) (hA₁ : ∀ b ∈ A₁, b.Made) (hA₂ : ∀ b ∈ A₂, b.Made) (op : OperatingPoint)
    (heap heap' : PanelHeap) (loads loads' : List AirplaneLoads) (R : SteadyResults)
    (hR : steadyRun method ⟨A₁ ++ a :: A₂, op⟩ heap loads = .ok R) :
    (a'.sRef = a.sRef ∧ a'.cRef = a.cRef ∧ a'.bRef = a.bRef) ∧
    ∃ R', steadyRun method ⟨A₁ ++ a' :: A₂, op⟩ heap' loads' = .ok R' ∧
      (∀ q, R'.velocity q = R.velocity q) ∧
      (∀ r p, panelAt (A₁ ++ a :: A₂) r = some p → ∃ g L L', R.strength r = some g ∧ R'.strength r = some g ∧
        R.loads r = some L ∧ R'.loads r = some L' ∧ L'.forceGeometry = L.forceGeometry ∧ L'.forceWind = L.forceWind ∧
        L'.momentGeometry = L.momentGeometry ∧ L'.momentWind = L.momentWind) ∧
      (∀ (i : ℕ) A, (A₁ ++ a :: A₂)[i]? = some A → ∃ L L', R.totals[i]? = some L ∧ R'.totals[i]? = some L' ∧
        L'.forceWind = L.forceWind ∧ L'.momentWind = L.momentWind ∧
        (A.sRef ≠ 0 → L'.forceCoefficients = L.forceCoefficients) ∧
        (A.sRef ≠ 0 → A.bRef ≠ 0 → A.cRef ≠ 0 → L'.momentCoefficients = L.momentCoefficients)) := by
  obtain ⟨w'', e0, e1, e2, -, -, e4, -⟩ := C98_wing sections tip htip le n u hn m sp w hw
  obtain ⟨-, hA, hS, -, hC⟩ := e4 htn
  have hneg : -(n.across tip.unitNormal) = n := by
    rw [htn, across_self (by rw [← V3.norm_sq, hn, one_pow]), neg_neg]
  rw [hneg, hw', Except.ok.injEq] at e0
  subst e0
  exact steady_of_same_lattice method ⟨_, _, _, _, _, _, _, hw⟩ ⟨_, _, _, _, _, _, _, hw'⟩ ⟨e1, hS, e2⟩ hA hC W₁ W₂ hW₁ hW₂
    ref weight sRef cRef bRef a a' ha ha' A₁ A₂ hA₁ hA₂ op heap heap' loads loads' R hR

/-- The hypotheses are met: a symmetric flat plate of chord 1 and span 2, and the same plate with three cross sections, in
flow from below; the ring solver solves them. -/
example : ∃ (s t : WingCrossSection) (w w' : Wing) (a a' : Airplane) (R : SteadyResults), t.unitNormal = ⟨0, 1, 0⟩ ∧
    Wing.create [s, t] ⟨0, 1, 0⟩ ⟨0, 1, 0⟩ true ⟨1, 0, 0⟩ 1 "uniform" = .ok w ∧
    Wing.create (bothHalves ⟨0, 1, 0⟩ ((⟨0, 1, 0⟩ : V3).across t.leadingEdge) [s, t])
      (⟨0, 1, 0⟩ + (⟨0, 1, 0⟩ : V3).across t.leadingEdge) ⟨0, 1, 0⟩ false ⟨1, 0, 0⟩ 1 "uniform" = .ok w' ∧
    Airplane.create ([] ++ w :: []) = .ok a ∧ Airplane.create ([] ++ w' :: []) = .ok a' ∧
    steadyRun .ring ⟨[] ++ a :: [], TwoPanels.upFlow 1⟩ = .ok R := by
  set s := plateSection ⟨0, 0, 0⟩ 1 0 0 "symmetric" 1 "uniform" with hs
  set t := plateSection ⟨0, 1, 0⟩ 1 0 0 "symmetric" 1 "uniform" with ht
  have hnn : (⟨0, 1, 0⟩ : V3).norm = 1 := by simp [V3.norm, V3.dot]
  obtain ⟨w, hw⟩ := plateWing_accepted [s, t] true 1 one_pos "uniform" (by simp) (by simp)
    (by simp [hs, plateSection]; rfl) (by
      intro x hx
      simp only [List.mem_cons, List.not_mem_nil, or_false] at hx
      rcases hx with rfl | rfl <;> exact ⟨_, _, _, _, _, _, _, rfl, by norm_num⟩) ⟨0, 1, 0⟩ (by simp [hs, ht, plateSection])
  obtain ⟨w', hw', hpan, -, -, -, -, -⟩ := C98_wing [s, t] t rfl ⟨0, 1, 0⟩ ⟨0, 1, 0⟩ ⟨1, 0, 0⟩ hnn 1 "uniform" w hw
  have htn : t.unitNormal = ⟨0, 1, 0⟩ := rfl
  have hneg : -((⟨0, 1, 0⟩ : V3).across t.unitNormal) = ⟨0, 1, 0⟩ := by
    rw [htn, across_self (by simp [V3.dot]), neg_neg]
  rw [hneg] at hw'
  have hfull : bothHalves ⟨0, 1, 0⟩ ((⟨0, 1, 0⟩ : V3).across t.leadingEdge) [s, t] = stripSections 1 [0, 1, 2] := by
    simp only [bothHalves, leftHalf, stripSections, List.map_cons, List.map_nil, List.nil_append, List.cons_append,
      List.cons.injEq, and_true]
    refine ⟨?_, ?_, ?_⟩ <;>
    · simp only [WingCrossSection.onLeft, WingCrossSection.seenFrom, hs, ht, plateSection, WingCrossSection.mk.injEq, true_and,
        and_true, V3.across, if_true]
      first
        | (ext <;> simp [V3.dot] <;> norm_num; done)
        | (constructor <;> ext <;> simp [V3.dot] <;> norm_num; done)
  have hle : (⟨0, 1, 0⟩ : V3) + (⟨0, 1, 0⟩ : V3).across t.leadingEdge = ⟨0, 0, 0⟩ := by
    simp only [ht, plateSection, V3.across]
    ext <;> simp [V3.dot] <;> norm_num
  have hw2 := hw'
  rw [hfull, hle] at hw2
  obtain ⟨w'', hw'', -, hn, hlen, -, hcell⟩ := strip_wing 0 1 [0, 1, 2] (by simp) rfl
  rw [hw2, Except.ok.injEq] at hw''
  subst hw''
  obtain ⟨a, ha, haw⟩ : ∃ a, Airplane.create ([] ++ w :: []) = .ok a ∧ a.wings = [w] := ⟨_, rfl, rfl⟩
  have hmade : a.Made := ⟨_, _, _, _, _, _, ha, by
    intro v hv
    simp only [List.nil_append, List.mem_singleton] at hv
    subst hv
    exact ⟨_, _, _, _, _, _, _, hw⟩⟩
  have hrefs : panelRefs [a] = [⟨0, 0, 0, 0⟩, ⟨0, 0, 0, 1⟩] := by
    have h2 := (C18_wing_counts _ _ _ _ _ _ _ w' hw2).2.1
    obtain ⟨row, hrow⟩ := List.length_eq_one_iff.mp hlen
    have hr : row.length = 2 := by
      have := h2 row (by rw [hrow]; simp)
      rw [this, hn]
      rfl
    simp [panelRefs, airplaneRefs, haw, ← hpan, hrow, hr, List.zipIdx, List.range_succ]
  have hp0 : panelAt [a] ⟨0, 0, 0, 0⟩ = some (stripPanel 0 1 0 1 2 0) := by
    have := hcell 0 0 1 rfl rfl
    unfold cell at this
    simpa [panelAt, wingAt, haw, ← hpan] using this
  have hp1 : panelAt [a] ⟨0, 0, 0, 1⟩ = some (stripPanel 0 1 1 2 2 1) := by
    have := hcell 1 1 2 rfl rfl
    unfold cell at this
    simpa [panelAt, wingAt, haw, ← hpan] using this
  obtain ⟨S, hS⟩ := TwoPanels.run_equal (as := [a]) (by simpa using hmade) hrefs hp0 hp1 .fresh []
  refine ⟨s, t, w, w', a, _, S.results, rfl, hw, hw', ha, rfl, ?_⟩
  simp only [List.nil_append, steadyRun, hS]
  rfl

end Ptera
