import Verif.Lemmas.SharedSections
import Verif.Props.Construction
import Verif.Props.Frames

/-!
# C106: wings that share their cross sections

A cross section object may be given to several wings. In every session, whatever wings are made from the same cross
sections before or after, each construction gives the wing it would give with cross sections of its own; only the
direction a cross section has, and with it its trailing edge, is that of the last wing it was given to.
-/

namespace Ptera

noncomputable section

/-- C106 (all but the cross sections' own directions): in every session, the `k`-th construction fails exactly if it does
with cross sections of its own, with the same exception; otherwise, in the end of the session, everything about the wing
other than directions and trailing edges of its cross sections is as if they were its own. -/
theorem C106_own_partial (h : SectionHeap) (session : List (List ℕ × WingArgs)) (k : ℕ) (ids : List ℕ) (a : WingArgs)
    (hk : session[k]? = some (ids, a)) :
    ∃ r, (buildWings h session).2[k]? = some r ∧
      SameOutcome Wing.SameWing (r.map (·.seen (buildWings h session).1)) (a.own (ids.map h)) := by
  obtain ⟨h₁, ht, hr, -⟩ := buildWings_get (.refl h) session k ids a hk
  refine ⟨_, hr, buildWing_own ht ids a _ ?_⟩
  rintro w rfl n -
  exact w.sameWing ((SectionHeap.Directed.refl h).buildWings session) _

/-- What passes the checks is documented to be allowed. -/
theorem documented_of_checks (a : WingArgs) (sections : List WingCrossSection) (n : ℕ)
    (h : wingChecks a sections = .ok n) :
    WingDocumented sections a.unitNormal a.unitChordwise a.chordwiseSpacing := by
  by_contra hd
  unfold wingChecks at h
  match sections, h, hd with
  | [], h, _ => simp at h
  | [_], h, _ => simp at h
  | root :: s2 :: rest, h, hd =>
    simp only at h
    split_ifs at h with c1 c2 c3 c4 c5
    all_goals
      apply hd
      rw [not_not] at c2 c3 c4
      refine ⟨by simp, by simpa using c1, ?_, ?_, c4, ?_⟩
      · intro r hr; simp at hr; rw [← hr]; exact c2.symm
      · intro r hr; simp at hr; rw [← hr]; exact c3
      · intro s hs
        by_contra hne
        exact c5 (List.any_eq_true.mpr ⟨s, hs, by simpa using hne⟩)

/-- C106: if the cross sections of a wing are not given, later, to a wing with another chordwise direction, then the wing
is in all respects as if they were its own. Constructions that violate the documented requirements on wings do not
count. -/
theorem C106_exact_partial (h : SectionHeap) (session : List (List ℕ × WingArgs)) (k : ℕ) (ids : List ℕ) (a : WingArgs)
    (hk : session[k]? = some (ids, a))
    (hlater : ∀ e ∈ session.drop (k + 1), e.2.unitChordwise = a.unitChordwise ∨ (∀ i ∈ ids, i ∉ e.1) ∨
      ¬ WingDocumented (e.1.map h) e.2.unitNormal e.2.unitChordwise e.2.chordwiseSpacing) :
    ∃ r, (buildWings h session).2[k]? = some r ∧
      SameOutcome Eq (r.map (·.seen (buildWings h session).1)) (a.own (ids.map h)) := by
  obtain ⟨h₁, ht, hr, hend⟩ := buildWings_get (.refl h) session k ids a hk
  refine ⟨_, hr, buildWing_own ht ids a _ ?_⟩
  rintro w rfl n hn
  have key : w.ids.map (buildWings h session).1 = (w.ids.map h).map (·.directedTo a.unitChordwise) := by
    rw [List.map_map]
    refine List.map_congr_left fun i hi => ?_
    have hd : ((buildWings h session).1 i).wingUnitChordwise = a.unitChordwise := by
      rw [hend]
      refine direction_stays (ht.buildWing w.ids a) _ i _ ?_ fun e he =>
        (hlater e he).imp_right fun hne => hne.imp (fun hn => hn i hi) fun hd n hn => hd (documented_of_checks _ _ n hn)
      rw [buildWing_heap, hn]
      simp only
      rw [SectionHeap.direct_apply, if_pos hi]
      rfl
    obtain ⟨d, hh⟩ := (SectionHeap.Directed.refl h).buildWings session
    rw [hh] at hd ⊢
    have : d i = a.unitChordwise := hd
    simp only [Function.comp, this]
  show w.seen _ = _
  unfold WingObject.seen
  rw [key]

/-- C106 does not hold of the cross sections' own directions: whenever a cross section is given to two wings with
different chordwise directions, the second construction changes its chordwise direction and its trailing edge, which are
also what the first wing shows. -/
theorem C106_trailing_edge_fails (h : SectionHeap) (ids ids' : List ℕ) (a a' : WingArgs) (w w' : WingObject)
    (hw : (buildWing h ids a).2 = .ok w) (hw' : (buildWing (buildWing h ids a).1 ids' a').2 = .ok w')
    (hne : a.unitChordwise ≠ a'.unitChordwise) (i : ℕ) (hi : i ∈ ids) (hi' : i ∈ ids')
    (hnormal : (h i).unitNormal ≠ 0) (hchord : 0 < (h i).chord) :
    let before := (buildWing h ids a).1 i
    let after := (buildWing (buildWing h ids a).1 ids' a').1 i
    before.unitChordwise ≠ after.unitChordwise ∧ before.trailingEdge ≠ after.trailingEdge := by
  have checks : ∀ (h : SectionHeap) (ids : List ℕ) (a : WingArgs) (w : WingObject), (buildWing h ids a).2 = .ok w →
      (buildWing h ids a).1 = h.direct ids a.unitChordwise := by
    intro h ids a w hw
    rw [buildWing_heap]
    unfold buildWing at hw
    cases hc : wingChecks a (ids.map h) with
    | error e => simp [hc] at hw
    | ok n => rfl
  intro before after
  have hb : before = (h i).directedTo a.unitChordwise := by
    simp only [before]
    rw [checks h ids a w hw, SectionHeap.direct_apply, if_pos hi]
  have haf : after = (h i).directedTo a'.unitChordwise := by
    simp only [after]
    rw [checks _ ids' a' w' hw', SectionHeap.direct_apply, if_pos hi']
    rw [show (buildWing h ids a).1 i = (h i).directedTo a.unitChordwise from hb]
    rfl
  have hrot := C06_proper_rotation ((h i).twist * Real.pi / 180) (h i).unitNormal hnormal
  have hu : before.unitChordwise ≠ after.unitChordwise := by
    rw [hb, haf]
    intro heq
    have := congrArg ((angleAxisRotationMatrix ((h i).twist * Real.pi / 180) (h i).unitNormal).transpose.mulVec ·) heq
    simp only [WingCrossSection.unitChordwise, WingCrossSection.directedTo, hrot.1.transpose_mulVec] at this
    exact hne this
  refine ⟨hu, fun heq => hu ?_⟩
  rw [hb, haf] at heq ⊢
  unfold WingCrossSection.trailingEdge at heq
  have h2 : (h i).chord • ((h i).directedTo a.unitChordwise).unitChordwise
      = (h i).chord • ((h i).directedTo a'.unitChordwise).unitChordwise := add_left_cancel heq
  exact smul_right_injective V3 hchord.ne' h2

/-- Concrete cases: two flat cross sections, each with a spanwise panel, given first to a wing along x and then to a
symmetric one along z. Both constructions succeed, and the first wing's trailing edge is then another one. -/
example : ∃ (h : SectionHeap) (a a' : WingArgs) (w w' : WingObject),
    (buildWings h [([0, 1], a), ([0, 1], a')]).2 = [.ok w, .ok w'] ∧ w.numPanels = 3 ∧ w'.numPanels = 6 ∧
    ((buildWings h [([0, 1], a), ([0, 1], a')]).1 1).trailingEdge ≠ ((buildWings h [([0, 1], a)]).1 1).trailingEdge ∧
    -- the hypothesis of `C106_exact_partial`: for the first wing if the second construction is refused, and for the
    -- second wing
    (∀ e ∈ [([0, 1], a), ([0], a')].drop (0 + 1), e.2.unitChordwise = a.unitChordwise ∨ (∀ i ∈ [0, 1], i ∉ e.1) ∨
      ¬ WingDocumented (e.1.map h) e.2.unitNormal e.2.unitChordwise e.2.chordwiseSpacing) ∧
    (∀ e ∈ [([0, 1], a), ([0, 1], a')].drop (1 + 1), e.2.unitChordwise = a'.unitChordwise ∨ (∀ i ∈ [0, 1], i ∉ e.1) ∨
      ¬ WingDocumented (e.1.map h) e.2.unitNormal e.2.unitChordwise e.2.chordwiseSpacing) := by
  let h : SectionHeap := fun i => plateSection ⟨0, i, 0⟩ 1 0 0 "symmetric" 1 "uniform"
  have accepted : ∀ (h' : SectionHeap) (a : WingArgs), h.Directed h' → a.unitNormal = ⟨0, 1, 0⟩ →
      a.unitChordwise.y = 0 → 0 < a.numChordwisePanels → a.chordwiseSpacing = "cosine" →
      ∃ w, (buildWing h' [0, 1] a).2 = .ok w ∧ w.numPanels = (if a.symmetric then 2 else 1) * a.numChordwisePanels := by
    intro h' a ht hn hu hm hs
    have hown : ∃ w, a.own ([0, 1].map h) = .ok w := by
      refine (C17_wing_accepts _ _ _ _ _ _ _).mpr ⟨⟨by simp, by simp [hs], ?_, ?_, ?_, ?_⟩, hm, ?_⟩
      · rintro r hr
        simp only [List.map_cons, List.getElem?_cons_zero, Option.some.injEq] at hr
        rw [← hr, hn]
        rfl
      · rintro r hr
        simp only [List.map_cons, List.getElem?_cons_zero, Option.some.injEq] at hr
        rw [← hr]
        ext <;> simp [h, plateSection]
      · rw [hn]
        simp [V3.dot, hu]
      · intro s hs
        simp only [List.map_cons, List.map_nil, List.mem_cons, List.not_mem_nil, or_false] at hs
        rw [hn]
        rcases hs with rfl | rfl <;> ext <;> simp [h, plateSection, V3.cross]
      · intro s hs
        simp only [List.map_cons, List.map_nil, List.tail_cons, List.zip_cons_cons, List.zip_nil_right, List.mem_cons,
          List.not_mem_nil, or_false] at hs
        subst hs
        exact plate_meshable _ _ _ _ _ _ _ _ _ _ _ _ _ _ _ (by norm_num) (by simp)
    obtain ⟨v, hv⟩ := hown
    have hout := buildWing_own (h' := h') ht [0, 1] a Wing.SameWing fun w hw _ _ => hw ▸ w.sameWing ht _
    rw [hv] at hout
    cases hb : (buildWing h' [0, 1] a).2 with
    | error e =>
      rw [hb] at hout
      exact hout.elim
    | ok w =>
      rw [hb] at hout
      refine ⟨w, rfl, ?_⟩
      have e1 : w.numPanels = v.numPanels := hout.numPanels
      obtain ⟨hspec, hacc⟩ := Wing.create_ok _ _ _ _ _ _ _ _ hv
      rw [e1, hacc.npanels, hacc.nspan, hspec]
      cases a.symmetric <;> simp [h, plateSection]
  let a : WingArgs := { numChordwisePanels := 3 }
  let a' : WingArgs := { numChordwisePanels := 3, unitChordwise := ⟨0, 0, 1⟩, symmetric := true }
  obtain ⟨w, hw, hp⟩ := accepted h a (.refl h) rfl rfl (by norm_num [a]) rfl
  obtain ⟨w', hw', hp'⟩ := accepted (buildWing h [0, 1] a).1 a' ((SectionHeap.Directed.refl h).buildWing _ _) rfl rfl
    (by norm_num [a']) rfl
  refine ⟨h, a, a', w, w', ?_, by rw [hp]; rfl, by rw [hp']; rfl, ?_, ?_, by simp⟩
  · simp only [buildWings, hw, hw']
  · exact (C106_trailing_edge_fails h [0, 1] [0, 1] a a' w w' hw hw'
      (fun he => by simpa [a, a'] using congrArg V3.x he) 1 (by simp) (by simp)
      (fun he => by simpa [h, plateSection] using congrArg V3.y he) (by simp [h, plateSection])).2.symm
  · intro e he
    simp only [zero_add, List.drop_succ_cons, List.drop_zero, List.mem_cons, List.not_mem_nil, or_false] at he
    subst he
    exact Or.inr (Or.inr fun hd => absurd hd.two (by simp))

end

end Ptera
