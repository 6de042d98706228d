import Verif.Spec.Renumbered
import Verif.Props.Attitude
import Verif.Lemmas.TwoPanels

/-!
# Steady results and the order of airplanes and wings

C66: listing the airplanes of a problem, or the wings of an airplane, in another order does not change the flow or the
loads.
-/

namespace Ptera

/-- An injective renumbering of `n` places reaches all of them. -/
theorem renumbering_onto {n : ℕ} {ρ : ℕ → ℕ} (hlt : ∀ a, a < n → ρ a < n)
    (hinj : ∀ a b, a < n → b < n → ρ a = ρ b → a = b) (b : ℕ) (hb : b < n) : ∃ a, a < n ∧ ρ a = b := by
  have hi : Function.Injective (fun a : Fin n => (⟨ρ a, hlt a a.2⟩ : Fin n)) := by
    intro a b h
    exact Fin.ext (hinj a b a.2 b.2 (congrArg Fin.val h))
  obtain ⟨a, ha⟩ := (Finite.injective_iff_surjective.mp hi) ⟨b, hb⟩
  exact ⟨a, a.2, congrArg Fin.val ha⟩

theorem SimilarAirplanes.of_renumbered {as as' : List Airplane} {ρ : ℕ → ℕ} {ω : ℕ → ℕ → ℕ}
    (h : Renumbered as as' ρ ω) : SimilarAirplanes as as' M3.one 0 (fun _ _ => false) ρ ω where
  ortho := one_isRot.1
  airplanes := by
    intro a A hA
    obtain ⟨A', hA', hx, hl, hi, hw⟩ := h.airplanes a A hA
    refine ⟨A', hA', by rw [hx, one_mulVec, add_zero], ?_, ?_, hi⟩
    · intro w W hW
      refine ⟨W, hw w W hW, rfl, rfl, rfl, ?_⟩
      intro i j p p' hp hp'
      simp only [Bool.false_eq_true, if_false, hp, Option.some.injEq] at hp'
      subst hp'
      simp only [IsImage, one_mulVec, add_zero, Bool.false_eq_true, if_false, and_self]
    · intro w' hw'
      refine renumbering_onto ?_ hi w' (by rw [← hl]; exact hw')
      intro w hwl
      have := (List.getElem?_eq_some_iff.mp (hw w _ (List.getElem?_eq_getElem hwl))).1
      rwa [hl] at this
  onto := by
    intro a' ha'
    refine renumbering_onto ?_ h.injective a' (by rw [← h.length]; exact ha')
    intro a ha
    obtain ⟨A', hA', -⟩ := h.airplanes a _ (List.getElem?_eq_getElem ha)
    have := (List.getElem?_eq_some_iff.mp hA').1
    rwa [h.length] at this
  injective := h.injective

/-- C66: with the airplanes, and the wings of each, listed in another order, a run succeeds just the same, the velocity
is the same at every point, every panel has the same vortex strength and the same loads, and every airplane the same
total force and moment; its coefficients are the same if its reference dimensions are. -/
theorem C66_order (method : SteadyMethod) (op : OperatingPoint) (as as' : List Airplane) (hmade : ∀ a ∈ as, a.Made)
    (hmade' : ∀ a ∈ as', a.Made) (ρ : ℕ → ℕ) (ω : ℕ → ℕ → ℕ) (hrenum : Renumbered as as' ρ ω)
    (heap heap' : PanelHeap) (loads loads' : List AirplaneLoads) (R : SteadyResults)
    (h : steadyRun method ⟨as, op⟩ heap loads = .ok R) :
    ∃ R', steadyRun method ⟨as', op⟩ heap' loads' = .ok R' ∧
      (∀ q, R'.velocity q = R.velocity q) ∧
      (∀ r p, panelAt as r = some p →
        panelAt as' ⟨ρ r.airplane, ω r.airplane r.wing, r.row, r.col⟩ = some p ∧
        ∃ (g : ℝ) (L L' : PanelLoads), R.strength r = some g ∧
          R'.strength ⟨ρ r.airplane, ω r.airplane r.wing, r.row, r.col⟩ = some g ∧
          R.loads r = some L ∧ R'.loads ⟨ρ r.airplane, ω r.airplane r.wing, r.row, r.col⟩ = some L' ∧
          L'.forceGeometry = L.forceGeometry ∧ L'.momentGeometry = L.momentGeometry ∧
          L'.forceWind = L.forceWind ∧ L'.momentWind = L.momentWind) ∧
      (∀ (a : ℕ) (A A' : Airplane), as[a]? = some A → as'[ρ a]? = some A' →
        ∃ L L' : AirplaneLoads, R.totals[a]? = some L ∧ R'.totals[ρ a]? = some L' ∧
          L'.forceWind = L.forceWind ∧ L'.momentWind = L.momentWind ∧
          (A'.sRef = A.sRef → A'.cRef = A.cRef → A'.bRef = A.bRef →
            L'.forceCoefficients = L.forceCoefficients ∧ L'.momentCoefficients = L.momentCoefficients)) := by
  have hs : SimilarProblems ⟨as, op⟩ ⟨as', op⟩ M3.one 0 (fun _ _ => false) 1 1 ρ ω :=
    { airplanes := SimilarAirplanes.of_renumbered hrenum
      made := hmade
      made' := hmade'
      nonzero := one_ne_zero
      direction := by rw [one_mulVec]
      velocity := by rw [one_mulVec, one_smul]
      density := (_root_.one_mul _).symm }
  have hdet : M3.one.det = 1 := one_isRot.2
  obtain ⟨R', hR', hv, hp, ht⟩ := steady_similar (N := M3.one) method hs
    (by rw [M3.mul_one, M3.one_mul]) h heap' loads'
  refine ⟨R', hR', ?_, ?_, ?_⟩
  · intro q
    have := hv q
    rwa [one_mulVec, one_mulVec, add_zero, one_smul] at this
  · intro r p hr
    obtain ⟨g, L, L', h1, h2, h3, h4, h5, h6, h7, h8⟩ := hp r p hr
    rw [orientation_one] at h2
    rw [hdet] at h6 h8
    rw [one_mulVec] at h5 h6 h7 h8
    norm_num at h2 h5 h6 h7 h8
    refine ⟨?_, g, L, L', h1, h2, h3, h4, h5, h6, h7, h8⟩
    unfold panelAt wingAt at hr ⊢
    cases hA : as[r.airplane]? with
    | none => simp [hA] at hr
    | some A =>
      obtain ⟨A', hA', -, -, -, hw⟩ := hrenum.airplanes r.airplane A hA
      cases hW : A.wings[r.wing]? with
      | none => simp [hA, hW] at hr
      | some W =>
        simp only [hA, hW, Option.bind_some] at hr
        simp only [hA', hw _ _ hW, Option.bind_some]
        exact hr
  · intro a A A' hA hA'
    obtain ⟨B, L, L', h1, h2, h3, h4, h5, h6, h7⟩ := ht a A hA
    have hB : as'[ρ a]? = some B := h1
    rw [hA', Option.some.injEq] at hB
    subst hB
    rw [hdet] at h5
    rw [one_mulVec] at h4 h5
    refine ⟨L, L', h2, h3, by rw [h4]; norm_num, by rw [h5]; norm_num, ?_⟩
    intro e1 e2 e3
    refine h6.scale h7 (e := 1) one_ne_zero ?_ e1 e2 e3 (by rw [h4]; norm_num) (by rw [h5]; norm_num)
    simp

/-! ## Concrete cases: two plates side by side -/

namespace TwoPlates

theorem wings : ∃ u v : Wing, u.Made ∧ v.Made ∧ u.panels = [[stripPanel 0 1 0 2 1 0]] ∧
    v.panels = [[stripPanel 0 1 2 3 1 0]] := by
  have key : ∀ b : ℝ, ∃ w, Wing.create (stripSections 1 [0, b]) ⟨0, 0, 0⟩ ⟨0, 1, 0⟩ false ⟨1, 0, 0⟩ 1 "uniform" = .ok w ∧
      w.panels = [[stripPanel 0 1 0 b 1 0]] := by
    intro b
    obtain ⟨w, hw, hmade, hn, hl, hspan, hcell⟩ := strip_wing 0 1 [0, b] (by simp) rfl
    refine ⟨w, hw, ?_⟩
    obtain ⟨row, hrow⟩ := List.length_eq_one_iff.mp hl
    have h2 := (C18_wing_counts _ _ _ _ _ _ _ w hw).2.1
    have hr : row.length = 1 := by
      have := h2 row (by rw [hrow]; simp)
      rw [this, hn]
      rfl
    obtain ⟨p, hp⟩ := List.length_eq_one_iff.mp hr
    have := hcell 0 0 b rfl rfl
    rw [hrow, hp] at this ⊢
    simp only [cell, List.getElem?_cons_zero, Option.bind_some, Option.some.injEq] at this
    rw [this]
    rfl
  obtain ⟨u, hu, hup⟩ := key 2
  obtain ⟨v, hv, hvp⟩ := key 1
  obtain ⟨v', hv', -, hvp'⟩ := C64_translated_wing _ _ _ _ _ _ _ v hv ⟨0, 2, 0⟩
  refine ⟨u, v', ⟨_, _, _, _, _, _, _, hu⟩, ⟨_, _, _, _, _, _, _, hv'⟩, hup, ?_⟩
  rw [hvp', hvp]
  simp only [List.map_cons, List.map_nil, List.cons.injEq, and_true]
  unfold stripPanel
  simp only [Panel.mk.injEq, and_true]
  refine ⟨?_, ?_, ?_, ?_⟩ <;> ext <;> simp <;> norm_num

/-- An airplane with given wings and all reference dimensions one. -/
noncomputable def airplane (ws : List Wing) : Airplane :=
  { wings := ws, xyzRef := 0, weight := 0, sRef := 1, cRef := 1, bRef := 1, numPanels := (ws.map (·.numPanels)).sum }

theorem airplane_made {w : Wing} {ws : List Wing} (h : ∀ v ∈ w :: ws, v.Made) : (airplane (w :: ws)).Made :=
  ⟨w :: ws, 0, 0, some 1, some 1, some 1, rfl, h⟩

end TwoPlates

/-- Two airplanes, one plate each: solved in either order, with the same flow and the same loads. -/
example : ∃ (a b : Airplane) (R R' : SteadyResults), a.Made ∧ b.Made ∧ a ≠ b ∧
    steadyRun .ring ⟨[a, b], TwoPanels.upFlow 1⟩ = .ok R ∧ steadyRun .ring ⟨[b, a], TwoPanels.upFlow 1⟩ = .ok R' ∧
    (∀ q, R'.velocity q = R.velocity q) ∧
    ∃ L L' : AirplaneLoads, R.totals[0]? = some L ∧ R'.totals[1]? = some L' ∧ L'.forceWind = L.forceWind := by
  obtain ⟨u, v, hu, hv, hup, hvp⟩ := TwoPlates.wings
  have ma : (TwoPlates.airplane [u]).Made := TwoPlates.airplane_made (by simpa using hu)
  have mb : (TwoPlates.airplane [v]).Made := TwoPlates.airplane_made (by simpa using hv)
  obtain ⟨s, -, -, hs, -⟩ := TwoPanels.run (as := [TwoPlates.airplane [u], TwoPlates.airplane [v]])
    (r₀ := ⟨0, 0, 0, 0⟩) (r₁ := ⟨1, 0, 0, 0⟩) (m₀ := 1) (m₁ := 1) (j₀ := 0) (j₁ := 0) (by simpa using ⟨ma, mb⟩)
    (by simp [panelRefs, airplaneRefs, TwoPlates.airplane, hup, hvp, List.zipIdx])
    (by simp [panelAt, wingAt, TwoPlates.airplane, hup]) (by simp [panelAt, wingAt, TwoPlates.airplane, hvp]) .fresh []
  have hR : steadyRun .ring ⟨[TwoPlates.airplane [u], TwoPlates.airplane [v]], TwoPanels.upFlow 1⟩ = .ok s.results := by
    simp only [steadyRun, hs]; rfl
  have hrenum : Renumbered [TwoPlates.airplane [u], TwoPlates.airplane [v]] [TwoPlates.airplane [v], TwoPlates.airplane [u]]
      (fun a => 1 - a) (fun _ => id) := by
    refine ⟨rfl, fun a b h1 h2 h => by simp at h1 h2; omega, ?_⟩
    intro a A hA
    match a, hA with
    | 0, hA => cases hA; exact ⟨_, rfl, rfl, rfl, fun _ _ _ _ h => h, fun _ _ h => h⟩
    | 1, hA => cases hA; exact ⟨_, rfl, rfl, rfl, fun _ _ _ _ h => h, fun _ _ h => h⟩
  obtain ⟨R', hR', h1, -, h3⟩ := C66_order .ring _ _ _ (by simpa using ⟨ma, mb⟩) (by simpa using ⟨mb, ma⟩) _ _ hrenum .fresh
    .fresh [] [] _ hR
  obtain ⟨L, L', e1, e2, e3, -⟩ := h3 0 _ _ rfl rfl
  refine ⟨_, _, _, R', ma, mb, ?_, hR, hR', h1, L, L', e1, e2, e3⟩
  intro h
  have h' : u = v := by simpa [TwoPlates.airplane] using congrArg Airplane.wings h
  rw [h', hvp] at hup
  simp [stripPanel] at hup

/-- One airplane with two wings, listed in either order. -/
example : ∃ (u v : Wing) (R R' : SteadyResults), u.Made ∧ v.Made ∧ u ≠ v ∧
    steadyRun .ring ⟨[TwoPlates.airplane [u, v]], TwoPanels.upFlow 1⟩ = .ok R ∧
    steadyRun .ring ⟨[TwoPlates.airplane [v, u]], TwoPanels.upFlow 1⟩ = .ok R' ∧
    (∀ q, R'.velocity q = R.velocity q) ∧
    ∃ L L' : AirplaneLoads, R.totals[0]? = some L ∧ R'.totals[0]? = some L' ∧
      L'.forceCoefficients = L.forceCoefficients := by
  obtain ⟨u, v, hu, hv, hup, hvp⟩ := TwoPlates.wings
  have ma : (TwoPlates.airplane [u, v]).Made := TwoPlates.airplane_made (by simpa using ⟨hu, hv⟩)
  have mb : (TwoPlates.airplane [v, u]).Made := TwoPlates.airplane_made (by simpa using ⟨hv, hu⟩)
  obtain ⟨s, -, -, hs, -⟩ := TwoPanels.run (as := [TwoPlates.airplane [u, v]])
    (r₀ := ⟨0, 0, 0, 0⟩) (r₁ := ⟨0, 1, 0, 0⟩) (m₀ := 1) (m₁ := 1) (j₀ := 0) (j₁ := 0) (by simpa using ma)
    (by simp [panelRefs, airplaneRefs, TwoPlates.airplane, hup, hvp, List.zipIdx])
    (by simp [panelAt, wingAt, TwoPlates.airplane, hup]) (by simp [panelAt, wingAt, TwoPlates.airplane, hvp]) .fresh []
  have hR : steadyRun .ring ⟨[TwoPlates.airplane [u, v]], TwoPanels.upFlow 1⟩ = .ok s.results := by
    simp only [steadyRun, hs]; rfl
  have hrenum : Renumbered [TwoPlates.airplane [u, v]] [TwoPlates.airplane [v, u]] id (fun _ w => 1 - w) := by
    refine ⟨rfl, fun a b h1 h2 h => h, ?_⟩
    intro a A hA
    match a, hA with
    | 0, hA =>
      cases hA
      refine ⟨_, rfl, rfl, rfl, fun v w h1 h2 h => by simp [TwoPlates.airplane] at h1 h2; omega, ?_⟩
      intro w W hW
      match w, hW with
      | 0, hW => exact hW
      | 1, hW => exact hW
  obtain ⟨R', hR', h1, -, h3⟩ := C66_order .ring _ _ _ (by simpa using ma) (by simpa using mb) _ _ hrenum .fresh
    .fresh [] [] _ hR
  obtain ⟨L, L', e1, e2, -, -, e3⟩ := h3 0 _ _ rfl rfl
  refine ⟨u, v, _, R', hu, hv, ?_, hR, hR', h1, L, L', e1, e2, (e3 rfl rfl rfl).1⟩
  intro h
  rw [h, hvp] at hup
  simp [stripPanel] at hup

end Ptera
