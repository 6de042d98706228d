import Verif.Model.Movement
import Verif.Lemmas.MapM
import Verif.Lemmas.Mesh

/-! Helper lemmas about generated motions. -/

namespace Ptera

noncomputable section

theorem oscillating_length (A T k : ℝ) (n : ℕ) (dt : ℝ) (f : ℝ → ℝ) :
    (oscillatingSinspace A T k n dt).length = n ∧ (oscillatingLinspace A T k n dt).length = n ∧
    (oscillatingCustomspace A T k n dt f).length = n := by
  unfold oscillatingSinspace oscillatingLinspace oscillatingCustomspace
  split_ifs <;> simp [constList, stepTimes, linspace]

theorem Oscillation.values_length {o : Oscillation} {b : ℝ} {n : ℕ} {dt : ℝ} {l : List ℝ}
    (h : o.values b n dt = .ok l) : l.length = n := by
  unfold Oscillation.values at h
  obtain ⟨h1, h2, _⟩ := oscillating_length o.amplitude o.period b n dt id
  split_ifs at h
  · rw [← Except.ok.inj h]; exact h1
  · rw [← Except.ok.inj h]; exact h2

/-- `generate_wing_cross_sections`, entry by entry. -/
theorem WingCrossSectionMovement.generate_ok {m : WingCrossSectionMovement} {n : ℕ} {dt : ℝ} {last : List V3}
    {vertical : Bool} {span sweep heave : ℝ} {h : List WingCrossSection}
    (hg : m.generate n dt last vertical span sweep heave = .ok h) :
    ∃ sweeps pitches heaves, m.sweeping.valuesCustom sweep n dt = .ok sweeps ∧
      m.pitching.valuesCustom m.base.twist n dt = .ok pitches ∧ m.heaving.valuesCustom heave n dt = .ok heaves ∧
      h.length = n ∧ ∀ k < n, ∃ s, h[k]? = some s ∧
        (if vertical then rebuild m.base m.base.leadingEdge m.base.twist
         else rebuild m.base (movedLeadingEdge (last.getD k 0) span (sweeps.getD k 0) (heaves.getD k 0))
           (pitches.getD k 0)) = .ok s := by
  unfold WingCrossSectionMovement.generate at hg
  obtain ⟨sw, h1, hg⟩ := bind_ok.mp hg
  obtain ⟨pi, h2, hg⟩ := bind_ok.mp hg
  obtain ⟨he, h3, hg⟩ := bind_ok.mp hg
  obtain ⟨hl, hk⟩ := mapM_range hg
  exact ⟨sw, pi, he, h1, h2, h3, hl, hk⟩

theorem rebuild_ok {b s : WingCrossSection} {le : V3} {tw : ℝ}
    (h : WingCrossSectionMovement.rebuild b le tw = .ok s) :
    s = { b with leadingEdge := le, twist := tw, unitNormal := ⟨0, 1, 0⟩, wingUnitChordwise := 0 } := by
  unfold WingCrossSectionMovement.rebuild WingCrossSection.create at h
  split_ifs at h
  exact (Except.ok.inj h).symm

theorem sectionHistory_length {n : ℕ} {dt : ℝ} {last : Option (List WingCrossSection)}
    {m : WingCrossSectionMovement} {h : List WingCrossSection}
    (hh : WingMovement.sectionHistory n dt last m = .ok h) : h.length = n := by
  unfold WingMovement.sectionHistory at hh
  cases last with
  | none =>
    simp only at hh
    split_ifs at hh
    obtain ⟨_, _, _, _, _, _, hl, _⟩ := WingCrossSectionMovement.generate_ok hh; exact hl
  | some prev =>
    cases prev with
    | nil => simp at hh
    | cons a l =>
      simp only at hh
      split_ifs at hh
      all_goals
        obtain ⟨_, _, _, _, _, _, hl, _⟩ := WingCrossSectionMovement.generate_ok hh; exact hl

/-- The histories, section by section. -/
theorem sectionHistories_ok {n : ℕ} {dt : ℝ} : ∀ {last : Option (List WingCrossSection)}
    {ms : List WingCrossSectionMovement} {hs : List (List WingCrossSection)},
    WingMovement.sectionHistories n dt last ms = .ok hs →
    hs.length = ms.length ∧ ∀ (j : ℕ) (m : WingCrossSectionMovement), ms[j]? = some m →
      ∃ h, hs[j]? = some h ∧ h.length = n ∧
        WingMovement.sectionHistory n dt (if j = 0 then last else hs[j - 1]?) m = .ok h
  | last, [], hs, h => by
    simp only [WingMovement.sectionHistories, Except.ok.injEq] at h
    subst h; simp
  | last, m :: ms, hs, h => by
    unfold WingMovement.sectionHistories at h
    obtain ⟨h0, hh0, h⟩ := bind_ok.mp h
    obtain ⟨rest, hrest, h⟩ := bind_ok.mp h
    rw [pure_ok] at h
    subst h
    obtain ⟨hl, hj⟩ := sectionHistories_ok hrest
    refine ⟨by simp [hl], ?_⟩
    intro j m' hm'
    cases j with
    | zero =>
      simp at hm'; subst hm'
      exact ⟨h0, by simp, sectionHistory_length hh0, by simpa using hh0⟩
    | succ j =>
      simp at hm'
      obtain ⟨h', e1, e2, e3⟩ := hj j m' hm'
      refine ⟨h', by simpa using e1, e2, ?_⟩
      rw [if_neg (by omega)]
      cases j with
      | zero => simpa using e3
      | succ j => simpa using e3

/-- Column `k` of an array of histories. -/
theorem column_getElem? {α : Type*} (hs : List (List α)) (k : ℕ) (hk : ∀ h ∈ hs, k < h.length) (j : ℕ) :
    (hs.filterMap (·[k]?))[j]? = (hs[j]?).bind (·[k]?) := by
  induction hs generalizing j with
  | nil => simp
  | cons h hs ih =>
    have hlt := hk h (by simp)
    have e : h[k]? = some h[k] := List.getElem?_eq_getElem hlt
    rw [List.filterMap_cons, e]
    simp only
    cases j with
    | zero => simp [e]
    | succ j => simpa using ih (fun x hx => hk x (by simp [hx])) j

theorem column_length {α : Type*} (hs : List (List α)) (k : ℕ) (hk : ∀ h ∈ hs, k < h.length) :
    (hs.filterMap (·[k]?)).length = hs.length := by
  induction hs with
  | nil => simp
  | cons h hs ih =>
    have hlt := hk h (by simp)
    have e : h[k]? = some h[k] := List.getElem?_eq_getElem hlt
    rw [List.filterMap_cons, e]
    simp [ih fun x hx => hk x (by simp [hx])]

theorem column_map_replicate {α : Type*} (S : List α) (n k : ℕ) (hk : k < n) :
    (S.map (List.replicate n)).filterMap (·[k]?) = S := by
  induction S with
  | nil => simp
  | cons a S ih =>
    rw [List.map_cons, List.filterMap_cons]
    simp only [List.getElem?_replicate, if_pos hk]
    rw [ih]

/-- `generate_wings`, step by step. -/
theorem WingMovement.generate_ok {wm : WingMovement} {n : ℕ} {dt : ℝ} {wings : List Wing}
    (h : wm.generate n dt = .ok wings) :
    ∃ xs ys zs hs, wm.xLe.values wm.base.spec.leadingEdge.x n dt = .ok xs ∧
      wm.yLe.values wm.base.spec.leadingEdge.y n dt = .ok ys ∧
      wm.zLe.values wm.base.spec.leadingEdge.z n dt = .ok zs ∧
      WingMovement.sectionHistories n dt none wm.sectionMovements = .ok hs ∧
      wings.length = n ∧ ∀ k < n, ∃ w, wings[k]? = some w ∧
        Wing.create (hs.filterMap (·[k]?)) (leadingEdge := ⟨xs.getD k 0, ys.getD k 0, zs.getD k 0⟩)
          (symmetric := wm.base.spec.symmetric) (numChordwisePanels := wm.base.spec.numChordwisePanels)
          (chordwiseSpacing := wm.base.spec.chordwiseSpacing) = .ok w := by
  unfold WingMovement.generate at h
  obtain ⟨xs, h1, h⟩ := bind_ok.mp h
  obtain ⟨ys, h2, h⟩ := bind_ok.mp h
  obtain ⟨zs, h3, h⟩ := bind_ok.mp h
  obtain ⟨hs, h4, h⟩ := bind_ok.mp h
  obtain ⟨hl, hk⟩ := mapM_range h
  exact ⟨xs, ys, zs, hs, h1, h2, h3, h4, hl, hk⟩

/-- `generate_airplanes`, step by step. -/
theorem AirplaneMovement.generate_ok {am : AirplaneMovement} {n : ℕ} {dt : ℝ} {as : List Airplane}
    (h : am.generate n dt = .ok as) :
    ∃ xs ys zs ws, am.xRef.values am.base.xyzRef.x n dt = .ok xs ∧
      am.yRef.values am.base.xyzRef.y n dt = .ok ys ∧ am.zRef.values am.base.xyzRef.z n dt = .ok zs ∧
      am.wingMovements.mapM (fun w => w.generate n dt) = .ok ws ∧ as.length = n ∧
      ∀ k < n, ∃ a, as[k]? = some a ∧
        Airplane.create (ws.filterMap (·[k]?)) (xyzRef := ⟨xs.getD k 0, ys.getD k 0, zs.getD k 0⟩) = .ok a := by
  unfold AirplaneMovement.generate at h
  obtain ⟨xs, h1, h⟩ := bind_ok.mp h
  obtain ⟨ys, h2, h⟩ := bind_ok.mp h
  obtain ⟨zs, h3, h⟩ := bind_ok.mp h
  obtain ⟨ws, h4, h⟩ := bind_ok.mp h
  obtain ⟨hl, hk⟩ := mapM_range h
  exact ⟨xs, ys, zs, ws, h1, h2, h3, h4, hl, hk⟩

/-- `generate_operating_points`, step by step. -/
theorem OperatingPointMovement.generate_ok {om : OperatingPointMovement} {n : ℕ} {dt : ℝ}
    {ops : List OperatingPoint} (h : om.generate n dt = .ok ops) :
    ∃ vs, om.velocity.values om.base.velocity n dt = .ok vs ∧ ops.length = n ∧
      ∀ k < n, ops[k]? = some { density := om.base.density, velocity := vs.getD k 0, alpha := om.base.alpha
                                beta := om.base.beta } := by
  unfold OperatingPointMovement.generate at h
  obtain ⟨vs, h1, h⟩ := bind_ok.mp h
  rw [pure_ok] at h
  subst h
  exact ⟨vs, h1, by simp, fun k hk => by simp [hk]⟩

end

end Ptera
