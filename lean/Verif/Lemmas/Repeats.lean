import Verif.Spec.Repeats
import Verif.Lemmas.Shifted
import Verif.Props.Oscillation

/-!
# Repeated motions: lemmas
-/

namespace Ptera

open List

variable {n j k : ℕ} {dt : ℝ}

/-- Values of a periodic function at times that differ by a whole number of periods. -/
theorem phase_eq {f : ℝ → ℝ} (hf : ∀ x, f (x + 2 * Real.pi) = f x) {T P : ℝ} (hP : P ≠ 0) {m : ℤ} (hT : T = m * P)
    (t h : ℝ) : f (2 * Real.pi / P * (t + T) + h) = f (2 * Real.pi / P * t + h) := by
  have hper : Function.Periodic f (2 * Real.pi) := hf
  have e : 2 * Real.pi / P * (t + T) + h = (2 * Real.pi / P * t + h) + m * (2 * Real.pi) := by
    rw [hT]; field_simp; ring
  rw [e, hper.int_mul m]

theorem Samples.getD_eq {l : List ℝ} {w : ℝ → ℝ} (h : Samples l n dt w) (hj : j < n) (hk : k < n)
    (e : w (k * dt) = w (j * dt)) : l.getD k 0 = l.getD j 0 := by
  rw [List.getD_eq_getElem?_getD, List.getD_eq_getElem?_getD, h.2 k hk, h.2 j hj, e]

theorem sinspace_repeats {A P b : ℝ} {m : ℤ} (hj : j < n) (hk : k < n)
    (h : A = 0 ∨ P = 0 ∨ k * dt - j * dt = m * P) :
    (oscillatingSinspace A P b n dt).getD k 0 = (oscillatingSinspace A P b n dt).getD j 0 := by
  unfold oscillatingSinspace
  by_cases hc : A = 0 ∨ P = 0
  · rw [if_pos hc]
    exact (constList_samples n b dt).getD_eq hj hk rfl
  · rw [if_neg hc]
    refine (stepTimes_map n dt _).getD_eq hj hk ?_
    push Not at hc
    have hT : k * dt - j * dt = m * P := by tauto
    have := phase_eq (f := Real.sin) Real.sin_add_two_pi hc.2 hT (j * dt) 0
    rw [add_sub_cancel, add_zero, add_zero] at this
    simp only [sub_zero, this]

theorem linspace_repeats {A P b : ℝ} {m : ℤ} (hj : j < n) (hk : k < n)
    (h : A = 0 ∨ P = 0 ∨ k * dt - j * dt = m * P) :
    (oscillatingLinspace A P b n dt).getD k 0 = (oscillatingLinspace A P b n dt).getD j 0 := by
  unfold oscillatingLinspace
  by_cases hc : A = 0 ∨ P = 0
  · rw [if_pos hc]
    exact (constList_samples n b dt).getD_eq hj hk rfl
  · rw [if_neg hc]
    refine (stepTimes_map n dt _).getD_eq hj hk ?_
    push Not at hc
    have hT : k * dt - j * dt = m * P := by tauto
    have := phase_eq (f := sawtooth) sawtooth_periodic hc.2 hT (j * dt) (Real.pi / 2)
    rw [add_sub_cancel] at this
    simp only [this]

theorem customspace_repeats {A P b : ℝ} {f : ℝ → ℝ} {m : ℤ} (hj : j < n) (hk : k < n)
    (h : A = 0 ∨ P = 0 ∨ (k * dt - j * dt = m * P ∧ ∀ x, f (x + 2 * Real.pi) = f x)) :
    (oscillatingCustomspace A P b n dt f).getD k 0 = (oscillatingCustomspace A P b n dt f).getD j 0 := by
  unfold oscillatingCustomspace
  by_cases hc : A = 0 ∨ P = 0
  · rw [if_pos hc]
    exact (constList_samples n b dt).getD_eq hj hk rfl
  · rw [if_neg hc]
    refine (stepTimes_map n dt _).getD_eq hj hk ?_
    push Not at hc
    obtain ⟨hT, hf⟩ : k * dt - j * dt = m * P ∧ ∀ x, f (x + 2 * Real.pi) = f x := by tauto
    have := phase_eq (f := f) hf hc.2 hT (j * dt) 0
    rw [add_sub_cancel, add_zero, add_zero] at this
    simp only [sub_zero, this]

theorem Oscillation.values_repeat {o : Oscillation} {b : ℝ} {l : List ℝ} (ho : o.RepeatsAfter (k * dt - j * dt))
    (hj : j < n) (hk : k < n) (h : o.values b n dt = .ok l) : l.getD k 0 = l.getD j 0 := by
  obtain ⟨m, hm⟩ : ∃ m : ℤ, o.amplitude = 0 ∨ o.period = 0 ∨ k * dt - j * dt = m * o.period := by
    rcases ho with h | h | ⟨⟨m, h⟩, -⟩
    · exact ⟨0, .inl h⟩
    · exact ⟨0, .inr (.inl h)⟩
    · exact ⟨m, .inr (.inr h)⟩
  unfold Oscillation.values at h
  split_ifs at h
  · cases h; exact sinspace_repeats hj hk hm
  · cases h; exact linspace_repeats hj hk hm

theorem Oscillation.valuesCustom_repeat {o : Oscillation} {b : ℝ} {l : List ℝ}
    (ho : o.RepeatsAfter (k * dt - j * dt)) (hj : j < n) (hk : k < n) (h : o.valuesCustom b n dt = .ok l) :
    l.getD k 0 = l.getD j 0 := by
  obtain ⟨m, hm⟩ : ∃ m : ℤ, o.amplitude = 0 ∨ o.period = 0 ∨ (k * dt - j * dt = m * o.period ∧
      ∀ f, o.spacing = "custom" → o.custom = some f → ∀ x, f (x + 2 * Real.pi) = f x) := by
    rcases ho with h | h | ⟨⟨m, h⟩, hf⟩
    · exact ⟨0, .inl h⟩
    · exact ⟨0, .inr (.inl h)⟩
    · exact ⟨m, .inr (.inr ⟨h, hf⟩)⟩
  have hm' : o.amplitude = 0 ∨ o.period = 0 ∨ k * dt - j * dt = m * o.period := by tauto
  unfold Oscillation.valuesCustom at h
  split_ifs at h with h1 h2 h3
  · cases h; exact sinspace_repeats hj hk hm'
  · cases h; exact linspace_repeats hj hk hm'
  · cases hc : o.custom with
    | none => simp [hc] at h
    | some f =>
      simp only [hc, Except.ok.injEq] at h
      subst h
      refine customspace_repeats (m := m) hj hk ?_
      rcases hm with h | h | ⟨h, hf⟩
      · exact .inl h
      · exact .inr (.inl h)
      · exact .inr (.inr ⟨h, hf f h3 hc⟩)

theorem WingCrossSectionMovement.generate_repeat {m : WingCrossSectionMovement} {last : List V3} {vertical : Bool}
    {span sweep heave : ℝ} {r : List WingCrossSection} (ho : ∀ o ∈ m.oscillations, o.RepeatsAfter (k * dt - j * dt))
    (hj : j < n) (hk : k < n) (hlast : last.getD k 0 = last.getD j 0)
    (h : m.generate n dt last vertical span sweep heave = .ok r) : r[k]? = r[j]? := by
  obtain ⟨sw, pi, he, h1, h2, h3, hl, hs⟩ := WingCrossSectionMovement.generate_ok h
  obtain ⟨a, ha, ea⟩ := hs k hk
  obtain ⟨b, hb, eb⟩ := hs j hj
  rw [Oscillation.valuesCustom_repeat (ho _ (by simp [oscillations])) hj hk h1,
    Oscillation.valuesCustom_repeat (ho _ (by simp [oscillations])) hj hk h2,
    Oscillation.valuesCustom_repeat (ho _ (by simp [oscillations])) hj hk h3, hlast, eb, Except.ok.injEq] at ea
  rw [ha, hb, ea]

theorem sectionHistory_repeat {last : Option (List WingCrossSection)} {m : WingCrossSectionMovement}
    {r : List WingCrossSection} (ho : ∀ o ∈ m.oscillations, o.RepeatsAfter (k * dt - j * dt))
    (hj : j < n) (hk : k < n) (hlast : ∀ l, last = some l → l[k]? = l[j]?)
    (h : WingMovement.sectionHistory n dt last m = .ok r) : r[k]? = r[j]? := by
  unfold WingMovement.sectionHistory at h
  cases last with
  | none =>
    simp only at h
    split_ifs at h
    refine WingCrossSectionMovement.generate_repeat ho hj hk ?_ h
    simp [List.getD_eq_getElem?_getD, hj, hk]
  | some prev =>
    have hp : (prev.map (·.leadingEdge)).getD k 0 = (prev.map (·.leadingEdge)).getD j 0 := by
      rw [List.getD_eq_getElem?_getD, List.getD_eq_getElem?_getD, List.getElem?_map, List.getElem?_map, hlast prev rfl]
    cases prev with
    | nil => simp at h
    | cons a l =>
      simp only at h
      split_ifs at h
      · exact WingCrossSectionMovement.generate_repeat ho hj hk hp h
      · exact WingCrossSectionMovement.generate_repeat ho hj hk hp h

theorem sectionHistories_repeat (hj : j < n) (hk : k < n) : ∀ {last : Option (List WingCrossSection)}
    {ms : List WingCrossSectionMovement} {r : List (List WingCrossSection)},
    (∀ m ∈ ms, ∀ o ∈ m.oscillations, o.RepeatsAfter (k * dt - j * dt)) →
    (∀ l, last = some l → l[k]? = l[j]?) → WingMovement.sectionHistories n dt last ms = .ok r →
    ∀ l ∈ r, l[k]? = l[j]?
  | last, [], r, _, _, h => by
    simp only [WingMovement.sectionHistories, Except.ok.injEq] at h
    subst h; simp
  | last, m :: ms, r, ho, hlast, h => by
    unfold WingMovement.sectionHistories at h
    obtain ⟨a, h1, h⟩ := bind_ok.mp h
    obtain ⟨rest, h2, h⟩ := bind_ok.mp h
    rw [pure_ok] at h
    subst h
    have ha := sectionHistory_repeat (ho m (by simp)) hj hk hlast h1
    have hr := sectionHistories_repeat hj hk (fun m' hm' => ho m' (by simp [hm']))
      (fun l hl => by cases hl; exact ha) h2
    intro l hl
    rcases List.mem_cons.mp hl with rfl | hl
    · exact ha
    · exact hr l hl

theorem column_repeat {α : Type} {hs : List (List α)} (h : ∀ l ∈ hs, l[k]? = l[j]?) :
    hs.filterMap (·[k]?) = hs.filterMap (·[j]?) := by
  apply List.filterMap_congr
  exact h

theorem WingMovement.generate_repeat {m : WingMovement} {r : List Wing}
    (ho : ∀ o ∈ m.oscillations, o.RepeatsAfter (k * dt - j * dt)) (hj : j < n) (hk : k < n)
    (h : m.generate n dt = .ok r) : r[k]? = r[j]? := by
  obtain ⟨xs, ys, zs, hs, h1, h2, h3, h4, hl, hw⟩ := WingMovement.generate_ok h
  obtain ⟨a, ha, ea⟩ := hw k hk
  obtain ⟨b, hb, eb⟩ := hw j hj
  have hc := column_repeat (sectionHistories_repeat hj hk (fun s hs' o ho' => ho o (by
    simp only [oscillations, List.mem_append, List.mem_flatMap]
    exact .inr ⟨s, hs', ho'⟩)) (fun l hl => by cases hl) h4)
  rw [Oscillation.values_repeat (ho _ (by simp [oscillations])) hj hk h1,
    Oscillation.values_repeat (ho _ (by simp [oscillations])) hj hk h2,
    Oscillation.values_repeat (ho _ (by simp [oscillations])) hj hk h3, hc, eb, Except.ok.injEq] at ea
  rw [ha, hb, ea]

theorem AirplaneMovement.generate_repeat {m : AirplaneMovement} {r : List Airplane}
    (ho : ∀ o ∈ m.oscillations, o.RepeatsAfter (k * dt - j * dt)) (hj : j < n) (hk : k < n)
    (h : m.generate n dt = .ok r) : r[k]? = r[j]? := by
  obtain ⟨xs, ys, zs, ws, h1, h2, h3, h4, hl, hw⟩ := AirplaneMovement.generate_ok h
  obtain ⟨a, ha, ea⟩ := hw k hk
  obtain ⟨b, hb, eb⟩ := hw j hj
  have hc : ws.filterMap (·[k]?) = ws.filterMap (·[j]?) := by
    apply column_repeat
    intro l hl
    obtain ⟨wm, hwm, e⟩ := mapM_mem' h4 hl
    refine WingMovement.generate_repeat (fun o ho' => ho o ?_) hj hk e
    simp only [oscillations, List.mem_append, List.mem_flatMap]
    exact .inr ⟨wm, hwm, ho'⟩
  rw [Oscillation.values_repeat (ho _ (by simp [oscillations])) hj hk h1,
    Oscillation.values_repeat (ho _ (by simp [oscillations])) hj hk h2,
    Oscillation.values_repeat (ho _ (by simp [oscillations])) hj hk h3, hc, eb, Except.ok.injEq] at ea
  rw [ha, hb, ea]

theorem Oscillation.RepeatsAfter.mul {o : Oscillation} {T : ℝ} (h : o.RepeatsAfter T) (q : ℤ) :
    o.RepeatsAfter (q * T) := by
  rcases h with h | h | ⟨⟨m, h⟩, hf⟩
  · exact .inl h
  · exact .inr (.inl h)
  · exact .inr (.inr ⟨⟨q * m, by rw [h]; push_cast; ring⟩, hf⟩)

end Ptera
