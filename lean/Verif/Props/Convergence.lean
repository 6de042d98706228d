import Verif.Lemmas.UnsteadyConvergence
import Verif.Lemmas.Remesh

/-!
# C50: convergence studies return the first converged setting of the sweep

`Verif/Spec/Convergence.lean` says what a setting, the order of the settings, a converged setting and the reported
setting are. The theorems hold for all result functions: an iteration may also raise. The changes are relative, so the
steady theorems ask that the coefficients of the first airplane are not zero; `C50_zero_moment_masks` shows what happens
otherwise.
-/

namespace Ptera

open Convergence

theorem Bounds.passes_congr {b : Bounds} {percent : ℝ} {R R' : ℤ → ℤ → List (ℝ × ℝ)} {a c : ℤ} (hh : b.Has a c)
    (h : ∀ a' c', b.Has a' c' → ((a' = a ∧ c' = c) ∨ Bounds.Before a' c' a c) → R a' c' = R' a' c') :
    (b.RatioConverged percent R a c ↔ b.RatioConverged percent R' a c) ∧
      (b.ChordConverged percent R a c ↔ b.ChordConverged percent R' a c) ∧
      (b.Passes percent R a c ↔ b.Passes percent R' a c) ∧
      ∀ a' c', b.Reports percent R a c a' c' ↔ b.Reports percent R' a c a' c' := by
  have h0 := h a c hh (.inl ⟨rfl, rfl⟩)
  have h1 : b.RatioConverged percent R a c ↔ b.RatioConverged percent R' a c := by
    unfold Bounds.RatioConverged
    refine and_congr_right fun hlt => ?_
    rw [h0, h (a + 1) c (by unfold Bounds.Has at *; omega) (.inr (by unfold Bounds.Before; omega))]
  have h2 : b.ChordConverged percent R a c ↔ b.ChordConverged percent R' a c := by
    unfold Bounds.ChordConverged
    refine and_congr_right fun hlt => ?_
    rw [h0, h a (c - 1) (by unfold Bounds.Has at *; omega) (.inr (by unfold Bounds.Before; omega))]
  refine ⟨h1, h2, ?_, fun a' c' => ?_⟩
  · unfold Bounds.Passes; rw [h1, h2]
  · unfold Bounds.Reports; rw [h1, h2]

/-- C50. Whatever the iterations compute, the steady study returns `[None, None]` exactly when no setting passes.
Otherwise the first setting that passes, in the order of the loops, determines the result, which lies within the given
ranges: in each dimension the next coarser value, whose results are within the criterion, unless the dimension has a
single value or the aspect ratio is 1 and not converged. -/
theorem C50_steady (b : Bounds) (percent : ℝ) (airplanes : ℕ) (iterate : ℤ → ℤ → Except Err (List (ℝ × ℝ)))
    (results : ℤ → ℤ → List (ℝ × ℝ))
    (hr : ∀ a c r, b.Has a c → iterate a c = .ok r → results a c = r ∧ r.length = airplanes ∧
      ∃ first, r.head? = some first ∧ first.1 ≠ 0 ∧ first.2 ≠ 0)
    {out : Option (ℤ × ℤ)}
    (h : steadySweep (rangeDown (b.a₀, b.a₁)) (rangeUp (b.c₀, b.c₁)) percent airplanes iterate = .ok out) :
    (out = none ↔ ∀ a c, b.Has a c → ¬b.Passes percent results a c) ∧
    ∀ a' c', out = some (a', c') → b.Has a' c' ∧ ∃ a c, b.Has a c ∧ b.Passes percent results a c ∧
      (∀ a'' c'', b.Has a'' c'' → Bounds.Before a'' c'' a c → ¬b.Passes percent results a'' c'') ∧
      b.Reports percent results a c a' c' := by
  classical
  -- settings that are not evaluated get harmless results
  have hne : ∀ a c r, b.Has a c → iterate a c = .ok r → airplanes ≠ 0 := by
    rintro a c r hb hi rfl
    obtain ⟨_, hl, p, hp, _⟩ := hr a c r hb hi
    rw [List.length_eq_zero_iff.1 hl] at hp
    simp at hp
  set n := if airplanes = 0 then 1 else airplanes with hn
  set R : ℤ → ℤ → List (ℝ × ℝ) := fun a c => match iterate a c with
    | .ok r => r
    | .error _ => List.replicate n (1, 1) with hR
  have hRok : ∀ a c r, iterate a c = .ok r → R a c = r := by
    intro a c r hi; simp only [hR, hi]
  have same : ∀ a c, b.Has a c → (∃ r, iterate a c = .ok r) → results a c = R a c := by
    rintro a c hb ⟨r, hi⟩
    rw [(hr a c r hb hi).1, hRok a c r hi]
  have good : ∀ x y, b.Has x y → (R x y).length = n ∧ ∃ p, (R x y).head? = some p ∧ p.1 ≠ 0 ∧ p.2 ≠ 0 := by
    intro x y hxy
    cases hi : iterate x y with
    | ok r =>
      rw [hRok x y r hi]
      obtain ⟨_, h2, h3⟩ := hr x y r hxy hi
      refine ⟨?_, h3⟩
      rw [h2, hn, if_neg (hne x y r hxy hi)]
    | error e =>
      have : R x y = List.replicate n (1, 1) := by simp only [hR, hi]
      rw [this]
      refine ⟨by simp, (1, 1), ?_, by norm_num, by norm_num⟩
      have : n ≠ 0 := by rw [hn]; split_ifs <;> omega
      rw [List.head?_replicate, if_neg this]
  have core := steadySweep_spec b percent n airplanes iterate R (fun x y r _ hi => hRok x y r hi) good h
  rcases core with ⟨rfl, h2⟩ | ⟨x, y, o, rfl, hxy, hi, hp, hrep, hfirst⟩
  · refine ⟨⟨fun _ a c hac => ?_, fun _ => rfl⟩, by simp⟩
    have := (h2 a c hac).2
    rwa [(Bounds.passes_congr hac fun a' c' hac' _ => same a' c' hac' ⟨_, (h2 a' c' hac').1⟩).2.2.1]
  · have ev : ∀ a' c', b.Has a' c' → ((a' = x ∧ c' = y) ∨ Bounds.Before a' c' x y) → results a' c' = R a' c' := by
      rintro a' c' hac' (⟨rfl, rfl⟩ | hb)
      · exact same _ _ hac' ⟨_, hi⟩
      · exact same _ _ hac' ⟨_, (hfirst a' c' hac' hb).1⟩
    obtain ⟨_, _, g3, g4⟩ := Bounds.passes_congr (percent := percent) hxy ev
    refine ⟨⟨fun e => by simp at e, fun hall => absurd (g3.2 hp) (hall x y hxy)⟩, ?_⟩
    rintro a' c' ho
    obtain rfl := Option.some.inj ho
    refine ⟨?_, x, y, hxy, g3.2 hp, ?_, (g4 _ _).2 hrep⟩
    · unfold Bounds.Has Bounds.Reports Bounds.RatioConverged Bounds.ChordConverged at *
      simp only at hrep
      omega
    · intro a'' c'' hac hb
      have hbb := (hfirst a'' c'' hac hb).2
      rwa [(Bounds.passes_congr hac fun a' c' hac' hb' => ev a' c' hac' (by
        right; unfold Bounds.Before at *; omega)).2.2.1]

/-- The hypotheses are met: coefficients that converge with the number of chordwise panels. Here the criterion is 5%;
the first setting that passes is `(3, 5)`, and `(4, 4)` is reported. -/
example : ∃ iterate : ℤ → ℤ → Except Err (List (ℝ × ℝ)),
    (∀ a c r, iterate a c = .ok r → r.length = 1 ∧ ∃ first, r.head? = some first ∧ first.1 ≠ 0 ∧ first.2 ≠ 0) ∧
    steadySweep (rangeDown (4, 3)) (rangeUp (3, 5)) 5 1 iterate = .ok (some (4, 4)) := by
  refine ⟨fun a c => if c = 3 then .ok [(1, 1)] else if c = 4 then .ok [(2, 1)] else .ok [(2.02, 1)], ?_, ?_⟩
  · intro a c r h
    dsimp only at h
    split_ifs at h <;> obtain rfl := (Except.ok.inj h).symm <;> simp <;> norm_num
  · have e1 : rangeDown (4, 3) = [4, 3] := by simp [rangeDown, List.range_succ]
    have e2 : rangeUp (3, 5) = [3, 4, 5] := by simp [rangeUp, List.range_succ]
    have e3 : steadySettings [4, 3] [3, 4, 5] = [(0, 0), (0, 1), (0, 2), (1, 0), (1, 1), (1, 2)] := by
      simp [steadySettings, List.range_succ]
    rw [e1, e2, steadySweep, e3]
    simp [sweep, steadyVerdict, steadyDecision, unlessFirst, steadyChange, Change.maxOf, Change.max2, Change.between,
      Change.gt, Change.below, bind, Except.bind, pure, Except.pure, Function.update]
    norm_num

/-- C50. The study ends when no iteration raises. -/
theorem C50_steady_ends (b : Bounds) (percent : ℝ) (airplanes : ℕ) (iterate : ℤ → ℤ → Except Err (List (ℝ × ℝ)))
    (hr : ∀ a c, b.Has a c → ∃ r, iterate a c = .ok r ∧ r.length = airplanes ∧
      ∃ first, r.head? = some first ∧ first.1 ≠ 0 ∧ first.2 ≠ 0) :
    ∃ out, steadySweep (rangeDown (b.a₀, b.a₁)) (rangeUp (b.c₀, b.c₁)) percent airplanes iterate = .ok out := by
  refine steadySweep_total b percent airplanes airplanes iterate
    (fun a c => match iterate a c with | .ok r => r | .error _ => []) ?_ ?_
  · intro x y hxy
    obtain ⟨r, h1, _⟩ := hr x y hxy
    simp only [h1]
  · intro x y hxy
    obtain ⟨r, h1, h2, h3⟩ := hr x y hxy
    simp only [h1]
    exact ⟨h2, h3⟩

/-- C50 for the function itself: the iterations build the meshes and run the chosen solver. -/
theorem C50_steady_analysis (renew : Airfoil → Except Err Airfoil) (ref : SteadyProblem) (solverType : String)
    (b : Bounds) (percent : ℝ) (results : ℤ → ℤ → List (ℝ × ℝ))
    (hr : ∀ a c r, b.Has a c → steadyIteration renew ref solverType a c = .ok r → results a c = r ∧
      ∃ first, r.head? = some first ∧ first.1 ≠ 0 ∧ first.2 ≠ 0)
    {out : Option (ℤ × ℤ)}
    (h : analyzeSteadyConvergence renew ref solverType (b.a₀, b.a₁) (b.c₀, b.c₁) percent = .ok out) :
    (out = none ↔ ∀ a c, b.Has a c → ¬b.Passes percent results a c) ∧
    ∀ a' c', out = some (a', c') → b.Has a' c' ∧ ∃ a c, b.Has a c ∧ b.Passes percent results a c ∧
      (∀ a'' c'', b.Has a'' c'' → Bounds.Before a'' c'' a c → ¬b.Passes percent results a'' c'') ∧
      b.Reports percent results a c a' c' :=
  C50_steady b percent ref.airplanes.length _ results
    (fun a c r hb hi => ⟨(hr a c r hb hi).1, steadyIteration_length hi, (hr a c r hb hi).2⟩) h

/-- The defect the hypothesis about the first airplane excludes: if its moment coefficients stay zero, the changes of
the moment coefficients of all airplanes are ignored. Here those of the second airplane change by 900%, and the study
reports convergence. -/
theorem C50_zero_moment_masks : ∃ iterate : ℤ → ℤ → Except Err (List (ℝ × ℝ)),
    steadySweep (rangeDown (1, 1)) (rangeUp (1, 2)) 5 2 iterate = .ok (some (1, 1)) ∧
    iterate 1 1 = .ok [(1, 0), (1, 1)] ∧ iterate 1 2 = .ok [(1, 0), (1, 10)] ∧
    ¬Close 5 [(1, 0), (1, 10)] [(1, 0), (1, 1)] := by
  refine ⟨fun _ c => if c = 1 then .ok [(1, 0), (1, 1)] else .ok [(1, 0), (1, 10)], ?_, by simp, by simp, ?_⟩
  · have e1 : rangeDown (1, 1) = [1] := by simp [rangeDown]
    have e2 : rangeUp (1, 2) = [1, 2] := by simp [rangeUp, List.range_succ]
    have e3 : steadySettings [1] [1, 2] = [(0, 0), (0, 1)] := by simp [steadySettings, List.range_succ]
    rw [e1, e2, steadySweep, e3]
    simp [sweep, steadyVerdict, steadyDecision, unlessFirst, steadyChange, Change.maxOf, Change.max2, Change.between,
      Change.gt, Change.below, bind, Except.bind, pure, Except.pure]
  · simp only [Close, List.forall₂_cons, Near]
    norm_num

/-! ## The unsteady study -/

theorem UnsteadyBounds.passes_congr {b : UnsteadyBounds} {percent : ℝ} {R R' : Point → List (List ℝ)} {p : Point}
    (hh : b.Has p) (h : ∀ q, b.Has q → (q = p ∨ UnsteadyBounds.Before q p) → R q = R' q) :
    (b.Passes percent R p ↔ b.Passes percent R' p) ∧ ∀ q, b.Reports percent R p q ↔ b.Reports percent R' p q := by
  have h0 := h p hh (.inl rfl)
  obtain ⟨g1, g2, g3, g4, g5⟩ := hh
  have h1 : b.WakeConverged percent R p ↔ b.WakeConverged percent R' p := by
    unfold UnsteadyBounds.WakeConverged
    refine and_congr_right fun hp => and_congr_right fun hq => ?_
    rw [h0, h { p with prescribed := true } ⟨fun _ => hp, by simp, g3, g4, g5⟩ (.inr (.inl ⟨rfl, hq⟩))]
  have h2 : b.LengthConverged percent R p ↔ b.LengthConverged percent R' p := by
    unfold UnsteadyBounds.LengthConverged
    refine and_congr_right fun hp => ?_
    rw [h0, h { p with length := p.length - 1 } ⟨g1, g2, by simp only; omega, by simp only; omega, g5⟩
      (.inr (.inr ⟨rfl, .inl (by simp only; omega)⟩))]
  have h3 : b.RatioConverged percent R p ↔ b.RatioConverged percent R' p := by
    unfold UnsteadyBounds.RatioConverged
    refine and_congr_right fun hp => ?_
    rw [h0, h { p with ratio := p.ratio + 1 } ⟨g1, g2, g3, g4, by unfold Bounds.Has at *; simp only; omega⟩
      (.inr (.inr ⟨rfl, .inr ⟨rfl, .inl (by simp only; omega)⟩⟩))]
  have h4 : b.ChordConverged percent R p ↔ b.ChordConverged percent R' p := by
    unfold UnsteadyBounds.ChordConverged
    refine and_congr_right fun hp => ?_
    rw [h0, h { p with chord := p.chord - 1 } ⟨g1, g2, g3, g4, by unfold Bounds.Has at *; simp only; omega⟩
      (.inr (.inr ⟨rfl, .inr ⟨rfl, .inr ⟨rfl, by simp only; omega⟩⟩⟩))]
  refine ⟨?_, fun q => ?_⟩
  · unfold UnsteadyBounds.Passes; rw [h1, h2, h3, h4]
  · unfold UnsteadyBounds.Reports; rw [h1, h2, h3, h4]

theorem UnsteadyBounds.before_trans {p q r : Point} (h1 : UnsteadyBounds.Before p q)
    (h2 : UnsteadyBounds.Before q r) : UnsteadyBounds.Before p r := by
  unfold UnsteadyBounds.Before Bounds.Before at *
  rcases h1 with ⟨a1, a2⟩ | ⟨a1, a2⟩ <;> rcases h2 with ⟨b1, b2⟩ | ⟨b1, b2⟩
  · rw [a2] at b1; simp at b1
  · exact .inl ⟨a1, by rw [← b1, a2]⟩
  · exact .inl ⟨by rw [a1, b1], b2⟩
  · exact .inr ⟨a1.trans b1, by omega⟩

/-- C50. Whatever the iterations compute, the unsteady study returns four times `None` exactly when no setting passes.
Otherwise the first setting that passes determines the result, which lies within the given ranges. Prescribed wakes come
first, so every setting with a free wake is tried only after all the settings with a prescribed wake failed. -/
theorem C50_unsteady (b : UnsteadyBounds) (percent : ℝ) {airplanes coefficients : ℕ} (ha : 0 < airplanes)
    (hc : 0 < coefficients) (iterate : Bool → ℤ → ℤ → ℤ → Except Err (List (List ℝ)))
    (results : Point → List (List ℝ))
    (hr : ∀ p r, b.Has p → iterate p.prescribed p.length p.ratio p.chord = .ok r → results p = r ∧
      r.length = airplanes ∧ ∀ l ∈ r, l.length = coefficients)
    {out : Option (Bool × ℤ × ℤ × ℤ)}
    (h : unsteadySweep ⟨wakeList b.prescribed b.free, rangeUp (b.l₀, b.l₁), rangeDown (b.a₀, b.a₁),
      rangeUp (b.c₀, b.c₁)⟩ percent airplanes coefficients iterate = .ok out) :
    (out = none ↔ ∀ p, b.Has p → ¬b.Passes percent results p) ∧
    ∀ w l a c, out = some (w, l, a, c) → b.Has ⟨w, l, a, c⟩ ∧ ∃ p, b.Has p ∧ b.Passes percent results p ∧
      (∀ q, b.Has q → UnsteadyBounds.Before q p → (∃ r, iterate q.prescribed q.length q.ratio q.chord = .ok r) ∧
        ¬b.Passes percent results q) ∧
      b.Reports percent results p ⟨w, l, a, c⟩ := by
  set R : Point → List (List ℝ) := fun p => match iterate p.prescribed p.length p.ratio p.chord with
    | .ok r => r
    | .error _ => List.replicate airplanes (List.replicate coefficients 1) with hR
  have hRok : ∀ (p : Point) r, iterate p.prescribed p.length p.ratio p.chord = .ok r → R p = r := by
    intro p r hi; simp only [hR, hi]
  have same : ∀ p : Point, b.Has p → (∃ r, iterate p.prescribed p.length p.ratio p.chord = .ok r) →
      results p = R p := by
    rintro p hb ⟨r, hi⟩
    rw [(hr p r hb hi).1, hRok p r hi]
  have good : ∀ p, b.Has p → Good airplanes coefficients (R p) := by
    intro p hp
    cases hi : iterate p.prescribed p.length p.ratio p.chord with
    | ok r => rw [hRok p r hi]; exact (hr p r hp hi).2
    | error e =>
      have : R p = List.replicate airplanes (List.replicate coefficients 1) := by simp only [hR, hi]
      rw [this]
      refine ⟨by simp, fun l hl => ?_⟩
      rw [List.eq_of_mem_replicate hl]; simp
  have core := unsteadySweep_spec b percent ha hc iterate R (fun p r _ hi => hRok p r hi) good h
  rcases core with ⟨rfl, h2⟩ | ⟨p, o, rfl, hp, hi, hpass, hrep, hfirst⟩
  · refine ⟨⟨fun _ q hq => ?_, fun _ => rfl⟩, by simp⟩
    have := (h2 q hq).2
    rwa [(UnsteadyBounds.passes_congr hq fun q' hq' _ => same q' hq' ⟨_, (h2 q' hq').1⟩).1]
  · have ev : ∀ q, b.Has q → (q = p ∨ UnsteadyBounds.Before q p) → results q = R q := by
      rintro q hq (rfl | hb)
      · exact same _ hq ⟨_, hi⟩
      · exact same _ hq ⟨_, (hfirst q hq hb).1⟩
    obtain ⟨g3, g4⟩ := UnsteadyBounds.passes_congr (percent := percent) hp ev
    refine ⟨⟨fun e => by simp at e, fun hall => absurd (g3.2 hpass) (hall p hp)⟩, ?_⟩
    rintro w l a c ho
    obtain rfl := Option.some.inj ho
    refine ⟨?_, p, hp, g3.2 hpass, ?_, (g4 _).2 hrep⟩
    · obtain ⟨k1, k2, k3, k4⟩ := hrep
      obtain ⟨m1, m2, m3, m4, m5⟩ := hp
      unfold UnsteadyBounds.LengthConverged UnsteadyBounds.RatioConverged UnsteadyBounds.ChordConverged at *
      unfold Bounds.Has at m5
      simp only at k1 k2 k3 k4
      refine ⟨?_, ?_, ?_, ?_, ?_⟩
      · rcases k1 with ⟨k, e⟩ | ⟨_, e⟩
        · intro _; exact k.1
        · rw [e]; exact m1
      · rcases k1 with ⟨k, e⟩ | ⟨_, e⟩
        · rw [e]; simp
        · rw [e]; exact m2
      · simp only; omega
      · simp only; omega
      · simp only [Bounds.Has]; omega
    · intro q hq hb
      have hbb := (hfirst q hq hb).2
      refine ⟨⟨_, (hfirst q hq hb).1⟩, ?_⟩
      rwa [(UnsteadyBounds.passes_congr hq fun q' hq' hb' => ev q' hq' (.inr (by
        rcases hb' with rfl | hb'
        · exact hb
        · exact UnsteadyBounds.before_trans hb' hb))).1]

/-- The hypotheses are met: both wakes and two lengths, with a free wake that changes the results by more than 5%. The
first setting that passes is the free wake of length 3, and the free wake of length 2 is reported. -/
example : ∃ iterate : Bool → ℤ → ℤ → ℤ → Except Err (List (List ℝ)),
    (∀ w l a c r, iterate w l a c = .ok r → r.length = 1 ∧ ∀ x ∈ r, x.length = 2) ∧
    unsteadySweep ⟨wakeList true true, rangeUp (2, 3), rangeDown (1, 1), rangeUp (4, 4)⟩ 5 1 2 iterate
      = .ok (some (false, 2, 1, 4)) := by
  refine ⟨fun w l a c => if w then .ok [[1, 2]] else .ok [[1, 3]], ?_, ?_⟩
  · intro w l a c r h
    dsimp only at h
    split_ifs at h <;> obtain rfl := (Except.ok.inj h).symm <;> simp
  · have e1 : rangeDown (1, 1) = [1] := by simp [rangeDown]
    have e2 : rangeUp (2, 3) = [2, 3] := by simp [rangeUp, List.range_succ]
    have e4 : rangeUp (4, 4) = [4] := by simp [rangeUp]
    have e3 : unsteadySettings ⟨[true, false], [2, 3], [1], [4]⟩ =
        [⟨0, 0, 0, 0⟩, ⟨0, 1, 0, 0⟩, ⟨1, 0, 0, 0⟩, ⟨1, 1, 0, 0⟩] := by
      simp [unsteadySettings, List.range_succ]
    have e5 : wakeList true true = [true, false] := rfl
    rw [e1, e2, e4, e5, unsteadySweep, e3]
    simp [sweep, unsteadyVerdict, unsteadyDecision, unlessFirst, unsteadyChange, Change.npMaxOf, Change.npMax2,
      Change.between, Change.gt, Change.below, bind, Except.bind, pure, Except.pure, Function.update]
    norm_num

/-- C50. The unsteady study ends when no iteration raises. -/
theorem C50_unsteady_ends (b : UnsteadyBounds) (percent : ℝ) {airplanes coefficients : ℕ} (ha : 0 < airplanes)
    (hc : 0 < coefficients) (iterate : Bool → ℤ → ℤ → ℤ → Except Err (List (List ℝ)))
    (hr : ∀ p : Point, b.Has p → ∃ r, iterate p.prescribed p.length p.ratio p.chord = .ok r ∧
      r.length = airplanes ∧ ∀ l ∈ r, l.length = coefficients) :
    ∃ out, unsteadySweep ⟨wakeList b.prescribed b.free, rangeUp (b.l₀, b.l₁), rangeDown (b.a₀, b.a₁),
      rangeUp (b.c₀, b.c₁)⟩ percent airplanes coefficients iterate = .ok out := by
  refine unsteadySweep_total b percent ha hc iterate
    (fun p => match iterate p.prescribed p.length p.ratio p.chord with | .ok r => r | .error _ => []) ?_ ?_ _ _
  · intro p hp
    obtain ⟨r, h1, _⟩ := hr p hp
    simp only [h1]
  · intro p hp
    obtain ⟨r, h1, h2⟩ := hr p hp
    simp only [h1]
    exact h2

/-- C50 for the function itself. The wake lengths are counted in chords if nothing moves and in cycles otherwise. -/
theorem C50_unsteady_analysis (renew : Airfoil → Except Err Airfoil) (ref : Movement) (b : UnsteadyBounds)
    (cycles chords : ℤ × ℤ) (mask : List Bool) (percent period : ℝ) (hper : ref.maxPeriod = .ok period)
    (hlen : (b.l₀, b.l₁) = open Classical in if period = 0 then chords else cycles)
    (ha : ref.airplaneMovements ≠ []) (hm : true ∈ mask) (results : Point → List (List ℝ))
    (hr : ∀ p r, b.Has p → (open Classical in unsteadyIteration renew ref (decide (period = 0)) mask p.prescribed
      p.length p.ratio p.chord) = .ok r → results p = r)
    {out : Option (Bool × ℤ × ℤ × ℤ)}
    (h : analyzeUnsteadyConvergence renew ref b.prescribed b.free cycles chords (b.a₀, b.a₁) (b.c₀, b.c₁) mask percent
      = .ok out) :
    (out = none ↔ ∀ p, b.Has p → ¬b.Passes percent results p) ∧
    ∀ w l a c, out = some (w, l, a, c) → b.Has ⟨w, l, a, c⟩ ∧ ∃ p, b.Has p ∧ b.Passes percent results p ∧
      (∀ q, b.Has q → UnsteadyBounds.Before q p → (open Classical in ∃ r, unsteadyIteration renew ref
        (decide (period = 0)) mask q.prescribed q.length q.ratio q.chord = .ok r) ∧ ¬b.Passes percent results q) ∧
      b.Reports percent results p ⟨w, l, a, c⟩ := by
  classical
  refine C50_unsteady b percent (airplanes := ref.airplaneMovements.length) (coefficients := mask.count true)
    (List.length_pos_iff.2 ha) (List.count_pos_iff.2 hm) _ results (fun p r hb hi => ⟨hr p r hb hi, ?_⟩) ?_
  · exact unsteadyIteration_shape hi
  · unfold analyzeUnsteadyConvergence at h
    rw [hper] at h
    simp only [bind, Except.bind, decide_eq_true_eq] at h
    rw [← h, hlen]

/-- A coefficient that is zero at all settings, such as the side force of a symmetric airplane in symmetric flight,
keeps the unsteady study from converging, although it does not change at all. -/
theorem C50_unsteady_zero_coefficient (b : UnsteadyBounds) (percent : ℝ) {airplanes coefficients : ℕ}
    (ha : 0 < airplanes) (hc : 0 < coefficients) (iterate : Bool → ℤ → ℤ → ℤ → Except Err (List (List ℝ)))
    (results : Point → List (List ℝ))
    (hr : ∀ p r, b.Has p → iterate p.prescribed p.length p.ratio p.chord = .ok r → results p = r ∧
      r.length = airplanes ∧ ∀ l ∈ r, l.length = coefficients)
    {out : Option (Bool × ℤ × ℤ × ℤ)}
    (h : unsteadySweep ⟨wakeList b.prescribed b.free, rangeUp (b.l₀, b.l₁), rangeDown (b.a₀, b.a₁),
      rangeUp (b.c₀, b.c₁)⟩ percent airplanes coefficients iterate = .ok out)
    (hmany : b.l₀ ≠ b.l₁ ∨ b.c₀ ≠ b.c₁) {i j : ℕ}
    (hzero : ∀ p, b.Has p → ((results p)[i]?).bind (·[j]?) = some 0) : out = none := by
  have no : ∀ p q, b.Has q → ¬AllClose percent (results p) (results q) := by
    intro p q hq hcl
    have hz := hzero q hq
    obtain ⟨l, hl, hlj⟩ := Option.bind_eq_some_iff.1 hz
    obtain ⟨hi, rfl⟩ := List.getElem?_eq_some_iff.1 hl
    obtain ⟨hj, hj0⟩ := List.getElem?_eq_some_iff.1 hlj
    have hlen := hcl.length_eq
    have h1 := (List.forall₂_iff_get.1 hcl).2 i (by omega) hi
    have hlen2 := h1.length_eq
    have h2 := (List.forall₂_iff_get.1 h1).2 j (by simp only [List.get_eq_getElem] at hlen2 ⊢; omega) hj
    simp only [List.get_eq_getElem] at h2
    rw [hj0] at h2
    simp only [sub_zero, abs_zero, mul_zero] at h2
    exact absurd h2 (not_lt.2 (by positivity))
  rw [(C50_unsteady b percent ha hc iterate results hr h).1]
  rintro p ⟨g1, g2, g3, g4, g5⟩ ⟨_, p2, _, p4⟩
  rcases hmany with hm | hm
  · obtain ⟨h1, h2⟩ := p2.resolve_left hm
    exact no p { p with length := p.length - 1 } ⟨g1, g2, by simp only; omega, by simp only; omega, g5⟩ h2
  · obtain ⟨h1, h2⟩ := p4.resolve_left hm
    refine no p { p with chord := p.chord - 1 } ⟨g1, g2, g3, g4, ?_⟩ h2
    unfold Bounds.Has at *
    simp only; omega

end Ptera
