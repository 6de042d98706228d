import Verif.Props.Animations
import Verif.Props.Output

/-!
# C53 and C107: the speed of saved animations
-/

namespace Ptera

open UnsteadySolver

variable {p : UnsteadyProblem} {s s' : UnsteadySolver} {pres sl : Bool}

/-- How many simulated seconds pass in a second of the animation: successive frames are `deltaTime` apart and `rate` of
them are shown in a second. -/
noncomputable def Animation.playsAt (A : Animation) (deltaTime : ℝ) : ℝ := A.rate * deltaTime

/-- The text says "Speed: n%". -/
def SaysPercent (text : List Char) (n : ℤ) : Prop := text = "Speed: ".toList ++ (toString n).toList ++ "%".toList

theorem animate_rate {t : Option String} {wake : Bool} {A : Animation} (h : animate s t wake = .ok A) :
    animationRate s.problem.deltaTime = .ok (A.rate, A.speed) := by
  unfold animate at h
  obtain ⟨⟨r, v⟩, h1, h⟩ := bind_ok.mp h
  obtain ⟨c, -, h⟩ := bind_ok.mp h
  split at h
  · cases h
  · obtain ⟨f, -, h⟩ := bind_ok.mp h
    cases h
    exact h1

/-- C53 of the animations themselves: the frame rate of an animation is at most 50, at most the rate of the time steps,
and positive if a step is at most a second long; its speed is positive and at most 1, and less than 1 only if there are
more than 50 steps a second. -/
theorem C53_animation (t : Option String) (wake : Bool) (A : Animation) (h : animate s t wake = .ok A)
    (hdt : 0 < s.problem.deltaTime) :
    A.rate ≤ 50 ∧ (A.rate : ℝ) ≤ 1 / s.problem.deltaTime ∧ (s.problem.deltaTime ≤ 1 → 0 < A.rate) ∧ 0 < A.speed ∧
      A.speed ≤ 1 ∧ (1 / s.problem.deltaTime ≤ 50 → A.speed = 1 ∧ 1 / s.problem.deltaTime < A.rate + 1) ∧
      (50 < 1 / s.problem.deltaTime → A.rate = 50 ∧ A.speed * (1 / s.problem.deltaTime) = 50) := by
  obtain ⟨r, v, h1, h2⟩ := C53_rate s.problem.deltaTime hdt
  have := animate_rate h
  rw [h1, Except.ok.injEq, Prod.mk.injEq] at this
  obtain ⟨rfl, rfl⟩ := this
  exact h2

/-- C107, as far as it holds: an animation says its speed in whole percent, `n%` with `n` at most 100. It plays at most
half a percent faster than it says, and slower by less than half a percent and the length of a step. It plays at the
speed it says, to within half a percent, exactly if there are more than 50 steps a second, or the part of a second that
is left over after its whole number of steps is at most 5 milliseconds. (Partial: see `C107_fails`.) -/
theorem C107_speed_partial (t : Option String) (wake : Bool) (A : Animation) (h : animate s t wake = .ok A)
    (hdt : 0 < s.problem.deltaTime) :
    ∃ n : ℤ, SaysPercent A.text n ∧ 0 ≤ n ∧ n ≤ 100 ∧
      100 * A.playsAt s.problem.deltaTime ≤ n + 1 / 2 ∧
      n - 1 / 2 - 100 * s.problem.deltaTime < 100 * A.playsAt s.problem.deltaTime ∧
      (|n - 100 * A.playsAt s.problem.deltaTime| ≤ 1 / 2 ↔
        50 < 1 / s.problem.deltaTime ∨ 1 - ⌊1 / s.problem.deltaTime⌋ * s.problem.deltaTime ≤ 0.005) := by
  have hr := animate_rate h
  obtain ⟨-, h2, -, h4, h5, h6, h7⟩ := C53_animation t wake A h hdt
  set dt := s.problem.deltaTime
  have near := pyRound_near (100 * A.speed)
  refine ⟨pyRound (100 * A.speed), rfl, pyRound_nonneg (by positivity), ?_, ?_⟩
  · have : (pyRound (100 * A.speed) : ℝ) < 101 := by
      have := (abs_le.mp near).2
      linarith
    have : pyRound (100 * A.speed) < 101 := by exact_mod_cast this
    omega
  · rcases le_or_gt (1 / dt) 50 with hle | hgt
    · obtain ⟨e, hlt⟩ := h6 hle
      have en : pyRound (100 * A.speed) = 100 := by
        rw [e]
        exact_mod_cast pyRound_int 100
      have er : A.rate = ⌊1 / dt⌋ := by
        refine (Int.floor_eq_iff.mpr ⟨h2, hlt⟩).symm
      have b1 : A.rate * dt ≤ 1 := by
        have := mul_le_mul_of_nonneg_right h2 hdt.le
        rwa [one_div, inv_mul_cancel₀ hdt.ne'] at this
      have b2 : 1 < A.rate * dt + dt := by
        have := mul_lt_mul_of_pos_right hlt hdt
        rw [one_div, inv_mul_cancel₀ hdt.ne'] at this
        linarith
      rw [en, ← er]
      unfold Animation.playsAt
      push_cast
      refine ⟨by linarith, by linarith, ?_⟩
      rw [abs_of_nonneg (by linarith), or_iff_right (not_lt.mpr hle)]
      constructor <;> intro h <;> norm_num at * <;> linarith
    · obtain ⟨e1, e2⟩ := h7 hgt
      have ep : A.playsAt dt = A.speed := by
        unfold Animation.playsAt
        rw [e1]
        field_simp at e2
        push_cast
        linarith
      rw [ep]
      have := abs_le.mp near
      refine ⟨by linarith [this.1], by linarith [this.2], ?_⟩
      exact ⟨fun _ => .inl hgt, fun _ => near⟩

/-- With at most 50 steps a second every animation says that it shows the true speed. -/
theorem says_full (t : Option String) (wake : Bool) (A : Animation) (h : animate s t wake = .ok A)
    (hdt : 0 < s.problem.deltaTime) (hle : 1 / s.problem.deltaTime ≤ 50) :
    SaysPercent A.text 100 ∧ A.rate = ⌊1 / s.problem.deltaTime⌋ := by
  obtain ⟨-, h2, -, -, -, h6, -⟩ := C53_animation t wake A h hdt
  obtain ⟨e, hlt⟩ := h6 hle
  refine ⟨?_, (Int.floor_eq_iff.mpr ⟨h2, hlt⟩).symm⟩
  have en : pyRound (100 * A.speed) = 100 := by
    rw [e]
    exact_mod_cast pyRound_int 100
  unfold SaysPercent Animation.text
  rw [en]

/-- C107 fails: with steps of more than half a second and less than a second, an animation of a finished run says that
it shows the true speed, but in a second of it only one step is shown. -/
theorem C107_fails (hp : p.Made) (hs : Reached p s) (h : s.run pres sl = .ok s') (hlow : 1 / 2 < p.deltaTime)
    (hhigh : p.deltaTime < 0.995) (wake : Bool) :
    ∃ A, animate s' none wake = .ok A ∧ SaysPercent A.text 100 ∧ A.playsAt p.deltaTime = p.deltaTime ∧
      1 / 2 < |100 - 100 * A.playsAt p.deltaTime| := by
  have hprob : s'.problem = p := ((hs.rerun h).good hp.regular).problem
  have hdt : 0 < p.deltaTime := by linarith
  obtain ⟨A, hA, -⟩ := C60_plain hp hs h hdt none wake (by simp)
  have b2 : 1 / p.deltaTime < 2 := by rw [div_lt_iff₀ hdt]; linarith
  have b1 : 1 ≤ 1 / p.deltaTime := by rw [le_div_iff₀ hdt]; norm_num at hhigh; linarith
  obtain ⟨h1, h2⟩ := says_full none wake A hA (by rw [hprob]; exact hdt) (by rw [hprob]; linarith)
  have er : A.rate = 1 := by
    rw [h2, hprob]
    exact Int.floor_eq_iff.mpr ⟨by push_cast; exact b1, by push_cast; linarith⟩
  have ep : A.playsAt p.deltaTime = p.deltaTime := by
    unfold Animation.playsAt
    rw [er]
    push_cast
    ring
  refine ⟨A, hA, h1, ep, ?_⟩
  rw [ep, abs_of_nonneg (by norm_num at hhigh; linarith)]
  norm_num at hhigh ⊢
  linarith

/-- C107 fails: with steps of more than a second the frame rate handed to the WebP library is zero, with the text saying
that the animation shows the true speed. -/
theorem C107_slow_fails (hp : p.Made) (hs : Reached p s) (h : s.run pres sl = .ok s') (hlow : 1 < p.deltaTime)
    (wake : Bool) :
    ∃ A, animate s' none wake = .ok A ∧ SaysPercent A.text 100 ∧ A.rate = 0 := by
  have hprob : s'.problem = p := ((hs.rerun h).good hp.regular).problem
  have hdt : 0 < p.deltaTime := by linarith
  obtain ⟨A, hA, -⟩ := C60_plain hp hs h hdt none wake (by simp)
  have b2 : 1 / p.deltaTime < 1 := by rw [div_lt_iff₀ hdt]; linarith
  obtain ⟨h1, h2⟩ := says_full none wake A hA (by rw [hprob]; exact hdt) (by rw [hprob]; linarith)
  refine ⟨A, hA, h1, ?_⟩
  rw [h2, hprob]
  exact Int.floor_eq_iff.mpr ⟨by push_cast; positivity, by push_cast; linarith⟩

/-- The hypotheses are met by heaving plates with any positive time step. -/
example (A density velocity dt : ℝ) (hdt : 0 < dt) (hv : 0 < velocity) (only pres sl wake : Bool) :
    ∃ (p : UnsteadyProblem) (s s' : UnsteadySolver) (V : Animation), p.Made ∧ Reached p s ∧ s.run pres sl = .ok s' ∧
      p.deltaTime = dt ∧ s'.problem.deltaTime = dt ∧ animate s' none wake = .ok V := by
  obtain ⟨p, hp, -⟩ := heaving_problem A 1 30 (by norm_num) dt density velocity 5 0 only
  obtain ⟨s, hs⟩ := hp.create (by norm_num)
  have hr : Reached p s := .fresh hs
  obtain ⟨s', h'⟩ := hp.run hdt.le hv.le (flies_ahead density velocity 5 (by norm_num)) hr pres sl
  obtain ⟨V, hV, -⟩ := C60_plain hp.made hr h' (by rw [hp.dt]; exact hdt) none wake (by simp)
  exact ⟨p, s, s', V, hp.made, hr, h', hp.dt, by rw [((hr.rerun h').good hp.made.regular).problem]; exact hp.dt, hV⟩

end Ptera
