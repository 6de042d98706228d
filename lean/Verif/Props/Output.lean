import Verif.Lemmas.OutputRuns
import Verif.Spec.Output
import Verif.Props.SteadyLoads
import Verif.Props.UnsteadyExample

/-!
# C51-C53 and C57-C60: what is drawn, plotted and printed
-/

namespace Ptera

open UnsteadySolver

/-! ## C52: surfaces -/

/-- C52: the surfaces of airplanes are one quadrilateral per panel, in order, each with its own panel's corners. -/
theorem C52_panels (airplanes : List Airplane) :
    (panelSurfaces airplanes).Shows ((allPanels airplanes).map Panel.quad) := by
  rw [panelSurfaces_eq]
  have := (fold_panels (allPanels airplanes) ({}, 0) [] PolyData.Shows.empty rfl).1
  simpa using this

theorem panelRefs_panels (airplanes : List Airplane) :
    (panelRefs airplanes).map (panelAt airplanes) = (allPanels airplanes).map some := by
  have key : ∀ {α β γ : Type} (l : List α) (f : α × ℕ → List β) (g : α → List γ) (u : β → Option γ),
      (∀ (i : ℕ) x, l[i]? = some x → (f (x, i)).map u = (g x).map some) →
      (l.zipIdx.flatMap f).map u = (l.flatMap g).map some := by
    intro α β γ l f g u h
    have : ∀ (l' : List α) (k : ℕ), (∀ (i : ℕ) x, l'[i]? = some x → (f (x, k + i)).map u = (g x).map some) →
        ((l'.zipIdx k).flatMap f).map u = (l'.flatMap g).map some := by
      intro l'
      induction l' with
      | nil => intro k _; rfl
      | cons a l' ih =>
        intro k hk
        rw [List.zipIdx_cons, List.flatMap_cons, List.flatMap_cons, List.map_append, List.map_append,
          ih (k + 1) (fun i x hx => by rw [show k + 1 + i = k + (i + 1) by omega]; exact hk (i + 1) x (by simpa using hx))]
        have := hk 0 a rfl
        rw [Nat.add_zero] at this
        rw [this]
    exact this l 0 (by simpa using h)
  unfold panelRefs allPanels airplaneRefs
  apply key
  intro i a ha
  apply key
  intro j w hw
  rw [← List.flatMap_id]
  apply key
  intro k row hrow
  rw [List.map_map]
  apply List.ext_getElem?
  intro m
  by_cases hm : m < row.length
  · simp [panelAt, wingAt, ha, hw, hrow, hm]
  · simp [hm]

/-- C52: the scalars are one per panel, in the order of the surfaces: the wanted coefficient of that panel (nothing if
it was not computed). -/
theorem C52_scalars (airplanes : List Airplane) (heap : PanelHeap) (scalarType : String)
    (coefficient : PanelLoads → ℝ)
    (ht : (scalarType, coefficient) = ("induced drag", fun l => l.coefficients.inducedDrag) ∨
      (scalarType, coefficient) = ("side force", fun l => l.coefficients.sideForce) ∨
      (scalarType, coefficient) = ("lift", fun l => l.coefficients.lift)) :
    (getScalars airplanes heap scalarType).length = (allPanels airplanes).length ∧
    ∀ (k : ℕ) p, (allPanels airplanes)[k]? = some p → ∃ r, panelAt airplanes r = some p ∧
      (panelRefs airplanes)[k]? = some r ∧
      (getScalars airplanes heap scalarType)[k]? = some ((heap r).loads.map coefficient) := by
  have hs : ∀ s : PanelState, panelScalar scalarType s = [s.loads.map coefficient] := by
    intro s
    rcases ht with ht | ht | ht <;> obtain ⟨rfl, rfl⟩ := Prod.mk.inj ht <;> simp [panelScalar]
  have hg : getScalars airplanes heap scalarType
      = (panelRefs airplanes).map fun r => (heap r).loads.map coefficient := by
    rw [getScalars_eq]
    simp only [hs]
    rw [← List.map_eq_flatMap]
  have hp := panelRefs_panels airplanes
  have hl := congrArg List.length hp
  simp only [List.length_map] at hl
  refine ⟨by rw [hg, List.length_map, hl], ?_⟩
  intro k p hk
  have hk' : ((allPanels airplanes).map some)[k]? = some (some p) := by simp [hk]
  rw [← hp, List.getElem?_map, Option.map_eq_some_iff] at hk'
  obtain ⟨r, h1, h2⟩ := hk'
  exact ⟨r, h2, h1, by rw [hg, List.getElem?_map, h1]; rfl⟩

/-- C52: the wake drawn for a step of a finished run is one quadrilateral per wake ring of that step, in the order of
the wake's places, each with the corners recorded for that ring. -/
theorem C52_wake {p : UnsteadyProblem} {s s' : UnsteadySolver} {pres sl : Bool} (hp : p.Made) (hs : Reached p s)
    (h : s.run pres sl = .ok s') (k : ℕ) (hk : k < p.numSteps) :
    ∃ (D : PolyData) (rings : List WakeSlot), wakeSurfaces s'.wakeCounts s'.wakeArrays k = .ok D ∧
      D.Shows (rings.map WakeSlot.quad) ∧ rings.length = (wakePlaces p k).length ∧
      ∀ (i : ℕ) place, (wakePlaces p k)[i]? = some place → rings[i]? = wakeRecord s' k place := by
  obtain ⟨⟨l, h1, h2⟩, h3, h4⟩ := C40_arrays hp hs h k hk
  have hc := run_counts hp hs h hk
  have hlen : k * totalSpanwise (p.airplanesAt k) = l.length := by rw [h2, h3]; rfl
  obtain ⟨D, hD, hshow⟩ := wakeSurfaces_fold l l.length le_rfl
  have hprob : s'.problem = p := ((hs.rerun h).good hp.regular).problem
  refine ⟨D, l, ?_, by simpa using hshow, h2, ?_⟩
  · unfold wakeSurfaces
    rw [hc, h1, hlen]
    simp only [Option.elim, bind, Except.bind, pure, Except.pure, hD]
  · intro i place hi
    unfold wakeRecord
    rw [h1, hprob, Option.bind_some]
    congr 1
    obtain ⟨hlt, hget⟩ := List.getElem?_eq_some_iff.mp hi
    rw [← hget, h4.idxOf_getElem]

/-! ## C53: frame rate -/

/-- C53: the frame rate is at most 50 and at most the true rate `1 / delta_time`, it is positive for time steps of at
most one second, and the speed is positive, at most 1, and 1 unless the true rate is above 50; then it is the ratio of
50 to the true rate. -/
theorem C53_rate (dt : ℝ) (hdt : 0 < dt) : ∃ (rate : ℤ) (speed : ℝ), animationRate dt = .ok (rate, speed) ∧
    rate ≤ 50 ∧ (rate : ℝ) ≤ 1 / dt ∧ (dt ≤ 1 → 0 < rate) ∧ 0 < speed ∧ speed ≤ 1 ∧
    (1 / dt ≤ 50 → speed = 1 ∧ 1 / dt < rate + 1) ∧ (50 < 1 / dt → rate = 50 ∧ speed * (1 / dt) = 50) := by
  unfold animationRate
  rw [if_neg hdt.ne']
  have h1 : 0 < 1 / dt := by positivity
  by_cases h : 1 / dt > 50
  · simp only [if_pos h]
    have e : 1 / dt * (50 / (1 / dt)) = 50 := by field_simp
    have hfl : ⌊(1 / dt * (50 / (1 / dt)) : ℝ)⌋ = 50 := by rw [e]; norm_num
    refine ⟨50, _, by rw [hfl], le_rfl, by push_cast; linarith, fun _ => by norm_num, by positivity, ?_, ?_, ?_⟩
    · rw [div_le_one h1]; linarith
    · intro h'; linarith
    · intro _; exact ⟨rfl, by rw [mul_comm]; exact e⟩
  · simp only [if_neg h, mul_one]
    push Not at h
    refine ⟨_, _, rfl, ?_, Int.floor_le _, ?_, one_pos, le_rfl, ?_, ?_⟩
    · have : (⌊1 / dt⌋ : ℝ) ≤ 50 := (Int.floor_le _).trans h
      exact_mod_cast this
    · intro h'
      have : 1 ≤ 1 / dt := by rw [le_div_iff₀ hdt]; linarith
      exact Int.floor_pos.mpr this
    · intro _; exact ⟨rfl, Int.lt_floor_add_one _⟩
    · intro h'; linarith

example : ∃ dt : ℝ, 0 < dt ∧ dt ≤ 1 ∧ 50 < 1 / dt := ⟨1 / 100, by norm_num, by norm_num, by norm_num⟩
example : ∃ dt : ℝ, 0 < dt ∧ dt ≤ 1 ∧ 1 / dt ≤ 50 := ⟨1 / 30, by norm_num, by norm_num, by norm_num⟩

/-! ## C57: colour limits -/

theorem mean_mul {l : List ℝ} (h : l ≠ []) : (l.length : ℝ) * mean l = l.sum := by
  have : (l.length : ℝ) ≠ 0 := by
    have := List.length_pos_iff.mpr h
    exact_mod_cast this.ne'
  unfold mean
  field_simp

theorem mean_bounds {l : List ℝ} (h : l ≠ []) {lo hi : ℝ} (hl : ∀ v ∈ l, lo ≤ v ∧ v ≤ hi) :
    lo ≤ mean l ∧ mean l ≤ hi := by
  have hn : (0 : ℝ) < l.length := by
    have := List.length_pos_iff.mpr h
    exact_mod_cast this
  have h1 := List.card_nsmul_le_sum l lo (fun v hv => (hl v hv).1)
  have h2 := List.sum_le_card_nsmul l hi (fun v hv => (hl v hv).2)
  rw [nsmul_eq_mul] at h1 h2
  rw [← mean_mul h] at h1 h2
  exact ⟨le_of_mul_le_mul_left h1 hn, le_of_mul_le_mul_left h2 hn⟩

theorem std_spec {l : List ℝ} (h : l ≠ []) :
    0 ≤ std l ∧ (l.length : ℝ) * std l ^ 2 = (l.map fun v => (v - mean l) ^ 2).sum := by
  refine ⟨Real.sqrt_nonneg _, ?_⟩
  unfold std
  have hne : (l.map fun x => (x - mean l) ^ 2) ≠ [] := by simpa using h
  rw [Real.sq_sqrt (mean_bounds hne (lo := 0) (hi := (l.map fun x => (x - mean l) ^ 2).sum) ?_).1]
  · rw [← mean_mul hne, List.length_map]
  · intro v hv
    have hall : ∀ x ∈ (l.map fun x => (x - mean l) ^ 2), 0 ≤ x := by
      intro x hx
      obtain ⟨y, _, rfl⟩ := List.mem_map.mp hx
      positivity
    exact ⟨hall v hv, List.single_le_sum hall v hv⟩

theorem sign_eq_iff {lo hi : ℝ} :
    SignType.sign lo = SignType.sign hi ↔ 0 < lo ∧ 0 < hi ∨ lo = 0 ∧ hi = 0 ∨ lo < 0 ∧ hi < 0 := by
  rw [sign_apply, sign_apply]
  split_ifs <;> constructor <;> intro h <;>
    first
    | exact absurd h (by decide)
    | rfl
    | (left; constructor <;> linarith)
    | (right; left; constructor <;> linarith)
    | (right; right; constructor <;> linarith)
    | (exfalso; rcases h with ⟨_, _⟩ | ⟨_, _⟩ | ⟨_, _⟩ <;> linarith)

/-- C57: the colours of computed values. With `lo` and `hi` the least and the greatest value, `m` the mean and `σ` the
standard deviation: if all values have one sign, a sequential map is used, whose limits are three standard deviations
from the mean, cut off at the least and the greatest value; otherwise a diverging map with the limits `-3σ` and `3σ`,
which are not equal. The labels are the least and the greatest value rounded to two digits. -/
theorem C57_limits (values : List ℝ) (hne : values ≠ []) :
    ∃ (c : Colors) (lo hi m σ : ℝ), colors (values.map some) = .ok c ∧
      lo ∈ values ∧ hi ∈ values ∧ (∀ v ∈ values, lo ≤ v ∧ v ≤ hi) ∧
      (values.length : ℝ) * m = values.sum ∧ 0 ≤ σ ∧
      (values.length : ℝ) * σ ^ 2 = (values.map fun v => (v - m) ^ 2).sum ∧
      (((∀ v ∈ values, 0 < v) ∨ (∀ v ∈ values, v = 0) ∨ (∀ v ∈ values, v < 0)) →
        c.diverging = false ∧ c.lower = max (m - 3 * σ) lo ∧ c.upper = min (m + 3 * σ) hi ∧
        lo ≤ c.lower ∧ c.lower ≤ m ∧ m ≤ c.upper ∧ c.upper ≤ hi) ∧
      (¬ ((∀ v ∈ values, 0 < v) ∨ (∀ v ∈ values, v = 0) ∨ (∀ v ∈ values, v < 0)) →
        c.diverging = true ∧ c.lower = -(3 * σ) ∧ c.upper = 3 * σ ∧ 0 < c.upper) ∧
      |c.minLabel - lo| ≤ 0.005 ∧ |c.maxLabel - hi| ≤ 0.005 := by
  obtain ⟨lo, hlo⟩ : ∃ lo, values.min? = some lo := by
    cases h : values.min? with
    | none => exact absurd (List.min?_eq_none_iff.mp h) hne
    | some x => exact ⟨x, rfl⟩
  obtain ⟨hi, hhi⟩ : ∃ hi, values.max? = some hi := by
    cases h : values.max? with
    | none => exact absurd (List.max?_eq_none_iff.mp h) hne
    | some x => exact ⟨x, rfl⟩
  obtain ⟨l1, l2⟩ := List.min?_eq_some_iff.mp hlo
  obtain ⟨u1, u2⟩ := List.max?_eq_some_iff.mp hhi
  have hall : ∀ v ∈ values, lo ≤ v ∧ v ≤ hi := fun v hv => ⟨l2 v hv, u2 v hv⟩
  obtain ⟨m1, m2⟩ := mean_bounds hne hall
  obtain ⟨s1, s2⟩ := std_spec hne
  have hsig : SignType.sign lo = SignType.sign hi ↔
      ((∀ v ∈ values, 0 < v) ∨ (∀ v ∈ values, v = 0) ∨ (∀ v ∈ values, v < 0)) := by
    rw [sign_eq_iff]
    constructor
    · rintro (⟨h, _⟩ | ⟨h, h'⟩ | ⟨_, h⟩)
      · exact Or.inl fun v hv => lt_of_lt_of_le h (l2 v hv)
      · exact Or.inr (Or.inl fun v hv => le_antisymm (h' ▸ u2 v hv) (h ▸ l2 v hv))
      · exact Or.inr (Or.inr fun v hv => lt_of_le_of_lt (u2 v hv) h)
    · rintro (h | h | h)
      · exact Or.inl ⟨h _ l1, h _ u1⟩
      · exact Or.inr (Or.inl ⟨h _ l1, h _ u1⟩)
      · exact Or.inr (Or.inr ⟨h _ l1, h _ u1⟩)
  have hf : floats (values.map some) = .ok values := floats_ok.mpr rfl
  have r1 := roundTo_near 2 lo
  have r2 := roundTo_near 2 hi
  have r0 : (1 : ℝ) / 2 / 10 ^ 2 = 0.005 := by norm_num
  rw [r0] at r1 r2
  by_cases hs : SignType.sign lo = SignType.sign hi
  · refine ⟨⟨false, max (mean values - 3 * std values) lo, min (mean values + 3 * std values) hi, roundTo 2 lo,
      roundTo 2 hi⟩, lo, hi, mean values, std values, ?_, l1, u1, hall, mean_mul hne, s1, s2, ?_, ?_, r1, r2⟩
    · unfold colors
      rw [hf]
      simp only [bind, Except.bind, hlo, hhi]
      rw [if_pos hs]
    · intro _
      exact ⟨rfl, rfl, rfl, le_max_right _ _, max_le (by linarith) m1, le_min (by linarith) m2, min_le_right _ _⟩
    · intro h
      exact absurd (hsig.mp hs) h
  · refine ⟨⟨true, -3 * std values, 3 * std values, roundTo 2 lo, roundTo 2 hi⟩, lo, hi, mean values, std values, ?_, l1,
      u1, hall, mean_mul hne, s1, s2, ?_, ?_, r1, r2⟩
    · unfold colors
      rw [hf]
      simp only [bind, Except.bind, hlo, hhi]
      rw [if_neg hs]
    · intro h
      exact absurd (hsig.mpr h) hs
    · intro _
      refine ⟨rfl, by ring, rfl, ?_⟩
      have hpos : std values ≠ 0 := by
        intro h0
        rw [h0] at s2
        have hz : ∀ v ∈ values, v = mean values := by
          intro v hv
          have hall : ∀ x ∈ (values.map fun v => (v - mean values) ^ 2), 0 ≤ x := by
            intro x hx
            obtain ⟨y, _, rfl⟩ := List.mem_map.mp hx
            positivity
          have h1 := List.single_le_sum hall _ (List.mem_map.mpr ⟨v, hv, rfl⟩)
          rw [← s2] at h1
          have h2 : (v - mean values) ^ 2 = 0 := le_antisymm (by simpa using h1) (sq_nonneg _)
          have := pow_eq_zero_iff (two_ne_zero) |>.mp h2
          linarith
        exact hs (by rw [hz lo l1, hz hi u1])
      have : 0 < std values := lt_of_le_of_ne s1 (Ne.symm hpos)
      show 0 < 3 * std values
      linarith

/-- C57: without a value, or with one that was not computed, there are no colours but an error. -/
theorem C57_errors : colors [] = .error .valueError ∧
    ∀ scalars : List (Option ℝ), none ∈ scalars → colors scalars = .error .typeError := by
  refine ⟨rfl, ?_⟩
  intro scalars h
  unfold colors
  rw [floats_error h]
  rfl

example : (∀ v ∈ [(1 : ℝ), 2], 0 < v) ∧ ¬ ((∀ v ∈ [(-1 : ℝ), 2], 0 < v) ∨ (∀ v ∈ [(-1 : ℝ), 2], v = 0) ∨
    (∀ v ∈ [(-1 : ℝ), 2], v < 0)) := by
  constructor <;> norm_num

end Ptera
