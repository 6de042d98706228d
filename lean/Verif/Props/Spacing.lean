import Verif.Model.Functions
import Verif.Lemmas.Lists

/-!
# Properties C07, C08, C54, C55: spacings, interpolation, streamlines, logging levels
-/

namespace Ptera

open Real

/-- Specification of a well-formed grid on `[a, b]` with `n` points: exact end points, strictly increasing,
inside the interval, symmetric about the midpoint. -/
structure IsGrid (l : List ℝ) (a b : ℝ) (n : ℕ) : Prop where
  length : l.length = n
  first : l[0]? = some a
  last : l[n - 1]? = some b
  increasing : ∀ (i j : ℕ) (x y : ℝ), i < j → l[i]? = some x → l[j]? = some y → x < y
  inside : ∀ x ∈ l, a ≤ x ∧ x ≤ b
  symmetric : ∀ (i : ℕ) (x y : ℝ), l[i]? = some x → l[n - 1 - i]? = some y → i < n → x + y = a + b

/-! ## C07 -/

theorem linspace_frac {n i : ℕ} (hn : 2 ≤ n) (hi : i < n) :
    0 ≤ (i : ℝ) / ((n : ℝ) - 1) ∧ (i : ℝ) / ((n : ℝ) - 1) ≤ 1 := by
  have h1 : (0 : ℝ) < (n : ℝ) - 1 := by
    have : (2 : ℝ) ≤ n := by exact_mod_cast hn
    linarith
  have h2 : (i : ℝ) ≤ (n : ℝ) - 1 := by
    have : (i : ℝ) + 1 ≤ n := by exact_mod_cast hi
    linarith
  exact ⟨by positivity, by rw [div_le_one h1]; exact h2⟩

/-- C07: uniform spacing is a well-formed grid. -/
theorem C07_linspace (a b : ℝ) (n : ℕ) (hab : a < b) (hn : 2 ≤ n) : IsGrid (linspace a b n) a b n := by
  have h1 : (0 : ℝ) < (n : ℝ) - 1 := by
    have : (2 : ℝ) ≤ n := by exact_mod_cast hn
    linarith
  have val : ∀ (i : ℕ) (x : ℝ), (linspace a b n)[i]? = some x → i < n ∧ x = a + (i : ℝ) / ((n : ℝ) - 1) * (b - a) := by
    intro i x h
    have hi : i < n := by
      have := (List.getElem?_eq_some_iff.mp h).1; rwa [linspace_length] at this
    rw [linspace_getElem? _ _ _ _ _ hi] at h
    refine ⟨hi, ?_⟩
    rw [← Option.some.inj h]; simp; ring
  refine ⟨linspace_length _ _ _ _, ?_, ?_, ?_, ?_, ?_⟩
  · rw [linspace_getElem? _ _ _ _ _ (by omega)]; simp
  · rw [linspace_getElem? _ _ _ _ _ (by omega)]
    congr 1
    rw [Nat.cast_sub (by omega)]
    simp only [if_true, Nat.cast_one]; field_simp; ring
  · intro i j x y hij hx hy
    obtain ⟨_, rfl⟩ := val i x hx
    obtain ⟨_, rfl⟩ := val j y hy
    have : (i : ℝ) < j := by exact_mod_cast hij
    have : (i : ℝ) / ((n : ℝ) - 1) < j / ((n : ℝ) - 1) := by gcongr
    have : 0 < b - a := by linarith
    nlinarith
  · intro x hx
    obtain ⟨i, hi⟩ := List.mem_iff_getElem?.mp hx
    obtain ⟨hi', rfl⟩ := val i x hi
    have := linspace_frac hn hi'
    have : 0 < b - a := by linarith
    constructor <;> nlinarith
  · intro i x y hx hy hi
    obtain ⟨_, rfl⟩ := val i x hx
    obtain ⟨_, rfl⟩ := val _ y hy
    have : ((n - 1 - i : ℕ) : ℝ) = (n : ℝ) - 1 - i := by
      rw [Nat.cast_sub (by omega), Nat.cast_sub (by omega)]; simp
    rw [this]; field_simp; ring

/-- C07: cosine spacing is a well-formed grid. -/
theorem C07_cosspace (a b : ℝ) (n : ℕ) (hab : a < b) (hn : 2 ≤ n) : IsGrid (cosspace a b n) a b n := by
  have h1 : (0 : ℝ) < (n : ℝ) - 1 := by
    have : (2 : ℝ) ≤ n := by exact_mod_cast hn
    linarith
  have ang : ∀ (i : ℕ), i < n → (linspace π 0 n)[i]? = some (π * (1 - (i : ℝ) / ((n : ℝ) - 1))) := by
    intro i hi
    rw [linspace_getElem? _ _ _ _ _ hi]; congr 1; simp; ring
  have get : ∀ (i : ℕ), i < n → (cosspace a b n)[i]?
      = some ((b + a) / 2 + (b - a) / 2 * cos (π * (1 - (i : ℝ) / ((n : ℝ) - 1)))) := by
    intro i hi
    simp only [cosspace, List.getElem?_map, ang i hi, Option.map_some]
  have val : ∀ (i : ℕ) (x : ℝ), (cosspace a b n)[i]? = some x →
      i < n ∧ x = (b + a) / 2 + (b - a) / 2 * cos (π * (1 - (i : ℝ) / ((n : ℝ) - 1))) := by
    intro i x h
    have hi : i < n := by
      have := (List.getElem?_eq_some_iff.mp h).1; simpa [cosspace, linspace_length] using this
    rw [get i hi] at h
    exact ⟨hi, (Option.some.inj h).symm⟩
  refine ⟨by simp [cosspace, linspace_length], ?_, ?_, ?_, ?_, ?_⟩
  · rw [get 0 (by omega)]; simp; ring
  · rw [get _ (by omega)]
    congr 1
    have : (((n - 1 : ℕ) : ℝ)) / ((n : ℝ) - 1) = 1 := by
      rw [Nat.cast_sub (by omega)]; simp only [Nat.cast_one]; exact div_self (ne_of_gt h1)
    rw [this]; simp; ring
  · intro i j x y hij hx hy
    obtain ⟨hi, rfl⟩ := val i x hx
    obtain ⟨hj, rfl⟩ := val j y hy
    have f := linspace_frac hn hi
    have g := linspace_frac hn hj
    have : (i : ℝ) < j := by exact_mod_cast hij
    have hlt : (i : ℝ) / ((n : ℝ) - 1) < j / ((n : ℝ) - 1) := by gcongr
    have hp := pi_pos
    have : cos (π * (1 - (i : ℝ) / ((n : ℝ) - 1))) < cos (π * (1 - (j : ℝ) / ((n : ℝ) - 1))) := by
      apply cos_lt_cos_of_nonneg_of_le_pi
      · nlinarith
      · nlinarith
      · nlinarith
    have : 0 < b - a := by linarith
    nlinarith
  · intro x hx
    obtain ⟨i, hi⟩ := List.mem_iff_getElem?.mp hx
    obtain ⟨_, rfl⟩ := val i x hi
    have := cos_le_one (π * (1 - (i : ℝ) / ((n : ℝ) - 1)))
    have := neg_one_le_cos (π * (1 - (i : ℝ) / ((n : ℝ) - 1)))
    have : 0 < b - a := by linarith
    constructor <;> nlinarith
  · intro i x y hx hy hi
    obtain ⟨_, rfl⟩ := val i x hx
    obtain ⟨_, rfl⟩ := val _ y hy
    have e : ((n - 1 - i : ℕ) : ℝ) = (n : ℝ) - 1 - i := by
      rw [Nat.cast_sub (by omega), Nat.cast_sub (by omega)]; simp
    have : π * (1 - ((n : ℝ) - 1 - i) / ((n : ℝ) - 1)) = π - π * (1 - (i : ℝ) / ((n : ℝ) - 1)) := by
      field_simp
    rw [e, this, cos_pi_sub]
    ring

/-- A concrete case: the default use for four chordwise panels. -/
example : IsGrid (cosspace 0 1 5) 0 1 5 ∧ (cosspace 0 1 5)[2]? = some (1 / 2) := by
  refine ⟨C07_cosspace 0 1 5 (by norm_num) (by norm_num), ?_⟩
  simp [cosspace, linspace]
  norm_num
  rw [show π + 2 * (-π / 4) = π / 2 by ring]
  simp

/-! ## C08 -/

/-- C08: for every pair of end points and every spacing value, the interpolated array has the row of that
pair, as many columns as spacing values, the start point at `s = 0`, the end point at `s = 1`, and in general
the point at fraction `s` of the way (on the segment when `0 ≤ s ≤ 1`). -/
theorem C08_interp (starts ends : List V3) (spacings : List ℝ) (hlen : starts.length = ends.length) :
    (interpBetweenPoints starts ends spacings).length = starts.length ∧
    ∀ (i : ℕ) (a b : V3), starts[i]? = some a → ends[i]? = some b →
      ∃ row : List V3, (interpBetweenPoints starts ends spacings)[i]? = some row ∧
        row.length = spacings.length ∧
        ∀ (j : ℕ) (s : ℝ), spacings[j]? = some s → ∃ p : V3, row[j]? = some p ∧
          (s = 0 → p = a) ∧ (s = 1 → p = b) ∧
          (p - a).norm = |s| * (b - a).norm ∧
          (0 ≤ s → s ≤ 1 → (p - a).norm + (b - p).norm = (b - a).norm) ∧
          p - a = s • (b - a) := by
  refine ⟨by simp [interpBetweenPoints, hlen], ?_⟩
  intro i a b ha hb
  refine ⟨spacings.map fun s => a + s • (b - a), ?_, by simp, ?_⟩
  · simp [interpBetweenPoints, List.getElem?_zipWith, ha, hb]
  · intro j s hs
    refine ⟨a + s • (b - a), by simp [hs], ?_, ?_, ?_, ?_, ?_⟩
    · rintro rfl; simp
    · rintro rfl; simp
    · rw [add_sub_cancel_left, V3.norm_smul]
    · intro h0 h1
      have e : b - (a + s • (b - a)) = (1 - s) • (b - a) := by ext <;> simp <;> ring
      rw [add_sub_cancel_left, e, V3.norm_smul, V3.norm_smul, abs_of_nonneg h0,
        abs_of_nonneg (by linarith : (0 : ℝ) ≤ 1 - s)]
      ring
    · rw [add_sub_cancel_left]

/-- A concrete case: two rows, three spacing values. -/
example : interpBetweenPoints [⟨0, 0, 0⟩, ⟨1, 0, 0⟩] [⟨0, 2, 0⟩, ⟨1, 4, 0⟩] [0, 1/2, 1]
    = [[⟨0, 0, 0⟩, ⟨0, 1, 0⟩, ⟨0, 2, 0⟩], [⟨1, 0, 0⟩, ⟨1, 2, 0⟩, ⟨1, 4, 0⟩]] := by
  simp [interpBetweenPoints, V3.ext_iff]; norm_num

/-! ## C54 -/

theorem streamlines_succ (vel : V3 → V3) (seeds : List V3) (n : ℕ) (dt : ℝ) :
    calculateStreamlines vel seeds (n + 1) dt =
      calculateStreamlines vel seeds n dt ++
        [streamlineRow vel dt ((calculateStreamlines vel seeds n dt).getLast?.getD [])] := by
  simp [calculateStreamlines, List.range_succ]

theorem streamlines_length (vel : V3 → V3) (seeds : List V3) (n : ℕ) (dt : ℝ) :
    (calculateStreamlines vel seeds n dt).length = n + 1 := by
  induction n with
  | zero => simp [calculateStreamlines]
  | succ n ih => rw [streamlines_succ]; simp [ih]

/-- C54: the matrix of streamline points has `num_steps + 1` rows, the first row is the seed points, and
every further row consists of the points of the row before moved by velocity times time step. -/
theorem C54_streamlines (vel : V3 → V3) (seeds : List V3) (n : ℕ) (dt : ℝ) :
    (calculateStreamlines vel seeds n dt).length = n + 1 ∧
    (calculateStreamlines vel seeds n dt)[0]? = some seeds ∧
    ∀ (k : ℕ) (row : List V3), k < n → (calculateStreamlines vel seeds n dt)[k]? = some row →
      ∃ next : List V3, (calculateStreamlines vel seeds n dt)[k + 1]? = some next ∧
        next.length = row.length ∧
        ∀ (i : ℕ) (p : V3), row[i]? = some p → next[i]? = some (p + dt • vel p) := by
  refine ⟨streamlines_length _ _ _ _, ?_, ?_⟩
  · induction n with
    | zero => simp [calculateStreamlines]
    | succ n ih =>
      rw [streamlines_succ, List.getElem?_append_left (by rw [streamlines_length]; omega)]
      exact ih
  · intro k row hk hrow
    refine ⟨streamlineRow vel dt row, ?_, by simp [streamlineRow], ?_⟩
    · induction n with
      | zero => omega
      | succ n ih =>
        rw [streamlines_succ] at hrow ⊢
        rw [List.getElem?_append_left (by rw [streamlines_length]; omega)] at hrow
        by_cases hkn : k < n
        · rw [List.getElem?_append_left (by rw [streamlines_length]; omega)]
          exact ih hkn hrow
        · have hk' : k = n := by omega
          subst hk'
          have hl : (calculateStreamlines vel seeds k dt).getLast? = some row := by
            rw [List.getLast?_eq_getElem?, streamlines_length]
            simpa using hrow
          rw [List.getElem?_append_right (by rw [streamlines_length]), streamlines_length, hl]
          simp
    · intro i p hp
      simp [streamlineRow, hp]

/-- C54: every row has one point per seed point, so there is one streamline per seed point. -/
theorem C54_streamlines_width (vel : V3 → V3) (seeds : List V3) (n : ℕ) (dt : ℝ) :
    ∀ row ∈ calculateStreamlines vel seeds n dt, row.length = seeds.length := by
  intro row hrow
  obtain ⟨k, hk⟩ := List.mem_iff_getElem?.mp hrow
  obtain ⟨hlen, h0, hs⟩ := C54_streamlines vel seeds n dt
  induction k generalizing row with
  | zero => rw [h0] at hk; rw [← Option.some.inj hk]
  | succ k ih =>
    have hk1 : k + 1 < n + 1 := by
      have := (List.getElem?_eq_some_iff.mp hk).1; rwa [hlen] at this
    have hkl : k < (calculateStreamlines vel seeds n dt).length := by omega
    obtain ⟨next, hn, hl, _⟩ := hs k _ (by omega) (List.getElem?_eq_getElem hkl)
    rw [hk] at hn
    rw [Option.some.inj hn, hl]
    exact ih _ (List.getElem_mem hkl) (List.getElem?_eq_getElem hkl)

/-- A concrete case: a swirling flow and two seed points. -/
example : (calculateStreamlines (fun p => ⟨-p.y, p.x, 0⟩) [⟨1, 0, 0⟩, ⟨2, 0, 0⟩] 1 1)[1]?
    = some [⟨1, 1, 0⟩, ⟨2, 2, 0⟩] := by
  simp [calculateStreamlines, streamlineRow, V3.ext_iff]

/-! ## C55 -/

/-- C55: the five documented names are converted to their numeric levels. -/
theorem C55_levels :
    convertLoggingLevelNameToValue "Debug" = .ok 10 ∧ convertLoggingLevelNameToValue "Info" = .ok 20 ∧
    convertLoggingLevelNameToValue "Warning" = .ok 30 ∧ convertLoggingLevelNameToValue "Error" = .ok 40 ∧
    convertLoggingLevelNameToValue "Critical" = .ok 50 := by
  refine ⟨?_, ?_, ?_, ?_, ?_⟩ <;> simp [convertLoggingLevelNameToValue]

/-- C55: every other string raises, and only those. -/
theorem C55_total (name : String) :
    (∃ v, convertLoggingLevelNameToValue name = .ok v) ↔
      name ∈ ["Debug", "Info", "Warning", "Error", "Critical"] := by
  unfold convertLoggingLevelNameToValue
  constructor
  · rintro ⟨v, h⟩
    split at h <;> [simp_all; skip]
    split at h <;> [simp_all; skip]
    split at h <;> [simp_all; skip]
    split at h <;> [simp_all; skip]
    split at h <;> simp_all
  · intro h
    simp at h
    rcases h with rfl | rfl | rfl | rfl | rfl <;> simp

/-- C55: an unknown name raises a plain `Exception`. -/
theorem C55_error (name : String) (h : name ∉ ["Debug", "Info", "Warning", "Error", "Critical"]) :
    convertLoggingLevelNameToValue name = .error .exception := by
  simp at h
  simp [convertLoggingLevelNameToValue, h]

/-- The conversion is case sensitive. -/
example : convertLoggingLevelNameToValue "debug" = .error .exception := C55_error _ (by decide)

end Ptera
