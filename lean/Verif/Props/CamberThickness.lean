import Verif.Props.Repaneled

/-!
# C24: the camber line and the thickness of an outline
-/

namespace Ptera

open List

theorem getElem?_reverse_take {c : List (ℝ × ℝ)} {nose k : ℕ} (hn : nose < c.length) (hk : k ≤ nose) :
    (c.take (nose + 1)).reverse[k]? = some (c.getD (nose - k) (0, 0)) := by
  have hl : (c.take (nose + 1)).length = nose + 1 := by rw [List.length_take]; omega
  rw [List.getElem?_reverse (by omega), hl, show nose + 1 - 1 - k = nose - k by omega, List.getElem?_take,
    if_pos (by omega), List.getD_eq_getElem _ _ (by omega), List.getElem?_eq_getElem]

theorem getElem?_drop_nose {c : List (ℝ × ℝ)} {nose k : ℕ} (hk : nose + k < c.length) :
    (c.drop nose)[k]? = some (c.getD (nose + k) (0, 0)) := by
  rw [List.getElem?_drop, List.getD_eq_getElem _ _ hk, List.getElem?_eq_getElem]

/-- C24: an outline is accepted exactly if its two sides, which share the nose, have equally many points or one of them is
the nose alone. The `k`-th point of the camber line lies half way between the `k`-th points of the two sides counted
from the nose, and the thickness there is the distance between these two points. A side that is the nose alone counts as
the nose repeated. -/
theorem C24_sides (c : List (ℝ × ℝ)) (nose : ℕ) (hnose : IsNose c nose) :
    let upper := fun k => c.getD (nose - k) (0, 0)
    let lower := fun k => c.getD (min (nose + k) (c.length - 1)) (0, 0)
    ((∃ a, Airfoil.ofCoordinates c = .ok a) ↔ c.length = 2 * nose + 1 ∨ nose = 0 ∨ nose + 1 = c.length) ∧
    ∀ a, Airfoil.ofCoordinates c = .ok a → a.coordinates = c ∧
      a.mcl.length = max (nose + 1) (c.length - nose) ∧ a.thickness.length = a.mcl.length ∧
      ∀ k < a.mcl.length, a.mcl[k]? = some (((upper k).1 + (lower k).1) / 2, ((upper k).2 + (lower k).2) / 2) ∧
        a.thickness[k]? = some (((upper k).1 + (lower k).1) / 2, dist2 (upper k) (lower k)) := by
  intro upper lower
  have hn := hnose.1
  have hne : c ≠ [] := by intro h; rw [h] at hn; simp at hn
  have harg : argminX c = nose := argminX_eq c nose hnose.1 hnose.2.1 hnose.2.2
  have hu : (upperCoordinates c).reverse.length = nose + 1 := by
    rw [List.length_reverse, upperCoordinates, harg, List.length_take]; omega
  have hl : (lowerCoordinates c).length = c.length - nose := by
    rw [lowerCoordinates, harg, List.length_drop]
  have hU : ∀ k ≤ nose, (upperCoordinates c).reverse[k]? = some (upper k) := by
    intro k hk; rw [upperCoordinates, harg]; exact getElem?_reverse_take hn hk
  have hL : ∀ k, nose + k < c.length → (lowerCoordinates c)[k]? = some (lower k) := by
    intro k hk
    rw [lowerCoordinates, harg, getElem?_drop_nose hk]
    simp only [lower, Nat.min_eq_left (show nose + k ≤ c.length - 1 by omega)]
  -- broadcasting of an operation between the sides
  have hb : ∀ f : ℝ × ℝ → ℝ × ℝ → ℝ × ℝ,
      (c.length = 2 * nose + 1 ∨ nose = 0 ∨ nose + 1 = c.length) →
      ∃ m, bcast f (upperCoordinates c).reverse (lowerCoordinates c) = .ok m ∧
        m.length = max (nose + 1) (c.length - nose) ∧ ∀ k < m.length, m[k]? = some (f (upper k) (lower k)) := by
    intro f h
    unfold bcast
    rw [hu, hl]
    by_cases h1 : nose + 1 = c.length - nose
    · refine ⟨_, if_pos h1, ?_, ?_⟩
      · rw [List.length_zipWith, hu, hl]; omega
      · intro k hk
        rw [List.length_zipWith, hu, hl] at hk
        rw [List.getElem?_zipWith, hU k (by omega), hL k (by omega)]
    · rw [if_neg h1]
      by_cases h2 : nose + 1 = 1
      · refine ⟨_, if_pos h2, ?_, ?_⟩
        · rw [List.length_map, hl]; omega
        · intro k hk
          rw [List.length_map, hl] at hk
          have e := hU 0 (by omega)
          rw [List.getElem?_map, hL k (by omega), Option.map_some, List.getD_eq_getElem?_getD, e, Option.getD_some]
          have : upper 0 = upper k := by simp only [upper]; congr 1; omega
          rw [this]
      · rw [if_neg h2]
        have h3 : c.length - nose = 1 := by omega
        refine ⟨_, if_pos h3, ?_, ?_⟩
        · rw [List.length_map, hu]; omega
        · intro k hk
          rw [List.length_map, hu] at hk
          have e := hL 0 (by omega)
          rw [List.getElem?_map, hU k (by omega), Option.map_some, List.getD_eq_getElem?_getD, e, Option.getD_some]
          have : lower 0 = lower k := by simp only [lower]; congr 1; omega
          rw [this]
  have hiff : (∃ a, Airfoil.ofCoordinates c = .ok a) → c.length = 2 * nose + 1 ∨ nose = 0 ∨ nose + 1 = c.length := by
    rintro ⟨a, ha⟩
    by_contra hc
    push Not at hc
    have : bcast (fun u l => (1 / 2 : ℝ) • (u + l)) (upperCoordinates c).reverse (lowerCoordinates c)
        = .error .valueError := by
      unfold bcast
      rw [hu, hl, if_neg (by omega), if_neg (by omega), if_neg (by omega)]
    unfold Airfoil.ofCoordinates at ha
    rw [if_neg hne] at ha
    simp only [this] at ha
    cases ha
  have hmk : (c.length = 2 * nose + 1 ∨ nose = 0 ∨ nose + 1 = c.length) → ∃ a, Airfoil.ofCoordinates c = .ok a ∧
      a.coordinates = c ∧ a.mcl.length = max (nose + 1) (c.length - nose) ∧ a.thickness.length = a.mcl.length ∧
      ∀ k < a.mcl.length, a.mcl[k]? = some (((upper k).1 + (lower k).1) / 2, ((upper k).2 + (lower k).2) / 2) ∧
        a.thickness[k]? = some (((upper k).1 + (lower k).1) / 2, dist2 (upper k) (lower k)) := by
    intro h
    obtain ⟨m, hm, hml, hmk⟩ := hb (fun u l => (1 / 2 : ℝ) • (u + l)) h
    -- the vectors from the camber line to the upper side
    have hub : ∃ um, bcast (fun u m => u - m) (upperCoordinates c).reverse m = .ok um ∧ um.length = m.length ∧
        ∀ k < m.length, um[k]? = some (upper k - (1 / 2 : ℝ) • (upper k + lower k)) := by
      unfold bcast
      rw [hu]
      by_cases h1 : nose + 1 = m.length
      · refine ⟨_, if_pos h1, ?_, ?_⟩
        · rw [List.length_zipWith, hu]; omega
        · intro k hk
          rw [List.getElem?_zipWith, hU k (by omega), hmk k hk]
      · rw [if_neg h1]
        have h2 : nose + 1 = 1 := by omega
        refine ⟨_, if_pos h2, List.length_map _, ?_⟩
        intro k hk
        have e := hU 0 (by omega)
        rw [List.getElem?_map, hmk k hk, Option.map_some, List.getD_eq_getElem?_getD, e, Option.getD_some]
        have : upper 0 = upper k := by simp only [upper]; congr 1; omega
        rw [this]
    obtain ⟨um, hum, huml, humk⟩ := hub
    refine ⟨_, by unfold Airfoil.ofCoordinates; rw [if_neg hne]; simp only [hm, hum, bind, Except.bind]; rfl, rfl, hml, ?_, ?_⟩
    · simp [huml]
    · intro k hk
      refine ⟨?_, ?_⟩
      · show m[k]? = _
        rw [hmk k hk]
        congr 1
        ext <;> simp <;> ring
      · show (List.zipWith _ m um)[k]? = _
        rw [List.getElem?_zipWith, hmk k hk, humk k hk]
        refine congrArg some (Prod.ext ?_ ?_)
        · simp; ring
        · simp only [dist2, Prod.fst_sub, Prod.snd_sub, Prod.smul_fst, Prod.smul_snd, Prod.fst_add, Prod.snd_add,
            smul_eq_mul]
          rw [show ((upper k).1 - 1 / 2 * ((upper k).1 + (lower k).1)) ^ 2
              + ((upper k).2 - 1 / 2 * ((upper k).2 + (lower k).2)) ^ 2
              = (((upper k).1 - (lower k).1) ^ 2 + ((upper k).2 - (lower k).2) ^ 2) / 2 ^ 2 by ring,
            Real.sqrt_div' _ (by norm_num), Real.sqrt_sq (by norm_num)]
          ring
  refine ⟨⟨hiff, fun h => ?_⟩, ?_⟩
  · obtain ⟨a, ha, -⟩ := hmk h
    exact ⟨a, ha⟩
  · intro a ha
    obtain ⟨b, hb', h1⟩ := hmk (hiff ⟨a, ha⟩)
    rw [ha] at hb'
    obtain rfl := Except.ok.inj hb'
    exact h1

/-- A flat diamond: the camber line is the chord and the thickness is 0, 0.2 and 0. -/
example : ∃ a, Airfoil.ofCoordinates [(1, 0), (0.5, 0.1), (0, 0), (0.5, -0.1), (1, 0)] = .ok a ∧
    a.mcl[1]? = some ((0.5 : ℝ), (0 : ℝ)) ∧ a.thickness[1]? = some ((0.5 : ℝ), (0.2 : ℝ)) := by
  have hn : IsNose [((1 : ℝ), (0 : ℝ)), (0.5, 0.1), (0, 0), (0.5, -0.1), (1, 0)] 2 := by
    refine ⟨by simp, ?_, ?_⟩
    · intro i hi; interval_cases i <;> norm_num
    · intro i hi; simp only [List.length_cons, List.length_nil] at hi; interval_cases i <;> norm_num
  obtain ⟨h1, h2⟩ := C24_sides _ 2 hn
  obtain ⟨a, ha⟩ := h1.mpr (Or.inl (by simp))
  obtain ⟨-, h3, -, h4⟩ := h2 a ha
  obtain ⟨h5, h6⟩ := h4 1 (by rw [h3]; simp)
  refine ⟨a, ha, ?_, ?_⟩
  · rw [h5]; norm_num
  · rw [h6]
    simp only [dist2]
    norm_num
    rw [show (25 : ℝ) = 5 ^ 2 by norm_num, Real.sqrt_sq (by norm_num)]
    norm_num

end Ptera
