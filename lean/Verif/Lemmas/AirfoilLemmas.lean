import Verif.Model.Airfoil
import Mathlib.Data.List.GetD

/-! Helper lemmas about airfoil outlines. -/

namespace Ptera

open List

theorem argminX_lt : ∀ c : List (ℝ × ℝ), c ≠ [] → argminX c < c.length
  | [], h => absurd rfl h
  | [_], _ => by simp [argminX]
  | a :: b :: l, _ => by
    have ih := argminX_lt (b :: l) (by simp)
    unfold argminX
    simp only
    split_ifs
    · simp
    · simpa using ih

theorem argminX_le : ∀ (c : List (ℝ × ℝ)) (i : ℕ), i < c.length →
    (c.getD (argminX c) (0, 0)).1 ≤ (c.getD i (0, 0)).1
  | [], i, h => by simp at h
  | [a], i, h => by
    have : i = 0 := by simpa using h
    subst this; simp [argminX]
  | a :: b :: l, i, h => by
    have ih := argminX_le (b :: l)
    unfold argminX
    simp only
    split_ifs with hc
    · cases i with
      | zero => simp
      | succ i =>
        simp only [List.getD_cons_zero, List.getD_cons_succ]
        exact hc.trans (ih i (by simpa using h))
    · push Not at hc
      cases i with
      | zero => simp only [List.getD_cons_zero, List.getD_cons_succ]; exact hc.le
      | succ i =>
        simp only [List.getD_cons_succ]
        exact ih i (by simpa using h)

/-- The leftmost point is the first one left of all others before it and not right of any after it. -/
theorem argminX_eq : ∀ (c : List (ℝ × ℝ)) (k : ℕ), k < c.length →
    (∀ i < k, (c.getD k (0, 0)).1 < (c.getD i (0, 0)).1) →
    (∀ i < c.length, (c.getD k (0, 0)).1 ≤ (c.getD i (0, 0)).1) → argminX c = k
  | [], k, h, _, _ => by simp at h
  | [a], k, h, _, _ => by
    have : k = 0 := by simpa using h
    subst this; simp [argminX]
  | a :: b :: l, k, h, h1, h2 => by
    have hmin := argminX_le (b :: l)
    unfold argminX
    simp only
    cases k with
    | zero =>
      rw [if_pos]
      have := h2 (argminX (b :: l) + 1) (by have := argminX_lt (b :: l) (by simp); simp at this ⊢; omega)
      simpa using this
    | succ k =>
      have ih := argminX_eq (b :: l) k (by simpa using h) (fun i hi => by
        have := h1 (i + 1) (by omega)
        simpa using this) (fun i hi => by
        have := h2 (i + 1) (by simpa using hi)
        simpa using this)
      rw [ih, if_neg]
      have := h1 0 (by omega)
      simp only [List.getD_cons_zero, List.getD_cons_succ] at this
      push Not
      exact this

/-- The parts of an airfoil whose two surfaces have equally many points. -/
structure WellFormed (c : List (ℝ × ℝ)) (a : Airfoil) : Prop where
  made : Airfoil.ofCoordinates c = .ok a
  nonempty : c ≠ []
  odd : c.length = 2 * argminX c + 1

namespace WellFormed

theorem upper_length {c : List (ℝ × ℝ)} {a : Airfoil} (h : WellFormed c a) :
    (upperCoordinates c).length = argminX c + 1 := by
  have := h.odd
  simp [upperCoordinates]; omega

theorem lower_length {c : List (ℝ × ℝ)} {a : Airfoil} (h : WellFormed c a) :
    (lowerCoordinates c).length = argminX c + 1 := by
  have := h.odd
  simp [lowerCoordinates]; omega

end WellFormed

theorem getD_zipWith {α β γ : Type*} (f : α → β → γ) (l : List α) (m : List β) (d : γ) (e : α) (g : β) (i : ℕ)
    (h1 : i < l.length) (h2 : i < m.length) : (List.zipWith f l m).getD i d = f (l.getD i e) (m.getD i g) := by
  simp [List.getD, h1, h2]

theorem getD_take {α : Type*} (l : List α) (d : α) (k i : ℕ) (h : i < k) : (l.take k).getD i d = l.getD i d := by
  simp [List.getD, h]

theorem getD_drop {α : Type*} (l : List α) (d : α) (k i : ℕ) : (l.drop k).getD i d = l.getD (k + i) d := by
  simp [List.getD, List.getElem?_drop]

theorem getD_reverse' {α : Type*} (l : List α) (d : α) (i : ℕ) (h : i < l.length) :
    l.reverse.getD i d = l.getD (l.length - 1 - i) d := by
  simp [List.getD, List.getElem?_reverse h]

theorem getD_map' {α β : Type*} (f : α → β) (l : List α) (d : β) (e : α) (i : ℕ) (h : i < l.length) :
    (l.map f).getD i d = f (l.getD i e) := by
  simp [List.getD, h]

theorem getD_append_left' {α : Type*} (l m : List α) (d : α) (i : ℕ) (h : i < l.length) :
    (l ++ m).getD i d = l.getD i d := by
  simp [List.getD, List.getElem?_append_left h]

theorem getD_append_right' {α : Type*} (l m : List α) (d : α) (i : ℕ) (h : l.length ≤ i) :
    (l ++ m).getD i d = m.getD (i - l.length) d := by
  simp [List.getD, List.getElem?_append_right h]

theorem ext_getD {α : Type*} (l m : List α) (d : α) (h : l.length = m.length)
    (h2 : ∀ i < l.length, l.getD i d = m.getD i d) : l = m := by
  apply List.ext_getElem h
  intro i h1 h3
  have := h2 i h1
  simpa [List.getD, h1, h3] using this

/-- Camber and half-thickness vectors of a well-formed airfoil, station by station (0 is the leading edge). -/
theorem WellFormed.parts {c : List (ℝ × ℝ)} {a : Airfoil} (h : WellFormed c a) :
    a.coordinates = c ∧ a.mcl.length = argminX c + 1 ∧ a.upperMinusMcl.length = argminX c + 1 ∧
    ∀ k ≤ argminX c,
      a.mcl.getD k (0, 0) = (1 / 2 : ℝ) • (c.getD (argminX c - k) (0, 0) + c.getD (argminX c + k) (0, 0)) ∧
      a.upperMinusMcl.getD k (0, 0) = c.getD (argminX c - k) (0, 0) - a.mcl.getD k (0, 0) := by
  have hu := h.upper_length
  have hl := h.lower_length
  have hm := h.made
  unfold Airfoil.ofCoordinates at hm
  rw [if_neg h.nonempty] at hm
  have e1 : bcast (fun u l => (1 / 2 : ℝ) • (u + l)) (upperCoordinates c).reverse (lowerCoordinates c)
      = .ok (List.zipWith (fun u l => (1 / 2 : ℝ) • (u + l)) (upperCoordinates c).reverse (lowerCoordinates c)) := by
    unfold bcast; rw [if_pos (by rw [List.length_reverse, hu, hl])]
  set M := List.zipWith (fun u l => (1 / 2 : ℝ) • (u + l)) (upperCoordinates c).reverse (lowerCoordinates c) with hM
  have hMl : M.length = argminX c + 1 := by rw [hM, List.length_zipWith, List.length_reverse, hu, hl, min_self]
  have e2 : bcast (fun u m => u - m) (upperCoordinates c).reverse M
      = .ok (List.zipWith (fun u m => u - m) (upperCoordinates c).reverse M) := by
    unfold bcast; rw [if_pos (by rw [List.length_reverse, hu, hMl])]
  simp only [e1, e2, bind, Except.bind, pure, Except.pure, Except.ok.injEq] at hm
  subst hm
  refine ⟨rfl, hMl, by simp [hu, hMl], ?_⟩
  intro k hk
  have hur : (upperCoordinates c).reverse.getD k (0, 0) = c.getD (argminX c - k) (0, 0) := by
    rw [getD_reverse' _ _ _ (by omega), hu]
    unfold upperCoordinates
    rw [getD_take _ _ _ _ (by omega)]
    congr 1
  have hlr : (lowerCoordinates c).getD k (0, 0) = c.getD (argminX c + k) (0, 0) := by
    unfold lowerCoordinates
    rw [getD_drop]
  constructor
  · show M.getD k (0, 0) = _
    rw [hM, getD_zipWith _ _ _ _ (0, 0) (0, 0) k (by rw [List.length_reverse]; omega) (by omega), hur, hlr]
  · show (List.zipWith _ _ _).getD k (0, 0) = _
    rw [getD_zipWith _ _ _ _ (0, 0) (0, 0) k (by rw [List.length_reverse]; omega) (by omega), hur]

/-- Where `add_control_surface` puts the outline points of station `k`. -/
theorem flappedCoordinates_get {c : List (ℝ × ℝ)} {a : Airfoil} (h : WellFormed c a) (angle : ℝ)
    (hinge : ℝ × ℝ) (split : ℕ) :
    (flappedCoordinates a angle hinge split).length = c.length ∧
    ∀ k ≤ argminX c,
      let move : ℝ × ℝ → ℝ × ℝ := fun p => if k < split then p else rotate2 angle (p - hinge) + hinge
      (flappedCoordinates a angle hinge split).getD (argminX c - k) (0, 0) = move (c.getD (argminX c - k) (0, 0)) ∧
      (flappedCoordinates a angle hinge split).getD (argminX c + k) (0, 0) = move (c.getD (argminX c + k) (0, 0)) := by
  obtain ⟨_, hml, hul, hst⟩ := h.parts
  set K := argminX c with hK
  set newMcl := a.mcl.take split ++ (a.mcl.drop split).map fun p => rotate2 angle (p - hinge) + hinge with hN
  set newUmm := a.upperMinusMcl.take split ++ (a.upperMinusMcl.drop split).map (rotate2 angle) with hU
  have hNl : newMcl.length = K + 1 := by rw [hN]; simp; omega
  have hUl : newUmm.length = K + 1 := by rw [hU]; simp; omega
  have hNk : ∀ k ≤ K, newMcl.getD k (0, 0)
      = if k < split then a.mcl.getD k (0, 0) else rotate2 angle (a.mcl.getD k (0, 0) - hinge) + hinge := by
    intro k hk
    rw [hN]
    by_cases hs : k < split
    · rw [if_pos hs, getD_append_left' _ _ _ _ (by simp; omega), getD_take _ _ _ _ hs]
    · rw [if_neg hs, getD_append_right' _ _ _ _ (by simp; omega),
        getD_map' _ _ _ (0, 0) _ (by simp; omega), getD_drop]
      simp only [List.length_take, hml]
      rw [show split + (k - min split (K + 1)) = k by omega]
  have hUk : ∀ k ≤ K, newUmm.getD k (0, 0)
      = if k < split then a.upperMinusMcl.getD k (0, 0) else rotate2 angle (a.upperMinusMcl.getD k (0, 0)) := by
    intro k hk
    rw [hU]
    by_cases hs : k < split
    · rw [if_pos hs, getD_append_left' _ _ _ _ (by simp; omega), getD_take _ _ _ _ hs]
    · rw [if_neg hs, getD_append_right' _ _ _ _ (by simp; omega),
        getD_map' _ _ _ (0, 0) _ (by simp; omega), getD_drop]
      simp only [List.length_take, hul]
      rw [show split + (k - min split (K + 1)) = k by omega]
  have hF : flappedCoordinates a angle hinge split
      = (List.zipWith (· + ·) newMcl newUmm).reverse ++ (List.zipWith (· - ·) newMcl newUmm).tail := rfl
  have hzl : (List.zipWith (· + ·) newMcl newUmm).length = K + 1 := by simp [hNl, hUl]
  have hodd := h.odd
  constructor
  · rw [hF]; simp [hNl, hUl]; omega
  · intro k hk move
    obtain ⟨s1, s2⟩ := hst k hk
    have lin : ∀ p q : ℝ × ℝ, rotate2 angle (p + q) = rotate2 angle p + rotate2 angle q := by
      intro p q; ext <;> simp [rotate2] <;> ring
    have lin' : ∀ p q : ℝ × ℝ, rotate2 angle (p - q) = rotate2 angle p - rotate2 angle q := by
      intro p q; ext <;> simp [rotate2] <;> ring
    have hup : c.getD (K - k) (0, 0) = a.mcl.getD k (0, 0) + a.upperMinusMcl.getD k (0, 0) := by
      rw [s2]; abel
    have hlo : c.getD (K + k) (0, 0) = a.mcl.getD k (0, 0) - a.upperMinusMcl.getD k (0, 0) := by
      rw [s2, s1]; ext <;> simp <;> ring
    constructor
    · rw [hF, getD_append_left' _ _ _ _ (by rw [List.length_reverse, hzl]; omega),
        getD_reverse' _ _ _ (by rw [hzl]; omega),
        hzl, show K + 1 - 1 - (K - k) = k by omega,
        getD_zipWith _ _ _ _ (0, 0) (0, 0) k (by omega) (by omega), hNk k hk, hUk k hk, hup]
      simp only [move]
      split_ifs
      · rfl
      · rw [lin', lin', lin]; abel
    · have key : (List.zipWith (· - ·) newMcl newUmm).getD k (0, 0) = move (c.getD (K + k) (0, 0)) := by
        rw [getD_zipWith _ _ _ _ (0, 0) (0, 0) k (by omega) (by omega), hNk k hk, hUk k hk, hlo]
        simp only [move]
        split_ifs
        · rfl
        · rw [lin', lin', lin']; abel
      rcases Nat.eq_zero_or_pos k with rfl | hk0
      · -- the leading edge is on both surfaces
        rw [hF, getD_append_left' _ _ _ _ (by simp [hNl, hUl]), getD_reverse' _ _ _ (by simp [hNl, hUl]),
          hzl, show K + 1 - 1 - (K + 0) = 0 by omega,
          getD_zipWith _ _ _ _ (0, 0) (0, 0) 0 (by omega) (by omega)]
        rw [← key, getD_zipWith _ _ _ _ (0, 0) (0, 0) 0 (by omega) (by omega)]
        have hz : newUmm.getD 0 (0, 0) = 0 := by
          rw [hUk 0 hk, s2, s1]
          have e : c.getD (K - 0) (0, 0) - (1 / 2 : ℝ) • (c.getD (K - 0) (0, 0) + c.getD (K + 0) (0, 0)) = 0 := by
            simp only [Nat.sub_zero, Nat.add_zero]
            ext <;> simp <;> ring
          rw [e]
          split_ifs
          · rfl
          · ext <;> simp [rotate2]
        rw [hz]; simp
      · rw [hF, getD_append_right' _ _ _ _ (by simp [hNl, hUl]; omega)]
        simp only [List.length_reverse, hzl]
        have : ∀ (l : List (ℝ × ℝ)) (i : ℕ), l.tail.getD i (0, 0) = l.getD (i + 1) (0, 0) := by
          intro l i; cases l <;> simp [List.getD]
        rw [this, show K + k - (K + 1) + 1 = k by omega]
        exact key

/-- Zero deflection reproduces the outline. -/
theorem flappedCoordinates_zero {c : List (ℝ × ℝ)} {a : Airfoil} (h : WellFormed c a) (hinge : ℝ × ℝ) (split : ℕ) :
    flappedCoordinates a 0 hinge split = c := by
  obtain ⟨hlen, hget⟩ := flappedCoordinates_get h 0 hinge split
  have hodd := h.odd
  have hrot : ∀ (k : ℕ) (p : ℝ × ℝ), (if k < split then p else rotate2 0 (p - hinge) + hinge) = p := by
    intro k p; split_ifs
    · rfl
    · ext <;> simp [rotate2]
  apply ext_getD _ _ (0, 0) hlen
  intro i hi
  rw [hlen] at hi
  rcases le_total i (argminX c) with hle | hle
  · have := (hget (argminX c - i) (by omega)).1
    rw [show argminX c - (argminX c - i) = i by omega] at this
    rw [this]; exact hrot _ _
  · have := (hget (i - argminX c) (by omega)).2
    rw [show argminX c + (i - argminX c) = i by omega] at this
    rw [this]; exact hrot _ _

/-- An outline whose leading edge is its middle point is accepted. -/
theorem ofCoordinates_of_odd (c : List (ℝ × ℝ)) (hne : c ≠ []) (hodd : c.length = 2 * argminX c + 1) :
    ∃ a, Airfoil.ofCoordinates c = .ok a := by
  unfold Airfoil.ofCoordinates
  rw [if_neg hne]
  have hu : (upperCoordinates c).length = argminX c + 1 := by simp [upperCoordinates]; omega
  have hl : (lowerCoordinates c).length = argminX c + 1 := by simp [lowerCoordinates]; omega
  have e2 : ∀ f M, M.length = argminX c + 1 → bcast f (upperCoordinates c).reverse M
      = .ok (List.zipWith f (upperCoordinates c).reverse M) := by
    intro f M hM; unfold bcast; rw [if_pos (by rw [List.length_reverse, hu, hM])]
  simp only [e2 _ _ hl, bind, Except.bind]
  rw [e2 _ _ (by rw [List.length_zipWith, List.length_reverse, hu, hl, min_self])]
  exact ⟨_, rfl⟩

/-- The coordinates attribute is the outline given. -/
theorem ofCoordinates_coordinates {c : List (ℝ × ℝ)} {a : Airfoil} (h : Airfoil.ofCoordinates c = .ok a) :
    a.coordinates = c ∧ c ≠ [] := by
  unfold Airfoil.ofCoordinates at h
  split_ifs at h with h0
  simp only [bind, Except.bind] at h
  split at h
  · simp at h
  · split at h
    · simp at h
    · simp only [pure, Except.pure, Except.ok.injEq] at h
      exact ⟨by rw [← h], h0⟩

end Ptera
