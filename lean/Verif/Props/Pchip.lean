import Verif.Lemmas.Pchip
import Verif.Props.Repaneled
import Verif.Props.AirfoilNames

/-!
# C93: repanelling with the library's interpolator follows the given outline

Here the interpolator is `pchip`, the model of SciPy's `PchipInterpolator` that `repanel_current_airfoil` calls.
-/

namespace Ptera

open List

/-- The `k`-th of `n` cosine-spaced x. -/
noncomputable def repanelStation (n k : ℕ) : ℝ := (1 - Real.cos (Real.pi * k / (n - 1))) / 2

/-! ## The interpolator -/

/-- C93: the interpolator passes through its nodes and changes sign with the values, as the theorems of C78 assume. -/
theorem C93_interpolator : Interpolates pchip ∧ OddInterpolation pchip := by
  constructor
  · intro xs ys f h i x y hx hy
    obtain ⟨h2, hl, hs, rfl⟩ := pchip_ok.mp h
    have hi := (List.getElem?_eq_some_iff.mp hx).1
    have ex : xs.getD i 0 = x := by simp [List.getD, hx]
    have ey : ys.getD i 0 = y := by simp [List.getD, hy]
    have := Pchip.value_node (fun i => ys.getD i 0) h2 hs hi
    simp only [ex, ey] at this
    exact this
  · intro xs ys f h
    obtain ⟨h2, hl, hs, rfl⟩ := pchip_ok.mp h
    refine ⟨_, pchip_ok.mpr ⟨h2, by simpa using hl, hs, rfl⟩, ?_⟩
    intro q
    have := Pchip.value_scaled (-1) xs.length (fun i => xs.getD i 0) (fun i => ys.getD i 0) q
    simp only [neg_one_mul] at this
    rw [← this]
    congr 1
    funext i
    have : -ys.getD i 0 = (ys.map fun y => -y).getD i (-0) := by rw [List.getD_map]
    rw [this, neg_zero]

/-! ## The nodes of the two sides -/

section sides

variable {c : List (ℝ × ℝ)} {nose : ℕ}

theorem upperNodes_length (f : ℝ × ℝ → ℝ) (h : nose < c.length) :
    ((c.take (nose + 1)).map f).reverse.length = nose + 1 := by simp; omega

theorem upperNodes_getD (f : ℝ × ℝ → ℝ) (h : nose < c.length) {i : ℕ} (hi : i ≤ nose) :
    ((c.take (nose + 1)).map f).reverse.getD i 0 = f (c.getD (nose - i) (0, 0)) := by
  have hl : nose - i < c.length := by omega
  rw [List.getD_eq_getElem _ _ (by simp; omega), List.getElem_reverse, List.getElem_map, List.getElem_take,
    List.getD_eq_getElem _ _ hl]
  congr 2
  simp only [List.length_map, List.length_take]
  omega

theorem lowerNodes_length (f : ℝ × ℝ → ℝ) : ((c.drop nose).map f).length = c.length - nose := by simp

theorem lowerNodes_getD (f : ℝ × ℝ → ℝ) {i : ℕ} (hi : nose + i < c.length) :
    ((c.drop nose).map f).getD i 0 = f (c.getD (nose + i) (0, 0)) := by
  rw [List.getD_eq_getElem _ _ (by simp; omega), List.getElem_map, List.getElem_drop, List.getD_eq_getElem _ _ hi]

theorem upper_ok (h : nose < c.length) {f : ℝ → ℝ} :
    pchip ((c.take (nose + 1)).map Prod.fst).reverse ((c.take (nose + 1)).map Prod.snd).reverse = .ok f ↔
      0 < nose ∧ (∀ i < nose, (c.getD (i + 1) (0, 0)).1 < (c.getD i (0, 0)).1) ∧
      f = Pchip.value (nose + 1) (fun i => ((c.take (nose + 1)).map Prod.fst).reverse.getD i 0)
        (fun i => ((c.take (nose + 1)).map Prod.snd).reverse.getD i 0) := by
  rw [pchip_ok, upperNodes_length _ h, upperNodes_length _ h]
  constructor
  · rintro ⟨h1, -, h2, h3⟩
    refine ⟨by omega, ?_, h3⟩
    intro i hi
    have := h2 (nose - 1 - i) (by omega)
    unfold Pchip.step at this
    dsimp only at this
    rw [upperNodes_getD _ h (by omega), upperNodes_getD _ h (by omega), show nose - (nose - 1 - i + 1) = i by omega,
      show nose - (nose - 1 - i) = i + 1 by omega] at this
    linarith
  · rintro ⟨h1, h2, h3⟩
    refine ⟨by omega, rfl, ?_, h3⟩
    intro i hi
    unfold Pchip.step
    dsimp only
    have := h2 (nose - (i + 1)) (by omega)
    rw [show nose - (i + 1) + 1 = nose - i by omega] at this
    rw [upperNodes_getD _ h (by omega), upperNodes_getD _ h (by omega)]
    linarith

theorem lower_ok {f : ℝ → ℝ} :
    pchip ((c.drop nose).map Prod.fst) ((c.drop nose).map Prod.snd) = .ok f ↔
      nose + 1 < c.length ∧ (∀ i, nose ≤ i → i + 1 < c.length → (c.getD i (0, 0)).1 < (c.getD (i + 1) (0, 0)).1) ∧
      f = Pchip.value (c.length - nose) (fun i => ((c.drop nose).map Prod.fst).getD i 0)
        (fun i => ((c.drop nose).map Prod.snd).getD i 0) := by
  rw [pchip_ok, lowerNodes_length, lowerNodes_length]
  constructor
  · rintro ⟨h1, -, h2, h3⟩
    refine ⟨by omega, ?_, h3⟩
    intro i hi hi2
    have := h2 (i - nose) (by omega)
    unfold Pchip.step at this
    dsimp only at this
    rw [lowerNodes_getD _ (by omega), lowerNodes_getD _ (by omega), show nose + (i - nose + 1) = i + 1 by omega,
      show nose + (i - nose) = i by omega] at this
    linarith
  · rintro ⟨h1, h2, h3⟩
    refine ⟨by omega, rfl, ?_, h3⟩
    intro i hi
    unfold Pchip.step
    dsimp only
    have := h2 (nose + i) (by omega) (by omega)
    rw [lowerNodes_getD _ (by omega), lowerNodes_getD _ (by omega)]
    rw [show nose + i + 1 = nose + (i + 1) by omega] at this
    linarith

end sides

theorem repaneled_exists (n : ℕ) (hn : 2 ≤ n) (u l : ℝ → ℝ) :
    ∃ a, Airfoil.ofCoordinates (List.zip ((cosspace 0 1 n).reverse ++ (cosspace 0 1 n).tail)
      ((cosspace 0 1 n).reverse.map u ++ (cosspace 0 1 n).tail.map l)) = .ok a := by
  obtain ⟨a, ha⟩ := (repaneled_sharp n hn u l).wellFormed
  exact ⟨a, ha.1⟩

/-! ## Airfoils -/

/-- C93: an outline can be repanelled exactly when its x decrease from the first point to the nose and increase from
there to the last, with at least one point on either side; for all others a `ValueError` is raised. -/
theorem C93_accepted (c : List (ℝ × ℝ)) (nose : ℕ) (hnose : IsNose c nose) (n : ℕ) (hn : 2 ≤ n) :
    ((∃ a, Airfoil.create pchip c true n = .ok a) ↔ 0 < nose ∧ nose + 1 < c.length ∧
      (∀ i < nose, (c.getD (i + 1) (0, 0)).1 < (c.getD i (0, 0)).1) ∧
      ∀ i, nose ≤ i → i + 1 < c.length → (c.getD i (0, 0)).1 < (c.getD (i + 1) (0, 0)).1) ∧
    ∀ e, Airfoil.create pchip c true n = .error e → e = .valueError := by
  have hl := hnose.1
  constructor
  · constructor
    · rintro ⟨a, ha⟩
      obtain ⟨u, l, h1, h2, -⟩ := create_repaneled_ok.mp ha
      rw [hnose.argmin] at h1 h2
      obtain ⟨p1, p2, -⟩ := (upper_ok hl).mp h1
      obtain ⟨q1, q2, -⟩ := lower_ok.mp h2
      exact ⟨p1, q1, p2, q2⟩
    · rintro ⟨p1, q1, p2, q2⟩
      obtain ⟨a, ha⟩ := repaneled_exists n hn
        (Pchip.value (nose + 1) (fun i => ((c.take (nose + 1)).map Prod.fst).reverse.getD i 0)
          (fun i => ((c.take (nose + 1)).map Prod.snd).reverse.getD i 0))
        (Pchip.value (c.length - nose) (fun i => ((c.drop nose).map Prod.fst).getD i 0)
          (fun i => ((c.drop nose).map Prod.snd).getD i 0))
      refine ⟨a, create_repaneled_ok.mpr ⟨_, _, ?_, ?_, ha⟩⟩
      · rw [hnose.argmin]; exact (upper_ok hl).mpr ⟨p1, p2, rfl⟩
      · rw [hnose.argmin]; exact lower_ok.mpr ⟨q1, q2, rfl⟩
  · intro e he
    unfold Airfoil.create repanelCoordinates at he
    simp only [if_true] at he
    cases h1 : pchip ((upperCoordinates c).map Prod.fst).reverse ((upperCoordinates c).map Prod.snd).reverse with
    | error e' =>
      rw [h1] at he
      cases he
      exact pchip_error h1
    | ok u =>
      cases h2 : pchip ((lowerCoordinates c).map Prod.fst) ((lowerCoordinates c).map Prod.snd) with
      | error e' =>
        rw [h1, h2] at he
        cases he
        exact pchip_error h2
      | ok l =>
        rw [h1, h2] at he
        obtain ⟨a, ha⟩ := repaneled_exists n hn u l
        have he' : Airfoil.ofCoordinates (List.zip ((cosspace 0 1 n).reverse ++ (cosspace 0 1 n).tail)
          ((cosspace 0 1 n).reverse.map u ++ (cosspace 0 1 n).tail.map l)) = .error e := he
        rw [ha] at he'
        cases he'

/-- The two sides of a repanelled outline, as interpolants of the given points. -/
theorem repaneled_sides {c : List (ℝ × ℝ)} {nose : ℕ} (hnose : IsNose c nose) {n : ℕ} (hn : 2 ≤ n) {a : Airfoil}
    (h : Airfoil.create pchip c true n = .ok a) {k : ℕ} (hk : k < n) :
    a.coordinates.getD (n - 1 - k) (0, 0) = (repanelStation n k,
      Pchip.value (nose + 1) (fun i => ((c.take (nose + 1)).map Prod.fst).reverse.getD i 0)
        (fun i => ((c.take (nose + 1)).map Prod.snd).reverse.getD i 0) (repanelStation n k)) ∧
    (0 < k → a.coordinates.getD (n - 1 + k) (0, 0) = (repanelStation n k,
      Pchip.value (c.length - nose) (fun i => ((c.drop nose).map Prod.fst).getD i 0)
        (fun i => ((c.drop nose).map Prod.snd).getD i 0) (repanelStation n k))) := by
  obtain ⟨u, l, h1, h2, -, h3⟩ := C78_points pchip c nose hnose n hn a h
  obtain ⟨-, -, rfl⟩ := (upper_ok hnose.1).mp h1
  obtain ⟨-, -, rfl⟩ := lower_ok.mp h2
  exact ⟨(h3 k hk).1, fun hpos => ((h3 k hk).2 hpos).1⟩

theorem repaneled_steps {c : List (ℝ × ℝ)} {nose : ℕ} (hnose : IsNose c nose) {n : ℕ} {a : Airfoil}
    (h : Airfoil.create pchip c true n = .ok a) :
    0 < nose ∧ nose + 1 < c.length ∧
    (∀ i, i + 1 < nose + 1 → 0 < Pchip.step (fun i => ((c.take (nose + 1)).map Prod.fst).reverse.getD i 0) i) ∧
    ∀ i, i + 1 < c.length - nose → 0 < Pchip.step (fun i => ((c.drop nose).map Prod.fst).getD i 0) i := by
  obtain ⟨u, l, h1, h2, -⟩ := create_repaneled_ok.mp h
  rw [hnose.argmin] at h1 h2
  obtain ⟨p1, -, p2, -⟩ := pchip_ok.mp h1
  obtain ⟨q1, -, q2, -⟩ := pchip_ok.mp h2
  rw [upperNodes_length _ hnose.1] at p1 p2
  rw [lowerNodes_length] at q1 q2
  exact ⟨by omega, by omega, p2, q2⟩

/-- C93: between two neighbouring given points of a side, the points of that side of the repanelled outline lie between
their heights: repanelling does not overshoot. -/
theorem C93_between (c : List (ℝ × ℝ)) (nose : ℕ) (hnose : IsNose c nose) (n : ℕ) (hn : 2 ≤ n) (a : Airfoil)
    (h : Airfoil.create pchip c true n = .ok a) (k : ℕ) (hk : k < n) :
    (∀ i < nose, (c.getD (i + 1) (0, 0)).1 ≤ repanelStation n k → repanelStation n k ≤ (c.getD i (0, 0)).1 →
      min (c.getD i (0, 0)).2 (c.getD (i + 1) (0, 0)).2 ≤ (a.coordinates.getD (n - 1 - k) (0, 0)).2 ∧
      (a.coordinates.getD (n - 1 - k) (0, 0)).2 ≤ max (c.getD i (0, 0)).2 (c.getD (i + 1) (0, 0)).2) ∧
    (0 < k → ∀ i, nose ≤ i → i + 1 < c.length → (c.getD i (0, 0)).1 ≤ repanelStation n k →
      repanelStation n k ≤ (c.getD (i + 1) (0, 0)).1 →
      min (c.getD i (0, 0)).2 (c.getD (i + 1) (0, 0)).2 ≤ (a.coordinates.getD (n - 1 + k) (0, 0)).2 ∧
      (a.coordinates.getD (n - 1 + k) (0, 0)).2 ≤ max (c.getD i (0, 0)).2 (c.getD (i + 1) (0, 0)).2) := by
  have hl := hnose.1
  obtain ⟨e1, e2⟩ := repaneled_sides hnose hn h hk
  obtain ⟨p1, q1, p2, q2⟩ := repaneled_steps hnose h
  constructor
  · intro i hi h1 h2
    rw [e1]
    have key := Pchip.value_between (fun i => ((c.take (nose + 1)).map Prod.snd).reverse.getD i 0) (by omega) p2
      (i := nose - 1 - i) (by omega) (q := repanelStation n k)
      (by rw [upperNodes_getD _ hl (by omega), show nose - (nose - 1 - i) = i + 1 by omega]; exact h1)
      (by rw [upperNodes_getD _ hl (by omega), show nose - (nose - 1 - i + 1) = i by omega]; exact h2)
    rw [upperNodes_getD _ hl (by omega), upperNodes_getD _ hl (by omega), show nose - (nose - 1 - i) = i + 1 by omega,
      show nose - (nose - 1 - i + 1) = i by omega, min_comm, max_comm] at key
    exact key
  · intro hpos i hi hi2 h1 h2
    rw [e2 hpos]
    have key := Pchip.value_between (fun i => ((c.drop nose).map Prod.snd).getD i 0) (by omega) q2
      (i := i - nose) (by omega) (q := repanelStation n k)
      (by rw [lowerNodes_getD _ (by omega), show nose + (i - nose) = i by omega]; exact h1)
      (by rw [lowerNodes_getD _ (by omega), show nose + (i - nose + 1) = i + 1 by omega]; exact h2)
    rw [lowerNodes_getD _ (by omega), lowerNodes_getD _ (by omega), show nose + (i - nose) = i by omega,
      show nose + (i - nose + 1) = i + 1 by omega] at key
    exact key

/-- C93: between two neighbouring given points of a side, the heights of the repanelled points rise or fall without
turning, as the given ones do: repanelling adds no wiggles. -/
theorem C93_monotone (c : List (ℝ × ℝ)) (nose : ℕ) (hnose : IsNose c nose) (n : ℕ) (hn : 2 ≤ n) (a : Airfoil)
    (h : Airfoil.create pchip c true n = .ok a) (k k' : ℕ) (hk : k < n) (hk' : k' < n)
    (hkk : repanelStation n k ≤ repanelStation n k') :
    (∀ i < nose, (c.getD (i + 1) (0, 0)).1 ≤ repanelStation n k → repanelStation n k' ≤ (c.getD i (0, 0)).1 →
      ((c.getD (i + 1) (0, 0)).2 ≤ (c.getD i (0, 0)).2 →
        (a.coordinates.getD (n - 1 - k) (0, 0)).2 ≤ (a.coordinates.getD (n - 1 - k') (0, 0)).2) ∧
      ((c.getD i (0, 0)).2 ≤ (c.getD (i + 1) (0, 0)).2 →
        (a.coordinates.getD (n - 1 - k') (0, 0)).2 ≤ (a.coordinates.getD (n - 1 - k) (0, 0)).2)) ∧
    (0 < k → 0 < k' → ∀ i, nose ≤ i → i + 1 < c.length → (c.getD i (0, 0)).1 ≤ repanelStation n k →
      repanelStation n k' ≤ (c.getD (i + 1) (0, 0)).1 →
      ((c.getD i (0, 0)).2 ≤ (c.getD (i + 1) (0, 0)).2 →
        (a.coordinates.getD (n - 1 + k) (0, 0)).2 ≤ (a.coordinates.getD (n - 1 + k') (0, 0)).2) ∧
      ((c.getD (i + 1) (0, 0)).2 ≤ (c.getD i (0, 0)).2 →
        (a.coordinates.getD (n - 1 + k') (0, 0)).2 ≤ (a.coordinates.getD (n - 1 + k) (0, 0)).2)) := by
  have hl := hnose.1
  obtain ⟨e1, e2⟩ := repaneled_sides hnose hn h hk
  obtain ⟨f1, f2⟩ := repaneled_sides hnose hn h hk'
  obtain ⟨p1, q1, p2, q2⟩ := repaneled_steps hnose h
  constructor
  · intro i hi h1 h2
    rw [e1, f1]
    have key := Pchip.value_monotone (fun i => ((c.take (nose + 1)).map Prod.snd).reverse.getD i 0) p2
      (i := nose - 1 - i) (by omega) (q := repanelStation n k) (r := repanelStation n k')
      (by rw [upperNodes_getD _ hl (by omega), show nose - (nose - 1 - i) = i + 1 by omega]; exact h1) hkk
      (by rw [upperNodes_getD _ hl (by omega), show nose - (nose - 1 - i + 1) = i by omega]; exact h2)
    rw [upperNodes_getD _ hl (by omega), upperNodes_getD _ hl (by omega), show nose - (nose - 1 - i) = i + 1 by omega,
      show nose - (nose - 1 - i + 1) = i by omega] at key
    exact key
  · intro hpos hpos' i hi hi2 h1 h2
    rw [e2 hpos, f2 hpos']
    have key := Pchip.value_monotone (fun i => ((c.drop nose).map Prod.snd).getD i 0) q2
      (i := i - nose) (by omega) (q := repanelStation n k) (r := repanelStation n k')
      (by rw [lowerNodes_getD _ (by omega), show nose + (i - nose) = i by omega]; exact h1) hkk
      (by rw [lowerNodes_getD _ (by omega), show nose + (i - nose + 1) = i + 1 by omega]; exact h2)
    rw [lowerNodes_getD _ (by omega), lowerNodes_getD _ (by omega), show nose + (i - nose) = i by omega,
      show nose + (i - nose + 1) = i + 1 by omega] at key
    exact key

theorem repanelStation_mem (n k : ℕ) : 0 ≤ repanelStation n k ∧ repanelStation n k ≤ 1 := by
  unfold repanelStation
  have h1 := Real.cos_le_one (Real.pi * k / (n - 1))
  have h2 := Real.neg_one_le_cos (Real.pi * k / (n - 1))
  constructor <;> linarith

/-- C93: if the given points span the chord from 0 to 1, each side of the repanelled outline stays between any bounds the
given points of that side keep. -/
theorem C93_extent (c : List (ℝ × ℝ)) (nose : ℕ) (hnose : IsNose c nose) (n : ℕ) (hn : 2 ≤ n) (a : Airfoil)
    (h : Airfoil.create pchip c true n = .ok a) (h0 : (c.getD nose (0, 0)).1 ≤ 0) (lo hi : ℝ) (k : ℕ) (hk : k < n) :
    (1 ≤ (c.getD 0 (0, 0)).1 → (∀ i ≤ nose, lo ≤ (c.getD i (0, 0)).2 ∧ (c.getD i (0, 0)).2 ≤ hi) →
      lo ≤ (a.coordinates.getD (n - 1 - k) (0, 0)).2 ∧ (a.coordinates.getD (n - 1 - k) (0, 0)).2 ≤ hi) ∧
    (1 ≤ (c.getD (c.length - 1) (0, 0)).1 →
      (∀ i, nose ≤ i → i < c.length → lo ≤ (c.getD i (0, 0)).2 ∧ (c.getD i (0, 0)).2 ≤ hi) →
      0 < k → lo ≤ (a.coordinates.getD (n - 1 + k) (0, 0)).2 ∧ (a.coordinates.getD (n - 1 + k) (0, 0)).2 ≤ hi) := by
  have hl := hnose.1
  obtain ⟨p1, q1, -, -⟩ := repaneled_steps hnose h
  obtain ⟨b1, b2⟩ := C93_between c nose hnose n hn a h k hk
  obtain ⟨s0, s1⟩ := repanelStation_mem n k
  constructor
  · intro hT hb
    obtain ⟨j, hj, j1, j2⟩ := Pchip.on_piece (n := nose + 1) (x := fun i => (c.getD (nose - i) (0, 0)).1) (by omega)
      (q := repanelStation n k) (by rw [Nat.sub_zero]; linarith)
      (by rw [show nose - (nose + 1 - 1) = 0 by omega]; linarith)
    have := b1 (nose - (j + 1)) (by omega) (by rw [show nose - (j + 1) + 1 = nose - j by omega]; exact j1) j2
    obtain ⟨c1, c2⟩ := hb (nose - (j + 1)) (by omega)
    obtain ⟨d1, d2⟩ := hb (nose - (j + 1) + 1) (by omega)
    exact ⟨(le_min c1 d1).trans this.1, this.2.trans (max_le c2 d2)⟩
  · intro hB hb hpos
    obtain ⟨j, hj, j1, j2⟩ := Pchip.on_piece (n := c.length - nose) (x := fun i => (c.getD (nose + i) (0, 0)).1) (by omega)
      (q := repanelStation n k) (by rw [Nat.add_zero]; linarith)
      (by rw [show nose + (c.length - nose - 1) = c.length - 1 by omega]; linarith)
    have := b2 hpos (nose + j) (by omega) (by omega) j1 j2
    obtain ⟨c1, c2⟩ := hb (nose + j) (by omega) (by omega)
    obtain ⟨d1, d2⟩ := hb (nose + j + 1) (by omega) (by omega)
    exact ⟨(le_min c1 d1).trans this.1, this.2.trans (max_le c2 d2)⟩

/-- C93: a side given on a straight line is on that line after repanelling, also where it is extended. -/
theorem C93_straight (c : List (ℝ × ℝ)) (nose : ℕ) (hnose : IsNose c nose) (n : ℕ) (hn : 2 ≤ n) (a : Airfoil)
    (h : Airfoil.create pchip c true n = .ok a) (α β : ℝ) (k : ℕ) (hk : k < n) :
    ((∀ i ≤ nose, (c.getD i (0, 0)).2 = α + β * (c.getD i (0, 0)).1) →
      (a.coordinates.getD (n - 1 - k) (0, 0)).2 = α + β * repanelStation n k) ∧
    ((∀ i, nose ≤ i → i < c.length → (c.getD i (0, 0)).2 = α + β * (c.getD i (0, 0)).1) → 0 < k →
      (a.coordinates.getD (n - 1 + k) (0, 0)).2 = α + β * repanelStation n k) := by
  have hl := hnose.1
  obtain ⟨e1, e2⟩ := repaneled_sides hnose hn h hk
  obtain ⟨p1, q1, p2, q2⟩ := repaneled_steps hnose h
  constructor
  · intro hline
    rw [e1]
    refine Pchip.value_line (by omega) p2 ?_ _
    intro i hi
    rw [upperNodes_getD _ hl (by omega), upperNodes_getD _ hl (by omega)]
    exact hline _ (by omega)
  · intro hline hpos
    rw [e2 hpos]
    refine Pchip.value_line (by omega) q2 ?_ _
    intro i hi
    rw [lowerNodes_getD _ (by omega), lowerNodes_getD _ (by omega)]
    exact hline _ (by omega) (by omega)

/-- C93: an outline with all heights multiplied by a number is repanelled to the repanelled outline with its heights
multiplied by it. -/
theorem C93_scaled (c : List (ℝ × ℝ)) (nose : ℕ) (hnose : IsNose c nose) (n : ℕ) (hn : 2 ≤ n) (a : Airfoil)
    (h : Airfoil.create pchip c true n = .ok a) (s : ℝ) :
    ∃ b, Airfoil.create pchip (c.map fun P => (P.1, s * P.2)) true n = .ok b ∧
      b.coordinates = a.coordinates.map fun P => (P.1, s * P.2) := by
  have hl := hnose.1
  set d := c.map fun P => (P.1, s * P.2) with hd
  have hdl : d.length = c.length := by simp [hd]
  have hg : ∀ i < c.length, d.getD i (0, 0) = ((c.getD i (0, 0)).1, s * (c.getD i (0, 0)).2) := by
    intro i hi
    rw [hd, getD_map' _ _ _ (0, 0) _ hi]
  have hnose' : IsNose d nose := by
    refine ⟨by omega, ?_, ?_⟩
    · intro i hi
      rw [hg _ hl, hg _ (by omega)]
      exact hnose.2.1 i hi
    · intro i hi
      rw [hg _ hl, hg _ (by omega)]
      exact hnose.2.2 i (by omega)
  obtain ⟨p1, q1, p2, q2⟩ := (C93_accepted c nose hnose n hn).1.mp ⟨a, h⟩
  obtain ⟨b, hb⟩ := (C93_accepted d nose hnose' n hn).1.mpr ⟨p1, by omega, by
    intro i hi
    rw [hg _ (by omega), hg _ (by omega)]; exact p2 i hi, by
    intro i hi hi2
    rw [hg _ (by omega), hg _ (by omega)]; exact q2 i hi (by omega)⟩
  refine ⟨b, hb, ?_⟩
  have la := (C78_points pchip c nose hnose n hn a h).choose_spec.choose_spec.2.2.1
  have lb := (C78_points pchip d nose hnose' n hn b hb).choose_spec.choose_spec.2.2.1
  have hU : ∀ f : ℝ × ℝ → ℝ, (fun i => ((d.take (nose + 1)).map f).reverse.getD i 0)
      = fun i => ((c.take (nose + 1)).map fun P => f (P.1, s * P.2)).reverse.getD i 0 := by
    intro f; rw [hd, ← List.map_take, List.map_map]; rfl
  have hL : ∀ f : ℝ × ℝ → ℝ, (fun i => ((d.drop nose).map f).getD i 0)
      = fun i => ((c.drop nose).map fun P => f (P.1, s * P.2)).getD i 0 := by
    intro f; rw [hd, ← List.map_drop, List.map_map]; rfl
  have hm : ∀ (l : List (ℝ × ℝ)), (fun i => (l.map fun P => s * P.2).reverse.getD i 0)
      = fun i => s * (l.map Prod.snd).reverse.getD i 0 := by
    intro l
    funext i
    rw [show (l.map fun P => s * P.2) = (l.map Prod.snd).map (s * ·) by rw [List.map_map]; rfl, ← List.map_reverse]
    have : s * (l.map Prod.snd).reverse.getD i 0 = ((l.map Prod.snd).reverse.map (s * ·)).getD i (s * 0) := by
      rw [List.getD_map]
    rw [this, mul_zero]
  have hm' : ∀ (l : List (ℝ × ℝ)), (fun i => (l.map fun P => s * P.2).getD i 0)
      = fun i => s * (l.map Prod.snd).getD i 0 := by
    intro l
    funext i
    rw [show (l.map fun P => s * P.2) = (l.map Prod.snd).map (s * ·) by rw [List.map_map]; rfl]
    have : s * (l.map Prod.snd).getD i 0 = ((l.map Prod.snd).map (s * ·)).getD i (s * 0) := by
      rw [List.getD_map]
    rw [this, mul_zero]
  apply ext_getD _ _ (0, 0) (by rw [lb, List.length_map, la])
  intro i hi
  rw [lb] at hi
  rw [getD_map' _ _ _ (0, 0) _ (by rw [la]; exact hi)]
  rcases Nat.lt_or_ge (n - 1) i with hgt | hle
  · have ha := (repaneled_sides hnose hn h (k := i - (n - 1)) (by omega)).2 (by omega)
    have hb := (repaneled_sides hnose' hn hb (k := i - (n - 1)) (by omega)).2 (by omega)
    rw [show n - 1 + (i - (n - 1)) = i by omega] at ha hb
    rw [ha, hb, hL Prod.fst, hL Prod.snd, hm', hdl, Pchip.value_scaled]
  · have ha := (repaneled_sides hnose hn h (k := n - 1 - i) (by omega)).1
    have hb := (repaneled_sides hnose' hn hb (k := n - 1 - i) (by omega)).1
    rw [show n - 1 - (n - 1 - i) = i by omega] at ha hb
    rw [ha, hb, hU Prod.fst, hU Prod.snd, hm, Pchip.value_scaled]

/-! ## Symmetric four-digit airfoils -/

theorem station_lt {j k : ℕ} (h : j < k) (hk : k ≤ 99) : nacaStation j < nacaStation k := by
  have hj' : (j : ℝ) < k := by exact_mod_cast h
  have hk' : (k : ℝ) ≤ 99 := by exact_mod_cast hk
  have hpi := Real.pi_pos
  have : Real.cos (Real.pi * k / 99) < Real.cos (Real.pi * j / 99) := by
    apply Real.cos_lt_cos_of_nonneg_of_le_pi (by positivity)
    · rw [div_le_iff₀ (by norm_num)]; nlinarith
    · gcongr
  unfold nacaStation
  linarith

theorem halfThickness_nonneg {t x : ℝ} (ht : 0 ≤ t) (h0 : 0 ≤ x) (h1 : x ≤ 1) : 0 ≤ nacaHalfThickness t x := by
  obtain ⟨r, hr0, rfl⟩ : ∃ r : ℝ, 0 ≤ r ∧ x = r ^ 2 := ⟨√x, Real.sqrt_nonneg x, (Real.sq_sqrt h0).symm⟩
  have hr1 : r ≤ 1 := by nlinarith
  unfold nacaHalfThickness
  rw [Real.sqrt_sq hr0]
  have p3 : r ^ 3 ≤ r := by nlinarith [mul_nonneg hr0 (sub_nonneg.mpr h1)]
  have p4 : r ^ 4 ≤ r ^ 2 := by nlinarith [mul_nonneg (sq_nonneg r) (sub_nonneg.mpr h1)]
  have p7 : r ^ 7 ≤ r ^ 5 := by
    have : 0 ≤ r ^ 5 * (1 - r ^ 2) := mul_nonneg (by positivity) (sub_nonneg.mpr h1)
    nlinarith
  have q : 0 ≤ (1 - r) * (0.2948 + 0.1688 * r + 0.1688 * r ^ 2 - 0.1828 * r ^ 3 - 0.1828 * r ^ 4) :=
    mul_nonneg (by linarith) (by nlinarith)
  have g : 0 ≤ 0.2969 - 0.126 * r - 0.3516 * r ^ 3 + 0.2843 * r ^ 5 - 0.1015 * r ^ 7 := by nlinarith
  have e : 5 * t * (0.2969 * r - 0.1260 * r ^ 2 - 0.3516 * (r ^ 2) ^ 2 + 0.2843 * (r ^ 2) ^ 3 - 0.1015 * (r ^ 2) ^ 4)
      = 5 * t * (r * (0.2969 - 0.126 * r - 0.3516 * r ^ 3 + 0.2843 * r ^ 5 - 0.1015 * r ^ 7)) := by ring
  rw [e]
  positivity

theorem naca_points (d2 t : ℕ) :
    ∀ k ≤ 99, (nacaCoordinates 0 d2 t).getD (99 - k) (0, 0) = (nacaStation k, nacaHalfThickness (t / 100) (nacaStation k)) ∧
      (nacaCoordinates 0 d2 t).getD (99 + k) (0, 0) = (nacaStation k, -nacaHalfThickness (t / 100) (nacaStation k)) := by
  intro k hk
  obtain ⟨h1, h2⟩ := (C24_outline 0 d2 t).2 k hk
  rw [h1, h2]
  constructor <;> (ext <;> simp [nacaSlope, nacaCamber])

/-- C93: the names `naca00xx` in any case, with blanks around them, give an airfoil for every number of points per side
from two on. It is symmetric with a straight camber line, begins and ends at the trailing edge of the series, and its
upper side is nowhere below the chord nor above a height that bounds the thickness at the 100 computed stations. -/
theorem C93_naca (database : List Char → Option (List Char)) (number : List Char → Option ℝ)
    (before after word : List Char) (p t u : ℕ) (hword : word.map Char.toLower = "naca".toList) (hp : p < 10) (ht : t < 10)
    (hu : u < 10) (hb : Blank before) (ha : Blank after) (n : ℕ) (hn : 2 ≤ n) :
    ∃ a, Airfoil.named database number pchip (before ++ (word ++ [0, p, t, u].map Nat.digitChar) ++ after) true n = .ok a ∧
      a.coordinates.length = 2 * n - 1 ∧ invertedOutline a.coordinates = a.coordinates ∧
      a.mcl.map Prod.fst = cosspace 0 1 n ∧ (∀ P ∈ a.mcl, P.2 = 0) ∧
      a.coordinates.getD 0 (0, 0) = (1, 0.0105 * (((10 * t + u : ℕ) : ℝ) / 100)) ∧
      a.coordinates.getD (n - 1) (0, 0) = (0, 0) ∧
      ∀ hi, (∀ k ≤ 99, nacaHalfThickness (((10 * t + u : ℕ) : ℝ) / 100) (nacaStation k) ≤ hi) →
        ∀ k < n, 0 ≤ (a.coordinates.getD k (0, 0)).2 ∧ (a.coordinates.getD k (0, 0)).2 ≤ hi := by
  rw [C74_four_digits database number pchip before after word 0 p t u hword (by norm_num) hp ht hu hb ha true n]
  generalize 10 * t + u = T
  set c := nacaCoordinates 0 p T with hc
  have hlen : c.length = 199 := (C24_outline 0 p T).1
  have hpts := naca_points p T
  rw [← hc] at hpts
  have up : ∀ i ≤ 99, c.getD i (0, 0) = (nacaStation (99 - i), nacaHalfThickness (T / 100) (nacaStation (99 - i))) := by
    intro i hi
    have := (hpts (99 - i) (by omega)).1
    rwa [show 99 - (99 - i) = i by omega] at this
  have dn : ∀ i, 99 ≤ i → i < 199 → c.getD i (0, 0)
      = (nacaStation (i - 99), -nacaHalfThickness (T / 100) (nacaStation (i - 99))) := by
    intro i hi hi2
    have := (hpts (i - 99) (by omega)).2
    rwa [show 99 + (i - 99) = i by omega] at this
  have hz : c.getD 99 (0, 0) = (0, 0) := by
    rw [up 99 le_rfl, Nat.sub_self, station_zero]
    simp [nacaHalfThickness]
  have hpos : ∀ i < c.length, i ≠ 99 → 0 < (c.getD i (0, 0)).1 := by
    intro i hi hne
    rw [hlen] at hi
    rcases Nat.lt_or_ge i 99 with h | h
    · rw [up i h.le]; exact station_pos _ (by omega) (by omega)
    · rw [dn i h hi]; exact station_pos _ (by omega) (by omega)
  have hnose : IsNose c 99 := by
    refine ⟨by omega, ?_, ?_⟩
    · intro i hi
      rw [hz]; exact hpos i (by omega) (by omega)
    · intro i hi
      rw [hz]
      by_cases h : i = 99
      · rw [h, hz]
      · exact (hpos i hi h).le
  have hsharp : SharpNose c := ⟨99, hlen, by intro i hi hne; rw [hz]; exact hpos i hi hne⟩
  have hsym : invertedOutline c = c := by
    apply ext_getD _ _ (0, 0) (invertedOutline_length c)
    intro i hi
    rw [invertedOutline_length, hlen] at hi
    rw [invertedOutline_getD _ _ (by omega), hlen]
    rcases Nat.le_total i 99 with h | h
    · rw [up i h, dn (199 - 1 - i) (by omega) (by omega), show 199 - 1 - i - 99 = 99 - i by omega]
      simp [flip2]
    · rw [dn i h hi, up (199 - 1 - i) (by omega), show 99 - (199 - 1 - i) = i - 99 by omega]
      simp [flip2]
  obtain ⟨a, hcreate⟩ := (C93_accepted c 99 hnose n hn).1.mpr ⟨by norm_num, by omega, by
    intro i hi
    rw [up i (by omega), up (i + 1) (by omega)]
    exact station_lt (by omega) (by omega), by
    intro i hi hi2
    rw [dn i hi (by omega), dn (i + 1) (by omega) (by omega)]
    exact station_lt (by omega) (by omega)⟩
  have hmem : ∃ y, ((0 : ℝ), y) ∈ c := ⟨0, by
    have h99 : 99 < c.length := by omega
    rw [← hz, List.getD_eq_getElem _ _ h99]
    exact List.getElem_mem h99⟩
  have hnn : ∀ P ∈ c, 0 ≤ P.1 := by
    intro P hP
    obtain ⟨i, hi, rfl⟩ := List.getElem_of_mem hP
    rw [← List.getD_eq_getElem _ (0, 0) hi]
    by_cases h : i = 99
    · rw [h, hz]
    · exact (hpos i hi h).le
  obtain ⟨s1, s2⟩ := C78_symmetric pchip C93_interpolator.1 C93_interpolator.2 c hsharp hmem hnn hsym n hn a hcreate
  have hT : (c.getD 0 (0, 0)) = (1, 0.0105 * ((T : ℝ) / 100)) := by
    rw [up 0 (by norm_num), Nat.sub_zero, station_last]
    ext
    · rfl
    · simp only [nacaHalfThickness, Real.sqrt_one]; ring
  have hB : (c.getD (c.length - 1) (0, 0)).1 = 1 := by
    rw [hlen, dn 198 (by norm_num) (by norm_num)]
    exact station_last
  obtain ⟨k1, k2, -⟩ := C78_ends_kept pchip C93_interpolator.1 c 99 hnose n hn a hcreate (by rw [hz]) (by rw [hT]) hB
  refine ⟨a, hcreate, (C78_points pchip c 99 hnose n hn a hcreate).choose_spec.choose_spec.2.2.1, s1,
    (C24_repaneled pchip c n hn a hcreate).2.2.2.1, s2, by rw [k1, hT], by rw [k2, hz], ?_⟩
  intro hi hhi k hk
  have := (C93_extent c 99 hnose n hn a hcreate (by rw [hz]) 0 hi (n - 1 - k) (by omega)).1 (by rw [hT])
  rw [show n - 1 - (n - 1 - k) = k by omega] at this
  apply this
  intro i h99
  rw [up i h99]
  refine ⟨halfThickness_nonneg (by positivity) ?_ ?_, hhi _ (by omega)⟩
  · rcases Nat.eq_zero_or_pos (99 - i) with h | h
    · rw [h, station_zero]
    · exact (station_pos _ h (by omega)).le
  · rcases Nat.eq_zero_or_pos i with h | h
    · rw [h, Nat.sub_zero, station_last]
    · rw [← station_last]; exact (station_lt (by omega) le_rfl).le

/-! ## The hypotheses are met -/

/-- The diamond airfoil meets the hypotheses of all theorems above, with any number of points per side. -/
example (n : ℕ) (hn : 2 ≤ n) : IsNose diamond 2 ∧ (∃ a, Airfoil.create pchip diamond true n = .ok a) ∧
    (diamond.getD 2 (0, 0)).1 ≤ 0 ∧ 1 ≤ (diamond.getD 0 (0, 0)).1 ∧ 1 ≤ (diamond.getD (diamond.length - 1) (0, 0)).1 ∧
    ∃ i k, i < 2 ∧ k < n ∧ (diamond.getD (i + 1) (0, 0)).1 ≤ repanelStation n k ∧
      repanelStation n k ≤ (diamond.getD i (0, 0)).1 := by
  have hnose : IsNose diamond 2 := by
    refine ⟨by simp [diamond], ?_, ?_⟩
    · intro i hi; interval_cases i <;> simp [diamond]
    · intro i hi
      have : i < 5 := by simpa [diamond] using hi
      interval_cases i <;> simp [diamond]
  refine ⟨hnose, (C93_accepted diamond 2 hnose n hn).1.mpr ⟨by norm_num, by simp [diamond], ?_, ?_⟩, by simp [diamond],
    by simp [diamond], by simp [diamond], 1, 0, by norm_num, by omega, by simp [diamond, repanelStation],
    by simp [diamond, repanelStation]⟩
  · intro i hi; interval_cases i <;> norm_num [diamond]
  · intro i hi hi2
    have : i < 4 := by simp [diamond] at hi2; omega
    interval_cases i <;> norm_num [diamond]

/-- An outline that cannot be repanelled: two points of the upper side above each other. -/
example (n : ℕ) (hn : 2 ≤ n) :
    ¬ ∃ a, Airfoil.create pchip [(1, 0), (1, 1 / 10), (0, 0), (1, 0)] true n = .ok a := by
  have hnose : IsNose [((1 : ℝ), (0 : ℝ)), (1, 1 / 10), (0, 0), (1, 0)] 2 := by
    refine ⟨by simp, ?_, ?_⟩
    · intro i hi; interval_cases i <;> simp
    · intro i hi
      have : i < 4 := by simpa using hi
      interval_cases i <;> simp
  rw [(C93_accepted _ 2 hnose n hn).1]
  rintro ⟨-, -, h, -⟩
  have := h 0 (by norm_num)
  simp at this

/-- `" NACA0012"` with 400 points per side. -/
example (database : List Char → Option (List Char)) (number : List Char → Option ℝ) :
    ∃ a, Airfoil.named database number pchip " NACA0012".toList true 400 = .ok a ∧ a.coordinates.length = 799 := by
  obtain ⟨a, h1, h2, -⟩ := C93_naca database number [' '] [] "NACA".toList 0 1 2 (by decide) (by norm_num) (by norm_num)
    (by norm_num) (by intro c hc; rw [List.mem_singleton.mp hc]; decide) (by intro c hc; cases hc) 400 (by norm_num)
  exact ⟨a, h1, h2⟩

end Ptera
