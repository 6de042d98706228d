import Verif.Lemmas.InvertedAirfoil
import Verif.Lemmas.MapM
import Verif.Props.CamberLine
import Verif.Props.ControlSurface
import Verif.Props.Naca

/-!
# Repanelled airfoils

C78: where the points of a repanelled airfoil lie. The interpolator of the library (`PchipInterpolator`) is an arbitrary
function; what is assumed of it is stated in each theorem.
-/

namespace Ptera

open List

/-- Specification: `k` is the nose of outline `c`, the first of its foremost points. -/
def IsNose (c : List (ℝ × ℝ)) (k : ℕ) : Prop :=
  k < c.length ∧ (∀ i < k, (c.getD k (0, 0)).1 < (c.getD i (0, 0)).1) ∧
  ∀ i < c.length, (c.getD k (0, 0)).1 ≤ (c.getD i (0, 0)).1

/-- Specification: the interpolants pass through their nodes. -/
def Interpolates (pchip : List ℝ → List ℝ → Except Err (ℝ → ℝ)) : Prop :=
  ∀ xs ys f, pchip xs ys = .ok f → ∀ (i : ℕ) x y, xs[i]? = some x → ys[i]? = some y → f x = y

/-- Specification: the interpolant of the opposite values is the opposite of the interpolant. -/
def OddInterpolation (pchip : List ℝ → List ℝ → Except Err (ℝ → ℝ)) : Prop :=
  ∀ xs ys f, pchip xs ys = .ok f → ∃ g, pchip xs (ys.map fun y => -y) = .ok g ∧ ∀ x, g x = -f x

theorem IsNose.argmin {c : List (ℝ × ℝ)} {k : ℕ} (h : IsNose c k) : argminX c = k := argminX_eq c k h.1 h.2.1 h.2.2

theorem getD_zip {l : List ℝ} {m : List ℝ} {i : ℕ} (h : i < l.length) (h' : i < m.length) :
    (List.zip l m).getD i (0, 0) = (l.getD i 0, m.getD i 0) := by
  rw [List.getD_eq_getElem _ _ (by simp; omega), List.getD_eq_getElem _ _ h, List.getD_eq_getElem _ _ h', List.getElem_zip]

theorem create_repaneled_ok {pchip : List ℝ → List ℝ → Except Err (ℝ → ℝ)} {c : List (ℝ × ℝ)} {n : ℕ} {a : Airfoil} :
    Airfoil.create pchip c true n = .ok a ↔ ∃ upper lower : ℝ → ℝ,
      pchip ((c.take (argminX c + 1)).map Prod.fst).reverse ((c.take (argminX c + 1)).map Prod.snd).reverse = .ok upper ∧
      pchip ((c.drop (argminX c)).map Prod.fst) ((c.drop (argminX c)).map Prod.snd) = .ok lower ∧
      Airfoil.ofCoordinates (List.zip ((cosspace 0 1 n).reverse ++ (cosspace 0 1 n).tail)
        ((cosspace 0 1 n).reverse.map upper ++ (cosspace 0 1 n).tail.map lower)) = .ok a := by
  unfold Airfoil.create repanelCoordinates
  simp only [if_true, upperCoordinates, lowerCoordinates]
  constructor
  · intro h
    obtain ⟨r, hr, h⟩ := bind_ok.mp h
    obtain ⟨u, hu, hr⟩ := bind_ok.mp hr
    obtain ⟨l, hl, hr⟩ := bind_ok.mp hr
    rw [pure_ok] at hr
    subst hr
    exact ⟨u, l, hu, hl, h⟩
  · rintro ⟨u, l, hu, hl, h⟩
    exact bind_ok.mpr ⟨_, bind_ok.mpr ⟨u, hu, bind_ok.mpr ⟨l, hl, rfl⟩⟩, h⟩

theorem repaneled_getD (n : ℕ) (hn : 2 ≤ n) (upper lower : ℝ → ℝ) (k : ℕ) (hk : k < n) :
    (List.zip ((cosspace 0 1 n).reverse ++ (cosspace 0 1 n).tail)
        ((cosspace 0 1 n).reverse.map upper ++ (cosspace 0 1 n).tail.map lower)).getD (n - 1 - k) (0, 0)
      = ((cosspace 0 1 n).getD k 0, upper ((cosspace 0 1 n).getD k 0)) ∧
    (0 < k → (List.zip ((cosspace 0 1 n).reverse ++ (cosspace 0 1 n).tail)
        ((cosspace 0 1 n).reverse.map upper ++ (cosspace 0 1 n).tail.map lower)).getD (n - 1 + k) (0, 0)
      = ((cosspace 0 1 n).getD k 0, lower ((cosspace 0 1 n).getD k 0))) := by
  have hg := (C07_cosspace 0 1 n (by norm_num) hn).length
  constructor
  · rw [getD_zip (by simp [hg]; omega) (by simp [hg]; omega), getD_append_left' _ _ _ _ (by simp [hg]; omega),
      getD_append_left' _ _ _ _ (by simp [hg]; omega), getD_map' _ _ _ 0 _ (by simp [hg]; omega),
      getD_reverse' _ _ _ (by rw [hg]; omega), hg, show n - 1 - (n - 1 - k) = k by omega]
  · intro hpos
    rw [getD_zip (by simp [hg]; omega) (by simp [hg]; omega), getD_append_right' _ _ _ _ (by simp [hg]; omega),
      getD_append_right' _ _ _ _ (by simp [hg]; omega)]
    simp only [List.length_map, List.length_reverse, hg]
    rw [getD_map' _ _ _ 0 _ (by simp [hg]; omega), ← List.drop_one, getD_drop, show 1 + (n - 1 + k - n) = k by omega]

/-- C78: the outline of a repanelled airfoil with `n` points per side runs, at the `n` cosine-spaced x, over the
interpolant of the upper side (the given points from the trailing edge to the nose) and back over the interpolant of the
lower side (the given points from the nose to the trailing edge); its camber points lie half way between the two. -/
theorem C78_points (pchip : List ℝ → List ℝ → Except Err (ℝ → ℝ)) (c : List (ℝ × ℝ)) (nose : ℕ) (hnose : IsNose c nose)
    (n : ℕ) (hn : 2 ≤ n) (a : Airfoil) (h : Airfoil.create pchip c true n = .ok a) :
    ∃ upper lower : ℝ → ℝ,
      pchip ((c.take (nose + 1)).map Prod.fst).reverse ((c.take (nose + 1)).map Prod.snd).reverse = .ok upper ∧
      pchip ((c.drop nose).map Prod.fst) ((c.drop nose).map Prod.snd) = .ok lower ∧
      a.coordinates.length = 2 * n - 1 ∧
      ∀ k < n, let x := (1 - Real.cos (Real.pi * k / (n - 1))) / 2
        a.coordinates.getD (n - 1 - k) (0, 0) = (x, upper x) ∧
        (0 < k → a.coordinates.getD (n - 1 + k) (0, 0) = (x, lower x) ∧
          a.mcl.getD k (0, 0) = (x, (upper x + lower x) / 2)) := by
  obtain ⟨upper, lower, h1, h2, h3⟩ := create_repaneled_ok.mp h
  rw [hnose.argmin] at h1 h2
  obtain ⟨hw, harg, hlen, hx, -⟩ := C24_repaneled pchip c n hn a h
  have hac := (ofCoordinates_coordinates h3).1
  have hg := (C07_cosspace 0 1 n (by norm_num) hn).length
  refine ⟨upper, lower, h1, h2, by rw [hac]; simp [hg]; omega, ?_⟩
  intro k hk
  have hxk : (cosspace 0 1 n).getD k 0 = (1 - Real.cos (Real.pi * k / (n - 1))) / 2 := by
    unfold cosspace
    rw [getD_map' _ _ _ 0 _ (by rw [linspace_length]; omega)]
    have : (linspace Real.pi 0 n).getD k 0 = Real.pi - Real.pi * k / (n - 1) := by
      simp only [List.getD, linspace_getElem? _ _ _ _ k hk]
      simp; ring
    rw [this, Real.cos_pi_sub]; ring
  obtain ⟨e1, e2⟩ := repaneled_getD n hn upper lower k hk
  rw [hxk] at e1 e2
  rw [← hac] at e1 e2
  refine ⟨e1, fun hpos => ⟨e2 hpos, ?_⟩⟩
  have := (hw.parts.2.2.2 k (by rw [harg]; omega)).1
  rw [this, harg, e1, e2 hpos]
  ext <;> simp <;> ring

theorem repaneled_sharp (n : ℕ) (hn : 2 ≤ n) (upper lower : ℝ → ℝ) :
    SharpNose (List.zip ((cosspace 0 1 n).reverse ++ (cosspace 0 1 n).tail)
        ((cosspace 0 1 n).reverse.map upper ++ (cosspace 0 1 n).tail.map lower)) := by
  have hG := C07_cosspace 0 1 n (by norm_num) hn
  have hg := hG.length
  have hgrid : ∀ i j, i < j → j < n → (cosspace 0 1 n).getD i 0 < (cosspace 0 1 n).getD j 0 := by
    intro i j hij hj
    apply hG.increasing i j _ _ hij
    · simp [List.getD, show i < (cosspace 0 1 n).length by rw [hg]; omega]
    · simp [List.getD, show j < (cosspace 0 1 n).length by rw [hg]; omega]
  refine ⟨n - 1, by simp [hg]; omega, ?_⟩
  intro i hi hne
  simp [hg] at hi
  rw [show ((List.zip ((cosspace 0 1 n).reverse ++ (cosspace 0 1 n).tail)
        ((cosspace 0 1 n).reverse.map upper ++ (cosspace 0 1 n).tail.map lower)).getD (n - 1) (0, 0))
      = _ from (repaneled_getD n hn upper lower 0 (by omega)).1]
  rcases Nat.lt_or_ge i (n - 1) with hlt | hge
  · have := (repaneled_getD n hn upper lower (n - 1 - i) (by omega)).1
    rw [show n - 1 - (n - 1 - i) = i by omega] at this
    rw [this]
    exact hgrid 0 _ (by omega) (by omega)
  · have := (repaneled_getD n hn upper lower (i - (n - 1)) (by omega)).2 (by omega)
    rw [show n - 1 + (i - (n - 1)) = i by omega] at this
    rw [this]
    exact hgrid 0 _ (by omega) (by omega)

/-- C78: the outline of a repanelled airfoil has its nose in the middle, in front of all other points. -/
theorem C78_sharp_nose (pchip : List ℝ → List ℝ → Except Err (ℝ → ℝ)) (c : List (ℝ × ℝ)) (n : ℕ) (hn : 2 ≤ n)
    (a : Airfoil) (h : Airfoil.create pchip c true n = .ok a) : SharpNose a.coordinates := by
  obtain ⟨upper, lower, h1, h2, h3⟩ := create_repaneled_ok.mp h
  rw [(ofCoordinates_coordinates h3).1]
  exact repaneled_sharp n hn upper lower

/-- C78: when the interpolants pass through their nodes, every given point of the upper side whose x is one of the `n`
cosine-spaced values is a point of the repanelled outline, on its upper side; the same holds below. -/
theorem C78_given_points_kept (pchip : List ℝ → List ℝ → Except Err (ℝ → ℝ)) (hp : Interpolates pchip)
    (c : List (ℝ × ℝ)) (nose : ℕ) (hnose : IsNose c nose) (n : ℕ) (hn : 2 ≤ n) (a : Airfoil)
    (h : Airfoil.create pchip c true n = .ok a) (i : ℕ) (P : ℝ × ℝ) (hi : c[i]? = some P) (k : ℕ) (hk : k < n)
    (hx : P.1 = (1 - Real.cos (Real.pi * k / (n - 1))) / 2) :
    (i ≤ nose → a.coordinates.getD (n - 1 - k) (0, 0) = P) ∧
    (nose ≤ i → 0 < k → a.coordinates.getD (n - 1 + k) (0, 0) = P) := by
  obtain ⟨upper, lower, h1, h2, -, h3⟩ := C78_points pchip c nose hnose n hn a h
  obtain ⟨e1, e2⟩ := h3 k hk
  have hlt := (List.getElem?_eq_some_iff.mp hi).1
  have hn := hnose.1
  constructor
  · intro hle
    rw [e1, ← hx, hp _ _ _ h1 (nose - i) P.1 P.2]
    · rw [List.getElem?_reverse (by simp; omega), List.getElem?_map]
      simp only [List.length_map, List.length_take]
      rw [show min (nose + 1) c.length - 1 - (nose - i) = i by omega, List.getElem?_take_of_lt (by omega), hi]
      rfl
    · rw [List.getElem?_reverse (by simp; omega), List.getElem?_map]
      simp only [List.length_map, List.length_take]
      rw [show min (nose + 1) c.length - 1 - (nose - i) = i by omega, List.getElem?_take_of_lt (by omega), hi]
      rfl
  · intro hle hpos
    rw [(e2 hpos).1, ← hx, hp _ _ _ h2 (i - nose) P.1 P.2]
    · rw [List.getElem?_map, List.getElem?_drop, show nose + (i - nose) = i by omega, hi]; rfl
    · rw [List.getElem?_map, List.getElem?_drop, show nose + (i - nose) = i by omega, hi]; rfl

/-- C78: an outline whose nose is at `x = 0` and whose ends are at `x = 1` keeps its nose and both ends (and with them
an open or closed trailing edge) when it is repanelled. -/
theorem C78_ends_kept (pchip : List ℝ → List ℝ → Except Err (ℝ → ℝ)) (hp : Interpolates pchip)
    (c : List (ℝ × ℝ)) (nose : ℕ) (hnose : IsNose c nose) (n : ℕ) (hn : 2 ≤ n) (a : Airfoil)
    (h : Airfoil.create pchip c true n = .ok a) (h0 : (c.getD nose (0, 0)).1 = 0) (hT : (c.getD 0 (0, 0)).1 = 1)
    (hB : (c.getD (c.length - 1) (0, 0)).1 = 1) :
    a.coordinates.getD 0 (0, 0) = c.getD 0 (0, 0) ∧ a.coordinates.getD (n - 1) (0, 0) = c.getD nose (0, 0) ∧
    a.coordinates.getD (2 * (n - 1)) (0, 0) = c.getD (c.length - 1) (0, 0) := by
  have hl := hnose.1
  have g : ∀ i < c.length, c[i]? = some (c.getD i (0, 0)) := fun i hi => by
    rw [List.getD_eq_getElem _ _ hi, List.getElem?_eq_getElem hi]
  have hlast : (1 - Real.cos (Real.pi * ((n - 1 : ℕ) : ℝ) / ((n : ℝ) - 1))) / 2 = 1 := by
    have hn1 : ((n : ℝ) - 1) ≠ 0 := by
      have : (2 : ℝ) ≤ n := by exact_mod_cast hn
      linarith
    rw [Nat.cast_sub (by omega), Nat.cast_one, mul_div_assoc, div_self hn1, _root_.mul_one, Real.cos_pi]; norm_num
  have k1 := C78_given_points_kept pchip hp c nose hnose n hn a h 0 _ (g 0 (by omega)) (n - 1) (by omega)
    (by rw [hT, hlast])
  have k2 := C78_given_points_kept pchip hp c nose hnose n hn a h nose _ (g nose hl) 0 (by omega) (by rw [h0]; simp)
  have k3 := C78_given_points_kept pchip hp c nose hnose n hn a h (c.length - 1) _ (g _ (by omega)) (n - 1) (by omega)
    (by rw [hB, hlast])
  refine ⟨?_, ?_, ?_⟩
  · simpa using k1.1 (Nat.zero_le _)
  · simpa using k2.1 le_rfl
  · have := k3.2 (by omega) (by omega)
    rwa [show n - 1 + (n - 1) = 2 * (n - 1) by omega] at this

/-- C78: repanelling an airfoil upside down gives the repanelled airfoil upside down, when the interpolants pass through
their nodes and change sign with the values. -/
theorem C78_upside_down (pchip : List ℝ → List ℝ → Except Err (ℝ → ℝ)) (hp : Interpolates pchip)
    (hodd : OddInterpolation pchip) (c : List (ℝ × ℝ)) (hs : SharpNose c) (h0 : ∃ y, (0, y) ∈ c)
    (hpos : ∀ P ∈ c, 0 ≤ P.1) (n : ℕ) (hn : 2 ≤ n) (a : Airfoil) (h : Airfoil.create pchip c true n = .ok a) :
    ∃ b, Airfoil.create pchip (invertedOutline c) true n = .ok b ∧ b.coordinates = invertedOutline a.coordinates := by
  obtain ⟨upper, lower, h1, h2, h3⟩ := create_repaneled_ok.mp h
  have hs1 := hs.argmin.1
  set k := argminX c with hk
  have hki := hs.argmin_inverted
  rw [← hk] at hki
  have mf : ∀ l : List (ℝ × ℝ), (l.map flip2).map Prod.fst = l.map Prod.fst := fun l => by simp [flip2]
  have ms : ∀ l : List (ℝ × ℝ), (l.map flip2).map Prod.snd = (l.map Prod.snd).map fun y => -y := fun l => by
    simp [flip2]
  have htake : (invertedOutline c).take (k + 1) = ((c.drop k).map flip2).reverse := by
    show ((c.map flip2).reverse).take (k + 1) = _
    rw [List.take_reverse, List.length_map, ← List.map_drop]
    congr 3; omega
  have hdrop : (invertedOutline c).drop k = ((c.take (k + 1)).map flip2).reverse := by
    show ((c.map flip2).reverse).drop k = _
    rw [List.drop_reverse, List.length_map, ← List.map_take]
    congr 3; omega
  obtain ⟨u', hu', eu⟩ := hodd _ _ _ h2
  obtain ⟨l', hl', el⟩ := hodd _ _ _ h1
  -- the nose
  have hnose : upper 0 = lower 0 := by
    obtain ⟨y, hy⟩ := h0
    obtain ⟨j, hj, e⟩ := List.getElem_of_mem hy
    have hkl : k < c.length := by omega
    have hx0 : (c.getD k (0, 0)).1 = 0 := by
      by_cases hjk : j = k
      · rw [← hjk, List.getD_eq_getElem _ _ hj, e]
      · have hlt := hs.argmin.2 j hj hjk
        rw [← hk, List.getD_eq_getElem _ _ hj, e] at hlt
        have := hpos _ (List.getElem_mem hkl)
        rw [List.getD_eq_getElem _ _ hkl] at hlt
        simp only at hlt
        linarith
    have hck : c[k]? = some (c.getD k (0, 0)) := by rw [List.getD_eq_getElem _ _ hkl, List.getElem?_eq_getElem hkl]
    have e1 := hp _ _ _ h1 0 0 (c.getD k (0, 0)).2
      (by rw [List.getElem?_reverse (by simp; omega), List.getElem?_map]
          simp only [List.length_map, List.length_take]
          rw [show min (k + 1) c.length - 1 - 0 = k by omega, List.getElem?_take_of_lt (by omega), hck]
          simp only [Option.map_some, hx0])
      (by rw [List.getElem?_reverse (by simp; omega), List.getElem?_map]
          simp only [List.length_map, List.length_take]
          rw [show min (k + 1) c.length - 1 - 0 = k by omega, List.getElem?_take_of_lt (by omega), hck]
          rfl)
    have e2 := hp _ _ _ h2 0 0 (c.getD k (0, 0)).2
      (by rw [List.getElem?_map, List.getElem?_drop, Nat.add_zero, hck]; simp only [Option.map_some, hx0])
      (by rw [List.getElem?_map, List.getElem?_drop, Nat.add_zero, hck]; rfl)
    rw [e1, e2]
  have hac := (ofCoordinates_coordinates h3).1
  have hsa := C78_sharp_nose pchip c n hn a h
  obtain ⟨b, hb⟩ := hsa.inverted.wellFormed
  have hg := (C07_cosspace 0 1 n (by norm_num) hn).length
  have hzero : (cosspace 0 1 n).getD 0 0 = 0 := by
    have := (C07_cosspace 0 1 n (by norm_num) hn).first
    simp [List.getD, this]
  have hlen : a.coordinates.length = 2 * (n - 1) + 1 := by rw [hac]; simp [hg]; omega
  refine ⟨b, ?_, (ofCoordinates_coordinates hb.1).1⟩
  refine create_repaneled_ok.mpr ⟨u', l', ?_, ?_, ?_⟩
  · rw [hki, htake, List.map_reverse, List.map_reverse, List.reverse_reverse, List.reverse_reverse, mf, ms]
    exact hu'
  · rw [hki, hdrop, List.map_reverse, List.map_reverse, mf, ms, ← List.map_reverse, ← List.map_reverse]
    simpa using hl'
  · rw [← hb.1]
    congr 1
    apply ext_getD _ _ (0, 0)
    · rw [invertedOutline_length, hlen]; simp [hg]; omega
    · intro i hi
      have hi' : i < 2 * (n - 1) + 1 := by
        have := hi; simp [hg] at this; omega
      rw [invertedOutline_getD _ _ (by omega), hlen, hac]
      rcases Nat.lt_trichotomy i (n - 1) with hlt | heq | hgt
      · have p1 := (repaneled_getD n hn u' l' (n - 1 - i) (by omega)).1
        have p2 := (repaneled_getD n hn upper lower (n - 1 - i) (by omega)).2 (by omega)
        rw [show n - 1 - (n - 1 - i) = i by omega] at p1
        rw [show n - 1 + (n - 1 - i) = 2 * (n - 1) + 1 - 1 - i by omega] at p2
        rw [p1, p2, eu]; rfl
      · have p1 := (repaneled_getD n hn u' l' 0 (by omega)).1
        have p2 := (repaneled_getD n hn upper lower 0 (by omega)).1
        rw [show n - 1 - 0 = i by omega] at p1
        rw [show n - 1 - 0 = 2 * (n - 1) + 1 - 1 - i by omega] at p2
        rw [p1, p2, eu, hzero, hnose]; rfl
      · have p1 := (repaneled_getD n hn u' l' (i - (n - 1)) (by omega)).2 (by omega)
        have p2 := (repaneled_getD n hn upper lower (i - (n - 1)) (by omega)).1
        rw [show n - 1 + (i - (n - 1)) = i by omega] at p1
        rw [show n - 1 - (i - (n - 1)) = 2 * (n - 1) + 1 - 1 - i by omega] at p2
        rw [p1, p2, el]; rfl

/-- C78: a symmetric outline stays symmetric when it is repanelled. -/
theorem C78_symmetric (pchip : List ℝ → List ℝ → Except Err (ℝ → ℝ)) (hp : Interpolates pchip)
    (hodd : OddInterpolation pchip) (c : List (ℝ × ℝ)) (hs : SharpNose c) (h0 : ∃ y, (0, y) ∈ c)
    (hpos : ∀ P ∈ c, 0 ≤ P.1) (hsym : invertedOutline c = c) (n : ℕ) (hn : 2 ≤ n) (a : Airfoil)
    (h : Airfoil.create pchip c true n = .ok a) :
    invertedOutline a.coordinates = a.coordinates ∧ ∀ P ∈ a.mcl, P.2 = 0 := by
  obtain ⟨b, hb, e⟩ := C78_upside_down pchip hp hodd c hs h0 hpos n hn a h
  rw [hsym, h] at hb
  obtain rfl := Except.ok.inj hb
  refine ⟨e.symm, ?_⟩
  obtain ⟨upper, lower, h1, h2, h3⟩ := create_repaneled_ok.mp h
  have hac := (ofCoordinates_coordinates h3).1
  rw [← hac] at h3
  have hsa := C78_sharp_nose pchip c n hn a h
  have hi := AirfoilInverted.of hsa h3 (by rw [← e]; exact h3)
  intro P hP
  have hm := hi.mcl
  obtain ⟨j, hj, rfl⟩ := List.getElem_of_mem hP
  have := congrArg (fun l => l[j]?) hm
  simp only [List.getElem?_map, List.getElem?_eq_getElem hj, Option.map_some, Option.some.injEq] at this
  have := congrArg Prod.snd this
  simp only [flip2] at this
  linarith

/-! ## Concrete cases -/

open Classical in
/-- Straight lines between the nodes, with the check of the order that `PchipInterpolator` makes. -/
noncomputable def straightLines (xs ys : List ℝ) : Except Err (ℝ → ℝ) :=
  if xs.Pairwise (· < ·) ∧ xs.length = ys.length ∧ 2 ≤ xs.length then .ok fun x => npInterp x xs ys
  else .error .valueError

theorem straightLines_interpolates : Interpolates straightLines := by
  intro xs ys f h i x y hx hy
  unfold straightLines at h
  split_ifs at h with hc
  obtain rfl := Except.ok.inj h
  obtain ⟨hs, hl, h2⟩ := hc
  have hi := (List.getElem?_eq_some_iff.mp hx).1
  rw [List.pairwise_iff_getElem] at hs
  by_cases hlast : i + 1 < xs.length
  · have := npInterp_between x xs ys hl (List.pairwise_iff_getElem.mpr hs) i x (xs[i + 1]) y (ys[i + 1]'(by omega)) hx
      (List.getElem?_eq_getElem hlast) hy (List.getElem?_eq_getElem (by omega)) le_rfl
      (by have := hs i (i + 1) hi hlast (by omega)
          rw [(List.getElem?_eq_some_iff.mp hx).2] at this; exact this.le)
    simp only [this]; simp
  · have hi0 : i - 1 + 1 = i := by omega
    have hlt := hs (i - 1) i (by omega) hi (by omega)
    rw [(List.getElem?_eq_some_iff.mp hx).2] at hlt
    have := npInterp_between x xs ys hl (List.pairwise_iff_getElem.mpr hs) (i - 1) (xs[i - 1]'(by omega)) x
      (ys[i - 1]'(by omega)) y (List.getElem?_eq_getElem (by omega)) (by rw [hi0]; exact hx)
      (List.getElem?_eq_getElem (by omega)) (by rw [hi0]; exact hy) hlt.le le_rfl
    simp only [this]
    rw [div_self (by linarith)]; ring

theorem straightLines_odd : OddInterpolation straightLines := by
  intro xs ys f h
  unfold straightLines at h
  split_ifs at h with hc
  obtain rfl := Except.ok.inj h
  refine ⟨fun x => npInterp x xs (ys.map fun y => -y), ?_, fun x => npInterp_neg x xs ys⟩
  unfold straightLines
  rw [if_pos (by simpa using hc)]

/-- All hypotheses can be met: a diamond, repanelled along straight lines with any number of points. -/
example (n : ℕ) (hn : 2 ≤ n) : IsNose diamond 2 ∧ SharpNose diamond ∧ (∃ y, ((0 : ℝ), y) ∈ diamond) ∧
    (∀ P ∈ diamond, (0 : ℝ) ≤ P.1) ∧ invertedOutline diamond = diamond ∧ Interpolates straightLines ∧
    OddInterpolation straightLines ∧ ∃ a, Airfoil.create straightLines diamond true n = .ok a := by
  refine ⟨⟨by simp [diamond], ?_, ?_⟩, ⟨2, by simp [diamond], ?_⟩, ⟨0, by simp [diamond]⟩, ?_, ?_,
    straightLines_interpolates, straightLines_odd, ?_⟩
  · intro i hi; interval_cases i <;> simp [diamond]
  · intro i hi
    have : i < 5 := by simpa [diamond] using hi
    interval_cases i <;> simp [diamond]
  · intro i hi hne
    have : i < 5 := by simpa [diamond] using hi
    interval_cases i <;> first | exact absurd rfl hne | norm_num [diamond]
  · intro P hP; simp [diamond] at hP; rcases hP with rfl | rfl | rfl | rfl | rfl <;> norm_num
  · simp [diamond, invertedOutline]; norm_num
  · have hex : ∀ u l : ℝ → ℝ, ∃ a, Airfoil.ofCoordinates (List.zip ((cosspace 0 1 n).reverse ++ (cosspace 0 1 n).tail)
        ((cosspace 0 1 n).reverse.map u ++ (cosspace 0 1 n).tail.map l)) = .ok a := by
      intro u l
      obtain ⟨a, ha⟩ := (repaneled_sharp n hn u l).wellFormed
      exact ⟨a, ha.1⟩
    obtain ⟨a, ha⟩ := hex (fun x => npInterp x [0, 1 / 2, 1] [0, 1 / 10, 0]) (fun x => npInterp x [0, 1 / 2, 1] [0, -1 / 10, 0])
    refine ⟨a, create_repaneled_ok.mpr ⟨_, _, ?_, ?_, ha⟩⟩
    · rw [diamond_argmin]
      simp only [diamond, straightLines]
      simp; norm_num
    · rw [diamond_argmin]
      simp only [diamond, straightLines]
      simp; norm_num

end Ptera
