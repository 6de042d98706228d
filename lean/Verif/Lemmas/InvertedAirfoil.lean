import Verif.Spec.UpsideDown
import Verif.Lemmas.AirfoilLemmas

/-! Helper lemmas: the airfoil given by an inverted outline, its camber line and its control surfaces. -/

namespace Ptera

open List

/-- A point upside down. -/
def flip2 (p : ℝ × ℝ) : ℝ × ℝ := (p.1, -p.2)

theorem flip2_flip2 (p : ℝ × ℝ) : flip2 (flip2 p) = p := by simp [flip2]

theorem invertedOutline_length (c : List (ℝ × ℝ)) : (invertedOutline c).length = c.length := by simp [invertedOutline]

theorem invertedOutline_getD (c : List (ℝ × ℝ)) (i : ℕ) (h : i < c.length) :
    (invertedOutline c).getD i (0, 0) = flip2 (c.getD (c.length - 1 - i) (0, 0)) := by
  unfold invertedOutline
  rw [getD_reverse' _ _ _ (by simpa using h), List.length_map, getD_map' _ _ _ (0, 0) _ (by omega)]
  rfl

theorem SharpNose.argmin {c : List (ℝ × ℝ)} (h : SharpNose c) : c.length = 2 * argminX c + 1 ∧
    ∀ i, i < c.length → i ≠ argminX c → (c.getD (argminX c) (0, 0)).1 < (c.getD i (0, 0)).1 := by
  obtain ⟨k, hk, hlt⟩ := h
  have e : argminX c = k := by
    apply argminX_eq c k (by omega)
    · intro i hi; exact hlt i (by omega) (by omega)
    · intro i hi
      rcases eq_or_ne i k with rfl | hne
      · exact le_refl _
      · exact (hlt i hi hne).le
  rw [e]
  exact ⟨hk, hlt⟩

theorem SharpNose.inverted {c : List (ℝ × ℝ)} (h : SharpNose c) : SharpNose (invertedOutline c) := by
  obtain ⟨k, hk, hlt⟩ := h
  refine ⟨k, by rw [invertedOutline_length, hk], ?_⟩
  intro i hi hne
  rw [invertedOutline_length] at hi
  rw [invertedOutline_getD _ _ (by omega), invertedOutline_getD _ _ hi, show c.length - 1 - k = k by omega]
  exact hlt _ (by omega) (by omega)

theorem SharpNose.argmin_inverted {c : List (ℝ × ℝ)} (h : SharpNose c) : argminX (invertedOutline c) = argminX c := by
  have h1 := h.argmin.1
  have h2 := h.inverted.argmin.1
  rw [invertedOutline_length] at h2
  omega

theorem SharpNose.wellFormed {c : List (ℝ × ℝ)} (h : SharpNose c) : ∃ a, WellFormed c a := by
  have h1 := h.argmin.1
  have hne : c ≠ [] := by intro e; rw [e] at h1; simp at h1
  obtain ⟨a, ha⟩ := ofCoordinates_of_odd c hne h1
  exact ⟨a, ha, hne, h1⟩

/-- `b` is airfoil `a` upside down. -/
structure AirfoilInverted (a b : Airfoil) : Prop where
  nose : SharpNose a.coordinates
  left : WellFormed a.coordinates a
  right : WellFormed (invertedOutline a.coordinates) b
  mcl : b.mcl = a.mcl.map flip2

theorem AirfoilInverted.of {c : List (ℝ × ℝ)} {a b : Airfoil} (h : SharpNose c) (ha : Airfoil.ofCoordinates c = .ok a)
    (hb : Airfoil.ofCoordinates (invertedOutline c) = .ok b) : AirfoilInverted a b := by
  have wa : WellFormed c a := by
    obtain ⟨x, hx⟩ := h.wellFormed
    exact ⟨ha, hx.nonempty, hx.odd⟩
  have wb : WellFormed (invertedOutline c) b := by
    obtain ⟨x, hx⟩ := h.inverted.wellFormed
    exact ⟨hb, hx.nonempty, hx.odd⟩
  obtain ⟨a1, a2, a3, a4⟩ := wa.parts
  obtain ⟨b1, b2, b3, b4⟩ := wb.parts
  have hk := h.argmin_inverted
  have hl := h.argmin.1
  refine ⟨by rw [a1]; exact h, by rw [a1]; exact wa, by rw [a1]; exact wb, ?_⟩
  apply ext_getD _ _ (0, 0) (by rw [List.length_map, b2, a2, hk])
  intro i hi
  rw [b2, hk] at hi
  rw [getD_map' _ _ _ (0, 0) _ (by omega), (a4 i (by omega)).1, (b4 i (by omega)).1, hk,
    invertedOutline_getD _ _ (by omega), invertedOutline_getD _ _ (by omega),
    show c.length - 1 - (argminX c - i) = argminX c + i by omega,
    show c.length - 1 - (argminX c + i) = argminX c - i by omega]
  ext <;> simp [flip2] <;> ring

theorem interpExtrapolate_flip (x : ℝ) : ∀ l : List (ℝ × ℝ),
    interpExtrapolate x (l.map flip2) = -interpExtrapolate x l
  | [] => by simp [interpExtrapolate]
  | [a] => by simp [interpExtrapolate, flip2]
  | [a, b] => by
    simp only [List.map_cons, List.map_nil, interpExtrapolate, flip2]
    ring
  | a :: b :: c :: l => by
    have ih := interpExtrapolate_flip x (b :: c :: l)
    simp only [List.map_cons] at ih ⊢
    unfold interpExtrapolate
    rw [ih]
    by_cases hx : x ≤ b.1
    · rw [if_pos hx, if_pos (show x ≤ (flip2 b).1 from hx)]
      simp only [flip2]
      ring
    · rw [if_neg hx, if_neg (show ¬x ≤ (flip2 b).1 from hx)]

theorem AirfoilInverted.camber {a b : Airfoil} (h : AirfoilInverted a b) (x : ℝ) : b.camberAt x = -a.camberAt x := by
  unfold Airfoil.camberAt
  rw [h.mcl, ← interpExtrapolate_flip]
  congr 1
  symm
  apply List.map_mergeSort
  intro p _ q _
  rfl

theorem AirfoilInverted.split {a b : Airfoil} (h : AirfoilInverted a b) (x : ℝ) :
    splitIndex b.mcl x = splitIndex a.mcl x := by
  unfold splitIndex
  rw [h.mcl, List.findIdx?_map]
  rfl

theorem flappedCoordinates_inverted {a b : Airfoil} (h : AirfoilInverted a b) (angle : ℝ) (hinge : ℝ × ℝ) (split : ℕ) :
    flappedCoordinates b (-angle) (flip2 hinge) split = invertedOutline (flappedCoordinates a angle hinge split) := by
  obtain ⟨a1, a2⟩ := flappedCoordinates_get h.left angle hinge split
  obtain ⟨b1, b2⟩ := flappedCoordinates_get h.right (-angle) (flip2 hinge) split
  have hk := h.nose.argmin_inverted
  have hl := h.nose.argmin.1
  set c := a.coordinates with hc
  rw [hk] at b2
  rw [invertedOutline_length] at b1
  have hmove : ∀ (k : ℕ) (q : ℝ × ℝ), (if k < split then flip2 q else rotate2 (-angle) (flip2 q - flip2 hinge) + flip2 hinge)
      = flip2 (if k < split then q else rotate2 angle (q - hinge) + hinge) := by
    intro k q
    split_ifs
    · rfl
    · ext
      · simp [rotate2, flip2]; ring
      · simp [rotate2, flip2]; ring
  apply ext_getD _ _ (0, 0) (by rw [invertedOutline_length, b1, a1])
  intro i hi
  rw [b1] at hi
  rw [invertedOutline_getD _ _ (by rw [a1]; exact hi), a1]
  rcases le_total i (argminX c) with hle | hle
  · have e1 := (b2 (argminX c - i) (by omega)).1
    have e2 := (a2 (argminX c - i) (by omega)).2
    rw [show argminX c - (argminX c - i) = i by omega, invertedOutline_getD _ _ hi] at e1
    rw [show argminX c + (argminX c - i) = c.length - 1 - i by omega] at e2
    rw [e1, e2]
    exact hmove _ _
  · have e1 := (b2 (i - argminX c) (by omega)).2
    have e2 := (a2 (i - argminX c) (by omega)).1
    rw [show argminX c + (i - argminX c) = i by omega, invertedOutline_getD _ _ hi] at e1
    rw [show argminX c - (i - argminX c) = c.length - 1 - i by omega] at e2
    rw [e1, e2]
    exact hmove _ _

theorem AirfoilInverted.flapped {a b a' b' : Airfoil} (h : AirfoilInverted a b) {d hinge : ℝ}
    (ha : a.addControlSurface d hinge = .ok a') (hb : b.addControlSurface (-d) hinge = .ok b')
    (hn : SharpNose a'.coordinates) : AirfoilInverted a' b' := by
  unfold Airfoil.addControlSurface at ha hb
  split_ifs at ha hb with h1 h2
  rw [h.split] at hb
  cases hs : splitIndex a.mcl hinge with
  | none => rw [hs] at ha; cases ha
  | some split =>
    rw [hs] at ha hb
    simp only at ha hb
    have hr : radians (- -d) = -radians (-d) := by unfold radians; ring
    have hp : ((hinge, b.camberAt hinge) : ℝ × ℝ) = flip2 (hinge, a.camberAt hinge) := by
      simp [flip2, h.camber]
    rw [hr, hp, flappedCoordinates_inverted h] at hb
    rw [(ofCoordinates_coordinates ha).1] at hn
    exact AirfoilInverted.of hn ha hb

theorem npInterp_neg (x : ℝ) : ∀ xs fs : List ℝ, npInterp x xs (fs.map fun y => -y) = -npInterp x xs fs
  | [], [] => by simp [npInterp]
  | [], f :: fs => by simp [npInterp]
  | [_], [] => by simp [npInterp]
  | [_], f :: fs => by simp [npInterp]
  | _ :: _ :: _, [] => by simp [npInterp]
  | _ :: _ :: _, [f] => by simp [npInterp]
  | x0 :: x1 :: xs, f0 :: f1 :: fs => by
    have ih := npInterp_neg x (x1 :: xs) (f1 :: fs)
    simp only [List.map_cons] at ih ⊢
    unfold npInterp
    rw [ih]
    split_ifs
    · rfl
    · ring
    · rfl

theorem mclFractions_flip (l : List (ℝ × ℝ)) : mclFractions (l.map flip2) = mclFractions l := by
  unfold mclFractions
  have : List.zipWith (fun a b : ℝ × ℝ => Real.sqrt ((a.1 - b.1) ^ 2 + (a.2 - b.2) ^ 2)) (l.map flip2).dropLast
      (l.map flip2).tail = List.zipWith (fun a b : ℝ × ℝ => Real.sqrt ((a.1 - b.1) ^ 2 + (a.2 - b.2) ^ 2)) l.dropLast l.tail := by
    rw [← List.map_dropLast, ← List.map_tail, List.zipWith_map]
    congr 1
    funext a b
    simp only [flip2]
    congr 1
    ring
  rw [this]

theorem AirfoilInverted.vectors {a b : Airfoil} (h : AirfoilInverted a b) (cs : List ℝ) :
    mclVectors b cs = (mclVectors a cs).map flip2 := by
  unfold mclVectors Airfoil.downsampledMcl
  rw [h.mcl, mclFractions_flip, List.map_map, List.map_map, List.map_map]
  apply List.map_congr_left
  intro f _
  have e1 : (Prod.fst ∘ flip2 : ℝ × ℝ → ℝ) = Prod.fst := rfl
  have e2 : a.mcl.map (Prod.snd ∘ flip2) = (a.mcl.map Prod.snd).map fun y => -y := by
    rw [List.map_map]; rfl
  simp only [e1, e2, npInterp_neg, Function.comp, flip2]

end Ptera
