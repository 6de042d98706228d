import Verif.Lemmas.AirfoilLemmas
import Verif.Props.Construction
import Verif.Props.Naca
import Mathlib.Tactic.IntervalCases

/-!
# Property C25: control-surface deflection

`WellFormed c a` (`Verif/Lemmas/AirfoilLemmas.lean`): `a` is the airfoil made from the outline `c`, whose two surfaces
have equally many points, the leading edge (index `argminX c`) being the middle point. Station `k` consists of the
two outline points `k` steps from the leading edge, upper and lower, and of the camber point between them.
-/

namespace Ptera

open List

/-- Station `k` lies in front of the hinge: no camber point up to it is behind the hinge. -/
def InFront (a : Airfoil) (h : ℝ) (k : ℕ) : Prop := ∀ k' ≤ k, (a.mcl.getD k' (0, 0)).1 ≤ h

theorem inFront_iff_lt_split (a : Airfoil) (h : ℝ) (split : ℕ) (hs : splitIndex a.mcl h = some split) (k : ℕ) :
    InFront a h k ↔ k < split := by
  unfold splitIndex at hs
  rw [List.findIdx?_eq_some_iff_getElem] at hs
  obtain ⟨hlt, hp, hall⟩ := hs
  constructor
  · intro hf
    by_contra hle
    push Not at hle
    have := hf split hle
    simp [List.getD, hlt] at this
    simp at hp
    linarith
  · intro hk k' hk'
    have := hall k' (by omega)
    have hl : k' < a.mcl.length := by omega
    simp [List.getD, hl]
    simpa using this

/-- Rotation by `angle` about `o`. -/
noncomputable def rotateAbout (angle : ℝ) (o p : ℝ × ℝ) : ℝ × ℝ :=
  (o.1 + (Real.cos angle * (p.1 - o.1) - Real.sin angle * (p.2 - o.2)),
   o.2 + (Real.sin angle * (p.1 - o.1) + Real.cos angle * (p.2 - o.2)))

theorem rotateAbout_eq (angle : ℝ) (o p : ℝ × ℝ) : rotate2 angle (p - o) + o = rotateAbout angle o p := by
  ext <;> simp [rotate2, rotateAbout] <;> ring

theorem addControlSurface_coordinates {a a' : Airfoil} (d h : ℝ)
    (hok : a.addControlSurface d h = .ok a') :
    |d| ≤ 90 ∧ ∃ split, splitIndex a.mcl h = some split ∧
      Airfoil.ofCoordinates (flappedCoordinates a (radians (-d)) (h, a.camberAt h) split) = .ok a' ∧
      a'.coordinates = flappedCoordinates a (radians (-d)) (h, a.camberAt h) split := by
  unfold Airfoil.addControlSurface at hok
  split_ifs at hok with hd
  simp only at hok
  split at hok
  · simp at hok
  · rename_i split hs
    refine ⟨?_, split, hs, hok, ?_⟩
    · push Not at hd; exact abs_le.mpr ⟨hd.2, hd.1⟩
    · unfold Airfoil.ofCoordinates at hok
      split_ifs at hok
      simp only [bind, Except.bind] at hok
      split at hok
      · simp at hok
      · split at hok
        · simp at hok
        · simp only [pure, Except.pure, Except.ok.injEq] at hok
          rw [← hok]

/-- C25: zero deflection returns the same airfoil (outline, camber line, thickness), provided some camber point is
behind the hinge. -/
theorem C25_zero_deflection {c : List (ℝ × ℝ)} {a : Airfoil} (hw : WellFormed c a) (h : ℝ)
    (hb : ∃ p ∈ a.mcl, h < p.1) : a.addControlSurface 0 h = .ok a := by
  unfold Airfoil.addControlSurface
  rw [if_neg (by norm_num)]
  cases hs : splitIndex a.mcl h with
  | none =>
    obtain ⟨p, hp, hlt⟩ := hb
    unfold splitIndex at hs
    rw [List.findIdx?_eq_none_iff] at hs
    have := hs p hp
    simp at this
    linarith
  | some split =>
    simp only
    rw [show radians (-0) = 0 by simp [radians], flappedCoordinates_zero hw]
    exact hw.made

/-- C25, the excluded case: with no camber point behind the hinge, any admissible deflection fails with an
`IndexError`. -/
theorem C25_hinge_behind_all (a : Airfoil) (d h : ℝ) (hd : |d| ≤ 90) (hb : ∀ p ∈ a.mcl, p.1 ≤ h) :
    a.addControlSurface d h = .error .indexError := by
  have := abs_le.mp hd
  unfold Airfoil.addControlSurface
  rw [if_neg (by push Not; constructor <;> linarith)]
  have : splitIndex a.mcl h = none := by
    unfold splitIndex
    rw [List.findIdx?_eq_none_iff]
    intro p hp
    simpa using hb p hp
  rw [this]

/-- C25: the outline after a deflection `d` has as many points as before; the points of stations in front of the
hinge are where they were; all others are rotated by `-d` degrees about the hinge's camber point. -/
theorem C25_rigid_rotation {c : List (ℝ × ℝ)} {a a' : Airfoil} (hw : WellFormed c a) (d h : ℝ)
    (hok : a.addControlSurface d h = .ok a') :
    a'.coordinates.length = c.length ∧
    ∀ k ≤ argminX c, ∀ i, (i = argminX c - k ∨ i = argminX c + k) →
      (InFront a h k → a'.coordinates.getD i (0, 0) = c.getD i (0, 0)) ∧
      (¬ InFront a h k → a'.coordinates.getD i (0, 0)
        = rotateAbout (-d * Real.pi / 180) (h, a.camberAt h) (c.getD i (0, 0))) := by
  obtain ⟨_, split, hs, _, hc⟩ := addControlSurface_coordinates d h hok
  obtain ⟨hlen, hget⟩ := flappedCoordinates_get hw (radians (-d)) (h, a.camberAt h) split
  rw [hc]
  refine ⟨hlen, ?_⟩
  intro k hk i hi
  have hg := hget k hk
  rw [inFront_iff_lt_split a h split hs k]
  have hr : ∀ p, rotate2 (radians (-d)) (p - (h, a.camberAt h)) + (h, a.camberAt h)
      = rotateAbout (-d * Real.pi / 180) (h, a.camberAt h) p := by
    intro p; rw [rotateAbout_eq]; rfl
  rcases hi with rfl | rfl
  · rw [hg.1]
    constructor
    · intro hk; simp only [if_pos hk]
    · intro hk; simp only [if_neg hk]; exact hr _
  · rw [hg.2]
    constructor
    · intro hk; simp only [if_pos hk]
    · intro hk; simp only [if_neg hk]; exact hr _

/-- C25: rotation keeps distances. -/
theorem C25_distances (angle : ℝ) (o p q : ℝ × ℝ) :
    ((rotateAbout angle o p).1 - (rotateAbout angle o q).1) ^ 2
      + ((rotateAbout angle o p).2 - (rotateAbout angle o q).2) ^ 2
      = (p.1 - q.1) ^ 2 + (p.2 - q.2) ^ 2 ∧ rotateAbout angle o o = o := by
  have := Real.sin_sq_add_cos_sq angle
  constructor
  · simp only [rotateAbout]
    linear_combination ((p.1 - q.1) ^ 2 + (p.2 - q.2) ^ 2) * this
  · ext <;> simp [rotateAbout]

/-- C25: a positive deflection moves a point straight behind the hinge downward (and none of its points forward of
the hinge). -/
theorem C25_positive_is_down (d : ℝ) (hd0 : 0 < d) (hd : d ≤ 90) (o : ℝ × ℝ) (r : ℝ) (hr : 0 < r) :
    (rotateAbout (-d * Real.pi / 180) o (o.1 + r, o.2)).2 < o.2 ∧
    o.1 ≤ (rotateAbout (-d * Real.pi / 180) o (o.1 + r, o.2)).1 := by
  have hpi := Real.pi_pos
  have e : -d * Real.pi / 180 = -(d * Real.pi / 180) := by ring
  have hs : 0 < Real.sin (d * Real.pi / 180) := by
    apply Real.sin_pos_of_pos_of_lt_pi
    · positivity
    · nlinarith
  have hc : 0 ≤ Real.cos (d * Real.pi / 180) := by
    apply Real.cos_nonneg_of_neg_pi_div_two_le_of_le
    · nlinarith
    · nlinarith
  simp only [rotateAbout, e, Real.sin_neg, Real.cos_neg, add_sub_cancel_left, sub_self, mul_zero, sub_zero, add_zero]
  constructor
  · nlinarith
  · nlinarith

/-- C25: the deflection succeeds, and the new camber line is the old one rotated behind the hinge with the same
half-thickness vectors, as long as the leading edge stays the (first) leftmost point of the outline. -/
theorem C25_camber_line {c : List (ℝ × ℝ)} {a : Airfoil} (hw : WellFormed c a) (d h : ℝ) (hd : |d| ≤ 90)
    (hb : ∃ p ∈ a.mcl, h < p.1) (hfront : InFront a h 0)
    (hle : ∀ k ≤ argminX c, 0 < k → ¬ InFront a h k → ∀ i, (i = argminX c - k ∨ i = argminX c + k) →
      (c.getD (argminX c) (0, 0)).1 < (rotateAbout (-d * Real.pi / 180) (h, a.camberAt h) (c.getD i (0, 0))).1)
    (hold : ∀ i < argminX c, (c.getD (argminX c) (0, 0)).1 < (c.getD i (0, 0)).1) :
    ∃ a', a.addControlSurface d h = .ok a' ∧ a'.mcl.length = a.mcl.length ∧
      ∀ k ≤ argminX c,
        (InFront a h k → a'.mcl.getD k (0, 0) = a.mcl.getD k (0, 0)) ∧
        (¬ InFront a h k → a'.mcl.getD k (0, 0)
          = rotateAbout (-d * Real.pi / 180) (h, a.camberAt h) (a.mcl.getD k (0, 0))) := by
  have hd' := abs_le.mp hd
  obtain ⟨_, hml, _, hst⟩ := hw.parts
  have hodd := hw.odd
  cases hs : splitIndex a.mcl h with
  | none =>
    obtain ⟨p, hp, hlt⟩ := hb
    unfold splitIndex at hs
    rw [List.findIdx?_eq_none_iff] at hs
    have := hs p hp
    simp at this
    linarith
  | some split =>
    set K := argminX c with hK
    set F := flappedCoordinates a (radians (-d)) (h, a.camberAt h) split with hF
    obtain ⟨hlen, hget⟩ := flappedCoordinates_get hw (radians (-d)) (h, a.camberAt h) split
    have hr : ∀ p, rotate2 (radians (-d)) (p - (h, a.camberAt h)) + (h, a.camberAt h)
        = rotateAbout (-d * Real.pi / 180) (h, a.camberAt h) p := by
      intro p; rw [rotateAbout_eq]; rfl
    have hF0 : F.getD K (0, 0) = c.getD K (0, 0) := by
      have := (hget 0 (by omega)).1
      rw [Nat.sub_zero] at this
      rw [hF, this]
      exact if_pos ((inFront_iff_lt_split a h split hs 0).mp hfront)
    have hall : ∀ k ≤ K, ∀ i, (i = K - k ∨ i = K + k) →
        (k < split → F.getD i (0, 0) = c.getD i (0, 0)) ∧
        (¬ k < split → F.getD i (0, 0)
          = rotateAbout (-d * Real.pi / 180) (h, a.camberAt h) (c.getD i (0, 0))) := by
      intro k hk i hi
      rcases hi with rfl | rfl
      · have h1 : F.getD (K - k) (0, 0) = if k < split then c.getD (K - k) (0, 0) else
          rotate2 (radians (-d)) (c.getD (K - k) (0, 0) - (h, a.camberAt h)) + (h, a.camberAt h) := (hget k hk).1
        exact ⟨fun hs => by rw [h1, if_pos hs], fun hs => by rw [h1, if_neg hs, hr]⟩
      · have h1 : F.getD (K + k) (0, 0) = if k < split then c.getD (K + k) (0, 0) else
          rotate2 (radians (-d)) (c.getD (K + k) (0, 0) - (h, a.camberAt h)) + (h, a.camberAt h) := (hget k hk).2
        exact ⟨fun hs => by rw [h1, if_pos hs], fun hs => by rw [h1, if_neg hs, hr]⟩
    have hargmin : argminX F = K := by
      apply argminX_eq F K (by rw [hlen]; omega)
      · intro i hi
        rw [hF0]
        obtain ⟨e1, e2⟩ := hall (K - i) (by omega) i (Or.inl (by omega))
        by_cases hsp : K - i < split
        · rw [e1 hsp]; exact hold i hi
        · rw [e2 hsp]
          exact hle (K - i) (by omega) (by omega) (by rwa [inFront_iff_lt_split a h split hs]) i
            (Or.inl (by omega))
      · intro i hi
        rw [hlen] at hi
        rw [hF0]
        rcases le_total i K with hiK | hiK
        · obtain ⟨e1, e2⟩ := hall (K - i) (by omega) i (Or.inl (by omega))
          by_cases hsp : K - i < split
          · rw [e1 hsp]; exact argminX_le c i (by omega)
          · rw [e2 hsp]
            have hne : K - i ≠ 0 := by
              intro h0
              rw [h0] at hsp
              exact hsp ((inFront_iff_lt_split a h split hs 0).mp hfront)
            exact (hle (K - i) (by omega) (by omega) (by rwa [inFront_iff_lt_split a h split hs]) i
              (Or.inl (by omega))).le
        · obtain ⟨e1, e2⟩ := hall (i - K) (by omega) i (Or.inr (by omega))
          by_cases hsp : i - K < split
          · rw [e1 hsp]; exact argminX_le c i (by omega)
          · rw [e2 hsp]
            have hne : i - K ≠ 0 := by
              intro h0
              rw [h0] at hsp
              exact hsp ((inFront_iff_lt_split a h split hs 0).mp hfront)
            exact (hle (i - K) (by omega) (by omega) (by rwa [inFront_iff_lt_split a h split hs]) i
              (Or.inr (by omega))).le
    have hFne : F ≠ [] := by intro e; rw [← hF, e] at hlen; simp at hlen; omega
    have hFodd : F.length = 2 * argminX F + 1 := by rw [hargmin, hlen, hodd]
    -- the constructor succeeds
    have hmade : ∃ a', Airfoil.ofCoordinates F = .ok a' := by
      unfold Airfoil.ofCoordinates
      rw [if_neg hFne]
      have hu : (upperCoordinates F).length = K + 1 := by simp [upperCoordinates, hargmin]; omega
      have hl : (lowerCoordinates F).length = K + 1 := by simp [lowerCoordinates, hargmin]; omega
      have e1 : ∀ f, bcast f (upperCoordinates F).reverse (lowerCoordinates F)
          = .ok (List.zipWith f (upperCoordinates F).reverse (lowerCoordinates F)) := by
        intro f; unfold bcast; rw [if_pos (by rw [List.length_reverse, hu, hl])]
      have e2 : ∀ f M, M.length = K + 1 → bcast f (upperCoordinates F).reverse M
          = .ok (List.zipWith f (upperCoordinates F).reverse M) := by
        intro f M hM; unfold bcast; rw [if_pos (by rw [List.length_reverse, hu, hM])]
      simp only [e1, bind, Except.bind]
      rw [e2 _ _ (by rw [List.length_zipWith, List.length_reverse, hu, hl, min_self])]
      exact ⟨_, rfl⟩
    obtain ⟨a', ha'⟩ := hmade
    have hw' : WellFormed F a' := ⟨ha', hFne, hFodd⟩
    obtain ⟨_, hml', _, hst'⟩ := hw'.parts
    rw [hargmin] at hml' hst'
    refine ⟨a', ?_, by rw [hml', hml], ?_⟩
    · unfold Airfoil.addControlSurface
      rw [if_neg (by push Not; constructor <;> linarith), hs]
      exact ha'
    · intro k hk
      rw [inFront_iff_lt_split a h split hs, (hst' k hk).1, (hst k hk).1]
      obtain ⟨a1, a2⟩ := hall k hk (K - k) (Or.inl rfl)
      obtain ⟨b1, b2⟩ := hall k hk (K + k) (Or.inr rfl)
      constructor
      · intro hsp; rw [a1 hsp, b1 hsp]
      · intro hsp; rw [a2 hsp, b2 hsp]
        ext <;> simp [rotateAbout] <;> ring

/-! ## The hinge point -/

theorem interpExtrapolate_segment (x : ℝ) : ∀ (l : List (ℝ × ℝ)), (l.map Prod.fst).Pairwise (· < ·) →
    ∀ j, j + 1 < l.length → (l.getD j (0, 0)).1 ≤ x → x ≤ (l.getD (j + 1) (0, 0)).1 →
    ∃ s : ℝ, 0 ≤ s ∧ s ≤ 1 ∧ (x, interpExtrapolate x l)
      = (1 - s) • l.getD j (0, 0) + s • l.getD (j + 1) (0, 0) := by
  have seg : ∀ a b : ℝ × ℝ, a.1 < b.1 → a.1 ≤ x → x ≤ b.1 → ∃ s : ℝ, 0 ≤ s ∧ s ≤ 1 ∧
      (x, (b.2 - a.2) / (b.1 - a.1) * (x - a.1) + a.2) = (1 - s) • a + s • b := by
    intro a b hab h0 h1
    have hd : 0 < b.1 - a.1 := by linarith
    refine ⟨(x - a.1) / (b.1 - a.1), div_nonneg (by linarith) hd.le, by rw [div_le_one hd]; linarith, ?_⟩
    ext
    · simp; field_simp; ring
    · simp; field_simp; ring
  intro l
  induction l with
  | nil => intro _ j h; simp at h
  | cons a l ih =>
    intro hsort j hj h0 h1
    match l, ih, hsort, hj, h0, h1 with
    | [], _, _, hj, _, _ => simp at hj
    | [b], _, hsort, hj, h0, h1 =>
      have : j = 0 := by simpa using hj
      subst this
      simp only [List.getD_cons_zero, List.getD_cons_succ] at h0 h1 ⊢
      simp only [interpExtrapolate]
      apply seg a b _ h0 h1
      simpa using hsort
    | b :: c :: l, ih, hsort, hj, h0, h1 =>
      have hab : a.1 < b.1 := by
        simp only [List.map_cons, List.pairwise_cons] at hsort
        exact hsort.1 _ (by simp)
      have hsort' : ((b :: c :: l).map Prod.fst).Pairwise (· < ·) := by
        simp only [List.map_cons, List.pairwise_cons] at hsort ⊢
        exact hsort.2
      match j with
      | 0 =>
        simp only [List.getD_cons_zero, List.getD_cons_succ] at h0 h1 ⊢
        simp only [interpExtrapolate, if_pos h1]
        exact seg a b hab h0 h1
      | j + 1 =>
        simp only [List.getD_cons_succ] at h0 h1 ⊢
        by_cases hxb : x ≤ b.1
        · -- only possible at the shared node
          have hj0 : j = 0 ∧ x = b.1 := by
            have hpw := List.pairwise_iff_getElem.mp hsort'
            have hjl : j < (b :: c :: l).length := by simp at hj ⊢; omega
            rcases Nat.eq_zero_or_pos j with h | h
            · subst h; simp only [List.getD_cons_zero] at h0; exact ⟨rfl, le_antisymm hxb h0⟩
            · exfalso
              have := hpw 0 j (by simp) (by simpa using hjl) h
              simp only [List.getElem_map, List.getElem_cons_zero] at this
              have e : (b :: c :: l).getD j (0, 0) = (b :: c :: l)[j] := by
                rw [List.getD_eq_getElem?_getD, List.getElem?_eq_getElem hjl]; rfl
              rw [e] at h0
              linarith
          obtain ⟨rfl, hx⟩ := hj0
          simp only [interpExtrapolate, if_pos hxb]
          refine ⟨0, le_rfl, zero_le_one, ?_⟩
          have hd : b.1 - a.1 ≠ 0 := by linarith
          ext
          · simp [hx]
          · simp [hx]; field_simp; ring
        · simp only [interpExtrapolate, if_neg hxb]
          exact ih hsort' j (by simp at hj ⊢; omega) h0 h1

/-- C25: the hinge's camber point is on the camber line: for an airfoil with increasing camber x it divides the
segment of the camber line the hinge is in. -/
theorem C25_hinge_on_camber_line (a : Airfoil) (h : ℝ) (hsort : (a.mcl.map Prod.fst).Pairwise (· < ·)) (j : ℕ)
    (hj : j + 1 < a.mcl.length) (h0 : (a.mcl.getD j (0, 0)).1 ≤ h) (h1 : h ≤ (a.mcl.getD (j + 1) (0, 0)).1) :
    ∃ s : ℝ, 0 ≤ s ∧ s ≤ 1 ∧
      (h, a.camberAt h) = (1 - s) • a.mcl.getD j (0, 0) + s • a.mcl.getD (j + 1) (0, 0) := by
  have hms : a.mcl.mergeSort (open Classical in fun p q => decide (p.1 ≤ q.1)) = a.mcl := by
    apply List.mergeSort_of_pairwise
    rw [List.pairwise_map] at hsort
    exact hsort.imp (fun h => by simpa using h.le)
  unfold Airfoil.camberAt
  rw [hms]
  exact interpExtrapolate_segment h a.mcl hsort j hj h0 h1

/-- With increasing camber x a station is in front of the hinge exactly if its own camber point is. -/
theorem C25_inFront_sorted (a : Airfoil) (h : ℝ) (hsort : (a.mcl.map Prod.fst).Pairwise (· < ·)) (k : ℕ)
    (hk : k < a.mcl.length) : InFront a h k ↔ (a.mcl.getD k (0, 0)).1 ≤ h := by
  constructor
  · intro hf; exact hf k le_rfl
  · intro hle k' hk'
    rcases eq_or_lt_of_le hk' with rfl | hlt
    · exact hle
    · have := List.pairwise_iff_getElem.mp hsort k' k (by simp; omega) (by simpa using hk) hlt
      simp only [List.getElem_map] at this
      have e1 : a.mcl.getD k (0, 0) = a.mcl[k] := by simp [List.getD, hk]
      have e2 : a.mcl.getD k' (0, 0) = a.mcl[k'] := by simp [List.getD, show k' < a.mcl.length by omega]
      rw [e1] at hle; rw [e2]; linarith

/-- C25 for every repaneled airfoil (the default): zero deflection at any hinge in front of the trailing edge changes
nothing. -/
theorem C25_zero_deflection_repaneled (pchip : List ℝ → List ℝ → Except Err (ℝ → ℝ)) (c : List (ℝ × ℝ)) (n : ℕ)
    (hn : 2 ≤ n) (a : Airfoil) (ha : Airfoil.create pchip c true n = .ok a) (h : ℝ) (hh : h < 1) :
    a.addControlSurface 0 h = .ok a := by
  obtain ⟨hw, _, hl, hx, _⟩ := C24_repaneled pchip c n hn a ha
  apply C25_zero_deflection hw
  have hlast := (C07_cosspace 0 1 n (by norm_num) hn).last
  rw [← hx, List.getElem?_map, Option.map_eq_some_iff] at hlast
  obtain ⟨p, hp, hp1⟩ := hlast
  exact ⟨p, List.mem_of_getElem? hp, by rw [hp1]; exact hh⟩

/-- Non-vacuity: a diamond airfoil is well-formed. -/
noncomputable def diamond : List (ℝ × ℝ) := [(1, 0), (1 / 2, 1 / 10), (0, 0), (1 / 2, -1 / 10), (1, 0)]

theorem diamond_argmin : argminX diamond = 2 := by
  apply argminX_eq
  · simp [diamond]
  · intro i hi
    interval_cases i <;> simp [diamond]
  · intro i hi
    have : i < 5 := by simpa [diamond] using hi
    interval_cases i <;> simp [diamond]

theorem diamond_wellFormed : ∃ a, WellFormed diamond a ∧ a.mcl = [(0, 0), (1 / 2, 0), (1, 0)] := by
  have h : ∃ a, Airfoil.ofCoordinates diamond = .ok a ∧ a.mcl = [(0, 0), (1 / 2, 0), (1, 0)] := by
    unfold Airfoil.ofCoordinates
    rw [if_neg (by simp [diamond])]
    simp only [upperCoordinates, lowerCoordinates, diamond_argmin]
    simp [diamond, bcast, bind, Except.bind, pure, Except.pure]
    refine ⟨⟨?_, ?_⟩, ?_⟩ <;> norm_num
  obtain ⟨a, ha, hm⟩ := h
  exact ⟨a, ⟨ha, by simp [diamond], by rw [diamond_argmin]; simp [diamond]⟩, hm⟩

example : ∃ a, WellFormed diamond a ∧ (∃ p ∈ a.mcl, (3 / 4 : ℝ) < p.1) ∧ InFront a (3 / 4) 1 ∧ ¬ InFront a (3 / 4) 2 := by
  obtain ⟨a, hw, hm⟩ := diamond_wellFormed
  refine ⟨a, hw, ⟨(1, 0), by rw [hm]; simp, by norm_num⟩, ?_, ?_⟩
  · intro k hk
    rw [hm]
    interval_cases k <;> norm_num
  · intro hf
    have := hf 2 le_rfl
    rw [hm] at this
    norm_num at this

end Ptera
