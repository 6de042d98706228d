import Verif.Spec.NearbyWings
import Verif.Props.ControlSurface
import Verif.Props.CamberLine
import Mathlib.Topology.Instances.Real.Lemmas
import Mathlib.Topology.Order.OrderClosed
import Mathlib.Analysis.SpecialFunctions.Trigonometric.Basic
import Mathlib.Topology.Algebra.GroupWithZero

/-! The camber line of an airfoil whose control surface is deflected a little more or less. -/

namespace Ptera

open Filter Topology List

variable {ι : Type*} {F : Filter ι}

/-- The pairs of numbers `f` tend to `v`. -/
def PairTends (F : Filter ι) (f : ι → ℝ × ℝ) (v : ℝ × ℝ) : Prop :=
  Tendsto (fun n => (f n).1) F (𝓝 v.1) ∧ Tendsto (fun n => (f n).2) F (𝓝 v.2)

theorem PairTends.const (v : ℝ × ℝ) : PairTends F (fun _ : ι => v) v := ⟨tendsto_const_nhds, tendsto_const_nhds⟩

/-- The point `k` of the camber line of an airfoil with a control surface, at the given fractions of its length. -/
noncomputable def camberPoint (a : Airfoil) (deflection hinge : ℝ) (fractions : List ℝ) (k : ℕ) : ℝ × ℝ :=
  match a.addControlSurface deflection hinge with
  | .ok b => (b.downsampledMcl fractions).getD k (0, 0)
  | .error _ => (0, 0)

/-- The first leftmost point is strictly left of all points before it. -/
theorem argminX_first : ∀ (c : List (ℝ × ℝ)) (i : ℕ), i < argminX c →
    (c.getD (argminX c) (0, 0)).1 < (c.getD i (0, 0)).1
  | [], i, h => by simp [argminX] at h
  | [a], i, h => by simp [argminX] at h
  | a :: b :: l, i, h => by
    have ih := argminX_first (b :: l)
    unfold argminX at h ⊢
    simp only at h ⊢
    split_ifs at h ⊢ with hc
    · omega
    · push Not at hc
      cases i with
      | zero => simpa only [List.getD_cons_zero, List.getD_cons_succ] using hc
      | succ i =>
        simp only [List.getD_cons_succ]
        exact ih i (by omega)

/-! ## Interpolation -/

/-- The lists of numbers `L` tend to `l`, element by element. -/
def ListTends (F : Filter ι) (L : ι → List ℝ) (l : List ℝ) : Prop :=
  (∀ n, (L n).length = l.length) ∧ ∀ k, Tendsto (fun n => (L n).getD k 0) F (𝓝 (l.getD k 0))

theorem ListTends.cons_iff {L : ι → List ℝ} {x : ℝ} {l : List ℝ} (h : ListTends F L (x :: l)) :
    ∃ (y : ι → ℝ) (M : ι → List ℝ), (∀ n, L n = y n :: M n) ∧ Tendsto y F (𝓝 x) ∧ ListTends F M l := by
  have e : ∀ n, L n = (L n).getD 0 0 :: (L n).tail := by
    intro n
    have := h.1 n
    cases hL : L n with
    | nil => rw [hL] at this; simp at this
    | cons a r => simp
  refine ⟨fun n => (L n).getD 0 0, fun n => (L n).tail, e, by simpa using h.2 0, fun n => by simp [h.1 n], fun k => ?_⟩
  have := h.2 (k + 1)
  rw [List.getD_cons_succ] at this
  refine this.congr fun n => ?_
  conv_lhs => rw [e n]
  rw [List.getD_cons_succ]

theorem npInterp_first {x x₀ f₀ : ℝ} {xs fs : List ℝ} (hlen : xs.length = fs.length) (hx : x ≤ x₀) :
    npInterp x (x₀ :: xs) (f₀ :: fs) = f₀ := by
  cases xs with
  | nil => cases fs <;> rfl
  | cons c xs =>
    cases fs with
    | nil => simp at hlen
    | cons k fs => unfold npInterp; rw [if_pos hx]

/-- Linear interpolation depends continuously on its nodes. -/
theorem npInterp_tends (x : ℝ) : ∀ (xs fs : List ℝ) (X Y : ι → List ℝ), xs.length = fs.length → xs.Pairwise (· < ·) →
    ListTends F X xs → ListTends F Y fs → Tendsto (fun n => npInterp x (X n) (Y n)) F (𝓝 (npInterp x xs fs)) := by
  intro xs
  induction xs with
  | nil =>
    intro fs X Y hlen _ hX hY
    have h1 : ∀ n, X n = [] := fun n => List.eq_nil_of_length_eq_zero (hX.1 n)
    have hf : fs = [] := List.eq_nil_of_length_eq_zero (by simpa using hlen.symm)
    subst hf
    have h2 : ∀ n, Y n = [] := fun n => List.eq_nil_of_length_eq_zero (hY.1 n)
    simp only [h1, h2]
    exact tendsto_const_nhds
  | cons a xs ih =>
    intro fs X Y hlen hsort hX hY
    match xs, fs, ih, hlen, hsort, hX, hY with
    | _, [], _, hlen, _, _, _ => simp at hlen
    | [], f :: fs, _, hlen, _, hX, hY =>
      have hf : fs = [] := List.eq_nil_of_length_eq_zero (by simpa using hlen.symm)
      subst hf
      obtain ⟨x', M, e1, -, h2⟩ := hX.cons_iff
      obtain ⟨y', N, e2, h3, h4⟩ := hY.cons_iff
      have m : ∀ n, M n = [] := fun n => List.eq_nil_of_length_eq_zero (h2.1 n)
      simp only [e1, e2, m]
      exact h3
    | b :: xs, [f], _, hlen, _, _, _ => simp at hlen
    | b :: xs, f :: g :: fs, ih, hlen, hsort, hX, hY =>
      have hab : a < b := (List.pairwise_cons.mp hsort).1 b (by simp)
      have hlen' : (b :: xs).length = (g :: fs).length := by simpa using hlen
      obtain ⟨A, M, eX, hA, hM⟩ := hX.cons_iff
      obtain ⟨f', N, eY, hf', hN⟩ := hY.cons_iff
      have hrest := ih (g :: fs) M N hlen' (List.pairwise_cons.mp hsort).2 hM hN
      obtain ⟨B, M', eM, hB, hM'⟩ := hM.cons_iff
      obtain ⟨g', N', eN, hg', hN'⟩ := hN.cons_iff
      have hd : b - a ≠ 0 := by linarith
      have hlin : Tendsto (fun n => f' n + (g' n - f' n) / (B n - A n) * (x - A n)) F
          (𝓝 (f + (g - f) / (b - a) * (x - a))) :=
        hf'.add (((hg'.sub hf').div (hB.sub hA) hd).mul (hA.const_sub x))
      have e : ∀ n, npInterp x (X n) (Y n) = open Classical in if x ≤ A n then f' n else
          if x < B n then f' n + (g' n - f' n) / (B n - A n) * (x - A n) else npInterp x (M n) (N n) := by
        intro n
        rw [eX n, eY n, eM n, eN n]
        rfl
      simp only [e]
      rcases lt_trichotomy x a with hlt | heq | hgt
      · rw [npInterp_first (by simpa using hlen) hlt.le]
        refine hf'.congr' ?_
        filter_upwards [hA.eventually (lt_mem_nhds hlt)] with n hn
        rw [if_pos hn.le]
      · rw [npInterp_first (by simpa using hlen) heq.le]
        have hl : Tendsto (fun n => f' n + (g' n - f' n) / (B n - A n) * (x - A n)) F (𝓝 f) := by
          have := hlin
          rwa [heq, sub_self, mul_zero, add_zero, ← heq] at this
        refine Tendsto.congr' ?_ (Tendsto.if' (p := fun n => x ≤ A n) hf' hl)
        filter_upwards [hB.eventually (lt_mem_nhds (heq.trans_lt hab))] with n hn
        rw [if_pos hn]
      · have hn0 : ¬ x ≤ a := not_le.mpr hgt
        rcases lt_trichotomy x b with hlt' | heq' | hgt'
        · have hv : npInterp x (a :: b :: xs) (f :: g :: fs) = f + (g - f) / (b - a) * (x - a) := by
            unfold npInterp
            rw [if_neg hn0, if_pos hlt']
          rw [hv]
          refine hlin.congr' ?_
          filter_upwards [hA.eventually (gt_mem_nhds hgt), hB.eventually (lt_mem_nhds hlt')] with n k1 k2
          rw [if_neg (not_le.mpr k1), if_pos k2]
        · have hv : npInterp x (a :: b :: xs) (f :: g :: fs) = npInterp x (b :: xs) (g :: fs) := by
            conv_lhs => unfold npInterp
            rw [if_neg hn0, if_neg heq'.not_lt]
          have hg : npInterp x (b :: xs) (g :: fs) = g := npInterp_first (by simpa using hlen') heq'.le
          rw [hv]
          have hl : Tendsto (fun n => f' n + (g' n - f' n) / (B n - A n) * (x - A n)) F
              (𝓝 (npInterp x (b :: xs) (g :: fs))) := by
            have := hlin
            rw [hg]
            rwa [heq', div_mul_cancel₀ _ hd, add_sub_cancel, ← heq'] at this
          refine Tendsto.congr' ?_ (Tendsto.if' (p := fun n => x < B n) hl hrest)
          filter_upwards [hA.eventually (gt_mem_nhds hgt)] with n k1
          rw [if_neg (not_le.mpr k1)]
        · have hv : npInterp x (a :: b :: xs) (f :: g :: fs) = npInterp x (b :: xs) (g :: fs) := by
            conv_lhs => unfold npInterp
            rw [if_neg hn0, if_neg hgt'.le.not_gt]
          rw [hv]
          refine hrest.congr' ?_
          filter_upwards [hA.eventually (gt_mem_nhds hgt), hB.eventually (gt_mem_nhds hgt')] with n k1 k2
          rw [if_neg (not_le.mpr k1), if_neg k2.le.not_gt]

/-! ## Lengths -/

/-- The polygonal lines `L` tend to `l`, point by point. -/
def LineTends (F : Filter ι) (L : ι → List (ℝ × ℝ)) (l : List (ℝ × ℝ)) : Prop :=
  (∀ n, (L n).length = l.length) ∧ ∀ k, PairTends F (fun n => (L n).getD k (0, 0)) (l.getD k (0, 0))

theorem LineTends.cons_iff {L : ι → List (ℝ × ℝ)} {x : ℝ × ℝ} {l : List (ℝ × ℝ)} (h : LineTends F L (x :: l)) :
    ∃ (y : ι → ℝ × ℝ) (M : ι → List (ℝ × ℝ)), (∀ n, L n = y n :: M n) ∧ PairTends F y x ∧ LineTends F M l := by
  have e : ∀ n, L n = (L n).getD 0 (0, 0) :: (L n).tail := by
    intro n
    have := h.1 n
    cases hL : L n with
    | nil => rw [hL] at this; simp at this
    | cons a r => simp
  refine ⟨fun n => (L n).getD 0 (0, 0), fun n => (L n).tail, e, by simpa using h.2 0, fun n => by simp [h.1 n],
    fun k => ?_⟩
  have := h.2 (k + 1)
  rw [List.getD_cons_succ] at this
  have e' : ∀ n, (L n).getD (k + 1) (0, 0) = (L n).tail.getD k (0, 0) := by
    intro n
    conv_lhs => rw [e n]
    rw [List.getD_cons_succ]
  simpa only [e'] using this

theorem LineTends.take {L : ι → List (ℝ × ℝ)} {l : List (ℝ × ℝ)} (h : LineTends F L l) (j : ℕ) :
    LineTends F (fun n => (L n).take j) (l.take j) := by
  refine ⟨fun n => by simp [h.1 n], fun k => ?_⟩
  have e : ∀ m : List (ℝ × ℝ), (m.take j).getD k (0, 0) = if k < j then m.getD k (0, 0) else (0, 0) := by
    intro m
    rw [List.getD_eq_getElem?_getD, List.getElem?_take]
    split_ifs <;> simp [List.getD_eq_getElem?_getD]
  simp only [e]
  by_cases hk : k < j
  · simp only [hk, if_true]; exact h.2 k
  · simp only [hk, if_false]; exact PairTends.const _

theorem dist2_tends {f g : ι → ℝ × ℝ} {u v : ℝ × ℝ} (hf : PairTends F f u) (hg : PairTends F g v) :
    Tendsto (fun n => dist2 (f n) (g n)) F (𝓝 (dist2 u v)) :=
  (Real.continuous_sqrt.tendsto _).comp (((hf.1.sub hg.1).pow 2).add ((hf.2.sub hg.2).pow 2))

theorem arcLength_tends : ∀ (l : List (ℝ × ℝ)) (L : ι → List (ℝ × ℝ)), LineTends F L l →
    Tendsto (fun n => arcLength (L n)) F (𝓝 (arcLength l)) := by
  intro l
  induction l with
  | nil =>
    intro L h
    have : ∀ n, L n = [] := fun n => List.eq_nil_of_length_eq_zero (h.1 n)
    simp only [this]
    exact tendsto_const_nhds
  | cons p l ih =>
    intro L h
    obtain ⟨y, M, e, hy, hM⟩ := h.cons_iff
    cases l with
    | nil =>
      have : ∀ n, M n = [] := fun n => List.eq_nil_of_length_eq_zero (hM.1 n)
      simp only [e, this, arcLength]
      exact tendsto_const_nhds
    | cons q l =>
      have hr := ih M hM
      obtain ⟨z, M', e', hz, -⟩ := hM.cons_iff
      simp only [e, e', arcLength] at hr ⊢
      exact (dist2_tends hy hz).add hr

/-- For distinct consecutive points the fractions of the length increase. -/
theorem mclFractions_increasing (mcl : List (ℝ × ℝ)) (htwo : 2 ≤ mcl.length) (hdist : mcl.IsChain (· ≠ ·)) :
    0 < arcLength mcl ∧ (mclFractions mcl).Pairwise (· < ·) := by
  have hne : mcl ≠ [] := by intro e; rw [e] at htwo; simp at htwo
  obtain ⟨hlen, hget⟩ := mclFractions_get mcl hne
  have hsucc : ∀ j, j + 1 < mcl.length → arcLength (mcl.take (j + 1)) < arcLength (mcl.take (j + 2)) := by
    intro j hj
    rw [arcLength_take_succ mcl j _ _ (List.getElem?_eq_getElem (by omega)) (List.getElem?_eq_getElem hj)]
    linarith [dist2_pos (List.isChain_iff_getElem.mp hdist j hj)]
  have hmono : ∀ i j, i < j → j < mcl.length → arcLength (mcl.take (i + 1)) < arcLength (mcl.take (j + 1)) := by
    intro i j hij
    induction j with
    | zero => omega
    | succ j ih =>
      intro hj
      rcases Nat.lt_succ_iff_lt_or_eq.mp hij with h | h
      · exact (ih h (by omega)).trans (hsucc j hj)
      · subst h; exact hsucc _ hj
  have htot : 0 < arcLength mcl := by
    have := hmono 0 (mcl.length - 1) (by omega) (by omega)
    rw [Nat.sub_add_cancel (by omega), List.take_length] at this
    exact lt_of_le_of_lt (arcLength_nonneg _) this
  refine ⟨htot, ?_⟩
  rw [List.pairwise_iff_getElem]
  intro i j hi hj hij
  have h1 := hget i (by omega)
  have h2 := hget j (by omega)
  rw [List.getElem?_eq_getElem hi, Option.some.injEq] at h1
  rw [List.getElem?_eq_getElem hj, Option.some.injEq] at h2
  rw [h1, h2]
  exact div_lt_div_of_pos_right (hmono i j hij (by omega)) htot

/-- The points at given fractions of the length depend continuously on the line. -/
theorem downsampled_tends {b : ι → Airfoil} {b₀ : Airfoil} (h : LineTends F (fun n => (b n).mcl) b₀.mcl)
    (htwo : 2 ≤ b₀.mcl.length) (hdist : b₀.mcl.IsChain (· ≠ ·)) (fractions : List ℝ) (k : ℕ) :
    PairTends F (fun n => ((b n).downsampledMcl fractions).getD k (0, 0))
      ((b₀.downsampledMcl fractions).getD k (0, 0)) := by
  obtain ⟨hpos, hsort⟩ := mclFractions_increasing _ htwo hdist
  have hne : b₀.mcl ≠ [] := by intro e; rw [e] at htwo; simp at htwo
  have hne' : ∀ n, (b n).mcl ≠ [] := by
    intro n e
    have := h.1 n
    simp only [e, List.length_nil] at this
    omega
  have hX : ListTends F (fun n => mclFractions (b n).mcl) (mclFractions b₀.mcl) := by
    refine ⟨fun n => by rw [(mclFractions_get _ (hne' n)).1, (mclFractions_get _ hne).1, h.1 n], fun j => ?_⟩
    by_cases hj : j < b₀.mcl.length
    · have e : ∀ n, (mclFractions (b n).mcl).getD j 0 = arcLength ((b n).mcl.take (j + 1)) / arcLength (b n).mcl := by
        intro n
        rw [List.getD_eq_getElem?_getD, (mclFractions_get _ (hne' n)).2 j (by rw [h.1 n]; exact hj)]; rfl
      have e₀ : (mclFractions b₀.mcl).getD j 0 = arcLength (b₀.mcl.take (j + 1)) / arcLength b₀.mcl := by
        rw [List.getD_eq_getElem?_getD, (mclFractions_get _ hne).2 j hj]; rfl
      simp only [e, e₀]
      exact (arcLength_tends _ _ (h.take _)).div (arcLength_tends _ _ h) hpos.ne'
    · have e : ∀ n, (mclFractions (b n).mcl).getD j 0 = 0 := by
        intro n
        rw [List.getD_eq_default]
        rw [(mclFractions_get _ (hne' n)).1, h.1 n]; omega
      have e₀ : (mclFractions b₀.mcl).getD j 0 = 0 := by
        rw [List.getD_eq_default]
        rw [(mclFractions_get _ hne).1]; omega
      simp only [e, e₀]
      exact tendsto_const_nhds
  have hY : ∀ π : ℝ × ℝ → ℝ, π (0, 0) = 0 → (∀ (f : ι → ℝ × ℝ) v, PairTends F f v → Tendsto (fun n => π (f n)) F (𝓝 (π v))) →
      ListTends F (fun n => (b n).mcl.map π) (b₀.mcl.map π) := by
    intro π h0 hπ
    refine ⟨fun n => by simp [h.1 n], fun j => ?_⟩
    have e : ∀ l : List (ℝ × ℝ), (l.map π).getD j 0 = π (l.getD j (0, 0)) := by
      intro l; rw [List.getD_eq_getElem?_getD, List.getD_eq_getElem?_getD, List.getElem?_map]; cases l[j]? <;> simp [h0]
    simp only [e]
    exact hπ _ _ (h.2 j)
  have hlen : (mclFractions b₀.mcl).length = b₀.mcl.length := (mclFractions_get _ hne).1
  unfold Airfoil.downsampledMcl
  by_cases hk : k < fractions.length
  · have e : ∀ g : ℝ → ℝ × ℝ, (fractions.map g).getD k (0, 0) = g fractions[k] := by
      intro g
      rw [List.getD_eq_getElem?_getD, List.getElem?_map, List.getElem?_eq_getElem hk]; rfl
    simp only [e]
    exact ⟨npInterp_tends _ _ _ _ _ (by simp [hlen]) hsort hX (hY Prod.fst rfl fun _ _ h => h.1),
      npInterp_tends _ _ _ _ _ (by simp [hlen]) hsort hX (hY Prod.snd rfl fun _ _ h => h.2)⟩
  · have e : ∀ g : ℝ → ℝ × ℝ, (fractions.map g).getD k (0, 0) = (0, 0) := by
      intro g
      rw [List.getD_eq_default]
      simp; omega
    simp only [e]
    exact PairTends.const _

/-! ## Deflections -/

theorem rotateAbout_tends {α : ι → ℝ} {α₀ : ℝ} (h : Tendsto α F (𝓝 α₀)) (o p : ℝ × ℝ) :
    PairTends F (fun n => rotateAbout (α n) o p) (rotateAbout α₀ o p) := by
  have hs := (Real.continuous_sin.tendsto α₀).comp h
  have hc := (Real.continuous_cos.tendsto α₀).comp h
  exact ⟨((hc.mul_const _).sub (hs.mul_const _)).const_add _, ((hs.mul_const _).add (hc.mul_const _)).const_add _⟩

/-- What a regular control surface gives: with any nearby deflection the leading edge stays in front. -/
theorem Airfoil.FlapsRegularly.ahead {a : Airfoil} {d₀ h : ℝ} (hreg : a.FlapsRegularly d₀ h) :
    ∃ c b₀, WellFormed c a ∧ InFront a h 0 ∧ a.addControlSurface d₀ h = .ok b₀ ∧ b₀.mcl.IsChain (· ≠ ·) ∧
      ∀ᶠ d in 𝓝 d₀, ∀ k ≤ argminX c, 0 < k → ¬ InFront a h k → ∀ i, (i = argminX c - k ∨ i = argminX c + k) →
        (c.getD (argminX c) (0, 0)).1 < (rotateAbout (-d * Real.pi / 180) (h, a.camberAt h) (c.getD i (0, 0))).1 := by
  obtain ⟨c, b₀, hc, hodd, hfr, hb₀, hle, hdist⟩ := hreg
  have hw : WellFormed c a := ⟨hc, by intro e; rw [e] at hodd; simp at hodd, hodd⟩
  have hfront : InFront a h 0 := by
    intro k' hk'
    obtain rfl : k' = 0 := by omega
    exact hfr
  refine ⟨c, b₀, hw, hfront, hb₀, hdist, ?_⟩
  have hang : Tendsto (fun d : ℝ => -d * Real.pi / 180) (𝓝 d₀) (𝓝 (-d₀ * Real.pi / 180)) :=
    (tendsto_id.neg.mul_const _).div_const _
  obtain ⟨hlen, hcoord⟩ := C25_rigid_rotation hw d₀ h hb₀
  have h0 := (hcoord 0 (Nat.zero_le _) (argminX c) (Or.inl (by omega))).1 hfront
  have hle₀ : ∀ k ≤ argminX c, 0 < k → ¬ InFront a h k → ∀ i, (i = argminX c - k ∨ i = argminX c + k) →
      (c.getD (argminX c) (0, 0)).1 < (rotateAbout (-d₀ * Real.pi / 180) (h, a.camberAt h) (c.getD i (0, 0))).1 := by
    intro k hk hk0 hf i hi
    have := hle i (by omega) (by omega)
    rwa [h0, (hcoord k hk i hi).2 hf] at this
  have : ∀ᶠ d in 𝓝 d₀, ∀ k ∈ Finset.range (argminX c + 1), ∀ i ∈ Finset.range c.length, 0 < k → ¬ InFront a h k →
      (i = argminX c - k ∨ i = argminX c + k) → (c.getD (argminX c) (0, 0)).1
        < (rotateAbout (-d * Real.pi / 180) (h, a.camberAt h) (c.getD i (0, 0))).1 := by
    rw [Filter.eventually_all_finset]
    intro k hk
    rw [Filter.eventually_all_finset]
    intro i hi
    rw [Finset.mem_range] at hk hi
    by_cases hcond : 0 < k ∧ ¬ InFront a h k ∧ (i = argminX c - k ∨ i = argminX c + k)
    · filter_upwards [(rotateAbout_tends hang (h, a.camberAt h) (c.getD i (0, 0))).1.eventually
        (lt_mem_nhds (hle₀ k (by omega) hcond.1 hcond.2.1 i hcond.2.2))] with d hd _ _ _
      exact hd
    · filter_upwards with d k1 k2 k3
      exact absurd ⟨k1, k2, k3⟩ hcond
  refine this.mono fun d hd k hk hk0 hf i hi => ?_
  exact hd k (Finset.mem_range.mpr (by omega)) i (Finset.mem_range.mpr (by omega)) hk0 hf hi

theorem flap_behind {a b : Airfoil} {d h : ℝ} (hb : a.addControlSurface d h = .ok b) :
    |d| ≤ 90 ∧ ∃ p ∈ a.mcl, h < p.1 := by
  obtain ⟨h1, split, hs, -⟩ := addControlSurface_coordinates d h hb
  refine ⟨h1, ?_⟩
  unfold splitIndex at hs
  obtain ⟨hlt, hp, -⟩ := List.findIdx?_eq_some_iff_getElem.mp hs
  exact ⟨_, List.getElem_mem hlt, by simpa using hp⟩

/-- A regular control surface can be deflected a little more or less. -/
theorem Airfoil.FlapsRegularly.accepted {a : Airfoil} {d₀ h : ℝ} (hreg : a.FlapsRegularly d₀ h) (hd : |d₀| < 90) :
    ∀ᶠ d in 𝓝 d₀, ∃ b, a.addControlSurface d h = .ok b := by
  obtain ⟨c, b₀, hw, hfront, hb₀, -, hev⟩ := hreg.ahead
  have hlt : ∀ᶠ d in 𝓝 d₀, |d| < 90 := (continuous_abs.tendsto d₀).eventually (gt_mem_nhds hd)
  filter_upwards [hev, hlt] with d k1 k2
  obtain ⟨b, hb, -⟩ := C25_camber_line hw d h k2.le (flap_behind hb₀).2 hfront k1 (argminX_first c)
  exact ⟨b, hb⟩

theorem flap_tends {a : Airfoil} {d : ι → ℝ} {d₀ h : ℝ} (hreg : a.FlapsRegularly d₀ h) (hd : Tendsto d F (𝓝 d₀))
    (hok : ∀ n, ∃ b, a.addControlSurface (d n) h = .ok b) (fractions : List ℝ) (k : ℕ) :
    PairTends F (fun n => camberPoint a (d n) h fractions k) (camberPoint a d₀ h fractions k) := by
  obtain ⟨c, b₀, hw, hfront, hb₀, hdist, hnear⟩ := hreg.ahead
  have hfr : (a.mcl.getD 0 (0, 0)).1 ≤ h := hfront 0 le_rfl
  have hang : Tendsto (fun n => -d n * Real.pi / 180) F (𝓝 (-d₀ * Real.pi / 180)) :=
    (hd.neg.mul_const _).div_const _
  have hle₀ := hnear.self_of_nhds
  have hev := hd.eventually hnear
  have hold := argminX_first c
  -- the flapped camber lines
  obtain ⟨_, hml, _, _⟩ := hw.parts
  have hline : ∀ {d b}, a.addControlSurface d h = .ok b → (∀ k ≤ argminX c, 0 < k → ¬ InFront a h k →
      ∀ i, (i = argminX c - k ∨ i = argminX c + k) → (c.getD (argminX c) (0, 0)).1
        < (rotateAbout (-d * Real.pi / 180) (h, a.camberAt h) (c.getD i (0, 0))).1) →
      b.mcl.length = argminX c + 1 ∧ ∀ k ≤ argminX c,
        (InFront a h k → b.mcl.getD k (0, 0) = a.mcl.getD k (0, 0)) ∧
        (¬ InFront a h k → b.mcl.getD k (0, 0)
          = rotateAbout (-d * Real.pi / 180) (h, a.camberAt h) (a.mcl.getD k (0, 0))) := by
    intro d b hb hl
    obtain ⟨h1, h2⟩ := flap_behind hb
    obtain ⟨b', e, e1, e2⟩ := C25_camber_line hw d h h1 h2 hfront hl hold
    rw [hb, Except.ok.injEq] at e
    subst e
    exact ⟨by rw [e1, hml], e2⟩
  obtain ⟨l₀, m₀⟩ := hline hb₀ hle₀
  choose b hb using hok
  -- replace the finitely many bad members
  set b' : ι → Airfoil := fun n => open Classical in if (∀ k ≤ argminX c, 0 < k → ¬ InFront a h k →
      ∀ i, (i = argminX c - k ∨ i = argminX c + k) → (c.getD (argminX c) (0, 0)).1
        < (rotateAbout (-d n * Real.pi / 180) (h, a.camberAt h) (c.getD i (0, 0))).1) then b n else b₀ with hb'
  have heq : ∀ᶠ n in F, b' n = b n := hev.mono fun n hn => if_pos hn
  have hlt : LineTends F (fun n => (b' n).mcl) b₀.mcl := by
    refine ⟨fun n => ?_, fun j => ?_⟩
    · simp only [hb']
      split_ifs with hcase
      · rw [(hline (hb n) hcase).1, l₀]
      · rfl
    · by_cases hj : j ≤ argminX c
      · by_cases hf : InFront a h j
        · rw [(m₀ j hj).1 hf]
          have e : ∀ᶠ n in F, (b' n).mcl.getD j (0, 0) = a.mcl.getD j (0, 0) := by
            filter_upwards [heq, hev] with n k1 k2
            rw [k1, ((hline (hb n) k2).2 j hj).1 hf]
          exact ⟨tendsto_const_nhds.congr' (e.mono fun n hn => by simp only [hn]),
            tendsto_const_nhds.congr' (e.mono fun n hn => by simp only [hn])⟩
        · rw [(m₀ j hj).2 hf]
          have e : ∀ᶠ n in F, (b' n).mcl.getD j (0, 0)
              = rotateAbout (-d n * Real.pi / 180) (h, a.camberAt h) (a.mcl.getD j (0, 0)) := by
            filter_upwards [heq, hev] with n k1 k2
            rw [k1, ((hline (hb n) k2).2 j hj).2 hf]
          obtain ⟨r1, r2⟩ := rotateAbout_tends hang (h, a.camberAt h) (a.mcl.getD j (0, 0))
          exact ⟨r1.congr' (e.mono fun n hn => by simp only [hn]), r2.congr' (e.mono fun n hn => by simp only [hn])⟩
      · have e : ∀ n, (b' n).mcl.getD j (0, 0) = (0, 0) := by
          intro n
          rw [List.getD_eq_default]
          simp only [hb']
          split_ifs with hcase
          · rw [(hline (hb n) hcase).1]; omega
          · omega
        have e₀ : b₀.mcl.getD j (0, 0) = (0, 0) := by rw [List.getD_eq_default]; omega
        simp only [e, e₀]
        exact PairTends.const _
  have htwo : 2 ≤ b₀.mcl.length := by
    obtain ⟨-, p, hp, hgt⟩ := flap_behind hb₀
    rw [l₀]
    by_contra hlt
    have h1 : a.mcl.length = 1 := by omega
    obtain ⟨q, hq⟩ := List.length_eq_one_iff.mp h1
    rw [hq] at hp hfr
    simp at hp hfr
    subst hp
    linarith
  obtain ⟨t1, t2⟩ := downsampled_tends hlt htwo hdist fractions k
  have ecp : ∀ {d b}, a.addControlSurface d h = .ok b →
      camberPoint a d h fractions k = (b.downsampledMcl fractions).getD k (0, 0) := by
    intro d b hb; unfold camberPoint; rw [hb]
  rw [ecp hb₀]
  exact ⟨t1.congr' (heq.mono fun n hn => by simp only [ecp (hb n), hn]), t2.congr' (heq.mono fun n hn => by simp only [ecp (hb n), hn])⟩

end Ptera
