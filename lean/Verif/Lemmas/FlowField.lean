import Verif.Spec.FlowField
import Verif.Lemmas.Aero
import Mathlib.Analysis.SpecialFunctions.Sqrt
import Mathlib.Analysis.Calculus.Deriv.Mul
import Mathlib.Analysis.Calculus.Deriv.Inv
import Mathlib.Analysis.Calculus.Deriv.Add
import Mathlib.Tactic.Module

/-! Derivatives of the velocity of a straight filament. -/

namespace Ptera

open V3 (HasDeriv)

namespace V3

theorem HasDeriv.add {f g : ℝ → V3} {a b : V3} {t : ℝ} (hf : HasDeriv f a t) (hg : HasDeriv g b t) :
    HasDeriv (fun h => f h + g h) (a + b) t :=
  ⟨hf.1.add hg.1, hf.2.1.add hg.2.1, hf.2.2.add hg.2.2⟩

theorem hasDeriv_const (a : V3) (t : ℝ) : HasDeriv (fun _ => a) 0 t :=
  ⟨hasDerivAt_const t a.x, hasDerivAt_const t a.y, hasDerivAt_const t a.z⟩

theorem HasDeriv.smul {c : ℝ → ℝ} {f : ℝ → V3} {c' : ℝ} {a : V3} {t : ℝ} (hc : HasDerivAt c c' t) (hf : HasDeriv f a t) :
    HasDeriv (fun h => c h • f h) (c' • f t + c t • a) t :=
  ⟨hc.mul hf.1, hc.mul hf.2.1, hc.mul hf.2.2⟩

theorem HasDeriv.cross {f g : ℝ → V3} {a b : V3} {t : ℝ} (hf : HasDeriv f a t) (hg : HasDeriv g b t) :
    HasDeriv (fun h => (f h).cross (g h)) (a.cross (g t) + (f t).cross b) t := by
  obtain ⟨f1, f2, f3⟩ := hf
  obtain ⟨g1, g2, g3⟩ := hg
  refine ⟨?_, ?_, ?_⟩
  · exact HasDerivAt.congr_deriv ((f2.mul g3).sub (f3.mul g2)) (by simp; ring)
  · exact HasDerivAt.congr_deriv ((f3.mul g1).sub (f1.mul g3)) (by simp; ring)
  · exact HasDerivAt.congr_deriv ((f1.mul g2).sub (f2.mul g1)) (by simp; ring)

theorem HasDeriv.dot {f g : ℝ → V3} {a b : V3} {t : ℝ} (hf : HasDeriv f a t) (hg : HasDeriv g b t) :
    HasDerivAt (fun h => (f h).dot (g h)) (a.dot (g t) + (f t).dot b) t := by
  obtain ⟨f1, f2, f3⟩ := hf
  obtain ⟨g1, g2, g3⟩ := hg
  exact HasDerivAt.congr_deriv (((f1.mul g1).add (f2.mul g2)).add (f3.mul g3)) (by simp [V3.dot]; ring)

theorem HasDeriv.norm {f : ℝ → V3} {a : V3} {t : ℝ} (hf : HasDeriv f a t) (h : (f t).norm ≠ 0) :
    HasDerivAt (fun h => (f h).norm) (a.dot (f t) / (f t).norm) t := by
  have hd := hf.dot hf
  have h0 : (f t).dot (f t) ≠ 0 := by rw [← norm_sq]; exact pow_ne_zero 2 h
  refine HasDerivAt.congr_deriv (hd.sqrt h0) ?_
  rw [V3.dot_comm (f t) a]
  show _ / (2 * (f t).norm) = _
  field_simp
  ring

theorem HasDeriv.congr {f g : ℝ → V3} {a : V3} {t : ℝ} (hf : HasDeriv f a t) (h : ∀ᶠ u in nhds t, g u = f u) :
    HasDeriv g a t :=
  ⟨hf.1.congr_of_eventuallyEq (h.mono fun _ e => congrArg V3.x e),
    hf.2.1.congr_of_eventuallyEq (h.mono fun _ e => congrArg V3.y e),
    hf.2.2.congr_of_eventuallyEq (h.mono fun _ e => congrArg V3.z e)⟩

/-- Moving the point moves the vector to a vertex the other way. -/
theorem hasDeriv_to (A q e : V3) : HasDeriv (fun h : ℝ => A - (q + h • e)) (-e) 0 := by
  have h : ∀ a b c : ℝ, HasDerivAt (fun h : ℝ => a - (b + h * c)) (-c) 0 := by
    intro a b c
    have := (((hasDerivAt_id (0 : ℝ)).mul_const c).const_add b).const_sub a
    simpa using this
  exact ⟨h _ _ _, h _ _ _, h _ _ _⟩

end V3

/-! ## Rules for divergence and curl -/

theorem HasPartials.add {v w : V3 → V3} {q a b c a' b' c' : V3} (hv : HasPartials v q a b c)
    (hw : HasPartials w q a' b' c') : HasPartials (fun p => v p + w p) q (a + a') (b + b') (c + c') :=
  ⟨hv.x.add hw.x, hv.y.add hw.y, hv.z.add hw.z⟩

theorem hasPartials_const (u q : V3) : HasPartials (fun _ => u) q 0 0 0 :=
  ⟨V3.hasDeriv_const _ _, V3.hasDeriv_const _ _, V3.hasDeriv_const _ _⟩

theorem HasDivergence.add {v w : V3 → V3} {q : V3} {d e : ℝ} (hv : HasDivergence v q d) (hw : HasDivergence w q e) :
    HasDivergence (fun p => v p + w p) q (d + e) := by
  obtain ⟨a, b, c, h, rfl⟩ := hv
  obtain ⟨a', b', c', h', rfl⟩ := hw
  exact ⟨_, _, _, h.add h', by simp; ring⟩

theorem HasCurl.add {v w : V3 → V3} {q d e : V3} (hv : HasCurl v q d) (hw : HasCurl w q e) :
    HasCurl (fun p => v p + w p) q (d + e) := by
  obtain ⟨a, b, c, h, rfl⟩ := hv
  obtain ⟨a', b', c', h', rfl⟩ := hw
  exact ⟨_, _, _, h.add h', by ext <;> simp <;> ring⟩

theorem hasDivergence_const (u q : V3) : HasDivergence (fun _ => u) q 0 :=
  ⟨0, 0, 0, hasPartials_const u q, by simp⟩

theorem hasCurl_const (u q : V3) : HasCurl (fun _ => u) q 0 :=
  ⟨0, 0, 0, hasPartials_const u q, by ext <;> simp⟩

theorem HasDivergence.sum {α : Type*} (l : List α) (v : α → V3 → V3) (q : V3)
    (h : ∀ a ∈ l, HasDivergence (v a) q 0) : HasDivergence (fun p => (l.map fun a => v a p).sum) q 0 := by
  induction l with
  | nil => simpa using hasDivergence_const 0 q
  | cons a l ih =>
    have := (h a (by simp)).add (ih fun b hb => h b (by simp [hb]))
    simpa using this

theorem HasCurl.sum {α : Type*} (l : List α) (v : α → V3 → V3) (w : α → V3) (q : V3)
    (h : ∀ a ∈ l, HasCurl (v a) q (w a)) : HasCurl (fun p => (l.map fun a => v a p).sum) q (l.map w).sum := by
  induction l with
  | nil => simpa using hasCurl_const 0 q
  | cons a l ih =>
    have := (h a (by simp)).add (ih fun b hb => h b (by simp [hb]))
    simpa using this

/-- A flow that swirls about a line: a multiple of `r₁ × r₂` whose factor changes with the distances from the ends
only. -/
theorem hasPartials_swirl (A B q : V3) (g : V3 → ℝ) (α β : ℝ)
    (hg : ∀ e : V3, HasDerivAt (fun h : ℝ => g (q + h • e)) (-(α * (A - q).dot e + β * (B - q).dot e)) 0) :
    let C := (A - q).cross (B - q)
    let d := fun e : V3 => -(α * (A - q).dot e + β * (B - q).dot e) • C + g q • (-(e.cross (B - q)) - (A - q).cross e)
    HasPartials (fun p => g p • (A - p).cross (B - p)) q (d ⟨1, 0, 0⟩) (d ⟨0, 1, 0⟩) (d ⟨0, 0, 1⟩) := by
  intro C d
  have key : ∀ e : V3, V3.HasDeriv (fun h : ℝ => g (q + h • e) • (A - (q + h • e)).cross (B - (q + h • e))) (d e) 0 := by
    intro e
    have h1 := V3.HasDeriv.smul (hg e) ((V3.hasDeriv_to A q e).cross (V3.hasDeriv_to B q e))
    simp only [zero_smul, add_zero] at h1
    have e2 : (-e).cross (B - q) + (A - q).cross (-e) = -(e.cross (B - q)) - (A - q).cross e := by
      rw [V3.neg_cross, V3.cross_neg]; abel
    rw [e2] at h1
    exact h1
  exact ⟨key _, key _, key _⟩

theorem divergence_swirl (A B q : V3) (g : V3 → ℝ) (α β : ℝ)
    (hg : ∀ e : V3, HasDerivAt (fun h : ℝ => g (q + h • e)) (-(α * (A - q).dot e + β * (B - q).dot e)) 0) :
    HasDivergence (fun p => g p • (A - p).cross (B - p)) q 0 := by
  refine ⟨_, _, _, hasPartials_swirl A B q g α β hg, ?_⟩
  simp [V3.dot]
  ring

theorem curl_swirl (A B q : V3) (g : V3 → ℝ) (α β : ℝ)
    (hg : ∀ e : V3, HasDerivAt (fun h : ℝ => g (q + h • e)) (-(α * (A - q).dot e + β * (B - q).dot e)) 0) :
    HasCurl (fun p => g p • (A - p).cross (B - p)) q
      ((-(α * (A - q).dot (B - q) + β * (B - q).dot (B - q) + 2 * g q)) • (A - q)
        + (α * (A - q).dot (A - q) + β * (A - q).dot (B - q) + 2 * g q) • (B - q)) := by
  refine ⟨_, _, _, hasPartials_swirl A B q g α β hg, ?_⟩
  ext <;> simp [V3.dot] <;> ring

/-! ## The factor of the code's kernel -/

theorem hasDerivAt_norm_to (A q e : V3) (h : (A - q).norm ≠ 0) :
    HasDerivAt (fun h : ℝ => (A - (q + h • e)).norm) (-((A - q).dot e / (A - q).norm)) 0 := by
  have h1 := (V3.hasDeriv_to A q e).norm (by simpa using h)
  simp only [zero_smul, add_zero] at h1
  convert h1 using 1
  rw [V3.neg_dot, V3.dot_comm e]
  ring

theorem hasDerivAt_dot_to (A B q e : V3) :
    HasDerivAt (fun h : ℝ => (A - (q + h • e)).dot (B - (q + h • e))) (-((A - q).dot e + (B - q).dot e)) 0 := by
  have h1 := (V3.hasDeriv_to A q e).dot (V3.hasDeriv_to B q e)
  simp only [zero_smul, add_zero] at h1
  convert h1 using 1
  rw [V3.neg_dot, V3.dot_neg, V3.dot_comm e]
  ring

/-- With the viscous core: the factor changes with the distances only. -/
theorem kernelCoeff_deriv (nu : ℝ) (f : Seg) (q : V3) (h1 : (f.origin - q).norm ≠ 0) (h2 : (f.termination - q).norm ≠ 0)
    (h3 : (f.origin - q).cross (f.termination - q) ≠ 0) :
    ∃ α β : ℝ, ∀ e : V3, HasDerivAt (fun h : ℝ => kernelCoeff nu f (q + h • e))
      (-(α * (f.origin - q).dot e + β * (f.termination - q).dot e)) 0 := by
  set n1 := (f.origin - q).norm with hn1
  set n2 := (f.termination - q).norm with hn2
  set d := (f.origin - q).dot (f.termination - q) with hd
  set c2 := (f.termination - f.origin).norm ^ 2 * coreRadius nu f ^ 2 with hc2
  set c1 := f.strength / (4 * Real.pi) with hc1
  have hden : n1 * n2 * (n1 ^ 2 * n2 ^ 2 - d ^ 2 + c2) ≠ 0 := by
    refine mul_ne_zero (mul_ne_zero h1 h2) (ne_of_gt ?_)
    have e : n1 ^ 2 * n2 ^ 2 - d ^ 2 = ((f.origin - q).cross (f.termination - q)).norm ^ 2 := by
      rw [V3.norm_cross_sq]
    rw [e]
    have := pow_pos (V3.norm_pos.mpr h3) 2
    positivity
  -- the derivative as a linear function of the derivatives of distances and scalar product
  let m : ℝ → ℝ → ℝ → ℝ := fun a b c =>
    (c1 * ((a + b) * (n1 * n2 - d) + (n1 + n2) * (a * n2 + n1 * b - c)) * (n1 * n2 * (n1 ^ 2 * n2 ^ 2 - d ^ 2 + c2))
      - c1 * (n1 + n2) * (n1 * n2 - d) * ((a * n2 + n1 * b) * (n1 ^ 2 * n2 ^ 2 - d ^ 2 + c2)
        + n1 * n2 * (2 * n1 * a * n2 ^ 2 + n1 ^ 2 * (2 * n2 * b) - 2 * d * c)))
      / (n1 * n2 * (n1 ^ 2 * n2 ^ 2 - d ^ 2 + c2)) ^ 2
  refine ⟨m 1 0 0 / n1 + m 0 0 1, m 0 1 0 / n2 + m 0 0 1, fun e => ?_⟩
  have d1 := hasDerivAt_norm_to f.origin q e h1
  have d2 := hasDerivAt_norm_to f.termination q e h2
  have d3 := hasDerivAt_dot_to f.origin f.termination q e
  have hnum := (((d1.add d2).const_mul c1).mul ((d1.mul d2).sub d3))
  have hdenom := (d1.mul d2).mul ((((d1.pow 2).mul (d2.pow 2)).sub (d3.pow 2)).add_const c2)
  have hdiv := hnum.div hdenom (by simpa using hden)
  have efun : (fun h : ℝ => kernelCoeff nu f (q + h • e)) = fun h : ℝ =>
      c1 * ((f.origin - (q + h • e)).norm + (f.termination - (q + h • e)).norm)
        * ((f.origin - (q + h • e)).norm * (f.termination - (q + h • e)).norm
          - (f.origin - (q + h • e)).dot (f.termination - (q + h • e)))
      / ((f.origin - (q + h • e)).norm * (f.termination - (q + h • e)).norm
        * ((f.origin - (q + h • e)).norm ^ 2 * (f.termination - (q + h • e)).norm ^ 2
          - (f.origin - (q + h • e)).dot (f.termination - (q + h • e)) ^ 2 + c2)) := by
    funext h
    unfold kernelCoeff
    rw [V3.norm_cross_sq]
  rw [efun]
  refine HasDerivAt.congr_deriv hdiv ?_
  simp only [zero_smul, add_zero, ← hn1, ← hn2, ← hd, Pi.mul_apply, Pi.sub_apply, Pi.add_apply, Pi.pow_apply]
  generalize (f.origin - q).dot e = x
  generalize (f.termination - q).dot e = y
  simp only [m]
  generalize (n1 * n2 * (n1 ^ 2 * n2 ^ 2 - d ^ 2 + c2)) ^ 2 = D
  simp only [div_eq_mul_inv]
  push_cast
  ring

/-- Without a core: the factor and its derivatives. -/
theorem kernelCoeff_clean (nu : ℝ) (A B q : V3) (Γ : ℝ) (h1 : (A - q).norm ≠ 0) (h2 : (B - q).norm ≠ 0)
    (h3 : (A - q).cross (B - q) ≠ 0) :
    kernelCoeff nu ⟨A, B, Γ, 0⟩ q = Γ / (4 * Real.pi) * ((A - q).norm + (B - q).norm)
      / ((A - q).norm * (B - q).norm * ((A - q).norm * (B - q).norm + (A - q).dot (B - q))) := by
  unfold kernelCoeff
  have hc : coreRadius nu ⟨A, B, Γ, 0⟩ = 0 := by simp [coreRadius]
  rw [hc, V3.norm_cross_sq]
  simp only
  have hp := pow_pos (V3.norm_pos.mpr h3) 2
  rw [V3.norm_cross_sq] at hp
  generalize (A - q).norm = n1 at *
  generalize (B - q).norm = n2 at *
  generalize (A - q).dot (B - q) = d at *
  have hfac : n1 ^ 2 * n2 ^ 2 - d ^ 2 = (n1 * n2 - d) * (n1 * n2 + d) := by ring
  rw [hfac] at hp ⊢
  have hm : n1 * n2 - d ≠ 0 := fun e => by rw [e] at hp; simp at hp
  have hpl : n1 * n2 + d ≠ 0 := fun e => by rw [e] at hp; simp at hp
  rw [div_eq_div_iff (by simp [h1, h2, hm, hpl]) (by simp [h1, h2, hpl])]
  ring

theorem kernelCoeff_clean_deriv (A B q : V3) (Γ : ℝ) (h1 : (A - q).norm ≠ 0) (h2 : (B - q).norm ≠ 0)
    (h3 : (A - q).cross (B - q) ≠ 0) (e : V3) :
    let n1 := (A - q).norm
    let n2 := (B - q).norm
    let d := (A - q).dot (B - q)
    let g1 := 1 / (n1 * n2 * (n1 * n2 + d)) - (n1 + n2) * (2 * n1 * n2 ^ 2 + n2 * d) / (n1 * n2 * (n1 * n2 + d)) ^ 2
    let g2 := 1 / (n1 * n2 * (n1 * n2 + d)) - (n1 + n2) * (2 * n2 * n1 ^ 2 + n1 * d) / (n1 * n2 * (n1 * n2 + d)) ^ 2
    let gd := -((n1 + n2) * (n1 * n2) / (n1 * n2 * (n1 * n2 + d)) ^ 2)
    HasDerivAt (fun h : ℝ => Γ / (4 * Real.pi) * ((A - (q + h • e)).norm + (B - (q + h • e)).norm)
        / ((A - (q + h • e)).norm * (B - (q + h • e)).norm
          * ((A - (q + h • e)).norm * (B - (q + h • e)).norm + (A - (q + h • e)).dot (B - (q + h • e)))))
      (-(Γ / (4 * Real.pi) * (g1 / n1 + gd) * (A - q).dot e + Γ / (4 * Real.pi) * (g2 / n2 + gd) * (B - q).dot e)) 0 := by
  intro n1 n2 d g1 g2 gd
  have hp := pow_pos (V3.norm_pos.mpr h3) 2
  rw [V3.norm_cross_sq] at hp
  have hfac : n1 ^ 2 * n2 ^ 2 - d ^ 2 = (n1 * n2 - d) * (n1 * n2 + d) := by ring
  have hp' : 0 < (n1 * n2 - d) * (n1 * n2 + d) := by rw [← hfac]; exact hp
  have hpl : n1 * n2 + d ≠ 0 := fun e => by rw [e] at hp'; simp at hp'
  have d1 := hasDerivAt_norm_to A q e h1
  have d2 := hasDerivAt_norm_to B q e h2
  have d3 := hasDerivAt_dot_to A B q e
  have hnum := (d1.add d2).const_mul (Γ / (4 * Real.pi))
  have hdenom := (d1.mul d2).mul ((d1.mul d2).add d3)
  have hdiv := hnum.div hdenom (by simp [h1, h2]; exact hpl)
  refine HasDerivAt.congr_deriv hdiv ?_
  simp only [zero_smul, add_zero, Pi.mul_apply, Pi.add_apply]
  change _ = -(Γ / (4 * Real.pi) * ((1 / (n1 * n2 * (n1 * n2 + d)) - (n1 + n2) * (2 * n1 * n2 ^ 2 + n2 * d) / (n1 * n2 * (n1 * n2 + d)) ^ 2) / n1 + -((n1 + n2) * (n1 * n2) / (n1 * n2 * (n1 * n2 + d)) ^ 2)) * (A - q).dot e + Γ / (4 * Real.pi) * ((1 / (n1 * n2 * (n1 * n2 + d)) - (n1 + n2) * (2 * n2 * n1 ^ 2 + n1 * d) / (n1 * n2 * (n1 * n2 + d)) ^ 2) / n2 + -((n1 + n2) * (n1 * n2) / (n1 * n2 * (n1 * n2 + d)) ^ 2)) * (B - q).dot e)
  generalize (A - q).dot e = x
  generalize (B - q).dot e = y
  have h1' : n1 ≠ 0 := h1
  have h2' : n2 ≠ 0 := h2
  change ((Γ / (4 * Real.pi) * (-(x / n1) + -(y / n2))) * (n1 * n2 * (n1 * n2 + d))
    - Γ / (4 * Real.pi) * (n1 + n2) * ((-(x / n1) * n2 + n1 * -(y / n2)) * (n1 * n2 + d)
      + n1 * n2 * (-(x / n1) * n2 + n1 * -(y / n2) + -(x + y)))) / (n1 * n2 * (n1 * n2 + d)) ^ 2 = _
  clear_value n1 n2 d
  generalize Γ / (4 * Real.pi) = c
  field_simp
  ring

/-! ## The code's kernel -/

theorem Seg.Clear.offBorder {f : Seg} {q : V3} (h : f.Clear q) : f.OffBorder q :=
  ⟨ne_of_gt h.1, ne_of_gt h.2.1, ne_of_gt h.2.2⟩

theorem eps_pos' : 0 < eps := by unfold eps; norm_num

theorem Seg.Clear.nonzero {f : Seg} {q : V3} (h : f.Clear q) : (f.origin - q).norm ≠ 0 ∧ (f.termination - q).norm ≠ 0 ∧
    (f.origin - q).cross (f.termination - q) ≠ 0 := by
  refine ⟨ne_of_gt (eps_pos'.trans h.1), ne_of_gt (eps_pos'.trans h.2.1), fun e => ?_⟩
  have := h.2.2
  rw [e] at this
  simp at this
  linarith [eps_pos']

/-- The three distances the cut-off looks at, along a line. -/
theorem continuous_to (A B q e : V3) :
    Continuous (fun h : ℝ => (A - (q + h • e)).norm) ∧
    Continuous (fun h : ℝ => ((A - (q + h • e)).cross (B - (q + h • e))).norm ^ 2) := by
  constructor
  · unfold V3.norm V3.dot
    simp only [V3.sub_x, V3.sub_y, V3.sub_z, V3.add_x, V3.add_y, V3.add_z, V3.smul_x, V3.smul_y, V3.smul_z]
    fun_prop
  · simp only [V3.norm_sq]
    unfold V3.dot
    simp only [V3.cross_x, V3.cross_y, V3.cross_z, V3.sub_x, V3.sub_y, V3.sub_z, V3.add_x, V3.add_y, V3.add_z, V3.smul_x,
      V3.smul_y, V3.smul_z]
    fun_prop

/-- Off the border the cut-off test gives the same answer near the point. -/
theorem cutoff_near (f : Seg) (q e : V3) :
    (f.Clear q → ∀ᶠ h : ℝ in nhds 0, ¬ Cutoff f (q + h • e)) ∧
    (f.OffBorder q → ¬ f.Clear q → ∀ᶠ h : ℝ in nhds 0, Cutoff f (q + h • e)) := by
  obtain ⟨c1, c3⟩ := continuous_to f.origin f.termination q e
  obtain ⟨c2, -⟩ := continuous_to f.termination f.origin q e
  constructor
  · rintro ⟨h1, h2, h3⟩
    have e1 := (c1.continuousAt (x := 0)).eventually_const_lt (show eps < _ by simpa using h1)
    have e2 := (c2.continuousAt (x := 0)).eventually_const_lt (show eps < _ by simpa using h2)
    have e3 := (c3.continuousAt (x := 0)).eventually_const_lt (show eps < _ by simpa using h3)
    filter_upwards [e1, e2, e3] with h g1 g2 g3
    rintro (g | g | g) <;> linarith
  · rintro ⟨h1, h2, h3⟩ hc
    have hor : (f.origin - q).norm < eps ∨ (f.termination - q).norm < eps ∨
        ((f.origin - q).cross (f.termination - q)).norm ^ 2 < eps := by
      by_contra hcon
      push Not at hcon
      exact hc ⟨lt_of_le_of_ne hcon.1 (Ne.symm h1), lt_of_le_of_ne hcon.2.1 (Ne.symm h2),
        lt_of_le_of_ne hcon.2.2 (Ne.symm h3)⟩
    rcases hor with g | g | g
    · have e1 := (c1.continuousAt (x := 0)).eventually_lt_const (show _ < eps by simpa using g)
      filter_upwards [e1] with h g1 using Or.inl g1
    · have e1 := (c2.continuousAt (x := 0)).eventually_lt_const (show _ < eps by simpa using g)
      filter_upwards [e1] with h g1 using Or.inr (Or.inl g1)
    · have e1 := (c3.continuousAt (x := 0)).eventually_lt_const (show _ < eps by simpa using g)
      filter_upwards [e1] with h g1 using Or.inr (Or.inr g1)

theorem HasPartials.congr {v w : V3 → V3} {q a b c : V3} (hv : HasPartials v q a b c)
    (h : ∀ e : V3, ∀ᶠ u : ℝ in nhds 0, w (q + u • e) = v (q + u • e)) : HasPartials w q a b c :=
  ⟨hv.x.congr (h _), hv.y.congr (h _), hv.z.congr (h _)⟩

theorem HasDivergence.congr {v w : V3 → V3} {q : V3} {d : ℝ} (hv : HasDivergence v q d)
    (h : ∀ e : V3, ∀ᶠ u : ℝ in nhds 0, w (q + u • e) = v (q + u • e)) : HasDivergence w q d := by
  obtain ⟨a, b, c, h', e⟩ := hv
  exact ⟨a, b, c, h'.congr h, e⟩

theorem HasCurl.congr {v w : V3 → V3} {q d : V3} (hv : HasCurl v q d)
    (h : ∀ e : V3, ∀ᶠ u : ℝ in nhds 0, w (q + u • e) = v (q + u • e)) : HasCurl w q d := by
  obtain ⟨a, b, c, h', e⟩ := hv
  exact ⟨a, b, c, h'.congr h, e⟩

/-- The flow of one filament, with or without core, has no divergence, except on the border of its cut-off. -/
theorem entry_divergence (nu : ℝ) (f : Seg) (q : V3) (h : f.OffBorder q) : HasDivergence (expandedEntry nu f) q 0 := by
  by_cases hc : f.Clear q
  · obtain ⟨n1, n2, n3⟩ := hc.nonzero
    obtain ⟨α, β, hd⟩ := kernelCoeff_deriv nu f q n1 n2 n3
    refine (divergence_swirl f.origin f.termination q (kernelCoeff nu f) α β hd).congr fun e => ?_
    filter_upwards [(cutoff_near f q e).1 hc] with u hu
    rw [expandedEntry_eq, if_neg hu]
  · refine (hasDivergence_const 0 q).congr fun e => ?_
    filter_upwards [(cutoff_near f q e).2 h hc] with u hu
    rw [expandedEntry_eq, if_pos hu]

/-- The flow of one filament without core: its curl is that of a source at each end. -/
theorem entry_curl (nu : ℝ) (A B q : V3) (Γ : ℝ) (h : (⟨A, B, Γ, 0⟩ : Seg).Clear q) :
    HasCurl (expandedEntry nu ⟨A, B, Γ, 0⟩) q
      ((Γ / (4 * Real.pi)) • ((1 / (A - q).norm ^ 3) • (A - q) - (1 / (B - q).norm ^ 3) • (B - q))) := by
  obtain ⟨n1, n2, n3⟩ := h.nonzero
  simp only at n1 n2 n3
  have hderiv := kernelCoeff_clean_deriv A B q Γ n1 n2 n3
  have hcurl := curl_swirl A B q (fun p => Γ / (4 * Real.pi) * ((A - p).norm + (B - p).norm)
    / ((A - p).norm * (B - p).norm * ((A - p).norm * (B - p).norm + (A - p).dot (B - p)))) _ _ hderiv
  have hcoef : HasCurl (fun p => (Γ / (4 * Real.pi) * ((A - p).norm + (B - p).norm)
    / ((A - p).norm * (B - p).norm * ((A - p).norm * (B - p).norm + (A - p).dot (B - p)))) • (A - p).cross (B - p)) q
      ((Γ / (4 * Real.pi)) • ((1 / (A - q).norm ^ 3) • (A - q) - (1 / (B - q).norm ^ 3) • (B - q))) := by
    convert hcurl using 1
    have hp := pow_pos (V3.norm_pos.mpr n3) 2
    rw [V3.norm_cross_sq] at hp
    rw [← V3.norm_mul_self, ← V3.norm_mul_self]
    generalize (A - q).norm = a at *
    generalize (B - q).norm = b at *
    generalize (A - q).dot (B - q) = d at *
    generalize A - q = r1 at *
    generalize B - q = r2 at *
    have hfac : a ^ 2 * b ^ 2 - d ^ 2 = (a * b - d) * (a * b + d) := by ring
    rw [hfac] at hp
    have hpl : a * b + d ≠ 0 := fun e => by rw [e] at hp; simp at hp
    generalize Γ / (4 * Real.pi) = c
    rw [sub_eq_add_neg, smul_add, smul_smul, ← neg_smul, smul_smul]
    congr 2
    · obtain ⟨s, rfl⟩ : ∃ s, d = s - a * b := ⟨a * b + d, by ring⟩
      rw [show a * b + (s - a * b) = s by ring] at hpl ⊢
      field_simp
      ring
    · obtain ⟨s, rfl⟩ : ∃ s, d = s - a * b := ⟨a * b + d, by ring⟩
      rw [show a * b + (s - a * b) = s by ring] at hpl ⊢
      field_simp
      ring
  refine hcoef.congr fun e => ?_
  have hnear := (cutoff_near ⟨A, B, Γ, 0⟩ q e).1 h
  filter_upwards [hnear] with u hu
  rw [expandedEntry_eq, if_neg hu]
  unfold Cutoff at hu
  push Not at hu
  simp only at hu ⊢
  have hx : (A - (q + u • e)).cross (B - (q + u • e)) ≠ 0 := by
    intro e'
    have := hu.2.2
    rw [e'] at this
    simp at this
    linarith [eps_pos']
  rw [kernelCoeff_clean nu A B _ Γ (ne_of_gt (lt_of_lt_of_le eps_pos' hu.1)) (ne_of_gt (lt_of_lt_of_le eps_pos' hu.2.1)) hx]

end Ptera
