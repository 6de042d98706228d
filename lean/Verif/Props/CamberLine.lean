import Verif.Spec.Loft
import Mathlib.Algebra.Order.BigOperators.Group.List
import Mathlib.Tactic.Linarith
import Mathlib.Tactic.FieldSimp
import Mathlib.Tactic.Ring
import Mathlib.Tactic.Positivity

/-!
# C61: points of the mean camber line at fractions of its length

`get_downsampled_mcl` gives the mesher the points of the camber line at given fractions of its length. The specification
is the arc length of a polygonal line: the sum of the distances of consecutive points.
-/

namespace Ptera

open List

theorem dist2_pos {p q : ℝ × ℝ} (h : p ≠ q) : 0 < dist2 p q := by
  unfold dist2
  apply Real.sqrt_pos.mpr
  by_contra hle
  push Not at hle
  apply h
  have h1 := sq_nonneg (p.1 - q.1)
  have h2 := sq_nonneg (p.2 - q.2)
  ext
  · exact sub_eq_zero.mp (pow_eq_zero_iff (two_ne_zero) |>.mp (by linarith))
  · exact sub_eq_zero.mp (pow_eq_zero_iff (two_ne_zero) |>.mp (by linarith))

/-! ## Linear interpolation -/

/-- Between two nodes `np.interp` is linear; in particular it reproduces the nodes. -/
theorem npInterp_between (x : ℝ) : ∀ (xs fs : List ℝ), xs.length = fs.length → xs.Pairwise (· < ·) →
    ∀ (j : ℕ) (x0 x1 f0 f1 : ℝ), xs[j]? = some x0 → xs[j + 1]? = some x1 → fs[j]? = some f0 → fs[j + 1]? = some f1 →
    x0 ≤ x → x ≤ x1 → npInterp x xs fs = f0 + (f1 - f0) * ((x - x0) / (x1 - x0)) := by
  intro xs
  induction xs with
  | nil => intro fs _ _ j x0 x1 f0 f1 h; simp at h
  | cons a xs ih =>
    intro fs hlen hsort j x0 x1 f0 f1 h0 h1 g0 g1 hx0 hx1
    match xs, fs, ih, hlen, hsort, h0, h1, g0, g1 with
    | [], _, _, _, _, _, h1, _, _ => simp at h1
    | b :: xs, [], _, hlen, _, _, _, _, _ => simp at hlen
    | b :: xs, [f], _, hlen, _, _, _, _, _ => simp at hlen
    | b :: xs, f :: g :: fs, ih, hlen, hsort, h0, h1, g0, g1 =>
      have hab : a < b := (List.pairwise_cons.mp hsort).1 b (by simp)
      have hsort' := (List.pairwise_cons.mp hsort).2
      have hlen' : (b :: xs).length = (g :: fs).length := by simpa using hlen
      have hd : b - a ≠ 0 := by linarith
      match j, h0, h1, g0, g1 with
      | 0, h0, h1, g0, g1 =>
        simp only [List.getElem?_cons_zero, List.getElem?_cons_succ, Option.some.injEq] at h0 h1 g0 g1
        subst h0 h1 g0 g1
        unfold npInterp
        by_cases e1 : x ≤ a
        · rw [if_pos e1, le_antisymm e1 hx0]; simp
        · rw [if_neg e1]
          by_cases e2 : x < b
          · rw [if_pos e2]; field_simp
          · rw [if_neg e2]
            have hxb : x = b := le_antisymm hx1 (not_lt.mp e2)
            have : (b - a) / (b - a) = 1 := div_self hd
            have hb : npInterp x (b :: xs) (g :: fs) = g := by
              cases xs with
              | nil => cases fs <;> rfl
              | cons c xs =>
                cases fs with
                | nil => simp at hlen'
                | cons k fs => unfold npInterp; rw [if_pos hxb.le]
            rw [hb, hxb, this]; ring
      | j + 1, h0, h1, g0, g1 =>
        simp only [List.getElem?_cons_succ] at h0 h1 g0 g1
        have hb : b ≤ x0 := by
          cases j with
          | zero => simp at h0; exact h0.le
          | succ j =>
            have := List.mem_of_getElem? (by simpa using h0 : xs[j]? = some x0)
            exact ((List.pairwise_cons.mp hsort').1 x0 this).le
        unfold npInterp
        rw [if_neg (by linarith), if_neg (by linarith)]
        exact ih (g :: fs) hlen' hsort' j x0 x1 f0 f1 (by simpa using h0) (by simpa using h1) (by simpa using g0)
          (by simpa using g1) hx0 hx1

/-! ## Cumulative length -/

theorem scanl_get (l : List ℝ) : ∀ (b : ℝ) (j : ℕ), j ≤ l.length → (l.scanl (· + ·) b)[j]? = some (b + (l.take j).sum) := by
  induction l with
  | nil => intro b j hj; simp at hj; subst hj; simp
  | cons a l ih =>
    intro b j hj
    cases j with
    | zero => simp
    | succ j =>
      rw [List.scanl_cons]
      simp only [List.getElem?_cons_succ, List.take_succ_cons, List.sum_cons]
      rw [ih (b + a) j (by simpa using hj), add_assoc]

/-- The steps of the camber line. -/
theorem steps_sum (mcl : List (ℝ × ℝ)) : ∀ j,
    ((List.zipWith (fun a b : ℝ × ℝ => Real.sqrt ((a.1 - b.1) ^ 2 + (a.2 - b.2) ^ 2)) mcl.dropLast mcl.tail).take j).sum
      = arcLength (mcl.take (j + 1)) := by
  induction mcl with
  | nil => intro j; simp [arcLength]
  | cons p mcl ih =>
    intro j
    cases mcl with
    | nil => simp [arcLength]
    | cons q mcl =>
      cases j with
      | zero => simp [arcLength]
      | succ j =>
        have := ih j
        simp only [List.tail_cons, List.dropLast_cons_cons, List.zipWith_cons_cons, List.take_succ_cons,
          List.sum_cons] at this ⊢
        rw [this]
        simp [arcLength, dist2]

theorem arcLength_nonneg : ∀ l : List (ℝ × ℝ), 0 ≤ arcLength l
  | [] => le_rfl
  | [_] => le_rfl
  | _ :: q :: l => add_nonneg (Real.sqrt_nonneg _) (arcLength_nonneg (q :: l))

theorem arcLength_take_succ : ∀ (l : List (ℝ × ℝ)) (j : ℕ) (p q : ℝ × ℝ), l[j]? = some p → l[j + 1]? = some q →
    arcLength (l.take (j + 2)) = arcLength (l.take (j + 1)) + dist2 p q
  | [], j, p, q, h, _ => by simp at h
  | [a], j, p, q, _, h => by simp at h
  | a :: b :: l, 0, p, q, h, h' => by
    simp at h h'
    subst h h'
    simp [arcLength]
  | a :: b :: l, j + 1, p, q, h, h' => by
    have := arcLength_take_succ (b :: l) j p q (by simpa using h) (by simpa using h')
    simp only [List.take_succ_cons] at this ⊢
    rw [arcLength, this, arcLength]
    ring

/-- The fractions at the points of the camber line: the length up to the point over the whole length. -/
theorem mclFractions_get (mcl : List (ℝ × ℝ)) (hne : mcl ≠ []) :
    (mclFractions mcl).length = mcl.length ∧
    ∀ j < mcl.length, (mclFractions mcl)[j]? = some (arcLength (mcl.take (j + 1)) / arcLength mcl) := by
  have hpos : 0 < mcl.length := List.length_pos_of_ne_nil hne
  set d := List.zipWith (fun a b : ℝ × ℝ => Real.sqrt ((a.1 - b.1) ^ 2 + (a.2 - b.2) ^ 2)) mcl.dropLast mcl.tail with hd
  have hdl : d.length = mcl.length - 1 := by simp [hd]
  have hcum : (0 :: cumsum d) = d.scanl (· + ·) 0 := by
    unfold cumsum
    cases d with
    | nil => simp
    | cons a l => simp [List.scanl_cons]
  have hcl : (0 :: cumsum d).length = mcl.length := by rw [hcum, List.length_scanl, hdl]; omega
  have hget : ∀ j < mcl.length, (0 :: cumsum d)[j]? = some (arcLength (mcl.take (j + 1))) := by
    intro j hj
    rw [hcum, scanl_get d 0 j (by omega), zero_add, hd, steps_sum]
  have hlast : (0 :: cumsum d).getLast?.getD 0 = arcLength mcl := by
    rw [List.getLast?_eq_getElem?, hcl, hget _ (by omega)]
    simp only [Option.getD_some]
    rw [Nat.sub_add_cancel hpos, List.take_length]
  have e : mclFractions mcl = (0 :: cumsum d).map (· / arcLength mcl) := by
    rw [← hlast]; rfl
  refine ⟨by rw [e, List.length_map, hcl], ?_⟩
  intro j hj
  rw [e, List.getElem?_map, hget j hj]
  rfl

/-- C61: for every list of fractions between 0 and 1 there is one point per fraction, in order; the point of the fraction
`f` is on the camber line, and the length of the camber line up to it is the fraction `f` of its whole length. -/
theorem C61_points (a : Airfoil) (htwo : 2 ≤ a.mcl.length) (hdist : a.mcl.IsChain (· ≠ ·)) (fractions : List ℝ)
    (hf : ∀ f ∈ fractions, 0 ≤ f ∧ f ≤ 1) :
    List.Forall₂ (fun f point => OnLineAt a.mcl (f * arcLength a.mcl) point) fractions
      (a.downsampledMcl fractions) := by
  set mcl := a.mcl with hmcl
  have hne : mcl ≠ [] := by intro e; rw [e] at htwo; simp at htwo
  obtain ⟨hlen, hget⟩ := mclFractions_get mcl hne
  -- cumulative lengths increase
  have hstep : ∀ j p q, mcl[j]? = some p → mcl[j + 1]? = some q → 0 < dist2 p q := by
    intro j p q hp hq
    obtain ⟨l1, rfl⟩ := List.getElem?_eq_some_iff.mp hp
    obtain ⟨l2, rfl⟩ := List.getElem?_eq_some_iff.mp hq
    exact dist2_pos (List.isChain_iff_getElem.mp hdist j l2)
  have hsucc : ∀ j, j + 1 < mcl.length → arcLength (mcl.take (j + 1)) < arcLength (mcl.take (j + 2)) := by
    intro j hj
    have hp : mcl[j]? = some mcl[j] := List.getElem?_eq_getElem (by omega)
    have hq : mcl[j + 1]? = some mcl[j + 1] := List.getElem?_eq_getElem hj
    rw [arcLength_take_succ mcl j _ _ hp hq]
    linarith [hstep j _ _ hp hq]
  have hmono : ∀ i j, i < j → j < mcl.length → arcLength (mcl.take (i + 1)) < arcLength (mcl.take (j + 1)) := by
    intro i j hij
    induction j with
    | zero => omega
    | succ j ih =>
      intro hj
      rcases Nat.lt_succ_iff_lt_or_eq.mp hij with h | h
      · exact (ih h (by omega)).trans (hsucc j hj)
      · subst h; exact hsucc _ hj
  have hzero : arcLength (mcl.take 1) = 0 := by
    cases h : mcl with
    | nil => exact absurd h hne
    | cons p l => simp [arcLength]
  have hfull : mcl.take (mcl.length - 1 + 1) = mcl := by rw [Nat.sub_add_cancel (by omega), List.take_length]
  have htot : 0 < arcLength mcl := by
    have := hmono 0 (mcl.length - 1) (by omega) (by omega)
    rwa [hzero, hfull] at this
  have hsort : (mclFractions mcl).Pairwise (· < ·) := by
    rw [List.pairwise_iff_getElem]
    intro i j hi hj hij
    have h1 := hget i (by omega)
    have h2 := hget j (by omega)
    rw [List.getElem?_eq_getElem hi, Option.some.injEq] at h1
    rw [List.getElem?_eq_getElem hj, Option.some.injEq] at h2
    rw [h1, h2]
    exact div_lt_div_of_pos_right (hmono i j hij (by omega)) htot
  unfold Airfoil.downsampledMcl
  rw [List.forall₂_map_right_iff]
  apply List.forall₂_same.mpr
  intro f hmem
  obtain ⟨f0, f1⟩ := hf f hmem
  -- the segment of the fraction
  obtain ⟨j, hj, e0, e1⟩ : ∃ j, j + 1 < mcl.length ∧ arcLength (mcl.take (j + 1)) ≤ f * arcLength mcl ∧
      f * arcLength mcl ≤ arcLength (mcl.take (j + 2)) := by
    have key : ∀ n, n + 1 < mcl.length → f * arcLength mcl ≤ arcLength (mcl.take (n + 2)) →
        ∃ j, j + 1 < mcl.length ∧ arcLength (mcl.take (j + 1)) ≤ f * arcLength mcl ∧
          f * arcLength mcl ≤ arcLength (mcl.take (j + 2)) := by
      intro n
      induction n with
      | zero =>
        intro hn h
        exact ⟨0, hn, by rw [hzero]; positivity, h⟩
      | succ n ih =>
        intro hn h
        by_cases hc : f * arcLength mcl ≤ arcLength (mcl.take (n + 2))
        · exact ih (by omega) hc
        · exact ⟨n + 1, hn, (not_le.mp hc).le, h⟩
    apply key (mcl.length - 2) (by omega)
    rw [show mcl.length - 2 + 2 = mcl.length by omega, List.take_length]
    nlinarith
  have hp : mcl[j]? = some mcl[j] := List.getElem?_eq_getElem (by omega)
  have hq : mcl[j + 1]? = some mcl[j + 1] := List.getElem?_eq_getElem hj
  have hdpos := hstep j _ _ hp hq
  have htake := arcLength_take_succ mcl j _ _ hp hq
  set c := arcLength (mcl.take (j + 1)) with hc
  set D := dist2 mcl[j] mcl[j + 1] with hD
  set L := arcLength mcl with hL
  have x0 : (mclFractions mcl)[j]? = some (c / L) := hget j (by omega)
  have x1 : (mclFractions mcl)[j + 1]? = some ((c + D) / L) := by rw [← htake]; exact hget (j + 1) hj
  have g0 : c / L ≤ f := by rw [div_le_iff₀ htot]; exact e0
  have g1 : f ≤ (c + D) / L := by rw [le_div_iff₀ htot, ← htake]; exact e1
  set t := (f * L - c) / D with ht
  have hfrac : (f - c / L) / ((c + D) / L - c / L) = t := by
    have h1 := htot.ne'
    have h2 := hdpos.ne'
    have h3 : (c + D) / L - c / L = D / L := by rw [← sub_div]; ring_nf
    rw [ht, h3, div_div_eq_mul_div, sub_mul, div_mul_cancel₀ _ h1]
  refine ⟨j, mcl[j], mcl[j + 1], t, hp, hq, ?_, ?_, ?_, ?_⟩
  · exact div_nonneg (by linarith) hdpos.le
  · rw [ht, div_le_one hdpos]; linarith
  · have i1 := npInterp_between f _ (mcl.map Prod.fst) (by simp [hlen]) hsort j _ _ mcl[j].1 mcl[j + 1].1 x0 x1
      (by rw [List.getElem?_map, hp]; rfl) (by rw [List.getElem?_map, hq]; rfl) g0 g1
    have i2 := npInterp_between f _ (mcl.map Prod.snd) (by simp [hlen]) hsort j _ _ mcl[j].2 mcl[j + 1].2 x0 x1
      (by rw [List.getElem?_map, hp]; rfl) (by rw [List.getElem?_map, hq]; rfl) g0 g1
    rw [hfrac] at i1 i2
    ext
    · simp only [Prod.fst_add, Prod.smul_fst, smul_eq_mul]; rw [i1]; ring
    · simp only [Prod.snd_add, Prod.smul_snd, smul_eq_mul]; rw [i2]; ring
  · rw [ht, div_mul_cancel₀ _ hdpos.ne']; ring

/-- Points of a line are determined by the length up to them, so `C61_points` leaves no choice: the length up to the point
decides the point. -/
theorem OnLineAt.unique {curve : List (ℝ × ℝ)} (hdist : curve.IsChain (· ≠ ·)) {s : ℝ} {x y : ℝ × ℝ}
    (hx : OnLineAt curve s x) (hy : OnLineAt curve s y) : x = y := by
  have hstep : ∀ j p q, curve[j]? = some p → curve[j + 1]? = some q → 0 < dist2 p q := by
    intro j p q hp hq
    obtain ⟨l1, rfl⟩ := List.getElem?_eq_some_iff.mp hp
    obtain ⟨l2, rfl⟩ := List.getElem?_eq_some_iff.mp hq
    exact dist2_pos (List.isChain_iff_getElem.mp hdist j l2)
  have hle : ∀ i j, i ≤ j → j < curve.length → arcLength (curve.take (i + 1)) ≤ arcLength (curve.take (j + 1)) := by
    intro i j hij hj
    induction j with
    | zero => simp at hij; subst hij; exact le_rfl
    | succ j ih =>
      rcases Nat.le_succ_iff.mp hij with h | h
      · have hp : curve[j]? = some curve[j] := List.getElem?_eq_getElem (by omega)
        have hq : curve[j + 1]? = some curve[j + 1] := List.getElem?_eq_getElem hj
        rw [arcLength_take_succ curve j _ _ hp hq]
        linarith [ih h (by omega), hstep j _ _ hp hq]
      · subst h; exact le_rfl
  -- two positions in order
  have main : ∀ (i j : ℕ) (p q p' q' : ℝ × ℝ) (t t' : ℝ), i ≤ j → curve[i]? = some p → curve[i + 1]? = some q →
      curve[j]? = some p' → curve[j + 1]? = some q' → t ≤ 1 → 0 ≤ t' →
      arcLength (curve.take (i + 1)) + t * dist2 p q = arcLength (curve.take (j + 1)) + t' * dist2 p' q' →
      (1 - t) • p + t • q = (1 - t') • p' + t' • q' := by
    intro i j p q p' q' t t' hij hp hq hp' hq' ht ht' hs
    have d1 := hstep i _ _ hp hq
    have d2 := hstep j _ _ hp' hq'
    rcases Nat.eq_or_lt_of_le hij with h | h
    · subst h
      rw [hp, Option.some.injEq] at hp'
      rw [hq, Option.some.injEq] at hq'
      subst hp' hq'
      have : t = t' := by
        have : (t - t') * dist2 p q = 0 := by linarith
        rcases mul_eq_zero.mp this with h | h
        · linarith
        · linarith
      rw [this]
    · have hl : j + 1 < curve.length := (List.getElem?_eq_some_iff.mp hq').1
      have e1 := arcLength_take_succ curve i _ _ hp hq
      have e2 := hle (i + 1) j h (by omega)
      have h1 : (1 - t) * dist2 p q + t' * dist2 p' q' ≤ 0 := by nlinarith
      have h2 : 0 ≤ (1 - t) * dist2 p q := mul_nonneg (by linarith) d1.le
      have h3 : 0 ≤ t' * dist2 p' q' := mul_nonneg ht' d2.le
      have t1 : t = 1 := by
        have : (1 - t) * dist2 p q = 0 := by linarith
        rcases mul_eq_zero.mp this with h | h <;> linarith
      have t2 : t' = 0 := by
        have : t' * dist2 p' q' = 0 := by linarith
        rcases mul_eq_zero.mp this with h | h
        · exact h
        · linarith
      have hij' : i + 1 = j := by
        by_contra hne
        have hlt : i + 1 < j := by omega
        have hp1 : curve[i + 1]? = some curve[i + 1] := List.getElem?_eq_getElem (by omega)
        have hq1 : curve[i + 2]? = some curve[i + 2] := List.getElem?_eq_getElem (by omega)
        have e3 := arcLength_take_succ curve (i + 1) _ _ hp1 hq1
        have e4 := hle (i + 2) j (by omega) (by omega)
        have := hstep (i + 1) _ _ hp1 hq1
        rw [t1, t2] at hs
        have e3' : arcLength (curve.take (i + 1 + 2)) = arcLength (curve.take (i + 2 + 1)) := rfl
        have e1' : arcLength (curve.take (i + 2)) = arcLength (curve.take (i + 1 + 1)) := rfl
        linarith
      subst hij'
      rw [hq, Option.some.injEq] at hp'
      subst hp'
      rw [t1, t2]
      simp
  obtain ⟨i, p, q, t, hp, hq, t0, t1, rfl, hs⟩ := hx
  obtain ⟨j, p', q', t', hp', hq', t0', t1', rfl, hs'⟩ := hy
  rcases Nat.le_total i j with h | h
  · exact main i j p q p' q' t t' h hp hq hp' hq' t1 t0' (by linarith)
  · exact (main j i p' q' p q t' t h hp' hq' hp hq t1' t0 (by linarith)).symm

/-- C61: the fraction 0 gives the first point of the camber line, the fraction 1 the last. -/
theorem C61_ends (a : Airfoil) (htwo : 2 ≤ a.mcl.length) (hdist : a.mcl.IsChain (· ≠ ·)) :
    some (a.downsampledMcl [0]) = a.mcl.head?.map (fun p => [p]) ∧
    some (a.downsampledMcl [1]) = a.mcl.getLast?.map (fun p => [p]) := by
  have hp : a.mcl[0]? = some a.mcl[0] := List.getElem?_eq_getElem (by omega)
  have hq : a.mcl[1]? = some a.mcl[1] := List.getElem?_eq_getElem (by omega)
  have hp' : a.mcl[a.mcl.length - 2]? = some a.mcl[a.mcl.length - 2] := List.getElem?_eq_getElem (by omega)
  have hq' : a.mcl[a.mcl.length - 2 + 1]? = some a.mcl[a.mcl.length - 2 + 1] := List.getElem?_eq_getElem (by omega)
  constructor
  · have h := C61_points a htwo hdist [0] (by simp)
    obtain ⟨x, l, h1, h2, h3⟩ := List.forall₂_cons_left_iff.mp h
    rw [List.forall₂_nil_left_iff] at h2
    rw [h3, h2]
    have : OnLineAt a.mcl (0 * arcLength a.mcl) a.mcl[0] :=
      ⟨0, _, _, 0, hp, hq, le_rfl, zero_le_one, by simp, by
        rw [zero_mul, zero_mul, add_zero]
        cases h : a.mcl with
        | nil => simp [h] at htwo
        | cons p l => simp [arcLength]⟩
    rw [OnLineAt.unique hdist h1 this, List.head?_eq_getElem?, hp]
    rfl
  · have h := C61_points a htwo hdist [1] (by simp)
    obtain ⟨x, l, h1, h2, h3⟩ := List.forall₂_cons_left_iff.mp h
    rw [List.forall₂_nil_left_iff] at h2
    rw [h3, h2]
    have : OnLineAt a.mcl (1 * arcLength a.mcl) a.mcl[a.mcl.length - 2 + 1] := by
      refine ⟨a.mcl.length - 2, _, _, 1, hp', hq', zero_le_one, le_rfl, by simp, ?_⟩
      have := arcLength_take_succ a.mcl (a.mcl.length - 2) _ _ hp' hq'
      rw [one_mul, one_mul, ← this, show a.mcl.length - 2 + 2 = a.mcl.length by omega, List.take_length]
    rw [OnLineAt.unique hdist h1 this, List.getLast?_eq_getElem?, show a.mcl.length - 1 = a.mcl.length - 2 + 1 by omega, hq']
    rfl

/-- The hypotheses are met by a bent camber line, of which the fraction 1/2 is inside a segment. -/
example : ∃ a : Airfoil, a.mcl = [(0, 0), (3 / 5, 4 / 5), (3, 4)] ∧ 2 ≤ a.mcl.length ∧ a.mcl.IsChain (· ≠ ·) := by
  refine ⟨⟨[], [(0, 0), (3 / 5, 4 / 5), (3, 4)], [], []⟩, rfl, by simp, ?_⟩
  simp only [List.isChain_cons_cons, List.isChain_singleton, and_true, ne_eq, Prod.mk.injEq]
  norm_num

end Ptera
