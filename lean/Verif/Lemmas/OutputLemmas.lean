import Verif.Spec.Output
import Verif.Lemmas.Remesh
import Verif.Lemmas.UnsteadyLayout

/-! Lemmas on the surfaces, scalars, colours and rounded numbers of output.py. -/

namespace Ptera

theorem PolyData.Shows.add {D : PolyData} {quads : List Quad} (h : D.Shows quads) (q : Quad) :
    (PolyData.add (D, quads.length) q.a q.b q.c q.d).1.Shows (quads ++ [q]) := by
  obtain ⟨h1, h2, h3⟩ := h
  refine ⟨by simp [PolyData.add, h1]; omega, by simp [PolyData.add, h2]; omega, ?_⟩
  intro k q' hk
  rw [List.getElem?_append] at hk
  split_ifs at hk with hlt
  · obtain ⟨i, g⟩ := h3 k q' hk
    refine ⟨i, ?_⟩
    obtain ⟨g1, g2, g3, g4, g5, g6, g7, g8, g9, g10⟩ := g
    simp only [PolyData.add]
    refine ⟨?_, ?_, ?_, ?_, ?_, g6, ?_, ?_, ?_, ?_⟩ <;> rw [List.getElem?_append_left (by omega)] <;> assumption
  · have hk0 : k = quads.length := by
      have := (List.getElem?_eq_some_iff.1 hk).1
      simp at this; omega
    subst hk0
    simp only [Nat.sub_self, List.getElem?_cons_zero, Option.some.injEq] at hk
    subst hk
    refine ⟨4 * quads.length, ?_⟩
    simp only [PolyData.add]
    refine ⟨?_, ?_, ?_, ?_, ?_, trivial, ?_, ?_, ?_, ?_⟩
    all_goals
      rw [List.getElem?_append_right (by omega)]
      first
        | rw [h2]
        | rw [h1]
      simp [Nat.mul_comm]

theorem PolyData.Shows.empty : (({} : PolyData)).Shows [] := ⟨rfl, rfl, by simp⟩

theorem fold_panels (ps : List Panel) (s : PolyData × ℕ) (quads : List Quad) (h : s.1.Shows quads)
    (hn : s.2 = quads.length) :
    (ps.foldl (fun s p => PolyData.add s p.frontLeft p.frontRight p.backRight p.backLeft) s).1.Shows
        (quads ++ ps.map Panel.quad) ∧
      (ps.foldl (fun s p => PolyData.add s p.frontLeft p.frontRight p.backRight p.backLeft) s).2
        = quads.length + ps.length := by
  induction ps generalizing s quads with
  | nil => simpa [hn] using h
  | cons p ps ih =>
    obtain ⟨D, n⟩ := s
    simp only at h hn
    subst hn
    have := ih _ (quads ++ [p.quad]) (h.add p.quad) (by simp [PolyData.add])
    simp only [List.foldl_cons, List.map_cons, List.append_assoc, List.length_append, List.length_cons,
      List.length_nil, List.cons_append, List.nil_append] at this ⊢
    exact ⟨this.1, by rw [show quads.length + (ps.length + 1) = quads.length + (0 + 1) + ps.length by omega]; exact this.2⟩

theorem panelSurfaces_eq (airplanes : List Airplane) :
    panelSurfaces airplanes = ((allPanels airplanes).foldl
      (fun s p => PolyData.add s p.frontLeft p.frontRight p.backRight p.backLeft) (({}, 0) : PolyData × ℕ)).1 := by
  unfold panelSurfaces allPanels
  simp only [List.foldl_flatMap]

theorem getScalars_eq (airplanes : List Airplane) (heap : PanelHeap) (t : String) :
    getScalars airplanes heap t = (panelRefs airplanes).flatMap fun r => panelScalar t (heap r) := by
  unfold getScalars
  have : ∀ (l : List PanelRef) (acc : List (Option ℝ)),
      l.foldl (fun scalars r => scalars ++ panelScalar t (heap r)) acc
        = acc ++ l.flatMap fun r => panelScalar t (heap r) := by
    intro l
    induction l with
    | nil => simp
    | cons r l ih => intro acc; simp [ih]
  simpa using this _ []

theorem wakeSurfaces_fold (slots : List WakeSlot) (n : ℕ) (hn : n ≤ slots.length) :
    ∃ D, (List.range n).foldlM (wakeSurfacePass slots) (({}, 0) : PolyData × ℕ) = .ok (D, n) ∧
      D.Shows ((slots.take n).map WakeSlot.quad) := by
  induction n with
  | zero => exact ⟨{}, rfl, PolyData.Shows.empty⟩
  | succ n ih =>
    obtain ⟨D, h1, h2⟩ := ih (by omega)
    have hg : slots[n]? = some (slots[n]) := List.getElem?_eq_getElem (by omega)
    have hlen : ((slots.take n).map WakeSlot.quad).length = n := by simp; omega
    have h3 := h2.add (slots[n]).quad
    rw [hlen] at h3
    refine ⟨_, ?_, by rw [List.take_add_one, hg, List.map_append]; exact h3⟩
    rw [List.range_succ, List.foldlM_append, h1]
    simp only [bind, Except.bind, List.foldlM_cons, List.foldlM_nil, wakeSurfacePass, hg, pure, Except.pure]
    rfl

theorem floats_ok {scalars : List (Option ℝ)} {values : List ℝ} :
    floats scalars = .ok values ↔ scalars = values.map some := by
  unfold floats
  rw [mapM_forall₂]
  constructor
  · intro h
    induction h with
    | nil => rfl
    | @cons a b l l' h1 _ ih =>
      cases a with
      | none => simp at h1
      | some x => simp only [Option.elim, Except.ok.injEq] at h1; subst h1; simp [ih]
  · rintro rfl
    induction values with
    | nil => exact .nil
    | cons x l ih => exact .cons rfl ih

theorem floats_error {scalars : List (Option ℝ)} (h : none ∈ scalars) : floats scalars = .error .typeError := by
  unfold floats
  induction scalars with
  | nil => simp at h
  | cons x l ih =>
    cases x with
    | none => rfl
    | some x =>
      have := ih (by simpa using h)
      rw [List.mapM_cons, this]
      rfl

theorem pyRound_neg (x : ℝ) : pyRound (-x) = -pyRound x := by
  have hx : x = ⌊x⌋ + Int.fract x := (Int.floor_add_fract x).symm
  by_cases h0 : Int.fract x = 0
  · have : x = ((⌊x⌋ : ℤ) : ℝ) := by linarith
    rw [this, ← Int.cast_neg, pyRound_int, pyRound_int]
  · have h1 : Int.fract (-x) = 1 - Int.fract x := Int.fract_neg h0
    have h2 : ⌊-x⌋ = -⌊x⌋ - 1 := by
      have : (-x : ℝ) = ⌊-x⌋ + Int.fract (-x) := (Int.floor_add_fract (-x)).symm
      have h3 : ((⌊-x⌋ : ℤ) : ℝ) = ((-⌊x⌋ - 1 : ℤ) : ℝ) := by push_cast; linarith
      exact_mod_cast h3
    unfold pyRound
    rw [h1, h2]
    by_cases a : Int.fract x < 1 / 2
    · rw [if_neg (by linarith), if_pos (by linarith), if_pos a]; ring
    · by_cases b : 1 / 2 < Int.fract x
      · rw [if_pos (by linarith), if_neg a, if_pos b]; ring
      · rw [if_neg (by linarith), if_neg (by linarith), if_neg a, if_neg b]
        by_cases c : Even ⌊x⌋
        · rw [if_pos c, if_neg (by simp [c])]; ring
        · rw [if_neg c, if_pos (by simpa using c)]; ring

theorem pyRound_nonneg {x : ℝ} (h : 0 ≤ x) : 0 ≤ pyRound x := by
  have := Int.floor_nonneg.2 h
  unfold pyRound
  split_ifs <;> omega

theorem roundTo_neg (d : ℕ) (x : ℝ) : roundTo d (-x) = -roundTo d x := by
  unfold roundTo
  rw [neg_mul, pyRound_neg]
  push_cast
  ring

theorem roundTo_nonneg (d : ℕ) {x : ℝ} (h : 0 ≤ x) : 0 ≤ roundTo d x := by
  unfold roundTo
  have : (0 : ℝ) ≤ pyRound (x * 10 ^ d) := by exact_mod_cast pyRound_nonneg (by positivity)
  positivity

theorem roundTo_near (d : ℕ) (x : ℝ) : |roundTo d x - x| ≤ 1 / 2 / 10 ^ d := by
  have hd : (0 : ℝ) < 10 ^ d := by positivity
  have h := pyRound_near (x * 10 ^ d)
  unfold roundTo
  have e : (pyRound (x * 10 ^ d) : ℝ) / 10 ^ d - x = ((pyRound (x * 10 ^ d) : ℝ) - x * 10 ^ d) / 10 ^ d := by
    field_simp
  rw [e, abs_div, abs_of_pos hd]
  gcongr

theorem roundTo_int (d : ℕ) (n : ℤ) : roundTo d (n : ℝ) = n := by
  unfold roundTo
  have e : ((n : ℝ) * 10 ^ d) = ((n * 10 ^ d : ℤ) : ℝ) := by push_cast; ring
  rw [e, pyRound_int]
  push_cast
  field_simp

theorem roundTo_same_sign (d : ℕ) {x y : ℝ} (h : 0 ≤ x ∧ 0 ≤ y ∨ x ≤ 0 ∧ y ≤ 0) : 0 ≤ roundTo d x * roundTo d y := by
  rcases h with ⟨h1, h2⟩ | ⟨h1, h2⟩
  · exact mul_nonneg (roundTo_nonneg d h1) (roundTo_nonneg d h2)
  · have := mul_nonneg (roundTo_nonneg d (neg_nonneg.2 h1)) (roundTo_nonneg d (neg_nonneg.2 h2))
    rw [roundTo_neg, roundTo_neg] at this
    linarith

end Ptera
