import Verif.Lemmas.ConvergenceLemmas

/-! # The unsteady convergence study -/

namespace Ptera

open Convergence Change

theorem unsteadySettings_mem {v : SweptValues} {k : Setting} :
    k ∈ unsteadySettings v ↔ k.wake < v.wakes.length ∧ k.length < v.lengths.length ∧ k.ratio < v.ratios.length ∧
      k.chord < v.chords.length := by
  simp only [unsteadySettings, List.mem_flatMap, List.mem_map, List.mem_range]
  constructor
  · rintro ⟨w, hw, l, hl, i, hi, j, hj, rfl⟩; exact ⟨hw, hl, hi, hj⟩
  · rintro ⟨hw, hl, hi, hj⟩; exact ⟨_, hw, _, hl, _, hi, _, hj, rfl⟩

/-- The order of the loops. -/
def unsteadyBefore (k k' : Setting) : Prop :=
  k.wake < k'.wake ∨ (k.wake = k'.wake ∧ (k.length < k'.length ∨ (k.length = k'.length ∧
    (k.ratio < k'.ratio ∨ (k.ratio = k'.ratio ∧ k.chord < k'.chord)))))

theorem unsteadySettings_sorted (v : SweptValues) : (unsteadySettings v).Pairwise unsteadyBefore := by
  rw [unsteadySettings, List.pairwise_flatMap]
  refine ⟨fun w _ => ?_, ?_⟩
  · rw [List.pairwise_flatMap]
    refine ⟨fun l _ => ?_, ?_⟩
    · rw [List.pairwise_flatMap]
      refine ⟨fun i _ => ?_, ?_⟩
      · rw [List.pairwise_map]
        exact List.pairwise_lt_range.imp fun h => .inr ⟨rfl, .inr ⟨rfl, .inr ⟨rfl, h⟩⟩⟩
      · refine List.pairwise_lt_range.imp fun h => ?_
        simp only [List.mem_map]
        rintro _ ⟨_, _, rfl⟩ _ ⟨_, _, rfl⟩
        exact .inr ⟨rfl, .inr ⟨rfl, .inl h⟩⟩
    · refine List.pairwise_lt_range.imp fun h => ?_
      simp only [List.mem_flatMap, List.mem_map]
      rintro _ ⟨_, _, _, _, rfl⟩ _ ⟨_, _, _, _, rfl⟩
      exact .inr ⟨rfl, .inl h⟩
  · refine List.pairwise_lt_range.imp fun h => ?_
    simp only [List.mem_flatMap, List.mem_map]
    rintro _ ⟨_, _, _, _, _, _, rfl⟩ _ ⟨_, _, _, _, _, _, rfl⟩
    exact .inl h

theorem unsteadyBefore_asymm (k k' : Setting) (h : unsteadyBefore k k') : ¬unsteadyBefore k' k := by
  unfold unsteadyBefore at *; omega

/-- The settings a setting is compared with. -/
def unsteadyNear (k k' : Setting) : Prop :=
  (0 < k.wake ∧ k' = { k with wake := k.wake - 1 }) ∨ (0 < k.length ∧ k' = { k with length := k.length - 1 }) ∨
    (0 < k.ratio ∧ k' = { k with ratio := k.ratio - 1 }) ∨ (0 < k.chord ∧ k' = { k with chord := k.chord - 1 })

theorem unsteadyVerdict_local (v : SweptValues) (c : ℝ) (T T' : Setting → List (List ℝ)) (k : Setting)
    (h : T k = T' k) (hn : ∀ k', unsteadyNear k k' → T k' = T' k') :
    unsteadyVerdict v c T k = unsteadyVerdict v c T' k := by
  unfold unsteadyVerdict
  rw [unlessFirst_congr (i := k.wake) fun hk => by rw [h, hn _ (.inl ⟨hk, rfl⟩)],
    unlessFirst_congr (i := k.length) fun hk => by rw [h, hn _ (.inr (.inl ⟨hk, rfl⟩))],
    unlessFirst_congr (i := k.ratio) fun hk => by rw [h, hn _ (.inr (.inr (.inl ⟨hk, rfl⟩)))],
    unlessFirst_congr (i := k.chord) fun hk => by rw [h, hn _ (.inr (.inr (.inr ⟨hk, rfl⟩)))]]

/-- The values swept over within the bounds. -/
def sweptValues (b : UnsteadyBounds) : SweptValues where
  wakes := wakeList b.prescribed b.free
  lengths := rangeUp (b.l₀, b.l₁)
  ratios := rangeDown (b.a₀, b.a₁)
  chords := rangeUp (b.c₀, b.c₁)

/-- The setting with given indices. -/
def pointAt (b : UnsteadyBounds) (k : Setting) : Point where
  prescribed := (wakeList b.prescribed b.free).getD k.wake true
  length := b.l₀ + k.length
  ratio := b.a₀ - k.ratio
  chord := b.c₀ + k.chord

theorem pointAt_has {b : UnsteadyBounds} {k : Setting} (hk : k ∈ unsteadySettings (sweptValues b)) :
    b.Has (pointAt b k) := by
  obtain ⟨hw, hl, hi, hj⟩ := unsteadySettings_mem.1 hk
  simp only [sweptValues, length_rangeUp, length_rangeDown] at hw hl hi hj
  obtain ⟨w, l, i, j⟩ := k
  obtain ⟨⟨a₀, a₁, c₀, c₁⟩, p, f, l₀, l₁⟩ := b
  simp only at hw hl hi hj
  refine ⟨?_, ?_, ?_, ?_, ?_⟩
  · cases p <;> cases f <;> simp [pointAt, wakeList] at hw ⊢
    subst hw; simp
  · cases p <;> cases f <;> simp [pointAt, wakeList] at hw ⊢
    subst hw; simp
  · simp [pointAt]
  · simp only [pointAt]; omega
  · simp only [pointAt, Bounds.Has]; omega

theorem pointAt_onto {b : UnsteadyBounds} {p : Point} (hp : b.Has p) :
    ∃ k ∈ unsteadySettings (sweptValues b), pointAt b k = p := by
  obtain ⟨⟨a₀, a₁, c₀, c₁⟩, pr, f, l₀, l₁⟩ := b
  obtain ⟨q, l, a, c⟩ := p
  obtain ⟨h1, h2, h3, h4, h5⟩ := hp
  simp only [Bounds.Has] at h1 h2 h3 h4 h5
  obtain ⟨w, hw, hq⟩ : ∃ w, w < (wakeList pr f).length ∧ (wakeList pr f).getD w true = q := by
    cases q
    · obtain rfl := h2 rfl
      cases pr
      · exact ⟨0, by simp [wakeList], by simp [wakeList]⟩
      · exact ⟨1, by simp [wakeList], by simp [wakeList]⟩
    · obtain rfl := h1 rfl
      exact ⟨0, by simp [wakeList], by simp [wakeList]⟩
  refine ⟨⟨w, (l - l₀).toNat, (a₀ - a).toNat, (c - c₀).toNat⟩, ?_, ?_⟩
  · rw [unsteadySettings_mem]
    simp only [sweptValues, length_rangeUp, length_rangeDown]
    omega
  · rw [pointAt]
    simp only [hq, Point.mk.injEq, true_and]
    omega

theorem pointAt_before {b : UnsteadyBounds} {k k' : Setting} (hk : k ∈ unsteadySettings (sweptValues b))
    (hk' : k' ∈ unsteadySettings (sweptValues b)) (h : UnsteadyBounds.Before (pointAt b k) (pointAt b k')) :
    unsteadyBefore k k' := by
  obtain ⟨hw, -⟩ := unsteadySettings_mem.1 hk
  obtain ⟨hw', -⟩ := unsteadySettings_mem.1 hk'
  have key : ((pointAt b k).prescribed = true ∧ (pointAt b k').prescribed = false → k.wake < k'.wake) ∧
      ((pointAt b k).prescribed = (pointAt b k').prescribed → k.wake = k'.wake) := by
    obtain ⟨w, l, i, j⟩ := k
    obtain ⟨w', l', i', j'⟩ := k'
    obtain ⟨⟨a₀, a₁, c₀, c₁⟩, p, f, l₀, l₁⟩ := b
    simp only [sweptValues] at hw hw'
    simp only [pointAt]
    have b2 : ∀ n, n ≤ 1 → n = 0 ∨ n = 1 := by omega
    cases p <;> cases f <;> simp [wakeList] at hw hw' ⊢
    · subst hw hw'; simp
    · subst hw hw'; simp
    · rcases b2 _ hw with rfl | rfl <;> rcases b2 _ hw' with rfl | rfl <;> simp
  unfold UnsteadyBounds.Before Bounds.Before at h
  simp only [pointAt] at key h
  unfold unsteadyBefore
  rcases h with h | ⟨h1, h2⟩
  · exact .inl (key.1 h)
  · refine .inr ⟨key.2 h1, ?_⟩
    omega

/-- All airplanes have the same positive number of coefficients. -/
def Good (n m : ℕ) (r : List (List ℝ)) : Prop := r.length = n ∧ ∀ l ∈ r, l.length = m

theorem Good.forall₂ {n m : ℕ} {r s : List (List ℝ)} (hr : Good n m r) (hs : Good n m s) :
    List.Forall₂ (fun t l => t.length = l.length) r s := by
  obtain ⟨h1, h2⟩ := hr
  obtain ⟨h3, h4⟩ := hs
  rw [List.forall₂_iff_get]
  refine ⟨by rw [h1, h3], fun i hi hi' => ?_⟩
  rw [h2 _ (List.get_mem _ _), h4 _ (List.get_mem _ _)]

theorem Good.change {n m : ℕ} (hn : 0 < n) (hm : 0 < m) {r s : List (List ℝ)} (hr : Good n m r) (hs : Good n m s)
    (c : ℝ) : ∃ ch, unsteadyChange r s = .ok ch ∧ (ch.below c = true ↔ AllClose c r s) := by
  refine unsteadyChange_spec (hr.forall₂ hs) ?_ c
  obtain ⟨h3, h4⟩ := hs
  cases s with
  | nil => simp at h3; omega
  | cons l ls =>
    refine ⟨l, by simp, fun e => ?_⟩
    have := h4 l (by simp)
    rw [e] at this; simp at this; omega

/-- The changes of an iteration. -/
theorem unsteadyChanges_spec (b : UnsteadyBounds) (c : ℝ) {n m : ℕ} (hn : 0 < n) (hm : 0 < m)
    (results : Point → List (List ℝ)) (good : ∀ p, b.Has p → Good n m (results p)) (k : Setting)
    (hk : k ∈ unsteadySettings (sweptValues b)) :
    ∃ w l r s, unsteadyVerdict (sweptValues b) c (fun k => results (pointAt b k)) k =
        .ok (unsteadyDecision (sweptValues b) c k w l r s) ∧
      (w.below c = true ↔ 0 < k.wake ∧ b.WakeConverged c results (pointAt b k)) ∧
      (l.below c = true ↔ b.LengthConverged c results (pointAt b k)) ∧
      (r.below c = true ↔ b.RatioConverged c results (pointAt b k)) ∧
      (s.below c = true ↔ b.ChordConverged c results (pointAt b k)) := by
  have here := pointAt_has hk
  have lower : ∀ k', unsteadyNear k k' → b.Has (pointAt b k') := by
    intro k' hk'
    apply pointAt_has
    obtain ⟨hw, hl, hi, hj⟩ := unsteadySettings_mem.1 hk
    rw [unsteadySettings_mem]
    rcases hk' with ⟨h, rfl⟩ | ⟨h, rfl⟩ | ⟨h, rfl⟩ | ⟨h, rfl⟩
    · exact ⟨show k.wake - 1 < _ by omega, hl, hi, hj⟩
    · exact ⟨hw, show k.length - 1 < _ by omega, hi, hj⟩
    · exact ⟨hw, hl, show k.ratio - 1 < _ by omega, hj⟩
    · exact ⟨hw, hl, hi, show k.chord - 1 < _ by omega⟩
  have wake2 : 0 < k.wake → b.prescribed = true ∧ (pointAt b k).prescribed = false ∧
      pointAt b { k with wake := k.wake - 1 } = { pointAt b k with prescribed := true } := by
    intro h
    obtain ⟨hw, -⟩ := unsteadySettings_mem.1 hk
    obtain ⟨w, l, i, j⟩ := k
    obtain ⟨⟨a₀, a₁, c₀, c₁⟩, p, f, l₀, l₁⟩ := b
    simp only [sweptValues] at hw h
    cases p <;> cases f <;> simp [wakeList] at hw
    · omega
    · omega
    · obtain rfl : w = 1 := by omega
      simp [pointAt, wakeList]
  obtain ⟨w, hw, hwb⟩ := unlessFirst_spec (i := k.wake)
    (x := unsteadyChange (results (pointAt b k)) (results (pointAt b { k with wake := k.wake - 1 }))) (c := c)
    (P := AllClose c (results (pointAt b k)) (results { pointAt b k with prescribed := true })) fun h => by
      have hg := good _ (lower _ (.inl ⟨h, rfl⟩))
      rw [(wake2 h).2.2] at hg ⊢
      exact Good.change hn hm (good _ here) hg c
  obtain ⟨l, hl, hlb⟩ := unlessFirst_spec (i := k.length)
    (x := unsteadyChange (results (pointAt b k)) (results (pointAt b { k with length := k.length - 1 }))) (c := c)
    (P := AllClose c (results (pointAt b k)) (results { pointAt b k with length := (pointAt b k).length - 1 }))
    fun h => by
      have e : pointAt b { k with length := k.length - 1 } =
          { pointAt b k with length := (pointAt b k).length - 1 } := by
        simp only [pointAt, Point.mk.injEq, true_and, and_true]; omega
      have hg := good _ (lower _ (.inr (.inl ⟨h, rfl⟩)))
      rw [e] at hg ⊢
      exact Good.change hn hm (good _ here) hg c
  obtain ⟨r, hr, hrb⟩ := unlessFirst_spec (i := k.ratio)
    (x := unsteadyChange (results (pointAt b k)) (results (pointAt b { k with ratio := k.ratio - 1 }))) (c := c)
    (P := AllClose c (results (pointAt b k)) (results { pointAt b k with ratio := (pointAt b k).ratio + 1 }))
    fun h => by
      have e : pointAt b { k with ratio := k.ratio - 1 } =
          { pointAt b k with ratio := (pointAt b k).ratio + 1 } := by
        simp only [pointAt, Point.mk.injEq, true_and, and_true]; omega
      have hg := good _ (lower _ (.inr (.inr (.inl ⟨h, rfl⟩))))
      rw [e] at hg ⊢
      exact Good.change hn hm (good _ here) hg c
  obtain ⟨s, hs, hsb⟩ := unlessFirst_spec (i := k.chord)
    (x := unsteadyChange (results (pointAt b k)) (results (pointAt b { k with chord := k.chord - 1 }))) (c := c)
    (P := AllClose c (results (pointAt b k)) (results { pointAt b k with chord := (pointAt b k).chord - 1 }))
    fun h => by
      have e : pointAt b { k with chord := k.chord - 1 } =
          { pointAt b k with chord := (pointAt b k).chord - 1 } := by
        simp only [pointAt, Point.mk.injEq, true_and]; omega
      have hg := good _ (lower _ (.inr (.inr (.inr ⟨h, rfl⟩))))
      rw [e] at hg ⊢
      exact Good.change hn hm (good _ here) hg c
  refine ⟨w, l, r, s, ?_, ?_, ?_, ?_, ?_⟩
  · show Except.bind (unlessFirst k.wake _) _ = _
    rw [hw]
    show Except.bind (unlessFirst k.length _) _ = _
    rw [hl]
    show Except.bind (unlessFirst k.ratio _) _ = _
    rw [hr]
    show Except.bind (unlessFirst k.chord _) _ = _
    rw [hs]
    rfl
  · rw [hwb]
    constructor
    · rintro ⟨h1, h2⟩; exact ⟨h1, (wake2 h1).1, (wake2 h1).2.1, h2⟩
    · rintro ⟨h1, _, _, h2⟩; exact ⟨h1, h2⟩
  · rw [hlb, UnsteadyBounds.LengthConverged]; simp [pointAt]
  · rw [hrb, UnsteadyBounds.RatioConverged]; simp [pointAt]
  · rw [hsb, UnsteadyBounds.ChordConverged]; simp [pointAt]

theorem unsteady_pass_iff (A B C D E F G H I J : Prop) :
    (((A ∨ B) ∨ C) ∧ (D ∨ E)) ∧ ((F ∨ G) ∨ H) ∧ (I ∨ J) ↔ (B ∨ C ∨ A) ∧ (E ∨ D) ∧ (G ∨ H ∨ F) ∧ (J ∨ I) := by
  constructor
  · rintro ⟨⟨h1, h2⟩, h3, h4⟩
    exact ⟨by rcases h1 with (h | h) | h <;> simp [h], h2.symm, by rcases h3 with (h | h) | h <;> simp [h], h4.symm⟩
  · rintro ⟨h1, h2, h3, h4⟩
    exact ⟨⟨by rcases h1 with h | h | h <;> simp [h], h2.symm⟩, by rcases h3 with h | h | h <;> simp [h], h4.symm⟩

/-- What an iteration decides. -/
theorem unsteadyVerdict_spec (b : UnsteadyBounds) (c : ℝ) {n m : ℕ} (hn : 0 < n) (hm : 0 < m)
    (results : Point → List (List ℝ)) (good : ∀ p, b.Has p → Good n m (results p)) (k : Setting)
    (hk : k ∈ unsteadySettings (sweptValues b)) :
    ∃ v, unsteadyVerdict (sweptValues b) c (fun k => results (pointAt b k)) k = .ok v ∧
      (v = none → ¬b.Passes c results (pointAt b k)) ∧
      ∀ o, v = some o → b.Passes c results (pointAt b k) ∧
        b.Reports c results (pointAt b k) ⟨o.1, o.2.1, o.2.2.1, o.2.2.2⟩ := by
  obtain ⟨w, l, r, s, hv, hwb, hlb, hrb, hsb⟩ := unsteadyChanges_spec b c hn hm results good k hk
  refine ⟨_, hv, ?_⟩
  obtain ⟨hw, hl, hi, hj⟩ := unsteadySettings_mem.1 hk
  have ll := length_rangeUp b.l₀ b.l₁
  have li := length_rangeDown b.a₀ b.a₁
  have lj := length_rangeUp b.c₀ b.c₁
  have hwb' : w.below c = true ↔ b.WakeConverged c results (pointAt b k) := by
    rw [hwb]
    refine ⟨fun h => h.2, fun h => ⟨?_, h⟩⟩
    by_contra h0
    obtain ⟨h1, h2, -⟩ := h
    have : k.wake = 0 := by omega
    simp [pointAt, this, wakeList, h1] at h2
  have single0 : (sweptValues b).wakes.length = 1 ↔ ¬(b.prescribed = true ∧ b.free = true) := by
    revert hw
    obtain ⟨⟨a₀, a₁, c₀, c₁⟩, p, f, l₀, l₁⟩ := b
    cases p <;> cases f <;> simp [sweptValues, wakeList]
  have single1 : (sweptValues b).lengths.length = 1 ↔ b.l₀ = b.l₁ := by simp only [sweptValues] at hl ⊢; omega
  have single2 : (sweptValues b).ratios.length = 1 ↔ b.a₀ = b.a₁ := by simp only [sweptValues] at hi ⊢; omega
  have single3 : (sweptValues b).chords.length = 1 ↔ b.c₀ = b.c₁ := by simp only [sweptValues] at hj ⊢; omega
  have sat0 : (!(sweptValues b).wakes.getD k.wake true) = true ↔ (pointAt b k).prescribed = false := by
    simp only [sweptValues, pointAt, Bool.not_eq_true']
  have sat2 : (sweptValues b).ratios.getD k.ratio 0 = 1 ↔ (pointAt b k).ratio = 1 := by
    simp only [sweptValues] at hi ⊢; rw [getD_rangeDown hi, pointAt]
  have hp : ((((w.below c || decide ((sweptValues b).wakes.length = 1) || !(sweptValues b).wakes.getD k.wake true) &&
      (l.below c || decide ((sweptValues b).lengths.length = 1))) &&
      (r.below c || decide ((sweptValues b).ratios.length = 1) ||
        decide ((sweptValues b).ratios.getD k.ratio 0 = 1))) &&
      (s.below c || decide ((sweptValues b).chords.length = 1))) = true ↔ b.Passes c results (pointAt b k) := by
    rw [Bool.and_eq_true, Bool.and_eq_true, Bool.and_eq_true, Bool.or_eq_true, Bool.or_eq_true, Bool.or_eq_true,
      Bool.or_eq_true, Bool.or_eq_true, Bool.or_eq_true, decide_eq_true_iff, decide_eq_true_iff, decide_eq_true_iff,
      decide_eq_true_iff, decide_eq_true_iff, hwb', hlb, hrb, hsb, single0, single1, single2, single3, sat0, sat2,
      and_assoc (c := _ ∨ _)]
    exact unsteady_pass_iff _ _ _ _ _ _ _ _ _ _
  unfold unsteadyDecision
  dsimp only
  by_cases pass : b.Passes c results (pointAt b k)
  · rw [if_pos (hp.2 pass)]
    refine ⟨by simp, ?_⟩
    rintro o ho
    obtain rfl := (Option.some.inj ho).symm
    refine ⟨pass, ?_⟩
    obtain ⟨p1, p2, p3, p4⟩ := pass
    refine ⟨?_, ?_, ?_, ?_⟩
    · dsimp only
      by_cases e1 : b.WakeConverged c results (pointAt b k)
      · left
        refine ⟨e1, ?_⟩
        have hf := (pointAt_has hk).2.1 e1.2.1
        have h0 := (hwb.1 (hwb'.2 e1)).1
        have e0 : ¬decide ((sweptValues b).wakes.length = 1) = true := by
          simp [single0, e1.1, hf]
        rw [if_neg e0, if_pos (hwb'.2 e1)]
        simp [sweptValues, wakeList, e1.1, hf] at hw ⊢
        have : k.wake - 1 = 0 := by omega
        simp [this]
      · right
        refine ⟨e1, ?_⟩
        rw [if_neg (fun h => e1 (hwb'.1 h)), ite_self]
        rfl
    · dsimp only
      by_cases e1 : b.l₀ = b.l₁
      · left; refine ⟨e1, ?_⟩; rw [if_pos (decide_eq_true (single1.2 e1))]; exact getD_rangeUp hl
      · have e1' : ¬decide ((sweptValues b).lengths.length = 1) = true := by simpa [single1] using e1
        right
        have e2 := p2.resolve_left e1
        refine ⟨e1, e2, ?_⟩
        have : 0 < k.length := by have := e2.1; simp only [pointAt] at this; omega
        rw [if_neg e1']
        simp only [sweptValues, pointAt] at hl ⊢
        rw [getD_rangeUp (by omega)]; omega
    · dsimp only
      by_cases e1 : b.a₀ = b.a₁
      · left; refine ⟨e1, ?_⟩; rw [if_pos (decide_eq_true (single2.2 e1))]; exact getD_rangeDown hi
      · have e1' : ¬decide ((sweptValues b).ratios.length = 1) = true := by simpa [single2] using e1
        right
        by_cases e2 : b.RatioConverged c results (pointAt b k)
        · left; refine ⟨e1, e2, ?_⟩
          have : 0 < k.ratio := by have := e2.1; simp only [pointAt] at this; omega
          rw [if_neg e1', if_pos (hrb.2 e2)]
          simp only [sweptValues, pointAt] at hi ⊢
          rw [getD_rangeDown (by omega)]; omega
        · right; refine ⟨e1, e2, (p3.resolve_left e1).resolve_right e2, ?_⟩
          rw [if_neg e1', if_neg fun h => e2 (hrb.1 h)]
          exact getD_rangeDown hi
    · dsimp only
      by_cases e1 : b.c₀ = b.c₁
      · left; refine ⟨e1, ?_⟩; rw [if_pos (decide_eq_true (single3.2 e1))]; exact getD_rangeUp hj
      · have e1' : ¬decide ((sweptValues b).chords.length = 1) = true := by simpa [single3] using e1
        right
        have e2 := p4.resolve_left e1
        refine ⟨e1, e2, ?_⟩
        have : 0 < k.chord := by have := e2.1; simp only [pointAt] at this; omega
        rw [if_neg e1']
        simp only [sweptValues, pointAt] at hj ⊢
        rw [getD_rangeUp (by omega)]; omega
  · rw [if_neg (fun h => pass (hp.1 h))]
    exact ⟨fun _ => pass, by simp⟩

theorem unsteadyNear_in {v : SweptValues} {k : Setting} (hk : k ∈ unsteadySettings v) {k' : Setting}
    (hk' : unsteadyNear k k') : k' ∈ unsteadySettings v ∧ unsteadyBefore k' k := by
  rw [unsteadySettings_mem] at hk ⊢
  obtain ⟨hw, hl, hi, hj⟩ := hk
  rcases hk' with ⟨h, rfl⟩ | ⟨h, rfl⟩ | ⟨h, rfl⟩ | ⟨h, rfl⟩
  · exact ⟨⟨show k.wake - 1 < _ by omega, hl, hi, hj⟩, .inl (show k.wake - 1 < _ by omega)⟩
  · exact ⟨⟨hw, show k.length - 1 < _ by omega, hi, hj⟩, .inr ⟨rfl, .inl (show k.length - 1 < _ by omega)⟩⟩
  · exact ⟨⟨hw, hl, show k.ratio - 1 < _ by omega, hj⟩,
      .inr ⟨rfl, .inr ⟨rfl, .inl (show k.ratio - 1 < _ by omega)⟩⟩⟩
  · exact ⟨⟨hw, hl, hi, show k.chord - 1 < _ by omega⟩,
      .inr ⟨rfl, .inr ⟨rfl, .inr ⟨rfl, show k.chord - 1 < _ by omega⟩⟩⟩⟩

/-- The unsteady study ends if no iteration raises. -/
theorem unsteadySweep_total (b : UnsteadyBounds) (c : ℝ) {n m : ℕ} (hn : 0 < n) (hm : 0 < m)
    (iterate : Bool → ℤ → ℤ → ℤ → Except Err (List (List ℝ))) (results : Point → List (List ℝ))
    (hR : ∀ p, b.Has p → iterate p.prescribed p.length p.ratio p.chord = .ok (results p))
    (good : ∀ p, b.Has p → Good n m (results p)) (n' m' : ℕ) :
    ∃ out, unsteadySweep (sweptValues b) c n' m' iterate = .ok out := by
  refine sweep_total (near := unsteadyNear) (R := fun k => results (pointAt b k))
    (unsteadyVerdict_local _ c) _ [] _ (fun pre k post e k' hk' => ?_) (by simp) fun k hk => ?_
  · have e' : unsteadySettings (sweptValues b) = pre ++ k :: post := e
    obtain ⟨h1, h2⟩ := unsteadyNear_in (by rw [e']; simp) hk'
    exact mem_pre_of_sorted (unsteadySettings_sorted _) unsteadyBefore_asymm e' h1 h2
  · obtain ⟨h1, h2, h3, h4⟩ := unsteadySettings_mem.1 hk
    refine ⟨?_, ?_⟩
    · have := hR _ (pointAt_has hk)
      rw [← this]
      simp only [sweptValues] at h2 h3 h4 ⊢
      rw [getD_rangeUp h2, getD_rangeDown h3, getD_rangeUp h4]
      rfl
    · obtain ⟨v, hv, _⟩ := unsteadyVerdict_spec b c hn hm results good k hk
      exact ⟨v, hv⟩

/-- The unsteady study finds the first setting that passes. -/
theorem unsteadySweep_spec (b : UnsteadyBounds) (c : ℝ) {n m : ℕ} (hn : 0 < n) (hm : 0 < m)
    (iterate : Bool → ℤ → ℤ → ℤ → Except Err (List (List ℝ))) (results : Point → List (List ℝ))
    (hR : ∀ p r, b.Has p → iterate p.prescribed p.length p.ratio p.chord = .ok r → results p = r)
    (good : ∀ p, b.Has p → Good n m (results p)) {n' m' : ℕ} {out : Option (Bool × ℤ × ℤ × ℤ)}
    (h : unsteadySweep (sweptValues b) c n' m' iterate = .ok out) :
    (out = none ∧ ∀ p, b.Has p →
      iterate p.prescribed p.length p.ratio p.chord = .ok (results p) ∧ ¬b.Passes c results p) ∨
    ∃ p o, out = some o ∧ b.Has p ∧ iterate p.prescribed p.length p.ratio p.chord = .ok (results p) ∧
      b.Passes c results p ∧ b.Reports c results p ⟨o.1, o.2.1, o.2.2.1, o.2.2.2⟩ ∧
      ∀ p', b.Has p' → UnsteadyBounds.Before p' p →
        iterate p'.prescribed p'.length p'.ratio p'.chord = .ok (results p') ∧ ¬b.Passes c results p' := by
  set v := sweptValues b with hvdef
  have value : ∀ k ∈ unsteadySettings v, v.wakes.getD k.wake true = (pointAt b k).prescribed ∧
      v.lengths.getD k.length 0 = (pointAt b k).length ∧ v.ratios.getD k.ratio 0 = (pointAt b k).ratio ∧
      v.chords.getD k.chord 0 = (pointAt b k).chord := by
    intro k hk
    obtain ⟨h1, h2, h3, h4⟩ := unsteadySettings_mem.1 hk
    exact ⟨rfl, getD_rangeUp h2, getD_rangeDown h3, getD_rangeUp h4⟩
  set it : Setting → Except Err (List (List ℝ)) := fun k => iterate (v.wakes.getD k.wake true)
    (v.lengths.getD k.length 0) (v.ratios.getD k.ratio 0) (v.chords.getD k.chord 0) with hit
  have itAt : ∀ k ∈ unsteadySettings v, it k = iterate (pointAt b k).prescribed (pointAt b k).length
      (pointAt b k).ratio (pointAt b k).chord := by
    intro k hk
    obtain ⟨v1, v2, v3, v4⟩ := value k hk
    simp only [hit, v1, v2, v3, v4]
  set R : Setting → List (List ℝ) := fun k =>
    if k ∈ unsteadySettings v then results (pointAt b k)
    else match it k with
      | .ok r => r
      | .error _ => [] with hRdef
  have nearIn : ∀ k ∈ unsteadySettings v, ∀ k', unsteadyNear k k' → k' ∈ unsteadySettings v ∧ unsteadyBefore k' k :=
    fun k hk k' hk' => unsteadyNear_in hk hk'
  have verdictR : ∀ k ∈ unsteadySettings v, unsteadyVerdict v c R k =
      unsteadyVerdict v c (fun k => results (pointAt b k)) k := by
    intro k hk
    apply unsteadyVerdict_local
    · simp [hRdef, hk]
    · intro k' hk'
      simp [hRdef, (nearIn k hk k' hk').1]
  have core := sweep_sorted (near := unsteadyNear) (lt := unsteadyBefore) (R := R) (iterate := it)
    (unsteadyVerdict_local v c) (by
      intro k r hk
      by_cases hm : k ∈ unsteadySettings v
      · rw [itAt k hm] at hk
        simp only [hRdef, if_pos hm]
        exact hR _ _ (pointAt_has hm) hk
      · simp only [hRdef, if_neg hm, hk])
    (unsteadySettings_sorted v) unsteadyBefore_asymm nearIn h
  have atIndex : ∀ k ∈ unsteadySettings v, it k = .ok (R k) →
      iterate (pointAt b k).prescribed (pointAt b k).length (pointAt b k).ratio (pointAt b k).chord =
        .ok (results (pointAt b k)) := by
    intro k hk hi
    rw [← itAt k hk, hi]; simp [hRdef, hk]
  have fails : ∀ k ∈ unsteadySettings v, unsteadyVerdict v c R k = .ok none → ¬b.Passes c results (pointAt b k) := by
    intro k hk hv
    obtain ⟨o, h1, h2, _⟩ := unsteadyVerdict_spec b c hn hm results good k hk
    rw [verdictR k hk, h1] at hv
    exact h2 (Except.ok.inj hv)
  rcases core with ⟨h1, h2⟩ | ⟨k, hk, o, h1, h2, h3, h4⟩
  · left
    refine ⟨h1, fun p hp => ?_⟩
    obtain ⟨k, hk, rfl⟩ := pointAt_onto hp
    exact ⟨atIndex k hk (h2 k hk).1, fails k hk (h2 k hk).2⟩
  · right
    obtain ⟨_, g1, _, g3⟩ := unsteadyVerdict_spec b c hn hm results good k hk
    rw [verdictR k hk, g1] at h4
    obtain ⟨g4, g5⟩ := g3 o (Except.ok.inj h4)
    refine ⟨_, o, h1, pointAt_has hk, atIndex k hk h3, g4, g5, ?_⟩
    intro p' hp' hb
    obtain ⟨k', hk', rfl⟩ := pointAt_onto hp'
    have lt : unsteadyBefore k' k := pointAt_before hk' hk hb
    exact ⟨atIndex k' hk' (h2 k' hk' lt).1, fails k' hk' (h2 k' hk' lt).2⟩

end Ptera
