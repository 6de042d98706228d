import Verif.Model.Convergence
import Verif.Spec.Convergence
import Mathlib.Tactic.Linarith
import Mathlib.Tactic.Positivity
import Mathlib.Algebra.Order.Field.Basic
import Mathlib.Tactic.FieldSimp

/-! # Percent changes and sweeps -/

namespace Ptera

open Convergence

namespace Change

theorem below_max2 (a b : Change) (c : ℝ) :
    (max2 a b).below c = true ↔ a.below c = true ∧ (b.below c = true ∨ b = nan) := by
  cases a <;> cases b <;> simp [max2, gt, below]
  rename_i r s
  split_ifs with h <;> simp
  · intro hs; linarith
  · intro hr; linarith

theorem max2_eq_nan (a b : Change) : max2 a b = nan ↔ a = nan := by
  cases a <;> cases b <;> simp [max2, gt]
  split_ifs <;> simp

theorem below_fold (l : List Change) (a : Change) (c : ℝ) :
    (l.foldl max2 a).below c = true ↔ a.below c = true ∧ ∀ x ∈ l, x.below c = true ∨ x = nan := by
  induction l generalizing a with
  | nil => simp
  | cons x l ih => simp [ih, below_max2, and_assoc]

theorem fold_eq_nan (l : List Change) (a : Change) : l.foldl max2 a = nan ↔ a = nan := by
  induction l generalizing a with
  | nil => simp
  | cons x l ih => simp [ih, max2_eq_nan]

theorem below_npMax2 (a b : Change) (c : ℝ) :
    (npMax2 a b).below c = true ↔ a.below c = true ∧ b.below c = true := by
  cases a <;> cases b <;> simp [npMax2, gt, below]
  rename_i r s
  split_ifs with h <;> simp
  · intro hs; linarith
  · intro hr; linarith

theorem below_npFold (l : List Change) (a : Change) (c : ℝ) :
    (l.foldl npMax2 a).below c = true ↔ a.below c = true ∧ ∀ x ∈ l, x.below c = true := by
  induction l generalizing a with
  | nil => simp
  | cons x l ih => simp [ih, below_npMax2, and_assoc]

theorem between_eq_nan (this last : ℝ) : between this last = nan ↔ this = 0 ∧ last = 0 := by
  unfold between
  split_ifs <;> simp_all

theorem below_between (this last c : ℝ) :
    (between this last).below c = true ↔ 100 * |this - last| < c * |last| := by
  unfold between
  split_ifs with h1 h2
  · simp [below, h1, h2]
  · simp [below, h1]
  · have : 0 < |last| := abs_pos.2 h1
    rw [below, decide_eq_true_iff, abs_div, ← mul_div_assoc, div_lt_iff₀ this]

theorem near_iff (this last c : ℝ) :
    Near c this last ↔ (between this last).below c = true ∨ between this last = nan := by
  rw [below_between, between_eq_nan, Near, or_comm]

end Change

open Change

/-- What the steady study compares, when the coefficients of the first airplane are not zero. -/
theorem steadyChange_spec {these last : List (ℝ × ℝ)} (hl : these.length = last.length)
    (h0 : ∃ p, last.head? = some p ∧ p.1 ≠ 0 ∧ p.2 ≠ 0) (c : ℝ) :
    ∃ ch, steadyChange these last = .ok ch ∧ (ch.below c = true ↔ Close c these last) := by
  obtain ⟨l, ls, rfl⟩ : ∃ l ls, last = l :: ls := by
    cases last with
    | nil => simp at h0
    | cons l ls => exact ⟨l, ls, rfl⟩
  obtain ⟨t, ts, rfl⟩ : ∃ t ts, these = t :: ts := by
    cases these with
    | nil => simp at hl
    | cons t ts => exact ⟨t, ts, rfl⟩
  obtain ⟨hf, hm⟩ : l.1 ≠ 0 ∧ l.2 ≠ 0 := by simpa using h0
  have hl' : ts.length = ls.length := by simpa using hl
  refine ⟨_, rfl, ?_⟩
  rw [below_max2, below_fold, below_fold, fold_eq_nan]
  have n1 : between t.1 l.1 ≠ nan := by rw [Ne, between_eq_nan]; tauto
  have n2 : between t.2 l.2 ≠ nan := by rw [Ne, between_eq_nan]; tauto
  rw [Close, List.forall₂_cons, near_iff, near_iff]
  have key : List.Forall₂ (fun t l => Near c t.1 l.1 ∧ Near c t.2 l.2) ts ls ↔
      (∀ x ∈ List.zipWith between (ts.map Prod.fst) (ls.map Prod.fst), x.below c = true ∨ x = nan) ∧
        ∀ x ∈ List.zipWith between (ts.map Prod.snd) (ls.map Prod.snd), x.below c = true ∨ x = nan := by
    clear hl h0
    induction ts generalizing ls with
    | nil => cases ls with
      | nil => simp
      | cons a as => simp at hl'
    | cons a as ih => cases ls with
      | nil => simp at hl'
      | cons b bs =>
        have := ih bs (by simpa using hl')
        rw [List.forall₂_cons, this, near_iff, near_iff]
        simp only [List.map_cons, List.zipWith_cons_cons, List.mem_cons, forall_eq_or_imp]
        tauto
  rw [key]
  tauto

/-- What the unsteady study compares. -/
theorem unsteadyChange_spec {these last : List (List ℝ)}
    (hl : List.Forall₂ (fun t l => t.length = l.length) these last) (h0 : ∃ l ∈ last, l ≠ []) (c : ℝ) :
    ∃ ch, unsteadyChange these last = .ok ch ∧ (ch.below c = true ↔ AllClose c these last) := by
  have inner : ∀ (t l : List ℝ), t.length = l.length →
      ((∀ x ∈ List.zipWith between t l, x.below c = true) ↔
        List.Forall₂ (fun t l => 100 * |t - l| < c * |l|) t l) := by
    intro t
    induction t with
    | nil => intro l hl; cases l with
      | nil => simp
      | cons a as => simp at hl
    | cons a as ih => intro l hl; cases l with
      | nil => simp at hl
      | cons b bs =>
        have := ih bs (by simpa using hl)
        simp [← this, below_between]
  have all : (∀ x ∈ (List.zipWith (List.zipWith between) these last).flatten, x.below c = true) ↔
      AllClose c these last := by
    rw [AllClose]
    clear h0
    induction hl with
    | nil => simp
    | cons h _ ih =>
      simp only [List.zipWith_cons_cons, List.flatten_cons, List.mem_append, or_imp, forall_and, ih, inner _ _ h,
        List.forall₂_cons]
  have ne : (List.zipWith (List.zipWith between) these last).flatten ≠ [] := by
    clear all
    induction hl with
    | nil => simp at h0
    | @cons t l ts ls h _ ih =>
      obtain ⟨m, hm, hne⟩ := h0
      rcases List.mem_cons.1 hm with rfl | hm
      · cases t <;> cases m <;> simp_all
      · have := ih ⟨m, hm, hne⟩
        simp only [List.zipWith_cons_cons, List.flatten_cons]
        exact List.append_ne_nil_of_right_ne_nil _ this
  rw [unsteadyChange]
  revert all
  cases hz : (List.zipWith (List.zipWith between) these last).flatten with
  | nil => exact absurd hz ne
  | cons a as =>
    intro all
    refine ⟨_, rfl, ?_⟩
    rw [below_npFold, ← all]
    simp

/-! ## Sweeps -/

section sweep

variable {κ ρ ο : Type} [DecidableEq κ] {iterate : κ → Except Err ρ}
  {verdict : (κ → ρ) → κ → Except Err (Option ο)} {R : κ → ρ} {near : κ → κ → Prop}

/-- A sweep that ends finds the first setting with a verdict, judged by the results of all the iterations. -/
theorem sweep_spec (hloc : ∀ T T' k, T k = T' k → (∀ k', near k k' → T k' = T' k') → verdict T k = verdict T' k)
    (hR : ∀ k r, iterate k = .ok r → R k = r) (todo done : List κ) (T : κ → ρ)
    (hnd : (done ++ todo).Nodup)
    (hnear : ∀ pre k post, done ++ todo = pre ++ k :: post → ∀ k', near k k' → k' ∈ pre)
    (hT : ∀ k ∈ done, T k = R k) {out : Option ο} (h : sweep iterate verdict todo T = .ok out) :
    (out = none ∧ ∀ k ∈ todo, iterate k = .ok (R k) ∧ verdict R k = .ok none) ∨
    ∃ pre k post o, todo = pre ++ k :: post ∧ out = some o ∧
      (∀ k' ∈ pre, iterate k' = .ok (R k') ∧ verdict R k' = .ok none) ∧ iterate k = .ok (R k) ∧
      verdict R k = .ok (some o) := by
  induction todo generalizing done T with
  | nil => left; simpa [sweep, eq_comm] using h
  | cons k rest ih =>
    rw [sweep] at h
    cases hi : iterate k with
    | error e => rw [hi] at h; simp at h
    | ok r =>
      have hr : R k = r := hR _ _ hi
      have hkd : k ∉ done := by
        intro hk
        have := List.nodup_append.1 hnd
        exact this.2.2 k hk k (by simp) rfl
      have hT' : ∀ k' ∈ done ++ [k], Function.update T k r k' = R k' := by
        intro k' hk'
        by_cases e : k' = k
        · subst e; simp [hr]
        · rw [Function.update_of_ne e]
          simp [e] at hk'
          exact hT _ hk'
      have hv : verdict (Function.update T k r) k = verdict R k := by
        apply hloc
        · exact hT' k (by simp)
        · intro k' hk'
          have := hnear done k rest rfl k' hk'
          exact hT' k' (by simp [this])
      rw [hi] at h
      simp only [hv] at h
      cases hvv : verdict R k with
      | error e => rw [hvv] at h; simp at h
      | ok v =>
        rw [hvv] at h
        cases v with
        | some o =>
          right
          refine ⟨[], k, rest, o, rfl, ?_, by simp, by rw [hi, hr], hvv⟩
          simpa [eq_comm] using h
        | none =>
          simp only at h
          have ih' := ih (done ++ [k]) _ (by simpa using hnd) (by
            intro pre k' post e; exact hnear pre k' post (by simpa using e)) hT' h
          rcases ih' with ⟨h1, h2⟩ | ⟨pre, k', post, o, h1, h2, h3, h4, h5⟩
          · left
            refine ⟨h1, ?_⟩
            intro k' hk'
            rcases List.mem_cons.1 hk' with rfl | hk'
            · exact ⟨by rw [hi, hr], hvv⟩
            · exact h2 _ hk'
          · right
            refine ⟨k :: pre, k', post, o, by simp [h1], h2, ?_, h4, h5⟩
            intro k'' hk''
            rcases List.mem_cons.1 hk'' with rfl | hk''
            · exact ⟨by rw [hi, hr], hvv⟩
            · exact h3 _ hk''

/-- The same for a list of settings in increasing order. -/
theorem sweep_sorted (hloc : ∀ T T' k, T k = T' k → (∀ k', near k k' → T k' = T' k') → verdict T k = verdict T' k)
    (hR : ∀ k r, iterate k = .ok r → R k = r) {cells : List κ} {lt : κ → κ → Prop} (hs : cells.Pairwise lt)
    (has : ∀ k k', lt k k' → ¬lt k' k) (hnear : ∀ k ∈ cells, ∀ k', near k k' → k' ∈ cells ∧ lt k' k) {T : κ → ρ}
    {out : Option ο} (h : sweep iterate verdict cells T = .ok out) :
    (out = none ∧ ∀ k ∈ cells, iterate k = .ok (R k) ∧ verdict R k = .ok none) ∨
    ∃ k ∈ cells, ∃ o, out = some o ∧
      (∀ k' ∈ cells, lt k' k → iterate k' = .ok (R k') ∧ verdict R k' = .ok none) ∧ iterate k = .ok (R k) ∧
      verdict R k = .ok (some o) := by
  have split : ∀ pre k post, cells = pre ++ k :: post → ∀ k' ∈ cells, lt k' k → k' ∈ pre := by
    intro pre k post e k' hk' hlt
    rw [e] at hs hk'
    have h2 := List.pairwise_cons.1 (List.pairwise_append.1 hs).2.1
    rcases List.mem_append.1 hk' with hk' | hk'
    · exact hk'
    rcases List.mem_cons.1 hk' with rfl | hk'
    · exact absurd hlt (has _ _ hlt)
    · exact absurd hlt (has _ _ (h2.1 _ hk'))
  rcases sweep_spec hloc hR cells [] T (hs.imp fun {a b} hab e => by
      subst e; exact has _ _ hab hab) (fun pre k post e k' hk' => by
      have e' : cells = pre ++ k :: post := e
      have := hnear k (by simp [e']) k' hk'
      exact split pre k post e' k' this.1 this.2) (by simp) h with h | ⟨pre, k, post, o, e, h2, h3, h4, h5⟩
  · exact .inl h
  · exact .inr ⟨k, by simp [e], o, h2, fun k' hk' hlt => h3 k' (split pre k post e k' hk' hlt), h4, h5⟩

/-- A sweep whose iterations and verdicts never raise does not raise. -/
theorem sweep_total (hloc : ∀ T T' k, T k = T' k → (∀ k', near k k' → T k' = T' k') → verdict T k = verdict T' k)
    (todo done : List κ) (T : κ → ρ)
    (hnear : ∀ pre k post, done ++ todo = pre ++ k :: post → ∀ k', near k k' → k' ∈ pre)
    (hT : ∀ k ∈ done, T k = R k) (hi : ∀ k ∈ todo, iterate k = .ok (R k) ∧ ∃ v, verdict R k = .ok v) :
    ∃ out, sweep iterate verdict todo T = .ok out := by
  induction todo generalizing done T with
  | nil => exact ⟨_, rfl⟩
  | cons k rest ih =>
    obtain ⟨h1, v, h2⟩ := hi k (by simp)
    have hT' : ∀ k' ∈ done ++ [k], Function.update T k (R k) k' = R k' := by
      intro k' hk'
      by_cases e : k' = k
      · subst e; simp
      · rw [Function.update_of_ne e]
        simp [e] at hk'
        exact hT _ hk'
    have hv : verdict (Function.update T k (R k)) k = verdict R k := by
      apply hloc
      · exact hT' k (by simp)
      · intro k' hk'
        have := hnear done k rest rfl k' hk'
        exact hT' k' (by simp [this])
    rw [sweep, h1]
    simp only [hv, h2]
    cases v with
    | some o => exact ⟨_, rfl⟩
    | none => exact ih (done ++ [k]) _ (by
        intro pre k' post e; exact hnear pre k' post (by simpa using e)) hT' fun k' hk' => hi k' (by simp [hk'])

end sweep

/-! ## The steady study -/

theorem steadySettings_mem {ratios chords : List ℤ} {k : ℕ × ℕ} :
    k ∈ steadySettings ratios chords ↔ k.1 < ratios.length ∧ k.2 < chords.length := by
  simp only [steadySettings, List.mem_flatMap, List.mem_map, List.mem_range]
  constructor
  · rintro ⟨i, hi, j, hj, rfl⟩; exact ⟨hi, hj⟩
  · rintro ⟨hi, hj⟩; exact ⟨_, hi, _, hj, rfl⟩

/-- The order of the loops. -/
def steadyBefore (k k' : ℕ × ℕ) : Prop := k.1 < k'.1 ∨ (k.1 = k'.1 ∧ k.2 < k'.2)

theorem steadySettings_sorted (ratios chords : List ℤ) : (steadySettings ratios chords).Pairwise steadyBefore := by
  rw [steadySettings, List.pairwise_flatMap]
  refine ⟨fun i _ => ?_, ?_⟩
  · rw [List.pairwise_map]
    exact List.pairwise_lt_range.imp fun h => .inr ⟨rfl, h⟩
  · refine List.pairwise_lt_range.imp fun h => ?_
    simp only [List.mem_map]
    rintro _ ⟨_, _, rfl⟩ _ ⟨_, _, rfl⟩
    exact .inl h

theorem steadyBefore_asymm (k k' : ℕ × ℕ) (h : steadyBefore k k') : ¬steadyBefore k' k := by
  unfold steadyBefore at *; omega

/-- The settings a setting is compared with. -/
def steadyNear (k k' : ℕ × ℕ) : Prop := (0 < k.1 ∧ k' = (k.1 - 1, k.2)) ∨ (0 < k.2 ∧ k' = (k.1, k.2 - 1))

theorem unlessFirst_congr {i : ℕ} {x y : Except Err Change} (h : 0 < i → x = y) : unlessFirst i x = unlessFirst i y := by
  unfold unlessFirst
  split_ifs with hi
  · exact h hi
  · rfl

theorem steadyVerdict_local (ratios chords : List ℤ) (c : ℝ) (T T' : ℕ × ℕ → List (ℝ × ℝ)) (k : ℕ × ℕ)
    (h : T k = T' k) (hn : ∀ k', steadyNear k k' → T k' = T' k') :
    steadyVerdict ratios chords c T k = steadyVerdict ratios chords c T' k := by
  unfold steadyVerdict
  rw [unlessFirst_congr fun hk => by rw [h, hn _ (.inl ⟨hk, rfl⟩)],
    unlessFirst_congr (i := k.2) fun hk => by rw [h, hn _ (.inr ⟨hk, rfl⟩)]]

theorem getD_map_range (f : ℕ → ℤ) {n i : ℕ} (h : i < n) : ((List.range n).map f).getD i 0 = f i := by
  simp [List.getD_eq_getElem?_getD, h]

theorem length_rangeDown (a₀ a₁ : ℤ) : (rangeDown (a₀, a₁)).length = (a₀ - a₁ + 1).toNat := by simp [rangeDown]

theorem length_rangeUp (c₀ c₁ : ℤ) : (rangeUp (c₀, c₁)).length = (c₁ + 1 - c₀).toNat := by simp [rangeUp]

theorem getD_rangeDown {a₀ a₁ : ℤ} {i : ℕ} (h : i < (rangeDown (a₀, a₁)).length) :
    (rangeDown (a₀, a₁)).getD i 0 = a₀ - i := by
  rw [length_rangeDown] at h
  rw [rangeDown]
  exact getD_map_range (fun k : ℕ => a₀ - (k : ℤ)) h

theorem getD_rangeUp {c₀ c₁ : ℤ} {i : ℕ} (h : i < (rangeUp (c₀, c₁)).length) :
    (rangeUp (c₀, c₁)).getD i 0 = c₀ + i := by
  rw [length_rangeUp] at h
  rw [rangeUp]
  exact getD_map_range (fun k : ℕ => c₀ + (k : ℤ)) h

/-- A change that is not computed at the first value. -/
theorem unlessFirst_spec {i : ℕ} {x : Except Err Change} {c : ℝ} {P : Prop}
    (h : 0 < i → ∃ ch, x = .ok ch ∧ (ch.below c = true ↔ P)) :
    ∃ ch, unlessFirst i x = .ok ch ∧ (ch.below c = true ↔ 0 < i ∧ P) := by
  by_cases hi : 0 < i
  · obtain ⟨ch, h1, h2⟩ := h hi
    exact ⟨ch, by rw [unlessFirst, if_pos hi, h1], by rw [h2]; tauto⟩
  · exact ⟨.inf, by rw [unlessFirst, if_neg hi], by simp [below]; tauto⟩

theorem pass_iff (A B C D E : Prop) : ((A ∨ B) ∨ C) ∧ (D ∨ E) ↔ (B ∨ C ∨ A) ∧ (E ∨ D) := by tauto

/-- What an iteration decides. -/
theorem steadyVerdict_spec (b : Bounds) (c : ℝ) (n : ℕ) (results : ℤ → ℤ → List (ℝ × ℝ))
    (good : ∀ x y, b.Has x y → (results x y).length = n ∧ ∃ p, (results x y).head? = some p ∧ p.1 ≠ 0 ∧ p.2 ≠ 0)
    (k : ℕ × ℕ) (hk : k ∈ steadySettings (rangeDown (b.a₀, b.a₁)) (rangeUp (b.c₀, b.c₁))) :
    ∃ v, steadyVerdict (rangeDown (b.a₀, b.a₁)) (rangeUp (b.c₀, b.c₁)) c
        (fun k => results (b.a₀ - k.1) (b.c₀ + k.2)) k = .ok v ∧
      (v = none → ¬b.Passes c results (b.a₀ - k.1) (b.c₀ + k.2)) ∧
      ∀ o, v = some o → b.Passes c results (b.a₀ - k.1) (b.c₀ + k.2) ∧
        b.Reports c results (b.a₀ - k.1) (b.c₀ + k.2) o.1 o.2 := by
  obtain ⟨i, j⟩ := k
  obtain ⟨hi, hj⟩ := steadySettings_mem.1 hk
  simp only at hi hj
  have li := length_rangeDown b.a₀ b.a₁
  have lj := length_rangeUp b.c₀ b.c₁
  have here : b.Has (b.a₀ - i) (b.c₀ + j) := by unfold Bounds.Has; omega
  obtain ⟨r, hr, hrb⟩ := unlessFirst_spec (i := i)
    (x := steadyChange (results (b.a₀ - i) (b.c₀ + j)) (results (b.a₀ - (i - 1 : ℕ)) (b.c₀ + j))) (c := c)
    (P := Close c (results (b.a₀ - i) (b.c₀ + j)) (results (b.a₀ - i + 1) (b.c₀ + j))) fun h => by
      have e : b.a₀ - ((i - 1 : ℕ) : ℤ) = b.a₀ - i + 1 := by omega
      rw [e]
      have there : b.Has (b.a₀ - i + 1) (b.c₀ + j) := by unfold Bounds.Has at *; omega
      exact steadyChange_spec (by rw [(good _ _ here).1, (good _ _ there).1]) (good _ _ there).2 c
  obtain ⟨s, hs, hsb⟩ := unlessFirst_spec (i := j)
    (x := steadyChange (results (b.a₀ - i) (b.c₀ + j)) (results (b.a₀ - i) (b.c₀ + (j - 1 : ℕ)))) (c := c)
    (P := Close c (results (b.a₀ - i) (b.c₀ + j)) (results (b.a₀ - i) (b.c₀ + j - 1))) fun h => by
      have e : b.c₀ + ((j - 1 : ℕ) : ℤ) = b.c₀ + j - 1 := by omega
      rw [e]
      have there : b.Has (b.a₀ - i) (b.c₀ + j - 1) := by unfold Bounds.Has at *; omega
      exact steadyChange_spec (by rw [(good _ _ here).1, (good _ _ there).1]) (good _ _ there).2 c
  refine ⟨steadyDecision (rangeDown (b.a₀, b.a₁)) (rangeUp (b.c₀, b.c₁)) c (i, j) r s, ?_, ?_⟩
  · show Except.bind (unlessFirst i _) _ = _
    rw [hr]
    show Except.bind (unlessFirst j _) _ = _
    rw [hs]
    rfl
  have hrb' : r.below c = true ↔ b.RatioConverged c results (b.a₀ - i) (b.c₀ + j) := by
    rw [hrb, Bounds.RatioConverged]; simp
  have hsb' : s.below c = true ↔ b.ChordConverged c results (b.a₀ - i) (b.c₀ + j) := by
    rw [hsb, Bounds.ChordConverged]; simp
  have single1 : (rangeDown (b.a₀, b.a₁)).length = 1 ↔ b.a₀ = b.a₁ := by omega
  have single2 : (rangeUp (b.c₀, b.c₁)).length = 1 ↔ b.c₀ = b.c₁ := by omega
  have sat : (rangeDown (b.a₀, b.a₁)).getD i 0 = 1 ↔ b.a₀ - i = 1 := by rw [getD_rangeDown hi]
  have hp : ((r.below c || decide ((rangeDown (b.a₀, b.a₁)).length = 1) ||
      decide ((rangeDown (b.a₀, b.a₁)).getD i 0 = 1)) && (s.below c || decide ((rangeUp (b.c₀, b.c₁)).length = 1)))
      = true ↔ b.Passes c results (b.a₀ - i) (b.c₀ + j) := by
    rw [Bool.and_eq_true, Bool.or_eq_true, Bool.or_eq_true, Bool.or_eq_true, decide_eq_true_iff, decide_eq_true_iff,
      decide_eq_true_iff, hrb', hsb', single1, single2, sat]
    exact pass_iff _ _ _ _ _
  unfold steadyDecision
  dsimp only
  by_cases pass : b.Passes c results (b.a₀ - i) (b.c₀ + j)
  · rw [if_pos (hp.2 pass)]
    refine ⟨by simp, ?_⟩
    rintro o ho
    obtain rfl := (Option.some.inj ho).symm
    refine ⟨pass, ?_⟩
    obtain ⟨p1, p2⟩ := pass
    constructor
    · by_cases e1 : b.a₀ = b.a₁
      · left; refine ⟨e1, ?_⟩; dsimp only; rw [if_pos (decide_eq_true (single1.2 e1)), getD_rangeDown hi]
      · have e1' : ¬decide ((rangeDown (b.a₀, b.a₁)).length = 1) = true := by simpa [single1] using e1
        right
        by_cases e2 : b.RatioConverged c results (b.a₀ - i) (b.c₀ + j)
        · left; refine ⟨e1, e2, ?_⟩
          have : 0 < i := by have := e2.1; omega
          dsimp only
          rw [if_neg e1', if_pos (hrb'.2 e2), getD_rangeDown (by omega)]; omega
        · right; refine ⟨e1, e2, (p1.resolve_left e1).resolve_right e2, ?_⟩
          dsimp only
          rw [if_neg e1', if_neg fun h => e2 (hrb'.1 h), getD_rangeDown hi]
    · by_cases e1 : b.c₀ = b.c₁
      · left; refine ⟨e1, ?_⟩; dsimp only; rw [if_pos (decide_eq_true (single2.2 e1)), getD_rangeUp hj]
      · have e1' : ¬decide ((rangeUp (b.c₀, b.c₁)).length = 1) = true := by simpa [single2] using e1
        right
        have e2 : b.ChordConverged c results (b.a₀ - i) (b.c₀ + j) := p2.resolve_left e1
        refine ⟨e1, e2, ?_⟩
        have : 0 < j := by have := e2.1; omega
        dsimp only
        rw [if_neg e1', getD_rangeUp (by omega)]; omega
  · rw [if_neg (fun h => pass (hp.1 h))]
    exact ⟨fun _ => pass, by simp⟩

theorem steadyNear_in {ratios chords : List ℤ} {k : ℕ × ℕ} (hk : k ∈ steadySettings ratios chords) {k' : ℕ × ℕ}
    (hk' : steadyNear k k') : k' ∈ steadySettings ratios chords ∧ steadyBefore k' k := by
  rw [steadySettings_mem] at hk ⊢
  unfold steadyNear at hk'
  unfold steadyBefore
  rcases hk' with ⟨h0, rfl⟩ | ⟨h0, rfl⟩
  · exact ⟨⟨show k.1 - 1 < _ by omega, hk.2⟩, .inl (show k.1 - 1 < k.1 by omega)⟩
  · exact ⟨⟨hk.1, show k.2 - 1 < _ by omega⟩, .inr ⟨rfl, show k.2 - 1 < k.2 by omega⟩⟩

/-- The entries before an entry of a sorted list. -/
theorem mem_pre_of_sorted {κ : Type} {cells : List κ} {lt : κ → κ → Prop} (hs : cells.Pairwise lt)
    (has : ∀ k k', lt k k' → ¬lt k' k) {pre : List κ} {k : κ} {post : List κ} (e : cells = pre ++ k :: post) {k' : κ}
    (hk' : k' ∈ cells) (hlt : lt k' k) : k' ∈ pre := by
  rw [e] at hs hk'
  have h2 := List.pairwise_cons.1 (List.pairwise_append.1 hs).2.1
  rcases List.mem_append.1 hk' with hk' | hk'
  · exact hk'
  rcases List.mem_cons.1 hk' with rfl | hk'
  · exact absurd hlt (has _ _ hlt)
  · exact absurd hlt (has _ _ (h2.1 _ hk'))

/-- The steady study ends if no iteration raises. -/
theorem steadySweep_total (b : Bounds) (c : ℝ) (n m : ℕ) (iterate : ℤ → ℤ → Except Err (List (ℝ × ℝ)))
    (results : ℤ → ℤ → List (ℝ × ℝ)) (hR : ∀ x y, b.Has x y → iterate x y = .ok (results x y))
    (good : ∀ x y, b.Has x y → (results x y).length = n ∧ ∃ p, (results x y).head? = some p ∧ p.1 ≠ 0 ∧ p.2 ≠ 0) :
    ∃ out, steadySweep (rangeDown (b.a₀, b.a₁)) (rangeUp (b.c₀, b.c₁)) c m iterate = .ok out := by
  have li := length_rangeDown b.a₀ b.a₁
  have lj := length_rangeUp b.c₀ b.c₁
  refine sweep_total (near := steadyNear) (R := fun k => results (b.a₀ - k.1) (b.c₀ + k.2))
    (steadyVerdict_local _ _ c) _ [] _ (fun pre k post e k' hk' => ?_) (by simp) fun k hk => ?_
  · have e' : steadySettings (rangeDown (b.a₀, b.a₁)) (rangeUp (b.c₀, b.c₁)) = pre ++ k :: post := e
    obtain ⟨h1, h2⟩ := steadyNear_in (by rw [e']; simp) hk'
    exact mem_pre_of_sorted (steadySettings_sorted _ _) steadyBefore_asymm e' h1 h2
  · obtain ⟨h1, h2⟩ := steadySettings_mem.1 hk
    refine ⟨?_, ?_⟩
    · rw [getD_rangeDown h1, getD_rangeUp h2]
      exact hR _ _ (by unfold Bounds.Has; omega)
    · obtain ⟨v, hv, _⟩ := steadyVerdict_spec b c n results good k hk
      exact ⟨v, hv⟩

/-- The steady study finds the first setting that passes. -/
theorem steadySweep_spec (b : Bounds) (c : ℝ) (n m : ℕ) (iterate : ℤ → ℤ → Except Err (List (ℝ × ℝ)))
    (results : ℤ → ℤ → List (ℝ × ℝ)) (hR : ∀ x y r, b.Has x y → iterate x y = .ok r → results x y = r)
    (good : ∀ x y, b.Has x y → (results x y).length = n ∧ ∃ p, (results x y).head? = some p ∧ p.1 ≠ 0 ∧ p.2 ≠ 0)
    {out : Option (ℤ × ℤ)}
    (h : steadySweep (rangeDown (b.a₀, b.a₁)) (rangeUp (b.c₀, b.c₁)) c m iterate = .ok out) :
    (out = none ∧ ∀ x y, b.Has x y → iterate x y = .ok (results x y) ∧ ¬b.Passes c results x y) ∨
    ∃ x y o, out = some o ∧ b.Has x y ∧ iterate x y = .ok (results x y) ∧ b.Passes c results x y ∧
      b.Reports c results x y o.1 o.2 ∧
      ∀ x' y', b.Has x' y' → Bounds.Before x' y' x y →
        iterate x' y' = .ok (results x' y') ∧ ¬b.Passes c results x' y' := by
  have li := length_rangeDown b.a₀ b.a₁
  have lj := length_rangeUp b.c₀ b.c₁
  set ratios := rangeDown (b.a₀, b.a₁) with hra
  set chords := rangeUp (b.c₀, b.c₁) with hch
  -- from indices to values and back
  have value : ∀ k ∈ steadySettings ratios chords, ratios.getD k.1 0 = b.a₀ - k.1 ∧
      chords.getD k.2 0 = b.c₀ + k.2 ∧ b.Has (b.a₀ - k.1) (b.c₀ + k.2) := by
    intro k hk
    obtain ⟨h1, h2⟩ := steadySettings_mem.1 hk
    exact ⟨getD_rangeDown h1, getD_rangeUp h2, by unfold Bounds.Has; omega⟩
  have index : ∀ x y, b.Has x y → ∃ k ∈ steadySettings ratios chords, b.a₀ - k.1 = x ∧ b.c₀ + k.2 = y := by
    intro x y hxy
    unfold Bounds.Has at hxy
    refine ⟨((b.a₀ - x).toNat, (y - b.c₀).toNat), ?_, ?_, ?_⟩
    · rw [steadySettings_mem]; simp only; omega
    · simp only; omega
    · simp only; omega
  set R : ℕ × ℕ → List (ℝ × ℝ) := fun k =>
    if k ∈ steadySettings ratios chords then results (b.a₀ - k.1) (b.c₀ + k.2)
    else match iterate (ratios.getD k.1 0) (chords.getD k.2 0) with
      | .ok r => r
      | .error _ => [] with hRdef
  have nearIn : ∀ k ∈ steadySettings ratios chords, ∀ k', steadyNear k k' →
      k' ∈ steadySettings ratios chords ∧ steadyBefore k' k := fun k hk k' hk' => steadyNear_in hk hk'
  have verdictR : ∀ k ∈ steadySettings ratios chords, steadyVerdict ratios chords c R k =
      steadyVerdict ratios chords c (fun k => results (b.a₀ - k.1) (b.c₀ + k.2)) k := by
    intro k hk
    apply steadyVerdict_local
    · simp [hRdef, hk]
    · intro k' hk'
      simp [hRdef, (nearIn k hk k' hk').1]
  have core := sweep_sorted (near := steadyNear) (lt := steadyBefore) (R := R)
    (steadyVerdict_local ratios chords c) (by
      intro k r hk
      by_cases hm : k ∈ steadySettings ratios chords
      · obtain ⟨v1, v2, v3⟩ := value k hm
        rw [v1, v2] at hk
        simp only [hRdef, if_pos hm]
        exact hR _ _ _ v3 hk
      · simp only [hRdef, if_neg hm, hk])
    (steadySettings_sorted ratios chords) steadyBefore_asymm nearIn h
  have atIndex : ∀ k ∈ steadySettings ratios chords,
      iterate (ratios.getD k.1 0) (chords.getD k.2 0) = .ok (R k) →
      iterate (b.a₀ - k.1) (b.c₀ + k.2) = .ok (results (b.a₀ - k.1) (b.c₀ + k.2)) := by
    intro k hk hi
    obtain ⟨v1, v2, v3⟩ := value k hk
    rw [v1, v2] at hi
    rw [hi]; simp [hRdef, hk]
  have fails : ∀ k ∈ steadySettings ratios chords, steadyVerdict ratios chords c R k = .ok none →
      ¬b.Passes c results (b.a₀ - k.1) (b.c₀ + k.2) := by
    intro k hk hv
    obtain ⟨v, h1, h2, _⟩ := steadyVerdict_spec b c n results good k hk
    rw [verdictR k hk, h1] at hv
    exact h2 (Except.ok.inj hv)
  rcases core with ⟨h1, h2⟩ | ⟨k, hk, o, h1, h2, h3, h4⟩
  · left
    refine ⟨h1, fun x y hxy => ?_⟩
    obtain ⟨k, hk, rfl, rfl⟩ := index x y hxy
    exact ⟨atIndex k hk (h2 k hk).1, fails k hk (h2 k hk).2⟩
  · right
    obtain ⟨v, g1, _, g3⟩ := steadyVerdict_spec b c n results good k hk
    rw [verdictR k hk, g1] at h4
    obtain ⟨g4, g5⟩ := g3 o (Except.ok.inj h4)
    refine ⟨_, _, o, h1, (value k hk).2.2, atIndex k hk h3, g4, g5, ?_⟩
    intro x' y' hxy hb
    obtain ⟨k', hk', rfl, rfl⟩ := index x' y' hxy
    have lt : steadyBefore k' k := by unfold steadyBefore; unfold Bounds.Before at hb; omega
    exact ⟨atIndex k' hk' (h2 k' hk' lt).1, fails k' hk' (h2 k' hk' lt).2⟩

end Ptera
