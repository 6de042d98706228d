import Verif.Spec.Reordered
import Verif.Lemmas.Translated
import Verif.Props.MaxPeriod
import Verif.Props.Order
import Mathlib.Data.List.FinRange

/-! Helper lemmas: studies of the same movements in another order. -/

namespace Ptera

open List

section Lists

variable {α β ε : Type} {ρ : ℕ → ℕ} {l l' : List α}

/-- A renumbering reaches every place. -/
theorem renumber_onto (hlen : l'.length = l.length) (hinj : ∀ a b, a < l.length → b < l.length → ρ a = ρ b → a = b)
    (hlt : ∀ a < l.length, ρ a < l'.length) (b : ℕ) (hb : b < l'.length) : ∃ a < l.length, ρ a = b :=
  renumbering_onto (fun a ha => by rw [← hlen]; exact hlt a ha) hinj b (by rw [← hlen]; exact hb)

theorem mapM_renumbered {f : α → Except ε β} {r : List β} (hlen : l'.length = l.length)
    (hinj : ∀ a b, a < l.length → b < l.length → ρ a = ρ b → a = b) (S : ℕ → β → β → Prop)
    (h : ∀ (a : ℕ) x y, l[a]? = some x → f x = .ok y → ∃ x' y', l'[ρ a]? = some x' ∧ f x' = .ok y' ∧ S a y y')
    (hr : l.mapM f = .ok r) :
    ∃ r', l'.mapM f = .ok r' ∧ r'.length = r.length ∧
      ∀ (a : ℕ) y, r[a]? = some y → ∃ y', r'[ρ a]? = some y' ∧ S a y y' := by
  have hlt : ∀ a < l.length, ρ a < l'.length := by
    intro a ha
    obtain ⟨y, -, hy⟩ := mapM_getElem? hr a _ (List.getElem?_eq_getElem ha)
    obtain ⟨x', y', hx', -⟩ := h a _ y (List.getElem?_eq_getElem ha) hy
    exact (List.getElem?_eq_some_iff.mp hx').1
  obtain ⟨r', hr'⟩ : ∃ r', l'.mapM f = .ok r' := by
    apply mapM_exists
    intro x' hx'
    obtain ⟨b, hb⟩ := List.mem_iff_getElem?.mp hx'
    obtain ⟨a, ha, rfl⟩ := renumber_onto hlen hinj hlt b (List.getElem?_eq_some_iff.mp hb).1
    obtain ⟨y, -, hy⟩ := mapM_getElem? hr a _ (List.getElem?_eq_getElem ha)
    obtain ⟨x'', y', h1, h2, -⟩ := h a _ y (List.getElem?_eq_getElem ha) hy
    rw [hb, Option.some.injEq] at h1
    subst h1
    exact ⟨y', h2⟩
  refine ⟨r', hr', by rw [mapM_length hr, mapM_length hr', hlen], ?_⟩
  intro a y hy
  have ha : a < l.length := by rw [← mapM_length hr]; exact (List.getElem?_eq_some_iff.mp hy).1
  obtain ⟨y₀, h0, hy0⟩ := mapM_getElem? hr a _ (List.getElem?_eq_getElem ha)
  rw [hy, Option.some.injEq] at h0
  subst h0
  obtain ⟨x', y', h1, h2, h3⟩ := h a _ y (List.getElem?_eq_getElem ha) hy0
  obtain ⟨y'', h4, h5⟩ := mapM_getElem? hr' _ _ h1
  rw [h2, Except.ok.injEq] at h5
  subst h5
  exact ⟨y', h4, h3⟩

/-- A renumbered list is a permutation. -/
theorem renumbered_perm (hlen : l'.length = l.length)
    (hinj : ∀ a b, a < l.length → b < l.length → ρ a = ρ b → a = b)
    (h : ∀ (a : ℕ) x, l[a]? = some x → l'[ρ a]? = some x) : l ~ l' := by
  have hlt : ∀ a < l.length, ρ a < l'.length := fun a ha =>
    (List.getElem?_eq_some_iff.mp (h a _ (List.getElem?_eq_getElem ha))).1
  have hb : Function.Bijective (fun a : Fin l.length => (⟨ρ a, (hlt a a.2).trans_eq hlen⟩ : Fin l.length)) := by
    apply Finite.injective_iff_bijective.mp
    intro a b e
    exact Fin.ext (hinj a b a.2 b.2 (congrArg Fin.val e))
  have key := Equiv.Perm.ofFn_comp_perm (Equiv.ofBijective _ hb) (fun i : Fin l.length => l'[(i : ℕ)]'(by rw [hlen]; exact i.2))
  have e1 : List.ofFn ((fun i : Fin l.length => l'[(i : ℕ)]'(by rw [hlen]; exact i.2)) ∘ (Equiv.ofBijective _ hb)) = l := by
    apply List.ext_getElem
    · simp
    · intro i h1 h2
      rw [List.getElem_ofFn]
      have := h i _ (List.getElem?_eq_getElem h2)
      exact (List.getElem?_eq_some_iff.mp this).2
  have e2 : List.ofFn (fun i : Fin l.length => l'[(i : ℕ)]'(by rw [hlen]; exact i.2)) = l' := by
    apply List.ext_getElem
    · simp [hlen]
    · intro i h1 h2
      rw [List.getElem_ofFn]
  rw [e1, e2] at key
  exact key

theorem pyMax_perm {u v : List ℝ} (h : u ~ v) : pyMax v = pyMax u := by
  cases hu : u with
  | nil => subst hu; rw [List.nil_perm.mp h]
  | cons x xs =>
    obtain ⟨m, hm⟩ := pyMax_ok (l := u) (by rw [hu]; simp)
    obtain ⟨m', hm'⟩ := pyMax_ok (l := v) (by intro e; subst e; rw [List.perm_nil.mp h] at hu; cases hu)
    rw [← hu, hm, hm']
    obtain ⟨a1, a2⟩ := pyMax_isMax hm
    obtain ⟨b1, b2⟩ := pyMax_isMax hm'
    congr 1
    exact le_antisymm (a2 _ (h.mem_iff.mpr b1)) (b2 _ (h.mem_iff.mp a1))

end Lists

variable {ams ams' : List AirplaneMovement} {ρ : ℕ → ℕ} {ω : ℕ → ℕ → ℕ}

/-- The wing movements of corresponding airplane movements are permuted. -/
theorem wingMovements_perm {m m' : AirplaneMovement} {τ : ℕ → ℕ}
    (hl : m'.wingMovements.length = m.wingMovements.length)
    (hi : ∀ v w, v < m.wingMovements.length → w < m.wingMovements.length → τ v = τ w → v = w)
    (hw : ∀ (w : ℕ) W, m.wingMovements[w]? = some W → m'.wingMovements[τ w]? = some W) :
    m.wingMovements ~ m'.wingMovements := renumbered_perm hl hi hw

theorem mapM_perm {α β ε : Type} {f : α → Except ε β} {l l' : List α} (hp : l ~ l') {r : List β}
    (h : l.mapM f = .ok r) : ∃ r', l'.mapM f = .ok r' ∧ r ~ r' := by
  induction hp generalizing r with
  | nil => exact ⟨r, h, .refl _⟩
  | cons x _ ih =>
    obtain ⟨b, t, h1, h2, rfl⟩ := mapM_cons_ok.mp h
    obtain ⟨t', h3, h4⟩ := ih h2
    exact ⟨b :: t', mapM_cons_ok.mpr ⟨b, t', h1, h3, rfl⟩, h4.cons b⟩
  | swap x y l =>
    obtain ⟨b, t, h1, h2, rfl⟩ := mapM_cons_ok.mp h
    obtain ⟨c, u, h3, h4, rfl⟩ := mapM_cons_ok.mp h2
    exact ⟨c :: b :: u, mapM_cons_ok.mpr ⟨c, b :: u, h3, mapM_cons_ok.mpr ⟨b, u, h1, h4, rfl⟩, rfl⟩, .swap _ _ _⟩
  | trans _ _ ih1 ih2 =>
    obtain ⟨r1, h1, h2⟩ := ih1 h
    obtain ⟨r2, h3, h4⟩ := ih2 h1
    exact ⟨r2, h3, h2.trans h4⟩

/-- The reordered movements have the same maximum period. -/
theorem ReorderedMovements.maxPeriod (h : ReorderedMovements ams ams' ρ ω) {om : OperatingPointMovement} {P : ℝ}
    (hP : movementMaxPeriod ams om = .ok P) : movementMaxPeriod ams' om = .ok P := by
  unfold movementMaxPeriod at hP ⊢
  obtain ⟨ps, h1, h2⟩ := bind_ok.mp hP
  obtain ⟨q, h3, h4⟩ := bind_ok.mp h2
  obtain ⟨ps', g1, g2, g3⟩ := mapM_renumbered (l' := ams') (ρ := ρ) h.length h.injective (fun _ y y' => y' = y) (by
    intro a m y hm hy
    obtain ⟨m', hm', -, e1, e2, e3, e4, e5, e6⟩ := h.movements a m hm
    refine ⟨m', y, hm', ?_, rfl⟩
    unfold AirplaneMovement.maxPeriod at hy ⊢
    obtain ⟨u, u1, u2⟩ := bind_ok.mp hy
    obtain ⟨v, v1, v2⟩ := bind_ok.mp u2
    obtain ⟨u', u1', hp⟩ := mapM_perm (wingMovements_perm e4 e5 e6) u1
    refine bind_ok.mpr ⟨u', u1', bind_ok.mpr ⟨v, by rw [pyMax_perm hp]; exact v1, ?_⟩⟩
    rw [e1, e2, e3]
    exact v2) h1
  have hp : ps ~ ps' := by
    have hl := mapM_length h1
    refine renumbered_perm (ρ := ρ) g2 (by rw [hl]; exact h.injective) ?_
    intro a y hy
    obtain ⟨y', e1, e2⟩ := g3 a y hy
    rw [e1, e2]
  exact bind_ok.mpr ⟨ps', g1, bind_ok.mpr ⟨q, by rw [pyMax_perm hp]; exact h3, h4⟩⟩

/-- The reordered movements have the same default time step. -/
theorem ReorderedMovements.defaultDeltaTime (h : ReorderedMovements ams ams' ρ ω) (hd : SameDefaults ams ams' ρ)
    {om : OperatingPointMovement} {t : ℝ} (ht : Ptera.defaultDeltaTime ams om = .ok t) :
    Ptera.defaultDeltaTime ams' om = .ok t := by
  unfold Ptera.defaultDeltaTime at ht ⊢
  obtain ⟨ts, h1, h2⟩ := bind_ok.mp ht
  obtain ⟨ts', g1, g2, g3⟩ := mapM_renumbered (l' := ams') (ρ := ρ) h.length h.injective (fun _ y y' => y' = y) (by
    intro a m y hm hy
    obtain ⟨m', hm', -⟩ := h.movements a m hm
    obtain ⟨e1, e2⟩ := hd a m m' hm hm'
    refine ⟨m', y, hm', ?_, rfl⟩
    cases hw : m.base.wings with
    | nil => simp [hw] at hy
    | cons w ws =>
      cases hw' : m'.base.wings with
      | nil => simp [hw, hw'] at e2
      | cons w' ws' =>
        simp only [hw, hw', List.head?_cons, Option.map_some, Option.some.injEq] at e2 hy ⊢
        rw [e1, e2]; exact hy) h1
  have hp : ts ~ ts' := by
    have hl := mapM_length h1
    refine renumbered_perm (ρ := ρ) g2 (by rw [hl]; exact h.injective) ?_
    intro a y hy
    obtain ⟨y', e1, e2⟩ := g3 a y hy
    rw [e1, e2]
  refine bind_ok.mpr ⟨ts', g1, ?_⟩
  rw [← hp.sum_eq, ← g2.symm]
  by_cases hn : ts = []
  · simp [hn] at h2
  · rw [if_neg hn] at h2
    rw [if_neg (by intro e; rw [e] at hp; exact hn (List.perm_nil.mp hp))]
    exact h2

/-- The reordered movements have the same number of steps. -/
theorem ReorderedMovements.runLength (h : ReorderedMovements ams ams' ρ ω) {om : OperatingPointMovement}
    {ns nc nch : Option ℕ} {P : ℝ} (hP : movementMaxPeriod ams om = .ok P)
    (hc : ns.isSome ∨ P ≠ 0 ∨ SameDefaults ams ams' ρ) (d : ℝ) :
    Ptera.runLength ams' om d ns nc nch = Ptera.runLength ams om d ns nc nch := by
  cases ns with
  | some n => rfl
  | none =>
    unfold Ptera.runLength
    simp only [h.maxPeriod hP, hP, bind, Except.bind]
    by_cases h0 : P = 0
    · have hd : SameDefaults ams ams' ρ := by
        rcases hc with hc | hc | hc
        · cases hc
        · exact absurd h0 hc
        · exact hc
      have hp : ams.map (·.base.cRef) ~ ams'.map (·.base.cRef) := by
        refine renumbered_perm (ρ := ρ) (by simp [h.length]) (by simpa using h.injective) ?_
        intro a x hx
        rw [List.getElem?_map] at hx ⊢
        obtain ⟨m, hm, rfl⟩ := Option.map_eq_some_iff.mp hx
        obtain ⟨m', hm', -⟩ := h.movements a m hm
        rw [hm', Option.map_some, (hd a m m' hm hm').1]
      rw [if_pos h0, if_pos h0, pyMax_perm hp]
    · rw [if_neg h0, if_neg h0]

/-- The airplanes of one step, listed in another order. -/
theorem ReorderedMovements.generate (h : ReorderedMovements ams ams' ρ ω) {n : ℕ} {dt : ℝ} {H : List (List Airplane)}
    (hH : ams.mapM (fun am => am.generate n dt) = .ok H) :
    ∃ H', ams'.mapM (fun am => am.generate n dt) = .ok H' ∧ H'.length = H.length ∧ H.length = ams.length ∧
      ∀ (a : ℕ) y, H[a]? = some y → ∃ y', H'[ρ a]? = some y' ∧ y.length = n ∧ y'.length = n ∧
        ∀ (k : ℕ) A A', y[k]? = some A → y'[k]? = some A' → Airplane.create A.wings (xyzRef := A.xyzRef) = .ok A ∧
          Airplane.create A'.wings (xyzRef := A'.xyzRef) = .ok A' ∧ A'.xyzRef = A.xyzRef ∧
          A'.wings.length = A.wings.length ∧
          (∀ v w, v < A.wings.length → w < A.wings.length → ω a v = ω a w → v = w) ∧
          ∀ (w : ℕ) W, A.wings[w]? = some W → A'.wings[ω a w]? = some W := by
  obtain ⟨H', g1, g2, g3⟩ := mapM_renumbered (l' := ams') (ρ := ρ) h.length h.injective
    (fun a y y' => y.length = n ∧ y'.length = n ∧
      ∀ (k : ℕ) A A', y[k]? = some A → y'[k]? = some A' → Airplane.create A.wings (xyzRef := A.xyzRef) = .ok A ∧
          Airplane.create A'.wings (xyzRef := A'.xyzRef) = .ok A' ∧ A'.xyzRef = A.xyzRef ∧
          A'.wings.length = A.wings.length ∧
          (∀ v w, v < A.wings.length → w < A.wings.length → ω a v = ω a w → v = w) ∧
          ∀ (w : ℕ) W, A.wings[w]? = some W → A'.wings[ω a w]? = some W) (by
    intro a m y hm hy
    obtain ⟨m', hm', e0, e1, e2, e3, e4, e5, e6⟩ := h.movements a m hm
    obtain ⟨xs, ys, zs, ws, a1, a2, a3, a4, al, ak⟩ := AirplaneMovement.generate_ok hy
    obtain ⟨ws', b1, b2, b3⟩ := mapM_renumbered (l' := m'.wingMovements) (ρ := ω a) e4 e5 (fun _ y y' => y' = y)
      (fun w x y hx hy => ⟨x, y, e6 w x hx, hy, rfl⟩) a4
    have hlen : ∀ l ∈ ws, l.length = n := by
      intro l hl
      obtain ⟨wm, -, hwm⟩ := mapM_mem' a4 hl
      exact (WingMovement.generate_dims hwm).1
    have hlen' : ∀ l ∈ ws', l.length = n := by
      intro l hl
      obtain ⟨wm, -, hwm⟩ := mapM_mem' b1 hl
      exact (WingMovement.generate_dims hwm).1
    have hgen : ∃ y', m'.generate n dt = .ok y' := by
      unfold AirplaneMovement.generate
      rw [e0, e1, e2, e3]
      have : ∃ y', (List.range n).mapM (fun k => Airplane.create (ws'.filterMap (·[k]?))
          (xyzRef := ⟨xs.getD k 0, ys.getD k 0, zs.getD k 0⟩)) = .ok y' := by
        apply mapM_exists
        intro k hk
        obtain ⟨A, -, hA⟩ := ak k (List.mem_range.mp hk)
        have c1 : (ws'.filterMap (·[k]?)).length = (ws.filterMap (·[k]?)).length := by
          rw [column_length ws' k (by intro l hl; rw [hlen' l hl]; exact List.mem_range.mp hk),
            column_length ws k (by intro l hl; rw [hlen l hl]; exact List.mem_range.mp hk), b2]
        cases hc' : ws'.filterMap (·[k]?) with
        | nil =>
          rw [hc'] at c1
          have := List.length_eq_zero_iff.mp c1.symm
          rw [this] at hA
          simp [Airplane.create] at hA
        | cons w l => exact ⟨_, rfl⟩
      obtain ⟨y', hy'⟩ := this
      exact ⟨y', bind_ok.mpr ⟨xs, a1, bind_ok.mpr ⟨ys, a2, bind_ok.mpr ⟨zs, a3, bind_ok.mpr ⟨ws', b1, hy'⟩⟩⟩⟩⟩
    obtain ⟨y', hy'⟩ := hgen
    obtain ⟨xs', ys', zs', ws'', c1, c2, c3, c4, cl, ck⟩ := AirplaneMovement.generate_ok hy'
    rw [e0, e1, a1, Except.ok.injEq] at c1
    rw [e0, e2, a2, Except.ok.injEq] at c2
    rw [e0, e3, a3, Except.ok.injEq] at c3
    rw [b1, Except.ok.injEq] at c4
    subst c1 c2 c3 c4
    refine ⟨m', y', hm', hy', al, cl, ?_⟩
    intro k A A' hA hA'
    have hk : k < n := by rw [← al]; exact (List.getElem?_eq_some_iff.mp hA).1
    obtain ⟨B, hB, hAB⟩ := ak k hk
    obtain ⟨B', hB', hAB'⟩ := ck k hk
    rw [hA, Option.some.injEq] at hB
    rw [hA', Option.some.injEq] at hB'
    subst hB hB'
    have parts : ∀ {l : List Wing} {x : V3} {Z : Airplane}, Airplane.create l (xyzRef := x) = .ok Z →
        Z.wings = l ∧ Z.xyzRef = x := by
      intro l x Z hZ
      unfold Airplane.create at hZ
      split at hZ
      · cases hZ
      · cases hZ; exact ⟨rfl, rfl⟩
    obtain ⟨p1, p2⟩ := parts hAB
    obtain ⟨q1, q2⟩ := parts hAB'
    have l1 : A.wings.length = m.wingMovements.length := by
      rw [p1, column_length ws k (by intro l hl; rw [hlen l hl]; exact hk), mapM_length a4]
    have l2 : A'.wings.length = m.wingMovements.length := by
      rw [q1, column_length ws' k (by intro l hl; rw [hlen' l hl]; exact hk), mapM_length b1, e4]
    refine ⟨by rw [p1, p2]; exact hAB, by rw [q1, q2]; exact hAB', by rw [p2, q2], by rw [l1, l2], by rw [l1]; exact e5, ?_⟩
    intro w W hW
    rw [p1, column_getElem? ws k (by intro l hl; rw [hlen l hl]; exact hk)] at hW
    rw [q1, column_getElem? ws' k (by intro l hl; rw [hlen' l hl]; exact hk)]
    obtain ⟨l, hl, hlk⟩ := Option.bind_eq_some_iff.mp hW
    obtain ⟨l', hl', rfl⟩ := b3 w l hl
    rw [hl', Option.bind_some]
    exact hlk) hH
  exact ⟨H', g1, g2, mapM_length hH, g3⟩

end Ptera
