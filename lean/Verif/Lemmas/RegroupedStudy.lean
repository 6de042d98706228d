import Verif.Lemmas.Regrouped

/-! Helper lemmas: studies of the same wing movements, distributed among airplanes in another way. -/

namespace Ptera

open List

variable {ams ams' : List AirplaneMovement} {om : OperatingPointMovement} {ρ ω : ℕ → ℕ → ℕ} {P : ℝ}

theorem pyMax_ne {l : List ℝ} {m : ℝ} (h : pyMax l = .ok m) : l ≠ [] := by
  rintro rfl
  cases h

/-- A movement with a maximum period has airplanes with wings with cross sections. -/
theorem maxPeriod_parts (hP : movementMaxPeriod ams om = .ok P) : ams ≠ [] ∧ (∀ am ∈ ams, am.wingMovements ≠ []) ∧
    ∀ am ∈ ams, ∀ wm ∈ am.wingMovements, wm.sectionMovements ≠ [] := by
  unfold movementMaxPeriod at hP
  obtain ⟨ps, h1, h2⟩ := bind_ok.mp hP
  obtain ⟨q, h3, -⟩ := bind_ok.mp h2
  have ha : ∀ am ∈ ams, ∃ qs m, am.wingMovements.mapM (·.maxPeriod) = .ok qs ∧ pyMax qs = .ok m := by
    intro am ham
    obtain ⟨i, hi⟩ := List.getElem?_of_mem ham
    obtain ⟨y, -, hy⟩ := mapM_getElem? h1 i am hi
    unfold AirplaneMovement.maxPeriod at hy
    obtain ⟨qs, a1, a2⟩ := bind_ok.mp hy
    obtain ⟨m, a3, -⟩ := bind_ok.mp a2
    exact ⟨qs, m, a1, a3⟩
  refine ⟨?_, ?_, ?_⟩
  · rintro rfl
    have := mapM_length h1
    exact pyMax_ne h3 (List.eq_nil_of_length_eq_zero this)
  · intro am ham e
    obtain ⟨qs, m, a1, a2⟩ := ha am ham
    have := mapM_length a1
    rw [e] at this
    exact pyMax_ne a2 (List.eq_nil_of_length_eq_zero this)
  · intro am ham wm hwm e
    obtain ⟨qs, m, a1, -⟩ := ha am ham
    obtain ⟨i, hi⟩ := List.getElem?_of_mem hwm
    obtain ⟨y, -, hy⟩ := mapM_getElem? a1 i wm hi
    unfold WingMovement.maxPeriod at hy
    obtain ⟨p, b1, -⟩ := bind_ok.mp hy
    rw [e] at b1
    cases b1

namespace RegroupedMovements

/-- Every wing movement is in both. -/
theorem mem_wings (h : RegroupedMovements ams ams' ρ ω) (W : WingMovement) :
    (∃ m ∈ ams, W ∈ m.wingMovements) ↔ ∃ m' ∈ ams', W ∈ m'.wingMovements := by
  constructor
  · rintro ⟨m, hm, hW⟩
    obtain ⟨a, ha⟩ := List.getElem?_of_mem hm
    obtain ⟨w, hw⟩ := List.getElem?_of_mem hW
    obtain ⟨m', h1, h2⟩ := h.kept a m w W ha hw
    exact ⟨m', List.mem_of_getElem? h1, List.mem_of_getElem? h2⟩
  · rintro ⟨m', hm, hW⟩
    obtain ⟨a', ha⟩ := List.getElem?_of_mem hm
    obtain ⟨w', hw⟩ := List.getElem?_of_mem hW
    obtain ⟨a, m, w, V, h1, h2, rfl, rfl⟩ := h.all a' m' w' W ha hw
    obtain ⟨n, h3, h4⟩ := h.kept a m w V h1 h2
    rw [ha, Option.some.injEq] at h3
    subst h3
    rw [hw, Option.some.injEq] at h4
    subst h4
    exact ⟨m, List.mem_of_getElem? h1, List.mem_of_getElem? h2⟩

/-- The same maximum period. -/
theorem maxPeriod (h : RegroupedMovements ams ams' ρ ω) (hP : movementMaxPeriod ams om = .ok P) :
    movementMaxPeriod ams' om = .ok P := by
  obtain ⟨p1, p2, p3⟩ := maxPeriod_parts hP
  obtain ⟨m₀, l, hm₀⟩ := List.exists_cons_of_ne_nil p1
  have hm₀ : m₀ ∈ ams := by rw [hm₀]; simp
  obtain ⟨W₀, l', hW₀⟩ := List.exists_cons_of_ne_nil (p2 m₀ hm₀)
  obtain ⟨n₀, hn₀, -⟩ := (h.mem_wings W₀).mp ⟨m₀, hm₀, by rw [hW₀]; simp⟩
  obtain ⟨P', hP'⟩ := C28_defined ams' om (List.ne_nil_of_mem hn₀) h.winged (by
    intro m' hm' W hW
    obtain ⟨m, hm, hW'⟩ := (h.mem_wings W).mpr ⟨m', hm', hW⟩
    exact p3 m hm W hW')
  have hmem : ∀ x, x ∈ allPeriods ams om ↔ x ∈ allPeriods ams' om := by
    intro x
    unfold allPeriods
    simp only [List.mem_cons, List.mem_flatMap, List.mem_append, List.not_mem_nil, or_false]
    refine or_congr Iff.rfl ⟨?_, ?_⟩
    · rintro ⟨m, hm, hx | ⟨W, hW, hx⟩⟩
      · obtain ⟨-, e1, e2, e3⟩ := h.reference m hm n₀ hn₀
        exact ⟨n₀, hn₀, .inl (by rw [e1, e2, e3]; exact hx)⟩
      · obtain ⟨m', hm', hW'⟩ := (h.mem_wings W).mp ⟨m, hm, hW⟩
        exact ⟨m', hm', .inr ⟨W, hW', hx⟩⟩
    · rintro ⟨m, hm, hx | ⟨W, hW, hx⟩⟩
      · obtain ⟨-, e1, e2, e3⟩ := h.reference m₀ hm₀ m hm
        exact ⟨m₀, hm₀, .inl (by rw [← e1, ← e2, ← e3]; exact hx)⟩
      · obtain ⟨m', hm', hW'⟩ := (h.mem_wings W).mpr ⟨m, hm, hW⟩
        exact ⟨m', hm', .inr ⟨W, hW', hx⟩⟩
  obtain ⟨a1, a2⟩ := C28_max_period ams om P hP
  obtain ⟨b1, b2⟩ := C28_max_period ams' om P' hP'
  rw [hP', le_antisymm (a2 _ ((hmem _).mpr b1)) (b2 _ ((hmem _).mp a1))]

/-- The airplanes of all steps, with their wings grouped in the other way. -/
theorem generate (h : RegroupedMovements ams ams' ρ ω) (h0 : ams ≠ []) {n : ℕ} {dt : ℝ} {H : List (List Airplane)}
    (hH : ams.mapM (fun am => am.generate n dt) = .ok H) :
    ∃ H', ams'.mapM (fun am => am.generate n dt) = .ok H' ∧ H.length = ams.length ∧ H'.length = ams'.length ∧
      (∀ y ∈ H, y.length = n) ∧ (∀ y ∈ H', y.length = n) ∧
      (∀ (a : ℕ) y (k : ℕ) A (m : AirplaneMovement), H[a]? = some y → y[k]? = some A → ams[a]? = some m →
        A.wings.length = m.wingMovements.length ∧
        ∀ (w : ℕ) W V l, A.wings[w]? = some W → m.wingMovements[w]? = some V → V.generate n dt = .ok l → l[k]? = some W) ∧
      (∀ (a : ℕ) y (k : ℕ) A (m : AirplaneMovement), H'[a]? = some y → y[k]? = some A → ams'[a]? = some m →
        A.wings.length = m.wingMovements.length ∧
        ∀ (w : ℕ) W V l, A.wings[w]? = some W → m.wingMovements[w]? = some V → V.generate n dt = .ok l → l[k]? = some W) ∧
      (∀ m ∈ ams, ∀ V ∈ m.wingMovements, ∃ l, V.generate n dt = .ok l) ∧
      (∀ y ∈ H, ∀ y' ∈ H', ∀ (k : ℕ) A A', y[k]? = some A → y'[k]? = some A' → A'.xyzRef = A.xyzRef) := by
  have parts : ∀ {l : List Wing} {x : V3} {Z : Airplane}, Airplane.create l (xyzRef := x) = .ok Z →
      Z.wings = l ∧ Z.xyzRef = x := by
    intro l x Z hZ
    unfold Airplane.create at hZ
    split at hZ
    · cases hZ
    · cases hZ; exact ⟨rfl, rfl⟩
  have hgen : ∀ m ∈ ams, ∃ y, m.generate n dt = .ok y := by
    intro m hm
    obtain ⟨i, hi⟩ := List.getElem?_of_mem hm
    obtain ⟨y, -, hy⟩ := mapM_getElem? hH i m hi
    exact ⟨y, hy⟩
  have hw : ∀ m ∈ ams, ∀ V ∈ m.wingMovements, ∃ l, V.generate n dt = .ok l := by
    intro m hm V hV
    obtain ⟨y, hy⟩ := hgen m hm
    obtain ⟨xs, ys, zs, ws, a1, a2, a3, a4, al, ak⟩ := AirplaneMovement.generate_ok hy
    obtain ⟨i, hi⟩ := List.getElem?_of_mem hV
    obtain ⟨l, -, hl⟩ := mapM_getElem? a4 i V hi
    exact ⟨l, hl⟩
  obtain ⟨m₀, hm₀⟩ := List.exists_mem_of_ne_nil _ h0
  obtain ⟨y₀, hy₀⟩ := hgen m₀ hm₀
  obtain ⟨xs, ys, zs, ws₀, c1, c2, c3, -, -, -⟩ := AirplaneMovement.generate_ok hy₀
  have hgen' : ∀ m' ∈ ams', ∃ y', m'.generate n dt = .ok y' := by
    intro m' hm'
    obtain ⟨e0, e1, e2, e3⟩ := h.reference m₀ hm₀ m' hm'
    obtain ⟨ws', b1⟩ := mapM_exists (f := fun w : WingMovement => w.generate n dt) (l := m'.wingMovements) (by
      intro V hV
      obtain ⟨m, hm, hV'⟩ := (h.mem_wings V).mpr ⟨m', hm', hV⟩
      exact hw m hm V hV')
    have hlen' : ∀ l ∈ ws', l.length = n := by
      intro l hl
      obtain ⟨wm, -, hwm⟩ := mapM_mem' b1 hl
      exact (WingMovement.generate_dims hwm).1
    unfold AirplaneMovement.generate
    rw [e0, e1, e2, e3]
    have : ∃ y', (List.range n).mapM (fun k => Airplane.create (ws'.filterMap (·[k]?))
        (xyzRef := ⟨xs.getD k 0, ys.getD k 0, zs.getD k 0⟩)) = .ok y' := by
      apply mapM_exists
      intro k hk
      have c := column_length ws' k (by intro l hl; rw [hlen' l hl]; exact List.mem_range.mp hk)
      cases hc' : ws'.filterMap (·[k]?) with
      | nil =>
        rw [hc', mapM_length b1] at c
        exact absurd (List.eq_nil_of_length_eq_zero c.symm) (h.winged m' hm')
      | cons w l => exact ⟨_, rfl⟩
    obtain ⟨y', hy'⟩ := this
    exact ⟨y', bind_ok.mpr ⟨xs, c1, bind_ok.mpr ⟨ys, c2, bind_ok.mpr ⟨zs, c3, bind_ok.mpr ⟨ws', b1, hy'⟩⟩⟩⟩⟩
  obtain ⟨H', hH'⟩ := mapM_exists (f := fun am : AirplaneMovement => am.generate n dt) (l := ams') hgen'
  have lens : ∀ {bms : List AirplaneMovement} {G : List (List Airplane)},
      bms.mapM (fun am => am.generate n dt) = .ok G → ∀ y ∈ G, y.length = n := by
    intro bms G hG y hy
    obtain ⟨m, -, hm⟩ := mapM_mem' hG hy
    obtain ⟨_, _, _, _, -, -, -, -, al, -⟩ := AirplaneMovement.generate_ok hm
    exact al
  have wings : ∀ {bms : List AirplaneMovement} {G : List (List Airplane)},
      bms.mapM (fun am => am.generate n dt) = .ok G →
      ∀ (a : ℕ) y (k : ℕ) A (m : AirplaneMovement), G[a]? = some y → y[k]? = some A → bms[a]? = some m →
        A.wings.length = m.wingMovements.length ∧
        ∀ (w : ℕ) W V l, A.wings[w]? = some W → m.wingMovements[w]? = some V → V.generate n dt = .ok l →
          l[k]? = some W := by
    intro bms G hG a y k A m hy hA hm
    obtain ⟨y₁, hy1, hmy⟩ := mapM_getElem? hG a m hm
    rw [hy, Option.some.injEq] at hy1
    subst hy1
    obtain ⟨xs, ys, zs, ws, a1, a2, a3, a4, al, ak⟩ := AirplaneMovement.generate_ok hmy
    have hk : k < n := by rw [← al]; exact (List.getElem?_eq_some_iff.mp hA).1
    have hlen : ∀ l ∈ ws, k < l.length := by
      intro l hl
      obtain ⟨wm, -, hwm⟩ := mapM_mem' a4 hl
      rw [(WingMovement.generate_dims hwm).1]; exact hk
    obtain ⟨B, hB, hAB⟩ := ak k hk
    rw [hA, Option.some.injEq] at hB
    subst hB
    obtain ⟨p1, p2⟩ := parts hAB
    refine ⟨by rw [p1, column_length ws k hlen, mapM_length a4], ?_⟩
    intro w W V l hW hV hl
    rw [p1, column_getElem? ws k hlen] at hW
    obtain ⟨l₁, hl1, hlk⟩ := Option.bind_eq_some_iff.mp hW
    obtain ⟨l₂, g1, g2⟩ := mapM_getElem? a4 w V hV
    rw [hl1, Option.some.injEq] at g1
    subst g1
    rw [hl, Except.ok.injEq] at g2
    subst g2
    exact hlk
  refine ⟨H', hH', mapM_length hH, mapM_length hH', lens hH, lens hH', wings hH, wings hH', hw, ?_⟩
  intro y hy y' hy' k A A' hA hA'
  obtain ⟨m, hm, hmy⟩ := mapM_mem' hH hy
  obtain ⟨m', hm', hmy'⟩ := mapM_mem' hH' hy'
  obtain ⟨e0, e1, e2, e3⟩ := h.reference m hm m' hm'
  obtain ⟨xs, ys, zs, ws, a1, a2, a3, a4, al, ak⟩ := AirplaneMovement.generate_ok hmy
  obtain ⟨xs', ys', zs', ws', b1, b2, b3, b4, bl, bk⟩ := AirplaneMovement.generate_ok hmy'
  rw [e0, e1, a1, Except.ok.injEq] at b1
  rw [e0, e2, a2, Except.ok.injEq] at b2
  rw [e0, e3, a3, Except.ok.injEq] at b3
  subst b1 b2 b3
  have hk : k < n := by rw [← al]; exact (List.getElem?_eq_some_iff.mp hA).1
  obtain ⟨B, hB, hAB⟩ := ak k hk
  obtain ⟨B', hB', hAB'⟩ := bk k hk
  rw [hA, Option.some.injEq] at hB
  rw [hA', Option.some.injEq] at hB'
  subst hB hB'
  rw [(parts hAB).2, (parts hAB').2]

end RegroupedMovements

end Ptera
