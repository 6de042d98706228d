import Verif.Model.Unsteady
import Verif.Lemmas.SolverLemmas

/-! What shedding does to the table of wake ring objects. -/

namespace Ptera
namespace UnsteadySolver

theorem refAt_cons_zero (row : List (Option ℕ)) (rest : List (List (Option ℕ))) (j : ℕ) :
    refAt (row :: rest) 0 j = row.getD j none := rfl

theorem refAt_cons_succ (row : List (Option ℕ)) (rest : List (List (Option ℕ))) (i j : ℕ) :
    refAt (row :: rest) (i + 1) j = refAt rest i j := by simp [refAt, List.getD]

/-- The first row: new objects, one per column. -/
theorem shed_first_row (s : UnsteadySolver) (this : WingRef) (wing : Wing) (V : List (List V3))
    (O : ℕ → RingVortex) (A n : ℕ) (rest : List (List (Option ℕ))) (m : ℕ) (hm : m ≤ n) :
    ((List.range m).map fun j => ((0 : ℕ), j)).foldl (s.shedCell this wing V)
        (O, A, List.replicate n none :: rest)
      = (fun a => if A ≤ a ∧ a < A + m then s.newRing this wing V (a - A) else O a, A + m,
          ((List.range m).map (fun j => some (A + j)) ++ List.replicate (n - m) none) :: rest) := by
  induction m with
  | zero =>
    simp only [List.range_zero, List.map_nil, List.foldl_nil, Nat.add_zero, List.nil_append, Nat.sub_zero]
    congr 1
    funext a
    rw [if_neg (by omega)]
  | succ m ih =>
    rw [List.range_succ, List.map_append, List.foldl_append, ih (by omega)]
    simp only [List.map_cons, List.map_nil, List.foldl_cons, List.foldl_nil]
    unfold shedCell
    simp only [if_true]
    refine Prod.ext ?_ (Prod.ext rfl ?_)
    · funext a
      by_cases ha : a = A + m
      · subst ha
        simp only
        rw [Function.update_self, if_pos (by omega), Nat.add_sub_cancel_left]
      · simp only
        rw [Function.update_of_ne ha]
        by_cases h1 : A ≤ a ∧ a < A + m
        · rw [if_pos h1, if_pos (by omega)]
        · rw [if_neg h1, if_neg (by omega)]
    · simp only [List.modify_zero_cons, List.cons.injEq, and_true]
      rw [List.set_append_right _ _ (by simp)]
      simp only [List.length_map, List.length_range, Nat.sub_self]
      have : n - m = (n - (m + 1)) + 1 := by omega
      rw [this, List.replicate_succ, List.set_cons_zero, List.map_append]
      simp

/-- The rows behind the first: every object is moved, the references stay. -/
theorem shed_rows (s : UnsteadySolver) (this : WingRef) (wing : Wing) (V : List (List V3)) (A : ℕ)
    (refs : List (List (Option ℕ))) (addr : ℕ × ℕ → ℕ) :
    ∀ (L : List (ℕ × ℕ)) (O : ℕ → RingVortex),
      (∀ c ∈ L, c.1 ≠ 0 ∧ refAt refs c.1 c.2 = some (addr c)) →
      L.foldl (s.shedCell this wing V) (O, A, refs)
        = (L.foldl (fun O c => Function.update O (addr c) (s.moveRing V c.1 c.2 (O (addr c)))) O, A, refs) := by
  intro L
  induction L with
  | nil => intro O _; rfl
  | cons c L ih =>
    intro O h
    obtain ⟨h0, h1⟩ := h c (by simp)
    rw [List.foldl_cons, List.foldl_cons]
    have : s.shedCell this wing V (O, A, refs) c
        = (Function.update O (addr c) (s.moveRing V c.1 c.2 (O (addr c))), A, refs) := by
      unfold shedCell
      simp only [h0, if_false, h1]
    rw [this, ih _ fun c' hc' => h c' (List.mem_cons_of_mem _ hc')]

/-- The cells of a grid of `rows` x `n`. -/
def cellsOf (rows n : ℕ) : List (ℕ × ℕ) :=
  (List.range rows).flatMap fun i => (List.range n).map fun j => (i, j)

theorem mem_cellsOf {rows n : ℕ} {c : ℕ × ℕ} : c ∈ cellsOf rows n ↔ c.1 < rows ∧ c.2 < n := by
  unfold cellsOf
  simp only [List.mem_flatMap, List.mem_map, List.mem_range]
  constructor
  · rintro ⟨i, hi, j, hj, rfl⟩; exact ⟨hi, hj⟩
  · rintro ⟨h1, h2⟩; exact ⟨c.1, h1, c.2, h2, rfl⟩

theorem cellsOf_nodup (rows n : ℕ) : (cellsOf rows n).Nodup := by
  unfold cellsOf
  rw [List.nodup_flatMap]
  constructor
  · intro i _
    apply List.Nodup.map _ List.nodup_range
    intro a b h; simpa using h
  · refine (List.nodup_range (n := rows)).imp ?_
    intro a b hab
    rw [Function.onFun, List.disjoint_left]
    intro x hx hx'
    simp only [List.mem_map] at hx hx'
    obtain ⟨_, _, rfl⟩ := hx
    obtain ⟨_, _, e⟩ := hx'
    simp only [Prod.mk.injEq] at e
    exact hab e.1.symm

theorem cellsOf_succ (rows n : ℕ) :
    cellsOf (rows + 1) n = (List.range n).map (fun j => ((0 : ℕ), j))
      ++ (cellsOf rows n).map fun c => (c.1 + 1, c.2) := by
  unfold cellsOf
  rw [List.range_succ_eq_map, List.flatMap_cons, List.map_flatMap, List.flatMap_map]
  congr 1
  simp only [List.map_map]
  rfl

/-- The wake of a wing with `K` rows of `n` rings, at the addresses `addr`. -/
structure WakeAt (o : UnsteadyObjects) (w : WingRef) (K n : ℕ) (addr : ℕ × ℕ → ℕ) : Prop where
  rows : (o.wakes w).length = K
  cols : ∀ row ∈ o.wakes w, row.length = n
  refs : ∀ i < K, ∀ j < n, refAt (o.wakes w) i j = some (addr (i, j))
  bound : ∀ i < K, ∀ j < n, addr (i, j) < o.allocated
  inj : ∀ c ∈ cellsOf K n, ∀ c' ∈ cellsOf K n, addr c = addr c' → c = c'

/-- Addresses of the wake one step later. -/
def shiftAddr (A : ℕ) (addr : ℕ × ℕ → ℕ) (c : ℕ × ℕ) : ℕ := if c.1 = 0 then A + c.2 else addr (c.1 - 1, c.2)

structure ShedOne (s : UnsteadySolver) (o o' : UnsteadyObjects) (this : WingRef) (wing : Wing) (K n : ℕ)
    (addr : ℕ × ℕ → ℕ) : Prop where
  rest : o' = { o with objects := o'.objects, allocated := o'.allocated, wakes := o'.wakes }
  allocated : o'.allocated = o.allocated + n
  wakes : o'.wakes { this with step := s.step + 1 }
    = (List.range n).map (fun j => some (o.allocated + j)) :: o.wakes this
  others : ∀ w, w ≠ { this with step := s.step + 1 } → o'.wakes w = o.wakes w
  new : ∀ j < n, o'.objects (o.allocated + j)
    = s.newRing this wing (o.vertices { this with step := s.step + 1 }) j
  moved : ∀ i < K, ∀ j < n, o'.objects (addr (i, j))
    = s.moveRing (o.vertices { this with step := s.step + 1 }) (i + 1) j (o.objects (addr (i, j)))
  kept : ∀ a < o.allocated, (∀ i < K, ∀ j < n, addr (i, j) ≠ a) → o'.objects a = o.objects a

theorem shed_one (s : UnsteadySolver) (o : UnsteadyObjects) (this : WingRef) (wing : Wing) (K n : ℕ)
    (addr : ℕ × ℕ → ℕ) (hw : s.problem.wing? this = some wing) (h : WakeAt o this K n addr)
    (hV : (o.vertices { this with step := s.step + 1 }).length = K + 2)
    (hV0 : ((o.vertices { this with step := s.step + 1 }).headD []).length = n + 1) :
    ShedOne s o (s.shedRingsOf o this) this wing K n addr := by
  set V := o.vertices { this with step := s.step + 1 } with hVdef
  have hcells : wakeCells V = cellsOf (K + 1) n := by
    unfold wakeCells cellsOf
    rw [hV, hV0]
    rfl
  set A := o.allocated with hA
  set stacked := (List.range n).map (fun j => some (A + j)) :: o.wakes this with hstacked
  set O1 : ℕ → RingVortex := fun a => if A ≤ a ∧ a < A + n then s.newRing this wing V (a - A) else o.objects a
    with hO1
  set L := (cellsOf K n).map fun c => (c.1 + 1, c.2) with hL
  set addr' : ℕ × ℕ → ℕ := fun c => addr (c.1 - 1, c.2) with haddr'
  have hfold : (wakeCells V).foldl (s.shedCell this wing V)
        (o.objects, A, List.replicate ((V.headD []).length - 1) none :: o.wakes this)
      = (L.foldl (fun O c => Function.update O (addr' c) (s.moveRing V c.1 c.2 (O (addr' c)))) O1, A + n, stacked) := by
    rw [hcells, cellsOf_succ, List.foldl_append, hV0, Nat.add_sub_cancel,
      shed_first_row s this wing V o.objects A n (o.wakes this) n le_rfl]
    simp only [Nat.sub_self, List.replicate_zero, List.append_nil]
    rw [shed_rows s this wing V (A + n) stacked addr']
    intro c hc
    obtain ⟨d, hd, rfl⟩ := List.mem_map.mp hc
    obtain ⟨h1, h2⟩ := mem_cellsOf.mp hd
    refine ⟨by simp, ?_⟩
    rw [hstacked, refAt_cons_succ, h.refs _ h1 _ h2]
    simp [haddr']
  have hkeys : (L.map addr') = (cellsOf K n).map addr := by
    rw [hL, List.map_map]
    apply List.map_congr_left
    intro c _
    simp [haddr']
  have hnodup : (L.map addr').Nodup := by
    rw [hkeys]
    apply List.Nodup.map_on _ (cellsOf_nodup K n)
    intro c hc c' hc' e
    exact h.inj c hc c' hc' e
  obtain ⟨u1, u2⟩ := foldl_update L addr' (fun c v => s.moveRing V c.1 c.2 v) O1 hnodup
  have hr : s.shedRingsOf o this
      = { o with objects := L.foldl (fun O c => Function.update O (addr' c) (s.moveRing V c.1 c.2 (O (addr' c)))) O1
                 allocated := A + n
                 wakes := Function.update o.wakes { this with step := s.step + 1 } stacked } := by
    unfold shedRingsOf
    simp only [hw]
    rw [← hVdef, ← hA, hfold]
  rw [hr]
  constructor
  · rfl
  · rfl
  · simp only [Function.update_self]; rfl
  · intro w hwne
    simp only [Function.update_of_ne hwne]
  · intro j hj
    simp only
    rw [u2 _ (by
      rw [hkeys]
      intro hmem
      obtain ⟨c, hc, e⟩ := List.mem_map.mp hmem
      obtain ⟨h1, h2⟩ := mem_cellsOf.mp hc
      have : addr c < o.allocated := h.bound c.1 h1 c.2 h2
      omega)]
    rw [hO1]
    simp only
    rw [if_pos (by omega), hA, Nat.add_sub_cancel_left]
  · intro i hi j hj
    simp only
    have hmem : (i + 1, j) ∈ L := List.mem_map.mpr ⟨(i, j), mem_cellsOf.mpr ⟨hi, hj⟩, rfl⟩
    have := u1 _ hmem
    simp only [haddr', Nat.add_sub_cancel] at this
    rw [this]
    congr 1
    rw [hO1]
    simp only
    have := h.bound i hi j hj
    rw [if_neg (by omega)]
  · intro a ha hne
    simp only
    rw [u2 _ (by
      rw [hkeys]
      intro hmem
      obtain ⟨c, hc, e⟩ := List.mem_map.mp hmem
      obtain ⟨h1, h2⟩ := mem_cellsOf.mp hc
      exact hne c.1 h1 c.2 h2 e)]
    rw [hO1]
    simp only
    rw [if_neg (by omega)]

theorem ShedOne.wakeAt {s : UnsteadySolver} {o o' : UnsteadyObjects} {this : WingRef} {wing : Wing} {K n : ℕ}
    {addr : ℕ × ℕ → ℕ} (h : ShedOne s o o' this wing K n addr) (hw : WakeAt o this K n addr) :
    WakeAt o' { this with step := s.step + 1 } (K + 1) n (shiftAddr o.allocated addr) := by
  constructor
  · rw [h.wakes]; simp [hw.rows]
  · intro row hrow
    rw [h.wakes] at hrow
    rcases List.mem_cons.mp hrow with rfl | hrow
    · simp
    · exact hw.cols row hrow
  · intro i hi j hj
    rw [h.wakes]
    cases i with
    | zero => rw [refAt_cons_zero]; simp [shiftAddr, hj]
    | succ i => rw [refAt_cons_succ, hw.refs i (by omega) j hj]; simp [shiftAddr]
  · intro i hi j hj
    rw [h.allocated]
    cases i with
    | zero => simp [shiftAddr, hj]
    | succ i =>
      have := hw.bound i (by omega) j hj
      simp [shiftAddr]; omega
  · intro c hc c' hc' e
    obtain ⟨h1, h2⟩ := mem_cellsOf.mp hc
    obtain ⟨h1', h2'⟩ := mem_cellsOf.mp hc'
    obtain ⟨i, j⟩ := c
    obtain ⟨i', j'⟩ := c'
    simp only at h1 h2 h1' h2'
    cases i with
    | zero =>
      cases i' with
      | zero => simp [shiftAddr] at e; simp [e]
      | succ i' =>
        have := hw.bound i' (by omega) j' h2'
        simp [shiftAddr] at e; omega
    | succ i =>
      have hb := hw.bound i (by omega) j h2
      cases i' with
      | zero => simp [shiftAddr] at e; omega
      | succ i' =>
        simp only [shiftAddr, Nat.succ_ne_zero, if_false, Nat.add_sub_cancel] at e
        have := hw.inj (i, j) (mem_cellsOf.mpr ⟨by omega, h2⟩) (i', j') (mem_cellsOf.mpr ⟨by omega, h2'⟩) e
        simp only [Prod.mk.injEq] at this ⊢
        exact ⟨by omega, this.2⟩

/-- What shedding all wings does. `addr w` are the addresses of wing `w`'s wake before, `addr' w` after. -/
structure ShedAll (s : UnsteadySolver) (o o' : UnsteadyObjects) (L : List WingRef) (K : ℕ) (wing : WingRef → Wing)
    (n : WingRef → ℕ) (addr addr' : WingRef → ℕ × ℕ → ℕ) : Prop where
  rest : o' = { o with objects := o'.objects, allocated := o'.allocated, wakes := o'.wakes }
  grown : o.allocated ≤ o'.allocated
  others : ∀ w, (∀ t ∈ L, w ≠ { t with step := s.step + 1 }) → o'.wakes w = o.wakes w
  wakeAt : ∀ t ∈ L, WakeAt o' { t with step := s.step + 1 } (K + 1) (n t) (addr' t)
  old : ∀ t ∈ L, ∀ i < K, ∀ j < n t, addr' t (i + 1, j) = addr t (i, j)
  fresh : ∀ t ∈ L, ∀ j < n t, o.allocated ≤ addr' t (0, j)
  apart : ∀ t ∈ L, ∀ t' ∈ L, t ≠ t' → ∀ i ≤ K, ∀ j < n t, ∀ i' ≤ K, ∀ j' < n t',
    addr' t (i, j) ≠ addr' t' (i', j')
  new : ∀ t ∈ L, ∀ j < n t, o'.objects (addr' t (0, j))
    = s.newRing t (wing t) (o.vertices { t with step := s.step + 1 }) j
  moved : ∀ t ∈ L, ∀ i < K, ∀ j < n t, o'.objects (addr t (i, j))
    = s.moveRing (o.vertices { t with step := s.step + 1 }) (i + 1) j (o.objects (addr t (i, j)))
  kept : ∀ a < o.allocated, (∀ t ∈ L, ∀ i < K, ∀ j < n t, addr t (i, j) ≠ a) → o'.objects a = o.objects a

theorem shed_all (s : UnsteadySolver) (K : ℕ) (wing : WingRef → Wing) (n : WingRef → ℕ)
    (addr : WingRef → ℕ × ℕ → ℕ) :
    ∀ (L : List WingRef) (o : UnsteadyObjects), L.Nodup → (∀ t ∈ L, t.step = s.step) →
      (∀ t ∈ L, s.problem.wing? t = some (wing t)) → (∀ t ∈ L, WakeAt o t K (n t) (addr t)) →
      (∀ t ∈ L, ∀ t' ∈ L, t ≠ t' → ∀ i < K, ∀ j < n t, ∀ i' < K, ∀ j' < n t', addr t (i, j) ≠ addr t' (i', j')) →
      (∀ t ∈ L, (o.vertices { t with step := s.step + 1 }).length = K + 2) →
      (∀ t ∈ L, ((o.vertices { t with step := s.step + 1 }).headD []).length = n t + 1) →
      ∃ addr', ShedAll s o (L.foldl s.shedRingsOf o) L K wing n addr addr' := by
  intro L
  induction L with
  | nil =>
    intro o _ _ _ _ _ _ _
    refine ⟨addr, ?_⟩
    constructor <;> simp
  | cons t L ih =>
    intro o hnd hstep hwing hwake hdis hV hV0
    obtain ⟨htL, hnd⟩ := List.nodup_cons.mp hnd
    have h1 := shed_one s o t (wing t) K (n t) (addr t) (hwing t (by simp)) (hwake t (by simp)) (hV t (by simp))
      (hV0 t (by simp))
    set o1 := s.shedRingsOf o t with ho1
    have hvert : o1.vertices = o.vertices := by rw [h1.rest]
    -- the wakes of the other wings are untouched
    have hother : ∀ t' ∈ L, o1.wakes t' = o.wakes t' := by
      intro t' ht'
      apply h1.others
      intro e
      have := hstep t' (by simp [ht'])
      rw [e] at this
      simp at this
    have hwake1 : ∀ t' ∈ L, WakeAt o1 t' K (n t') (addr t') := by
      intro t' ht'
      have h := hwake t' (by simp [ht'])
      refine ⟨by rw [hother t' ht']; exact h.rows, by rw [hother t' ht']; exact h.cols,
        by rw [hother t' ht']; exact h.refs, ?_, h.inj⟩
      intro i hi j hj
      have := h.bound i hi j hj
      rw [h1.allocated]; omega
    obtain ⟨addr2, h2⟩ := ih o1 hnd (fun t' h => hstep t' (by simp [h])) (fun t' h => hwing t' (by simp [h])) hwake1
      (fun t' h t'' h' => hdis t' (by simp [h]) t'' (by simp [h'])) (by
        intro t' h; rw [hvert]; exact hV t' (by simp [h])) (by
        intro t' h; rw [hvert]; exact hV0 t' (by simp [h]))
    rw [List.foldl_cons]
    set o2 := L.foldl s.shedRingsOf o1 with ho2
    have hne : ∀ t' ∈ L, t' ≠ t := fun t' h e => htL (e ▸ h)
    have hnext : ∀ t' ∈ L, ({ t with step := s.step + 1 } : WingRef) ≠ { t' with step := s.step + 1 } := by
      intro t' h e
      apply hne t' h
      have e1 := hstep t' (by simp [h])
      have e2 := hstep t (by simp)
      cases t; cases t'
      simp_all
    refine ⟨fun w => if w = t then shiftAddr o.allocated (addr t) else addr2 w, ?_⟩
    have hself : (if t = t then shiftAddr o.allocated (addr t) else addr2 t) = shiftAddr o.allocated (addr t) :=
      if_pos rfl
    have hoth : ∀ t' ∈ L, (if t' = t then shiftAddr o.allocated (addr t) else addr2 t') = addr2 t' :=
      fun t' h => if_neg (hne t' h)
    have hwat := h1.wakeAt (hwake t (by simp))
    have hbt := (hwake t (by simp)).bound
    -- addresses of `t` are not among those of the other wings
    have hsafe : ∀ i ≤ K, ∀ j < n t, ∀ t' ∈ L, ∀ i' < K, ∀ j' < n t',
        addr t' (i', j') ≠ shiftAddr o.allocated (addr t) (i, j) := by
      intro i hi j hj t' ht' i' hi' j' hj' e
      cases i with
      | zero =>
        have := (hwake t' (by simp [ht'])).bound i' hi' j' hj'
        simp [shiftAddr] at e; omega
      | succ i =>
        simp only [shiftAddr, Nat.succ_ne_zero, if_false, Nat.add_sub_cancel] at e
        exact hdis t' (by simp [ht']) t (by simp) (hne t' ht') i' hi' j' hj' i (by omega) j hj e
    have hlt : ∀ i ≤ K, ∀ j < n t, shiftAddr o.allocated (addr t) (i, j) < o1.allocated := by
      intro i hi j hj
      exact hwat.bound i (by omega) j hj
    have hkeep : ∀ i ≤ K, ∀ j < n t, o2.objects (shiftAddr o.allocated (addr t) (i, j))
        = o1.objects (shiftAddr o.allocated (addr t) (i, j)) := by
      intro i hi j hj
      apply h2.kept _ (hlt i hi j hj)
      intro t' ht' i' hi' j' hj'
      exact hsafe i hi j hj t' ht' i' hi' j' hj'
    constructor
    · rw [h2.rest, h1.rest]
    · have := h1.allocated; have := h2.grown; omega
    · intro w hw
      rw [h2.others w (fun t' h => hw t' (by simp [h])), h1.others w (hw t (by simp))]
    · intro t' ht'
      rcases List.mem_cons.mp ht' with rfl | ht'
      · simp only [if_true]
        have hk := h2.others _ (hnext)
        refine ⟨by rw [hk]; exact hwat.rows, by rw [hk]; exact hwat.cols, by rw [hk]; exact hwat.refs, ?_, hwat.inj⟩
        intro i hi j hj
        have := hwat.bound i hi j hj
        have := h2.grown
        omega
      · simp only [if_neg (hne t' ht')]
        exact h2.wakeAt t' ht'
    · intro t' ht' i hi j hj
      rcases List.mem_cons.mp ht' with rfl | ht'
      · simp [shiftAddr]
      · simp only [if_neg (hne t' ht')]
        exact h2.old t' ht' i hi j hj
    · intro t' ht' j hj
      rcases List.mem_cons.mp ht' with rfl | ht'
      · simp [shiftAddr]
      · simp only [if_neg (hne t' ht')]
        have := h2.fresh t' ht' j hj
        have := h1.allocated
        omega
    · have aux : ∀ t' ∈ L, ∀ i ≤ K, ∀ j < n t, ∀ i' ≤ K, ∀ j' < n t',
          shiftAddr o.allocated (addr t) (i, j) ≠ addr2 t' (i', j') := by
        intro t' ht' i hi j hj i' hi' j' hj' e
        cases i' with
        | zero =>
          have h3 := h2.fresh t' ht' j' hj'
          have h4 := hlt i hi j hj
          omega
        | succ i' =>
          rw [h2.old t' ht' i' (by omega) j' hj'] at e
          exact hsafe i hi j hj t' ht' i' (by omega) j' hj' e.symm
      intro t' ht' t'' ht'' hne' i hi j hj i' hi' j' hj'
      rcases List.mem_cons.mp ht' with e1 | h1L <;> rcases List.mem_cons.mp ht'' with e2 | h2L
      · exact absurd (e1.trans e2.symm) hne'
      · subst e1
        simp only [if_true, if_neg (hne t'' h2L)]
        exact aux t'' h2L i hi j hj i' hi' j' hj'
      · subst e2
        simp only [if_true, if_neg (hne t' h1L)]
        exact fun e => aux t' h1L i' hi' j' hj' i hi j hj e.symm
      · simp only [if_neg (hne t' h1L), if_neg (hne t'' h2L)]
        exact h2.apart t' h1L t'' h2L hne' i hi j hj i' hi' j' hj'
    · intro t' ht' j hj
      rcases List.mem_cons.mp ht' with rfl | ht'
      · simp only [if_true]
        rw [hkeep 0 (by omega) j hj]
        simp only [shiftAddr, if_true]
        exact h1.new j hj
      · simp only [if_neg (hne t' ht')]
        rw [h2.new t' ht' j hj, hvert]
    · intro t' ht' i hi j hj
      rcases List.mem_cons.mp ht' with rfl | ht'
      · have := hkeep (i + 1) (by omega) j hj
        simp only [shiftAddr, Nat.succ_ne_zero, if_false, Nat.add_sub_cancel] at this
        rw [this]
        exact h1.moved i hi j hj
      · rw [h2.moved t' ht' i hi j hj, hvert]
        congr 1
        apply h1.kept
        · exact (hwake t' (by simp [ht'])).bound i hi j hj
        · intro i' hi' j' hj'
          exact hdis t (by simp) t' (by simp [ht']) (fun e => hne t' ht' e.symm) i' hi' j' hj' i hi j hj
    · intro a ha hno
      rw [h2.kept a (by have := h1.allocated; omega) (fun t' ht' => hno t' (by simp [ht']))]
      exact h1.kept a ha (hno t (by simp))

end UnsteadySolver
end Ptera
