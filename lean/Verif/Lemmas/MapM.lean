import Verif.Core.Py

/-! `List.mapM` in `Except`. -/

namespace Ptera

variable {α β ε : Type*}

theorem mapM_cons_ok {f : α → Except ε β} {a : α} {l : List α} {r : List β} :
    (a :: l).mapM f = .ok r ↔ ∃ b r', f a = .ok b ∧ l.mapM f = .ok r' ∧ r = b :: r' := by
  rw [List.mapM_cons]
  cases h : f a with
  | error e => simp [bind, Except.bind]
  | ok b =>
    cases h2 : l.mapM f with
    | error e => simp [bind, Except.bind]
    | ok r' =>
      simp only [bind, Except.bind, pure, Except.pure, Except.ok.injEq]
      constructor
      · intro e; exact ⟨b, r', rfl, rfl, e.symm⟩
      · rintro ⟨b', r'', rfl, rfl, rfl⟩; rfl

theorem mapM_nil_ok {f : α → Except ε β} {r : List β} : ([] : List α).mapM f = .ok r ↔ r = [] := by
  simp only [List.mapM_nil, pure, Except.pure, Except.ok.injEq]
  exact eq_comm

/-- The results, entry by entry. -/
theorem mapM_forall₂ {f : α → Except ε β} {l : List α} {r : List β} :
    l.mapM f = .ok r ↔ List.Forall₂ (fun a b => f a = .ok b) l r := by
  induction l generalizing r with
  | nil => rw [mapM_nil_ok]; exact List.forall₂_nil_left_iff.symm
  | cons a l ih =>
    rw [mapM_cons_ok]
    constructor
    · rintro ⟨b, r', h1, h2, rfl⟩; exact List.Forall₂.cons h1 (ih.mp h2)
    · intro h
      cases h with
      | cons h1 h2 => exact ⟨_, _, h1, ih.mpr h2, rfl⟩

theorem mapM_length {f : α → Except ε β} {l : List α} {r : List β} (h : l.mapM f = .ok r) :
    r.length = l.length := (mapM_forall₂.mp h).length_eq.symm

theorem mapM_getElem? {f : α → Except ε β} {l : List α} {r : List β} (h : l.mapM f = .ok r) (i : ℕ) (a : α)
    (ha : l[i]? = some a) : ∃ b, r[i]? = some b ∧ f a = .ok b := by
  have h2 := mapM_forall₂.mp h
  clear h
  induction h2 generalizing i with
  | nil => simp at ha
  | cons hab _ ih =>
    cases i with
    | zero => simp at ha; subst ha; exact ⟨_, by simp, hab⟩
    | succ i => simp at ha; obtain ⟨b, hb, e⟩ := ih i ha; exact ⟨b, by simpa using hb, e⟩

/-- A step range: entry `k` of the result is the result for `k`. -/
theorem mapM_range {f : ℕ → Except ε β} {n : ℕ} {r : List β} (h : (List.range n).mapM f = .ok r) :
    r.length = n ∧ ∀ k < n, ∃ b, r[k]? = some b ∧ f k = .ok b := by
  refine ⟨by rw [mapM_length h]; simp, fun k hk => mapM_getElem? h k k (by simp [hk])⟩

theorem mapM_exists {f : α → Except ε β} {l : List α} (h : ∀ a ∈ l, ∃ b, f a = .ok b) :
    ∃ r, l.mapM f = .ok r := by
  induction l with
  | nil => exact ⟨[], mapM_nil_ok.mpr rfl⟩
  | cons a l ih =>
    obtain ⟨b, hb⟩ := h a (by simp)
    obtain ⟨r, hr⟩ := ih fun x hx => h x (by simp [hx])
    exact ⟨b :: r, mapM_cons_ok.mpr ⟨b, r, hb, hr, rfl⟩⟩

theorem mapM_mem {f : α → Except ε β} {l : List α} {r : List β} (h : l.mapM f = .ok r) {a : α} (ha : a ∈ l) :
    ∃ b ∈ r, f a = .ok b := by
  obtain ⟨i, hi⟩ := List.mem_iff_getElem?.mp ha
  obtain ⟨b, hb, e⟩ := mapM_getElem? h i a hi
  exact ⟨b, List.mem_of_getElem? hb, e⟩

theorem mapM_mem' {f : α → Except ε β} {l : List α} {r : List β} (h : l.mapM f = .ok r) {b : β} (hb : b ∈ r) :
    ∃ a ∈ l, f a = .ok b := by
  have h2 := mapM_forall₂.mp h
  clear h
  induction h2 with
  | nil => simp at hb
  | cons hab _ ih =>
    rcases List.mem_cons.mp hb with rfl | hb
    · exact ⟨_, by simp, hab⟩
    · obtain ⟨a, ha, e⟩ := ih hb; exact ⟨a, by simp [ha], e⟩

/-- If every entry gives the same result, so does the list. -/
theorem mapM_const {f : α → Except ε β} {l : List α} {b : β} (h : ∀ a ∈ l, f a = .ok b) :
    l.mapM f = .ok (List.replicate l.length b) := by
  induction l with
  | nil => rfl
  | cons a l ih =>
    rw [mapM_cons_ok]
    exact ⟨b, _, h a (by simp), ih fun x hx => h x (by simp [hx]), by simp [List.replicate_succ]⟩

theorem bind_ok {ε β γ : Type} {x : Except ε β} {f : β → Except ε γ} {r : γ} :
    (x >>= f) = .ok r ↔ ∃ b, x = .ok b ∧ f b = .ok r := by
  cases x with
  | error e => simp [bind, Except.bind]
  | ok b => simp [bind, Except.bind]

theorem pure_ok {b r : β} : (pure b : Except ε β) = .ok r ↔ b = r := by
  simp [pure, Except.pure]

end Ptera
