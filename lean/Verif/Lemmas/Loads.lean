import Verif.Spec.Made
import Verif.Props.Mesh
import Verif.Lemmas.HorseshoeRun

/-! Helper lemmas about made airplanes, the enumeration of panels and load totals. -/

namespace Ptera

theorem Airplane.Made.counted {a : Airplane} (h : a.Made) :
    a.numPanels = (a.wings.flatMap fun w => w.panels.flatten).length := by
  obtain ⟨wings, ref, weight, s, c, b, h, hw⟩ := h
  refine C18_airplane_count wings ref weight s c b a (fun w hw' => ?_) h
  obtain ⟨S, le, n, sym, u, m, sp, hc⟩ := hw w hw'
  exact (C18_wing_counts S le n sym u m sp w hc).2.2.2.1

theorem Airplane.Made.wings {a : Airplane} (h : a.Made) : ∀ w ∈ a.wings, w.Made := by
  obtain ⟨wings, ref, weight, s, c, b, h, hw⟩ := h
  unfold Airplane.create at h
  cases wings with
  | nil => simp at h
  | cons w ws =>
    simp only [Except.ok.injEq] at h
    subst h
    exact hw

theorem counted_of_made {as : List Airplane} (h : ∀ a ∈ as, a.Made) : Counted as :=
  fun a ha => (h a ha).counted

/-! ## Order -/

theorem pairwise_zipIdx_flatMap {α β : Type*} (l : List α) (f : α × ℕ → List β) (k : ℕ) (R : β → β → Prop)
    (key : β → ℕ) (hkey : ∀ x ∈ l.zipIdx k, ∀ b ∈ f x, key b = x.2)
    (hR : ∀ x ∈ (l.zipIdx k).flatMap f, ∀ y ∈ (l.zipIdx k).flatMap f, key x < key y → R x y)
    (hf : ∀ x ∈ l.zipIdx k, (f x).Pairwise R) :
    ((l.zipIdx k).flatMap f).Pairwise R := by
  induction l generalizing k with
  | nil => simp
  | cons a l ih =>
    rw [List.zipIdx_cons] at hkey hf hR ⊢
    rw [List.flatMap_cons] at hR ⊢
    rw [List.pairwise_append]
    refine ⟨hf _ (by simp), ih (k + 1) (fun x hx => hkey x (List.mem_cons_of_mem _ hx))
      (fun x hx y hy => hR x (List.mem_append_right _ hx) y (List.mem_append_right _ hy))
      (fun x hx => hf x (List.mem_cons_of_mem _ hx)), ?_⟩
    intro b hb b' hb'
    apply hR b (List.mem_append_left _ hb) b' (List.mem_append_right _ hb')
    obtain ⟨x, hx, hbx⟩ := List.mem_flatMap.mp hb'
    have h1 := hkey _ (by simp) b hb
    have h2 := hkey x (List.mem_cons_of_mem _ hx) b' hbx
    have h3 := List.mem_zipIdx hx
    simp only at h1
    omega

theorem airplaneRefs_ordered (a : Airplane) (k : ℕ) : (airplaneRefs a k).Pairwise PanelRef.Before := by
  unfold airplaneRefs
  apply pairwise_zipIdx_flatMap _ _ _ _ (·.wing)
  · intro x _ b hb
    simp only [List.mem_flatMap, List.mem_map] at hb
    obtain ⟨_, _, _, _, rfl⟩ := hb; rfl
  · intro x hx y hy hlt
    have hx' := ((mem_airplaneRefs a k x).mp hx).1
    have hy' := ((mem_airplaneRefs a k y).mp hy).1
    exact Or.inr ⟨by omega, Or.inl hlt⟩
  · rintro ⟨w, iw⟩ _
    apply pairwise_zipIdx_flatMap _ _ _ _ (·.row)
    · intro y _ b hb
      simp only [List.mem_map] at hb
      obtain ⟨_, _, rfl⟩ := hb; rfl
    · intro x hx y hy hlt
      simp only [List.mem_flatMap, List.mem_map] at hx hy
      obtain ⟨_, _, _, _, rfl⟩ := hx
      obtain ⟨_, _, _, _, rfl⟩ := hy
      exact Or.inr ⟨rfl, Or.inr ⟨rfl, Or.inl hlt⟩⟩
    · rintro ⟨row, i⟩ _
      rw [List.pairwise_map]
      refine List.pairwise_lt_range.imp ?_
      intro i j hij
      exact Or.inr ⟨rfl, Or.inr ⟨rfl, Or.inr ⟨rfl, hij⟩⟩⟩

theorem panelRefs_ordered (as : List Airplane) : (panelRefs as).Pairwise PanelRef.Before := by
  unfold panelRefs
  apply pairwise_zipIdx_flatMap _ _ _ _ (·.airplane)
  · intro x _ b hb
    exact ((mem_airplaneRefs _ _ _).mp hb).1
  · intro x _ y _ hlt; exact Or.inl hlt
  · intro x _; exact airplaneRefs_ordered _ _

/-! ## Own panels -/

theorem filter_zipIdx_flatMap {α β : Type*} (f : α × ℕ → List β) (key : β → ℕ) (n : ℕ) :
    ∀ (l : List α) (k : ℕ), (∀ x ∈ l.zipIdx k, ∀ b ∈ f x, key b = x.2) → ∀ a, l[n]? = some a →
      ((l.zipIdx k).flatMap f).filter (fun b => key b = k + n) = f (a, k + n) := by
  induction n with
  | zero =>
    intro l k hkey a ha
    cases l with
    | nil => simp at ha
    | cons b l =>
      simp at ha; subst ha
      rw [List.zipIdx_cons] at hkey ⊢
      rw [List.flatMap_cons, List.filter_append]
      rw [List.filter_eq_self.mpr (fun x hx => by simpa using hkey _ (by simp) x hx)]
      rw [List.filter_eq_nil_iff.mpr]
      · simp
      · intro x hx
        obtain ⟨y, hy, hxy⟩ := List.mem_flatMap.mp hx
        have h1 := hkey y (List.mem_cons_of_mem _ hy) x hxy
        have h2 := List.mem_zipIdx hy
        simp; omega
  | succ n ih =>
    intro l k hkey a ha
    cases l with
    | nil => simp at ha
    | cons b l =>
      rw [List.getElem?_cons_succ] at ha
      rw [List.zipIdx_cons] at hkey ⊢
      rw [List.flatMap_cons, List.filter_append]
      rw [List.filter_eq_nil_iff.mpr (fun x hx => by
        have := hkey _ (by simp) x hx
        simp at this ⊢; omega)]
      have := ih l (k + 1) (fun x hx => hkey x (List.mem_cons_of_mem _ hx)) a ha
      rw [Nat.add_right_comm] at this
      rw [← Nat.add_assoc]
      simpa [Nat.add_right_comm] using this

theorem panelRefs_filter (as : List Airplane) (k : ℕ) (a : Airplane) (ha : as[k]? = some a) :
    (panelRefs as).filter (fun r => r.airplane = k) = airplaneRefs a k := by
  unfold panelRefs
  have := filter_zipIdx_flatMap (fun a : Airplane × ℕ => airplaneRefs a.1 a.2) (·.airplane) k as 0
    (fun x _ b hb => ((mem_airplaneRefs _ _ _).mp hb).1) a ha
  simpa using this

theorem foldl_add_sum {α : Type*} (l : List α) (f : α → V3) :
    l.foldl (fun t r => t + f r) 0 = (l.map f).sum := by
  rw [← List.foldl_map, List.sum_eq_foldl]

/-- The values belonging to one airplane. -/
theorem own_values {α : Type*} (as : List Airplane) (k : ℕ) (a : Airplane) (ha : as[k]? = some a) (F : List α)
    (hF : F.length = (panelRefs as).length) (g : PanelRef → α)
    (hg : ∀ (i : ℕ) (r : PanelRef) (f : α), (panelRefs as)[i]? = some r → F[i]? = some f → g r = f) :
    ((List.zip (panelRefs as) F).filter (fun x => x.1.airplane = k)).map Prod.snd
      = (airplaneRefs a k).map g := by
  have h1 : ((List.zip (panelRefs as) F).filter (fun x => x.1.airplane = k)).map Prod.snd
      = ((List.zip (panelRefs as) F).filter (fun x => x.1.airplane = k)).map (fun x => g x.1) := by
    apply List.map_congr_left
    intro x hx
    have hx := (List.mem_filter.mp hx).1
    obtain ⟨i, hi⟩ := List.getElem?_of_mem hx
    rw [List.getElem?_zip_eq_some] at hi
    exact (hg i x.1 x.2 hi.1 hi.2).symm
  rw [h1, ← panelRefs_filter as k a ha]
  have h2 : (panelRefs as).filter (fun r => r.airplane = k)
      = ((List.zip (panelRefs as) F).filter (fun x => x.1.airplane = k)).map Prod.fst := by
    conv_lhs => rw [← List.map_fst_zip (l₁ := panelRefs as) (l₂ := F) (by omega), List.filter_map]
    rfl
  rw [h2, List.map_map]
  rfl

end Ptera
