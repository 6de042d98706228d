import Verif.Lemmas.FlatPlate

/-!
# Property C17: which geometry constructors accept

The documented requirements on a wing are listed in `WingDocumented`. `Meshable sym s t`
(`Verif/Lemmas/MeshCells.lean`) says that both airfoils of the wing section between `s` and `t` can be given the
section's control surface (on both sides, for a symmetric wing); for that see C25.
-/

namespace Ptera

/-- The documented requirements on the arguments of `Wing(...)`. -/
structure WingDocumented (sections : List WingCrossSection) (n u : V3) (sp : String) : Prop where
  two : 2 ≤ sections.length
  spacing : sp = "cosine" ∨ sp = "uniform"
  rootNormal : ∀ root, sections[0]? = some root → root.unitNormal = n
  rootLE : ∀ root, sections[0]? = some root → root.leadingEdge = 0
  perp : u.dot n = 0
  normals : ∀ s ∈ sections, (n.cross s.unitNormal).cross u = 0

/-- C17: a wing violating the documented requirements is rejected with `Exception`. -/
theorem C17_wing_rejects (sections : List WingCrossSection) (le n : V3) (sym : Bool) (u : V3) (m : ℕ)
    (sp : String) (h : ¬ WingDocumented sections n u sp) :
    Wing.create sections le n sym u m sp = .error .exception := by
  unfold Wing.create
  match sections, h with
  | [], h => rfl
  | [_], h => rfl
  | root :: s2 :: rest, h =>
    simp only
    split_ifs with c1 c2 c3 c4 c5
    all_goals first
      | rfl
      | (exfalso
         apply h
         rw [not_not] at c2 c3 c4
         refine ⟨by simp, by simpa using c1, ?_, ?_, c4, ?_⟩
         · intro r hr; simp at hr; rw [← hr]; exact c2.symm
         · intro r hr; simp at hr; rw [← hr]; exact c3
         · intro s hs
           by_contra hne
           exact c5 (List.any_eq_true.mpr ⟨s, hs, by simpa using hne⟩))

/-- C17: a wing is accepted iff it meets the documented requirements, has a chordwise panel, its sections' airfoils can
be flapped and, if it is symmetric, every section has a spanwise panel. -/
theorem C17_wing_accepts (sections : List WingCrossSection) (le n : V3) (sym : Bool) (u : V3) (m : ℕ)
    (sp : String) :
    (∃ w, Wing.create sections le n sym u m sp = .ok w) ↔
      WingDocumented sections n u sp ∧ 0 < m ∧ ∀ s ∈ List.zip sections sections.tail, Meshable sym s.1 s.2 := by
  have hzip : ∀ l : List WingCrossSection, (∀ s ∈ List.zip l l.tail, Meshable sym s.1 s.2) ↔
      ∀ s ∈ List.zip (withChordwise u l) (withChordwise u l).tail, Meshable sym s.1 s.2 := by
    intro l
    unfold withChordwise
    rw [← List.map_tail, List.zip_map]
    constructor
    · intro h s hs
      obtain ⟨t, ht, rfl⟩ := List.mem_map.mp hs
      exact h t ht
    · intro h s hs
      have := h _ (List.mem_map_of_mem hs)
      exact this
  constructor
  · rintro ⟨w, hw⟩
    obtain ⟨hs, ha⟩ := Wing.create_ok sections le n sym u m sp w hw
    refine ⟨?_, ?_, ?_⟩
    · by_contra hd
      rw [C17_wing_rejects sections le n sym u m sp hd] at hw
      cases hw
    · have := ha.grid.1; rwa [hs] at this
    · have := meshWing_meshable _ _ _ _ ha.mesh
      rw [ha.stored, hs] at this
      exact (hzip sections).mpr this
  · rintro ⟨d, hm, hf⟩
    unfold Wing.create
    match sections, d, hf with
    | [], d, _ => exact absurd d.two (by simp)
    | [_], d, _ => exact absurd d.two (by simp)
    | root :: s2 :: rest, d, hf =>
      simp only
      have hh : ((root :: s2 :: rest).any fun s =>
          open Classical in decide (((n.cross s.unitNormal).cross u) ≠ 0)) = false := by
        rw [List.any_eq_false]
        intro s hs
        simpa using d.normals s hs
      rw [if_neg (not_not.mpr (by rcases d.spacing with h | h <;> simp [h])), if_neg (by simpa using (d.rootNormal root rfl).symm),
        if_neg (by simpa using d.rootLE root rfl), if_neg (by simpa using d.perp)]
      rw [if_neg (by rw [hh]; simp)]
      have hw := meshWing_exists ⟨le, n, sym, u, m, sp⟩ (withChordwise u (root :: s2 :: rest)) hm
        ((hzip _).mp hf)
      obtain ⟨P, hP⟩ := hw
      have hhalf : halfSpan (withChordwise u (root :: s2 :: rest))
          = ((root :: s2 :: rest).dropLast.map (·.numSpanwisePanels)).sum := by
        unfold halfSpan withChordwise
        rw [← List.map_dropLast, List.map_map]; rfl
      rw [hhalf] at hP
      simp only at hP
      have e : List.map (fun s : WingCrossSection => { s with wingUnitChordwise := u }) (root :: s2 :: rest)
          = withChordwise u (root :: s2 :: rest) := rfl
      rw [e, hP]
      exact ⟨_, rfl⟩

/-- C17: the default control surface (none deflected) on an asymmetric wing of flat plates: an accepted wing. -/
theorem plateWing_accepted (S : List WingCrossSection) (sym : Bool) (m : ℕ) (hm : 0 < m) (sp : String)
    (hsp : sp = "cosine" ∨ sp = "uniform") (h2 : 2 ≤ S.length)
    (hroot : ∀ r, S[0]? = some r → r.leadingEdge = 0)
    (hS : ∀ s ∈ S, ∃ le c tw d ty n sp, s = plateSection le c tw d ty n sp ∧ |d| ≤ 90) (le : V3)
    (hn : sym = true → ∀ s ∈ S, 0 < s.numSpanwisePanels := by simp [plateSection, *]) :
    ∃ w, Wing.create S le ⟨0, 1, 0⟩ sym ⟨1, 0, 0⟩ m sp = .ok w := by
  rw [C17_wing_accepts]
  refine ⟨⟨h2, hsp, ?_, hroot, by simp [V3.dot], ?_⟩, hm, ?_⟩
  · intro r hr
    obtain ⟨_, _, _, _, _, _, _, rfl, _⟩ := hS r (List.mem_of_getElem? hr)
    rfl
  · intro s hs
    obtain ⟨_, _, _, _, _, _, _, rfl, _⟩ := hS s hs
    ext <;> simp [plateSection, V3.cross]
  · intro s hs
    obtain ⟨h3, h4⟩ := List.of_mem_zip hs
    obtain ⟨_, _, _, _, _, _, _, e1, hd⟩ := hS s.1 h3
    obtain ⟨_, _, _, _, _, _, _, e2, _⟩ := hS s.2 (List.mem_of_mem_tail h4)
    have hpos := fun h => hn h s.1 h3
    rw [e1] at hpos
    rw [e1, e2]
    exact plate_meshable _ _ _ _ _ _ _ _ _ _ _ _ _ _ _ hd hpos

/-- Non-vacuity: a symmetric three-section plate wing with a 30° aileron on the outer section. -/
example : ∃ w, Wing.create
    [plateSection 0 2 3 0 "symmetric" 4 "cosine", plateSection ⟨1, 3, 0⟩ 1.5 0 30 "asymmetric" 2 "uniform",
      plateSection ⟨2, 5, 1⟩ 1 (-2) 0 "symmetric" 8 "cosine"]
    ⟨5, 0, 1⟩ ⟨0, 1, 0⟩ true ⟨1, 0, 0⟩ 6 "uniform" = .ok w := by
  apply plateWing_accepted _ _ _ (by norm_num) _ (by simp) (by simp)
  · intro r hr; simp at hr; rw [← hr]; rfl
  · intro s hs
    simp only [List.mem_cons, List.not_mem_nil, or_false] at hs
    rcases hs with rfl | rfl | rfl
    · exact ⟨_, _, _, _, _, _, _, rfl, by norm_num⟩
    · exact ⟨_, _, _, _, _, _, _, rfl, by norm_num [abs_le]⟩
    · exact ⟨_, _, _, _, _, _, _, rfl, by norm_num⟩

/-- C17: a cross section is rejected (with `Exception`) exactly for a non-positive chord or an unknown name, and
an accepted one stores its arguments. -/
theorem C17_section (airfoil : Airfoil) (le : V3) (chord : ℝ) (n : V3) (twist : ℝ) (ty : String)
    (hinge deflection : ℝ) (count : ℕ) (sp : String) :
    let r := WingCrossSection.create airfoil le chord n twist ty hinge deflection count sp
    let valid := 0 < chord ∧ (ty = "symmetric" ∨ ty = "asymmetric") ∧ (sp = "cosine" ∨ sp = "uniform")
    (¬ valid → r = .error .exception) ∧
    (valid → ∃ s, r = .ok s ∧ s.airfoil = airfoil ∧ s.leadingEdge = le ∧ s.chord = chord ∧ s.unitNormal = n ∧
      s.twist = twist ∧ s.controlSurfaceType = ty ∧ s.hinge = hinge ∧ s.deflection = deflection ∧
      s.numSpanwisePanels = count ∧ s.spanwiseSpacing = sp) := by
  intro r valid
  constructor
  · intro h
    simp only [r, WingCrossSection.create]
    split_ifs with c1 c2 c3 <;> first | rfl | (exfalso; apply h; simp at c1 c2 c3; exact ⟨c1, c2, c3⟩)
  · rintro ⟨h1, h2, h3⟩
    simp only [r, WingCrossSection.create]
    rw [if_neg (by linarith), if_neg (not_not.mpr (by rcases h2 with h | h <;> simp [h])),
      if_neg (not_not.mpr (by rcases h3 with h | h <;> simp [h]))]
    exact ⟨_, rfl, rfl, rfl, rfl, rfl, rfl, rfl, rfl, rfl, rfl, rfl⟩

/-- C17: an airplane is rejected (with `Exception`) exactly when it has no wings; reference dimensions default to
the first wing's. -/
theorem C17_airplane (wings : List Wing) (ref : V3) (weight : ℝ) (s c b : Option ℝ) :
    (wings = [] ↔ Airplane.create wings ref weight s c b = .error .exception) ∧
    (∀ main rest, wings = main :: rest → ∃ a, Airplane.create wings ref weight s c b = .ok a ∧
      a.wings = wings ∧ a.xyzRef = ref ∧ a.weight = weight ∧
      (∀ v, s = some v → a.sRef = v) ∧ (s = none → a.sRef = main.projectedArea) ∧
      (∀ v, c = some v → a.cRef = v) ∧ (c = none → a.cRef = main.meanAerodynamicChord) ∧
      (∀ v, b = some v → a.bRef = v) ∧ (b = none → a.bRef = main.span)) := by
  constructor
  · cases wings <;> simp [Airplane.create]
  · rintro main rest rfl
    refine ⟨_, rfl, rfl, rfl, rfl, ?_, ?_, ?_, ?_, ?_, ?_⟩
    all_goals first | (rintro v rfl; rfl) | (rintro rfl; rfl)

theorem ofCoordinates_ne_exception (c : List (ℝ × ℝ)) : Airfoil.ofCoordinates c ≠ .error .exception := by
  have hb : ∀ f a b, bcast f a b ≠ .error .exception := by
    intro f a b; unfold bcast; split_ifs <;> simp
  unfold Airfoil.ofCoordinates
  split_ifs
  · simp
  · simp only [bind, Except.bind]
    split
    · rename_i e he; intro h; cases h; exact hb _ _ _ he
    · split
      · rename_i e he; intro h; cases h; exact hb _ _ _ he
      · simp [pure, Except.pure]

/-- C17: `add_control_surface` raises its documented `Exception` exactly for deflections outside [-90, 90]. -/
theorem C17_control_surface (a : Airfoil) (d h : ℝ) :
    a.addControlSurface d h = .error .exception ↔ 90 < |d| := by
  unfold Airfoil.addControlSurface
  rw [lt_abs]
  by_cases hd : d > 90 ∨ d < -90
  · rw [if_pos hd]
    simp only [true_iff]
    rcases hd with h | h
    · left; exact h
    · right; linarith
  · rw [if_neg hd]
    constructor
    · intro h
      simp only at h
      split at h
      · simp at h
      · exact absurd h (ofCoordinates_ne_exception _)
    · intro h
      exact absurd (by rcases h with h | h; left; exact h; right; linarith) hd

/-- The condition on the airfoils in `C17_wing_accepts` is needed: a hinge behind the airfoil's last camber point
makes `Wing(...)` fail with an `IndexError` although all documented requirements hold. -/
theorem C17_hinge_behind_airfoil :
    Wing.create [{ plateSection 0 1 0 0 "symmetric" 1 "cosine" with hinge := 1 },
      plateSection ⟨0, 1, 0⟩ 1 0 0 "symmetric" 1 "cosine"] 0 ⟨0, 1, 0⟩ false ⟨1, 0, 0⟩ 1 "uniform"
      = .error .indexError := by
  have hf : flatPlate.addControlSurface 0 1 = .error .indexError := by
    unfold Airfoil.addControlSurface
    rw [if_neg (by norm_num)]
    have : splitIndex flatPlate.mcl 1 = none := by simp [splitIndex, flatPlate, List.findIdx?_cons]
    rw [this]
  have hr : ∀ (w : WingSpec) (u : V3) (t : WingCrossSection), rightSection w
      { plateSection 0 1 0 0 "symmetric" 1 "cosine" with hinge := 1, wingUnitChordwise := u } t
      = .error .indexError := by
    intro w u t
    unfold rightSection
    simp only [plateSection, hf, bind, Except.bind]
  unfold Wing.create
  simp only
  rw [if_neg (by simp), if_neg (by simp [plateSection]), if_neg (by simp [plateSection]),
    if_neg (by simp [V3.dot]), if_neg]
  · simp only [meshWing, List.map_cons, List.map_nil, List.tail_cons, List.zip_cons_cons, List.zip_nil_right,
      List.foldlM_cons, meshStep, hr, bind, Except.bind]
  · rw [Bool.not_eq_true, List.any_eq_false]
    intro s hs
    have : s.unitNormal = ⟨0, 1, 0⟩ := by
      simp only [List.mem_cons, List.not_mem_nil, or_false] at hs
      rcases hs with rfl | rfl <;> rfl
    have h : ((⟨0, 1, 0⟩ : V3).cross s.unitNormal).cross ⟨1, 0, 0⟩ = 0 := by
      rw [this]; ext <;> simp [V3.cross]
    simpa using h

end Ptera
