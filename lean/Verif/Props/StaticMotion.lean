import Verif.Props.Flapping
import Verif.Props.Construction

/-!
# Property C29 (motionless movements) and the success of movement generation (C31)

`WingMovement.Proper wm S` says that `wm` moves an accepted wing with default unit vectors, made of fresh cross
sections `S` with the default unit normal, with documented spacings and a root that neither sweeps nor heaves. For such
movements generation succeeds for every positive number of steps. If nothing moves, the generated wings equal the base
wing if and only if every cross section is `Recoverable` from its inner neighbour: straight above or below it, or to its
right and displaced in at most one of x and z. So the property as stated fails: see the last section.
-/

namespace Ptera

noncomputable section

/-- The spacings `Oscillation.values` knows. -/
def Oscillation.Valid (o : Oscillation) : Prop := o.spacing = "sine" ∨ o.spacing = "uniform"

/-- The spacings of cross section movements. -/
def Oscillation.ValidCustom (o : Oscillation) : Prop :=
  o.spacing = "sine" ∨ o.spacing = "uniform" ∨ (o.spacing = "custom" ∧ ∃ f, o.custom = some f)

/-- No motion. -/
def Oscillation.Still (o : Oscillation) : Prop := o.amplitude = 0 ∨ o.period = 0

/-- An accepted wing with default unit vectors and documented oscillations. -/
structure WingMovement.Proper (wm : WingMovement) (S : List WingCrossSection) : Prop where
  base : Wing.create S wm.base.spec.leadingEdge ⟨0, 1, 0⟩ wm.base.spec.symmetric ⟨1, 0, 0⟩
    wm.base.spec.numChordwisePanels wm.base.spec.chordwiseSpacing = .ok wm.base
  fresh : ∀ s ∈ S, WingCrossSection.create s.airfoil s.leadingEdge s.chord ⟨0, 1, 0⟩ s.twist s.controlSurfaceType
    s.hinge s.deflection s.numSpanwisePanels s.spanwiseSpacing = .ok s
  bases : wm.sectionMovements.map (·.base) = wm.base.sections
  spacings : wm.xLe.Valid ∧ wm.yLe.Valid ∧ wm.zLe.Valid
  sectionSpacings : ∀ m ∈ wm.sectionMovements, m.sweeping.ValidCustom ∧ m.pitching.ValidCustom ∧
    m.heaving.ValidCustom
  root : ∀ m, wm.sectionMovements[0]? = some m → m.sweeping.amplitude = 0 ∧ m.sweeping.period = 0 ∧
    m.heaving.amplitude = 0 ∧ m.heaving.period = 0

theorem Oscillation.Valid.values_ok {o : Oscillation} (h : o.Valid) (b : ℝ) (n : ℕ) (dt : ℝ) :
    ∃ l, o.values b n dt = .ok l := by
  unfold Oscillation.values
  rcases h with h | h
  · rw [if_pos h]; exact ⟨_, rfl⟩
  · rw [if_neg (by rw [h]; decide), if_pos h]; exact ⟨_, rfl⟩

theorem Oscillation.Valid.values_still {o : Oscillation} (h : o.Valid) (hs : o.Still) (b : ℝ) (n : ℕ) (dt : ℝ) :
    o.values b n dt = .ok (List.replicate n b) := by
  have hs' : o.amplitude = 0 ∨ o.period = 0 := hs
  unfold Oscillation.values oscillatingSinspace oscillatingLinspace
  rw [if_pos hs', if_pos hs']
  rcases h with h | h
  · rw [if_pos h]; simp [constList]
  · rw [if_neg (by rw [h]; decide), if_pos h]; simp [constList]

theorem Oscillation.ValidCustom.values_ok {o : Oscillation} (h : o.ValidCustom) (b : ℝ) (n : ℕ) (dt : ℝ) :
    ∃ l, o.valuesCustom b n dt = .ok l := by
  unfold Oscillation.valuesCustom
  rcases h with h | h | ⟨h, f, hf⟩
  · rw [if_pos h]; exact ⟨_, rfl⟩
  · rw [if_neg (by rw [h]; decide), if_pos h]; exact ⟨_, rfl⟩
  · rw [if_neg (by rw [h]; decide), if_neg (by rw [h]; decide), if_pos h, hf]; exact ⟨_, rfl⟩

theorem Oscillation.ValidCustom.values_still {o : Oscillation} (h : o.ValidCustom) (hs : o.Still) (b : ℝ) (n : ℕ)
    (dt : ℝ) : o.valuesCustom b n dt = .ok (List.replicate n b) := by
  have hs' : o.amplitude = 0 ∨ o.period = 0 := hs
  unfold Oscillation.valuesCustom oscillatingSinspace oscillatingLinspace oscillatingCustomspace
  rw [if_pos hs', if_pos hs']
  rcases h with h | h | ⟨h, f, hf⟩
  · rw [if_pos h]; simp [constList]
  · rw [if_neg (by rw [h]; decide), if_pos h]; simp [constList]
  · rw [if_neg (by rw [h]; decide), if_neg (by rw [h]; decide), if_pos h, hf]; simp only [if_pos hs']; simp [constList]

/-! ## Generation succeeds -/

theorem mem_zip_tail {α : Type*} {l : List α} {p : α × α} :
    p ∈ List.zip l l.tail ↔ ∃ i : ℕ, l[i]? = some p.1 ∧ l[i + 1]? = some p.2 := by
  constructor
  · intro h
    obtain ⟨i, hi⟩ := List.mem_iff_getElem?.mp h
    rw [List.getElem?_zip_eq_some] at hi
    refine ⟨i, hi.1, ?_⟩
    have := hi.2
    rwa [List.getElem?_tail] at this
  · rintro ⟨i, h1, h2⟩
    refine List.mem_iff_getElem?.mpr ⟨i, ?_⟩
    rw [List.getElem?_zip_eq_some, List.getElem?_tail]
    exact ⟨h1, h2⟩

/-- What the fresh section's constructor accepted, a rebuilt one's accepts. -/
theorem rebuild_exists {b : WingCrossSection} {le₀ : V3} {tw₀ : ℝ} {n₀ : V3} {s₀ : WingCrossSection}
    (h : WingCrossSection.create b.airfoil le₀ b.chord n₀ tw₀ b.controlSurfaceType
      b.hinge b.deflection b.numSpanwisePanels b.spanwiseSpacing = .ok s₀) (le : V3) (tw : ℝ) :
    WingCrossSectionMovement.rebuild b le tw
      = .ok { b with leadingEdge := le, twist := tw, unitNormal := ⟨0, 1, 0⟩, wingUnitChordwise := 0 } := by
  unfold WingCrossSection.create at h
  unfold WingCrossSectionMovement.rebuild WingCrossSection.create
  split_ifs at h ⊢
  rfl

theorem WingCrossSectionMovement.generate_exists (m : WingCrossSectionMovement)
    (hv : m.sweeping.ValidCustom ∧ m.pitching.ValidCustom ∧ m.heaving.ValidCustom)
    {le₀ : V3} {tw₀ : ℝ} {n₀ : V3} {s₀ : WingCrossSection}
    (h : WingCrossSection.create m.base.airfoil le₀ m.base.chord n₀ tw₀ m.base.controlSurfaceType
      m.base.hinge m.base.deflection m.base.numSpanwisePanels m.base.spanwiseSpacing = .ok s₀)
    (n : ℕ) (dt : ℝ) (last : List V3) (vertical : Bool) (span sweep heave : ℝ) :
    ∃ l, m.generate n dt last vertical span sweep heave = .ok l := by
  obtain ⟨a, ha⟩ := hv.1.values_ok sweep n dt
  obtain ⟨b, hb⟩ := hv.2.1.values_ok m.base.twist n dt
  obtain ⟨c, hc⟩ := hv.2.2.values_ok heave n dt
  obtain ⟨r, hr⟩ := mapM_exists (l := List.range n) (f := fun k =>
    if vertical then rebuild m.base m.base.leadingEdge m.base.twist
    else rebuild m.base (movedLeadingEdge (last.getD k 0) span (a.getD k 0) (c.getD k 0)) (b.getD k 0)) (by
      intro k _
      split_ifs
      · exact ⟨_, rebuild_exists h _ _⟩
      · exact ⟨_, rebuild_exists h _ _⟩)
  unfold generate
  exact ⟨r, bind_ok.mpr ⟨a, ha, bind_ok.mpr ⟨b, hb, bind_ok.mpr ⟨c, hc, hr⟩⟩⟩⟩

theorem sectionHistories_exists (n : ℕ) (hn : 0 < n) (dt : ℝ) (ms : List WingCrossSectionMovement) :
    ∀ (last : Option (List WingCrossSection)),
    (∀ p, last = some p → p ≠ []) →
    (last = none → ∀ m, ms[0]? = some m → m.sweeping.amplitude = 0 ∧ m.sweeping.period = 0 ∧
      m.heaving.amplitude = 0 ∧ m.heaving.period = 0) →
    (∀ m ∈ ms, m.sweeping.ValidCustom ∧ m.pitching.ValidCustom ∧ m.heaving.ValidCustom) →
    (∀ m ∈ ms, ∃ le₀ tw₀ n₀ s₀, WingCrossSection.create m.base.airfoil le₀ m.base.chord n₀ tw₀
      m.base.controlSurfaceType m.base.hinge m.base.deflection m.base.numSpanwisePanels m.base.spanwiseSpacing
      = .ok s₀) →
    ∃ hs, WingMovement.sectionHistories n dt last ms = .ok hs := by
  induction ms with
  | nil => intros; exact ⟨[], rfl⟩
  | cons m ms ih =>
    intro last hl hr hv hc
    obtain ⟨le₀, tw₀, n₀, s₀, hs₀⟩ := hc m (by simp)
    have : ∃ h, WingMovement.sectionHistory n dt last m = .ok h := by
      unfold WingMovement.sectionHistory
      cases last with
      | none =>
        obtain ⟨h1, h2, h3, h4⟩ := hr rfl m (by simp)
        simp only
        rw [if_neg (by push Not; exact ⟨h1, h2, h3, h4⟩)]
        exact m.generate_exists (hv m (by simp)) hs₀ _ _ _ _ _ _ _
      | some prev =>
        cases prev with
        | nil => exact absurd rfl (hl _ rfl)
        | cons a l =>
          simp only
          split_ifs
          · exact m.generate_exists (hv m (by simp)) hs₀ _ _ _ _ _ _ _
          · exact m.generate_exists (hv m (by simp)) hs₀ _ _ _ _ _ _ _
    obtain ⟨h, hh⟩ := this
    have hlen := sectionHistory_length hh
    obtain ⟨rest, hrest⟩ := ih (some h) (by rintro p hp; cases hp; rintro rfl; simp at hlen; omega) (by simp)
      (fun x hx => hv x (by simp [hx])) (fun x hx => hc x (by simp [hx]))
    unfold WingMovement.sectionHistories
    exact ⟨h :: rest, bind_ok.mpr ⟨h, hh, bind_ok.mpr ⟨rest, hrest, pure_ok.mpr rfl⟩⟩⟩

theorem WingMovement.Proper.sections {wm : WingMovement} {S : List WingCrossSection} (h : wm.Proper S) :
    wm.base.sections = withChordwise ⟨1, 0, 0⟩ S ∧ WingDocumented S ⟨0, 1, 0⟩ ⟨1, 0, 0⟩ wm.base.spec.chordwiseSpacing
      ∧ 0 < wm.base.spec.numChordwisePanels ∧
      ∀ s ∈ List.zip S S.tail, Meshable wm.base.spec.symmetric s.1 s.2 := by
  obtain ⟨hs, ha⟩ := Wing.create_ok _ _ _ _ _ _ _ _ h.base
  have e : wm.base.spec.unitChordwise = ⟨1, 0, 0⟩ := by rw [hs]
  have hst := ha.stored
  rw [e] at hst
  exact ⟨hst, (C17_wing_accepts _ _ _ _ _ _ _).mp ⟨_, h.base⟩⟩

/-- The base of section movement `j` is section `j` of `S`, with the wing's chordwise vector. -/
theorem WingMovement.Proper.base_getElem? {wm : WingMovement} {S : List WingCrossSection} (h : wm.Proper S) (j : ℕ)
    (m : WingCrossSectionMovement) (hm : wm.sectionMovements[j]? = some m) :
    ∃ s, S[j]? = some s ∧ m.base = { s with wingUnitChordwise := ⟨1, 0, 0⟩ } := by
  have e := congrArg (·[j]?) h.bases
  simp only [List.getElem?_map, hm, Option.map_some, h.sections.1, withChordwise] at e
  cases hs : S[j]? with
  | none => rw [hs] at e; simp at e
  | some s => rw [hs] at e; exact ⟨s, rfl, by simpa using e⟩

theorem WingMovement.Proper.length {wm : WingMovement} {S : List WingCrossSection} (h : wm.Proper S) :
    wm.sectionMovements.length = S.length := by
  have := congrArg List.length h.bases
  rw [h.sections.1] at this
  simpa [withChordwise] using this

theorem WingMovement.Proper.histories {wm : WingMovement} {S : List WingCrossSection} (h : wm.Proper S) (n : ℕ)
    (hn : 0 < n) (dt : ℝ) :
    ∃ hs, WingMovement.sectionHistories n dt none wm.sectionMovements = .ok hs := by
  refine sectionHistories_exists n hn dt _ none (by simp) (fun _ => h.root) h.sectionSpacings ?_
  intro m hm
  obtain ⟨j, hj⟩ := List.mem_iff_getElem?.mp hm
  obtain ⟨s, hs, e⟩ := h.base_getElem? j m hj
  have hf := h.fresh s (List.mem_of_getElem? hs)
  rw [e]
  exact ⟨_, _, _, _, hf⟩

theorem movedLeadingEdge_zero (sweep heave : ℝ) :
    WingCrossSectionMovement.movedLeadingEdge 0 0 sweep heave = 0 := by
  ext <;> simp [WingCrossSectionMovement.movedLeadingEdge]

/-- Every generated section: the base section with another position and twist; the root at the origin. -/
theorem WingMovement.Proper.column {wm : WingMovement} {S : List WingCrossSection} (h : wm.Proper S) {n : ℕ}
    {dt : ℝ} {hs : List (List WingCrossSection)}
    (hh : WingMovement.sectionHistories n dt none wm.sectionMovements = .ok hs) (k : ℕ) (hk : k < n) :
    (hs.filterMap (·[k]?)).length = S.length ∧
    ∀ (j : ℕ) (s : WingCrossSection), S[j]? = some s → ∃ le tw, (hs.filterMap (·[k]?))[j]? = some { s with leadingEdge := le, twist := tw } ∧
      (j = 0 → le = 0) := by
  obtain ⟨hlen, hj⟩ := sectionHistories_ok hh
  have hlt : ∀ l ∈ hs, k < l.length := by
    intro l hl
    obtain ⟨i, hi⟩ := List.mem_iff_getElem?.mp hl
    have : i < wm.sectionMovements.length := by
      have := (List.getElem?_eq_some_iff.mp hi).1; omega
    obtain ⟨l', e1, e2, _⟩ := hj i _ (List.getElem?_eq_getElem this)
    rw [hi] at e1; rw [Option.some.inj e1]; omega
  refine ⟨by rw [column_length _ _ hlt, hlen, h.length], ?_⟩
  intro j s hs'
  have hjl : j < wm.sectionMovements.length := by
    have := (List.getElem?_eq_some_iff.mp hs').1; rw [h.length]; exact this
  obtain ⟨l, hl1, hl2, hl3⟩ := hj j _ (List.getElem?_eq_getElem hjl)
  obtain ⟨s', hs1, hb⟩ := h.base_getElem? j _ (List.getElem?_eq_getElem hjl)
  rw [hs'] at hs1
  obtain rfl := Option.some.inj hs1
  have hun : s.unitNormal = ⟨0, 1, 0⟩ ∧ s.wingUnitChordwise = 0 := by
    have := h.fresh s (List.mem_of_getElem? hs')
    unfold WingCrossSection.create at this
    split_ifs at this
    have := Except.ok.inj this
    rw [← this]
    exact ⟨rfl, rfl⟩
  rw [column_getElem? _ _ hlt, hl1]
  simp only [Option.bind_some]
  have fin : ∀ {s'' : WingCrossSection} {le : V3} {tw : ℝ}, WingCrossSectionMovement.rebuild
      wm.sectionMovements[j].base le tw = .ok s'' → s'' = { s with leadingEdge := le, twist := tw } := by
    intro s'' le tw hb'
    rw [rebuild_ok hb', hb, ← hun.1, ← hun.2]
  unfold WingMovement.sectionHistory at hl3
  by_cases hj0 : j = 0
  · rw [if_pos hj0] at hl3
    simp only at hl3
    split_ifs at hl3
    obtain ⟨sw, pi, he, _, _, _, _, hg⟩ := WingCrossSectionMovement.generate_ok hl3
    obtain ⟨s'', e1, e2⟩ := hg k hk
    simp only [Bool.false_eq_true, if_false] at e2
    refine ⟨_, _, by rw [e1, fin e2], fun _ => ?_⟩
    have : (List.replicate n (0 : V3)).getD k 0 = 0 := by simp [List.getD, hk]
    rw [this, movedLeadingEdge_zero]
  · rw [if_neg hj0] at hl3
    cases hp : hs[j - 1]? with
    | none => rw [List.getElem?_eq_none_iff] at hp; omega
    | some p =>
      rw [hp] at hl3
      cases p with
      | nil => simp at hl3
      | cons a b =>
        simp only at hl3
        split_ifs at hl3
        all_goals
          obtain ⟨sw, pi, he, _, _, _, _, hg⟩ := WingCrossSectionMovement.generate_ok hl3
          obtain ⟨s'', e1, e2⟩ := hg k hk
          simp only [Bool.false_eq_true, if_false, if_true] at e2
          exact ⟨_, _, by rw [e1, fin e2], fun e => absurd e hj0⟩

/-- C31: generating the wings of a proper movement succeeds for every positive number of steps: no oscillation makes
an accepted wing unacceptable. -/
theorem C31_wings_generated (wm : WingMovement) (S : List WingCrossSection) (h : wm.Proper S) (n : ℕ) (hn : 0 < n)
    (dt : ℝ) : ∃ wings, wm.generate n dt = .ok wings := by
  obtain ⟨xs, hx⟩ := h.spacings.1.values_ok wm.base.spec.leadingEdge.x n dt
  obtain ⟨ys, hy⟩ := h.spacings.2.1.values_ok wm.base.spec.leadingEdge.y n dt
  obtain ⟨zs, hz⟩ := h.spacings.2.2.values_ok wm.base.spec.leadingEdge.z n dt
  obtain ⟨hs, hh⟩ := h.histories n hn dt
  obtain ⟨_, doc, hm, hf⟩ := h.sections
  have key := mapM_exists (l := List.range n) (f := fun k =>
    Wing.create (hs.filterMap (·[k]?)) (leadingEdge := ⟨xs.getD k 0, ys.getD k 0, zs.getD k 0⟩)
      (symmetric := wm.base.spec.symmetric) (numChordwisePanels := wm.base.spec.numChordwisePanels)
      (chordwiseSpacing := wm.base.spec.chordwiseSpacing)) (by
    intro k hk
    rw [List.mem_range] at hk
    obtain ⟨hlen, hcol⟩ := h.column hh k hk
    rw [C17_wing_accepts]
    have hget : ∀ (j : ℕ) (t : WingCrossSection), (hs.filterMap (·[k]?))[j]? = some t → ∃ s le tw, S[j]? = some s ∧
        t = { s with leadingEdge := le, twist := tw } ∧ (j = 0 → le = 0) := by
      intro j t ht
      have : j < S.length := by rw [← hlen]; exact (List.getElem?_eq_some_iff.mp ht).1
      obtain ⟨le, tw, e1, e2⟩ := hcol j _ (List.getElem?_eq_getElem this)
      rw [ht] at e1
      exact ⟨_, le, tw, List.getElem?_eq_getElem this, Option.some.inj e1, e2⟩
    refine ⟨⟨by rw [hlen]; exact doc.two, doc.spacing, ?_, ?_, doc.perp, ?_⟩, hm, ?_⟩
    · intro r hr
      obtain ⟨s, le, tw, h1, rfl, _⟩ := hget 0 r hr
      exact doc.rootNormal s h1
    · intro r hr
      obtain ⟨s, le, tw, h1, rfl, h3⟩ := hget 0 r hr
      exact h3 rfl
    · intro t ht
      obtain ⟨j, hj⟩ := List.mem_iff_getElem?.mp ht
      obtain ⟨s, le, tw, h1, rfl, _⟩ := hget j t hj
      exact doc.normals s (List.mem_of_getElem? h1)
    · intro p hp
      obtain ⟨i, h1, h2⟩ := mem_zip_tail.mp hp
      obtain ⟨s, le, tw, h3, e3, _⟩ := hget i p.1 h1
      obtain ⟨t, le', tw', h4, e4, _⟩ := hget (i + 1) p.2 h2
      have := hf (s, t) (mem_zip_tail.mpr ⟨i, h3, h4⟩)
      rw [e3, e4]
      exact this)
  obtain ⟨wings, hw⟩ := key
  unfold WingMovement.generate
  exact ⟨wings, bind_ok.mpr ⟨xs, hx, bind_ok.mpr ⟨ys, hy, bind_ok.mpr ⟨zs, hz, bind_ok.mpr ⟨hs, hh, hw⟩⟩⟩⟩⟩

/-- C31: so does generating the airplanes. -/
theorem C31_airplanes_generated (am : AirplaneMovement) (hne : am.wingMovements ≠ [])
    (hw : ∀ wm ∈ am.wingMovements, ∃ S, wm.Proper S) (hx : am.xRef.Valid) (hy : am.yRef.Valid) (hz : am.zRef.Valid)
    (n : ℕ) (hn : 0 < n) (dt : ℝ) : ∃ as, am.generate n dt = .ok as := by
  obtain ⟨xs, hx⟩ := hx.values_ok am.base.xyzRef.x n dt
  obtain ⟨ys, hy⟩ := hy.values_ok am.base.xyzRef.y n dt
  obtain ⟨zs, hz⟩ := hz.values_ok am.base.xyzRef.z n dt
  obtain ⟨ws, hws⟩ := mapM_exists (l := am.wingMovements) (f := fun w => w.generate n dt) (by
    intro wm hm
    obtain ⟨S, hS⟩ := hw wm hm
    exact C31_wings_generated wm S hS n hn dt)
  have hlen : ∀ k < n, ∀ l ∈ ws, k < l.length := by
    intro k hk l hl
    obtain ⟨wm, _, e⟩ := mapM_mem' hws hl
    obtain ⟨_, _, _, _, _, _, _, _, e2, _⟩ := WingMovement.generate_ok e
    omega
  obtain ⟨as, has⟩ := mapM_exists (l := List.range n) (f := fun k =>
    Airplane.create (ws.filterMap (·[k]?)) (xyzRef := ⟨xs.getD k 0, ys.getD k 0, zs.getD k 0⟩)) (by
    intro k hk
    rw [List.mem_range] at hk
    have h1 := column_length ws k (hlen k hk)
    rw [mapM_length hws] at h1
    cases hc : ws.filterMap (·[k]?) with
    | nil => rw [hc] at h1; exact absurd (List.eq_nil_of_length_eq_zero (by simpa using h1.symm)) hne
    | cons a l => exact ⟨_, rfl⟩)
  unfold AirplaneMovement.generate
  exact ⟨as, bind_ok.mpr ⟨xs, hx, bind_ok.mpr ⟨ys, hy, bind_ok.mpr ⟨zs, hz, bind_ok.mpr ⟨ws, hws, has⟩⟩⟩⟩⟩

/-- C31: a movement with a given positive number of steps and a given time step, all of whose wing movements are
proper and all of whose spacings are documented, is accepted. -/
theorem C31_movement_accepted (ams : List AirplaneMovement) (om : OperatingPointMovement)
    (hne : ∀ am ∈ ams, am.wingMovements ≠ []) (hw : ∀ am ∈ ams, ∀ wm ∈ am.wingMovements, ∃ S, wm.Proper S)
    (hr : ∀ am ∈ ams, am.xRef.Valid ∧ am.yRef.Valid ∧ am.zRef.Valid) (hv : om.velocity.Valid)
    (n : ℕ) (hn : 0 < n) (dt : ℝ) :
    ∃ mv, Movement.create ams om (some n) none none (some dt) = .ok mv ∧ mv.numSteps = n ∧ mv.deltaTime = dt := by
  obtain ⟨as, has⟩ := mapM_exists (l := ams) (f := fun am => am.generate n dt) (by
    intro am ham
    obtain ⟨h1, h2, h3⟩ := hr am ham
    exact C31_airplanes_generated am (hne am ham) (hw am ham) h1 h2 h3 n hn dt)
  obtain ⟨vs, hvs⟩ := hv.values_ok om.base.velocity n dt
  have hops : ∃ ops, om.generate n dt = .ok ops := by
    unfold OperatingPointMovement.generate
    exact ⟨_, bind_ok.mpr ⟨vs, hvs, pure_ok.mpr rfl⟩⟩
  obtain ⟨ops, hops⟩ := hops
  have hc : checkRunLength (movementMaxPeriod ams om) (some n) none none = .ok () := by
    simp [checkRunLength, pure, Except.pure]
  refine ⟨⟨ams, om, n, dt, as, ops⟩, ?_, rfl, rfl⟩
  unfold Movement.create
  exact bind_ok.mpr ⟨(), hc, bind_ok.mpr ⟨dt, rfl, bind_ok.mpr ⟨n, rfl, bind_ok.mpr ⟨as, has,
    bind_ok.mpr ⟨ops, hops, pure_ok.mpr rfl⟩⟩⟩⟩⟩

/-- C27: a movement of airplanes whose wing movements are proper raises exactly when its arguments conflict. -/
theorem C27_raises_exactly (ams : List AirplaneMovement) (om : OperatingPointMovement) (P : ℝ)
    (hP : movementMaxPeriod ams om = .ok P) (hnn : ∀ p ∈ allPeriods ams om, 0 ≤ p)
    (hne : ∀ am ∈ ams, am.wingMovements ≠ []) (hw : ∀ am ∈ ams, ∀ wm ∈ am.wingMovements, ∃ S, wm.Proper S)
    (hr : ∀ am ∈ ams, am.xRef.Valid ∧ am.yRef.Valid ∧ am.zRef.Valid) (hv : om.velocity.Valid)
    (hvel : 0 < om.base.velocity) (hc : ∀ am ∈ ams, 0 < am.base.cRef)
    (hpan : ∀ am ∈ ams, ∃ w, am.base.wings.head? = some w ∧ 0 < w.spec.numChordwisePanels)
    (numSteps numCycles numChords : Option ℕ) (dt : Option ℝ) (hdt : ∀ d, dt = some d → 0 < d)
    (hpos : ∀ m, numSteps = some m ∨ numCycles = some m ∨ numChords = some m → 0 < m) :
    ((∃ mv, Movement.create ams om numSteps numCycles numChords dt = .ok mv) ↔
      ¬ ConflictingArguments P numSteps numCycles numChords) ∧
    (ConflictingArguments P numSteps numCycles numChords →
      Movement.create ams om numSteps numCycles numChords dt = .error .exception) := by
  have hrej := C27_rejects ams om P hP numSteps numCycles numChords dt
  refine ⟨⟨?_, fun h => ?_⟩, hrej⟩
  · rintro ⟨mv, hmv⟩ hcon
    rw [hrej hcon] at hmv
    simp at hmv
  · obtain ⟨n, d, _, hn, hiff, _⟩ := C27_accepts ams om P hP hnn hvel hc hpan numSteps numCycles numChords dt hdt h
    refine hiff.mpr ⟨fun am ham => ?_, ?_⟩
    · obtain ⟨h1, h2, h3⟩ := hr am ham
      exact C31_airplanes_generated am (hne am ham) (hw am ham) h1 h2 h3 n (hn hpos) d
    · obtain ⟨vs, hvs⟩ := hv.values_ok om.base.velocity n d
      unfold OperatingPointMovement.generate
      exact ⟨_, bind_ok.mpr ⟨vs, hvs, pure_ok.mpr rfl⟩⟩

/-! ## Motionless movements -/

/-- A position the two arctangents recover: straight above or below, or to the right and displaced in at most one of x
and z. -/
def Recoverable (inner outer : V3) : Prop :=
  outer.y = inner.y ∨ (inner.y < outer.y ∧ (outer.x = inner.x ∨ outer.z = inner.z))

theorem arctan_core {S A B a b y : ℝ} (hS : 0 < S) (hA : 0 < A) (hB : 0 < B) (hy : y ≠ 0)
    (ca2 : A ^ 2 * (1 + a ^ 2) = 1) (cb2 : B ^ 2 * (1 + b ^ 2) = 1) (hS2 : S ^ 2 = y ^ 2 * (1 + a ^ 2 + b ^ 2)) :
    (S * A * (b * B) = b * y ∧ S * A * B = y ∧ S * (a * A) = a * y) ↔ 0 < y ∧ (b = 0 ∨ a = 0) := by
  constructor
  · rintro ⟨_, h2, _⟩
    have hpos : 0 < y := by rw [← h2]; positivity
    refine ⟨hpos, ?_⟩
    have h3 : S ^ 2 * A ^ 2 * B ^ 2 = y ^ 2 := by rw [← h2]; ring
    have h4 : y ^ 2 * (1 + a ^ 2 + b ^ 2) = y ^ 2 * ((1 + a ^ 2) * (1 + b ^ 2)) := by
      have : S ^ 2 * (A ^ 2 * (1 + a ^ 2)) * (B ^ 2 * (1 + b ^ 2)) = y ^ 2 * ((1 + a ^ 2) * (1 + b ^ 2)) := by
        rw [← h3]; ring
      rw [ca2, cb2, mul_one, mul_one, hS2] at this
      exact this
    have h5 := mul_left_cancel₀ (pow_ne_zero 2 hy) h4
    have h6 : (a * b) ^ 2 = 0 := by nlinarith
    have h7 : a * b = 0 := by simpa using h6
    exact (mul_eq_zero.mp h7).symm
  · rintro ⟨hpos, hab⟩
    have hprod : (S * A * B) ^ 2 = y ^ 2 := by
      have h3 : (1 + a ^ 2 + b ^ 2) = (1 + a ^ 2) * (1 + b ^ 2) := by
        rcases hab with h | h <;> rw [h] <;> ring
      have : (S * A * B) ^ 2 = y ^ 2 * (A ^ 2 * (1 + a ^ 2)) * (B ^ 2 * (1 + b ^ 2)) := by
        rw [mul_pow, mul_pow, hS2, h3]; ring
      rw [this, ca2, cb2]; ring
    have hSAB : S * A * B = y := (sq_eq_sq₀ (by positivity) hpos.le).mp hprod
    refine ⟨by rw [← hSAB]; ring, hSAB, ?_⟩
    rcases hab with h | h
    · have hB1 : B = 1 := by
        rw [h] at cb2
        have : B ^ 2 = 1 := by simpa using cb2
        exact (pow_eq_one_iff_of_nonneg hB.le (by norm_num)).mp this
      rw [hB1, mul_one] at hSAB
      rw [← hSAB]; ring
    · rw [h]; ring

/-- C29: the position computed from the base sweep and heave angles is the base position exactly when the base position
is to the right and displaced in at most one of x and z. -/
theorem C29_leading_edge_iff (inner outer : V3) (hy : outer.y ≠ inner.y) :
    let d := outer - inner
    WingCrossSectionMovement.movedLeadingEdge inner (Real.sqrt (d.x ^ 2 + d.y ^ 2 + d.z ^ 2))
      (Real.arctan (d.z / d.y) * 180 / Real.pi) (Real.arctan (d.x / d.y) * 180 / Real.pi) = outer ↔
    (inner.y < outer.y ∧ (outer.x = inner.x ∨ outer.z = inner.z)) := by
  intro d
  have hdy : d.y ≠ 0 := by simpa [d, sub_eq_zero] using hy
  have hpi := Real.pi_ne_zero
  have e1 : ∀ t : ℝ, t * 180 / Real.pi * Real.pi / 180 = t := by intro t; field_simp
  have hout : outer = inner + d := by ext <;> simp [d]
  have hx : outer.x = inner.x + d.x := by simp [d]
  have hyy : outer.y = inner.y + d.y := by simp [d]
  have hz : outer.z = inner.z + d.z := by simp [d]
  set S := Real.sqrt (d.x ^ 2 + d.y ^ 2 + d.z ^ 2) with hS
  have hSpos : 0 < S := by
    rw [hS]; apply Real.sqrt_pos.mpr
    have : 0 < d.y ^ 2 := by positivity
    positivity
  have hS2 : S ^ 2 = d.x ^ 2 + d.y ^ 2 + d.z ^ 2 := Real.sq_sqrt (by positivity)
  set a := d.z / d.y with ha
  set b := d.x / d.y with hb
  have hz' : d.z = a * d.y := by rw [ha]; field_simp
  have hx' : d.x = b * d.y := by rw [hb]; field_simp
  have key : WingCrossSectionMovement.movedLeadingEdge inner S (Real.arctan a * 180 / Real.pi)
      (Real.arctan b * 180 / Real.pi) = outer ↔
      (S * Real.cos (Real.arctan a) * Real.sin (Real.arctan b) = d.x ∧
       S * Real.cos (Real.arctan a) * Real.cos (Real.arctan b) = d.y ∧ S * Real.sin (Real.arctan a) = d.z) := by
    unfold WingCrossSectionMovement.movedLeadingEdge
    rw [e1, e1, V3.ext_iff, hx, hyy, hz]
    simp
  rw [key]
  have ca := Real.cos_arctan_pos a
  have cb := Real.cos_arctan_pos b
  have ca2 : Real.cos (Real.arctan a) ^ 2 * (1 + a ^ 2) = 1 := by
    rw [Real.cos_sq_arctan]; field_simp
  have cb2 : Real.cos (Real.arctan b) ^ 2 * (1 + b ^ 2) = 1 := by
    rw [Real.cos_sq_arctan]; field_simp
  have sa : Real.sin (Real.arctan a) = a * Real.cos (Real.arctan a) := by
    rw [Real.sin_arctan, Real.cos_arctan]; ring
  have sb : Real.sin (Real.arctan b) = b * Real.cos (Real.arctan b) := by
    rw [Real.sin_arctan, Real.cos_arctan]; ring
  have hS2' : S ^ 2 = d.y ^ 2 * (1 + a ^ 2 + b ^ 2) := by rw [hS2, hz', hx']; ring
  rw [sa, sb, hx, hyy, hz, hx', hz', arctan_core hSpos ca cb hdy ca2 cb2 hS2']
  simp [hdy]

/-- The history of one motionless section. -/
theorem sectionHistory_still (n : ℕ) (hn : 0 < n) (dt : ℝ) (inner s : WingCrossSection) (m : WingCrossSectionMovement)
    (hf : WingCrossSection.create s.airfoil s.leadingEdge s.chord ⟨0, 1, 0⟩ s.twist s.controlSurfaceType
      s.hinge s.deflection s.numSpanwisePanels s.spanwiseSpacing = .ok s)
    (hb : m.base = { s with wingUnitChordwise := ⟨1, 0, 0⟩ })
    (hv : m.sweeping.ValidCustom ∧ m.pitching.ValidCustom ∧ m.heaving.ValidCustom)
    (hs : m.sweeping.Still ∧ m.pitching.Still ∧ m.heaving.Still) :
    WingMovement.sectionHistory n dt (some (List.replicate n inner)) m = .ok (List.replicate n s) ↔
      Recoverable inner.leadingEdge s.leadingEdge := by
  obtain ⟨n, rfl⟩ : ∃ n', n = n' + 1 := ⟨n - 1, by omega⟩
  have hun : s.unitNormal = ⟨0, 1, 0⟩ ∧ s.wingUnitChordwise = 0 := by
    unfold WingCrossSection.create at hf
    split_ifs at hf
    have := Except.ok.inj hf
    rw [← this]
    exact ⟨rfl, rfl⟩
  have hle : m.base.leadingEdge = s.leadingEdge := by rw [hb]
  have htw : m.base.twist = s.twist := by rw [hb]
  have hreb : ∀ le tw, WingCrossSectionMovement.rebuild m.base le tw = .ok { s with leadingEdge := le, twist := tw } := by
    intro le tw
    have := rebuild_exists (b := m.base) (by rw [hb]; exact hf) le tw
    rw [this, hb, ← hun.1, ← hun.2]
  unfold WingMovement.sectionHistory
  simp only [List.replicate_succ]
  rw [hle]
  by_cases hy : s.leadingEdge.y ≠ inner.leadingEdge.y
  · rw [if_pos hy]
    unfold WingCrossSectionMovement.generate
    rw [hv.1.values_still hs.1, hv.2.1.values_still hs.2.1, hv.2.2.values_still hs.2.2]
    simp only [bind, Except.bind, Bool.false_eq_true, if_false, hreb, htw]
    have hmap : ∀ k ∈ List.range (n + 1), (Except.ok (ε := Err)
        { s with
          leadingEdge := WingCrossSectionMovement.movedLeadingEdge
            (((inner :: List.replicate n inner).map (·.leadingEdge)).getD k 0)
            (Real.sqrt ((s.leadingEdge - inner.leadingEdge).x ^ 2 + (s.leadingEdge - inner.leadingEdge).y ^ 2
              + (s.leadingEdge - inner.leadingEdge).z ^ 2))
            ((List.replicate (n + 1) (Real.arctan ((s.leadingEdge - inner.leadingEdge).z
              / (s.leadingEdge - inner.leadingEdge).y) * 180 / Real.pi)).getD k 0)
            ((List.replicate (n + 1) (Real.arctan ((s.leadingEdge - inner.leadingEdge).x
              / (s.leadingEdge - inner.leadingEdge).y) * 180 / Real.pi)).getD k 0)
          twist := (List.replicate (n + 1) s.twist).getD k 0 })
        = .ok { s with
          leadingEdge := WingCrossSectionMovement.movedLeadingEdge inner.leadingEdge
            (Real.sqrt ((s.leadingEdge - inner.leadingEdge).x ^ 2 + (s.leadingEdge - inner.leadingEdge).y ^ 2
              + (s.leadingEdge - inner.leadingEdge).z ^ 2))
            (Real.arctan ((s.leadingEdge - inner.leadingEdge).z
              / (s.leadingEdge - inner.leadingEdge).y) * 180 / Real.pi)
            (Real.arctan ((s.leadingEdge - inner.leadingEdge).x
              / (s.leadingEdge - inner.leadingEdge).y) * 180 / Real.pi) } := by
      intro k hk
      rw [List.mem_range] at hk
      have g : ∀ {α : Type} (a d : α), (List.replicate (n + 1) a).getD k d = a := by
        intro α a d; rw [List.getD_eq_getElem?_getD, List.getElem?_replicate, if_pos hk]; rfl
      rw [← List.replicate_succ, List.map_replicate, g, g, g, g]
    rw [mapM_const hmap, List.length_range, ← List.replicate_succ]
    rw [Except.ok.injEq, List.replicate_right_inj (by omega)]
    have iff := C29_leading_edge_iff inner.leadingEdge s.leadingEdge hy
    simp only at iff
    constructor
    · intro e
      exact Or.inr (iff.mp (congrArg WingCrossSection.leadingEdge e))
    · intro e
      have e' := iff.mpr (e.resolve_left hy)
      rw [e']
  · rw [if_neg hy]
    rw [not_not] at hy
    refine iff_of_true ?_ (Or.inl hy)
    unfold WingCrossSectionMovement.generate
    rw [hv.1.values_still hs.1, hv.2.1.values_still hs.2.1, hv.2.2.values_still hs.2.2]
    simp only [bind, Except.bind, if_true, hreb, hle, htw]
    rw [mapM_const (b := s) (by intro k _; rfl), List.length_range, List.replicate_succ]

/-- The history of a motionless root. -/
theorem sectionHistory_root_still (n : ℕ) (dt : ℝ) (s : WingCrossSection) (m : WingCrossSectionMovement)
    (h : List WingCrossSection) (hl : s.leadingEdge = 0) (hun : s.unitNormal = ⟨0, 1, 0⟩ ∧ s.wingUnitChordwise = 0)
    (hb : m.base = { s with wingUnitChordwise := ⟨1, 0, 0⟩ }) (hv : m.pitching.ValidCustom) (hs : m.pitching.Still)
    (hh : WingMovement.sectionHistory n dt none m = .ok h) : h = List.replicate n s := by
  unfold WingMovement.sectionHistory at hh
  simp only at hh
  split_ifs at hh
  obtain ⟨sw, pi, he, _, hp, _, hlen, hg⟩ := WingCrossSectionMovement.generate_ok hh
  rw [hv.values_still hs] at hp
  have hp := Except.ok.inj hp
  apply List.ext_getElem?
  intro k
  by_cases hk : k < n
  · obtain ⟨s', e1, e2⟩ := hg k hk
    simp only [Bool.false_eq_true, if_false] at e2
    rw [e1, List.getElem?_replicate, if_pos hk, rebuild_ok e2, ← hp]
    have g : ∀ {α : Type} (a d : α), (List.replicate n a).getD k d = a := by
      intro α a d; rw [List.getD_eq_getElem?_getD, List.getElem?_replicate, if_pos hk]; rfl
    rw [g, g, movedLeadingEdge_zero, hb, ← hun.1]
    have e3 := hun.2
    cases s
    simp only at hl e3 ⊢
    rw [hl, e3]
  · rw [List.getElem?_replicate, if_neg hk, List.getElem?_eq_none_iff]; omega

/-- Nothing moves. -/
structure WingMovement.Still (wm : WingMovement) : Prop where
  position : wm.xLe.Still ∧ wm.yLe.Still ∧ wm.zLe.Still
  sections : ∀ m ∈ wm.sectionMovements, m.sweeping.Still ∧ m.pitching.Still ∧ m.heaving.Still

theorem WingMovement.Proper.fresh' {wm : WingMovement} {S : List WingCrossSection} (h : wm.Proper S) :
    ∀ s ∈ S, s.unitNormal = ⟨0, 1, 0⟩ ∧ s.wingUnitChordwise = 0 := by
  intro s hs
  have := h.fresh s hs
  unfold WingCrossSection.create at this
  split_ifs at this
  have := Except.ok.inj this
  rw [← this]
  exact ⟨rfl, rfl⟩

/-- The histories of a motionless movement are constant exactly when all positions are recoverable. -/
theorem histories_still {wm : WingMovement} {S : List WingCrossSection} (h : wm.Proper S) (hs : wm.Still) (n : ℕ)
    (hn : 0 < n) (dt : ℝ) {H : List (List WingCrossSection)}
    (hH : WingMovement.sectionHistories n dt none wm.sectionMovements = .ok H) :
    H = S.map (List.replicate n) ↔ ∀ p ∈ List.zip S S.tail, Recoverable p.1.leadingEdge p.2.leadingEdge := by
  obtain ⟨hlen, hj⟩ := sectionHistories_ok hH
  have hget : ∀ (j : ℕ) (s : WingCrossSection), S[j]? = some s → ∃ m l, m ∈ wm.sectionMovements ∧
      m.base = { s with wingUnitChordwise := ⟨1, 0, 0⟩ } ∧ H[j]? = some l ∧
      WingMovement.sectionHistory n dt (if j = 0 then none else H[j - 1]?) m = .ok l := by
    intro j s hsj
    have hjl : j < wm.sectionMovements.length := by
      have := (List.getElem?_eq_some_iff.mp hsj).1; rw [h.length]; exact this
    obtain ⟨l, e1, _, e3⟩ := hj j _ (List.getElem?_eq_getElem hjl)
    obtain ⟨s', e4, e5⟩ := h.base_getElem? j _ (List.getElem?_eq_getElem hjl)
    rw [hsj] at e4
    rw [← Option.some.inj e4] at e5
    exact ⟨_, l, List.getElem_mem hjl, e5, e1, e3⟩
  constructor
  · intro e p hp
    obtain ⟨i, h1, h2⟩ := mem_zip_tail.mp hp
    obtain ⟨m, l, hm, hb, hl, hh⟩ := hget (i + 1) p.2 h2
    rw [if_neg (by omega), Nat.add_sub_cancel] at hh
    rw [e, List.getElem?_map, h2] at hl
    rw [e, List.getElem?_map, h1] at hh
    rw [← Option.some.inj hl] at hh
    exact (sectionHistory_still n hn dt p.1 p.2 m (h.fresh _ (List.mem_of_getElem? h2)) hb
      (h.sectionSpacings m hm) (hs.sections m hm)).mp hh
  · intro hr
    have key : ∀ (j : ℕ) (s : WingCrossSection), S[j]? = some s → H[j]? = some (List.replicate n s) := by
      intro j
      induction j with
      | zero =>
        intro s hsj
        obtain ⟨m, l, hm, hb, hl, hh⟩ := hget 0 s hsj
        rw [if_pos rfl] at hh
        rw [hl, sectionHistory_root_still n dt s m l (h.sections.2.1.rootLE s hsj)
          (h.fresh' s (List.mem_of_getElem? hsj)) hb (h.sectionSpacings m hm).2.1 (hs.sections m hm).2.1 hh]
      | succ j ih =>
        intro s hsj
        obtain ⟨m, l, hm, hb, hl, hh⟩ := hget (j + 1) s hsj
        rw [if_neg (by omega), Nat.add_sub_cancel] at hh
        have hjlt : j < S.length := by have := (List.getElem?_eq_some_iff.mp hsj).1; omega
        have hin := List.getElem?_eq_getElem hjlt
        rw [ih _ hin, (sectionHistory_still n hn dt S[j] s m (h.fresh _ (List.mem_of_getElem? hsj)) hb
          (h.sectionSpacings m hm) (hs.sections m hm)).mpr (hr (S[j], s) (mem_zip_tail.mpr ⟨j, hin, hsj⟩))] at hh
        rw [hl, Except.ok.inj hh]
    apply List.ext_getElem?
    intro j
    rw [List.getElem?_map]
    cases hsj : S[j]? with
    | some s => rw [key j s hsj]; rfl
    | none =>
      rw [List.getElem?_eq_none_iff] at hsj
      rw [Option.map_none, List.getElem?_eq_none_iff, hlen, h.length]; exact hsj

/-- C29: a motionless proper wing movement generates the base wing at every step (cross sections, mesh and all) exactly
when every cross section's position is recoverable from its inner neighbour's. -/
theorem C29_static_wing_partial (wm : WingMovement) (S : List WingCrossSection) (h : wm.Proper S) (hs : wm.Still)
    (n : ℕ) (hn : 0 < n) (dt : ℝ) :
    wm.generate n dt = .ok (List.replicate n wm.base) ↔
      ∀ p ∈ List.zip S S.tail, Recoverable p.1.leadingEdge p.2.leadingEdge := by
  obtain ⟨H, hH⟩ := h.histories n hn dt
  rw [← histories_still h hs n hn dt hH]
  have hx := h.spacings.1.values_still hs.position.1 wm.base.spec.leadingEdge.x n dt
  have hy := h.spacings.2.1.values_still hs.position.2.1 wm.base.spec.leadingEdge.y n dt
  have hz := h.spacings.2.2.values_still hs.position.2.2 wm.base.spec.leadingEdge.z n dt
  have g : ∀ k < n, ∀ {α : Type} (a d : α), (List.replicate n a).getD k d = a := by
    intro k hk α a d; rw [List.getD_eq_getElem?_getD, List.getElem?_replicate, if_pos hk]; rfl
  constructor
  · intro e
    obtain ⟨xs, ys, zs, H', _, _, _, hH', _, hk⟩ := WingMovement.generate_ok e
    rw [hH] at hH'
    obtain rfl := Except.ok.inj hH'
    -- every column is `S`
    have hcol : ∀ k < n, H.filterMap (·[k]?) = S := by
      intro k hkn
      obtain ⟨w, hw, hc⟩ := hk k hkn
      rw [List.getElem?_replicate, if_pos hkn] at hw
      rw [← Option.some.inj hw] at hc
      obtain ⟨hspec, hacc⟩ := Wing.create_ok _ _ _ _ _ _ _ _ hc
      have hst := hacc.stored
      rw [hspec, h.sections.1] at hst
      obtain ⟨hl, hget⟩ := h.column hH k hkn
      apply List.ext_getElem?
      intro j
      cases hsj : S[j]? with
      | none => rw [List.getElem?_eq_none_iff] at hsj ⊢; omega
      | some s =>
        obtain ⟨le, tw, e1, _⟩ := hget j s hsj
        have e2 := congrArg (·[j]?) hst
        simp only [withChordwise, List.getElem?_map, hsj, e1, Option.map_some] at e2
        have e3 := Option.some.inj e2
        rw [e1]
        have e4 := congrArg WingCrossSection.leadingEdge e3
        have e5 := congrArg WingCrossSection.twist e3
        simp only at e4 e5
        rw [← e4, ← e5]
    obtain ⟨hlen, hj⟩ := sectionHistories_ok hH
    have hlt : ∀ k < n, ∀ l ∈ H, k < l.length := by
      intro k hkn l hl
      obtain ⟨i, hi⟩ := List.mem_iff_getElem?.mp hl
      have : i < wm.sectionMovements.length := by
        have := (List.getElem?_eq_some_iff.mp hi).1; omega
      obtain ⟨l', e1, e2, _⟩ := hj i _ (List.getElem?_eq_getElem this)
      rw [hi] at e1; rw [Option.some.inj e1]; omega
    apply List.ext_getElem?
    intro j
    rw [List.getElem?_map]
    cases hsj : S[j]? with
    | none =>
      rw [List.getElem?_eq_none_iff] at hsj
      rw [Option.map_none, List.getElem?_eq_none_iff, hlen, h.length]; exact hsj
    | some s =>
      have hjl : j < wm.sectionMovements.length := by
        have := (List.getElem?_eq_some_iff.mp hsj).1; rw [h.length]; exact this
      obtain ⟨l, e1, e2, _⟩ := hj j _ (List.getElem?_eq_getElem hjl)
      rw [e1, Option.map_some, Option.some.injEq]
      apply List.ext_getElem?
      intro k
      by_cases hkn : k < n
      · have := congrArg (·[j]?) (hcol k hkn)
        rw [column_getElem? _ _ (hlt k hkn), e1, hsj] at this
        rw [List.getElem?_replicate, if_pos hkn]
        exact this
      · rw [List.getElem?_replicate, if_neg hkn, List.getElem?_eq_none_iff]; omega
  · intro e
    subst e
    unfold WingMovement.generate
    refine bind_ok.mpr ⟨_, hx, bind_ok.mpr ⟨_, hy, bind_ok.mpr ⟨_, hz, bind_ok.mpr ⟨_, hH, ?_⟩⟩⟩⟩
    have := mapM_const (l := List.range n) (b := wm.base) (f := fun k =>
      Wing.create ((S.map (List.replicate n)).filterMap (·[k]?))
        (leadingEdge := ⟨(List.replicate n wm.base.spec.leadingEdge.x).getD k 0,
          (List.replicate n wm.base.spec.leadingEdge.y).getD k 0,
          (List.replicate n wm.base.spec.leadingEdge.z).getD k 0⟩)
        (symmetric := wm.base.spec.symmetric) (numChordwisePanels := wm.base.spec.numChordwisePanels)
        (chordwiseSpacing := wm.base.spec.chordwiseSpacing)) (by
      intro k hk
      rw [List.mem_range] at hk
      rw [g k hk, g k hk, g k hk, column_map_replicate S n k hk]
      exact h.base)
    rw [List.length_range] at this
    exact this

/-- C29: a motionless airplane whose wings are motionless and recoverable, made with the default weight and reference
dimensions, is reproduced at every step. -/
theorem C29_static_airplane_partial (am : AirplaneMovement)
    (hbase : Airplane.create am.base.wings am.base.xyzRef = .ok am.base)
    (hwings : am.wingMovements.map (·.base) = am.base.wings)
    (hw : ∀ wm ∈ am.wingMovements, ∃ S, wm.Proper S ∧ wm.Still ∧
      ∀ p ∈ List.zip S S.tail, Recoverable p.1.leadingEdge p.2.leadingEdge)
    (hv : am.xRef.Valid ∧ am.yRef.Valid ∧ am.zRef.Valid) (hs : am.xRef.Still ∧ am.yRef.Still ∧ am.zRef.Still)
    (n : ℕ) (hn : 0 < n) (dt : ℝ) : am.generate n dt = .ok (List.replicate n am.base) := by
  have hx := hv.1.values_still hs.1 am.base.xyzRef.x n dt
  have hy := hv.2.1.values_still hs.2.1 am.base.xyzRef.y n dt
  have hz := hv.2.2.values_still hs.2.2 am.base.xyzRef.z n dt
  have hws : am.wingMovements.mapM (fun w => w.generate n dt)
      = .ok ((am.wingMovements.map (·.base)).map (List.replicate n)) := by
    rw [mapM_forall₂]
    rw [List.map_map, List.forall₂_map_right_iff, List.forall₂_same]
    intro wm hm
    obtain ⟨S, h1, h2, h3⟩ := hw wm hm
    exact (C29_static_wing_partial wm S h1 h2 n hn dt).mpr h3
  unfold AirplaneMovement.generate
  refine bind_ok.mpr ⟨_, hx, bind_ok.mpr ⟨_, hy, bind_ok.mpr ⟨_, hz, bind_ok.mpr ⟨_, hws, ?_⟩⟩⟩⟩
  have g : ∀ k < n, ∀ {α : Type} (a d : α), (List.replicate n a).getD k d = a := by
    intro k hk α a d; rw [List.getD_eq_getElem?_getD, List.getElem?_replicate, if_pos hk]; rfl
  have := mapM_const (l := List.range n) (b := am.base) (f := fun k =>
    Airplane.create (((am.wingMovements.map (·.base)).map (List.replicate n)).filterMap (·[k]?))
      (xyzRef := ⟨(List.replicate n am.base.xyzRef.x).getD k 0, (List.replicate n am.base.xyzRef.y).getD k 0,
        (List.replicate n am.base.xyzRef.z).getD k 0⟩)) (by
    intro k hk
    rw [List.mem_range] at hk
    rw [g k hk, g k hk, g k hk, column_map_replicate _ n k hk, hwings]
    exact hbase)
  rw [List.length_range] at this
  exact this

/-- C29: a motionless operating point with the default external thrust and viscosity is reproduced at every step. -/
theorem C29_static_operating_point_partial (om : OperatingPointMovement) (hv : om.velocity.Valid)
    (hs : om.velocity.Still) (n : ℕ) (dt : ℝ) :
    om.generate n dt = .ok (List.replicate n { om.base with externalThrust := 0.0, nu := 15.06e-6 }) := by
  unfold OperatingPointMovement.generate
  refine bind_ok.mpr ⟨_, hv.values_still hs _ n dt, pure_ok.mpr ?_⟩
  apply List.ext_getElem?
  intro k
  by_cases hk : k < n
  · simp [List.getElem?_replicate, hk, List.getD_eq_getElem?_getD]
  · simp [List.getElem?_replicate, hk]

/-! ## Where the property fails -/

/-- C29 fails: a motionless operating point loses its external thrust and its viscosity. -/
theorem C29_operating_point_fails (n : ℕ) (hn : 0 < n) (dt thrust nu : ℝ) (h : thrust ≠ 0 ∨ nu ≠ 15.06e-6) :
    let om : OperatingPointMovement := { base := { externalThrust := thrust, nu := nu } }
    om.velocity.Still ∧ ∃ ops, om.generate n dt = .ok ops ∧ ops ≠ [] ∧ ∀ op ∈ ops, op ≠ om.base := by
  intro om
  refine ⟨Or.inl rfl, _, C29_static_operating_point_partial om (Or.inl rfl) (Or.inl rfl) n dt,
    by simp; omega, ?_⟩
  intro op hop e
  rw [List.mem_replicate] at hop
  rw [hop.2] at e
  have e1 := congrArg OperatingPoint.externalThrust e
  have e2 := congrArg OperatingPoint.nu e
  simp only [om] at e1 e2
  rcases h with h | h
  · apply h; rw [← e1]; norm_num
  · exact h e2.symm

/-- C29 fails: every generated airplane has weight 0 and reference dimensions taken from its first wing, whatever the
base airplane's. -/
theorem C29_airplane_drops_references (am : AirplaneMovement) (n : ℕ) (dt : ℝ) (as : List Airplane)
    (h : am.generate n dt = .ok as) : ∀ a ∈ as, a.weight = 0 ∧ ∃ main rest, a.wings = main :: rest ∧
      a.sRef = main.projectedArea ∧ a.cRef = main.meanAerodynamicChord ∧ a.bRef = main.span := by
  obtain ⟨_, _, _, ws, _, _, _, _, hl, hk⟩ := AirplaneMovement.generate_ok h
  intro a ha
  obtain ⟨k, hk'⟩ := List.mem_iff_getElem?.mp ha
  obtain ⟨a', h1, h2⟩ := hk k (by have := (List.getElem?_eq_some_iff.mp hk').1; omega)
  rw [hk'] at h1
  rw [← Option.some.inj h1] at h2
  unfold Airplane.create at h2
  split at h2
  · cases h2
  · rename_i main rest e
    rw [← Except.ok.inj h2]
    exact ⟨rfl, main, rest, e, rfl, rfl, rfl⟩

/-- The motionless movement of the plate wing from the origin to `tip`. -/
def plateMovement (w : Wing) : WingMovement :=
  { base := w, sectionMovements := w.sections.map fun s => { base := s } }

theorem plateMovement_proper (tip : V3) (m : ℕ) (hm : 0 < m) :
    let S := [plateSection 0 1 0 0 "symmetric" 4 "cosine", plateSection tip 1 0 0 "symmetric" 4 "cosine"]
    ∃ w, Wing.create S 0 ⟨0, 1, 0⟩ true ⟨1, 0, 0⟩ m "uniform" = .ok w ∧ (plateMovement w).Proper S ∧
      (plateMovement w).Still := by
  intro S
  have hS : ∀ s ∈ S, ∃ le, s = plateSection le 1 0 0 "symmetric" 4 "cosine" := by
    intro s hs
    simp only [S, List.mem_cons, List.not_mem_nil, or_false] at hs
    rcases hs with rfl | rfl
    · exact ⟨_, rfl⟩
    · exact ⟨_, rfl⟩
  obtain ⟨w, hw⟩ := plateWing_accepted S true m hm "uniform" (by simp) (by simp [S])
    (by intro r hr; simp [S] at hr; rw [← hr]; rfl)
    (by intro s hs; obtain ⟨le, rfl⟩ := hS s hs; exact ⟨_, _, _, _, _, _, _, rfl, by norm_num⟩) 0
    (by intro _ s hs; obtain ⟨le, rfl⟩ := hS s hs; simp [plateSection])
  obtain ⟨hspec, hacc⟩ := Wing.create_ok _ _ _ _ _ _ _ _ hw
  refine ⟨w, hw, ⟨?_, ?_, ?_, ?_, ?_, ?_⟩, ⟨⟨Or.inl rfl, Or.inl rfl, Or.inl rfl⟩, ?_⟩⟩
  · simp only [plateMovement, hspec]; exact hw
  · intro s hs
    obtain ⟨le, rfl⟩ := hS s hs
    unfold WingCrossSection.create
    rw [if_neg (by simp [plateSection]), if_neg (by simp [plateSection]), if_neg (by simp [plateSection])]
    rfl
  · simp [plateMovement, Function.comp_def]
  · exact ⟨Or.inl rfl, Or.inl rfl, Or.inl rfl⟩
  · intro m' hm'
    simp only [plateMovement, List.mem_map] at hm'
    obtain ⟨s, _, rfl⟩ := hm'
    exact ⟨Or.inl rfl, Or.inl rfl, Or.inl rfl⟩
  · intro m' hm'
    simp only [plateMovement, List.getElem?_map, Option.map_eq_some_iff] at hm'
    obtain ⟨s, _, rfl⟩ := hm'
    exact ⟨rfl, rfl, rfl, rfl⟩
  · intro m' hm'
    simp only [plateMovement, List.mem_map] at hm'
    obtain ⟨s, _, rfl⟩ := hm'
    exact ⟨Or.inl rfl, Or.inl rfl, Or.inl rfl⟩

/-- C29 fails: a swept-back wing with dihedral is not reproduced, although nothing moves. -/
theorem C29_swept_dihedral_fails (n : ℕ) (hn : 0 < n) (dt : ℝ) :
    ∃ w, Wing.create [plateSection 0 1 0 0 "symmetric" 4 "cosine", plateSection ⟨1, 5, 1⟩ 1 0 0 "symmetric" 4 "cosine"]
        0 ⟨0, 1, 0⟩ true ⟨1, 0, 0⟩ 6 "uniform" = .ok w ∧ (plateMovement w).Still ∧
      (plateMovement w).generate n dt ≠ .ok (List.replicate n w) := by
  obtain ⟨w, h1, h2, h3⟩ := plateMovement_proper ⟨1, 5, 1⟩ 6 (by norm_num)
  refine ⟨w, h1, h3, ?_⟩
  intro e
  have := (C29_static_wing_partial _ _ h2 h3 n hn dt).mp e (_, _) (by simp; exact ⟨rfl, rfl⟩)
  rcases this with h | ⟨_, h | h⟩
  · simp [plateSection] at h
  · simp [plateSection] at h
  · simp [plateSection] at h

/-- Non-vacuity: a swept-back plate wing without dihedral is reproduced at every step. -/
example (n : ℕ) (hn : 0 < n) (dt : ℝ) :
    ∃ w, Wing.create [plateSection 0 1 0 0 "symmetric" 4 "cosine", plateSection ⟨1, 5, 0⟩ 1 0 0 "symmetric" 4 "cosine"]
        0 ⟨0, 1, 0⟩ true ⟨1, 0, 0⟩ 6 "uniform" = .ok w ∧
      (plateMovement w).generate n dt = .ok (List.replicate n w) := by
  obtain ⟨w, h1, h2, h3⟩ := plateMovement_proper ⟨1, 5, 0⟩ 6 (by norm_num)
  refine ⟨w, h1, ?_⟩
  refine (C29_static_wing_partial _ _ h2 h3 n hn dt).mpr ?_
  intro p hp
  simp at hp
  subst hp
  right
  simp [plateSection]

/-- Non-vacuity of C27 (acceptance), C28, C30 and C31: the plate wing with its tip flapping (sweeping by 15° every
second), run for any number of steps, is accepted, with the period 1. Two cycles with a time step of 0.1 are 20 steps; a
number of chord lengths is refused. -/
example (n : ℕ) (hn : 0 < n) (dt : ℝ) : ∃ (wm : WingMovement) (am : AirplaneMovement) (mv mv' : Movement),
    am.wingMovements = [wm] ∧ Movement.create [am] { base := {} } (some n) none none (some dt) = .ok mv ∧
    movementMaxPeriod [am] { base := {} } = .ok 1 ∧ mv.numSteps = n ∧
    Movement.create [am] { base := {} } none (some 2) none (some (1 / 10)) = .ok mv' ∧ mv'.numSteps = 20 ∧
    Movement.create [am] { base := {} } none none (some 5) (some (1 / 10)) = .error .exception := by
  obtain ⟨w, h1, h2, h3⟩ := plateMovement_proper ⟨1, 5, 1⟩ 6 (by norm_num)
  have hsec := h2.sections.1
  let flap : WingMovement := { plateMovement w with
    sectionMovements := [{ base := { plateSection 0 1 0 0 "symmetric" 4 "cosine" with wingUnitChordwise := ⟨1, 0, 0⟩ } },
      { base := { plateSection ⟨1, 5, 1⟩ 1 0 0 "symmetric" 4 "cosine" with wingUnitChordwise := ⟨1, 0, 0⟩ }
        sweeping := { amplitude := 15, period := 1 } }] }
  have hp : flap.Proper [plateSection 0 1 0 0 "symmetric" 4 "cosine",
      plateSection ⟨1, 5, 1⟩ 1 0 0 "symmetric" 4 "cosine"] := by
    refine ⟨h2.base, h2.fresh, ?_, h2.spacings, ?_, ?_⟩
    · show _ = w.sections
      exact hsec.symm
    · intro m hm
      simp only [flap, List.mem_cons, List.not_mem_nil, or_false] at hm
      rcases hm with rfl | rfl
      · exact ⟨Or.inl rfl, Or.inl rfl, Or.inl rfl⟩
      · exact ⟨Or.inl rfl, Or.inl rfl, Or.inl rfl⟩
    · intro m hm
      simp [flap] at hm
      subst hm
      exact ⟨rfl, rfl, rfl, rfl⟩
  obtain ⟨a, ha⟩ : ∃ a, Airplane.create [w] (cRef := some 1) = .ok a := ⟨_, rfl⟩
  have hca : a.cRef = 1 ∧ a.wings = [w] := by
    rw [← Except.ok.inj ha]; exact ⟨rfl, rfl⟩
  have h6 : w.spec.numChordwisePanels = 6 := by
    rw [(Wing.create_ok _ _ _ _ _ _ _ w h1).1]
  let am : AirplaneMovement := { base := a, wingMovements := [flap] }
  have hper : movementMaxPeriod [am] { base := {} } = .ok 1 := by
    simp [movementMaxPeriod, am, flap, plateMovement, AirplaneMovement.maxPeriod, WingMovement.maxPeriod, pyMax,
      WingCrossSectionMovement.maxPeriod, OperatingPointMovement.maxPeriod, bind, Except.bind, pure, Except.pure]
  have hproper : ∀ am' ∈ [am], ∀ wm ∈ am'.wingMovements, ∃ S, wm.Proper S := by
    intro am' ham' wm hwm
    simp at ham'; subst ham'
    simp [am] at hwm; subst hwm
    exact ⟨_, hp⟩
  have hvalid : ∀ am' ∈ [am], am'.xRef.Valid ∧ am'.yRef.Valid ∧ am'.zRef.Valid := by
    intro am' ham'
    simp at ham'; subst ham'
    exact ⟨Or.inl rfl, Or.inl rfl, Or.inl rfl⟩
  obtain ⟨mv, e1, e2, _⟩ := C31_movement_accepted [am] { base := {} } (by simp [am]) hproper hvalid (Or.inl rfl) n hn dt
  obtain ⟨hacc, -⟩ := C27_raises_exactly [am] { base := {} } 1 hper (by
      intro p hp'
      simp [allPeriods, am, flap, plateMovement] at hp'
      rcases hp' with h | h <;> rcases h with rfl | rfl <;> norm_num) (by simp [am]) hproper hvalid (Or.inl rfl) (by norm_num)
    (by simp [am, hca.1]) (by simp [am, hca.2, h6]) none (some 2) none (some (1 / 10)) (by
      rintro d hd; rw [← Option.some.inj hd]; norm_num) (by simp)
  obtain ⟨mv', e3⟩ := hacc.mpr (by simp [ConflictingArguments])
  have hdt' := (C27_delta_time _ _ _ _ _ _ mv' e3).1 _ rfl
  obtain ⟨_, _, h5, _⟩ := C27_run_length [am] { base := {} } 1 hper none (some 2) none _ mv' e3 (by rw [hdt']; norm_num)
  have hleast := h5 rfl (by norm_num)
  rw [hdt'] at hleast
  refine ⟨flap, am, mv, mv', rfl, e1, hper, e2, e3, hleast.unique ⟨?_, ?_⟩, ?_⟩
  · simp only [Set.mem_ofPred_eq, Option.getD_some]; norm_num
  · intro m hm
    simp only [Set.mem_ofPred_eq, Option.getD_some] at hm
    have : (20 : ℝ) ≤ m := by push_cast at hm; linarith
    exact_mod_cast this
  · exact C27_rejects [am] { base := {} } 1 hper none none (some 5) (some (1 / 10)) (by simp [ConflictingArguments])

end

end Ptera
