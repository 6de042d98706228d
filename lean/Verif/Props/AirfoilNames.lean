import Verif.Model.AirfoilName

/-!
# Property C74: airfoils given by name

Which outline belongs to a name: capitals and blanks around the name do not matter, "naca" and four digits is the NACA
outline with these digits, and every other name is looked up in the database, whose files are read number by number.
-/

namespace Ptera

/-! ## Specification -/

/-- A text of blanks only. -/
def Blank (s : List Char) : Prop := ∀ c ∈ s, c.isWhitespace = true

/-- A non-empty text without blanks. -/
def Word (s : List Char) : Prop := s ≠ [] ∧ ∀ c ∈ s, c.isWhitespace = false

/-- A row of a file that shows the point `p`: two numbers, with any blanks around them. -/
def IsRow (number : List Char → Option ℝ) (row : List Char) (p : ℝ × ℝ) : Prop :=
  ∃ g x h y k, row = g ++ x ++ h ++ y ++ k ∧ Blank g ∧ Word x ∧ Blank h ∧ h ≠ [] ∧ Word y ∧ Blank k ∧
    number x = some p.1 ∧ number y = some p.2

/-! ## Names -/

theorem dropWhile_blank {s : List Char} (hs : Blank s) (l : List Char) :
    (s ++ l).dropWhile Char.isWhitespace = l.dropWhile Char.isWhitespace := by
  induction s with
  | nil => rfl
  | cons c s ih =>
    rw [List.cons_append, List.dropWhile_cons, if_pos (hs c (by simp)), ih (fun d hd => hs d (by simp [hd]))]

theorem Blank.reverse {s : List Char} (hs : Blank s) : Blank s.reverse := fun c hc => hs c (by simpa using hc)

theorem Blank.lower {s : List Char} (hs : Blank s) : Blank (s.map Char.toLower) := by
  intro c hc
  obtain ⟨d, hd, rfl⟩ := List.mem_map.mp hc
  have := hs d hd
  simp only [Char.isWhitespace, Char.toLower] at *
  split
  · rename_i h
    exfalso
    simp only [Bool.or_eq_true, decide_eq_true_eq] at this
    rcases this with ((rfl | rfl) | rfl) | rfl <;> revert h <;> decide
  · exact this

theorem dropWhile_blank_left {s : List Char} (hs : Blank s) : s.dropWhile Char.isWhitespace = [] := by
  have := dropWhile_blank hs []
  simpa using this

theorem blank_of_dropWhile {s : List Char} (h : s.dropWhile Char.isWhitespace = []) : Blank s := by
  induction s with
  | nil => intro c hc; simp at hc
  | cons c s ih =>
    rw [List.dropWhile_cons] at h
    split at h
    · rename_i hc
      intro d hd
      rcases List.mem_cons.mp hd with rfl | hd
      · exact hc
      · exact ih h d hd
    · cases h

theorem strip_blanks {s t : List Char} (hs : Blank s) (ht : Blank t) (l : List Char) : strip (s ++ l ++ t) = strip l := by
  rw [strip, strip, List.append_assoc, dropWhile_blank hs]
  by_cases hl : Blank l
  · have : Blank (l ++ t) := fun c hc => (List.mem_append.mp hc).elim (hl c) (ht c)
    rw [dropWhile_blank_left this, dropWhile_blank_left hl]
  · have h1 : (l ++ t).dropWhile Char.isWhitespace = l.dropWhile Char.isWhitespace ++ t := by
      rw [List.dropWhile_append]
      rw [if_neg]
      rw [List.isEmpty_iff]
      intro h
      exact hl (blank_of_dropWhile h)
    rw [h1, List.reverse_append, dropWhile_blank ht.reverse]

theorem sanitize_blanks {s t : List Char} (hs : Blank s) (ht : Blank t) (l : List Char) :
    sanitize (s ++ l ++ t) = sanitize l := by
  rw [sanitize, sanitize, List.map_append, List.map_append, strip_blanks hs.lower ht.lower]

/-- C74: capital letters, and blanks before and after a name, make no difference. -/
theorem C74_case_and_blanks (database : List Char → Option (List Char)) (number : List Char → Option ℝ)
    (pchip : List ℝ → List ℝ → Except Err (ℝ → ℝ)) (name name' before after before' after' : List Char)
    (h1 : Blank before) (h2 : Blank after) (h3 : Blank before') (h4 : Blank after')
    (hname : name.map Char.toLower = name'.map Char.toLower) (repanel : Bool) (n : ℕ) :
    Airfoil.named database number pchip (before ++ name ++ after) repanel n =
      Airfoil.named database number pchip (before' ++ name' ++ after') repanel n := by
  have : sanitize (before ++ name ++ after) = sanitize (before' ++ name' ++ after') := by
    rw [sanitize_blanks h1 h2, sanitize_blanks h3 h4, sanitize, sanitize, hname]
  simp only [Airfoil.named, populateCoordinates, this]

theorem afterFirst_eq_none (l : List Char) : afterFirst naca l = none ↔ ¬ naca <:+: l := by
  induction l with
  | nil => simp [afterFirst, naca]
  | cons c l ih =>
    rw [afterFirst]
    by_cases h : naca.isPrefixOf (c :: l) = true
    · rw [if_pos h]
      simp only [reduceCtorEq, false_iff, not_not]
      exact (List.isPrefixOf_iff_prefix.mp h).isInfix
    · rw [if_neg h, ih, List.infix_cons_iff, not_or]
      rw [List.isPrefixOf_iff_prefix] at h
      exact ⟨fun x => ⟨h, x⟩, fun x => x.2⟩

/-- "naca" does not overlap itself: where it occurs in `pre ++ naca ++ rest` for the first time, if not in `pre`. -/
theorem afterFirst_append (pre rest : List Char) (h : ¬ naca <:+: pre) :
    afterFirst naca (pre ++ naca ++ rest) = some rest := by
  induction pre with
  | nil => simp [afterFirst, naca]
  | cons c l ih =>
    rw [List.infix_cons_iff, not_or] at h
    rw [List.cons_append, List.cons_append, afterFirst, if_neg, ih h.2]
    rw [List.isPrefixOf_iff_prefix]
    intro hp
    apply h.1
    match l, hp with
    | [], hp => simp [naca, List.cons_prefix_cons] at hp
    | [a], hp => simp [naca, List.cons_prefix_cons] at hp
    | [a, b], hp => simp [naca, List.cons_prefix_cons] at hp
    | a :: b :: d :: l, hp =>
      simp only [naca, List.cons_append, List.cons_prefix_cons, List.nil_prefix, and_true] at hp ⊢
      exact hp

theorem afterFirst_some {l rest : List Char} (h : afterFirst naca l = some rest) :
    ∃ pre, l = pre ++ naca ++ rest ∧ ¬ naca <:+: pre := by
  induction l with
  | nil => simp [afterFirst] at h
  | cons c l ih =>
    rw [afterFirst] at h
    by_cases hp : naca.isPrefixOf (c :: l) = true
    · rw [if_pos hp, Option.some.injEq] at h
      obtain ⟨t, ht⟩ := List.isPrefixOf_iff_prefix.mp hp
      refine ⟨[], ?_, by simp [naca]⟩
      rw [← h, ← ht]
      simp
    · rw [if_neg hp] at h
      obtain ⟨pre, rfl, hpre⟩ := ih h
      refine ⟨c :: pre, by simp, ?_⟩
      rw [List.infix_cons_iff, not_or]
      refine ⟨?_, hpre⟩
      rw [List.isPrefixOf_iff_prefix] at hp
      intro hx
      exact hp (hx.trans (by simp))

theorem upToFirst_digits (a b c d : Char) (h : [a, b, c, d].all Char.isDigit = true) (post : List Char) :
    upToFirst naca ([a, b, c, d] ++ post) = [a, b, c, d] ++ upToFirst naca post := by
  have key : ∀ x : Char, x.isDigit = true → x ≠ 'n' := by rintro x hx rfl; revert hx; decide
  simp only [List.all_cons, Bool.and_eq_true, List.all_nil, and_true] at h
  obtain ⟨ha, hb, hc, hd⟩ := h
  simp [upToFirst, naca, List.isPrefixOf, (key a ha).symm, (key b hb).symm, (key c hc).symm, (key d hd).symm]

theorem upToFirst_nil {l : List Char} (h : upToFirst naca l = []) : l = [] ∨ naca <+: l := by
  cases l with
  | nil => exact .inl rfl
  | cons c l =>
    rw [upToFirst] at h
    by_cases hp : naca.isPrefixOf (c :: l) = true
    · exact .inr (List.isPrefixOf_iff_prefix.mp hp)
    · rw [if_neg hp] at h; simp at h

theorem upToFirst_split (l : List Char) : ∃ post, l = upToFirst naca l ++ post ∧ (post = [] ∨ naca <+: post) := by
  induction l with
  | nil => exact ⟨[], rfl, .inl rfl⟩
  | cons c l ih =>
    rw [upToFirst]
    by_cases hp : naca.isPrefixOf (c :: l) = true
    · rw [if_pos hp]
      exact ⟨c :: l, rfl, .inr (List.isPrefixOf_iff_prefix.mp hp)⟩
    · rw [if_neg hp]
      obtain ⟨post, h1, h2⟩ := ih
      exact ⟨post, by rw [List.cons_append, ← h1], h2⟩

theorem upToFirst_naca {l : List Char} (h : l = [] ∨ naca <+: l) : upToFirst naca l = [] := by
  rcases h with rfl | h
  · rfl
  · cases l with
    | nil => rfl
    | cons c l => rw [upToFirst, if_pos (List.isPrefixOf_iff_prefix.mpr h)]

/-- Which names are NACA four-digit names: the first "naca" is followed by four digits and then by the end of the name
or by another "naca". -/
theorem nacaDigits_iff (l : List Char) (m p t : ℕ) :
    nacaDigits l = some (m, p, t) ↔ ∃ pre a b c d post, l = pre ++ naca ++ [a, b, c, d] ++ post ∧
      ¬ naca <:+: pre ∧ [a, b, c, d].all Char.isDigit = true ∧ (post = [] ∨ naca <+: post) ∧
      m = digit a ∧ p = digit b ∧ t = 10 * digit c + digit d := by
  constructor
  · intro h
    rw [nacaDigits] at h
    split at h
    · rename_i x a b c d hx
      split at h
      · rename_i hd
        obtain ⟨rest, hr1, hr2⟩ := Option.map_eq_some_iff.mp hx
        obtain ⟨pre, rfl, hpre⟩ := afterFirst_some hr1
        obtain ⟨post, hp1, hp2⟩ := upToFirst_split rest
        rw [hr2] at hp1
        simp only [Option.some.injEq, Prod.mk.injEq] at h
        exact ⟨pre, a, b, c, d, post, by rw [hp1]; simp, hpre, hd, hp2, h.1.symm, h.2.1.symm, h.2.2.symm⟩
      · cases h
    · cases h
  · rintro ⟨pre, a, b, c, d, post, rfl, hpre, hd, hpost, rfl, rfl, rfl⟩
    rw [nacaDigits, List.append_assoc, afterFirst_append _ _ hpre, Option.map_some, upToFirst_digits _ _ _ _ hd,
      upToFirst_naca hpost, List.append_nil]
    dsimp only
    rw [if_pos hd]

theorem toLower_digit {c : Char} (h : c.isDigit = true) : c.toLower = c := by
  simp only [Char.isDigit, Bool.and_eq_true, decide_eq_true_eq] at h
  rw [Char.toLower]
  rw [dif_neg]
  intro hx
  have h1 : c.val.toNat ≤ 57 := UInt32.le_iff_toNat_le.mp h.2
  have h2 := UInt32.le_iff_toNat_le.mp hx.1
  have h3 : c.val.toNat = c.toNat := rfl
  simp at h2
  omega

theorem digit_not_blank {c : Char} (h : c.isDigit = true) : c.isWhitespace = false := by
  by_contra hw
  simp only [Char.isWhitespace, Bool.not_eq_false, Bool.or_eq_true, decide_eq_true_eq] at hw
  rcases hw with ((rfl | rfl) | rfl) | rfl <;> revert h <;> decide

theorem strip_word {l : List Char} (h : ∀ c ∈ l, c.isWhitespace = false) : strip l = l := by
  have key : ∀ s : List Char, (∀ c ∈ s, c.isWhitespace = false) → s.dropWhile Char.isWhitespace = s := by
    intro s hs
    cases s with
    | nil => rfl
    | cons c s => rw [List.dropWhile_cons, if_neg (by rw [hs c (by simp)]; simp)]
  rw [strip, key l h, key l.reverse (fun c hc => h c (by simpa using hc)), List.reverse_reverse]

theorem four_digits_named (database : List Char → Option (List Char)) (number : List Char → Option ℝ)
    (pchip : List ℝ → List ℝ → Except Err (ℝ → ℝ)) (before after word : List Char) (a b c d : Char)
    (hword : word.map Char.toLower = "naca".toList) (hd : ∀ x ∈ [a, b, c, d], x.isDigit = true)
    (h1 : Blank before) (h2 : Blank after) (repanel : Bool) (n : ℕ) :
    Airfoil.named database number pchip (before ++ (word ++ [a, b, c, d]) ++ after) repanel n =
      Airfoil.create pchip (nacaCoordinates (digit a) (digit b) (10 * digit c + digit d)) repanel n := by
  have hall : [a, b, c, d].all Char.isDigit = true := List.all_eq_true.mpr hd
  have hmap : (word ++ [a, b, c, d]).map Char.toLower = naca ++ [a, b, c, d] := by
    rw [List.map_append, hword, List.map_congr_left (fun x hx => toLower_digit (hd x hx))]
    simp [naca]
  have hs : sanitize (before ++ (word ++ [a, b, c, d]) ++ after) = naca ++ [a, b, c, d] := by
    rw [sanitize_blanks h1 h2, sanitize, hmap, strip_word]
    intro x hx
    rcases List.mem_append.mp hx with hx | hx
    · simp only [naca, List.mem_cons, List.not_mem_nil, or_false] at hx
      rcases hx with rfl | rfl | rfl | rfl <;> decide
    · exact digit_not_blank (hd x hx)
  have hn : nacaDigits (naca ++ [a, b, c, d]) = some (digit a, digit b, 10 * digit c + digit d) :=
    (nacaDigits_iff _ _ _ _).mpr ⟨[], a, b, c, d, [], by simp, by simp [naca], hall, .inl rfl, rfl, rfl, rfl⟩
  simp only [Airfoil.named, populateCoordinates, hs, hn]
  rfl

/-- C74: "naca" and four digits, in capitals or not and with blanks around it or not, is the outline of the NACA
airfoil with these digits. -/
theorem C74_four_digits (database : List Char → Option (List Char)) (number : List Char → Option ℝ)
    (pchip : List ℝ → List ℝ → Except Err (ℝ → ℝ)) (before after word : List Char) (m p t u : ℕ)
    (hword : word.map Char.toLower = "naca".toList) (hm : m < 10) (hp : p < 10) (ht : t < 10) (hu : u < 10)
    (h1 : Blank before) (h2 : Blank after) (repanel : Bool) (n : ℕ) :
    Airfoil.named database number pchip (before ++ (word ++ [m, p, t, u].map Nat.digitChar) ++ after) repanel n =
      Airfoil.create pchip (nacaCoordinates m p (10 * t + u)) repanel n := by
  have hdig : ∀ k, k < 10 → (Nat.digitChar k).isDigit = true ∧ digit (Nat.digitChar k) = k := by decide
  obtain ⟨hm, em⟩ := hdig m hm
  obtain ⟨hp, ep⟩ := hdig p hp
  obtain ⟨ht, et⟩ := hdig t ht
  obtain ⟨hu, eu⟩ := hdig u hu
  have hd : ∀ x ∈ [m.digitChar, p.digitChar, t.digitChar, u.digitChar], x.isDigit = true := by
    simp [hm, hp, ht, hu]
  have := four_digits_named database number pchip before after word _ _ _ _ hword hd h1 h2 repanel n
  rw [em, ep, et, eu] at this
  exact this

/-- The hypotheses are met: "  NACA 4-digit" names in any spelling, such as " Naca2412 ". -/
example (database : List Char → Option (List Char)) (number : List Char → Option ℝ)
    (pchip : List ℝ → List ℝ → Except Err (ℝ → ℝ)) :
    Airfoil.named database number pchip " Naca2412 ".toList = Airfoil.create pchip (nacaCoordinates 2 4 12) :=
  C74_four_digits database number pchip " ".toList " ".toList "Naca".toList 2 4 1 2 (by decide) (by norm_num)
    (by norm_num) (by norm_num) (by norm_num) (by simp [Blank]) (by simp [Blank]) true 400

/-- C74: every other name is looked up in the database. A name (in small letters, without blanks around it) in which
the first "naca", if there is one, is not followed by exactly four digits is that of the file with this name; if there
is no such file, an exception says so. -/
theorem C74_database (database : List Char → Option (List Char)) (number : List Char → Option ℝ)
    (pchip : List ℝ → List ℝ → Except Err (ℝ → ℝ)) (name : List Char) (hname : sanitize name = name)
    (hother : ¬ ∃ pre a b c d post, name = pre ++ "naca".toList ++ [a, b, c, d] ++ post ∧ ¬ "naca".toList <:+: pre ∧
      (∀ x ∈ [a, b, c, d], x.isDigit = true) ∧ (post = [] ∨ "naca".toList <+: post)) (repanel : Bool) (n : ℕ) :
    (database (name ++ ".dat".toList) = none →
      Airfoil.named database number pchip name repanel n = .error .exception) ∧
    (∀ text points, database (name ++ ".dat".toList) = some text → readCoordinates number text = .ok points →
      Airfoil.named database number pchip name repanel n = Airfoil.create pchip points repanel n) := by
  have hn : nacaDigits name = none := by
    by_contra h
    obtain ⟨⟨m, p, t⟩, h⟩ := Option.ne_none_iff_exists'.mp h
    obtain ⟨pre, a, b, c, d, post, h1, h2, h3, h4, -⟩ := (nacaDigits_iff _ _ _ _).mp h
    exact hother ⟨pre, a, b, c, d, post, h1, h2, List.all_eq_true.mp h3, h4⟩
  constructor
  · intro h
    simp only [Airfoil.named, populateCoordinates, hn, hname, h]
    rfl
  · intro text points h hp
    simp only [Airfoil.named, populateCoordinates, hn, hname, h, hp]
    rfl

/-- The hypotheses are met: "NACA23012" has five digits, so it is looked up in the database. -/
example (number : List Char → Option ℝ) (pchip : List ℝ → List ℝ → Except Err (ℝ → ℝ)) :
    Airfoil.named (fun _ => none) number pchip "naca23012".toList = .error .exception := by
  refine (C74_database (fun _ => none) number pchip "naca23012".toList (by decide) ?_ true 400).1 rfl
  rintro ⟨pre, a, b, c, d, post, h1, h2, h3, h4⟩
  have := (nacaDigits_iff "naca23012".toList (digit a) (digit b) (10 * digit c + digit d)).mpr
    ⟨pre, a, b, c, d, post, h1, h2, List.all_eq_true.mpr h3, h4, rfl, rfl, rfl⟩
  revert this
  rw [show nacaDigits "naca23012".toList = none by decide]
  simp

/-! ## Files -/

theorem words_blank {g : List Char} (hg : Blank g) (l : List Char) : words (g ++ l) = words l := by
  induction g with
  | nil => rfl
  | cons c g ih => rw [List.cons_append, words, if_pos (hg c (by simp)), ih (fun d hd => hg d (by simp [hd]))]

theorem words_word {w : List Char} (hw : Word w) (l : List Char) (hl : l = [] ∨ ∃ c l', l = c :: l' ∧ c.isWhitespace = true) :
    words (w ++ l) = w :: words l := by
  obtain ⟨h0, hw⟩ := hw
  induction w with
  | nil => exact absurd rfl h0
  | cons c w ih =>
    have hc : c.isWhitespace = false := hw c (by simp)
    cases w with
    | nil =>
      rcases hl with rfl | ⟨d, l', rfl, hd⟩
      · simp [words, hc]
      · rw [List.cons_append, List.nil_append, words, if_neg (by rw [hc]; simp)]
        rw [if_pos (by simpa using hd)]
    | cons d w =>
      have hd : d.isWhitespace = false := hw d (by simp)
      have := ih (by simp) (fun x hx => hw x (by simp [hx]))
      rw [List.cons_append, List.cons_append, words, if_neg (by rw [hc]; simp)]
      rw [if_neg (by simp [hd]), ← List.cons_append, this]
      rfl

theorem words_row {number : List Char → Option ℝ} {row : List Char} {p : ℝ × ℝ} (h : IsRow number row p)
    (l : List Char) (hl : l = [] ∨ ∃ c l', l = c :: l' ∧ c.isWhitespace = true) :
    ∃ x y, words (row ++ l) = x :: y :: words l ∧ number x = some p.1 ∧ number y = some p.2 := by
  obtain ⟨g, x, h, y, k, rfl, hg, hx, hh, hh0, hy, hk, h1, h2⟩ := h
  refine ⟨x, y, ?_, h1, h2⟩
  have e : g ++ x ++ h ++ y ++ k ++ l = g ++ (x ++ (h ++ (y ++ (k ++ l)))) := by simp
  have hkl : (k ++ l) = [] ∨ ∃ c l', k ++ l = c :: l' ∧ c.isWhitespace = true := by
    cases k with
    | nil => simpa using hl
    | cons c k => exact .inr ⟨c, k ++ l, rfl, hk c (by simp)⟩
  have hh' : ∃ c l', h ++ (y ++ (k ++ l)) = c :: l' ∧ c.isWhitespace = true := by
    cases h with
    | nil => exact absurd rfl hh0
    | cons c h => exact ⟨c, _, rfl, hh c (by simp)⟩
  rw [e, words_blank hg, words_word hx _ (.inr hh'), words_blank hh, words_word hy _ hkl, words_blank hk]

theorem numbers_rows {number : List Char → Option ℝ} {rows : List (List Char)} {points : List (ℝ × ℝ)}
    (h : List.Forall₂ (IsRow number) rows points) {rest : List Char} (hrest : Blank rest) :
    numbers number (rows.flatMap (fun r => '\n' :: r) ++ rest) = points.flatMap fun p => [p.1, p.2] := by
  rw [numbers]
  induction h with
  | nil =>
    have := words_blank hrest []
    rw [List.append_nil] at this
    simp [this, words]
  | @cons row p rows points h1 _ ih =>
    rw [List.flatMap_cons, List.flatMap_cons, List.append_assoc, List.cons_append, words, if_pos (by decide)]
    have hl : rows.flatMap (fun r => '\n' :: r) ++ rest = [] ∨
        ∃ c l', rows.flatMap (fun r => '\n' :: r) ++ rest = c :: l' ∧ c.isWhitespace = true := by
      cases rows with
      | nil =>
        cases rest with
        | nil => exact .inl rfl
        | cons c rest => exact .inr ⟨c, rest, rfl, hrest c (by simp)⟩
      | cons r rows => exact .inr ⟨'\n', _, rfl, by decide⟩
    obtain ⟨x, y, hw, hx, hy⟩ := words_row h1 _ hl
    rw [hw, List.map_cons, List.map_cons, hx, hy, List.takeWhile_cons, if_pos (by simp), List.takeWhile_cons,
      if_pos (by simp), List.map_cons, List.map_cons, ih]
    rfl

theorem pairs_flatMap (points : List (ℝ × ℝ)) : pairs (points.flatMap fun p => [p.1, p.2]) = points := by
  induction points with
  | nil => rfl
  | cons p points ih => rw [List.flatMap_cons]; simp only [List.cons_append, List.nil_append, pairs, ih]

/-- C74: a file of the database that consists of a title line and rows of two numbers gives the points in these rows,
in the order of the rows. -/
theorem C74_file (number : List Char → Option ℝ) (title : List Char) (htitle : '\n' ∉ title)
    (rows : List (List Char)) (points : List (ℝ × ℝ)) (h : List.Forall₂ (IsRow number) rows points)
    (hne : rows ≠ []) (rest : List Char) (hrest : Blank rest) :
    readCoordinates number (title ++ rows.flatMap (fun r => '\n' :: r) ++ rest) = .ok points := by
  have hf : fromFirstNewline (title ++ rows.flatMap (fun r => '\n' :: r) ++ rest) =
      rows.flatMap (fun r => '\n' :: r) ++ rest := by
    obtain ⟨r, rs, rfl⟩ := List.exists_cons_of_ne_nil hne
    rw [fromFirstNewline, if_pos (by simp), List.append_assoc]
    have : ∀ t : List Char, '\n' ∉ t → ∀ l, (t ++ '\n' :: l).dropWhile (· ≠ '\n') = '\n' :: l := by
      intro t ht l
      induction t with
      | nil => simp
      | cons c t ih =>
        simp only [List.mem_cons, not_or] at ht
        rw [List.cons_append, List.dropWhile_cons, if_pos (by simpa using fun h => ht.1 h.symm), ih ht.2]
    rw [List.flatMap_cons, List.cons_append, List.cons_append]
    exact this title htitle _
  have heven : (points.flatMap fun p => [p.1, p.2]).length % 2 = 0 := by
    have : (points.flatMap fun p => [p.1, p.2]).length = 2 * points.length := by
      simp [List.length_flatMap, mul_comm]
    omega
  rw [readCoordinates, hf, numbers_rows h hrest]
  rw [if_pos heven, pairs_flatMap]

/-- The hypotheses are met: a file with a title and two points. -/
example (number : List Char → Option ℝ) (h0 : number "0.5".toList = some 0.5) (h1 : number "1".toList = some 1) :
    readCoordinates number "Plate 1\n 1  0.5\n0.5 1 \n".toList = .ok [(1, 0.5), (0.5, 1)] := by
  refine C74_file number "Plate 1".toList (by decide) [" 1  0.5".toList, "0.5 1 ".toList] _
    (.cons ?_ (.cons ?_ .nil)) (by simp) "\n".toList (by simp [Blank])
  · exact ⟨" ".toList, "1".toList, "  ".toList, "0.5".toList, [], by decide, by simp [Blank], by simp [Word],
      by simp [Blank], by simp, by simp [Word], by simp [Blank], h1, h0⟩
  · exact ⟨[], "0.5".toList, " ".toList, "1".toList, " ".toList, by decide, by simp [Blank], by simp [Word],
      by simp [Blank], by simp, by simp [Word], by simp [Blank], h0, h1⟩

/-- C74: the first line of a file is a title: whatever it says, the points are the same. -/
theorem C74_title (number : List Char → Option ℝ) (title title' rest : List Char) (h : '\n' ∉ title)
    (h' : '\n' ∉ title') :
    readCoordinates number (title ++ '\n' :: rest) = readCoordinates number (title' ++ '\n' :: rest) := by
  have : ∀ t : List Char, '\n' ∉ t → fromFirstNewline (t ++ '\n' :: rest) = '\n' :: rest := by
    intro t ht
    rw [fromFirstNewline, if_pos (by simp)]
    induction t with
    | nil => simp
    | cons c t ih =>
      simp only [List.mem_cons, not_or] at ht
      rw [List.cons_append, List.dropWhile_cons, if_pos (by simpa using fun h => ht.1 h.symm), ih ht.2]
  rw [readCoordinates, readCoordinates, this title h, this title' h']

theorem words_short : ∀ s : List Char, s.length ≤ 1 → (words s).length ≤ 1
  | [], _ => by simp [words]
  | [c], _ => by by_cases hc : c.isWhitespace <;> simp [words, hc]

/-- C74: a file of a single line, the title, has no points. -/
theorem C74_only_title (number : List Char → Option ℝ) (text : List Char) (h : '\n' ∉ text) (points : List (ℝ × ℝ))
    (hp : readCoordinates number text = .ok points) : points = [] := by
  have hs : (fromFirstNewline text).length ≤ 1 := by
    rw [fromFirstNewline, if_neg h, List.length_drop]
    omega
  have hn : (numbers number (fromFirstNewline text)).length ≤ 1 := by
    unfold numbers
    rw [List.length_map]
    refine ((List.takeWhile_prefix _).length_le).trans ?_
    rw [List.length_map]
    exact words_short _ hs
  unfold readCoordinates at hp
  simp only at hp
  split at hp
  · rw [Except.ok.injEq] at hp
    rw [← hp]
    match numbers number (fromFirstNewline text), hn with
    | [], _ => rfl
    | [_], _ => rfl
  · cases hp

/-- The hypotheses are met: a file of a single line. -/
example (number : List Char → Option ℝ) (h : number "e".toList = none) :
    readCoordinates number "Plate".toList = .ok [] := by
  have e : fromFirstNewline "Plate".toList = "e".toList := by decide
  have w : words "e".toList = ["e".toList] := by decide
  rw [readCoordinates, e, numbers, w]
  simp only [List.map_cons, h, List.map_nil, List.takeWhile_cons, Option.isSome_none, Bool.false_eq_true, if_false]
  simp [pairs]

end Ptera
