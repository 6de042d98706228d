import Verif.Model.Gui
import Verif.Spec.Gui
import Mathlib.Data.List.Count
import Mathlib.Data.List.Perm.Basic

/-!
# C101: an entry of the examples menu runs the example it names

The full statement is false: an example that has run to its end is not run again, and with the files of the repository in
alphabetical order every entry runs another file. `C101_runs_partial` says when an entry does run its example.
-/

namespace Ptera

open Window

/-! ## Names of files and modules -/

theorem removePy_file {b : List Char} (h : ¬ ".py".toList <:+: b) : removePy (b ++ ".py".toList) = b := by
  induction b with
  | nil => rfl
  | cons c b ih =>
    have ih := ih (fun hi => h (hi.trans (List.suffix_cons c b).isInfix))
    have key : ∀ r, (c :: b) ++ ".py".toList ≠ '.' :: 'p' :: 'y' :: r := by
      intro r hr
      match b, hr with
      | [], hr => simp at hr
      | [d], hr => simp at hr
      | d :: e :: b', hr =>
        simp only [List.cons_append, List.cons.injEq] at hr
        obtain ⟨rfl, rfl, rfl, -⟩ := hr
        exact h ⟨[], b', rfl⟩
    rw [List.cons_append, removePy.eq_2 _ _ (fun r hc hr => key r (by rw [List.cons_append, hc, hr]))]
    rw [ih]

/-- The module of a file `name.py` is `examples.name`, unless ".py" is in the name or the name begins with "py". -/
theorem module_of_file {name : List Char} (h : ¬ ".py".toList <:+: name) (h' : ¬ "py".toList <+: name) :
    removePy ("examples.".toList ++ (name ++ ".py".toList)) = exampleModule name := by
  rw [← List.append_assoc]
  apply removePy_file
  intro hi
  have e : "examples.".toList = "examples".toList ++ ['.'] := rfl
  rw [e, List.append_assoc] at hi
  have key : ∀ p : List Char, '.' ∉ p → ".py".toList <:+: p ++ (['.'] ++ name) → ".py".toList <:+: ['.'] ++ name := by
    intro p
    induction p with
    | nil => exact fun _ h => h
    | cons c p ih =>
      intro hp h
      rw [List.cons_append, List.infix_cons_iff] at h
      rcases h with h | h
      · obtain ⟨r, hr⟩ := h
        have : '.' = c := (List.cons.inj hr).1
        exact absurd (by rw [this]; simp) hp
      · exact ih (fun hm => hp (by simp [hm])) h
  have := key "examples".toList (by decide) hi
  rw [List.singleton_append, List.infix_cons_iff] at this
  rcases this with h2 | h2
  · exact h' (List.cons_prefix_cons.mp h2).2
  · exact h h2

/-! ## What a click does -/

/-- What has run to its end is what is not run again. -/
theorem afterClicks_modules (history : List Click) (m : List Char) :
    (m ∈ (afterClicks history).modules ↔ (m, true) ∈ (afterClicks history).executed) ∧
      (afterClicks history).executed.count (m, true) ≤ 1 := by
  induction history using List.reverseRecOn with
  | nil => simp [afterClicks]
  | append_singleton history c ih =>
    obtain ⟨ih, ih'⟩ := ih
    rw [afterClicks, List.foldl_append, List.foldl_cons, List.foldl_nil]
    change (m ∈ ((afterClicks history).exampleMenu c).1.modules ↔ (m, true) ∈ ((afterClicks history).exampleMenu c).1.executed) ∧
      ((afterClicks history).exampleMenu c).1.executed.count (m, true) ≤ 1
    generalize afterClicks history = w at ih ih' ⊢
    unfold exampleMenu
    split
    · exact ⟨ih, ih'⟩
    · rename_i file _
      unfold importModule
      split
      · exact ⟨ih, ih'⟩
      · rename_i hm
        split
        · exact ⟨ih, ih'⟩
        · refine ⟨by simpa using ih, ?_⟩
          rw [List.count_append]
          simpa using ih'
        · refine ⟨by simp [ih], ?_⟩
          rw [List.count_append]
          by_cases he : removePy file = m
          · rw [List.count_eq_zero_of_not_mem (by rw [← ih, ← he]; exact hm), he]
            simp
          · have : (m, true) ∉ [(removePy file, true)] := by
              simp only [List.mem_singleton, Prod.mk.injEq, not_and]
              exact fun h => absurd h.symm he
            rw [List.count_eq_zero_of_not_mem this]
            simpa using ih'

theorem afterClicks_append (history : List Click) (c : Click) :
    afterClicks (history ++ [c]) = ((afterClicks history).exampleMenu c).1 := by
  rw [afterClicks, List.foldl_append, List.foldl_cons, List.foldl_nil]
  rfl

theorem exampleMenu_file {c : Click} {name : List Char} (w : Window) (hfile : c.listing[c.entry]? = some (name ++ ".py".toList))
    (h : ¬ ".py".toList <:+: name) (h' : ¬ "py".toList <+: name) :
    w.exampleMenu c = importModule { w with terminal := w.terminal ++ [announcement c.entry] } c.find (exampleModule name) := by
  unfold exampleMenu
  rw [List.getElem?_map, hfile, Option.map_some]
  simp only [module_of_file h h']

/-- **C101.** After any history of clicks, a click on an entry at whose place the directory listing has the file of an
example that has not yet run to its end runs exactly that example, once, and says so; what the example raises is what the
click raises. (Missing for the full statement: the two provisos. The next theorems show that they are needed.) -/
theorem C101_runs_partial (history : List Click) (c : Click) (name : List Char) (r : Option Err)
    (hfile : c.listing[c.entry]? = some (name ++ ".py".toList))
    (hname : ¬ ".py".toList <:+: name) (hname' : ¬ "py".toList <+: name)
    (hnew : (exampleModule name, true) ∉ (afterClicks history).executed)
    (hfound : c.find (exampleModule name) = some r) :
    (afterClicks (history ++ [c])).executed = (afterClicks history).executed ++ [(exampleModule name, r.isNone)] ∧
      (afterClicks (history ++ [c])).terminal = (afterClicks history).terminal ++
        ["Example ".toList ++ (toString (c.entry + 1)).toList ++ " executed".toList] ∧
      ((afterClicks history).exampleMenu c).2 = (match r with | none => .ok () | some e => .error e) := by
  rw [afterClicks_append, exampleMenu_file _ hfile hname hname', importModule,
    if_neg (fun h => hnew ((afterClicks_modules history _).1.mp h))]
  cases r <;> simp only [hfound] <;> exact ⟨rfl, rfl, trivial⟩

/-- **C101.** An entry beyond the files of the directory runs nothing, says nothing and raises an `IndexError`. -/
theorem C101_out_of_range (history : List Click) (c : Click) (h : c.listing.length ≤ c.entry) :
    afterClicks (history ++ [c]) = afterClicks history ∧
      ((afterClicks history).exampleMenu c).2 = .error .indexError := by
  have : (c.listing.map ("examples.".toList ++ ·))[c.entry]? = none := by simpa using h
  rw [afterClicks_append, exampleMenu, this]
  exact ⟨rfl, rfl⟩

/-- **C101.** A file that is not there when it is to be imported runs nothing. -/
theorem C101_missing (history : List Click) (c : Click) (h : ∀ m, c.find m = none) :
    (afterClicks (history ++ [c])).executed = (afterClicks history).executed := by
  rw [afterClicks_append]
  unfold exampleMenu importModule
  split
  · rfl
  · split
    · rfl
    · rw [h]

/-- **C101, the negation.** Once an example has run to its end, no click runs it again, although the terminal says that it
was executed and nothing is raised. -/
theorem C101_again_fails (history : List Click) (c : Click) (name : List Char)
    (hfile : c.listing[c.entry]? = some (name ++ ".py".toList))
    (hname : ¬ ".py".toList <:+: name) (hname' : ¬ "py".toList <+: name)
    (hran : (exampleModule name, true) ∈ (afterClicks history).executed) :
    (afterClicks (history ++ [c])).executed = (afterClicks history).executed ∧
      (afterClicks (history ++ [c])).terminal = (afterClicks history).terminal ++
        ["Example ".toList ++ (toString (c.entry + 1)).toList ++ " executed".toList] ∧
      ((afterClicks history).exampleMenu c).2 = .ok () := by
  rw [afterClicks_append, exampleMenu_file _ hfile hname hname', importModule,
    if_pos ((afterClicks_modules history _).1.mpr hran)]
  exact ⟨rfl, rfl, rfl⟩

/-- **C101.** In any history of clicks, on any listings, a module runs to its end at most once. -/
theorem C101_at_most_once (history : List Click) (m : List Char) : (afterClicks history).executed.count (m, true) ≤ 1 :=
  (afterClicks_modules history m).2

/-- **C101, the negation.** A file whose name begins with "py" is looked for under another name, because the dot before it
goes with the ending: the click raises and runs nothing, even if the example is there and has never been run. -/
theorem C101_py_prefix_fails (history : List Click) (c : Click) (rest : List Char) (h : ¬ ".py".toList <:+: rest)
    (hfile : c.listing[c.entry]? = some ("py".toList ++ rest ++ ".py".toList))
    (hother : c.find ("examples".toList ++ rest) = none)
    (hother' : ("examples".toList ++ rest, true) ∉ (afterClicks history).executed) :
    (afterClicks (history ++ [c])).executed = (afterClicks history).executed ∧
      ((afterClicks history).exampleMenu c).2 = .error .exception := by
  have e : removePy ("examples.".toList ++ ("py".toList ++ rest ++ ".py".toList)) = "examples".toList ++ rest := by
    conv_rhs => rw [← removePy_file h]
    rfl
  rw [afterClicks_append]
  unfold exampleMenu
  rw [List.getElem?_map, hfile, Option.map_some]
  simp only [e]
  rw [importModule, if_neg (fun hm => hother' ((afterClicks_modules history _).1.mp hm))]
  simp only [hother, and_self]

/-! ## The files of the repository -/

theorem menuExamples_names : ∀ name ∈ "__init__".toList :: menuExamples,
    ¬ ".py".toList <:+: name ∧ ¬ "py".toList <+: name := by
  have h : ∀ name ∈ "__init__".toList :: menuExamples, name.all (· != '.') ∧ name.head? ≠ some 'p' := by
    decide
  intro name hn
  obtain ⟨h1, h2⟩ := h name hn
  constructor
  · intro hi
    have := List.all_eq_true.mp h1 '.' (hi.subset (by decide))
    exact absurd this (by decide)
  · rintro ⟨t, rfl⟩
    exact h2 rfl

theorem exampleModule_inj {a b : List Char} (h : exampleModule a = exampleModule b) : a = b := List.append_cancel_left h

/-- A click on a freshly opened window, with everything there and running to its end. -/
theorem first_click {listing : List (List Char)} {i : ℕ} {name : List Char} (hname : name ∈ "__init__".toList :: menuExamples)
    (hi : listing[i]? = some (name ++ ".py".toList)) :
    (afterClicks [⟨i, listing, fun _ => some none⟩]).executed = [(exampleModule name, true)] := by
  obtain ⟨h, h'⟩ := menuExamples_names name hname
  exact (C101_runs_partial [] ⟨i, listing, fun _ => some none⟩ name none hi h h' (by simp [afterClicks]) rfl).1

/-- **C101, the negation.** With the files of the repository in alphabetical order, the first entry of a freshly opened
window runs `__init__.py`, every other entry the example that the entry before it names, and no entry the last example. -/
theorem C101_order_fails :
    (afterClicks [⟨0, exampleFiles, fun _ => some none⟩]).executed = [("examples.__init__".toList, true)] ∧
    (∀ i (h : i < 9), (afterClicks [⟨i + 1, exampleFiles, fun _ => some none⟩]).executed =
      [(exampleModule (menuExamples[i]'(by simp [menuExamples]; omega)), true)]) ∧
    ∀ i < 10, ∀ b, (exampleModule "unsteady_variable_convergence_example".toList, b) ∉
      (afterClicks [⟨i, exampleFiles, fun _ => some none⟩]).executed := by
  have h0 : (afterClicks [⟨0, exampleFiles, fun _ => some none⟩]).executed = [("examples.__init__".toList, true)] :=
    first_click (name := "__init__".toList) (by simp) rfl
  have h1 : ∀ i (h : i < 9), (afterClicks [⟨i + 1, exampleFiles, fun _ => some none⟩]).executed =
      [(exampleModule (menuExamples[i]'(by simp [menuExamples]; omega)), true)] := by
    intro i h
    have hl : i < menuExamples.length := by simp [menuExamples]; omega
    refine first_click (List.mem_cons_of_mem _ (List.getElem_mem hl)) ?_
    rw [exampleFiles, List.getElem?_cons_succ, List.getElem?_map, List.getElem?_eq_getElem hl, Option.map_some]
  refine ⟨h0, h1, fun i hi b hb => ?_⟩
  cases i with
  | zero =>
    rw [h0] at hb
    simp only [List.mem_singleton, Prod.mk.injEq] at hb
    exact absurd hb.1 (by decide)
  | succ i =>
    rw [h1 i (by omega)] at hb
    simp only [List.mem_singleton, Prod.mk.injEq] at hb
    have := exampleModule_inj hb.1
    have hd : ∀ j < 9, menuExamples[j]? ≠ some "unsteady_variable_convergence_example".toList := by
      decide
    exact hd i (by omega) (by rw [this]; exact List.getElem?_eq_getElem _)

/-- **C101.** In whatever order the directory lists the files of the repository, the ten entries run the examples they name,
each on a freshly opened window, exactly if `__init__.py` comes last and the examples before it in the order of the menu. -/
theorem C101_order (listing : List (List Char)) (hperm : listing.Perm exampleFiles) :
    (∀ i (h : i < 10), (afterClicks [⟨i, listing, fun _ => some none⟩]).executed =
      [(exampleModule (menuExamples[i]'h), true)]) ↔
    listing = menuExamples.map (· ++ ".py".toList) ++ ["__init__.py".toList] := by
  have hlen : listing.length = 11 := hperm.length_eq
  constructor
  · intro h
    have key : ∀ i (hi : i < 10), listing[i]'(by omega) = menuExamples[i]'hi ++ ".py".toList := by
      intro i hi
      have hm : listing[i]'(by omega) ∈ exampleFiles := hperm.mem_iff.mp (List.getElem_mem _)
      have : ∃ name ∈ "__init__".toList :: menuExamples, listing[i]'(by omega) = name ++ ".py".toList := by
        rw [exampleFiles] at hm
        rcases List.mem_cons.mp hm with e | e
        · exact ⟨"__init__".toList, by simp, e⟩
        · obtain ⟨name, hn, e⟩ := List.mem_map.mp e
          exact ⟨name, List.mem_cons_of_mem _ hn, e.symm⟩
      obtain ⟨name, hn, e⟩ := this
      have h2 := first_click (i := i) (listing := listing) hn (by rw [List.getElem?_eq_getElem (by omega), e])
      rw [h i hi] at h2
      simp only [List.cons.injEq, Prod.mk.injEq, and_true] at h2
      rw [e, exampleModule_inj h2]
    have hl : listing = menuExamples.map (· ++ ".py".toList) ++ [listing[10]'(by omega)] := by
      refine List.ext_getElem (by simp [hlen, menuExamples]) fun i h1 h2 => ?_
      by_cases hi : i < 10
      · rw [List.getElem_append_left (by simpa [menuExamples] using hi), List.getElem_map]
        exact key i hi
      · obtain rfl : i = 10 := by omega
        rw [List.getElem_append_right (by simp [menuExamples])]
        simp [menuExamples]
    have hp : (menuExamples.map (· ++ ".py".toList) ++ [listing[10]'(by omega)]).Perm
        (menuExamples.map (· ++ ".py".toList) ++ ["__init__.py".toList]) := by
      rw [← hl]
      refine hperm.trans ?_
      exact (List.perm_append_comm (l₁ := ["__init__.py".toList]))
    have := List.singleton_perm_singleton.mp ((List.perm_append_left_iff _).mp hp)
    rw [this] at hl
    exact hl
  · rintro rfl i hi
    refine first_click (List.mem_cons_of_mem _ (List.getElem_mem _)) ?_
    rw [List.getElem?_append_left (by simpa [menuExamples] using hi), List.getElem?_map,
      List.getElem?_eq_getElem hi, Option.map_some]

/-! ## Cases -/

/-- The order that `C101_order` asks for is one in which the files can be listed. -/
example : (menuExamples.map (· ++ ".py".toList) ++ ["__init__.py".toList]).Perm exampleFiles :=
  List.perm_append_comm (l₂ := ["__init__.py".toList])

/-- An example that raises is run again; after it has come to its end it is not. -/
example :
    let failing : Click := ⟨4, exampleFiles, fun _ => some (some .linAlgError)⟩
    let working : Click := ⟨4, exampleFiles, fun _ => some none⟩
    let m := exampleModule "steady_horseshoe_vortex_lattice_method_solver".toList
    (afterClicks [failing, failing, working, working]).executed = [(m, false), (m, false), (m, true)] ∧
      (afterClicks [failing, failing, working, working]).terminal = List.replicate 4 "Example 5 executed".toList := by
  decide

/-- A file that begins with "py": `C101_py_prefix_fails` applies although the example is there. -/
example :
    let c : Click := ⟨0, ["python_example.py".toList],
      fun m => if m = "examples.python_example".toList then some none else none⟩
    (Window.exampleMenu {} c).2 = .error .exception :=
  (C101_py_prefix_fails [] _ "thon_example".toList (by decide) rfl (by decide) (by simp [afterClicks])).2

/-- Two files whose modules differ: `C101_runs_partial` applies to each after the other. -/
example : (afterClicks [⟨1, exampleFiles, fun _ => some none⟩, ⟨2, exampleFiles, fun _ => some none⟩]).executed =
    [(exampleModule "analyze_steady_trim_example".toList, true), (exampleModule "analyze_unsteady_trim_example".toList, true)] :=
  (C101_runs_partial [⟨1, exampleFiles, fun _ => some none⟩] ⟨2, exampleFiles, fun _ => some none⟩
    "analyze_unsteady_trim_example".toList none rfl (by decide) (by decide) (by decide) rfl).1

end Ptera
