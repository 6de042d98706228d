import Verif.Core.Py

/-!
# The examples menu of the graphical interface (`main.py` 30-68)

Texts are lists of characters. The widgets, the dialog showing the README and the start of the application are not
modelled. Python's import system is modelled as far as the menu uses it: a module that is in `sys.modules` is not run again,
and a module whose body raises is not kept there.
-/

namespace Ptera

/-- `file.replace(".py", "")` (main.py 56): every occurrence is removed, from left to right. -/
def removePy : List Char → List Char
  | '.' :: 'p' :: 'y' :: l => removePy l
  | c :: l => c :: removePy l
  | [] => []

/-- The window (main.py 30-48) and the modules of the interpreter. `terminal` are the lines of the terminal output,
`displayText` the attribute of that name;
`modules` the example modules in `sys.modules`; `executed` the module bodies that were run, oldest first, each with whether
it came to its end. -/
structure Window where
  terminal : List (List Char) := []
  modules : List (List Char) := []
  executed : List (List Char × Bool) := []
  displayText : List Char := []

/-- A click on entry `entry` (counted from 0) of the menu (main.py 35-44), with what it meets: the names
`os.listdir("examples")` gives, in its arbitrary order, and for each module name what an import that is not served from
`sys.modules` finds: nothing, or a body that comes to its end (`none`) or raises. -/
structure Click where
  entry : ℕ
  listing : List (List Char)
  find : List Char → Option (Option Err)

namespace Window

/-- `importlib.import_module(file)` (main.py 59). Simplification: `ModuleNotFoundError` is `Err.exception`. -/
def importModule (w : Window) (find : List Char → Option (Option Err)) (name : List Char) : Window × Except Err Unit :=
  if name ∈ w.modules then (w, .ok ())
  else match find name with
    | none => (w, .error .exception)
    | some (some e) => ({ w with executed := w.executed ++ [(name, false)] }, .error e)
    | some none => ({ w with executed := w.executed ++ [(name, true)], modules := w.modules ++ [name] }, .ok ())

/-- The line `exampleMenu` writes (main.py 57, 61-64). -/
def announcement (n : ℕ) : List Char := "Example ".toList ++ (toString (n + 1)).toList ++ " executed".toList

/-- `exampleMenu` (main.py 50-59). -/
def exampleMenu (w : Window) (c : Click) : Window × Except Err Unit :=
  match (c.listing.map ("examples.".toList ++ ·))[c.entry]? with
  | none => (w, .error .indexError)
  | some file => importModule { w with terminal := w.terminal ++ [announcement c.entry] } c.find (removePy file)

/-- `updateDisplayText` (main.py 66-68): passing `self` twice is a `TypeError`. -/
def updateDisplayText (w : Window) (text : List Char) : Window × Except Err Unit :=
  ({ w with displayText := text }, .error .typeError)

/-- The window after a history of clicks on a freshly opened one (main.py 31-48). An exception in a slot is reported by Qt
and leaves the window open. -/
def afterClicks (history : List Click) : Window := history.foldl (fun w c => (w.exampleMenu c).1) {}

end Window

end Ptera
