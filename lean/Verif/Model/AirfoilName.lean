import Verif.Model.Airfoil

/-!
# Airfoils given by name (`pterasoftware/geometry.py` 717-773, 775-915)

Texts are lists of characters. Simplification: names contain ASCII characters only, so that Python's `lower`, `strip`
and `isdigit` are the ASCII ones used here.
-/

namespace Ptera

noncomputable section

/-- `str.strip()` (geometry.py 789): without the blanks at both ends. -/
def strip (s : List Char) : List Char :=
  ((s.dropWhile Char.isWhitespace).reverse.dropWhile Char.isWhitespace).reverse

/-- `self.name.lower().strip()` (geometry.py 789). -/
def sanitize (name : List Char) : List Char := strip (name.map Char.toLower)

/-- What follows the first occurrence of `sep`, if there is one (geometry.py 792-793: `"naca" in name` and the rest
after the first separator of `name.split("naca")`). -/
def afterFirst (sep : List Char) : List Char → Option (List Char)
  | [] => none
  | c :: l => if sep.isPrefixOf (c :: l) then some ((c :: l).drop sep.length) else afterFirst sep l

/-- What precedes the first occurrence of `sep`, everything if there is none (geometry.py 793: the piece of
`name.split("naca")` ends at the next separator). -/
def upToFirst (sep : List Char) : List Char → List Char
  | [] => []
  | c :: l => if sep.isPrefixOf (c :: l) then [] else c :: upToFirst sep l

/-- The text "naca" (geometry.py 792). -/
def naca : List Char := ['n', 'a', 'c', 'a']

/-- `int(c)` of a digit (geometry.py 798-800). -/
def digit (c : Char) : ℕ := c.toNat - '0'.toNat

/-- The three numbers of a NACA four-digit name, `none` for any other name (geometry.py 792-800). -/
def nacaDigits (name : List Char) : Option (ℕ × ℕ × ℕ) :=
  match (afterFirst naca name).map (upToFirst naca) with
  | some [a, b, c, d] =>
    if [a, b, c, d].all Char.isDigit then some (digit a, digit b, 10 * digit c + digit d) else none
  | _ => none

/-- `c` put before the first piece (part of the model of `np.fromstring`, geometry.py 896). -/
def consFirst (c : Char) : List (List Char) → List (List Char)
  | [] => [[c]]
  | w :: ws => (c :: w) :: ws

/-- The pieces of a text between blanks (geometry.py 896: `np.fromstring(trimmed_text, sep="\n")`, where a blank
separator stands for any blanks). -/
def words : List Char → List (List Char)
  | [] => []
  | c :: l =>
    if c.isWhitespace then words l
    else if l.head?.elim true Char.isWhitespace then [c] :: words l
    else consFirst c (words l)

/-- `raw_text[raw_text.find("\n"):]` (geometry.py 893). `find` gives -1 for a text without line end; then the slice is
the last character. -/
def fromFirstNewline (text : List Char) : List Char :=
  if '\n' ∈ text then text.dropWhile (· ≠ '\n') else text.drop (text.length - 1)

/-- `np.fromstring(trimmed_text, sep="\n")` (geometry.py 896): the numbers up to the first piece that is not one.
`number` is the reading of a decimal number. Simplification: a piece that begins with a number, like `1.0x`, counts as
no number. -/
def numbers (number : List Char → Option ℝ) (text : List Char) : List ℝ :=
  (((words text).map number).takeWhile Option.isSome).map fun x => x.getD 0

/-- `np.reshape(coordinates_1d, (-1, 2))` (geometry.py 906). -/
def pairs : List ℝ → List (ℝ × ℝ)
  | x :: y :: l => (x, y) :: pairs l
  | _ => []

/-- The coordinates in a file of the database (geometry.py 892-910). -/
def readCoordinates (number : List Char → Option ℝ) (text : List Char) : Except Err (List (ℝ × ℝ)) :=
  let values := numbers number (fromFirstNewline text)
  if values.length % 2 = 0 then .ok (pairs values) else .error .assertionError

/-- `populate_coordinates` (geometry.py 775-915). `database` gives the text of the file with a name, if there is one
(`importlib.resources.read_text`). -/
def populateCoordinates (database : List Char → Option (List Char)) (number : List Char → Option ℝ)
    (name : List Char) : Except Err (List (ℝ × ℝ)) :=
  match nacaDigits (sanitize name) with
  | some (a, b, t) => .ok (nacaCoordinates a b t)
  | none =>
    match database (sanitize name ++ ".dat".toList) with
    | none => .error .exception
    | some text => readCoordinates number text

/-- `Airfoil(name=..., repanel=..., n_points_per_side=...)` (geometry.py 717-773). -/
def Airfoil.named (database : List Char → Option (List Char)) (number : List Char → Option ℝ)
    (pchip : List ℝ → List ℝ → Except Err (ℝ → ℝ)) (name : List Char) (repanel : Bool := true) (n : ℕ := 400) :
    Except Err Airfoil := do
  let c ← populateCoordinates database number name
  Airfoil.create pchip c repanel n

end

end Ptera
