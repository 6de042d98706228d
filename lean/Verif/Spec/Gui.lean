import Mathlib.Data.List.Basic
import Verif.Core.Py

/-! Specification vocabulary: the examples the menu of the graphical interface offers, and the files that come with them. -/

namespace Ptera

/-- The examples the ten entries of the menu name, in their order (`pterasoftware/ui_resources/main_window.py` 963-1032). -/
def menuExamples : List (List Char) :=
  ["analyze_steady_trim_example".toList, "analyze_unsteady_trim_example".toList, "steady_convergence_example".toList,
    "steady_horseshoe_vortex_lattice_method_solver".toList, "steady_ring_vortex_lattice_method_solver".toList,
    "unsteady_ring_vortex_lattice_method_solver_static".toList,
    "unsteady_ring_vortex_lattice_method_solver_variable".toList,
    "unsteady_ring_vortex_lattice_method_solver_variable_formation".toList,
    "unsteady_static_convergence_example".toList, "unsteady_variable_convergence_example".toList]

/-- The files of the directory `examples`, in alphabetical order. -/
def exampleFiles : List (List Char) := "__init__.py".toList :: menuExamples.map (· ++ ".py".toList)

/-- The module an example is. -/
def exampleModule (name : List Char) : List Char := "examples.".toList ++ name

end Ptera
