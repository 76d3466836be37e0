import Verif.Model.Import

/-!
# Specification for importing the package
-/

namespace DPFC.Import.Spec
open DPFC.Import

/-- Third-party packages. -/
def External : Nm → Prop
  | .numpy | .scipy | .numba | .matplotlib | .torch | .ot | .pyemd | .duecredit | .seaborn => True
  | _ => False

/-- A fresh interpreter: no module of the repository is loaded, third-party packages may be. -/
def Fresh (sys : List Path) : Prop := ∀ y ∈ sys, ∃ n, y = [n] ∧ External n

/-- The import of `p` succeeds in a fresh interpreter with nothing loaded, for every sufficiently large recursion limit. -/
def Imports (w : World) (p : Path) : Prop := ∃ n, ∀ fuel ≥ n, ∃ sys, importPath w fuel [] p = .ok sys ∧ p ∈ sys

/-- The import of `p` raises ImportError, for every sufficiently large recursion limit. -/
def RaisesImportError (w : World) (p : Path) : Prop := ∃ n, ∀ fuel ≥ n, importPath w fuel [] p = .error .importError

end DPFC.Import.Spec
