import Mathlib.Data.List.Infix

/-!
# Importing the package

The import statements of the package `DeterministicParticleFlowControl` (all line numbers below are relative to
/repo/DeterministicParticleFlowControl) and the part of Python's import system they use: packages are imported before
their submodules, `sys.modules` is consulted first, relative paths start at the package containing the module, and a
module that is not found raises ImportError (ModuleNotFoundError).

Left out: the standard library (always present), `from __future__`, the names bound by `from ... import name` (all exist),
and what third-party packages do: one is either importable or raises ImportError.
-/

namespace DPFC.Import

/-- Names of modules: those of the repository and the third-party packages it imports. -/
inductive Nm
  | dpfc | version | due | script1 | scoreEstimators | sfe | sfePytorch | score | kernels | rbfPytorch
  | reweighting | otReweighting | utils | utilsPytorch | tests
  | numpy | scipy | numba | matplotlib | torch | ot | pyemd | duecredit | seaborn
  deriving DecidableEq, Repr

/-- A dotted module path. -/
abbrev Path := List Nm

/-- Conditions around an import statement. -/
inductive Guard
  /-- `if __name__ == "..."` -/
  | nameIs (p : Path)
  /-- its `else` branch -/
  | nameIsNot (p : Path)
  /-- `if TORCHED` etc.: the soft import of this module succeeded -/
  | flag (p : Path)

/-- An import statement. `soft`: inside `try: ... except ImportError`. `rel`: number of leading dots. -/
structure Stmt where
  path : Path
  rel : Nat := 0
  soft : Bool := false
  guards : List Guard := []

/-- A file: package (`__init__.py`) or plain module, and its import statements in order. -/
structure File where
  isPkg : Bool
  stmts : List Stmt

/-- Outcome of an import: an exception other than ImportError is only the recursion limit of the model. -/
inductive ImpErr
  | importError | recursionError
  deriving DecidableEq, Repr

/-- `DeterministicParticleFlowControl.py`: lines 13-59. -/
def mainFile : File where
  isPkg := false
  stmts := [
    ⟨[.numpy], 0, false, []⟩,
    ⟨[.ot], 0, true, []⟩,
    ⟨[.numba], 0, true, []⟩,
    ⟨[.matplotlib], 0, false, []⟩,
    ⟨[.torch], 0, true, []⟩,
    ⟨[.scoreEstimators, .sfe], 1, false, [.nameIs [.dpfc, .dpfc]]⟩,
    ⟨[.reweighting, .otReweighting], 1, false, [.nameIs [.dpfc, .dpfc]]⟩,
    ⟨[.scoreEstimators, .sfePytorch], 1, false, [.nameIs [.dpfc, .dpfc], .flag [.torch]]⟩,
    ⟨[.scoreEstimators, .sfe], 0, false, [.nameIsNot [.dpfc, .dpfc]]⟩,
    ⟨[.reweighting, .otReweighting], 0, false, [.nameIsNot [.dpfc, .dpfc]]⟩,
    ⟨[.scoreEstimators, .sfePytorch], 0, false, [.nameIsNot [.dpfc, .dpfc], .flag [.torch]]⟩,
    ⟨[.duecredit], 0, false, []⟩]

/-- `score_estimators/score_function_estimators_pytorch.py`:9-12; `dots` is the number of leading dots of the last line
`from .kernels.RBF_pytorch import RBF` (one in the repository). -/
def sfePytorchFile (dots : Nat) : File where
  isPkg := false
  stmts := [⟨[.torch], 0, false, []⟩, ⟨[.numpy], 0, false, []⟩, ⟨[.kernels, .rbfPytorch], dots, false, []⟩]

/-- The files below the package directory. -/
def files (dots : Nat) : Path → Option File
  -- __init__.py:15-16
  | [] => some ⟨true, [⟨[.version], 1, false, []⟩, ⟨[.dpfc], 1, false, []⟩]⟩
  | [.dpfc] => some mainFile
  -- version.py:1-2
  | [.version] => some ⟨false, []⟩
  -- due.py:46
  | [.due] => some ⟨false, [⟨[.duecredit], 0, true, []⟩]⟩
  -- script_1.py:9-13
  | [.script1] => some ⟨false, [⟨[.matplotlib], 0, false, []⟩, ⟨[.seaborn], 0, false, []⟩, ⟨[.numpy], 0, false, []⟩,
      ⟨[.dpfc], 0, false, []⟩]⟩
  -- score_estimators/__init__.py:5-6
  | [.scoreEstimators] => some ⟨true, [⟨[.sfe], 1, false, []⟩, ⟨[.sfePytorch], 1, false, []⟩]⟩
  -- score_estimators/score_function_estimators.py:11-16
  | [.scoreEstimators, .sfe] => some ⟨false, [⟨[.numpy], 0, false, []⟩, ⟨[.scipy], 0, false, []⟩, ⟨[.numba], 0, false, []⟩]⟩
  | [.scoreEstimators, .sfePytorch] => some (sfePytorchFile dots)
  -- score_estimators/score.py:9-16
  | [.scoreEstimators, .score] => some ⟨false, [⟨[.numpy], 0, false, []⟩, ⟨[.scipy], 0, false, []⟩]⟩
  -- kernels/__init__.py:9
  | [.kernels] => some ⟨true, [⟨[.rbfPytorch], 1, false, []⟩]⟩
  -- kernels/RBF_pytorch.py:9-11
  | [.kernels, .rbfPytorch] => some ⟨false, [⟨[.numpy], 0, false, []⟩, ⟨[.torch], 0, false, []⟩]⟩
  -- reweighting/__init__.py:6
  | [.reweighting] => some ⟨true, [⟨[.otReweighting], 1, false, []⟩]⟩
  -- reweighting/optimal_transport_reweighting.py:10-13
  | [.reweighting, .otReweighting] => some ⟨false, [⟨[.pyemd], 0, false, []⟩, ⟨[.numpy], 0, false, []⟩,
      ⟨[.scipy], 0, false, []⟩]⟩
  -- utils/__init__.py:9
  | [.utils] => some ⟨true, [⟨[.utilsPytorch], 1, false, []⟩]⟩
  -- utils/utils_pytorch.py:9
  | [.utils, .utilsPytorch] => some ⟨false, [⟨[.torch], 0, false, []⟩]⟩
  -- tests/__init__.py
  | [.tests] => some ⟨true, []⟩
  | _ => none

/-- What the interpreter can find: the repository files below the directory on the search path, then third-party
packages. -/
structure World where
  local' : Path → Option File
  installed : Nm → Bool

/-- The package is on the search path (installed, or the working directory is the root of the repository). -/
def asPackage (dots : Nat) (installed : Nm → Bool) : World :=
  ⟨fun p => match p with
    | .dpfc :: q => files dots q
    | _ => none, installed⟩

/-- The working directory is the package directory itself (scripts and documentation, DeterministicParticleFlowControl.py:46-51). -/
def insideDir (dots : Nat) (installed : Nm → Bool) : World :=
  ⟨fun p => match p with
    | [] => none
    | q => files dots q, installed⟩

/-- The package relative imports of module `p` start from. -/
def packageOf (p : Path) (isPkg : Bool) : Path := if isPkg then p else p.dropLast

/-- Absolute path of an imported module: one leading dot is the containing package, each further dot one level up;
`none` if this leads beyond the top-level package (or the module has no package). -/
def resolve (p : Path) (isPkg : Bool) (s : Stmt) : Option Path :=
  match s.rel with
  | 0 => some s.path
  | n+1 =>
    if n < (packageOf p isPkg).length then some ((packageOf p isPkg).take ((packageOf p isPkg).length - n) ++ s.path)
    else none

/-- `sys.modules` together with the soft-import flags of the module being executed. -/
structure Exec where
  sys : List Path
  flags : List Path

/-- Do the conditions around a statement hold in module `p`? -/
def Guard.holds (p : Path) (e : Exec) : Guard → Bool
  | .nameIs q => p == q
  | .nameIsNot q => !(p == q)
  | .flag q => e.flags.contains q

/-- Import a resolved path; without one Python raises ImportError. -/
def importResolved (imp : List Path → Path → Except ImpErr (List Path)) (sys : List Path) :
    Option Path → Except ImpErr (List Path)
  | none => .error .importError
  | some q => imp sys q

/-- Execute one import statement of module `p`; `imp` imports a path into `sys.modules`. -/
def execStmt (imp : List Path → Path → Except ImpErr (List Path)) (p : Path) (isPkg : Bool) (e : Exec) (s : Stmt) :
    Except ImpErr Exec :=
  if s.guards.all (Guard.holds p e) then
    match importResolved imp e.sys (resolve p isPkg s), s.soft with
    | .ok sys, true => .ok ⟨sys, s.path :: e.flags⟩
    | .ok sys, false => .ok ⟨sys, e.flags⟩
    | .error .importError, true => .ok e
    | .error err, _ => .error err
  else .ok e

/-- Import one module `p` whose packages are imported: skip it if it is in `sys.modules`, otherwise find it and execute its
statements. -/
def loadOne (w : World) (imp : List Path → Path → Except ImpErr (List Path)) (sys : List Path) (p : Path) :
    Except ImpErr (List Path) :=
  if sys.contains p then .ok sys
  else
    match w.local' p with
    | some f => (f.stmts.foldlM (execStmt imp p f.isPkg) ⟨p :: sys, []⟩).map Exec.sys
    | none =>
      match p with
      | [n] => if w.installed n then .ok (p :: sys) else .error .importError
      | _ => .error .importError

/-- `import p`: all packages on the way, then the module. `fuel` is the recursion limit. -/
def importPath (w : World) : Nat → List Path → Path → Except ImpErr (List Path)
  | 0, _, _ => .error .recursionError
  | fuel+1, sys, p => (p.inits.tail).foldlM (loadOne w (importPath w fuel)) sys

end DPFC.Import
