import Verif.Lib.Import
import Verif.Spec.Import

/-!
# C82: importing the package
-/

namespace DPFC
open Import Import.Nm Import.Spec

set_option linter.unusedSimpArgs false

theorem fresh_clear {c sys : List Path} (hs : Fresh sys) (hc : ∀ y ∈ c, ∀ n, y = [n] → ¬ External n) : ∀ y ∈ c, y ∉ sys := by
  intro y hy hm
  obtain ⟨n, hn, he⟩ := hs y hm
  exact hc y hy n hn he

/-- The chain of imports that breaks the package, if the last line of the torch estimator does not find its module. -/
theorem pkg_doomed (dots : Nat) (inst : Nm → Bool) {c : List Path}
    (hd : Doomed (asPackage dots inst) c [dpfc, scoreEstimators, sfePytorch])
    (hc : ∀ y ∈ c, y ≠ [dpfc] ∧ y ≠ [dpfc, dpfc] ∧ y ≠ [dpfc, scoreEstimators]) :
    Doomed (asPackage dots inst) ([dpfc] :: [dpfc, dpfc] :: [dpfc, scoreEstimators] :: c) [dpfc] := by
  have h1 : Doomed (asPackage dots inst) ([dpfc, scoreEstimators] :: c) [dpfc, scoreEstimators] :=
    .dep (f := ⟨true, [⟨[.sfe], 1, false, []⟩, ⟨[.sfePytorch], 1, false, []⟩]⟩) (s := ⟨[.sfePytorch], 1, false, []⟩) rfl
      (by simp) rfl (fun _ => rfl) (by intro r hr; cases hr; decide) (fun h => (hc _ h).2.2 rfl) hd
  have h2 : Doomed (asPackage dots inst) ([dpfc, dpfc] :: [dpfc, scoreEstimators] :: c) [dpfc, dpfc] :=
    .dep (f := mainFile) (s := ⟨[.scoreEstimators, .sfe], 1, false, [.nameIs [.dpfc, .dpfc]]⟩) rfl
      (by simp [mainFile]) rfl (fun _ => rfl) (by intro r hr; cases hr; decide)
      (by simp only [List.mem_cons, not_or]; exact ⟨by decide, fun h => (hc _ h).2.1 rfl⟩) h1
  exact .dep (f := ⟨true, [⟨[.version], 1, false, []⟩, ⟨[.dpfc], 1, false, []⟩]⟩) (s := ⟨[.dpfc], 1, false, []⟩) rfl
      (by simp) rfl (fun _ => rfl) (by intro r hr; cases hr; decide)
      (by simp only [List.mem_cons, not_or]; exact ⟨by decide, by decide, fun h => (hc _ h).1 rfl⟩) h2

/-- The same from inside the package directory. -/
theorem dir_doomed (dots : Nat) (inst : Nm → Bool) {c : List Path}
    (hd : Doomed (insideDir dots inst) c [scoreEstimators, sfePytorch])
    (hc : ∀ y ∈ c, y ≠ [dpfc] ∧ y ≠ [scoreEstimators]) :
    Doomed (insideDir dots inst) ([scoreEstimators] :: c) [scoreEstimators] ∧
    Doomed (insideDir dots inst) ([dpfc] :: [scoreEstimators] :: c) [dpfc] := by
  have h1 : Doomed (insideDir dots inst) ([scoreEstimators] :: c) [scoreEstimators] :=
    .dep (f := ⟨true, [⟨[.sfe], 1, false, []⟩, ⟨[.sfePytorch], 1, false, []⟩]⟩) (s := ⟨[.sfePytorch], 1, false, []⟩) rfl
      (by simp) rfl (fun _ => rfl) (by intro r hr; cases hr; decide) (fun h => (hc _ h).2 rfl) hd
  exact ⟨h1, .dep (f := mainFile) (s := ⟨[.scoreEstimators, .sfe], 0, false, [.nameIsNot [.dpfc, .dpfc]]⟩) rfl
      (by simp [mainFile]) rfl (fun _ => rfl) (by intro r hr; cases hr; decide)
      (by simp only [List.mem_cons, not_or]; exact ⟨by decide, fun h => (hc _ h).1 rfl⟩) h1⟩

theorem sfeP_pkg (dots : Nat) (hdots : dots ≠ 2) (inst : Nm → Bool) :
    ∃ c, Doomed (asPackage dots inst) c [dpfc, scoreEstimators, sfePytorch] ∧
      (∀ y ∈ c, y ≠ [dpfc] ∧ y ≠ [dpfc, dpfc] ∧ y ≠ [dpfc, scoreEstimators]) ∧ ∀ y ∈ c, ∀ n, y ≠ [n] := by
  obtain rfl | rfl | ⟨m, rfl⟩ : dots = 0 ∨ dots = 1 ∨ ∃ m, dots = m + 3 := by
    rcases dots with _ | _ | _ | m
    · exact .inl rfl
    · exact .inr (.inl rfl)
    · exact absurd rfl hdots
    · exact .inr (.inr ⟨m, rfl⟩)
  · have h0 : Doomed (asPackage 0 inst) [[kernels, rbfPytorch]] [kernels, rbfPytorch] :=
      .missing rfl (fun n hn => by cases hn)
    refine ⟨_, .dep (f := sfePytorchFile 0) (s := ⟨[.kernels, .rbfPytorch], 0, false, []⟩) rfl
      (by simp [sfePytorchFile]) rfl (fun _ => rfl) (by intro r hr; cases hr; decide) (by decide) h0, by decide, ?_⟩
    simp
  · have h0 : Doomed (asPackage 1 inst) [[dpfc, scoreEstimators, kernels]] [dpfc, scoreEstimators, kernels] :=
      .missing rfl (fun n hn => by cases hn)
    refine ⟨_, .dep (f := sfePytorchFile 1) (s := ⟨[.kernels, .rbfPytorch], 1, false, []⟩) rfl
      (by simp [sfePytorchFile]) rfl (fun _ => rfl) (by intro r hr; cases hr; decide) (by decide) h0, by decide, ?_⟩
    simp
  · refine ⟨_, .unresolved (f := sfePytorchFile (m+3)) (s := ⟨[.kernels, .rbfPytorch], m+3, false, []⟩) rfl
      (by simp [sfePytorchFile]) rfl (fun _ => rfl) (by simp [resolve, packageOf, sfePytorchFile]), by decide, ?_⟩
    simp

theorem sfeP_dir (dots : Nat) (hdots : dots ≠ 0) (inst : Nm → Bool) :
    ∃ c, Doomed (insideDir dots inst) c [scoreEstimators, sfePytorch] ∧
      (∀ y ∈ c, y ≠ [dpfc] ∧ y ≠ [scoreEstimators]) ∧ ∀ y ∈ c, ∀ n, y ≠ [n] := by
  obtain rfl | ⟨m, rfl⟩ : dots = 1 ∨ ∃ m, dots = m + 2 := by
    rcases dots with _ | _ | m
    · exact absurd rfl hdots
    · exact .inl rfl
    · exact .inr ⟨m, rfl⟩
  · have h0 : Doomed (insideDir 1 inst) [[scoreEstimators, kernels]] [scoreEstimators, kernels] :=
      .missing rfl (fun n hn => by cases hn)
    refine ⟨_, .dep (f := sfePytorchFile 1) (s := ⟨[.kernels, .rbfPytorch], 1, false, []⟩) rfl
      (by simp [sfePytorchFile]) rfl (fun _ => rfl) (by intro r hr; cases hr; decide) (by decide) h0, by decide, ?_⟩
    simp
  · refine ⟨_, .unresolved (f := sfePytorchFile (m+2)) (s := ⟨[.kernels, .rbfPytorch], m+2, false, []⟩) rfl
      (by simp [sfePytorchFile]) rfl (fun _ => rfl) (by simp [resolve, packageOf, sfePytorchFile]), by decide, ?_⟩
    simp

/-- **C82** (the package cannot be imported). As committed, neither `DeterministicParticleFlowControl` nor any of its
submodules can be imported, whatever third-party packages are installed or already loaded; in a new interpreter the
exception is ImportError. -/
theorem C82_import_fails (inst : Nm → Bool) :
    (∀ fuel sys q, Fresh sys → ∀ sys', importPath (asPackage 1 inst) fuel sys (dpfc :: q) ≠ .ok sys') ∧
    RaisesImportError (asPackage 1 inst) [dpfc] := by
  constructor
  · obtain ⟨c, hd, hc, hn⟩ := sfeP_pkg 1 (by decide) inst
    intro fuel sys q hs sys'
    refine (pkg_doomed 1 inst hd hc).fails fuel sys _ (fresh_clear hs ?_) (by simp) sys'
    intro y hy n hyn he
    simp only [List.mem_cons] at hy
    rcases hy with rfl | rfl | rfl | hy
    · cases hyn; exact he
    · cases hyn
    · cases hyn
    · exact hn y hy n hyn
  · have key : importPath (asPackage 1 inst) 12 [] [.dpfc] = .error .importError := by
      cases h1 : inst numpy <;> cases h2 : inst scipy <;> cases h3 : inst numba <;> cases h4 : inst matplotlib <;>
        cases h5 : inst torch <;> cases h6 : inst ot <;>
      simp [importPath, loadOne, asPackage, files, mainFile, sfePytorchFile, execStmt, importResolved, resolve, packageOf,
        Guard.holds, h1, h2, h3, h4, h5, h6, List.foldlM_cons, bind, Except.bind, pure, Except.pure, Except.map, List.inits]
    exact ⟨12, fun fuel hf => by rw [importPath_fuel (by rw [key]; simp) fuel hf, key]⟩

/-- **C82** (inside the package directory). With the package directory as working directory (the case the `else` branch of
the imports is for) the score estimators and the main module cannot be imported either; the kernel, reweighting and
utility packages can, exactly if the third-party packages they use are installed. -/
theorem C82_package_dir (inst : Nm → Bool) :
    (∀ fuel sys q, Fresh sys → ∀ sys', importPath (insideDir 1 inst) fuel sys (scoreEstimators :: q) ≠ .ok sys') ∧
    (∀ fuel sys q, Fresh sys → ∀ sys', importPath (insideDir 1 inst) fuel sys (dpfc :: q) ≠ .ok sys') ∧
    (Imports (insideDir 1 inst) [kernels] ↔ inst numpy = true ∧ inst torch = true) ∧
    (Imports (insideDir 1 inst) [reweighting] ↔ inst numpy = true ∧ inst scipy = true ∧ inst pyemd = true) ∧
    (Imports (insideDir 1 inst) [utils] ↔ inst torch = true) := by
  obtain ⟨c, hd, hc, hn⟩ := sfeP_dir 1 (by decide) inst
  obtain ⟨d1, d2⟩ := dir_doomed 1 inst hd hc
  refine ⟨fun fuel sys q hs sys' => d1.fails fuel sys _ (fresh_clear hs ?_) (by simp) sys',
    fun fuel sys q hs sys' => d2.fails fuel sys _ (fresh_clear hs ?_) (by simp) sys', ?_, ?_, ?_⟩
  · intro y hy n hyn he
    simp only [List.mem_cons] at hy
    rcases hy with rfl | hy
    · cases hyn; exact he
    · exact hn y hy n hyn
  · intro y hy n hyn he
    simp only [List.mem_cons] at hy
    rcases hy with rfl | rfl | hy
    · cases hyn; exact he
    · cases hyn; exact he
    · exact hn y hy n hyn
  all_goals
    refine ⟨fun ⟨n, h⟩ => ?_, fun h => ⟨8, fun fuel hf => ?_⟩⟩
  · obtain ⟨sys, h, _⟩ := h (n + 8) (by omega)
    cases h1 : inst numpy <;> cases h2 : inst torch <;> first | exact ⟨rfl, rfl⟩ | skip
    all_goals
      rw [importPath_fuel (fuel := 8)] at h
      · revert h
        simp [importPath, loadOne, insideDir, files, execStmt, importResolved, resolve, packageOf,
          h1, h2, List.foldlM_cons, bind, Except.bind, pure, Except.pure, Except.map, List.inits]
      · simp [importPath, loadOne, insideDir, files, execStmt, importResolved, resolve, packageOf,
          h1, h2, List.foldlM_cons, bind, Except.bind, pure, Except.pure, Except.map, List.inits]
      · omega
  · have key : ∃ sys, importPath (insideDir 1 inst) 8 [] [kernels] = .ok sys ∧ [kernels] ∈ sys := by
      simp [importPath, loadOne, insideDir, files, execStmt, importResolved, resolve, packageOf,
          h.1, h.2, List.foldlM_cons, bind, Except.bind, pure, Except.pure, Except.map, List.inits]
    obtain ⟨sys, key, hm⟩ := key
    exact ⟨sys, by rw [importPath_fuel (by rw [key]; simp) fuel hf, key], hm⟩
  · obtain ⟨sys, h, _⟩ := h (n + 8) (by omega)
    cases h1 : inst numpy <;> cases h2 : inst scipy <;> cases h3 : inst pyemd <;> first | exact ⟨rfl, rfl, rfl⟩ | skip
    all_goals
      rw [importPath_fuel (fuel := 8)] at h
      · revert h
        simp [importPath, loadOne, insideDir, files, execStmt, importResolved, resolve, packageOf,
          h1, h2, h3, List.foldlM_cons, bind, Except.bind, pure, Except.pure, Except.map, List.inits]
      · simp [importPath, loadOne, insideDir, files, execStmt, importResolved, resolve, packageOf,
          h1, h2, h3, List.foldlM_cons, bind, Except.bind, pure, Except.pure, Except.map, List.inits]
      · omega
  · have key : ∃ sys, importPath (insideDir 1 inst) 8 [] [reweighting] = .ok sys ∧ [reweighting] ∈ sys := by
      simp [importPath, loadOne, insideDir, files, execStmt, importResolved, resolve, packageOf,
          h.1, h.2.1, h.2.2, List.foldlM_cons, bind, Except.bind, pure, Except.pure, Except.map, List.inits]
    obtain ⟨sys, key, hm⟩ := key
    exact ⟨sys, by rw [importPath_fuel (by rw [key]; simp) fuel hf, key], hm⟩
  · obtain ⟨sys, h, _⟩ := h (n + 8) (by omega)
    cases h2 : inst torch <;> first | rfl | skip
    all_goals
      rw [importPath_fuel (fuel := 8)] at h
      · revert h
        simp [importPath, loadOne, insideDir, files, execStmt, importResolved, resolve, packageOf,
          h2, List.foldlM_cons, bind, Except.bind, pure, Except.pure, Except.map, List.inits]
      · simp [importPath, loadOne, insideDir, files, execStmt, importResolved, resolve, packageOf,
          h2, List.foldlM_cons, bind, Except.bind, pure, Except.pure, Except.map, List.inits]
      · omega
  · have key : ∃ sys, importPath (insideDir 1 inst) 8 [] [utils] = .ok sys ∧ [utils] ∈ sys := by
      simp [importPath, loadOne, insideDir, files, execStmt, importResolved, resolve, packageOf,
          h, List.foldlM_cons, bind, Except.bind, pure, Except.pure, Except.map, List.inits]
    obtain ⟨sys, key, hm⟩ := key
    exact ⟨sys, by rw [importPath_fuel (by rw [key]; simp) fuel hf, key], hm⟩

/-- All third-party packages without which the repaired package cannot be imported. -/
def Needed (inst : Nm → Bool) : Prop :=
  inst numpy = true ∧ inst scipy = true ∧ inst numba = true ∧ inst matplotlib = true ∧ inst torch = true ∧
    inst pyemd = true ∧ inst duecredit = true

/-- **C82** (after the obvious repair). With `from ..kernels` instead of `from .kernels` the package imports exactly if
numpy, scipy, numba, matplotlib, torch, pyemd and duecredit are installed: the guards for a missing torch or numba have
no effect, only `ot` is optional. -/
theorem C82_repaired (inst : Nm → Bool) : Imports (asPackage 2 inst) [dpfc] ↔ Needed inst := by
  refine ⟨fun ⟨n, h⟩ => ?_, fun h => ⟨12, fun fuel hf => ?_⟩⟩
  · obtain ⟨sys, h, _⟩ := h (n + 12) (by omega)
    unfold Needed
    have gen : ∀ e, importPath (asPackage 2 inst) 12 [] [dpfc] = .error e → e ≠ .recursionError → False := by
      intro e he hne
      rw [importPath_fuel (fuel := 12) (by rw [he]; simpa using hne) _ (by omega), he] at h
      cases h
    have h1 : inst numpy = true := by
      by_contra h1
      rw [Bool.not_eq_true] at h1
      refine gen .importError ?_ (by decide)
      simp [importPath, loadOne, asPackage, files, mainFile, sfePytorchFile, execStmt, importResolved, resolve, packageOf,
        Guard.holds, h1, List.foldlM_cons, bind, Except.bind, pure, Except.pure, Except.map, List.inits]
    have h4 : inst matplotlib = true := by
      by_contra h4
      rw [Bool.not_eq_true] at h4
      refine gen .importError ?_ (by decide)
      cases g0 : inst ot <;> cases g1 : inst numba <;> simp [importPath, loadOne, asPackage, files, mainFile, sfePytorchFile, execStmt, importResolved, resolve, packageOf,
        Guard.holds, h1, h4, g0, g1, List.foldlM_cons, bind, Except.bind, pure, Except.pure, Except.map, List.inits]
    have h2 : inst scipy = true := by
      by_contra h2
      rw [Bool.not_eq_true] at h2
      refine gen .importError ?_ (by decide)
      cases g0 : inst ot <;> cases g1 : inst numba <;> cases g2 : inst torch <;> simp [importPath, loadOne, asPackage, files, mainFile, sfePytorchFile, execStmt, importResolved, resolve, packageOf,
        Guard.holds, h1, h4, h2, g0, g1, g2, List.foldlM_cons, bind, Except.bind, pure, Except.pure, Except.map, List.inits]
    have h3 : inst numba = true := by
      by_contra h3
      rw [Bool.not_eq_true] at h3
      refine gen .importError ?_ (by decide)
      cases g0 : inst ot <;> cases g1 : inst torch <;> simp [importPath, loadOne, asPackage, files, mainFile, sfePytorchFile, execStmt, importResolved, resolve, packageOf,
        Guard.holds, h1, h2, h4, h3, g0, g1, List.foldlM_cons, bind, Except.bind, pure, Except.pure, Except.map, List.inits]
    have h5 : inst torch = true := by
      by_contra h5
      rw [Bool.not_eq_true] at h5
      refine gen .importError ?_ (by decide)
      cases g0 : inst ot <;> simp [importPath, loadOne, asPackage, files, mainFile, sfePytorchFile, execStmt, importResolved, resolve, packageOf,
        Guard.holds, h1, h2, h3, h4, h5, g0, List.foldlM_cons, bind, Except.bind, pure, Except.pure, Except.map, List.inits]
    have h6 : inst pyemd = true := by
      by_contra h6
      rw [Bool.not_eq_true] at h6
      refine gen .importError ?_ (by decide)
      cases g0 : inst ot <;> simp [importPath, loadOne, asPackage, files, mainFile, sfePytorchFile, execStmt, importResolved, resolve, packageOf,
        Guard.holds, h1, h2, h3, h4, h5, h6, g0, List.foldlM_cons, bind, Except.bind, pure, Except.pure, Except.map, List.inits]
    have h7 : inst duecredit = true := by
      by_contra h7
      rw [Bool.not_eq_true] at h7
      refine gen .importError ?_ (by decide)
      cases g0 : inst ot <;> simp [importPath, loadOne, asPackage, files, mainFile, sfePytorchFile, execStmt, importResolved, resolve, packageOf,
        Guard.holds, h1, h2, h3, h4, h5, h6, h7, g0, List.foldlM_cons, bind, Except.bind, pure, Except.pure, Except.map, List.inits]
    exact ⟨h1, h2, h3, h4, h5, h6, h7⟩
  · obtain ⟨h1, h2, h3, h4, h5, h6, h7⟩ := h
    have key : ∃ sys, importPath (asPackage 2 inst) 12 [] [dpfc] = .ok sys ∧ [dpfc] ∈ sys := by
      cases h8 : inst ot <;>
      simp [importPath, loadOne, asPackage, files, mainFile, sfePytorchFile, execStmt, importResolved, resolve, packageOf,
        Guard.holds, h1, h2, h3, h4, h5, h6, h7, h8, List.foldlM_cons, bind, Except.bind, pure, Except.pure, Except.map, List.inits]
    obtain ⟨sys, key, hm⟩ := key
    exact ⟨sys, by rw [importPath_fuel (by rw [key]; simp) fuel hf, key], hm⟩

/-- **C82** (no repair serves both uses). However many leading dots the line has, the package import or the import from
inside the package directory fails. -/
theorem C82_no_common_repair (dots : Nat) (inst : Nm → Bool) :
    (∀ fuel sys, Fresh sys → ∀ sys', importPath (asPackage dots inst) fuel sys [dpfc] ≠ .ok sys') ∨
    (∀ fuel sys, Fresh sys → ∀ sys', importPath (insideDir dots inst) fuel sys [dpfc] ≠ .ok sys') := by
  by_cases h : dots = 0
  · left
    obtain ⟨c, hd, hc, hn⟩ := sfeP_pkg dots (by omega) inst
    intro fuel sys hs sys'
    refine (pkg_doomed dots inst hd hc).fails fuel sys _ (fresh_clear hs ?_) (by simp) sys'
    intro y hy n hyn he
    simp only [List.mem_cons] at hy
    rcases hy with rfl | rfl | rfl | hy
    · cases hyn; exact he
    · cases hyn
    · cases hyn
    · exact hn y hy n hyn
  · right
    obtain ⟨c, hd, hc, hn⟩ := sfeP_dir dots h inst
    intro fuel sys hs sys'
    refine (dir_doomed dots inst hd hc).2.fails fuel sys _ (fresh_clear hs ?_) (by simp) sys'
    intro y hy n hyn he
    simp only [List.mem_cons] at hy
    rcases hy with rfl | rfl | hy
    · cases hyn; exact he
    · cases hyn; exact he
    · exact hn y hy n hyn

/-! ### Examples -/

/-- C82: an interpreter with numpy and torch already loaded is fresh. -/
example : Fresh [[numpy], [torch]] := by
  intro y hy
  simp only [List.mem_cons, List.not_mem_nil, or_false] at hy
  rcases hy with rfl | rfl
  · exact ⟨numpy, rfl, trivial⟩
  · exact ⟨torch, rfl, trivial⟩

/-- C82: with everything installed the repaired package imports, the committed one does not. -/
example : Imports (asPackage 2 fun _ => true) [dpfc] ∧ RaisesImportError (asPackage 1 fun _ => true) [dpfc] :=
  ⟨(C82_repaired _).2 ⟨rfl, rfl, rfl, rfl, rfl, rfl, rfl⟩, (C82_import_fails _).2⟩

end DPFC
