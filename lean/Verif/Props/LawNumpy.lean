import Verif.Lib.LawNumpy
import Verif.Lib.Examples
import Verif.Props.Law

/-!
# C72: the stochastic mode of the numpy class
-/

namespace DPFC
open Spec MeasureTheory ProbabilityTheory

section
variable {N M d : ℕ}

/-- **C72** (the stochastic forward flow, numpy). Stochastic mode of the numpy class, at least two coordinates and one
particle, no reweighting, measurable drift `f1` (called without a time). Construction returns whatever the tapes are. All
slices of the stored forward flow but the last are those of an Euler-Maruyama chain
`Z (j+1) = Z j + dt f1(Z j) + g sqrt(dt) ξ_j`, particle by particle, started in `y1` (coordinates beyond the second in 0),
whose noises are independent arrays of independent standard normals, the noise of each step being independent of the flow so
far. The last slice is `y2`, whatever the chain did. -/
theorem C72_numpy_chain (emd : Solver) (υ : ℕ → ℝ) (c : Cfg d N M ℝ) (hd : 2 ≤ d) (hN : 0 < N)
    (hdet : c.deterministic = false) (hw : c.reweight = false) (hk : KnownKernel c.kern)
    (f1 : (Fin d → ℝ) → Fin d → ℝ) (hf : c.f.call1 = some f1) (hm : Measurable f1)
    (h2 : 2 ≤ (mkGrid c.t1 c.t2).length) (s : ℕ × ℕ) :
    ∃ Z ξ : ℕ → (ℕ → ℝ) → Fin d → Fin N → ℝ,
      (∀ ω, ∃ o r', construct (tapeEnv ω υ emd) c s = .ok (o, r') ∧
        (∀ j, j + 1 < (mkGrid c.t1 c.t2).length → o.Z[j]? = some (Z j ω)) ∧
        o.Z[(mkGrid c.t1 c.t2).length - 1]? = some fun a _ => c.y2 a) ∧
      (∀ ω, Z 0 ω = fun a _ => if a.val < 2 then c.y1 a else 0) ∧
      (∀ j ω a n, Z (j+1) ω a n = Z j ω a n + 1/1000 * f1 (particle (Z j ω) n) a + c.g * (Real.sqrt (1/1000) * ξ j ω a n)) ∧
      (∀ j, gaussTape.map (ξ j) = normalLaw (fun _ _ => 0) 1) ∧
      iIndepFun ξ gaussTape ∧
      ∀ j, IndepFun (fun ω (i : Fin (j+1)) => Z i ω) (ξ j) gaussTape := by
  have hmt : ∀ t, Measurable fun x : Fin d → Fin N → ℝ => ((Law.timeless N f1).call2 x t : Fin d → Fin N → ℝ) := fun t =>
    Law.acts_meas (φ := fun p _ => f1 p) (fun x t a n => rfl) (fun _ => hm) t
  have hξ : ∀ j, Measurable fun (ω : ℕ → ℝ) (a : Fin d) (n : Fin N) => ω (s.1 + j * (d * N) + (a.val * N + n.val)) := fun j =>
    measurable_pi_iff.2 fun a => measurable_pi_iff.2 fun n => measurable_pi_apply _
  refine ⟨fun j ω => Law.em (Law.timeless N f1) c.g [] (fun a _ => if a.val < 2 then c.y1 a else 0) s.1
      (Law.turned d N s.1 ω) j,
    fun j ω a n => Law.turned d N s.1 ω (s.1 + j * (d * N) + (a.val * N + n.val)),
    fun ω => Law.np_stoch_ok hd hN hdet hw hk hf h2 s, fun ω => rfl, fun j ω a n => rfl, fun j => ?_, ?_, fun j => ?_⟩
  · rw [← Law.block_law (d := d) (N := N) (s.1 + j * (d * N))]
    exact Law.law_turned (by omega) hN s.1 (hξ j)
  · exact Law.iindep_turned (by omega) hN s.1 hξ (Law.blocks_indep s.1)
  · exact Law.indep_turned (by omega) hN s.1 (X := fun ω (i : Fin (j+1)) => Law.em (Law.timeless N f1) c.g []
      (fun a _ => if a.val < 2 then c.y1 a else 0) s.1 ω i) (measurable_pi_iff.2 fun i => Law.em_meas hmt i) (hξ j)
      (Law.em_indep hmt j)

/-- **C72** (independent particles, numpy). The particle paths of the stored forward flow, last slice excepted, are
independent and identically distributed. -/
theorem C72_numpy_particles_iid (emd : Solver) (υ : ℕ → ℝ) (c : Cfg d N M ℝ) (hd : 2 ≤ d) (hN : 0 < N)
    (hdet : c.deterministic = false) (hw : c.reweight = false) (hk : KnownKernel c.kern)
    (f1 : (Fin d → ℝ) → Fin d → ℝ) (hf : c.f.call1 = some f1) (hm : Measurable f1)
    (h2 : 2 ≤ (mkGrid c.t1 c.t2).length) (s : ℕ × ℕ) :
    ∃ P : Fin N → (ℕ → ℝ) → ℕ → Fin d → ℝ,
      (∀ ω, ∃ o r', construct (tapeEnv ω υ emd) c s = .ok (o, r') ∧
        ∀ j, j + 1 < (mkGrid c.t1 c.t2).length → o.Z[j]? = some fun a n => P n ω j a) ∧
      iIndepFun P gaussTape ∧ ∀ n n', IdentDistrib (P n) (P n') gaussTape gaussTape := by
  let p0 : Fin d → ℝ := fun a => if a.val < 2 then c.y1 a else 0
  have hA : ActsBy (Law.timeless N f1) fun p _ => f1 p := fun x t a n => rfl
  have hφ : ∀ t : ℝ, Measurable fun p : Fin d → ℝ => (fun p (_ : ℝ) => f1 p) p t := fun _ => hm
  let X : Fin N → (ℕ → ℝ) → ℕ → Fin d → ℝ := fun n ω j => particle (Law.em (Law.timeless N f1) c.g [] (fun a _ => p0 a) s.1 ω j) n
  have hX : ∀ n, Measurable (X n) := fun n => measurable_pi_iff.2 fun j => measurable_pi_iff.2 fun a =>
    measurable_pi_iff.1 (measurable_pi_iff.1 (Law.em_meas (Law.acts_meas hA hφ) j) a) n
  refine ⟨fun n ω => X n (Law.turned d N s.1 ω), fun ω => ?_,
    Law.iindep_turned (by omega) hN s.1 hX (Law.particles_indep hA hφ c.g [] p0 s.1), fun n n' =>
    Law.ident_turned (by omega) hN s.1 (hX n) (hX n') (Law.particles_ident hA hφ c.g [] p0 s.1 n n')⟩
  obtain ⟨o, r', h, hz, -⟩ := Law.np_stoch_ok (ω := ω) (υ := υ) (emd := emd) hd hN hdet hw hk hf h2 s
  exact ⟨o, r', h, hz⟩

/-- **C72** (no drift, numpy). Without drift, coordinate `a` of every particle of slice `j` before the last is normal with
mean `y1_a` (0 beyond the second coordinate) and variance `j g^2 dt`. -/
theorem C72_numpy_brownian_motion (emd : Solver) (υ : ℕ → ℝ) (c : Cfg d N M ℝ) (hd : 2 ≤ d) (hN : 0 < N)
    (hdet : c.deterministic = false) (hw : c.reweight = false) (hk : KnownKernel c.kern)
    (hf : c.f.call1 = some fun _ _ => 0) (h2 : 2 ≤ (mkGrid c.t1 c.t2).length) (s : ℕ × ℕ) :
    ∃ Z : ℕ → (ℕ → ℝ) → Fin d → Fin N → ℝ,
      (∀ ω, ∃ o r', construct (tapeEnv ω υ emd) c s = .ok (o, r') ∧
        ∀ j, j + 1 < (mkGrid c.t1 c.t2).length → o.Z[j]? = some (Z j ω)) ∧
      ∀ j a n, gaussTape.map (fun ω => Z j ω a n)
        = gaussianReal (if a.val < 2 then c.y1 a else 0) (j * Real.toNNReal (c.g ^ 2 / 1000)) := by
  obtain ⟨Z, ξ, hZ, hz0, hs, hl, -, hi⟩ := C72_numpy_chain emd υ c hd hN hdet hw hk _ hf measurable_const h2 s
  refine ⟨Z, fun ω => ?_, Law.brownian (f := Law.timeless N fun _ _ => 0) (t := []) (fun _ _ _ _ => rfl) hz0
    (fun j ω => funext fun a => funext fun n => hs j ω a n) hl hi⟩
  obtain ⟨o, r', h, hz, -⟩ := hZ ω
  exact ⟨o, r', h, hz⟩

end

/-- A stochastic numpy run with 3 coordinates, 4 particles and 21 grid points: the third coordinate starts in 0. -/
example (υ : ℕ → ℝ) : ∃ Z ξ : ℕ → (ℕ → ℝ) → Fin 3 → Fin 4 → ℝ,
    (∀ ω, ∃ o r', construct (tapeEnv ω υ exSolver) (exCfg 3 4 5 20 false false false) (0, 0) = .ok (o, r') ∧
      ∀ j < 20, o.Z[j]? = some (Z j ω)) ∧ (∀ ω n, Z 0 ω 2 n = 0) ∧ iIndepFun ξ gaussTape := by
  have hl := exCfg_grid 3 4 5 20 false false false
  obtain ⟨Z, ξ, h1, h2, -, -, h3, -⟩ := C72_numpy_chain exSolver υ (exCfg 3 4 5 20 false false false) (by norm_num)
    (by norm_num) rfl rfl (.inl rfl) _ rfl (by fun_prop) (by rw [hl]; norm_num) (0, 0)
  rw [hl] at h1
  refine ⟨Z, ξ, fun ω => ?_, fun ω n => ?_, h3⟩
  · obtain ⟨o, r', h, hz, -⟩ := h1 ω
    exact ⟨o, r', h, fun j hj => hz j (by omega)⟩
  · rw [h2]; exact if_neg (by decide)

/-- Its particles. -/
example (υ : ℕ → ℝ) : ∃ P : Fin 4 → (ℕ → ℝ) → ℕ → Fin 3 → ℝ,
    (∀ ω, ∃ o r', construct (tapeEnv ω υ exSolver) (exCfg 3 4 5 20 false false false) (0, 0) = .ok (o, r') ∧
      ∀ j, j + 1 < 21 → o.Z[j]? = some fun a n => P n ω j a) ∧ iIndepFun P gaussTape := by
  have hl := exCfg_grid 3 4 5 20 false false false
  obtain ⟨P, h1, h2, -⟩ := C72_numpy_particles_iid exSolver υ (exCfg 3 4 5 20 false false false) (by norm_num)
    (by norm_num) rfl rfl (.inl rfl) _ rfl (by fun_prop) (by rw [hl]; norm_num) (0, 0)
  rw [hl] at h1
  exact ⟨P, h1, h2⟩

/-- The same problem without drift, callable without a time. -/
noncomputable def exFreeNp : Cfg 3 4 5 ℝ :=
  { exCfg 3 4 5 20 false false false with f := ⟨fun _ _ _ _ => 0, some fun _ _ => 0⟩ }

/-- Brownian motion: variance `10 dt` after ten steps. -/
example (υ : ℕ → ℝ) : ∃ Z : ℕ → (ℕ → ℝ) → Fin 3 → Fin 4 → ℝ,
    (∀ ω, ∃ o r', construct (tapeEnv ω υ exSolver) exFreeNp (0, 0) = .ok (o, r') ∧ o.Z[10]? = some (Z 10 ω)) ∧
    gaussTape.map (fun ω => Z 10 ω 1 2) = gaussianReal 2 (10 * Real.toNNReal (1 ^ 2 / 1000)) := by
  have hl : (mkGrid exFreeNp.t1 exFreeNp.t2).length = 21 := exCfg_grid 3 4 5 20 false false false
  obtain ⟨Z, h1, h2⟩ := C72_numpy_brownian_motion exSolver υ exFreeNp (by norm_num) (by norm_num) rfl rfl (.inl rfl) rfl
    (by rw [hl]; norm_num) (0, 0)
  rw [hl] at h1
  refine ⟨Z, fun ω => ?_, ?_⟩
  · obtain ⟨o, r', h, hz⟩ := h1 ω
    exact ⟨o, r', h, hz 10 (by norm_num)⟩
  rw [h2]
  congr 1
  rw [if_pos (by norm_num)]
  show (1:ℝ) + ((1:Fin 3):ℕ) = 2
  norm_num

end DPFC
