import Verif.Lib.ScoreReal
import Verif.Spec.Recurrence
import Verif.Spec.Control
import Verif.Lib.TorchControl
import Mathlib.Topology.Order.Lattice
import Mathlib.Topology.Instances.Matrix
import Mathlib.Topology.Algebra.Field

/-!
# Limits of the score estimate and its ingredients
-/

namespace DPFC
open Spec Filter Topology

namespace Lim
variable {ι : Type} {F : Filter ι} {N M d n : ℕ}

theorem lo {v : ι → Fin N → ℝ} {v0 : Fin N → ℝ} (hN : 0 < N) (h : Tendsto v F (𝓝 v0)) :
    Tendsto (fun i => Spec.lo (v i)) F (𝓝 (Spec.lo v0)) := by
  haveI : Nonempty (Fin N) := ⟨⟨0, hN⟩⟩
  have e : ∀ w : Fin N → ℝ, Spec.lo w = Finset.univ.inf' Finset.univ_nonempty w := fun w =>
    (Finset.inf'_univ_eq_ciInf w).symm
  simp only [e]
  exact Tendsto.finset_inf'_nhds_apply _ fun k _ => tendsto_pi_nhds.1 h k

theorem hi {v : ι → Fin N → ℝ} {v0 : Fin N → ℝ} (hN : 0 < N) (h : Tendsto v F (𝓝 v0)) :
    Tendsto (fun i => Spec.hi (v i)) F (𝓝 (Spec.hi v0)) := by
  haveI : Nonempty (Fin N) := ⟨⟨0, hN⟩⟩
  have e : ∀ w : Fin N → ℝ, Spec.hi w = Finset.univ.sup' Finset.univ_nonempty w := fun w =>
    (Finset.sup'_univ_eq_ciSup w).symm
  simp only [e]
  exact Tendsto.finset_sup'_nhds_apply _ fun k _ => tendsto_pi_nhds.1 h k

theorem avg {v : ι → Fin N → ℝ} {v0 : Fin N → ℝ} (h : Tendsto v F (𝓝 v0)) :
    Tendsto (fun i => Spec.avg (v i)) F (𝓝 (Spec.avg v0)) :=
  (tendsto_finsetSum _ fun k _ => tendsto_pi_nhds.1 h k).div_const _

theorem sqsum {v : ι → Fin N → ℝ} {v0 : Fin N → ℝ} (h : Tendsto v F (𝓝 v0)) :
    Tendsto (fun i => ∑ k, (v i k - Spec.avg (v i)) ^ 2) F (𝓝 (∑ k, (v0 k - Spec.avg v0) ^ 2)) :=
  tendsto_finsetSum _ fun k _ => ((tendsto_pi_nhds.1 h k).sub (avg h)).pow 2

theorem sdev {v : ι → Fin N → ℝ} {v0 : Fin N → ℝ} (h : Tendsto v F (𝓝 v0)) :
    Tendsto (fun i => Spec.sdev (v i)) F (𝓝 (Spec.sdev v0)) :=
  ((sqsum h).div_const _).sqrt

theorem sampleSdev {v : ι → Fin N → ℝ} {v0 : Fin N → ℝ} (h : Tendsto v F (𝓝 v0)) :
    Tendsto (fun i => Spec.sampleSdev (v i)) F (𝓝 (Spec.sampleSdev v0)) :=
  ((sqsum h).div_const _).sqrt

theorem at2 {X : ι → Fin d → Fin N → ℝ} {X0 : Fin d → Fin N → ℝ} (h : Tendsto X F (𝓝 X0)) (a : Fin d) (k : Fin N) :
    Tendsto (fun i => X i a k) F (𝓝 (X0 a k)) := tendsto_pi_nhds.1 (tendsto_pi_nhds.1 h a) k

theorem of2 {X : ι → Fin d → Fin N → ℝ} {X0 : Fin d → Fin N → ℝ}
    (h : ∀ a k, Tendsto (fun i => X i a k) F (𝓝 (X0 a k))) : Tendsto X F (𝓝 X0) :=
  tendsto_pi_nhds.2 fun a => tendsto_pi_nhds.2 fun k => h a k

theorem spread {X : ι → Fin d → Fin N → ℝ} {X0 : Fin d → Fin N → ℝ} (h : Tendsto X F (𝓝 X0)) (h0 : Spread X0) :
    ∀ᶠ i in F, Spread (X i) := by
  unfold Spread
  rw [eventually_all]
  exact fun a => (sdev (tendsto_pi_nhds.1 h a)).eventually_ne (h0 a)

theorem gauss {l x y : ι → Fin d → ℝ} {l0 x0 y0 : Fin d → ℝ} (hl : Tendsto l F (𝓝 l0)) (h0 : ∀ k, l0 k ≠ 0)
    (hx : Tendsto x F (𝓝 x0)) (hy : Tendsto y F (𝓝 y0)) :
    Tendsto (fun i => Spec.gauss (l i) (x i) (y i)) F (𝓝 (Spec.gauss l0 x0 y0)) := by
  unfold Spec.gauss
  refine (Real.continuous_exp.tendsto _).comp ((tendsto_finsetSum _ fun k _ => ?_).neg)
  exact (((tendsto_pi_nhds.1 hx k).sub (tendsto_pi_nhds.1 hy k)).pow 2).div
    (((tendsto_pi_nhds.1 hl k).pow 2).const_mul 2) (by have := h0 k; positivity)

theorem kmat {l : ι → Fin d → ℝ} {l0 : Fin d → ℝ} {X : ι → Fin N → Fin d → ℝ} {X0 : Fin N → Fin d → ℝ}
    {Z : ι → Fin M → Fin d → ℝ} {Z0 : Fin M → Fin d → ℝ} (hl : Tendsto l F (𝓝 l0)) (h0 : ∀ k, l0 k ≠ 0)
    (hX : Tendsto X F (𝓝 X0)) (hZ : Tendsto Z F (𝓝 Z0)) :
    Tendsto (fun i => Spec.kmat (l i) (X i) (Z i)) F (𝓝 (Spec.kmat l0 X0 Z0)) :=
  tendsto_pi_nhds.2 fun a => tendsto_pi_nhds.2 fun b =>
    gauss hl h0 (tendsto_pi_nhds.1 hX a) (tendsto_pi_nhds.1 hZ b)

theorem matMul {p q s : ℕ} {A : ι → Matrix (Fin p) (Fin q) ℝ} {B : ι → Matrix (Fin q) (Fin s) ℝ}
    {A0 : Matrix (Fin p) (Fin q) ℝ} {B0 : Matrix (Fin q) (Fin s) ℝ} (hA : Tendsto A F (𝓝 A0))
    (hB : Tendsto B F (𝓝 B0)) : Tendsto (fun i => A i * B i) F (𝓝 (A0 * B0)) :=
  ((continuous_fst.matrix_mul continuous_snd).tendsto (A0, B0)).comp (hA.prodMk_nhds hB)

theorem matInv {A : ι → Matrix (Fin M) (Fin M) ℝ} {A0 : Matrix (Fin M) (Fin M) ℝ} (hA : Tendsto A F (𝓝 A0))
    (h0 : IsUnit A0.det) : Tendsto (fun i => (A i)⁻¹) F (𝓝 A0⁻¹) := by
  simp only [Matrix.inv_def, Ring.inverse_eq_inv']
  have h1 : Tendsto (fun i => (A i).det) F (𝓝 A0.det) := (continuous_id.matrix_det.tendsto A0).comp hA
  have h2 : Tendsto (fun i => (A i).adjugate) F (𝓝 A0.adjugate) := (continuous_id.matrix_adjugate.tendsto A0).comp hA
  exact (h1.inv₀ h0.ne_zero).smul h2

theorem score {l : ι → Fin d → ℝ} {l0 : Fin d → ℝ} {X : ι → Fin N → Fin d → ℝ} {X0 : Fin N → Fin d → ℝ}
    {Z : ι → Fin M → Fin d → ℝ} {Z0 : Fin M → Fin d → ℝ} {x : ι → Fin d → ℝ} {x0 : Fin d → ℝ}
    (hl : Tendsto l F (𝓝 l0)) (h0 : ∀ k, l0 k ≠ 0) (hX : Tendsto X F (𝓝 X0)) (hZ : Tendsto Z F (𝓝 Z0))
    (hx : Tendsto x F (𝓝 x0)) (j : Fin d) :
    Tendsto (fun i => Spec.score (1/1000) (l i) (X i) (Z i) j (x i)) F (𝓝 (Spec.score (1/1000) l0 X0 Z0 j x0)) := by
  unfold Spec.score
  refine tendsto_finsetSum _ fun m _ => Tendsto.mul ?_ (gauss hl h0 hx (tendsto_pi_nhds.1 hZ m))
  unfold Spec.coef
  have hS : Tendsto (fun i => sysMat (1/1000) (l i) (X i) (Z i)) F (𝓝 (sysMat (1/1000) l0 X0 Z0)) := by
    unfold sysMat gramReg
    have hk := kmat hl h0 hX hZ
    have ht : Tendsto (fun i => (Spec.kmat (l i) (X i) (Z i)).transpose) F (𝓝 (Spec.kmat l0 X0 Z0).transpose) :=
      (continuous_id.matrix_transpose.tendsto (Spec.kmat l0 X0 Z0)).comp hk
    exact (matMul ht hk).add (((kmat hl h0 hZ hZ).add_const _).const_smul _)
  have hI := matInv hS (posDef_isUnit_det (sysMat_posDef (by norm_num) l0 X0 Z0))
  simp only [Pi.neg_apply, Matrix.mulVec, dotProduct]
  refine (tendsto_finsetSum _ fun q _ => Tendsto.mul ?_ ?_).neg
  · exact tendsto_pi_nhds.1 (tendsto_pi_nhds.1 hI m) q
  · unfold gradSum
    refine tendsto_finsetSum _ fun s _ => ?_
    simp only [pderiv_gauss]
    have hXs := tendsto_pi_nhds.1 hX s
    have hZq := tendsto_pi_nhds.1 hZ q
    exact ((((tendsto_pi_nhds.1 hXs j).sub (tendsto_pi_nhds.1 hZq j)).neg).div ((tendsto_pi_nhds.1 hl j).pow 2)
      (pow_ne_zero _ (h0 j))).mul (gauss hl h0 hXs hZq)

theorem particle {X : ι → Fin d → Fin N → ℝ} {X0 : Fin d → Fin N → ℝ} (h : Tendsto X F (𝓝 X0)) :
    Tendsto (fun i => Spec.particle (X i)) F (𝓝 (Spec.particle X0)) := of2 fun k a => at2 h a k

theorem inducing {l h : ι → Fin d → ℝ} {l0 h0 : Fin d → ℝ} {u : ι → Fin d → Fin M → ℝ} {u0 : Fin d → Fin M → ℝ}
    (hl : Tendsto l F (𝓝 l0)) (hh : Tendsto h F (𝓝 h0)) (hu : Tendsto u F (𝓝 u0)) :
    Tendsto (fun i => Spec.inducing (l i) (h i) (u i)) F (𝓝 (Spec.inducing l0 h0 u0)) :=
  of2 fun m a => (tendsto_pi_nhds.1 hl a).add
    (((tendsto_pi_nhds.1 hh a).sub (tendsto_pi_nhds.1 hl a)).mul (at2 hu a m))

theorem tinducing {l h : ι → Fin d → ℝ} {l0 h0 : Fin d → ℝ} {u : ι → Fin M → Fin d → ℝ} {u0 : Fin M → Fin d → ℝ}
    (hl : Tendsto l F (𝓝 l0)) (hh : Tendsto h F (𝓝 h0)) (hu : Tendsto u F (𝓝 u0)) :
    Tendsto (fun i => Spec.tinducing (l i) (h i) (u i)) F (𝓝 (Spec.tinducing l0 h0 u0)) :=
  of2 fun m a => (tendsto_pi_nhds.1 hl a).add
    ((at2 hu m a).mul ((tendsto_pi_nhds.1 hh a).sub (tendsto_pi_nhds.1 hl a)))

/-- Score estimates of clouds at points (rows). -/
theorem pointScore {X : ι → Fin d → Fin N → ℝ} {X0 : Fin d → Fin N → ℝ} {P : ι → Fin M → Fin d → ℝ}
    {P0 : Fin M → Fin d → ℝ} {y : ι → Fin n → Fin d → ℝ} {y0 : Fin n → Fin d → ℝ} (hX : Tendsto X F (𝓝 X0))
    (h0 : Spread X0) (hP : Tendsto P F (𝓝 P0)) (hy : Tendsto y F (𝓝 y0)) :
    Tendsto (fun i => Spec.pointScore (X i) (P i) (y i)) F (𝓝 (Spec.pointScore X0 P0 y0)) :=
  of2 fun a j => score (tendsto_pi_nhds.2 fun k => (sdev (tendsto_pi_nhds.1 hX k)).const_mul 2)
    (fun k => mul_ne_zero two_ne_zero (h0 k)) (particle hX) hP (tendsto_pi_nhds.1 hy j) a

theorem cloudScore {X : ι → Fin d → Fin N → ℝ} {X0 : Fin d → Fin N → ℝ} {P : ι → Fin M → Fin d → ℝ}
    {P0 : Fin M → Fin d → ℝ} {y : ι → Fin d → Fin N → ℝ} {y0 : Fin d → Fin N → ℝ} (hX : Tendsto X F (𝓝 X0))
    (h0 : Spread X0) (hP : Tendsto P F (𝓝 P0)) (hy : Tendsto y F (𝓝 y0)) :
    Tendsto (fun i => Spec.cloudScore (X i) (P i) (y i)) F (𝓝 (Spec.cloudScore X0 P0 y0)) :=
  pointScore (n := N) hX h0 hP (particle hy)

theorem scoreRho (hN : 0 < N) {X Y : ι → Fin d → Fin N → ℝ} {X0 Y0 : Fin d → Fin N → ℝ} (hX : Tendsto X F (𝓝 X0))
    (h0 : Spread X0) (hY : Tendsto Y F (𝓝 Y0)) (u : Fin d → Fin M → ℝ) :
    Tendsto (fun i => Spec.scoreRho (X i) (Y i) u) F (𝓝 (Spec.scoreRho X0 Y0 u)) :=
  cloudScore hX h0 (inducing
    (tendsto_pi_nhds.2 fun a => (lo hN (tendsto_pi_nhds.1 hX a)).max (lo hN (tendsto_pi_nhds.1 hY a)))
    (tendsto_pi_nhds.2 fun a => (hi hN (tendsto_pi_nhds.1 hX a)).min (hi hN (tendsto_pi_nhds.1 hY a)))
    tendsto_const_nhds) hY

theorem scoreB (hN : 0 < N) {X Y : ι → Fin d → Fin N → ℝ} {X0 Y0 : Fin d → Fin N → ℝ} (hX : Tendsto X F (𝓝 X0))
    (hY : Tendsto Y F (𝓝 Y0)) (h0 : Spread Y0) (u : Fin d → Fin M → ℝ) :
    Tendsto (fun i => Spec.scoreB (X i) (Y i) u) F (𝓝 (Spec.scoreB X0 Y0 u)) :=
  cloudScore hY h0 (inducing
    (tendsto_pi_nhds.2 fun a => (lo hN (tendsto_pi_nhds.1 hX a)).max (lo hN (tendsto_pi_nhds.1 hY a)))
    (tendsto_pi_nhds.2 fun a => (hi hN (tendsto_pi_nhds.1 hX a)).min (hi hN (tendsto_pi_nhds.1 hY a)))
    tendsto_const_nhds) hY

theorem flowScore (hN : 0 < N) {X : ι → Fin d → Fin N → ℝ} {X0 : Fin d → Fin N → ℝ} (hX : Tendsto X F (𝓝 X0))
    (h0 : Spread X0) (u : Fin d → Fin M → ℝ) :
    Tendsto (fun i => Spec.cloudScore (X i) (Spec.inducing (fun a => Spec.lo (X i a)) (fun a => Spec.hi (X i a)) u) (X i))
      F (𝓝 (Spec.cloudScore X0 (Spec.inducing (fun a => Spec.lo (X0 a)) (fun a => Spec.hi (X0 a)) u) X0)) :=
  cloudScore hX h0 (inducing (tendsto_pi_nhds.2 fun a => lo hN (tendsto_pi_nhds.1 hX a))
    (tendsto_pi_nhds.2 fun a => hi hN (tendsto_pi_nhds.1 hX a)) tendsto_const_nhds) hX

theorem sample_ne {v : Fin N → ℝ} (h : Spec.sdev v ≠ 0) : Spec.sampleSdev v ≠ 0 := by
  have hN : 2 ≤ N := by
    by_contra hN
    apply h
    unfold Spec.sdev
    have : ∑ k, (v k - Spec.avg v) ^ 2 = 0 := by
      match N, hN with
      | 0, _ => simp
      | 1, _ => simp [Spec.avg]
      | n+2, hN => omega
    simp [variance, this]
  intro h1
  have := sampleSdev_sq hN v
  rw [h1] at this
  have h2 : (0:ℝ) < N - 1 := by
    have : (2:ℝ) ≤ N := by exact_mod_cast hN
    linarith
  have h3 : (0:ℝ) < N := by linarith
  have : 0 < (N:ℝ) / (N - 1) * Spec.sdev v ^ 2 := by positivity
  linarith [this, ‹(0:ℝ) ^ 2 = _›]

theorem tcloudScore {X : ι → Fin d → Fin N → ℝ} {X0 : Fin d → Fin N → ℝ} {P : ι → Fin M → Fin d → ℝ}
    {P0 : Fin M → Fin d → ℝ} {y : ι → Fin d → Fin N → ℝ} {y0 : Fin d → Fin N → ℝ} (hX : Tendsto X F (𝓝 X0))
    (h0 : Spread X0) (hP : Tendsto P F (𝓝 P0)) (hy : Tendsto y F (𝓝 y0)) :
    Tendsto (fun i => Spec.tcloudScore (X i) (P i) (y i)) F (𝓝 (Spec.tcloudScore X0 P0 y0)) :=
  of2 fun a j => score (tendsto_pi_nhds.2 fun k => (sampleSdev (tendsto_pi_nhds.1 hX k)).const_mul 2)
    (fun k => mul_ne_zero two_ne_zero (sample_ne (h0 k))) (particle hX) hP (tendsto_pi_nhds.1 (particle hy) j) a

theorem tpointScore {X : ι → Fin d → Fin N → ℝ} {X0 : Fin d → Fin N → ℝ} {P : ι → Fin M → Fin d → ℝ}
    {P0 : Fin M → Fin d → ℝ} {y : ι → Fin n → Fin d → ℝ} {y0 : Fin n → Fin d → ℝ} (hX : Tendsto X F (𝓝 X0))
    (h0 : Spread X0) (hP : Tendsto P F (𝓝 P0)) (hy : Tendsto y F (𝓝 y0)) :
    Tendsto (fun i => Spec.tpointScore (X i) (P i) (y i)) F (𝓝 (Spec.tpointScore X0 P0 y0)) :=
  of2 fun a j => score (tendsto_pi_nhds.2 fun k => (sampleSdev (tendsto_pi_nhds.1 hX k)).const_mul 2)
    (fun k => mul_ne_zero two_ne_zero (sample_ne (h0 k))) (particle hX) hP (tendsto_pi_nhds.1 hy j) a

theorem hull (hN : 0 < N) {X Y : ι → Fin d → Fin N → ℝ} {X0 Y0 : Fin d → Fin N → ℝ} (hX : Tendsto X F (𝓝 X0))
    (hY : Tendsto Y F (𝓝 Y0)) (u : Fin M → Fin d → ℝ) :
    Tendsto (fun i => Spec.tinducing (fun a => min (Spec.lo (X i a)) (Spec.lo (Y i a)))
        (fun a => max (Spec.hi (X i a)) (Spec.hi (Y i a))) u) F
      (𝓝 (Spec.tinducing (fun a => min (Spec.lo (X0 a)) (Spec.lo (Y0 a)))
        (fun a => max (Spec.hi (X0 a)) (Spec.hi (Y0 a))) u)) :=
  tinducing (tendsto_pi_nhds.2 fun a => (lo hN (tendsto_pi_nhds.1 hX a)).min (lo hN (tendsto_pi_nhds.1 hY a)))
    (tendsto_pi_nhds.2 fun a => (hi hN (tendsto_pi_nhds.1 hX a)).max (hi hN (tendsto_pi_nhds.1 hY a)))
    tendsto_const_nhds

theorem tflowScore (hN : 0 < N) {X : ι → Fin d → Fin N → ℝ} {X0 : Fin d → Fin N → ℝ} (hX : Tendsto X F (𝓝 X0))
    (h0 : Spread X0) (u : Fin M → Fin d → ℝ) :
    Tendsto (fun i => Spec.tcloudScore (X i) (Spec.tinducing (fun a => Spec.lo (X i a)) (fun a => Spec.hi (X i a)) u) (X i))
      F (𝓝 (Spec.tcloudScore X0 (Spec.tinducing (fun a => Spec.lo (X0 a)) (fun a => Spec.hi (X0 a)) u) X0)) :=
  tcloudScore hX h0 (tinducing (tendsto_pi_nhds.2 fun a => lo hN (tendsto_pi_nhds.1 hX a))
    (tendsto_pi_nhds.2 fun a => hi hN (tendsto_pi_nhds.1 hX a)) tendsto_const_nhds) hX

theorem tscoreB (hN : 0 < N) {X Y : ι → Fin d → Fin N → ℝ} {X0 Y0 : Fin d → Fin N → ℝ} (hX : Tendsto X F (𝓝 X0))
    (hY : Tendsto Y F (𝓝 Y0)) (h0 : Spread Y0) (u : Fin M → Fin d → ℝ) :
    Tendsto (fun i => Spec.tscoreB (X i) (Y i) u) F (𝓝 (Spec.tscoreB X0 Y0 u)) :=
  tcloudScore hY h0 (hull hN hX hY u) hY

/-- Where the backward cloud is one point. -/
theorem tscoreRho_pt (hN : 0 < N) {X : ι → Fin d → Fin N → ℝ} {X0 : Fin d → Fin N → ℝ} {y : ι → Fin d → ℝ}
    {y0 : Fin d → ℝ} (hX : Tendsto X F (𝓝 X0)) (h0 : Spread X0) (hy : Tendsto y F (𝓝 y0)) (u : Fin M → Fin d → ℝ) :
    Tendsto (fun i => Spec.tscoreRho (X i) (fun a _ => y i a) u) F (𝓝 (Spec.tscoreRho X0 (fun a _ => y0 a) u)) := by
  have : Nonempty (Fin N) := ⟨⟨0, hN⟩⟩
  have e : ∀ s : ℝ, Spec.lo (fun _ : Fin N => s) = Spec.hi (fun _ : Fin N => s) := fun s => by
    simp [Spec.lo, Spec.hi]
  unfold Spec.tscoreRho
  refine tcloudScore hX h0 ?_ (of2 fun a _ => tendsto_pi_nhds.1 hy a)
  unfold tlow thigh
  simp only [if_pos (e _)]
  exact tinducing (tendsto_pi_nhds.2 fun a => lo hN (tendsto_pi_nhds.1 hX a))
    (tendsto_pi_nhds.2 fun a => hi hN (tendsto_pi_nhds.1 hX a)) tendsto_const_nhds

theorem lo_ne_hi (hN : 0 < N) {v : Fin N → ℝ} (h : Spec.sdev v ≠ 0) : Spec.lo v ≠ Spec.hi v :=
  (lo_lt_hi_of_spread hN h).ne

theorem tscoreRho (hN : 0 < N) {X Y : ι → Fin d → Fin N → ℝ} {X0 Y0 : Fin d → Fin N → ℝ} (hX : Tendsto X F (𝓝 X0))
    (h0 : Spread X0) (hY : Tendsto Y F (𝓝 Y0)) (hY0 : Spread Y0) (u : Fin M → Fin d → ℝ) :
    Tendsto (fun i => Spec.tscoreRho (X i) (Y i) u) F (𝓝 (Spec.tscoreRho X0 Y0 u)) := by
  have e : ∀ Y : Fin d → Fin N → ℝ, Spread Y → ∀ X, Spec.tscoreRho X Y u = Spec.tcloudScore X
      (Spec.tinducing (fun a => min (Spec.lo (X a)) (Spec.lo (Y a))) (fun a => max (Spec.hi (X a)) (Spec.hi (Y a))) u) Y := by
    intro Y hs X
    unfold Spec.tscoreRho tlow thigh
    simp only [if_neg (lo_ne_hi hN (hs _))]
  rw [e Y0 hY0]
  refine Tendsto.congr' ((spread hY hY0).mono fun i hi => (e (Y i) hi (X i)).symm) ?_
  exact tcloudScore hX h0 (hull hN hX hY u) hY

end Lim
end DPFC
