import Verif.Lib.LenScaleTorch

/-!
# C84: lengthscales of any shape in the torch kernel and estimator
-/

namespace DPFC
open Spec

variable {N M d m : Nat}

/-- **C84** (torch estimator, one entry per column or a single entry). A list or array with one lengthscale per column gives
the documented estimator; one with a single entry the estimator with that scalar, in any dimension. -/
theorem C84_right_length (X : Mat N d ℝ) (Z : Mat M d ℝ) (C : ℝ) (kern : String) :
    (∀ l : Fin d → ℝ, torchScoreList X Z l = torchScore X Z (.ndarray l) C kern) ∧
    (∀ l : Fin 1 → ℝ, torchScoreList X Z l = torchScore X Z (.pyFloat (l 0)) C kern) := by
  constructor
  · intro l
    rw [torchScore_real X Z (.ndarray l) (.vec l) rfl,
      torchList_core (bdim_self d) le_rfl X Z l l (fun _ => 1)]
    · simp only [one_mul]; rfl
    · intro x y
      simp only [bget_fin, gauss]
      congr 1
      rw [Finset.mul_sum, ← Finset.sum_neg_distrib]
      exact Finset.sum_congr rfl fun k _ => by ring
    · intro di x y
      rw [bget_fin, one_mul]
  · intro l
    have hb : bdim d 1 = some d := by
      unfold bdim
      by_cases h : d = 1
      · rw [if_pos h]
      · rw [if_neg h, if_neg h, if_pos rfl]
    rw [torchScore_real X Z (.pyFloat (l 0)) (.scalar (l 0)) rfl,
      torchList_core hb le_rfl X Z l (fun _ => l 0) (fun _ => 1)]
    · simp only [one_mul]; rfl
    · intro x y
      simp only [bget_fin, bget_one, gauss]
      congr 1
      rw [Finset.mul_sum, ← Finset.sum_neg_distrib]
      exact Finset.sum_congr rfl fun k _ => by ring
    · intro di x y
      rw [bget_one, one_mul]

/-- **C84** (torch estimator, one column, several lengthscales). In one dimension a list of several non-zero lengthscales is
accepted silently: the result is `L^2 / l_0^2` times the score estimate with the lengthscale `L`, where
`1/L^2 = sum 1/l_k^2`; it is not the estimate for any of the entries in general. -/
theorem C84_one_column (X : Mat N 1 ℝ) (Z : Mat M 1 ℝ) (l : Fin (m+1) → ℝ) (hl : ∀ k, l k ≠ 0) :
    ∃ L : ℝ, 0 < L ∧ 1 / L^2 = ∑ k, 1 / (l k)^2 ∧
      torchScoreList X Z l = .ok fun i j => L^2 / (l 0)^2 * Spec.score (1/1000) (fun _ => L) X Z j (X i) := by
  have hpos : 0 < ∑ k, 1 / (l k)^2 :=
    Finset.sum_pos (fun k _ => one_div_pos.2 (by have := hl k; positivity)) ⟨0, Finset.mem_univ _⟩
  obtain ⟨L, hL0, hL⟩ : ∃ L : ℝ, 0 < L ∧ 1 / L^2 = ∑ k, 1 / (l k)^2 := by
    refine ⟨1 / Real.sqrt (∑ k, 1 / (l k)^2), by positivity, ?_⟩
    rw [div_pow, one_pow, Real.sq_sqrt hpos.le, one_div_one_div]
  refine ⟨L, hL0, hL, ?_⟩
  have hb : bdim 1 (m+1) = some (m+1) := by
    unfold bdim
    by_cases h : 1 = m + 1
    · rw [if_pos h, ← h]
    · rw [if_neg h, if_pos rfl]
  rw [torchList_core hb (by omega) X Z l (fun _ => L) (fun _ => L^2 / (l 0)^2)]
  · intro x y
    simp only [bget_fin, bget_one]
    exact gauss_one_combine l L hL x y
  · intro di x y
    obtain rfl : di = 0 := Subsingleton.elim _ _
    have h0 := hl 0
    rw [show bget l (0 : Fin 1).val = l 0 from bget_fin l 0]
    field_simp

/-- **C84** (torch estimator, all other lengths). Any other length raises RuntimeError, except that an empty list in one
dimension raises IndexError. -/
theorem C84_wrong_length (X : Mat N d ℝ) (Z : Mat M d ℝ) (l : Fin m → ℝ) :
    (m ≠ d → m ≠ 1 → d ≠ 1 → torchScoreList X Z l = .error .runtimeError) ∧
    (m = 0 → d = 1 → torchScoreList X Z l = .error .indexError) := by
  constructor
  · intro h1 h2 h3
    have hb : bdim d m = none := by
      unfold bdim
      rw [if_neg (Ne.symm h1), if_neg h3, if_neg h2]
    simp only [torchScoreList, RBFAny.new, Except.ok_bind', RBFAny.kernel, hb]
    rfl
  · rintro rfl rfl
    have hb : bdim 1 0 = some 0 := rfl
    have hK : ∀ x y : Fin 1 → ℝ, Real.exp (-(1/2) * ∑ k : Fin 0, bget (fun k' : Fin 1 => (x k' - y k')^2) k / (bget l k)^2)
      = gauss (fun _ => (0:ℝ)) x y := by
      intro x y
      simp [gauss]
    have hk := anyKernel_true hb l X Z _ hK none
    have hkz := anyKernel_true hb l Z Z _ hK none
    simp only [torchScoreList, RBFAny.new, Except.ok_bind', hk, hkz, bget_fin, anyGrad_ok hb,
      real_inv_ok (ridge_unit (fun _ => (0:ℝ)) Z), real_lit_milli]
    have hu := real_inv_ok (inner_real_unit (C := 1/1000) (by norm_num) (fun _ => (0:ℝ)) X Z)
    simp only [preReal] at hu
    have hs : ∀ f : Fin 1 → Except PyErr (Fin N → ℝ), f 0 = .error .indexError → seqM 1 f = .error .indexError := by
      intro f hf
      simp only [seqM, hf]
      rfl
    rw [hs]
    · rfl
    · rw [dif_neg (by simp)]
      exact Eq.trans (congrArg (fun z : Except PyErr (Mat M M ℝ) =>
        (z >>= fun _ => Except.error .indexError : Except PyErr (Fin N → ℝ))) hu) rfl

/-- **C84** (the flag `multil`). `RBF(number, multil=True)` raises IndexError; a number without and an array of one
lengthscale per column with the flag are the documented kernels: `Kernel` returns the Gaussian kernel matrix and
`gradient_X` afterwards (minus) its gradient. -/
theorem C84_documented (X : Mat N d ℝ) (Y : Mat M d ℝ) :
    (∀ l : ℝ, RBFAny.new (.num l) true = .error .indexError) ∧
    (∀ l : ℝ, ∃ o o', RBFAny.new (.num l) false = .ok o ∧
      o.kernel X Y = .ok (⟨N, M, fun i j => Spec.gauss (fun _ => l) (X i) (Y j)⟩, o') ∧
      o'.gradientX X Y = .ok ⟨N, M, d, fun i j k => -Spec.pderiv (fun x => Spec.gauss (fun _ => l) x (Y j)) k (X i)⟩) ∧
    (∀ l : Fin d → ℝ, ∃ o o', RBFAny.new (.arr d l) true = .ok o ∧
      o.kernel X Y = .ok (⟨N, M, fun i j => Spec.gauss l (X i) (Y j)⟩, o') ∧
      o'.gradientX X Y = .ok ⟨N, M, d, fun i j k => -Spec.pderiv (fun x => Spec.gauss l x (Y j)) k (X i)⟩) := by
  refine ⟨fun l => rfl, fun l => ?_, fun l => ?_⟩
  · refine ⟨_, ⟨.num l, false, lit 1 1, some ⟨N, M, gk (fun _ => l) X Y⟩⟩, rfl, ?_, ?_⟩
    · have e : (fun i j => (lit 1 1 : ℝ) * NumOps.exp (-(lit 1 2) * ((NumOps.sum fun k => sq (X i k - Y j k)) / sq l)))
          = gk (fun _ => l) X Y := by
        funext i j
        have := torchKern_real (.scalar l) (X i) (Y j)
        simp only [torchKern] at this
        rw [this]
        simp only [gk, real_lit_one, one_mul]; rfl
      simp only [RBFAny.kernel, Except.ok_bind', e]
      rfl
    · simp only [RBFAny.gradientX, bdim_self, Except.ok_bind', bget_fin, real_sq]
      congr 2
      funext i j k
      rw [pderiv_gauss]
      simp only [gk]
      ring
  · refine ⟨_, _, rfl, anyKernel_true (bdim_self d) l X Y l ?_ none, ?_⟩
    · intro x y
      simp only [bget_fin, gauss]
      congr 1
      rw [Finset.mul_sum, ← Finset.sum_neg_distrib]
      exact Finset.sum_congr rfl fun k _ => by ring
    · rw [anyGrad_ok (bdim_self d)]
      congr 2
      funext i j k
      rw [pderiv_gauss]
      simp only [gk, bget_fin]
      ring

/-- **C84** (forgetting the flag). `RBF([l_1, ..., l_m])` without `multil=True` can be constructed. Its `Kernel(X, Y)`
divides by the lengthscale of the *point*, not of the coordinate: it returns exactly if `m` equals the number of points of
`Y` or one of the two is 1, and for `m` equal to the number of points entry `(i, j)` is the Gaussian kernel with
lengthscale `l_j` in all coordinates. -/
theorem C84_flag_forgotten (X : Mat N d ℝ) (Y : Mat M d ℝ) :
    (∀ l : Fin m → ℝ, ∃ o, RBFAny.new (.arr m l) false = .ok o ∧
      ((∃ r, o.kernel X Y = .ok r) ↔ m = M ∨ m = 1 ∨ M = 1) ∧
      (¬ (m = M ∨ m = 1 ∨ M = 1) → o.kernel X Y = .error .runtimeError)) ∧
    (∀ l : Fin M → ℝ, ∃ o o', RBFAny.new (.arr M l) false = .ok o ∧
      o.kernel X Y = .ok (⟨N, M, fun i j => Spec.gauss (fun _ => l j) (X i) (Y j)⟩, o') ∧
      (M = d → ∃ G, o'.gradientX X Y = .ok G) ∧
      (M ≠ d → M ≠ 1 → d ≠ 1 → o'.gradientX X Y = .error .runtimeError)) := by
  refine ⟨fun l => ⟨_, rfl, ?_, ?_⟩, fun l => ?_⟩
  · unfold RBFAny.kernel
    by_cases h : m = M ∨ m = 1 ∨ M = 1
    · refine ⟨fun _ => h, fun _ => ?_⟩
      obtain ⟨mm, hb⟩ : ∃ mm, bdim M m = some mm := by
        unfold bdim
        split
        · exact ⟨_, rfl⟩
        · split
          · exact ⟨_, rfl⟩
          · rw [if_pos (by omega)]; exact ⟨_, rfl⟩
      simp only [hb, Except.ok_bind']
      exact ⟨_, rfl⟩
    · have hb : bdim M m = none := by
        unfold bdim
        rw [if_neg (by omega), if_neg (by omega), if_neg (by omega)]
      simp only [hb, h, iff_false]
      rintro ⟨r, hr⟩
      cases hr
  · intro h
    have hb : bdim M m = none := by
      unfold bdim
      rw [if_neg (by omega), if_neg (by omega), if_neg (by omega)]
    simp only [RBFAny.kernel, hb]
    rfl
  · have e : (fun i j => (lit 1 1 : ℝ) * NumOps.exp (-(lit 1 2) *
          (bget (fun j' : Fin M => NumOps.sum fun k => sq (X i k - Y j' k)) (Fin.val j) / sq (bget l (Fin.val j)))))
        = (fun i j => gauss (fun _ => l j) (X i) (Y j) : Mat N M ℝ) := by
      funext i j
      have := torchKern_real (.scalar (l j)) (X i) (Y j)
      simp only [torchKern] at this
      rw [bget_fin, bget_fin, this]
      simp only [real_lit_one, one_mul]; rfl
    refine ⟨_, ⟨.arr M l, false, lit 1 1, some ⟨N, M, fun i j => gauss (fun _ => l j) (X i) (Y j)⟩⟩, rfl, ?_, ?_, ?_⟩
    · simp only [RBFAny.kernel, bdim_self, Except.ok_bind', e]
    · rintro rfl
      exact ⟨_, anyGrad_ok (bdim_self M) l false _ X Y _⟩
    · intro h1 h2 h3
      have hb : bdim d M = none := by
        unfold bdim
        rw [if_neg (by omega), if_neg (by omega), if_neg (by omega)]
      simp only [RBFAny.gradientX, hb]
      rfl

/-- **C84** (forgetting the flag, as many points as columns). If `Y` happens to have as many points as columns, both
`Kernel` and `gradient_X` return, but the kernel uses `l_j` for point `j` and the gradient `l_k` for coordinate `k`: where
two entries differ, the gradient is not that of the kernel. -/
theorem C84_flag_forgotten_gradient (X : Mat N d ℝ) (Y : Mat d d ℝ) (l : Fin d → ℝ) :
    ∃ o o', RBFAny.new (.arr d l) false = .ok o ∧
      o.kernel X Y = .ok (⟨N, d, fun i j => Spec.gauss (fun _ => l j) (X i) (Y j)⟩, o') ∧
      ∃ G : Fin N → Fin d → Fin d → ℝ, o'.gradientX X Y = .ok ⟨N, d, d, G⟩ ∧
        ∀ i j k, X i k ≠ Y j k → l j ≠ 0 → l k ≠ 0 →
          (G i j k = -Spec.pderiv (fun x => Spec.gauss (fun _ => l j) x (Y j)) k (X i) ↔ (l j)^2 = (l k)^2) := by
  have e : (fun i j => (lit 1 1 : ℝ) * NumOps.exp (-(lit 1 2) *
        (bget (fun j' : Fin d => NumOps.sum fun k => sq (X i k - Y j' k)) (Fin.val j) / sq (bget l (Fin.val j)))))
      = (fun i j => gauss (fun _ => l j) (X i) (Y j) : Mat N d ℝ) := by
    funext i j
    have := torchKern_real (.scalar (l j)) (X i) (Y j)
    simp only [torchKern] at this
    rw [bget_fin, bget_fin, this]
    simp only [real_lit_one, one_mul]; rfl
  refine ⟨_, ⟨.arr d l, false, lit 1 1, some ⟨N, d, fun i j => gauss (fun _ => l j) (X i) (Y j)⟩⟩, rfl, ?_, _,
    anyGrad_ok (bdim_self d) l false _ X Y _, ?_⟩
  · simp only [RBFAny.kernel, bdim_self, Except.ok_bind', e]
  · intro i j k hne hj hk
    rw [pderiv_gauss, bget_fin, bget_fin]
    have hg : gauss (fun _ => l j) (X i) (Y j) ≠ 0 := (Real.exp_pos _).ne'
    have hd : X i k - Y j k ≠ 0 := sub_ne_zero.2 hne
    constructor
    · intro h
      field_simp at h
      nlinarith [h]
    · intro h
      rw [h]
      ring

/-! ### Examples -/

/-- C84: three lengthscales in two dimensions, and two in one dimension. -/
example (X : Mat 5 2 ℝ) (Z : Mat 3 2 ℝ) (X1 : Mat 5 1 ℝ) (Z1 : Mat 3 1 ℝ) :
    torchScoreList X Z (fun _ : Fin 3 => (1:ℝ)) = .error .runtimeError ∧
    (∃ L : ℝ, 0 < L ∧ 1 / L^2 = ∑ k, 1 / ((![1, 2] : Fin 2 → ℝ) k)^2 ∧
      torchScoreList X1 Z1 (![1, 2] : Fin 2 → ℝ)
        = .ok fun i j => L^2 / 1^2 * Spec.score (1/1000) (fun _ => L) X1 Z1 j (X1 i)) :=
  ⟨(C84_wrong_length X Z _).1 (by decide) (by decide) (by decide),
   C84_one_column X1 Z1 (![1, 2] : Fin 2 → ℝ) (by intro k; fin_cases k <;> norm_num)⟩

/-- C84: the kernel of three points with the flag forgotten, two coordinates, three lengthscales: `Kernel` returns and
`gradient_X` raises. -/
example (X : Mat 5 2 ℝ) (Y : Mat 3 2 ℝ) (l : Fin 3 → ℝ) :
    ∃ o o' Kd, RBFAny.new (.arr 3 l) false = .ok o ∧ o.kernel X Y = .ok (Kd, o') ∧
      o'.gradientX X Y = .error .runtimeError := by
  obtain ⟨o, o', h1, h2, -, h3⟩ := (C84_flag_forgotten (m := 3) X Y).2 l
  exact ⟨o, o', _, h1, h2, h3 (by decide) (by decide) (by decide)⟩

end DPFC
