import Verif.Lib.Rotate
import Verif.Props.Estimators
import Mathlib.Topology.Algebra.Field
import Mathlib.Topology.Order.DenselyOrdered

/-!
# Property C111: rotations and renumbered coordinates; the torch estimator in C21 - C24
-/

set_option linter.unusedVariables false

namespace DPFC
open Spec

variable {N M d n : Nat}

/-! ## C111 -/

/-- **C111.** With lengthscales of one size (in particular a scalar one), rotating the samples, the inducing points and
the evaluation points rotates the estimated vectors. -/
theorem C111_rotation (X : Mat N d ℝ) (Z : Mat M d ℝ) (l : LS d ℝ) (hl : ∀ k, l.at k ≠ 0)
    (hiso : ∀ a b, l.at a ^ 2 = l.at b ^ 2) (C : ℝ) (hC : -1/1000 < C) (R : Fin d → Fin d → ℝ)
    (hR : Orthogonal R) (hd : 0 < d) (x : Mat n d ℝ) :
    ∃ u w, scoreAll X Z C "RBF" l = .ok u ∧ scoreAllFn X Z C "RBF" l x = .ok w ∧
      scoreAll (turn R X) (turn R Z) C "RBF" l = .ok (turn R u) ∧
      scoreAllFn (turn R X) (turn R Z) C "RBF" l (turn R x) = .ok (turn R w) := by
  refine ⟨_, _, scoreAll_real hC X Z l, scoreAllFn_real hC X Z l x (.inl hd), ?_, ?_⟩
  · rw [scoreAll_real hC]
    congr 1; funext i j
    exact score_turn_iso hR C hiso X Z j (X i)
  · rw [scoreAllFn_real hC _ _ _ _ (.inl hd)]
    congr 1; funext i j
    exact score_turn_iso hR C hiso X Z j (x i)

/-- **C111**, torch: the same for a lengthscale tensor with entries of one size. -/
theorem C111_rotation_torch (X : Mat N d ℝ) (Z : Mat M d ℝ) (l : Fin d → ℝ) (hl : ∀ k, l k ≠ 0)
    (hiso : ∀ a b, l a ^ 2 = l b ^ 2) (C : ℝ) (R : Fin d → Fin d → ℝ) (hR : Orthogonal R) (hd : 2 ≤ d)
    (x : Mat n d ℝ) :
    ∃ u w, torchScore X Z (.tensor l) C "RBF" = .ok u ∧ torchScoreFn X Z (.tensor l) C "RBF" (.tensor x) = .ok w ∧
      torchScore (turn R X) (turn R Z) (.tensor l) C "RBF" = .ok (turn R u) ∧
      torchScoreFn (turn R X) (turn R Z) (.tensor l) C "RBF" (.tensor (turn R x)) = .ok (turn R w) := by
  obtain ⟨h1, h2⟩ := C27_value X Z l hl hd C "RBF" x
  obtain ⟨h3, h4⟩ := C27_value (turn R X) (turn R Z) l hl hd C "RBF" (turn R x)
  refine ⟨_, _, h1, h2, ?_, ?_⟩
  · rw [h3]
    congr 1; funext i j
    exact score_turn_iso hR _ hiso X Z j (X i)
  · rw [h4]
    congr 1; funext i j
    exact score_turn_iso hR _ hiso X Z j (x i)

/-- The quarter turn of the plane. -/
def quarterTurn : Fin 2 → Fin 2 → ℝ := ![![0, -1], ![1, 0]]

/-- The quarter turn is orthogonal: the rotation theorems apply to it. -/
theorem quarterTurn_orthogonal : Orthogonal quarterTurn := by
  intro a b
  fin_cases a <;> fin_cases b <;> simp [quarterTurn, Fin.sum_univ_two]

/-- **C111**, converse. In two dimensions the estimates commute with the quarter turn for all single samples and single
inducing points only if the two lengthscales have one size: with different lengthscales per coordinate the estimator is
not rotation equivariant, whatever `C`. -/
theorem C111_rotation_needs_one_size (l : Fin 2 → ℝ) (hl : ∀ k, l k ≠ 0) (C : ℝ) (hC : -1/1000 < C) :
    (∀ X Z : Mat 1 2 ℝ, ∀ u, scoreAll X Z C "RBF" (.vec l) = .ok u →
      scoreAll (turn quarterTurn X) (turn quarterTurn Z) C "RBF" (.vec l) = .ok (turn quarterTurn u)) ↔
    |l 0| = |l 1| := by
  constructor
  · intro h
    set c : ℝ := (C + 1/1000) * (1 + 1/1000) with hc
    have hcp : 0 < c := by
      have : 0 < C + 1/1000 := by linarith
      positivity
    let a : ℝ → ℝ := fun x => Real.exp (-(x ^ 2 / (2 * l 0 ^ 2)))
    let b : ℝ → ℝ := fun x => Real.exp (-(x ^ 2 / (2 * l 1 ^ 2)))
    have key : ∀ x : ℝ, x ≠ 0 → l 1 ^ 2 * a x ^ 2 * (b x ^ 2 + c) = l 0 ^ 2 * b x ^ 2 * (a x ^ 2 + c) := by
      intro x hx
      let X : Mat 1 2 ℝ := fun _ => ![x, 0]
      let Z : Mat 1 2 ℝ := fun _ _ => 0
      have h1 := h X Z _ (scoreAll_real hC X Z (.vec l))
      rw [scoreAll_real hC] at h1
      have h2 := congrFun (congrFun (Except.ok.inj h1) 0) 1
      change score C l (turn quarterTurn X) (turn quarterTurn Z) 1 (turn quarterTurn X 0)
        = turn quarterTurn (fun i j => score C l X Z j (X i)) 0 1 at h2
      have e1 := score_one hC l X Z 0
      have e2 := score_one hC l (turn quarterTurn X) (turn quarterTurn Z) 1
      rw [h2] at e2
      have g1 : gauss l (X 0) (Z 0) = a x := by simp [gauss, X, Z, a, Fin.sum_univ_two]
      have g2 : gauss l (turn quarterTurn X 0) (turn quarterTurn Z 0) = b x := by
        simp [gauss, turn, quarterTurn, X, Z, b, Fin.sum_univ_two]
      rw [g1] at e1
      rw [g2] at e2
      have e3 : turn quarterTurn (fun i j => score C l X Z j (X i)) 0 1 = score C l X Z 0 (X 0) := by
        simp [turn, quarterTurn, Fin.sum_univ_two]
      rw [e3] at e2
      have e4 : turn quarterTurn X 0 1 - turn quarterTurn Z 0 1 = x := by
        simp [turn, quarterTurn, X, Z, Fin.sum_univ_two]
      have e5 : X 0 0 - Z 0 0 = x := by simp [X, Z]
      rw [e4] at e2
      rw [e5] at e1
      have hA : 0 < a x ^ 2 + c := by positivity
      have hB : 0 < b x ^ 2 + c := by positivity
      rw [← hc] at e1 e2
      have e1' := (eq_div_iff hA.ne').2 e1
      have e2' := (eq_div_iff hB.ne').2 e2
      have e6 := e1'.symm.trans e2'
      have h0 := hl 0
      have h1' := hl 1
      field_simp at e6
      linear_combination e6
    have ca : Continuous a := by fun_prop
    have cb : Continuous b := by fun_prop
    have hall : (fun x => l 1 ^ 2 * a x ^ 2 * (b x ^ 2 + c)) = fun x => l 0 ^ 2 * b x ^ 2 * (a x ^ 2 + c) :=
      Continuous.ext_on (s := {(0:ℝ)}ᶜ) (dense_compl_singleton 0) (by fun_prop) (by fun_prop) fun x hx => key x hx
    have h0 := congrFun hall 0
    simp only [a, b] at h0
    simp at h0
    rcases h0 with h0 | h0
    · exact (sq_eq_sq_iff_abs_eq_abs _ _).1 h0.symm
    · exact absurd h0 (by positivity)
  · intro h X Z u hu
    obtain ⟨u', w', h1, h2, h3, h4⟩ := C111_rotation X Z (.vec l) hl (by
      have := (sq_eq_sq_iff_abs_eq_abs _ _).2 h
      intro a b
      fin_cases a <;> fin_cases b <;> simp [LS.at, this]) C hC quarterTurn quarterTurn_orthogonal (by norm_num)
        (n := 1) (fun _ _ => 0)
    rw [h1] at hu
    rw [h3, Except.ok.inj hu]

/-- The lengthscales renumbered like the coordinates. -/
def Spec.renumberLS (σ : Equiv.Perm (Fin d)) : LS d ℝ → LS d ℝ
  | .scalar l => .scalar l
  | .vec l => .vec fun k => l (σ k)

theorem renumberLS_at (σ : Equiv.Perm (Fin d)) (l : LS d ℝ) : (Spec.renumberLS σ l).at = fun k => l.at (σ k) := by
  cases l <;> rfl

/-- **C111.** Renumbering the coordinates (with their lengthscales) and reflecting any of them renumbers and reflects the
coordinates of the estimates, whatever the lengthscales. -/
theorem C111_renumbered_coordinates (X : Mat N d ℝ) (Z : Mat M d ℝ) (l : LS d ℝ) (hl : ∀ k, l.at k ≠ 0) (C : ℝ)
    (hC : -1/1000 < C) (σ : Equiv.Perm (Fin d)) (e : Fin d → ℝ) (he : ∀ k, e k = 1 ∨ e k = -1) (hd : 0 < d)
    (x : Mat n d ℝ) :
    ∃ u w, scoreAll X Z C "RBF" l = .ok u ∧ scoreAllFn X Z C "RBF" l x = .ok w ∧
      scoreAll (renumber σ e X) (renumber σ e Z) C "RBF" (Spec.renumberLS σ l) = .ok (renumber σ e u) ∧
      scoreAllFn (renumber σ e X) (renumber σ e Z) C "RBF" (Spec.renumberLS σ l) (renumber σ e x)
        = .ok (renumber σ e w) := by
  have he' : ∀ k, e k ^ 2 = 1 := fun k => by rcases he k with h | h <;> simp [h]
  refine ⟨_, _, scoreAll_real hC X Z l, scoreAllFn_real hC X Z l x (.inl hd), ?_, ?_⟩
  · rw [scoreAll_real hC, renumberLS_at]
    congr 1; funext i j
    exact score_renumber σ he' C l.at X Z j (X i)
  · rw [scoreAllFn_real hC _ _ _ _ (.inl hd), renumberLS_at]
    congr 1; funext i j
    exact score_renumber σ he' C l.at X Z j (x i)

/-- **C111**, torch. -/
theorem C111_renumbered_coordinates_torch (X : Mat N d ℝ) (Z : Mat M d ℝ) (l : Fin d → ℝ) (hl : ∀ k, l k ≠ 0) (C : ℝ)
    (σ : Equiv.Perm (Fin d)) (e : Fin d → ℝ) (he : ∀ k, e k = 1 ∨ e k = -1) (hd : 2 ≤ d) (x : Mat n d ℝ) :
    ∃ u w, torchScore X Z (.tensor l) C "RBF" = .ok u ∧ torchScoreFn X Z (.tensor l) C "RBF" (.tensor x) = .ok w ∧
      torchScore (renumber σ e X) (renumber σ e Z) (.tensor fun k => l (σ k)) C "RBF" = .ok (renumber σ e u) ∧
      torchScoreFn (renumber σ e X) (renumber σ e Z) (.tensor fun k => l (σ k)) C "RBF" (.tensor (renumber σ e x))
        = .ok (renumber σ e w) := by
  have he' : ∀ k, e k ^ 2 = 1 := fun k => by rcases he k with h | h <;> simp [h]
  obtain ⟨h1, h2⟩ := C27_value X Z l hl hd C "RBF" x
  obtain ⟨h3, h4⟩ := C27_value (renumber σ e X) (renumber σ e Z) (fun k => l (σ k)) (fun k => hl _) hd C "RBF"
    (renumber σ e x)
  refine ⟨_, _, h1, h2, ?_, ?_⟩
  · rw [h3]
    congr 1; funext i j
    exact score_renumber σ he' _ l X Z j (X i)
  · rw [h4]
    congr 1; funext i j
    exact score_renumber σ he' _ l X Z j (x i)

/-- Non-vacuity of C111: an estimate that is not zero, a rotation that is not the identity, and lengthscales to which
the converse applies. -/
example : (∃ u, scoreAll (fun (_ : Fin 1) => ![(1:ℝ), 0]) (fun (_ : Fin 1) _ => 0) (1/1000) "RBF" (.scalar 1) = .ok u ∧
    u 0 0 ≠ 0) ∧ Orthogonal quarterTurn ∧ quarterTurn 0 0 ≠ 1 ∧ |(![1, 2] : Fin 2 → ℝ) 0| ≠ |(![1, 2] : Fin 2 → ℝ) 1| := by
  have hC : (-1/1000 : ℝ) < 1/1000 := by norm_num
  refine ⟨⟨_, scoreAll_real hC _ _ _, ?_⟩, quarterTurn_orthogonal, by simp [quarterTurn], by norm_num⟩
  intro h
  have h1 := score_one hC (LS.scalar (1:ℝ)).at (fun (_ : Fin 1) => ![(1:ℝ), 0]) (fun (_ : Fin 1) _ => 0) 0
  rw [h, zero_mul] at h1
  simp [LS.at] at h1
  exact (pow_pos (gauss_pos _ _ _) 2).ne h1

/-! ## C21 - C24 for the torch estimator -/

/-- **C21**, torch: the values and the function returned by the torch estimator are, in each coordinate, those of the
unique minimiser of the same objective with `C = 0.001` (the argument `C` is ignored, C27). -/
theorem C21_torch_minimiser (X : Mat N d ℝ) (Z : Mat M d ℝ) (l : Fin d → ℝ) (hl : ∀ k, l k ≠ 0) (hd : 2 ≤ d) (C : ℝ) :
    ∃ b : Fin d → Fin M → ℝ,
      (∀ (n : Nat) (x : Mat n d ℝ), torchScoreFn X Z (.tensor l) C "RBF" (.tensor x)
        = .ok fun i j => ∑ m, b j m * gauss l (x i) (Z m)) ∧
      torchScore X Z (.tensor l) C "RBF" = .ok (fun i j => ∑ m, b j m * gauss l (X i) (Z m)) ∧
      ∀ j b', b' ≠ b j → Spec.objective (1/1000) l X Z j (b j) < Spec.objective (1/1000) l X Z j b' := by
  have hC : (-1/1000 : ℝ) < 1/1000 := by norm_num
  choose b h1 h2 h3 using fun j => C21_score_is_minimiser X Z (.vec l) hl (1/1000) hC j
  have e : ∀ j x, score (1/1000) l X Z j x = ∑ m, b j m * gauss l x (Z m) := by
    intro j x
    have h := h1 j 1 (fun _ => x)
    rw [scoreSepFn_real hC X Z _ _ j (which_dim_ok j)] at h
    exact congrFun (Except.ok.inj h) 0
  refine ⟨b, fun n x => ?_, ?_, h3⟩
  · rw [(C27_value X Z l hl hd C "RBF" x).2]; simp only [e]
  · rw [(C27_value X Z l hl hd C "RBF" X).1]; simp only [e]

/-- **C22**, torch. -/
theorem C22_torch_translation (X : Mat N d ℝ) (Z : Mat M d ℝ) (l : Fin d → ℝ) (hl : ∀ k, l k ≠ 0) (hd : 2 ≤ d)
    (C : ℝ) (v : Fin d → ℝ) (x : Mat n d ℝ) :
    torchScore (fun i k => X i k + v k) (fun i k => Z i k + v k) (.tensor l) C "RBF"
      = torchScore X Z (.tensor l) C "RBF" ∧
    torchScoreFn (fun i k => X i k + v k) (fun i k => Z i k + v k) (.tensor l) C "RBF"
        (.tensor fun (i : Fin n) k => x i k + v k)
      = torchScoreFn X Z (.tensor l) C "RBF" (.tensor x) := by
  obtain ⟨h1, h2⟩ := C27_value X Z l hl hd C "RBF" x
  obtain ⟨h3, h4⟩ := C27_value (fun i k => X i k + v k) (fun i k => Z i k + v k) l hl hd C "RBF"
    (fun (i : Fin n) k => x i k + v k)
  rw [h1, h2, h3, h4]
  constructor
  · congr 1; funext i j; exact score_translate _ l v X Z j (X i)
  · congr 1; funext i j; exact score_translate _ l v X Z j (x i)

/-- **C23**, torch: scaling, also with a negative factor. -/
theorem C23_torch_scaling (X : Mat N d ℝ) (Z : Mat M d ℝ) (l : Fin d → ℝ) (hl : ∀ k, l k ≠ 0) (hd : 2 ≤ d)
    (C s : ℝ) (hs : s ≠ 0) (x : Mat n d ℝ) :
    ∃ u w, torchScore X Z (.tensor l) C "RBF" = .ok u ∧ torchScoreFn X Z (.tensor l) C "RBF" (.tensor x) = .ok w ∧
      torchScore (fun i k => s * X i k) (fun i k => s * Z i k) (.tensor fun k => s * l k) C "RBF"
        = .ok (fun i j => u i j / s) ∧
      torchScoreFn (fun i k => s * X i k) (fun i k => s * Z i k) (.tensor fun k => s * l k) C "RBF"
        (.tensor fun (i : Fin n) k => s * x i k) = .ok (fun i j => w i j / s) := by
  obtain ⟨h1, h2⟩ := C27_value X Z l hl hd C "RBF" x
  obtain ⟨h3, h4⟩ := C27_value (fun i k => s * X i k) (fun i k => s * Z i k) (fun k => s * l k)
    (fun k => mul_ne_zero hs (hl k)) hd C "RBF" (fun (i : Fin n) k => s * x i k)
  refine ⟨_, _, h1, h2, ?_, ?_⟩
  · rw [h3]; congr 1; funext i j; exact score_scale _ l X Z j (X i) hs
  · rw [h4]; congr 1; funext i j; exact score_scale _ l X Z j (x i) hs

/-- **C24**, torch. -/
theorem C24_torch_permutation (X : Mat N d ℝ) (Z : Mat M d ℝ) (l : Fin d → ℝ) (hl : ∀ k, l k ≠ 0) (hd : 2 ≤ d)
    (C : ℝ) (σ : Equiv.Perm (Fin N)) (τ : Equiv.Perm (Fin M)) (x : Mat n d ℝ) :
    (∃ u, torchScore X Z (.tensor l) C "RBF" = .ok u ∧
      torchScore (fun i => X (σ i)) (fun m => Z (τ m)) (.tensor l) C "RBF" = .ok fun i => u (σ i)) ∧
    torchScoreFn (fun i => X (σ i)) (fun m => Z (τ m)) (.tensor l) C "RBF" (.tensor x)
      = torchScoreFn X Z (.tensor l) C "RBF" (.tensor x) := by
  obtain ⟨h1, h2⟩ := C27_value X Z l hl hd C "RBF" x
  obtain ⟨h3, h4⟩ := C27_value (fun i => X (σ i)) (fun m => Z (τ m)) l hl hd C "RBF" x
  rw [h2, h4]
  refine ⟨⟨_, h1, ?_⟩, ?_⟩
  · rw [h3]; congr 1; funext i j
    rw [score_perm_samples, score_perm_inducing]
  · congr 1; funext i j
    rw [score_perm_samples, score_perm_inducing]

end DPFC
