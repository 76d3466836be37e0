import Verif.Lib.CdistLaws
import Verif.Lib.ScoreLaws
import Verif.Lib.Steps
import Verif.Lib.Depend
import Verif.Lib.Examples
import Verif.Spec.Calls
import Verif.Props.Score

/-!
# Properties C27 - C31: torch estimator options, kernel object, distance routine, `which_dim`, kernel names
-/

set_option linter.unusedVariables false
set_option linter.unusedSectionVars false

namespace DPFC
open Spec

/-! ## C27 -/

section
variable {K : Type} [Add K] [Sub K] [Mul K] [Div K] [Neg K] [NumOps K]
variable {N M d n c : Nat}

/-- **C27.** The torch estimator returns the same result (or the same exception) for every value of `C`,
for both output forms and whatever the arithmetic. -/
theorem C27_C_ignored (X : Mat N d K) (Z : Mat M d K) (l : TLS d K) (C C' : K) (kern : String)
    (x : TArg n c K) :
    torchScore X Z l C kern = torchScore X Z l C' kern ∧
    torchScoreFn X Z l C kern x = torchScoreFn X Z l C' kern x := ⟨rfl, rfl⟩

end

section
variable {N M d n : Nat}

/-- **C27** (value). For every `C` the result is the specified estimate with `C = 0.001`. -/
theorem C27_value (X : Mat N d ℝ) (Z : Mat M d ℝ) (l : Fin d → ℝ) (hl : ∀ k, l k ≠ 0) (hd : 2 ≤ d)
    (C : ℝ) (kern : String) (x : Mat n d ℝ) :
    torchScore X Z (.tensor l) C kern = .ok (fun i j => score (1/1000) l X Z j (X i)) ∧
    torchScoreFn X Z (.tensor l) C "RBF" (.tensor x)
      = .ok (fun i j => score (1/1000) l X Z j (x i)) :=
  ⟨torchScore_real X Z _ _ (classify_tensor hd l) C kern,
   torchScoreFn_real X Z _ l (classify_tensor hd l) (by intro w h; cases h) C x⟩

theorem score_single (C : ℝ) (hC : -1/1000 < C) (l x z : ℝ) (hl : l ≠ 0) :
    score C (fun _ : Fin 1 => l) (fun _ : Fin 1 => fun _ => x) (fun _ : Fin 1 => fun _ => z) 0
        (fun _ => x)
      = (x - z) / l ^ 2 * gauss (fun _ : Fin 1 => l) (fun _ => x) (fun _ => z) ^ 2
        / (gauss (fun _ : Fin 1 => l) (fun _ => x) (fun _ => z) ^ 2 + (C + 1/1000) * (1 + 1/1000)) := by
  have h := sysMat_mulVec_coef hC (fun _ : Fin 1 => l) (fun _ : Fin 1 => fun _ => x)
    (fun _ : Fin 1 => fun _ => z) 0
  have h0 := congrFun h 0
  have g1 : gauss (fun _ : Fin 1 => l) (fun _ => z) (fun _ => z) = 1 := by simp [gauss]
  simp only [sysMat, gramReg, kmat, Matrix.mulVec, dotProduct, Matrix.add_apply, Matrix.smul_apply,
    Matrix.mul_apply, Matrix.transpose_apply, Matrix.of_apply, Finset.univ_unique,
    Finset.sum_singleton, Pi.neg_apply, gradSum, pderiv_gauss, smul_eq_mul,
    Matrix.one_apply, Fin.default_eq_zero, if_true, g1] at h0
  simp only [score, Finset.univ_unique, Finset.sum_singleton, Fin.default_eq_zero]
  set G := gauss (fun _ : Fin 1 => l) (fun _ => x) (fun _ => z) with hG
  have hGp : 0 < G := gauss_pos _ _ _
  have hD : G ^ 2 + (C + 1/1000) * (1 + 1/1000) ≠ 0 := by
    have : 0 < C + 1/1000 := by linarith
    positivity
  rw [eq_div_iff hD]
  have h0' : (G * G + (C + 1 / 1000) * (1 + 1 / 1000 * 1))
      * coef C (fun _ : Fin 1 => l) (fun _ : Fin 1 => fun _ => x) (fun _ : Fin 1 => fun _ => z) 0 0
      = (x - z) / l ^ 2 * G := by
    rw [h0]; ring
  calc _ = (G * G + (C + 1 / 1000) * (1 + 1 / 1000 * 1))
      * coef C (fun _ : Fin 1 => l) (fun _ : Fin 1 => fun _ => x) (fun _ : Fin 1 => fun _ => z) 0 0 * G := by
        ring
    _ = _ := by rw [h0']; ring

/-- **C27** (contrast). The numpy estimator does depend on `C`: with one sample and one inducing point at
different places, different `C` always give different estimates. -/
theorem C27_numpy_depends_on_C (x z l C C' : ℝ) (hl : l ≠ 0) (hxz : x ≠ z) (hC : -1/1000 < C)
    (hC' : -1/1000 < C') (hne : C ≠ C') :
    scoreSep (fun (_ _ : Fin 1) => x) (fun (_ _ : Fin 1) => z) C "RBF" (.scalar l) 1
      ≠ scoreSep (fun (_ _ : Fin 1) => x) (fun (_ _ : Fin 1) => z) C' "RBF" (.scalar l) 1 := by
  have e := fun C hC => scoreSep_real (C := C) hC (fun (_ _ : Fin 1) => x) (fun (_ _ : Fin 1) => z)
    (.scalar l) 1 0 (by rfl)
  rw [e C hC, e C' hC']
  intro h
  have h0 := congrFun (Except.ok.inj h) 0
  change score C (fun _ : Fin 1 => l) _ _ 0 (fun _ => x) = score C' (fun _ : Fin 1 => l) _ _ 0 (fun _ => x) at h0
  rw [score_single C hC l x z hl, score_single C' hC' l x z hl] at h0
  have hG : 0 < gauss (fun _ : Fin 1 => l) (fun _ => x) (fun _ => z) := gauss_pos _ _ _
  set G := gauss (fun _ : Fin 1 => l) (fun _ => x) (fun _ => z)
  have p1 : G ^ 2 + (C + 1/1000) * (1 + 1/1000) ≠ 0 := by
    have : 0 < C + 1/1000 := by linarith
    positivity
  have p2 : G ^ 2 + (C' + 1/1000) * (1 + 1/1000) ≠ 0 := by
    have : 0 < C' + 1/1000 := by linarith
    positivity
  have hA : (x - z) / l ^ 2 * G ^ 2 ≠ 0 :=
    mul_ne_zero (div_ne_zero (sub_ne_zero.2 hxz) (pow_ne_zero _ hl)) (pow_ne_zero _ hG.ne')
  rw [div_eq_div_iff p1 p2] at h0
  have := mul_left_cancel₀ hA h0
  exact hne (by linarith)

example : (2:ℝ) ≠ 0 ∧ (0:ℝ) ≠ 1 ∧ (-1/1000:ℝ) < 0 ∧ (-1/1000:ℝ) < 1 ∧ (0:ℝ) ≠ 1 := by norm_num
example : ∀ k : Fin 2, (fun _ => (2:ℝ)) k ≠ 0 := by intro k; norm_num

end

/-! ## C28 -/

section
variable {d n m : Nat}

theorem afterCalls_kData (l : LS d ℝ) : ∀ (h : List (KCall d ℝ)) (o : RBF d ℝ),
    o.lengthScale = l → o.signalVariance = lit 1 1 →
    afterCalls o h = ⟨l, lit 1 1, match lastKernel h with
      | none => o.kData
      | some ⟨n, m, X, Y⟩ => some ⟨n, m, fun i j => gauss l.at (X i) (Y j)⟩⟩
  | [], o, h1, h2 => by cases o; simp at h1 h2; simp [afterCalls, lastKernel, h1, h2]
  | .gradient _ _ _ :: cs, o, h1, h2 => by
    simp only [afterCalls, lastKernel]; exact afterCalls_kData l cs o h1 h2
  | .kernel n m X Y :: cs, o, h1, h2 => by
    simp only [afterCalls, lastKernel]
    rw [afterCalls_kData l cs _ (by exact h1) (by exact h2)]
    cases hh : lastKernel cs with
    | none =>
      simp only [Option.none_or, RBF.kernel, h1, h2]
      congr 2
      funext
      simp [torchKern_real]
    | some p => obtain ⟨a, b, c, e⟩ := p; simp

/-- **C28** (matching call). After any history of calls on a fresh `RBF` object whose last `Kernel` call was
on `(X, Y)`, `gradient_X(X, Y)` returns minus the partial derivatives of the Gaussian kernel in its first
argument. -/
theorem C28_fresh (l : LS d ℝ) (hl : ∀ k, l.at k ≠ 0) (h : List (KCall d ℝ)) (X : Mat n d ℝ)
    (Y : Mat m d ℝ) (hlast : lastKernel h = some ⟨n, m, X, Y⟩) :
    (afterCalls (RBF.new l) h).gradientX X (some ⟨m, d, Y⟩)
      = .ok ⟨n, m, d, fun i j k => -pderiv (fun x => gauss l.at x (Y j)) k (X i)⟩ := by
  rw [afterCalls_kData l h (RBF.new l) rfl rfl, hlast]
  rw [gradientX_shape l X Y (fun i j => gauss l.at (X i) (Y j))]
  congr 2
  funext i j k
  rw [pderiv_gauss]; ring

/-- **C28** (stale cache). If the last `Kernel` call was on other points `(X0, Y0)` of the same shapes,
`gradient_X(X, Y)` silently combines the differences of `(X, Y)` with the kernel values of `(X0, Y0)`;
wherever these kernel values differ and the coordinates differ, the result is not the (negative)
gradient. -/
theorem C28_stale (l : LS d ℝ) (hl : ∀ k, l.at k ≠ 0) (h : List (KCall d ℝ)) (X X0 : Mat n d ℝ)
    (Y Y0 : Mat m d ℝ) (hlast : lastKernel h = some ⟨n, m, X0, Y0⟩) :
    ∃ G : Fin n → Fin m → Fin d → ℝ,
      (afterCalls (RBF.new l) h).gradientX X (some ⟨m, d, Y⟩) = .ok ⟨n, m, d, G⟩ ∧
      (∀ i j k, G i j k = (X i k - Y j k) / l.at k ^ 2 * gauss l.at (X0 i) (Y0 j)) ∧
      ∀ i j k, X i k ≠ Y j k → gauss l.at (X0 i) (Y0 j) ≠ gauss l.at (X i) (Y j) →
        G i j k ≠ -pderiv (fun x => gauss l.at x (Y j)) k (X i) := by
  refine ⟨fun i j k => (X i k - Y j k) / l.at k ^ 2 * gauss l.at (X0 i) (Y0 j), ?_,
    fun i j k => rfl, ?_⟩
  · rw [afterCalls_kData l h (RBF.new l) rfl rfl, hlast]
    exact gradientX_shape l X Y (fun i j => gauss l.at (X0 i) (Y0 j))
  · intro i j k hne hg he
    rw [pderiv_gauss] at he
    have hq : (X i k - Y j k) / l.at k ^ 2 ≠ 0 :=
      div_ne_zero (sub_ne_zero.2 hne) (pow_ne_zero _ (hl k))
    apply hg
    have : (X i k - Y j k) / l.at k ^ 2 * gauss l.at (X0 i) (Y0 j)
        = (X i k - Y j k) / l.at k ^ 2 * gauss l.at (X i) (Y j) := by
      refine Eq.trans he ?_; ring
    exact mul_left_cancel₀ hq this

/-- **C28** (errors). Without any `Kernel` call before, or without `Y`, `gradient_X` raises; also if the
last `Kernel` call had incompatible shapes (axis sizes different and none of them 1), or if `Y` has another
number of columns than `X` and none of them is 1. -/
theorem C28_raises (l : LS d ℝ) (h : List (KCall d ℝ)) (X : Mat n d ℝ) (c : ℕ) (Y : Mat m c ℝ) :
    (lastKernel h = none → (afterCalls (RBF.new l) h).gradientX X (some ⟨m, c, Y⟩)
      = .error .runtimeError) ∧
    (afterCalls (RBF.new l) h).gradientX X none = .error .attributeError ∧
    (c ≠ d → c ≠ 1 → d ≠ 1 → (afterCalls (RBF.new l) h).gradientX X (some ⟨m, c, Y⟩)
      = .error .runtimeError) ∧
    (∀ n0 m0 X0 Y0, lastKernel h = some ⟨n0, m0, X0, Y0⟩ →
      ((n ≠ n0 ∧ n ≠ 1 ∧ n0 ≠ 1) ∨ (m ≠ m0 ∧ m ≠ 1 ∧ m0 ≠ 1)) →
      (afterCalls (RBF.new l) h).gradientX X (some ⟨m, c, Y⟩) = .error .runtimeError) := by
  refine ⟨fun hn => ?_, rfl, fun h1 h2 h3 => ?_, fun n0 m0 X0 Y0 hs hb => ?_⟩
  · rw [afterCalls_kData l h (RBF.new l) rfl rfl, hn]
    simp only [RBF.gradientX, RBF.new]
    split <;> rfl
  · simp only [RBF.gradientX, bdim, if_neg (Ne.symm h1), if_neg h2, if_neg h3]
  · rw [afterCalls_kData l h (RBF.new l) rfl rfl, hs]
    simp only [RBF.gradientX]
    rcases hb with ⟨h1, h2, h3⟩ | ⟨h1, h2, h3⟩
    · have : bdim n n0 = none := by simp [bdim, h1, h2, h3]
      simp only [this]
      split <;> rfl
    · have : bdim m m0 = none := by simp [bdim, h1, h2, h3]
      simp only [this]
      split
      · rfl
      · split <;> simp_all

/-- **C28** (broadcasting). In all other cases `gradient_X(X, Y)` returns: an axis of size 1 is stretched to
the size of its partner. Every entry combines the differences of the given points with the kernel value of
the points of the last `Kernel` call. -/
theorem C28_broadcast (l : LS d ℝ) (h : List (KCall d ℝ)) (X : Mat n d ℝ) (c : ℕ) (Y : Mat m c ℝ)
    (n0 m0 : ℕ) (X0 : Mat n0 d ℝ) (Y0 : Mat m0 d ℝ) (hlast : lastKernel h = some ⟨n0, m0, X0, Y0⟩)
    (hn : n = n0 ∨ n = 1 ∨ n0 = 1) (hm : m = m0 ∨ m = 1 ∨ m0 = 1) (hc : d = c ∨ d = 1 ∨ c = 1) :
    ∃ G : Dyn3 ℝ, (afterCalls (RBF.new l) h).gradientX X (some ⟨m, c, Y⟩) = .ok G ∧
      G.n = stretched n n0 ∧ G.m = stretched m m0 ∧ G.d = stretched d c ∧
      ∀ (i : Fin G.n) (j : Fin G.m) (k : Fin G.d) (i' : Fin n) (i0 : Fin n0) (j' : Fin m) (j0 : Fin m0)
        (k' : Fin d) (k0 : Fin c),
        Reads i i' → Reads i i0 → Reads j j' → Reads j j0 → Reads k k' → Reads k k0 →
        G.val i j k = (X i' k' - Y j' k0) / l.at k' ^ 2 * gauss l.at (X0 i0) (Y0 j0) := by
  have hb : ∀ a b : ℕ, a = b ∨ a = 1 ∨ b = 1 → bdim a b = some (stretched a b) := by
    intro a b hab
    unfold bdim stretched
    split
    · rename_i h; subst h; simp
    · split
      · rfl
      · rw [if_pos (by omega)]
  have hr : ∀ {a b : ℕ} (i : Fin a) (i' : Fin b), Reads i i' → bidx b i.val = i'.val := by
    intro a b i i' hi
    unfold bidx
    rw [Reads] at hi
    split
    · omega
    · rw [if_neg (by assumption)] at hi; exact hi.symm
  rw [afterCalls_kData l h (RBF.new l) rfl rfl, hlast]
  simp only [RBF.gradientX, hb _ _ hn, hb _ _ hm, hb _ _ hc]
  refine ⟨_, rfl, rfl, rfl, rfl, ?_⟩
  intro i j k i' i0 j' j0 k' k0 r1 r2 r3 r4 r5 r6
  have e1 := hr i i' r1
  have e2 := hr i i0 r2
  have e3 := hr j j' r3
  have e4 := hr j j0 r4
  have e5 := hr k k' r5
  have e6 := hr k k0 r6
  simp only [e1, e2, e3, e4, e5, e6]
  rw [dif_pos ⟨⟨i'.2, j'.2⟩, ⟨i0.2, j0.2⟩, k'.2, k0.2⟩]
  simp only [Fin.eta, real_sq]

/-- One row of kernel values combined with three query points. -/
example : (3 = 1 ∨ 3 = 1 ∨ 1 = 1) ∧ stretched 3 1 = 3 ∧ stretched 1 4 = 4 ∧
    Reads (2 : Fin 3) (2 : Fin 3) ∧ Reads (2 : Fin 3) (0 : Fin 1) := by
  simp [stretched, Reads]

/-- A history with several calls: `Kernel` on other points, a gradient, then `Kernel` on the points of
interest. -/
example (X : Mat 2 1 ℝ) (Y : Mat 3 1 ℝ) (X0 : Mat 5 1 ℝ) :
    lastKernel [.kernel 5 5 X0 X0, .gradient 2 X none, .kernel 2 3 X Y, .gradient 5 X0 none]
      = some ⟨2, 3, X, Y⟩ := rfl

/-- The stale situation occurs: `Kernel` on `(0, 0)`, then `gradient_X` on `(0, 1)`. -/
example : ∃ G, (afterCalls (RBF.new (.scalar 1 : LS 1 ℝ))
      [.kernel 1 1 (fun _ _ => 0) (fun _ _ => 0)]).gradientX (N := 1) (fun _ _ => 0)
        (some ⟨1, 1, fun _ _ => 1⟩) = .ok ⟨1, 1, 1, G⟩ ∧
    G 0 0 0 ≠ -pderiv (fun x => gauss (fun _ => (1:ℝ)) x (fun _ => (1:ℝ))) (0 : Fin 1) (fun _ => 0) := by
  obtain ⟨G, h1, h2, h3⟩ := C28_stale (.scalar 1 : LS 1 ℝ) (by simp [LS.at])
    [.kernel 1 1 (fun _ _ => 0) (fun _ _ => 0)] (n := 1) (m := 1) (fun _ _ => 0) (fun _ _ => 0)
    (fun _ _ => 1) (fun _ _ => 0) rfl
  refine ⟨G, h1, h3 0 0 0 (by norm_num) ?_⟩
  have h1 : gauss (LS.scalar (1:ℝ) : LS 1 ℝ).at (fun _ => 0) (fun _ => 0) = 1 := by simp [gauss]
  have h2 : gauss (LS.scalar (1:ℝ) : LS 1 ℝ).at (fun _ => 0) (fun _ => (1:ℝ)) ≠ 1 := by
    rw [Ne, gauss_eq_one_iff _ _ _ (by simp [LS.at])]
    intro h; have := congrFun h 0; norm_num at this
  rw [h1]; exact h2.symm

end

/-! ## C29 -/

section
variable {N M d : Nat}

/-- **C29.** `my_cdist` with parallel tasks interleaved at the granularity of single additions and stores,
in any order: once every task `(i, j)` has been scheduled often enough (`d + 1` micro-steps, or more),
`output[i, j]` is the squared Euclidean distance for `'sqeuclidean'` and the Euclidean distance for
`'euclidean'` and for `'l1'`. -/
theorem C29_all_schedules (r : Mat N d ℝ) (y : Mat M d ℝ) (out : Mat N M ℝ)
    (sched : List (Fin N × Fin M)) (hs : ∀ i j, d + 1 ≤ sched.count (i, j)) (i : Fin N) (j : Fin M) :
    (cdRun r y "sqeuclidean" sched (cdInit out)).out i j = ∑ a, (r i a - y j a) ^ 2 ∧
    (cdRun r y "euclidean" sched (cdInit out)).out i j = Real.sqrt (∑ a, (r i a - y j a) ^ 2) ∧
    (cdRun r y "l1" sched (cdInit out)).out i j = Real.sqrt (∑ a, (r i a - y j a) ^ 2) := by
  have key : ∀ dist : String, dist = "euclidean" ∨ dist = "sqeuclidean" ∨ dist = "l1" →
      (cdRun r y dist sched (cdInit out)).out i j = cdFinish dist (∑ a, (r i a - y j a) ^ 2) := by
    intro dist hd
    unfold cdRun
    rw [if_pos hd]
    have hi := cdInv_run sched (cdInv_init r y dist out) i j
    have hr := rem_run r y dist i j sched (cdInit out)
    have h0 : rem d ((cdInit out : CdState N M ℝ).task i j) = d + 1 := rfl
    rw [h0, Nat.sub_eq_zero_of_le (hs i j)] at hr
    cases ht : (sched.foldl (fun s c => cdStep r y dist c s) (cdInit out)).task i j with
    | done => rw [ht] at hi; simp only at hi; rw [hi, partSq_full]
    | run k v =>
      rw [ht] at hi hr
      simp only [rem] at hi hr
      omega
  refine ⟨?_, ?_, ?_⟩ <;> rw [key _ (by simp)] <;> simp [cdFinish]

/-- **C29** (partial execution). After any prefix of the execution every cell holds either its old content or
its final value; the cells of tasks that were scheduled at most `d` times are untouched. -/
theorem C29_no_torn_cells (r : Mat N d ℝ) (y : Mat M d ℝ) (dist : String) (out : Mat N M ℝ)
    (sched : List (Fin N × Fin M)) (i : Fin N) (j : Fin M) :
    ((cdRun r y dist sched (cdInit out)).out i j = out i j ∨
      (cdRun r y dist sched (cdInit out)).out i j = cdFinish dist (∑ a, (r i a - y j a) ^ 2)) ∧
    (sched.count (i, j) ≤ d → (cdRun r y dist sched (cdInit out)).out i j = out i j) := by
  unfold cdRun
  by_cases hd : dist = "euclidean" ∨ dist = "sqeuclidean" ∨ dist = "l1"
  · rw [if_pos hd]
    have hi := cdInv_run sched (cdInv_init r y dist out) i j
    have hr := rem_run r y dist i j sched (cdInit out)
    have h0 : rem d ((cdInit out : CdState N M ℝ).task i j) = d + 1 := rfl
    rw [h0] at hr
    cases ht : (sched.foldl (fun s c => cdStep r y dist c s) (cdInit out)).task i j with
    | done =>
      rw [ht] at hi hr
      simp only [rem] at hi hr
      refine ⟨Or.inr (by rw [hi, partSq_full]), fun hc => by omega⟩
    | run k v =>
      rw [ht] at hi
      exact ⟨Or.inl hi.2.2, fun _ => hi.2.2⟩
  · rw [if_neg hd]
    exact ⟨Or.inl rfl, fun _ => rfl⟩

/-- **C29** (unknown option). Any other option leaves the output as it was, for every arithmetic. -/
theorem C29_unknown_option {K : Type} [Add K] [Sub K] [Mul K] [Div K] [Neg K] [NumOps K]
    (r : Mat N d K) (y : Mat M d K) (dist : String) (out : Mat N M K) (sched : List (Fin N × Fin M))
    (h1 : dist ≠ "euclidean") (h2 : dist ≠ "sqeuclidean") (h3 : dist ≠ "l1") :
    (cdRun r y dist sched (cdInit out)).out = out ∧ myCdist r y dist sched out = out := by
  refine ⟨by unfold cdRun; rw [if_neg (by tauto)]; rfl, ?_⟩
  unfold myCdist
  have : ∀ c, cdistIter r y dist out c = out := by
    intro c; simp [cdistIter, cdistCell, h1, h2, h3]
  induction sched with
  | nil => rfl
  | cons c cs ih => rw [List.foldl_cons, this, ih]

/-- **C29** (iterations as atomic actions). In whatever order, and however often, the iterations of the two
parallel loops are executed, once each pair has been executed the array holds the distances. -/
theorem C29_any_order (r : Mat N d ℝ) (y : Mat M d ℝ) (out : Mat N M ℝ) (sched : List (Fin N × Fin M))
    (hs : ∀ i j, (i, j) ∈ sched) (i : Fin N) (j : Fin M) :
    myCdist r y "sqeuclidean" sched out i j = ∑ a, (r i a - y j a) ^ 2 ∧
    myCdist r y "euclidean" sched out i j = Real.sqrt (∑ a, (r i a - y j a) ^ 2) ∧
    myCdist r y "l1" sched out i j = Real.sqrt (∑ a, (r i a - y j a) ^ 2) := by
  have key : ∀ (dist : String) (v : Fin N → Fin M → ℝ), (∀ i j, cdistCell r y dist i j = some (v i j)) →
      ∀ (sched : List (Fin N × Fin M)) (out : Mat N M ℝ),
        ((i, j) ∈ sched → myCdist r y dist sched out i j = v i j) ∧
        (out i j = v i j → myCdist r y dist sched out i j = v i j) := by
    intro dist v hv sched
    induction sched with
    | nil => exact fun out => ⟨fun h => by simp at h, fun h => h⟩
    | cons c cs ih =>
      intro out
      have hstep : ∀ i j, cdistIter r y dist out c i j = if i = c.1 ∧ j = c.2 then v i j else out i j := by
        intro i j
        unfold cdistIter
        rw [hv]
        by_cases h : i = c.1 ∧ j = c.2
        · simp only [if_pos h]; rw [h.1, h.2]
        · simp only [if_neg h]
      obtain ⟨ih1, ih2⟩ := ih (cdistIter r y dist out c)
      refine ⟨fun h => ?_, fun h => ih2 ?_⟩
      · rcases List.mem_cons.1 h with h | h
        · exact ih2 (by rw [hstep, if_pos (by rw [← h]; exact ⟨rfl, rfl⟩)])
        · exact ih1 h
      · rw [hstep]
        split
        · rfl
        · exact h
  refine ⟨(key "sqeuclidean" (fun i j => ∑ a, (r i a - y j a) ^ 2) (fun i j => ?_) sched out).1 (hs i j),
    (key "euclidean" (fun i j => Real.sqrt (∑ a, (r i a - y j a) ^ 2)) (fun i j => ?_) sched out).1 (hs i j),
    (key "l1" (fun i j => Real.sqrt (∑ a, (r i a - y j a) ^ 2)) (fun i j => ?_) sched out).1 (hs i j)⟩
  · simp [cdistCell]
  · simp [cdistCell]
  · simp [cdistCell]

/-- Non-vacuity of `C29_any_order`: the row-major order, for any sizes. -/
example (i : Fin N) (j : Fin M) :
    (i, j) ∈ (List.finRange N).flatMap fun i => (List.finRange M).map fun j => (i, j) := by simp

/-- A schedule that meets the hypothesis of C29, for any sizes: all tasks round-robin. -/
example (i : Fin N) (j : Fin M) : d + 1 ≤
    ((List.replicate (d+1) ((List.finRange N).flatMap fun i => (List.finRange M).map fun j => (i, j))).flatten).count
      (i, j) := by
  have hm : 1 ≤ ((List.finRange N).flatMap fun i => (List.finRange M).map fun j => (i, j)).count (i, j) :=
    List.count_pos_iff.2 (by simp)
  generalize ((List.finRange N).flatMap fun i => (List.finRange M).map fun j => (i, j)) = l at hm
  rw [List.count_flatten]
  rw [List.map_replicate, List.sum_replicate, smul_eq_mul]
  nlinarith

end

/-! ## C30 -/

section
variable {N M d n : Nat}

theorem pyIdx_pos_iff (w : Int) (j : Fin d) (h : w = j.val + 1) : pyIdx d (w - 1) = .ok j.val := by
  subst h; exact which_dim_ok j

theorem pyIdx_neg_alias (w : Int) (j : Fin d) (h : w = (j.val : Int) + 1 - d) :
    pyIdx d (w - 1) = .ok j.val := by
  have := j.2
  unfold pyIdx
  rw [if_neg (by omega), if_pos (by omega)]
  congr 1; omega

theorem pyIdx_out (w : Int) (h : w < 1 - d ∨ (d : Int) < w) : pyIdx d (w - 1) = .error .indexError := by
  unfold pyIdx
  rcases h with h | h
  · rw [if_neg (by omega), if_neg (by omega)]
  · rw [if_pos (by omega), if_neg (by omega)]

/-- **C30** (selection and aliasing). For the RBF kernel and every coordinate `j`: `which_dim = j+1` and
`which_dim = j+1-dim` both return the estimate of coordinate `j`, for the array and the function output. -/
theorem C30_selects (X : Mat N d ℝ) (Z : Mat M d ℝ) (C : ℝ) (hC : -1/1000 < C) (l : LS d ℝ)
    (hl : ∀ k, l.at k ≠ 0) (j : Fin d) (w : Int) (hw : w = j.val + 1 ∨ w = (j.val : Int) + 1 - d)
    (x : Mat n d ℝ) :
    scoreSep X Z C "RBF" l w = .ok (fun i => score C l.at X Z j (X i)) ∧
    scoreSepFn X Z C "RBF" l w x = .ok (fun i => score C l.at X Z j (x i)) := by
  have hp : pyIdx d (w - 1) = .ok j.val := by
    rcases hw with h | h
    · exact pyIdx_pos_iff w j h
    · exact pyIdx_neg_alias w j h
  exact ⟨scoreSep_real hC X Z l w j hp, scoreSepFn_real hC X Z l w j hp x⟩

/-- **C30** (out of range). All other integers raise IndexError, in all three numpy implementations that
take `which_dim`. -/
theorem C30_out_of_range (X : Mat N d ℝ) (Z : Mat M d ℝ) (C : ℝ) (hC : -1/1000 < C) (l : LS d ℝ)
    (hl : ∀ k, l.at k ≠ 0) (w : Int) (hw : w < 1 - d ∨ (d : Int) < w) (x : Mat n d ℝ) :
    scoreSep X Z C "RBF" l w = .error .indexError ∧
    scoreSepFn X Z C "RBF" l w x = .error .indexError ∧
    scoreOld X Z C "RBF" l w = .error .indexError ∧
    scoreOldFn X Z C "RBF" l w x = .error .indexError ∧
    score2Fn X Z C "RBF" l w x = .error .indexError := by
  have h1 : sepCommon X Z "RBF" l w = .error .indexError := by
    unfold sepCommon
    rw [if_pos rfl, rbfK_real, rbfK_real, scorePre_real, Except.ok_bind', pyIdx_out w hw]; rfl
  have h2 : oldCommon X Z "RBF" l w = .error .indexError := by
    unfold oldCommon
    rw [if_pos rfl, rbfK_real, rbfK_real, scorePre_real, Except.ok_bind', pyIdx_out w hw]; rfl
  refine ⟨?_, ?_, ?_, ?_, ?_⟩
  · unfold scoreSep; rw [h1]; rfl
  · unfold scoreSepFn; rw [h1]; rfl
  · unfold scoreOld; rw [h2]; rfl
  · unfold scoreOldFn; rw [h2]; rfl
  · unfold score2Fn; rw [h2]; rfl

/-- **C30** (any arithmetic, any kernel name). Out-of-range integers never return a value. -/
theorem C30_out_of_range_any {K : Type} [Add K] [Sub K] [Mul K] [Div K] [Neg K] [NumOps K]
    (X : Mat N d K) (Z : Mat M d K) (C : K) (kern : String) (l : LS d K) (w : Int)
    (hw : w < 1 - d ∨ (d : Int) < w) (v : Fin N → K) : scoreSep X Z C kern l w ≠ .ok v := by
  intro h
  unfold scoreSep at h
  obtain ⟨⟨p, g⟩, h1, _⟩ := Except.bind_ok.1 h
  unfold sepCommon at h1
  rw [pyIdx_out w hw] at h1
  split at h1
  · obtain ⟨_, _, h2⟩ := Except.bind_ok.1 h1; cases h2
  · split at h1
    · obtain ⟨_, _, h2⟩ := Except.bind_ok.1 h1; cases h2
    · cases h1

/-- `which_dim=0` is the last of three coordinates; `which_dim=4` and `-3` are out of range. -/
example : (0 : Int) = ((2 : Fin 3).val : Int) + 1 - (3 : Nat) ∧ ((3 : Nat) : Int) < 4
    ∧ (-3 : Int) < 1 - (3 : Nat) := by decide

end

/-! ## C31 -/

section
variable {K ρ : Type} [Add K] [Sub K] [Mul K] [Div K] [Neg K] [NumOps K]
variable {N M d n c : Nat}

/-- **C31** ('periodic' is 'RBF'). Both classes build the same flows (or raise the same exception, with the
same random draws) for `kern='periodic'` and `kern='RBF'`, and the control queries agree as well. -/
theorem C31_periodic_is_RBF (env : Env ρ K) (cf : Cfg d N M K) (r : ρ) :
    SameOutcome (construct env ({ cf with kern := "periodic" } : Cfg d N M K) r)
      (construct env ({ cf with kern := "RBF" } : Cfg d N M K) r) ∧
    SameOutcome (torchConstruct env ({ cf with kern := "periodic" } : Cfg d N M K) r)
      (torchConstruct env ({ cf with kern := "RBF" } : Cfg d N M K) r) ∧
    (∀ (o : Obj d N M K) (x : Mat n c K) (ti : Int),
      calculateU env ({ o with cfg := { o.cfg with kern := "periodic" } } : Obj d N M K) x ti r
        = calculateU env ({ o with cfg := { o.cfg with kern := "RBF" } } : Obj d N M K) x ti r) ∧
    (∀ (o : Obj d N M K) (x : Mat n c K) (ti : Int),
      torchCalculateU env ({ o with cfg := { o.cfg with kern := "periodic" } } : Obj d N M K) x ti r
        = torchCalculateU env ({ o with cfg := { o.cfg with kern := "RBF" } } : Obj d N M K) x ti r) := by
  have he : effKern "periodic" = effKern "RBF" := by decide
  refine ⟨?_, ?_, fun o x ti => ?_, fun o x ti => ?_⟩
  · refine construct_sameOutcome env ({ cf with kern := "periodic" } : Cfg d N M K)
      ({ cf with kern := "RBF" } : Cfg d N M K) rfl rfl rfl (fun _ => ?_) (fun _ => rfl)
      (fun _ _ => ?_) ?_ r
    · have : ottoBody env ({ cf with kern := "periodic" } : Cfg d N M K)
          = ottoBody env ({ cf with kern := "RBF" } : Cfg d N M K) := by
        funext ti tt Z; simp only [ottoBody, he]
      unfold forwardOtto; rw [this]
    · have : ottoTrueBody env ({ cf with kern := "periodic" } : Cfg d N M K)
          = ottoTrueBody env ({ cf with kern := "RBF" } : Cfg d N M K) := by
        funext ti tt Z; simp only [ottoTrueBody, he]
      unfold forwardOttoTrue; rw [this]
    · have : backwardBody env ({ cf with kern := "periodic" } : Cfg d N M K)
          = backwardBody env ({ cf with kern := "RBF" } : Cfg d N M K) := by
        funext g Z ti tt B; simp only [backwardBody, he]
      funext g Z B
      unfold backwardSim; rw [this]
  · refine torchConstruct_sameOutcome env ({ cf with kern := "periodic" } : Cfg d N M K)
      ({ cf with kern := "RBF" } : Cfg d N M K) rfl rfl rfl (fun _ => rfl) (fun _ => rfl)
      (fun _ _ => rfl) ?_ r
    have : torchBackwardBody env ({ cf with kern := "periodic" } : Cfg d N M K)
        = torchBackwardBody env ({ cf with kern := "RBF" } : Cfg d N M K) := by
      funext g Z ti tt B; simp only [torchBackwardBody, he]
    funext g Z B
    unfold torchBackwardSim; rw [this]
  · simp only [calculateU, he]
  · simp only [torchCalculateU, he]

theorem densityAt_unknown (env : Env ρ K) (kern : String) (h1 : kern ≠ "RBF") (h2 : kern ≠ "periodic")
    (hd : 0 < d) (z b : Mat d N K) (r : ρ) (a : Mat d N K × ρ) :
    densityAt env M kern z b r ≠ .ok a := by
  intro h
  unfold densityAt at h
  obtain ⟨a1, a2⟩ := a
  obtain ⟨bn, r1, _, h⟩ := RandM.bind_ok.1 h
  obtain ⟨bn', r1', _, h⟩ := RandM.bind_ok.1 h
  obtain ⟨S, r2, _, h⟩ := RandM.bind_ok.1 h
  obtain ⟨rs, _, h'⟩ := seqM_rand_ok.1 h
  have := h'.2 ⟨0, hd⟩
  obtain ⟨h3, _⟩ := RandM.lift_ok.1 this
  unfold scoreSepFn sepCommon at h3
  rw [if_neg h1, if_neg h2] at h3
  cases h3

/-- **C31** (unknown names). With any other kernel name and at least three grid points neither class ever
constructs an object, in any mode, for any random stream and any arithmetic. -/
theorem C31_unknown_kernel_raises (env : Env ρ K) (cf : Cfg d N M K) (hd : 0 < d)
    (h1 : cf.kern ≠ "RBF") (h2 : cf.kern ≠ "periodic") (hk : 3 ≤ (mkGrid cf.t1 cf.t2).length) (r : ρ) :
    (∃ e, construct env cf r = .error e) ∧ (∃ e, torchConstruct env cf r = .error e) := by
  have he : effKern cf.kern = cf.kern := by simp [effKern, h2]
  refine ⟨?_, ?_⟩
  · cases h : construct env cf r with
    | error e => exact ⟨e, rfl⟩
    | ok p =>
      obtain ⟨o, r'⟩ := p
      exfalso
      have hg := (construct_fields h).2
      obtain ⟨_, _, _, rs, _, hs⟩ := construct_back_steps h (by rw [hg]; omega)
      obtain ⟨z, tj, b, y, _, _, _, _, hst⟩ := hs 1 (by omega) (by rw [hg]; omega)
      simp only [npBack, backStep, he] at hst
      obtain ⟨a, r1, h3, _⟩ := RandM.bind_ok.1 hst
      exact densityAt_unknown env _ h1 h2 hd _ _ _ _ h3
  · cases h : torchConstruct env cf r with
    | error e => exact ⟨e, rfl⟩
    | ok p =>
      obtain ⟨o, r'⟩ := p
      exfalso
      have hg := (torchConstruct_fields h).2.2
      have hl := torchPoints_length cf.t1 cf.t2
      obtain ⟨_, _, _, rs, _, hs⟩ := torchConstruct_back_steps h (by rw [hg]; omega)
      obtain ⟨z, tj, b, y, _, _, _, _, hst⟩ := hs 1 (by omega) (by rw [hg]; omega)
      simp only [torchBack, backStep, he] at hst
      obtain ⟨a, r1, h3, _⟩ := RandM.bind_ok.1 hst
      unfold torchDensityAt at h3
      obtain ⟨bn, r2, _, h4⟩ := RandM.bind_ok.1 h3
      obtain ⟨S, r3, _, h5⟩ := RandM.bind_ok.1 h4
      obtain ⟨s, r4, h6, _⟩ := RandM.bind_ok.1 h5
      obtain ⟨h7, _⟩ := RandM.lift_ok.1 h6
      unfold torchScoreFn at h7
      obtain ⟨⟨ls, p, g⟩, _, h8⟩ := Except.bind_ok.1 h7
      obtain ⟨ksz, h9, _⟩ := Except.bind_ok.1 h8
      unfold torchKsz at h9
      rw [if_neg h1] at h9
      cases h9

/-- **C31** (other implementations). `score_function_multid_seperate_all_dims` never returns for
'periodic', `score_function_multid_seperate_old` (and the version of score.py) raises NameError. -/
theorem C31_periodic_other (X : Mat N d K) (Z : Mat M d K) (C : K) (l : LS d K) (w : Int)
    (x : Mat n c K) :
    (∀ v, scoreAll X Z C "periodic" l ≠ .ok v) ∧ (∀ v, scoreAllFn X Z C "periodic" l x ≠ .ok v) ∧
    scoreOld X Z C "periodic" l w = .error .nameError ∧
    scoreOldFn X Z C "periodic" l w x = .error .nameError ∧
    score2Fn X Z C "periodic" l w x = .error .nameError := by
  have h1 : ∀ v, allCommon X Z "periodic" l ≠ .ok v := by
    intro v h
    unfold allCommon at h
    rw [if_neg (by decide), if_pos rfl] at h
    obtain ⟨_, _, h2⟩ := Except.bind_ok.1 h
    cases h2
  have h2 : oldCommon X Z "periodic" l w = .error .nameError := by
    unfold oldCommon; rw [if_neg (by decide)]
  refine ⟨fun v h => ?_, fun v h => ?_, ?_, ?_, ?_⟩
  · unfold scoreAll at h
    obtain ⟨q, h3, _⟩ := Except.bind_ok.1 h
    exact h1 q h3
  · unfold scoreAllFn at h
    obtain ⟨q, h3, _⟩ := Except.bind_ok.1 h
    exact h1 q h3
  · unfold scoreOld; rw [h2]; rfl
  · unfold scoreOldFn; rw [h2]; rfl
  · unfold score2Fn; rw [h2]; rfl

end

section
variable {N M d : Nat}

/-- **C31** (sign of the periodic kernel). With a vector lengthscale every entry of the periodic kernel
matrix is negative, so the Gram matrix of any non-empty point set is not positive semidefinite; with a
scalar lengthscale every entry is positive. -/
theorem C31_periodic_sign (X : Mat N d ℝ) (Z : Mat M d ℝ) (l : Fin d → ℝ) (s : ℝ) (i : Fin N)
    (j : Fin M) :
    perK X Z (.vec l) i j < 0 ∧ 0 < perK X Z (.scalar s) i j ∧
    ¬ (Matrix.of (perK Z Z (.vec l))).PosSemidef := by
  have hneg : ∀ {n m : Nat} (X : Mat n d ℝ) (Z : Mat m d ℝ) (i : Fin n) (j : Fin m),
      perK X Z (.vec l) i j < 0 := by
    intro n m X Z i j
    simp only [perK, foldl_mul_prod, real_exp, real_lit_one, one_mul]
    have : 0 < ∏ k, Real.exp (lit (-2) 1 * sq (NumOps.sin (NumOps.abs (X i k - Z j k) / lit 2 1))
        / (l k * l k)) := Finset.prod_pos fun k _ => Real.exp_pos _
    linarith
  refine ⟨hneg X Z i j, Real.exp_pos _, fun h => ?_⟩
  have h1 := h.diag_nonneg (i := j)
  exact absurd h1 (not_le.2 (hneg Z Z j j))

/-- **C31** (estimators). Every numpy estimator raises NameError for an unknown kernel name, in both output
forms, whatever the data; the torch estimator's direct output does not look at the name. -/
theorem C31_unknown_kernel_estimators {K : Type} [Add K] [Sub K] [Mul K] [Div K] [Neg K] [NumOps K]
    {N M d n c : Nat} (X : Mat N d K) (Z : Mat M d K) (C : K) (kern : String) (l : LS d K) (w : Int)
    (x : Mat n c K) (h1 : kern ≠ "RBF") (h2 : kern ≠ "periodic") :
    scoreSep X Z C kern l w = .error .nameError ∧ scoreSepFn X Z C kern l w x = .error .nameError ∧
    scoreAll X Z C kern l = .error .nameError ∧ scoreAllFn X Z C kern l x = .error .nameError ∧
    scoreOld X Z C kern l w = .error .nameError ∧ scoreOldFn X Z C kern l w x = .error .nameError ∧
    score2Fn X Z C kern l w x = .error .nameError ∧
    (∀ lt : TLS d K, torchScore X Z lt C kern = torchScore X Z lt C "RBF") := by
  have e1 : sepCommon X Z kern l w = .error .nameError := by
    unfold sepCommon; rw [if_neg h1, if_neg h2]
  have e2 : allCommon X Z kern l = .error .nameError := by
    unfold allCommon; rw [if_neg h1, if_neg h2]
  have e3 : oldCommon X Z kern l w = .error .nameError := by
    unfold oldCommon; rw [if_neg h1]
  refine ⟨?_, ?_, ?_, ?_, ?_, ?_, ?_, fun lt => rfl⟩
  · unfold scoreSep; rw [e1]; rfl
  · unfold scoreSepFn; rw [e1]; rfl
  · unfold scoreAll; rw [e2]; rfl
  · unfold scoreAllFn; rw [e2]; rfl
  · unfold scoreOld; rw [e3]; rfl
  · unfold scoreOldFn; rw [e3]; rfl
  · unfold score2Fn; rw [e3]; rfl

/-- **C31** (torch estimator). What the torch estimator does with each form of its arguments. A 0-dimensional
tensor as lengthscale raises IndexError in both outputs. For every other form the direct output exists. The
returned function raises NameError for every kernel name other than `'RBF'` (also for `'periodic'`), TypeError
for a numpy lengthscale vector, UnboundLocalError (a NameError) for a scalar lengthscale and a tensor argument,
RuntimeError if the argument has a number of columns other than `d` and 1. -/
theorem C31_torch_estimator_outcomes {N M d n c : Nat} (X : Mat N d ℝ) (Z : Mat M d ℝ) (C : ℝ) (kern : String)
    (x : TArg n c ℝ) (y : Mat n c ℝ) (s : ℝ) (v : Fin d → ℝ) :
    torchScore X Z (.tensor0 s) C kern = .error .indexError ∧
    torchScoreFn X Z (.tensor0 s) C kern x = .error .indexError ∧
    torchScore X Z (.pyFloat s) C kern = .ok (fun i j => score (1/1000) (fun _ => s) X Z j (X i)) ∧
    torchScore X Z (.tensor1 s) C kern = .ok (fun i j => score (1/1000) (fun _ => s) X Z j (X i)) ∧
    torchScore X Z (.ndarray v) C kern = .ok (fun i j => score (1/1000) v X Z j (X i)) ∧
    (1 ≤ d → torchScore X Z (.tensor v) C kern = .ok (fun i j => score (1/1000) v X Z j (X i))) ∧
    (kern ≠ "RBF" →
      torchScoreFn X Z (.pyFloat s) C kern x = .error .nameError ∧
      torchScoreFn X Z (.tensor1 s) C kern x = .error .nameError ∧
      torchScoreFn X Z (.ndarray v) C kern x = .error .nameError ∧
      (1 ≤ d → torchScoreFn X Z (.tensor v) C kern x = .error .nameError)) ∧
    torchScoreFn X Z (.ndarray v) C "RBF" x = .error .typeError ∧
    torchScoreFn X Z (.pyFloat s) C "RBF" (.tensor y) = .error .nameError ∧
    torchScoreFn X Z (.tensor1 s) C "RBF" (.tensor y) = .error .nameError ∧
    (d = 1 → torchScoreFn X Z (.tensor v) C "RBF" (.tensor y) = .error .nameError) ∧
    (c ≠ d → c ≠ 1 → 2 ≤ d →
      torchScoreFn X Z (.tensor v) C "RBF" x = .error .runtimeError ∧
      torchScoreFn X Z (.pyFloat s) C "RBF" (.ndarray y) = .error .runtimeError ∧
      torchScoreFn X Z (.tensor1 s) C "RBF" (.ndarray y) = .error .runtimeError) := by
  have cf : (TLS.pyFloat s : TLS d ℝ).classify = .ok (.scalar s) := rfl
  have c1 : (TLS.tensor1 s : TLS d ℝ).classify = .ok (.scalar s) := rfl
  have cn : (TLS.ndarray v : TLS d ℝ).classify = .ok (.vec v) := rfl
  have c2 : 2 ≤ d → (TLS.tensor v : TLS d ℝ).classify = .ok (.vec v) := fun h => classify_tensor h v
  have cs : ∀ h : d = 1, (TLS.tensor v : TLS d ℝ).classify = .ok (.scalar (v ⟨0, by omega⟩)) := by
    intro h
    simp only [TLS.classify]; rw [if_neg (by omega), dif_pos h]
  have hfn : ∀ (l : TLS d ℝ) (ls : LS d ℝ) (e : PyErr) (kern : String) (x : TArg n c ℝ),
      l.classify = .ok ls → torchKsz Z l ls kern x = .error e →
      torchScoreFn X Z l C kern x = .error e := by
    intro l ls e kern x h1 h2
    simp only [torchScoreFn, torchCommon_real X Z l ls h1, Except.ok_bind', h2]
    rfl
  refine ⟨rfl, rfl, torchScore_real X Z _ _ cf C kern, torchScore_real X Z _ _ c1 C kern,
    torchScore_real X Z _ _ cn C kern, fun h => ?_, fun hk => ⟨?_, ?_, ?_, fun h => ?_⟩, ?_, ?_, ?_,
    fun h => ?_, fun h1 h2 h3 => ⟨?_, ?_, ?_⟩⟩
  · rcases Nat.lt_or_ge 1 d with h2 | h2
    · exact torchScore_real X Z _ _ (c2 h2) C kern
    · have h1 : d = 1 := by omega
      rw [torchScore_real X Z _ _ (cs h1) C kern]
      have : (LS.scalar (v ⟨0, by omega⟩) : LS d ℝ).at = v := by
        funext k
        have hk : k = ⟨0, by omega⟩ := Fin.ext (by have := k.2; simp; omega)
        rw [hk]; rfl
      rw [this]
  · exact hfn _ _ _ _ _ cf (by unfold torchKsz; rw [if_neg hk])
  · exact hfn _ _ _ _ _ c1 (by unfold torchKsz; rw [if_neg hk])
  · exact hfn _ _ _ _ _ cn (by unfold torchKsz; rw [if_neg hk])
  · rcases Nat.lt_or_ge 1 d with h2 | h2
    · exact hfn _ _ _ _ _ (c2 h2) (by unfold torchKsz; rw [if_neg hk])
    · exact hfn _ _ _ _ _ (cs (by omega)) (by unfold torchKsz; rw [if_neg hk])
  · exact hfn _ _ _ _ _ cn (by unfold torchKsz; rw [if_pos rfl])
  · exact hfn _ _ _ _ _ cf (by unfold torchKsz; rw [if_pos rfl])
  · exact hfn _ _ _ _ _ c1 (by unfold torchKsz; rw [if_pos rfl])
  · exact hfn _ _ _ _ _ (cs h) (by unfold torchKsz; rw [if_pos rfl])
  · exact hfn _ _ _ _ _ (c2 h3) (by unfold torchKsz; rw [if_pos rfl]; simp [h1, h2])
  · exact hfn _ _ _ _ _ cf (by unfold torchKsz; rw [if_pos rfl]; simp [h1, h2, show d ≠ 1 by omega])
  · exact hfn _ _ _ _ _ c1 (by unfold torchKsz; rw [if_pos rfl]; simp [h1, h2, show d ≠ 1 by omega])

/-- The hypotheses of `C31_unknown_kernel_raises` are met by ordinary configurations. -/
example : (0 < 2) ∧ ({ exCfg 2 3 4 10 true false false with kern := "rbf" } : Cfg 2 3 4 ℝ).kern ≠ "RBF" ∧
    3 ≤ (mkGrid (exCfg 2 3 4 10 true false false).t1 (exCfg 2 3 4 10 true false false).t2).length := by
  refine ⟨by norm_num, by decide, ?_⟩
  rw [exCfg_grid]; omega

end
end DPFC
