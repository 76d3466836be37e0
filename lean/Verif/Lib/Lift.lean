import Verif.Spec.Embeds
import Verif.Lib.FlowReal
import Verif.Lib.Comp
import Verif.Lib.Control2

/-! The model on numbers `em x` does what it does in exact arithmetic, as long as nothing is divided by
zero. -/

set_option linter.unusedSectionVars false

namespace DPFC
open Spec

section
variable {K ρ : Type} [Add K] [Sub K] [Mul K] [Div K] [Neg K] [NumOps K]
variable {em : ℝ → K} {N M d n m p : ℕ}

namespace Lift

/-! ### Scalars, vectors, matrices -/

section
variable (h : Embeds em)
include h

theorem lit (p : ℤ) (q : ℕ) : (NumOps.lit p q : K) = em (NumOps.lit p q) := h.lit p q
theorem sum (v : Fin n → ℝ) : NumOps.sum (fun i => em (v i)) = em (NumOps.sum v) := h.sum v
theorem sq (a : ℝ) : DPFC.sq (em a) = em (DPFC.sq a) := h.mul a a
theorem exp (a : ℝ) : NumOps.exp (em a) = em (NumOps.exp a) := h.exp a
theorem sqrt (a : ℝ) (ha : 0 ≤ a) : NumOps.sqrt (em a) = em (NumOps.sqrt a) := h.sqrt a ha
theorem amin (v : Fin (n+1) → ℝ) : NumOps.amin (emV em v) = em (NumOps.amin v) := h.amin v
theorem amax (v : Fin (n+1) → ℝ) : NumOps.amax (emV em v) = em (NumOps.amax v) := h.amax v
theorem ltB (a b : ℝ) : NumOps.ltB (em a) (em b) = NumOps.ltB a b := by
  rw [Bool.eq_iff_iff, h.ltB, real_ltB]
theorem leB (a b : ℝ) : NumOps.leB (em a) (em b) = NumOps.leB a b := by
  rw [Bool.eq_iff_iff, h.leB, real_leB]
theorem eqB (a b : ℝ) : NumOps.eqB (em a) (em b) = NumOps.eqB a b := by
  rw [Bool.eq_iff_iff, h.eqB, real_eqB]
theorem inv (A : Mat m m ℝ) : NumOps.inv (emM em A) = (NumOps.inv A).map (emM em) := h.inv A

theorem dtc : (DPFC.dtc : K) = em DPFC.dtc := h.lit 1 1000

theorem eye : (DPFC.eye : Mat m m K) = emM em DPFC.eye := by
  funext i j
  simp only [DPFC.eye, emM]
  split <;> exact lit h _ _

theorem mm (A : Mat n m ℝ) (B : Mat m p ℝ) : DPFC.mm (emM em A) (emM em B) = emM em (DPFC.mm A B) := by
  funext i j
  simp only [DPFC.mm, emM, h.mul]
  exact sum h _

theorem mv (A : Mat n m ℝ) (v : Fin m → ℝ) : DPFC.mv (emM em A) (emV em v) = emV em (DPFC.mv A v) := by
  funext i
  simp only [DPFC.mv, emM, emV, h.mul]
  exact sum h _

theorem negM (A : Mat n m ℝ) : DPFC.negM (emM em A) = emM em (DPFC.negM A) := by
  funext i j
  exact h.neg _

omit h in
theorem tr (A : Mat n m ℝ) : DPFC.tr (emM em A) = emM em (DPFC.tr A) := rfl

theorem mean (hN : 0 < N) (v : Fin N → ℝ) : DPFC.mean (emV em v) = em (DPFC.mean v) := by
  have hn : (NumOps.lit N 1 : ℝ) ≠ 0 := by simp; omega
  unfold DPFC.mean emV
  rw [sum h, lit h, h.div _ _ hn]

theorem sumsq_nonneg (v : Fin N → ℝ) (a : ℝ) : 0 ≤ NumOps.sum fun i => DPFC.sq (v i - a) := by
  simp only [real_sum, real_sq]
  exact Finset.sum_nonneg fun i _ => sq_nonneg _

theorem npStd (hN : 0 < N) (v : Fin N → ℝ) : DPFC.npStd (emV em v) = em (DPFC.npStd v) := by
  have hn : (NumOps.lit N 1 : ℝ) ≠ 0 := by simp; omega
  unfold DPFC.npStd
  rw [mean h hN]
  simp only [emV, h.sub, sq h]
  rw [sum h, lit h, h.div _ _ hn, sqrt h]
  exact div_nonneg (sumsq_nonneg h v _) (by simp)

theorem torchStd (hN : 2 ≤ N) (v : Fin N → ℝ) : DPFC.torchStd (emV em v) = em (DPFC.torchStd v) := by
  have hn : (0:ℝ) < NumOps.lit ((N:ℤ) - 1) 1 := by
    have : (2:ℝ) ≤ N := by exact_mod_cast hN
    simp; linarith
  unfold DPFC.torchStd
  rw [mean h (by omega)]
  simp only [emV, h.sub, sq h]
  rw [sum h, lit h, h.div _ _ hn.ne', sqrt h]
  exact div_nonneg (sumsq_nonneg h v _) hn.le

theorem npMin (v : Fin n → ℝ) : DPFC.npMin (emV em v) = (DPFC.npMin v).map em := by
  cases n with
  | zero => rfl
  | succ n => exact congrArg Except.ok (amin h v)

theorem npMax (v : Fin n → ℝ) : DPFC.npMax (emV em v) = (DPFC.npMax v).map em := by
  cases n with
  | zero => rfl
  | succ n => exact congrArg Except.ok (amax h v)

theorem pyMax (a b : ℝ) : DPFC.pyMax (em a) (em b) = em (DPFC.pyMax a b) := by
  unfold DPFC.pyMax
  rw [ltB h]; split <;> rfl

theorem pyMin (a b : ℝ) : DPFC.pyMin (em a) (em b) = em (DPFC.pyMin a b) := by
  unfold DPFC.pyMin
  rw [ltB h]; split <;> rfl

theorem lengthScales (hN : 0 < N) (x : Mat d N ℝ) :
    DPFC.lengthScales (emM em x) = emV em (DPFC.lengthScales x) := by
  funext a
  change NumOps.lit 2 1 * DPFC.npStd (emV em (x a)) = em _
  rw [npStd h hN, lit h, h.mul]
  rfl

theorem mkGrid (t1 t2 : ℝ) : DPFC.mkGrid (em t1) (em t2) = (DPFC.mkGrid t1 t2).map em := by
  have h2 : (NumOps.lit 2 1 : ℝ) ≠ 0 := by simp
  have h3 : (DPFC.dtc : ℝ) ≠ 0 := by simp [DPFC.dtc]
  unfold DPFC.mkGrid npArange
  rw [dtc h, lit h, h.div _ _ h2, h.add, h.sub, h.div _ _ h3, h.ceilNat, List.map_map]
  refine List.map_congr_left fun i _ => ?_
  simp only [npArangePoint, Function.comp]
  split
  · rfl
  · split
    · rw [h.add]
    · rw [lit h, h.add, h.sub, h.mul, h.add]

/-! ### Score estimators -/

omit h in
/-- A lengthscale argument of numbers. -/
def _root_.DPFC.emLS (em : ℝ → K) : LS d ℝ → LS d K
  | .scalar l => .scalar (em l)
  | .vec l => .vec (emV em l)

omit h in
/-- No lengthscale is zero. -/
def _root_.DPFC.LSne : LS d ℝ → Prop
  | .scalar l => l ≠ 0
  | .vec l => ∀ a, l a ≠ 0

theorem two_l {l : ℝ} (hl : l ≠ 0) : (NumOps.lit 2 1 : ℝ) * l * l ≠ 0 := by simp [hl]

theorem rbfFactor (x y : ℝ) {l : ℝ} (hl : l ≠ 0) :
    DPFC.rbfFactor (em x) (em y) (em l) = em (DPFC.rbfFactor x y l) := by
  unfold DPFC.rbfFactor
  rw [h.sub, sq h, lit h, h.mul, h.mul, h.neg, h.div _ _ (two_l h hl), exp h]

theorem rbfScalar (x y : Fin d → ℝ) {l : ℝ} (hl : l ≠ 0) :
    DPFC.rbfScalar (emV em x) (emV em y) (em l) = em (DPFC.rbfScalar x y l) := by
  unfold DPFC.rbfScalar
  simp only [emV, h.sub, sq h]
  rw [sum h, lit h, h.mul, h.mul, h.neg, h.div _ _ (two_l h hl), exp h]

theorem foldlMul {c : ℕ} (F' : Fin c → K) (F : Fin c → ℝ) (hF : ∀ i, F' i = em (F i)) (a : ℝ) :
    Fin.foldl c (fun r i => r * F' i) (em a) = em (Fin.foldl c (fun r i => r * F i) a) := by
  induction c generalizing a with
  | zero => rfl
  | succ c ih =>
    rw [Fin.foldl_succ, Fin.foldl_succ, hF, h.mul]
    exact ih _ _ (fun i => hF i.succ) _

theorem reduceMul {c : ℕ} (F' : Fin c → K) (F : Fin c → ℝ) (hF : ∀ i, F' i = em (F i)) :
    DPFC.reduceMul F' = em (DPFC.reduceMul F) := by
  cases c with
  | zero => exact lit h 1 1
  | succ c =>
    simp only [DPFC.reduceMul]
    rw [hF]
    exact foldlMul h _ _ (fun i => hF i.succ) _

theorem rbfK (x : Mat N d ℝ) (y : Mat M d ℝ) (l : LS d ℝ) (hl : LSne l) :
    DPFC.rbfK (emM em x) (emM em y) (emLS em l) = emM em (DPFC.rbfK x y l) := by
  cases l with
  | scalar l => funext i j; exact rbfScalar h (x i) (y j) hl
  | vec l =>
    funext i j
    simp only [DPFC.rbfK, emLS]
    rw [lit h]
    exact foldlMul h _ _ (fun a => rbfFactor h _ _ (hl a)) _

theorem rbfGrad (x : Mat N d ℝ) (y : Mat M d ℝ) (ii : Fin d) (l : LS d ℝ) (hl : LSne l) :
    DPFC.rbfGrad (emM em x) (emM em y) ii (emLS em l) = emM em (DPFC.rbfGrad x y ii l) := by
  have hk := rbfK h x y l hl
  cases l with
  | scalar l =>
    funext i j
    have hl' : l * l ≠ 0 := mul_ne_zero hl hl
    simp only [DPFC.rbfGrad, emLS] at hk ⊢
    rw [hk]
    simp only [emM]
    rw [h.sub, h.mul, h.mul, h.div _ _ hl']
  | vec l =>
    funext i j
    have hl' : l ii * l ii ≠ 0 := mul_ne_zero (hl ii) (hl ii)
    simp only [DPFC.rbfGrad, emLS] at hk ⊢
    rw [hk]
    simp only [emM, emV]
    rw [h.sub, h.mul, h.mul, h.div _ _ hl']

theorem ridge (A : Mat M M ℝ) : DPFC.ridge (emM em A) = emM em (DPFC.ridge A) := by
  funext i j
  simp only [DPFC.ridge, emM, eye h, lit h, h.mul, h.add]

theorem innerMat (C : ℝ) (S A : Mat M M ℝ) :
    DPFC.innerMat (em C) (emM em S) (emM em A) = emM em (DPFC.innerMat C S A) := by
  funext i j
  simp only [DPFC.innerMat, emM, eye h, lit h, h.mul, h.add]
  rw [← h.add, ← h.add]
  congr 2
  exact congrFun (congrFun (mm h S A) i) j

theorem sumGrad (G : Mat N M ℝ) : DPFC.sumGrad (emM em G) = emV em (DPFC.sumGrad G) := by
  funext j
  simp only [DPFC.sumGrad, negM h]
  exact sum h _

omit h in
/-- The matrices of an estimator. -/
def _root_.DPFC.emP (em : ℝ → K) (p : ScorePre N M ℝ) : ScorePre N M K :=
  ⟨emM em p.Kxz, emM em p.Ksinv, emM em p.A⟩

theorem scorePre (kxz : Mat N M ℝ) (ks : Mat M M ℝ) :
    DPFC.scorePre (emM em kxz) (emM em ks) = (DPFC.scorePre kxz ks).map (emP em) := by
  unfold DPFC.scorePre
  rw [ridge h, inv h]
  cases NumOps.inv (DPFC.ridge ks) with
  | error e => rfl
  | ok I =>
    change Except.ok _ = Except.ok _
    simp only [emP, tr, mm h]

theorem directOut (C : ℝ) (p : ScorePre N M ℝ) (g : Fin M → ℝ) :
    DPFC.directOut (em C) (emP em p) (emV em g) = (DPFC.directOut C p g).map (emV em) := by
  unfold DPFC.directOut
  simp only [emP]
  rw [innerMat h, inv h]
  cases NumOps.inv (DPFC.innerMat C p.Ksinv p.A) with
  | error e => rfl
  | ok I =>
    change Except.ok _ = Except.ok _
    rw [negM h, mm h, mm h, mv h]

theorem fnOut (C : ℝ) (p : ScorePre N M ℝ) (g : Fin M → ℝ) (ksz : Mat n M ℝ) :
    DPFC.fnOut (em C) (emP em p) (emV em g) (emM em ksz) = (DPFC.fnOut C p g ksz).map (emV em) := by
  unfold DPFC.fnOut
  simp only [emP]
  rw [innerMat h, inv h]
  cases NumOps.inv (DPFC.innerMat C p.Ksinv p.A) with
  | error e => rfl
  | ok I =>
    change Except.ok _ = Except.ok _
    rw [negM h, mm h, mm h, mv h]

theorem rbfKsz (Z : Mat M d ℝ) (l : LS d ℝ) (hl : LSne l) {c : ℕ} (x : Mat n c ℝ) :
    DPFC.rbfKsz (emM em Z) (emLS em l) (emM em x) = (DPFC.rbfKsz Z l x).map (emM em) := by
  cases l with
  | scalar l =>
    simp only [DPFC.rbfKsz, emLS]
    split
    · change Except.ok _ = Except.ok _
      congr 1
      funext i j
      exact rbfScalar h _ _ hl
    · rfl
  | vec l =>
    simp only [DPFC.rbfKsz, emLS]
    split
    · rfl
    · split
      · change Except.ok _ = Except.ok _
        congr 1
        funext i j
        exact reduceMul h _ _ fun a => rbfFactor h _ _ (hl _)
      · rfl

theorem sepCommon (X : Mat N d ℝ) (Z : Mat M d ℝ) {kern : String} (hk : kern ≠ "periodic")
    (l : LS d ℝ) (hl : LSne l) (w : ℤ) :
    DPFC.sepCommon (emM em X) (emM em Z) kern (emLS em l) w
      = (DPFC.sepCommon X Z kern l w).map (Prod.map (emP em) (emV em)) := by
  unfold DPFC.sepCommon
  rw [if_neg hk, if_neg hk]
  split
  · rw [rbfK h _ _ _ hl, rbfK h _ _ _ hl, scorePre h]
    cases DPFC.scorePre (DPFC.rbfK X Z l) (DPFC.rbfK Z Z l) with
    | error e => rfl
    | ok p =>
      simp only [Except.map, bind, Except.bind]
      cases pyIdx d (w - 1) with
      | error e => rfl
      | ok ii =>
        simp only []
        split
        · rw [rbfGrad h _ _ _ _ hl, sumGrad h]; rfl
        · rfl
  · rfl

theorem scoreSep (X : Mat N d ℝ) (Z : Mat M d ℝ) (C : ℝ) {kern : String} (hk : kern ≠ "periodic")
    (l : LS d ℝ) (hl : LSne l) (w : ℤ) :
    DPFC.scoreSep (emM em X) (emM em Z) (em C) kern (emLS em l) w
      = (DPFC.scoreSep X Z C kern l w).map (emV em) := by
  unfold DPFC.scoreSep
  rw [sepCommon h X Z hk l hl w]
  cases DPFC.sepCommon X Z kern l w with
  | error e => rfl
  | ok q => exact directOut h C q.1 q.2

theorem scoreSepFn (X : Mat N d ℝ) (Z : Mat M d ℝ) (C : ℝ) {kern : String} (hk : kern ≠ "periodic")
    (l : LS d ℝ) (hl : LSne l) (w : ℤ) {c : ℕ} (x : Mat n c ℝ) :
    DPFC.scoreSepFn (emM em X) (emM em Z) (em C) kern (emLS em l) w (emM em x)
      = (DPFC.scoreSepFn X Z C kern l w x).map (emV em) := by
  unfold DPFC.scoreSepFn
  rw [sepCommon h X Z hk l hl w]
  by_cases hr : kern = "RBF"
  · cases DPFC.sepCommon X Z kern l w with
    | error e => rfl
    | ok q =>
      simp only [if_pos hr]
      rw [rbfKsz h Z l hl]
      cases DPFC.rbfKsz Z l x with
      | error e => rfl
      | ok ksz => exact fnOut h C q.1 q.2 ksz
  · unfold DPFC.sepCommon
    rw [if_neg hr, if_neg hk]; rfl

end

end Lift
end
end DPFC
