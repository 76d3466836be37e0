import Verif.Lib.NanFlow
import Verif.Lib.Control2
import Verif.Inst.XR

/-! Constructions over exact arithmetic with special values: what succeeds. `linalg.inv` is replaced by a
function that returns the identity matrix; it only serves to exhibit concrete runs. -/

set_option linter.unusedSectionVars false

namespace DPFC
open Spec

section generic
variable {K ρ : Type} [Add K] [Sub K] [Mul K] [Div K] [Neg K] [NumOps K]
variable {N M d n : Nat}

/-- `linalg.inv` never raises. -/
def InvTotal (K : Type) [NumOps K] : Prop := ∀ (m : ℕ) (A : Mat m m K), ∃ B, NumOps.inv A = .ok B

theorem sepCommon_total (hinv : InvTotal K) (X : Mat N d K) (Z : Mat M d K) (l : LS d K) (di : Fin d) :
    ∃ B, sepCommon X Z "RBF" l (di.val + 1)
      = .ok (⟨rbfK X Z l, B, mm (tr (rbfK X Z l)) (rbfK X Z l)⟩, sumGrad (rbfGrad X Z di l)) ∧
      NumOps.inv (ridge (rbfK Z Z l)) = .ok B := by
  obtain ⟨B, hB⟩ := hinv M (ridge (rbfK Z Z l))
  refine ⟨B, ?_, hB⟩
  unfold sepCommon scorePre
  rw [if_pos rfl, hB]
  simp only [Except.ok_bind']
  rw [show ((di.val : Int) + 1 - 1) = (di.val : Int) by omega, pyIdx_nat d di.2]
  simp only [Except.ok_bind']
  rw [dif_pos di.2]

theorem scoreSep_total (hinv : InvTotal K) (X : Mat N d K) (Z : Mat M d K) (C : K) (l : LS d K)
    (di : Fin d) : ∃ v, scoreSep X Z C "RBF" l (di.val + 1) = .ok v := by
  obtain ⟨B, h, _⟩ := sepCommon_total hinv X Z l di
  obtain ⟨J, hJ⟩ := hinv M (innerMat C B (mm (tr (rbfK X Z l)) (rbfK X Z l)))
  unfold scoreSep directOut
  rw [h]
  simp only [Except.ok_bind', hJ]
  exact ⟨_, rfl⟩

theorem scoreSepFn_total (hinv : InvTotal K) (X : Mat N d K) (Z : Mat M d K) (C : K) (l : Fin d → K)
    (di : Fin d) (x : Mat n d K) : ∃ v, scoreSepFn X Z C "RBF" (.vec l) (di.val + 1) x = .ok v := by
  obtain ⟨B, h, _⟩ := sepCommon_total hinv X Z (.vec l) di
  obtain ⟨J, hJ⟩ := hinv M (innerMat C B (mm (tr (rbfK X Z (.vec l))) (rbfK X Z (.vec l))))
  unfold scoreSepFn fnOut
  rw [h]
  simp only [Except.ok_bind', hJ, if_pos trivial, rbfKsz, if_neg (show d ≠ 0 by have := di.2; omega),
    dif_pos (le_refl d)]
  exact ⟨_, rfl⟩

theorem seqM_lift_total {α : Type} {f : Fin n → Except PyErr α} (h : ∀ i, ∃ v, f i = .ok v) (r : ρ) :
    ∃ v, seqM n (fun i => (liftM (f i) : RandM ρ α)) r = .ok (v, r) ∧ ∀ i, f i = .ok (v i) := by
  choose v hv using h
  refine ⟨v, ?_, hv⟩
  rw [← liftM_seqM, seqM_except_ok.2 hv]; rfl

/-- All coordinates of the box of `z` and `b` have finite range, and so has the sum of the bounds. -/
def FiniteBox (z b : Mat d N K) : Prop :=
  ∀ bn, interBox z b = .ok bn → plotGuard bn = .ok bn ∧ ∀ a, NumOps.isFinite ((bn a).2 - (bn a).1) = true

theorem densityAt_total (hinv : InvTotal K) (env : Env ρ K) (hN : 0 < N) (z b : Mat d N K)
    (hf : FiniteBox z b) (r : ρ) : ∃ v r', densityAt env M "RBF" z b r = .ok (v, r') := by
  obtain ⟨bn, hb⟩ := interBox_total hN z b
  obtain ⟨S, r1, h1⟩ := npInducing_total (M := M) env bn (hf bn hb).2 r
  obtain ⟨v, h2, _⟩ := seqM_lift_total (ρ := ρ) (fun di : Fin d =>
    scoreSepFn_total hinv (tr z) (tr S) (lit 1 1000) (lengthScales z) di (tr b)) r1
  unfold densityAt
  rw [hb, RandM.liftM_ok, pure_bind, (hf bn hb).1, RandM.liftM_ok, pure_bind]
  exact ⟨v, r1, RandM.bind_ok.2 ⟨S, r1, h1, h2⟩⟩

theorem bwDensityAt_total (hinv : InvTotal K) (env : Env ρ K) (hN : 0 < N) (z b : Mat d N K)
    (hf : FiniteBox z b) (r : ρ) : ∃ v r', bwDensityAt env M "RBF" z b r = .ok (v, r') := by
  obtain ⟨bn, hb⟩ := interBox_total hN z b
  obtain ⟨S, r1, h1⟩ := npInducing_total (M := M) env bn (hf bn hb).2 r
  obtain ⟨v, h2, _⟩ := seqM_lift_total (ρ := ρ) (fun di : Fin d =>
    scoreSep_total hinv (tr b) (tr S) (lit 1 1000) (.vec (lengthScales b)) di) r1
  unfold bwDensityAt
  rw [hb, RandM.liftM_ok, pure_bind]
  exact ⟨v, r1, RandM.bind_ok.2 ⟨S, r1, h1, h2⟩⟩

theorem backStep_total (hinv : InvTotal K) (env : Env ρ K) (hN : 0 < N) (f : Drift d N K) (g : K)
    (det : Bool) (i : ℕ) (zt : Mat d N K × K) (b : Mat d N K) (hf : FiniteBox zt.1 b) (r : ρ) :
    ∃ y r', backStep env (densityAt env M "RBF") (bwDensityAt env M "RBF") f g det i zt b r
      = .ok (y, r') := by
  unfold backStep
  obtain ⟨v, r1, h1⟩ := densityAt_total (M := M) hinv env hN zt.1 b hf r
  rw [RandM.bind_app, h1]
  dsimp only
  split
  · exact ⟨_, _, rfl⟩
  · obtain ⟨w, r2, h2⟩ := bwDensityAt_total (M := M) hinv env hN zt.1 b hf r1
    rw [RandM.bind_app, h2]
    exact ⟨_, _, rfl⟩

/-- A chain that keeps an invariant succeeds. -/
theorem chain_total_keep {τ S : Type} {step : Nat → τ → S → RandM ρ S} {Q : τ → Prop}
    {P : Nat → S → Prop}
    (h : ∀ i t x r, Q t → P i x → ∃ y r', step i t x r = .ok (y, r') ∧ P (i+1) y) :
    ∀ (ts : List τ) (i : Nat) (x : S) (r : ρ), (∀ t ∈ ts, Q t) → P i x →
      ∃ ys r', chain step i ts x r = .ok (ys, r') ∧ ∀ j y, ys[j]? = some y → P (i+1+j) y
  | [], _, _, r, _, _ => ⟨[], r, rfl, fun j y hy => by simp at hy⟩
  | t :: ts, i, x, r, hq, hp => by
    obtain ⟨y, r1, h1, hy⟩ := h i t x r (hq t (by simp)) hp
    obtain ⟨ys, r2, h2, hys⟩ := chain_total_keep h ts (i+1) y r1 (fun t ht => hq t (by simp [ht])) hy
    refine ⟨y :: ys, r2, RandM.bind_ok.2 ⟨y, r1, h1, RandM.bind_ok.2 ⟨ys, r2, h2, rfl⟩⟩, ?_⟩
    intro j w hw
    cases j with
    | zero => simp at hw; subst hw; exact hy
    | succ j =>
      have := hys j w (by simpa using hw)
      rwa [show i + 1 + (j+1) = i + 1 + 1 + j by omega]

end generic

namespace XR

/-- A stand-in for `linalg.inv`. -/
def exInv {m : ℕ} (_ : Mat m m XR) : Except PyErr (Mat m m XR) :=
  .ok fun i j => if i = j then fin 1 else fin 0

/-- Exact arithmetic with special values and this `inv`. -/
@[reducible] noncomputable def exOps : NumOps XR := ops exInv

attribute [local instance] exOps

/-- The rules hold. -/
noncomputable def exIeee : Ieee XR := ieee exInv

theorem invTotal : InvTotal XR := fun _ _ => ⟨_, rfl⟩

/-- finite -/
def F (x : XR) : Prop := ∃ r, x = fin r

theorem F_lit (p : ℤ) (q : ℕ) : F (lit p q) := ⟨_, rfl⟩
theorem F_add {a b : XR} : F a → F b → F (a + b) := by rintro ⟨x, rfl⟩ ⟨y, rfl⟩; exact ⟨_, rfl⟩
theorem F_sub {a b : XR} : F a → F b → F (a - b) := by rintro ⟨x, rfl⟩ ⟨y, rfl⟩; exact ⟨_, rfl⟩
theorem F_mul {a b : XR} : F a → F b → F (a * b) := by rintro ⟨x, rfl⟩ ⟨y, rfl⟩; exact ⟨_, rfl⟩
theorem F_neg {a : XR} : F a → F (-a) := by rintro ⟨x, rfl⟩; exact ⟨_, rfl⟩
theorem F_exp {a : XR} : F a → F (NumOps.exp a) := by rintro ⟨x, rfl⟩; exact ⟨_, rfl⟩

theorem fin_div {a b : ℝ} (h : b ≠ 0) : fin a / fin b = fin (a / b) := by
  change (if b = 0 then _ else fin (a / b)) = _
  rw [if_neg h]

theorem F_div {a : XR} {b : ℝ} (h : b ≠ 0) : F a → F (a / fin b) := by
  rintro ⟨x, rfl⟩; exact ⟨_, fin_div h⟩

theorem sum_lift {n : ℕ} (v : Fin n → ℝ) : NumOps.sum (fun i => fin (v i)) = fin (∑ i, v i) := by
  change Fin.foldl n (fun acc i => acc + fin (v i)) (fin 0) = _
  rw [sum_fin, zero_add]

theorem F_sum {n : ℕ} {v : Fin n → XR} (h : ∀ i, F (v i)) : F (NumOps.sum v) := by
  choose w hw using h
  rw [show v = fun i => fin (w i) from funext hw, sum_lift]
  exact ⟨_, rfl⟩

theorem F_mm {n m p : ℕ} {A : Mat n m XR} {B : Mat m p XR} (hA : ∀ i j, F (A i j)) (hB : ∀ i j, F (B i j))
    (i : Fin n) (j : Fin p) : F (mm A B i j) := F_sum fun k => F_mul (hA i k) (hB k j)

theorem F_mv {n m : ℕ} {A : Mat n m XR} {v : Fin m → XR} (hA : ∀ i j, F (A i j)) (hv : ∀ i, F (v i))
    (i : Fin n) : F (mv A v i) := F_sum fun k => F_mul (hA i k) (hv k)

theorem F_foldl {c : ℕ} {v : Fin c → XR} (h : ∀ i, F (v i)) {a : XR} (ha : F a) (f : XR → XR → XR)
    (hf : ∀ a b, F a → F b → F (f a b)) : F (Fin.foldl c (fun acc i => f acc (v i)) a) := by
  induction c generalizing a with
  | zero => simpa using ha
  | succ c ih =>
    rw [Fin.foldl_succ]
    exact ih (v := fun i => v i.succ) (fun i => h i.succ) (hf _ _ ha (h 0))

theorem F_min2 (a b : XR) : F a → F b → F (min2 a b) := by
  rintro ⟨x, rfl⟩ ⟨y, rfl⟩
  unfold min2
  split
  · rename_i h; cases h
  · rename_i h _; cases h
  · split <;> exact ⟨_, rfl⟩

theorem F_max2 (a b : XR) : F a → F b → F (max2 a b) := by
  rintro ⟨x, rfl⟩ ⟨y, rfl⟩
  unfold max2
  split
  · rename_i h; cases h
  · rename_i h _; cases h
  · split <;> exact ⟨_, rfl⟩

variable {N M d n : ℕ} {ρ : Type}

theorem F_npMin {v : Fin N → XR} {l : XR} (hv : ∀ i, F (v i)) (h : npMin v = .ok l) : F l := by
  cases N with
  | zero => cases h
  | succ N =>
    injection h with h; rw [← h]
    exact F_foldl (v := fun i => v i.succ) (fun i => hv _) (hv 0) min2 F_min2

theorem F_npMax {v : Fin N → XR} {l : XR} (hv : ∀ i, F (v i)) (h : npMax v = .ok l) : F l := by
  cases N with
  | zero => cases h
  | succ N =>
    injection h with h; rw [← h]
    exact F_foldl (v := fun i => v i.succ) (fun i => hv _) (hv 0) max2 F_max2

theorem pyMax_F {a b : XR} (ha : F a) (hb : F b ∨ b = nan) : F (pyMax a b) := by
  rcases hb with hb | hb
  · unfold pyMax; split <;> assumption
  · rw [pyMax_nan_right exIeee hb]; exact ha

theorem pyMin_F {a b : XR} (ha : F a) (hb : F b ∨ b = nan) : F (pyMin a b) := by
  rcases hb with hb | hb
  · unfold pyMin; split <;> assumption
  · rw [pyMin_nan_right exIeee hb]; exact ha

/-- each entry is finite -/
def FM (x : Mat d N XR) : Prop := ∀ a p, F (x a p)

/-- each entry is NaN -/
def NM (x : Mat d N XR) : Prop := ∀ a p, x a p = nan

theorem finiteBox_bounds (hN : 0 < N) {z b : Mat d N XR} (hz : FM z) (hb : FM b ∨ NM b) {bn}
    (h : interBox z b = .ok bn) (a : Fin d) : F (bn a).1 ∧ F (bn a).2 := by
  obtain ⟨zl, bl, zh, bh, e1, e2, e3, e4, he⟩ := interBox_get h a
  have hbl : F bl ∨ bl = nan := hb.imp (fun hb => F_npMin (hb a) e2)
    (fun hb => nan_npMin exIeee e2 ⟨0, hN⟩ (hb a _))
  have hbh : F bh ∨ bh = nan := hb.imp (fun hb => F_npMax (hb a) e4)
    (fun hb => nan_npMax exIeee e4 ⟨0, hN⟩ (hb a _))
  rw [he]
  exact ⟨pyMax_F (F_npMin (hz a) e1) hbl, pyMin_F (F_npMax (hz a) e3) hbh⟩

theorem finiteBox (hN : 0 < N) {z b : Mat d N XR} (hz : FM z) (hb : FM b ∨ NM b) : FiniteBox z b := by
  intro bn h
  refine ⟨plotGuard_finite (.inl ?_), fun a => ?_⟩
  · obtain ⟨y, hy⟩ := F_sum fun a => F_add (finiteBox_bounds hN hz hb h a).1 (finiteBox_bounds hN hz hb h a).2
    rw [hy]; rfl
  obtain ⟨zl, bl, zh, bh, e1, e2, e3, e4, he⟩ := interBox_get h a
  have hbl : F bl ∨ bl = nan := hb.imp (fun hb => F_npMin (hb a) e2)
    (fun hb => nan_npMin exIeee e2 ⟨0, hN⟩ (hb a _))
  have hbh : F bh ∨ bh = nan := hb.imp (fun hb => F_npMax (hb a) e4)
    (fun hb => nan_npMax exIeee e4 ⟨0, hN⟩ (hb a _))
  rw [he]
  obtain ⟨x, hx⟩ := F_sub (pyMin_F (F_npMax (hz a) e3) hbh) (pyMax_F (F_npMin (hz a) e1) hbl)
  dsimp only
  rw [hx]
  rfl

theorem F_npInducing {env : Env ρ XR} (hu : ∀ r, F (env.uniform r).1) {bn : Fin d → XR × XR}
    (hb : ∀ a, F (bn a).1 ∧ F (bn a).2) {S : Mat d M XR} {r r' : ρ}
    (h : npInducing env bn M r = .ok (S, r')) : FM S := by
  intro a m
  obtain ⟨r1, h1⟩ := (npInducing_get h a).2 m
  rw [h1]
  exact F_add (hb a).1 (F_mul (F_sub (hb a).2 (hb a).1) (hu r1))

/-! ### Finite scores -/

theorem npStd_lift (hN : 0 < N) (v : Fin N → ℝ) : npStd (fun i => fin (v i)) = fin (sdev v) := by
  have hN' : ((N : ℤ) : ℝ) / ((1:ℕ) : ℝ) ≠ 0 := by simp; omega
  have e : mean (fun i => fin (v i)) = fin (avg v) := by
    unfold mean
    rw [sum_lift]
    change fin (∑ i, v i) / fin (((N:ℤ):ℝ) / ((1:ℕ):ℝ)) = _
    rw [fin_div hN']
    congr 1
    simp [avg]
  unfold npStd
  rw [e]
  have e2 : (fun i : Fin N => sq (fin (v i) - fin (avg v))) = fun i => fin ((v i - avg v)^2) := by
    funext i
    change fin ((v i + -avg v) * (v i + -avg v)) = _
    congr 1; ring
  rw [e2, sum_lift]
  change NumOps.sqrt (fin _ / fin (((N:ℤ):ℝ) / ((1:ℕ):ℝ))) = _
  rw [fin_div hN']
  change (if _ < 0 then nan else fin (Real.sqrt _)) = _
  rw [if_neg]
  · congr 1
    simp [sdev, variance]
  · push_neg
    simp
    positivity

/-- A finite lengthscale that is not zero. -/
def Pos (l : XR) : Prop := ∃ r : ℝ, r ≠ 0 ∧ l = fin r

theorem F_rbfFactor {x y l : XR} (hx : F x) (hy : F y) (hl : Pos l) : F (rbfFactor x y l) := by
  obtain ⟨r, hr, rfl⟩ := hl
  unfold rbfFactor sq
  refine F_exp ?_
  change F (_ / fin ((((2:ℤ):ℝ) / ((1:ℕ):ℝ)) * r * r))
  refine F_div ?_ (F_neg (F_mul (F_sub hx hy) (F_sub hx hy)))
  simp [hr]

theorem F_rbfK {x : Mat N d XR} {y : Mat M d XR} {l : Fin d → XR} (hx : FM x) (hy : FM y)
    (hl : ∀ a, Pos (l a)) : FM (rbfK x y (.vec l)) := fun i j =>
  F_foldl (v := fun ii => rbfFactor (x i ii) (y j ii) (l ii))
    (fun ii => F_rbfFactor (hx i ii) (hy j ii) (hl ii)) (F_lit 1 1) (· * ·) (fun _ _ => F_mul)

theorem F_rbfGrad {x : Mat N d XR} {y : Mat M d XR} {l : Fin d → XR} (hx : FM x) (hy : FM y)
    (hl : ∀ a, Pos (l a)) (ii : Fin d) : FM (rbfGrad x y ii (.vec l)) := by
  intro i j
  obtain ⟨r, hr, e⟩ := hl ii
  unfold rbfGrad
  dsimp only
  rw [e]
  change F (_ / fin (r * r))
  exact F_div (mul_ne_zero hr hr) (F_mul (F_sub (hx i ii) (hy j ii)) (F_rbfK hx hy hl i j))

theorem F_inv {m : ℕ} {A B : Mat m m XR} (h : NumOps.inv A = .ok B) : FM B := by
  injection h with h
  intro i j
  rw [← h]
  dsimp only
  split <;> exact ⟨_, rfl⟩

theorem F_reduceMul : ∀ {c : ℕ} {v : Fin c → XR}, (∀ i, F (v i)) → F (reduceMul v)
  | 0, _, _ => F_lit 1 1
  | _+1, v, h => F_foldl (v := fun i => v i.succ) (fun i => h _) (h 0) (· * ·) (fun _ _ => F_mul)

theorem F_sumGrad {G : Mat N M XR} (h : FM G) (m : Fin M) : F (sumGrad G m) :=
  F_sum fun i => F_neg (h i m)

theorem F_scoreSep {X : Mat N d XR} {Z : Mat M d XR} {C : XR} {l : Fin d → XR} (hX : FM X) (hZ : FM Z)
    (hl : ∀ a, Pos (l a)) {di : Fin d} {v : Fin N → XR}
    (h : scoreSep X Z C "RBF" (.vec l) (di.val + 1) = .ok v) (i : Fin N) : F (v i) := by
  obtain ⟨B, h1, hB⟩ := sepCommon_total invTotal X Z (.vec l) di
  unfold scoreSep directOut at h
  rw [h1] at h
  simp only [Except.ok_bind'] at h
  obtain ⟨J, hJ, h⟩ := Except.bind_ok.1 h
  injection h with h
  subst h
  exact F_mv (F_mm (F_mm (fun i j => F_neg (F_rbfK hX hZ hl i j)) (F_inv hJ)) (F_inv hB))
    (F_sumGrad (F_rbfGrad hX hZ hl di)) i

theorem F_scoreSepFn {X : Mat N d XR} {Z : Mat M d XR} {C : XR} {l : Fin d → XR} (hX : FM X) (hZ : FM Z)
    (hl : ∀ a, Pos (l a)) {di : Fin d} {x : Mat n d XR} (hx : FM x) {v : Fin n → XR}
    (h : scoreSepFn X Z C "RBF" (.vec l) (di.val + 1) x = .ok v) (i : Fin n) : F (v i) := by
  obtain ⟨B, h1, hB⟩ := sepCommon_total invTotal X Z (.vec l) di
  unfold scoreSepFn fnOut at h
  rw [h1] at h
  simp only [Except.ok_bind', if_pos trivial, rbfKsz, if_neg (show d ≠ 0 by have := di.2; omega),
    dif_pos (le_refl d)] at h
  obtain ⟨J, hJ, h⟩ := Except.bind_ok.1 h
  injection h with h
  subst h
  refine F_mv (F_mm (F_mm (fun i j => ?_) (fun i j => F_neg (F_inv hJ i j))) (F_inv hB))
    (F_sumGrad (F_rbfGrad hX hZ hl di)) i
  exact F_reduceMul fun iii => F_rbfFactor (hx i iii) (hZ j iii) (hl iii)

end XR
end DPFC
