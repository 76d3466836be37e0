import Verif.Lib.Steps
import Verif.Lib.TorchFlow
import Verif.Spec.Ieee

/-! NaN and zero spread through the estimators and the backward step, for any arithmetic obeying the
rules of `Spec.Ieee`. -/

set_option linter.unusedSectionVars false

namespace DPFC
open Spec
section
variable {K ρ : Type} [Add K] [Sub K] [Mul K] [Div K] [Neg K] [NumOps K]
variable {N M d n c : Nat} (I : Ieee K)

theorem nan_foldl_acc : ∀ {c : Nat} (v : Fin c → K) (a : K), I.nan a →
    I.nan (Fin.foldl c (fun acc i => acc * v i) a)
  | 0, v, a, h => by simpa using h
  | c+1, v, a, h => by
    rw [Fin.foldl_succ]
    exact nan_foldl_acc (fun i => v i.succ) _ (I.nan_mul_left h)

theorem nan_foldl_mul : ∀ {c : Nat} (v : Fin c → K) (a : K) (i : Fin c), I.nan (v i) →
    I.nan (Fin.foldl c (fun acc i => acc * v i) a)
  | 0, v, a, i, h => i.elim0
  | c+1, v, a, i, h => by
    rw [Fin.foldl_succ]
    cases i using Fin.cases with
    | zero => exact nan_foldl_acc I (fun i => v i.succ) _ (I.nan_mul_right h)
    | succ i => exact nan_foldl_mul (fun i => v i.succ) _ i h

theorem nan_reduceMul : ∀ {c : Nat} (v : Fin c → K) (i : Fin c), I.nan (v i) → I.nan (reduceMul v)
  | 0, v, i, h => i.elim0
  | c+1, v, i, h => by
    unfold reduceMul
    cases i using Fin.cases with
    | zero => exact nan_foldl_acc I (fun i => v i.succ) _ h
    | succ i => exact nan_foldl_mul I (fun i => v i.succ) _ i h

theorem nan_sq {a : K} (h : I.nan a) : I.nan (sq a) := I.nan_mul_left h

theorem nan_mm_row {p : Nat} {A : Mat n M K} {B : Mat M p K} {i : Fin n} (k : Fin M)
    (h : I.nan (A i k)) (j : Fin p) : I.nan (mm A B i j) :=
  I.nan_sum k (I.nan_mul_left h)

theorem nan_mv_row {A : Mat n M K} {v : Fin M → K} {i : Fin n} (k : Fin M)
    (h : I.nan (A i k)) : I.nan (mv A v i) :=
  I.nan_sum k (I.nan_mul_left h)

theorem nan_mean {v : Fin n → K} (i : Fin n) (h : I.nan (v i)) : I.nan (mean v) :=
  I.nan_div_left (I.nan_sum i h)

theorem nan_npStd {v : Fin n → K} (i : Fin n) (h : I.nan (v i)) : I.nan (npStd v) :=
  I.nan_sqrt (I.nan_div_left (I.nan_sum i (nan_sq I (I.nan_sub_left h))))

theorem nan_torchStd {v : Fin n → K} (i : Fin n) (h : I.nan (v i)) : I.nan (torchStd v) :=
  I.nan_sqrt (I.nan_div_left (I.nan_sum i (nan_sq I (I.nan_sub_left h))))

theorem zero_sq {a : K} (h : I.zero a) : I.zero (sq a) := I.zero_mul h (I.zero_fin h)

theorem zero_npStd {y : K} (hy : I.fin y) (hn : 0 < n) (h : ExactMean n y) :
    I.zero (npStd fun _ : Fin n => y) := by
  unfold npStd mean
  have e : NumOps.sum (fun _ : Fin n => y) / lit (n : Int) 1 = y := h
  rw [e]
  exact I.zero_sqrt (I.zero_div (I.zero_sum fun _ => zero_sq I (I.sub_self hy)) (by omega))

theorem zero_or_nan_torchStd {y : K} (hy : I.fin y) (hn : 0 < n) (h : ExactMean n y) :
    I.zero (torchStd fun _ : Fin n => y) ∨ I.nan (torchStd fun _ : Fin n => y) := by
  unfold torchStd mean
  have e : NumOps.sum (fun _ : Fin n => y) / lit (n : Int) 1 = y := h
  rw [e]
  have z : I.zero (NumOps.sum fun _ : Fin n => sq (y - y)) :=
    I.zero_sum fun _ => zero_sq I (I.sub_self hy)
  by_cases h1 : n = 1
  · right
    refine I.nan_sqrt ?_
    have : ((n : Int) - 1) = 0 := by omega
    rw [this]
    exact I.zero_div_zero z I.lit_zero
  · left
    exact I.zero_sqrt (I.zero_div z (by omega))

theorem nan_rbfFactor_x {x y l : K} (h : I.nan x) : I.nan (rbfFactor x y l) :=
  I.nan_exp (I.nan_div_left (I.nan_neg (nan_sq I (I.nan_sub_left h))))

theorem nan_rbfFactor_l {x y l : K} (h : I.nan l) : I.nan (rbfFactor x y l) :=
  I.nan_exp (I.nan_div_right (I.nan_mul_right h))

theorem nan_rbfFactor_zero {x y l : K} (h : I.zero (x - y)) (hl : I.zero l) :
    I.nan (rbfFactor x y l) :=
  I.nan_exp (I.zero_div_zero (I.zero_neg (zero_sq I h))
    (I.zero_mul (I.mul_zero I.lit_two hl) (I.zero_fin hl)))

theorem nan_rbfK_l {x : Mat N d K} {y : Mat M d K} {l : Fin d → K} (k : Fin d) (h : I.nan (l k))
    (i : Fin N) (j : Fin M) : I.nan (rbfK x y (.vec l) i j) :=
  nan_foldl_mul I (fun ii => rbfFactor (x i ii) (y j ii) (l ii)) _ k (nan_rbfFactor_l I h)

theorem nan_fnOut {C : K} {p : ScorePre N M K} {g : Fin M → K} {Ksz : Mat n M K} {v : Fin n → K}
    (hM : 0 < M) (h : fnOut C p g Ksz = .ok v) (i : Fin n) (hi : ∀ m, I.nan (Ksz i m)) :
    I.nan (v i) := by
  unfold fnOut at h
  obtain ⟨J, _, h⟩ := Except.bind_ok.1 h
  injection h with h
  subst h
  exact nan_mv_row I ⟨0, hM⟩ (nan_mm_row I ⟨0, hM⟩ (nan_mm_row I ⟨0, hM⟩ (hi _) _) _)

theorem nan_directOut {C : K} {p : ScorePre N M K} {g : Fin M → K} {v : Fin N → K}
    (hM : 0 < M) (h : directOut C p g = .ok v) (i : Fin N) (hi : ∀ m, I.nan (p.Kxz i m)) :
    I.nan (v i) := by
  unfold directOut at h
  obtain ⟨J, _, h⟩ := Except.bind_ok.1 h
  injection h with h
  subst h
  exact nan_mv_row I ⟨0, hM⟩ (nan_mm_row I ⟨0, hM⟩ (nan_mm_row I ⟨0, hM⟩ (I.nan_neg (hi _)) _) _)

theorem effKern_ne_periodic (kern : String) : effKern kern ≠ "periodic" := by
  unfold effKern
  split <;> simp_all

theorem sepCommon_rbf {X : Mat N d K} {Z : Mat M d K} {kern : String} {l : LS d K} {w : Int} {p g}
    (hk : kern ≠ "periodic") (h : sepCommon X Z kern l w = .ok (p, g)) :
    kern = "RBF" ∧ p.Kxz = rbfK X Z l := by
  unfold sepCommon at h
  by_cases hr : kern = "RBF"
  · rw [if_pos hr] at h
    obtain ⟨q, h1, h⟩ := Except.bind_ok.1 h
    obtain ⟨ii, _, h⟩ := Except.bind_ok.1 h
    split at h
    · injection h with h
      injection h with h2 _
      subst h2
      unfold scorePre at h1
      obtain ⟨_, _, h1⟩ := Except.bind_ok.1 h1
      injection h1 with h1
      exact ⟨hr, by rw [← h1]⟩
    · cases h
  · rw [if_neg hr, if_neg hk] at h; cases h

/-- The function form of the estimate is NaN at every point whose kernel values with all inducing points
are NaN. -/
theorem nan_scoreSepFn {X : Mat N d K} {Z : Mat M d K} {C : K} {kern : String} {l : Fin d → K} {w : Int}
    {x : Mat n d K} {v : Fin n → K} (hM : 0 < M) (hk : kern ≠ "periodic")
    (h : scoreSepFn X Z C kern (.vec l) w x = .ok v) (i : Fin n)
    (hi : ∀ m, ∃ a, I.nan (rbfFactor (x i a) (Z m a) (l a))) : I.nan (v i) := by
  unfold scoreSepFn at h
  obtain ⟨⟨p, g⟩, h1, h⟩ := Except.bind_ok.1 h
  obtain ⟨rfl, hp⟩ := sepCommon_rbf hk h1
  obtain ⟨ksz, h2, h⟩ := Except.bind_ok.1 h
  unfold rbfKsz at h2
  dsimp only at h2
  split at h2
  · cases h2
  · rw [dif_pos (le_refl d)] at h2
    injection h2 with h2
    subst h2
    refine nan_fnOut I hM h i fun m => ?_
    obtain ⟨a, ha⟩ := hi m
    exact nan_reduceMul I (fun iii : Fin d => rbfFactor (x i iii) (Z m (Fin.castLE (le_refl d) iii))
      (l (Fin.castLE (le_refl d) iii))) a ha

theorem nan_scoreSep {X : Mat N d K} {Z : Mat M d K} {C : K} {kern : String} {l : Fin d → K} {w : Int}
    {v : Fin N → K} (hM : 0 < M) (hk : kern ≠ "periodic")
    (h : scoreSep X Z C kern (.vec l) w = .ok v) (a : Fin d) (ha : I.nan (l a)) (i : Fin N) :
    I.nan (v i) := by
  unfold scoreSep at h
  obtain ⟨⟨p, g⟩, h1, h2⟩ := Except.bind_ok.1 h
  obtain ⟨_, hp⟩ := sepCommon_rbf hk h1
  exact nan_directOut I hM h2 i fun m => by rw [hp]; exact nan_rbfK_l I a ha i m

theorem seqM_lift_ok {α : Type} {f : Fin n → Except PyErr α} {v : Fin n → α} {r r' : ρ}
    (h : seqM n (fun i => (liftM (f i) : RandM ρ α)) r = .ok (v, r')) (i : Fin n) : f i = .ok (v i) := by
  rw [← liftM_seqM] at h
  exact seqM_except_ok.1 (RandM.lift_ok.1 h).1 i

/-- Parts of a successful density estimate. -/
theorem densityAt_parts {env : Env ρ K} {kern : String} {z b v : Mat d N K} {r r' : ρ}
    (h : densityAt env M kern z b r = .ok (v, r')) :
    ∃ bnds S r1, interBox z b = .ok bnds ∧ npInducing env bnds M r = .ok (S, r1) ∧
      ∀ di : Fin d, scoreSepFn (tr z) (tr S) (lit 1 1000) kern (.vec (lengthScales z)) (di.val + 1) (tr b)
        = .ok (v di) := by
  unfold densityAt at h
  obtain ⟨bnds, r0, h0, h⟩ := RandM.bind_ok.1 h
  obtain ⟨h0', rfl⟩ := RandM.lift_ok.1 h0
  obtain ⟨bnds', r0, h0g, h⟩ := RandM.bind_ok.1 h
  obtain ⟨h0g', rfl⟩ := RandM.lift_ok.1 h0g
  have hbb := plotGuard_ok h0g'
  rw [hbb] at h
  obtain ⟨S, r1, h1, h⟩ := RandM.bind_ok.1 h
  replace h0 := h0'
  exact ⟨bnds, S, r1, h0, h1, fun di => seqM_lift_ok h di⟩

theorem nan_densityAt {env : Env ρ K} {kern : String} {z b v : Mat d N K} {r r' : ρ} (hM : 0 < M)
    (hk : kern ≠ "periodic") (h : densityAt env M kern z b r = .ok (v, r')) (p : Fin N) (a : Fin d)
    (ha : I.nan (b a p)) (a' : Fin d) : I.nan (v a' p) := by
  obtain ⟨_, S, _, _, _, hs⟩ := densityAt_parts h
  exact nan_scoreSepFn I hM hk (hs a') p fun m => ⟨a, nan_rbfFactor_x I ha⟩

theorem nan_bwDensityAt {env : Env ρ K} {kern : String} {z b v : Mat d N K} {r r' : ρ} (hM : 0 < M)
    (hk : kern ≠ "periodic") (h : bwDensityAt env M kern z b r = .ok (v, r')) (p : Fin N) (a : Fin d)
    (ha : I.nan (b a p)) (a' : Fin d) (p' : Fin N) : I.nan (v a' p') := by
  unfold bwDensityAt at h
  obtain ⟨bnds, r0, h0, h⟩ := RandM.bind_ok.1 h
  obtain ⟨S, r1, h1, h⟩ := RandM.bind_ok.1 h
  exact nan_scoreSep I hM hk (seqM_lift_ok h a') a (I.nan_mul_right (nan_npStd I p ha)) p'

/-! ### Torch -/

theorem torchCommon_parts {X : Mat N d K} {Z : Mat M d K} {l : Fin d → K} {ls p g}
    (h : torchCommon X Z (.tensor l) = .ok (ls, p, g)) :
    (TLS.tensor l).classify = .ok ls ∧ p.Kxz = fun i j => lit 1 1 * torchKern ls (X i) (Z j) := by
  unfold torchCommon at h
  obtain ⟨ls', h1, h⟩ := Except.bind_ok.1 h
  dsimp only at h
  obtain ⟨_, _, h⟩ := Except.bind_ok.1 h
  obtain ⟨_, _, h⟩ := Except.bind_ok.1 h
  injection h with h
  injection h with h2 h3
  injection h3 with h3 _
  subst h2; subst h3
  exact ⟨h1, rfl⟩

theorem nan_torchScoreFn {X : Mat N d K} {Z : Mat M d K} {C : K} {kern : String} {l : Fin d → K}
    {x : Mat n d K} {v : Mat n d K} (hM : 0 < M)
    (h : torchScoreFn X Z (.tensor l) C kern (.tensor x) = .ok v) (i : Fin n) (a : Fin d)
    (ha : I.nan (x i a)) (a' : Fin d) : I.nan (v i a') := by
  unfold torchScoreFn at h
  obtain ⟨⟨ls, p, g⟩, h1, h⟩ := Except.bind_ok.1 h
  obtain ⟨ksz, h2, h⟩ := Except.bind_ok.1 h
  obtain ⟨J, _, h⟩ := Except.bind_ok.1 h
  injection h with h
  subst h
  refine nan_mm_row I ⟨0, hM⟩ (nan_mm_row I ⟨0, hM⟩ (nan_mm_row I ⟨0, hM⟩ ?_ _) _) _
  unfold torchKsz at h2
  split at h2
  · cases ls with
    | scalar s => cases h2
    | vec w =>
      dsimp only at h2
      rw [dif_pos (Or.inl rfl)] at h2
      injection h2 with h2
      subst h2
      refine I.nan_exp (I.nan_mul_right (I.nan_sum a (I.nan_div_left (nan_sq I (I.nan_sub_left ?_)))))
      rw [dif_pos rfl]
      exact ha
  · cases h2

theorem nan_torchScore {X : Mat N d K} {Z : Mat M d K} {C : K} {kern : String} {l : Fin d → K}
    {v : Mat N d K} (hM : 0 < M) (h : torchScore X Z (.tensor l) C kern = .ok v) (a : Fin d)
    (ha : I.nan (l a)) (i : Fin N) (a' : Fin d) : I.nan (v i a') := by
  unfold torchScore at h
  obtain ⟨⟨ls, p, g⟩, h1, h⟩ := Except.bind_ok.1 h
  obtain ⟨cols, h2, h⟩ := Except.bind_ok.1 h
  injection h with h
  subst h
  obtain ⟨hl, hp⟩ := torchCommon_parts h1
  refine nan_directOut I hM (seqM_except_ok.1 h2 a') i fun m => ?_
  rw [hp]
  refine I.nan_mul_right ?_
  unfold TLS.classify at hl
  dsimp only at hl
  split at hl
  · injection hl with hl; subst hl
    exact I.nan_exp (I.nan_mul_right (I.nan_sum a (I.nan_div_right (nan_sq I ha))))
  · split at hl
    · rename_i h1 hd1
      injection hl with hl; subst hl
      have : (⟨0, by omega⟩ : Fin d) = a := by ext; simp; omega
      rw [this]
      exact I.nan_exp (I.nan_mul_right (I.nan_div_right (nan_sq I ha)))
    · cases hl

theorem nan_torchDensityAt {env : Env ρ K} {kern : String} {z b v : Mat d N K} {r r' : ρ} (hM : 0 < M)
    (h : torchDensityAt env M kern z b r = .ok (v, r')) (p : Fin N) (a : Fin d)
    (ha : I.nan (b a p)) (a' : Fin d) : I.nan (v a' p) := by
  unfold torchDensityAt at h
  obtain ⟨bnds, r0, h0, h⟩ := RandM.bind_ok.1 h
  obtain ⟨S, r1, h1, h⟩ := RandM.bind_ok.1 h
  obtain ⟨s, r2, h2, h⟩ := RandM.bind_ok.1 h
  obtain ⟨rfl, _⟩ := RandM.pure_ok.1 h
  exact nan_torchScoreFn I hM (RandM.lift_ok.1 h2).1 p a ha a'

theorem nan_torchBwDensityAt {env : Env ρ K} {kern : String} {z b v : Mat d N K} {r r' : ρ} (hM : 0 < M)
    (h : torchBwDensityAt env M kern z b r = .ok (v, r')) (p : Fin N) (a : Fin d)
    (ha : I.nan (b a p)) (a' : Fin d) (p' : Fin N) : I.nan (v a' p') := by
  unfold torchBwDensityAt at h
  obtain ⟨bnds, r0, h0, h⟩ := RandM.bind_ok.1 h
  obtain ⟨S, r1, h1, h⟩ := RandM.bind_ok.1 h
  obtain ⟨s, r2, h2, h⟩ := RandM.bind_ok.1 h
  obtain ⟨rfl, _⟩ := RandM.pure_ok.1 h
  exact nan_torchScore I hM (RandM.lift_ok.1 h2).1 a (I.nan_mul_right (nan_torchStd I p ha)) p' a'

/-! ### The backward step -/

section
variable {env : Env ρ K} {dens bw : Mat d N K → Mat d N K → RandM ρ (Mat d N K)} {f : Drift d N K} {g : K}
  {det : Bool} {ti : Nat} {zt : Mat d N K × K} {b y : Mat d N K} {r r' : ρ}

/-- A NaN in the score of the forward flow makes the new value NaN. -/
theorem nan_backStep {a : Fin d} {p : Fin N}
    (hdens : ∀ v r r', dens zt.1 b r = .ok (v, r') → I.nan (v a p))
    (h : backStep env dens bw f g det ti zt b r = .ok (y, r')) : I.nan (y a p) := by
  unfold backStep at h
  obtain ⟨gro, r1, h1, h⟩ := RandM.bind_ok.1 h
  have hn := hdens _ _ _ h1
  split at h
  · obtain ⟨xi, r2, _, h⟩ := RandM.bind_ok.1 h
    obtain ⟨rfl, _⟩ := RandM.pure_ok.1 h
    exact I.nan_add_left (I.nan_add_right (I.nan_mul_right hn))
  · obtain ⟨grb, r2, _, h⟩ := RandM.bind_ok.1 h
    obtain ⟨rfl, _⟩ := RandM.pure_ok.1 h
    exact I.nan_sub_right (I.nan_mul_left (I.nan_add_left (I.nan_sub_right (I.nan_mul_right hn))))

/-- In a deterministic step a NaN in the score of the backward flow makes the new value NaN. -/
theorem nan_backStep_bw {a : Fin d} {p : Fin N} (hti : ti ≠ 1)
    (hbw : ∀ v r r', bw zt.1 b r = .ok (v, r') → I.nan (v a p))
    (h : backStep env dens bw f g true ti zt b r = .ok (y, r')) : I.nan (y a p) := by
  unfold backStep at h
  obtain ⟨gro, r1, h1, h⟩ := RandM.bind_ok.1 h
  rw [if_neg (by simp [hti])] at h
  obtain ⟨grb, r2, h2, h⟩ := RandM.bind_ok.1 h
  have hn := hbw _ _ _ h2
  obtain ⟨rfl, _⟩ := RandM.pure_ok.1 h
  exact I.nan_sub_right (I.nan_mul_left (I.nan_add_right (I.nan_mul_right hn)))

end

end
end DPFC
