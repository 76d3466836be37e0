import Verif.Lib.Hard
import Verif.Lib.Obj
import Verif.Lib.Lift
import Verif.Lib.GridReal

/-!
# Property C109: hard path constraints

`ottoReweight`, `stochReweight` and `torchReweight` are the reweighting steps of the numpy class in deterministic
and in stochastic mode and of the torch class; the scalars are the reals with infinities and NaN.
-/

namespace DPFC
open Spec
variable {ρ : Type} {d N M : ℕ}

namespace Hard
attribute [local instance] XR.xops

/-- **C109** (numpy, deterministic). If the constraint is minus infinity exactly off the non-empty set `A` of
particles, the reweighted cloud consists of numbers, its mean is the weighted mean of the allowed particles and it
lies in their convex hull: forbidden particles have no influence at all. -/
theorem C109_deterministic (env : Env ρ XR) (hs : SolverCouplesX env) (U : Constraint d N XR)
    (X : Fin d → Fin N → ℝ) (t : XR) (A : Finset (Fin N)) (hA : A.Nonempty) (v : Fin N → ℝ)
    (hU : Forbids A v (U.call2 (cloudOf X) t)) (y : Mat d N XR)
    (h : ottoReweight env (some U) (cloudOf X) t = .ok y) :
    HardResult A (fun n => v n * (1/1000)) X y := by
  obtain ⟨P, hP, rfl⟩ := otto_hard_ok env hs U X t A hA v hU y h
  exact hard_result hA _ X hP

/-- **C109** (numpy, stochastic). The same with weights `exp(U)`. -/
theorem C109_stochastic (env : Env ρ XR) (hs : SolverCouplesX env) (U : Constraint d N XR)
    (u : Mat d N XR → Fin N → XR) (hu : U.call1 = some u)
    (X : Fin d → Fin N → ℝ) (A : Finset (Fin N)) (hA : A.Nonempty) (v : Fin N → ℝ)
    (hU : Forbids A v (u (cloudOf X))) (y : Mat d N XR)
    (h : stochReweight env (some U) (cloudOf X) = .ok y) : HardResult A v X y := by
  obtain ⟨P, hP, rfl⟩ := stoch_hard_ok env hs U u hu X A hA v hU y h
  exact hard_result hA _ X hP

/-- **C109** (torch). The same for the log-weights `u` of the torch class, unless all particles coincide. -/
theorem C109_torch (env : Env ρ XR) (hs : SolverCouplesX env) (X : Fin d → Fin N → ℝ)
    (hX : ∃ i j, sqdist X i j ≠ 0) (u : Fin N → XR) (A : Finset (Fin N)) (hA : A.Nonempty) (v : Fin N → ℝ)
    (hU : Forbids A v u) (y : Mat d N XR)
    (h : torchReweight env (cloudOf X) (fun n => NumOps.exp (u n)) = .ok y) : HardResult A v X y := by
  obtain ⟨P, hP, rfl⟩ := torch_hard_ok env hs X hX u A hA v hU y h
  exact hard_result hA _ X hP

/-! ### convex walls -/

/-- `i`-th step of the deterministic flow before reweighting: `x` is what the step makes of slice `z`. -/
def MovedTo (env : Env ρ XR) (c : Cfg d N M XR) (i : ℕ) (t : XR) (z x : Mat d N XR) : Prop :=
  ∃ r r' : ρ, (if i = 1 then noisyStep env c.g c.f z (t - dtc)
    else ottoStep true env M (effKern c.kern) c.g c.f z (t - dtc)) r = .ok (x, r')

/-- **C109** (whole run, convex walls). Let the constraint be a number inside the convex set `S` and minus infinity
outside. In a deterministic construction with reweighting, whenever the step from slice `i-1` gives a cloud of
numbers with at least one particle in `S`, all particles of the stored slice `i` are in `S`. -/
theorem C109_convex_wall (env : Env ρ XR) (hs : SolverCouplesX env) (c : Cfg d N M XR)
    (hdet : c.deterministic = true) (hrw : c.reweight = true) (U : Constraint d N XR) (hU : c.U = some U)
    (S : Set (Fin d → ℝ)) (hS : Convex ℝ S)
    (hin : ∀ X t n, particle X n ∈ S → ∃ v, U.call2 (cloudOf X) t n = .fin v)
    (hout : ∀ X t n, particle X n ∉ S → U.call2 (cloudOf X) t n = .ninf)
    (r r' : ρ) (o : Obj d N M XR) (h : construct env c r = .ok (o, r'))
    (i : ℕ) (t : XR) (z z' : Mat d N XR) (ht : o.timegrid[i+1]? = some t) (hz : o.Z[i]? = some z)
    (hz' : o.Z[i+1]? = some z') :
    ∃ x, MovedTo env c (i+1) t z x ∧ ∀ X, x = cloudOf X → (∃ n, particle X n ∈ S) →
      ∃ Y, z' = cloudOf Y ∧ ∀ n, particle Y n ∈ S := by
  classical
  have hk : 2 ≤ (mkGrid c.t1 c.t2).length := by
    have hg : o.timegrid = mkGrid c.t1 c.t2 := (construct_fields h).2
    rw [hg] at ht
    have := (List.getElem?_eq_some_iff.1 ht).1
    omega
  obtain ⟨ys, r1, zt, r2, bs, h1, _, _, rfl⟩ := (construct_det_iff env c hdet hk r r' o).1 h
  obtain ⟨hl, rs, _, _, hstep⟩ := chain_ok_iff.1 h1
  have hst := hstep i t z z' (by simpa using ht) hz hz'
  obtain ⟨x, r3, hx, hy⟩ := RandM.bind_ok.1 ((congrFun (ottoSlice_bind env c (1+i) t z) (rs i)).symm.trans hst)
  simp only [if_pos hrw] at hy
  have hy' : ottoReweight env c.U x t = .ok z' := (RandM.lift_ok.1 hy).1
  refine ⟨x, ⟨rs i, r3, by rwa [Nat.add_comm i 1]⟩, ?_⟩
  rintro X rfl ⟨n0, hn0⟩
  rw [hU] at hy'
  choose v hv using fun n (hn : particle X n ∈ S) => hin X t n hn
  obtain ⟨Y, hY, _, hc⟩ := C109_deterministic env hs U X t (Finset.univ.filter fun n => particle X n ∈ S)
    ⟨n0, by simpa using hn0⟩ (fun n => if hn : particle X n ∈ S then v n hn else 0)
    ⟨fun n hn => by
      have hn' : particle X n ∈ S := by simpa using hn
      simp only [dif_pos hn']; exact hv n hn',
     fun n hn => hout X t n (by simpa using hn)⟩ z' hy'
  exact ⟨Y, hY, hc S hS fun m hm => by simpa using hm⟩

/-! ### gaps -/

/-- **C109** (forbidden gaps). The allowed region need not be convex, and then it is not kept: let all allowed
particles sit at `p` (those in `L`) or at `q`. Unless the weights are such that the share of `p` is a whole number
of particles, some new particle lies strictly between `p` and `q`, whatever plan the solver returns; numpy
deterministic and stochastic mode, and torch. -/
theorem C109_gap (env : Env ρ XR) (hs : SolverCouplesX env) (X : Fin d → Fin N → ℝ)
    (A L : Finset (Fin N)) (hA : A.Nonempty) (v : Fin N → ℝ) (p q : Fin d → ℝ)
    (hL : L ⊆ A) (hp : ∀ m ∈ L, particle X m = p) (hq : ∀ m ∈ A, m ∉ L → particle X m = q) :
    (∀ (U : Constraint d N XR) (t : XR) (y : Mat d N XR), Forbids A v (U.call2 (cloudOf X) t) →
      ottoReweight env (some U) (cloudOf X) t = .ok y →
      (∀ k : ℕ, (∑ n ∈ L, Real.exp (v n * (1/1000))) * N ≠ k * ∑ n ∈ A, Real.exp (v n * (1/1000))) →
      ∃ Y n, y = cloudOf Y ∧ particle Y n ∈ openSegment ℝ p q) ∧
    ((∀ k : ℕ, (∑ n ∈ L, Real.exp (v n)) * N ≠ k * ∑ n ∈ A, Real.exp (v n)) →
      (∀ (U : Constraint d N XR) (u : Mat d N XR → Fin N → XR) (y : Mat d N XR), U.call1 = some u →
        Forbids A v (u (cloudOf X)) → stochReweight env (some U) (cloudOf X) = .ok y →
        ∃ Y n, y = cloudOf Y ∧ particle Y n ∈ openSegment ℝ p q) ∧
      ∀ (u : Fin N → XR) (y : Mat d N XR), Forbids A v u → (∃ i j, sqdist X i j ≠ 0) →
        torchReweight env (cloudOf X) (fun n => NumOps.exp (u n)) = .ok y →
        ∃ Y n, y = cloudOf Y ∧ particle Y n ∈ openSegment ℝ p q) := by
  refine ⟨fun U t y hU h hw => ?_, fun hw => ⟨fun U u y hu hU h => ?_, fun u y hU hX h => ?_⟩⟩
  · obtain ⟨P, hP, rfl⟩ := otto_hard_ok env hs U X t A hA v hU y h
    obtain ⟨n, hn⟩ := hard_gap hA _ X hP p q L hL hp hq hw
    exact ⟨_, n, rfl, hn⟩
  · obtain ⟨P, hP, rfl⟩ := stoch_hard_ok env hs U u hu X A hA v hU y h
    obtain ⟨n, hn⟩ := hard_gap hA _ X hP p q L hL hp hq hw
    exact ⟨_, n, rfl, hn⟩
  · obtain ⟨P, hP, rfl⟩ := torch_hard_ok env hs X hX u A hA v hU y h
    obtain ⟨n, hn⟩ := hard_gap hA _ X hP p q L hL hp hq hw
    exact ⟨_, n, rfl, hn⟩

/-- Three particles on a line at -1, 0 and 1. -/
def threeX : Fin 1 → Fin 3 → ℝ := fun _ n => (n.val : ℝ) - 1

/-- **C109** (a forbidden particle can stay). Three particles at -1, 0 and 1, the middle one forbidden, the others
equally good: every optimal solver leaves all three where they are, so the middle one stays on the forbidden
position. -/
theorem C109_forbidden_stays (env : Env ρ XR) (hs : SolverOptimalX env) (U : Constraint 1 3 XR) (t : XR)
    (hU : Forbids {0, 2} (fun _ => 0) (U.call2 (cloudOf threeX) t)) :
    ottoReweight env (some U) (cloudOf threeX) t = .ok (cloudOf threeX) := by
  have hA : ({0, 2} : Finset (Fin 3)).Nonempty := ⟨0, by simp⟩
  obtain ⟨P, h1, hP, hmin⟩ := hs 3 (hardW {0, 2} fun _ => 0 * (1/1000)) (fun _ => 1 / ((3:ℕ):ℝ)) (pdist threeX)
    (hardW_prob hA _) (uniform_prob (by norm_num)) fun i j => Real.sqrt_nonneg _
  have hW0 : hardW ({0, 2} : Finset (Fin 3)) (fun _ => 0 * (1/1000)) 0 = 1/2 := by
    simp [hardW]
  have hW1 : hardW ({0, 2} : Finset (Fin 3)) (fun _ => 0 * (1/1000)) 1 = 0 := by
    simp [hardW]
  have hW2 : hardW ({0, 2} : Finset (Fin 3)) (fun _ => 0 * (1/1000)) 2 = 1/2 := by
    simp [hardW]
  have hD : ∀ i j : Fin 3, pdist threeX i j = |(i.val : ℝ) - j.val| := by
    intro i j
    simp only [pdist, threeX, Finset.univ_unique, Finset.sum_singleton]
    rw [Real.sqrt_sq_eq_abs]; congr 1; ring
  let Q : Fin 3 → Fin 3 → ℝ := ![![1/3, 1/6, 0], ![0, 0, 0], ![0, 1/6, 1/3]]
  have q00 : Q 0 0 = 1/3 := rfl
  have q01 : Q 0 1 = 1/6 := rfl
  have q02 : Q 0 2 = 0 := rfl
  have q10 : Q 1 0 = 0 := rfl
  have q11 : Q 1 1 = 0 := rfl
  have q12 : Q 1 2 = 0 := rfl
  have q20 : Q 2 0 = 0 := rfl
  have q21 : Q 2 1 = 1/6 := rfl
  have q22 : Q 2 2 = 1/3 := rfl
  have d00 : pdist threeX 0 0 = 0 := by rw [hD]; norm_num
  have d01 : pdist threeX 0 1 = 1 := by rw [hD]; norm_num
  have d02 : pdist threeX 0 2 = 2 := by rw [hD]; norm_num
  have d10 : pdist threeX 1 0 = 1 := by rw [hD]; norm_num
  have d11 : pdist threeX 1 1 = 0 := by rw [hD]; norm_num
  have d12 : pdist threeX 1 2 = 1 := by rw [hD]; norm_num
  have d20 : pdist threeX 2 0 = 2 := by rw [hD]; norm_num
  have d21 : pdist threeX 2 1 = 1 := by rw [hD]; norm_num
  have d22 : pdist threeX 2 2 = 0 := by rw [hD]; norm_num
  have hQ : IsCoupling (hardW ({0, 2} : Finset (Fin 3)) fun _ => 0 * (1/1000)) (fun _ => 1 / ((3:ℕ):ℝ)) Q := by
    refine ⟨fun i j => ?_, fun i => ?_, fun j => ?_⟩
    · fin_cases i <;> fin_cases j <;> norm_num [Q]
    · fin_cases i
      · refine Eq.trans ?_ hW0.symm
        change ∑ j, Q 0 j = _
        rw [Fin.sum_univ_three]; norm_num [q00, q01, q02, q10, q11, q12, q20, q21, q22]
      · refine Eq.trans ?_ hW1.symm
        change ∑ j, Q 1 j = _
        rw [Fin.sum_univ_three]; norm_num [q00, q01, q02, q10, q11, q12, q20, q21, q22]
      · refine Eq.trans ?_ hW2.symm
        change ∑ j, Q 2 j = _
        rw [Fin.sum_univ_three]; norm_num [q00, q01, q02, q10, q11, q12, q20, q21, q22]
    · rw [Fin.sum_univ_three]; fin_cases j <;> simp [Q] <;> norm_num
  have hle := hmin Q hQ
  have hrow : ∀ i, P i 0 + P i 1 + P i 2 = hardW ({0, 2} : Finset (Fin 3)) (fun _ => 0 * (1/1000)) i := by
    intro i; rw [← hP.2.1 i, Fin.sum_univ_three]
  have hcol : ∀ j, P 0 j + P 1 j + P 2 j = 1/3 := by
    intro j
    have := hP.2.2 j
    rw [Fin.sum_univ_three] at this
    rw [this]; norm_num
  have r0 := hrow 0; rw [hW0] at r0
  have r1 := hrow 1; rw [hW1] at r1
  have r2 := hrow 2; rw [hW2] at r2
  have p10 : P 1 0 = 0 := le_antisymm (by linarith [hP.1 1 0, hP.1 1 1, hP.1 1 2]) (hP.1 1 0)
  have p11 : P 1 1 = 0 := le_antisymm (by linarith [hP.1 1 0, hP.1 1 1, hP.1 1 2]) (hP.1 1 1)
  have p12 : P 1 2 = 0 := le_antisymm (by linarith [hP.1 1 0, hP.1 1 1, hP.1 1 2]) (hP.1 1 2)
  have hcost : P 0 1 + 2 * P 0 2 + P 2 1 + 2 * P 2 0 ≤ 1/3 := by
    simp only [planCost, Fin.sum_univ_three, q00, q01, q02, q10, q11, q12, q20, q21, q22, d00, d01, d02, d10, d11, d12, d20, d21, d22,
      p10, p11, p12] at hle
    linarith
  have c0 := hcol 0; have c1 := hcol 1; have c2 := hcol 2
  have p02 : P 0 2 = 0 := by linarith [hP.1 0 2, hP.1 2 0]
  have p20 : P 2 0 = 0 := by linarith [hP.1 0 2, hP.1 2 0]
  have p00 : P 0 0 = 1/3 := by linarith
  have p22 : P 2 2 = 1/3 := by linarith
  have p01 : P 0 1 = 1/6 := by linarith
  have p21 : P 2 1 = 1/6 := by linarith
  simp only [ottoReweight]
  rw [normWeights_hard hA _ _ (forbids_dt hU), reweightOT_hard env (by norm_num), h1]
  rw [Except.ok_bind', x_apply]
  congr 2
  funext a n
  rw [Fin.sum_univ_three]
  fin_cases n <;> simp [threeX, p00, p01, p02, p10, p11, p12, p20, p21, p22] <;> norm_num

/-! ### nothing allowed, and other special values -/

/-- **C109** (special values of the constraint). The weights handed to the solver, in deterministic mode: all NaN if
every particle is forbidden (0/0) or if some value is NaN; if no value is NaN and some are plus infinity, NaN for these
and 0 for all others. The solver gets finite costs and the uniform target in all cases. -/
theorem C109_special_values (hN : 0 < N) (U : Constraint d N XR) (X : Fin d → Fin N → ℝ) (t : XR) :
    ∃ W : Fin N → XR,
      (∀ (ρ : Type) (env : Env ρ XR), ottoReweight env (some U) (cloudOf X) t
        = (env.emd W (fun _ => .fin (1 / (N:ℝ))) (fun i j => .fin (pdist X i j)) >>= fun T =>
            .ok fun a n => NumOps.sum fun m => XR.fin (X a m) * (T m n * .fin N))) ∧
      ((∀ n, U.call2 (cloudOf X) t n = .ninf) → ∀ n, W n = .nan) ∧
      ((∃ n, U.call2 (cloudOf X) t n = .nan) → ∀ n, W n = .nan) ∧
      ((∀ n, U.call2 (cloudOf X) t n ≠ .nan) → (∃ n, U.call2 (cloudOf X) t n = .pinf) →
        ∀ n, (U.call2 (cloudOf X) t n = .pinf → W n = .nan) ∧ (U.call2 (cloudOf X) t n ≠ .pinf → W n = .fin 0)) := by
  refine ⟨normWeights fun n => NumOps.exp (U.call2 (cloudOf X) t n * dtc), fun ρ env => ?_, fun h => ?_,
    fun h => ?_, fun h0 h n => ?_⟩
  · simp only [ottoReweight]
    exact reweightOT_hard env hN X _
  · exact normWeights_none (fun n => U.call2 (cloudOf X) t n * dtc) fun n => (dt_special _).1 (h n)
  · obtain ⟨m, hm⟩ := h
    exact normWeights_nan (fun n => U.call2 (cloudOf X) t n * dtc) ⟨m, (dt_special _).2.2.1 hm⟩
  · obtain ⟨m, hm⟩ := h
    have := normWeights_pinf (fun n => U.call2 (cloudOf X) t n * dtc)
      (fun n e => h0 n ((dt_special _).2.2.2 e)) ⟨m, (dt_special _).2.1.1 hm⟩ n
    exact ⟨fun e => this.1 ((dt_special _).2.1.1 e), fun e => this.2 fun e' => e ((dt_special _).2.1.2 e')⟩

/-! ### non-vacuity -/

/-- The constraint that forbids the open interval (-1, 1) of the first coordinate and is zero elsewhere. -/
noncomputable def gapU : Constraint 1 3 XR where
  call2 x _ := fun n => if -1 < (x 0 n).val ∧ (x 0 n).val < 1 then .ninf else .fin 0
  call1 := none

theorem gapU_forbids (t : XR) : Forbids {0, 2} (fun _ => 0) (gapU.call2 (cloudOf threeX) t) := by
  refine ⟨fun n hn => ?_, fun n hn => ?_⟩
  · fin_cases n
    · simp [gapU, cloudOf, threeX, XR.val]
    · simp at hn
    · simp [gapU, cloudOf, threeX, XR.val]; norm_num
  · fin_cases n
    · simp at hn
    · simp [gapU, cloudOf, threeX, XR.val]
    · simp at hn

/-- An optimal solver exists, so the middle particle does stay; `C109_deterministic` applies to this run, and by
`C109_gap` no solver avoids the gap. -/
example : ottoReweight optX (some gapU) (cloudOf threeX) (.fin 0) = .ok (cloudOf threeX) ∧
    HardResult {0, 2} (fun _ => 0 * (1/1000)) threeX (cloudOf threeX) ∧
    ∃ Y n, (cloudOf threeX : Mat 1 3 XR) = cloudOf Y ∧ particle Y n ∈ openSegment ℝ (fun _ => -1) (fun _ => 1) := by
  have h := C109_forbidden_stays optX optX_optimal gapU (.fin 0) (gapU_forbids _)
  refine ⟨h, C109_deterministic optX optX_couples gapU threeX (.fin 0) {0, 2} ⟨0, by simp⟩ _ (gapU_forbids _) _ h, ?_⟩
  refine (C109_gap optX optX_couples threeX {0, 2} {0} ⟨0, by simp⟩ (fun _ => 0) _ _ (by simp) ?_ ?_).1
    gapU (.fin 0) _ (gapU_forbids _) h ?_
  · intro m hm
    simp at hm; subst hm
    funext a; simp [particle, threeX]
  · intro m hm hm'
    simp at hm hm'
    obtain rfl : m = 2 := by tauto
    funext a; simp [particle, threeX]; norm_num
  · intro k hk
    simp at hk
    have h2 : (3:ℝ) = ((2 * k : ℕ) : ℝ) := by push_cast; linarith
    have h3 : 3 = 2 * k := by exact_mod_cast h2
    omega

/-- Two particles that start at 0 without drift, one time step of unit noise, a wall at 0: positive positions are
forbidden. -/
noncomputable def wallU : Constraint 1 2 XR where
  call2 x _ := fun n => if (x 0 n).val ≤ 0 then .fin 5 else .ninf
  call1 := none

@[inherit_doc wallU] noncomputable def wallCfg : Cfg 1 2 1 XR where
  t1 := .fin 0
  t2 := .fin (1/1000)
  y1 := fun _ => .fin 0
  y2 := fun _ => .fin 0
  f := ⟨fun _ _ _ _ => .fin 0, none⟩
  g := .fin 1
  reweight := true
  U := some wallU
  densEst := "score"
  reject := false
  kern := "RBF"
  fTrue := none
  brownBridge := false
  deterministic := true

/-- The positions after the noisy step: the second particle is behind the wall. -/
noncomputable def wallX : Fin 1 → Fin 2 → ℝ := fun _ n => if n = 0 then 0 else Real.sqrt (1/1000)

theorem wallU_forbids (t : XR) : Forbids {0} (fun _ => 5) (wallU.call2 (cloudOf wallX) t) := by
  refine ⟨fun n hn => ?_, fun n hn => ?_⟩
  · simp at hn; subst hn
    simp [wallU, cloudOf, wallX, XR.val]
  · have h1 : n = 1 := by
      have : n ≠ 0 := by simpa using hn
      omega
    subst h1
    have : ¬ Real.sqrt (1/1000) ≤ 0 := not_le.2 (Real.sqrt_pos.2 (by norm_num))
    exact if_neg (show ¬ wallX 0 1 ≤ 0 by simpa [wallX] using this)

theorem wall_step (t : XR) : noisyStep optX wallCfg.g wallCfg.f (pt 2 wallCfg.y1) t 0 = .ok (cloudOf wallX, 2) := by
  have hd : (dtc : XR) = .fin (1/1000) := by
    rw [dtc, XR.embeds.lit]; norm_num
  have e : noisyStep optX wallCfg.g wallCfg.f (pt 2 wallCfg.y1) t 0
      = .ok (fun (i : Fin 1) (n : Fin 2) => XR.fin 0 + dtc * XR.fin 0
        + XR.fin 1 * (lit 0 1 + NumOps.sqrt dtc * .fin ((n.val : ℕ) : ℝ)), 2) := by
    have : ∀ (i : Fin 1) (n : Fin 2), (drawVec (drawVec optX.normal 2) 1 0).1 i n = XR.fin ((n.val : ℕ) : ℝ) := by
      intro i n
      fin_cases i; fin_cases n <;> rfl
    unfold noisyStep normalMat
    change Except.ok (fun i n => XR.fin 0 + dtc * XR.fin 0
      + XR.fin 1 * (lit 0 1 + NumOps.sqrt dtc * (drawVec (drawVec optX.normal 2) 1 0).1 i n), _) = _
    simp only [this]
    rfl
  rw [e]
  congr 2
  funext i n
  rw [hd, x_zero, XR.embeds.sqrt _ (by norm_num), XR.embeds.mul, XR.embeds.mul, XR.embeds.add, XR.embeds.add,
    XR.embeds.mul, XR.embeds.add, cloudOf]
  congr 1
  fin_cases n <;> simp [wallX]

/-- The construction succeeds, the step puts a particle behind the wall, and the stored slice is in front of it. -/
example : ∃ o r' Y, construct optX wallCfg 0 = .ok (o, r') ∧ o.Z[1]? = some (cloudOf Y) ∧ ∀ n, Y 0 n ≤ 0 := by
  have hg : mkGrid wallCfg.t1 wallCfg.t2 = [.fin 0, .fin (1/1000)] := by
    have h1 : mkGrid wallCfg.t1 wallCfg.t2 = (mkGrid (0:ℝ) (1/1000)).map XR.fin := Lift.mkGrid XR.embeds _ _
    have h2 := mkGrid_length_steps 0 1
    rw [show (0:ℝ) + (1:ℕ)/1000 = 1/1000 by norm_num] at h2
    have h3 : mkGrid (0:ℝ) (1/1000) = [0, 1/1000] := by
      refine List.ext_getElem? fun i => ?_
      rcases i with _ | _ | i
      · exact (mkGrid_getElem_real 0 (1/1000) 0 0).2 ⟨by norm_num, by norm_num⟩
      · exact (mkGrid_getElem_real 0 (1/1000) 1 (1/1000)).2 ⟨by norm_num, by norm_num⟩
      · rw [List.getElem?_eq_none (by omega)]; simp
    rw [h1, h3]; rfl
  have hA : ({0} : Finset (Fin 2)).Nonempty := ⟨0, by simp⟩
  obtain ⟨P, h1, hP, _⟩ := optX_optimal 2 (hardW {0} fun _ => 5 * (1/1000)) (fun _ => 1 / ((2:ℕ):ℝ)) (pdist wallX)
    (hardW_prob hA _) (uniform_prob (by norm_num)) fun i j => Real.sqrt_nonneg _
  have hrw : ∃ y, ottoReweight optX (some wallU) (cloudOf wallX) (.fin (1/1000)) = .ok y := by
    simp only [ottoReweight]
    rw [normWeights_hard hA _ _ (forbids_dt (wallU_forbids _)), reweightOT_hard optX (by norm_num), h1]
    exact ⟨_, rfl⟩
  obtain ⟨y, hy⟩ := hrw
  have hslice : ottoSlice optX wallCfg 1 (.fin (1/1000)) (pt 2 wallCfg.y1) 0 = .ok (y, 2) := by
    rw [ottoSlice_bind, if_pos rfl, RandM.bind_app, wall_step]
    change (liftM (ottoReweight optX (some wallU) (cloudOf wallX) (.fin (1/1000))) : RandM ℕ _) 2 = _
    rw [hy]; rfl
  have hc : construct optX wallCfg 0 = .ok (_, _) := (construct_det_iff optX wallCfg rfl (by rw [hg]; simp) 0 2 _).2
    ⟨[y], 2, none, 2, [], by
      rw [hg]
      exact RandM.bind_ok.2 ⟨y, 2, hslice, RandM.bind_ok.2 ⟨[], 2, rfl, rfl⟩⟩, rfl, by rw [hg]; rfl, rfl⟩
  obtain ⟨x, ⟨r, r', hx⟩, hw⟩ := C109_convex_wall optX optX_couples wallCfg rfl rfl wallU rfl {x | x 0 ≤ 0}
    (fun x hx z hz a b ha hb hab => by
      simp only [Set.mem_ofPred_eq, Pi.add_apply, Pi.smul_apply, smul_eq_mul] at *
      nlinarith)
    (fun X t n hn => ⟨5, by
      have hn' : X 0 n ≤ 0 := hn
      exact if_pos hn'⟩)
    (fun X t n hn => by
      have hn' : ¬ X 0 n ≤ 0 := hn
      exact if_neg hn')
    0 2 _ hc 0 (.fin (1/1000)) (pt 2 wallCfg.y1) y (by rw [hg]; rfl) rfl rfl
  obtain ⟨Y, hY, _, hS⟩ := C109_deterministic optX optX_couples wallU wallX (.fin (1/1000)) {0} hA _
    (wallU_forbids _) y hy
  refine ⟨_, _, Y, hc, by rw [← hY]; rfl, fun n => ?_⟩
  refine hS {x | x 0 ≤ 0} (fun x hx z hz a b ha hb hab => ?_) (fun m hm => ?_) n
  · simp only [Set.mem_ofPred_eq, Pi.add_apply, Pi.smul_apply, smul_eq_mul] at *
    nlinarith
  · simp at hm; subst hm
    simp [particle, wallX]

/-- Torch, with the same wall. -/
example : ∃ y, torchReweight optX (cloudOf wallX) (fun n => NumOps.exp (wallU.call2 (cloudOf wallX) (.fin 0) n)) = .ok y ∧
    HardResult {0} (fun _ => 5) wallX y := by
  have hA : ({0} : Finset (Fin 2)).Nonempty := ⟨0, by simp⟩
  have hX : ∃ i j, sqdist wallX i j ≠ 0 := ⟨0, 1, by simp [sqdist, wallX]⟩
  obtain ⟨s, hs, _, _, e⟩ := torchReweight_hard optX wallX hX
    fun n => NumOps.exp (wallU.call2 (cloudOf wallX) (.fin 0) n)
  obtain ⟨P, h1, _⟩ := optX_optimal 2 (hardW {0} fun _ => 5) (fun _ => 1 / ((2:ℕ):ℝ)) (fun i j => sqdist wallX i j / s)
    (hardW_prob hA _) (uniform_prob (by norm_num)) fun i j => div_nonneg (Finset.sum_nonneg fun _ _ => sq_nonneg _) hs.le
  rw [normWeights_hard hA _ _ (wallU_forbids _), h1] at e
  exact ⟨_, e, C109_torch optX optX_couples wallX hX _ {0} hA _ (wallU_forbids _) _ e⟩

/-- Stochastic mode, with the same wall. -/
example : ∃ y, stochReweight optX (some ⟨wallU.call2, some fun x => wallU.call2 x (.fin 0)⟩) (cloudOf wallX) = .ok y ∧
    HardResult {0} (fun _ => 5) wallX y := by
  have hA : ({0} : Finset (Fin 2)).Nonempty := ⟨0, by simp⟩
  obtain ⟨P, h1, _⟩ := optX_optimal 2 (hardW {0} fun _ => 5) (fun _ => 1 / ((2:ℕ):ℝ)) (pdist wallX)
    (hardW_prob hA _) (uniform_prob (by norm_num)) fun i j => Real.sqrt_nonneg _
  have e : ∃ y, stochReweight optX (some ⟨wallU.call2, some fun x => wallU.call2 x (.fin 0)⟩) (cloudOf wallX) = .ok y := by
    simp only [stochReweight]
    rw [normWeights_hard hA _ _ (wallU_forbids _), reweightOT_hard optX (by norm_num), h1]
    exact ⟨_, rfl⟩
  obtain ⟨y, hy⟩ := e
  exact ⟨y, hy, C109_stochastic optX optX_couples _ _ rfl wallX {0} hA _ (wallU_forbids _) _ hy⟩

/-- If both particles are behind the wall, the weights are NaN. -/
example : ∃ W : Fin 2 → XR, (∀ n, W n = .nan) ∧
    ∀ (ρ : Type) (env : Env ρ XR), ottoReweight env (some wallU) (cloudOf fun _ _ => 1) (.fin 0)
      = (env.emd W (fun _ => .fin (1 / ((2:ℕ):ℝ))) (fun i j => .fin (pdist (fun (_ : Fin 1) _ => 1) i j)) >>= fun T =>
          .ok fun _ n => NumOps.sum fun m => XR.fin 1 * (T m n * .fin ((2:ℕ):ℝ))) := by
  obtain ⟨W, h1, h2, _⟩ := C109_special_values (by norm_num) wallU (fun _ _ => 1) (.fin 0)
  refine ⟨W, h2 fun n => ?_, h1⟩
  exact if_neg (show ¬ (1:ℝ) ≤ 0 by norm_num)

end Hard
end DPFC
