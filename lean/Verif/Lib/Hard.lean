import Verif.Spec.Hard
import Verif.Lib.Transport
import Verif.Lib.Flow

/-! Reweighting with special values. -/

namespace DPFC
open Spec
variable {ρ : Type} {d N M : ℕ}

namespace Hard
attribute [local instance] XR.xops

/-- weights with zeros off `A` -/
noncomputable def hardW (A : Finset (Fin N)) (v : Fin N → ℝ) (n : Fin N) : ℝ :=
  (if n ∈ A then Real.exp (v n) else 0) / ∑ m ∈ A, Real.exp (v m)

theorem sum_ite_mem' (A : Finset (Fin N)) (f : Fin N → ℝ) :
    ∑ n, (if n ∈ A then f n else 0) = ∑ n ∈ A, f n := by
  rw [Finset.sum_ite_mem, Finset.univ_inter]

theorem den_pos {A : Finset (Fin N)} (hA : A.Nonempty) (v : Fin N → ℝ) : 0 < ∑ m ∈ A, Real.exp (v m) :=
  Finset.sum_pos (fun _ _ => Real.exp_pos _) hA

theorem hardW_prob {A : Finset (Fin N)} (hA : A.Nonempty) (v : Fin N → ℝ) : IsProb (hardW A v) := by
  refine ⟨fun i => ?_, ?_⟩
  · unfold hardW
    refine div_nonneg ?_ (den_pos hA v).le
    split
    · exact (Real.exp_pos _).le
    · exact le_rfl
  · unfold hardW
    rw [← Finset.sum_div, sum_ite_mem', div_self (den_pos hA v).ne']

/-- Normalised exponentials of a hard constraint. -/
theorem normWeights_hard {A : Finset (Fin N)} (hA : A.Nonempty) (v : Fin N → ℝ) (u : Fin N → XR)
    (hu : Forbids A v u) : normWeights (fun n => NumOps.exp (u n)) = fun n => XR.fin (hardW A v n) := by
  have e : (fun n => NumOps.exp (u n)) = fun n => XR.fin (if n ∈ A then Real.exp (v n) else 0) := by
    funext n
    by_cases h : n ∈ A
    · rw [hu.1 n h, if_pos h]; rfl
    · rw [hu.2 n h, if_neg h]; rfl
  funext n
  rw [normWeights, e, XR.embeds.sum, congrFun e n, XR.embeds.div, sum_ite_mem']
  · rfl
  · rw [sum_ite_mem']; exact (den_pos hA v).ne'

theorem forbids_dt {A : Finset (Fin N)} {v : Fin N → ℝ} {u : Fin N → XR} (hu : Forbids A v u) :
    Forbids A (fun n => v n * (1/1000)) fun n => u n * dtc := by
  have hd : (dtc : XR) = .fin (1/1000) := by
    rw [dtc, XR.embeds.lit]; norm_num
  refine ⟨fun n h => ?_, fun n h => ?_⟩
  · dsimp only; rw [hu.1 n h, hd, XR.embeds.mul]
  · dsimp only; rw [hu.2 n h, hd]
    change XR.infMul (XR.sgn .ninf * XR.sgn (.fin (1/1000))) = .ninf
    simp [XR.infMul, XR.sgn]

theorem x_zero : (lit 0 1 : XR) = .fin 0 := by rw [XR.embeds.lit]; simp
theorem x_nat (n : ℕ) : (lit (n : ℤ) 1 : XR) = .fin n := by rw [XR.embeds.lit]; simp
theorem x_unif (hN : 0 < N) : (lit 1 1 : XR) / .fin (N:ℝ) = .fin (1 / (N:ℝ)) := by
  rw [XR.embeds.lit, XR.embeds.div _ _ (by positivity)]
  simp

theorem x_sqsum (X : Fin d → Fin N → ℝ) (i j : Fin N) :
    NumOps.sum (fun k => sq (cloudOf X k i - cloudOf X k j)) = XR.fin (sqdist X i j) := by
  have : (fun k => sq (cloudOf X k i - cloudOf X k j)) = fun k => XR.fin ((X k i - X k j)^2) := by
    funext k
    rw [cloudOf, cloudOf, XR.embeds.sub, sq, XR.embeds.mul, pow_two]
  rw [this, XR.embeds.sum]; rfl

theorem x_dist (X : Fin d → Fin N → ℝ) :
    (fun i j => if i = j then (lit 0 1 : XR) else
      NumOps.sqrt (NumOps.sum fun k => sq (tr (cloudOf X) i k - tr (cloudOf X) j k)))
      = fun i j => XR.fin (pdist X i j) := by
  funext i j
  by_cases h : i = j
  · subst h; rw [if_pos rfl, x_zero]; simp [pdist]
  · rw [if_neg h]
    change NumOps.sqrt (NumOps.sum fun k => sq (cloudOf X k i - cloudOf X k j)) = _
    rw [x_sqsum, XR.embeds.sqrt _ (by unfold sqdist; exact Finset.sum_nonneg fun _ _ => sq_nonneg _)]; rfl

/-- The transport of a cloud of numbers. -/
theorem reweightOT_hard (env : Env ρ XR) (hN : 0 < N) (X : Fin d → Fin N → ℝ) (W : Fin N → XR) :
    (reweightOT env (tr (cloudOf X)) W >>= fun T => Except.ok (mm (cloudOf X) T))
      = (env.emd W (fun _ => .fin (1 / (N:ℝ))) (fun i j => .fin (pdist X i j)) >>= fun T =>
          .ok fun a n => NumOps.sum fun m => XR.fin (X a m) * (T m n * .fin N)) := by
  unfold reweightOT
  simp only [x_dist, x_unif hN, x_nat]
  cases env.emd W (fun _ => .fin (1 / (N:ℝ))) (fun i j => .fin (pdist X i j)) with
  | error e => rfl
  | ok T => rfl

theorem x_apply (X : Fin d → Fin N → ℝ) (P : Fin N → Fin N → ℝ) :
    (fun a n => NumOps.sum fun m => XR.fin (X a m) * (XR.fin (P m n) * .fin (N:ℝ)))
      = cloudOf fun (a : Fin d) n => ∑ m, X a m * (P m n * N) := by
  funext a n
  have : (fun m => XR.fin (X a m) * (XR.fin (P m n) * .fin (N:ℝ)))
      = fun m => XR.fin (X a m * (P m n * N)) := by
    funext m; rw [XR.embeds.mul, XR.embeds.mul]
  rw [this, XR.embeds.sum]; rfl

/-- The effect of a coupling of hard weights. -/
theorem hard_result {A : Finset (Fin N)} (hA : A.Nonempty) (v : Fin N → ℝ) (X : Fin d → Fin N → ℝ)
    {P : Fin N → Fin N → ℝ} (hP : IsCoupling (hardW A v) (fun _ => 1 / (N:ℝ)) P) :
    HardResult A v X (cloudOf fun a n => ∑ m, X a m * (P m n * N)) := by
  have hN : 0 < N := by obtain ⟨n, _⟩ := hA; exact n.pos
  have hN' : (N:ℝ) ≠ 0 := by positivity
  refine ⟨_, rfl, fun a => ?_, fun S hS hx n => ?_⟩
  · rw [coupling_mean hN hP (fun _ _ => rfl) a]
    simp only [hardW, allowedMean]
    rw [Finset.sum_div, ← sum_ite_mem' A fun n => Real.exp (v n) * X a n / ∑ m ∈ A, Real.exp (v m)]
    refine Finset.sum_congr rfl fun m _ => ?_
    by_cases h : m ∈ A
    · simp only [if_pos h]; ring
    · simp only [if_neg h]; ring
  · have hz : ∀ m, m ∉ A → P m n = 0 := by
      intro m hm
      have h1 : ∑ j, P m j = 0 := by rw [hP.2.1 m]; simp [hardW, hm]
      exact (Finset.sum_eq_zero_iff_of_nonneg (fun j _ => hP.1 m j)).1 h1 n (Finset.mem_univ _)
    have e : particle (fun a n => ∑ m, X a m * (P m n * N)) n = ∑ m ∈ A, (P m n * N) • particle X m := by
      funext a
      simp only [particle, Finset.sum_apply, Pi.smul_apply, smul_eq_mul]
      rw [← Finset.sum_subset (Finset.subset_univ A) (fun m _ hm => by rw [hz m hm]; simp)]
      exact Finset.sum_congr rfl fun m _ => mul_comm _ _
    rw [e]
    refine hS.sum_mem (fun m _ => mul_nonneg (hP.1 m n) (by positivity)) ?_ fun m hm => hx m hm
    rw [Finset.sum_subset (Finset.subset_univ A) (fun m _ hm => by rw [hz m hm]; simp), ← Finset.sum_mul,
      hP.2.2 n]
    field_simp

/-- The torch transport of a cloud of numbers that do not all coincide. -/
theorem torchReweight_hard (env : Env ρ XR) (X : Fin d → Fin N → ℝ) (hX : ∃ i j, sqdist X i j ≠ 0)
    (e : Fin N → XR) :
    ∃ s : ℝ, 0 < s ∧ (∀ i j, sqdist X i j ≤ s) ∧ (∃ i j, s = sqdist X i j) ∧ torchReweight env (cloudOf X) e
      = (env.emd (normWeights e) (fun _ => .fin (1 / (N:ℝ))) (fun i j => .fin (sqdist X i j / s)) >>= fun T =>
          .ok fun a n => NumOps.sum fun m => XR.fin N * XR.fin (X a m) * T m n) := by
  obtain ⟨i0, j0, h0⟩ := hX
  obtain ⟨k, rfl⟩ : ∃ k, N = k + 1 := ⟨N - 1, by have := i0.pos; omega⟩
  let s : ℝ := Finset.univ.sup' Finset.univ_nonempty fun i : Fin (k+1) =>
    Finset.univ.sup' Finset.univ_nonempty fun j : Fin (k+1) => sqdist X i j
  have hle : ∀ i j, sqdist X i j ≤ s := fun i j =>
    (Finset.le_sup' (fun j => sqdist X i j) (Finset.mem_univ j)).trans
      (Finset.le_sup' (fun i => Finset.univ.sup' Finset.univ_nonempty fun j => sqdist X i j) (Finset.mem_univ i))
  have hpos : 0 < s :=
    lt_of_lt_of_le (lt_of_le_of_ne (Finset.sum_nonneg fun _ _ => sq_nonneg _) h0.symm) (hle i0 j0)
  refine ⟨s, hpos, hle, ?_, ?_⟩
  · obtain ⟨i, _, hi⟩ := Finset.exists_mem_eq_sup' (s := Finset.univ) Finset.univ_nonempty
      fun i : Fin (k+1) => Finset.univ.sup' Finset.univ_nonempty fun j : Fin (k+1) => sqdist X i j
    obtain ⟨j, _, hj⟩ := Finset.exists_mem_eq_sup' (s := Finset.univ) Finset.univ_nonempty
      fun j : Fin (k+1) => sqdist X i j
    exact ⟨i, j, hi.trans hj⟩
  · have hm : torchMatMax (fun i j => XR.fin (sqdist X i j)) = .ok (XR.fin s) := by
      simp only [torchMatMax, XR.embeds.amax]; rfl
    unfold torchReweight
    simp only [x_sqsum, hm, Except.ok_bind', x_unif (Nat.succ_pos k), x_nat, XR.embeds.div _ _ hpos.ne']
    cases env.emd (normWeights e) (fun _ => .fin (1 / (((k+1 : ℕ)):ℝ))) (fun i j => .fin (sqdist X i j / s)) with
    | error e => rfl
    | ok T => rfl

theorem x_apply_torch (X : Fin d → Fin N → ℝ) (P : Fin N → Fin N → ℝ) :
    (fun a n => NumOps.sum fun m => XR.fin (N:ℝ) * XR.fin (X a m) * XR.fin (P m n))
      = cloudOf fun (a : Fin d) n => ∑ m, X a m * (P m n * N) := by
  funext a n
  have : (fun m => XR.fin (N:ℝ) * XR.fin (X a m) * XR.fin (P m n))
      = fun m => XR.fin (X a m * (P m n * N)) := by
    funext m; rw [XR.embeds.mul, XR.embeds.mul]; congr 1; ring
  rw [this, XR.embeds.sum]; rfl

theorem bind_okE {α β : Type} {x : Except PyErr α} {f : α → Except PyErr β} {b : β}
    (h : (x >>= f) = .ok b) : ∃ a, x = .ok a ∧ f a = .ok b := by
  cases x with
  | error e => cases h
  | ok a => exact ⟨a, rfl, h⟩

theorem ottoSlice_bind (env : Env ρ XR) (c : Cfg d N M XR) (ti : Nat) (tt : XR) (x : Mat d N XR) :
    ottoSlice env c ti tt x = ((if ti = 1 then noisyStep env c.g c.f x (tt - dtc)
      else ottoStep true env M (effKern c.kern) c.g c.f x (tt - dtc)) >>= fun raw =>
        if c.reweight then (liftM (ottoReweight env c.U raw tt) : RandM ρ (Mat d N XR)) else pure raw) := by
  unfold ottoSlice
  by_cases h : ti = 1
  · simp only [if_pos h]
  · simp only [if_neg h]

/-! ### the reweighting steps -/

theorem otto_hard_ok (env : Env ρ XR) (hs : SolverCouplesX env) (U : Constraint d N XR)
    (X : Fin d → Fin N → ℝ) (t : XR) (A : Finset (Fin N)) (hA : A.Nonempty) (v : Fin N → ℝ)
    (hU : Forbids A v (U.call2 (cloudOf X) t)) (y : Mat d N XR)
    (h : ottoReweight env (some U) (cloudOf X) t = .ok y) :
    ∃ P, IsCoupling (hardW A fun n => v n * (1/1000)) (fun _ => 1 / (N:ℝ)) P ∧
      y = cloudOf fun a n => ∑ m, X a m * (P m n * N) := by
  have hN : 0 < N := by obtain ⟨n, _⟩ := hA; exact n.pos
  simp only [ottoReweight] at h
  rw [normWeights_hard hA _ _ (forbids_dt hU), reweightOT_hard env hN] at h
  obtain ⟨T, hT, hy⟩ := bind_okE h
  obtain ⟨P, rfl, hP⟩ := hs N _ _ _ T (hardW_prob hA _) (uniform_prob hN) hT
  rw [x_apply] at hy
  cases hy
  exact ⟨P, hP, rfl⟩

theorem stoch_hard_ok (env : Env ρ XR) (hs : SolverCouplesX env) (U : Constraint d N XR)
    (u : Mat d N XR → Fin N → XR) (hu : U.call1 = some u)
    (X : Fin d → Fin N → ℝ) (A : Finset (Fin N)) (hA : A.Nonempty) (v : Fin N → ℝ)
    (hU : Forbids A v (u (cloudOf X))) (y : Mat d N XR)
    (h : stochReweight env (some U) (cloudOf X) = .ok y) :
    ∃ P, IsCoupling (hardW A v) (fun _ => 1 / (N:ℝ)) P ∧ y = cloudOf fun a n => ∑ m, X a m * (P m n * N) := by
  have hN : 0 < N := by obtain ⟨n, _⟩ := hA; exact n.pos
  simp only [stochReweight, hu] at h
  rw [normWeights_hard hA _ _ hU, reweightOT_hard env hN] at h
  obtain ⟨T, hT, hy⟩ := bind_okE h
  obtain ⟨P, rfl, hP⟩ := hs N _ _ _ T (hardW_prob hA _) (uniform_prob hN) hT
  rw [x_apply] at hy
  cases hy
  exact ⟨P, hP, rfl⟩

theorem torch_hard_ok (env : Env ρ XR) (hs : SolverCouplesX env) (X : Fin d → Fin N → ℝ)
    (hX : ∃ i j, sqdist X i j ≠ 0) (u : Fin N → XR) (A : Finset (Fin N)) (hA : A.Nonempty) (v : Fin N → ℝ)
    (hU : Forbids A v u) (y : Mat d N XR)
    (h : torchReweight env (cloudOf X) (fun n => NumOps.exp (u n)) = .ok y) :
    ∃ P, IsCoupling (hardW A v) (fun _ => 1 / (N:ℝ)) P ∧ y = cloudOf fun a n => ∑ m, X a m * (P m n * N) := by
  have hN : 0 < N := by obtain ⟨n, _⟩ := hA; exact n.pos
  obtain ⟨s, _, _, _, e⟩ := torchReweight_hard env X hX fun n => NumOps.exp (u n)
  rw [e, normWeights_hard hA _ _ hU] at h
  obtain ⟨T, hT, hy⟩ := bind_okE h
  obtain ⟨P, rfl, hP⟩ := hs N _ _ _ T (hardW_prob hA _) (uniform_prob hN) hT
  rw [x_apply_torch] at hy
  cases hy
  exact ⟨P, hP, rfl⟩

/-! ### gaps -/

/-- Transport of hard weights concentrated on two points with non-integer masses puts a particle between them. -/
theorem hard_gap {A : Finset (Fin N)} (hA : A.Nonempty) (v : Fin N → ℝ) (X : Fin d → Fin N → ℝ)
    {P : Fin N → Fin N → ℝ} (hP : IsCoupling (hardW A v) (fun _ => 1 / (N:ℝ)) P) (p q : Fin d → ℝ)
    (L : Finset (Fin N)) (hLA : L ⊆ A) (hp : ∀ m ∈ L, particle X m = p)
    (hq : ∀ m ∈ A, m ∉ L → particle X m = q)
    (hw : ∀ k : ℕ, (∑ n ∈ L, Real.exp (v n)) * N ≠ k * ∑ n ∈ A, Real.exp (v n)) :
    ∃ n, particle (fun a n => ∑ m, X a m * (P m n * N)) n ∈ openSegment ℝ p q := by
  have hN : 0 < N := by obtain ⟨n, _⟩ := hA; exact n.pos
  have hN' : (N:ℝ) ≠ 0 := by positivity
  have hz : ∀ m, m ∉ A → ∀ n, P m n = 0 := by
    intro m hm n
    have h1 : ∑ j, P m j = 0 := by rw [hP.2.1 m]; simp [hardW, hm]
    exact (Finset.sum_eq_zero_iff_of_nonneg (fun j _ => hP.1 m j)).1 h1 n (Finset.mem_univ _)
  let s : Fin N → ℝ := fun n => ∑ m ∈ L, P m n * N
  let s' : Fin N → ℝ := fun n => ∑ m ∈ A \ L, P m n * N
  have hs0 : ∀ n, 0 ≤ s n := fun n => Finset.sum_nonneg fun m _ => mul_nonneg (hP.1 m n) (by positivity)
  have hs0' : ∀ n, 0 ≤ s' n := fun n => Finset.sum_nonneg fun m _ => mul_nonneg (hP.1 m n) (by positivity)
  have hs1 : ∀ n, s n + s' n = 1 := by
    intro n
    have : ∑ m ∈ A, P m n * N = 1 := by
      rw [Finset.sum_subset (Finset.subset_univ A) (fun m _ hm => by rw [hz m hm]; simp), ← Finset.sum_mul,
        hP.2.2 n]
      field_simp
    rw [add_comm, ← this]
    exact Finset.sum_sdiff hLA
  have hY : ∀ n, particle (fun a n => ∑ m, X a m * (P m n * N)) n = s n • p + s' n • q := by
    intro n
    funext a
    have e1 : ∑ m, X a m * (P m n * N) = ∑ m ∈ A, X a m * (P m n * N) :=
      (Finset.sum_subset (Finset.subset_univ A) (fun m _ hm => by rw [hz m hm]; simp)).symm
    simp only [particle, Pi.add_apply, Pi.smul_apply, smul_eq_mul, s, s']
    rw [e1, ← Finset.sum_sdiff hLA, add_comm, Finset.sum_mul, Finset.sum_mul]
    congr 1
    · refine Finset.sum_congr rfl fun m hm => ?_
      have := congrFun (hp m hm) a
      simp only [particle] at this
      rw [this]; ring
    · refine Finset.sum_congr rfl fun m hm => ?_
      have := congrFun (hq m (Finset.mem_sdiff.1 hm).1 (Finset.mem_sdiff.1 hm).2) a
      simp only [particle] at this
      rw [this]; ring
  by_contra hno
  push Not at hno
  have hs01 : ∀ n, s n = 0 ∨ s n = 1 := by
    intro n
    by_contra h
    push Not at h
    have h1 := hs1 n
    have h0 := lt_of_le_of_ne (hs0 n) h.1.symm
    have h0' : 0 < s' n := lt_of_le_of_ne (hs0' n) fun h2 => h.2 (by rw [← h2] at h1; linarith)
    exact hno n (by rw [hY n]; exact ⟨s n, s' n, h0, h0', h1, rfl⟩)
  have hsum : ∑ n, s n = (∑ n ∈ L, Real.exp (v n)) * N / ∑ n ∈ A, Real.exp (v n) := by
    simp only [s]
    rw [Finset.sum_comm, Finset.sum_mul, Finset.sum_div]
    refine Finset.sum_congr rfl fun m hm => ?_
    rw [← Finset.sum_mul, hP.2.1 m, hardW, if_pos (hLA hm)]
    ring
  classical
  have hcount : ∑ n, s n = ((Finset.univ.filter fun n => s n = 1).card : ℝ) := by
    rw [Finset.card_filter, Nat.cast_sum]
    refine Finset.sum_congr rfl fun n _ => ?_
    rcases hs01 n with h | h <;> simp [h]
  refine hw (Finset.univ.filter fun n => s n = 1).card ?_
  have hd := den_pos hA v
  rw [hcount] at hsum
  rw [hsum]
  field_simp

/-! ### special values in the weights -/

theorem sum_pinf {n : ℕ} (v : Fin n → XR) (h : ∀ i, (∃ r, v i = .fin r) ∨ v i = .pinf) (acc : XR)
    (ha : acc = .pinf ∨ (∃ r, acc = .fin r) ∧ ∃ i, v i = .pinf) :
    Fin.foldl n (fun acc i => acc + v i) acc = .pinf := by
  induction n generalizing acc with
  | zero =>
    rcases ha with rfl | ⟨_, i, _⟩
    · rfl
    · exact i.elim0
  | succ n ih =>
    rw [Fin.foldl_succ]
    refine ih (fun i => v i.succ) (fun i => h i.succ) _ ?_
    rcases ha with rfl | ⟨⟨r, rfl⟩, i, hi⟩
    · left; rcases h 0 with ⟨s, e⟩ | e <;> rw [e] <;> rfl
    · rcases h 0 with ⟨s, e⟩ | e
      · right
        refine ⟨⟨r + s, by rw [e]; rfl⟩, ?_⟩
        cases i using Fin.cases with
        | zero => rw [e] at hi; cases hi
        | succ i => exact ⟨i, hi⟩
      · left; rw [e]; rfl

theorem normWeights_none (u : Fin N → XR) (h : ∀ n, u n = .ninf) :
    ∀ n, normWeights (fun n => NumOps.exp (u n)) n = .nan := by
  intro n
  have e : (fun n => NumOps.exp (u n)) = fun _ : Fin N => XR.fin ((fun _ => 0 : Fin N → ℝ) n) := by
    funext n; rw [h n]; rfl
  rw [normWeights, e, XR.embeds.sum (fun _ : Fin N => (0:ℝ)), congrFun e n]
  change (if (∑ _ : Fin N, (0:ℝ)) = 0 then XR.infMul (XR.sgn (.fin 0)) else _) = _
  rw [if_pos (by simp)]
  simp [XR.infMul, XR.sgn]

theorem normWeights_nan (u : Fin N → XR) (h : ∃ n, u n = .nan) :
    ∀ n, normWeights (fun n => NumOps.exp (u n)) n = .nan := by
  obtain ⟨m, hm⟩ := h
  intro n
  have hs : NumOps.sum (fun n => NumOps.exp (u n)) = XR.nan :=
    XR.sum_nan (fun n => NumOps.exp (u n)) m (by rw [hm]; rfl) _
  rw [normWeights, hs]
  cases NumOps.exp (u n) <;> rfl

theorem normWeights_pinf (u : Fin N → XR) (h0 : ∀ n, u n ≠ .nan) (h : ∃ n, u n = .pinf) :
    ∀ n, (u n = .pinf → normWeights (fun n => NumOps.exp (u n)) n = .nan) ∧
      (u n ≠ .pinf → normWeights (fun n => NumOps.exp (u n)) n = .fin 0) := by
  obtain ⟨m, hm⟩ := h
  have hs : NumOps.sum (fun n => NumOps.exp (u n)) = XR.pinf := by
    refine sum_pinf (fun n => NumOps.exp (u n)) (fun i => ?_) _ (.inr ⟨⟨0, rfl⟩, m, by rw [hm]; rfl⟩)
    have := h0 i
    cases hi : u i with
    | fin r => exact .inl ⟨_, rfl⟩
    | ninf => exact .inl ⟨_, rfl⟩
    | pinf => exact .inr rfl
    | nan => exact absurd hi this
  intro n
  rw [normWeights, hs]
  have := h0 n
  cases hi : u n with
  | fin r => exact ⟨fun h => (by cases h), fun _ => rfl⟩
  | ninf => exact ⟨fun h => (by cases h), fun _ => rfl⟩
  | pinf => exact ⟨fun _ => rfl, fun h => absurd rfl h⟩
  | nan => exact absurd hi this

theorem dt_special (a : XR) : (a = .ninf → a * dtc = .ninf) ∧ (a = .pinf ↔ a * dtc = .pinf) ∧
    (a = .nan ↔ a * dtc = .nan) := by
  have hd : (dtc : XR) = .fin (1/1000) := by
    rw [dtc, XR.embeds.lit]; norm_num
  have h1 : XR.ninf * (dtc : XR) = .ninf := by
    rw [hd]
    change XR.infMul (XR.sgn .ninf * XR.sgn (.fin (1/1000))) = .ninf
    simp [XR.infMul, XR.sgn]
  have h2 : XR.pinf * (dtc : XR) = .pinf := by
    rw [hd]
    change XR.infMul (XR.sgn .pinf * XR.sgn (.fin (1/1000))) = .pinf
    simp [XR.infMul, XR.sgn]
  cases a with
  | fin r => rw [hd, XR.embeds.mul]; simp
  | pinf => rw [h2]; simp
  | ninf => rw [h1]; simp
  | nan => rw [hd]; exact ⟨fun h => (by cases h), ⟨fun h => (by cases h), fun h => (by cases h)⟩, fun _ => rfl, fun _ => rfl⟩

/-- the optimal environment, over the reals with special values -/
noncomputable def optX : Env ℕ XR := XR.liftEnv optEnv

theorem optX_couples : SolverCouplesX optX := by
  intro n a b C T ha hb h
  have : (optEnv.emd a b C).map (fun T i j => XR.fin (T i j)) = .ok T := h
  cases hT : optEnv.emd a b C with
  | error e => rw [hT] at this; cases this
  | ok P =>
    rw [hT] at this
    cases this
    exact ⟨P, rfl, optEnv_couples n a b C P ha hb hT⟩

theorem optX_optimal : SolverOptimalX optX := by
  intro n a b C ha hb hC
  obtain ⟨P, h1, h2⟩ := optEnv_optimal n a b C ha hb hC
  refine ⟨P, ?_, h2⟩
  change (optEnv.emd a b C).map (fun T i j => XR.fin (T i j)) = _
  rw [h1]; rfl

end Hard
end DPFC
