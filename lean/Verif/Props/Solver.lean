import Verif.Lib.Solver
import Verif.Lib.TorchVerdict
import Verif.Lib.Comp
import Verif.Lib.Examples

/-!
# C104: the transport solver

When the transport solver is consulted, on which problems, and what happens when it fails or is not installed.
-/

namespace DPFC
open Spec

section
variable {ρ K : Type} [Add K] [Sub K] [Mul K] [Div K] [Neg K] [NumOps K] {d N M : ℕ}

/-- **C104** (never consulted without reweighting). Any arithmetic, both classes. -/
theorem C104_not_consulted (env : Env ρ K) (c : Cfg d N M K) (hw : c.reweight = false)
    (S : {n : ℕ} → (Fin n → K) → (Fin n → K) → Mat n n K → Except PyErr (Mat n n K)) (r : ρ) :
    construct (withSolver env S) c r = construct env c r ∧ torchConstruct (withSolver env S) c r = torchConstruct env c r := by
  have h : ¬ c.reweight = true := by rw [hw]; simp
  refine ⟨?_, ?_⟩
  · rcases Sol.construct_or (E := fun _ => False) (env := env) (S := S) c (fun h' => absurd h' h) r with h | ⟨_, h, _⟩
    exacts [h, h.elim]
  · rcases Sol.torchConstruct_or (E := fun _ => False) (env := env) (S := S) c (fun h' => absurd h' h) r with h | ⟨_, h, _⟩
    exacts [h, h.elim]

/-- **C104** (never consulted by queries). The control of a constructed object does not depend on the solver. -/
theorem C104_queries (env : Env ρ K) (o : Obj d N M K)
    (S : {n : ℕ} → (Fin n → K) → (Fin n → K) → Mat n n K → Except PyErr (Mat n n K)) {n k : ℕ} (x : Mat n k K) (ti : Int) :
    calculateU (withSolver env S) o x ti = calculateU env o x ti ∧
    torchCalculateU (withSolver env S) o x ti = torchCalculateU env o x ti := ⟨rfl, rfl⟩

/-- **C104** (failure). Let the solver `S` answer each problem as the solver of `env` does or fail with `e`. Then the
constructor does what it did or raises `e`: a failure is not caught and leaves no object behind, and a run that returns
does not depend on failures for other problems. Any arithmetic, both classes. -/
theorem C104_failure (env : Env ρ K) (c : Cfg d N M K) (e : PyErr)
    (S : {n : ℕ} → (Fin n → K) → (Fin n → K) → Mat n n K → Except PyErr (Mat n n K))
    (hS : ∀ (n : ℕ) (a b : Fin n → K) (C : Mat n n K), S a b C = env.emd a b C ∨ S a b C = .error e) (r : ρ) :
    (construct (withSolver env S) c r = construct env c r ∨ construct (withSolver env S) c r = .error e) ∧
    (torchConstruct (withSolver env S) c r = torchConstruct env c r ∨
      torchConstruct (withSolver env S) c r = .error e) := by
  have h : ∀ (n : ℕ) (a b : Fin n → K) (C : Mat n n K), Sol.OrE (· = e) (env.emd a b C) (S a b C) := fun n a b C =>
    (hS n a b C).imp id fun h => ⟨e, rfl, h⟩
  refine ⟨?_, ?_⟩
  · rcases Sol.construct_or (env := env) (S := S) c (fun _ x v => Sol.reweightOT_or h _ _) r with h | ⟨_, rfl, h'⟩
    exacts [.inl h, .inr h']
  · rcases Sol.torchConstruct_or (env := env) (S := S) c (fun _ x v => Sol.torchReweight_or h _ _) r with h | ⟨_, rfl, h'⟩
    exacts [.inl h, .inr h']

end

section
variable {ρ : Type} {d N M : ℕ}

/-- **C104** (problems, numpy). The solver is only asked to transport positive probability weights onto the uniform weights
at a metric cost: two solvers that agree on these problems give the same outcome. -/
theorem C104_numpy_problems (env : Env ρ ℝ) (c : Cfg d N M ℝ) (hN : 0 < N)
    (S : {n : ℕ} → (Fin n → ℝ) → (Fin n → ℝ) → Mat n n ℝ → Except PyErr (Mat n n ℝ))
    (hS : ∀ (a b : Fin N → ℝ) (C : Fin N → Fin N → ℝ), OntoUniform a b → IsMetric C → S a b C = env.emd a b C) (r : ρ) :
    construct (withSolver env S) c r = construct env c r := by
  refine (Sol.construct_or (E := fun _ => False) (env := env) (S := S) c (fun _ x v => ?_) r).elim id fun ⟨_, h, _⟩ => h.elim
  · refine Sol.OrE.bind (.inl ?_) fun _ => Sol.OrE.refl _
    have hD : (fun i j => if i = j then (lit 0 1 : ℝ) else
        NumOps.sqrt (NumOps.sum fun k => sq (tr x i k - tr x j k))) = pdist x := by
      funext i j
      by_cases h : i = j
      · subst h; simp [pdist]
      · rw [if_neg h]; simp only [pdist, real_sqrt, real_sum, real_sq, tr]
    have hb : (fun _ : Fin N => (lit 1 1 : ℝ) / lit N 1) = fun _ => 1 / (N : ℝ) := by funext _; simp
    show S _ _ _ = env.emd _ _ _
    rw [hD, hb, softmax_real]
    exact hS _ _ _ (Sol.softmax_onto hN v) (Sol.pdist_metric x)

/-- **C104** (problems, torch). Here the cost is symmetric, 0 on the diagonal and scaled to the unit interval, with maximum
1 unless all particles coincide (in exact arithmetic with `0/0 = 0`). -/
theorem C104_torch_problems (env : Env ρ ℝ) (c : Cfg d N M ℝ) (hN : 0 < N)
    (S : {n : ℕ} → (Fin n → ℝ) → (Fin n → ℝ) → Mat n n ℝ → Except PyErr (Mat n n ℝ))
    (hS : ∀ (a b : Fin N → ℝ) (C : Fin N → Fin N → ℝ), OntoUniform a b → IsUnitCost C → S a b C = env.emd a b C) (r : ρ) :
    torchConstruct (withSolver env S) c r = torchConstruct env c r := by
  refine (Sol.torchConstruct_or (E := fun _ => False) (env := env) (S := S) c (fun _ x v => ?_) r).elim id fun ⟨_, h, _⟩ => h.elim
  · obtain ⟨n, rfl⟩ : ∃ n, N = n + 1 := ⟨N - 1, by omega⟩
    unfold torchReweight
    simp only [torchMatMax, Except.ok_bind', softmax_real, amax_real, real_sum, real_sq]
    refine Sol.OrE.bind (.inl ?_) fun _ => Sol.OrE.refl _
    have hb : (fun _ : Fin (n+1) => (lit 1 1 : ℝ) / lit (n+1 : ℕ) 1) = fun _ => 1 / ((n+1 : ℕ) : ℝ) := by funext _; simp
    show S _ _ _ = env.emd _ _ _
    rw [hb]
    exact hS _ _ _ (Sol.softmax_onto hN v) (Sol.unit_cost hN x)

/-- **C104** (no solver). If the solver fails on every problem with `e`, as it does with a NameError in the torch class when
the package POT is not installed, then a construction with reweighting (constraint given, at least two grid points, for the
stochastic mode callables that accept one argument and at least two coordinates) raises `e`. -/
theorem C104_no_solver (env : Env ρ ℝ) (c : Cfg d N M ℝ) (hN : 0 < N) (hw : c.reweight = true) (e : PyErr)
    (hS : ∀ (n : ℕ) (a b : Fin n → ℝ) (C : Fin n → Fin n → ℝ), env.emd a b C = .error e)
    (U : Constraint d N ℝ) (hU : c.U = some U)
    (h1 : c.deterministic = false → 2 ≤ d ∧ U.call1 ≠ none) (r : ρ) :
    (2 ≤ (mkGrid c.t1 c.t2).length → (c.deterministic = false → c.f.call1 ≠ none) → construct env c r = .error e) ∧
    (∀ t, torchGrid c.t1 c.t2 = .ok t → 2 ≤ t.length → torchConstruct env c r = .error e) := by
  have hOT : ∀ (x : Mat N d ℝ) (w : Fin N → ℝ), reweightOT env x w = .error e := fun x w => by
    unfold reweightOT; simp only [hS]; rfl
  have hRW : ∀ (x : Mat d N ℝ) (w : Fin N → ℝ), torchReweight env x w = .error e := fun x w => by
    obtain ⟨n, rfl⟩ : ∃ n, N = n + 1 := ⟨N - 1, by omega⟩
    unfold torchReweight
    simp only [torchMatMax, Except.ok_bind', hS]
    rfl
  refine ⟨fun hk hf => ?_, fun t ht hk => ?_⟩
  · obtain ⟨t0, t1, ts, hg⟩ : ∃ t0 t1 ts, mkGrid c.t1 c.t2 = t0 :: t1 :: ts := by
      match hm : mkGrid c.t1 c.t2, hk with
      | a :: b :: l, _ => exact ⟨a, b, l, rfl⟩
    cases hdet : c.deterministic with
    | true =>
      rw [construct_det_eq env c hdet hk, hg]
      refine Fails.bind (Fails.chain_first ?_) _ r
      unfold ottoSlice
      rw [if_pos rfl]
      refine (noisyStep_tot env _ _ _ _).fails fun raw => ?_
      simp only [if_pos hw]
      unfold ottoReweight
      simp only [hU, hOT]
      exact Fails.liftM _
    | false =>
      obtain ⟨hd, hu⟩ := h1 hdet
      obtain ⟨u, hu⟩ := Option.ne_none_iff_exists'.1 hu
      rw [construct_stoch_eq env c hdet hk hd, hg]
      refine Fails.bind (Fails.chain_first ?_) _ r
      unfold stochSlice
      refine (stochRaw_tot env c (by simpa [Option.isSome_iff_ne_none] using hf hdet) _).fails fun raw => ?_
      simp only [if_pos hw]
      unfold stochReweight
      simp only [hU, hu, hOT]
      exact Fails.liftM _
  · obtain ⟨t0, t1, ts, rfl⟩ : ∃ t0 t1 ts, t = t0 :: t1 :: ts := by
      match t, hk with
      | a :: b :: l, _ => exact ⟨a, b, l, rfl⟩
    cases hdet : c.deterministic with
    | true =>
      rw [torchConstruct_det_eq env c hdet _ ht hk]
      refine Fails.bind (Fails.chain_first ?_) _ r
      unfold torchOttoSlice
      rw [if_pos rfl]
      refine (noisyStep_tot env _ _ _ _).fails fun raw => ?_
      simp only [if_pos hw]
      unfold torchOttoRw
      simp only [hU, hRW]
      exact Fails.liftM _
    | false =>
      obtain ⟨hd, hu⟩ := h1 hdet
      obtain ⟨u, hu⟩ := Option.ne_none_iff_exists'.1 hu
      rw [torchConstruct_stoch_eq env c hdet _ ht hk hd]
      refine Fails.bind (Fails.chain_first ?_) _ r
      unfold torchStochSlice
      refine (noisyStep_tot env _ _ _ _).fails fun raw => ?_
      simp only [if_pos hw]
      unfold torchStochRw
      simp only [hU, hu, hRW]
      exact Fails.liftM _

end

open Classical in
/-- A solver that insists on equal total masses and a cost without negative entries, as POT and pyemd do. -/
noncomputable def exStrict {n : ℕ} (a b : Fin n → ℝ) (C : Mat n n ℝ) : Except PyErr (Mat n n ℝ) :=
  if ∑ i, a i = ∑ i, b i ∧ ∀ i j, 0 ≤ C i j then exEnv.emd a b C else .error .valueError

theorem exStrict_eq {n : ℕ} (hn : 0 < n) (a b : Fin n → ℝ) (C : Mat n n ℝ) (h : OntoUniform a b) (hC : ∀ i j, 0 ≤ C i j) :
    exStrict a b C = exEnv.emd a b C := by
  unfold exStrict
  refine if_pos ⟨?_, hC⟩
  rw [h.2.1, h.2.2]
  have : (n : ℝ) ≠ 0 := by exact_mod_cast hn.ne'
  simp [this]

/-- With the strict solver the reweighted example with 3 coordinates, 4 particles and 21 grid points returns. -/
example : ∃ o r', construct (withSolver exEnv exStrict) (exCfg 3 4 5 20 true true false) 0 = .ok (o, r') := by
  rw [C104_numpy_problems exEnv _ (by norm_num) exStrict fun a b C h hC => exStrict_eq (by norm_num) a b C h hC.2.2.1]
  obtain ⟨o, r', h, -⟩ := ex_det 3 4 5 20 true false (by norm_num) (by norm_num) 0
  exact ⟨o, r', h⟩

/-- Torch: the strict solver changes nothing. -/
example (r : ℕ) : torchConstruct (withSolver exEnv exStrict) (exCfg 3 4 5 20 true true false) r
    = torchConstruct exEnv (exCfg 3 4 5 20 true true false) r :=
  C104_torch_problems exEnv _ (by norm_num) exStrict (fun a b C h hC => exStrict_eq (by norm_num) a b C h fun i j => (hC.2.2.1 i j).1) r

/-- POT is not installed: reweighting raises NameError, in both modes. -/
example (r : ℕ) (det : Bool) : torchConstruct (withSolver exEnv fun _ _ _ => .error .nameError) (exCfg 3 4 5 20 det true false) r
    = .error .nameError :=
  (C104_no_solver (withSolver exEnv fun _ _ _ => .error .nameError) (exCfg 3 4 5 20 det true false) (by norm_num) rfl .nameError
    (fun _ _ _ _ => rfl) _ rfl (fun _ => ⟨by norm_num, by simp⟩) r).2 _ (exCfg_torchGrid 3 4 5 20 det true false)
    (by rw [exCfg_grid]; norm_num)

/-- Without reweighting it does not matter. -/
example (r : ℕ) : ∃ o r', torchConstruct (withSolver exEnv fun _ _ _ => .error .nameError) (exFan 3 4 5 20) r = .ok (o, r') := by
  rw [(C104_not_consulted exEnv (exFan 3 4 5 20) rfl (fun _ _ _ => .error .nameError) r).2]
  obtain ⟨o, r', h, -⟩ := ex_torch 3 4 5 20 (by norm_num) (by norm_num) (by norm_num) r
  exact ⟨o, r', h⟩

/-- A solver that gives up on small costs: the run is the same or a ValueError. -/
example (r : ℕ) : ∃ S : {n : ℕ} → (Fin n → ℝ) → (Fin n → ℝ) → Mat n n ℝ → Except PyErr (Mat n n ℝ),
    (S (fun _ : Fin 1 => 0) (fun _ => 0) (fun _ _ => 0) = .error .valueError) ∧
    (construct (withSolver exEnv S) (exCfg 3 4 5 20 true true false) r = construct exEnv (exCfg 3 4 5 20 true true false) r ∨
      construct (withSolver exEnv S) (exCfg 3 4 5 20 true true false) r = .error .valueError) := by
  classical
  refine ⟨fun {n} a b C => if ∀ i j, C i j ≤ 1/10 then .error .valueError else exEnv.emd a b C, if_pos fun _ _ => by norm_num,
    (C104_failure exEnv _ .valueError _ (fun n a b C => ?_) r).1⟩
  by_cases h : ∀ i j, C i j ≤ 1/10
  · exact .inr (if_pos h)
  · exact .inl (if_neg h)

/-- The strict solver and the query of a control. -/
example (o : Obj 3 4 5 ℝ) (x : Mat 2 3 ℝ) (ti : Int) : calculateU (withSolver exEnv exStrict) o x ti = calculateU exEnv o x ti :=
  (C104_queries exEnv o exStrict x ti).1

end DPFC
