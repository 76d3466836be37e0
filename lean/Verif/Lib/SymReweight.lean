import Verif.Lib.Symmetry
import Verif.Spec.SymReweight
import Verif.Lib.FlowReal
import Verif.Lib.RecReal2
import Verif.Lib.TorchReal

/-! Lemmas for C70 with reweighting: a simulation between the runs in the old and in the new coordinates. -/

set_option linter.unusedSectionVars false

namespace DPFC.Sym
open Spec
variable {ρ ρ' : Type} {d N M : ℕ}

/-- From coupled states: the same exception, or corresponding results and coupled states. -/
def Sim {α α' : Type} (A : α → α') (R : ρ → ρ' → Prop) (x : RandM ρ α) (x' : RandM ρ' α') : Prop :=
  ∀ r r', R r r' → match x r, x' r' with
    | .ok (a, q), .ok (a', q') => a' = A a ∧ R q q'
    | .error e, .error e' => e = e'
    | _, _ => False

variable {R : ρ → ρ' → Prop}

theorem Sim.pure {α α' : Type} {A : α → α'} (a : α) : Sim A R (Pure.pure a : RandM ρ α) (Pure.pure (A a) : RandM ρ' α') :=
  fun _ _ h => ⟨rfl, h⟩

theorem Sim.ok {α α' : Type} {A : α → α'} {x : RandM ρ α} {x' : RandM ρ' α'}
    (h : ∀ r r', R r r' → ∃ a q q', x r = .ok (a, q) ∧ x' r' = .ok (A a, q') ∧ R q q') : Sim A R x x' := by
  intro r r' hr
  obtain ⟨a, q, q', h1, h2, h3⟩ := h r r' hr
  rw [h1, h2]
  exact ⟨rfl, h3⟩

theorem Sim.raise {α α' : Type} {A : α → α'} {x : RandM ρ α} {x' : RandM ρ' α'} {e : PyErr}
    (h : ∀ r, x r = .error e) (h' : ∀ r, x' r = .error e) : Sim A R x x' := by
  intro r r' _
  rw [h, h']

theorem Sim.lift {α α' : Type} {A : α → α'} {x : Except PyErr α} {x' : Except PyErr α'} (h : x' = x.map A) :
    Sim A R (liftM x : RandM ρ α) (liftM x' : RandM ρ' α') := by
  intro r r' hr
  subst h
  cases x with
  | error e => exact rfl
  | ok a => exact ⟨rfl, hr⟩

theorem Sim.bind {α α' β β' : Type} {A : α → α'} {B : β → β'} {x : RandM ρ α} {x' : RandM ρ' α'}
    {f : α → RandM ρ β} {f' : α' → RandM ρ' β'} (h : Sim A R x x') (hf : ∀ a, Sim B R (f a) (f' (A a))) :
    Sim B R (x >>= f) (x' >>= f') := by
  intro r r' hr
  have := h r r' hr
  rw [RandM.bind_app, RandM.bind_app]
  revert this
  cases hx : x r with
  | error e =>
    cases hx' : x' r' with
    | error e' => exact fun h => h
    | ok p' => exact fun h => h.elim
  | ok p =>
    cases hx' : x' r' with
    | error e' => exact fun h => h.elim
    | ok p' =>
      rintro ⟨h1, h2⟩
      have := hf p.1 p.2 p'.2 h2
      rw [← h1] at this
      exact this

theorem Sim.chain {τ S S' : Type} {step : Nat → τ → S → RandM ρ S} {τ' : Type} {step' : Nat → τ' → S' → RandM ρ' S'}
    {A : S → S'} (φ : τ → τ') (h : ∀ i t x, Sim A R (step i t x) (step' i (φ t) (A x))) :
    ∀ (ts : List τ) (i : Nat) (x : S), Sim (List.map A) R (chain step i ts x) (chain step' i (ts.map φ) (A x))
  | [], i, x => Sim.pure []
  | t :: ts, i, x => by
    rw [List.map_cons, DPFC.chain, DPFC.chain]
    exact (h i t x).bind fun y => (Sim.chain φ h ts (i+1) y).bind fun ys => Sim.pure (A := List.map A) (y :: ys)

variable (S : Symmetry d N M) {env : Env ρ ℝ} {env' : Env ρ' ℝ}

theorem cloud_mm (x : Mat d N ℝ) (T : Mat N N ℝ) :
    mm (S.cloud x) (fun i j => T (S.part i) (S.part j)) = S.cloud (mm x T) := by
  funext a k
  simp only [mm, real_sum, Symmetry.cloud, Finset.mul_sum, mul_assoc]
  exact Equiv.sum_comp S.part fun i => S.sign a * (x (S.coord a) i * T i (S.part k))

theorem cost (x : Mat d N ℝ) (i j : Fin N) :
    ∑ a, (S.cloud x a i - S.cloud x a j) ^ 2 = ∑ a, (x a (S.part i) - x a (S.part j)) ^ 2 := by
  rw [← Equiv.sum_comp S.coord fun a => (x a (S.part i) - x a (S.part j)) ^ 2]
  refine Finset.sum_congr rfl fun a _ => ?_
  unfold Symmetry.cloud
  rw [← mul_sub, mul_pow, sq, one_mul]

theorem norm_part (e : Fin N → ℝ) : normWeights (fun k => e (S.part k)) = fun k => normWeights e (S.part k) := by
  funext k
  simp only [normWeights, real_sum]
  rw [Equiv.sum_comp S.part e]

theorem rw_np (he : S.SameSolver env env') {U U' : Option (Constraint d N ℝ)} (hU : S.SameCost U U') (x : Mat d N ℝ) (t : ℝ) :
    ottoReweight env' U' (S.cloud x) t = (ottoReweight env U x t).map S.cloud := by
  match U, U', hU with
  | none, none, _ => rfl
  | some U, some U', hU =>
    have hw : (normWeights fun n => NumOps.exp (U'.call2 (S.cloud x) t n * dtc))
        = fun k => normWeights (fun n => NumOps.exp (U.call2 x t n * dtc)) (S.part k) := by
      rw [← norm_part]
      congr 1
      funext k
      rw [hU]
    have hD : (fun i j => if i = j then lit 0 1 else
          NumOps.sqrt (NumOps.sum fun k => DPFC.sq (tr (S.cloud x) i k - tr (S.cloud x) j k)))
        = fun i j => (fun i j => if i = j then (lit 0 1 : ℝ) else
          NumOps.sqrt (NumOps.sum fun k => DPFC.sq (tr x i k - tr x j k))) (S.part i) (S.part j) := by
      funext i j
      simp only [real_sum, real_sq, tr, cost, EmbeddingLike.apply_eq_iff_eq]
    unfold ottoReweight
    simp only [reweightOT]
    rw [hD, hw]
    have := he (normWeights fun n => NumOps.exp (U.call2 x t n * dtc)) (fun _ => lit 1 1 / lit N 1)
      (fun i j => if i = j then (lit 0 1 : ℝ) else NumOps.sqrt (NumOps.sum fun k => DPFC.sq (tr x i k - tr x j k)))
    rw [this]
    cases env.emd (normWeights fun n => NumOps.exp (U.call2 x t n * dtc)) (fun _ => lit 1 1 / lit N 1)
      (fun i j => if i = j then (lit 0 1 : ℝ) else NumOps.sqrt (NumOps.sum fun k => DPFC.sq (tr x i k - tr x j k))) with
    | error e => rfl
    | ok T => exact congrArg Except.ok (cloud_mm S x fun i j => T i j * lit N 1)

theorem noisy_sim (hc : S.Coupled env env' R ∨ S.TorchCoupled env env' R) {f f' : Drift d N ℝ}
    (hf : ∀ x t, f'.call2 (S.cloud x) t = S.cloud (f.call2 x t)) (g : ℝ) (x : Mat d N ℝ) (t : ℝ) :
    Sim S.cloud R (noisyStep env g f x t) (noisyStep env' g f' (S.cloud x) t) := by
  refine Sim.ok fun r r' hr => ⟨_, _, _, noisyStep_real _ _ _ _ _ _, ?_, hc.elim (fun h => h.normalsNext _ _ hr)
    fun h => h.normalsNext _ _ hr⟩
  rw [noisyStep_real, hc.elim (fun h => h.normals _ _ hr) fun h => h.normals _ _ hr, hf]
  congr 2
  funext a k
  unfold Symmetry.cloud
  ring

theorem otto_sim (hc : S.Coupled env env' R) (hN : 0 < N) (pl : Bool) {f f' : Drift d N ℝ}
    (hf : ∀ x t, f'.call2 (S.cloud x) t = S.cloud (f.call2 x t)) (g : ℝ) (x : Mat d N ℝ) (t : ℝ) :
    Sim S.cloud R (ottoStep pl env M "RBF" g f x t) (ottoStep pl env' M "RBF" g f' (S.cloud x) t) := by
  refine Sim.ok fun r r' hr => ⟨_, _, _, ottoStep_real _ _ hN _ _ _ _ _, ?_, hc.unifsNext _ _ hr⟩
  rw [ottoStep_real _ _ hN, hf, flowScore S x (hc.unifs _ _ hr)]
  congr 2
  funext a k
  unfold Symmetry.cloud
  ring

theorem back_sim {dens bw : Mat d N ℝ → Mat d N ℝ → RandM ρ (Mat d N ℝ)}
    {dens' bw' : Mat d N ℝ → Mat d N ℝ → RandM ρ' (Mat d N ℝ)}
    (hc : S.Coupled env env' R ∨ S.TorchCoupled env env' R)
    (h1 : ∀ z b, Sim S.cloud R (dens z b) (dens' (S.cloud z) (S.cloud b)))
    (h2 : ∀ z b, Sim S.cloud R (bw z b) (bw' (S.cloud z) (S.cloud b)))
    {f f' : Drift d N ℝ} (hf : ∀ x t, f'.call2 (S.cloud x) t = S.cloud (f.call2 x t)) (g : ℝ) (det : Bool) (i : ℕ)
    (zt : Mat d N ℝ × ℝ) (b : Mat d N ℝ) :
    Sim S.cloud R (backStep env dens bw f g det i zt b)
      (backStep env' dens' bw' f' g det i (Prod.map S.cloud id zt) (S.cloud b)) := by
  unfold backStep
  refine (h1 zt.1 b).bind fun gro => ?_
  have e : (Prod.map S.cloud id zt).2 = zt.2 := rfl
  by_cases h : (i = 1 ∧ det = true) ∨ det = false
  · rw [if_pos h, if_pos h]
    refine Sim.ok fun r r' hr => ?_
    simp only [RandM.bind_app, normalMat_real, RandM.pure_app]
    refine ⟨_, _, _, rfl, ?_, hc.elim (fun h => h.normalsNext _ _ hr) fun h => h.normalsNext _ _ hr⟩
    rw [hc.elim (fun h => h.normals _ _ hr) fun h => h.normals _ _ hr, e, hf]
    congr 2
    funext a k
    unfold Symmetry.cloud
    ring
  · rw [if_neg h, if_neg h]
    refine (h2 zt.1 b).bind fun grb => ?_
    rw [e, hf]
    intro r r' hr
    refine ⟨?_, hr⟩
    funext a k
    unfold Symmetry.cloud
    ring

theorem visits_map' (Z : Traj d N ℝ) (grid : List ℝ) :
    visits (Z.map S.cloud) grid = (visits Z grid).map (Prod.map S.cloud id) := by
  unfold visits
  rw [List.map_reverse, List.map_drop]
  congr 2
  conv_lhs => rw [← List.map_id grid]
  exact List.zip_map

theorem sameOutcome {x : RandM ρ (Obj d N M ℝ)} {x' : RandM ρ' (Obj d N M ℝ)}
    {r : ρ} {r' : ρ'} {c' : Cfg d N M ℝ} (hr : R r r')
    (h : Sim (fun o => ⟨c', o.timegrid, o.Z.map S.cloud, o.B.map S.cloud, o.Ztr.map (List.map S.cloud)⟩) R x x') :
    S.SameOutcome R (x r) (x' r') := by
  have := h r r' hr
  revert this
  cases x r with
  | error e =>
    cases x' r' with
    | error e' => exact fun h => h
    | ok p' => exact fun h => h.elim
  | ok p =>
    cases x' r' with
    | error e' => exact fun h => h.elim
    | ok p' =>
      obtain ⟨o, q⟩ := p
      obtain ⟨o', q'⟩ := p'
      rintro ⟨rfl, h2⟩
      exact ⟨rfl, rfl, rfl, rfl, h2⟩

/-- The deterministic numpy constructor, reweighting included. -/
theorem construct_sim (hR : S.Coupled env env' R) (he : S.SameSolver env env') {c c' : Cfg d N M ℝ} (hc : S.PosesAll c c')
    (hN : 0 < N) (hdet : c.deterministic = true) (hk : effKern c.kern = "RBF")
    (h2 : 2 ≤ (mkGrid c.t1 c.t2).length) {r : ρ} {r' : ρ'} (hr : R r r') :
    S.SameOutcome R (construct env c r) (construct env' c' r') := by
  have e := hc.same
  have e1 : c'.t1 = c.t1 := by rw [e]
  have e2 : c'.t2 = c.t2 := by rw [e]
  have e3 : c'.deterministic = c.deterministic := by rw [e]
  have e4 : c'.reweight = c.reweight := by rw [e]
  have e5 : c'.kern = c.kern := by rw [e]
  have e6 : c'.brownBridge = c.brownBridge := by rw [e]
  have e7 : c'.g = c.g := by rw [e]
  have e8 : DPFC.pt N c'.y1 = S.cloud (DPFC.pt N c.y1) := by
    have : c'.y1 = S.point c.y1 := by rw [e]
    rw [this]; rfl
  have e9 : DPFC.pt N c'.y2 = S.cloud (DPFC.pt N c.y2) := by
    have : c'.y2 = S.point c.y2 := by rw [e]
    rw [this]; rfl
  refine sameOutcome S (c' := c') hr ?_
  rw [construct_det_eq env c hdet h2, construct_det_eq env' c' (e3.trans hdet) (by rw [e1, e2]; exact h2), e1, e2, e8, e9]
  generalize mkGrid c.t1 c.t2 = t
  have s1 := Sim.chain (R := R) (A := S.cloud) (step := ottoSlice env c) (step' := ottoSlice env' c') id (fun i t x => by
    rw [ottoSlice_bind, ottoSlice_bind, e7, e5, hk, e4]
    refine Sim.bind (A := S.cloud) ?_ fun raw => ?_
    · split
      · exact noisy_sim S (.inl hR) hc.drift _ _ _
      · exact otto_sim S hR hN _ hc.drift _ _ _
    · split
      · exact Sim.lift (rw_np S he hc.cost raw t)
      · exact Sim.pure _) t.tail 1 (DPFC.pt N c.y1)
  rw [List.map_id] at s1
  refine s1.bind fun ys => ?_
  have s2 : Sim (Option.map (List.map S.cloud)) R (trueFlow env c t) (trueFlow env' c' t) := by
    unfold trueFlow
    rw [e4, e6]
    split
    · have := Sim.chain (R := R) (A := S.cloud) (step := trueSlice env c) (step' := trueSlice env' c') id (fun i t x => by
        unfold trueSlice
        have ht := hc.trueDrift
        revert ht
        rcases c.fTrue with _ | f <;> rcases c'.fTrue with _ | f' <;> intro ht
        · exact Sim.raise (e := .typeError) (fun _ => rfl) fun _ => rfl
        · exact ht.elim
        · exact ht.elim
        · simp only
          rw [e7, e5, hk]
          split
          · exact noisy_sim S (.inl hR) ht _ _ _
          · exact otto_sim S hR hN _ ht _ _ _) t.tail 1 (DPFC.pt N c.y1)
      rw [List.map_id] at this
      rw [e8]
      exact this.bind fun zs => Sim.pure (A := Option.map (List.map S.cloud)) (some (DPFC.pt N c.y1 :: zs))
    · exact Sim.pure (A := Option.map (List.map S.cloud)) none
  refine s2.bind fun zt => ?_
  have s3 := Sim.chain (R := R) (A := S.cloud) (step := npBack env c) (step' := npBack env' c') (Prod.map S.cloud id)
    (fun i zt b => by
      unfold npBack
      rw [e5, hk, e7, e3]
      refine back_sim S (.inl hR) (fun z b => ?_) (fun z b => ?_) hc.drift _ _ _ _ _
      · refine Sim.ok fun r r' hr => ⟨_, _, _, densityAt_real _ hN _ _ _, ?_, hR.unifsNext _ _ hr⟩
        rw [densityAt_real _ hN, inducing S (box_meet S (box S z) (box S b)) (hR.unifs _ _ hr), cloudScore]
      · refine Sim.ok fun r r' hr => ⟨_, _, _, bwDensityAt_real _ hN _ _ _, ?_, hR.unifsNext _ _ hr⟩
        rw [bwDensityAt_real _ hN, inducing S (box_meet S (box S z) (box S b)) (hR.unifs _ _ hr), cloudScore])
    (visits (DPFC.pt N c.y1 :: ys) t) 1 (DPFC.pt N c.y2)
  rw [← visits_map', List.map_cons] at s3
  refine s3.bind fun bs => ?_
  intro r r' hr
  refine ⟨?_, hr⟩
  simp [List.map_reverse]

/-! ### Torch -/

theorem box_lt {l h l' h' : Fin d → ℝ} (hb : Box S l h l' h') : (∀ a, l' a < h' a) ↔ ∀ a, l a < h a := by
  have : ∀ a, l' a < h' a ↔ l (S.coord a) < h (S.coord a) := fun a => by
    rcases S.unit a with e | e
    · rw [((hb a).1 e).1, ((hb a).1 e).2]
    · rw [((hb a).2 e).1, ((hb a).2 e).2, neg_lt_neg_iff]
  exact ⟨fun h a => by have := (this (S.coord.symm a)).1 (h _); rwa [Equiv.apply_symm_apply] at this,
    fun h a => (this a).2 (h _)⟩

theorem rw_torch (he : S.SameSolver env env') (hN : 0 < N) {U U' : Option (Constraint d N ℝ)} (hU : S.SameCost U U')
    (x : Mat d N ℝ) (t : ℝ) : torchOttoRw env' U' (S.cloud x) t = (torchOttoRw env U x t).map S.cloud := by
  match U, U', hU with
  | none, none, _ => rfl
  | some U, some U', hU =>
    have hw : (normWeights fun n => NumOps.exp (U'.call2 (S.cloud x) t n * dtc))
        = fun k => normWeights (fun n => NumOps.exp (U.call2 x t n * dtc)) (S.part k) := by
      rw [← norm_part]
      congr 1
      funext k
      rw [hU]
    obtain ⟨n, rfl⟩ : ∃ n, N = n + 1 := ⟨N - 1, by omega⟩
    have hmax : (hi fun i => hi fun j => ∑ k, (S.cloud x k i - S.cloud x k j) ^ 2)
        = hi fun i => hi fun j => ∑ k, (x k i - x k j) ^ 2 := by
      simp only [cost]
      unfold hi
      rw [← S.part.iSup_comp (g := fun i => ⨆ j, ∑ k, (x k i - x k j) ^ 2)]
      refine iSup_congr fun i => ?_
      exact S.part.iSup_comp (g := fun j => ∑ k, (x k (S.part i) - x k j) ^ 2)
    unfold torchOttoRw
    simp only [torchReweight, torchMatMax, Except.ok_bind', real_sum, real_sq, amax_real]
    rw [hw, hmax]
    simp only [cost]
    have := he (normWeights fun n => NumOps.exp (U.call2 x t n * dtc)) (fun _ => lit 1 1 / lit ((n + 1 : ℕ) : ℤ) 1)
      (fun i j => (∑ k, (x k i - x k j) ^ 2) / hi fun i => hi fun j => ∑ k, (x k i - x k j) ^ 2)
    rw [this]
    cases env.emd (normWeights fun n => NumOps.exp (U.call2 x t n * dtc)) (fun _ => lit 1 1 / lit ((n + 1 : ℕ) : ℤ) 1)
      (fun i j => (∑ k, (x k i - x k j) ^ 2) / hi fun i => hi fun j => ∑ k, (x k i - x k j) ^ 2) with
    | error e => rfl
    | ok T =>
      refine congrArg Except.ok ?_
      rw [← cloud_mm]
      congr 1
      funext a k
      unfold Symmetry.cloud
      ring

/-- A torch estimator whose inducing points come from the box `l, h`. -/
theorem tsim {α : Type} (hR : S.TorchCoupled env env' R) {A : α → α} {l h l' h' : Fin d → ℝ} (hb : Box S l h l' h')
    {x : RandM ρ α} {x' : RandM ρ' α}
    (h1 : (∀ a, l a < h a) → ∀ r, ∃ y, x r = .ok (y, tunifsNext env d M r))
    (h1' : (∀ a, l' a < h' a) → ∀ r, ∃ y, x' r = .ok (y, tunifsNext env' d M r))
    (h2 : ¬ (∀ a, l a < h a) → ∀ r, x r = .error .valueError) (h2' : ¬ (∀ a, l' a < h' a) → ∀ r, x' r = .error .valueError)
    (h3 : ∀ r r' y y', R r r' → x r = .ok (y, tunifsNext env d M r) → x' r' = .ok (y', tunifsNext env' d M r') → y' = A y) :
    Sim A R x x' := by
  by_cases hc : ∀ a, l a < h a
  · refine Sim.ok fun r r' hr => ?_
    obtain ⟨y, hy⟩ := h1 hc r
    obtain ⟨y', hy'⟩ := h1' ((box_lt S hb).2 hc) r'
    refine ⟨y, _, _, hy, ?_, hR.unifsNext _ _ hr⟩
    rw [hy', h3 _ _ _ _ hr hy hy']
  · exact Sim.raise (h2 hc) (h2' (mt (box_lt S hb).1 hc))

theorem inducing_bad (env : Env ρ ℝ) {bn : Fin d → ℝ × ℝ} (h : ¬ ∀ a, (bn a).1 < (bn a).2) (r : ρ) :
    torchInducing env bn M r = .error .valueError := by
  push Not at h
  obtain ⟨a, ha⟩ := h
  exact torchInducing_err env bn r a (not_lt.2 ha)

theorem tflow_sim (hR : S.TorchCoupled env env' R) (hN : 0 < N) (hd : 2 ≤ d) {f f' : Drift d N ℝ}
    (hf : ∀ x t, f'.call2 (S.cloud x) t = S.cloud (f.call2 x t)) (g : ℝ) (x : Mat d N ℝ) (t : ℝ) :
    Sim S.cloud R (torchOttoStep env M g f x t) (torchOttoStep env' M g f' (S.cloud x) t) := by
  unfold torchOttoStep
  have key : Sim S.cloud R (torchFSeperate env M g f x t) (torchFSeperate env' M g f' (S.cloud x) t) := by
    have bad : ∀ {ρ : Type} (env : Env ρ ℝ) (f : Drift d N ℝ) (x : Mat d N ℝ), ¬ (∀ a, lo (x a) < hi (x a)) → ∀ r,
        torchFSeperate env M g f x t r = .error .valueError := fun env f x h r => by
      unfold torchFSeperate
      rw [torchBox_real hN, RandM.liftM_ok, pure_bind, RandM.bind_app, inducing_bad env h r]
    refine tsim S hR (box S x) (fun h r => ?_) (fun h r => ?_) (bad env f x) (bad env' f' (S.cloud x)) ?_
    · obtain ⟨s, h⟩ := torchFSeperate_total (M := M) env hN hd g f x t r h
      exact ⟨_, h⟩
    · obtain ⟨s, h⟩ := torchFSeperate_total (M := M) env' hN hd g f' (S.cloud x) t r h
      exact ⟨_, h⟩
    · intro r r' y y' hr h h'
      rw [(torchFSeperate_ok env hN hd g f x y t _ _ h).2.2, (torchFSeperate_ok env' hN hd g f' _ y' t _ _ h').2.2,
        tflowScore S x (hR.unifs _ _ hr), hf]
      funext a k
      unfold Symmetry.cloud
      ring
  refine key.bind fun v => ?_
  intro r r' hr
  refine ⟨?_, hr⟩
  funext a k
  unfold Symmetry.cloud
  ring

theorem tdens_sim (hR : S.TorchCoupled env env' R) (hN : 0 < N) (hd : 2 ≤ d) (z b : Mat d N ℝ) :
    Sim S.cloud R (torchDensityAt env M "RBF" z b) (torchDensityAt env' M "RBF" (S.cloud z) (S.cloud b)) := by
  have hbox : ∀ z b : Mat d N ℝ, (fun a => if lo (b a) = hi (b a) then (lo (z a), hi (z a))
      else (min (lo (z a)) (lo (b a)), max (hi (z a)) (hi (b a)))) = fun a => (tlow z b a, thigh z b a) := by
    intro z b; funext a; unfold tlow thigh; split <;> rfl
  have bad : ∀ {ρ : Type} (env : Env ρ ℝ) (z b : Mat d N ℝ), ¬ (∀ a, tlow z b a < thigh z b a) → ∀ r,
      torchDensityAt env M "RBF" z b r = .error .valueError := fun env z b h r => by
    unfold torchDensityAt
    rw [densityBox_real hN, RandM.liftM_ok, pure_bind, RandM.bind_app, hbox, inducing_bad env h r]
  have good : ∀ {ρ : Type} (env : Env ρ ℝ) (z b : Mat d N ℝ), (∀ a, tlow z b a < thigh z b a) → ∀ r,
      ∃ y, torchDensityAt env M "RBF" z b r = .ok (y, tunifsNext env d M r) := fun env z b h r => by
    unfold torchDensityAt
    rw [densityBox_real hN, RandM.liftM_ok, pure_bind, RandM.bind_app, hbox, torchInducing_real env _ r h]
    simp only
    rw [torchScoreFn_real _ _ _ _ (classify_tensor hd _) (by intro w h; cases h)]
    exact ⟨_, rfl⟩
  refine tsim S hR (box_t S z b) (good env z b) (good env' _ _) (bad env z b) (bad env' _ _) ?_
  intro r r' y y' hr h h'
  rw [(torchDensityAt_ok env hN hd z b y _ _ h).2, (torchDensityAt_ok env' hN hd _ _ y' _ _ h').2,
    tscoreRho S z b (hR.unifs _ _ hr)]

theorem tbw_sim (hR : S.TorchCoupled env env' R) (hN : 0 < N) (hd : 2 ≤ d) (z b : Mat d N ℝ) :
    Sim S.cloud R (torchBwDensityAt env M "RBF" z b) (torchBwDensityAt env' M "RBF" (S.cloud z) (S.cloud b)) := by
  have bad : ∀ {ρ : Type} (env : Env ρ ℝ) (z b : Mat d N ℝ),
      ¬ (∀ a, min (lo (z a)) (lo (b a)) < max (hi (z a)) (hi (b a))) → ∀ r,
      torchBwDensityAt env M "RBF" z b r = .error .valueError := fun env z b h r => by
    unfold torchBwDensityAt
    rw [hullBox_real hN, RandM.liftM_ok, pure_bind, RandM.bind_app, inducing_bad env h r]
  have good : ∀ {ρ : Type} (env : Env ρ ℝ) (z b : Mat d N ℝ),
      (∀ a, min (lo (z a)) (lo (b a)) < max (hi (z a)) (hi (b a))) → ∀ r,
      ∃ y, torchBwDensityAt env M "RBF" z b r = .ok (y, tunifsNext env d M r) := fun env z b h r => by
    unfold torchBwDensityAt
    rw [hullBox_real hN, RandM.liftM_ok, pure_bind, RandM.bind_app, torchInducing_real env _ r h]
    simp only
    rw [torchScore_real _ _ _ _ (classify_tensor hd _)]
    exact ⟨_, rfl⟩
  refine tsim S hR (box_hull S (box S z) (box S b)) (good env z b) (good env' _ _) (bad env z b) (bad env' _ _) ?_
  intro r r' y y' hr h h'
  rw [(torchBwDensityAt_ok env hN hd _ z b y _ _ h).2, (torchBwDensityAt_ok env' hN hd _ _ _ y' _ _ h').2,
    tscoreB S z b (hR.unifs _ _ hr)]

/-- The deterministic torch constructor, reweighting included (but no bridge mode). -/
theorem torchConstruct_sim (hR : S.TorchCoupled env env' R) (he : S.SameSolver env env') {c c' : Cfg d N M ℝ}
    (hc : S.PosesAll c c') (hN : 0 < N) (hd : 2 ≤ d) (hdet : c.deterministic = true) (hk : effKern c.kern = "RBF")
    (hb : (c.reweight && c.brownBridge) = false) {t : List ℝ} (hg : torchGrid c.t1 c.t2 = .ok t)
    (h2 : 2 ≤ t.length) {r : ρ} {r' : ρ'} (hr : R r r') :
    S.SameOutcome R (torchConstruct env c r) (torchConstruct env' c' r') := by
  have e := hc.same
  have e1 : c'.t1 = c.t1 := by rw [e]
  have e2 : c'.t2 = c.t2 := by rw [e]
  have e3 : c'.deterministic = c.deterministic := by rw [e]
  have e4 : c'.reweight = c.reweight := by rw [e]
  have e5 : c'.kern = c.kern := by rw [e]
  have e6 : c'.brownBridge = c.brownBridge := by rw [e]
  have e7 : c'.g = c.g := by rw [e]
  have e8 : DPFC.pt N c'.y1 = S.cloud (DPFC.pt N c.y1) := by
    have : c'.y1 = S.point c.y1 := by rw [e]
    rw [this]; rfl
  have e9 : DPFC.pt N c'.y2 = S.cloud (DPFC.pt N c.y2) := by
    have : c'.y2 = S.point c.y2 := by rw [e]
    rw [this]; rfl
  refine sameOutcome S (c' := c') hr ?_
  rw [torchConstruct_det_eq env c hdet t hg h2,
    torchConstruct_det_eq env' c' (e3.trans hdet) t (by rw [e1, e2]; exact hg) h2, e8, e9]
  have s1 := Sim.chain (R := R) (A := S.cloud) (step := torchOttoSlice env c) (step' := torchOttoSlice env' c') id
    (fun i t x => by
      rw [torchOttoSlice_bind, torchOttoSlice_bind, e7, e4]
      refine Sim.bind (A := S.cloud) ?_ fun raw => ?_
      · split
        · exact noisy_sim S (.inr hR) hc.drift _ _ _
        · exact tflow_sim S hR hN hd hc.drift _ _ _
      · split
        · exact Sim.lift (rw_torch S he hN hc.cost raw t)
        · exact Sim.pure _) t.tail 1 (DPFC.pt N c.y1)
  rw [List.map_id] at s1
  refine s1.bind fun ys => ?_
  have f1 : torchTrueFlow env c t = pure none := by unfold torchTrueFlow; rw [hb]; rfl
  have f2 : torchTrueFlow env' c' t = pure none := by unfold torchTrueFlow; rw [e4, e6, hb]; rfl
  rw [f1, f2]
  refine (Sim.pure (A := Option.map (List.map S.cloud)) none).bind fun zt => ?_
  have s3 := Sim.chain (R := R) (A := S.cloud) (step := torchBack env c) (step' := torchBack env' c')
    (Prod.map S.cloud id) (fun i zt b => by
      unfold torchBack
      rw [e5, hk, e7, e3]
      exact back_sim S (.inr hR) (tdens_sim S hR hN hd) (tbw_sim S hR hN hd) hc.drift _ _ _ _ _)
    (visits (DPFC.pt N c.y1 :: ys) t) 1 (DPFC.pt N c.y2)
  rw [← visits_map', List.map_cons] at s3
  refine s3.bind fun bs => ?_
  intro r r' hr
  refine ⟨?_, hr⟩
  simp [List.map_reverse]

end DPFC.Sym
