import Verif.Lib.SymReweight
import Verif.Props.Symmetry

/-!
# C70 with reweighting

A path constraint does not break the symmetry: if it is transformed with the problem, the transport problems posed to the
solver in the new coordinates are the old ones with the particles renumbered, because their costs are distances.
-/

namespace DPFC
open Spec

section
variable {ρ ρ' : Type} {N M d n : ℕ}

/-- **C70** (numpy, with reweighting). Deterministic mode, with or without path constraint, with or without Brownian bridge.
Let `c'` be the problem `c` in new coordinates, path constraint and true drift included, let the generator states `r`, `r'`
be coupled and let the solvers agree (up to the numbering of the particles). Then the two constructions raise the same
exception, or both return, on the same time grid, all flows of the second are the transformed flows of the first, and the
generator states are coupled again. (In exact arithmetic, so without the NaNs of clouds without spread.) -/
theorem C70_numpy_reweighted (S : Symmetry d N M) (env : Env ρ ℝ) (env' : Env ρ' ℝ) (R : ρ → ρ' → Prop)
    (hR : S.Coupled env env' R) (he : S.SameSolver env env') (c c' : Cfg d N M ℝ) (hc : S.PosesAll c c') (hN : 0 < N)
    (hdet : c.deterministic = true) (hk : c.kern = "RBF" ∨ c.kern = "periodic") (h2 : 2 ≤ (mkGrid c.t1 c.t2).length)
    (r : ρ) (r' : ρ') (hr : R r r') : S.SameOutcome R (construct env c r) (construct env' c' r') :=
  Sym.construct_sim S hR he hc hN hdet (effKern_rbf hk) h2 hr

/-- **C70** (torch, with reweighting). The same for the torch class outside the bridge mode (in which its scores need not
even have the right shape, C64). -/
theorem C70_torch_reweighted (S : Symmetry d N M) (env : Env ρ ℝ) (env' : Env ρ' ℝ) (R : ρ → ρ' → Prop)
    (hR : S.TorchCoupled env env' R) (he : S.SameSolver env env') (c c' : Cfg d N M ℝ) (hc : S.PosesAll c c') (hN : 0 < N)
    (hd : 2 ≤ d) (hdet : c.deterministic = true) (hk : c.kern = "RBF" ∨ c.kern = "periodic")
    (hb : c.reweight = false ∨ c.brownBridge = false)
    (t : List ℝ) (hg : torchGrid c.t1 c.t2 = .ok t) (h2 : 2 ≤ t.length)
    (r : ρ) (r' : ρ') (hr : R r r') : S.SameOutcome R (torchConstruct env c r) (torchConstruct env' c' r') :=
  Sym.torchConstruct_sim S hR he hc hN hd hdet (effKern_rbf hk) (by rcases hb with h | h <;> simp [h]) hg h2 hr

/-- **C70** (control, Brownian bridge). At the indices where the flows are treated as Gaussian the symmetry of the control
extends to the reweighted bridge mode, in which the true-drift flow plays the role of the forward flow. -/
theorem C70_bridge_edge_control (S : Symmetry d N M) (env : Env ρ ℝ) (env' : Env ρ' ℝ) (o o' : Obj d N M ℝ) (hN : 0 < N)
    (hm : (o'.cfg.reweight && o'.cfg.brownBridge) = (o.cfg.reweight && o.cfg.brownBridge))
    (hg : o'.timegrid = o.timegrid) (hZ : o'.Z = o.Z.map S.cloud) (hB : o'.B = o.B.map S.cloud)
    (hT : o'.Ztr = o.Ztr.map (List.map S.cloud))
    (x : Mat n d ℝ) (ti : Int) (he : Edge o.timegrid.length ti) (b z zr : Mat d N ℝ) (hb : pyAt o.B ti = some b)
    (hz : pyAt o.Z ti = some z) (hr : reference o ti = some zr) (sb : Spread b) (sz : Spread zr) (r : ρ) (r' : ρ') :
    ∃ u, calculateU env o x ti r = .ok (u, r) ∧
      calculateU env' o' (fun j => S.point (x j)) ti r' = .ok (S.control u, r') := by
  have hb' : pyAt o'.B ti = some (S.cloud b) := by rw [hB, Sym.pyAt_map, hb]; rfl
  have hz' : pyAt o'.Z ti = some (S.cloud z) := by rw [hZ, Sym.pyAt_map, hz]; rfl
  have hr' : reference o' ti = some (S.cloud zr) := by
    unfold reference at hr ⊢
    rw [hm]
    by_cases h : (o.cfg.reweight && o.cfg.brownBridge) = true
    · rw [if_pos h] at hr ⊢
      rw [hT]
      cases hq : o.Ztr with
      | none => rw [hq] at hr; cases hr
      | some T =>
        rw [hq] at hr
        change pyAt T ti = some zr at hr
        change pyAt (T.map S.cloud) ti = _
        rw [Sym.pyAt_map, hr]; rfl
    · rw [if_neg h] at hr ⊢
      rw [hZ, Sym.pyAt_map, hr]; rfl
  obtain ⟨u, h1, h2⟩ := C36_edge_control_formula env o hN x ti he b z zr hb hz hr sb sz r
  obtain ⟨u', h1', h2'⟩ := C36_edge_control_formula env' o' hN (fun j => S.point (x j)) ti (by rw [hg]; exact he) _ _ _
    hb' hz' hr' (Sym.spread S sb) (Sym.spread S sz) r'
  refine ⟨u, h1, ?_⟩
  rw [h1']; congr 2
  funext a j
  unfold Symmetry.control
  rw [h2, h2']
  have hv : ∀ w : Fin d → Fin N → ℝ, variance (S.cloud w a) = variance (w (S.coord a)) := fun w =>
    Sym.variance _ (Sym.sq S a) _
  have hA : ∀ w : Fin d → Fin N → ℝ, avg (S.cloud w a) = S.sign a * avg (w (S.coord a)) := fun w => Sym.avg _ _ _
  rw [hv, hv, hA, hA]
  unfold Symmetry.point
  ring

/-- **C70** (the hypotheses can always be met, with reweighting). Every problem can be posed in the new coordinates, path
constraint and true drift included. -/
theorem C70_posable_all (S : Symmetry d N M) (c : Cfg d N M ℝ) : ∃ c', S.PosesAll c c' := by
  let back : Mat d N ℝ → Mat d N ℝ := fun x a k => S.sign (S.coord.symm a) * x (S.coord.symm a) (S.part.symm k)
  have hback : ∀ x, back (S.cloud x) = x := fun x => by
    funext a k
    show S.sign (S.coord.symm a) * (S.sign (S.coord.symm a) * x (S.coord (S.coord.symm a)) (S.part (S.part.symm k))) = x a k
    rw [← mul_assoc, Sym.mulself, one_mul, Equiv.apply_symm_apply, Equiv.apply_symm_apply]
  let dr : Drift d N ℝ → Drift d N ℝ := fun f => ⟨fun x t => S.cloud (f.call2 (back x) t), none⟩
  have hdr : ∀ f x t, (dr f).call2 (S.cloud x) t = S.cloud (f.call2 x t) := fun f x t => by
    show S.cloud (f.call2 (back (S.cloud x)) t) = _
    rw [hback]
  refine ⟨{ c with
    y1 := S.point c.y1
    y2 := S.point c.y2
    f := dr c.f
    U := c.U.map fun U => ⟨fun x t k => U.call2 (back x) t (S.part k), none⟩
    fTrue := c.fTrue.map dr }, rfl, hdr c.f, ?_, ?_⟩
  · cases hU : c.U with
    | none => exact trivial
    | some U =>
      intro x t k
      show U.call2 (back (S.cloud x)) t (S.part k) = _
      rw [hback]
  · cases hf : c.fTrue with
    | none => exact trivial
    | some f => exact hdr f

/-- **C70** (the hypotheses can always be met, with reweighting). Every generator can be given a solver that agrees with a
given one up to the numbering of the particles; the same solver will do if the particles keep their numbers. -/
theorem C70_same_solver (S : Symmetry d N M) (env : Env ρ ℝ) (env' : Env ρ' ℝ) :
    (∃ env'' : Env ρ' ℝ, S.SameSolver env env'' ∧ env''.normal = env'.normal ∧ env''.uniform = env'.uniform) ∧
    (S.part = Equiv.refl _ → (∀ (w b : Fin N → ℝ) D, env'.emd w b D = env.emd w b D) → S.SameSolver env env') := by
  constructor
  · let E : (Fin N → ℝ) → (Fin N → ℝ) → Mat N N ℝ → Except PyErr (Mat N N ℝ) := fun w b D =>
      (env.emd (fun i => w (S.part.symm i)) (fun i => b (S.part.symm i))
        (fun i j => D (S.part.symm i) (S.part.symm j))).map fun T i j => T (S.part i) (S.part j)
    let F : (n : ℕ) → (Fin n → ℝ) → (Fin n → ℝ) → Mat n n ℝ → Except PyErr (Mat n n ℝ) := fun n =>
      if h : n = N then h ▸ E else fun _ _ _ => .error .valueError
    have hF : F N = E := dif_pos rfl
    refine ⟨{ env' with emd := fun {n} => F n }, fun w b D => ?_, rfl, rfl⟩
    show F N _ _ _ = _
    rw [hF]
    show (env.emd (fun i => w (S.part (S.part.symm i))) (fun i => b (S.part (S.part.symm i)))
        (fun i j => D (S.part (S.part.symm i)) (S.part (S.part.symm j)))).map _ = _
    simp only [Equiv.apply_symm_apply]
  · intro hp h w b D
    rw [hp]
    simp only [Equiv.refl_apply, h]
    cases env.emd w b D <;> rfl

end

/-- A reweighted bridge run of the numpy class on 21 grid points, all symmetries at work, and its image. -/
example (r : ℕ) : ∃ (c' : Cfg 3 4 5 ℝ) (ρ' : Type) (env' : Env ρ' ℝ) (r' r1' : ρ') (o o' : Obj 3 4 5 ℝ)
    (r1 : ℕ), exSym.PosesAll (exCfg 3 4 5 20 true true true) c' ∧ c'.reweight = true ∧
    construct exEnv (exCfg 3 4 5 20 true true true) r = .ok (o, r1) ∧ construct env' c' r' = .ok (o', r1') ∧
    o'.Z = o.Z.map exSym.cloud ∧ o'.B = o.B.map exSym.cloud ∧ o'.Ztr = o.Ztr.map (List.map exSym.cloud) := by
  obtain ⟨c', hc⟩ := C70_posable_all exSym (exCfg 3 4 5 20 true true true)
  obtain ⟨ρ', env1, R, hR, hr⟩ := (C70_coupled_generator exSym (by norm_num) (by norm_num) (by norm_num) exEnv).1
  obtain ⟨⟨env', hs, hn, hu⟩, -⟩ := C70_same_solver exSym exEnv env1
  have hR' : exSym.Coupled exEnv env' R := by
    cases env'; cases hn; cases hu
    exact ⟨hR.normals, hR.normalsNext, hR.unifs, hR.unifsNext⟩
  obtain ⟨r', hr⟩ := hr r
  obtain ⟨o, r1, h, hl⟩ := ex_det 3 4 5 20 true true (by norm_num) (by norm_num) r
  have key := C70_numpy_reweighted exSym exEnv env' R hR' hs _ c' hc (by norm_num) rfl (.inl rfl)
    (by rw [exCfg_grid]; norm_num) r r' hr
  rw [h] at key
  cases h' : construct env' c' r' with
  | error e => rw [h'] at key; exact key.elim
  | ok p =>
    rw [h'] at key
    exact ⟨c', ρ', env', r', p.2, o, p.1, r1, hc, by rw [hc.same]; rfl, h, h', key.2.1, key.2.2.1, key.2.2.2.1⟩

/-- A reweighted torch problem and its image, particles not renumbered, the same solver: the outcomes correspond. -/
example (r : ℕ) : ∃ (S : Symmetry 3 4 5) (c' : Cfg 3 4 5 ℝ) (ρ' : Type) (env' : Env ρ' ℝ) (r' : ρ') (R : ℕ → ρ' → Prop),
    S.sign 0 = -1 ∧ S.coord 1 = 2 ∧ S.PosesAll (exCfg 3 4 5 20 true true false) c' ∧ c'.reweight = true ∧
    S.SameOutcome R (torchConstruct exEnv (exCfg 3 4 5 20 true true false) r) (torchConstruct env' c' r') := by
  let S : Symmetry 3 4 5 := { exSym with part := Equiv.refl _ }
  obtain ⟨c', hc⟩ := C70_posable_all S (exCfg 3 4 5 20 true true false)
  obtain ⟨ρ', env1, R, hR, hr⟩ := (C70_coupled_generator S (by norm_num) (by norm_num) (by norm_num) exEnv).2
  let env' : Env ρ' ℝ := { env1 with emd := exEnv.emd }
  have hR' : S.TorchCoupled exEnv env' R := ⟨hR.normals, hR.normalsNext, hR.unifs, hR.unifsNext⟩
  obtain ⟨r', hr⟩ := hr r
  exact ⟨S, c', ρ', env', r', R, rfl, rfl, hc, by rw [hc.same]; rfl,
    C70_torch_reweighted S exEnv env' R hR' ((C70_same_solver S exEnv env').2 rfl fun _ _ _ => rfl) _ c' hc (by norm_num)
      (by norm_num) rfl (.inl rfl) (.inr rfl) _ (exCfg_torchGrid 3 4 5 20 true true false)
      (by rw [exCfg_grid]; norm_num) r r' hr⟩

end DPFC
