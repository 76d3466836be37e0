import Verif.Lib.LiftTorchRun
import Verif.Lib.LiftTorchFail
import Verif.Lib.Fan
import Verif.Props.Embeds
import Verif.Props.TorchControl
import Verif.Props.Coverage
import Verif.Props.Pins

/-!
# C65 for the torch class: runs and queries with NaN and infinities

An arithmetic `K` with NaN and infinities that contains the real numbers (`Embeds em`): a deterministic torch run in exact
arithmetic is the run in `K`. In contrast to the numpy class nothing has to be assumed about the forward flow.
-/

namespace DPFC
open Spec

section
variable {K ρ : Type} [Add K] [Sub K] [Mul K] [Div K] [Neg K] [NumOps K]
variable {em : ℝ → K} {N M d n m : ℕ}

/-- **C65** (torch). If the exact deterministic run (not with reweighting and Brownian bridge together; with reweighting,
a solver that returns transport plans) returns an object with three or more grid points, and the backward clouds but the
first two and the last have spread, then the run in `K` with the same arguments and random stream returns the same flows
and leaves the generator in the same state. -/
theorem C65_torch_exact_run (hK : Embeds em) (env : Env ρ ℝ) (env' : Env ρ K) (he : SameEnv em env env')
    (hd : 0 < d) (c : Cfg d N M ℝ) (c' : Cfg d N M K) (hc : SameCfg em c c')
    (hdet : c.deterministic = true) (hs : c.reweight = true → SolverCouples env)
    (hbb : (c.reweight && c.brownBridge) = false) (r r' : ρ) (o : Obj d N M ℝ)
    (hr : torchConstruct env c r = .ok (o, r')) (hk : 3 ≤ o.timegrid.length)
    (hB : ∀ i b, 2 ≤ i → i + 2 ≤ o.B.length → o.B[i]? = some b → Spread b) :
    ∃ o', torchConstruct env' c' r = .ok (o', r') ∧ SameObj em o o' := by
  have hN : 2 ≤ N := by
    have hl := (C08_storage_sizes env c hd r r' o (.inr hr)).1
    obtain ⟨p, q, hpq⟩ := torch_slices_spread hdet hr hk 1 le_rfl _
      (List.getElem?_eq_getElem (by omega : 1 < o.Z.length)) ⟨0, hd⟩
    have h1 := p.2
    have h2 := q.2
    have : p ≠ q := fun e => by rw [e] at hpq; exact lt_irrefl _ hpq
    have : p.val ≠ q.val := fun e => this (Fin.ext e)
    omega
  exact Lift.lift_torchConstruct_det hK he hN hd hc hdet hs hbb hr hk hB

/-- **C65** (torch, control queries). Let `o` and `o'` be the objects of an exact run and of the run in `K`, with the same
slices. If the slices with index `ti` of the backward flow and of the flow it is compared with have spread, then
`calculate_u` in `K` has the outcome of the exact query (result, exception and generator state), for every tensor of
points. -/
theorem C65_torch_exact_control (hK : Embeds em) (env : Env ρ ℝ) (env' : Env ρ K) (he : SameEnv em env env') (hN : 2 ≤ N)
    (c : Cfg d N M ℝ) (c' : Cfg d N M K) (hc : SameCfg em c c') (r r1 r2 : ρ) (o : Obj d N M ℝ) (o' : Obj d N M K)
    (hr : torchConstruct env c r = .ok (o, r1)) (hr' : torchConstruct env' c' r = .ok (o', r2)) (hs : SameObj em o o')
    (x : Mat n m ℝ) (ti : Int) (hb : ∀ b, pyAt o.B ti = some b → Spread b)
    (hz : ∀ z, reference o ti = some z → Spread z) (q : ρ) :
    torchCalculateU env' o' (emM em x) ti q
      = (torchCalculateU env o x ti q).map fun p => (⟨p.1.n, p.1.m, emM em p.1.val⟩, p.2) := by
  have e := (torchConstruct_fields hr).1
  have e' := (torchConstruct_fields hr').1
  rw [Lift.torchCalculateU hK he hN hs (by rw [e, e', hc.reweight]) (by rw [e, e', hc.brownBridge])
    (by rw [e, e', hc.kern]) x ti hb hz, RandM.bind_app]
  rcases torchCalculateU env o x ti q with e | ⟨u, q'⟩ <;> rfl

/-- **C65** (torch, coverage queries). `check_if_covered` in `K` has the outcome of the exact query, whatever the spread. -/
theorem C65_torch_exact_coverage (hK : Embeds em) (o : Obj d N M ℝ) (o' : Obj d N M K) (hs : SameObj em o o')
    (X : Fin m → ℝ) (ti : Int) : torchCheckIfCovered o' (emV em X) ti = torchCheckIfCovered o X ti :=
  Lift.torchCheckIfCovered hK hs X ti

/-- **C65** (torch, failures). If the exact deterministic run raises (`dim >= 2`, at least two particles and three grid
points, known kernel, no reweighting), then it raises ValueError and the run in `K` with the same arguments and random
stream raises ValueError as well: a degenerate cloud is reported and never stored. -/
theorem C65_torch_exact_failure (hK : Embeds em) (env : Env ρ ℝ) (env' : Env ρ K) (he : SameEnv em env env') (hN : 2 ≤ N)
    (hd : 2 ≤ d) (c : Cfg d N M ℝ) (c' : Cfg d N M K) (hc : SameCfg em c c') (hdet : c.deterministic = true)
    (hr : c.reweight = false) (hk : KnownKernel c.kern) (grid : List ℝ) (hg : torchGrid c.t1 c.t2 = .ok grid)
    (h3 : 3 ≤ grid.length) (r : ρ) (e : PyErr) (hfail : torchConstruct env c r = .error e) :
    e = .valueError ∧ torchConstruct env' c' r = .error .valueError :=
  Lift.lift_torchFails hK he hN hd hc hdet hr hk grid hg h3 r e hfail

end

/-- The fanning cloud over the extended reals: the whole run, the control at an interior index, a coverage query. -/
example (r : ℕ) (x : Mat 2 3 ℝ) : letI := XR.xops
    ∃ o o' r', torchConstruct (XR.liftEnv exEnv) (XR.liftCfg (exFan 3 4 5 20)) r = .ok (o', r') ∧
      torchConstruct exEnv (exFan 3 4 5 20) r = .ok (o, r') ∧
      (∃ u q, torchCalculateU (XR.liftEnv exEnv) o' (emM XR.fin x) 10 r' = .ok (⟨3, 2, emM XR.fin u⟩, q)) ∧
      ∃ a, torchCheckIfCovered o' (emV XR.fin fun _ : Fin 3 => 0) 7 = .ok a := by
  letI := XR.xops
  obtain ⟨o, r', h, hl⟩ := ex_torch 3 4 5 20 (by norm_num) (by norm_num) (by norm_num) r
  have hlen := C08_storage_sizes exEnv _ (by norm_num) r r' o (.inr h)
  have hF := fun i z (hi : 1 ≤ i) hz =>
    fan_torch_spread 4 5 3 20 (by norm_num) (by norm_num) r r' (by norm_num) o h hl i hi z hz
  have hB := fun i b (h1 : 1 ≤ i) (h2 : i < 20) hb =>
    fan_torch_backward_spread 4 5 3 20 (by norm_num) r r' (by norm_num) o h hl i h1 h2 b hb
  obtain ⟨o', h1, h2⟩ := C65_torch_exact_run XR.embeds exEnv (XR.liftEnv exEnv) (XR.sameEnv _)
    (by norm_num) (exFan 3 4 5 20) (XR.liftCfg _) (XR.sameCfg _) rfl (fun e => by cases e) rfl r r' o h (by omega)
    (fun i b h1 h2 hb => hB i b (by omega) (by omega) hb)
  have hat : ∀ (l : List (Mat 3 4 ℝ)) (i : ℕ), pyAt l (i : Int) = l[i]? := fun l i => by simp [pyAt]
  have hcfg := (torchConstruct_fields h).1
  have href : ∀ i : ℕ, reference o i = o.Z[i]? := fun i => by
    unfold reference; rw [hcfg, ← hat]; rfl
  have get : ∀ i : ℕ, i < 21 → ∃ b z, o.B[i]? = some b ∧ o.Z[i]? = some z := fun i hi =>
    ⟨_, _, List.getElem?_eq_getElem (by omega), List.getElem?_eq_getElem (by omega)⟩
  refine ⟨o, o', r', h1, h, ?_, ?_⟩
  · obtain ⟨b, z, hb, hz⟩ := get 10 (by norm_num)
    have sb := hB 10 b (by norm_num) (by norm_num) hb
    have sz := hF 10 z (by norm_num) hz
    have hlh : ∀ a, hullLow z b a < hullHigh z b a := fun a =>
      (min_le_right _ _).trans_lt ((lo_lt_hi_of_spread (by norm_num) (sb a)).trans_le (le_max_right _ _))
    obtain ⟨u, q, hu⟩ : ∃ u q, torchCalculateU exEnv o x ((10 : ℕ) : Int) r' = .ok (⟨3, 2, u⟩, q) := ⟨_, _, C39_torch_interior_control exEnv o (by norm_num) (by norm_num) (by rw [hcfg]; exact .inl rfl) x
      ((10 : ℕ) : Int) (by rw [hl]; unfold Edge; norm_num) b z z
      (by rw [hat]; exact hb) (by rw [hat]; exact hz) (by rw [href]; exact hz) hlh r'⟩
    refine ⟨u, q, ?_⟩
    · show torchCalculateU _ o' _ ((10 : ℕ) : Int) r' = _
      rw [C65_torch_exact_control XR.embeds exEnv _ (XR.sameEnv _) (by norm_num) _ _ (XR.sameCfg _) r r' r' o o' h h1 h2 x
        ((10 : ℕ) : Int) (fun w hw => by rw [hat o.B 10, hb] at hw; cases hw; exact sb)
        (fun w hw => by rw [href 10, hz] at hw; cases hw; exact sz) r', hu]
      rfl
  · obtain ⟨b, z, hb, hz⟩ := get 7 (by norm_num)
    obtain ⟨a, ha, _⟩ := C43_torch_coverage o (by norm_num) (fun _ : Fin 3 => (0:ℝ)) ((7 : ℕ) : Int) z b
      (by rw [hat]; exact hz) (by rw [hat]; exact hb)
    exact ⟨a, (C65_torch_exact_coverage XR.embeds o o' h2 _ ((7 : ℕ) : Int)).trans ha⟩

/-- Noise-free runs with linear drift raise ValueError over the extended reals. -/
example (M steps : ℕ) (hs : 2 ≤ steps) (r : ℕ) : letI := XR.xops
    torchConstruct (XR.liftEnv exEnv) (XR.liftCfg (exQuiet 3 4 M steps false)) r = .error .valueError := by
  letI := XR.xops
  obtain ⟨e, h⟩ := C45_no_noise exEnv (exQuiet 3 4 M steps false) (by norm_num) rfl rfl
    ⟨fun p t a => p a + t, fun _ _ _ _ => rfl⟩ (fun h => by cases h)
    (by have := exCfg_grid 3 4 M steps true false false
        change 3 ≤ (mkGrid (exCfg 3 4 M steps true false false).t1 (exCfg 3 4 M steps true false false).t2).length
        rw [this]; omega) r
  have hg : torchGrid (exQuiet 3 4 M steps false).t1 (exQuiet 3 4 M steps false).t2
      = .ok (mkGrid (exQuiet 3 4 M steps false).t1 (exQuiet 3 4 M steps false).t2) :=
    exCfg_torchGrid 3 4 M steps true false false
  have hl : (mkGrid (exQuiet 3 4 M steps false).t1 (exQuiet 3 4 M steps false).t2).length = steps + 1 :=
    exCfg_grid 3 4 M steps true false false
  have hk : KnownKernel (exQuiet 3 4 M steps false).kern := .inl rfl
  exact (C65_torch_exact_failure XR.embeds exEnv (XR.liftEnv exEnv) (XR.sameEnv _) (by norm_num) (by norm_num)
    (exQuiet 3 4 M steps false) (XR.liftCfg _) (XR.sameCfg _) rfl rfl hk _ hg (by omega) r e h).2

end DPFC
