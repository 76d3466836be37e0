import Verif.Props.Hard
import Verif.Lib.TorchFlow
import Verif.Lib.RecReal2
import Verif.Lib.Obj

/-!
# Property C109 for whole runs of the torch class
-/

set_option linter.unusedVariables false

namespace DPFC
open Spec Hard
attribute [local instance] XR.xops

variable {ρ : Type} {d N M : ℕ}

/-- Step `i` of a torch run before reweighting: `x` is what the step makes of slice `z`. -/
def TorchMovedTo (env : Env ρ XR) (c : Cfg d N M XR) (i : ℕ) (t : XR) (z x : Mat d N XR) : Prop :=
  ∃ r r' : ρ, (if c.deterministic = false ∨ i = 1 then noisyStep env c.g c.f z (t - dtc)
    else torchOttoStep env M c.g c.f z (t - dtc)) r = .ok (x, r')

/-- **C109** (whole torch run, convex walls). Let the constraint be a number inside the convex set `S` and minus infinity
outside. In a deterministic torch construction with reweighting, whenever the step from slice `i` gives a cloud of
numbers, not all particles in one place, with at least one particle in `S`, all particles of the stored slice `i+1` are
in `S`. -/
theorem C109_torch_convex_wall (env : Env ρ XR) (hs : SolverCouplesX env) (c : Cfg d N M XR)
    (hdet : c.deterministic = true) (hrw : c.reweight = true) (U : Constraint d N XR) (hU : c.U = some U)
    (S : Set (Fin d → ℝ)) (hS : Convex ℝ S)
    (hin : ∀ X t n, particle X n ∈ S → ∃ v, U.call2 (cloudOf X) t n = .fin v)
    (hout : ∀ X t n, particle X n ∉ S → U.call2 (cloudOf X) t n = .ninf)
    (r r' : ρ) (o : Obj d N M XR) (h : torchConstruct env c r = .ok (o, r'))
    (i : ℕ) (t : XR) (z z' : Mat d N XR) (ht : o.timegrid[i+1]? = some t) (hz : o.Z[i]? = some z)
    (hz' : o.Z[i+1]? = some z') :
    ∃ x, TorchMovedTo env c (i+1) t z x ∧ ∀ X, x = cloudOf X → (∃ a b, sqdist X a b ≠ 0) → (∃ n, particle X n ∈ S) →
      ∃ Y, z' = cloudOf Y ∧ ∀ n, particle Y n ∈ S := by
  classical
  obtain ⟨_, hg, _⟩ := torchConstruct_fields h
  obtain ⟨grid, hgr⟩ : ∃ grid, grid = o.timegrid := ⟨_, rfl⟩
  rw [← hgr] at hg ht
  have hk : 2 ≤ grid.length := by
    have := (List.getElem?_eq_some_iff.1 ht).1
    omega
  obtain ⟨ys, r1, zt, r2, bs, h1, _, _, rfl⟩ := (torchConstruct_det_iff env c hdet _ hg hk r r' o).1 h
  obtain ⟨hl, rs, _, _, hstep⟩ := chain_ok_iff.1 h1
  have hst := hstep i t z z' (by simpa using ht) hz hz'
  obtain ⟨x, r3, hx, hy⟩ := RandM.bind_ok.1 ((congrFun (torchOttoSlice_bind env c (1+i) t z) (rs i)).symm.trans hst)
  simp only [if_pos hrw] at hy
  have hy' : torchOttoRw env c.U x t = .ok z' := (RandM.lift_ok.1 hy).1
  refine ⟨x, ⟨rs i, r3, by simpa [hdet, Nat.add_comm i 1] using hx⟩, ?_⟩
  rintro X rfl hX ⟨n0, hn0⟩
  rw [hU] at hy'
  choose v hv using fun n (hn : particle X n ∈ S) => hin X t n hn
  have hF : Forbids (Finset.univ.filter fun n => particle X n ∈ S)
      (fun n => if hn : particle X n ∈ S then v n hn else 0) fun n => U.call2 (cloudOf X) t n :=
    ⟨fun n hn => by
      have hn' : particle X n ∈ S := by simpa using hn
      simp only [dif_pos hn']; exact hv n hn',
     fun n hn => hout X t n (by simpa using hn)⟩
  obtain ⟨Y, hY, _, hc⟩ := Hard.C109_torch env hs X hX _ (Finset.univ.filter fun n => particle X n ∈ S)
    ⟨n0, by simpa using hn0⟩ _ (forbids_dt hF) z' hy'
  exact ⟨Y, hY, hc S hS fun m hm => by simpa using hm⟩

/-- **C109** (whole torch run, stochastic mode): the same, with the constraint called with the particles only. -/
theorem C109_torch_convex_wall_stochastic (env : Env ρ XR) (hs : SolverCouplesX env) (c : Cfg d N M XR) (hd : 2 ≤ d)
    (hdet : c.deterministic = false) (hrw : c.reweight = true) (U : Constraint d N XR) (hU : c.U = some U)
    (u : Mat d N XR → Fin N → XR) (hu : U.call1 = some u)
    (S : Set (Fin d → ℝ)) (hS : Convex ℝ S)
    (hin : ∀ X n, particle X n ∈ S → ∃ v, u (cloudOf X) n = .fin v)
    (hout : ∀ X n, particle X n ∉ S → u (cloudOf X) n = .ninf)
    (r r' : ρ) (o : Obj d N M XR) (h : torchConstruct env c r = .ok (o, r'))
    (i : ℕ) (t : XR) (z z' : Mat d N XR) (ht : o.timegrid[i+1]? = some t) (hz : o.Z[i]? = some z)
    (hz' : o.Z[i+1]? = some z') :
    ∃ x, TorchMovedTo env c (i+1) t z x ∧ ∀ X, x = cloudOf X → (∃ a b, sqdist X a b ≠ 0) → (∃ n, particle X n ∈ S) →
      ∃ Y, z' = cloudOf Y ∧ ∀ n, particle Y n ∈ S := by
  classical
  obtain ⟨_, hg, _⟩ := torchConstruct_fields h
  obtain ⟨grid, hgr⟩ : ∃ grid, grid = o.timegrid := ⟨_, rfl⟩
  rw [← hgr] at hg ht
  have hk : 2 ≤ grid.length := by
    have := (List.getElem?_eq_some_iff.1 ht).1
    omega
  obtain ⟨ys, r1, bs, h1, _, rfl⟩ := (torchConstruct_stoch_iff env c hdet _ hg hk hd r r' o).1 h
  obtain ⟨hl, rs, _, _, hstep⟩ := chain_ok_iff.1 h1
  have hst := hstep i t z z' (by simpa using ht) hz hz'
  obtain ⟨x, r3, hx, hy⟩ := RandM.bind_ok.1 hst
  simp only [if_pos hrw] at hy
  have hy' : torchStochRw env c.U x = .ok z' := (RandM.lift_ok.1 hy).1
  refine ⟨x, ⟨rs i, r3, by simpa [hdet] using hx⟩, ?_⟩
  rintro X rfl hX ⟨n0, hn0⟩
  rw [hU] at hy'
  simp only [torchStochRw, hu] at hy'
  choose v hv using fun n (hn : particle X n ∈ S) => hin X n hn
  obtain ⟨Y, hY, _, hc⟩ := Hard.C109_torch env hs X hX _ (Finset.univ.filter fun n => particle X n ∈ S)
    ⟨n0, by simpa using hn0⟩ (fun n => if hn : particle X n ∈ S then v n hn else 0)
    ⟨fun n hn => by
      have hn' : particle X n ∈ S := by simpa using hn
      simp only [dif_pos hn']; exact hv n hn',
     fun n hn => hout X n (by simpa using hn)⟩ z' hy'
  exact ⟨Y, hY, hc S hS fun m hm => by simpa using hm⟩

/-! ### A wall in the plane -/

/-- Two particles that start at 0 without drift, one time step of unit noise, a wall: positive first coordinates are
forbidden. -/
noncomputable def wallU2 : Constraint 2 2 XR where
  call2 x _ := fun n => if (x 0 n).val ≤ 0 then .fin 5 else .ninf
  call1 := some fun x n => if (x 0 n).val ≤ 0 then .fin 5 else .ninf

@[inherit_doc wallU2] noncomputable def wallCfg2 (det : Bool) : Cfg 2 2 1 XR where
  t1 := .fin 0
  t2 := .fin (1/1000)
  y1 := fun _ => .fin 0
  y2 := fun _ => .fin 0
  f := ⟨fun _ _ _ _ => .fin 0, none⟩
  g := .fin 1
  reweight := true
  U := some wallU2
  densEst := "score"
  reject := false
  kern := "RBF"
  fTrue := none
  brownBridge := false
  deterministic := det

/-- The positions after the noisy step: the second particle is behind the wall. -/
noncomputable def wallX2 : Fin 2 → Fin 2 → ℝ := fun a n => Real.sqrt (1/1000) * ((2 * a.val + n.val : ℕ) : ℝ)

theorem wallX2_spread : ∃ i j, sqdist wallX2 i j ≠ 0 := by
  refine ⟨0, 1, ?_⟩
  have h : Real.sqrt (1/1000) ≠ 0 := (Real.sqrt_pos.2 (by norm_num)).ne'
  have : sqdist wallX2 0 1 = Real.sqrt (1/1000) ^ 2 * 2 := by
    simp only [sqdist, wallX2, Fin.sum_univ_two]
    norm_num only [Fin.val_zero, Fin.val_one]
    push_cast
    ring
  rw [this]
  positivity

theorem wall_step2 (det : Bool) (t : XR) (z : Mat 2 2 XR) (hz : ∀ a n, z a n = .fin 0) :
    noisyStep optX (wallCfg2 det).g (wallCfg2 det).f z t 0 = .ok (cloudOf wallX2, 4) := by
  have hd : (dtc : XR) = .fin (1/1000) := by
    rw [dtc, XR.embeds.lit]; norm_num
  have e : noisyStep optX (wallCfg2 det).g (wallCfg2 det).f z t 0
      = .ok (fun (i : Fin 2) (n : Fin 2) => XR.fin 0 + dtc * XR.fin 0
        + XR.fin 1 * (lit 0 1 + NumOps.sqrt dtc * .fin ((2 * i.val + n.val : ℕ) : ℝ)), 4) := by
    have : ∀ (i : Fin 2) (n : Fin 2),
        (drawVec (drawVec optX.normal 2) 2 0).1 i n = XR.fin ((2 * i.val + n.val : ℕ) : ℝ) := by
      intro i n
      fin_cases i <;> fin_cases n <;> rfl
    obtain rfl : z = fun _ _ => .fin 0 := by funext a n; exact hz a n
    unfold noisyStep normalMat
    change Except.ok (fun i n => XR.fin 0 + dtc * XR.fin 0
      + XR.fin 1 * (lit 0 1 + NumOps.sqrt dtc * (drawVec (drawVec optX.normal 2) 2 0).1 i n), _) = _
    simp only [this]
    rfl
  rw [e]
  congr 2
  funext i n
  rw [hd, x_zero, XR.embeds.sqrt _ (by norm_num), XR.embeds.mul, XR.embeds.mul, XR.embeds.add, XR.embeds.add,
    XR.embeds.mul, XR.embeds.add, cloudOf]
  congr 1
  simp [wallX2]

theorem wallU2_forbids : Forbids {0} (fun _ => 5)
    (fun n : Fin 2 => if (cloudOf wallX2 0 n).val ≤ 0 then XR.fin 5 else .ninf) := by
  refine ⟨fun n hn => ?_, fun n hn => ?_⟩
  · simp at hn; subst hn
    simp [cloudOf, wallX2, XR.val]
  · have h1 : n = 1 := by
      have : n ≠ 0 := by simpa using hn
      omega
    subst h1
    have : ¬ Real.sqrt (1/1000) ≤ 0 := not_le.2 (Real.sqrt_pos.2 (by norm_num))
    exact if_neg (show ¬ wallX2 0 1 ≤ 0 by simpa [wallX2] using this)

theorem wall_reweight2 (v : ℝ) (e : Fin 2 → XR) (u : Fin 2 → XR) (hu : Forbids {0} (fun _ => v) u)
    (he : e = fun n => NumOps.exp (u n)) : ∃ y, torchReweight optX (cloudOf wallX2) e = .ok y := by
  have hA : ({0} : Finset (Fin 2)).Nonempty := ⟨0, by simp⟩
  obtain ⟨s, hs, _, _, h⟩ := torchReweight_hard optX wallX2 wallX2_spread e
  obtain ⟨P, h1, _⟩ := optX_optimal 2 (hardW {0} fun _ => v) (fun _ => 1 / ((2:ℕ):ℝ)) (fun i j => sqdist wallX2 i j / s)
    (hardW_prob hA _) (uniform_prob (by norm_num)) fun i j => div_nonneg (Finset.sum_nonneg fun _ _ => sq_nonneg _) hs.le
  rw [he, normWeights_hard hA _ _ hu, h1] at h
  rw [he]
  exact ⟨_, h⟩

theorem wall_grid2 (det : Bool) :
    torchGrid (wallCfg2 det).t1 (wallCfg2 det).t2 = .ok [.fin 0, .fin (1/1000)] := by
  have h1 : mkGrid (wallCfg2 det).t1 (wallCfg2 det).t2 = (mkGrid (0:ℝ) (1/1000)).map XR.fin := Lift.mkGrid XR.embeds _ _
  have h2 := mkGrid_length_steps 0 1
  rw [show (0:ℝ) + (1:ℕ)/1000 = 1/1000 by norm_num] at h2
  have h3 : mkGrid (0:ℝ) (1/1000) = [0, 1/1000] := by
    refine List.ext_getElem? fun i => ?_
    rcases i with _ | _ | i
    · exact (mkGrid_getElem_real 0 (1/1000) 0 0).2 ⟨by norm_num, by norm_num⟩
    · exact (mkGrid_getElem_real 0 (1/1000) 1 (1/1000)).2 ⟨by norm_num, by norm_num⟩
    · rw [List.getElem?_eq_none (by omega)]; simp
  have hd : (dtc : XR) = .fin (1/1000) := by
    rw [dtc, XR.embeds.lit]; norm_num
  have h4 : torchGrid (wallCfg2 det).t1 (wallCfg2 det).t2 = .ok (torchPoints (wallCfg2 det).t1 (wallCfg2 det).t2) := by
    refine if_neg ?_
    have hl : ((lit 2 1 : XR)) = .fin 2 := by rw [XR.embeds.lit]; norm_num
    change ¬ NumOps.ltB (XR.fin (1/1000) + dtc / lit 2 1) (XR.fin 0) = true
    rw [hl, hd, XR.embeds.div _ _ (by norm_num), XR.embeds.add, XR.embeds.ltB]
    norm_num
  have h5 : (torchPoints (wallCfg2 det).t1 (wallCfg2 det).t2).length = 2 := by
    rw [torchPoints_length, h1, h3]; rfl
  rw [h4]
  congr 1
  refine List.ext_getElem? fun i => ?_
  rcases i with _ | _ | i
  · rw [List.getElem?_eq_getElem (by omega)]
    simp only [torchPoints, arange, List.getElem_map, List.getElem_range]
    change some (XR.fin 0 + lit 0 1 * dtc) = some (.fin 0)
    rw [x_zero, hd, XR.embeds.mul, XR.embeds.add]; norm_num
  · rw [List.getElem?_eq_getElem (by omega)]
    simp only [torchPoints, arange, List.getElem_map, List.getElem_range]
    change some (XR.fin 0 + lit 1 1 * dtc) = some (.fin (1/1000))
    have hl : ((lit 1 1 : XR)) = .fin 1 := by rw [XR.embeds.lit]; norm_num
    rw [hl, hd, XR.embeds.mul, XR.embeds.add]; norm_num
  · rw [List.getElem?_eq_none (by omega)]; simp

/-- The construction succeeds in both modes, the step puts a particle behind the wall, and the stored slice is in front
of it. -/
example (det : Bool) : ∃ o r' Y, torchConstruct optX (wallCfg2 det) 0 = .ok (o, r') ∧ o.Z[1]? = some (cloudOf Y) ∧
    (∃ n, 0 < wallX2 0 n) ∧ ∀ n, Y 0 n ≤ 0 := by
  have hconv : Convex ℝ {x : Fin 2 → ℝ | x 0 ≤ 0} := fun x hx z hz a b ha hb hab => by
    simp only [Set.mem_ofPred_eq, Pi.add_apply, Pi.smul_apply, smul_eq_mul] at *
    nlinarith
  have hpos : ∃ n, 0 < wallX2 0 n := ⟨1, by
    have : 0 < Real.sqrt (1/1000) := Real.sqrt_pos.2 (by norm_num)
    simpa [wallX2] using this⟩
  have hin0 : ∃ n, particle wallX2 n ∈ {x : Fin 2 → ℝ | x 0 ≤ 0} := ⟨0, by simp [particle, wallX2]⟩
  have hg := wall_grid2 det
  cases det with
  | true =>
    obtain ⟨y, hy⟩ := wall_reweight2 _ _ _ (forbids_dt wallU2_forbids) rfl
    have hslice : torchOttoSlice optX (wallCfg2 true) 1 (.fin (1/1000)) (pt 2 (wallCfg2 true).y1) 0 = .ok (y, 4) := by
      rw [torchOttoSlice_bind, if_pos rfl, RandM.bind_app, wall_step2 true _ (pt 2 (wallCfg2 true).y1) fun _ _ => rfl]
      change (liftM (torchOttoRw optX (some wallU2) (cloudOf wallX2) (.fin (1/1000))) : RandM ℕ _) 4 = _
      rw [show torchOttoRw optX (some wallU2) (cloudOf wallX2) (.fin (1/1000)) = .ok y from hy]; rfl
    have hc : torchConstruct optX (wallCfg2 true) 0 = .ok (_, _) :=
      (torchConstruct_det_iff optX (wallCfg2 true) rfl _ hg (by simp) 0 4 _).2
        ⟨[y], 4, none, 4, [], RandM.bind_ok.2 ⟨y, 4, hslice, RandM.bind_ok.2 ⟨[], 4, rfl, rfl⟩⟩, rfl, rfl, rfl⟩
    obtain ⟨x, ⟨r, r', hx⟩, hw⟩ := C109_torch_convex_wall optX optX_couples (wallCfg2 true) rfl rfl wallU2 rfl
      {x | x 0 ≤ 0} hconv (fun X t n hn => ⟨5, if_pos (show X 0 n ≤ 0 from hn)⟩)
      (fun X t n hn => if_neg (show ¬ X 0 n ≤ 0 from hn))
      0 4 _ hc 0 (.fin (1/1000)) (pt 2 (wallCfg2 true).y1) y rfl rfl rfl
    obtain ⟨Y, hY, _, hS⟩ := Hard.C109_torch optX optX_couples wallX2 wallX2_spread _ {0} ⟨0, by simp⟩ _
      (forbids_dt wallU2_forbids) y hy
    refine ⟨_, _, Y, hc, by rw [← hY]; rfl, hpos, fun n => hS _ hconv (fun m hm => ?_) n⟩
    simp at hm; subst hm
    simp [particle, wallX2]
  | false =>
    obtain ⟨y, hy⟩ := wall_reweight2 _ _ _ wallU2_forbids rfl
    have hslice : torchStochSlice optX (wallCfg2 false) 1 (.fin (1/1000)) (stochInit 2 (wallCfg2 false).y1) 0
        = .ok (y, 4) := by
      unfold torchStochSlice
      rw [RandM.bind_app, wall_step2 false _ (stochInit 2 (wallCfg2 false).y1) fun a n => by
        have := a.isLt
        exact if_pos (by omega)]
      change (liftM (torchStochRw optX (some wallU2) (cloudOf wallX2)) : RandM ℕ _) 4 = _
      rw [show torchStochRw optX (some wallU2) (cloudOf wallX2) = .ok y from hy]; rfl
    have hc : torchConstruct optX (wallCfg2 false) 0 = .ok (_, _) :=
      (torchConstruct_stoch_iff optX (wallCfg2 false) rfl _ hg (by simp) le_rfl 0 4 _).2
        ⟨[y], 4, [], RandM.bind_ok.2 ⟨y, 4, hslice, RandM.bind_ok.2 ⟨[], 4, rfl, rfl⟩⟩, rfl, rfl⟩
    obtain ⟨x, ⟨r, r', hx⟩, hw⟩ := C109_torch_convex_wall_stochastic optX optX_couples (wallCfg2 false) le_rfl rfl rfl
      wallU2 rfl _ rfl {x | x 0 ≤ 0} hconv (fun X n hn => ⟨5, if_pos (show X 0 n ≤ 0 from hn)⟩)
      (fun X n hn => if_neg (show ¬ X 0 n ≤ 0 from hn))
      0 4 _ hc 0 (.fin (1/1000)) (stochInit 2 (wallCfg2 false).y1) y rfl rfl rfl
    obtain ⟨Y, hY, _, hS⟩ := Hard.C109_torch optX optX_couples wallX2 wallX2_spread _ {0} ⟨0, by simp⟩ _
      wallU2_forbids y hy
    refine ⟨_, _, Y, hc, by rw [← hY]; rfl, hpos, fun n => hS _ hconv (fun m hm => ?_) n⟩
    simp at hm; subst hm
    simp [particle, wallX2]

end DPFC
