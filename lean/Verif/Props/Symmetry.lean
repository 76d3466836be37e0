import Verif.Lib.Symmetry
import Verif.Lib.Fan
import Verif.Props.Control
import Verif.Props.TorchControl

/-!
# C70: mirror images and relabellings

No coordinate, no direction of a coordinate axis, no particle and no inducing point is preferred: posing the problem with
exchanged or mirrored coordinates, and relabelling the particles and inducing points (by feeding the random numbers in the
corresponding order), gives the transformed flows and the transformed control.
-/

namespace DPFC
open Spec

section
variable {ρ ρ' : Type} {N M d n : ℕ}

/-- **C70** (numpy). Deterministic mode, no reweighting. Let `c'` be the problem `c` in new coordinates and let the
generator states `r`, `r'` be coupled. If the run with `c` returns and has spread where scores are estimated, then the run
with `c'` returns, on the same time grid, both its flows are the transformed flows, and the generator states are coupled
again afterwards. -/
theorem C70_numpy_symmetry (S : Symmetry d N M) (env : Env ρ ℝ) (env' : Env ρ' ℝ) (R : ρ → ρ' → Prop)
    (hR : S.Coupled env env' R) (c c' : Cfg d N M ℝ) (hc : S.Poses c c') (hN : 0 < N) (hd : 0 < d)
    (hdet : c.deterministic = true) (hw : c.reweight = false) (hk : c.kern = "RBF" ∨ c.kern = "periodic")
    (r r1 : ρ) (r' : ρ') (hr : R r r') (o : Obj d N M ℝ) (h : construct env c r = .ok (o, r1))
    (h2 : 2 ≤ o.timegrid.length)
    (sZ : ∀ j x, 1 ≤ j → o.Z[j]? = some x → Spread x)
    (sB : ∀ j x, 2 ≤ j → j + 1 < o.timegrid.length → o.B[j]? = some x → Spread x) :
    ∃ o' r1', construct env' c' r' = .ok (o', r1') ∧ R r1 r1' ∧ o'.timegrid = o.timegrid ∧
      o'.Z = o.Z.map S.cloud ∧ o'.B = o.B.map S.cloud := by
  have hg := (construct_fields h).2
  have e := hc.same
  have e1 : c'.t1 = c.t1 := by rw [e]
  have e2 : c'.t2 = c.t2 := by rw [e]
  have e3 : c'.deterministic = true := by rw [e]; exact hdet
  have e4 : c'.reweight = false := by rw [e]; exact hw
  have e5 : c'.kern = "RBF" ∨ c'.kern = "periodic" := by rw [e]; exact hk
  obtain ⟨o', r1', h'⟩ := construct_det_total env' c' hN e3 (by rw [e1, e2, ← hg]; exact h2) (effKern_rbf e5)
    (fun h => by rw [e4] at h; cases h) (fun h => by rw [e4] at h; cases h) r'
  have hg' : o'.timegrid = o.timegrid := by rw [(construct_fields h').2, hg, e1, e2]
  have s := C08_storage_sizes env c hd r r1 o (.inl h)
  have s' := C08_storage_sizes env' c' hd r' r1' o' (.inl h')
  have run' := Lim.run_np hN hd e3 e5 e4 h' (by rw [hg']; exact h2)
  rw [hg'] at run'
  obtain ⟨hZ, hB, hr1⟩ := Sym.run S hc (Sym.cpl S hR) (fun x u u' hu => Sym.flowScore S x hu)
    (fun z b u u' hu => Sym.scoreRho S z b hu) (fun z b u u' hu => Sym.scoreB S z b hu) h2 hr
    (Lim.run_np hN hd hdet hk hw h h2) run'
    (fun j h1 hj => sZ j _ h1 (Lim.sl_some (by omega)))
    (fun j h1 hj => sB j _ h1 hj (Lim.sl_some (by omega)))
  refine ⟨o', r1', h', hr1, hg', Sym.traj S (by rw [s'.1, s.1, hg']) fun j hj => hZ j (by omega),
    Sym.traj S (by rw [s'.2.1, s.2.1, hg']) fun j hj => hB j (by omega)⟩

/-- **C70** (torch). The same for the torch class (which raises on clouds without spread, so only the backward flow is
assumed to have some). -/
theorem C70_torch_symmetry (S : Symmetry d N M) (env : Env ρ ℝ) (env' : Env ρ' ℝ) (R : ρ → ρ' → Prop)
    (hR : S.TorchCoupled env env' R) (c c' : Cfg d N M ℝ) (hc : S.Poses c c') (hN : 0 < N) (hd : 2 ≤ d)
    (hdet : c.deterministic = true) (hw : c.reweight = false) (hk : c.kern = "RBF" ∨ c.kern = "periodic")
    (r r1 : ρ) (r' : ρ') (hr : R r r') (o : Obj d N M ℝ) (h : torchConstruct env c r = .ok (o, r1))
    (h3 : 3 ≤ o.timegrid.length)
    (sB : ∀ j x, 2 ≤ j → j + 1 < o.timegrid.length → o.B[j]? = some x → Spread x) :
    ∃ o' r1', torchConstruct env' c' r' = .ok (o', r1') ∧ R r1 r1' ∧ o'.timegrid = o.timegrid ∧
      o'.Z = o.Z.map S.cloud ∧ o'.B = o.B.map S.cloud := by
  have hg := (torchConstruct_fields h).2.1
  have e := hc.same
  have e1 : c'.t1 = c.t1 := by rw [e]
  have e2 : c'.t2 = c.t2 := by rw [e]
  have e3 : c'.deterministic = true := by rw [e]; exact hdet
  have e4 : c'.reweight = false := by rw [e]; exact hw
  have e5 : c'.kern = "RBF" ∨ c'.kern = "periodic" := by rw [e]; exact hk
  have h2 : 2 ≤ o.timegrid.length := by omega
  obtain ⟨o', r1', h'⟩ := Sym.torch_ok (env := env') (c := c') hN hd e3 e4 e5 (t := o.timegrid)
    (by rw [e1, e2]; exact hg) h3 r' (fun j h1 hj => by
      rw [Sym.zseq S hc hR _ hr]
      exact Sym.spread S (Lim.torch_spread hdet h h3 j h1 _ (Sym.torch_zseq hN hd hdet hw hk h h2 j hj)))
  have hg' : o'.timegrid = o.timegrid := by
    rw [(torchConstruct_fields h').2.2, (torchConstruct_fields h).2.2, e1, e2]
  have s := C08_storage_sizes env c (by omega) r r1 o (.inr h)
  have s' := C08_storage_sizes env' c' (by omega) r' r1' o' (.inr h')
  have run' := Lim.run_torch hN hd e3 e5 e4 h' (by rw [hg']; exact h2)
  rw [hg'] at run'
  obtain ⟨hZ, hB, hr1⟩ := Sym.run S hc (Sym.tcpl S hR) (fun x u u' hu => Sym.tflowScore S x hu)
    (fun z b u u' hu => Sym.tscoreRho S z b hu) (fun z b u u' hu => Sym.tscoreB S z b hu) h2 hr
    (Lim.run_torch hN hd hdet hk hw h h2) run'
    (fun j h1 hj => Lim.torch_spread hdet h h3 j h1 _ (Lim.sl_some (by omega)))
    (fun j h1 hj => sB j _ h1 hj (Lim.sl_some (by omega)))
  refine ⟨o', r1', h', hr1, hg', Sym.traj S (by rw [s'.1, s.1, hg']) fun j hj => hZ j (by omega),
    Sym.traj S (by rw [s'.2.1, s.2.1, hg']) fun j hj => hB j (by omega)⟩

/-- **C70** (control, numpy). If the flows of `o'` are the transformed flows of `o` (same grid), the query points are the
transformed points and the generator states are coupled, then the control of `o'` is the transformed control of `o`, at
every index at which both clouds have spread. -/
theorem C70_control_symmetry (S : Symmetry d N M) (env : Env ρ ℝ) (env' : Env ρ' ℝ) (R : ρ → ρ' → Prop)
    (hR : S.Coupled env env' R) (o o' : Obj d N M ℝ) (hN : 0 < N)
    (hk : o.cfg.kern = "RBF" ∨ o.cfg.kern = "periodic") (hk' : o'.cfg.kern = "RBF" ∨ o'.cfg.kern = "periodic")
    (hm : (o.cfg.reweight && o.cfg.brownBridge) = false) (hm' : (o'.cfg.reweight && o'.cfg.brownBridge) = false)
    (hg : o'.timegrid = o.timegrid) (hZ : o'.Z = o.Z.map S.cloud) (hB : o'.B = o.B.map S.cloud)
    (x : Mat n d ℝ) (ti : Int) (b z : Mat d N ℝ) (hb : pyAt o.B ti = some b) (hz : pyAt o.Z ti = some z)
    (sb : Spread b) (sz : Spread z) (r : ρ) (r' : ρ') (hr : R r r') :
    ∃ u q q', calculateU env o x ti r = .ok (u, q) ∧
      calculateU env' o' (fun j => S.point (x j)) ti r' = .ok (S.control u, q') ∧ R q q' := by
  have hb' : pyAt o'.B ti = some (S.cloud b) := by rw [hB, Sym.pyAt_map, hb]; rfl
  have hz' : pyAt o'.Z ti = some (S.cloud z) := by rw [hZ, Sym.pyAt_map, hz]; rfl
  by_cases he : Edge o.timegrid.length ti
  · have hr0 : reference o ti = some z := by unfold reference; rw [hm]; exact hz
    have hr0' : reference o' ti = some (S.cloud z) := by unfold reference; rw [hm']; exact hz'
    obtain ⟨u, h1, h2⟩ := C36_edge_control_formula env o hN x ti he b z z hb hz hr0 sb sz r
    obtain ⟨u', h1', h2'⟩ := C36_edge_control_formula env' o' hN (fun j => S.point (x j)) ti (by rw [hg]; exact he) _ _ _
      hb' hz' hr0' (Sym.spread S sb) (Sym.spread S sz) r'
    refine ⟨u, r, r', h1, ?_, hr⟩
    rw [h1']; congr 2
    funext a j
    unfold Symmetry.control
    rw [h2, h2']
    have hv : ∀ w : Fin d → Fin N → ℝ, variance (S.cloud w a) = variance (w (S.coord a)) := fun w =>
      Sym.variance _ (Sym.sq S a) _
    have hA : ∀ w : Fin d → Fin N → ℝ, avg (S.cloud w a) = S.sign a * avg (w (S.coord a)) := fun w => Sym.avg _ _ _
    rw [hv, hv, hA, hA]
    unfold Symmetry.point
    ring
  · refine ⟨_, _, _, C39_interior_control env o hN hk hm x ti he b z hb hz r, ?_, hR.unifsNext _ _ hr⟩
    rw [C39_interior_control env' o' hN hk' hm' (fun j => S.point (x j)) ti (by rw [hg]; exact he) _ _ hb' hz' r']
    congr 2
    have hP := Sym.inducing S (Sym.box_meet S (Sym.box S z) (Sym.box S b)) (hR.unifs _ _ hr)
    funext a j
    show Spec.pointScore _ (Spec.inducing (fun a => max (Spec.lo (S.cloud z a)) (Spec.lo (S.cloud b a)))
      (fun a => min (Spec.hi (S.cloud z a)) (Spec.hi (S.cloud b a))) _) _ a j - Spec.pointScore _
        (Spec.inducing (fun a => max (Spec.lo (S.cloud z a)) (Spec.lo (S.cloud b a)))
      (fun a => min (Spec.hi (S.cloud z a)) (Spec.hi (S.cloud b a))) _) _ a j = _
    rw [hP, Sym.pointScore, Sym.pointScore]
    unfold Symmetry.control
    rw [mul_sub]
    rfl

/-- **C70** (control, torch). The same for the torch class. -/
theorem C70_torch_control_symmetry (S : Symmetry d N M) (env : Env ρ ℝ) (env' : Env ρ' ℝ) (R : ρ → ρ' → Prop)
    (hR : S.TorchCoupled env env' R) (o o' : Obj d N M ℝ) (hN : 2 ≤ N) (hd : 2 ≤ d)
    (hk : o.cfg.kern = "RBF" ∨ o.cfg.kern = "periodic") (hk' : o'.cfg.kern = "RBF" ∨ o'.cfg.kern = "periodic")
    (hm : (o.cfg.reweight && o.cfg.brownBridge) = false) (hm' : (o'.cfg.reweight && o'.cfg.brownBridge) = false)
    (hg : o'.timegrid = o.timegrid) (hZ : o'.Z = o.Z.map S.cloud) (hB : o'.B = o.B.map S.cloud)
    (x : Mat n d ℝ) (ti : Int) (b z : Mat d N ℝ) (hb : pyAt o.B ti = some b) (hz : pyAt o.Z ti = some z)
    (sb : Spread b) (sz : Spread z) (r : ρ) (r' : ρ') (hr : R r r') :
    ∃ (u : Mat d n ℝ) (q : ρ) (q' : ρ'), torchCalculateU env o x ti r = .ok (⟨d, n, u⟩, q) ∧
      torchCalculateU env' o' (fun j => S.point (x j)) ti r' = .ok (⟨d, n, S.control u⟩, q') ∧ R q q' := by
  have hb' : pyAt o'.B ti = some (S.cloud b) := by rw [hB, Sym.pyAt_map, hb]; rfl
  have hz' : pyAt o'.Z ti = some (S.cloud z) := by rw [hZ, Sym.pyAt_map, hz]; rfl
  have hN0 : 0 < N := by omega
  have hr0 : reference o ti = some z := by unfold reference; rw [hm]; exact hz
  have hr0' : reference o' ti = some (S.cloud z) := by unfold reference; rw [hm']; exact hz'
  by_cases he : Edge o.timegrid.length ti
  · obtain ⟨u, h1, h2⟩ := C36_torch_edge_control env o hN x ti he b z z hb hz hr0 sb sz r
    obtain ⟨u', h1', h2'⟩ := C36_torch_edge_control env' o' hN (fun j => S.point (x j)) ti (by rw [hg]; exact he) _ _ _
      hb' hz' hr0' (Sym.spread S sb) (Sym.spread S sz) r'
    refine ⟨u, r, r', h1, ?_, hr⟩
    rw [h1']; congr 3
    have e : ∀ (v : Fin N → ℝ) (y : ℝ), sdev v ≠ 0 → sampleGaussScore v y = -(y - avg v) / sampleSdev v ^ 2 :=
      fun v y hs => (hasDerivAt_log_normal _ _ y (Lim.sample_ne hs)).deriv
    funext a j
    unfold Symmetry.control
    rw [h2, h2', e _ _ (sb _), e _ _ (sz _), e _ _ (Sym.spread S sb a), e _ _ (Sym.spread S sz a),
      Sym.cloud_sampleSdev, Sym.cloud_sampleSdev]
    have hA : ∀ w : Fin d → Fin N → ℝ, avg (S.cloud w a) = S.sign a * avg (w (S.coord a)) := fun w => Sym.avg _ _ _
    rw [hA, hA]
    unfold Symmetry.point
    ring
  · have hbox : ∀ (z b : Fin d → Fin N → ℝ), Spread z → ∀ a, hullLow z b a < hullHigh z b a := fun z b h a =>
      lt_of_le_of_lt (min_le_left _ _) (lt_of_lt_of_le (lo_lt_hi_of_spread hN0 (h a)) (le_max_left _ _))
    refine ⟨_, _, _, C39_torch_interior_control env o hN0 hd hk x ti he b z z hb hz hr0 (hbox _ _ sz) r, ?_,
      hR.unifsNext _ _ hr⟩
    rw [C39_torch_interior_control env' o' hN0 hd hk' (fun j => S.point (x j)) ti (by rw [hg]; exact he) _ _ _ hb' hz' hr0'
      (hbox _ _ (Sym.spread S sz)) r']
    congr 3
    have hP := Sym.tinducing S (Sym.box_hull S (Sym.box S z) (Sym.box S b)) (hR.unifs _ _ hr)
    funext a j
    show Spec.tpointScore _ (Spec.tinducing (fun a => min (Spec.lo (S.cloud z a)) (Spec.lo (S.cloud b a)))
      (fun a => max (Spec.hi (S.cloud z a)) (Spec.hi (S.cloud b a))) _) _ a j - Spec.tpointScore _
        (Spec.tinducing (fun a => min (Spec.lo (S.cloud z a)) (Spec.lo (S.cloud b a)))
      (fun a => max (Spec.hi (S.cloud z a)) (Spec.hi (S.cloud b a))) _) _ a j = _
    rw [hP, Sym.tpointScore, Sym.tpointScore]
    unfold Symmetry.control
    rw [mul_sub]
    rfl

/-- **C70** (the hypotheses can always be met). Every problem can be posed in the new coordinates. -/
theorem C70_posable (S : Symmetry d N M) (c : Cfg d N M ℝ) : ∃ c', S.Poses c c' := by
  refine ⟨{ c with y1 := S.point c.y1, y2 := S.point c.y2, f := ⟨fun x t => S.cloud (c.f.call2 (fun a k =>
    S.sign (S.coord.symm a) * x (S.coord.symm a) (S.part.symm k)) t), none⟩ }, rfl, fun x t => ?_⟩
  show S.cloud (c.f.call2 _ t) = S.cloud (c.f.call2 x t)
  congr 2
  funext a k
  unfold Symmetry.cloud
  rw [← mul_assoc, Sym.mulself, one_mul, Equiv.apply_symm_apply, Equiv.apply_symm_apply]

/-- **C70** (the hypotheses can always be met). For every generator there is one that delivers the same numbers in the
order, and with the signs, required by the symmetry; its states are coupled to all states of the given one. -/
theorem C70_coupled_generator (S : Symmetry d N M) (hd : 0 < d) (hN : 0 < N) (hM : 0 < M) (env : Env ρ ℝ) :
    (∃ (ρ' : Type) (env' : Env ρ' ℝ) (R : ρ → ρ' → Prop), S.Coupled env env' R ∧ ∀ r, ∃ r', R r r') ∧
    (∃ (ρ' : Type) (env' : Env ρ' ℝ) (R : ρ → ρ' → Prop), S.TorchCoupled env env' R ∧ ∀ r, ∃ r', R r r') := by
  let nb : ρ → List ℝ × ρ := fun r => (Sym.flat d N (S.cloud (normals env d N r)), normalsNext env d N r)
  have hn : ∀ ub r, drawVec (drawVec (Sym.queueEnv env nb ub).normal N) d (r, [], [])
      = (S.cloud (normals env d N r), (normalsNext env d N r, [], [])) := fun ub r =>
    Sym.queue_block nb d N (Nat.mul_pos hd hN) r _ rfl (Sym.queueEnv env nb ub).normal (fun s l => (s, l, []))
      fun s l => rfl
  constructor
  · let ub : ρ → List ℝ × ρ := fun r => (Sym.flat d M fun a m => S.flip a (unifs env d M r (S.coord a) (S.ind m)),
      unifsNext env d M r)
    have hu : ∀ r, drawVec (drawVec (Sym.queueEnv env nb ub).uniform M) d (r, [], [])
        = (fun a m => S.flip a (unifs env d M r (S.coord a) (S.ind m)), (unifsNext env d M r, [], [])) := fun r =>
      Sym.queue_block ub d M (Nat.mul_pos hd hM) r _ rfl (Sym.queueEnv env nb ub).uniform (fun s l => (s, [], l))
        fun s l => rfl
    refine ⟨_, Sym.queueEnv env nb ub, fun r r' => r' = (r, [], []), ⟨?_, ?_, ?_, ?_⟩, fun r => ⟨_, rfl⟩⟩
    · rintro r _ rfl; exact congrArg Prod.fst (hn ub r)
    · rintro r _ rfl; exact congrArg Prod.snd (hn ub r)
    · rintro r _ rfl a m; exact congrFun (congrFun (congrArg Prod.fst (hu r)) a) m
    · rintro r _ rfl; exact congrArg Prod.snd (hu r)
  · let ub : ρ → List ℝ × ρ := fun r => (Sym.flat M d fun m a => S.flip a (tunifs env d M r (S.ind m) (S.coord a)),
      tunifsNext env d M r)
    have hu : ∀ r, drawVec (drawVec (Sym.queueEnv env nb ub).uniform d) M (r, [], [])
        = (fun m a => S.flip a (tunifs env d M r (S.ind m) (S.coord a)), (tunifsNext env d M r, [], [])) := fun r =>
      Sym.queue_block ub M d (Nat.mul_pos hM hd) r _ rfl (Sym.queueEnv env nb ub).uniform (fun s l => (s, [], l))
        fun s l => rfl
    refine ⟨_, Sym.queueEnv env nb ub, fun r r' => r' = (r, [], []), ⟨?_, ?_, ?_, ?_⟩, fun r => ⟨_, rfl⟩⟩
    · rintro r _ rfl; exact congrArg Prod.fst (hn ub r)
    · rintro r _ rfl; exact congrArg Prod.snd (hn ub r)
    · rintro r _ rfl m a; exact congrFun (congrFun (congrArg Prod.fst (hu r)) m) a
    · rintro r _ rfl; exact congrArg Prod.snd (hu r)

end

/-- Mirror coordinate 0, exchange coordinates 1 and 2, number particles and inducing points backwards. -/
noncomputable def exSym : Symmetry 3 4 5 where
  sign := ![-1, 1, 1]
  unit a := by fin_cases a <;> simp
  coord := Equiv.swap 1 2
  part := Fin.revPerm
  ind := Fin.revPerm

/-- A run of the numpy class on 21 grid points and its image, with a control query at an interior index. -/
example (r : ℕ) (x : Mat 2 3 ℝ) : ∃ (c' : Cfg 3 4 5 ℝ) (ρ' : Type) (env' : Env ρ' ℝ) (r' r1' q' : ρ') (o o' : Obj 3 4 5 ℝ)
    (r1 q : ℕ) (u : Mat 3 2 ℝ), exSym.Poses (exFan 3 4 5 20) c' ∧
    construct exEnv (exFan 3 4 5 20) r = .ok (o, r1) ∧ construct env' c' r' = .ok (o', r1') ∧
    o'.Z = o.Z.map exSym.cloud ∧ o'.B = o.B.map exSym.cloud ∧ calculateU exEnv o x 10 r1 = .ok (u, q) ∧
    calculateU env' o' (fun j => exSym.point (x j)) 10 r1' = .ok (exSym.control u, q') := by
  obtain ⟨c', hc⟩ := C70_posable exSym (exFan 3 4 5 20)
  obtain ⟨ρ', env', R, hR, hr⟩ := (C70_coupled_generator exSym (by norm_num) (by norm_num) (by norm_num) exEnv).1
  obtain ⟨r', hr⟩ := hr r
  obtain ⟨o, r1, h, hl⟩ := fan_constructs 4 5 3 20 (by norm_num) (by norm_num) r
  have hlen := C08_storage_sizes exEnv _ (by norm_num) r r1 o (.inl h)
  have hF := fun i z (hi : 1 ≤ i) hz =>
    fan_forward_spread 4 5 3 20 (by norm_num) (by norm_num) r r1 (by norm_num) o h hl i hi z hz
  have hB := fun i b (h1 : 1 ≤ i) (h2 : i < 20) hb =>
    fan_backward_spread 4 5 3 20 (by norm_num) r r1 (by norm_num) o h hl i h1 h2 b hb
  obtain ⟨o', r1', h', hr1, hg, hZ', hB'⟩ := C70_numpy_symmetry exSym exEnv env' R hR _ c' hc (by norm_num) (by norm_num) rfl
    rfl (.inl rfl) r r1 r' hr o h (by omega) hF (fun j b h1 h2 hb => hB j b (by omega) (by omega) hb)
  have hcf := (construct_fields h).1
  have hcf' : o'.cfg = c' := (construct_fields h').1
  obtain ⟨u, q, q', hu, hu', _⟩ := C70_control_symmetry exSym exEnv env' R hR o o' (by norm_num)
    (by rw [hcf]; exact .inl rfl) (by rw [hcf', hc.same]; exact .inl rfl) (by rw [hcf]; rfl)
    (by rw [hcf', hc.same]; rfl) hg hZ' hB' x 10 _ _
    (show pyAt o.B 10 = some o.B[10] from List.getElem?_eq_getElem (by omega))
    (show pyAt o.Z 10 = some o.Z[10] from List.getElem?_eq_getElem (by omega))
    (hB 10 _ (by norm_num) (by norm_num) (List.getElem?_eq_getElem (by omega)))
    (hF 10 _ (by norm_num) (List.getElem?_eq_getElem (by omega))) r1 r1' hr1
  exact ⟨c', ρ', env', r', r1', q', o, o', r1, q, u, hc, h, h', hZ', hB', hu, hu'⟩

/-- The same with the torch class. -/
example (r : ℕ) (x : Mat 2 3 ℝ) : ∃ (c' : Cfg 3 4 5 ℝ) (ρ' : Type) (env' : Env ρ' ℝ) (r' r1' q' : ρ') (o o' : Obj 3 4 5 ℝ)
    (r1 q : ℕ) (u : Mat 3 2 ℝ), exSym.Poses (exFan 3 4 5 20) c' ∧
    torchConstruct exEnv (exFan 3 4 5 20) r = .ok (o, r1) ∧ torchConstruct env' c' r' = .ok (o', r1') ∧
    o'.Z = o.Z.map exSym.cloud ∧ o'.B = o.B.map exSym.cloud ∧ torchCalculateU exEnv o x 10 r1 = .ok (⟨3, 2, u⟩, q) ∧
    torchCalculateU env' o' (fun j => exSym.point (x j)) 10 r1' = .ok (⟨3, 2, exSym.control u⟩, q') := by
  obtain ⟨c', hc⟩ := C70_posable exSym (exFan 3 4 5 20)
  obtain ⟨ρ', env', R, hR, hr⟩ := (C70_coupled_generator exSym (by norm_num) (by norm_num) (by norm_num) exEnv).2
  obtain ⟨r', hr⟩ := hr r
  obtain ⟨o, r1, h, hl⟩ := ex_torch 3 4 5 20 (by norm_num) (by norm_num) (by norm_num) r
  have hlen := C08_storage_sizes exEnv _ (by norm_num) r r1 o (.inr h)
  have hB := fun i b (h1 : 1 ≤ i) (h2 : i < 20) hb =>
    fan_torch_backward_spread 4 5 3 20 (by norm_num) r r1 (by norm_num) o h hl i h1 h2 b hb
  obtain ⟨o', r1', h', hr1, hg, hZ', hB'⟩ := C70_torch_symmetry exSym exEnv env' R hR _ c' hc (by norm_num) (by norm_num) rfl
    rfl (.inl rfl) r r1 r' hr o h (by omega) (fun j b h1 h2 hb => hB j b (by omega) (by omega) hb)
  have hcf := (torchConstruct_fields h).1
  have hcf' : o'.cfg = c' := (torchConstruct_fields h').1
  obtain ⟨u, q, q', hu, hu', _⟩ := C70_torch_control_symmetry exSym exEnv env' R hR o o' (by norm_num) (by norm_num)
    (by rw [hcf]; exact .inl rfl) (by rw [hcf', hc.same]; exact .inl rfl) (by rw [hcf]; rfl)
    (by rw [hcf', hc.same]; rfl) hg hZ' hB' x 10 _ _
    (show pyAt o.B 10 = some o.B[10] from List.getElem?_eq_getElem (by omega))
    (show pyAt o.Z 10 = some o.Z[10] from List.getElem?_eq_getElem (by omega))
    (hB 10 _ (by norm_num) (by norm_num) (List.getElem?_eq_getElem (by omega)))
    (Lim.torch_spread rfl h (by omega) 10 (by norm_num) _ (List.getElem?_eq_getElem (by omega))) r1 r1' hr1
  exact ⟨c', ρ', env', r', r1', q', o, o', r1, q, u, hc, h, h', hZ', hB', hu, hu'⟩

end DPFC
