import Verif.Lib.LoopReal
import Verif.Props.Control
import Verif.Props.QueryEquiv

/-!
# C67: simulating the controlled system with the queried controls

The loop of the example notebook: the controls are queried step by step along simulated paths.
-/

namespace DPFC
open Spec

section
variable {ρ : Type} {N M d n : ℕ}

/-- **C67** (what is simulated). Every run of the loop that returns is an Euler-Maruyama simulation of
`dX = f dt + g^2 u dt + g dW` (and of the same equation with `u = 0`) from `y1`, with `u` the control returned by
`calculate_u` for index `i` at the states of index `i - 1`; the recorded controls at the first and the last index
are zero. -/
theorem C67_simulation (env : Env ρ ℝ) (o : Obj d N M ℝ) (f : Mat d n ℝ → Mat d n ℝ) (g : ℝ) (y1 : Fin d → ℝ)
    (hk : 2 ≤ o.timegrid.length) (r r' : ρ) (s : Paths d n ℝ) (h : closedLoop env o f g y1 r = .ok (s, r')) :
    ∃ rs : ℕ → ρ, rs 1 = r ∧ rs (o.timegrid.length - 1) = r' ∧
      LoopRun env (fun x i => calculateU env o x i) f g y1 o.timegrid.length s.cont s.free s.used rs :=
  closedLoop_run env o f g y1 hk r r' s h

/-- **C67** (the loop runs to the end). Outside reweighted Brownian-bridge mode, if both flows have spread at the
indices `1, ..., k-2`, the loop returns, for every drift, start, noise strength and random stream; every control used
is the difference of Gaussian scores near the ends and of kernel score estimates elsewhere. -/
theorem C67_runs (env : Env ρ ℝ) (o : Obj d N M ℝ) (hN : 0 < N)
    (hkern : o.cfg.kern = "RBF" ∨ o.cfg.kern = "periodic")
    (hm : (o.cfg.reweight && o.cfg.brownBridge) = false) (hk : 2 ≤ o.timegrid.length)
    (hs : ∀ i : ℕ, 1 ≤ i → i < o.timegrid.length - 1 →
      ∃ b z, o.B[i]? = some b ∧ o.Z[i]? = some z ∧ Spread b ∧ Spread z)
    (f : Mat d n ℝ → Mat d n ℝ) (g : ℝ) (y1 : Fin d → ℝ) (r : ρ) :
    ∃ s r' rs, closedLoop env o f g y1 r = .ok (s, r') ∧
      LoopRun env (fun x i => calculateU env o x i) f g y1 o.timegrid.length s.cont s.free s.used rs ∧
      ∀ i x b z u, 1 ≤ i → i < o.timegrid.length - 1 → s.cont[i-1]? = some x → o.B[i]? = some b →
        o.Z[i]? = some z → s.used[i]? = some u →
        (i ≤ 5 ∨ o.timegrid.length ≤ i + 5 →
          ∀ a j, u a j = gaussScore (b a) (x a j) - gaussScore (z a) (x a j)) ∧
        (5 < i ∧ i + 5 < o.timegrid.length →
          ∃ P, P = inducing (ibLow z b) (ibHigh z b) (unifs env d M (rs i)) ∧
            ∀ a j, u a j = pointScore b P (fun j a => x a j) a j - pointScore z P (fun j a => x a j) a j) := by
  have hat : ∀ (l : List (Mat d N ℝ)) (i : ℕ), pyAt l (i : Int) = l[i]? := fun l i => by simp [pyAt]
  obtain ⟨s, r', h⟩ := closedLoop_total env o f g y1 hk (fun i x q h1 h2 => by
    obtain ⟨b, z, hb, hz, sb, sz⟩ := hs i h1 h2
    obtain ⟨u, q', hu, _⟩ := C35_dispatch env o hN hkern hm x i b z (by rw [hat]; exact hb) (by rw [hat]; exact hz)
      sb sz q
    exact ⟨u, q', hu⟩) r
  obtain ⟨rs, h1, h2, hrun⟩ := closedLoop_run env o f g y1 hk r r' s h
  refine ⟨s, r', rs, h, hrun, fun i x b z u hi hi' hx hb hz hu => ?_⟩
  obtain ⟨b', z', hb', hz', sb, sz⟩ := hs i hi hi'
  rw [hb] at hb'; rw [hz] at hz'
  cases hb'; cases hz'
  obtain ⟨w, hw⟩ : ∃ w, s.free[i-1]? = some w := by
    rw [List.getElem?_eq_getElem (by rw [hrun.lenG]; omega)]; exact ⟨_, rfl⟩
  obtain ⟨u', q, hq, hu', _⟩ := hrun.step i x w hi hi' hx hw
  rw [hu] at hu'
  cases hu'
  obtain ⟨u'', q'', hd, he1, he2⟩ := C35_dispatch env o hN hkern hm (fun j a => x a j) i b z
    (by rw [hat]; exact hb) (by rw [hat]; exact hz) sb sz (rs i)
  rw [hq] at hd
  cases hd
  exact ⟨fun h => (he1 (by omega)).2, fun h => (he2 (by omega)).2⟩

/-- **C67** (no control without noise). If the system has no noise, the controlled paths are the uncontrolled ones. -/
theorem C67_no_noise (env : Env ρ ℝ) (o : Obj d N M ℝ) (f : Mat d n ℝ → Mat d n ℝ) (y1 : Fin d → ℝ)
    (hk : 2 ≤ o.timegrid.length) (r r' : ρ) (s : Paths d n ℝ) (h : closedLoop env o f 0 y1 r = .ok (s, r')) :
    s.cont = s.free := by
  obtain ⟨rs, _, _, hrun⟩ := closedLoop_run env o f 0 y1 hk r r' s h
  have key : ∀ i, i < o.timegrid.length - 1 → s.cont[i]? = s.free[i]? := by
    intro i
    induction i with
    | zero => intro _; rw [hrun.startF, hrun.startG]
    | succ i ih =>
      intro hi
      obtain ⟨x, hx⟩ : ∃ x, s.cont[i]? = some x := by
        rw [List.getElem?_eq_getElem (by rw [hrun.lenF]; omega)]; exact ⟨_, rfl⟩
      have hw := hx
      rw [ih (by omega)] at hw
      obtain ⟨u, q, _, _, hF, hG, _⟩ := hrun.step (i+1) x x (by omega) hi hx hw
      rw [hF, hG]
      congr 1; funext a j
      simp [controlledStep]
  refine List.ext_getElem? fun i => ?_
  by_cases hi : i < o.timegrid.length - 1
  · exact key i hi
  · rw [List.getElem?_eq_none (by rw [hrun.lenF]; omega), List.getElem?_eq_none (by rw [hrun.lenG]; omega)]

/-- **C67** (nothing to correct). If the two flows coincide, all controls used are zero, so that the controlled
ensemble is an uncontrolled one. -/
theorem C67_equal_flows (env : Env ρ ℝ) (o : Obj d N M ℝ) (hN : 0 < N)
    (hkern : o.cfg.kern = "RBF" ∨ o.cfg.kern = "periodic")
    (hm : (o.cfg.reweight && o.cfg.brownBridge) = false) (hk : 2 ≤ o.timegrid.length)
    (hs : ∀ i : ℕ, 1 ≤ i → i < o.timegrid.length - 1 → ∃ b, o.B[i]? = some b ∧ o.Z[i]? = some b ∧ Spread b)
    (f : Mat d n ℝ → Mat d n ℝ) (g : ℝ) (y1 : Fin d → ℝ) (r r' : ρ) (s : Paths d n ℝ)
    (h : closedLoop env o f g y1 r = .ok (s, r')) :
    (∀ u ∈ s.used, u = fun _ _ => 0) ∧
    ∀ i x, i + 1 < o.timegrid.length - 1 → s.cont[i]? = some x →
      ∃ q, s.cont[i+1]? = some fun a j => x a j + f x a j * (1/1000) + g * (Real.sqrt (1/1000) * normals env d n q a j) := by
  have hat : ∀ (l : List (Mat d N ℝ)) (i : ℕ), pyAt l (i : Int) = l[i]? := fun l i => by simp [pyAt]
  obtain ⟨rs, _, _, hrun⟩ := closedLoop_run env o f g y1 hk r r' s h
  have key : ∀ i x, 1 ≤ i → i < o.timegrid.length - 1 → s.cont[i-1]? = some x → s.used[i]? = some (fun _ _ => 0) ∧
      ∃ q, s.cont[i]? = some (controlledStep f g x (fun _ _ => 0) (normals env d n q)) := by
    intro i x h1 h2 hx
    obtain ⟨w, hw⟩ : ∃ w, s.free[i-1]? = some w := by
      rw [List.getElem?_eq_getElem (by rw [hrun.lenG]; omega)]; exact ⟨_, rfl⟩
    obtain ⟨u, q, hq, hu, hF, _⟩ := hrun.step i x w h1 h2 hx hw
    obtain ⟨b, hb, hz, sb⟩ := hs i h1 h2
    obtain ⟨q', hq'⟩ := C39_zero_if_equal env o hN hkern hm (fun j a => x a j) i b (by rw [hat]; exact hb)
      (by rw [hat]; exact hz) sb (rs i)
    rw [hq] at hq'
    cases hq'
    exact ⟨hu, q, hF⟩
  have get : ∀ i, i < o.timegrid.length - 1 → ∃ x, s.cont[i]? = some x := fun i hi => by
    rw [List.getElem?_eq_getElem (by rw [hrun.lenF]; omega)]; exact ⟨_, rfl⟩
  refine ⟨fun u hu => ?_, fun i x hi hx => ?_⟩
  · obtain ⟨i, hi⟩ := List.mem_iff_getElem?.1 hu
    have hl : i < s.used.length := by
      by_contra hc
      rw [List.getElem?_eq_none (by omega)] at hi; cases hi
    rw [hrun.lenU] at hl
    rcases Nat.eq_zero_or_pos i with rfl | h0
    · rw [hrun.firstU] at hi; exact (Option.some.inj hi).symm
    · rcases Nat.lt_or_ge i (o.timegrid.length - 1) with h1 | h1
      · obtain ⟨x, hx⟩ := get (i-1) (by omega)
        rw [(key i x h0 h1 hx).1] at hi; exact (Option.some.inj hi).symm
      · rw [show i = o.timegrid.length - 1 by omega, hrun.lastU] at hi; exact (Option.some.inj hi).symm
  · obtain ⟨q, hq⟩ := (key (i+1) x (by omega) hi hx).2
    refine ⟨q, ?_⟩
    rw [hq]
    congr 1; funext a j
    simp [controlledStep]

end

section
variable {K ρ : Type} [Add K] [Sub K] [Mul K] [Div K] [Neg K] [NumOps K] {N M d n : ℕ}

/-- **C67** (the ends are not used). The loop never looks at the first and the last slice of the flows (where the
controls are NaN, C37): replacing these slices changes nothing, in any arithmetic. -/
theorem C67_ends_unused (env : Env ρ K) (o o' : Obj d N M K) (hk : 2 ≤ o.timegrid.length) (hs : SameInside o o')
    (f : Mat d n K → Mat d n K) (g : K) (y1 : Fin d → K) :
    closedLoop env o' f g y1 = closedLoop env o f g y1 := by
  refine closedLoop_congr env o o' f g y1 hk (by rw [hs.time]) fun i x h1 h2 => ?_
  have hget : ∀ T T' : Traj d N K, T.length = o.timegrid.length → T'.length = o.timegrid.length →
      T'[i]? = T[i]? → pyGet T' (i : Int) = pyGet T (i : Int) := by
    intro T T' h h' he
    rw [pyGet_nat T (by omega), pyGet_nat T' (by omega)]
    rw [List.getElem?_eq_getElem (by omega), List.getElem?_eq_getElem (by omega)] at he
    rw [Option.some.inj he]
  unfold calculateU
  rw [hget o.B o'.B hs.lenB.1 hs.lenB.2 (hs.B i h1 h2), hget o.Z o'.Z hs.lenZ.1 hs.lenZ.2 (hs.Z i h1 h2), hs.cfg,
    hs.time]
  have ht := hs.tr
  cases hT : o.Ztr with
  | none =>
    cases hT' : o'.Ztr with
    | none => rfl
    | some T' => rw [hT, hT'] at ht; exact ht.elim
  | some T =>
    cases hT' : o'.Ztr with
    | none => rw [hT, hT'] at ht; exact ht.elim
    | some T' =>
      rw [hT, hT'] at ht
      obtain ⟨l, l', he⟩ := ht
      have := hget T T' l l' (he i h1 h2)
      cases o.cfg.reweight && o.cfg.brownBridge with
      | false => rfl
      | true => simp only [this]

end

section
variable {ρ : Type} {N M d n : ℕ}

/-- **C67** (choice of coordinates). Solving and simulating in the coordinates `s x + v` gives the converted paths. -/
theorem C67_affine (env : Env ρ ℝ) (c : Cfg d N M ℝ) (s : ℝ) (v : Fin d → ℝ) (hd : 0 < d)
    (hN : 0 < N) (hs : 0 < s) (hkern : c.kern = "RBF" ∨ c.kern = "periodic")
    (hrw : c.reweight = true → (v = 0 ∨ SolverCouples env) ∧ (s = 1 ∨ SolverScaleFree env))
    (hbb : (c.reweight && c.brownBridge) = false)
    (hst : c.deterministic = false → ∀ a : Fin d, 2 ≤ a.val → v a = 0) (r r1 : ρ) (o : Obj d N M ℝ)
    (h : construct env c r = .ok (o, r1)) (hk : 2 ≤ o.timegrid.length) :
    ∃ o', construct env (move s v c) r = .ok (o', r1) ∧
      ∀ (f : Mat d n ℝ → Mat d n ℝ) (g : ℝ) (y : Fin d → ℝ) (q : ρ),
        MovedPaths s v (closedLoop env o f g y q)
          (closedLoop env o' (fun x a j => s * f (unmoved s v x) a j) (s * g) (fun a => s * y a + v a) q) := by
  obtain ⟨o', h', hu, _⟩ := C61_control_affine env c s v hd hN hs hkern hrw hst r r1 o h
  refine ⟨o', h', fun f g y q => ?_⟩
  have ht : o'.timegrid = o.timegrid := by rw [(construct_fields h).2, (construct_fields h').2]; rfl
  rw [closedLoop_eq env o f g y hk, closedLoop_eq env o' _ _ _ (by rw [ht]; exact hk), ht]
  have hz : (lit 0 1 : ℝ) = 0 := real_lit_zero 1
  let A : Mat d n ℝ × Mat d n ℝ × Mat d n ℝ → Mat d n ℝ × Mat d n ℝ × Mat d n ℝ :=
    fun p => (fun a j => p.1 a j / s, moved s v p.2.1, moved s v p.2.2)
  have hstep : ∀ (i : ℕ) (t : ℝ) (p : Mat d n ℝ × Mat d n ℝ × Mat d n ℝ),
      loopStep env (calculateU env o') (fun x a j => s * f (unmoved s v x) a j) (s * g) i (id t) (A p)
        = (do let p' ← loopStep env (calculateU env o) f g i t p; pure (A p')) := by
    intro i t p
    funext q
    have := hu n (tr p.2.1) i q (.inl hbb)
    rcases hc : calculateU env o (tr p.2.1) i q with e | ⟨u, q1⟩
    · rw [hc] at this
      rcases hc' : calculateU env o' (fun j a => s * tr p.2.1 j a + v a) i q with e' | p'
      · rw [hc'] at this
        have he : e = e' := this
        have e1 : loopStep env (calculateU env o) f g i t p q = .error e := by
          unfold loopStep; rw [RandM.bind_app, hc]
        have e2 : loopStep env (calculateU env o') (fun x a j => s * f (unmoved s v x) a j) (s * g) i (id t) (A p) q
            = .error e := by
          unfold loopStep
          rw [RandM.bind_app, show tr (A p).2.1 = fun j a => s * tr p.2.1 j a + v a from rfl, hc', he]
        rw [e2, RandM.bind_app, e1]
      · rw [hc'] at this; exact this.elim
    · rw [hc] at this
      rcases hc' : calculateU env o' (fun j a => s * tr p.2.1 j a + v a) i q with e' | ⟨u', q1'⟩
      · rw [hc'] at this; exact this.elim
      · rw [hc'] at this
        obtain ⟨hu', rfl⟩ := this
        have e1 := (loopStep_ok (env := env) (ctl := calculateU env o) (f := f) (g := g) (ti := i) (t := t) (p := p)
          (q := (u, controlledStep f g p.2.1 u (normals env d n q1'),
            controlledStep f g p.2.2 (fun _ _ => 0) (normals env d n (normalsNext env d n q1')))) (r := q)
          (r' := normalsNext env d n (normalsNext env d n q1'))).2 ⟨q1', hc, rfl, rfl, rfl⟩
        have e2 := (loopStep_ok (env := env) (ctl := calculateU env o')
          (f := fun x a j => s * f (unmoved s v x) a j) (g := s * g) (ti := i) (t := id t) (p := A p)
          (q := A (u, controlledStep f g p.2.1 u (normals env d n q1'),
            controlledStep f g p.2.2 (fun _ _ => 0) (normals env d n (normalsNext env d n q1')))) (r := q)
          (r' := normalsNext env d n (normalsNext env d n q1'))).2 ⟨q1', by
            show calculateU env o' (fun j a => s * tr p.2.1 j a + v a) i q = _
            rw [hc']
            congr 2
            funext a j
            exact hu' a j, by
            funext a j
            simp only [A, controlledStep, unmoved_moved hs]
            simp only [moved, controlledStep]
            field_simp
            ring, by
            funext a j
            simp only [A, controlledStep, unmoved_moved hs]
            simp only [moved, controlledStep]
            ring, rfl⟩
        rw [e2, RandM.bind_app, e1]
        rfl
  have hch := chain_map (fun t : ℝ => id t) A hstep o.timegrid.dropLast.tail 1
    (pt n fun _ => lit 0 1, pt n y, pt n y)
  have hA : A (pt n fun _ => lit 0 1, pt n y, pt n y)
      = (pt n fun _ => lit 0 1, pt n fun a => s * y a + v a, pt n fun a => s * y a + v a) := by
    simp only [A, hz]
    congr 1
    funext a j
    simp [pt]
  rw [hA] at hch
  simp only [id_eq, List.map_id'] at hch
  rw [hch]
  simp only [bind_assoc, pure_bind]
  rw [RandM.bind_app, RandM.bind_app]
  rcases chain (loopStep env (calculateU env o) f g) 1 o.timegrid.dropLast.tail
    (pt n fun _ => lit 0 1, pt n y, pt n y) q with e | ⟨l, q'⟩
  · rfl
  · refine ⟨rfl, ?_, ?_, ?_⟩
    · simp only [List.map_map, List.map_cons]; rfl
    · simp only [List.map_map, List.map_cons]; rfl
    · simp only [List.map_map, List.map_cons, List.map_append, List.map_nil, hz]
      have : (fun (a : Fin d) (j : Fin n) => pt n (fun _ : Fin d => (0:ℝ)) a j / s) = pt n fun _ => 0 := by
        funext a j; simp [pt]
      rw [this]; rfl

/-- **C67** (choice of the time origin). Shifting all times leaves the simulated paths unchanged. -/
theorem C67_time_shift (env : Env ρ ℝ) (c : Cfg d N M ℝ) (hd : 0 < d) (τ : ℝ) (r r1 : ρ)
    (o : Obj d N M ℝ) (h : construct env c r = .ok (o, r1)) (hk : 2 ≤ o.timegrid.length) :
    ∃ o', construct env (delay τ c) r = .ok (o', r1) ∧
      ∀ (f : Mat d n ℝ → Mat d n ℝ) (g : ℝ) (y : Fin d → ℝ), closedLoop env o' f g y = closedLoop env o f g y := by
  obtain ⟨o', h', hu, _⟩ := C61_control_time_shift env c hd τ r r1 o h
  refine ⟨o', h', fun f g y => closedLoop_congr env o o' f g y hk ?_ fun i x _ _ => hu _ _ x i⟩
  rw [(construct_fields h).2, (construct_fields h').2, mkGrid_length_real, mkGrid_length_real]
  congr 2
  simp only [delay]
  ring

/-- The hypotheses are met: twenty time points, two flows with spread, five paths. -/
example : ∃ s r' rs, closedLoop exEnv (exObj false false) (fun (x : Mat 2 5 ℝ) a j => - x a j) (1/10) (fun _ => 1) 0
      = .ok (s, r') ∧ LoopRun exEnv (fun x i => calculateU exEnv (exObj false false) x i) (fun x a j => - x a j) (1/10)
        (fun _ => 1) 20 s.cont s.free s.used rs := by
  have hl : (exObj false false).timegrid.length = 20 := by simp [exObj]
  obtain ⟨s, r', rs, h, hrun, _⟩ := C67_runs (n := 5) exEnv (exObj false false) (by norm_num) (.inl rfl) rfl
    (by rw [hl]; norm_num) (fun i h1 h2 => by
      rw [hl] at h2
      have := exObj_slices false false (i : Int) (by omega) (by omega)
      simp only [pyAt, Int.natCast_nonneg, if_true, Int.toNat_natCast] at this
      exact ⟨_, _, this.1, this.2, exObj_spread⟩) (fun x a j => - x a j) (1/10) (fun _ => 1) 0
  rw [hl] at hrun
  exact ⟨s, r', rs, h, hrun⟩

/-- The ends can be replaced: a slice without spread as in a constructed object. -/
example : ∃ o', SameInside (exObj false false) o' ∧ o'.B[0]? = some (fun _ _ => 7) ∧ o'.B ≠ (exObj false false).B := by
  refine ⟨{ exObj false false with B := (exObj false false).B.set 0 fun _ _ => 7 }, ⟨rfl, rfl, ?_, ?_, ?_, ?_, ?_⟩, ?_, ?_⟩
  · simp [exObj]
  · simp [exObj]
  · intro i h1 _; exact List.getElem?_set_ne (by omega)
  · intro i _ _; rfl
  · simp [exObj]
  · simp [exObj]
  · intro h
    have := congrArg (fun l => l[0]?) h
    simp only [exObj, List.getElem?_replicate] at this
    simp at this
    have := congrFun (congrFun this 0) 0
    norm_num at this

example : ∃ o o' : Obj 2 5 3 ℝ, ∃ r', construct exEnv (exCfg 2 5 3 30 true false false) 0 = .ok (o, r') ∧
    2 ≤ o.timegrid.length ∧ construct exEnv (move 2 (fun _ => 1) (exCfg 2 5 3 30 true false false)) 0 = .ok (o', r') := by
  obtain ⟨o, r', h, hl⟩ := ex_det 2 5 3 30 false false (by norm_num) (by norm_num) 0
  obtain ⟨o', h', _⟩ := C67_affine (n := 4) exEnv _ 2 (fun _ => 1) (by norm_num) (by norm_num) (by norm_num) (.inl rfl)
    (fun h => by cases h) rfl (fun h => by cases h) 0 r' o h (by omega)
  exact ⟨o, o', r', h, by omega, h'⟩

end
end DPFC
