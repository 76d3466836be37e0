import Verif.Lib.LiftQuery
import Verif.Props.Embeds
import Verif.Props.Loop

/-!
# C65, C67: queries and closed-loop simulation with NaN and infinities

Continuation of C65: on objects whose slices agree with an exact run, the queries in the larger arithmetic `K` are the
exact queries, as long as the clouds whose spread is divided by have spread.
-/

namespace DPFC
open Spec

section
variable {K ρ : Type} [Add K] [Sub K] [Mul K] [Div K] [Neg K] [NumOps K]
variable {em : ℝ → K} {N M d n m : ℕ}

/-- **C65** (control queries). Let `o` and `o'` be the objects of an exact run and of the run in `K`, with the same
slices. If the slices with index `ti` of the backward flow and of the flow it is compared with have spread, then
`calculate_u` in `K` has the outcome of the exact query (result, exception and generator state), for every array of
points. -/
theorem C65_exact_control (hK : Embeds em) (env : Env ρ ℝ) (env' : Env ρ K) (he : SameEnv em env env') (hN : 0 < N)
    (c : Cfg d N M ℝ) (c' : Cfg d N M K) (hc : SameCfg em c c') (r r1 r2 : ρ) (o : Obj d N M ℝ) (o' : Obj d N M K)
    (hr : construct env c r = .ok (o, r1)) (hr' : construct env' c' r = .ok (o', r2)) (hs : SameObj em o o')
    (x : Mat n m ℝ) (ti : Int) (hb : ∀ b, pyAt o.B ti = some b → Spread b)
    (hz : ∀ z, reference o ti = some z → Spread z) (q : ρ) :
    calculateU env' o' (emM em x) ti q = (calculateU env o x ti q).map fun p => (emM em p.1, p.2) := by
  have e := (construct_fields hr).1
  have e' := (construct_fields hr').1
  rw [Lift.calculateU hK he hN hs (by rw [e, e', hc.reweight]) (by rw [e, e', hc.brownBridge])
    (by rw [e, e', hc.kern]) x ti hb hz, RandM.bind_app]
  rcases calculateU env o x ti q with e | ⟨u, q'⟩ <;> rfl

/-- **C65** (coverage queries). `check_if_covered` in `K` has the outcome of the exact query, whatever the spread. -/
theorem C65_exact_coverage (hK : Embeds em) (o : Obj d N M ℝ) (o' : Obj d N M K) (hs : SameObj em o o')
    (X : Fin m → ℝ) (ti : Int) : checkIfCovered o' (emV em X) ti = checkIfCovered o X ti :=
  Lift.checkIfCovered hK hs X ti

/-- **C67** (with NaN and infinities). If the exact loop returns, and both flows have spread at the indices
`1, ..., k-2`, then the loop in `K` on the object of the run in `K` returns the same paths and controls and leaves the
generator in the same state. -/
theorem C67_exact_loop (hK : Embeds em) (env : Env ρ ℝ) (env' : Env ρ K) (he : SameEnv em env env') (hN : 0 < N)
    (c : Cfg d N M ℝ) (c' : Cfg d N M K) (hc : SameCfg em c c') (r r1 r2 : ρ) (o : Obj d N M ℝ) (o' : Obj d N M K)
    (hr : construct env c r = .ok (o, r1)) (hr' : construct env' c' r = .ok (o', r2)) (hs : SameObj em o o')
    (hk : 2 ≤ o.timegrid.length)
    (hsp : ∀ i : ℕ, 1 ≤ i → i < o.timegrid.length - 1 →
      (∀ b, pyAt o.B i = some b → Spread b) ∧ (∀ z, reference o i = some z → Spread z))
    (f : Mat d n ℝ → Mat d n ℝ) (f' : Mat d n K → Mat d n K) (hf : ∀ x, f' (emM em x) = emM em (f x)) (g : ℝ)
    (y1 : Fin d → ℝ) (q q' : ρ) (P : Paths d n ℝ) (hp : closedLoop env o f g y1 q = .ok (P, q')) :
    closedLoop env' o' f' (em g) (emV em y1) q
      = .ok (⟨P.cont.map (emM em), P.free.map (emM em), P.used.map (emM em)⟩, q') := by
  have e := (construct_fields hr).1
  have e' := (construct_fields hr').1
  exact Lift.closedLoop hK he hN hs (by rw [e, e', hc.reweight]) (by rw [e, e', hc.brownBridge])
    (by rw [e, e', hc.kern]) hk hsp hf g y1 q q' P hp

end

/-- The fanning cloud over the extended reals: the control at an interior index and the whole loop. -/
example (r : ℕ) (x : Mat 2 3 ℝ) : letI := XR.xops
    ∃ o o' r', construct (XR.liftEnv exEnv) (XR.liftCfg (exFan 3 4 5 20)) r = .ok (o', r') ∧
      construct exEnv (exFan 3 4 5 20) r = .ok (o, r') ∧
      (∃ u q, calculateU (XR.liftEnv exEnv) o' (emM XR.fin x) 10 r' = .ok (emM XR.fin u, q)) ∧
      ∃ P q, closedLoop (n := 2) exEnv o (fun x => x) 1 (fun _ => 0) r' = .ok (P, q) ∧
        closedLoop (n := 2) (XR.liftEnv exEnv) o' (fun x => x) (XR.fin 1) (emV XR.fin fun _ => 0) r'
          = .ok (⟨P.cont.map (emM XR.fin), P.free.map (emM XR.fin), P.used.map (emM XR.fin)⟩, q) := by
  letI := XR.xops
  obtain ⟨o, r', h, hl⟩ := fan_constructs 4 5 3 20 (by norm_num) (by norm_num) r
  have hlen := C08_storage_sizes exEnv _ (by norm_num) r r' o (.inl h)
  have hF := fun i z (hi : 1 ≤ i) hz =>
    fan_forward_spread 4 5 3 20 (by norm_num) (by norm_num) r r' (by norm_num) o h hl i hi z hz
  have hB := fun i b (h1 : 1 ≤ i) (h2 : i < 20) hb =>
    fan_backward_spread 4 5 3 20 (by norm_num) r r' (by norm_num) o h hl i h1 h2 b hb
  obtain ⟨o', h1, h2⟩ := C65_exact_run_is_the_run XR.embeds exEnv (XR.liftEnv exEnv) (XR.sameEnv _) (by norm_num)
    (by norm_num) (exFan 3 4 5 20) (XR.liftCfg _) (XR.sameCfg _) rfl r r' o h
    (fun i z hi _ hz => hF i z hi hz)
    (fun T i z hT => by
      have := hlen.2.2.1
      rw [hT] at this
      cases this)
    (fun i b h1 h2 hb => hB i b (by omega) (by omega) hb)
  have hcfg := (construct_fields h).1
  have hat : ∀ (l : List (Mat 3 4 ℝ)) (i : ℕ), pyAt l (i : Int) = l[i]? := fun l i => by simp [pyAt]
  have href : ∀ i : ℕ, reference o i = o.Z[i]? := fun i => by
    unfold reference; rw [hcfg, ← hat]; rfl
  have get : ∀ i : ℕ, i < 21 → ∃ b z, o.B[i]? = some b ∧ o.Z[i]? = some z := fun i hi =>
    ⟨_, _, List.getElem?_eq_getElem (by omega), List.getElem?_eq_getElem (by omega)⟩
  have hm : (o.cfg.reweight && o.cfg.brownBridge) = false := by rw [hcfg]; rfl
  have hkern : o.cfg.kern = "RBF" ∨ o.cfg.kern = "periodic" := by rw [hcfg]; exact .inl rfl
  refine ⟨o, o', r', h1, h, ?_, ?_⟩
  · obtain ⟨b, z, hb, hz⟩ := get 10 (by norm_num)
    have sb := hB 10 b (by norm_num) (by norm_num) hb
    have sz := hF 10 z (by norm_num) hz
    obtain ⟨u, q, hu, _⟩ := C35_dispatch exEnv o (by norm_num) hkern hm x ((10 : ℕ) : Int) b z
      (by rw [hat]; exact hb) (by rw [hat]; exact hz) sb sz r'
    refine ⟨u, q, ?_⟩
    show calculateU _ o' _ ((10 : ℕ) : Int) r' = _
    rw [C65_exact_control XR.embeds exEnv _ (XR.sameEnv _) (by norm_num) _ _ (XR.sameCfg _) r r' r' o o' h h1 h2 x
      ((10 : ℕ) : Int) (fun w hw => by rw [hat o.B 10, hb] at hw; cases hw; exact sb)
      (fun w hw => by rw [href 10, hz] at hw; cases hw; exact sz) r', hu]
    rfl
  · obtain ⟨P, q, _, hP, _⟩ := C67_runs (n := 2) exEnv o (by norm_num) hkern hm (by omega) (fun i h1 h2 => by
      obtain ⟨b, z, hb, hz⟩ := get i (by omega)
      exact ⟨b, z, hb, hz, hB i b h1 (by omega) hb, hF i z h1 hz⟩) (fun x => x) 1 (fun _ => 0) r'
    refine ⟨P, q, hP, C67_exact_loop XR.embeds exEnv _ (XR.sameEnv _) (by norm_num) _ _ (XR.sameCfg _) r r' r' o o' h
      h1 h2 (by omega) (fun i h1 h2 => ⟨fun w hw => ?_, fun w hw => ?_⟩) _ _ (fun _ => rfl) 1 _ r' q P hP⟩
    · rw [hat] at hw; exact hB i w h1 (by omega) hw
    · rw [href] at hw; exact hF i w h1 hw

end DPFC
