import Verif.Lib.LiftRun
import Verif.Lib.Fan
import Verif.Inst.XREmbeds
import Verif.Props.Verdict

/-!
# C65: what the exact-arithmetic theorems say about arithmetic with NaN and infinities

The theorems over the reals use the convention `x / 0 = 0`; the program divides by the spread of a cloud, and a
division `0 / 0` gives NaN. Here: `K` is any arithmetic that contains the exact one (`Embeds`) and follows the IEEE
rules for NaN (`Ieee`). A deterministic run of the numpy class over `K` is the exact run as long as every cloud
whose spread is used as a lengthscale has spread; and the construction fails if a cloud of the forward flows loses it.
-/

namespace DPFC
open Spec

section
variable {K ρ : Type} [Add K] [Sub K] [Mul K] [Div K] [Neg K] [NumOps K]
variable {em : ℝ → K} {N M d : ℕ}

/-- **C65**. If the exact deterministic run returns an object whose clouds have spread (forward flow: all but the
first; true-drift flow: all but the first and last; backward flow: all but the first two and the last), then the run
in `K` with the same arguments and random stream returns the same flows and leaves the generator in the same state. -/
theorem C65_exact_run_is_the_run (hK : Embeds em) (env : Env ρ ℝ) (env' : Env ρ K) (he : SameEnv em env env')
    (hN : 0 < N) (hd : 0 < d) (c : Cfg d N M ℝ) (c' : Cfg d N M K) (hc : SameCfg em c c')
    (hdet : c.deterministic = true) (r r' : ρ) (o : Obj d N M ℝ) (hr : construct env c r = .ok (o, r'))
    (hZ : ∀ i z, 1 ≤ i → 3 ≤ o.Z.length → o.Z[i]? = some z → Spread z)
    (hT : ∀ T i z, o.Ztr = some T → 1 ≤ i → i + 2 ≤ T.length → T[i]? = some z → Spread z)
    (hB : ∀ i b, 2 ≤ i → i + 2 ≤ o.B.length → o.B[i]? = some b → Spread b) :
    ∃ o', construct env' c' r = .ok (o', r') ∧ SameObj em o o' :=
  lift_construct_det hK he hN hd hc hdet hr hZ hT hB

/-- **C65** (lost spread). If in the exact run some cloud of the forward flow with `1 ≤ i ≤ k-2`, or of the
true-drift flow with `1 ≤ i ≤ k-3`, has no spread in some coordinate, then the run in `K` raises an exception:
OverflowError if the dimension is at least 2; in dimension 1 IndexError from the plotting branch, or OverflowError if
the true-drift flow fails first. -/
theorem C65_lost_spread_raises (hK : Embeds em) (I : Ieee K) (hfin : ∀ x, I.fin (em x)) (hinv : InvOfNan I)
    (env : Env ρ ℝ) (env' : Env ρ K) (he : SameEnv em env env')
    (hN : 0 < N) (hd : 0 < d) (hM : 0 < M) (c : Cfg d N M ℝ) (c' : Cfg d N M K) (hc : SameCfg em c c')
    (hdet : c.deterministic = true) (hs : c.reweight = true → SolverReturns env')
    (r r' : ρ) (o : Obj d N M ℝ) (hr : construct env c r = .ok (o, r'))
    (hflat : FlatIn 2 o.Z ∨ ∃ T, o.Ztr = some T ∧ FlatIn 3 T) :
    ∃ e, construct env' c' r = .error e ∧ (2 ≤ d → e = .overflowError) ∧
      (d = 1 → (¬ FlatIn 3 o.Z ∧ ∃ T, o.Ztr = some T ∧ FlatIn 3 T) → e = .overflowError) ∧
      (d = 1 → ¬ (¬ FlatIn 3 o.Z ∧ ∃ T, o.Ztr = some T ∧ FlatIn 3 T) → e = .indexError) := by
  obtain ⟨hl, hlT⟩ := construct_det_len hd hdet hr
  have hk3 : 3 ≤ (mkGrid c.t1 c.t2).length := by
    rcases hflat with ⟨i, z, h1, h2, _⟩ | ⟨T, hT, i, z, h1, h2, _⟩
    · omega
    · have := hlT T hT; omega
  have hk := effKern_rbf (known_of_run hN hd hdet hr hk3)
  by_cases hT : ¬ FlatIn 3 o.Z ∧ ∃ T, o.Ztr = some T ∧ FlatIn 3 T
  · refine ⟨_, ?_, fun _ => rfl, fun _ _ => rfl, fun _ h => absurd hT h⟩
    obtain ⟨h1, T, h2, i, z, q⟩ := hT
    refine lift_flat_true hK I hfin hinv he hN hd hM hc hdet hk hr hs (fun i z p1 p2 p3 => ?_) ⟨T, i, z, h2, q⟩
    by_contra hn
    exact h1 ⟨i, z, p1, p2, p3, hn⟩
  · have hZ : FlatIn 2 o.Z := by
      rcases hflat with h | h
      · exact h
      · by_contra hn
        refine hT ⟨fun ⟨i, z, p1, p2, p3⟩ => hn ⟨i, z, p1, by omega, p3⟩, h⟩
    refine ⟨_, lift_flat_forward hK I hfin hinv he hN hd hM hc hdet hk hs hr hZ fun _ => ?_, fun h => ?_,
      fun _ h => absurd h hT, fun h _ => ?_⟩
    · by_cases h3 : FlatIn 3 o.Z
      · exact .inl h3
      · refine .inr fun T i z p0 p1 p2 p3 => ?_
        by_contra hn
        exact hT ⟨h3, T, p0, i, z, p1, p2, p3, hn⟩
    · rw [if_neg (by omega)]
    · rw [if_pos (by omega)]

/-- **C65** (one particle). With a single particle, three or more grid points and known kernel the deterministic mode
of the numpy class never constructs an object in `K`: OverflowError if the dimension is at least 2, IndexError if it
is 1. -/
theorem C65_single_particle_raises (hK : Embeds em) (I : Ieee K) (hfin : ∀ x, I.fin (em x)) (hinv : InvOfNan I)
    (env : Env ρ ℝ) (env' : Env ρ K) (he : SameEnv em env env')
    (hd : 0 < d) (hM : 0 < M) (c : Cfg d 1 M ℝ) (c' : Cfg d 1 M K) (hc : SameCfg em c c')
    (hdet : c.deterministic = true) (hs : c.reweight = true → SolverReturns env')
    (hk : 3 ≤ (mkGrid c.t1 c.t2).length) (r r' : ρ) (o : Obj d 1 M ℝ) (hr : construct env c r = .ok (o, r')) :
    construct env' c' r = .error (if d = 1 then .indexError else .overflowError) := by
  obtain ⟨hl, hlT⟩ := construct_det_len hd hdet hr
  have hflat : ∀ x : Mat d 1 ℝ, ¬ Spread x := fun x h => h ⟨0, hd⟩ (by simp [sdev, variance, avg])
  obtain ⟨z, hz⟩ := get_of_lt (l := o.Z) (i := 1) (by omega)
  obtain ⟨e, h1, h2, _, h3⟩ := C65_lost_spread_raises hK I hfin hinv env env' he (by norm_num) hd hM c c' hc hdet hs
    r r' o hr (.inl ⟨1, z, le_refl _, by omega, hz, hflat z⟩)
  rw [h1]
  by_cases hd1 : d = 1
  · rw [if_pos hd1, h3 hd1]
    rintro ⟨h4, T, h5, i, z, h6, h7, h8, h9⟩
    have := hlT T h5
    obtain ⟨w, hw⟩ := get_of_lt (l := o.Z) (i := i) (by omega)
    exact h4 ⟨i, w, h6, by omega, hw, hflat w⟩
  · rw [if_neg hd1, h2 (by omega)]

end

/-- Over the extended reals every problem has a counterpart; a run with spread: seven steps, three dimensions, four
particles that fan out. -/
example (r : ℕ) : letI := XR.xops
    ∃ o o' r', construct exEnv (exFan 3 4 5 7) r = .ok (o, r') ∧
      construct (XR.liftEnv exEnv) (XR.liftCfg (exFan 3 4 5 7)) r = .ok (o', r') ∧
      SameObj XR.fin o o' ∧ o.timegrid.length = 8 := by
  letI := XR.xops
  obtain ⟨o, r', h, hl⟩ := fan_constructs 4 5 3 7 (by norm_num) (by norm_num) r
  have hlen := C08_storage_sizes exEnv _ (by norm_num) r r' o (.inl h)
  obtain ⟨o', h1, h2⟩ := C65_exact_run_is_the_run XR.embeds exEnv (XR.liftEnv exEnv) (XR.sameEnv _) (by norm_num)
    (by norm_num) (exFan 3 4 5 7) (XR.liftCfg _) (XR.sameCfg _) rfl r r' o h
    (fun i z hi _ hz => fan_forward_spread 4 5 3 7 (by norm_num) (by norm_num) r r' (by norm_num) o h hl i hi z hz)
    (fun T i z hT => by
      have := hlen.2.2.1
      rw [hT] at this
      cases this)
    (fun i b h1 h2 hb => fan_backward_spread 4 5 3 7 (by norm_num) r r' (by norm_num) o h hl i (by omega)
      (by omega) b hb)
  exact ⟨o, o', r', h, h1, h2, hl⟩

/-- One particle in the plane, reweighting in Brownian-bridge mode: OverflowError. -/
example (r : ℕ) : letI := XR.xops
    construct (XR.liftEnv exEnv) (XR.liftCfg (exCfg 2 1 5 7 true true true)) r = .error .overflowError := by
  letI := XR.xops
  obtain ⟨o, r', h, hl⟩ := ex_det 2 1 5 7 true true (by norm_num) (by norm_num) r
  exact C65_single_particle_raises XR.embeds (XR.ieee XR.realInv) XR.finite_fin XR.invOfNan exEnv (XR.liftEnv exEnv)
    (XR.sameEnv _) (by norm_num) (by norm_num) _ (XR.liftCfg _) (XR.sameCfg _) rfl
    (fun _ n a b D => ⟨_, rfl⟩) (by rw [exCfg_grid]; norm_num) r r' o h

end DPFC
