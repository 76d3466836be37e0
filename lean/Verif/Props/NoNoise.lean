import Verif.Props.Embeds
import Verif.Props.Recurrence

/-!
# C65: systems without noise
-/

namespace DPFC
open Spec

variable {K ρ : Type} [Add K] [Sub K] [Mul K] [Div K] [Neg K] [NumOps K]
variable {em : ℝ → K} {N M d : ℕ}

/-- **C65** (no noise). With `g = 0`, a drift that acts particle by particle, three or more grid points and known kernel
the deterministic mode of the numpy class never constructs an object in `K`: OverflowError if the dimension is at least
2, IndexError if it is 1. With reweighting this needs a solver that returns transport plans. -/
theorem C65_no_noise_raises (hK : Embeds em) (I : Ieee K) (hfin : ∀ x, I.fin (em x)) (hinv : InvOfNan I)
    (env : Env ρ ℝ) (env' : Env ρ K) (he : SameEnv em env env') (hN : 0 < N)
    (hd : 0 < d) (hM : 0 < M) (c : Cfg d N M ℝ) (c' : Cfg d N M K) (hc : SameCfg em c c')
    (hdet : c.deterministic = true) (hk : c.kern = "RBF" ∨ c.kern = "periodic") (hg : c.g = 0) (hf : Pointwise c.f)
    (hs : c.reweight = true → SolverReturns env' ∧ SolverCouples env)
    (h3 : 3 ≤ (mkGrid c.t1 c.t2).length) (r r' : ρ) (o : Obj d N M ℝ) (hr : construct env c r = .ok (o, r')) :
    construct env' c' r = .error (if d = 1 then .indexError else .overflowError) := by
  obtain ⟨hl, hlT⟩ := construct_det_len hd hdet hr
  have hg2 : o.timegrid = mkGrid c.t1 c.t2 := (construct_fields hr).2
  obtain ⟨z, hz⟩ := get_of_lt (l := o.Z) (i := 1) (by omega)
  have hflat : ¬ Spread z := by
    obtain ⟨rs, -, hrec⟩ := C09_forward_recurrence env c hN hdet hk r r' o hr (by rw [hg2]; omega)
    obtain ⟨S, hS, hS1⟩ := (C05_forward_flows_start_at_y1 env c hd hdet r r' o (.inl hr)).1 (.inl (by rw [hg2]; omega))
    obtain ⟨t0, ht0⟩ := get_of_lt (l := o.timegrid) (i := 0) (by rw [hg2]; omega)
    obtain ⟨raw, hstep, h1, h2⟩ := hrec 0 S z t0 hS hz ht0
    have hraw := (hstep.1 rfl).1
    obtain ⟨φ, hφ⟩ := hf
    have hrf : ∀ m, particle raw m ∈ ({particle raw ⟨0, hN⟩} : Set (Fin d → ℝ)) := by
      intro m
      rw [Set.mem_singleton_iff]
      funext a
      have hp : ∀ n, particle S n = c.y1 := fun n => funext fun a => hS1 a n
      simp only [particle, hraw, noisy, hg, hφ, hp, hS1, zero_mul]
    have hzf : ∀ n, particle z n = particle raw ⟨0, hN⟩ := by
      intro n
      cases hw : c.reweight with
      | false => rw [h1 hw]; exact hrf n
      | true =>
        obtain ⟨U, -, T, hT, hy⟩ := h2 hw
        exact coupling_convex hN ((hs hw).2 _ _ _ _ _ (softmax_prob hN _) (uniform_prob hN) hT) hy
          (convex_singleton _) hrf n
    intro hsp
    apply hsp ⟨0, hd⟩
    have hc0 : ∀ n, z ⟨0, hd⟩ n = particle raw ⟨0, hN⟩ ⟨0, hd⟩ := fun n => congrFun (hzf n) _
    have hN' : (N:ℝ) ≠ 0 := by positivity
    have hav : avg (z ⟨0, hd⟩) = particle raw ⟨0, hN⟩ ⟨0, hd⟩ := by
      unfold avg
      rw [Finset.sum_congr rfl fun n _ => hc0 n, Finset.sum_const, Finset.card_univ, Fintype.card_fin, nsmul_eq_mul]
      field_simp
    unfold sdev variance
    rw [Finset.sum_congr rfl fun n _ => by rw [hc0 n, hav, sub_self]]
    simp
  obtain ⟨e, h1, h2, _, h4⟩ := C65_lost_spread_raises hK I hfin hinv env env' he hN hd hM c c' hc hdet (fun h => (hs h).1)
    r r' o hr (.inl ⟨1, z, le_refl _, by omega, hz, hflat⟩)
  rw [h1]
  by_cases hd1 : d = 1
  · rw [if_pos hd1, h4 hd1]
    rintro ⟨h5, T, h6, i, w, h7, h8, h9, h10⟩
    have := hlT T h6
    exact h5 ⟨1, z, le_refl _, by omega, hz, hflat⟩
  · rw [if_neg hd1, h2 (by omega)]

/-- Three particles in the plane, no noise: the exact run returns, the program raises OverflowError. -/
example (c : Cfg 2 3 5 ℝ) (hc : c = { exCfg 2 3 5 7 true false false with g := 0 }) (r : ℕ) : letI := XR.xops
    (∃ o r', construct exEnv c r = .ok (o, r')) ∧
    construct (XR.liftEnv exEnv) (XR.liftCfg c) r = .error .overflowError := by
  letI := XR.xops
  have hg : (mkGrid c.t1 c.t2).length = 8 := by rw [hc]; exact exCfg_grid 2 3 5 7 true false false
  have h := C63_verdict exEnv c (by norm_num) (by norm_num) (fun h => by rw [hc] at h; cases h) r
  have hv : npVerdict (mkGrid c.t1 c.t2).length c = none := by
    rw [hg, hc]
    simp [npVerdict, exCfg, KnownKernel]
  rw [hv] at h
  refine ⟨h, ?_⟩
  obtain ⟨o, r', h⟩ := h
  exact C65_no_noise_raises XR.embeds (XR.ieee XR.realInv) XR.finite_fin XR.invOfNan exEnv (XR.liftEnv exEnv)
    (XR.sameEnv _) (by norm_num) (by norm_num) (by norm_num) c (XR.liftCfg _) (XR.sameCfg _) (by rw [hc]; rfl)
    (by rw [hc]; exact .inl rfl) (by rw [hc]) (by rw [hc]; exact ⟨fun p t a => p a + t, fun x t a n => rfl⟩)
    (fun h => by rw [hc] at h; cases h) (by rw [hg]; norm_num) r r' o h

end DPFC
