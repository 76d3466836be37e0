import Verif.Lib.LiftTorchRun
import Verif.Lib.TorchVerdict

/-!
# Failing runs of the torch class in exact arithmetic and in a larger number system
-/

namespace DPFC
open Spec

section
variable {K ρ : Type} [Add K] [Sub K] [Mul K] [Div K] [Neg K] [NumOps K] {N M d : ℕ}

/-- A deterministic construction without reweighting: the forward chain, then the backward chain. -/
theorem torchConstruct_plain (env : Env ρ K) (c : Cfg d N M K) (hdet : c.deterministic = true) (hr : c.reweight = false)
    (grid : List K) (hg : torchGrid c.t1 c.t2 = .ok grid) (hk : 2 ≤ grid.length) (r : ρ) :
    torchConstruct env c r =
      match chain (torchOttoSlice env c) 1 grid.tail (pt N c.y1) r with
      | .error e => .error e
      | .ok (ys, r1) =>
        match chain (torchBack env c) 1 (visits (pt N c.y1 :: ys) grid) (pt N c.y2) r1 with
        | .error e => .error e
        | .ok (bs, r') => .ok (⟨c, grid, pt N c.y1 :: ys, pt N c.y1 :: (bs.reverse ++ [pt N c.y2]), none⟩, r') := by
  unfold torchConstruct
  rw [hg, RandM.liftM_ok, pure_bind]
  obtain ⟨t0, t1, ts, rfl⟩ : ∃ t0 t1 ts, grid = t0 :: t1 :: ts := by
    match grid, hk with
    | a :: b :: l, _ => exact ⟨a, b, l, rfl⟩
  simp only [if_pos hdet]
  rw [torchForwardOtto_eq env c t0 t1 ts _ (by simp [zerosT_length])]
  simp only [bind_assoc, pure_bind, List.tail_cons, hr, Bool.false_and, Bool.false_eq_true, if_false]
  rw [RandM.bind_app]
  rcases h : chain (torchOttoSlice env c) 1 (t1 :: ts) (pt N c.y1) r with e | ⟨ys, r1⟩
  · rfl
  · simp only
    rw [torchBackwardSim_eq _ _ _ _ _ (by simp [chain_length h]) (by simp [zerosT_length]) hk]
    simp only [bind_assoc, pure_bind]
    rw [RandM.bind_app]
    rcases chain (torchBack env c) 1 (visits (pt N c.y1 :: ys) (t0 :: t1 :: ts)) (pt N c.y2) r1 with e | ⟨bs, r2⟩ <;> rfl

end

section
variable {ρ : Type} {N M d : ℕ}

theorem spread_lt (hN : 2 ≤ N) {x : Mat d N ℝ} (hx : Spread x) (a : Fin d) : lo (x a) < hi (x a) :=
  lo_lt_hi_of_spread (by omega) (hx a)

theorem not_spread {x : Mat d N ℝ} (hx : ¬ Spread x) : ∃ a, ∀ n n', x a n = x a n' := by
  unfold Spread at hx
  push Not at hx
  obtain ⟨a, ha⟩ := hx
  exact ⟨a, fun n n' => sdev_zero_const ha n n'⟩

theorem flat_box (hN : 0 < N) {x : Mat d N ℝ} {a : Fin d} (h : ∀ n n', x a n = x a n') : ¬ lo (x a) < hi (x a) :=
  fun hlt => by
    obtain ⟨n, n', hnn⟩ := spread_of_lo_lt_hi hN hlt
    exact hnn.ne (h _ _)

end

namespace Lift
variable {K ρ : Type} [Add K] [Sub K] [Mul K] [Div K] [Neg K] [NumOps K] {em : ℝ → K} {N M d : ℕ}

theorem chainAll {τ τ' S S' : Type} {step : ℕ → τ → S → RandM ρ S} {step' : ℕ → τ' → S' → RandM ρ S'}
    (φ : τ → τ') (A : S → S')
    (h : ∀ i t x, step' i (φ t) (A x) = (do let y ← step i t x; pure (A y))) :
    ∀ (ts : List τ) (i : ℕ) (x : S),
      DPFC.chain step' i (ts.map φ) (A x) = (do let ys ← DPFC.chain step i ts x; pure (ys.map A))
  | [], i, x => rfl
  | t :: ts, i, x => by
    rw [List.map_cons, DPFC.chain, DPFC.chain, h i t x]
    simp only [bind_assoc, pure_bind]
    congr 1; funext y
    rw [chainAll φ A h ts (i+1) y]
    simp only [bind_assoc, pure_bind, List.map_cons]

section
variable (h : Embeds em)
include h

theorem torchInducing_both {env : Env ρ ℝ} {env' : Env ρ K} (he : SameEnv em env env') (b : Fin d → ℝ × ℝ) (a : Fin d)
    (hb : ¬ (b a).1 < (b a).2) (r : ρ) : DPFC.torchInducing env b M r = .error .valueError ∧
      DPFC.torchInducing env' (emB em b) M r = .error .valueError := by
  have h1 := torchInducing_err (M := M) env b r a hb
  refine ⟨h1, ?_⟩
  rw [torchInducing h he, RandM.bind_app, h1]

theorem torchFSep_flat {env : Env ρ ℝ} {env' : Env ρ K} (he : SameEnv em env env') (hN : 2 ≤ N) (g : ℝ) (f : Drift d N ℝ)
    (f' : Drift d N K) (g' : K) (x : Mat d N ℝ) (hx : ¬ Spread x) (t : ℝ) (t' : K) (r : ρ) :
    DPFC.torchFSeperate env M g f x t r = .error .valueError ∧
      DPFC.torchFSeperate env' M g' f' (emM em x) t' r = .error .valueError := by
  obtain ⟨a, ha⟩ := not_spread hx
  unfold DPFC.torchFSeperate
  rw [torchBox h, torchBox_real (by omega : 0 < N)]
  have hi := torchInducing_both (M := M) h he (fun a => (lo (x a), hi (x a))) a (flat_box (by omega) ha) r
  constructor
  · rw [RandM.liftM_ok, pure_bind, RandM.bind_app, hi.1]
  · simp only [Except.map]
    rw [RandM.liftM_ok, pure_bind, RandM.bind_app, hi.2]

theorem torchOttoSlice_all {env : Env ρ ℝ} {env' : Env ρ K} (he : SameEnv em env env')
    (hN : 2 ≤ N) {c : Cfg d N M ℝ} {c' : Cfg d N M K} (hc : SameCfg em c c')
    (hr : c.reweight = false) (i : ℕ) (t : ℝ) (x : Mat d N ℝ) :
    DPFC.torchOttoSlice env' c' i (em t) (emM em x) = (do let y ← DPFC.torchOttoSlice env c i t x; pure (emM em y)) := by
  rw [torchOttoSlice_bind, torchOttoSlice_bind, hc.g, hc.reweight, hr, dtc h, h.sub]
  simp only [Bool.false_eq_true, if_false, bind_pure]
  split
  · exact noisyStep h he c.g hc.f x _
  · by_cases hx : Spread x
    · exact torchOttoStep h he hN c.g hc.f x hx _
    · funext r
      have := torchFSep_flat (M := M) h he hN c.g c.f c'.f (em c.g) x hx (t - DPFC.dtc) (em (t - DPFC.dtc)) r
      unfold DPFC.torchOttoStep
      simp only [bind_assoc]
      rw [RandM.bind_app, RandM.bind_app, this.1, this.2]

theorem torchDensity_flat {env : Env ρ ℝ} {env' : Env ρ K} (he : SameEnv em env env') (hN : 2 ≤ N) (kern : String)
    (z : Mat d N ℝ) (hz : ¬ Spread z) (y : Fin d → ℝ) (r : ρ) :
    DPFC.torchDensityAt env M kern z (pt N y) r = .error .valueError ∧
      DPFC.torchDensityAt env' M kern (emM em z) (emM em (pt N y)) r = .error .valueError := by
  obtain ⟨a, ha⟩ := not_spread hz
  have : Nonempty (Fin N) := ⟨⟨0, by omega⟩⟩
  have hl : lo (pt N y a) = hi (pt N y a) := by
    show lo (fun _ : Fin N => y a) = hi (fun _ : Fin N => y a)
    simp [lo, Spec.hi]
  unfold DPFC.torchDensityAt
  rw [densityBox h, densityBox_real (by omega : 0 < N)]
  have hi' := torchInducing_both (M := M) h he (fun a => if lo (pt N y a) = hi (pt N y a) then (lo (z a), hi (z a)) else
      (min (lo (z a)) (lo (pt N y a)), max (hi (z a)) (hi (pt N y a)))) a
    (by simp only [if_pos hl]; exact flat_box (by omega) ha) r
  constructor
  · rw [RandM.liftM_ok, pure_bind, RandM.bind_app, hi'.1]
  · simp only [Except.map]
    rw [RandM.liftM_ok, pure_bind, RandM.bind_app, hi'.2]

end

/-- With spread in the reference cloud a backward step in exact arithmetic returns. -/
theorem torchBack_total (env : Env ρ ℝ) (hN : 2 ≤ N) (hd : 2 ≤ d) (c : Cfg d N M ℝ) (hk : KnownKernel c.kern)
    (i : ℕ) (zt : Mat d N ℝ × ℝ) (b : Mat d N ℝ) (hz : Spread zt.1) (r : ρ) :
    ∃ y r', DPFC.torchBack env c i zt b r = .ok (y, r') := by
  have hek : effKern c.kern = "RBF" := effKern_rbf hk
  unfold DPFC.torchBack DPFC.backStep
  rw [hek]
  obtain ⟨s, r1, hs⟩ := torchDensityAt_total (M := M) env (by omega) hd zt.1 b r (spread_lt hN hz)
  rw [RandM.bind_app, hs]
  simp only
  split
  · rw [RandM.bind_app, normalMat_real]
    exact ⟨_, _, rfl⟩
  · obtain ⟨s', r2, h'⟩ := torchBwDensityAt_total (M := M) env (by omega) hd "RBF" zt.1 b r1 (spread_lt hN hz)
    rw [RandM.bind_app, h']
    exact ⟨_, _, rfl⟩

theorem lift_torchFails (h : Embeds em) {env : Env ρ ℝ} {env' : Env ρ K} (he : SameEnv em env env') (hN : 2 ≤ N)
    (hd : 2 ≤ d) {c : Cfg d N M ℝ} {c' : Cfg d N M K} (hc : SameCfg em c c') (hdet : c.deterministic = true)
    (hr : c.reweight = false) (hk : KnownKernel c.kern) (grid : List ℝ) (hg : DPFC.torchGrid c.t1 c.t2 = .ok grid)
    (h3 : 3 ≤ grid.length) (r : ρ) (e : PyErr) (hfail : torchConstruct env c r = .error e) :
    e = .valueError ∧ torchConstruct env' c' r = .error .valueError := by
  have hg' : DPFC.torchGrid c'.t1 c'.t2 = .ok (grid.map em) := by
    rw [hc.t1, hc.t2, torchGrid h, hg]; rfl
  rw [torchConstruct_plain env' c' (by rw [hc.deterministic, hdet]) (by rw [hc.reweight, hr]) _ hg' (by simp; omega)]
  rw [torchConstruct_plain env c hdet hr grid hg (by omega)] at hfail
  rw [← List.map_tail, hc.y1, pt_em, chainAll em (emM em) (fun i t x => torchOttoSlice_all h he hN hc hr i t x),
    RandM.bind_app]
  rcases hF : DPFC.chain (DPFC.torchOttoSlice env c) 1 grid.tail (pt N c.y1) r with e1 | ⟨ys, r1⟩
  · rw [hF] at hfail
    have : e1 = e := by simpa using hfail
    subst this
    have hto := TotalOr.chain (fun i t x => torchOttoSlice_to env (by omega) (by omega) c
      (fun hh => absurd hh (by rw [hr]; simp)) i t x) grid.tail 1 (pt N c.y1) r
    rw [hF] at hto
    have hv : e1 = .valueError := by
      rcases hto with ⟨_, _, hh⟩ | hh
      · cases hh
      · simpa using hh
    subst hv
    exact ⟨rfl, rfl⟩
  · rw [hF] at hfail
    simp only at hfail
    have hly := chain_length hF
    rw [List.length_tail] at hly
    have hlen : (pt N c.y1 :: ys).length = grid.length := by simp [hly]; omega
    -- slices that were the source of a further step have spread
    have hS : ∀ (j : ℕ) (z : Mat d N ℝ), 1 ≤ j → j + 1 < grid.length → (pt N c.y1 :: ys)[j]? = some z → Spread z := by
      intro j z h1 h2 hz
      obtain ⟨hl, rs, _, _, hs⟩ := chain_ok_iff.1 hF
      obtain ⟨t, ht⟩ := get_of_lt (l := grid.tail) (i := j) (by simp; omega)
      obtain ⟨y, hy⟩ := get_of_lt (l := pt N c.y1 :: ys) (i := j+1) (by omega)
      have hst := hs j t z y ht hz hy
      unfold DPFC.torchOttoSlice at hst
      rw [if_neg (by omega)] at hst
      obtain ⟨raw, r3, h3, _⟩ := RandM.bind_ok.1 hst
      unfold DPFC.torchOttoStep at h3
      obtain ⟨v, r4, h4, _⟩ := RandM.bind_ok.1 h3
      exact spread_of_gap fun a => torchFSeperate_ok_spread h4 a
    by_cases hlast : ∀ z, (pt N c.y1 :: ys)[grid.length - 1]? = some z → Spread z
    · exfalso
      obtain ⟨bs, r2, hB, _⟩ := chain_total_inv (step := DPFC.torchBack env c) (fun _ _ => True)
        (fun zt => Spread zt.1) (fun i zt b hz _ r => by
          obtain ⟨y, r', hy⟩ := torchBack_total env hN hd c hk i zt b hz r
          exact ⟨y, r', hy, trivial⟩) (visits (pt N c.y1 :: ys) grid) 1 (pt N c.y2) r1 (by
        intro zt hzt
        obtain ⟨s, hs⟩ := List.getElem?_of_mem hzt
        obtain ⟨z, t⟩ := zt
        obtain ⟨q1, q2⟩ := visits_get_inv hlen hs
        rcases Nat.eq_zero_or_pos s with rfl | hs0
        · exact hlast z (by simpa using q2)
        · exact hS _ z (by omega) (by omega) q2) trivial
      rw [hB] at hfail
      simp at hfail
    · push Not at hlast
      obtain ⟨z, hz, hflat⟩ := hlast
      have hvl := visits_length hlen
      obtain ⟨zt, rest, hv⟩ : ∃ zt rest, visits (pt N c.y1 :: ys) grid = zt :: rest := by
        rcases hh : visits (pt N c.y1 :: ys) grid with _ | ⟨zt, rest⟩
        · rw [hh] at hvl; simp at hvl; omega
        · exact ⟨zt, rest, rfl⟩
      have hzt : zt.1 = z := by
        have h0 : (visits (pt N c.y1 :: ys) grid)[0]? = some (zt.1, zt.2) := by rw [hv]; rfl
        obtain ⟨_, q2⟩ := visits_get_inv hlen h0
        have q3 := hz.symm.trans q2
        exact (Option.some.inj q3).symm
      have hfl : ¬ Spread zt.1 := by rw [hzt]; exact hflat
      have hv' : visits (emM em (pt N c.y1) :: ys.map (emM em)) (grid.map em)
          = Prod.map (emM em) em zt :: rest.map (Prod.map (emM em) em) := by
        rw [← List.map_cons (f := emM em), visits_mapK, hv, List.map_cons]
      rw [hv, DPFC.chain, RandM.bind_app] at hfail
      have e1 : DPFC.torchBack env c 1 zt (pt N c.y2) r1 = .error .valueError := by
        unfold DPFC.torchBack DPFC.backStep
        rw [RandM.bind_app, (torchDensity_flat (M := M) h he hN (effKern c.kern) zt.1 hfl c.y2 r1).1]
      have e2 : DPFC.torchBack env' c' 1 (Prod.map (emM em) em zt) (emM em (pt N c.y2)) r1 = .error .valueError := by
        unfold DPFC.torchBack DPFC.backStep
        rw [RandM.bind_app, hc.kern, Prod.map_fst,
          (torchDensity_flat (M := M) h he hN (effKern c.kern) zt.1 hfl c.y2 r1).2]
      rw [e1] at hfail
      refine ⟨by simpa using hfail.symm, ?_⟩
      simp only [RandM.pure_app]
      rw [hv', DPFC.chain, RandM.bind_app, hc.y2, pt_em, e2]

end Lift
end DPFC
