import Verif.Lib.Displace
import Verif.Lib.Law

/-!
# C74: how far one step moves a particle, and when a flow keeps its spread

`dt = 1/1000`. The score estimates are bounded (C25) by a constant over the standard deviation of the cloud, so a step of a
flow deviates from the Euler step of the drift by at most a constant over the standard deviation.
-/

namespace DPFC
open Spec

section
variable {ρ : Type} {N M d : ℕ}

/-- **C74** (forward step, numpy). Deterministic mode, no reweighting. From a slice with spread, every particle moves by
`dt f` up to `125 g^2 M^2 N / s_a` in coordinate `a`, `s_a` the standard deviation of the slice in that coordinate. -/
theorem C74_forward_displacement (env : Env ρ ℝ) (c : Cfg d N M ℝ) (hN : 0 < N) (hd : 0 < d)
    (hdet : c.deterministic = true) (hw : c.reweight = false) (hk : KnownKernel c.kern) (r r' : ρ) (o : Obj d N M ℝ)
    (h : construct env c r = .ok (o, r')) (j : ℕ) (hj : 1 ≤ j) (x y : Mat d N ℝ) (t : ℝ) (hx : o.Z[j]? = some x)
    (hy : o.Z[j+1]? = some y) (ht : o.timegrid[j]? = some t) (sx : Spread x) (a : Fin d) (n : Fin N) :
    |y a n - (x a n + 1/1000 * c.f.call2 x t a n)| ≤ 125 * c.g ^ 2 * M ^ 2 * N / sdev (x a) := by
  have hl : j + 1 < o.timegrid.length := by
    rw [← (C08_storage_sizes env c hd r r' o (.inl h)).1]; exact (List.getElem?_eq_some_iff.1 hy).1
  have := Disp.forward_move (Lim.run_np hN hd hdet hk hw h (by omega)) (fun x u a n hx => Disp.cloudScore_bound hx _ _ a n) hj hl
    (by rw [Lim.sl_eq hx]; exact sx) a n
  rwa [Lim.sl_eq hx, Lim.sl_eq hy, List.getD_eq_getElem?_getD, ht] at this

/-- **C74** (forward step, torch). -/
theorem C74_torch_forward_displacement (env : Env ρ ℝ) (c : Cfg d N M ℝ) (hN : 0 < N) (hd : 2 ≤ d)
    (hdet : c.deterministic = true) (hw : c.reweight = false) (hk : KnownKernel c.kern) (r r' : ρ) (o : Obj d N M ℝ)
    (h : torchConstruct env c r = .ok (o, r')) (j : ℕ) (hj : 1 ≤ j) (x y : Mat d N ℝ) (t : ℝ) (hx : o.Z[j]? = some x)
    (hy : o.Z[j+1]? = some y) (ht : o.timegrid[j]? = some t) (a : Fin d) (n : Fin N) :
    |y a n - (x a n + 1/1000 * c.f.call2 x t a n)| ≤ 125 * c.g ^ 2 * M ^ 2 * N / sdev (x a) := by
  have hl : j + 1 < o.timegrid.length := by
    rw [← (C08_storage_sizes env c (by omega) r r' o (.inr h)).1]; exact (List.getElem?_eq_some_iff.1 hy).1
  have := Disp.forward_move (Lim.run_torch hN hd hdet hk hw h (by omega)) (fun x u a n hx => Disp.tcloudScore_bound hx _ _ a n) hj hl
    (by rw [Lim.sl_eq hx]; exact Lim.torch_spread hdet h (by omega) j hj x hx) a n
  rwa [Lim.sl_eq hx, Lim.sl_eq hy, List.getD_eq_getElem?_getD, ht] at this

/-- **C74** (backward step, numpy). A deterministic backward step from slice `j+1` to slice `j` moves every particle by
`- dt f` up to `250 g^2 M^2 N / s_a + 125 g^2 M^2 N / s'_a`, `s_a` and `s'_a` the standard deviations of the forward and the
backward slice `j+1`. -/
theorem C74_backward_displacement (env : Env ρ ℝ) (c : Cfg d N M ℝ) (hN : 0 < N) (hd : 0 < d)
    (hdet : c.deterministic = true) (hw : c.reweight = false) (hk : KnownKernel c.kern) (r r' : ρ) (o : Obj d N M ℝ)
    (h : construct env c r = .ok (o, r')) (j : ℕ) (hj : 1 ≤ j) (hj2 : j + 2 < o.timegrid.length) (z b y : Mat d N ℝ) (t : ℝ)
    (hz : o.Z[j+1]? = some z) (hb : o.B[j+1]? = some b) (hy : o.B[j]? = some y) (ht : o.timegrid[j+1]? = some t)
    (sz : Spread z) (sb : Spread b) (a : Fin d) (n : Fin N) :
    |y a n - (b a n - 1/1000 * c.f.call2 b t a n)|
      ≤ 250 * c.g ^ 2 * M ^ 2 * N / sdev (z a) + 125 * c.g ^ 2 * M ^ 2 * N / sdev (b a) := by
  have := Disp.backward_move (Lim.run_np hN hd hdet hk hw h (by omega)) (fun z b u a n hx => Disp.cloudScore_bound hx _ _ a n)
    (fun z b u a n hx => Disp.cloudScore_bound hx _ _ a n) hj hj2
    (by rw [Lim.sl_eq hz]; exact sz) (by rw [Lim.sl_eq hb]; exact sb) a n
  rwa [Lim.sl_eq hz, Lim.sl_eq hb, Lim.sl_eq hy, List.getD_eq_getElem?_getD, ht] at this

/-- **C74** (backward step, torch). -/
theorem C74_torch_backward_displacement (env : Env ρ ℝ) (c : Cfg d N M ℝ) (hN : 0 < N) (hd : 2 ≤ d)
    (hdet : c.deterministic = true) (hw : c.reweight = false) (hk : KnownKernel c.kern) (r r' : ρ) (o : Obj d N M ℝ)
    (h : torchConstruct env c r = .ok (o, r')) (j : ℕ) (hj : 1 ≤ j) (hj2 : j + 2 < o.timegrid.length) (z b y : Mat d N ℝ) (t : ℝ)
    (hz : o.Z[j+1]? = some z) (hb : o.B[j+1]? = some b) (hy : o.B[j]? = some y) (ht : o.timegrid[j+1]? = some t)
    (sb : Spread b) (a : Fin d) (n : Fin N) :
    |y a n - (b a n - 1/1000 * c.f.call2 b t a n)|
      ≤ 250 * c.g ^ 2 * M ^ 2 * N / sdev (z a) + 125 * c.g ^ 2 * M ^ 2 * N / sdev (b a) := by
  have := Disp.backward_move (Lim.run_torch hN hd hdet hk hw h (by omega)) (fun z b u a n hx => Disp.tcloudScore_bound hx _ _ a n)
    (fun z b u a n hx => Disp.tcloudScore_bound hx _ _ a n) hj hj2
    (by rw [Lim.sl_eq hz]; exact Lim.torch_spread hdet h (by omega) (j+1) (by omega) z hz) (by rw [Lim.sl_eq hb]; exact sb) a n
  rwa [Lim.sl_eq hz, Lim.sl_eq hb, Lim.sl_eq hy, List.getD_eq_getElem?_getD, ht] at this

/-- The drift pulls particles `n0` and `n1` apart in every coordinate once they are `D` apart, strongly enough to outweigh
any score estimate. -/
def PullsApart (c : Cfg d N M ℝ) (D : ℝ) (n0 n1 : Fin N) : Prop :=
  ∀ x t a, (∀ a, D ≤ x a n1 - x a n0) →
    250000 * c.g ^ 2 * M ^ 2 * N * Real.sqrt (2 * N) / D ≤ c.f.call2 x t a n1 - c.f.call2 x t a n0

/-- **C74** (spread is kept, numpy). If the drift pulls two particles apart and they are `D` apart in the first computed
slice, then they are `D` apart in all later slices; in particular these have spread, so every later step is a
probability-flow step. -/
theorem C74_spread_kept (env : Env ρ ℝ) (c : Cfg d N M ℝ) (hN : 0 < N) (hd : 0 < d)
    (hdet : c.deterministic = true) (hw : c.reweight = false) (hk : KnownKernel c.kern) (r r' : ρ) (o : Obj d N M ℝ)
    (h : construct env c r = .ok (o, r')) (h2 : 2 ≤ o.timegrid.length) (D : ℝ) (hD : 0 < D) (n0 n1 : Fin N)
    (hp : PullsApart c D n0 n1) (h1 : ∀ x, o.Z[1]? = some x → ∀ a, D ≤ x a n1 - x a n0) (j : ℕ) (hj : 1 ≤ j) (x : Mat d N ℝ)
    (hx : o.Z[j]? = some x) : (∀ a, D ≤ x a n1 - x a n0) ∧ Spread x := by
  have run := Lim.run_np hN hd hdet hk hw h h2
  have hs := Disp.run_sep run (fun x u a n hx => Disp.cloudScore_bound hx _ _ a n) hD hp
    (h1 _ (Lim.sl_some (by rw [run.lenZ]; omega))) j hj (by rw [← run.lenZ]; exact (List.getElem?_eq_some_iff.1 hx).1)
  rw [Lim.sl_eq hx] at hs
  exact ⟨hs, Disp.sep_spread hD hs⟩

/-- **C74** (a sufficient condition for the torch class to return). If the drift pulls two particles apart and the first
noisy step leaves them `D` apart, then the torch constructor returns, and they are `D` apart in all later slices. -/
theorem C74_torch_returns (env : Env ρ ℝ) (c : Cfg d N M ℝ) (hd : 2 ≤ d)
    (hdet : c.deterministic = true) (hw : c.reweight = false) (hk : KnownKernel c.kern) (r : ρ) (t : List ℝ)
    (ht : torchGrid c.t1 c.t2 = .ok t) (h3 : 3 ≤ t.length) (D : ℝ) (hD : 0 < D) (n0 n1 : Fin N) (hp : PullsApart c D n0 n1)
    (h1 : ∀ a, D ≤ noisy c.f c.g (fun a _ => c.y1 a) c.t1 (normals env d N r) a n1
      - noisy c.f c.g (fun a _ => c.y1 a) c.t1 (normals env d N r) a n0) :
    ∃ o r', torchConstruct env c r = .ok (o, r') ∧
      ∀ j x, 1 ≤ j → o.Z[j]? = some x → ∀ a, D ≤ x a n1 - x a n0 := by
  have hN : 0 < N := by have := n0.2; omega
  have htt : t = mkGrid c.t1 c.t2 := tv_grid_eq ht
  have ht0 : t.getD 0 0 = c.t1 := by rw [htt]; exact Law.grid_head (by rw [← htt]; omega)
  have hz := Disp.zseq_sep (env := env) (t := t) (r := r) hD hp (by unfold Lim.zseq; rw [ht0]; exact h1)
  obtain ⟨o, r', h⟩ := Sym.torch_ok hN hd hdet hw hk ht h3 r fun j h1 hj => by
    obtain ⟨i, rfl⟩ : ∃ i, j = i + 1 := ⟨j - 1, by omega⟩
    exact Disp.sep_spread hD (hz i)
  refine ⟨o, r', h, fun j x hj hx => ?_⟩
  have hto : o.timegrid = t := by
    have := (torchConstruct_fields h).2.1
    rw [ht] at this; exact (Except.ok.inj this).symm
  have hl : j < o.timegrid.length := by
    rw [← (C08_storage_sizes env c (by omega) r r' o (.inr h)).1]; exact (List.getElem?_eq_some_iff.1 hx).1
  have e := Sym.torch_zseq hN hd hdet hw hk h (by rw [hto]; omega) j hl
  rw [hx, hto] at e
  rw [Option.some.inj e]
  obtain ⟨i, rfl⟩ : ∃ i, j = i + 1 := ⟨j - 1, by omega⟩
  exact hz i

/-- **C74** (spread of the backward flow, numpy). If forward particles `n0`, `n1` are `D` apart from slice 1 on, the drift
pulls `m1`, `m0` together strongly once they are `E` apart, and they are `E` apart in backward slice `k-2`, then they are
`E` apart in all backward slices `1, ..., k-2`. -/
theorem C74_backward_spread_kept (env : Env ρ ℝ) (c : Cfg d N M ℝ) (hN : 0 < N) (hd : 0 < d)
    (hdet : c.deterministic = true) (hw : c.reweight = false) (hk : KnownKernel c.kern) (r r' : ρ) (o : Obj d N M ℝ)
    (h : construct env c r = .ok (o, r')) (h3 : 3 ≤ o.timegrid.length) (D E : ℝ) (hD : 0 < D) (hE : 0 < E)
    (n0 n1 m0 m1 : Fin N) (hZ : ∀ j x, 1 ≤ j → o.Z[j]? = some x → ∀ a, D ≤ x a n1 - x a n0)
    (hp : ∀ x t a, (∀ a, E ≤ x a m1 - x a m0) →
      500000 * c.g ^ 2 * M ^ 2 * N * Real.sqrt (2 * N) / D + 250000 * c.g ^ 2 * M ^ 2 * N * Real.sqrt (2 * N) / E
        ≤ c.f.call2 x t a m0 - c.f.call2 x t a m1)
    (h1 : ∀ x, o.B[o.timegrid.length - 2]? = some x → ∀ a, E ≤ x a m1 - x a m0) (j : ℕ) (hj : 1 ≤ j)
    (hj2 : j + 2 ≤ o.timegrid.length) (x : Mat d N ℝ) (hx : o.B[j]? = some x) :
    (∀ a, E ≤ x a m1 - x a m0) ∧ Spread x := by
  have run := Lim.run_np hN hd hdet hk hw h (by omega)
  have hs := Disp.run_sep_back run (fun z b u a n hx => Disp.cloudScore_bound hx _ _ a n)
    (fun z b u a n hx => Disp.cloudScore_bound hx _ _ a n) hD hE
    (fun j h1 hj => hZ j _ h1 (Lim.sl_some (by rw [run.lenZ]; exact hj))) hp
    (h1 _ (Lim.sl_some (by rw [run.lenB]; omega))) (o.timegrid.length - 2 - j) j (by omega) hj
  rw [Lim.sl_eq hx] at hs
  exact ⟨hs, Disp.sep_spread hE hs⟩

end

/-- A transport solver, not called in these examples. -/
noncomputable def exSolver : Solver := fun _ _ _ => .ok fun _ _ => 0

/-- Particle `n` drifts with velocity `60000 n` in every coordinate; noise amplitude 1. -/
noncomputable def exWide (M steps : ℕ) : Cfg 2 2 M ℝ :=
  { exCfg 2 2 M steps true false false with f := ⟨fun _ _ _ n => 60000 * n.val, none⟩ }

theorem exWide_cost : Real.sqrt (2 * (2:ℕ)) = 2 := by
  rw [show (2 * (2:ℕ) : ℝ) = 2 * 2 by norm_num]; exact Real.sqrt_mul_self (by norm_num)

theorem exWide_pulls (steps : ℕ) : PullsApart (exWide 1 steps) 60 0 1 := by
  intro x t a _
  rw [exWide_cost]
  show 250000 * (1:ℝ) ^ 2 * ((1:ℕ):ℝ) ^ 2 * ((2:ℕ):ℝ) * 2 / 60 ≤ 60000 * (((1:Fin 2):ℕ):ℝ) - 60000 * (((0:Fin 2):ℕ):ℝ)
  norm_num

/-- With zero noise in the first step, the first step separates the particles by 60. -/
theorem exWide_first (steps : ℕ) (ω υ : ℕ → ℝ) (s : ℕ × ℕ) (hω : ∀ i < 4, ω (s.1 + i) = 0) (a : Fin 2) :
    60 ≤ noisy (exWide 1 steps).f (exWide 1 steps).g (fun a _ => (exWide 1 steps).y1 a) (exWide 1 steps).t1
        (normals (tapeEnv ω υ exSolver) 2 2 s) a 1
      - noisy (exWide 1 steps).f (exWide 1 steps).g (fun a _ => (exWide 1 steps).y1 a) (exWide 1 steps).t1
        (normals (tapeEnv ω υ exSolver) 2 2 s) a 0 := by
  rw [Law.tape_normals]
  simp only [noisy]
  rw [hω _ (by have := a.2; simp; omega), hω _ (by have := a.2; simp; omega)]
  show 60 ≤ (_ + 1/1000 * (60000 * (((1:Fin 2):ℕ):ℝ)) + _) - (_ + 1/1000 * (60000 * (((0:Fin 2):ℕ):ℝ)) + _)
  simp only [Fin.val_one, Fin.val_zero]
  norm_num

/-- The numpy class returns, and the particles are 60 apart in all slices from the first computed one on; the same in
the backward flow, where they are separated the other way round. -/
theorem exWide_runs (steps : ℕ) (hs : 2 ≤ steps) (ω υ : ℕ → ℝ) (s : ℕ × ℕ) (hω : ∀ i < 8, ω (s.1 + i) = 0) :
    ∃ o r', construct (tapeEnv ω υ exSolver) (exWide 1 steps) s = .ok (o, r') ∧ o.timegrid.length = steps + 1 ∧
      (∀ j x, 1 ≤ j → o.Z[j]? = some x → ∀ a, 60 ≤ x a 1 - x a 0) ∧
      ∀ j x, 1 ≤ j → j + 2 ≤ o.timegrid.length → o.B[j]? = some x → ∀ a, 60 ≤ x a 0 - x a 1 := by
  have hl : (mkGrid (exWide 1 steps).t1 (exWide 1 steps).t2).length = steps + 1 := exCfg_grid 2 2 1 steps true false false
  obtain ⟨o, r', h⟩ := construct_det_total (tapeEnv ω υ exSolver) (exWide 1 steps) (by norm_num) rfl (by rw [hl]; omega)
    (effKern_rbf (.inl rfl)) (fun h => by cases h) (fun h => by cases h) s
  have hg := (construct_fields h).2
  have hlen : o.timegrid.length = steps + 1 := by rw [hg, hl]
  have run := Lim.run_np (by norm_num) (by norm_num) rfl (.inl rfl) rfl h (by omega)
  have hZ : ∀ j x, 1 ≤ j → o.Z[j]? = some x → ∀ a, 60 ≤ x a 1 - x a 0 := fun j x hj hx =>
    (C74_spread_kept _ _ (by norm_num) (by norm_num) rfl rfl (.inl rfl) s r' o h (by omega) 60 (by norm_num) 0 1
      (exWide_pulls steps) (fun x hx => by
        rw [Lim.sl_some (by rw [run.lenZ]; omega), run.z1 (by omega), run.z0, hg, Law.grid_head (by rw [hl]; omega)] at hx
        cases hx
        exact exWide_first steps ω υ s fun i hi => hω i (by omega)) j hj x hx).1
  refine ⟨o, r', h, hlen, hZ, fun j x h1 h2 hx => ?_⟩
  refine (C74_backward_spread_kept _ _ (by norm_num) (by norm_num) rfl rfl (.inl rfl) s r' o h (by omega) 60 60 (by norm_num)
    (by norm_num) 0 1 1 0 hZ ?_ ?_ j h1 h2 x hx).1
  · intro x t a _
    rw [exWide_cost]
    show 500000 * (1:ℝ) ^ 2 * ((1:ℕ):ℝ) ^ 2 * ((2:ℕ):ℝ) * 2 / 60 + 250000 * (1:ℝ) ^ 2 * ((1:ℕ):ℝ) ^ 2 * ((2:ℕ):ℝ) * 2 / 60
      ≤ 60000 * (((1:Fin 2):ℕ):ℝ) - 60000 * (((0:Fin 2):ℕ):ℝ)
    norm_num
  · intro x hx a
    have hnx : ∀ s, unifsNext (tapeEnv ω υ exSolver) 2 1 s = (s.1, s.2 + 2 * 1) := fun s => Law.tape_unifsNext _ _ _ _ _ _
    rw [Law.back_step hnx run (by omega) (Disp.sep_spread (D := 60) (by norm_num) (hZ (o.timegrid.length - 1) _ (by omega)
      (Lim.sl_some (by rw [run.lenZ]; omega))))] at hx
    cases hx
    dsimp only
    rw [show s.1 + 2 * 2 + (a.val * 2 + (0:Fin 2).val) = s.1 + (4 + a.val * 2) by simp; omega, hω _ (by have := a.2; omega),
      show s.1 + 2 * 2 + (a.val * 2 + (1:Fin 2).val) = s.1 + (5 + a.val * 2) by simp; omega, hω _ (by have := a.2; omega)]
    show 60 ≤ (_ - 1/1000 * (60000 * (((0:Fin 2):ℕ):ℝ)) + _) + _ - ((_ - 1/1000 * (60000 * (((1:Fin 2):ℕ):ℝ)) + _) + _)
    have e : ∀ (z : Mat 2 2 ℝ) u, scoreRho (M := 1) z (fun a _ => (exWide 1 steps).y2 a) u a 0
      = scoreRho z (fun a _ => (exWide 1 steps).y2 a) u a 1 := fun z u => rfl
    rw [e]
    simp only [Fin.val_one, Fin.val_zero]
    norm_num

/-- A run on 21 grid points to which all of C74 applies: zero noise in the two noisy steps. -/
example (s : ℕ × ℕ) : ∃ o r', construct (tapeEnv (fun _ => 0) (fun _ => 1/2) exSolver) (exWide 1 20) s = .ok (o, r') ∧
    o.timegrid.length = 21 ∧ KeepsSpread o ∧
    ∀ j x y, 1 ≤ j → o.Z[j]? = some x → o.Z[j+1]? = some y → ∀ a n,
      |y a n - (x a n + 1/1000 * (60000 * n.val))| ≤ 250 / sdev (x a) := by
  obtain ⟨o, r', h, hl, hZ, hB⟩ := exWide_runs 20 (by norm_num) (fun _ => 0) (fun _ => 1/2) s fun _ _ => rfl
  refine ⟨o, r', h, hl, ⟨fun j x hj hx => Disp.sep_spread (by norm_num) (hZ j x hj hx),
    fun j x h1 h2 hx => Disp.sep_spread (n0 := 1) (n1 := 0) (by norm_num) (hB j x (by omega) (by omega) hx)⟩,
    fun j x y hj hx hy a n => ?_⟩
  have hlZ := (C08_storage_sizes _ _ (by norm_num) s r' o (.inl h)).1
  have hjl : j < o.timegrid.length := by rw [← hlZ]; exact (List.getElem?_eq_some_iff.1 hx).1
  have := C74_forward_displacement _ _ (by norm_num) (by norm_num) rfl rfl (.inl rfl) s r' o h j hj x y _ hx hy
    (List.getElem?_eq_getElem hjl) (Disp.sep_spread (by norm_num) (hZ j x hj hx)) a n
  refine this.trans (le_of_eq ?_)
  rw [show (exWide 1 20).g = 1 from rfl]
  norm_num

/-- The torch class returns on the same problem. -/
example (s : ℕ × ℕ) : ∃ o r', torchConstruct (tapeEnv (fun _ => 0) (fun _ => 1/2) exSolver) (exWide 1 20) s = .ok (o, r') ∧
    ∀ j x, 1 ≤ j → o.Z[j]? = some x → ∀ a, 60 ≤ x a 1 - x a 0 := by
  have hg : torchGrid (exWide 1 20).t1 (exWide 1 20).t2 = .ok (mkGrid (exWide 1 20).t1 (exWide 1 20).t2) :=
    exCfg_torchGrid 2 2 1 20 true false false
  have hl : (mkGrid (exWide 1 20).t1 (exWide 1 20).t2).length = 20 + 1 := exCfg_grid 2 2 1 20 true false false
  exact C74_torch_returns _ (exWide 1 20) (by norm_num) rfl rfl (.inl rfl) s _ hg
    (by rw [hl]; norm_num) 60 (by norm_num) 0 1 (exWide_pulls 20) (exWide_first 20 _ _ s fun _ _ => rfl)

end DPFC
