import Verif.Lib.Law
import Verif.Props.Displace

/-!
# C71, C72: what is random in a run

The normals and uniforms the library reads are two tapes; the normals are independent standard normals.
-/

namespace DPFC
open Spec MeasureTheory ProbabilityTheory

section
variable {N M d : ℕ}

/-- **C71** (first noisy slice, numpy). Deterministic mode, no reweighting, at least two grid points, any generator
state. The construction returns whatever the tapes are, and the first computed forward slice consists of independent
normals with mean `y1 + dt f(y1, t1)` and variance `g^2 dt`, `dt = 1/1000`. -/
theorem C71_first_slice_law (emd : Solver) (υ : ℕ → ℝ) (c : Cfg d N M ℝ) (hN : 0 < N) (hd : 0 < d)
    (hdet : c.deterministic = true) (hw : c.reweight = false) (hk : KnownKernel c.kern) (s : ℕ × ℕ)
    (h2 : 2 ≤ (mkGrid c.t1 c.t2).length) :
    ∃ X : (ℕ → ℝ) → Fin d → Fin N → ℝ,
      (∀ ω, ∃ o r', construct (tapeEnv ω υ emd) c s = .ok (o, r') ∧ o.Z[1]? = some (X ω)) ∧
      gaussTape.map X = normalLaw (fun a n => c.y1 a + 1/1000 * c.f.call2 (fun a _ => c.y1 a) c.t1 a n)
        (Real.toNNReal (c.g ^ 2 / 1000)) := by
  have ht0 : (mkGrid c.t1 c.t2).getD 0 0 = c.t1 := Law.grid_head (by omega)
  refine ⟨fun ω => noisy c.f c.g (fun a _ => c.y1 a) c.t1 fun a n => ω (s.1 + (a.val * N + n.val)), fun ω => ?_,
    Law.noisy_law c.f c.g _ _ _⟩
  obtain ⟨o, r', h⟩ := construct_det_total (tapeEnv ω υ emd) c hN hdet h2 (effKern_rbf hk)
    (fun h => by rw [hw] at h; cases h) (fun h => by rw [hw] at h; cases h) s
  have hg := (construct_fields h).2
  have run := Lim.run_np hN hd hdet hk hw h (by rw [hg]; exact h2)
  have hl := run.lenZ
  refine ⟨o, r', h, ?_⟩
  rw [Lim.sl_some (by rw [hl, hg]; omega), run.z1 (by rw [hg]; omega), run.z0, hg, ht0, Law.tape_normals]

/-- **C71** (first noisy slice, torch). The same for the torch class, for the runs that return. -/
theorem C71_torch_first_slice_law (emd : Solver) (υ : ℕ → ℝ) (c : Cfg d N M ℝ) (hN : 0 < N) (hd : 2 ≤ d)
    (hdet : c.deterministic = true) (hw : c.reweight = false) (hk : KnownKernel c.kern) (s : ℕ × ℕ) :
    ∃ X : (ℕ → ℝ) → Fin d → Fin N → ℝ,
      (∀ ω o r', torchConstruct (tapeEnv ω υ emd) c s = .ok (o, r') → 2 ≤ o.timegrid.length → o.Z[1]? = some (X ω)) ∧
      gaussTape.map X = normalLaw (fun a n => c.y1 a + 1/1000 * c.f.call2 (fun a _ => c.y1 a) c.t1 a n)
        (Real.toNNReal (c.g ^ 2 / 1000)) := by
  refine ⟨fun ω => noisy c.f c.g (fun a _ => c.y1 a) c.t1 fun a n => ω (s.1 + (a.val * N + n.val)), fun ω o r' h h2 => ?_,
    Law.noisy_law c.f c.g _ _ _⟩
  have run := Lim.run_torch hN hd hdet hk hw h h2
  have hl := run.lenZ
  have ht0 : o.timegrid.getD 0 0 = c.t1 := by
    have hg := (torchConstruct_fields h).2.2
    rw [torchPoints_real] at hg
    rw [hg] at h2 ⊢
    exact Law.grid_head (by omega)
  rw [Lim.sl_some (by rw [hl]; omega), run.z1 (by omega), run.z0, ht0, Law.tape_normals]

/-- **C71** (first backward step, numpy). Deterministic mode, no reweighting. Keep the uniforms and the first `d N`
normals fixed and suppose that one run with them has spread in its forward flow `Z`. Then every run with them returns the
same forward flow, and, over the normals that follow, slice `k-2` of the backward flow consists of independent normals with
variance `g^2 dt` and mean `y2 - dt f(y2, t) + g^2 dt` times the score estimate of the last forward slice at `y2`. -/
theorem C71_backward_step_law (emd : Solver) (υ w ω₀ : ℕ → ℝ) (c : Cfg d N M ℝ) (hN : 0 < N) (hd : 0 < d)
    (hdet : c.deterministic = true) (hw : c.reweight = false) (hk : KnownKernel c.kern) (s r₀ : ℕ × ℕ)
    (o₀ : Obj d N M ℝ) (h0 : construct (tapeEnv (splice (s.1 + d * N) w ω₀) υ emd) c s = .ok (o₀, r₀))
    (h3 : 3 ≤ o₀.timegrid.length) (sZ : ∀ j x, 1 ≤ j → o₀.Z[j]? = some x → Spread x)
    (t : ℝ) (ht : o₀.timegrid[o₀.timegrid.length - 1]? = some t)
    (z : Fin d → Fin N → ℝ) (hz : o₀.Z[o₀.timegrid.length - 1]? = some z) :
    ∃ X : (ℕ → ℝ) → Fin d → Fin N → ℝ,
      (∀ ω, ∃ o r', construct (tapeEnv (splice (s.1 + d * N) w ω) υ emd) c s = .ok (o, r') ∧ o.Z = o₀.Z ∧
        o.B[o₀.timegrid.length - 2]? = some (X ω)) ∧
      gaussTape.map X = normalLaw (fun a n => c.y2 a - 1/1000 * c.f.call2 (fun a _ => c.y2 a) t a n
        + c.g ^ 2 / 1000 * scoreRho z (fun a _ => c.y2 a)
          (fun a (m : Fin M) => υ (s.2 + (o₀.timegrid.length - 2) * (d * M) + (a.val * M + m.val))) a n)
        (Real.toNNReal (c.g ^ 2 / 1000)) := by
  have hg0 := (construct_fields h0).2
  have run0 := Lim.run_np hN hd hdet hk hw h0 (by omega)
  have hnx : ∀ (ω : ℕ → ℝ) s, unifsNext (tapeEnv ω υ emd) d M s = (s.1, s.2 + d * M) := fun ω s => Law.tape_unifsNext _ _ _ _ _ _
  have sZ' : ∀ j, 1 ≤ j → j < o₀.timegrid.length → Spread (Lim.sl o₀.Z j) := fun j h1 hj =>
    sZ j _ h1 (Lim.sl_some (by rw [run0.lenZ]; exact hj))
  refine ⟨_, fun ω => ?_, Law.back_law _ c.g (s.1 + d * N)⟩
  obtain ⟨o, r', h⟩ := construct_det_total (tapeEnv (splice (s.1 + d * N) w ω) υ emd) c hN hdet (by rw [← hg0]; omega)
    (effKern_rbf hk) (fun h => by rw [hw] at h; cases h) (fun h => by rw [hw] at h; cases h) s
  have hg : o.timegrid = o₀.timegrid := by rw [(construct_fields h).2, hg0]
  have run := Lim.run_np hN hd hdet hk hw h (by rw [hg]; omega)
  rw [hg] at run
  have hu : ∀ ω : ℕ → ℝ, unifs (tapeEnv ω υ emd) d M = fun s a (k : Fin M) => υ (s.2 + (a.val * M + k.val)) := fun ω =>
    funext fun s => Law.tape_unifs _ _ _ _ _ _
  have hun : ∀ ω : ℕ → ℝ, unifsNext (tapeEnv ω υ emd) d M = fun s => (s.1, s.2 + d * M) := fun ω => funext fun s => hnx ω s
  rw [hu, hun] at run run0
  have hZ := Law.same_Z (fun s => rfl) (fun i hi => by rw [Law.splice_lt hi, Law.splice_lt hi]) run0 run sZ'
  refine ⟨o, r', h, hZ, ?_⟩
  rw [Law.back_step (fun s => rfl) run h3 (by rw [hZ]; exact sZ' _ (by omega) (by omega)), hZ, Lim.sl_eq hz,
    List.getD_eq_getElem?_getD, ht]
  congr 1
  funext a n
  rw [Law.splice_ge (by omega)]
  rfl

/-- **C71** (first backward step, torch). The same for the torch class; it needs no assumption on the spread: whether a run
returns is decided by the uniforms and the first `d N` normals. -/
theorem C71_torch_backward_step_law (emd : Solver) (υ w ω₀ : ℕ → ℝ) (c : Cfg d N M ℝ) (hN : 0 < N) (hd : 2 ≤ d)
    (hdet : c.deterministic = true) (hw : c.reweight = false) (hk : KnownKernel c.kern) (s r₀ : ℕ × ℕ)
    (o₀ : Obj d N M ℝ) (h0 : torchConstruct (tapeEnv (splice (s.1 + d * N) w ω₀) υ emd) c s = .ok (o₀, r₀))
    (h3 : 3 ≤ o₀.timegrid.length) (t : ℝ) (ht : o₀.timegrid[o₀.timegrid.length - 1]? = some t)
    (z : Fin d → Fin N → ℝ) (hz : o₀.Z[o₀.timegrid.length - 1]? = some z) :
    ∃ X : (ℕ → ℝ) → Fin d → Fin N → ℝ,
      (∀ ω, ∃ o r', torchConstruct (tapeEnv (splice (s.1 + d * N) w ω) υ emd) c s = .ok (o, r') ∧ o.Z = o₀.Z ∧
        o.B[o₀.timegrid.length - 2]? = some (X ω)) ∧
      gaussTape.map X = normalLaw (fun a n => c.y2 a - 1/1000 * c.f.call2 (fun a _ => c.y2 a) t a n
        + c.g ^ 2 / 1000 * tscoreRho z (fun a _ => c.y2 a)
          (fun (m : Fin M) a => υ (s.2 + (o₀.timegrid.length - 2) * (M * d) + (m.val * d + a.val))) a n)
        (Real.toNNReal (c.g ^ 2 / 1000)) := by
  have hg0 := (torchConstruct_fields h0).2
  have run0 := Lim.run_torch hN hd hdet hk hw h0 (by omega)
  have sZ' : ∀ j, 1 ≤ j → j < o₀.timegrid.length → Spread (Lim.sl o₀.Z j) := fun j h1 hj =>
    Lim.torch_spread hdet h0 h3 j h1 _ (Lim.sl_some (by rw [run0.lenZ]; exact hj))
  have hu : ∀ ω : ℕ → ℝ, tunifs (tapeEnv ω υ emd) d M = fun s (k : Fin M) a => υ (s.2 + (k.val * d + a.val)) := fun ω =>
    funext fun s => Law.tape_tunifs _ _ _ _ _ _
  have hun : ∀ ω : ℕ → ℝ, tunifsNext (tapeEnv ω υ emd) d M = fun s => (s.1, s.2 + M * d) := fun ω =>
    funext fun s => Law.tape_tunifsNext _ _ _ _ _ _
  refine ⟨_, fun ω => ?_, Law.back_law _ c.g (s.1 + d * N)⟩
  obtain ⟨o, r', h⟩ := Sym.torch_ok (env := tapeEnv (splice (s.1 + d * N) w ω) υ emd) (c := c) hN hd hdet hw hk hg0.1 h3 s
    (fun j h1 hj => by
      have hsp := sZ' j h1 hj
      rw [Lim.sl_eq (Sym.torch_zseq hN hd hdet hw hk h0 (by omega) j hj),
        Law.zseq_same (ω' := splice (s.1 + d * N) w ω) (fun i hi => by rw [Law.splice_lt hi, Law.splice_lt hi])] at hsp
      exact hsp)
  have hg : o.timegrid = o₀.timegrid := by rw [(torchConstruct_fields h).2.2, hg0.2]
  have run := Lim.run_torch hN hd hdet hk hw h (by rw [hg]; omega)
  rw [hg] at run
  rw [hu, hun] at run run0
  have hZ := Law.same_Z (fun s => rfl) (fun i hi => by rw [Law.splice_lt hi, Law.splice_lt hi]) run0 run sZ'
  refine ⟨o, r', h, hZ, ?_⟩
  rw [Law.back_step (fun s => rfl) run h3 (by rw [hZ]; exact sZ' _ (by omega) (by omega)), hZ, Lim.sl_eq hz,
    List.getD_eq_getElem?_getD, ht]
  congr 1
  funext a n
  rw [Law.splice_ge (by omega)]
  rfl

/-! ### C72: the stochastic mode of the torch class -/

/-- **C72** (the stochastic forward flow). Stochastic mode of the torch class, at least two coordinates and particles,
`g ≠ 0`, no reweighting, measurable drift. Construction almost surely returns, whatever the uniforms are; the stored
forward flow is an Euler-Maruyama chain `Z (j+1) = Z j + dt f(Z j, t_j) + g sqrt(dt) ξ_j` started in `y1` (coordinates
beyond the second in 0), whose noises are independent arrays of independent standard normals, the noise of each step
being independent of the flow so far. -/
theorem C72_stochastic_chain (emd : Solver) (υ : ℕ → ℝ) (c : Cfg d N M ℝ) (hd : 2 ≤ d) (hN : 2 ≤ N)
    (hdet : c.deterministic = false) (hw : c.reweight = false) (hk : KnownKernel c.kern) (hg : c.g ≠ 0)
    (hf : ∀ t, Measurable fun x : Fin d → Fin N → ℝ => (c.f.call2 x t : Fin d → Fin N → ℝ))
    (t : List ℝ) (ht : torchGrid c.t1 c.t2 = .ok t) (h1 : 2 ≤ t.length) (s : ℕ × ℕ) :
    ∃ Z ξ : ℕ → (ℕ → ℝ) → Fin d → Fin N → ℝ,
      (∀ᵐ ω ∂gaussTape, ∃ o r', torchConstruct (tapeEnv ω υ emd) c s = .ok (o, r') ∧
        ∀ j < t.length, o.Z[j]? = some (Z j ω)) ∧
      (∀ ω, Z 0 ω = fun a _ => if a.val < 2 then c.y1 a else 0) ∧
      (∀ j ω, Z (j+1) ω = noisy c.f c.g (Z j ω) (t.getD j 0) (ξ j ω)) ∧
      (∀ j, gaussTape.map (ξ j) = normalLaw (fun _ _ => 0) 1) ∧
      iIndepFun ξ gaussTape ∧
      ∀ j, IndepFun (fun ω (i : Fin (j+1)) => Z i ω) (ξ j) gaussTape := by
  refine ⟨fun j ω => Law.em c.f c.g t (fun a _ => if a.val < 2 then c.y1 a else 0) s.1 ω j,
    fun j ω a n => ω (s.1 + j * (d * N) + (a.val * N + n.val)), ?_, fun ω => rfl, fun j ω => rfl,
    fun j => Law.block_law _, Law.blocks_indep s.1, fun j => Law.em_indep hf j⟩
  filter_upwards [Law.em_spread (x0 := fun a _ => if a.val < 2 then c.y1 a else 0) (i0 := s.1) (t := t) hg hN hf] with ω hω
  exact Law.stoch_ok hd hN hdet hw hk ht h1 hω

/-- **C72** (independent particles). If moreover the drift acts particle by particle, the particle paths of the stored
forward flow are independent and identically distributed. -/
theorem C72_particles_iid (emd : Solver) (υ : ℕ → ℝ) (c : Cfg d N M ℝ) (hd : 2 ≤ d) (hN : 2 ≤ N)
    (hdet : c.deterministic = false) (hw : c.reweight = false) (hk : KnownKernel c.kern) (hg : c.g ≠ 0)
    (φ : (Fin d → ℝ) → ℝ → Fin d → ℝ) (hf : ActsBy c.f φ) (hφ : ∀ t, Measurable fun p => φ p t)
    (t : List ℝ) (ht : torchGrid c.t1 c.t2 = .ok t) (h1 : 2 ≤ t.length) (s : ℕ × ℕ) :
    ∃ P : Fin N → (ℕ → ℝ) → ℕ → Fin d → ℝ,
      (∀ᵐ ω ∂gaussTape, ∃ o r', torchConstruct (tapeEnv ω υ emd) c s = .ok (o, r') ∧
        ∀ j < t.length, o.Z[j]? = some fun a n => P n ω j a) ∧
      iIndepFun P gaussTape ∧ ∀ n n', IdentDistrib (P n) (P n') gaussTape gaussTape := by
  let p0 : Fin d → ℝ := fun a => if a.val < 2 then c.y1 a else 0
  refine ⟨fun n ω j => particle (Law.em c.f c.g t (fun a _ => p0 a) s.1 ω j) n, ?_,
    Law.particles_indep hf hφ c.g t p0 s.1, Law.particles_ident hf hφ c.g t p0 s.1⟩
  filter_upwards [Law.em_spread (x0 := fun a _ => p0 a) (i0 := s.1) (t := t) hg hN (Law.acts_meas hf hφ)] with ω hω
  exact Law.stoch_ok hd hN hdet hw hk ht h1 hω

/-- **C72** (no drift). Without drift, coordinate `a` of every particle of slice `j` is normal with mean `y1_a` and
variance `j g^2 dt`: Brownian motion at the grid times. -/
theorem C72_brownian_motion (emd : Solver) (υ : ℕ → ℝ) (c : Cfg d N M ℝ) (hd : 2 ≤ d) (hN : 2 ≤ N)
    (hdet : c.deterministic = false) (hw : c.reweight = false) (hk : KnownKernel c.kern) (hg : c.g ≠ 0)
    (hf : ∀ x t a n, c.f.call2 x t a n = 0)
    (t : List ℝ) (ht : torchGrid c.t1 c.t2 = .ok t) (h1 : 2 ≤ t.length) (s : ℕ × ℕ) :
    ∃ Z : ℕ → (ℕ → ℝ) → Fin d → Fin N → ℝ,
      (∀ᵐ ω ∂gaussTape, ∃ o r', torchConstruct (tapeEnv ω υ emd) c s = .ok (o, r') ∧
        ∀ j < t.length, o.Z[j]? = some (Z j ω)) ∧
      ∀ j a n, gaussTape.map (fun ω => Z j ω a n)
        = gaussianReal (if a.val < 2 then c.y1 a else 0) (j * Real.toNNReal (c.g ^ 2 / 1000)) := by
  have hm : ∀ t, Measurable fun x : Fin d → Fin N → ℝ => (c.f.call2 x t : Fin d → Fin N → ℝ) := fun t => by
    have : (fun x : Fin d → Fin N → ℝ => (c.f.call2 x t : Fin d → Fin N → ℝ)) = fun _ _ _ => 0 := by
      funext x a n; exact hf x t a n
    rw [this]; exact measurable_const
  obtain ⟨Z, ξ, hZ, hz0, hs, hl, -, hi⟩ := C72_stochastic_chain emd υ c hd hN hdet hw hk hg hm t ht h1 s
  exact ⟨Z, hZ, Law.brownian hf hz0 hs hl hi⟩

end

/-- The first slice of a numpy run with 3 coordinates, 4 particles and 21 grid points. -/
example (υ : ℕ → ℝ) : ∃ X : (ℕ → ℝ) → Fin 3 → Fin 4 → ℝ,
    (∀ ω, ∃ o r', construct (tapeEnv ω υ exSolver) (exCfg 3 4 5 20 true false false) (0, 0) = .ok (o, r') ∧
      o.Z[1]? = some (X ω)) ∧
    gaussTape.map X = normalLaw (fun a _ => (1 + a.val : ℝ) + 1/1000 * ((1 + a.val : ℝ) + 0)) (Real.toNNReal (1 ^ 2 / 1000)) :=
  C71_first_slice_law exSolver υ (exCfg 3 4 5 20 true false false) (by norm_num) (by norm_num) rfl rfl (.inl rfl) (0, 0)
    (by rw [exCfg_grid]; norm_num)

/-- The first backward step of a numpy run: the forward noise is zero, the noise of the backward step is random. -/
example (υ : ℕ → ℝ) : ∃ (o₀ : Obj 2 2 1 ℝ) (X : (ℕ → ℝ) → Fin 2 → Fin 2 → ℝ) (μ : Fin 2 → Fin 2 → ℝ),
    (∀ ω, ∃ o r', construct (tapeEnv (splice 4 (fun _ => 0) ω) υ exSolver) (exWide 1 20) (0, 0) = .ok (o, r') ∧
      o.Z = o₀.Z ∧ o.B[19]? = some (X ω)) ∧
    gaussTape.map X = normalLaw μ (Real.toNNReal (1 ^ 2 / 1000)) := by
  obtain ⟨o, r', h, hl, hZ, -⟩ := exWide_runs 20 (by norm_num) (splice 4 (fun _ => 0) fun _ => 0) υ (0, 0)
    fun i _ => by simp [splice]
  have hz := (C08_storage_sizes _ _ (by norm_num) (0, 0) r' o (.inl h)).1
  obtain ⟨X, h1, h2⟩ := C71_backward_step_law exSolver υ (fun _ => 0) (fun _ => 0) (exWide 1 20) (by norm_num) (by norm_num)
    rfl rfl (.inl rfl) (0, 0) r' o h (by omega) (fun j x hj hx => Disp.sep_spread (by norm_num) (hZ j x hj hx)) _
    (List.getElem?_eq_getElem (by omega)) _ (List.getElem?_eq_getElem (by omega))
  refine ⟨o, X, _, fun ω => ?_, h2⟩
  obtain ⟨o', r'', e1, e2, e3⟩ := h1 ω
  exact ⟨o', r'', e1, e2, by rw [← e3, hl]⟩

/-- The same for the torch class. -/
example (υ : ℕ → ℝ) : ∃ (o₀ : Obj 2 2 1 ℝ) (X : (ℕ → ℝ) → Fin 2 → Fin 2 → ℝ) (μ : Fin 2 → Fin 2 → ℝ),
    (∀ ω, ∃ o r', torchConstruct (tapeEnv (splice 4 (fun _ => 0) ω) υ exSolver) (exWide 1 20) (0, 0) = .ok (o, r') ∧
      o.Z = o₀.Z ∧ o.B[19]? = some (X ω)) ∧
    gaussTape.map X = normalLaw μ (Real.toNNReal (1 ^ 2 / 1000)) := by
  have hg : torchGrid (exWide 1 20).t1 (exWide 1 20).t2 = .ok (mkGrid (exWide 1 20).t1 (exWide 1 20).t2) :=
    exCfg_torchGrid 2 2 1 20 true false false
  have hl : (mkGrid (exWide 1 20).t1 (exWide 1 20).t2).length = 20 + 1 := exCfg_grid 2 2 1 20 true false false
  obtain ⟨o, r', h, -⟩ := C74_torch_returns (tapeEnv (splice 4 (fun _ => 0) fun _ => 0) υ exSolver) (exWide 1 20) (by norm_num)
    rfl rfl (.inl rfl) (0, 0) _ hg (by rw [hl]; norm_num) 60 (by norm_num) 0 1 (exWide_pulls 20)
    (exWide_first 20 _ _ _ fun i _ => by simp [splice])
  have hto : o.timegrid.length = 21 := by
    have := (torchConstruct_fields h).2.1
    rw [hg] at this; rw [← Except.ok.inj this, hl]
  have hz := (C08_storage_sizes _ _ (by norm_num) (0, 0) r' o (.inr h)).1
  obtain ⟨X, h1, h2⟩ := C71_torch_backward_step_law exSolver υ (fun _ => 0) (fun _ => 0) (exWide 1 20) (by norm_num) (by norm_num)
    rfl rfl (.inl rfl) (0, 0) r' o h (by omega) _
    (List.getElem?_eq_getElem (by omega)) _ (List.getElem?_eq_getElem (by omega))
  refine ⟨o, X, _, fun ω => ?_, h2⟩
  obtain ⟨o', r'', e1, e2, e3⟩ := h1 ω
  exact ⟨o', r'', e1, e2, by rw [← e3, hto]⟩

/-- A stochastic torch run with 3 coordinates, 4 particles and 21 grid points. -/
example (υ : ℕ → ℝ) : ∃ P : Fin 4 → (ℕ → ℝ) → ℕ → Fin 3 → ℝ,
    (∀ᵐ ω ∂gaussTape, ∃ o r', torchConstruct (tapeEnv ω υ exSolver) (exCfg 3 4 5 20 false false false) (0, 0) = .ok (o, r') ∧
      ∀ j < 21, o.Z[j]? = some fun a n => P n ω j a) ∧ iIndepFun P gaussTape := by
  have hl := exCfg_grid 3 4 5 20 false false false
  obtain ⟨P, h1, h2, -⟩ := C72_particles_iid exSolver υ (exCfg 3 4 5 20 false false false) (by norm_num) (by norm_num) rfl rfl
    (.inl rfl) one_ne_zero (fun p t a => p a + t) (fun x t a n => rfl) (fun t => by fun_prop) _
    (exCfg_torchGrid 3 4 5 20 false false false) (by rw [hl]; norm_num) (0, 0)
  rw [hl] at h1
  exact ⟨P, h1, h2⟩

/-- The same problem without drift. -/
noncomputable def exFree : Cfg 3 4 5 ℝ := { exCfg 3 4 5 20 false false false with f := ⟨fun _ _ _ _ => 0, none⟩ }

/-- Brownian motion: variance `10 dt` after ten steps. -/
example (υ : ℕ → ℝ) : ∃ Z : ℕ → (ℕ → ℝ) → Fin 3 → Fin 4 → ℝ,
    (∀ᵐ ω ∂gaussTape, ∃ o r', torchConstruct (tapeEnv ω υ exSolver) exFree (0, 0) = .ok (o, r') ∧ o.Z[10]? = some (Z 10 ω)) ∧
    gaussTape.map (fun ω => Z 10 ω 1 2) = gaussianReal 2 (10 * Real.toNNReal (1 ^ 2 / 1000)) := by
  have hl := exCfg_grid 3 4 5 20 false false false
  obtain ⟨Z, h1, h2⟩ := C72_brownian_motion exSolver υ exFree
    (by norm_num) (by norm_num) rfl rfl (.inl rfl) one_ne_zero (fun _ _ _ _ => rfl) _
    (exCfg_torchGrid 3 4 5 20 false false false) (by rw [hl]; norm_num) (0, 0)
  rw [hl] at h1
  refine ⟨Z, h1.mono fun ω ⟨o, r', e, hz⟩ => ⟨o, r', e, hz 10 (by norm_num)⟩, ?_⟩
  rw [h2]
  congr 1
  rw [if_pos (by norm_num)]
  show (1:ℝ) + ((1:Fin 3):ℕ) = 2
  norm_num

/-- The chain of the run with drift. -/
example (υ : ℕ → ℝ) : ∃ Z ξ : ℕ → (ℕ → ℝ) → Fin 3 → Fin 4 → ℝ,
    (∀ᵐ ω ∂gaussTape, ∃ o r', torchConstruct (tapeEnv ω υ exSolver) (exCfg 3 4 5 20 false false false) (0, 0) = .ok (o, r') ∧
      ∀ j < 21, o.Z[j]? = some (Z j ω)) ∧ iIndepFun ξ gaussTape := by
  have hl := exCfg_grid 3 4 5 20 false false false
  obtain ⟨Z, ξ, h1, -, -, -, h2, -⟩ := C72_stochastic_chain exSolver υ (exCfg 3 4 5 20 false false false) (by norm_num)
    (by norm_num) rfl rfl (.inl rfl) one_ne_zero (fun t => by
      show Measurable fun (x : Fin 3 → Fin 4 → ℝ) (a : Fin 3) (n : Fin 4) => x a n + t
      fun_prop) _ (exCfg_torchGrid 3 4 5 20 false false false) (by rw [hl]; norm_num) (0, 0)
  rw [hl] at h1
  exact ⟨Z, ξ, h1, h2⟩

end DPFC
