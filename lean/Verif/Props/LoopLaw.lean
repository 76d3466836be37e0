import Verif.Lib.LoopLaw

/-!
# C108: laws of the closed-loop simulations

The closed loop of the example (C67) on a fixed object, with its normals read off a tape of independent standard normals and its
uniforms (inducing points of the control queries) off a fixed tape `υ`. `EMPath`, `ActsPathwise`, `stdNormals` are in
`Verif.Spec.LoopLaw`.
-/

namespace DPFC
open MeasureTheory ProbabilityTheory Spec LoopLaw

section
variable {d n N M : ℕ}

/-- **C108** (the simulated paths). An object outside reweighted bridge mode whose flows have spread at the indices
`1, ..., k-2`, a measurable drift `φ` that acts on each path separately. The loop returns whatever the normals are. There is one
feedback control `c i` per time index, the same for all paths, such that the recorded controls are `c i` at the states of index
`i - 1`, and the `2 n` simulated paths (`(false, j)`: controlled path `j`, `(true, j)`: uncontrolled path `j`) are Euler-Maruyama
paths, the uncontrolled ones with control 0, driven by standard normals that are independent of each other over all paths and
steps. The noise of a step is independent of the path up to then; the `2 n` paths are independent; the controlled paths have one
law and the uncontrolled paths have one law. -/
theorem C108_paths (emd : Solver) (υ : ℕ → ℝ) (o : Obj d N M ℝ) (hN : 0 < N)
    (hkern : o.cfg.kern = "RBF" ∨ o.cfg.kern = "periodic")
    (hm : (o.cfg.reweight && o.cfg.brownBridge) = false) (hk : 2 ≤ o.timegrid.length)
    (hs : ∀ i : ℕ, 1 ≤ i → i < o.timegrid.length - 1 →
      ∃ b z, o.B[i]? = some b ∧ o.Z[i]? = some z ∧ Spread b ∧ Spread z)
    (f : Mat d n ℝ → Mat d n ℝ) (φ : (Fin d → ℝ) → Fin d → ℝ) (hf : ActsPathwise f φ) (hφ : Measurable φ) (g : ℝ)
    (y1 : Fin d → ℝ) (s : ℕ × ℕ) :
    ∃ (c : ℕ → (Fin d → ℝ) → Fin d → ℝ) (X : Bool × Fin n → (ℕ → ℝ) → ℕ → Fin d → ℝ)
      (ξ : Bool × Fin n → ℕ → (ℕ → ℝ) → Fin d → ℝ),
      (∀ ω, ∃ P r', closedLoop (tapeEnv ω υ emd) o f g y1 s = .ok (P, r') ∧
        (∀ i < o.timegrid.length - 1, P.cont[i]? = some (fun a j => X (false, j) ω i a) ∧
          P.free[i]? = some fun a j => X (true, j) ω i a) ∧
        ∀ i, 1 ≤ i → i < o.timegrid.length - 1 → P.used[i]? = some fun a j => c i (X (false, j) ω (i-1)) a) ∧
      (∀ j ω, EMPath φ g y1 c (fun i => ξ (false, j) i ω) (X (false, j) ω) ∧
        EMPath φ g y1 (fun _ _ _ => 0) (fun i => ξ (true, j) i ω) (X (true, j) ω)) ∧
      (∀ q i, gaussTape.map (ξ q i) = stdNormals d) ∧
      iIndepFun (fun (Q : (Bool × Fin n) × ℕ) => ξ Q.1 Q.2) gaussTape ∧
      (∀ q i, IndepFun (fun ω (m : Fin (i+1)) => X q ω m) (ξ q i) gaussTape) ∧
      iIndepFun X gaussTape ∧
      (∀ j j', IdentDistrib (X (false, j)) (X (false, j')) gaussTape gaussTape ∧
        IdentDistrib (X (true, j)) (X (true, j')) gaussTape gaussTape) ∧
      ∀ i, Measurable (c i) := by
  have hc : ∀ (β : Bool) i, Measurable ((cond β (fun _ _ _ => 0) (ctl o υ s.2) : ℕ → (Fin d → ℝ) → Fin d → ℝ) i) := by
    intro β i
    cases β
    · exact ctl_meas o υ s.2 i
    · exact measurable_const
  refine ⟨ctl o υ s.2, fun q ω => LoopLaw.chain φ g y1 (cond q.1 (fun _ _ _ => 0) (ctl o υ s.2)) fun p => ω (pos2 d n s.1 q p),
    fun q i ω a => ω (pos2 d n s.1 q (i, a)), fun ω => ?_, fun j ω => ⟨chain_em _, chain_em _⟩, noise_law d n s.1,
    noise_indep d n s.1, fun q i => chain_indep hφ (hc q.1) s.1 q i,
    chains_indep hφ (fun β => cond β (fun _ _ _ => 0) (ctl o υ s.2)) hc s.1,
    fun j j' => ⟨chains_ident hφ (hc false) s.1 (false, j) (false, j'), chains_ident hφ (hc true) s.1 (true, j) (true, j')⟩,
    fun i => ctl_meas o υ s.2 i⟩
  obtain ⟨P, r', -, h, -, -⟩ := C67_runs (n := n) (tapeEnv ω υ emd) o hN hkern hm hk hs f g y1 s
  obtain ⟨rs, h1, -, hrun⟩ := C67_simulation (tapeEnv ω υ emd) o f g y1 hk s r' P h
  have key := run_chain o hN hkern hm hs hf h1 hrun
  exact ⟨P, r', h, fun i hi => ⟨(key i hi).1, (key i hi).2.1⟩, fun i hi hi' => (key i hi').2.2.2 hi⟩

/-- **C108** (conditional law of a step; any object, any drift, paths may be coupled). Keep the uniforms and the normals read
before step `i -> i + 1` fixed. All runs that return agree in the controlled states up to index `i` and the controls up to index
`i + 1`, and over the remaining normals the controlled states of index `i + 1` are independent normals with mean
`x + (f x + g^2 u) dt` and variance `g^2 dt`, `x` the states of index `i` and `u` the control of index `i + 1`. -/
theorem C108_next_step (emd : Solver) (υ w ω₀ : ℕ → ℝ) (o : Obj d N M ℝ) (f : Mat d n ℝ → Mat d n ℝ) (g : ℝ) (y1 : Fin d → ℝ)
    (s r₀ : ℕ × ℕ) (i : ℕ) (hi : i + 1 < o.timegrid.length - 1) (P₀ : Paths d n ℝ)
    (h0 : closedLoop (tapeEnv (splice (s.1 + 2 * i * (d * n)) w ω₀) υ emd) o f g y1 s = .ok (P₀, r₀))
    (x u : Fin d → Fin n → ℝ) (hx : P₀.cont[i]? = some x) (hu : P₀.used[i+1]? = some u) :
    ∃ X : (ℕ → ℝ) → Fin d → Fin n → ℝ,
      (∀ ω P r', closedLoop (tapeEnv (splice (s.1 + 2 * i * (d * n)) w ω) υ emd) o f g y1 s = .ok (P, r') →
        (∀ m ≤ i, P.cont[m]? = P₀.cont[m]?) ∧ (∀ m ≤ i + 1, P.used[m]? = P₀.used[m]?) ∧ P.cont[i+1]? = some (X ω)) ∧
      gaussTape.map X = normalLaw (fun a j => x a j + (f x a j + g ^ 2 * u a j) * (1/1000)) (Real.toNNReal (g ^ 2 / 1000)) := by
  refine ⟨_, fun ω P r' h => ?_, Law.back_law _ g (s.1 + 2 * i * (d * n))⟩
  obtain ⟨rs, h1, -, hrun⟩ := C67_simulation _ o f g y1 (by omega) s r₀ P₀ h0
  obtain ⟨rs', h1', -, hrun'⟩ := C67_simulation _ o f g y1 (by omega) s r' P h
  have same : ∀ m ≤ i, P₀.cont[m]? = P.cont[m]? ∧ P₀.free[m]? = P.free[m]? ∧ P₀.used[m]? = P.used[m]? ∧
      rs (m+1) = rs' (m+1) := fun m hm => by
    refine run_same h1 h1' hrun hrun' m (by omega) fun l hl => ?_
    have : s.1 + 2 * m * (d * n) ≤ s.1 + 2 * i * (d * n) :=
      Nat.add_le_add_left (Nat.mul_le_mul_right _ (by omega)) _
    rw [Law.splice_lt (by omega), Law.splice_lt (by omega)]
  obtain ⟨eF, eG, -, er⟩ := same i le_rfl
  obtain ⟨v, hv⟩ := slice_some hrun.lenG (i := i) (by omega)
  obtain ⟨u0, q, hq, hU, -, -, -⟩ := hrun.step (i+1) x v (by omega) hi (by simpa using hx) (by simpa using hv)
  obtain ⟨u', q', hq', hU', hF', -, -⟩ := hrun'.step (i+1) x v (by omega) hi (by simpa [← eF] using hx) (by simpa [← eG] using hv)
  have hq2 : calculateU (tapeEnv (splice (s.1 + 2 * i * (d * n)) w ω₀) υ emd) o (fun j a => x a j) ((i+1 : ℕ) : Int) (rs' (i+1))
      = .ok (u', q') := hq'
  rw [← er, hq] at hq2
  cases hq2
  rw [hU] at hu
  cases hu
  refine ⟨fun m hm => (same m hm).1.symm, fun m hm => ?_, ?_⟩
  · rcases Nat.lt_or_ge i m with h | h
    · have : m = i + 1 := by omega
      rw [this, hU', hU]
    · exact (same m h).2.2.1.symm
  · rw [hF']
    congr 1
    funext a j
    have hqf : q.1 = s.1 + 2 * i * (d * n) := (query_fst hq).trans (run_fst h1 hrun i (by omega))
    simp only [controlledStep, Law.tape_normals, hqf]
    rw [Law.splice_ge (by omega)]
    ring

/-- **C108** (the uncontrolled ensemble is the same for every object). Two loops that read the same normals, on any two objects
with the same number of time points and with any uniforms, return the same uncontrolled paths. -/
theorem C108_uncontrolled_same {N' M' : ℕ} (emd : Solver) (ω υ υ' : ℕ → ℝ) (o : Obj d N M ℝ) (o' : Obj d N' M' ℝ)
    (hk : 2 ≤ o.timegrid.length) (hl : o'.timegrid.length = o.timegrid.length) (f : Mat d n ℝ → Mat d n ℝ) (g : ℝ)
    (y1 : Fin d → ℝ) (s s' r r' : ℕ × ℕ) (hs : s'.1 = s.1) (P P' : Paths d n ℝ)
    (h : closedLoop (tapeEnv ω υ emd) o f g y1 s = .ok (P, r))
    (h' : closedLoop (tapeEnv ω υ' emd) o' f g y1 s' = .ok (P', r')) : P'.free = P.free := by
  obtain ⟨rs, h1, -, hrun⟩ := C67_simulation _ o f g y1 hk s r P h
  obtain ⟨rs', h1', -, hrun'⟩ := C67_simulation _ o' f g y1 (by omega) s' r' P' h'
  have key := free_same hs hl h1 h1' hrun hrun'
  refine List.ext_getElem? fun i => ?_
  rcases Nat.lt_or_ge i (o.timegrid.length - 1) with hi | hi
  · exact (key i hi).symm
  · have a1 := hrun.lenG
    have a2 := hrun'.lenG
    rw [List.getElem?_eq_none (by omega), List.getElem?_eq_none (by omega)]

end

/-! ### Non-vacuity -/

/-- 5 controlled and 5 uncontrolled paths of a linear system on an object with 20 time points: independent. -/
example (υ : ℕ → ℝ) : ∃ X : Bool × Fin 5 → (ℕ → ℝ) → ℕ → Fin 2 → ℝ,
    (∀ ω, ∃ P r', closedLoop (tapeEnv ω υ exSolver) (exObj false false) (fun (x : Mat 2 5 ℝ) a j => - x a j) (1/10)
      (fun _ => 1) (3, 4) = .ok (P, r') ∧ ∀ i < 19, P.cont[i]? = some (fun a j => X (false, j) ω i a)) ∧
    iIndepFun X gaussTape := by
  have hl : (exObj false false).timegrid.length = 20 := by simp [exObj]
  obtain ⟨c, X, ξ, h1, -, -, -, -, h2, -, -⟩ := C108_paths (n := 5) exSolver υ (exObj false false) (by norm_num) (.inl rfl) rfl
    (by rw [hl]; norm_num) (fun i h1 h2 => by
      rw [hl] at h2
      have := exObj_slices false false (i : Int) (by omega) (by omega)
      simp only [pyAt, Int.natCast_nonneg, if_true, Int.toNat_natCast] at this
      exact ⟨_, _, this.1, this.2, exObj_spread⟩) (fun x a j => - x a j) (fun p a => - p a) (fun x a j => rfl) (by fun_prop)
    (1/10) (fun _ => 1) (3, 4)
  refine ⟨X, fun ω => ?_, h2⟩
  obtain ⟨P, r', h, hc, -⟩ := h1 ω
  exact ⟨P, r', h, fun i hi => (hc i (by rw [hl]; exact hi)).1⟩

/-- The step from index 7 to index 8 of such a loop with coupled paths. -/
example (υ w : ℕ → ℝ) : ∃ P₀ r₀ x u, ∃ X : (ℕ → ℝ) → Fin 2 → Fin 5 → ℝ,
    closedLoop (tapeEnv (splice (0 + 2 * 7 * (2 * 5)) w w) υ exSolver) (exObj false false)
      (fun (x : Mat 2 5 ℝ) a j => x a 0 - x a j) (1/10) (fun _ => 1) (0, 0) = .ok (P₀, r₀) ∧ P₀.cont[7]? = some x ∧
    P₀.used[8]? = some u ∧ gaussTape.map X = normalLaw (fun a j => x a j + ((x a 0 - x a j) + (1/10) ^ 2 * u a j) * (1/1000))
      (Real.toNNReal ((1/10) ^ 2 / 1000)) := by
  have hl : (exObj false false).timegrid.length = 20 := by simp [exObj]
  obtain ⟨P, r', rs, h, hrun, -⟩ := C67_runs (n := 5) (tapeEnv (splice (0 + 2 * 7 * (2 * 5)) w w) υ exSolver) (exObj false false)
    (by norm_num) (.inl rfl) rfl (by rw [hl]; norm_num) (fun i h1 h2 => by
      rw [hl] at h2
      have := exObj_slices false false (i : Int) (by omega) (by omega)
      simp only [pyAt, Int.natCast_nonneg, if_true, Int.toNat_natCast] at this
      exact ⟨_, _, this.1, this.2, exObj_spread⟩) (fun x a j => x a 0 - x a j) (1/10) (fun _ => 1) (0, 0)
  obtain ⟨x, hx⟩ := slice_some hrun.lenF (i := 7) (by rw [hl]; norm_num)
  obtain ⟨u, hu⟩ := slice_some hrun.lenU (i := 8) (by rw [hl]; norm_num)
  obtain ⟨X, -, hX⟩ := C108_next_step exSolver υ w w (exObj false false) (fun x a j => x a 0 - x a j) (1/10) (fun _ => 1) (0, 0) r' 7
    (by rw [hl]; norm_num) P h x u hx hu
  exact ⟨P, r', x, u, X, h, hx, hu, hX⟩

end DPFC
