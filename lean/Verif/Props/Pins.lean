import Verif.Lib.Examples

/-!
# C03 - C08: end points of the flows, storage

All theorems hold for any arithmetic `K`, any random streams, any transport solver, any drift and
constraint, and for the numpy (`construct`) as well as the torch (`torchConstruct`) class unless
stated otherwise. `o.Z`, `o.B` are lists of time slices; `S a n` is coordinate `a` of particle `n`.
-/

namespace DPFC

variable {K ρ : Type} [Add K] [Sub K] [Mul K] [Div K] [Neg K] [NumOps K]
variable {d N M : ℕ}

/-- **C03.** At time index 0 every particle of the backward flow sits at `y1`. -/
theorem C03_backward_flow_starts_at_y1 (env : Env ρ K) (c : Cfg d N M K) (hd : 0 < d) (r r' : ρ)
    (o : Obj d N M K)
    (h : construct env c r = .ok (o, r') ∨ torchConstruct env c r = .ok (o, r')) :
    ∃ S, o.B[0]? = some S ∧ ∀ a n, S a n = c.y1 a := by
  have hB := h.elim (construct_B hd) (torchConstruct_B hd)
  rcases hB with ⟨_, hB⟩ | ⟨_, bs, _, hB⟩ <;> rw [hB]
  · exact ⟨_, rfl, fun a n => rfl⟩
  · exact ⟨_, rfl, fun a n => rfl⟩

/-- **C04.** With at least two grid points, at the last time index every particle of the backward
flow sits at `y2`. -/
theorem C04_backward_flow_ends_at_y2 (env : Env ρ K) (c : Cfg d N M K) (hd : 0 < d) (r r' : ρ)
    (o : Obj d N M K)
    (h : construct env c r = .ok (o, r') ∨ torchConstruct env c r = .ok (o, r'))
    (hk : 2 ≤ o.timegrid.length) :
    ∃ S, o.B[o.timegrid.length - 1]? = some S ∧ ∀ a n, S a n = c.y2 a := by
  have hB := h.elim (construct_B hd) (torchConstruct_B hd)
  rcases hB with ⟨_, hB⟩ | ⟨_, bs, hl, hB⟩
  · omega
  · refine ⟨pt N c.y2, ?_, fun a n => rfl⟩
    rw [hB, ← hl]
    simp

/-- C03, C04: numpy example with 101 grid points, reweighting and Brownian bridge; torch example. -/
example : ∃ o r', construct exEnv (exCfg 3 5 4 100 true true true) 0 = .ok (o, r')
    ∧ (∃ S, o.B[0]? = some S ∧ ∀ a n, S a n = 1 + (a.val : ℝ))
    ∧ (∃ S, o.B[100]? = some S ∧ ∀ a n, S a n = 3 + (a.val : ℝ)) := by
  obtain ⟨o, r', h, hl⟩ := ex_det 3 5 4 100 true true (by norm_num) (by norm_num) 0
  refine ⟨o, r', h, C03_backward_flow_starts_at_y1 _ _ (by norm_num) _ _ _ (.inl h), ?_⟩
  have := C04_backward_flow_ends_at_y2 _ _ (by norm_num) _ _ _ (.inl h) (by rw [hl]; norm_num)
  rwa [hl] at this

example : ∃ o r', torchConstruct exEnv (exFan 3 5 4 100) 0 = .ok (o, r')
    ∧ (∃ S, o.B[0]? = some S ∧ ∀ a n, S a n = 1 + (a.val : ℝ))
    ∧ (∃ S, o.B[100]? = some S ∧ ∀ a n, S a n = 3 + (a.val : ℝ)) := by
  obtain ⟨o, r', h, hl⟩ := ex_torch 3 5 4 100 (by norm_num) (by norm_num) (by norm_num) 0
  refine ⟨o, r', h, C03_backward_flow_starts_at_y1 _ _ (by norm_num) _ _ _ (.inr h), ?_⟩
  have := C04_backward_flow_ends_at_y2 _ _ (by norm_num) _ _ _ (.inr h) (by rw [hl]; norm_num)
  rwa [hl] at this

/-- **C05.** Deterministic mode: every particle of `Z` starts at `y1` if the grid has at least two
points or `brown_bridge` is off; every particle of `Ztr`, if it exists, starts at `y1`. -/
theorem C05_forward_flows_start_at_y1 (env : Env ρ K) (c : Cfg d N M K) (hd : 0 < d)
    (hdet : c.deterministic = true) (r r' : ρ) (o : Obj d N M K)
    (h : construct env c r = .ok (o, r') ∨ torchConstruct env c r = .ok (o, r')) :
    ((2 ≤ o.timegrid.length ∨ c.brownBridge = false) →
      ∃ S, o.Z[0]? = some S ∧ ∀ a n, S a n = c.y1 a) ∧
    (∀ T, o.Ztr = some T → ∃ S, T[0]? = some S ∧ ∀ a n, S a n = c.y1 a) := by
  have key : ∀ (grid : List K) (ys : Traj d N K) (zt : Option (Traj d N K)) (B : Traj d N K),
      (zt = none ∨ ∃ us, zt = some (pt N c.y1 :: us)) → o = ⟨c, grid, pt N c.y1 :: ys, B, zt⟩ →
      ((2 ≤ o.timegrid.length ∨ c.brownBridge = false) →
        ∃ S, o.Z[0]? = some S ∧ ∀ a n, S a n = c.y1 a) ∧
      (∀ T, o.Ztr = some T → ∃ S, T[0]? = some S ∧ ∀ a n, S a n = c.y1 a) := by
    rintro grid ys zt B hz rfl
    refine ⟨fun _ => ⟨_, rfl, fun a n => rfl⟩, fun T hT => ?_⟩
    rcases hz with rfl | ⟨us, rfl⟩
    · cases hT
    · cases hT; exact ⟨_, rfl, fun a n => rfl⟩
  rcases h with h | h
  · have hg := (construct_fields h).2
    rcases grid_cases (mkGrid c.t1 c.t2) with he | ⟨t0, he⟩ | h2
    · exact absurd he (construct_grid_ne hd h)
    · rw [construct_det_single env c hdet t0 he] at h
      obtain ⟨rfl, _⟩ := RandM.pure_ok.1 h
      refine ⟨fun hh => ?_, fun T hT => ?_⟩
      · rcases hh with hh | hh
        · simp at hh
        · exact ⟨pt N c.y1, by simp [hh], fun a n => rfl⟩
      · simp only at hT
        split at hT
        · cases hT; exact ⟨_, rfl, fun a n => rfl⟩
        · cases hT
    · obtain ⟨ys, r1, zt, r2, bs, h1, hz, h3, ho⟩ := (construct_det_iff env c hdet h2 r r' o).1 h
      refine key _ _ _ _ ?_ ho
      unfold trueFlow at hz
      split at hz
      · obtain ⟨us, _, _, hh⟩ := RandM.bind_ok.1 hz
        exact .inr ⟨us, (RandM.pure_ok.1 hh).1.symm⟩
      · exact .inl (RandM.pure_ok.1 hz).1.symm
  · have hg := (torchConstruct_fields h).2.1
    rcases grid_cases o.timegrid with he | ⟨t0, he⟩ | h2
    · exact absurd he (torchConstruct_grid_ne hd h)
    · rw [he] at hg
      rw [torchConstruct_det_single env c hdet t0 hg] at h
      obtain ⟨rfl, _⟩ := RandM.pure_ok.1 h
      refine ⟨fun hh => ?_, fun T hT => ?_⟩
      · rcases hh with hh | hh
        · simp at hh
        · exact ⟨pt N c.y1, by simp [hh], fun a n => rfl⟩
      · simp only at hT
        split at hT
        · cases hT; exact ⟨_, rfl, fun a n => rfl⟩
        · cases hT
    · obtain ⟨ys, r1, zt, r2, bs, h1, hz, h3, ho⟩ :=
        (torchConstruct_det_iff env c hdet _ hg h2 r r' o).1 h
      refine key _ _ _ _ ?_ ho
      unfold torchTrueFlow at hz
      split at hz
      · obtain ⟨us, _, _, hh⟩ := RandM.bind_ok.1 hz
        exact .inr ⟨us, (RandM.pure_ok.1 hh).1.symm⟩
      · exact .inl (RandM.pure_ok.1 hz).1.symm

/-- **C05** (the excluded case). With a single grid point and `brown_bridge` the forward flow starts at
`y2` instead. -/
theorem C05_single_point_brownian_bridge (env : Env ρ K) (c : Cfg d N M K)
    (hdet : c.deterministic = true) (hb : c.brownBridge = true) (r r' : ρ) (o : Obj d N M K)
    (h : construct env c r = .ok (o, r') ∨ torchConstruct env c r = .ok (o, r'))
    (h1 : o.timegrid.length = 1) : o.Z = [fun a _ => c.y2 a] := by
  obtain ⟨t0, he⟩ := List.length_eq_one_iff.1 h1
  rcases h with h | h
  · have hg := (construct_fields h).2
    rw [he] at hg
    rw [construct_det_single env c hdet t0 hg.symm] at h
    obtain ⟨rfl, _⟩ := RandM.pure_ok.1 h
    simp only [hb, if_true]
    rfl
  · have hg := (torchConstruct_fields h).2.1
    rw [he] at hg
    rw [torchConstruct_det_single env c hdet t0 hg] at h
    obtain ⟨rfl, _⟩ := RandM.pure_ok.1 h
    simp only [hb, if_true]
    rfl

/-- C05: `Z` and `Ztr` of the Brownian-bridge example start at `y1`. -/
example : ∃ o r' T, construct exEnv (exCfg 3 5 4 100 true true true) 0 = .ok (o, r')
    ∧ o.Ztr = some T ∧ (∃ S, o.Z[0]? = some S ∧ ∀ a n, S a n = 1 + (a.val : ℝ))
    ∧ (∃ S, T[0]? = some S ∧ ∀ a n, S a n = 1 + (a.val : ℝ)) := by
  obtain ⟨o, r', h, hl⟩ := ex_det 3 5 4 100 true true (by norm_num) (by norm_num) 0
  have h5 := C05_forward_flows_start_at_y1 _ _ (by norm_num) rfl _ _ _ (.inl h)
  obtain ⟨ys, r1, zt, r2, bs, h1, hz, h3, ho⟩ :=
    (construct_det_iff exEnv _ rfl (by rw [exCfg_grid]; norm_num) 0 r' o).1 h
  obtain ⟨us, _, _, hh⟩ := RandM.bind_ok.1 hz
  have hzt := (RandM.pure_ok.1 hh).1
  refine ⟨o, r', _, h, by rw [ho]; exact hzt.symm, h5.1 (.inl (by rw [hl]; norm_num)), ?_⟩
  exact h5.2 _ (by rw [ho]; exact hzt.symm)

/-- **C06** (numpy, start). With `deterministic=False` and at least two grid points the forward flow
starts at `y1` in coordinates 0 and 1 and at `0` in all further coordinates. -/
theorem C06_stochastic_start (env : Env ρ K) (c : Cfg d N M K) (hdet : c.deterministic = false)
    (r r' : ρ) (o : Obj d N M K)
    (h : construct env c r = .ok (o, r') ∨ torchConstruct env c r = .ok (o, r'))
    (hk : 2 ≤ o.timegrid.length) :
    ∃ S, o.Z[0]? = some S ∧ ∀ a n, S a n = if a.val ≤ 1 then c.y1 a else lit 0 1 := by
  rcases h with h | h
  · have hg := (construct_fields h).2
    rw [hg] at hk
    by_cases hd2 : 2 ≤ d
    · obtain ⟨ys, r1, bs, h1, h3, rfl⟩ := (construct_stoch_iff env c hdet hk hd2 r r' o).1 h
      exact ⟨_, rfl, fun a n => rfl⟩
    · rw [construct_stoch_dim1 env c hdet (by omega) (by omega)] at h
      cases h
  · have hg := (torchConstruct_fields h).2.1
    by_cases hd2 : 2 ≤ d
    · obtain ⟨ys, r1, bs, h1, h3, ho⟩ :=
        (torchConstruct_stoch_iff env c hdet _ hg hk hd2 r r' o).1 h
      exact ⟨stochInit N c.y1, by rw [ho]; rfl, fun a n => rfl⟩
    · obtain ⟨t0, ts, he⟩ : ∃ t0 ts, o.timegrid = t0 :: ts := by
        rcases hh : o.timegrid with _ | ⟨a, b⟩
        · rw [hh] at hk; simp at hk
        · exact ⟨a, b, rfl⟩
      rw [he] at hg
      rw [torchConstruct_stoch_dim1 env c hdet t0 ts hg (by omega)] at h
      cases h

/-- **C06** (consequence, exact arithmetic). The documented initial state `y1` is honoured iff all
coordinates of `y1` from the third on are zero. -/
theorem C06_initial_state_honoured_iff (env : Env ρ ℝ) (c : Cfg d N M ℝ) (hN : 0 < N)
    (hdet : c.deterministic = false) (r r' : ρ) (o : Obj d N M ℝ)
    (h : construct env c r = .ok (o, r') ∨ torchConstruct env c r = .ok (o, r'))
    (hk : 2 ≤ o.timegrid.length) :
    (∃ S, o.Z[0]? = some S ∧ ∀ a n, S a n = c.y1 a) ↔ ∀ a : Fin d, 2 ≤ a.val → c.y1 a = 0 := by
  obtain ⟨S, hS, hv⟩ := C06_stochastic_start env c hdet r r' o h hk
  constructor
  · rintro ⟨S', hS', hv'⟩ a ha
    rw [hS] at hS'
    cases hS'
    have := hv a ⟨0, hN⟩
    rw [hv' a, if_neg (by omega), real_lit_zero] at this
    exact this
  · intro hz
    refine ⟨S, hS, fun a n => ?_⟩
    rw [hv a n]
    split
    · rfl
    · rw [real_lit_zero, hz a (by omega)]

/-- **C06** (one-dimensional systems). With `deterministic=False`, a grid with at least one point and
`dim <= 1`, numpy construction raises IndexError and so does torch. -/
theorem C06_stochastic_one_dim_raises (env : Env ρ K) (c : Cfg d N M K)
    (hdet : c.deterministic = false) (hd : d ≤ 1) (r : ρ) :
    (mkGrid c.t1 c.t2 ≠ [] → construct env c r = .error .indexError) ∧
    (∀ t0 ts, torchGrid c.t1 c.t2 = .ok (t0 :: ts) → torchConstruct env c r = .error .indexError) := by
  refine ⟨fun h => ?_, fun t0 ts h => ?_⟩
  · rw [construct_stoch_dim1 env c hdet (List.length_pos_of_ne_nil h) hd]; rfl
  · rw [torchConstruct_stoch_dim1 env c hdet t0 ts h hd]; rfl

/-- **C06** (numpy, end). With at least two grid points the stochastic forward flow ends exactly at
`y2`. -/
theorem C06_stochastic_end (env : Env ρ K) (c : Cfg d N M K) (hdet : c.deterministic = false)
    (r r' : ρ) (o : Obj d N M K) (h : construct env c r = .ok (o, r'))
    (hk : 2 ≤ o.timegrid.length) :
    ∃ S, o.Z[o.timegrid.length - 1]? = some S ∧ ∀ a n, S a n = c.y2 a := by
  have hg := (construct_fields h).2
  rw [hg] at hk ⊢
  by_cases hd2 : 2 ≤ d
  · obtain ⟨ys, r1, bs, h1, h3, rfl⟩ := (construct_stoch_iff env c hdet hk hd2 r r' o).1 h
    refine ⟨pt N c.y2, ?_, fun a n => rfl⟩
    have hl := chain_length h1
    simp only [List.length_tail] at hl
    have : (mkGrid c.t1 c.t2).length - 1 = ys.dropLast.length + 1 := by
      rw [List.length_dropLast]; omega
    rw [this]
    simp
  · rw [construct_stoch_dim1 env c hdet (by omega) (by omega)] at h
    cases h

/-- **C06** (torch, end). The stochastic forward flow of the torch class does not depend on `y2` at
all: there is no terminal pin. -/
theorem C06_torch_forward_ignores_target (env : Env ρ K) (c : Cfg d N M K) (y2' : Fin d → K)
    (hd : 0 < d) (hdet : c.deterministic = false) (r r1 r2 : ρ) (o1 o2 : Obj d N M K)
    (h1 : torchConstruct env c r = .ok (o1, r1))
    (h2 : torchConstruct env ({ c with y2 := y2' } : Cfg d N M K) r = .ok (o2, r2)) :
    o1.Z = o2.Z := by
  have hg1 := (torchConstruct_fields h1).2.1
  have hg2 : torchGrid c.t1 c.t2 = .ok o2.timegrid := (torchConstruct_fields h2).2.1
  have he : o1.timegrid = o2.timegrid := by
    rw [hg1] at hg2; exact Except.ok.inj hg2
  rcases grid_cases o1.timegrid with hh | ⟨t0, hh⟩ | hk
  · exact absurd hh (torchConstruct_grid_ne hd h1)
  · rw [← he, hh] at hg2
    rw [hh] at hg1
    by_cases hd2 : 2 ≤ d
    · rw [torchConstruct_stoch_single env c hdet hd2 t0 hg1] at h1
      rw [torchConstruct_stoch_single env _ (by exact hdet) hd2 t0 (by exact hg2)] at h2
      obtain ⟨rfl, _⟩ := RandM.pure_ok.1 h1
      obtain ⟨rfl, _⟩ := RandM.pure_ok.1 h2
      rfl
    · rw [torchConstruct_stoch_dim1 env c hdet t0 [] hg1 (by omega)] at h1
      cases h1
  · by_cases hd2 : 2 ≤ d
    · obtain ⟨ys, ra, bs, ha, _, ho1⟩ := (torchConstruct_stoch_iff env c hdet _ hg1 hk hd2 _ _ _).1 h1
      obtain ⟨ys', ra', bs', ha', _, ho2⟩ :=
        (torchConstruct_stoch_iff env _ (by exact hdet) _ (by exact hg2) (by rw [← he]; exact hk)
          hd2 _ _ _).1 h2
      rw [ho1, ho2]
      rw [← he] at ha'
      change chain (torchStochSlice env c) 1 _ (stochInit N c.y1) r = _ at ha'
      rw [ha] at ha'
      cases ha'
      rfl
    · obtain ⟨t0, ts, he⟩ : ∃ t0 ts, o1.timegrid = t0 :: ts := by
        rcases hh : o1.timegrid with _ | ⟨a, b⟩
        · rw [hh] at hk; simp at hk
        · exact ⟨a, b, rfl⟩
      rw [he] at hg1
      rw [torchConstruct_stoch_dim1 env c hdet t0 ts hg1 (by omega)] at h1
      cases h1

/-- C06: a three-dimensional stochastic object; its third coordinate starts at 0, not at `y1`. -/
example : ∃ o r' S, construct exEnv (exCfg 3 5 4 100 false false false) 0 = .ok (o, r')
    ∧ o.Z[0]? = some S ∧ S 0 0 = 1 ∧ S 1 0 = 2 ∧ S 2 0 = 0
    ∧ ¬ (∃ S, o.Z[0]? = some S ∧ ∀ a n, S a n = 1 + (a.val : ℝ))
    ∧ (∃ S, o.Z[100]? = some S ∧ ∀ a n, S a n = 3 + (a.val : ℝ)) := by
  obtain ⟨o, r', h, hl⟩ := ex_stoch 3 5 4 100 false (by norm_num) (by norm_num) (by norm_num) 0
  obtain ⟨S, hS, hv⟩ := C06_stochastic_start _ _ rfl _ _ _ (.inl h) (by rw [hl]; norm_num)
  have he := C06_stochastic_end _ _ rfl _ _ _ h (by rw [hl]; norm_num)
  rw [hl] at he
  refine ⟨o, r', S, h, hS, ?_, ?_, ?_, ?_, he⟩
  · rw [hv]; norm_num [exCfg]
  · rw [hv]; norm_num [exCfg]
  · rw [hv]; norm_num [exCfg]
  · intro hc
    have := (C06_initial_state_honoured_iff _ _ (by norm_num) rfl _ _ _ (.inl h)
      (by rw [hl]; norm_num)).1 hc 2 (by norm_num)
    norm_num [exCfg] at this

/-- **C07** (as computations). With at least two grid points the deterministic forward sampler gives
the same slices, the same exceptions and the same final random state for every value of `brown_bridge`
and `y2`; numpy and torch, any initial storage of the right size. -/
theorem C07_forward_sampler_ignores_bridge (env : Env ρ K) (c : Cfg d N M K) (b : Bool)
    (y2' : Fin d → K) (grid : List K) (Z0 : Traj d N K) (h2 : 2 ≤ grid.length)
    (hl : Z0.length = grid.length) :
    forwardOtto env ({ c with brownBridge := b, y2 := y2' } : Cfg d N M K) grid Z0
      = forwardOtto env c grid Z0 ∧
    torchForwardOtto env ({ c with brownBridge := b, y2 := y2' } : Cfg d N M K) grid Z0
      = torchForwardOtto env c grid Z0 := by
  rcases grid with _ | ⟨t0, _ | ⟨t1, ts⟩⟩
  · simp at h2
  · simp at h2
  · simp only [List.length_cons] at hl
    constructor
    · rw [forwardOtto_eq env _ t0 t1 ts Z0 (by omega), forwardOtto_eq env _ t0 t1 ts Z0 (by omega)]
      rfl
    · rw [torchForwardOtto_eq env _ t0 t1 ts Z0 (by omega),
        torchForwardOtto_eq env _ t0 t1 ts Z0 (by omega)]
      rfl

/-- **C07** (constructed objects). Two deterministic objects constructed from the same random state
that differ only in `brown_bridge` and `y2` have the same forward flow. -/
theorem C07_forward_flow_ignores_bridge (env : Env ρ K) (c : Cfg d N M K) (b : Bool)
    (y2' : Fin d → K) (hdet : c.deterministic = true) (r r1 r2 : ρ) (o1 o2 : Obj d N M K)
    (h : (construct env c r = .ok (o1, r1) ∧
        construct env ({ c with brownBridge := b, y2 := y2' } : Cfg d N M K) r = .ok (o2, r2)) ∨
      (torchConstruct env c r = .ok (o1, r1) ∧
        torchConstruct env ({ c with brownBridge := b, y2 := y2' } : Cfg d N M K) r = .ok (o2, r2)))
    (hk : 2 ≤ o1.timegrid.length) : o1.Z = o2.Z := by
  rcases h with ⟨h1, h2⟩ | ⟨h1, h2⟩
  · rw [(construct_fields h1).2] at hk
    obtain ⟨ys, ra, zt, rb, bs, ha, _, _, ho⟩ := (construct_det_iff env c hdet hk _ _ _).1 h1
    obtain ⟨ys', ra', zt', rb', bs', ha', _, _, ho'⟩ :=
      (construct_det_iff env _ (by exact hdet) (by exact hk) _ _ _).1 h2
    change chain (ottoSlice env c) 1 (mkGrid c.t1 c.t2).tail (pt N c.y1) r = _ at ha'
    rw [ha] at ha'
    cases ha'
    rw [ho, ho']
  · have hg := (torchConstruct_fields h1).2.1
    obtain ⟨ys, ra, zt, rb, bs, ha, _, _, ho⟩ := (torchConstruct_det_iff env c hdet _ hg hk _ _ _).1 h1
    obtain ⟨ys', ra', zt', rb', bs', ha', _, _, ho'⟩ :=
      (torchConstruct_det_iff env _ (by exact hdet) _ (by exact hg) hk _ _ _).1 h2
    change chain (torchOttoSlice env c) 1 o1.timegrid.tail (pt N c.y1) r = _ at ha'
    rw [ha] at ha'
    cases ha'
    rw [ho, ho']

/-- C07: bridge on and off, both constructions succeed. -/
example : ∃ o1 r1 o2 r2, construct exEnv (exCfg 2 5 4 100 true true true) 0 = .ok (o1, r1) ∧
    construct exEnv (exCfg 2 5 4 100 true true false) 0 = .ok (o2, r2) ∧ o1.Z = o2.Z := by
  obtain ⟨o1, r1, h1, hl1⟩ := ex_det 2 5 4 100 true true (by norm_num) (by norm_num) 0
  obtain ⟨o2, r2, h2, hl2⟩ := ex_det 2 5 4 100 true false (by norm_num) (by norm_num) 0
  exact ⟨o1, r1, o2, r2, h1, h2, C07_forward_flow_ignores_bridge exEnv _ false
    (fun a => 3 + (a.val : ℝ)) rfl 0 r1 r2 o1 o2 (.inl ⟨h1, h2⟩) (by rw [hl1]; norm_num)⟩

/-- **C08** (sizes). After construction `Z`, `B` and `Ztr` have exactly `timegrid.size` slices. -/
theorem C08_storage_sizes (env : Env ρ K) (c : Cfg d N M K) (hd : 0 < d) (r r' : ρ) (o : Obj d N M K)
    (h : construct env c r = .ok (o, r') ∨ torchConstruct env c r = .ok (o, r')) :
    o.Z.length = o.timegrid.length ∧ o.B.length = o.timegrid.length ∧
    (o.Ztr.isSome = (c.reweight && c.brownBridge)) ∧
    (∀ T, o.Ztr = some T → T.length = o.timegrid.length) := by
  have hB : o.B.length = o.timegrid.length := by
    have hB := h.elim (construct_B hd) (torchConstruct_B hd)
    rcases hB with ⟨h1, hB⟩ | ⟨_, bs, hl, hB⟩
    · rw [hB, h1]; rfl
    · rw [hB, ← hl]; simp
  have flow : ∀ {step : Nat → K → Mat d N K → RandM ρ (Mat d N K)} {grid : List K} {ys : Traj d N K}
      {x y : Mat d N K} {r r' : ρ}, 2 ≤ grid.length → chain step 1 grid.tail x r = .ok (ys, r') →
      (y :: ys).length = grid.length := by
    intro step grid ys x y r r' h2 hc
    have := chain_length hc
    rw [List.length_tail] at this
    rw [List.length_cons]
    omega
  have ztr : ∀ (zt : Option (Traj d N K)) (grid : List K) (r1 r2 : ρ)
      (step : Nat → K → Mat d N K → RandM ρ (Mat d N K)), 2 ≤ grid.length →
      (if c.reweight && c.brownBridge then do
        let ys ← chain step 1 grid.tail (pt N c.y1)
        pure (some (pt N c.y1 :: ys))
      else pure none : RandM ρ (Option (Traj d N K))) r1 = .ok (zt, r2) →
      zt.isSome = (c.reweight && c.brownBridge) ∧ ∀ T, zt = some T → T.length = grid.length := by
    intro zt grid r1 r2 step h2 hz
    split at hz
    · rename_i hb
      obtain ⟨us, _, hc, hh⟩ := RandM.bind_ok.1 hz
      rw [← (RandM.pure_ok.1 hh).1]
      refine ⟨by rw [hb]; rfl, ?_⟩
      rintro T hT; cases hT
      exact flow h2 hc
    · rename_i hb
      rw [← (RandM.pure_ok.1 hz).1]
      exact ⟨by simpa using hb, by rintro T hT; cases hT⟩
  have zer : ∀ k : ℕ, ((if c.reweight && c.brownBridge then some (zerosT d N k) else none :
        Option (Traj d N K))).isSome = (c.reweight && c.brownBridge) ∧
      ∀ T, (if c.reweight && c.brownBridge then some (zerosT d N k) else none :
        Option (Traj d N K)) = some T → T.length = k := by
    intro k
    split
    · rename_i hb
      exact ⟨by rw [hb]; rfl, by rintro T hT; cases hT; exact zerosT_length d N k⟩
    · rename_i hb
      exact ⟨by simpa using hb, by rintro T hT; cases hT⟩
  have one : ∀ y : Mat d N K, ((if c.reweight && c.brownBridge then some [y] else none :
        Option (Traj d N K))).isSome = (c.reweight && c.brownBridge) ∧
      ∀ T, (if c.reweight && c.brownBridge then some [y] else none :
        Option (Traj d N K)) = some T → T.length = 1 := by
    intro y
    split
    · rename_i hb
      exact ⟨by rw [hb]; rfl, by rintro T hT; cases hT; rfl⟩
    · rename_i hb
      exact ⟨by simpa using hb, by rintro T hT; cases hT⟩
  refine ⟨?_, hB, ?_⟩
  · rcases h with h | h
    · have hg := (construct_fields h).2
      rcases grid_cases (mkGrid c.t1 c.t2) with he | ⟨t0, he⟩ | h2
      · exact absurd he (construct_grid_ne hd h)
      · cases hdet : c.deterministic with
        | true =>
          rw [construct_det_single env c hdet t0 he] at h
          obtain ⟨rfl, _⟩ := RandM.pure_ok.1 h; rfl
        | false =>
          by_cases hd2 : 2 ≤ d
          · rw [construct_stoch_single env c hdet hd2 t0 he] at h
            obtain ⟨rfl, _⟩ := RandM.pure_ok.1 h; rfl
          · rw [construct_stoch_dim1 env c hdet (by rw [he]; simp) (by omega)] at h; cases h
      · cases hdet : c.deterministic with
        | true =>
          obtain ⟨ys, r1, zt, r2, bs, h1, hz, h3, ho⟩ := (construct_det_iff env c hdet h2 r r' o).1 h
          rw [ho]; exact flow h2 h1
        | false =>
          by_cases hd2 : 2 ≤ d
          · obtain ⟨ys, r1, bs, h1, h3, ho⟩ := (construct_stoch_iff env c hdet h2 hd2 r r' o).1 h
            rw [ho]
            have := chain_length h1
            simp at this ⊢
            omega
          · rw [construct_stoch_dim1 env c hdet (by omega) (by omega)] at h; cases h
    · have hg := (torchConstruct_fields h).2.1
      rcases grid_cases o.timegrid with he | ⟨t0, he⟩ | h2
      · exact absurd he (torchConstruct_grid_ne hd h)
      · rw [he] at hg
        cases hdet : c.deterministic with
        | true =>
          rw [torchConstruct_det_single env c hdet t0 hg] at h
          obtain ⟨rfl, _⟩ := RandM.pure_ok.1 h; rfl
        | false =>
          by_cases hd2 : 2 ≤ d
          · rw [torchConstruct_stoch_single env c hdet hd2 t0 hg] at h
            obtain ⟨rfl, _⟩ := RandM.pure_ok.1 h; rfl
          · rw [torchConstruct_stoch_dim1 env c hdet t0 [] hg (by omega)] at h; cases h
      · cases hdet : c.deterministic with
        | true =>
          obtain ⟨ys, r1, zt, r2, bs, h1, hz, h3, ho⟩ :=
            (torchConstruct_det_iff env c hdet _ hg h2 r r' o).1 h
          rw [ho]; exact flow h2 h1
        | false =>
          by_cases hd2 : 2 ≤ d
          · obtain ⟨ys, r1, bs, h1, h3, ho⟩ :=
              (torchConstruct_stoch_iff env c hdet _ hg h2 hd2 r r' o).1 h
            rw [ho]; exact flow h2 h1
          · obtain ⟨t0, ts, he⟩ : ∃ t0 ts, o.timegrid = t0 :: ts := by
              rcases hh : o.timegrid with _ | ⟨a, b⟩
              · rw [hh] at h2; simp at h2
              · exact ⟨a, b, rfl⟩
            rw [he] at hg
            rw [torchConstruct_stoch_dim1 env c hdet t0 ts hg (by omega)] at h; cases h
  · rcases h with h | h
    · have hg := (construct_fields h).2
      rcases grid_cases (mkGrid c.t1 c.t2) with he | ⟨t0, he⟩ | h2
      · exact absurd he (construct_grid_ne hd h)
      · cases hdet : c.deterministic with
        | true =>
          rw [construct_det_single env c hdet t0 he] at h
          obtain ⟨rfl, _⟩ := RandM.pure_ok.1 h; exact one _
        | false =>
          by_cases hd2 : 2 ≤ d
          · rw [construct_stoch_single env c hdet hd2 t0 he] at h
            obtain ⟨rfl, _⟩ := RandM.pure_ok.1 h; exact zer 1
          · rw [construct_stoch_dim1 env c hdet (by rw [he]; simp) (by omega)] at h; cases h
      · cases hdet : c.deterministic with
        | true =>
          obtain ⟨ys, r1, zt, r2, bs, h1, hz, h3, ho⟩ := (construct_det_iff env c hdet h2 r r' o).1 h
          rw [ho]; exact ztr _ _ _ _ _ h2 hz
        | false =>
          by_cases hd2 : 2 ≤ d
          · obtain ⟨ys, r1, bs, h1, h3, ho⟩ := (construct_stoch_iff env c hdet h2 hd2 r r' o).1 h
            rw [ho]; exact zer _
          · rw [construct_stoch_dim1 env c hdet (by omega) (by omega)] at h; cases h
    · have hg := (torchConstruct_fields h).2.1
      rcases grid_cases o.timegrid with he | ⟨t0, he⟩ | h2
      · exact absurd he (torchConstruct_grid_ne hd h)
      · rw [he] at hg
        cases hdet : c.deterministic with
        | true =>
          rw [torchConstruct_det_single env c hdet t0 hg] at h
          obtain ⟨rfl, _⟩ := RandM.pure_ok.1 h; exact one _
        | false =>
          by_cases hd2 : 2 ≤ d
          · rw [torchConstruct_stoch_single env c hdet hd2 t0 hg] at h
            obtain ⟨rfl, _⟩ := RandM.pure_ok.1 h; exact zer 1
          · rw [torchConstruct_stoch_dim1 env c hdet t0 [] hg (by omega)] at h; cases h
      · cases hdet : c.deterministic with
        | true =>
          obtain ⟨ys, r1, zt, r2, bs, h1, hz, h3, ho⟩ :=
            (torchConstruct_det_iff env c hdet _ hg h2 r r' o).1 h
          rw [ho]; exact ztr _ _ _ _ _ h2 hz
        | false =>
          by_cases hd2 : 2 ≤ d
          · obtain ⟨ys, r1, bs, h1, h3, ho⟩ :=
              (torchConstruct_stoch_iff env c hdet _ hg h2 hd2 r r' o).1 h
            rw [ho]; exact zer _
          · obtain ⟨t0, ts, he⟩ : ∃ t0 ts, o.timegrid = t0 :: ts := by
              rcases hh : o.timegrid with _ | ⟨a, b⟩
              · rw [hh] at h2; simp at h2
              · exact ⟨a, b, rfl⟩
            rw [he] at hg
            rw [torchConstruct_stoch_dim1 env c hdet t0 ts hg (by omega)] at h; cases h

/-- **C08** (every slice is written). The result of the backward simulation does not depend on what
the storage contained before: two runs on different initial storage of the right size give the same
slices, exceptions and random state. The same holds for the deterministic forward samplers. -/
theorem C08_every_slice_written (env : Env ρ K) (c : Cfg d N M K) (grid : List K)
    (Z S S' : Traj d N K) (hg : 1 ≤ grid.length) (hZ : Z.length = grid.length)
    (hS : S.length = grid.length) (hS' : S'.length = grid.length) :
    backwardSim env c grid Z S = backwardSim env c grid Z S' ∧
    torchBackwardSim env c grid Z S = torchBackwardSim env c grid Z S' ∧
    forwardOtto env c grid S = forwardOtto env c grid S' ∧
    torchForwardOtto env c grid S = torchForwardOtto env c grid S' ∧
    forwardOttoTrue env c grid S = forwardOttoTrue env c grid S' ∧
    torchForwardOttoTrue env c grid S = torchForwardOttoTrue env c grid S' := by
  rcases grid with _ | ⟨t0, _ | ⟨t1, ts⟩⟩
  · simp at hg
  · simp only [List.length_cons, List.length_nil, Nat.zero_add] at hS hS' hZ
    refine ⟨?_, ?_, ?_, ?_, ?_, ?_⟩
    · rw [backwardSim_gen, backwardSim_gen, genBackward_single env _ _ c t0 Z S hS,
        genBackward_single env _ _ c t0 Z S' hS']
    · rw [torchBackwardSim_gen, torchBackwardSim_gen, genBackward_single env _ _ c t0 Z S hS,
        genBackward_single env _ _ c t0 Z S' hS']
    · rw [forwardOtto_single env c t0 S hS, forwardOtto_single env c t0 S' hS']
    · rw [torchForwardOtto_single env c t0 S hS, torchForwardOtto_single env c t0 S' hS']
    · rw [forwardOttoTrue_eq env c t0 [] S (by simpa using hS),
        forwardOttoTrue_eq env c t0 [] S' (by simpa using hS')]
    · rw [torchForwardOttoTrue_eq env c t0 [] S (by simpa using hS),
        torchForwardOttoTrue_eq env c t0 [] S' (by simpa using hS')]
  · have h2 : 2 ≤ (t0 :: t1 :: ts).length := by simp
    refine ⟨?_, ?_, ?_, ?_, ?_, ?_⟩
    · rw [backwardSim_eq env c _ Z S hZ hS h2, backwardSim_eq env c _ Z S' hZ hS' h2]
    · rw [torchBackwardSim_eq env c _ Z S hZ hS h2, torchBackwardSim_eq env c _ Z S' hZ hS' h2]
    · rw [forwardOtto_eq env c t0 t1 ts S (by simpa using hS),
        forwardOtto_eq env c t0 t1 ts S' (by simpa using hS')]
    · rw [torchForwardOtto_eq env c t0 t1 ts S (by simpa using hS),
        torchForwardOtto_eq env c t0 t1 ts S' (by simpa using hS')]
    · rw [forwardOttoTrue_eq env c t0 (t1 :: ts) S (by simpa using hS),
        forwardOttoTrue_eq env c t0 (t1 :: ts) S' (by simpa using hS')]
    · rw [torchForwardOttoTrue_eq env c t0 (t1 :: ts) S (by simpa using hS),
        torchForwardOttoTrue_eq env c t0 (t1 :: ts) S' (by simpa using hS')]

/-- C08: sizes of the Brownian-bridge example, and a successful backward run on storage that was not
zero before. -/
example : ∃ o r', construct exEnv (exCfg 2 5 4 100 true true true) 0 = .ok (o, r') ∧
    o.Z.length = 101 ∧ o.B.length = 101 ∧ o.Ztr.isSome = true := by
  obtain ⟨o, r', h, hl⟩ := ex_det 2 5 4 100 true true (by norm_num) (by norm_num) 0
  obtain ⟨h1, h2, h3, _⟩ := C08_storage_sizes _ _ (by norm_num) _ _ _ (.inl h)
  exact ⟨o, r', h, by rw [h1, hl], by rw [h2, hl], by rw [h3]; rfl⟩

example : ∃ B r', backwardSim exEnv (exCfg 2 5 4 2 true false false) [0, 1, 2]
    [fun _ _ => 0, fun _ n => n.val, fun _ n => n.val]
    [fun _ _ => 7, fun _ _ => 8, fun _ _ => 9] 0 = .ok (B, r') := by
  rw [(C08_every_slice_written exEnv _ [0, 1, 2] _ _ [fun _ _ => 0, fun _ _ => 0, fun _ _ => 0]
    (by simp) rfl rfl rfl).1]
  rw [backwardSim_eq _ _ _ _ _ rfl rfl (by simp)]
  exact (Total.bind (Total.chain (fun i zt b => npBack_total exEnv _ (by norm_num) rfl i zt b) _ _ _)
    fun _ => Total.pure _) 0

end DPFC
