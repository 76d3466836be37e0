import Verif.Lib.Examples

/-!
# C01, C02: the time grid and degenerate horizons
-/

namespace DPFC

variable {ρ : Type} {d N M : ℕ}

/-- Specification: `g` is the list of all points `t1 + i*dt` (`dt = 1/1000`) strictly below
`t2 + dt/2`, in order. -/
def Spec.IsTimeGrid (t1 t2 : ℝ) (g : List ℝ) : Prop :=
  ∀ (i : ℕ) (x : ℝ), g[i]? = some x ↔ x = t1 + i * (1/1000) ∧ x < t2 + 1/2000

/-- **C01** (content of the grid). The `timegrid` of every constructed object, numpy or torch,
consists of exactly the points `t1 + i*dt` strictly below `t2 + dt/2`, point `i` at index `i`. -/
theorem C01_grid_points (env : Env ρ ℝ) (c : Cfg d N M ℝ) (r r' : ρ) (o : Obj d N M ℝ)
    (h : construct env c r = .ok (o, r') ∨ torchConstruct env c r = .ok (o, r')) :
    Spec.IsTimeGrid c.t1 c.t2 o.timegrid := by
  have : o.timegrid = mkGrid c.t1 c.t2 := by
    rcases h with h | h
    · exact (construct_fields h).2
    · exact (torchConstruct_fields h).2.2.trans (torchPoints_real _ _)
  rw [this]
  exact fun i x => mkGrid_getElem_real c.t1 c.t2 i x

/-- **C01** (shape of the grid). Such a grid is strictly increasing with spacing `dt`; if it is not
empty it starts at `t1` and its last point is within `dt/2` of `t2`; if `t2 - t1` is `n*dt` it has
`n+1` points and ends at `t2`. -/
theorem C01_grid_shape (t1 t2 : ℝ) (g : List ℝ) (h : Spec.IsTimeGrid t1 t2 g) :
    (∀ i x y, g[i]? = some x → g[i+1]? = some y → y = x + 1/1000) ∧
    (t1 < t2 + 1/2000 → g.head? = some t1 ∧ ∃ x, g.getLast? = some x ∧ |t2 - x| ≤ 1/2000) ∧
    (∀ n : ℕ, t2 = t1 + n * (1/1000) → g.length = n + 1 ∧ g.getLast? = some t2) := by
  have hpt : ∀ i, i < g.length → g[i]? = some (t1 + i * (1/1000)) := by
    intro i hi
    have h1 := List.getElem?_eq_getElem hi
    rw [h1, ((h i _).1 h1).1]
  have hno : ∀ i, g.length ≤ i → t2 + 1/2000 ≤ t1 + i * (1/1000) := by
    intro i hi
    by_contra hc
    have := (h i _).2 ⟨rfl, not_le.1 hc⟩
    rw [List.getElem?_eq_none hi] at this
    cases this
  have hlast : 0 < g.length →
      g.getLast? = some (t1 + ((g.length - 1 : ℕ) : ℝ) * (1/1000)) := by
    intro h0
    rw [List.getLast?_eq_getElem?]
    exact hpt _ (by omega)
  refine ⟨?_, ?_, ?_⟩
  · intro i x y hx hy
    rw [((h i x).1 hx).1, ((h (i+1) y).1 hy).1]
    push_cast; ring
  · intro hlt
    have h0 : g[0]? = some t1 := (h 0 t1).2 ⟨by simp, hlt⟩
    have hl : 0 < g.length := by
      by_contra hc
      have : g = [] := List.length_eq_zero_iff.1 (by omega)
      rw [this] at h0; cases h0
    refine ⟨by rw [List.head?_eq_getElem?, h0], _, hlast hl, ?_⟩
    have hb := (h _ _).1 (hpt (g.length - 1) (by omega))
    have ha := hno g.length le_rfl
    have hc : ((g.length - 1 : ℕ) : ℝ) = (g.length : ℝ) - 1 := by
      rw [Nat.cast_sub hl]; simp
    rw [hc] at hb ⊢
    rw [abs_le]
    constructor <;> linarith [hb.2]
  · intro n hn
    have hl : g.length = n + 1 := by
      refine le_antisymm ?_ ?_
      · by_contra hc
        have := (h _ _).1 (hpt (n+1) (by omega))
        have h2 := this.2
        rw [hn] at h2
        push_cast at h2
        linarith
      · by_contra hc
        have := hno n (by omega)
        rw [hn] at this
        linarith
    refine ⟨hl, ?_⟩
    rw [hlast (by omega), hl, hn]
    simp

/-- The hypotheses are met: an object with 1001 grid points. -/
example : ∃ o r', construct exEnv (exCfg 2 5 3 1000 true true true) 0 = .ok (o, r')
    ∧ Spec.IsTimeGrid 0 (1000/1000) o.timegrid ∧ o.timegrid.length = 1001 := by
  obtain ⟨o, r', h, hl⟩ := ex_det 2 5 3 1000 true true (by norm_num) (by norm_num) 0
  refine ⟨o, r', h, ?_, hl⟩
  simpa [exCfg] using C01_grid_points exEnv _ 0 r' o (.inl h)

/-- **C02** (numpy, empty grid). If `t2 + dt/2 <= t1`, constructing `DPFC` raises IndexError, for
every other argument, in every mode. -/
theorem C02_empty_horizon_raises (env : Env ρ ℝ) (c : Cfg d N M ℝ) (hd : 0 < d)
    (ht : c.t2 + 1/2000 ≤ c.t1) (r : ρ) : construct env c r = .error .indexError := by
  have : mkGrid c.t1 c.t2 = [] := by
    apply List.length_eq_zero_iff.1
    rw [mkGrid_length_real, Nat.ceil_eq_zero]
    linarith
  rw [construct_empty env c hd this]
  rfl

/-- **C02** (torch, empty grid). The torch class raises too: RuntimeError from `arange` if the upper
bound is below the lower one, IndexError if they coincide. -/
theorem C02_torch_empty_horizon_raises (env : Env ρ ℝ) (c : Cfg d N M ℝ) (hd : 0 < d) (r : ρ) :
    (c.t2 + 1/2000 < c.t1 → torchConstruct env c r = .error .runtimeError) ∧
    (c.t2 + 1/2000 = c.t1 → torchConstruct env c r = .error .indexError) := by
  have hd' : (dtc : ℝ) / lit 2 1 = 1/2000 := by
    have h2 : (lit 2 1 : ℝ) = 2 := by rw [real_lit_int]; norm_num
    rw [h2]; simp [dtc]; norm_num
  have hb : ∀ t2 t1 : ℝ, NumOps.ltB (t2 + dtc / lit 2 1) t1 = true ↔ t2 + 1/2000 < t1 := by
    intro t2 t1; rw [real_ltB, hd']
  refine ⟨fun h => ?_, fun h => ?_⟩
  · have : torchGrid c.t1 c.t2 = .error .runtimeError := by
      unfold torchGrid
      rw [if_pos ((hb _ _).2 h)]
    unfold torchConstruct
    rw [this]
    rfl
  · have : torchGrid c.t1 c.t2 = .ok [] := by
      unfold torchGrid
      rw [if_neg (by rw [hb]; exact not_lt.2 (le_of_eq h.symm))]
      congr 1
      apply List.length_eq_zero_iff.1
      rw [torchPoints_real, mkGrid_length_real, Nat.ceil_eq_zero]
      linarith
    rw [torchConstruct_empty env c hd this]
    rfl

/-- **C02** (empty grid, any arithmetic). Whatever the arithmetic: if the computed grid of the numpy class is empty,
construction raises IndexError; if the torch `arange` refuses the bounds, its RuntimeError is the outcome of the
construction, and if it returns no point, construction raises IndexError. -/
theorem C02_empty_grid_raises {K : Type} [Add K] [Sub K] [Mul K] [Div K] [Neg K]
    [NumOps K] (env : Env ρ K) (c : Cfg d N M K) (hd : 0 < d) (r : ρ) :
    (mkGrid c.t1 c.t2 = [] → construct env c r = .error .indexError) ∧
    (NumOps.ltB (c.t2 + dtc / lit 2 1) c.t1 = true → torchConstruct env c r = .error .runtimeError) ∧
    (torchGrid c.t1 c.t2 = .ok [] → torchConstruct env c r = .error .indexError) := by
  refine ⟨fun h => ?_, fun h => ?_, fun h => ?_⟩
  · rw [construct_empty env c hd h]; rfl
  · have : torchGrid c.t1 c.t2 = .error .runtimeError := by
      unfold torchGrid
      rw [if_pos h]
    unfold torchConstruct
    rw [this]
    rfl
  · rw [torchConstruct_empty env c hd h]; rfl

/-- **C02** (single point). If the grid of a constructed object has a single point, its backward flow
is the single slice `y1`, whatever `y2` is. (Any arithmetic, numpy and torch.) -/
theorem C02_single_point_ignores_target {K : Type} [Add K] [Sub K] [Mul K] [Div K] [Neg K]
    [NumOps K] (env : Env ρ K) (c : Cfg d N M K) (hd : 0 < d) (r r' : ρ) (o : Obj d N M K)
    (h : construct env c r = .ok (o, r') ∨ torchConstruct env c r = .ok (o, r'))
    (h1 : o.timegrid.length = 1) : o.B = [fun a _ => c.y1 a] := by
  rcases h with h | h
  · rcases construct_B hd h with h | h
    · exact h.2
    · omega
  · rcases torchConstruct_B hd h with h | h
    · exact h.2
    · omega

/-- **C02** (single point, existence). With `t1 - dt/2 < t2 <= t1 + dt/2` the deterministic numpy
class does return an object with a single grid point. -/
theorem C02_single_point_constructs (env : Env ρ ℝ) (c : Cfg d N M ℝ)
    (hdet : c.deterministic = true) (hlo : c.t1 < c.t2 + 1/2000) (hhi : c.t2 ≤ c.t1 + 1/2000)
    (r : ρ) : ∃ o, construct env c r = .ok (o, r) ∧ o.timegrid = [c.t1] := by
  have hg : mkGrid c.t1 c.t2 = [c.t1] := by
    rw [mkGrid_real]
    have : ⌈(c.t2 + 1/2000 - c.t1) * 1000⌉₊ = 1 := by
      refine le_antisymm (Nat.ceil_le.2 (by push_cast; linarith)) ?_
      exact Nat.succ_le_of_lt (Nat.lt_ceil.2 (by push_cast; linarith))
    rw [this]
    simp
  rw [construct_det_single env c hdet _ hg]
  exact ⟨_, rfl, rfl⟩

/-- The hypotheses of the empty and of the single-point theorems are met. -/
example (r : ℕ) : construct exEnv
    ({ exCfg 2 5 3 7 true true true with t1 := 1, t2 := 0 } : Cfg 2 5 3 ℝ) r
    = .error .indexError :=
  C02_empty_horizon_raises exEnv _ (by norm_num) (by norm_num) r

example (r : ℕ) : ∃ o, construct exEnv (exCfg 2 5 3 0 true true true) r = .ok (o, r) ∧
    o.timegrid.length = 1 ∧ o.B = [fun a _ => 1 + (a.val : ℝ)] := by
  obtain ⟨o, h, hg⟩ := C02_single_point_constructs exEnv (exCfg 2 5 3 0 true true true) rfl
    (by norm_num [exCfg]) (by norm_num [exCfg]) r
  refine ⟨o, h, by rw [hg]; rfl, ?_⟩
  exact C02_single_point_ignores_target exEnv _ (by norm_num) r r o (.inl h) (by rw [hg]; rfl)

end DPFC
