import Verif.Lib.CallArgsTorch
import Verif.Lib.Examples
import Verif.Lib.FanStoch

/-!
# C96: what the user's callables see

The constructors call the user's `f`, `f_true` and `U`; a callable may have side effects. Which calls are made, in which
order, on which arrays and at which times; what an exception raised by a callable does; and that for plain
functions the constructors are those of `Model/DPFC.lean` and `Model/TorchDPFC.lean`.
-/

set_option linter.unusedSectionVars false

namespace DPFC
open Spec

section
variable {K ρ : Type} [Add K] [Sub K] [Mul K] [Div K] [Neg K] [NumOps K]
variable {N M d : Nat}

/-- **C96** (plain functions). With callables that are plain functions (or `None`) the constructor with views and side
effects gives, for every state of the world, the arrays, the final state or the exception that the constructor of
`Model/DPFC.lean` gives. -/
theorem C96_plain_callables (env : Env ρ K) (c : Cfg d N M K) (r : ρ) :
    eConstruct env (quiet c) r = (construct env c r).map fun p => (arrays p.1, p.2) := by
  rw [eConstruct_quiet, RandM.bind_app]
  cases construct env c r <;> rfl

/-- **C96** (plain functions, torch). -/
theorem C96_torch_plain_callables (env : Env ρ K) (c : Cfg d N M K) (r : ρ) :
    eTorchConstruct env (quiet c) r = (torchConstruct env c r).map fun p => (arrays p.1, p.2) := by
  rw [eTorchConstruct_quiet, RandM.bind_app]
  cases torchConstruct env c r <;> rfl

/-- **C96** (schedule, deterministic). Whatever the callables do, there is a list of calls such that every
monitor watching the callables sees exactly these calls in this order, an exception it raises is what the
constructor raises, and otherwise it does not influence the run. The callables and times are an initial part of
the fixed schedule, all of it if the constructor returns. -/
theorem C96_schedule_deterministic (env : Env ρ K) (c : ECfg d N M ρ K) (hdet : c.deterministic = true) (r : ρ) :
    ∃ calls, MakesCalls (eConstruct env c) (fun σ h => eConstruct (besides σ env) (watch h c)) r calls ∧
      calls.map tag <+: scheduleDet c.reweight c.brownBridge (mkGrid c.t1 c.t2) ∧
      ∀ p, eConstruct env c r = .ok p → calls.map tag = scheduleDet c.reweight c.brownBridge (mkGrid c.t1 c.t2) :=
  Sched.constructDet env c hdet r

/-- **C96** (schedule, stochastic). -/
theorem C96_schedule_stochastic (env : Env ρ K) (c : ECfg d N M ρ K) (hdet : c.deterministic = false) (r : ρ) :
    ∃ calls, MakesCalls (eConstruct env c) (fun σ h => eConstruct (besides σ env) (watch h c)) r calls ∧
      calls.map tag <+: scheduleStoch N c.reweight (mkGrid c.t1 c.t2) ∧
      ∀ p, eConstruct env c r = .ok p → calls.map tag = scheduleStoch N c.reweight (mkGrid c.t1 c.t2) :=
  Sched.constructStoch env c hdet r

/-- **C96** (schedule, torch, deterministic). -/
theorem C96_torch_schedule_deterministic (env : Env ρ K) (c : ECfg d N M ρ K) (hdet : c.deterministic = true)
    (grid : List K) (hg : torchGrid c.t1 c.t2 = .ok grid) (r : ρ) :
    ∃ calls, MakesCalls (eTorchConstruct env c) (fun σ h => eTorchConstruct (besides σ env) (watch h c)) r calls ∧
      calls.map tag <+: scheduleDet c.reweight c.brownBridge grid ∧
      ∀ p, eTorchConstruct env c r = .ok p → calls.map tag = scheduleDet c.reweight c.brownBridge grid :=
  Sched.torchConstructDet env c hdet grid hg r

/-- **C96** (schedule, torch, stochastic). -/
theorem C96_torch_schedule_stochastic (env : Env ρ K) (c : ECfg d N M ρ K) (hdet : c.deterministic = false)
    (grid : List K) (hg : torchGrid c.t1 c.t2 = .ok grid) (r : ρ) :
    ∃ calls, MakesCalls (eTorchConstruct env c) (fun σ h => eTorchConstruct (besides σ env) (watch h c)) r calls ∧
      calls.map tag <+: scheduleTorchStoch c.reweight grid ∧
      ∀ p, eTorchConstruct env c r = .ok p → calls.map tag = scheduleTorchStoch c.reweight grid :=
  Sched.torchConstructStoch env c hdet grid hg r

/-- **C96** (number of calls). With `k ≥ 2` grid points: a deterministic run calls the drift `2k-3` times, a
stochastic run of the numpy class `N(k-1) + k-2` times; the constraint and the true drift are called `k-1` times if
they are called at all. -/
theorem C96_number_of_calls (N : Nat) (reweight bridge : Bool) (grid : List K) (hk : 2 ≤ grid.length) :
    (scheduleDet reweight bridge grid).length
      = 2 * grid.length - 3 + (if reweight then grid.length - 1 else 0)
        + (if reweight && bridge then grid.length - 1 else 0) ∧
    (scheduleStoch N reweight grid).length
      = N * (grid.length - 1) + (grid.length - 2) + (if reweight then grid.length - 1 else 0) ∧
    (scheduleTorchStoch reweight grid).length
      = 2 * grid.length - 3 + (if reweight then grid.length - 1 else 0) := by
  have hc : ∀ (F : K → List (Tag K)) (n : Nat) (_ : ∀ t, (F t).length = n) (l : List K),
      (l.flatMap F).length = n * l.length := by
    intro F n hF l
    induction l with
    | nil => simp
    | cons a l ih => rw [List.flatMap_cons, List.length_append, ih, hF, List.length_cons, Nat.mul_succ]; omega
  refine ⟨?_, ?_, ?_⟩
  · cases reweight
    · rw [scheduleDet, List.length_append, List.length_append, hc _ 1 (fun t => by simp)]
      simp; omega
    · rw [scheduleDet, List.length_append, List.length_append, hc _ 2 (fun t => by simp)]
      cases bridge <;> simp <;> omega
  · cases reweight
    · rw [scheduleStoch, List.length_append, hc _ N (fun t => by simp)]
      simp
    · rw [scheduleStoch, List.length_append, hc _ (N + 1) (fun t => by simp)]
      simp [Nat.add_mul]; omega
  · cases reweight
    · rw [scheduleTorchStoch, List.length_append, hc _ 1 (fun t => by simp)]
      simp; omega
    · rw [scheduleTorchStoch, List.length_append, hc _ 2 (fun t => by simp)]
      simp; omega

theorem monitor_interrupt (L : Nat) (e : PyErr) : ∀ (l : List (Call d N K)) (n : Nat), n ≤ L →
    monitor (interrupt L e) l n = if n + l.length ≤ L then .ok (n + l.length) else .error e
  | [], n, h => by simp [monitor, h]
  | c :: l, n, h => by
    rw [monitor, interrupt]
    by_cases hn : n < L
    · rw [if_pos hn]
      show monitor (interrupt L e) l (n + 1) = _
      rw [monitor_interrupt L e l (n + 1) (by omega), List.length_cons, show n + 1 + l.length = n + (l.length + 1) by omega]
    · rw [if_neg hn, if_neg (by simp; omega)]

/-- **C96** (a callable raises). If the construction succeeds with `n` calls in total, then aborting the call
number `L+1` with the exception `e` makes the constructor raise `e` if `L < n` (nothing is caught, no object is
returned) and changes nothing otherwise. -/
theorem C96_interrupted (env : Env ρ K) (c : ECfg d N M ρ K) (L : Nat) (e : PyErr) (r r' : ρ) (o : EObj d N K)
    (h : eConstruct env c r = .ok (o, r')) :
    let n := (if c.deterministic then scheduleDet c.reweight c.brownBridge (mkGrid c.t1 c.t2)
      else scheduleStoch N c.reweight (mkGrid c.t1 c.t2)).length
    (L < n → eConstruct (besides Nat env) (watch (interrupt L e) c) (r, 0) = .error e) ∧
    (n ≤ L → eConstruct (besides Nat env) (watch (interrupt L e) c) (r, 0) = .ok (o, (r', n))) := by
  have key : ∀ T : List (Tag K), (∃ calls, MakesCalls (eConstruct env c)
      (fun σ h => eConstruct (besides σ env) (watch h c)) r calls ∧ calls.map tag <+: T ∧
      ∀ p, eConstruct env c r = .ok p → calls.map tag = T) →
      (L < T.length → eConstruct (besides Nat env) (watch (interrupt L e) c) (r, 0) = .error e) ∧
      (T.length ≤ L → eConstruct (besides Nat env) (watch (interrupt L e) c) (r, 0) = .ok (o, (r', T.length))) := by
    rintro T ⟨calls, hm, -, ht⟩
    have hl : calls.length = T.length := by rw [← ht _ h, List.length_map]
    have hm := hm Nat (interrupt L e) 0
    rw [monitor_interrupt L e calls 0 (by omega), h, hl] at hm
    simp only [Nat.zero_add] at hm
    constructor
    · intro hL
      rw [if_neg (by omega)] at hm
      exact hm
    · intro hL
      rw [if_pos hL] at hm
      exact hm
  intro n
  by_cases hd : c.deterministic = true
  · have := key _ (C96_schedule_deterministic env c hd r)
    simp only [n, hd, if_true]
    exact this
  · have hd' : c.deterministic = false := by simpa using hd
    have := key _ (C96_schedule_stochastic env c hd' r)
    simp only [n, hd', if_false, Bool.false_eq_true]
    exact this

/-- **C96** (a callable raises, torch). -/
theorem C96_torch_interrupted (env : Env ρ K) (c : ECfg d N M ρ K) (grid : List K) (hg : torchGrid c.t1 c.t2 = .ok grid)
    (L : Nat) (e : PyErr) (r r' : ρ) (o : EObj d N K) (h : eTorchConstruct env c r = .ok (o, r')) :
    let n := (if c.deterministic then scheduleDet c.reweight c.brownBridge grid
      else scheduleTorchStoch c.reweight grid).length
    (L < n → eTorchConstruct (besides Nat env) (watch (interrupt L e) c) (r, 0) = .error e) ∧
    (n ≤ L → eTorchConstruct (besides Nat env) (watch (interrupt L e) c) (r, 0) = .ok (o, (r', n))) := by
  have key : ∀ T : List (Tag K), (∃ calls, MakesCalls (eTorchConstruct env c)
      (fun σ h => eTorchConstruct (besides σ env) (watch h c)) r calls ∧ calls.map tag <+: T ∧
      ∀ p, eTorchConstruct env c r = .ok p → calls.map tag = T) →
      (L < T.length → eTorchConstruct (besides Nat env) (watch (interrupt L e) c) (r, 0) = .error e) ∧
      (T.length ≤ L → eTorchConstruct (besides Nat env) (watch (interrupt L e) c) (r, 0) = .ok (o, (r', T.length))) := by
    rintro T ⟨calls, hm, -, ht⟩
    have hl : calls.length = T.length := by rw [← ht _ h, List.length_map]
    have hm := hm Nat (interrupt L e) 0
    rw [monitor_interrupt L e calls 0 (by omega), h, hl] at hm
    simp only [Nat.zero_add] at hm
    constructor
    · intro hL
      rw [if_neg (by omega)] at hm
      exact hm
    · intro hL
      rw [if_pos hL] at hm
      exact hm
  intro n
  by_cases hd : c.deterministic = true
  · have := key _ (C96_torch_schedule_deterministic env c hd grid hg r)
    simp only [n, hd, if_true]
    exact this
  · have hd' : c.deterministic = false := by simpa using hd
    have := key _ (C96_torch_schedule_stochastic env c hd' grid hg r)
    simp only [n, hd', if_false, Bool.false_eq_true]
    exact this

/-- **C96** (arguments, deterministic). If the drifts leave the arrays they are handed alone (they may raise, keep
state, draw random numbers; `U` may do anything), the calls of a successful run are determined by what is stored in
the object: the drift is called on the stored slices of `Z` and `B`, the true drift on those of `Ztr`, and `U` on the
clouds from which reweighting produced the stored slices. -/
theorem C96_arguments_deterministic (env : Env ρ K) (c : ECfg d N M ρ K) (hdet : c.deterministic = true)
    (hf : Keeps c.f) (hft : Keeps c.fTrue) (r r' : ρ) (o : EObj d N K) (h : eConstruct env c r = .ok (o, r')) :
    ∃ raw : Traj d N K, raw.length = (mkGrid c.t1 c.t2).length - 1 ∧
      MakesCalls (eConstruct env c) (fun σ h => eConstruct (besides σ env) (watch h c)) r
        (callsDet c.reweight (mkGrid c.t1 c.t2) o.Z raw o.Ztr o.B) ∧
      (c.reweight = true → ∀ (i : Nat) w t z, raw[i]? = some w → (mkGrid c.t1 c.t2)[i + 1]? = some t →
        o.Z[i + 1]? = some z → ∃ s s', eOttoReweight env c.U w t s = .ok (z, s')) := by
  obtain ⟨l, hl, hq⟩ := callsPost_constructDet env c hdet hf hft r
  obtain ⟨l1, l2, ⟨raw, hr, rfl, hw⟩, h1, h2, rfl⟩ := hq o r' h
  refine ⟨raw, by simpa using hr, ?_, ?_⟩
  · convert hl using 1
    unfold callsDet
    congr 2
    cases ho : o.Ztr with
    | none => exact (h2 ho).symm
    | some T => exact (h1 T ho).symm
  · intro hrw i w t z hw' ht hz
    refine hw hrw (z, (w, t)) ?_
    refine List.mem_of_getElem? (i := i) ?_
    rw [List.getElem?_zip_eq_some, List.getElem?_zip_eq_some]
    exact ⟨by rw [List.getElem?_tail]; exact hz, hw', by rw [List.getElem?_tail]; exact ht⟩

/-- **C96** (arguments, torch, deterministic). -/
theorem C96_torch_arguments_deterministic (env : Env ρ K) (c : ECfg d N M ρ K) (hdet : c.deterministic = true)
    (grid : List K) (hg : torchGrid c.t1 c.t2 = .ok grid)
    (hf : Keeps c.f) (hft : Keeps c.fTrue) (r r' : ρ) (o : EObj d N K) (h : eTorchConstruct env c r = .ok (o, r')) :
    ∃ raw : Traj d N K, raw.length = grid.length - 1 ∧
      MakesCalls (eTorchConstruct env c) (fun σ h => eTorchConstruct (besides σ env) (watch h c)) r
        (callsDet c.reweight grid o.Z raw o.Ztr o.B) ∧
      (c.reweight = true → ∀ (i : Nat) w t z, raw[i]? = some w → grid[i + 1]? = some t →
        o.Z[i + 1]? = some z → ∃ s s', eTorchOttoReweight env c.U w t s = .ok (z, s')) := by
  obtain ⟨l, hl, hq⟩ := callsPost_torchConstructDet env c hdet grid hg hf hft r
  obtain ⟨l1, l2, ⟨raw, hr, rfl, hw⟩, h1, h2, rfl⟩ := hq o r' h
  refine ⟨raw, by simpa using hr, ?_, ?_⟩
  · convert hl using 1
    unfold callsDet
    congr 2
    cases ho : o.Ztr with
    | none => exact (h2 ho).symm
    | some T => exact (h1 T ho).symm
  · intro hrw i w t z hw' ht hz
    refine hw hrw (z, (w, t)) ?_
    refine List.mem_of_getElem? (i := i) ?_
    rw [List.getElem?_zip_eq_some, List.getElem?_zip_eq_some]
    exact ⟨by rw [List.getElem?_tail]; exact hz, hw', by rw [List.getElem?_tail]; exact ht⟩

/-- **C96** (arguments, stochastic). The drift sees the particles of the stored slices one at a time. (The last slice
of `Z` is overwritten with `y2` afterwards and no call sees it.) -/
theorem C96_arguments_stochastic (env : Env ρ K) (c : ECfg d N M ρ K) (hdet : c.deterministic = false)
    (hf : Keeps c.f) (r r' : ρ) (o : EObj d N K) (h : eConstruct env c r = .ok (o, r')) :
    ∃ raw : Traj d N K, raw.length = (mkGrid c.t1 c.t2).length - 1 ∧
      MakesCalls (eConstruct env c) (fun σ h => eConstruct (besides σ env) (watch h c)) r
        (callsStoch c.reweight (mkGrid c.t1 c.t2) o.Z raw o.B) ∧
      (c.reweight = true → ∀ (i : Nat) w z, raw[i]? = some w → i + 2 < o.Z.length →
        o.Z[i + 1]? = some z → ∃ s s', eStochReweight env c.U w s = .ok (z, s')) := by
  obtain ⟨l, hl, hq⟩ := callsPost_constructStoch env c hdet hf r
  obtain ⟨l1, Z', hlen, hZ', ⟨raw, hr, rfl, hw⟩, rfl⟩ := hq o r' h
  have hlen' : Z'.length - 1 = o.Z.length - 1 := by
    rw [← List.length_dropLast, hZ', List.length_dropLast]
  refine ⟨raw, by simpa using hr, ?_, ?_⟩
  · have e : Z'.zip (raw.zip (mkGrid c.t1 c.t2).tail) = o.Z.zip (raw.zip (mkGrid c.t1 c.t2).tail) := by
      refine zip_congr_dropLast hZ' ?_
      rw [List.length_zip, hr, List.length_tail, List.length_dropLast, hlen]
      omega
    unfold callsStoch
    rw [← e]
    exact hl
  · intro hrw i w z hw' hi hz
    have hk : i + 1 < (mkGrid c.t1 c.t2).length := by omega
    refine hw hrw (z, (w, (mkGrid c.t1 c.t2)[i + 1])) ?_
    refine List.mem_of_getElem? (i := i) ?_
    rw [List.getElem?_zip_eq_some, List.getElem?_zip_eq_some]
    refine ⟨?_, hw', by rw [List.getElem?_tail, List.getElem?_eq_getElem hk]⟩
    rw [List.getElem?_tail, ← hz]
    have h1 := congrArg (fun l : Traj d N K => l[i + 1]?) hZ'
    simp only [List.getElem?_dropLast] at h1
    rw [if_pos (by omega), if_pos (by omega)] at h1
    exact h1

/-- **C96** (arguments, torch, stochastic). -/
theorem C96_torch_arguments_stochastic (env : Env ρ K) (c : ECfg d N M ρ K) (hdet : c.deterministic = false)
    (grid : List K) (hg : torchGrid c.t1 c.t2 = .ok grid) (hf : Keeps c.f) (r r' : ρ) (o : EObj d N K)
    (h : eTorchConstruct env c r = .ok (o, r')) :
    ∃ raw : Traj d N K, raw.length = grid.length - 1 ∧
      MakesCalls (eTorchConstruct env c) (fun σ h => eTorchConstruct (besides σ env) (watch h c)) r
        (callsTorchStoch c.reweight grid o.Z raw o.B) ∧
      (c.reweight = true → ∀ (i : Nat) w t z, raw[i]? = some w → grid[i + 1]? = some t →
        o.Z[i + 1]? = some z → ∃ s s', eTorchStochReweight env c.U w s = .ok (z, s')) := by
  obtain ⟨l, hl, hq⟩ := callsPost_torchConstructStoch env c hdet grid hg hf r
  obtain ⟨l1, ⟨raw, hr, rfl, hw⟩, rfl⟩ := hq o r' h
  refine ⟨raw, by simpa using hr, hl, ?_⟩
  intro hrw i w t z hw' ht hz
  refine hw hrw (z, (w, t)) ?_
  refine List.mem_of_getElem? (i := i) ?_
  rw [List.getElem?_zip_eq_some, List.getElem?_zip_eq_some]
  exact ⟨by rw [List.getElem?_tail]; exact hz, hw', by rw [List.getElem?_tail]; exact ht⟩

/-! Plain functions leave their argument alone; a watched callable leaves it alone if the watched one does. -/

theorem keeps_quietDrift (f : Drift d N K) : Keeps (quietDrift f : EDrift d N ρ K) := by
  refine ⟨fun x t r v x' r' h => ?_, fun x r v x' r' h => ?_⟩
  · cases h; rfl
  · cases hf : f.call1 with
    | none => simp only [quietDrift, hf] at h; cases h
    | some F => simp only [quietDrift, hf] at h; cases h; rfl

theorem keeps_quietDrift? : ∀ f : Option (Drift d N K), Keeps (quietDrift? f : EDrift d N ρ K)
  | none => ⟨fun _ _ _ _ _ _ h => (nomatch h), fun _ _ _ _ _ h => (nomatch h)⟩
  | some f => keeps_quietDrift f

theorem watched_ok {σ α : Type} {m : σ → Except PyErr σ} {x : RandM ρ α} {w w' : ρ × σ} {a : α}
    (h : watched m x w = .ok (a, w')) : ∃ r r', x r = .ok (a, r') := by
  unfold watched at h
  split at h
  · cases h
  · split at h
    · cases h
    · rename_i e
      cases h
      exact ⟨_, _, e⟩

theorem keeps_watch {σ : Type} (m : Call d N K → σ → Except PyErr σ) (c : ECfg d N M ρ K) :
    (Keeps c.f → Keeps (watch m c).f) ∧ (Keeps c.fTrue → Keeps (watch m c).fTrue) := by
  refine ⟨fun hk => ⟨fun x t r v x' r' h => ?_, fun x r v x' r' h => ?_⟩,
    fun hk => ⟨fun x t r v x' r' h => ?_, fun x r v x' r' h => ?_⟩⟩
  all_goals obtain ⟨s, s', h⟩ := watched_ok h
  exacts [hk.1 _ _ _ _ _ _ h, hk.2 _ _ _ _ _ h, hk.1 _ _ _ _ _ _ h, hk.2 _ _ _ _ _ h]

end

/-! ### The hypotheses are met -/

/-- A run with reweighting in Brownian-bridge mode: 3 coordinates, 5 particles, 4 inducing points, 101 grid points.
A successful run makes 399 calls. -/
theorem exE (r : ℕ) : ∃ o r', eConstruct exEnv (quiet (exCfg 3 5 4 100 true true true)) r = .ok (o, r') ∧
    (scheduleDet true true (mkGrid (exCfg 3 5 4 100 true true true).t1 (exCfg 3 5 4 100 true true true).t2)).length = 399 := by
  obtain ⟨o, r', h, -⟩ := ex_det 3 5 4 100 true true (by omega) (by omega) r
  refine ⟨arrays o, r', ?_, ?_⟩
  · rw [C96_plain_callables, h]; rfl
  · rw [(C96_number_of_calls 0 true true _ (by rw [exCfg_grid]; omega)).1, exCfg_grid]; rfl

/-- Aborted in the seventh call it raises what the callable has raised (here a TypeError); a watcher that would abort
call number 400 never gets to do so. -/
example (r : ℕ) : ∃ o r', eConstruct (besides Nat exEnv) (watch (interrupt 6 .typeError)
      (quiet (exCfg 3 5 4 100 true true true))) (r, 0) = .error .typeError ∧
    eConstruct (besides Nat exEnv) (watch (interrupt 399 .typeError)
      (quiet (exCfg 3 5 4 100 true true true))) (r, 0) = .ok (o, (r', 399)) := by
  obtain ⟨o, r', h, hn⟩ := exE r
  have h1 := (C96_interrupted exEnv (quiet (exCfg 3 5 4 100 true true true)) 6 .typeError r r' o h).1
  have h2 := (C96_interrupted exEnv (quiet (exCfg 3 5 4 100 true true true)) 399 .typeError r r' o h).2
  have e : (if (quiet (ρ := ℕ) (exCfg 3 5 4 100 true true true)).deterministic then
      scheduleDet (quiet (ρ := ℕ) (exCfg 3 5 4 100 true true true)).reweight
        (quiet (ρ := ℕ) (exCfg 3 5 4 100 true true true)).brownBridge
        (mkGrid (quiet (ρ := ℕ) (exCfg 3 5 4 100 true true true)).t1 (quiet (ρ := ℕ) (exCfg 3 5 4 100 true true true)).t2)
      else scheduleStoch 5 (quiet (ρ := ℕ) (exCfg 3 5 4 100 true true true)).reweight
        (mkGrid (quiet (ρ := ℕ) (exCfg 3 5 4 100 true true true)).t1
          (quiet (ρ := ℕ) (exCfg 3 5 4 100 true true true)).t2)).length = 399 := hn
  simp only [e] at h1 h2
  exact ⟨o, r', h1 (by omega), h2 (by omega)⟩

/-- The call arguments of the same run; the callables here are stateful (they count their calls). -/
example (r : ℕ) : let c := watch (interrupt 399 .typeError) (quiet (ρ := ℕ) (exCfg 3 5 4 100 true true true))
    ∃ o r', eConstruct (besides Nat exEnv) c (r, 0) = .ok (o, r') ∧
    ∃ raw, raw.length = 100 ∧ MakesCalls (eConstruct (besides Nat exEnv) c)
      (fun σ h => eConstruct (besides σ (besides Nat exEnv)) (watch h c)) (r, 0)
      (callsDet true (mkGrid (exCfg 3 5 4 100 true true true).t1 (exCfg 3 5 4 100 true true true).t2) o.Z raw o.Ztr o.B) := by
  intro c
  obtain ⟨o, r', h, hn⟩ := exE r
  have h2 := (C96_interrupted exEnv (quiet (exCfg 3 5 4 100 true true true)) 399 .typeError r r' o h).2 (le_of_eq hn)
  obtain ⟨raw, hl, hm, -⟩ := C96_arguments_deterministic (besides Nat exEnv) c rfl
    ((keeps_watch _ _).1 (keeps_quietDrift _)) ((keeps_watch _ _).2 (keeps_quietDrift? (exCfg 3 5 4 100 true true true).fTrue)) _ _ _ h2
  refine ⟨o, _, h2, raw, ?_, hm⟩
  rw [hl]
  exact congrArg (· - 1) (exCfg_grid 3 5 4 100 true true true)

/-- Stochastic runs, numpy and torch, and a deterministic run of the torch class: 5 particles, 101 grid points; 599 and
199 calls. -/
example (r : ℕ) :
    (∃ o r', eConstruct exEnv (quiet (exCfg 3 5 4 100 false false true)) r = .ok (o, r')) ∧
    (∃ o r', eTorchConstruct exEnv (quiet (exFanS 3 5 4 100)) r = .ok (o, r')) ∧
    (∃ o r', eTorchConstruct exEnv (quiet (exFan 3 5 4 100)) r = .ok (o, r')) ∧
    (∀ grid : List ℝ, grid.length = 101 → (scheduleStoch 5 false grid).length = 599 ∧
      (scheduleTorchStoch false grid).length = 199 ∧ (scheduleDet false false grid).length = 199) := by
  refine ⟨?_, ?_, ?_, fun grid h => ?_⟩
  · obtain ⟨o, r', h, -⟩ := ex_stoch 3 5 4 100 true (by omega) (by omega) (by omega) r
    exact ⟨arrays o, r', by rw [C96_plain_callables, h]; rfl⟩
  · obtain ⟨o, r', h, -⟩ := ex_torch_stoch exEnv 3 5 4 100 (by omega) (by omega) (by omega) r
    exact ⟨arrays o, r', by rw [C96_torch_plain_callables, h]; rfl⟩
  · obtain ⟨o, r', h, -⟩ := ex_torch 3 5 4 100 (by omega) (by omega) (by omega) r
    exact ⟨arrays o, r', by rw [C96_torch_plain_callables, h]; rfl⟩
  · have h0 := C96_number_of_calls 5 false false grid (by omega)
    simp only [h] at h0
    exact ⟨h0.2.1, h0.2.2, h0.1⟩

end DPFC
