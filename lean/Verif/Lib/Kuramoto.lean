import Verif.Model.Kuramoto
import Verif.Lib.Flow

/-! The constructor of the phase-oscillator class as chains of steps, for any arithmetic. -/

namespace DPFC
section
variable {K ρ : Type} {N M d : Nat}

/-- Forward loop in a store that may be longer than the grid. -/
theorem enumLoop_chain_le {S : Type} (body : Nat → K → List S → RandM ρ (List S))
    (step : Nat → K → S → RandM ρ S)
    (hbody : ∀ ti tt (Z : List S) (x : S), 1 ≤ ti → ti < Z.length → Z[ti-1]? = some x →
      body ti tt Z = (do let y ← step ti tt x; pure (Z.set ti y))) :
    ∀ (ts : List K) (ti : Nat) (Z : List S) (x : S), 1 ≤ ti → ti + ts.length ≤ Z.length →
      Z[ti-1]? = some x →
      enumLoop body ti ts Z = (do
        let ys ← chain step ti ts x
        pure (Z.take ti ++ ys ++ Z.drop (ti + ts.length))) := by
  intro ts
  induction ts with
  | nil =>
    intro ti Z x h1 hl hx
    simp [enumLoop, chain]
  | cons tt ts ih =>
    intro ti Z x h1 hl hx
    simp only [List.length_cons] at hl
    simp only [enumLoop, chain, hbody ti tt Z x h1 (by omega) hx, bind_assoc, pure_bind]
    congr 1; funext y
    rw [ih (ti+1) (Z.set ti y) y (by omega) (by simp; omega)
      (by simp [show ti < Z.length by omega])]
    congr 1; funext ys
    congr 1
    rw [List.take_add_one, List.getElem?_set, List.take_set_of_le (Nat.le_refl _),
      List.drop_set_of_lt (by omega)]
    simp [show ti < Z.length by omega, show ti + 1 + ts.length = ti + (ts.length + 1) by omega]

/-- Backward loop in a store that may be longer than the grid. -/
theorem enumLoop_chain_rev_le {S τ : Type} (body : Nat → K → List S → RandM ρ (List S))
    (step : Nat → τ → S → RandM ρ S) (k : Nat) (τs : List τ)
    (hbody : ∀ ti tt (B : List S) (x : S) (u : τ), 1 ≤ ti → ti < k → k ≤ B.length →
      B[k-ti]? = some x → τs[ti-1]? = some u →
      body ti tt B = (do let y ← step ti u x; pure (B.set (k-ti-1) y))) :
    ∀ (us : List τ) (ts : List K) (ti : Nat) (B : List S) (x : S), 1 ≤ ti →
      us = τs.drop (ti-1) → ts.length = us.length → ti + us.length < k →
      k ≤ B.length → B[k-ti]? = some x →
      enumLoop body ti ts B = (do
        let ys ← chain step ti us x
        pure (B.take (k-ti-us.length) ++ ys.reverse ++ B.drop (k-ti))) := by
  intro us
  induction us with
  | nil =>
    intro ts ti B x h1 hu hts hl hB hx
    have : ts = [] := List.length_eq_zero_iff.1 hts
    subst this
    simp [enumLoop, chain]
  | cons u us ih =>
    intro ts ti B x h1 hu hts hl hB hx
    obtain ⟨tt, ts, rfl⟩ : ∃ tt ts', ts = tt :: ts' := by
      cases ts with
      | nil => simp at hts
      | cons a b => exact ⟨a, b, rfl⟩
    simp only [List.length_cons] at hts hl
    have hu0 : τs[ti-1]? = some u := by
      have := congrArg (·[0]?) hu
      simpa using this.symm
    have hu1 : us = τs.drop (ti+1-1) := by
      have := congrArg List.tail hu
      simpa [show ti - 1 + 1 = ti by omega] using this
    simp only [enumLoop, chain, hbody ti tt B x u h1 (by omega) hB hx hu0, bind_assoc, pure_bind]
    congr 1; funext y
    rw [ih ts (ti+1) (B.set (k-ti-1) y) y (by omega) hu1 (by omega) (by omega) (by simpa using hB)
      (by rw [List.getElem?_set]; simp [show k - (ti+1) = k - ti - 1 by omega]; omega)]
    congr 1; funext ys
    congr 1
    have e1 : k - (ti+1) - us.length = k - ti - (us.length+1) := by omega
    simp only [List.length_cons, List.reverse_cons, e1]
    rw [List.take_set_of_le (by omega)]
    have e2 : (B.set (k-ti-1) y).drop (k-(ti+1)) = y :: B.drop (k-ti) := by
      rw [show k-(ti+1) = k-ti-1 by omega, List.drop_eq_getElem_cons (by simp; omega)]
      simp [List.drop_set, show k - ti - 1 + 1 = k - ti by omega]
      omega
    rw [e2]
    simp

theorem copyRows_aux (z : Mat d N K) (Z : Traj d N K) (hz : pyGet Z (-1) = .ok z) (j : Nat) :
    ∀ (m : Nat) (e : Fin m → Fin d) (B : Traj d N K), pyIdx B.length (-1) = .ok j →
    forFin m (fun i B => do
        let z ← pyGet Z (-1)
        let j ← pyIdx B.length (-1)
        .ok (B.modify j fun S a n => if a = e i then z a n else S a n)) B
      = (.ok (B.modify j fun S a n => if ∃ i, e i = a then z a n else S a n) : Except PyErr (Traj d N K)) := by
  intro m
  induction m with
  | zero =>
    intro e B hj
    simp only [forFin, Except.pure_eq]
    congr 1
    rw [show (fun (S : Mat d N K) a n => if ∃ i, e i = a then z a n else S a n) = id by
      funext S a n; simp, List.modify_id]
  | succ m ih =>
    intro e B hj
    simp only [forFin, hz, hj, Except.ok_bind']
    have := ih (fun i => e i.succ) (B.modify j fun S a n => if a = e 0 then z a n else S a n) (by simpa using hj)
    simp only [hz, Except.ok_bind'] at this
    rw [this]
    congr 1
    rw [List.modify_modify_eq]
    congr 1
    funext S a n
    simp only [Function.comp_apply, Fin.exists_fin_succ]
    by_cases h1 : ∃ i : Fin m, e i.succ = a
    · rw [if_pos h1, if_pos (Or.inr h1)]
    · rw [if_neg h1]
      by_cases h2 : a = e 0
      · rw [if_pos h2, if_pos (Or.inl h2.symm)]
      · rw [if_neg h2, if_neg]
        rintro (h | h)
        · exact h2 h.symm
        · exact h1 h

theorem copyLast_ok (Z B : Traj d N K) (z : Mat d N K) (hz : Z.getLast? = some z) (hB : 0 < B.length) :
    copyLast Z B = .ok (B.set (B.length - 1) z) := by
  have hl : 0 < Z.length := by
    rcases Z with _ | ⟨a, Z⟩
    · simp at hz
    · simp
  have hg : pyGet Z (-1) = .ok z := by
    rw [pyGet, pyIdx_neg_one hl]
    rw [List.getLast?_eq_getElem?] at hz
    simp [hz]
  have hj := pyIdx_neg_one hB
  have := copyRows_aux z Z hg _ d id B hj
  simp only [id] at this
  unfold copyLast
  rw [this]
  congr 1
  rw [show (fun (S : Mat d N K) a n => if ∃ i, i = a then z a n else S a n) = fun _ => z by
      funext S a n; simp]
  apply List.ext_getElem?
  intro i
  rw [List.getElem?_modify, List.getElem?_set]
  by_cases h : B.length - 1 = i
  · subst h; simp [show B.length - 1 < B.length by omega]
  · simp [h]

/-- The forward slices and times visited by the backward simulation: slice `j` with time `j+1`. -/
def phaseVisits (Z : Traj d N K) (grid : List K) : List (Mat d N K × K) :=
  ((Z.drop 1).zip (grid.drop 2)).reverse

theorem phaseVisits_length (Z : Traj d N K) (grid : List K) (hZ : grid.length ≤ Z.length) :
    (phaseVisits Z grid).length = grid.length - 2 := by
  simp [phaseVisits]; omega

theorem phaseVisits_get (Z : Traj d N K) (grid : List K) (hZ : grid.length ≤ Z.length) {j : Nat}
    {u : Mat d N K × K} (hu : (phaseVisits Z grid)[j]? = some u) :
    Z[grid.length - 2 - j]? = some u.1 ∧ grid[grid.length - 1 - j]? = some u.2 := by
  have hti : j < (phaseVisits Z grid).length := by
    rw [List.getElem?_eq_some_iff] at hu; exact hu.1
  have hlen := phaseVisits_length Z grid hZ
  unfold phaseVisits at hu hti
  rw [List.getElem?_reverse (by simpa using hti), List.getElem?_zip_eq_some, List.getElem?_drop,
    List.getElem?_drop] at hu
  have e : ((Z.drop 1).zip (grid.drop 2)).length = grid.length - 2 := by simpa [phaseVisits] using hlen
  have hj : j < grid.length - 2 := by rw [← hlen]; simpa [phaseVisits] using hti
  rw [e] at hu
  rw [show 1 + (grid.length - 2 - 1 - j) = grid.length - 2 - j by omega,
    show 2 + (grid.length - 2 - 1 - j) = grid.length - 1 - j by omega] at hu
  exact hu

end

section
variable {K ρ : Type} [Add K] [Sub K] [Mul K] [Div K] [Neg K] [NumOps K] [PhaseOps K]
variable {N M d n : Nat}

/-- One new slice of the forward flow. -/
def phaseSlice (env : Env ρ K) (M : Nat) (c : PhaseCfg d N K) (ti : Nat) (tt : K) (x : Mat d N K) :
    RandM ρ (Mat d N K) := do
  let raw ← if ti = 1 then phaseNoisy env c x (tt - c.dt) else phaseFlow env M c x (tt - c.dt)
  if c.reweight then (liftM (phaseReweight env c.U raw) : RandM ρ (Mat d N K)) else pure raw

theorem phaseFwdBody_succ (env : Env ρ K) (c : PhaseCfg d N K) (ti : Nat) (tt : K) (Z : Traj d N K)
    (x : Mat d N K) (h1 : 1 ≤ ti) (hl : ti < Z.length) (hx : Z[ti-1]? = some x) :
    phaseFwdBody env M c ti tt Z = (do let y ← phaseSlice env M c ti tt x; pure (Z.set ti y)) := by
  obtain ⟨hg, hg2⟩ := slice_access h1 hl hx
  have hs : ∀ y : Mat d N K, setSlice Z (ti : Int) y = .ok (Z.set ti y) :=
    fun y => setSlice_nat _ hl _
  have hs2 : ∀ y w : Mat d N K, setSlice (Z.set ti w) (ti : Int) y = .ok (Z.set ti y) := by
    intro y w
    rw [setSlice_nat _ (by simpa using hl), List.set_set]
  have h0 : ¬ ti = 0 := by omega
  have hp : decide (0 < ti) = true := decide_eq_true (by omega)
  unfold phaseFwdBody phaseSlice
  by_cases hi : ti = 1
  · simp only [if_neg h0, if_pos hi, hp, hg, hs, Bool.and_true, RandM.liftM_ok, pure_bind, bind_assoc]
    congr 1; funext y
    by_cases hr : c.reweight = true
    · simp only [if_pos hr, hg2, hs2, RandM.liftM_ok, pure_bind]
    · simp only [if_neg hr, pure_bind]
  · simp only [if_neg h0, if_neg hi, hp, hg, hs, Bool.and_true, RandM.liftM_ok, pure_bind, bind_assoc]
    congr 1; funext y
    by_cases hr : c.reweight = true
    · simp only [if_pos hr, hg2, hs2, RandM.liftM_ok, pure_bind]
    · simp only [if_neg hr, pure_bind]

theorem phaseFwdBody_zero (env : Env ρ K) (c : PhaseCfg d N K) (tt : K) (Z : Traj d N K) (h0 : 0 < Z.length) :
    phaseFwdBody env M c 0 tt Z = (do let y ← mvNormal env c.y1 c.g N; pure (Z.set 0 y)) := by
  have hs : ∀ y : Mat d N K, setSlice Z 0 y = .ok (Z.set 0 y) := fun y => by
    simpa using setSlice_nat Z h0 y
  unfold phaseFwdBody
  simp only [if_true, Nat.lt_irrefl, decide_false, Bool.and_false, Bool.false_eq_true, if_false, bind_pure, hs,
    RandM.liftM_ok]

/-- The forward flow in a store of at least the grid size. -/
theorem phaseForward_eq (env : Env ρ K) (c : PhaseCfg d N K) (t0 : K) (ts : List K) (Z0 : Traj d N K)
    (h : ts.length + 1 ≤ Z0.length) :
    phaseForward env M c (t0 :: ts) Z0 = (do
      let y ← mvNormal env c.y1 c.g N
      let ys ← chain (phaseSlice env M c) 1 ts y
      pure (y :: ys ++ Z0.drop (ts.length + 1))) := by
  unfold phaseForward
  rw [enumLoop, phaseFwdBody_zero _ _ _ _ (by omega), bind_assoc]
  congr 1; funext y
  rw [pure_bind, enumLoop_chain_le (phaseFwdBody env M c) (phaseSlice env M c) (phaseFwdBody_succ env c) ts 1 _ y
    le_rfl (by simp; omega) (by simp [show 0 < Z0.length by omega])]
  congr 1; funext ys
  congr 1
  obtain ⟨a, Z, rfl⟩ : ∃ a Z, Z0 = a :: Z := by
    match Z0, h with
    | a :: Z, _ => exact ⟨a, Z, rfl⟩
  simp [Nat.add_comm 1]

/-- `density_estimation` on given slices. -/
def phaseDensityAt (env : Env ρ K) (M : Nat) (kern : String) (z b : Mat d N K) : RandM ρ (Mat d N K) := do
  let bnds ← (interBox z b : Except PyErr (Fin d → K × K))
  let Sxx ← npInducing env bnds M
  let s ← (scoreAllFn (tr z) (tr Sxx) (lit 1 1000) kern (.vec (lengthScales z)) (tr b) : Except PyErr (Mat N d K))
  pure (tr s)

/-- `bw_density_estimation` on given slices. -/
def phaseBwDensityAt (env : Env ρ K) (M : Nat) (kern : String) (z b : Mat d N K) : RandM ρ (Mat d N K) := do
  let bnds ← (interBox z b : Except PyErr (Fin d → K × K))
  let Sxx ← npInducing env bnds M
  let s ← (scoreAll (tr b) (tr Sxx) (lit 1 1000) kern (.vec (lengthScales b)) : Except PyErr (Mat N d K))
  pure (tr s)

/-- One backward step from `b` at time `t` with the forward slice `z` of the previous index. -/
def phaseBackStep (env : Env ρ K) (M : Nat) (c : PhaseCfg d N K) (ti : Nat) (zt : Mat d N K × K) (b : Mat d N K) :
    RandM ρ (Mat d N K) := do
  let gro ← phaseDensityAt env M c.kern zt.1 b
  if ti = 1 then do
    let xi ← normalMat env (NumOps.sqrt c.dt) d N
    pure (wrapM fun i n => b i n - c.f b zt.2 i n * c.dt + c.dt * sq c.g * gro i n + c.g * xi i n)
  else do
    let grb ← phaseBwDensityAt env M c.kern zt.1 b
    pure (wrapM fun i n => b i n - (c.f b zt.2 i n - sq c.g * gro i n + lit 1 2 * sq c.g * grb i n) * c.dt)

theorem phaseBackBody_succ (env : Env ρ K) (c : PhaseCfg d N K) (grid : List K) (Z : Traj d N K)
    (hZ : grid.length ≤ Z.length) (ti : Nat) (tt : K) (B : Traj d N K) (x : Mat d N K) (u : Mat d N K × K)
    (h1 : 1 ≤ ti) (hk : ti < grid.length) (hB : grid.length ≤ B.length)
    (hx : B[grid.length - ti]? = some x) (hu : (phaseVisits Z grid)[ti-1]? = some u) :
    phaseBackBody env M c grid Z ti tt B
      = (do let y ← phaseBackStep env M c ti u x; pure (B.set (grid.length - ti - 1) y)) := by
  obtain ⟨hz, ht⟩ := phaseVisits_get Z grid hZ hu
  have ez : pyGet Z ((grid.length : Int) - ti - 1) = .ok u.1 := by
    have hti : ti - 1 < grid.length - 2 := by
      rw [← phaseVisits_length Z grid hZ]
      rw [List.getElem?_eq_some_iff] at hu; exact hu.1
    rw [show (grid.length : Int) - ti - 1 = ((grid.length - 2 - (ti - 1) : Nat) : Int) by omega]
    exact pyGet_of_getElem? hz
  have et : pyGet grid ((grid.length : Int) - ti) = .ok u.2 := by
    rw [show (grid.length : Int) - ti = ((grid.length - 1 - (ti - 1) : Nat) : Int) by omega]
    exact pyGet_of_getElem? ht
  have eb : pyGet B ((grid.length : Int) - ti) = .ok x := by
    rw [show (grid.length : Int) - ti = ((grid.length - ti : Nat) : Int) by omega]
    exact pyGet_of_getElem? hx
  have es : ∀ S : Mat d N K, setSlice B ((grid.length : Int) - ti - 1) S
      = .ok (B.set (grid.length - ti - 1) S) := by
    intro S
    rw [show (grid.length : Int) - ti - 1 = ((grid.length - ti - 1 : Nat) : Int) by omega]
    exact setSlice_nat _ (by omega) _
  unfold phaseBackBody phaseBackStep phaseDensity phaseBwDensity phaseDensityAt phaseBwDensityAt
  simp only [if_neg (show ¬ ti = 0 by omega), ez, et, eb, es, RandM.liftM_ok, pure_bind, bind_assoc]
  congr 1; funext bn
  congr 1; funext sx
  congr 1; funext s
  by_cases hc : ti = 1
  · simp only [if_pos hc, bind_assoc, pure_bind]
  · simp only [if_neg hc, bind_assoc, pure_bind]

/-- The slice the backward simulation starts from: the last forward slice if the store has the grid size, else
whatever is stored at the last grid index. -/
theorem phaseBackward_eq (env : Env ρ K) (c : PhaseCfg d N K) (grid : List K) (Z B : Traj d N K) (z b : Mat d N K)
    (h2 : 2 ≤ grid.length) (hZ : grid.length ≤ Z.length) (hB : grid.length ≤ B.length)
    (hz : Z.getLast? = some z)
    (hb : (B.set (B.length - 1) z)[grid.length - 1]? = some b) :
    phaseBackward env M c grid Z B = (do
      let ys ← chain (phaseBackStep env M c) 1 (phaseVisits Z grid) b
      pure (pt N c.y1 :: (ys.reverse ++ (B.set (B.length - 1) z).drop (grid.length - 1)))) := by
  obtain ⟨t0, t1, ts, rfl⟩ : ∃ t0 t1 ts, grid = t0 :: t1 :: ts := by
    match grid, h2 with
    | a :: b :: l, _ => exact ⟨a, b, l, rfl⟩
  have hk : (t0 :: t1 :: ts).length = ts.length + 2 := rfl
  have hv : (phaseVisits Z (t0 :: t1 :: ts)).length = ts.length := by
    rw [phaseVisits_length _ _ hZ, hk]; omega
  have hz0 : phaseBackBody env M c (t0 :: t1 :: ts) Z 0 t0 B = pure (B.set (B.length - 1) z) := by
    unfold phaseBackBody
    rw [if_pos rfl, copyLast_ok Z B z hz (by omega), RandM.liftM_ok]
  unfold phaseBackward
  rw [List.dropLast_cons_cons, enumLoop, hz0, pure_bind,
    enumLoop_chain_rev_le (phaseBackBody env M c (t0 :: t1 :: ts) Z)
      (phaseBackStep env M c) (t0 :: t1 :: ts).length (phaseVisits Z (t0 :: t1 :: ts))
      (fun ti tt B x u h1 hk hB hx hu =>
        phaseBackBody_succ env c (t0 :: t1 :: ts) Z hZ ti tt B x u h1 hk hB hx hu)
      (phaseVisits Z (t0 :: t1 :: ts)) (t1 :: ts).dropLast 1 _ b (by omega) rfl
      (by simp [hv]) (by rw [hv, hk]; omega) (by simpa using hB) hb]
  simp only [bind_assoc, pure_bind]
  congr 1; funext ys
  rw [hv, hk, show ts.length + 2 - 1 - ts.length = 1 by omega]
  obtain ⟨a, b', Bs, rfl⟩ : ∃ a b Bs, B = a :: b :: Bs := by
    match B, (show 2 ≤ B.length by omega) with
    | a :: b :: Z, _ => exact ⟨a, b, Z, rfl⟩
  rw [pinRows_ok _ _ 0 (pyIdx_zero (by simp)), RandM.liftM_ok]
  congr 1

/-- A construction that returns needs at least as many slices as grid points. -/
theorem phaseFwd_short (env : Env ρ K) (c : PhaseCfg d N K) : ∀ (ts : List K) (ti : Nat) (Z : Traj d N K)
    (r r' : ρ) (Z' : Traj d N K), enumLoop (phaseFwdBody env M c) ti ts Z r = .ok (Z', r') →
    ti + ts.length ≤ Z.length ∨ ts = [] := by
  have hset : ∀ (Z Z' : Traj d N K) (i : Int) (y : Mat d N K), setSlice Z i y = .ok Z' → Z'.length = Z.length := by
    intro Z Z' i y h
    unfold setSlice at h
    obtain ⟨j, _, h⟩ := Except.bind_ok.1 h
    cases h; simp
  have hseti : ∀ (Z Z' : Traj d N K) (i : ℕ) (y : Mat d N K), setSlice Z (i : Int) y = .ok Z' → i < Z.length := by
    intro Z Z' i y h
    unfold setSlice at h
    obtain ⟨j, hj, h⟩ := Except.bind_ok.1 h
    have h1 := pyIdx_ok_lt hj
    unfold pyIdx at hj
    rw [if_pos (by omega)] at hj
    split at hj
    · omega
    · cases hj
  have hbody : ∀ (ti : ℕ) (tt : K) (Z Z' : Traj d N K) (r r' : ρ), phaseFwdBody env M c ti tt Z r = .ok (Z', r') →
      Z'.length = Z.length ∧ ti < Z.length := by
    intro ti tt Z Z' r r' h
    have htail : ∀ (Z1 : Traj d N K) (r1 : ρ), (if (c.reweight && decide (0 < ti)) = true then (do
        let x ← (pyGet Z1 (ti : Int) : Except PyErr (Mat d N K))
        let y ← (phaseReweight env c.U x : Except PyErr (Mat d N K))
        (setSlice Z1 ti y : Except PyErr (Traj d N K)) : RandM ρ (Traj d N K)) else pure Z1) r1 = .ok (Z', r') →
        Z'.length = Z1.length := by
      intro Z1 r1 h
      split at h
      · obtain ⟨x, r2, _, h⟩ := RandM.bind_ok.1 h
        obtain ⟨y, r2, _, h⟩ := RandM.bind_ok.1 h
        exact hset _ _ _ _ (RandM.lift_ok.1 h).1
      · obtain ⟨rfl, _⟩ := RandM.pure_ok.1 h; rfl
    unfold phaseFwdBody at h
    simp only at h
    split at h
    · rename_i h0
      obtain ⟨y, r2, _, h⟩ := RandM.bind_ok.1 h
      obtain ⟨Z1, r1, h1, h⟩ := RandM.bind_ok.1 h
      have h1 := (RandM.lift_ok.1 h1).1
      exact ⟨(htail _ _ h).trans (hset _ _ _ _ h1), by rw [h0]; exact hseti _ _ _ _ h1⟩
    · split at h <;>
      · obtain ⟨x, r2, _, h⟩ := RandM.bind_ok.1 h
        obtain ⟨y, r2, _, h⟩ := RandM.bind_ok.1 h
        obtain ⟨Z1, r1, h1, h⟩ := RandM.bind_ok.1 h
        have h1 := (RandM.lift_ok.1 h1).1
        exact ⟨(htail _ _ h).trans (hset _ _ _ _ h1), hseti _ _ _ _ h1⟩
  intro ts
  induction ts with
  | nil => intro _ _ _ _ _ _; exact .inr rfl
  | cons t ts ih =>
    intro ti Z r r' Z' h
    rw [enumLoop] at h
    obtain ⟨Z1, r1, h1, h⟩ := RandM.bind_ok.1 h
    obtain ⟨hl, hlt⟩ := hbody _ _ _ _ _ _ h1
    left
    rcases ih _ _ _ _ _ h with h | rfl
    · rw [hl] at h; rw [List.length_cons]; omega
    · simp; omega

theorem zerosT_drop (d N k j : Nat) : (zerosT d N k : Traj d N K).drop j = zerosT d N (k - j) := by
  simp [zerosT]

/-- A returning construction on a grid of at least two points, step by step. -/
theorem phaseConstruct_ok {env : Env ρ K} {c : PhaseCfg d N K} {r r' : ρ} {o : PhaseObj d N K}
    (h : phaseConstruct env M c r = .ok (o, r')) (h2 : 2 ≤ (phaseGrid c.t1 c.t2 c.dt).length) :
    (phaseGrid c.t1 c.t2 c.dt).length ≤ c.k ∧
    ∃ y r0 ys r1 bs zl b, mvNormal env c.y1 c.g N r = .ok (y, r0) ∧
      chain (phaseSlice env M c) 1 (phaseGrid c.t1 c.t2 c.dt).tail y r0 = .ok (ys, r1) ∧
      o.cfg = c ∧ o.timegrid = phaseGrid c.t1 c.t2 c.dt ∧
      o.Z = y :: ys ++ zerosT d N (c.k - (phaseGrid c.t1 c.t2 c.dt).length) ∧
      o.Z.getLast? = some zl ∧
      ((zerosT d N c.k).set (c.k - 1) zl)[(phaseGrid c.t1 c.t2 c.dt).length - 1]? = some b ∧
      chain (phaseBackStep env M c) 1 (phaseVisits o.Z (phaseGrid c.t1 c.t2 c.dt)) b r1 = .ok (bs, r') ∧
      o.B = pt N c.y1 :: (bs.reverse ++
        ((zerosT d N c.k).set (c.k - 1) zl).drop ((phaseGrid c.t1 c.t2 c.dt).length - 1)) := by
  unfold phaseConstruct at h
  generalize hg : phaseGrid c.t1 c.t2 c.dt = grid at h h2 ⊢
  obtain ⟨t0, ts, rfl⟩ : ∃ t0 ts, grid = t0 :: ts := by
    match grid, h2 with
    | a :: l, _ => exact ⟨a, l, rfl⟩
  obtain ⟨Z, r1, hZ, h⟩ := RandM.bind_ok.1 h
  obtain ⟨B, r2, hB, h⟩ := RandM.bind_ok.1 h
  obtain ⟨rfl, rfl⟩ := RandM.pure_ok.1 h
  have hk : (t0 :: ts).length ≤ c.k := by
    rcases phaseFwd_short env c _ _ _ _ _ _ hZ with h | h
    · simpa [zerosT] using h
    · simp at h
  refine ⟨hk, ?_⟩
  rw [phaseForward_eq env c t0 ts _ (by simpa [zerosT] using hk)] at hZ
  obtain ⟨y, r0, hy, hZ⟩ := RandM.bind_ok.1 hZ
  obtain ⟨ys, r1', hys, hZ⟩ := RandM.bind_ok.1 hZ
  obtain ⟨rfl, rfl⟩ := RandM.pure_ok.1 hZ
  rw [zerosT_drop] at hB ⊢
  have hyl := chain_length hys
  have hZl : (y :: ys ++ zerosT d N (c.k - (ts.length + 1)) : Traj d N K).length = c.k := by
    rw [List.length_append, List.length_cons, hyl, zerosT_length]
    rw [List.length_cons] at hk; omega
  obtain ⟨zl, hzl⟩ : ∃ zl, (y :: ys ++ zerosT d N (c.k - (ts.length + 1)) : Traj d N K).getLast? = some zl := by
    exact ⟨_, List.getLast?_eq_some_getLast (by simp)⟩
  have hBl : ((zerosT d N c.k).set ((zerosT d N c.k : Traj d N K).length - 1) zl).length = c.k := by simp [zerosT]
  obtain ⟨b, hb⟩ : ∃ b, ((zerosT d N c.k).set ((zerosT d N c.k : Traj d N K).length - 1) zl)[(t0 :: ts).length - 1]? = some b := by
    rw [List.getElem?_eq_getElem (by rw [hBl]; omega)]; exact ⟨_, rfl⟩
  rw [phaseBackward_eq env c (t0 :: ts) _ _ zl b h2 (by rw [hZl]; exact hk) (by simpa [zerosT] using hk) hzl hb] at hB
  obtain ⟨bs, r3, hbs, hB⟩ := RandM.bind_ok.1 hB
  obtain ⟨rfl, rfl⟩ := RandM.pure_ok.1 hB
  rw [zerosT_length] at hb ⊢
  exact ⟨y, r0, ys, r1', bs, zl, b, hy, hys, rfl, rfl, rfl, hzl, hb, hbs, rfl⟩

/-- Conversely, successful chains give a returning construction. -/
theorem phaseConstruct_of {env : Env ρ K} {c : PhaseCfg d N K} {r r0 r1 r' : ρ} {y zl b : Mat d N K}
    {ys bs : Traj d N K} (h2 : 2 ≤ (phaseGrid c.t1 c.t2 c.dt).length) (hk : (phaseGrid c.t1 c.t2 c.dt).length ≤ c.k)
    (hy : mvNormal env c.y1 c.g N r = .ok (y, r0))
    (hys : chain (phaseSlice env M c) 1 (phaseGrid c.t1 c.t2 c.dt).tail y r0 = .ok (ys, r1))
    (hzl : (y :: ys ++ zerosT d N (c.k - (phaseGrid c.t1 c.t2 c.dt).length)).getLast? = some zl)
    (hb : ((zerosT d N c.k).set (c.k - 1) zl)[(phaseGrid c.t1 c.t2 c.dt).length - 1]? = some b)
    (hbs : chain (phaseBackStep env M c) 1 (phaseVisits
      (y :: ys ++ zerosT d N (c.k - (phaseGrid c.t1 c.t2 c.dt).length)) (phaseGrid c.t1 c.t2 c.dt)) b r1 = .ok (bs, r')) :
    phaseConstruct env M c r = .ok (⟨c, phaseGrid c.t1 c.t2 c.dt,
      y :: ys ++ zerosT d N (c.k - (phaseGrid c.t1 c.t2 c.dt).length), pt N c.y1 :: (bs.reverse ++
        ((zerosT d N c.k).set (c.k - 1) zl).drop ((phaseGrid c.t1 c.t2 c.dt).length - 1))⟩, r') := by
  unfold phaseConstruct
  generalize hg : phaseGrid c.t1 c.t2 c.dt = grid at h2 hk hys hbs hzl hb ⊢
  obtain ⟨t0, ts, rfl⟩ : ∃ t0 ts, grid = t0 :: ts := by
    match grid, h2 with
    | a :: l, _ => exact ⟨a, l, rfl⟩
  have hyl := chain_length hys
  rw [List.tail_cons] at hyl
  have hk' : ts.length + 1 ≤ c.k := hk
  refine RandM.bind_ok.2 ⟨_, r1, ?_, RandM.bind_ok.2 ⟨_, r', ?_, rfl⟩⟩
  · rw [phaseForward_eq env c t0 ts _ (by simpa [zerosT] using hk')]
    refine RandM.bind_ok.2 ⟨y, r0, hy, RandM.bind_ok.2 ⟨ys, r1, hys, ?_⟩⟩
    rw [zerosT_drop]
    rfl
  · rw [phaseBackward_eq env c (t0 :: ts) _ _ zl b h2 (by
      rw [List.length_append, List.length_cons, List.length_cons, hyl, zerosT_length]; omega)
      (by simpa [zerosT] using hk') hzl (by rw [zerosT_length]; exact hb)]
    refine RandM.bind_ok.2 ⟨bs, r', hbs, ?_⟩
    rw [zerosT_length]
    rfl

theorem chain_forall {τ S : Type} {step : Nat → τ → S → RandM ρ S} {P : S → Prop}
    (hP : ∀ i t x y r r', step i t x r = .ok (y, r') → P y) :
    ∀ {ts : List τ} {ti : Nat} {x : S} {r r' : ρ} {ys : List S}, chain step ti ts x r = .ok (ys, r') → ∀ y ∈ ys, P y
  | [], ti, x, r, r', ys, h => by
    simp only [chain, RandM.pure_ok] at h
    simp [← h.1]
  | t :: ts, ti, x, r, r', ys, h => by
    simp only [chain, RandM.bind_ok, RandM.pure_ok] at h
    obtain ⟨y, r1, h1, zs, r2, h2, rfl, _⟩ := h
    intro w hw
    rcases List.mem_cons.1 hw with rfl | hw
    · exact hP _ _ _ _ _ _ h1
    · exact chain_forall hP h2 w hw

end
end DPFC
