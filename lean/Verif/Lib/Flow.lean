import Verif.Lib.Monad

/-! The time loops as chains of slices: equalities of computations (values, random states and
exceptions alike). -/

set_option linter.unusedSectionVars false
set_option linter.unusedSimpArgs false

namespace DPFC

/-- All particles at `y`. -/
def pt {d : Nat} (N : Nat) {K : Type} (y : Fin d → K) : Mat d N K := fun a _ => y a

/-- Run `step` along a list, feeding each result to the next step; collect the results. -/
def chain {ρ τ S : Type} (step : Nat → τ → S → RandM ρ S) : Nat → List τ → S → RandM ρ (List S)
  | _, [], _ => pure []
  | ti, t :: ts, x => do
    let y ← step ti t x
    let ys ← chain step (ti + 1) ts y
    pure (y :: ys)

section
variable {K ρ : Type} {N M d : Nat}

theorem forFin_setRow (T : Traj d N K) (t : Int) (j : Nat) (hj : pyIdx T.length t = .ok j)
    (y : Fin d → K) : ∀ (m : Nat) (e : Fin m → Fin d),
    forFin m (fun i T => setRow T ((e i).val : Int) t (y (e i))) T
      = .ok (T.modify j fun S a n => if ∃ i, e i = a then y a else S a n) := by
  intro m
  induction m generalizing T with
  | zero =>
    intro e
    simp only [forFin, Except.pure_eq]
    congr 1
    rw [show (fun (S : Mat d N K) a n => if ∃ i, e i = a then y a else S a n) = id by
      funext S a n; simp, List.modify_id]
  | succ m ih =>
    intro e
    have h0 : setRow T ((e 0).val : Int) t (y (e 0))
        = .ok (T.modify j fun S a n => if a.val = (e 0).val then y (e 0) else S a n) := by
      simp [setRow, pyIdx_nat _ (e 0).2, hj]
    simp only [forFin, h0, Except.ok_bind']
    rw [ih _ (by simpa using hj) (fun i => e i.succ)]
    congr 1
    rw [List.modify_modify_eq]
    congr 1
    funext S a n
    simp only [Function.comp_apply, Fin.exists_fin_succ, Fin.ext_iff]
    by_cases h1 : ∃ i : Fin m, (e i.succ).val = a.val
    · rw [if_pos h1, if_pos (Or.inr h1)]
    · rw [if_neg h1]
      by_cases h2 : a.val = (e 0).val
      · rw [if_pos h2, if_pos (Or.inl h2.symm)]
        congr 1; exact Fin.ext h2.symm
      · rw [if_neg h2, if_neg]
        rintro (h | h)
        · exact h2 h.symm
        · exact h1 h

theorem pinRows_ok (T : Traj d N K) (t : Int) (j : Nat) (hj : pyIdx T.length t = .ok j)
    (y : Fin d → K) : pinRows T t y = .ok (T.set j (pt N y)) := by
  unfold pinRows
  have := forFin_setRow T t j hj y d id
  simp only [id] at this
  rw [this]
  congr 1
  rw [show (fun (S : Mat d N K) a n => if ∃ i, i = a then y a else S a n) = fun _ => pt N y by
      funext S a n; simp [pt]]
  apply List.ext_getElem?
  intro i
  rw [List.getElem?_modify, List.getElem?_set]
  have hlt := pyIdx_ok_lt hj
  by_cases h : j = i
  · subst h; simp [hlt]
  · simp [h]

theorem pinRows_zero_dim (T : Traj 0 N K) (t : Int) (y : Fin 0 → K) : pinRows T t y = .ok T := rfl

theorem pinRows_err (T : Traj d N K) (t : Int) {e : PyErr} (hj : pyIdx T.length t = .error e)
    (y : Fin d → K) (hd : 0 < d) : pinRows T t y = .error e := by
  obtain ⟨d', rfl⟩ : ∃ d', d = d' + 1 := ⟨d - 1, by omega⟩
  unfold pinRows
  have : setRow T (0 : Int) t (y 0) = .error e := by
    simp [setRow, pyIdx_zero (Nat.succ_pos d'), hj]
  show (setRow T (0 : Int) t (y 0) >>= _) = _
  rw [this]; rfl

theorem setRow_mapIdx (T : Traj d N K) (r : Fin d) (t : Int) (j : Nat)
    (hj : pyIdx T.length t = .ok j) (v : K) :
    setRow T (r.val : Int) t v
      = .ok (T.mapIdx fun jj S a n => if jj = j ∧ a = r then v else S a n) := by
  simp only [setRow, pyIdx_nat _ r.2, hj, Except.ok_bind']
  congr 1
  apply List.ext_getElem?
  intro i
  rw [List.getElem?_modify, List.getElem?_mapIdx]
  by_cases h : j = i
  · subst h
    simp [Fin.ext_iff]
  · have h' : ¬ i = j := fun e => h e.symm
    simp only [h, h', false_and, if_false]
    rfl

theorem forFin_setRow2 (T : Traj d N K) (h0 : 0 < T.length) (y1 y2 : Fin d → K) :
    ∀ (m : Nat) (e : Fin m → Fin d),
    forFin m (fun i T => do
        let T ← setRow T ((e i).val : Int) 0 (y1 (e i))
        setRow T ((e i).val : Int) (-1) (y2 (e i))) T
      = .ok (T.mapIdx fun jj S a n => if ∃ i, e i = a then
          (if jj = T.length - 1 then y2 a else if jj = 0 then y1 a else S a n) else S a n) := by
  intro m
  induction m generalizing T with
  | zero =>
    intro e
    simp only [forFin, Except.pure_eq]
    congr 1
    apply List.ext_getElem?
    intro i
    simp
  | succ m ih =>
    intro e
    simp only [forFin]
    rw [setRow_mapIdx _ _ _ _ (pyIdx_zero h0), Except.ok_bind',
      setRow_mapIdx _ _ _ _ (pyIdx_neg_one (by simpa using h0)), Except.ok_bind',
      ih _ (by simpa using h0) (fun i => e i.succ)]
    congr 1
    simp only [List.mapIdx_mapIdx, List.length_mapIdx]
    congr 1
    funext jj S a n
    simp only [Function.comp_apply, Fin.exists_fin_succ]
    by_cases h1 : ∃ i : Fin m, e i.succ = a
    · simp only [if_pos h1, if_pos (Or.inr h1 : e 0 = a ∨ _)]
      by_cases h2 : jj = T.length - 1 <;> by_cases h3 : jj = 0 <;>
        by_cases h4 : a = e 0 <;> simp [h2, h3, h4]
    · by_cases h4 : a = e 0
      · subst h4
        rw [if_neg h1, if_pos (Or.inl rfl)]
        by_cases h2 : jj = T.length - 1 <;> by_cases h3 : jj = 0 <;> simp [h2, h3]
      · have h5 : ¬ (e 0 = a) := fun h => h4 h.symm
        simp [h1, h4, h5]

/-- Generic forward loop. -/
theorem enumLoop_chain {S : Type} (body : Nat → K → List S → RandM ρ (List S))
    (step : Nat → K → S → RandM ρ S)
    (hbody : ∀ ti tt (Z : List S) (x : S), 1 ≤ ti → ti < Z.length → Z[ti-1]? = some x →
      body ti tt Z = (do let y ← step ti tt x; pure (Z.set ti y))) :
    ∀ (ts : List K) (ti : Nat) (Z : List S) (x : S), 1 ≤ ti → Z.length = ti + ts.length →
      Z[ti-1]? = some x →
      enumLoop body ti ts Z = (do let ys ← chain step ti ts x; pure (Z.take ti ++ ys)) := by
  intro ts
  induction ts with
  | nil =>
    intro ti Z x h1 hl hx
    simp only [enumLoop, chain, pure_bind, List.append_nil]
    rw [List.take_of_length_le (by simpa using hl.le)]
  | cons tt ts ih =>
    intro ti Z x h1 hl hx
    simp only [List.length_cons] at hl
    simp only [enumLoop, chain, hbody ti tt Z x h1 (by omega) hx, bind_assoc, pure_bind]
    congr 1; funext y
    rw [ih (ti+1) (Z.set ti y) y (by omega) (by simp; omega)
      (by simp [show ti < Z.length by omega])]
    congr 1; funext ys
    congr 1
    rw [List.take_add_one, List.getElem?_set, List.take_set_of_le (Nat.le_refl _)]
    simp [show ti < Z.length by omega]

/-- Generic backward loop. -/
theorem enumLoop_chain_rev {S τ : Type} (body : Nat → K → List S → RandM ρ (List S))
    (step : Nat → τ → S → RandM ρ S) (k : Nat) (τs : List τ)
    (hbody : ∀ ti tt (B : List S) (x : S) (u : τ), 1 ≤ ti → ti < k → B.length = k →
      B[k-ti]? = some x → τs[ti-1]? = some u →
      body ti tt B = (do let y ← step ti u x; pure (B.set (k-ti-1) y))) :
    ∀ (us : List τ) (ts : List K) (ti : Nat) (B : List S) (x : S), 1 ≤ ti →
      us = τs.drop (ti-1) → ts.length = us.length → ti + us.length < k →
      B.length = k → B[k-ti]? = some x →
      enumLoop body ti ts B = (do
        let ys ← chain step ti us x
        pure (B.take (k-ti-us.length) ++ ys.reverse ++ B.drop (k-ti))) := by
  intro us
  induction us with
  | nil =>
    intro ts ti B x h1 hu hts hl hB hx
    have : ts = [] := List.length_eq_zero_iff.1 hts
    subst this
    simp [enumLoop, chain]
  | cons u us ih =>
    intro ts ti B x h1 hu hts hl hB hx
    obtain ⟨tt, ts, rfl⟩ : ∃ tt ts', ts = tt :: ts' := by
      cases ts with
      | nil => simp at hts
      | cons a b => exact ⟨a, b, rfl⟩
    simp only [List.length_cons] at hts hl
    have hu0 : τs[ti-1]? = some u := by
      have := congrArg (·[0]?) hu
      simpa using this.symm
    have hu1 : us = τs.drop (ti+1-1) := by
      have := congrArg List.tail hu
      simpa [show ti - 1 + 1 = ti by omega] using this
    simp only [enumLoop, chain, hbody ti tt B x u h1 (by omega) hB hx hu0, bind_assoc, pure_bind]
    congr 1; funext y
    rw [ih ts (ti+1) (B.set (k-ti-1) y) y (by omega) hu1 (by omega) (by omega) (by simpa using hB)
      (by rw [List.getElem?_set]; simp [show k - (ti+1) = k - ti - 1 by omega]; omega)]
    congr 1; funext ys
    congr 1
    have e1 : k - (ti+1) - us.length = k - ti - (us.length+1) := by omega
    simp only [List.length_cons, List.reverse_cons, e1]
    rw [List.take_set_of_le (by omega)]
    have e2 : (B.set (k-ti-1) y).drop (k-(ti+1)) = y :: B.drop (k-ti) := by
      rw [show k-(ti+1) = k-ti-1 by omega, List.drop_eq_getElem_cons (by simp; omega)]
      simp [List.drop_set, show k - ti - 1 + 1 = k - ti by omega]
      omega
    rw [e2]
    simp

end

section numpy
variable {K ρ : Type} [Add K] [Sub K] [Mul K] [Div K] [Neg K] [NumOps K]
variable {N M d : Nat}

/-- One new slice of the deterministic forward flow. -/
def ottoSlice (env : Env ρ K) (c : Cfg d N M K) (ti : Nat) (tt : K) (x : Mat d N K) :
    RandM ρ (Mat d N K) := do
  let raw ← if ti = 1 then noisyStep env c.g c.f x (tt - dtc)
    else ottoStep true env M (effKern c.kern) c.g c.f x (tt - dtc)
  if c.reweight then (liftM (ottoReweight env c.U raw tt) : RandM ρ (Mat d N K)) else pure raw

/-- One new slice of the true-drift flow. -/
def trueSlice (env : Env ρ K) (c : Cfg d N M K) (ti : Nat) (tt : K) (x : Mat d N K) :
    RandM ρ (Mat d N K) :=
  match c.fTrue with
  | none => RandM.raise .typeError
  | some ft => if ti = 1 then noisyStep env c.g ft x (tt - dtc)
      else ottoStep false env M (effKern c.kern) c.g ft x (tt - dtc)

/-- One particle of the stochastic step. -/
def stochCol (env : Env ρ K) (c : Cfg d N M K) (x : Mat d N K) (i : Fin N) : RandM ρ (Fin d → K) :=
  match c.f.call1 with
  | none => RandM.raise .typeError
  | some f1 => do
    let xi ← normalVec env (NumOps.sqrt dtc) d
    pure fun a => x a i + dtc * f1 (fun a => x a i) a + c.g * xi a

/-- One new slice of the stochastic forward flow, before reweighting. -/
def stochRaw (env : Env ρ K) (c : Cfg d N M K) (x : Mat d N K) : RandM ρ (Mat d N K) := do
  let cols ← seqM N (stochCol env c x)
  pure fun a n => cols n a

/-- One new slice of the stochastic forward flow. -/
def stochSlice (env : Env ρ K) (c : Cfg d N M K) (_ti : Nat) (_tt : K) (x : Mat d N K) :
    RandM ρ (Mat d N K) := do
  let raw ← stochRaw env c x
  if c.reweight then (liftM (stochReweight env c.U raw) : RandM ρ (Mat d N K)) else pure raw


/-- What the Python indexing does in a loop body at `1 ≤ ti < k`. -/
theorem slice_access {S : Type} {Z : List S} {ti : Nat} {x : S} (h1 : 1 ≤ ti) (hl : ti < Z.length)
    (hx : Z[ti-1]? = some x) :
    pyGet Z ((ti : Int) - 1) = .ok x ∧ (∀ y, pyGet (Z.set ti y) (ti : Int) = .ok y) := by
  constructor
  · rw [show ((ti : Int) - 1) = ((ti - 1 : Nat) : Int) by omega, pyGet_nat _ (by omega)]
    rw [List.getElem?_eq_getElem (by omega)] at hx
    rw [Option.some.inj hx]
  · intro y
    rw [pyGet_nat _ (by simpa using hl)]; simp

theorem ottoBody_succ (env : Env ρ K) (c : Cfg d N M K) (ti : Nat) (tt : K) (Z : Traj d N K)
    (x : Mat d N K) (h1 : 1 ≤ ti) (hl : ti < Z.length) (hx : Z[ti-1]? = some x) :
    ottoBody env c ti tt Z = (do let y ← ottoSlice env c ti tt x; pure (Z.set ti y)) := by
  obtain ⟨hg, hg2⟩ := slice_access h1 hl hx
  have hs : ∀ y : Mat d N K, setSlice Z (ti : Int) y = .ok (Z.set ti y) :=
    fun y => setSlice_nat _ hl _
  have hs2 : ∀ y w : Mat d N K, setSlice (Z.set ti w) (ti : Int) y = .ok (Z.set ti y) := by
    intro y w
    rw [setSlice_nat _ (by simpa using hl), List.set_set]
  have h0 : ¬ ti = 0 := by omega
  have hp : decide (0 < ti) = true := decide_eq_true (by omega)
  unfold ottoBody ottoSlice
  by_cases hi : ti = 1
  · simp only [if_neg h0, if_pos hi, hp, hg, hs, Bool.and_true, RandM.liftM_ok, pure_bind, bind_assoc]
    congr 1; funext y
    by_cases hr : c.reweight = true
    · simp only [if_pos hr, hg2, hs2, RandM.liftM_ok, pure_bind]
    · simp only [if_neg hr, pure_bind]
  · simp only [if_neg h0, if_neg hi, hp, hg, hs, Bool.and_true, RandM.liftM_ok, pure_bind, bind_assoc]
    congr 1; funext y
    by_cases hr : c.reweight = true
    · simp only [if_pos hr, hg2, hs2, RandM.liftM_ok, pure_bind]
    · simp only [if_neg hr, pure_bind]

theorem ottoBody_zero (env : Env ρ K) (c : Cfg d N M K) (tt : K) (Z : Traj d N K)
    (h0 : 0 < Z.length) :
    ottoBody env c 0 tt Z = pure (if c.brownBridge then
        (Z.set 0 (pt N c.y1)).set (Z.length - 1) (pt N c.y2) else Z.set 0 (pt N c.y1)) := by
  unfold ottoBody
  rw [if_pos rfl]
  simp only [Nat.lt_irrefl, decide_false, Bool.and_false, Bool.false_eq_true, if_false, bind_pure]
  by_cases hb : c.brownBridge = true
  · simp only [if_pos hb]
    have := forFin_setRow2 Z h0 c.y1 c.y2 d id
    simp only [id] at this
    rw [this, RandM.liftM_ok]
    congr 1
    apply List.ext_getElem?
    intro i
    rw [List.getElem?_mapIdx, List.getElem?_set, List.getElem?_set]
    by_cases h1 : i = Z.length - 1
    · subst h1
      rw [List.getElem?_eq_getElem (by omega)]
      simp only [Option.map_some, if_true, exists_eq]
      rw [if_pos (by simp; omega)]; rfl
    · by_cases h2 : i = 0
      · subst h2
        have h3 : ¬ (Z.length - 1 = 0) := fun h => h1 h.symm
        simp [h0, h1, h3]; rfl
      · have h3 : ¬ (Z.length - 1 = i) := fun h => h1 h.symm
        have h4 : ¬ (0 = i) := fun h => h2 h.symm
        simp [h1, h2, h3, h4]
  · simp only [if_neg hb]
    have := pinRows_ok Z 0 0 (pyIdx_zero h0) c.y1
    unfold pinRows at this
    rw [show (fun (di : Fin d) (Z : Traj d N K) => (do
        let Z ← setRow Z (di.val : Int) 0 (c.y1 di)
        Except.ok Z : Except PyErr (Traj d N K))) =
        fun di Z => setRow Z (di.val : Int) 0 (c.y1 di) by
      funext di Z; cases setRow Z (di.val : Int) 0 (c.y1 di) <;> rfl, this, RandM.liftM_ok]

/-- The deterministic forward flow, as a computation. -/
theorem forwardOtto_eq (env : Env ρ K) (c : Cfg d N M K) (t0 t1 : K) (ts : List K)
    (Z0 : Traj d N K) (h : Z0.length = ts.length + 2) :
    forwardOtto env c (t0 :: t1 :: ts) Z0
      = (do let ys ← chain (ottoSlice env c) 1 (t1 :: ts) (pt N c.y1); pure (pt N c.y1 :: ys)) := by
  unfold forwardOtto
  rw [enumLoop, ottoBody_zero _ _ _ _ (by omega), pure_bind,
    enumLoop_chain (ottoBody env c) (ottoSlice env c) (ottoBody_succ env c) (t1 :: ts) 1 _ (pt N c.y1)
      (by omega) (by split <;> simp <;> omega) (by
        split
        · rw [List.getElem?_set_ne (by omega)]; simp [show 0 < Z0.length by omega]
        · simp [show 0 < Z0.length by omega])]
  congr 1; funext ys
  congr 1
  obtain ⟨a, b, Z, rfl⟩ : ∃ a b Z, Z0 = a :: b :: Z := by
    match Z0, h with
    | a :: b :: Z, _ => exact ⟨a, b, Z, rfl⟩
  split <;> simp

theorem forwardOtto_single (env : Env ρ K) (c : Cfg d N M K) (t0 : K)
    (Z0 : Traj d N K) (h : Z0.length = 1) :
    forwardOtto env c [t0] Z0 = pure [if c.brownBridge then pt N c.y2 else pt N c.y1] := by
  unfold forwardOtto
  rw [enumLoop, ottoBody_zero _ _ _ _ (by omega), pure_bind]
  obtain ⟨a, rfl⟩ := List.length_eq_one_iff.1 h
  by_cases hb : c.brownBridge = true <;> simp [hb, enumLoop]

theorem forwardOtto_empty (env : Env ρ K) (c : Cfg d N M K) (Z0 : Traj d N K) :
    forwardOtto env c [] Z0 = pure Z0 := rfl

theorem trueBody_succ (env : Env ρ K) (c : Cfg d N M K) (ti : Nat) (tt : K) (Z : Traj d N K)
    (x : Mat d N K) (h1 : 1 ≤ ti) (hl : ti < Z.length) (hx : Z[ti-1]? = some x) :
    ottoTrueBody env c ti tt Z = (do let y ← trueSlice env c ti tt x; pure (Z.set ti y)) := by
  obtain ⟨hg, hg2⟩ := slice_access h1 hl hx
  have hs : ∀ y : Mat d N K, setSlice Z (ti : Int) y = .ok (Z.set ti y) :=
    fun y => setSlice_nat _ hl _
  have h0 : ¬ ti = 0 := by omega
  unfold ottoTrueBody trueSlice
  simp only [if_neg h0, hg, RandM.liftM_ok, pure_bind]
  cases c.fTrue with
  | none => rfl
  | some ft =>
    by_cases hi : ti = 1
    · simp only [hs, if_pos hi, RandM.liftM_ok]
    · simp only [hs, if_neg hi, RandM.liftM_ok]

/-- The true-drift forward flow, as a computation. -/
theorem forwardOttoTrue_eq (env : Env ρ K) (c : Cfg d N M K) (t0 : K) (ts : List K)
    (Z0 : Traj d N K) (h : Z0.length = ts.length + 1) :
    forwardOttoTrue env c (t0 :: ts) Z0
      = (do let ys ← chain (trueSlice env c) 1 ts (pt N c.y1); pure (pt N c.y1 :: ys)) := by
  unfold forwardOttoTrue
  have hz : ottoTrueBody env c 0 t0 Z0 = pure (Z0.set 0 (pt N c.y1)) := by
    unfold ottoTrueBody
    rw [if_pos rfl, pinRows_ok _ _ 0 (pyIdx_zero (by omega)), RandM.liftM_ok]
  rw [enumLoop, hz, pure_bind,
    enumLoop_chain (ottoTrueBody env c) (trueSlice env c) (trueBody_succ env c) ts 1 _ (pt N c.y1)
      (by omega) (by simp; omega) (by simp [show 0 < Z0.length by omega])]
  congr 1; funext ys
  congr 1
  obtain ⟨a, Z, rfl⟩ : ∃ a Z, Z0 = a :: Z := by
    match Z0, h with
    | a :: Z, _ => exact ⟨a, Z, rfl⟩
  simp

theorem stochMove_aux (env : Env ρ K) (c : Cfg d N M K) (ti : Nat) (x : Mat d N K) (h1 : 1 ≤ ti) :
    ∀ (m s : Nat) (hsm : s + m = N) (Z : Traj d N K) (cur : Mat d N K) (_ : ti < Z.length)
      (_ : Z[ti-1]? = some x) (_ : Z[ti]? = some cur),
    forFin m (fun (j : Fin m) (Z : Traj d N K) => (do
        let i : Fin N := ⟨s + j.val, by omega⟩
        let x ← (pyGet Z ((ti : Int) - 1) : Except PyErr (Mat d N K))
        match c.f.call1 with
        | none => RandM.raise .typeError
        | some f1 => do
          let xi ← normalVec env (NumOps.sqrt dtc) d
          let fx := f1 fun a => x a i
          let cur ← (pyGet Z (ti : Int) : Except PyErr (Mat d N K))
          (setSlice Z ti (fun a n => if n = i then x a i + dtc * fx a + c.g * xi a else cur a n) :
            Except PyErr (Traj d N K)) : RandM ρ (Traj d N K))) Z
      = (do
        let cols ← seqM m fun j => stochCol env c x ⟨s + j.val, by omega⟩
        pure (Z.set ti fun a n => if h : s ≤ n.val then cols ⟨n.val - s, by omega⟩ a else cur a n)) := by
  intro m
  induction m with
  | zero =>
    intro s hsm Z cur hl hx hc
    simp only [forFin, seqM, pure_bind]
    congr 1
    apply List.ext_getElem?
    intro i
    rw [List.getElem?_set]
    by_cases h : ti = i
    · subst h
      rw [hc]; simp only [hl, if_true]
      congr 1; funext a n
      rw [dif_neg (by omega)]
    · simp [h]
  | succ m ih =>
    intro s hsm Z cur hl hx hc
    have hg := (slice_access h1 hl hx).1
    have hgc : pyGet Z (ti : Int) = .ok cur := by
      rw [pyGet_nat _ hl]
      rw [List.getElem?_eq_getElem hl] at hc
      rw [Option.some.inj hc]
    simp only [forFin, seqM, bind_assoc, pure_bind, hg, hgc, RandM.liftM_ok, stochCol]
    cases hf : c.f.call1 with
    | none => rfl
    | some f1 =>
      simp only [bind_assoc, pure_bind, setSlice_nat _ hl, RandM.liftM_ok]
      congr 1; funext xi
      have := ih (s+1) (by omega) (Z.set ti (fun a n =>
          if n = (⟨s + (0 : Fin (m+1)).val, by omega⟩ : Fin N) then
            x a ⟨s + (0 : Fin (m+1)).val, by omega⟩
              + dtc * f1 (fun a => x a ⟨s + (0 : Fin (m+1)).val, by omega⟩) a + c.g * xi a
          else cur a n)) _ (by simpa using hl)
          (by rw [List.getElem?_set_ne (by omega)]; exact hx)
          (by rw [List.getElem?_set_self hl])
      simp only [hf, stochCol, show ∀ j : Fin m, s + 1 + j.val = s + (j.succ).val from
        fun j => by simp; omega] at this
      rw [this]
      congr 1; funext cols
      congr 1
      rw [List.set_set]
      congr 1
      funext a n
      by_cases h1 : s + 1 ≤ n.val
      · rw [dif_pos h1, dif_pos (by omega)]
        have : (⟨n.val - s, by omega⟩ : Fin (m+1)) = Fin.succ ⟨n.val - (s+1), by omega⟩ := by
          ext; simp; omega
        rw [this, Fin.cons_succ]
      · rw [dif_neg h1]
        by_cases h2 : s ≤ n.val
        · have h3 : n = (⟨s + (0 : Fin (m+1)).val, by omega⟩ : Fin N) := by
            ext; simp; omega
          rw [if_pos h3, dif_pos h2]
          have h4 : (⟨n.val - s, by omega⟩ : Fin (m+1)) = 0 := by ext; simp; omega
          rw [h4, Fin.cons_zero]
        · rw [dif_neg h2, if_neg]
          intro h; rw [h] at h2; simp at h2

theorem stochMove_eq (env : Env ρ K) (c : Cfg d N M K) (ti : Nat) (x : Mat d N K) (Z : Traj d N K)
    (h1 : 1 ≤ ti) (hl : ti < Z.length) (hx : Z[ti-1]? = some x) :
    stochMove env c ti Z = (do let y ← stochRaw env c x; pure (Z.set ti y)) := by
  have := stochMove_aux (ρ := ρ) env c ti x h1 N 0 (by omega) Z Z[ti] hl hx
    (List.getElem?_eq_getElem hl)
  simp only [Nat.zero_add, Fin.eta] at this
  unfold stochMove stochRaw
  refine Eq.trans this ?_
  simp only [bind_assoc, pure_bind]
  congr 1

theorem stochBody_succ (env : Env ρ K) (c : Cfg d N M K) (ti : Nat) (tt : K) (Z : Traj d N K)
    (x : Mat d N K) (h1 : 1 ≤ ti) (hl : ti < Z.length) (hx : Z[ti-1]? = some x) :
    stochBody env c ti tt Z = (do let y ← stochSlice env c ti tt x; pure (Z.set ti y)) := by
  obtain ⟨hg, hg2⟩ := slice_access h1 hl hx
  have hs2 : ∀ y w : Mat d N K, setSlice (Z.set ti w) (ti : Int) y = .ok (Z.set ti y) := by
    intro y w
    rw [setSlice_nat _ (by simpa using hl), List.set_set]
  unfold stochBody stochSlice
  rw [if_neg (by omega), stochMove_eq env c ti x Z h1 hl hx]
  simp only [bind_assoc, pure_bind]
  congr 1; funext y
  by_cases hr : c.reweight = true
  · simp only [if_pos hr, hg2, hs2, RandM.liftM_ok, pure_bind]
  · simp only [if_neg hr, pure_bind]

/-- The state written by the stochastic sampler at time index 0 into a zero slice: `y1` in the first
two coordinates only. -/
def stochInit (N : Nat) (y1 : Fin d → K) : Mat d N K := fun a _ => if a.val ≤ 1 then y1 a else lit 0 1

theorem stochBody_zero (env : Env ρ K) (c : Cfg d N M K) (tt : K) (k : Nat) (hd : 2 ≤ d) :
    stochBody env c 0 tt (zerosT d N (k+1)) = pure ((zerosT d N (k+1)).set 0 (stochInit N c.y1)) := by
  unfold stochBody
  rw [if_pos rfl]
  have hl : (zerosT d N (k+1) : Traj d N K).length = k + 1 := by simp [zerosT]
  have e0 : pyGet (List.ofFn c.y1) 0 = .ok (c.y1 ⟨0, by omega⟩) := by
    have := pyGet_nat (List.ofFn c.y1) (i := 0) (by simp; omega)
    simpa using this
  have e1 : pyGet (List.ofFn c.y1) 1 = .ok (c.y1 ⟨1, by omega⟩) := by
    have := pyGet_nat (List.ofFn c.y1) (i := 1) (by simp; omega)
    simpa using this
  rw [e0, RandM.liftM_ok, pure_bind]
  rw [show setRow (zerosT d N (k+1) : Traj d N K) 0 0 (c.y1 ⟨0, by omega⟩) = _ from
    setRow_mapIdx _ (⟨0, by omega⟩ : Fin d) 0 0 (pyIdx_zero (by simp [hl])) _]
  rw [RandM.liftM_ok, pure_bind, e1, RandM.liftM_ok, pure_bind]
  rw [show ∀ T : Traj d N K, 0 < T.length → setRow T 1 0 (c.y1 ⟨1, by omega⟩) = _ from fun T hT =>
    setRow_mapIdx T (⟨1, by omega⟩ : Fin d) 0 0 (pyIdx_zero hT) _]
  · rw [RandM.liftM_ok, List.mapIdx_mapIdx]
    congr 1
    apply List.ext_getElem?
    intro i
    rw [List.getElem?_mapIdx, List.getElem?_set]
    by_cases h : i = 0
    · subst h
      simp only [zerosT, List.replicate_succ]
      simp only [List.getElem?_cons_zero, Option.map_some, List.length_cons, Nat.zero_lt_succ, if_true]
      congr 1; funext a n
      simp only [stochInit, Function.comp_apply, true_and, Fin.ext_iff]
      rcases a with ⟨a, ha⟩
      match a with
      | 0 => simp
      | 1 => simp
      | a+2 => simp
    · have h' : ¬ 0 = i := fun e => h e.symm
      simp only [h, h', false_and, if_false]
      show Option.map id _ = _
      simp
  · simp [hl]

theorem stochBody_zero_dim1 (env : Env ρ K) (c : Cfg d N M K) (tt : K) (Z : Traj d N K)
    (hd : d ≤ 1) : stochBody env c 0 tt Z = RandM.raise .indexError := by
  unfold stochBody
  rw [if_pos rfl]
  match d, c, Z, hd with
  | 0, c, Z, _ => simp [pyGet, pyIdx]
  | 1, c, Z, _ =>
    have e1 : pyGet (List.ofFn c.y1) 1 = .error .indexError := by simp [pyGet, pyIdx]
    rw [e1]
    have e0 : pyGet (List.ofFn c.y1) 0 = .ok (c.y1 0) := by
      have := pyGet_nat (List.ofFn c.y1) (i := 0) (by simp)
      simpa using this
    rw [e0]
    cases h : setRow Z 0 0 (c.y1 0) with
    | ok a => simp [h]
    | error e =>
      have : e = .indexError := by
        unfold setRow at h
        rw [pyIdx_zero (by omega)] at h
        cases h2 : pyIdx Z.length 0 with
        | ok a => rw [h2] at h; cases h
        | error e' => rw [h2] at h; cases h; exact (pyIdx_error h2).1
      simp [h, this]

/-- The stochastic forward flow before the terminal pin, as a computation. -/
theorem enumStoch_eq (env : Env ρ K) (c : Cfg d N M K) (t0 : K) (ts : List K) (hd : 2 ≤ d) :
    enumLoop (stochBody env c) 0 (t0 :: ts) (zerosT d N (ts.length+1))
      = (do let ys ← chain (stochSlice env c) 1 ts (stochInit N c.y1); pure (stochInit N c.y1 :: ys)) := by
  have hl : (zerosT d N (ts.length+1) : Traj d N K).length = ts.length + 1 := by simp [zerosT]
  rw [enumLoop, stochBody_zero _ _ _ _ hd, pure_bind,
    enumLoop_chain (stochBody env c) (stochSlice env c) (stochBody_succ env c) ts 1 _
      (stochInit N c.y1) (by omega) (by simp [hl]; omega) (by simp [hl])]
  rfl

/-- One step of a backward flow from `b` at grid time `t` with forward slice `z`; `dens z b` is the
score of the forward cloud at `b`, `bw z b` that of the backward cloud. -/
def backStep (env : Env ρ K) (dens bw : Mat d N K → Mat d N K → RandM ρ (Mat d N K))
    (f : Drift d N K) (g : K) (det : Bool) (ti : Nat) (zt : Mat d N K × K) (b : Mat d N K) :
    RandM ρ (Mat d N K) := do
  let gro ← dens zt.1 b
  if (ti = 1 ∧ det = true) ∨ det = false then do
    let xi ← normalMat env (NumOps.sqrt dtc) d N
    pure fun i n => b i n - f.call2 b zt.2 i n * dtc + dtc * sq g * gro i n + g * xi i n
  else do
    let grb ← bw zt.1 b
    pure fun i n =>
      b i n - (f.call2 b zt.2 i n - sq g * gro i n + lit 1 2 * sq g * grb i n) * dtc

/-- The forward slices and times a backward simulation visits, in the order of the visits. -/
def visits (Z : Traj d N K) (timegrid : List K) : List (Mat d N K × K) :=
  ((Z.zip timegrid).drop 2).reverse

/-- Loop body of a backward simulation with given estimators. -/
def genBackBody (env : Env ρ K)
    (dens bw : Mat d N K → Mat d N K → RandM ρ (Mat d N K)) (c : Cfg d N M K)
    (timegrid : List K) (Z : Traj d N K) (ti : Nat) (_tt : K) (B : Traj d N K) :
    RandM ρ (Traj d N K) :=
  if ti = 0 then (liftM (pinRows B (-1) c.y2) : RandM ρ (Traj d N K))
  else do
    let rev : Int := (timegrid.length : Int) - ti - 1
    let gro ← do
      let z ← (pyGet Z (rev + 1) : Except PyErr (Mat d N K))
      let b ← (pyGet B (rev + 1) : Except PyErr (Mat d N K))
      dens z b
    if (ti = 1 ∧ c.deterministic = true) ∨ c.deterministic = false then do
      let b ← (pyGet B (rev + 1) : Except PyErr (Mat d N K))
      let t ← (pyGet timegrid (rev + 1) : Except PyErr K)
      let xi ← normalMat env (NumOps.sqrt dtc) d N
      (setSlice B rev (fun i n =>
        b i n - c.f.call2 b t i n * dtc + dtc * sq c.g * gro i n + c.g * xi i n) :
        Except PyErr (Traj d N K))
    else do
      let grb ← do
        let z ← (pyGet Z (rev + 1) : Except PyErr (Mat d N K))
        let b ← (pyGet B (rev + 1) : Except PyErr (Mat d N K))
        bw z b
      let b ← (pyGet B (rev + 1) : Except PyErr (Mat d N K))
      let t ← (pyGet timegrid (rev + 1) : Except PyErr K)
      (setSlice B rev (fun i n =>
        b i n - (c.f.call2 b t i n - sq c.g * gro i n + lit 1 2 * sq c.g * grb i n) * dtc) :
        Except PyErr (Traj d N K))

theorem pyGet_of_getElem? {S : Type} {l : List S} {i : Nat} {x : S} (h : l[i]? = some x) :
    pyGet l (i : Int) = .ok x := by
  have hl : i < l.length := by
    rw [List.getElem?_eq_some_iff] at h; exact h.1
  rw [pyGet_nat _ hl]
  rw [List.getElem?_eq_getElem hl] at h
  rw [Option.some.inj h]

theorem genBackBody_succ (env : Env ρ K)
    (dens bw : Mat d N K → Mat d N K → RandM ρ (Mat d N K)) (c : Cfg d N M K)
    (grid : List K) (Z : Traj d N K) (hZ : Z.length = grid.length)
    (ti : Nat) (tt : K) (B : Traj d N K) (x : Mat d N K) (u : Mat d N K × K)
    (h1 : 1 ≤ ti) (hk : ti < grid.length) (hB : B.length = grid.length)
    (hx : B[grid.length - ti]? = some x) (hu : (visits Z grid)[ti-1]? = some u) :
    genBackBody env dens bw c grid Z ti tt B
      = (do let y ← backStep env dens bw c.f c.g c.deterministic ti u x
            pure (B.set (grid.length - ti - 1) y)) := by
  have hti : ti - 1 < (visits Z grid).length := by
    rw [List.getElem?_eq_some_iff] at hu; exact hu.1
  have hlen : (visits Z grid).length = grid.length - 2 := by
    simp [visits, hZ]
  have hzt : (Z.zip grid)[grid.length - ti]? = some u := by
    rw [← hu]
    unfold visits
    rw [List.getElem?_reverse (by simpa [visits] using hti), List.getElem?_drop]
    congr 1
    simp [hZ]; omega
  rw [List.getElem?_zip_eq_some] at hzt
  have ez : pyGet Z ((grid.length : Int) - ti - 1 + 1) = .ok u.1 := by
    rw [show (grid.length : Int) - ti - 1 + 1 = ((grid.length - ti : Nat) : Int) by omega]
    exact pyGet_of_getElem? hzt.1
  have et : pyGet grid ((grid.length : Int) - ti - 1 + 1) = .ok u.2 := by
    rw [show (grid.length : Int) - ti - 1 + 1 = ((grid.length - ti : Nat) : Int) by omega]
    exact pyGet_of_getElem? hzt.2
  have eb : pyGet B ((grid.length : Int) - ti - 1 + 1) = .ok x := by
    rw [show (grid.length : Int) - ti - 1 + 1 = ((grid.length - ti : Nat) : Int) by omega]
    exact pyGet_of_getElem? hx
  have es : ∀ S : Mat d N K, setSlice B ((grid.length : Int) - ti - 1) S
      = .ok (B.set (grid.length - ti - 1) S) := by
    intro S
    rw [show (grid.length : Int) - ti - 1 = ((grid.length - ti - 1 : Nat) : Int) by omega]
    exact setSlice_nat _ (by omega) _
  unfold genBackBody backStep
  simp only [if_neg (show ¬ ti = 0 by omega), ez, et, eb, es, RandM.liftM_ok, pure_bind, bind_assoc]
  congr 1; funext gro
  by_cases hc : (ti = 1 ∧ c.deterministic = true) ∨ c.deterministic = false
  · simp only [if_pos hc, bind_assoc, pure_bind]
  · simp only [if_neg hc, bind_assoc, pure_bind]

/-- The backward flow as a computation, for a grid of at least two points. -/
theorem genBackward_eq (env : Env ρ K)
    (dens bw : Mat d N K → Mat d N K → RandM ρ (Mat d N K)) (c : Cfg d N M K)
    (grid : List K) (Z B : Traj d N K) (hZ : Z.length = grid.length) (hB : B.length = grid.length)
    (h2 : 2 ≤ grid.length) :
    (do let B ← enumLoop (genBackBody env dens bw c grid Z) 0 grid.dropLast B
        (liftM (pinRows B 0 c.y1) : RandM ρ (Traj d N K)))
      = (do
        let ys ← chain (backStep env dens bw c.f c.g c.deterministic) 1 (visits Z grid) (pt N c.y2)
        pure (pt N c.y1 :: (ys.reverse ++ [pt N c.y2]))) := by
  obtain ⟨t0, t1, ts, rfl⟩ : ∃ t0 t1 ts, grid = t0 :: t1 :: ts := by
    match grid, h2 with
    | a :: b :: l, _ => exact ⟨a, b, l, rfl⟩
  have hk : (t0 :: t1 :: ts).length = ts.length + 2 := rfl
  have hB' : B.length = ts.length + 2 := hB
  have hv : (visits Z (t0 :: t1 :: ts)).length = ts.length := by simp [visits, hZ]
  have hz : genBackBody env dens bw c (t0 :: t1 :: ts) Z 0 t0 B
      = pure (B.set (B.length - 1) (pt N c.y2)) := by
    unfold genBackBody
    rw [if_pos rfl, pinRows_ok _ _ _ (pyIdx_neg_one (by omega)), RandM.liftM_ok]
  rw [List.dropLast_cons_cons, enumLoop, hz, pure_bind,
    enumLoop_chain_rev (genBackBody env dens bw c (t0 :: t1 :: ts) Z)
      (backStep env dens bw c.f c.g c.deterministic) (t0 :: t1 :: ts).length
      (visits Z (t0 :: t1 :: ts))
      (fun ti tt B x u h1 hk hB hx hu =>
        genBackBody_succ env dens bw c (t0 :: t1 :: ts) Z hZ ti tt B x u h1 hk hB hx hu)
      (visits Z (t0 :: t1 :: ts)) (t1 :: ts).dropLast 1 _ (pt N c.y2) (by omega) rfl
      (by simp [hv]) (by rw [hv, hk]; omega) (by simpa using hB)
      (by rw [hk, List.getElem?_set]; simp [hB'])]
  simp only [bind_assoc, pure_bind]
  congr 1; funext ys
  rw [pinRows_ok _ _ 0 (pyIdx_zero (by simp [hB', hv]; omega)), RandM.liftM_ok]
  congr 1
  rw [hv, hk, show ts.length + 2 - 1 - ts.length = 1 by omega]
  obtain ⟨a, b, Bs, rfl⟩ : ∃ a b Bs, B = a :: b :: Bs := by
    match B, hB' with
    | a :: b :: Z, _ => exact ⟨a, b, Z, rfl⟩
  have hl : Bs.length = ts.length := by simpa using hB'
  have e : List.drop (ts.length + 2 - 1) ((a :: b :: Bs).set ((a :: b :: Bs).length - 1) (pt N c.y2))
      = [pt N c.y2] := by
    rw [List.drop_eq_getElem_cons (by simp [hl])]
    simp [hl]
  rw [e]
  simp

theorem genBackward_single (env : Env ρ K)
    (dens bw : Mat d N K → Mat d N K → RandM ρ (Mat d N K)) (c : Cfg d N M K)
    (t0 : K) (Z B : Traj d N K) (hB : B.length = 1) :
    (do let B ← enumLoop (genBackBody env dens bw c [t0] Z) 0 [t0].dropLast B
        (liftM (pinRows B 0 c.y1) : RandM ρ (Traj d N K)))
      = pure [pt N c.y1] := by
  obtain ⟨a, rfl⟩ := List.length_eq_one_iff.1 hB
  simp only [List.dropLast_singleton, enumLoop, pure_bind]
  rw [pinRows_ok _ _ 0 (pyIdx_zero (by simp)), RandM.liftM_ok]
  rfl

theorem genBackward_empty (env : Env ρ K)
    (dens bw : Mat d N K → Mat d N K → RandM ρ (Mat d N K)) (c : Cfg d N M K)
    (Z : Traj d N K) (hd : 0 < d) :
    (do let B ← enumLoop (genBackBody env dens bw c [] Z) 0 ([] : List K).dropLast []
        (liftM (pinRows B 0 c.y1) : RandM ρ (Traj d N K)))
      = RandM.raise .indexError := by
  simp only [List.dropLast_nil, enumLoop, pure_bind]
  rw [pinRows_err [] 0 (e := .indexError) (pyIdx_empty _) _ hd]; rfl

theorem plotGuard_ok {bn bn' : Fin d → K × K} (h : plotGuard bn = .ok bn') : bn' = bn := by
  unfold plotGuard at h
  split at h
  · cases h; rfl
  · split at h
    · cases h; rfl
    · cases h

theorem optGuard_ok {pl : Bool} {bn bn' : Fin d → K × K}
    (h : (if pl = true then plotGuard bn else .ok bn) = .ok bn') : bn' = bn := by
  cases pl with
  | true => exact plotGuard_ok h
  | false => cases h; rfl

theorem plotGuard_finite {bn : Fin d → K × K}
    (h : NumOps.isFinite (NumOps.sum fun ii => (bn ii).1 + (bn ii).2) = true ∨ 2 ≤ d) :
    plotGuard bn = .ok bn := by
  unfold plotGuard
  split
  · rfl
  · rw [if_pos (h.resolve_left (by assumption))]

theorem optGuard_finite (pl : Bool) {bn : Fin d → K × K}
    (h : NumOps.isFinite (NumOps.sum fun ii => (bn ii).1 + (bn ii).2) = true ∨ 2 ≤ d) :
    (if pl = true then plotGuard bn else .ok bn) = .ok bn := by
  cases pl with
  | true => exact plotGuard_finite h
  | false => rfl

/-- `density_estimation` on given slices. -/
def densityAt (env : Env ρ K) (M : Nat) (kern : String) (z b : Mat d N K) :
    RandM ρ (Mat d N K) := do
  let bnds ← (interBox z b : Except PyErr (Fin d → K × K))
  let bnds ← (plotGuard bnds : Except PyErr (Fin d → K × K))
  let Sxx ← npInducing env bnds M
  seqM d fun di =>
    (scoreSepFn (tr z) (tr Sxx) (lit 1 1000) kern (.vec (lengthScales z)) (di.val + 1) (tr b) :
      Except PyErr (Fin N → K))

/-- `bw_density_estimation` on given slices. -/
def bwDensityAt (env : Env ρ K) (M : Nat) (kern : String) (z b : Mat d N K) :
    RandM ρ (Mat d N K) := do
  let bnds ← (interBox z b : Except PyErr (Fin d → K × K))
  let Sxx ← npInducing env bnds M
  seqM d fun di =>
    (scoreSep (tr b) (tr Sxx) (lit 1 1000) kern (.vec (lengthScales b)) (di.val + 1) :
      Except PyErr (Fin N → K))

theorem backwardSim_gen (env : Env ρ K) (c : Cfg d N M K) (grid : List K) (Z B : Traj d N K) :
    backwardSim env c grid Z B =
      (do let B ← enumLoop (genBackBody env (densityAt env M (effKern c.kern))
            (bwDensityAt env M (effKern c.kern)) c grid Z) 0 grid.dropLast B
          (liftM (pinRows B 0 c.y1) : RandM ρ (Traj d N K))) := by
  have : backwardBody env c grid Z = genBackBody env (densityAt env M (effKern c.kern))
      (bwDensityAt env M (effKern c.kern)) c grid Z := by
    funext ti tt B
    unfold backwardBody genBackBody
    simp only [densityEst, bwDensityEst, densityAt, bwDensityAt, bind_assoc]
  unfold backwardSim
  rw [this]

/-- One backward step of the numpy class. -/
abbrev npBack (env : Env ρ K) (c : Cfg d N M K) :
    Nat → Mat d N K × K → Mat d N K → RandM ρ (Mat d N K) :=
  backStep env (densityAt env M (effKern c.kern)) (bwDensityAt env M (effKern c.kern)) c.f c.g
    c.deterministic

theorem backwardSim_eq (env : Env ρ K) (c : Cfg d N M K) (grid : List K) (Z B : Traj d N K)
    (hZ : Z.length = grid.length) (hB : B.length = grid.length) (h2 : 2 ≤ grid.length) :
    backwardSim env c grid Z B = (do
        let ys ← chain (npBack env c) 1 (visits Z grid) (pt N c.y2)
        pure (pt N c.y1 :: (ys.reverse ++ [pt N c.y2]))) := by
  rw [backwardSim_gen, genBackward_eq _ _ _ _ _ _ _ hZ hB h2]

theorem chain_length {τ S : Type} {step : Nat → τ → S → RandM ρ S} :
    ∀ {ts : List τ} {ti : Nat} {x : S} {r r' : ρ} {ys : List S},
      chain step ti ts x r = .ok (ys, r') → ys.length = ts.length
  | [], ti, x, r, r', ys, h => by
    simp only [chain, RandM.pure_ok] at h
    simp [← h.1]
  | t :: ts, ti, x, r, r', ys, h => by
    simp only [chain, RandM.bind_ok, RandM.pure_ok] at h
    obtain ⟨y, r1, _, zs, r2, h2, rfl, _⟩ := h
    simp [chain_length h2]

/-- Success of a chain, step by step: the list of states `x :: ys` and of random states `rs`. -/
theorem chain_ok_iff {τ S : Type} {step : Nat → τ → S → RandM ρ S} :
    ∀ {ts : List τ} {ti : Nat} {x : S} {r r' : ρ} {ys : List S},
      chain step ti ts x r = .ok (ys, r') ↔
        ys.length = ts.length ∧ ∃ rs : Nat → ρ, rs 0 = r ∧ rs ts.length = r' ∧
          ∀ (i : Nat) (t : τ) (a b : S), ts[i]? = some t → (x :: ys)[i]? = some a →
            (x :: ys)[i+1]? = some b → step (ti + i) t a (rs i) = .ok (b, rs (i+1))
  | [], ti, x, r, r', ys => by
    simp only [chain, RandM.pure_ok]
    constructor
    · rintro ⟨rfl, rfl⟩
      exact ⟨rfl, fun _ => r, rfl, rfl, fun i t a b h => by simp at h⟩
    · rintro ⟨h, rs, h0, h1, _⟩
      exact ⟨(List.length_eq_zero_iff.1 h).symm, by rw [← h0, ← h1]; rfl⟩
  | t :: ts, ti, x, r, r', ys => by
    simp only [chain, RandM.bind_ok, RandM.pure_ok]
    constructor
    · rintro ⟨y, r1, h1, zs, r2, h2, rfl, rfl⟩
      obtain ⟨hl, rs, e0, e1, hs⟩ := chain_ok_iff.1 h2
      refine ⟨by simp [hl], fun i => Nat.casesOn i r rs, rfl, by simpa using e1, ?_⟩
      intro i t' a b ht ha hb
      cases i with
      | zero =>
        simp at ht ha hb
        subst ht ha hb
        simpa [e0] using h1
      | succ i =>
        have := hs i t' a b (by simpa using ht) (by simpa using ha) (by simpa using hb)
        simpa [Nat.add_assoc, Nat.add_comm 1 i] using this
    · rintro ⟨hl, rs, e0, e1, hs⟩
      obtain ⟨y, ys, rfl⟩ : ∃ y ys', ys = y :: ys' := by
        match ys, hl with
        | a :: l, _ => exact ⟨a, l, rfl⟩
      have h0 := hs 0 t x y rfl rfl rfl
      refine ⟨y, rs 1, by simpa [e0] using h0, ys, r', ?_, rfl, rfl⟩
      refine chain_ok_iff.2 ⟨by simpa using hl, fun i => rs (i+1), rfl, by simpa using e1, ?_⟩
      intro i t' a b ht ha hb
      have := hs (i+1) t' a b (by simpa using ht) (by simpa using ha) (by simpa using hb)
      simpa [Nat.add_assoc, Nat.add_comm 1 i] using this

/-- The optional true-drift flow. -/
def trueFlow (env : Env ρ K) (c : Cfg d N M K) (grid : List K) : RandM ρ (Option (Traj d N K)) :=
  if c.reweight && c.brownBridge then do
    let ys ← chain (trueSlice env c) 1 grid.tail (pt N c.y1)
    pure (some (pt N c.y1 :: ys))
  else pure none

theorem zerosT_length (d N k : Nat) : (zerosT d N k : Traj d N K).length = k := by simp [zerosT]

/-- Successful deterministic construction on a grid of at least two points. -/
theorem construct_det_iff (env : Env ρ K) (c : Cfg d N M K) (hdet : c.deterministic = true)
    (hk : 2 ≤ (mkGrid c.t1 c.t2).length) (r r' : ρ) (o : Obj d N M K) :
    construct env c r = .ok (o, r') ↔
      ∃ (ys : Traj d N K) (r1 : ρ) (zt : Option (Traj d N K)) (r2 : ρ) (bs : Traj d N K),
        chain (ottoSlice env c) 1 (mkGrid c.t1 c.t2).tail (pt N c.y1) r = .ok (ys, r1) ∧
        trueFlow env c (mkGrid c.t1 c.t2) r1 = .ok (zt, r2) ∧
        chain (npBack env c) 1 (visits (pt N c.y1 :: ys) (mkGrid c.t1 c.t2)) (pt N c.y2) r2
          = .ok (bs, r') ∧
        o = ⟨c, mkGrid c.t1 c.t2, pt N c.y1 :: ys, pt N c.y1 :: (bs.reverse ++ [pt N c.y2]), zt⟩ := by
  unfold construct
  generalize mkGrid c.t1 c.t2 = grid at hk ⊢
  obtain ⟨t0, t1, ts, rfl⟩ : ∃ t0 t1 ts, grid = t0 :: t1 :: ts := by
    match grid, hk with
    | a :: b :: l, _ => exact ⟨a, b, l, rfl⟩
  simp only [if_pos hdet]
  rw [forwardOtto_eq env c t0 t1 ts _ (by simp [zerosT_length])]
  simp only [bind_assoc, pure_bind]
  have hback : ∀ {a : Traj d N K} {r0 r1 : ρ},
      chain (ottoSlice env c) 1 (t1 :: ts) (pt N c.y1) r0 = .ok (a, r1) →
      backwardSim env c (t0 :: t1 :: ts) (pt N c.y1 :: a) (zerosT d N (t0 :: t1 :: ts).length) = (do
        let ys ← chain (npBack env c) 1 (visits (pt N c.y1 :: a) (t0 :: t1 :: ts)) (pt N c.y2)
        pure (pt N c.y1 :: (ys.reverse ++ [pt N c.y2]))) := by
    intro a r0 r1 h
    exact backwardSim_eq _ _ _ _ _ (by simp [chain_length h]) (by simp [zerosT_length]) hk
  by_cases h : (c.reweight && c.brownBridge) = true
  · simp only [if_pos h, trueFlow, List.tail_cons]
    rw [forwardOttoTrue_eq env c t0 (t1 :: ts) _ (by simp [zerosT_length])]
    simp only [RandM.bind_ok, bind_assoc, pure_bind, RandM.pure_ok]
    constructor
    · rintro ⟨ys, r1, h1, zs, r2, h2, B, r3, h3, rfl, rfl⟩
      rw [hback h1] at h3
      simp only [RandM.bind_ok, RandM.pure_ok] at h3
      obtain ⟨bs, r4, h4, rfl, rfl⟩ := h3
      exact ⟨ys, r1, _, r2, bs, h1, ⟨zs, r2, h2, rfl, rfl⟩, h4, rfl⟩
    · rintro ⟨ys, r1, zt, r2, bs, h1, ⟨zs, r3, h2, rfl, rfl⟩, h4, rfl⟩
      refine ⟨ys, r1, h1, zs, r3, h2, _, r', ?_, rfl, rfl⟩
      rw [hback h1]
      simp only [RandM.bind_ok, RandM.pure_ok]
      exact ⟨bs, r', h4, rfl, rfl⟩
  · simp only [if_neg h, trueFlow, List.tail_cons]
    simp only [RandM.bind_ok, bind_assoc, pure_bind, RandM.pure_ok]
    constructor
    · rintro ⟨ys, r1, h1, B, r3, h3, rfl, rfl⟩
      rw [hback h1] at h3
      simp only [RandM.bind_ok, RandM.pure_ok] at h3
      obtain ⟨bs, r4, h4, rfl, rfl⟩ := h3
      exact ⟨ys, r1, _, r1, bs, h1, ⟨rfl, rfl⟩, h4, rfl⟩
    · rintro ⟨ys, r1, zt, r2, bs, h1, ⟨rfl, rfl⟩, h4, rfl⟩
      refine ⟨ys, r1, h1, _, r', ?_, rfl, rfl⟩
      rw [hback h1]
      simp only [RandM.bind_ok, RandM.pure_ok]
      exact ⟨bs, r', h4, rfl, rfl⟩

/-- Deterministic construction on a grid with a single point. -/
theorem construct_det_single (env : Env ρ K) (c : Cfg d N M K) (hdet : c.deterministic = true)
    (t0 : K) (hk : mkGrid c.t1 c.t2 = [t0]) :
    construct env c = pure ⟨c, [t0], [if c.brownBridge then pt N c.y2 else pt N c.y1], [pt N c.y1],
      if c.reweight && c.brownBridge then some [pt N c.y1] else none⟩ := by
  unfold construct
  simp only [hk, if_pos hdet, forwardOtto_single env c t0 _ (zerosT_length ..),
    forwardOttoTrue_eq env c t0 [] _ (zerosT_length ..), chain, pure_bind, List.length_singleton]
  by_cases h : (c.reweight && c.brownBridge) = true
  · simp only [if_pos h, pure_bind]
    rw [backwardSim_gen, forwardOttoTrue_eq env c t0 [] (zerosT d N 1) (zerosT_length ..),
      genBackward_single _ _ _ _ _ _ _ (zerosT_length ..)]
    rfl
  · simp only [if_neg h, pure_bind]
    rw [backwardSim_gen, genBackward_single _ _ _ _ _ _ _ (zerosT_length ..)]
    rfl

/-- Construction on an empty grid fails (dimension at least 1). -/
theorem construct_empty (env : Env ρ K) (c : Cfg d N M K) (hd : 0 < d)
    (hk : mkGrid c.t1 c.t2 = []) : construct env c = RandM.raise .indexError := by
  have hb : ∀ Z : Traj d N K, backwardSim env c [] Z [] = RandM.raise .indexError := by
    intro Z
    rw [backwardSim_gen, genBackward_empty _ _ _ _ _ hd]
  have hp : pinRows ([] : Traj d N K) (-1) c.y2 = .error .indexError :=
    pinRows_err [] _ (e := .indexError) (pyIdx_empty _) _ hd
  unfold construct
  simp only [hk, forwardOtto_empty, forwardStoch, enumLoop, pure_bind, zerosT, List.length_nil,
    List.replicate_zero, hb, hp, forwardOttoTrue, RandM.raise_bind]
  by_cases hdet : c.deterministic = true
  · by_cases h : (c.reweight && c.brownBridge) = true
    · simp [hdet, h]
    · simp [hdet, h]
  · simp [hdet]

/-- Successful stochastic construction (numpy) on a grid of at least two points. -/
theorem construct_stoch_iff (env : Env ρ K) (c : Cfg d N M K) (hdet : c.deterministic = false)
    (hk : 2 ≤ (mkGrid c.t1 c.t2).length) (hd : 2 ≤ d) (r r' : ρ) (o : Obj d N M K) :
    construct env c r = .ok (o, r') ↔
      ∃ (ys : Traj d N K) (r1 : ρ) (bs : Traj d N K),
        chain (stochSlice env c) 1 (mkGrid c.t1 c.t2).tail (stochInit N c.y1) r = .ok (ys, r1) ∧
        chain (npBack env c) 1
          (visits (stochInit N c.y1 :: (ys.dropLast ++ [pt N c.y2])) (mkGrid c.t1 c.t2)) (pt N c.y2) r1
          = .ok (bs, r') ∧
        o = ⟨c, mkGrid c.t1 c.t2, stochInit N c.y1 :: (ys.dropLast ++ [pt N c.y2]),
          pt N c.y1 :: (bs.reverse ++ [pt N c.y2]),
          if c.reweight && c.brownBridge then some (zerosT d N (mkGrid c.t1 c.t2).length) else none⟩ := by
  unfold construct
  generalize mkGrid c.t1 c.t2 = grid at hk ⊢
  obtain ⟨t0, t1, ts, rfl⟩ : ∃ t0 t1 ts, grid = t0 :: t1 :: ts := by
    match grid, hk with
    | a :: b :: l, _ => exact ⟨a, b, l, rfl⟩
  simp only [hdet, Bool.false_eq_true, if_false, forwardStoch, bind_assoc, List.length_cons]
  rw [show ts.length + 1 + 1 = (t1 :: ts).length + 1 from rfl, enumStoch_eq env c t0 (t1 :: ts) hd]
  simp only [bind_assoc, pure_bind, List.tail_cons]
  rw [RandM.bind_ok]
  have key : ∀ {a : Traj d N K} {r0 r1 : ρ},
      chain (stochSlice env c) 1 (t1 :: ts) (stochInit N c.y1) r0 = .ok (a, r1) →
      pinRows (stochInit N c.y1 :: a) (-1) c.y2
        = .ok (stochInit N c.y1 :: (a.dropLast ++ [pt N c.y2])) := by
    intro a r0 r1 h
    have hl := chain_length h
    rw [pinRows_ok _ _ _ (pyIdx_neg_one (by simp))]
    congr 1
    have ha : a ≠ [] := by intro e; simp [e] at hl
    obtain ⟨b, w, rfl⟩ : ∃ b w, a = b ++ [w] := ⟨_, _, (List.dropLast_concat_getLast ha).symm⟩
    simp
  have hback : ∀ {a : Traj d N K} {r0 r1 : ρ},
      chain (stochSlice env c) 1 (t1 :: ts) (stochInit N c.y1) r0 = .ok (a, r1) →
      backwardSim env c (t0 :: t1 :: ts) (stochInit N c.y1 :: (a.dropLast ++ [pt N c.y2]))
          (zerosT d N ((t1 :: ts).length+1)) = (do
        let ys ← chain (npBack env c) 1
          (visits (stochInit N c.y1 :: (a.dropLast ++ [pt N c.y2])) (t0 :: t1 :: ts)) (pt N c.y2)
        pure (pt N c.y1 :: (ys.reverse ++ [pt N c.y2]))) := by
    intro a r0 r1 h
    have hl := chain_length h
    exact backwardSim_eq _ _ _ _ _ (by simp at hl ⊢; omega) (by simp [zerosT_length]) hk
  constructor
  · rintro ⟨ys, r1, h1, h2⟩
    rw [key h1, RandM.liftM_ok, pure_bind, hback h1] at h2
    simp only [RandM.bind_ok, bind_assoc, pure_bind, RandM.pure_ok] at h2
    obtain ⟨bs, r2, h3, rfl, rfl⟩ := h2
    exact ⟨ys, r1, bs, h1, h3, rfl⟩
  · rintro ⟨ys, r1, bs, h1, h3, rfl⟩
    refine ⟨ys, r1, h1, ?_⟩
    rw [key h1, RandM.liftM_ok, pure_bind, hback h1]
    simp only [RandM.bind_ok, bind_assoc, pure_bind, RandM.pure_ok]
    exact ⟨bs, r', h3, rfl, rfl⟩

theorem construct_stoch_dim1 (env : Env ρ K) (c : Cfg d N M K) (hdet : c.deterministic = false)
    (hk : 1 ≤ (mkGrid c.t1 c.t2).length) (hd : d ≤ 1) :
    construct env c = RandM.raise .indexError := by
  unfold construct
  generalize mkGrid c.t1 c.t2 = grid at hk ⊢
  obtain ⟨t0, ts, rfl⟩ : ∃ t0 ts, grid = t0 :: ts := by
    match grid, hk with
    | a :: l, _ => exact ⟨a, l, rfl⟩
  simp only [hdet, Bool.false_eq_true, if_false, forwardStoch, bind_assoc, enumLoop,
    stochBody_zero_dim1 env c t0 _ hd, RandM.raise_bind]

theorem construct_stoch_single (env : Env ρ K) (c : Cfg d N M K) (hdet : c.deterministic = false)
    (hd : 2 ≤ d) (t0 : K) (hk : mkGrid c.t1 c.t2 = [t0]) :
    construct env c = pure ⟨c, [t0], [pt N c.y2], [pt N c.y1],
      if c.reweight && c.brownBridge then some (zerosT d N 1) else none⟩ := by
  unfold construct
  have h1 := enumStoch_eq env c t0 [] hd
  simp only [hk, hdet, Bool.false_eq_true, if_false, forwardStoch, List.length_singleton, chain,
    List.length_nil, Nat.zero_add] at h1 ⊢
  rw [h1]
  simp only [pure_bind]
  rw [pinRows_ok _ _ _ (pyIdx_neg_one (by simp))]
  simp only [RandM.liftM_ok, pure_bind]
  rw [backwardSim_gen, genBackward_single _ _ _ _ _ _ _ (zerosT_length ..)]
  rfl

end numpy
end DPFC
