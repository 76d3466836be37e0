import Verif.Lib.Monitor

/-! The arguments of the calls when the drifts leave the arrays they are handed alone. -/

set_option linter.unusedSectionVars false
set_option linter.unusedSimpArgs false

namespace DPFC
open Spec

section
variable {K ρ α β : Type} {N d : Nat}

/-- The calls made by a successful run satisfy `Q`. -/
def CallsPost (x : RandM ρ α) (y : Mon d N ρ K α) (Q : α → List (Call d N K) → Prop) : Prop :=
  ∀ r, ∃ l, MakesCalls x y r l ∧ ∀ a r', x r = .ok (a, r') → Q a l

theorem CallsPost.mono {x : RandM ρ α} {y : Mon d N ρ K α} {Q Q' : α → List (Call d N K) → Prop}
    (h : CallsPost x y Q) (hq : ∀ a l, Q a l → Q' a l) : CallsPost x y Q' := fun r =>
  let ⟨l, hl, h'⟩ := h r
  ⟨l, hl, fun a r' e => hq a l (h' a r' e)⟩

theorem CallsPost.free {x : RandM ρ α} {y : Mon d N ρ K α} (h : ∀ σ m, Free x (y σ m)) :
    CallsPost x y (fun a l => l = [] ∧ ∃ r r', x r = .ok (a, r')) :=
  fun r => ⟨[], MakesCalls.free h r, fun _ r' e => ⟨rfl, r, r', e⟩⟩

theorem CallsPost.call {x : RandM ρ α} (c : Call d N K) :
    CallsPost x (fun _ m => watched (m c) x) (fun a l => l = [c] ∧ ∃ r r', x r = .ok (a, r')) :=
  fun r => ⟨[c], MakesCalls.call c r, fun _ r' e => ⟨rfl, r, r', e⟩⟩

theorem CallsPost.bind {x : RandM ρ α} {y : Mon d N ρ K α} {f : α → RandM ρ β} {g : α → Mon d N ρ K β}
    {Q : α → List (Call d N K) → Prop} {Q' : α → β → List (Call d N K) → Prop}
    (h : CallsPost x y Q) (hf : ∀ a l, Q a l → CallsPost (f a) (g a) (Q' a)) :
    CallsPost (x >>= f) (fun σ m => y σ m >>= fun a => g a σ m)
      (fun b l => ∃ a l1 l2, l = l1 ++ l2 ∧ Q a l1 ∧ Q' a b l2) := by
  intro r
  obtain ⟨l, hl, ho⟩ := h r
  cases hx : x r with
  | error e =>
    refine ⟨l, MakesCalls.bind_error hl hx, fun b r' h => ?_⟩
    rw [RandM.bind_app, hx] at h
    cases h
  | ok p =>
    obtain ⟨a, r'⟩ := p
    obtain ⟨l', hl', ho'⟩ := hf a l (ho a r' hx) r'
    refine ⟨l ++ l', MakesCalls.bind_ok hl hx hl', fun b r'' h => ?_⟩
    rw [RandM.bind_app, hx] at h
    exact ⟨a, l, l', rfl, ho a r' hx, ho' b r'' h⟩

theorem CallsPost.lift {x : Except PyErr α} {f : α → RandM ρ β} {g : α → Mon d N ρ K β}
    {Q : β → List (Call d N K) → Prop} (hf : ∀ a, x = .ok a → CallsPost (f a) (g a) Q) :
    CallsPost ((liftM x : RandM ρ α) >>= f) (fun σ m => (liftM x : RandM (ρ × σ) α) >>= fun a => g a σ m) Q := by
  cases x with
  | error e =>
    intro r
    refine ⟨[], fun σ m s => rfl, fun a r' h => ?_⟩
    cases h
  | ok a => exact hf a rfl

theorem CallsPost.bind_left {x : RandM ρ α} {y : Mon d N ρ K α} {f : α → RandM ρ β} {g : α → Mon d N ρ K β}
    {Q : β → List (Call d N K) → Prop} (h : ∀ σ m, Free x (y σ m)) (hf : ∀ a, CallsPost (f a) (g a) Q) :
    CallsPost (x >>= f) (fun σ m => y σ m >>= fun a => g a σ m) Q := by
  refine ((CallsPost.free h).bind fun a l _ => hf a).mono ?_
  rintro b l ⟨a, l1, l2, rfl, ⟨rfl, -⟩, hq⟩
  simpa using hq

theorem CallsPost.bind_right {x : RandM ρ α} {y : Mon d N ρ K α} {f : α → RandM ρ β} {g : α → Mon d N ρ K β}
    {Q : α → List (Call d N K) → Prop} (h : CallsPost x y Q) (hf : ∀ a σ m, Free (f a) (g a σ m)) :
    CallsPost (x >>= f) (fun σ m => y σ m >>= fun a => g a σ m)
      (fun b l => ∃ a, Q a l ∧ ∃ r r', f a r = .ok (b, r')) := by
  refine (h.bind fun a l _ => CallsPost.free (hf a)).mono ?_
  rintro b l ⟨a, l1, l2, rfl, hq, rfl, hb⟩
  exact ⟨a, by simpa using hq, hb⟩

end

section
variable {K ρ : Type} [Add K] [Sub K] [Mul K] [Div K] [Neg K] [NumOps K]
variable {N M d : Nat}

theorem pyGet_pred {S : Type} {Z : List S} {ti : Nat} {x : S} (h1 : 1 ≤ ti) (h : pyGet Z ((ti : Int) - 1) = .ok x) :
    Z[ti - 1]? = some x := by
  have e : ((ti : Int) - 1) = ((ti - 1 : Nat) : Int) := by omega
  rw [e] at h
  unfold pyGet pyIdx at h
  by_cases hlt : ti - 1 < Z.length
  · rw [List.getElem?_eq_getElem hlt]
    have : pyGet Z ((ti - 1 : Nat) : Int) = .ok Z[ti - 1] :=
      pyGet_of_getElem? (List.getElem?_eq_getElem hlt)
    unfold pyGet pyIdx at this
    rw [this] at h
    injection h with h
    rw [h]
  · exfalso
    rw [if_pos (by omega), if_neg (by omega)] at h
    cases h

theorem setSlice_nat_ok {Z Z' : Traj d N K} {ti : Nat} {y : Mat d N K} (h : setSlice Z (ti : Int) y = .ok Z') :
    ti < Z.length ∧ Z' = Z.set ti y := by
  unfold setSlice at h
  cases hj : pyIdx Z.length (ti : Int) with
  | error e => rw [hj] at h; cases h
  | ok j =>
    rw [hj] at h
    simp only [Except.ok_bind', Except.ok.injEq] at h
    have hlt := pyIdx_ok_lt hj
    by_cases hti : ti < Z.length
    · rw [pyIdx_nat _ hti] at hj
      injection hj with hj
      subst hj
      exact ⟨hti, h.symm⟩
    · exfalso
      unfold pyIdx at hj
      rw [if_pos (by omega), if_neg (by omega)] at hj
      cases hj

theorem lift_val {α : Type} {x : Except PyErr α} {a : α} {r r' : ρ} (h : (liftM x : RandM ρ α) r = .ok (a, r')) :
    x = .ok a := (RandM.lift_ok.1 h).1

/-- Calls of one forward step of a drift that leaves its argument alone. -/
def StepCalls (first : Mat d N K → K → List (Call d N K)) (reweight : Bool)
    (weigh : Mat d N K → K → Mat d N K → Prop)
    (mk : Mat d N K → K → Call d N K) (ti : Nat) (tt : K) (Z Z' : Traj d N K) (l : List (Call d N K)) : Prop :=
  ∃ x w y, Z[ti - 1]? = some x ∧ ti < Z.length ∧ Z' = Z.set ti y ∧
    l = first x tt ++ (if reweight then [mk w tt] else []) ∧
    (reweight = true → weigh w tt y)

theorem callsPost_forward (plot : Bool) (env : Env ρ K) (kern : String) (g : K) {f : EDrift d N ρ K}
    (hf : Keeps f) (mk : Mat d N K → K → Call d N K) (ti : Nat) (x : Mat d N K) (t : K) :
    CallsPost (eForwardCall plot env M kern g f ti x t)
      (fun σ m => eForwardCall plot (besides σ env) M kern g
        ⟨fun x t => watched (m (mk x t)) (f.call2 x t), fun x => watched (m (.f1 x)) (f.call1 x)⟩ ti x t)
      (fun p l => l = [mk x t] ∧ p.2 = x) := by
  unfold eForwardCall
  by_cases h1 : ti = 1
  · simp only [if_pos h1]
    unfold eNoisyStep
    refine ((CallsPost.call (mk x t)).bind_right fun _ σ m =>
      Free.bind (Free.normalMat _ _ _ _) fun _ => Free.pure _).mono ?_
    rintro p l ⟨a, ⟨rfl, r, r', ha⟩, r1, r1', hp⟩
    obtain ⟨xi, r2, -, hp⟩ := RandM.bind_ok.1 hp
    obtain ⟨rfl, -⟩ := RandM.pure_ok.1 hp
    exact ⟨rfl, hf.1 _ _ _ _ _ _ ha⟩
  · simp only [if_neg h1]
    unfold eOttoStep eFSeperate
    refine (CallsPost.bind_right (Q := fun p l => l = [mk x t] ∧ p.2 = x) ?_ fun _ σ m => Free.pure _).mono ?_
    · refine CallsPost.bind_left (fun σ m => Free.scoreAtParticles _ _ _ _ _) fun _ => ?_
      refine ((CallsPost.call (mk x t)).bind_right fun _ σ m => Free.pure _).mono ?_
      rintro p l ⟨a, ⟨rfl, r, r', ha⟩, r1, r1', hp⟩
      obtain ⟨rfl, -⟩ := RandM.pure_ok.1 hp
      exact ⟨rfl, hf.1 _ _ _ _ _ _ ha⟩
    · rintro p l ⟨a, ⟨rfl, ha⟩, r1, r1', hp⟩
      obtain ⟨rfl, -⟩ := RandM.pure_ok.1 hp
      exact ⟨rfl, ha⟩

theorem storeStep_quiet {Z Z' : Traj d N K} {ti : Nat} {x y : Mat d N K} (h1 : 1 ≤ ti)
    (hx : pyGet Z ((ti : Int) - 1) = .ok x) (h : storeStep Z ti (y, x) = .ok Z') :
    Z[ti - 1]? = some x ∧ ti < Z.length ∧ Z' = Z.set ti y := by
  rw [storeStep_self hx] at h
  exact ⟨pyGet_pred h1 hx, setSlice_nat_ok h⟩

theorem callsPost_weigh {first : Mat d N K → K → List (Call d N K)} {reweight : Bool} {weigh : Mat d N K → K → Mat d N K → Prop}
    {mk : Mat d N K → K → Call d N K} {ti : Nat} {tt : K} {Z : Traj d N K}
    {f : Traj d N K → RandM ρ (Traj d N K)} {g : Traj d N K → Mon d N ρ K (Traj d N K)}
    {x : RandM ρ (Traj d N K)} {y : Mon d N ρ K (Traj d N K)}
    (hx : CallsPost x y fun Z' l => ∃ x y, Z[ti - 1]? = some x ∧ ti < Z.length ∧ Z' = Z.set ti y ∧
      l = first x tt)
    (hf : ∀ Z, reweight = true → CallsPost (f Z) (g Z) fun Z' l => ∃ w y, Z[ti]? = some w ∧ Z' = Z.set ti y ∧
      l = [mk w tt] ∧ weigh w tt y)
    (hf' : ∀ Z, reweight = false → CallsPost (f Z) (g Z) fun Z' l => Z' = Z ∧ l = []) :
    CallsPost (x >>= f) (fun σ m => y σ m >>= fun a => g a σ m) (StepCalls first reweight weigh mk ti tt Z) := by
  cases reweight with
  | true =>
    refine (hx.bind fun a l _ => hf a rfl).mono ?_
    rintro Z'' l ⟨Z', l1, l2, rfl, ⟨x, y, hx, hl, rfl, rfl⟩, w, y', hw, rfl, rfl, ht⟩
    exact ⟨x, w, y', hx, hl, by rw [List.set_set], by simp, fun _ => ht⟩
  | false =>
    refine (hx.bind fun a l _ => hf' a rfl).mono ?_
    rintro Z'' l ⟨Z', l1, l2, rfl, ⟨x, y, hx, hl, rfl, rfl⟩, rfl, rfl⟩
    exact ⟨x, x, y, hx, hl, rfl, by simp, by simp⟩

theorem pyGet_nat_some {S : Type} {Z : List S} {ti : Nat} {x : S} (h : pyGet Z (ti : Int) = .ok x) :
    Z[ti]? = some x := by
  have := pyGet_pred (Z := Z) (ti := ti + 1) (x := x) (by omega) (by
    rw [show (((ti + 1 : Nat) : Int) - 1) = (ti : Int) by omega]; exact h)
  simpa using this

theorem callsPost_ottoBody (env : Env ρ K) (c : ECfg d N M ρ K) (hf : Keeps c.f) (ti : Nat) (h1 : 1 ≤ ti) (tt : K) (Z : Traj d N K) :
    CallsPost (eOttoBody env c ti tt Z)
      (fun σ m => eOttoBody (besides σ env) (watch m c) ti tt Z)
      (StepCalls (fun x t => [Call.f x (t - lit 1 1000)]) c.reweight
        (fun w t y => ∃ r r', eOttoReweight env c.U w t r = .ok (y, r')) Call.U ti tt Z) := by
  have h0 : ti ≠ 0 := by omega
  have hp : decide (0 < ti) = true := by simp; omega
  unfold eOttoBody
  refine callsPost_weigh ?_ (fun Z hr => ?_) (fun Z hr => ?_)
  · unfold eOttoMove
    simp only [if_neg h0, watch]
    refine CallsPost.lift fun x hx => ?_
    refine ((callsPost_forward true env (effKern c.kern) c.g hf Call.f ti x (tt - dtc)).bind_right
        fun _ σ m => Free.lift _).mono ?_
    rintro Z' l ⟨⟨y, x'⟩, ⟨rfl, rfl⟩, r, r', hs⟩
    obtain ⟨a, b, e⟩ := storeStep_quiet h1 hx (lift_val hs)
    exact ⟨_, _, a, b, e, rfl⟩
  · simp only [watch, hr, hp, Bool.and_true, if_true]
    refine CallsPost.lift fun x hx => ?_
    refine (CallsPost.bind_right (Q := fun y l => l = [Call.U x tt] ∧
      ∃ r r', eOttoReweight env c.U x tt r = .ok (y, r')) ?_ fun _ σ m => Free.lift _).mono ?_
    · intro r
      obtain ⟨l, hl, hl'⟩ := (CallsPost.bind_right (CallsPost.call (x := c.U.call2 x tt) (Call.U x tt))
        (f := fun p => do
          let Tstar ← (reweightOT env (tr p.2) (normWeights fun n => NumOps.exp (p.1 n * dtc)) :
            Except PyErr (Mat N N K))
          pure (mm p.2 Tstar))
        (g := fun p σ m => do
          let Tstar ← (reweightOT (besides σ env) (tr p.2) (normWeights fun n => NumOps.exp (p.1 n * dtc)) :
            Except PyErr (Mat N N K))
          pure (mm p.2 Tstar))
        fun _ σ m => Free.bind (Free.lift _) fun _ => Free.pure _) r
      refine ⟨l, hl, fun y r' hy => ?_⟩
      obtain ⟨a, ⟨rfl, -⟩, -⟩ := hl' y r' hy
      exact ⟨rfl, r, r', hy⟩
    · rintro Z' l ⟨y, ⟨rfl, hy⟩, r, r', hs⟩
      exact ⟨x, y, pyGet_nat_some hx, (setSlice_nat_ok (lift_val hs)).2, rfl, hy⟩
  · simp only [watch, hr, Bool.false_and, Bool.false_eq_true, if_false]
    refine (CallsPost.free fun σ m => Free.pure _).mono ?_
    rintro Z' l ⟨rfl, r, r', h⟩
    exact ⟨(RandM.pure_ok.1 h).1.symm, rfl⟩

/-- The calls of a loop that follows `StepCalls`. -/
def LoopCalls (first : Mat d N K → K → List (Call d N K)) (reweight : Bool)
    (weigh : Mat d N K → K → Mat d N K → Prop) (mk : Mat d N K → K → Call d N K)
    (Z : Traj d N K) (ts : List K) (l : List (Call d N K)) : Prop :=
  ∃ raws : Traj d N K, raws.length = ts.length ∧
    l = (Z.zip (raws.zip ts)).flatMap (fun p => first p.1 p.2.2 ++ (if reweight then [mk p.2.1 p.2.2] else [])) ∧
    (reweight = true → ∀ p ∈ Z.tail.zip (raws.zip ts), weigh p.2.1 p.2.2 p.1)

theorem drop_eq_cons {S : Type} {l : List S} {n : Nat} {x : S} (h : l[n]? = some x) :
    l.drop n = x :: l.drop (n + 1) := by
  obtain ⟨hn, rfl⟩ := List.getElem?_eq_some_iff.1 h
  exact List.drop_eq_getElem_cons hn

theorem callsPost_loop {first : Mat d N K → K → List (Call d N K)} {reweight : Bool}
    {weigh : Mat d N K → K → Mat d N K → Prop} {mk : Mat d N K → K → Call d N K}
    {body : Nat → K → Traj d N K → RandM ρ (Traj d N K)} {ybody : Nat → K → Traj d N K → Mon d N ρ K (Traj d N K)}
    (h : ∀ ti tt Z, 1 ≤ ti → ti < Z.length →
      CallsPost (body ti tt Z) (ybody ti tt Z) (StepCalls first reweight weigh mk ti tt Z)) :
    ∀ (ts : List K) (ti : Nat) (Z : Traj d N K), 1 ≤ ti → Z.length = ti + ts.length →
    CallsPost (enumLoop body ti ts Z) (fun σ m => enumLoop (fun ti tt Z => ybody ti tt Z σ m) ti ts Z)
      (fun Z' l => Z'.length = Z.length ∧ (∀ j, j < ti → Z'[j]? = Z[j]?) ∧
        LoopCalls first reweight weigh mk (Z'.drop (ti - 1)) ts l)
  | [], ti, Z, _, _ => by
    refine (CallsPost.free fun σ m => Free.pure _).mono ?_
    rintro Z' l ⟨rfl, r, r', e⟩
    obtain ⟨rfl, -⟩ := RandM.pure_ok.1 e
    exact ⟨rfl, fun _ _ => rfl, [], rfl, by simp, by simp⟩
  | t :: ts, ti, Z, h1, hlen => by
    simp only [List.length_cons] at hlen
    refine ((h ti t Z h1 (by omega)).bind fun Z1 l hZ => callsPost_loop h ts (ti + 1) Z1 (by omega) (by
      obtain ⟨_, _, _, _, _, rfl, _, _⟩ := hZ
      rw [List.length_set]; omega)).mono ?_
    rintro Z' l ⟨Z1, l1, l2, rfl, ⟨x, w, y, hx, hlt, rfl, rfl, hw⟩, hl, hj, raws, hr, rfl, hwt⟩
    rw [List.length_set] at hl
    have hxi : Z'[ti - 1]? = some x := by
      rw [hj _ (by omega), List.getElem?_set_ne (by omega), hx]
    have hyi : Z'[ti]? = some y := by
      rw [hj _ (by omega), List.getElem?_set_self hlt]
    have e1 : Z'.drop (ti - 1) = x :: Z'.drop ti := by
      have := drop_eq_cons hxi
      rwa [show ti - 1 + 1 = ti by omega] at this
    have e2 := drop_eq_cons hyi
    refine ⟨hl, fun j hjt => by rw [hj j (by omega), List.getElem?_set_ne (by omega)], w :: raws, by simp [hr], ?_, ?_⟩
    · rw [e1]
      simp only [List.zip_cons_cons, List.flatMap_cons, Nat.add_sub_cancel]
    · intro hrw p hp
      rw [e1, List.tail_cons, e2] at hp
      simp only [List.zip_cons_cons, List.mem_cons] at hp
      rcases hp with rfl | hp
      · exact hw hrw
      · refine hwt hrw p ?_
        rw [Nat.add_sub_cancel, e2, List.tail_cons]
        exact hp

/-- A whole forward sweep: the first step makes no calls. -/
theorem callsPost_sweep {first : Mat d N K → K → List (Call d N K)} {reweight : Bool}
    {weigh : Mat d N K → K → Mat d N K → Prop} {mk : Mat d N K → K → Call d N K}
    {body : Nat → K → Traj d N K → RandM ρ (Traj d N K)} {ybody : Nat → K → Traj d N K → Mon d N ρ K (Traj d N K)}
    (h0 : ∀ tt Z σ m, Free (body 0 tt Z) (ybody 0 tt Z σ m))
    (h0' : ∀ tt Z r Z' r', body 0 tt Z r = .ok (Z', r') → Z'.length = Z.length)
    (h : ∀ ti tt Z, 1 ≤ ti → ti < Z.length → CallsPost (body ti tt Z) (ybody ti tt Z) (StepCalls first reweight weigh mk ti tt Z))
    (ts : List K) (Z : Traj d N K) (hZ : Z.length = ts.length) :
    CallsPost (enumLoop body 0 ts Z) (fun σ m => enumLoop (fun ti tt Z => ybody ti tt Z σ m) 0 ts Z)
      (fun Z' l => Z'.length = ts.length ∧ LoopCalls first reweight weigh mk Z' ts.tail l) := by
  cases ts with
  | nil =>
    refine (CallsPost.free fun σ m => Free.pure _).mono ?_
    rintro Z' l ⟨rfl, r, r', e⟩
    obtain ⟨rfl, -⟩ := RandM.pure_ok.1 e
    exact ⟨hZ, [], rfl, by simp, by simp⟩
  | cons t ts =>
    refine ((CallsPost.free (h0 t Z)).bind fun Z1 l hl => callsPost_loop h ts (0 + 1) Z1 (by omega) (by
      obtain ⟨-, r, r', e⟩ := hl
      rw [h0' _ _ _ _ _ e, hZ, List.length_cons]; omega)).mono ?_
    rintro Z' l ⟨Z1, l1, l2, rfl, ⟨rfl, r, r', e⟩, hl, -, h⟩
    exact ⟨by rw [hl, h0' _ _ _ _ _ e, hZ], h⟩

theorem setRow_len {T T' : Traj d N K} {i t : Int} {v : K} (h : setRow T i t v = .ok T') :
    T'.length = T.length := by
  unfold setRow at h
  cases hi : pyIdx d i with
  | error e => rw [hi] at h; cases h
  | ok a =>
    cases hj : pyIdx T.length t with
    | error e => rw [hi] at h; simp only [Except.ok_bind', hj] at h; cases h
    | ok j =>
      rw [hi] at h
      simp only [Except.ok_bind', hj] at h
      injection h with h
      rw [← h]
      simp

theorem forFin_len : ∀ {n : Nat} {f : Fin n → Traj d N K → Except PyErr (Traj d N K)}
    (_ : ∀ i T T', f i T = .ok T' → T'.length = T.length) {T T' : Traj d N K}, forFin n f T = .ok T' →
    T'.length = T.length
  | 0, _, _, _, _, h => by cases h; rfl
  | n+1, f, hf, T, T', h => by
    unfold forFin at h
    cases h0 : f 0 T with
    | error e => rw [h0] at h; cases h
    | ok T1 =>
      rw [h0] at h
      rw [forFin_len (fun i => hf i.succ) h, hf 0 _ _ h0]

theorem pinRows_len {T T' : Traj d N K} {t : Int} {y : Fin d → K} (h : pinRows T t y = .ok T') :
    T'.length = T.length := forFin_len (fun _ _ _ h => setRow_len h) h

theorem initRows_len {T T' : Traj d N K} {y1 y2 : Fin d → K} {b : Bool}
    (h : forFin d (fun di Z => do
      let Z ← setRow Z di.val 0 (y1 di)
      if b then setRow Z di.val (-1) (y2 di) else .ok Z) T = .ok T') : T'.length = T.length := by
  refine forFin_len (fun i T T' h => ?_) h
  cases h1 : setRow T (i.val : Int) 0 (y1 i) with
  | error e => rw [h1] at h; cases h
  | ok T1 =>
    rw [h1] at h
    simp only [Except.ok_bind'] at h
    rw [← setRow_len h1]
    cases b with
    | true => exact setRow_len h
    | false => cases h; rfl

theorem callsPost_trueBody (env : Env ρ K) (c : ECfg d N M ρ K) (hft : Keeps c.fTrue)
    (ti : Nat) (h1 : 1 ≤ ti) (tt : K) (Z : Traj d N K) :
    CallsPost (eOttoTrueBody env c ti tt Z)
      (fun σ m => eOttoTrueBody (besides σ env) (watch m c) ti tt Z)
      (StepCalls (fun x t => [Call.fTrue x (t - lit 1 1000)]) false (fun _ _ _ => True) Call.U ti tt Z) := by
  have h0 : ti ≠ 0 := by omega
  unfold eOttoTrueBody
  simp only [if_neg h0, watch]
  refine CallsPost.lift fun x hx => ?_
  refine ((callsPost_forward false env (effKern c.kern) c.g hft Call.fTrue ti x (tt - dtc)).bind_right
      fun _ σ m => Free.lift _).mono ?_
  rintro Z' l ⟨⟨y, x'⟩, ⟨rfl, rfl⟩, r, r', hs⟩
  obtain ⟨a, b, e⟩ := storeStep_quiet h1 hx (lift_val hs)
  exact ⟨_, x', _, a, b, e, by simp; rfl, by simp⟩

/-- Calls of one backward step. -/
def BackStep (grid : List K) (ti : Nat) (B B' : Traj d N K) (l : List (Call d N K)) : Prop :=
  ∃ b t y, B[grid.length - ti]? = some b ∧ grid[grid.length - ti]? = some t ∧
    B' = B.set (grid.length - ti - 1) y ∧ l = [.f b t]

theorem callsPost_backLoop {grid : List K}
    {body : Nat → K → Traj d N K → RandM ρ (Traj d N K)} {ybody : Nat → K → Traj d N K → Mon d N ρ K (Traj d N K)}
    (h : ∀ ti tt B, 1 ≤ ti → ti + 1 < grid.length →
      CallsPost (body ti tt B) (ybody ti tt B) (BackStep grid ti B)) :
    ∀ (ts : List K) (ti : Nat) (B : Traj d N K), 1 ≤ ti → ti + ts.length + 1 = grid.length →
    CallsPost (enumLoop body ti ts B) (fun σ m => enumLoop (fun ti tt Z => ybody ti tt Z σ m) ti ts B)
      (fun B' l => (∀ j, grid.length - ti ≤ j → B'[j]? = B[j]?) ∧
        l = (((B'.zip grid).take (grid.length - ti + 1)).drop 2).reverse.map fun p => Call.f p.1 p.2)
  | [], ti, B, _, hk => by
    refine (CallsPost.free fun σ m => Free.pure _).mono ?_
    rintro Z' l ⟨rfl, r, r', e⟩
    obtain ⟨rfl, -⟩ := RandM.pure_ok.1 e
    refine ⟨fun _ _ => rfl, ?_⟩
    simp only [List.length_nil] at hk
    rw [List.drop_eq_nil_of_le (by simp; omega)]
    rfl
  | t :: ts, ti, B, h1, hk => by
    simp only [List.length_cons] at hk
    refine ((h ti t B h1 (by omega)).bind fun B1 l _ =>
      callsPost_backLoop h ts (ti + 1) B1 (by omega) (by omega)).mono ?_
    rintro B' l ⟨B1, l1, l2, rfl, ⟨b, u, y, hb, hu, rfl, rfl⟩, hj, rfl⟩
    have hb' : B'[grid.length - ti]? = some b := by
      rw [hj _ (by omega), List.getElem?_set_ne (by omega), hb]
    refine ⟨fun j hjt => by rw [hj j (by omega), List.getElem?_set_ne (by omega)], ?_⟩
    have hz : (B'.zip grid)[grid.length - ti]? = some (b, u) := by
      rw [List.getElem?_zip_eq_some]; exact ⟨hb', hu⟩
    obtain ⟨hlt, hz'⟩ := List.getElem?_eq_some_iff.1 hz
    rw [List.take_succ_eq_append_getElem hlt, hz', List.drop_append_of_le_length (by simp at hlt ⊢; omega),
      show grid.length - (ti + 1) + 1 = grid.length - ti by omega]
    simp

/-- A whole backward sweep. -/
theorem callsPost_back {grid : List K} {y1 : Fin d → K}
    {body : Nat → K → Traj d N K → RandM ρ (Traj d N K)} {ybody : Nat → K → Traj d N K → Mon d N ρ K (Traj d N K)}
    (h0 : ∀ tt B σ m, Free (body 0 tt B) (ybody 0 tt B σ m))
    (h : ∀ ti tt B, 1 ≤ ti → ti + 1 < grid.length →
      CallsPost (body ti tt B) (ybody ti tt B) (BackStep grid ti B)) (B : Traj d N K) :
    CallsPost (enumLoop body 0 grid.dropLast B >>= fun B => (pinRows B 0 y1 : Except PyErr (Traj d N K)))
      (fun σ m => enumLoop (fun ti tt Z => ybody ti tt Z σ m) 0 grid.dropLast B >>=
        fun B => (pinRows B 0 y1 : Except PyErr (Traj d N K)))
      (fun B' l => l = ((B'.zip grid).drop 2).reverse.map fun p => Call.f p.1 p.2) := by
  have hpin : ∀ (B B' : Traj d N K), pinRows B 0 y1 = .ok B' → ∀ g : List K, (B'.zip g).drop 2 = (B.zip g).drop 2 := by
    intro B B' h g
    cases B with
    | nil =>
      by_cases hd : d = 0
      · subst hd
        simp only [pinRows, forFin] at h
        cases h
        rfl
      · obtain ⟨n, rfl⟩ := Nat.exists_eq_succ_of_ne_zero hd
        have e1 : pyIdx (n + 1) (((0 : Fin (n + 1)).val : Nat) : Int) = .ok 0 := pyIdx_nat _ (by simp)
        have e2 : pyIdx 0 0 = .error .indexError := by simp [pyIdx]
        simp only [pinRows, forFin, setRow, e1, List.length_nil, e2, Except.ok_bind'] at h
        cases h
    | cons b B =>
      have e : pyIdx (b :: B).length 0 = .ok 0 := pyIdx_zero (by simp)
      rw [pinRows_ok (b :: B) 0 0 e] at h
      cases h
      cases g <;> simp
  have hl : ∀ B, CallsPost (enumLoop body 0 grid.dropLast B)
      (fun σ m => enumLoop (fun ti tt Z => ybody ti tt Z σ m) 0 grid.dropLast B)
      (fun B' l => l = ((B'.zip grid).drop 2).reverse.map fun p => Call.f p.1 p.2) := by
    intro B
    cases hg : grid.dropLast with
    | nil =>
      refine (CallsPost.free fun σ m => Free.pure _).mono ?_
      rintro Z' l ⟨rfl, -⟩
      have : grid.length ≤ 1 := by
        have := congrArg List.length hg
        simp at this; omega
      rw [List.drop_eq_nil_of_le (by simp; omega)]
      rfl
    | cons t ts =>
      have hlen : grid.length = ts.length + 2 := by
        have := congrArg List.length hg
        simp at this; omega
      refine CallsPost.bind_left (h0 t B) fun Z1 =>
        (callsPost_backLoop h ts (0 + 1) Z1 (by omega) (by omega)).mono ?_
      rintro B' l ⟨-, rfl⟩
      rw [List.take_of_length_le (by simp; omega)]
  refine ((hl B).bind_right fun _ σ m => Free.lift _).mono ?_
  rintro B' l ⟨B1, rfl, r, r', e⟩
  rw [hpin B1 B' (lift_val e)]

theorem callsPost_backBody (env : Env ρ K) (c : ECfg d N M ρ K) (hf : Keeps c.f) (grid : List K) (Z : Traj d N K)
    (ti : Nat) (tt : K) (B : Traj d N K) (h1 : 1 ≤ ti) (h2 : ti + 1 < grid.length) :
    CallsPost (eBackwardBody env c grid Z ti tt B)
      (fun σ m => eBackwardBody (besides σ env) (watch m c) grid Z ti tt B)
      (BackStep grid ti B) := by
  have h0 : ti ≠ 0 := by omega
  have er : ((grid.length : Int) - ti - 1 + 1) = ((grid.length - ti : Nat) : Int) := by omega
  have er' : ((grid.length : Int) - ti - 1) = ((grid.length - ti - 1 : Nat) : Int) := by omega
  unfold eBackwardBody
  simp only [if_neg h0, watch]
  refine CallsPost.bind_left (fun σ m => Free.densityEst _ _ _ _ _ _) fun gro => ?_
  by_cases hc : (ti = 1 ∧ c.deterministic = true) ∨ c.deterministic = false
  · simp only [hc, if_true]
    refine CallsPost.lift fun b hb => CallsPost.lift fun t ht => ?_
    refine ((CallsPost.call (Call.f b t)).bind_right fun _ σ m =>
      Free.bind (Free.normalMat _ _ _ _) fun _ => Free.lift _).mono ?_
    rintro B' l ⟨⟨v, b'⟩, ⟨rfl, r, r', ha⟩, r1, r1', hp⟩
    obtain rfl := hf.1 _ _ _ _ _ _ ha
    obtain ⟨xi, r2, -, hp⟩ := RandM.bind_ok.1 hp
    have hs := lift_val hp
    rw [storeBack_self hb, er'] at hs
    rw [er] at hb ht
    exact ⟨_, t, _, pyGet_nat_some hb, pyGet_nat_some ht, (setSlice_nat_ok hs).2, rfl⟩
  · simp only [hc, if_false]
    refine CallsPost.bind_left (fun σ m => Free.bwDensityEst _ _ _ _ _ _) fun grb => ?_
    refine CallsPost.lift fun b hb => CallsPost.lift fun t ht => ?_
    refine ((CallsPost.call (Call.f b t)).bind_right fun _ σ m => Free.lift _).mono ?_
    rintro B' l ⟨⟨v, b'⟩, ⟨rfl, r, r', ha⟩, r1, r1', hp⟩
    obtain rfl := hf.1 _ _ _ _ _ _ ha
    have hs := lift_val hp
    rw [storeBack_self hb, er'] at hs
    rw [er] at hb ht
    exact ⟨_, t, _, pyGet_nat_some hb, pyGet_nat_some ht, (setSlice_nat_ok hs).2, rfl⟩

theorem callsPost_backward (env : Env ρ K) (c : ECfg d N M ρ K) (hf : Keeps c.f) (grid : List K)
    (Z B : Traj d N K) :
    CallsPost (eBackwardSim env c grid Z B) (fun σ m => eBackwardSim (besides σ env) (watch m c) grid Z B)
      (fun B' l => l = ((B'.zip grid).drop 2).reverse.map fun p => Call.f p.1 p.2) := by
  unfold eBackwardSim
  exact callsPost_back (ybody := fun ti tt B σ m => eBackwardBody (besides σ env) (watch m c) grid Z ti tt B)
    (fun tt B σ m => Free.lift _) (fun ti tt B h1 h2 => callsPost_backBody env c hf grid Z ti tt B h1 h2) B

/-- The calls of a whole deterministic run in terms of what it stored. -/
def DetCalls (weigh : Mat d N K → K → Mat d N K → Prop) (reweight : Bool) (grid : List K)
    (o : EObj d N K) (l : List (Call d N K)) : Prop :=
  ∃ l1 l2, LoopCalls (fun x t => [Call.f x (t - lit 1 1000)]) reweight weigh Call.U o.Z grid.tail l1 ∧
    (∀ T, o.Ztr = some T → l2 = (T.zip grid.tail).map fun p => Call.fTrue p.1 (p.2 - lit 1 1000)) ∧
    (o.Ztr = none → l2 = []) ∧
    l = l1 ++ l2 ++ ((o.B.zip grid).drop 2).reverse.map fun p => Call.f p.1 p.2

theorem zip_zip_flatMap {A B C D : Type} (F : A → C → D) : ∀ (Z : List A) (raws : List B) (ts : List C),
    raws.length = ts.length →
    (Z.zip (raws.zip ts)).flatMap (fun p => [F p.1 p.2.2]) = (Z.zip ts).map fun p => F p.1 p.2
  | [], _, _, _ => rfl
  | _ :: _, [], [], _ => rfl
  | z :: Z, r :: raws, t :: ts, h => by
    simp only [List.zip_cons_cons, List.flatMap_cons, List.map_cons, zip_zip_flatMap F Z raws ts (by simpa using h)]
    rfl

theorem loopCalls_true {T : Traj d N K} {ts : List K} {l : List (Call d N K)}
    (h : LoopCalls (fun x t => [Call.fTrue x (t - lit 1 1000)]) false (fun _ _ _ => True) Call.U T ts l) :
    l = (T.zip ts).map fun p => Call.fTrue p.1 (p.2 - lit 1 1000) := by
  obtain ⟨raws, hr, rfl, -⟩ := h
  simp only [Bool.false_eq_true, if_false, List.append_nil]
  exact zip_zip_flatMap (fun x t => Call.fTrue x (t - lit 1 1000)) T raws ts hr

theorem callsPost_constructDet (env : Env ρ K) (c : ECfg d N M ρ K) (hdet : c.deterministic = true)
    (hf : Keeps c.f) (hft : Keeps c.fTrue) :
    CallsPost (eConstruct env c) (fun σ m => eConstruct (besides σ env) (watch m c))
      (DetCalls (fun w t y => ∃ r r', eOttoReweight env c.U w t r = .ok (y, r')) c.reweight (mkGrid c.t1 c.t2)) := by
  unfold eConstruct
  simp only [show ∀ σ (m : Call d N K → σ → Except PyErr σ), (watch m c).deterministic = true from
    fun _ _ => hdet, hdet, if_true]
  have hO := callsPost_sweep
    (ybody := fun ti tt Z σ m => eOttoBody (besides σ env) (watch m c) ti tt Z)
    (fun tt Z σ m => by
      unfold eOttoBody
      refine Free.bind (Free.lift _) fun Z => ?_
      simp only [watch, Nat.lt_irrefl, decide_false, Bool.and_false, Bool.false_eq_true, if_false]
      exact Free.pure _)
    (fun tt Z r Z' r' e => by
      unfold eOttoBody at e
      obtain ⟨Z1, r1, e1, e⟩ := RandM.bind_ok.1 e
      simp only [Nat.lt_irrefl, decide_false, Bool.and_false, Bool.false_eq_true, if_false] at e
      obtain ⟨rfl, -⟩ := RandM.pure_ok.1 e
      exact initRows_len (lift_val e1))
    (fun ti tt Z h1 _ => callsPost_ottoBody env c hf ti h1 tt Z) (mkGrid c.t1 c.t2)
    (zerosT d N (mkGrid c.t1 c.t2).length) (by simp [zerosT])
  have hT := callsPost_sweep
    (ybody := fun ti tt Z σ m => eOttoTrueBody (besides σ env) (watch m c) ti tt Z)
    (fun tt Z σ m => Free.lift _)
    (fun tt Z r Z' r' e => pinRows_len (lift_val e))
    (fun ti tt Z h1 _ => callsPost_trueBody env c hft ti h1 tt Z) (mkGrid c.t1 c.t2)
    (zerosT d N (mkGrid c.t1 c.t2).length) (by simp [zerosT])
  by_cases hz : (c.reweight && c.brownBridge) = true
  · simp only [show ∀ σ (m : Call d N K → σ → Except PyErr σ), ((watch m c).reweight && (watch m c).brownBridge)
      = true from fun _ _ => hz, hz, if_true]
    simp only [bind_assoc, pure_bind]
    refine (hO.bind fun Z l1 _ => hT.bind fun T l2 _ =>
      (callsPost_backward env c hf (mkGrid c.t1 c.t2) Z _).bind_right fun _ σ m => Free.pure _).mono ?_
    rintro o l ⟨Z, l1, l', rfl, ⟨-, h1⟩, T, l2, l3, rfl, ⟨-, h2⟩, B, rfl, r, r', e⟩
    obtain ⟨rfl, -⟩ := RandM.pure_ok.1 e
    refine ⟨l1, l2, h1, ?_, by simp, by simp⟩
    rintro T' ⟨⟩
    exact loopCalls_true h2
  · have hz' : (c.reweight && c.brownBridge) = false := by simpa using hz
    simp only [show ∀ σ (m : Call d N K → σ → Except PyErr σ), ((watch m c).reweight && (watch m c).brownBridge)
      = false from fun _ _ => hz', hz',
      if_false, Bool.false_eq_true, List.nil_append, pure_bind]
    refine (hO.bind fun Z l1 _ =>
      (callsPost_backward env c hf (mkGrid c.t1 c.t2) Z _).bind_right fun _ σ m => Free.pure _).mono ?_
    rintro o l ⟨Z, l1, l', rfl, ⟨-, h1⟩, B, rfl, r, r', e⟩
    obtain ⟨rfl, -⟩ := RandM.pure_ok.1 e
    exact ⟨l1, [], h1, by simp, by simp, by simp⟩

end
end DPFC
