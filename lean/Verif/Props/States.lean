import Verif.Lib.States
import Verif.Lib.Examples

/-!
# C106: containers and shapes of the initial and the target state (any arithmetic)
-/

set_option linter.unusedSectionVars false

namespace DPFC
open Spec
variable {K ρ : Type} [Add K] [Sub K] [Mul K] [Div K] [Neg K] [NumOps K]
variable {N M d : Nat}

/-- **C106** (vectors, columns and longer arrays). States given as vectors with `dim` entries, as columns, as matrices with `N`
equal columns, or (the target) with further entries make the same run as the plain vectors of the other properties, in both
classes and all modes. -/
theorem C106_vectors (env : Env ρ K) (c : Cfg d N M K) (Y1 Y2 : StateArg K)
    (h1 : Prescribes (N := N) Y1 fun i _ => c.y1 i) (h2 : Prescribes (N := N) Y2 fun i _ => c.y2 i) (hr : Y1.rows = d) :
    constructStates env c Y1 Y2 = construct env c ∧ torchConstructStates env c Y1 Y2 = torchConstruct env c := by
  have nF : ∀ g (Z : Traj d N K), loopFrom (startState .valueError c.brownBridge Y1 Y2) (ottoBody env c) g Z
      = forwardOtto env c g Z := fun g Z => loopFrom_eq (fun tt Z => by
        rw [startState_eq h1 h2]
        simp only [ottoBody, if_pos, Nat.lt_irrefl, decide_false, Bool.and_false, Bool.false_eq_true, if_false, bind_pure])
        (fun _ _ _ _ => rfl) g Z
  have tF : ∀ g (Z : Traj d N K), loopFrom (startState .runtimeError c.brownBridge Y1 Y2) (torchOttoBody env c) g Z
      = torchForwardOtto env c g Z := fun g Z => loopFrom_eq (fun tt Z => by
        rw [startState_eq h1 h2]
        simp only [torchOttoBody, if_pos, Nat.lt_irrefl, decide_false, Bool.and_false, Bool.false_eq_true, if_false, bind_pure])
        (fun _ _ _ _ => rfl) g Z
  have nT : ∀ g (Z : Traj d N K), loopFrom (fun T => pinState .valueError T 0 Y1) (ottoTrueBody env c) g Z
      = forwardOttoTrue env c g Z := fun g Z => loopFrom_eq (fun tt Z => by
        rw [pinState_eq h1]; rfl) (fun _ _ _ _ => rfl) g Z
  have tT : ∀ g (Z : Traj d N K), loopFrom (fun T => pinState .runtimeError T 0 Y1) (torchTrueBody env c) g Z
      = torchForwardOttoTrue env c g Z := fun g Z => loopFrom_eq (fun tt Z => by
        rw [pinState_eq h1]; rfl) (fun _ _ _ _ => rfl) g Z
  have nS : ∀ g (Z : Traj d N K), loopFrom (startStoch .valueError Y1) (stochBody env c) g Z
      = enumLoop (stochBody env c) 0 g Z := fun g Z => loopFrom_eq (fun tt Z => by
        rw [startStoch_eq h1 hr]
        simp only [RandM.liftM_bind]
        rfl) (fun _ _ _ _ => rfl) g Z
  have tS : ∀ g (Z : Traj d N K), loopFrom (startStoch .runtimeError Y1) (torchStochBody env c) g Z
      = torchForwardStoch env c g Z := fun g Z => loopFrom_eq (fun tt Z => by
        rw [startStoch_eq h1 hr]
        simp only [RandM.liftM_bind]
        rfl) (fun _ _ _ _ => rfl) g Z
  have nB : ∀ g (Z B : Traj d N K), loopFrom (fun B => pinState .valueError B (-1) Y2) (backwardBody env c g Z) g.dropLast B
      = enumLoop (backwardBody env c g Z) 0 g.dropLast B := fun g Z B => loopFrom_eq (fun tt Z => by
        rw [pinState_eq h2]; rfl) (fun _ _ _ _ => rfl) _ B
  have tB : ∀ g (Z B : Traj d N K), loopFrom (fun B => pinState .runtimeError B (-1) Y2) (torchBackwardBody env c g Z) g.dropLast B
      = enumLoop (torchBackwardBody env c g Z) 0 g.dropLast B := fun g Z B => loopFrom_eq (fun tt Z => by
        rw [pinState_eq h2]; rfl) (fun _ _ _ _ => rfl) _ B
  constructor
  · unfold constructStates construct forwardStoch backwardSim
    simp only [nF, nT, nS, nB]
    simp only [pinState_eq h1, pinState_eq h2, bind_assoc]
    rfl
  · unfold torchConstructStates torchConstruct torchBackwardSim
    simp only [tF, tT, tS, tB]
    simp only [pinState_eq h1]
    rfl

/-- Non-vacuity: a target given as a vector with an extra entry, and one given as a column. -/
example (env : Env ρ K) (c : Cfg 2 N M K) (x : K) :
    constructStates env c (.flat [c.y1 0, c.y1 1]) (.flat [c.y2 0, c.y2 1, x]) = construct env c ∧
    constructStates env c (.mat (b := 1) fun i _ => c.y1 i) (.mat (b := 1) fun i _ => c.y2 i) = construct env c := by
  refine ⟨(C106_vectors env c _ _ ?_ ?_ rfl).1, (C106_vectors env c _ _ ?_ ?_ rfl).1⟩
  · intro i; fin_cases i <;> exact ⟨_, rfl, fun _ => rfl⟩
  · intro i; fin_cases i <;> exact ⟨_, rfl, fun _ => rfl⟩
  · exact ⟨.inr rfl, fun i => ⟨i.isLt, fun _ _ _ => rfl⟩⟩
  · exact ⟨.inr rfl, fun i => ⟨i.isLt, fun _ _ _ => rfl⟩⟩

/-- **C106** (too few entries). If the initial state has fewer than `dim` rows, or if the target has and the grid has at least
two points, no object is ever constructed, in either class and any mode. -/
theorem C106_short (env : Env ρ K) (c : Cfg d N M K) (Y1 Y2 : StateArg K) :
    (Y1.rows < d ∨ Y2.rows < d ∧ 2 ≤ (mkGrid c.t1 c.t2).length →
      ∀ r x, constructStates env c Y1 Y2 r ≠ .ok x) ∧
    (∀ g, torchGrid c.t1 c.t2 = .ok g → Y1.rows < d ∨ Y2.rows < d ∧ 2 ≤ g.length →
      ∀ r x, torchConstructStates env c Y1 Y2 r ≠ .ok x) := by
  have key : ∀ (bad : PyErr) (g : List K) (body : Nat → K → Traj d N K → RandM ρ (Traj d N K)) (B0 B : Traj d N K) r1 r2,
      Y2.rows < d → 2 ≤ g.length →
      loopFrom (fun B => pinState bad B (-1) Y2) body g.dropLast B0 r1 ≠ .ok (B, r2) := by
    intro bad g body B0 B r1 r2 h h2 e
    cases hd : g.dropLast with
    | nil =>
      have := congrArg List.length hd
      simp at this; omega
    | cons t ts =>
      rw [hd] at e
      obtain ⟨B1, r3, h3, _⟩ := RandM.bind_ok.1 e
      exact pinState_short h (RandM.lift_ok.1 h3).1
  refine ⟨fun h r x e => ?_, fun g hg h r x e => ?_⟩
  · obtain ⟨o, r'⟩ := x
    obtain ⟨_, _, _, B, r1, r2, hB, hp⟩ := constructStates_ok e
    rcases h with h | ⟨h, h2⟩
    · exact pinState_short h hp
    · exact key _ _ _ _ _ _ _ h h2 hB
  · obtain ⟨o, r'⟩ := x
    obtain ⟨hg', _, _, B, r1, r2, hB, hp⟩ := torchConstructStates_ok e
    cases hg.symm.trans hg'
    rcases h with h | ⟨h, h2⟩
    · exact pinState_short h hp
    · exact key _ _ _ _ _ _ _ h h2 hB

/-- **C106** (particle clouds). A state given as a matrix with `N` columns prescribes the particles one by one: the backward
flow ends at the cloud of the target, starts (after the final pin) at the cloud of the initial state, and the deterministic
forward flows start at the cloud of the initial state; in both classes, with and without reweighting and bridge. -/
theorem C106_cloud (env : Env ρ K) (c : Cfg d N M K) (Y1 Y2 : StateArg K) (P1 P2 : Mat d N K)
    (h1 : Prescribes Y1 P1) (h2 : Prescribes Y2 P2) (o : Obj d N M K) (r r' : ρ)
    (h : constructStates env c Y1 Y2 r = .ok (o, r') ∨ torchConstructStates env c Y1 Y2 r = .ok (o, r'))
    (hk : 2 ≤ o.timegrid.length) :
    o.B.length = o.timegrid.length ∧ o.B[0]? = some P1 ∧ o.B[o.timegrid.length - 1]? = some P2 ∧
    (c.deterministic = true → o.Z.length = o.timegrid.length ∧ o.Z[0]? = some P1 ∧
      ∀ T, o.Ztr = some T → T.length = o.timegrid.length ∧ T[0]? = some P1) := by
  have hsafe : ∀ ti : Nat, 1 ≤ ti → SliceSafe (SliceIs o.timegrid.length 0 P1) (ti : Int) := fun ti h =>
    sliceIs_safe (by omega)
  have back : ∀ {bad : PyErr} {body : Nat → K → Traj d N K → RandM ρ (Traj d N K)} {B : Traj d N K} {r1 r2 : ρ},
      (∀ (ti : Nat) tt Z, 1 ≤ ti →
        SliceSafe (SliceIs o.timegrid.length (o.timegrid.length - 1) P2) ((o.timegrid.length : Int) - ti - 1) →
        SliceIs o.timegrid.length (o.timegrid.length - 1) P2 Z →
        KeepsQ (SliceIs o.timegrid.length (o.timegrid.length - 1) P2) (body ti tt Z)) →
      loopFrom (fun B => pinState bad B (-1) Y2) body o.timegrid.dropLast (zerosT d N o.timegrid.length) r1 = .ok (B, r2) →
      pinState bad B 0 Y1 = .ok o.B →
      o.B.length = o.timegrid.length ∧ o.B[0]? = some P1 ∧ o.B[o.timegrid.length - 1]? = some P2 := by
    intro bad body B r1 r2 hb e hp
    obtain ⟨l, s⟩ := loopFrom_last (fun Z e => pinState_slice h2 (pyIdx_neg_one (by omega)) (zerosT_length _ _ _) e) hb hk
      _ _ _ e
    obtain ⟨l', s'⟩ := pinState_slice h1 (pyIdx_zero (by omega)) l hp
    exact ⟨l', s', (pinState_other h1 (pyIdx_zero (by omega)) l (by omega) hp).trans s⟩
  rcases h with h | h
  · obtain ⟨hg, hZ, hT, B, r1, r2, hB, hp⟩ := constructStates_ok h
    rw [← hg] at hZ hT hB
    obtain ⟨b1, b2, b3⟩ := back (fun ti tt Z h1 hs hZ => backwardBody_q env c _ _ h1 hs tt hZ) hB hp
    refine ⟨b1, b2, b3, fun hdet => ?_⟩
    obtain ⟨r3, e⟩ := hZ hdet
    have := loopFrom_zero (fun Z e => startState_slice h1 (fun _ => h2) (by omega) (fun _ => hk) (zerosT_length _ _ _) e)
      (fun ti tt Z h hZ => ottoBody_q env c h (hsafe ti h) tt hZ) (by omega) _ _ _ e
    refine ⟨this.1, this.2, fun T hTT => ?_⟩
    obtain ⟨r4, r5, e⟩ := hT T hdet hTT
    exact loopFrom_zero (fun Z e => pinState_slice h1 (pyIdx_zero (by omega)) (zerosT_length _ _ _) e)
      (fun ti tt Z h hZ => ottoTrueBody_q env c h (hsafe ti h) tt hZ) (by omega) _ _ _ e
  · obtain ⟨hg, hZ, hT, B, r1, r2, hB, hp⟩ := torchConstructStates_ok h
    obtain ⟨b1, b2, b3⟩ := back (fun ti tt Z h1 hs hZ => torchBackwardBody_q env c _ _ h1 hs tt hZ) hB hp
    refine ⟨b1, b2, b3, fun hdet => ?_⟩
    obtain ⟨r3, e⟩ := hZ hdet
    have := loopFrom_zero (fun Z e => startState_slice h1 (fun _ => h2) (by omega) (fun _ => hk) (zerosT_length _ _ _) e)
      (fun ti tt Z h hZ => torchOttoBody_q env c h (hsafe ti h) tt hZ) (by omega) _ _ _ e
    refine ⟨this.1, this.2, fun T hTT => ?_⟩
    obtain ⟨r4, r5, e⟩ := hT T hdet hTT
    exact loopFrom_zero (fun Z e => pinState_slice h1 (pyIdx_zero (by omega)) (zerosT_length _ _ _) e)
      (fun ti tt Z h hZ => torchTrueBody_q env c h (hsafe ti h) tt hZ) (by omega) _ _ _ e

/-- **C106** (matrices as initial state of the numpy class). The dimension is the number of all entries, so a matrix with at
least two columns (and one row) never makes an object; in deterministic runs without bridge the exception is an IndexError if the
number of columns is the number of particles, and a ValueError otherwise. -/
theorem C106_matrix_start (env : Env ρ K) (c : (d : Nat) → Cfg d N M K) {a b : Nat} (m : Mat a b K) (ha : 0 < a) (hb : 2 ≤ b)
    (y2 : Given K) :
    (∀ r x, npNew env c (.array (.mat m)) y2 r ≠ .ok x) ∧
    ((c (a * b)).deterministic = true → (c (a * b)).brownBridge = false → mkGrid (c (a * b)).t1 (c (a * b)).t2 ≠ [] →
      ∀ r, npNew env c (.array (.mat m)) y2 r = .error (if b = N then .indexError else .valueError)) := by
  have hlt : a < a * b := by
    have := Nat.mul_le_mul_left a hb
    omega
  have hnp : ∃ s', npStates (.array (.mat m)) y2 = .ok (StateArg.mat m, s') := by
    cases y2 <;> exact ⟨_, rfl⟩
  obtain ⟨s', hs⟩ := hnp
  have hnew : npNew env c (.array (.mat m)) y2 = (do
      let o ← constructStates env (c (a * b)) (.mat m) s'
      pure ⟨a * b, o⟩) := by
    unfold npNew
    rw [hs]; rfl
  refine ⟨fun r x e => ?_, fun hdet hbb hg r => ?_⟩
  · rw [hnew] at e
    obtain ⟨o, r1, h1, _⟩ := RandM.bind_ok.1 e
    exact (C106_short env (c (a * b)) (.mat m) s').1 (.inl hlt) _ _ h1
  · rw [hnew]
    unfold constructStates
    rw [hdet, hbb]
    obtain ⟨t, ts, hg'⟩ := List.exists_cons_of_ne_nil hg
    have hs := startState_matrix (N := N) m s' ha hb hlt (zerosT (a * b) N (mkGrid (c (a * b)).t1 (c (a * b)).t2).length)
      (by rw [zerosT_length, hg']; simp)
    rw [hg'] at hs ⊢
    simp only [if_true, loopFrom, hs]
    rfl

/-- Non-vacuity: one row with two columns for two particles, and for three particles. -/
example (y2 : Given ℝ) (env' : Env ℕ ℝ) :
    npNew env' (fun d => exCfg d 2 3 3 true false false) (.array (.mat (a := 1) (b := 2) fun _ _ => 1)) y2 0
      = .error .indexError ∧
    npNew env' (fun d => exCfg d 3 3 3 true false false) (.array (.mat (a := 1) (b := 2) fun _ _ => 1)) y2 0
      = .error .valueError := by
  refine ⟨(C106_matrix_start env' _ _ (by norm_num) (by norm_num) y2).2 rfl rfl ?_ 0,
    (C106_matrix_start env' _ _ (by norm_num) (by norm_num) y2).2 rfl rfl ?_ 0⟩ <;>
  · intro h
    have := congrArg List.length h
    rw [exCfg_grid] at this
    simp at this

/-- **C106** (containers). The initial state must be a numpy array for the numpy class and a tensor for the torch class: lists
raise AttributeError, tensors and arrays respectively TypeError, before anything is computed and whatever else is given; the
conversion of other containers to tensors in the torch constructor is never reached. Targets may be lists, with the result of
the vector with the same entries. -/
theorem C106_containers (env : Env ρ K) (c : (d : Nat) → Cfg d N M K) (y2 : Given K) (r : ρ) :
    (∀ v, npNew env c (.list v) y2 r = .error .attributeError ∧ torchNew env c (.list v) y2 r = .error .attributeError) ∧
    (∀ s, npNew env c (.tensor s) y2 r = .error .typeError ∧ torchNew env c (.array s) y2 r = .error .typeError) ∧
    (∀ s v, npNew env c (.array s) (.list v) = npNew env c (.array s) (.array (.flat v)) ∧
      torchNew env c (.tensor s) (.list v) = torchNew env c (.tensor s) (.tensor (.flat v))) ∧
    (∀ y1 x, npNew env c y1 y2 r = .ok x → ∃ s, y1 = .array s ∧ x.1.1 = s.size) ∧
    (∀ y1 x, torchNew env c y1 y2 r = .ok x → ∃ s, y1 = .tensor s ∧ x.1.1 = s.rows) := by
  refine ⟨fun v => ⟨?_, ?_⟩, fun s => ⟨?_, ?_⟩, fun s v => ⟨rfl, rfl⟩, fun y1 x h => ?_, fun y1 x h => ?_⟩
  · cases y2 <;> rfl
  · cases y2 <;> rfl
  · cases y2 <;> rfl
  · cases y2 <;> rfl
  · cases y1 with
    | array s =>
      refine ⟨s, rfl, ?_⟩
      obtain ⟨⟨s1, s2⟩, r1, e1, e2⟩ := RandM.bind_ok.1 h
      obtain ⟨o, r2, _, e3⟩ := RandM.bind_ok.1 e2
      obtain ⟨e4, _⟩ := RandM.pure_ok.1 e3
      have : s1 = s := by
        have := (RandM.lift_ok.1 e1).1
        cases y2 <;> (cases this; rfl)
      subst this
      rw [← e4]
    | tensor s => cases y2 <;> cases h
    | list s => cases y2 <;> cases h
  · cases y1 with
    | tensor s =>
      refine ⟨s, rfl, ?_⟩
      obtain ⟨⟨s1, s2⟩, r1, e1, e2⟩ := RandM.bind_ok.1 h
      obtain ⟨o, r2, _, e3⟩ := RandM.bind_ok.1 e2
      obtain ⟨e4, _⟩ := RandM.pure_ok.1 e3
      have : s1 = s := by
        have := (RandM.lift_ok.1 e1).1
        cases y2 with
        | array s' => cases s' <;> (cases this; rfl)
        | _ => cases this; rfl
      subst this
      rw [← e4]
    | array s => cases y2 <;> cases h
    | list s => cases y2 <;> cases h

/-- **C106** (a target cloud works). Over the reals, every deterministic numpy run without reweighting and bridge, from a
vector to a matrix of `N` columns as target, with the 'RBF' kernel and at least two time points, constructs; the backward flow
then ends at exactly that cloud. -/
theorem C106_target_cloud (env : Env ρ ℝ) (c : Cfg d N M ℝ) (P : Mat d N ℝ) (hN : 0 < N)
    (hg : 2 ≤ (mkGrid c.t1 c.t2).length) (hk : effKern c.kern = "RBF") (hdet : c.deterministic = true)
    (hrw : c.reweight = false) (hbb : c.brownBridge = false) (r : ρ) :
    ∃ o r', constructStates env c (.flat (List.ofFn c.y1)) (.mat P) r = .ok (o, r') ∧
      o.B[o.timegrid.length - 1]? = some P ∧ o.B[0]? = some (fun i _ => c.y1 i) := by
  have h1 : Prescribes (N := N) (.flat (List.ofFn c.y1)) fun i _ => c.y1 i := fun i => ⟨c.y1 i, by simp, fun _ => rfl⟩
  have h2 : Prescribes (.mat P) P := ⟨.inl rfl, fun i => ⟨i.isLt, fun n j h => by
    rcases h with h | h
    · subst h
      congr 1
      exact Subsingleton.elim _ _
    · congr 1
      exact Fin.ext h⟩⟩
  suffices hex : ∃ o r', constructStates env c (.flat (List.ofFn c.y1)) (.mat P) r = .ok (o, r') by
    obtain ⟨o, r', h⟩ := hex
    have hgo := (constructStates_ok h).1
    obtain ⟨_, b0, bk, _⟩ := C106_cloud env c _ _ _ _ h1 h2 o r r' (.inl h) (by rw [hgo]; exact hg)
    exact ⟨o, r', h, bk, b0⟩
  have hF : ∀ g (Z : Traj d N ℝ), loopFrom (startState .valueError false (.flat (List.ofFn c.y1)) (.mat P)) (ottoBody env c) g Z
      = forwardOtto env c g Z := fun g Z => loopFrom_eq (fun tt Z => by
        have e := startState_eq (N := N) h1 h1 .valueError false Z
        have e' : startState (N := N) .valueError false (.flat (List.ofFn c.y1)) (.mat P) Z
            = startState .valueError false (.flat (List.ofFn c.y1)) (.flat (List.ofFn c.y1)) Z := rfl
        rw [e', e]
        simp only [ottoBody, hbb, if_pos, Nat.lt_irrefl, decide_false, Bool.and_false, Bool.false_eq_true, if_false, bind_pure])
        (fun _ _ _ _ => rfl) g Z
  unfold constructStates
  simp only [hdet, hbb, hrw, Bool.and_self, Bool.false_eq_true, if_true, if_false, hF]
  generalize mkGrid c.t1 c.t2 = grid at hg ⊢
  have hZ : ∃ Z r1, forwardOtto env c grid (zerosT d N grid.length) r = .ok (Z, r1) ∧ Z.length = grid.length := by
    obtain ⟨t0, t1, ts, rfl⟩ : ∃ t0 t1 ts, grid = t0 :: t1 :: ts := by
      match grid, hg with
      | a :: b :: l, _ => exact ⟨a, b, l, rfl⟩
    rw [forwardOtto_eq env _ t0 t1 ts _ (by simp [zerosT_length])]
    obtain ⟨ys, r1, h⟩ := Total.chain (ottoSlice_total env c hN hk (fun h => absurd h (by simp [hrw]))) (t1 :: ts) 1
      (pt N c.y1) r
    exact ⟨_, _, RandM.bind_ok.2 ⟨ys, r1, h, rfl⟩, by simp [chain_length h]⟩
  obtain ⟨Z, r1, eZ, lZ⟩ := hZ
  have hbody : ∀ ti tt B, 1 ≤ ti → ti < grid.length - 1 → B.length = grid.length →
      ∀ r, ∃ B' r', backwardBody env c grid Z ti tt B r = .ok (B', r') ∧ B'.length = grid.length := by
    intro ti tt B hi hi2 hB r
    have hgen : backwardBody env c grid Z = genBackBody env (densityAt env M (effKern c.kern))
        (bwDensityAt env M (effKern c.kern)) c grid Z := by
      funext ti tt B
      unfold backwardBody genBackBody
      simp only [densityEst, bwDensityEst, densityAt, bwDensityAt, bind_assoc]
    have hv : ti - 1 < (visits Z grid).length := by simp [visits, lZ]; omega
    rw [hgen, genBackBody_succ env _ _ c grid Z lZ ti tt B _ _ hi (by omega) hB
      (List.getElem?_eq_getElem (by omega)) (List.getElem?_eq_getElem hv)]
    obtain ⟨y, r', h⟩ := npBack_total env c hN hk ti (visits Z grid)[ti - 1] (B[grid.length - ti]'(by omega)) r
    exact ⟨_, r', RandM.bind_ok.2 ⟨y, r', h, rfl⟩, by simpa using hB⟩
  have hpin : ∀ (T : Traj d N ℝ) (t : Int) (j : Nat) (Y : StateArg ℝ) (Q : Mat d N ℝ), Prescribes Y Q →
      T.length = grid.length → pyIdx grid.length t = .ok j →
      ∃ T', pinState .valueError T t Y = .ok T' ∧ T'.length = grid.length := by
    intro T t j Y Q hQ hT hj
    unfold pinState
    have : ∀ (m : Nat) (e : Fin m → Fin d) (T : Traj d N ℝ), T.length = grid.length →
        ∃ T', forFin m (fun di T => putState .valueError T (e di).val t Y) T = .ok T' ∧ T'.length = grid.length := by
      intro m
      induction m with
      | zero => exact fun e T h => ⟨T, rfl, h⟩
      | succ m ih =>
        intro e T h
        unfold forFin
        dsimp only
        rw [putState_prescribes hQ, setRowVec_full, pyIdx_nat d (e 0).isLt, h, hj]
        simp only [Except.ok_bind']
        exact ih (fun i => e i.succ) _ (by simpa using h)
    exact this d id T hT
  have hB : ∀ r, ∃ B r2, loopFrom (fun B => pinState .valueError B (-1) (.mat P)) (backwardBody env c grid Z) grid.dropLast
      (zerosT d N grid.length) r = .ok (B, r2) ∧ B.length = grid.length := by
    intro r
    have hl : grid.dropLast.length = grid.length - 1 := by simp
    cases hd : grid.dropLast with
    | nil => rw [hd] at hl; simp at hl; omega
    | cons t ts =>
      rw [hd] at hl
      simp only [List.length_cons] at hl
      obtain ⟨B1, e1, l1⟩ := hpin (zerosT d N grid.length) (-1) _ (.mat P) P h2 (zerosT_length _ _ _)
        (pyIdx_neg_one (by omega))
      have : ∀ (ts : List ℝ) (s : Nat) (B : Traj d N ℝ) r, 1 ≤ s → s + ts.length ≤ grid.length - 1 →
          B.length = grid.length → ∃ B' r', enumLoop (backwardBody env c grid Z) s ts B r = .ok (B', r') ∧
            B'.length = grid.length := by
        intro ts
        induction ts with
        | nil => exact fun s B r _ _ h => ⟨B, r, rfl, h⟩
        | cons t ts ih =>
          intro s B r hs hs2 hB
          simp only [List.length_cons] at hs2
          obtain ⟨B', r', e, l⟩ := hbody s t B hs (by omega) hB r
          obtain ⟨B2, r2, e2, l2⟩ := ih (s + 1) B' r' (by omega) (by omega) l
          exact ⟨B2, r2, RandM.bind_ok.2 ⟨B', r', e, e2⟩, l2⟩
      obtain ⟨B2, r2, e2, l2⟩ := this ts 1 B1 r (by omega) (by omega) l1
      exact ⟨B2, r2, RandM.bind_ok.2 ⟨B1, r, RandM.lift_ok.2 ⟨e1, rfl⟩, e2⟩, l2⟩
  obtain ⟨B, r2, eB, lB⟩ := hB r1
  obtain ⟨B', eB', _⟩ := hpin B 0 0 _ _ h1 lB (pyIdx_zero (by omega))
  exact ⟨⟨c, grid, Z, B', none⟩, r2, RandM.bind_ok.2 ⟨Z, r1, eZ, RandM.bind_ok.2 ⟨none, r1, rfl, RandM.bind_ok.2
    ⟨B', r2, RandM.bind_ok.2 ⟨B, r2, eB, RandM.lift_ok.2 ⟨eB', rfl⟩⟩, rfl⟩⟩⟩⟩

/-- Non-vacuity of `C106_target_cloud` and `C106_cloud`: three particles in the plane sent to three different targets over four
time points. -/
example (r : ℕ) : ∃ (o : Obj 2 3 5 ℝ) (r' : ℕ),
    constructStates exEnv (exCfg 2 3 5 3 true false false) (.flat (List.ofFn (exCfg 2 3 5 3 true false false).y1))
      (.mat (a := 2) (b := 3) fun i n => (i : ℝ) + 2 * n) r = .ok (o, r') ∧
    o.timegrid.length = 4 ∧ o.B[3]? = some (fun (i : Fin 2) (n : Fin 3) => (i : ℝ) + 2 * n) := by
  obtain ⟨o, r', h, hB, _⟩ := C106_target_cloud exEnv (exCfg 2 3 5 3 true false false)
    (fun (i : Fin 2) (n : Fin 3) => (i : ℝ) + 2 * n) (by norm_num) (by rw [exCfg_grid]; omega) rfl rfl rfl rfl r
  have hl : o.timegrid.length = 4 := by rw [(constructStates_ok h).1, exCfg_grid]
  rw [hl] at hB
  exact ⟨o, r', h, hl, hB⟩

/-- Non-vacuity of `C106_short`: a target with one entry for a run in the plane. -/
example (r : ℕ) (x) : constructStates exEnv (exCfg 2 3 5 3 true false false)
    (.flat (List.ofFn (exCfg 2 3 5 3 true false false).y1)) (.flat [1]) r ≠ .ok x :=
  (C106_short exEnv (exCfg 2 3 5 3 true false false) _ _).1 (.inr ⟨by simp [StateArg.rows], by rw [exCfg_grid]; omega⟩) r x

end DPFC
