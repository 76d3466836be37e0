import Verif.Lib.Flags
import Verif.Lib.Examples
import Verif.Lib.FanStoch
import Verif.Spec.Object

/-!
# C105: switches that are neither `True` nor `False` (any arithmetic)
-/

set_option linter.unusedSectionVars false

namespace DPFC
open Spec
variable {K ρ : Type} [Add K] [Sub K] [Mul K] [Div K] [Neg K] [NumOps K]
variable {N M d : Nat}

/-- **C105** (ordinary switches). With `True` and `False` as switches, constructors and controls are those of the other
properties. -/
theorem C105_ordinary (env : Env ρ K) (c : Cfg d N M K) :
    constructFlags env c (.ofCfg c) = construct env c ∧ torchConstructFlags env c (.ofCfg c) = torchConstruct env c ∧
    ∀ (o : Obj d N M K) {n m : Nat} (x : Mat n m K) (ti : Int), o.cfg = c →
      calculateUFlags env o (.ofCfg c) x ti = calculateU env o x ti ∧
      torchCalculateUFlags env o (.ofCfg c) x ti = torchCalculateU env o x ti := by
  obtain ⟨t1, t2, y1, y2, f, g, rw', U, de, rj, kn, ft, bb, det⟩ := c
  refine ⟨?_, ?_, ?_⟩
  · cases rw' <;> cases bb <;> cases det <;> rfl
  · cases rw' <;> cases bb <;> cases det <;> rfl
  · rintro ⟨c', g', Z, B, Zt⟩ n m x ti h
    cases h
    cases rw' <;> cases bb <;> cases Zt <;> refine ⟨?_, ?_⟩ <;>
      simp [calculateUFlags, calculateU, torchCalculateUFlags, torchCalculateU, queryZtr, Flags.ofCfg, Flag.ofBool,
        Flag.isFalse, Flag.isTrue] <;> rfl

/-- **C105** (what a run does). Unless `reweight` is true without being `True` and `brown_bridge` is true, the run is the
ordinary run in which `reweight` is replaced by the truth of `reweight == True` and the other two switches by their truth
value; in particular `None` acts as `False`, and `deterministic` only matters through its truth value. -/
theorem C105_runs (env : Env ρ K) (c : Cfg d N M K) (s : Flags)
    (h : ¬ (s.reweight = .truthy ∧ s.brownBridge.truth = true)) :
    constructFlags env c s = construct env { c with
      reweight := decide (s.reweight = .yes), brownBridge := s.brownBridge.truth, deterministic := s.deterministic.truth } ∧
    torchConstructFlags env c s = torchConstruct env { c with
      reweight := decide (s.reweight = .yes), brownBridge := s.brownBridge.truth, deterministic := s.deterministic.truth } := by
  obtain ⟨a, b, e⟩ := s
  cases a <;> cases b <;> cases e <;>
    first
      | exact ⟨rfl, rfl⟩
      | exact absurd ⟨rfl, rfl⟩ h

/-- **C105** (`reweight` that is not `True`). Unless `reweight == True` nothing is reweighted, however true `reweight` is: the
constraint `U` does not matter (it need not even be given), and the forward flow is that of the run without reweighting. -/
theorem C105_not_reweighted (env : Env ρ K) (c : Cfg d N M K) (s : Flags) (h : s.reweight ≠ .yes) (r : ρ) :
    (∀ U', SameOutcome (constructFlags env c s r) (constructFlags env { c with U := U' } s r) ∧
      SameOutcome (torchConstructFlags env c s r) (torchConstructFlags env { c with U := U' } s r)) ∧
    (∀ (o o₀ : Obj d N M K) r' r₀, constructFlags env c s r = .ok (o, r') → construct env { c with
      reweight := false, brownBridge := s.brownBridge.truth, deterministic := s.deterministic.truth } r = .ok (o₀, r₀) →
      o.Z = o₀.Z) ∧
    (∀ (o o₀ : Obj d N M K) r' r₀, torchConstructFlags env c s r = .ok (o, r') → torchConstruct env { c with
      reweight := false, brownBridge := s.brownBridge.truth, deterministic := s.deterministic.truth } r = .ok (o₀, r₀) →
      o.Z = o₀.Z) := by
  have ht : s.reweight.isTrue = false := by
    obtain ⟨a, b, e⟩ := s
    cases a <;> first | rfl | exact absurd rfl h
  refine ⟨fun U' => ⟨?_, ?_⟩, ?_, ?_⟩
  · have e1 : ottoBody env (c.switches false s.brownBridge.truth s.deterministic.truth)
        = ottoBody env (({ c with U := U' } : Cfg d N M K).switches false s.brownBridge.truth s.deterministic.truth) := by
      funext ti tt Z
      simp only [ottoBody, Cfg.switches, Bool.false_and, Bool.false_eq_true, if_false]
      first | done | rfl
    have e2 : stochBody env (c.switches false s.brownBridge.truth s.deterministic.truth)
        = stochBody env (({ c with U := U' } : Cfg d N M K).switches false s.brownBridge.truth s.deterministic.truth) := by
      funext ti tt Z
      simp only [stochBody, Cfg.switches, Bool.false_eq_true, if_false]
      first | done | rfl
    unfold constructFlags
    simp only [ht]
    by_cases hdet : s.deterministic.truth = true
    · rw [if_pos hdet, if_pos hdet]
      unfold forwardOtto
      rw [e1]
      apply sameOutcome_bind; intro Z r
      by_cases hb : (s.reweight.truth && s.brownBridge.truth) = true
      · rw [if_pos hb]
        apply sameOutcome_bind; intro Z r
        apply sameOutcome_bind; intro B r
        apply sameOutcome_bind; intro B r
        exact ⟨⟨rfl, rfl, rfl, rfl⟩, rfl⟩
      · rw [if_neg hb]
        apply sameOutcome_bind; intro Z r
        apply sameOutcome_bind; intro B r
        exact ⟨⟨rfl, rfl, rfl, rfl⟩, rfl⟩
    · rw [if_neg hdet, if_neg hdet]
      unfold forwardStoch
      rw [e2]
      apply sameOutcome_bind; intro Z r
      apply sameOutcome_bind; intro B r
      exact ⟨⟨rfl, rfl, rfl, rfl⟩, rfl⟩
  · have e1 : torchOttoBody env (c.switches false s.brownBridge.truth s.deterministic.truth)
        = torchOttoBody env (({ c with U := U' } : Cfg d N M K).switches false s.brownBridge.truth s.deterministic.truth) := by
      funext ti tt Z
      simp only [torchOttoBody, Cfg.switches, Bool.false_and, Bool.false_eq_true, if_false]
      first | done | rfl
    have e2 : torchStochBody env (c.switches false s.brownBridge.truth s.deterministic.truth)
        = torchStochBody env (({ c with U := U' } : Cfg d N M K).switches false s.brownBridge.truth s.deterministic.truth) := by
      funext ti tt Z
      simp only [torchStochBody, Cfg.switches, Bool.false_eq_true, if_false]
      first | done | rfl
    unfold torchConstructFlags
    simp only [ht]
    apply sameOutcome_bind; intro grid r
    by_cases hdet : s.deterministic.truth = true
    · rw [if_pos hdet, if_pos hdet]
      unfold torchForwardOtto
      rw [e1]
      apply sameOutcome_bind; intro Z r
      by_cases hb : (s.reweight.truth && s.brownBridge.truth) = true
      · rw [if_pos hb]
        apply sameOutcome_bind; intro Z r
        apply sameOutcome_bind; intro B r
        apply sameOutcome_bind; intro B r
        exact ⟨⟨rfl, rfl, rfl, rfl⟩, rfl⟩
      · rw [if_neg hb]
        apply sameOutcome_bind; intro Z r
        apply sameOutcome_bind; intro B r
        exact ⟨⟨rfl, rfl, rfl, rfl⟩, rfl⟩
    · rw [if_neg hdet, if_neg hdet]
      unfold torchForwardStoch
      rw [e2]
      apply sameOutcome_bind; intro Z r
      apply sameOutcome_bind; intro B r
      exact ⟨⟨rfl, rfl, rfl, rfl⟩, rfl⟩
  · intro o o₀ r' r₀ h1 h2
    rw [← (C105_ordinary env _).1] at h2
    obtain ⟨r1, e1⟩ := constructFlags_Z h1
    obtain ⟨r2, e2⟩ := constructFlags_Z h2
    rw [ht] at e1
    have e3 := e1
    obtain ⟨a, b, e⟩ := s
    cases b <;> cases e <;> (have := e1.symm.trans e2; injection this with this; exact congrArg Prod.fst this)
  · intro o o₀ r' r₀ h1 h2
    rw [← (C105_ordinary env _).2.1] at h2
    obtain ⟨g1, r1, hg1, e1⟩ := torchConstructFlags_Z h1
    obtain ⟨g2, r2, hg2, e2⟩ := torchConstructFlags_Z h2
    cases hg1.symm.trans hg2
    rw [ht] at e1
    obtain ⟨a, b, e⟩ := s
    cases b <;> cases e <;> (have := e1.symm.trans e2; injection this with this; exact congrArg Prod.fst this)

/-- **C105** (zero controls). If both `reweight` and `brown_bridge` are true but not both are `True`, the control at the first
six and the last five time points (in the Python sense of indices) is identically zero, in both classes, whatever the flows
are. -/
theorem C105_zero_control (env : Env ρ K) (c : Cfg d N M K) (s : Flags) (hr : s.reweight.truth = true)
    (hb : s.brownBridge.truth = true) (hn : ¬ (s.reweight = .yes ∧ s.brownBridge = .yes)) (hN : 0 < N) (r r' : ρ)
    (o : Obj d N M K) {n m : Nat} (x : Mat n m K) (ti : Int) (hl : -(o.timegrid.length : Int) ≤ ti)
    (hu : ti < o.timegrid.length) (he : ti ≤ 5 ∨ (o.timegrid.length : Int) - 5 ≤ ti) (q : ρ) :
    (constructFlags env c s r = .ok (o, r') →
      calculateUFlags env o s x ti q = .ok (fun _ _ => lit 0 1, q)) ∧
    (torchConstructFlags env c s r = .ok (o, r') →
      torchCalculateUFlags env o s x ti q = .ok (⟨m, n, fun _ _ => lit 0 1⟩, q)) := by
  have f1 : (s.reweight.isFalse || s.brownBridge.isFalse) = false := by
    obtain ⟨a, b, e⟩ := s
    cases a <;> cases b <;> first | rfl | (revert hr hb; simp [Flag.truth])
  have f2 : (s.reweight.isTrue && s.brownBridge.isTrue) = false := by
    obtain ⟨a, b, e⟩ := s
    cases a <;> cases b <;> first | rfl | exact absurd ⟨rfl, rfl⟩ hn
  constructor
  · intro h
    obtain ⟨-, l1, l2, l3, -⟩ := constructFlags_len h
    rw [hr, hb, Bool.and_self, if_pos rfl] at l3
    obtain ⟨T, hT, l3⟩ := l3
    obtain ⟨b, eb⟩ := pyGet_of_valid l2 hl hu
    obtain ⟨z, ez⟩ := pyGet_of_valid l1 hl hu
    obtain ⟨t, et⟩ := pyGet_of_valid l3 hl hu
    obtain ⟨bn, ebn⟩ := interBox_total hN t b
    have he' : ti ≤ 5 ∨ (o.timegrid.length : Int) ≤ ti + 5 := by omega
    simp [calculateUFlags, queryZtr, f1, f2, hT, eb, ez, et, ebn, he']
  · intro h
    obtain ⟨-, l1, l2, l3, -⟩ := torchConstructFlags_len h
    rw [hr, hb, Bool.and_self, if_pos rfl] at l3
    obtain ⟨T, hT, l3⟩ := l3
    obtain ⟨b, eb⟩ := pyGet_of_valid l2 hl hu
    obtain ⟨z, ez⟩ := pyGet_of_valid l1 hl hu
    obtain ⟨t, et⟩ := pyGet_of_valid l3 hl hu
    obtain ⟨bn, ebn⟩ := hullBox_total hN t b
    have he' : ti ≤ 5 ∨ (o.timegrid.length : Int) ≤ ti + 5 := by omega
    simp [torchCalculateUFlags, queryZtr, f1, f2, hT, eb, ez, et, ebn, he']

/-- **C105** (missing storage). If neither `reweight` nor `brown_bridge` equals `False` and one of them is false (`None`, `''`,
`[]`), the object is constructed without the true-drift flow, but every control query at a valid time index asks for it and
raises AttributeError. -/
theorem C105_missing_storage (env : Env ρ K) (c : Cfg d N M K) (s : Flags) (hr : s.reweight ≠ .no)
    (hb : s.brownBridge ≠ .no) (hf : s.reweight = .falsy ∨ s.brownBridge = .falsy) (r r' : ρ)
    (o : Obj d N M K) {n m : Nat} (x : Mat n m K) (ti : Int) (hl : -(o.timegrid.length : Int) ≤ ti)
    (hu : ti < o.timegrid.length) (q : ρ) :
    (constructFlags env c s r = .ok (o, r') → calculateUFlags env o s x ti q = .error .attributeError) ∧
    (torchConstructFlags env c s r = .ok (o, r') → torchCalculateUFlags env o s x ti q = .error .attributeError) := by
  have f1 : (s.reweight.isFalse || s.brownBridge.isFalse) = false := by
    obtain ⟨a, b, e⟩ := s
    cases a <;> cases b <;> first | rfl | exact absurd rfl hr | exact absurd rfl hb
  have f2 : (s.reweight.truth && s.brownBridge.truth) = false := by
    obtain ⟨a, b, e⟩ := s
    cases a <;> cases b <;> first | rfl | simp at hf
  constructor
  · intro h
    obtain ⟨-, l1, l2, l3, -⟩ := constructFlags_len h
    rw [f2, if_neg (by simp)] at l3
    obtain ⟨b, eb⟩ := pyGet_of_valid l2 hl hu
    obtain ⟨z, ez⟩ := pyGet_of_valid l1 hl hu
    simp [calculateUFlags, queryZtr, f1, l3, eb, ez]
  · intro h
    obtain ⟨-, l1, l2, l3, -⟩ := torchConstructFlags_len h
    rw [f2, if_neg (by simp)] at l3
    obtain ⟨b, eb⟩ := pyGet_of_valid l2 hl hu
    obtain ⟨z, ez⟩ := pyGet_of_valid l1 hl hu
    simp [torchCalculateUFlags, queryZtr, f1, l3, eb, ez]

/-- **C105** (all other controls). If one of the two switches equals `False`, controls are the ordinary ones computed from `Z`
and `B`; if none does, the interior ones are those of Brownian-bridge mode. -/
theorem C105_other_controls (env : Env ρ K) (o : Obj d N M K) (s : Flags) {n m : Nat} (x : Mat n m K) (ti : Int) :
    (s.reweight = .no ∨ s.brownBridge = .no →
      calculateUFlags env o s x ti = calculateU env ({ o with cfg := { o.cfg with reweight := false } } : Obj d N M K) x ti ∧
      torchCalculateUFlags env o s x ti = torchCalculateU env ({ o with cfg := { o.cfg with reweight := false } } : Obj d N M K) x ti) ∧
    (s.reweight ≠ .no → s.brownBridge ≠ .no → 5 < ti → ti < (o.timegrid.length : Int) - 5 →
      calculateUFlags env o s x ti
        = calculateU env ({ o with cfg := { o.cfg with reweight := true, brownBridge := true } } : Obj d N M K) x ti ∧
      torchCalculateUFlags env o s x ti
        = torchCalculateU env ({ o with cfg := { o.cfg with reweight := true, brownBridge := true } } : Obj d N M K) x ti) := by
  constructor
  · intro h
    have f1 : (s.reweight.isFalse || s.brownBridge.isFalse) = true := by
      obtain ⟨a, b, e⟩ := s
      rcases h with h | h
      · cases h; rfl
      · cases h; cases a <;> rfl
    constructor
    · simp [calculateUFlags, calculateU, queryZtr, f1]
    · simp [torchCalculateUFlags, torchCalculateU, queryZtr, f1]
  · intro hr hb h5 hk
    have f1 : (s.reweight.isFalse || s.brownBridge.isFalse) = false := by
      obtain ⟨a, b, e⟩ := s
      cases a <;> cases b <;> first | rfl | exact absurd rfl hr | exact absurd rfl hb
    have he : ¬ (ti ≤ 5 ∨ (o.timegrid.length : Int) - 5 ≤ ti) := by omega
    constructor
    · simp only [calculateUFlags, calculateU, queryZtr, f1, Bool.and_self, Bool.false_eq_true, if_false, if_neg he]
      cases o.Ztr <;> rfl
    · simp only [torchCalculateUFlags, torchCalculateU, queryZtr, f1, Bool.and_self, Bool.false_eq_true, if_false, if_neg he]
      cases o.Ztr <;> rfl

/-- **C105** (`func_out`). The estimators return values exactly for `func_out == False`; for every other `func_out`, also for
the documented `None`, a successful call returns a function, and it is the one returned for `True`. -/
theorem C105_func_out (fo : Flag) (X : Mat N d K) (Z : Mat M d K) (C : K) (kern : String) (l : LS d K) (tl : TLS d K)
    (wd : Int) :
    (fo = .no → callSep fo X Z C kern l wd = (scoreSep X Z C kern l wd).map .values ∧
      torchCall fo X Z tl C kern = (torchScore X Z tl C kern).map .values) ∧
    (fo ≠ .no → callSep fo X Z C kern l wd = callSep .yes X Z C kern l wd ∧
      torchCall fo X Z tl C kern = torchCall .yes X Z tl C kern ∧
      (∀ out, callSep fo X Z C kern l wd = .ok out →
        out = .function fun _ _ x => scoreSepFn X Z C kern l wd x) ∧
      (∀ out, torchCall fo X Z tl C kern = .ok out →
        out = .function fun _ _ x => torchScoreFn X Z tl C kern (.tensor x))) := by
  constructor
  · rintro rfl
    refine ⟨?_, ?_⟩
    · unfold callSep scoreSep
      rcases sepCommon X Z kern l wd with e | ⟨p, g⟩
      · rfl
      · show (do let v ← directOut C p g; Except.ok (EstOut.values v)) = (directOut C p g).map .values
        rcases directOut C p g with e | v <;> rfl
    · unfold torchCall
      show (do let v ← torchScore X Z tl C kern; Except.ok (EstOut.values v)) = (torchScore X Z tl C kern).map .values
      rcases torchScore X Z tl C kern with e | v <;> rfl
  · intro h
    have hf : fo.isFalse = false := by cases fo <;> first | rfl | exact absurd rfl h
    refine ⟨?_, ?_, ?_, ?_⟩
    · unfold callSep
      rw [hf]
      rfl
    · unfold torchCall
      rw [hf]
      rfl
    · intro out ho
      unfold callSep at ho
      rw [hf] at ho
      unfold scoreSepFn
      obtain ⟨⟨p, g⟩, h1, h2⟩ := Except.bind_ok.1 ho
      rw [h1]
      cases h2
      rfl
    · intro out ho
      unfold torchCall at ho
      rw [hf] at ho
      obtain ⟨_, _, h2⟩ := Except.bind_ok.1 ho
      cases h2
      rfl

/-- In exact arithmetic a deterministic run with `reweight='yes'`, `brown_bridge=True` and a given `f_true` always succeeds,
although no constraint needs to be given. -/
theorem C105_odd_run (env : Env ρ ℝ) (c : Cfg d N M ℝ) (hN : 0 < N) (hg : 2 ≤ (mkGrid c.t1 c.t2).length)
    (hk : effKern c.kern = "RBF") (hf : c.fTrue ≠ none) (r : ρ) :
    ∃ o r', constructFlags env c ⟨.truthy, .yes, .yes⟩ r = .ok (o, r') := by
  unfold constructFlags
  generalize mkGrid c.t1 c.t2 = grid at hg ⊢
  obtain ⟨t0, t1, ts, rfl⟩ : ∃ t0 t1 ts, grid = t0 :: t1 :: ts := by
    match grid, hg with
    | a :: b :: l, _ => exact ⟨a, b, l, rfl⟩
  simp only [Flag.truth, Flag.isTrue, Bool.and_self, if_true]
  rw [forwardOtto_eq env _ t0 t1 ts _ (by simp [zerosT_length]),
    forwardOttoTrue_eq env _ t0 (t1 :: ts) _ (by simp [zerosT_length])]
  simp only [bind_assoc, pure_bind]
  obtain ⟨ys, r1, h1⟩ := Total.chain (ottoSlice_total env (c.switches false true true) hN hk
    (fun h => absurd h (by simp [Cfg.switches]))) (t1 :: ts) 1 (pt N c.y1) r
  obtain ⟨zs, r2, h2⟩ := Total.chain (trueSlice_total env (c.switches false true true) hN hk hf) (t1 :: ts) 1
    (pt N c.y1) r1
  obtain ⟨bs, r3, h3⟩ := Total.chain (npBack_total env (c.switches false true true) hN hk)
    (visits (pt N c.y1 :: ys) (t0 :: t1 :: ts)) 1 (pt N c.y2) r2
  have hb := backwardSim_eq env (c.switches false true true) (t0 :: t1 :: ts) (pt N c.y1 :: ys)
    (zerosT d N (t0 :: t1 :: ts).length) (by simp [chain_length h1]) (by simp [zerosT_length]) hg
  refine ⟨⟨c.switches false true true, t0 :: t1 :: ts, pt N c.y1 :: ys, pt N c.y1 :: (bs.reverse ++ [pt N c.y2]),
    some (pt N c.y1 :: zs)⟩, r3, RandM.bind_ok.2 ⟨ys, r1, h1, RandM.bind_ok.2 ⟨zs, r2, h2, ?_⟩⟩⟩
  exact RandM.bind_ok.2 ⟨_, r3, (congrFun hb r2).trans (RandM.bind_ok.2 ⟨bs, r3, h3, rfl⟩), rfl⟩

/-- Non-vacuity of `C105_odd_run` and `C105_zero_control`: with `reweight='yes'`, `brown_bridge=True` a run of two particles in
the plane over four time points succeeds, and all its controls are zero. -/
example (r q : ℕ) : ∃ (o : Obj 2 2 3 ℝ) (r' : ℕ),
    constructFlags exEnv (exCfg 2 2 3 3 true true true) ⟨.truthy, .yes, .yes⟩ r = .ok (o, r') ∧
    o.timegrid.length = 4 ∧ ∀ (x : Mat 1 2 ℝ) (ti : ℤ), 0 ≤ ti → ti < 4 →
      calculateUFlags exEnv o ⟨.truthy, .yes, .yes⟩ x ti q = .ok (fun _ _ => lit 0 1, q) := by
  obtain ⟨o, r', h⟩ := C105_odd_run exEnv (exCfg 2 2 3 3 true true true) (by norm_num) (by rw [exCfg_grid]; omega) rfl
    (by simp [exCfg]) r
  have hl : o.timegrid.length = 4 := by rw [(constructFlags_len h).1, exCfg_grid]
  refine ⟨o, r', h, hl, fun x ti h0 h4 => ?_⟩
  exact (C105_zero_control exEnv _ ⟨.truthy, .yes, .yes⟩ rfl rfl (by simp) (by norm_num) r r' o x ti (by omega) (by omega)
    (by omega) q).1 h

/-- Non-vacuity of `C105_missing_storage` and `C105_runs`: with `reweight=True` and `brown_bridge=None` a reweighted run
succeeds, and its controls cannot be queried. -/
example (r q : ℕ) : ∃ (o : Obj 2 2 3 ℝ) (r' : ℕ),
    constructFlags exEnv (exCfg 2 2 3 3 true true false) ⟨.yes, .falsy, .yes⟩ r = .ok (o, r') ∧
    ∀ x : Mat 1 2 ℝ, calculateUFlags exEnv o ⟨.yes, .falsy, .yes⟩ x 1 q = .error .attributeError := by
  obtain ⟨o, r', h, hl⟩ := ex_det 2 2 3 3 true false (by norm_num) (by norm_num) r
  have h' : constructFlags exEnv (exCfg 2 2 3 3 true true false) ⟨.yes, .falsy, .yes⟩ r = .ok (o, r') := by
    rw [(C105_runs exEnv _ ⟨.yes, .falsy, .yes⟩ (by simp)).1]
    exact h
  exact ⟨o, r', h', fun x => (C105_missing_storage exEnv _ ⟨.yes, .falsy, .yes⟩ (by simp) (by simp) (.inr rfl) r r' o x 1
    (by omega) (by omega) q).1 h'⟩

/-- Non-vacuity of the torch halves: a stochastic torch run with `reweight=None`, `brown_bridge=None`. -/
example (r q : ℕ) : ∃ (o : Obj 2 2 3 ℝ) (r' : ℕ),
    torchConstructFlags exEnv (exFan 2 2 3 3) ⟨.falsy, .falsy, .truthy⟩ r = .ok (o, r') ∧
    ∀ x : Mat 1 2 ℝ, torchCalculateUFlags exEnv o ⟨.falsy, .falsy, .truthy⟩ x 1 q = .error .attributeError := by
  obtain ⟨o, r', h, hl⟩ := ex_torch 2 2 3 3 (by norm_num) (by norm_num) (by norm_num) r
  have h' : torchConstructFlags exEnv (exFan 2 2 3 3) ⟨.falsy, .falsy, .truthy⟩ r = .ok (o, r') := by
    rw [(C105_runs exEnv _ ⟨.falsy, .falsy, .truthy⟩ (by simp)).2]
    exact h
  exact ⟨o, r', h', fun x => (C105_missing_storage exEnv _ ⟨.falsy, .falsy, .truthy⟩ (by simp) (by simp) (.inr rfl) r r' o x 1
    (by omega) (by omega) q).2 h'⟩

end DPFC
