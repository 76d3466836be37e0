import Verif.Lib.Attr

/-! # C98, C99: devices, precision and gradient tracking of the torch class -/

namespace DPFC

/-- **C98, estimator at the samples.** The estimator works iff samples and inducing points are on the device named
by `device` (the CPU if none is named), and, if the lengthscale is a number, inducing points are not less precise
than the samples; otherwise `RuntimeError`. The result is on that device, in double precision. -/
theorem C98_estimator (d : Nat) (hd : 0 < d) (device : Option Dev) (X Z : Tn) (l : LsArg) (hX : X.scalar = false)
    (hZ : Z.scalar = false) :
    attrScore d device (.tens X Z) l =
      if X.dev = device.getD .cpu ∧ Z.dev = device.getD .cpu ∧ (l = .num → X.f64 = true → Z.f64 = true) then
        .ok ⟨device.getD .cpu, false, true, true⟩
      else .error .runtimeError :=
  score_tens d hd device X Z l hX hZ

/-- Double precision samples with single precision inducing points work with a list of lengthscales but not with a
number. -/
example : attrScore 2 none (.tens ⟨.cpu, false, true, false⟩ ⟨.cpu, false, false, false⟩) .arr
      = .ok ⟨.cpu, false, true, true⟩
    ∧ attrScore 2 none (.tens ⟨.cpu, false, true, false⟩ ⟨.cpu, false, false, false⟩) .num = .error .runtimeError
    ∧ attrScore 2 none (.tens ⟨.cpu, false, false, false⟩ ⟨.cpu, false, true, false⟩) .num
      = .ok ⟨.cpu, false, true, true⟩
    ∧ attrScore 2 none (.tens ⟨.cuda 0, false, true, false⟩ ⟨.cuda 0, false, true, false⟩) .num
      = .error .runtimeError := by
  refine ⟨?_, ?_, ?_, ?_⟩ <;> rfl

/-- Arrays are moved to the device; then there is no condition. -/
theorem C98_estimator_arrays (d : Nat) (hd : 0 < d) (device : Option Dev) (l : LsArg) :
    attrScore d device .arrays l = .ok ⟨device.getD .cpu, false, true, true⟩ := by
  have h := score_tens d hd device (Tn.fresh (devOf device)) (Tn.fresh (devOf device)) l rfl rfl
  rw [if_pos ⟨rfl, rfl, fun _ h => h⟩] at h
  exact h

/-- Samples as an array and inducing points as a tensor. -/
theorem C98_estimator_mixed (d : Nat) (hd : 0 < d) (device : Option Dev) (Z : Tn) (hZ : Z.scalar = false) (l : LsArg) :
    attrScore d device (.arrTen Z) l =
      if Z.dev = device.getD .cpu ∧ (l = .num → Z.f64 = true) then .ok ⟨device.getD .cpu, false, true, true⟩
      else .error .runtimeError := by
  have h := score_tens d hd device (Tn.fresh (devOf device)) Z l rfl hZ
  refine Eq.trans h ?_
  have e : (((Tn.fresh (devOf device)).dev = devOf device ∧ Z.dev = devOf device ∧
      (l = .num → (Tn.fresh (devOf device)).f64 = true → Z.f64 = true)) ↔
      (Z.dev = device.getD .cpu ∧ (l = .num → Z.f64 = true))) :=
    ⟨fun h => ⟨h.2.1, fun hl => h.2.2 hl rfl⟩, fun h => ⟨rfl, h.1, fun hl _ => h.2 hl⟩⟩
  by_cases hh : Z.dev = device.getD .cpu ∧ (l = .num → Z.f64 = true)
  · rw [if_pos hh, if_pos (e.mpr hh)]; rfl
  · rw [if_neg hh, if_neg (fun h' => hh (e.mp h'))]

example : attrScore 3 (some (.cuda 1)) .arrays .num = .ok ⟨.cuda 1, false, true, true⟩
    ∧ attrScore 3 (some (.cuda 1)) (.arrTen ⟨.cpu, false, true, false⟩) .num = .error .runtimeError := ⟨rfl, rfl⟩

/-- **C98, function output.** The function the estimator returns for several lengthscales in a tensor works, on
tensors, iff samples, inducing points, query points and also the lengthscales are on the device, and one of query
points, inducing points and lengthscales is in double precision. -/
theorem C98_estimator_function (device : Option Dev) (X Z l x : Tn) (hX : X.scalar = false)
    (hZ : Z.scalar = false) (hl : l.scalar = false) (hx : x.scalar = false) :
    attrScoreFn device (.tens X Z) (.many l) (.ten x) =
      if X.dev = device.getD .cpu ∧ Z.dev = device.getD .cpu ∧ x.dev = device.getD .cpu ∧ l.dev = device.getD .cpu ∧
          (x.f64 = true ∨ Z.f64 = true ∨ l.f64 = true) then
        .ok ⟨device.getD .cpu, false, true, true⟩
      else .error .runtimeError :=
  scoreFn_many device X Z l x hX hZ hl hx

/-- With one lengthscale the function works on arrays iff samples and inducing points are on the device and the
inducing points are in double precision; on tensors it never works. -/
theorem C98_estimator_function_number (device : Option Dev) (X Z : Tn) (hX : X.scalar = false) (hZ : Z.scalar = false) :
    (attrScoreFn device (.tens X Z) .num .arr =
      if X.dev = device.getD .cpu ∧ Z.dev = device.getD .cpu ∧ Z.f64 = true then
        .ok ⟨device.getD .cpu, false, true, true⟩
      else .error .runtimeError)
    ∧ ∀ x r, attrScoreFn device (.tens X Z) .num (.ten x) ≠ .ok r := by
  refine ⟨scoreFn_num device X Z hX hZ, fun x r hr => ?_⟩
  by_cases h : X.dev = devOf device ∧ Z.dev = devOf device
  · rw [scoreFn_name device X Z .num x rfl hX hZ h.1 h.2] at hr
    cases hr
  · unfold attrScoreFn at hr
    rw [parts_tens device X Z _ hX hZ, if_neg h] at hr
    cases hr

/-- Lengthscales on the CPU are fine for the values at the samples, and refused by the function output. -/
example : attrScore 2 (some (.cuda 0)) (.tens ⟨.cuda 0, false, true, false⟩ ⟨.cuda 0, false, true, false⟩)
        (.many ⟨.cpu, false, true, false⟩) = .ok ⟨.cuda 0, false, true, true⟩
    ∧ attrScoreFn (some (.cuda 0)) (.tens ⟨.cuda 0, false, true, false⟩ ⟨.cuda 0, false, true, false⟩)
        (.many ⟨.cpu, false, true, false⟩) (.ten ⟨.cuda 0, false, true, false⟩) = .error .runtimeError
    ∧ attrScoreFn none (.tens ⟨.cpu, false, false, false⟩ ⟨.cpu, false, false, false⟩) .num .arr
        = .error .runtimeError
    ∧ attrScoreFn none (.tens ⟨.cpu, false, false, false⟩ ⟨.cpu, false, false, false⟩)
        (.many ⟨.cpu, false, false, false⟩) (.ten ⟨.cpu, false, false, false⟩) = .error .runtimeError := by
  refine ⟨?_, ?_, ?_, ?_⟩ <;> rfl

/-- A two-dimensional run with `k` grid points and callables computing on the device of their argument. -/
def exAttr (k : Nat) (device : Option Dev) (det rew bb : Bool) : TCfg :=
  { d := 2, k, device, y1 := ⟨.cpu, false, true, false⟩, y2 := ⟨.cpu, false, true, false⟩, gScalar := true,
    f := fun x _ => .ok x, fTrue := fun x _ => .ok x, U := fun x _ => .ok x,
    reweight := rew, brownBridge := bb, deterministic := det }

theorem exAttr_plain : PlainCall fun x _ => .ok x := fun x _ => ⟨x, rfl, rfl, id⟩

/-- **C98, deterministic runs.** With callables that compute on the device of their argument, the deterministic run
meets no conflict of devices or precisions, on any device and for initial and target states on any device; both
flows are stored on the device, in double precision. (Without the flow of the true drift.) -/
theorem C98_deterministic (c : TCfg) (hdet : c.deterministic = true) (hd : 2 ≤ c.d) (hk : 1 ≤ c.k)
    (hf : PlainCall c.f) (hU : c.reweight = true → PlainCall c.U) (hb : ¬ (c.reweight = true ∧ c.brownBridge = true)) :
    ∃ o, c.construct = .ok o ∧ DoubleOn (c.device.getD .cpu) o.Z ∧ DoubleOn (c.device.getD .cpu) o.B := by
  refine ⟨⟨c.st (c.ottoFlag c.k), none, c.st c.backFlag⟩, ?_, ⟨rfl, rfl, rfl⟩, ⟨rfl, rfl, rfl⟩⟩
  unfold TCfg.construct
  simp only [hdet, ↓reduceIte, c.otto_ok (by omega) hf hU, c.backward_ok hd hk hf, bind, Except.bind, hb, pure,
    Except.pure]

example : ∃ o, (exAttr 1000 (some (.cuda 0)) true true false).construct = .ok o ∧ DoubleOn (.cuda 0) o.Z
    ∧ DoubleOn (.cuda 0) o.B :=
  C98_deterministic _ rfl (by decide) (by decide) exAttr_plain (fun _ => exAttr_plain) (by decide)

/-- **C98, stochastic runs.** On the CPU a stochastic run (without reweighting) meets no conflict; on any other
device it always fails with `RuntimeError` (as soon as there are two grid points). -/
theorem C98_stochastic (c : TCfg) (hdet : c.deterministic = false) (hd : 2 ≤ c.d) (hk : 2 ≤ c.k)
    (hf : PlainCall c.f) :
    (c.device.getD .cpu = .cpu → ∃ o, c.construct = .ok o ∧ DoubleOn .cpu o.Z ∧ DoubleOn .cpu o.B) ∧
    (c.device.getD .cpu ≠ .cpu → c.construct = .error .runtimeError) := by
  constructor
  · intro hc
    have hc' : c.dv = .cpu := hc
    refine ⟨⟨c.st (decide (1 ≤ c.k) && c.y1.grad), if c.reweight ∧ c.brownBridge then some (Tn.fresh c.dv) else none,
      c.st c.backFlag⟩, ?_, ⟨hc', rfl, rfl⟩, ⟨hc', rfl, rfl⟩⟩
    unfold TCfg.construct
    simp only [hdet, Bool.false_eq_true, ↓reduceIte, c.stoch_cpu hc' hd hf, c.backward_ok hd (by omega) hf, bind,
      Except.bind, pure, Except.pure]
  · intro hc
    unfold TCfg.construct
    simp only [hdet, Bool.false_eq_true, ↓reduceIte, c.stoch_cuda hc hd hk hf, bind, Except.bind]

example : (exAttr 500 (some (.cuda 0)) false false false).construct = .error .runtimeError :=
  (C98_stochastic _ rfl (by decide) (by decide) exAttr_plain).2 (by decide)

example : ∃ o, (exAttr 500 none false false false).construct = .ok o ∧ DoubleOn .cpu o.Z ∧ DoubleOn .cpu o.B :=
  (C98_stochastic _ rfl (by decide) (by decide) exAttr_plain).1 rfl

/-- **C98, the recommended device.** With the device chosen by `set_device` a stochastic run (without reweighting)
works exactly on machines without a GPU; a deterministic run, outside Brownian-bridge reweighting, works on all machines,
with its flows on the chosen device. -/
theorem C98_set_device (avail : Bool) (cur : Nat) (c : TCfg) (hdev : c.device = some (setDevice avail cur)) (hd : 2 ≤ c.d)
    (hk : 2 ≤ c.k) (hf : PlainCall c.f) :
    (c.deterministic = false → ((∃ o, c.construct = .ok o) ↔ avail = false)) ∧
    (c.deterministic = true → (c.reweight = true → PlainCall c.U) → ¬ (c.reweight = true ∧ c.brownBridge = true) →
      ∃ o, c.construct = .ok o ∧ DoubleOn (setDevice avail cur) o.Z ∧ DoubleOn (setDevice avail cur) o.B) := by
  constructor
  · intro hdet
    have h := C98_stochastic c hdet hd hk hf
    rw [hdev] at h
    cases avail with
    | false =>
      obtain ⟨o, ho, -⟩ := h.1 rfl
      exact ⟨fun _ => rfl, fun _ => ⟨o, ho⟩⟩
    | true =>
      have he := h.2 (by simp [setDevice])
      rw [he]
      constructor
      · rintro ⟨o, ho⟩
        cases ho
      · intro c
        cases c
  · intro hdet hU hb
    have h := C98_deterministic c hdet hd (by omega) hf hU hb
    rw [hdev] at h
    exact h

example : ¬ ∃ o, (exAttr 500 (some (setDevice true 0)) false false false).construct = .ok o := fun h =>
  Bool.noConfusion (((C98_set_device true 0 _ rfl (by decide) (by decide) exAttr_plain).1 rfl).1 h)

/-- **C98, Brownian-bridge reweighting.** The flow of the true drift fails with `RuntimeError` on any device but the
CPU. -/
theorem C98_true_flow (c : TCfg) (hdet : c.deterministic = true) (hr : c.reweight = true) (hb : c.brownBridge = true)
    (hd : 1 ≤ c.d) (hk : 2 ≤ c.k) (hf : PlainCall c.f) (hU : PlainCall c.U) (ht : PlainCall c.fTrue)
    (hc : c.device.getD .cpu ≠ .cpu) : c.construct = .error .runtimeError := by
  unfold TCfg.construct
  simp only [hdet, hr, hb, and_self, ↓reduceIte, c.otto_ok hd hf (fun _ => hU), c.ottoTrue_cuda hc hd hk ht, bind,
    Except.bind]

example : (exAttr 500 (some (.cuda 3)) true true true).construct = .error .runtimeError :=
  C98_true_flow _ rfl rfl rfl (by decide) (by decide) exAttr_plain exAttr_plain exAttr_plain (by decide)

/-- what is known about the flows of an object -/
theorem attr_object (c : TCfg) (hd : 2 ≤ c.d) (hk : 1 ≤ c.k) (hf : PlainCall c.f)
    (hU : c.reweight = true → PlainCall c.U) (hb : ¬ (c.reweight = true ∧ c.brownBridge = true)) (o : TCfg.Obj)
    (ho : c.construct = .ok o) :
    ∃ gz, o.Z = c.st gz ∧ o.Ztr = none ∧ o.B = c.st c.backFlag ∧
      (c.deterministic = true → gz = c.ottoFlag c.k) ∧
      (c.deterministic = false → 2 ≤ c.k → gz = c.y1.grad ∧ c.dv = .cpu) := by
  cases hdet : c.deterministic
  · unfold TCfg.construct at ho
    simp only [hdet, Bool.false_eq_true, ↓reduceIte] at ho
    cases hs : c.stoch with
    | error e => simp [hs, bind, Except.bind] at ho
    | ok Z =>
      have hZ : ∃ gz, Z = c.st gz ∧ (2 ≤ c.k → gz = c.y1.grad ∧ c.dv = .cpu) := by
        by_cases hc : c.dv = .cpu
        · rw [c.stoch_cpu hc hd hf] at hs
          cases hs
          refine ⟨_, rfl, fun hk2 => ⟨?_, hc⟩⟩
          simp [show 1 ≤ c.k by omega]
        · by_cases hk2 : 2 ≤ c.k
          · rw [c.stoch_cuda hc hd hk2 hf] at hs
            cases hs
          · have hk1 : c.k = 1 := by omega
            unfold TCfg.stoch at hs
            rw [hk1] at hs
            simp only [List.range_one, List.foldlM_cons, List.foldlM_nil, ↓reduceIte, show ¬ c.d < 2 by omega,
              pure, Except.pure, bind, Except.bind] at hs
            cases hs
            exact ⟨c.y1.grad, by simp [TCfg.st, Tn.put, Tn.fresh, Tn.entry], fun h => absurd h hk2⟩
      obtain ⟨gz, rfl, hgz⟩ := hZ
      simp only [hs, bind, Except.bind, c.backward_ok hd hk hf, hb, ↓reduceIte, pure, Except.pure] at ho
      cases ho
      exact ⟨gz, rfl, rfl, rfl, fun h => (by simp at h), fun _ => hgz⟩
  · unfold TCfg.construct at ho
    simp only [hdet, ↓reduceIte, c.otto_ok (by omega) hf hU, c.backward_ok hd hk hf, bind, Except.bind, hb, pure,
      Except.pure] at ho
    cases ho
    exact ⟨_, rfl, rfl, rfl, fun _ => rfl, fun h => (by simp at h)⟩

/-- **C98, queries.** At the first six and last five grid points the control can be queried at points on the device
of the object, or on any device if the object is on the CPU; in between only at points on the device of the object.
Otherwise `RuntimeError`. The control is on the device of the object, in double precision. -/
theorem C98_queries (c : TCfg) (hd : 2 ≤ c.d) (hk : 1 ≤ c.k) (hf : PlainCall c.f)
    (hU : c.reweight = true → PlainCall c.U) (hb : ¬ (c.reweight = true ∧ c.brownBridge = true)) (o : TCfg.Obj)
    (ho : c.construct = .ok o) (grid : Tn) (hg : grid.scalar = false) (ti : Nat) :
    (∀ u, c.control o grid ti = .ok u → DoubleOn (c.device.getD .cpu) u) ∧
    (∀ e, c.control o grid ti = .error e → e = .runtimeError) ∧
    ((∃ u, c.control o grid ti = .ok u) ↔
      grid.dev = c.device.getD .cpu ∨ ((ti ≤ 5 ∨ c.k ≤ ti + 5) ∧ c.device.getD .cpu = .cpu)) := by
  obtain ⟨gz, hZ, hT, hB, -, -⟩ := attr_object c hd hk hf hU hb o ho
  have hF : o.fw = c.st gz := by unfold TCfg.Obj.fw; rw [hT]; exact hZ
  by_cases he : ti ≤ 5 ∨ c.k ≤ ti + 5
  · rw [c.control_edge o _ _ hB hF grid hg (by omega) ti he]
    by_cases h : grid.dev = c.dv ∨ c.dv = .cpu
    · rw [if_pos h]
      refine ⟨fun u hu => ?_, fun e h' => (by cases h'), iff_of_true ⟨_, rfl⟩ ?_⟩
      · cases hu; exact ⟨rfl, rfl, rfl⟩
      · exact h.imp id fun h => ⟨he, h⟩
    · rw [if_neg h]
      refine ⟨fun u hu => (by cases hu), fun e h' => (by cases h'; rfl), iff_of_false (fun ⟨u, hu⟩ => by cases hu) ?_⟩
      rintro (h' | h')
      · exact h (Or.inl h')
      · exact h (Or.inr h'.2)
  · rw [c.control_interior o _ _ hB hF grid hg (by omega) ti he]
    by_cases h : grid.dev = c.dv
    · rw [if_pos h]
      refine ⟨fun u hu => ?_, fun e h' => (by cases h'), iff_of_true ⟨_, rfl⟩ (Or.inl h)⟩
      cases hu; exact ⟨rfl, rfl, rfl⟩
    · rw [if_neg h]
      refine ⟨fun u hu => (by cases hu), fun e h' => (by cases h'; rfl), iff_of_false (fun ⟨u, hu⟩ => by cases hu) ?_⟩
      rintro (h' | h')
      · exact h h'
      · exact he h'.1

/-- **C98, coverage.** The coverage check compares 0-dimensional tensors, so it accepts points on the device of the
object and, across devices, whenever one of the two is the CPU; two different CUDA devices give `RuntimeError`. The
answer is a tensor on the CUDA device involved, if there is one. -/
theorem C98_coverage (c : TCfg) (hd : 1 ≤ c.d) (X : Tn) :
    c.covered X =
      if X.dev = c.device.getD .cpu ∨ c.device.getD .cpu = .cpu then .ok (some X.dev)
      else if X.dev = .cpu then .ok (some (c.device.getD .cpu))
      else .error .runtimeError := by
  change c.covered X = if X.dev = c.dv ∨ c.dv = .cpu then .ok (some X.dev) else if X.dev = .cpu then .ok (some c.dv)
    else .error .runtimeError
  unfold TCfg.covered
  obtain ⟨xd, xs, xq, xg⟩ := X
  by_cases h : xd = c.dv
  · subst h
    rw [if_pos (Or.inl rfl)]
    apply foldlM_range_put c.d hd (g := fun _ => _) <;>
      simp [Tn.entry, Tn.fresh, Tn.ew_on, bind, Except.bind, pure, Except.pure]
  · by_cases h2 : c.dv = .cpu
    · rw [if_pos (Or.inr h2)]
      have h3 : xd ≠ .cpu := fun e => h (e.trans h2.symm)
      apply foldlM_range_put c.d hd (g := fun _ => _) <;>
        simp [Tn.entry, Tn.fresh, Tn.ew, bind, Except.bind, pure, Except.pure, h2, h3]
    · rw [if_neg (by simp [h, h2])]
      by_cases h3 : xd = .cpu
      · rw [if_pos h3]
        apply foldlM_range_put c.d hd (g := fun _ => _) <;>
          simp [Tn.entry, Tn.fresh, Tn.ew, bind, Except.bind, pure, Except.pure, h3, Ne.symm h2]
      · rw [if_neg h3]
        apply foldlM_range_err c.d hd (g := fun _ => _)
        simp [Tn.entry, Tn.fresh, Tn.ew, bind, Except.bind, h, h2, h3]

example : (exAttr 500 (some (.cuda 0)) true false false).covered ⟨.cpu, false, true, false⟩ = .ok (some (.cuda 0)) ∧
    (exAttr 500 (some (.cuda 0)) true false false).covered ⟨.cuda 1, false, true, false⟩ = .error .runtimeError :=
  ⟨rfl, rfl⟩

/-- **C99, forward flow.** After a deterministic run the forward flow takes part in automatic differentiation iff
there are at least three grid points or the initial state does (in Brownian-bridge mode: or the target does); after
a stochastic run iff the initial state does. -/
theorem C99_forward (c : TCfg) (hd : 2 ≤ c.d) (hk : 2 ≤ c.k) (hf : PlainCall c.f)
    (hU : c.reweight = true → PlainCall c.U) (hb : ¬ (c.reweight = true ∧ c.brownBridge = true)) (o : TCfg.Obj)
    (ho : c.construct = .ok o) :
    (c.deterministic = true →
      (o.Z.grad = true ↔ 3 ≤ c.k ∨ c.y1.grad = true ∨ (c.brownBridge = true ∧ c.y2.grad = true))) ∧
    (c.deterministic = false → o.Z.grad = c.y1.grad) := by
  obtain ⟨gz, hZ, hT, hB, h1, h2⟩ := attr_object c hd (by omega) hf hU hb o ho
  refine ⟨fun h => ?_, fun h => ?_⟩
  · rw [hZ, h1 h]
    simp [TCfg.st, TCfg.ottoFlag, show 1 ≤ c.k by omega]
  · rw [hZ, (h2 h hk).1]
    rfl

/-- **C99, backward flow.** The backward flow takes part in automatic differentiation iff there are at least three
grid points or the initial state or the target does. -/
theorem C99_backward (c : TCfg) (hd : 2 ≤ c.d) (hk : 2 ≤ c.k) (hf : PlainCall c.f)
    (hU : c.reweight = true → PlainCall c.U) (hb : ¬ (c.reweight = true ∧ c.brownBridge = true)) (o : TCfg.Obj)
    (ho : c.construct = .ok o) :
    o.B.grad = true ↔ 3 ≤ c.k ∨ c.y1.grad = true ∨ c.y2.grad = true := by
  obtain ⟨gz, hZ, hT, hB, h1, h2⟩ := attr_object c hd (by omega) hf hU hb o ho
  rw [hB]
  simp [TCfg.st, TCfg.backFlag, show 2 ≤ c.k by omega]
  tauto

/-- **C99, plots.** With at least three grid points the backward flow, the control at any time index and, after a
deterministic run, the forward flow cannot be turned into numpy arrays without being detached first; on the CPU
they can afterwards. The estimator's results cannot either. -/
theorem C99_plots (c : TCfg) (hd : 2 ≤ c.d) (hk : 3 ≤ c.k) (hf : PlainCall c.f)
    (hU : c.reweight = true → PlainCall c.U) (hb : ¬ (c.reweight = true ∧ c.brownBridge = true)) (o : TCfg.Obj)
    (ho : c.construct = .ok o) :
    ¬ Plottable o.B ∧ (c.deterministic = true → ¬ Plottable o.Z) ∧
    (c.deterministic = false → c.y1.grad = false → Plottable o.Z) ∧
    (∀ grid ti u, grid.scalar = false → c.control o grid ti = .ok u → ¬ Plottable u) ∧
    (c.device.getD .cpu = .cpu → Plottable { o.B with grad := false } ∧ Plottable { o.Z with grad := false }) := by
  obtain ⟨gz, hZ, hT, hB, h1, h2⟩ := attr_object c hd (by omega) hf hU hb o ho
  have np : ∀ t : Tn, t.grad = true → ¬ Plottable t := by
    intro t ht hp
    unfold Plottable Tn.numpy at hp
    by_cases hc : t.dev = .cpu <;> simp [hc, ht] at hp
  have hBg : o.B.grad = true := by rw [hB]; simp [TCfg.st, TCfg.backFlag, hk]
  have hF : o.fw = c.st gz := by unfold TCfg.Obj.fw; rw [hT]; exact hZ
  refine ⟨np _ hBg, fun h => np _ ?_, fun h hy => ?_, fun grid ti u hg hu => np _ ?_, fun hc => ⟨?_, ?_⟩⟩
  · rw [hZ, h1 h]; simp [TCfg.st, TCfg.ottoFlag, hk]
  · obtain ⟨e, hc⟩ := h2 h (by omega)
    rw [hZ, e, hy]
    simp [Plottable, Tn.numpy, TCfg.st, hc]
  · by_cases he : ti ≤ 5 ∨ c.k ≤ ti + 5
    · rw [c.control_edge o _ _ hB hF grid hg (by omega) ti he] at hu
      split at hu
      · cases hu
        simp [TCfg.st, TCfg.backFlag, hk]
      · cases hu
    · rw [c.control_interior o _ _ hB hF grid hg (by omega) ti he] at hu
      split at hu
      · cases hu; rfl
      · cases hu
  · have hc' : c.dv = .cpu := hc
    rw [hB]; simp [Plottable, Tn.numpy, TCfg.st, hc']
  · have hc' : c.dv = .cpu := hc
    rw [hZ]; simp [Plottable, Tn.numpy, TCfg.st, hc']

/-- The hypotheses are met by an ordinary run: 500 grid points on the CPU. -/
example : ∃ o, (exAttr 500 none true false false).construct = .ok o ∧ o.Z.grad = true ∧ o.B.grad = true ∧
    ¬ Plottable o.B ∧ ¬ Plottable o.Z := by
  obtain ⟨o, ho, -⟩ := C98_deterministic (exAttr 500 none true false false) rfl (by decide) (by decide) exAttr_plain
    (fun _ => exAttr_plain) (by decide)
  have a := C99_forward _ (by decide) (by decide) exAttr_plain (fun _ => exAttr_plain) (by decide) o ho
  have b := C99_backward _ (by decide) (by decide) exAttr_plain (fun _ => exAttr_plain) (by decide) o ho
  have p := C99_plots _ (by decide) (by decide) exAttr_plain (fun _ => exAttr_plain) (by decide) o ho
  exact ⟨o, ho, (a.1 rfl).2 (Or.inl (by decide)), b.2 (Or.inl (by decide)), p.1, p.2.1 rfl⟩

/-- With two grid points nothing takes part in automatic differentiation. -/
example : ∃ o, (exAttr 2 none true false false).construct = .ok o ∧ Plottable o.Z ∧ Plottable o.B := ⟨_, rfl, rfl, rfl⟩

/-- A stochastic run leaves a forward flow that can be plotted. -/
example : ∃ o, (exAttr 500 none false false false).construct = .ok o ∧ Plottable o.Z ∧ ¬ Plottable o.B := by
  obtain ⟨o, ho, -⟩ := (C98_stochastic (exAttr 500 none false false false) rfl (by decide) (by decide)
    exAttr_plain).1 rfl
  have p := C99_plots _ (by decide) (by decide) exAttr_plain (fun _ => exAttr_plain) (by decide) o ho
  exact ⟨o, ho, p.2.2.1 rfl rfl, p.1⟩

/-- Queries on a CPU object at points on another device: allowed at the ends, refused in between. -/
example : ∃ o, (exAttr 500 none true false false).construct = .ok o ∧
    (∃ u, (exAttr 500 none true false false).control o ⟨.cuda 0, false, true, false⟩ 3 = .ok u) ∧
    ¬ ∃ u, (exAttr 500 none true false false).control o ⟨.cuda 0, false, true, false⟩ 250 = .ok u := by
  obtain ⟨o, ho, -⟩ := C98_deterministic (exAttr 500 none true false false) rfl (by decide) (by decide) exAttr_plain
    (fun _ => exAttr_plain) (by decide)
  have q := fun ti => (C98_queries _ (by decide) (by decide) exAttr_plain (fun _ => exAttr_plain) (by decide) o ho
    ⟨.cuda 0, false, true, false⟩ rfl ti).2.2
  exact ⟨o, ho, (q 3).2 (Or.inr ⟨by decide, rfl⟩), fun h => by
    rcases (q 250).1 h with h | h
    · cases h
    · exact absurd h.1 (by decide)⟩

/-- **C99, estimator.** Whatever the arguments, what the estimator returns takes part in automatic differentiation. -/
theorem C99_estimator (d : Nat) (hd : 0 < d) (device : Option Dev) (X Z : Tn) (l : LsArg) (hX : X.scalar = false)
    (hZ : Z.scalar = false) (r : Tn) (hr : attrScore d device (.tens X Z) l = .ok r) : ¬ Plottable r := by
  rw [score_tens d hd device X Z l hX hZ] at hr
  split at hr
  · cases hr
    unfold Plottable Tn.numpy
    by_cases hc : devOf device = .cpu <;> simp [hc]
  · cases hr

example : ∃ r, attrScore 2 none (.tens ⟨.cpu, false, true, false⟩ ⟨.cpu, false, true, false⟩) .num = .ok r ∧
    ¬ Plottable r :=
  ⟨⟨.cpu, false, true, true⟩, rfl, C99_estimator 2 (by decide) none ⟨.cpu, false, true, false⟩
    ⟨.cpu, false, true, false⟩ .num rfl rfl _ rfl⟩

end DPFC
