import Verif.Spec.Attr

/-! # Computing with tensor attributes -/

namespace DPFC

open TCfg

theorem Tn.ew_on (dv : Dev) (s1 q1 g1 s2 q2 g2 : Bool) :
    Tn.ew ⟨dv, s1, q1, g1⟩ ⟨dv, s2, q2, g2⟩ =
      .ok ⟨dv, s1 && s2, if s1 = s2 then q1 || q2 else if s1 then q2 else q1, g1 || g2⟩ := by
  simp [Tn.ew]

theorem kernel_num (dv : Dev) (X Y : Tn) (hX : X.scalar = false) (hY : Y.scalar = false) :
    attrKernel dv .num X Y =
      if X.dev = Y.dev ∧ X.dev = dv then .ok ⟨dv, false, X.f64 || Y.f64, true⟩
      else if X.dev = Y.dev ∧ dv = .cpu then .ok ⟨X.dev, false, X.f64 || Y.f64, true⟩
      else .error .runtimeError := by
  obtain ⟨xd, xs, xf, xg⟩ := X
  obtain ⟨yd, ys, yf, yg⟩ := Y
  simp only at hX hY
  subst hX hY
  by_cases h : xd = yd
  · subst h
    by_cases h2 : xd = dv
    · subst h2; simp [attrKernel, Tn.ew, attrLengthScale, bind, Except.bind]
    · by_cases h3 : dv = .cpu
      · subst h3; simp [attrKernel, Tn.ew, attrLengthScale, bind, Except.bind, h2, Ne.symm h2]
      · simp [attrKernel, Tn.ew, attrLengthScale, bind, Except.bind, h2, h3]
  · simp [attrKernel, Tn.ew, bind, Except.bind, h]

theorem kernel_arr (dv : Dev) (l : LsArg) (hl : l ≠ .num) (X Y : Tn) (hX : X.scalar = false) (hY : Y.scalar = false) :
    attrKernel dv l X Y =
      if X.dev = dv ∧ Y.dev = dv then .ok ⟨dv, false, true, true⟩ else .error .runtimeError := by
  obtain ⟨xd, xs, xf, xg⟩ := X
  obtain ⟨yd, ys, yf, yg⟩ := Y
  simp only at hX hY
  subst hX hY
  have hls : attrLengthScale dv l = ⟨dv, false, true, true⟩ := by
    cases l <;> simp_all [attrLengthScale]
  by_cases h : xd = yd
  · subst h
    by_cases h2 : xd = dv
    · subst h2; simp [attrKernel, Tn.ew, hls, bind, Except.bind]
    · simp [attrKernel, Tn.ew, hls, bind, Except.bind, h2]
  · by_cases h2 : xd = dv
    · subst h2; simp [attrKernel, Tn.ew, bind, Except.bind, h, Ne.symm h]
    · simp [attrKernel, Tn.ew, bind, Except.bind, h, h2]

/-- precision of the kernel matrices -/
def LsArg.up : LsArg → Bool
  | .num => false
  | _ => true

/-- The common part of the estimator. -/
theorem parts_tens (device : Option Dev) (X Z : Tn) (l : LsArg) (hX : X.scalar = false) (hZ : Z.scalar = false) :
    attrParts device (.tens X Z) l =
      if X.dev = devOf device ∧ Z.dev = devOf device then
        .ok ⟨⟨devOf device, false, X.f64 || Z.f64 || l.up, true⟩, ⟨devOf device, false, Z.f64 || l.up, true⟩,
          ⟨devOf device, false, X.f64 || Z.f64 || l.up, true⟩, Z⟩
      else .error .runtimeError := by
  generalize hdv : devOf device = dv
  by_cases hl : l = .num
  · subst hl
    simp only [attrParts, Pts.conv, hdv, kernel_num dv X Z hX hZ, kernel_num dv Z Z hZ hZ]
    obtain ⟨xd, xs, xf, xg⟩ := X
    obtain ⟨zd, zs, zf, zg⟩ := Z
    simp only at hX hZ
    subst hX hZ
    by_cases h : xd = zd
    · subst h
      by_cases h2 : xd = dv
      · subst h2
        simp [attrGradient, Tn.ew, Tn.mm, Tn.eye, attrLengthScale, LsArg.up, bind, Except.bind, pure, Except.pure]
      · by_cases h3 : dv = .cpu
        · subst h3; simp [h2, bind, Except.bind, Tn.ew, Tn.eye]
        · simp [h2, h3, bind, Except.bind]
    · have : ¬ (xd = dv ∧ zd = dv) := fun h3 => h (h3.1.trans h3.2.symm)
      simp [h, this, bind, Except.bind]
  · simp only [attrParts, Pts.conv, hdv, kernel_arr dv l hl X Z hX hZ, kernel_arr dv l hl Z Z hZ hZ]
    have hls : attrLengthScale dv l = ⟨dv, false, true, true⟩ := by
      cases l <;> simp_all [attrLengthScale]
    have hup : l.up = true := by cases l <;> simp_all [LsArg.up]
    obtain ⟨xd, xs, xf, xg⟩ := X
    obtain ⟨zd, zs, zf, zg⟩ := Z
    simp only at hX hZ
    subst hX hZ
    by_cases h : xd = dv ∧ zd = dv
    · obtain ⟨h1, h2⟩ := h
      subst h1 h2
      simp [attrGradient, Tn.ew, Tn.mm, Tn.eye, hls, hup, bind, Except.bind, pure, Except.pure]
    · simp [h, bind, Except.bind]

theorem foldlM_range_put {α : Type} (n : Nat) (hn : 0 < n) (g : α → Except PyErr α) (a b : α) (ha : g a = .ok b) (hb : g b = .ok b) :
    (List.range n).foldlM (fun s _ => g s) a = .ok b := by
  have key : ∀ m : Nat, (List.range m).foldlM (fun s _ => g s) b = .ok b := by
    intro m
    induction m with
    | zero => rfl
    | succ m ih =>
      rw [List.range_succ, List.foldlM_append, ih]
      simp [bind, Except.bind, hb, pure, Except.pure]
  obtain ⟨m, rfl⟩ : ∃ m, n = m + 1 := ⟨n - 1, by omega⟩
  rw [List.range_succ_eq_map, List.foldlM_cons, ha]
  simpa [bind, Except.bind, List.foldlM_map] using key m

theorem foldlM_range_err {α : Type} (n : Nat) (hn : 0 < n) (g : α → Except PyErr α) (a : α) (e : PyErr) (ha : g a = .error e) :
    (List.range n).foldlM (fun s _ => g s) a = .error e := by
  obtain ⟨m, rfl⟩ : ∃ m, n = m + 1 := ⟨n - 1, by omega⟩
  rw [List.range_succ_eq_map, List.foldlM_cons, ha]
  simp [bind, Except.bind]

/-- The estimator evaluated at the samples. -/
theorem score_tens (d : Nat) (hd : 0 < d) (device : Option Dev) (X Z : Tn) (l : LsArg) (hX : X.scalar = false)
    (hZ : Z.scalar = false) :
    attrScore d device (.tens X Z) l =
      if X.dev = devOf device ∧ Z.dev = devOf device ∧ (l = .num → X.f64 = true → Z.f64 = true) then
        .ok ⟨devOf device, false, true, true⟩
      else .error .runtimeError := by
  unfold attrScore
  simp only [parts_tens device X Z l hX hZ]
  by_cases h : X.dev = devOf device ∧ Z.dev = devOf device
  · rw [if_pos h]
    by_cases hp : l = .num → X.f64 = true → Z.f64 = true
    · rw [if_pos ⟨h.1, h.2, hp⟩]
      have he : (X.f64 || Z.f64 || l.up) = (Z.f64 || l.up) := by
        cases l <;> simp [LsArg.up] at hp ⊢
        exact hp
      simp only [bind, Except.bind, he]
      apply foldlM_range_put d hd <;>
        simp [attrInv, Tn.mm, Tn.ew, Tn.eye, bind, Except.bind, pure, Except.pure, Tn.put, Tn.fresh]
    · rw [if_neg (fun hh => hp hh.2.2)]
      have hp' : l = .num ∧ X.f64 = true ∧ Z.f64 = false := by
        by_cases h1 : l = .num <;> by_cases h2 : X.f64 = true <;> by_cases h3 : Z.f64 = true <;> simp_all
      obtain ⟨rfl, hx, hz⟩ := hp'
      simp only [bind, Except.bind]
      apply foldlM_range_err d hd
      simp [attrInv, Tn.mm, LsArg.up, hx, hz, bind, Except.bind]
  · rw [if_neg h, if_neg (fun hh => h ⟨hh.1, hh.2.1⟩)]
    rfl

/-- Function output with several lengthscales in a tensor, evaluated at a tensor. -/
theorem scoreFn_many (device : Option Dev) (X Z l x : Tn) (hX : X.scalar = false)
    (hZ : Z.scalar = false) (hl : l.scalar = false) (hx : x.scalar = false) :
    attrScoreFn device (.tens X Z) (.many l) (.ten x) =
      if X.dev = devOf device ∧ Z.dev = devOf device ∧ x.dev = devOf device ∧ l.dev = devOf device ∧
          (x.f64 = true ∨ Z.f64 = true ∨ l.f64 = true) then
        .ok ⟨devOf device, false, true, true⟩
      else .error .runtimeError := by
  unfold attrScoreFn
  simp only [parts_tens device X Z _ hX hZ, LsArg.up]
  by_cases h : X.dev = devOf device ∧ Z.dev = devOf device
  · rw [if_pos h]
    obtain ⟨xd, xs, xf, xg⟩ := x
    obtain ⟨ld, lsc, lf, lg⟩ := l
    obtain ⟨zd, zs, zf, zg⟩ := Z
    simp only at hZ hl hx h
    obtain ⟨h1, h2⟩ := h
    subst hZ hl hx h2
    by_cases h3 : xd = devOf device
    · subst h3
      by_cases h4 : ld = devOf device
      · subst h4
        cases xf <;> cases lf <;> cases zf <;>
          simp [attrKsz, Tn.ew, attrInv, Tn.mm, Tn.eye, bind, Except.bind, h1]
      · simp [attrKsz, Tn.ew, bind, Except.bind, h1, h4, Ne.symm h4]
    · simp [attrKsz, Tn.ew, bind, Except.bind, h1, h3]
  · rw [if_neg h, if_neg (fun hh => h ⟨hh.1, hh.2.1⟩)]
    rfl

/-- Function output with one lengthscale given as a number, evaluated at an array. -/
theorem scoreFn_num (device : Option Dev) (X Z : Tn) (hX : X.scalar = false) (hZ : Z.scalar = false) :
    attrScoreFn device (.tens X Z) .num .arr =
      if X.dev = devOf device ∧ Z.dev = devOf device ∧ Z.f64 = true then
        .ok ⟨devOf device, false, true, true⟩
      else .error .runtimeError := by
  unfold attrScoreFn
  simp only [parts_tens device X Z _ hX hZ, LsArg.up]
  by_cases h : X.dev = devOf device ∧ Z.dev = devOf device
  · rw [if_pos h]
    obtain ⟨xd, xs, xf, xg⟩ := X
    obtain ⟨zd, zs, zf, zg⟩ := Z
    simp only at hZ hX h
    obtain ⟨h1, h2⟩ := h
    subst hZ hX h1 h2
    cases xf <;> cases zf <;>
      simp [attrKsz, Tn.ew, attrInv, Tn.mm, Tn.eye, Tn.fresh, bind, Except.bind]
  · rw [if_neg h, if_neg (fun hh => h ⟨hh.1, hh.2.1⟩)]
    rfl

/-- One lengthscale: the function fails on tensors. -/
theorem scoreFn_name (device : Option Dev) (X Z : Tn) (l : LsArg) (x : Tn) (hl : l.multil = false)
    (hX : X.scalar = false) (hZ : Z.scalar = false) (h1 : X.dev = devOf device) (h2 : Z.dev = devOf device) :
    attrScoreFn device (.tens X Z) l (.ten x) = .error .nameError := by
  unfold attrScoreFn
  simp only [parts_tens device X Z _ hX hZ, h1, h2]
  cases l <;> simp [LsArg.multil] at hl <;> simp [attrKsz, bind, Except.bind]

namespace TCfg

variable (c : TCfg)

/-- a stored flow -/
def st (gr : Bool) : Tn := ⟨c.dv, false, true, gr⟩

theorem ls_num (x : Tn) : c.ls x ≠ .num := by unfold TCfg.ls; split <;> simp

theorem class_score (hd : 0 < c.d) (gr : Bool) :
    attrScore c.d c.device (.tens (c.st gr) c.sxx) (c.ls (c.st gr)) = .ok ⟨c.dv, false, true, true⟩ := by
  rw [score_tens c.d hd _ _ _ _ rfl rfl, if_pos ⟨rfl, rfl, fun h => absurd h (c.ls_num _)⟩]
  rfl

theorem class_scoreFn (hd : 1 < c.d) (gr gx : Bool) :
    attrScoreFn c.device (.tens (c.st gr) c.sxx) (c.ls (c.st gr)) (.ten (c.st gx)) = .ok ⟨c.dv, false, true, true⟩ := by
  rw [TCfg.ls, if_pos hd, scoreFn_many _ _ _ _ _ rfl rfl rfl rfl, if_pos ⟨rfl, rfl, rfl, rfl, Or.inl rfl⟩]
  rfl

theorem class_noisy {f} (hf : PlainCall f) (gr : Bool) (noise : Tn) (hn : noise.dev = c.dv) (hs : noise.scalar = false)
    (hg : noise.grad = false) :
    ∃ q, c.noisy f noise (c.st gr) = .ok ⟨c.dv, false, q, gr⟩ := by
  obtain ⟨y, hy, hd, hgr⟩ := hf (c.st gr) c.time
  obtain ⟨yd, ys, yf, yg⟩ := y
  obtain ⟨nd, ns, nf, ng⟩ := noise
  simp only [st] at hd hgr hn hs hg
  subst hd hn hs hg
  refine ⟨true, ?_⟩
  simp only [noisy, hy, bind, Except.bind]
  simp only [st, g, Tn.number, Tn.ew_on]
  cases ys <;> cases yg <;> cases gr <;> simp_all

theorem class_flow {f} (hf : PlainCall f) (hd : 0 < c.d) (gr : Bool) :
    ∃ q, c.flow f (c.st gr) = .ok ⟨c.dv, false, q, true⟩ := by
  obtain ⟨y, hy, hdv, hgr⟩ := hf (c.st gr) c.time
  obtain ⟨yd, ys, yf, yg⟩ := y
  simp only [st] at hdv hgr
  subst hdv
  refine ⟨true, ?_⟩
  simp only [flow, drifted, c.class_score hd, bind, Except.bind, hy]
  simp only [st, g, Tn.number, Tn.ew_on]
  cases ys <;> simp

theorem class_reweighted (hU : PlainCall c.U) (gr gw : Bool) :
    ∃ gw', c.reweighted (c.st gr) (c.st gw) = .ok (c.st gr, c.st gw') := by
  obtain ⟨y, hy, hdv, hgr⟩ := hU (c.st gr) c.time
  obtain ⟨yd, ys, yf, yg⟩ := y
  simp only [st] at hdv hgr
  subst hdv
  refine ⟨gw || yg, ?_⟩
  simp only [reweighted, hy, bind, Except.bind]
  simp [st, Tn.number, Tn.ew, Tn.put, Tn.entry, Tn.mm, pure, Except.pure]

theorem pin_st (hd : 0 < c.d) (gr : Bool) (y : Tn) : c.pin (c.st gr) y = c.st (gr || y.grad) := by
  simp [pin, hd, st, Tn.put, Tn.entry]

theorem fresh_st : Tn.fresh c.dv = c.st false := rfl

/-- gradient flag of the forward flow after `n` grid points -/
def ottoFlag (n : Nat) : Bool :=
  decide (3 ≤ n) || (decide (1 ≤ n) && (c.y1.grad || (c.brownBridge && c.y2.grad)))

theorem otto_ok (hd : 0 < c.d) (hf : PlainCall c.f) (hU : c.reweight = true → PlainCall c.U) :
    c.otto = .ok (c.st (c.ottoFlag c.k)) := by
  have key : ∀ n : Nat, ∃ gw, (List.range n).foldlM (fun (s : Tn × Tn) ti => do
      let Z ←
        if ti = 0 then
          let Z := c.pin s.1 c.y1
          pure (if c.brownBridge then c.pin Z c.y2 else Z)
        else if ti = 1 then do
          let v ← c.noisy c.f (Tn.fresh c.dv) s.1
          pure (s.1.put v)
        else do
          let v ← c.flow c.f s.1
          pure (s.1.put v)
      if c.reweight ∧ 0 < ti then c.reweighted Z s.2 else pure (Z, s.2)) (Tn.fresh c.dv, Tn.fresh c.dv)
        = Except.ok (c.st (c.ottoFlag n), c.st gw) := by
    intro n
    induction n with
    | zero => exact ⟨false, by simp [ottoFlag, pure, Except.pure, fresh_st]⟩
    | succ n ih =>
      obtain ⟨gw, ih⟩ := ih
      rw [List.range_succ, List.foldlM_append, ih]
      simp only [List.foldlM_cons, List.foldlM_nil, bind, Except.bind, pure, Except.pure]
      have fin : ∀ b : Bool, ∃ gw', (if c.reweight = true ∧ 0 < n then c.reweighted (c.st b) (c.st gw)
          else Except.ok (c.st b, c.st gw)) = Except.ok (c.st b, c.st gw') := by
        intro b
        by_cases h : c.reweight = true ∧ 0 < n
        · obtain ⟨gw', h'⟩ := c.class_reweighted (hU h.1) b gw
          exact ⟨gw', by rw [if_pos h, h']⟩
        · exact ⟨gw, by rw [if_neg h]⟩
      by_cases h0 : n = 0
      · subst h0
        obtain ⟨gw', h'⟩ := fin (c.ottoFlag 1)
        refine ⟨gw', ?_⟩
        have : (if c.brownBridge = true then c.pin (c.pin (c.st (c.ottoFlag 0)) c.y1) c.y2
            else c.pin (c.st (c.ottoFlag 0)) c.y1) = c.st (c.ottoFlag 1) := by
          rw [c.pin_st hd, c.pin_st hd]
          cases hb : c.brownBridge <;> simp [ottoFlag, hb]
        simp only [↓reduceIte, this]
        rw [h']
      · by_cases h1 : n = 1
        · subst h1
          obtain ⟨q, hq⟩ := c.class_noisy hf (c.ottoFlag 1) (Tn.fresh c.dv) rfl rfl rfl
          obtain ⟨gw', h'⟩ := fin (c.ottoFlag 2)
          refine ⟨gw', ?_⟩
          have : (c.st (c.ottoFlag 1)).put ⟨c.dv, false, q, c.ottoFlag 1⟩ = c.st (c.ottoFlag 2) := by
            simp [st, Tn.put, ottoFlag]
          simp only [Nat.one_ne_zero, ↓reduceIte, hq, this]
          rw [h']
        · obtain ⟨q, hq⟩ := c.class_flow hf hd (c.ottoFlag n)
          obtain ⟨gw', h'⟩ := fin (c.ottoFlag (n + 1))
          refine ⟨gw', ?_⟩
          have : (c.st (c.ottoFlag n)).put ⟨c.dv, false, q, true⟩ = c.st (c.ottoFlag (n + 1)) := by
            have : 3 ≤ n + 1 := by omega
            simp [st, Tn.put, ottoFlag, this]
          simp only [h0, h1, ↓reduceIte, hq, this]
          rw [h']
  obtain ⟨gw, h⟩ := key c.k
  unfold otto
  rw [h]
  rfl

/-- gradient flag of the flow of the true drift after `n` grid points -/
def trueFlag (n : Nat) : Bool := decide (3 ≤ n) || (decide (1 ≤ n) && c.y1.grad)

theorem ottoTrue_cpu (hc : c.dv = .cpu) (hd : 0 < c.d) (hf : PlainCall c.fTrue) :
    c.ottoTrue = .ok (c.st (c.trueFlag c.k)) := by
  unfold ottoTrue
  generalize c.k = n
  induction n with
  | zero => simp [trueFlag, pure, Except.pure, fresh_st]
  | succ n ih =>
    rw [List.range_succ, List.foldlM_append, ih]
    simp only [List.foldlM_cons, List.foldlM_nil, bind, Except.bind, pure, Except.pure]
    by_cases h0 : n = 0
    · subst h0
      simp [c.pin_st hd, trueFlag]
    · by_cases h1 : n = 1
      · subst h1
        obtain ⟨q, hq⟩ := c.class_noisy hf (c.trueFlag 1) ⟨.cpu, false, false, false⟩ hc.symm rfl rfl
        have : (c.st (c.trueFlag 1)).put ⟨c.dv, false, q, c.trueFlag 1⟩ = c.st (c.trueFlag 2) := by
          simp [st, Tn.put, trueFlag]
        simp only [Nat.one_ne_zero, ↓reduceIte, hq, this]
      · obtain ⟨q, hq⟩ := c.class_flow hf hd (c.trueFlag n)
        have : (c.st (c.trueFlag n)).put ⟨c.dv, false, q, true⟩ = c.st (c.trueFlag (n + 1)) := by
          have : 3 ≤ n + 1 := by omega
          simp [st, Tn.put, trueFlag, this]
        simp only [h0, h1, ↓reduceIte, hq, this]

theorem noisy_cuda {f} (hf : PlainCall f) (hc : c.dv ≠ .cpu) (gr : Bool) :
    c.noisy f ⟨.cpu, false, false, false⟩ (c.st gr) = .error .runtimeError := by
  obtain ⟨y, hy, hdv, hgr⟩ := hf (c.st gr) c.time
  obtain ⟨yd, ys, yf, yg⟩ := y
  simp only [st] at hdv hgr
  subst hdv
  simp only [noisy, hy, bind, Except.bind]
  simp only [st, Tn.number, Tn.ew_on]
  simp [g, Tn.ew, hc]

theorem foldlM_split {α : Type} (g : α → Nat → Except PyErr α) (a b : α) (n m : Nat) (e : PyErr) (hm : m < n)
    (h1 : (List.range m).foldlM g a = .ok b) (h2 : g b m = .error e) :
    (List.range n).foldlM g a = .error e := by
  induction n with
  | zero => omega
  | succ n ih =>
    rw [List.range_succ, List.foldlM_append]
    by_cases h : m = n
    · subst h
      rw [h1]
      simp [bind, Except.bind, h2]
    · rw [ih (by omega)]
      rfl

theorem ottoTrue_cuda (hc : c.dv ≠ .cpu) (hd : 0 < c.d) (hk : 2 ≤ c.k) (hf : PlainCall c.fTrue) :
    c.ottoTrue = .error .runtimeError := by
  unfold ottoTrue
  apply foldlM_split (m := 1) (b := c.st c.y1.grad)
  · omega
  · have := c.pin_st hd false c.y1
    simp only [List.range_one, List.foldlM_cons, List.foldlM_nil, ↓reduceIte, fresh_st, this]
    rfl
  · simp [c.noisy_cuda hf hc, bind, Except.bind]

theorem stoch_cpu (hc : c.dv = .cpu) (hd : 2 ≤ c.d) (hf : PlainCall c.f) :
    c.stoch = .ok (c.st (decide (1 ≤ c.k) && c.y1.grad)) := by
  unfold stoch
  generalize c.k = n
  induction n with
  | zero => simp [pure, Except.pure, fresh_st]
  | succ n ih =>
    rw [List.range_succ, List.foldlM_append, ih]
    simp only [List.foldlM_cons, List.foldlM_nil, bind, Except.bind, pure, Except.pure]
    by_cases h0 : n = 0
    · subst h0
      simp [show ¬ c.d < 2 by omega, st, Tn.put, Tn.entry]
    · obtain ⟨q, hq⟩ := c.class_noisy hf (decide (1 ≤ n) && c.y1.grad) ⟨.cpu, false, false, false⟩ hc.symm rfl rfl
      simp only [h0, ↓reduceIte, hq]
      have : 1 ≤ n := by omega
      simp [st, Tn.put, this]

theorem stoch_cuda (hc : c.dv ≠ .cpu) (hd : 2 ≤ c.d) (hk : 2 ≤ c.k) (hf : PlainCall c.f) :
    c.stoch = .error .runtimeError := by
  unfold stoch
  apply foldlM_split (m := 1) (b := c.st c.y1.grad)
  · omega
  · simp only [List.range_one, List.foldlM_cons, List.foldlM_nil, ↓reduceIte, fresh_st, show ¬ c.d < 2 by omega]
    simp [st, Tn.put, Tn.entry, pure, Except.pure, bind, Except.bind]
  · simp [c.noisy_cuda hf hc, bind, Except.bind]

/-- gradient flag of the backward flow -/
def backFlag : Bool := decide (3 ≤ c.k) || (decide (2 ≤ c.k) && c.y2.grad) || c.y1.grad

theorem backward_ok (hd : 2 ≤ c.d) (hk : 1 ≤ c.k) (hf : PlainCall c.f) (gz : Bool) :
    c.backward (c.st gz) = .ok (c.st c.backFlag) := by
  have key : ∀ n : Nat, (List.range n).foldlM (fun (B : Tn) ti =>
    if ti = 0 then pure (c.pin B c.y2)
    else do
      let ro ← c.density (c.st gz) B
      if (ti = 1 ∧ c.deterministic = true) ∨ c.deterministic = false then do
        let v ← c.f B c.time
        let v ← v.ew (Tn.number c.dv)
        let v ← B.ew v
        let s ← (Tn.number c.dv).ew c.g
        let s ← s.ew ro
        let v ← v.ew s
        let n ← c.g.ew (Tn.fresh c.dv)
        let v ← v.ew n
        pure (B.put v)
      else do
        let bw ← c.bwDensity B
        let v ← c.f B c.time
        let s ← c.g.ew ro
        let v ← v.ew s
        let s ← c.g.ew bw
        let v ← v.ew s
        let v ← v.ew (Tn.number c.dv)
        let v ← B.ew v
        pure (B.put v)) (Tn.fresh c.dv)
      = Except.ok (c.st (decide (2 ≤ n) || (decide (1 ≤ n) && c.y2.grad))) := by
    intro n
    induction n with
    | zero => simp [pure, Except.pure, fresh_st]
    | succ n ih =>
      rw [List.range_succ, List.foldlM_append, ih]
      simp only [List.foldlM_cons, List.foldlM_nil, bind, Except.bind, pure, Except.pure]
      by_cases h0 : n = 0
      · subst h0
        simp [c.pin_st (show 0 < c.d by omega)]
      · generalize (decide (2 ≤ n) || decide (1 ≤ n) && c.y2.grad) = gb
        have h2 : 2 ≤ n + 1 := by omega
        obtain ⟨y, hy, hdv, hgr⟩ := hf (c.st gb) c.time
        obtain ⟨yd, ys, yf, yg⟩ := y
        simp only [st] at hdv hgr
        subst hdv
        have hden : c.density (c.st gz) (c.st gb) = .ok ⟨c.dv, false, true, true⟩ :=
          c.class_scoreFn (by omega) gz gb
        have hbw : c.bwDensity (c.st gb) = .ok ⟨c.dv, false, true, true⟩ := c.class_score (by omega) gb
        simp only [h0, ↓reduceIte, hden, hbw, hy]
        by_cases hb : (n = 1 ∧ c.deterministic = true) ∨ c.deterministic = false
        all_goals simp only [hb, ↓reduceIte]
        · simp [st, g, Tn.number, Tn.fresh, Tn.ew_on, Tn.put, h2]
        · simp [st, g, Tn.number, Tn.ew_on, Tn.put, h2]
  unfold backward
  rw [key]
  have h3 : ¬ (0 < c.d ∧ c.k = 0) := by omega
  simp only [bind, Except.bind, h3, ↓reduceIte, pure, Except.pure, c.pin_st (show 0 < c.d by omega), backFlag]
  have e1 : decide (2 ≤ c.k - 1) = decide (3 ≤ c.k) := by apply decide_eq_decide.mpr; omega
  have e2 : decide (1 ≤ c.k - 1) = decide (2 ≤ c.k) := by apply decide_eq_decide.mpr; omega
  rw [e1, e2]

theorem control_edge (o : Obj) (gb gf : Bool) (hB : o.B = c.st gb) (hF : o.fw = c.st gf) (grid : Tn)
    (hg : grid.scalar = false) (hd : 0 < c.d) (ti : Nat) (he : ti ≤ 5 ∨ c.k ≤ ti + 5) :
    c.control o grid ti =
      if grid.dev = c.dv ∨ c.dv = .cpu then .ok (c.st (grid.grad || gb || gf)) else .error .runtimeError := by
  unfold control
  rw [if_pos he, hB, hF]
  obtain ⟨gd, gs, gq, gg⟩ := grid
  simp only at hg
  subst hg
  by_cases h : gd = c.dv
  · subst h
    simp only [true_or, ↓reduceIte]
    apply foldlM_range_put c.d hd <;>
      simp [st, Tn.entry, Tn.ew_on, bind, Except.bind, pure, Except.pure, Tn.put, Tn.fresh] <;>
      cases gg <;> cases gb <;> cases gf <;> simp
  · by_cases h2 : c.dv = .cpu
    · rw [if_pos (Or.inr h2)]
      have h3 : gd ≠ .cpu := fun e => h (e.trans h2.symm)
      apply foldlM_range_put c.d hd <;>
        simp [st, Tn.entry, Tn.ew, bind, Except.bind, pure, Except.pure, Tn.put, Tn.fresh, h2, h3] <;>
        cases gg <;> cases gb <;> cases gf <;> simp
    · rw [if_neg (by simp [h, h2])]
      apply foldlM_range_err c.d hd
      simp [st, Tn.entry, Tn.ew, bind, Except.bind, h, h2]

theorem control_interior (o : Obj) (gb gf : Bool) (hB : o.B = c.st gb) (hF : o.fw = c.st gf) (grid : Tn)
    (hg : grid.scalar = false) (hd : 1 < c.d) (ti : Nat) (he : ¬ (ti ≤ 5 ∨ c.k ≤ ti + 5)) :
    c.control o grid ti = if grid.dev = c.dv then .ok (c.st true) else .error .runtimeError := by
  unfold control
  rw [if_neg he, hB, hF]
  have key : ∀ b : Bool, attrScoreFn c.device (.tens (c.st b) c.sxx) (c.ls (c.st b)) (.ten grid) =
      if grid.dev = c.dv then .ok ⟨c.dv, false, true, true⟩ else .error .runtimeError := by
    intro b
    rw [TCfg.ls, if_pos hd, scoreFn_many _ _ _ _ _ rfl rfl rfl hg]
    by_cases h : grid.dev = c.dv
    · rw [if_pos h, if_pos ⟨rfl, rfl, h, rfl, Or.inr (Or.inl rfl)⟩]; rfl
    · rw [if_neg h, if_neg (fun hh => h hh.2.2.1)]
  rw [key, key]
  by_cases h : grid.dev = c.dv
  · rw [if_pos h, if_pos h]
    simp [bind, Except.bind, Tn.ew_on, st]
  · rw [if_neg h, if_neg h]
    rfl

end TCfg

end DPFC
