import Verif.Lib.RecReal2
import Verif.Lib.ScoreLaws
import Verif.Spec.Control

/-! Closed forms of the queries. -/

set_option linter.unusedSectionVars false

namespace DPFC
open Spec

section
variable {K ρ : Type} [Add K] [Sub K] [Mul K] [Div K] [Neg K] [NumOps K]
variable {N M d n c : Nat}

theorem pyGet_eq_pyAt {α : Type} (l : List α) (i : Int) :
    pyGet l i = match pyAt l i with | some a => .ok a | none => .error .indexError := by
  unfold pyGet pyIdx pyAt
  by_cases h0 : 0 ≤ i
  · rw [if_pos h0, if_pos h0]
    by_cases h1 : i < l.length
    · rw [if_pos h1]; rfl
    · rw [if_neg h1]
      have : l[i.toNat]? = none := by rw [List.getElem?_eq_none]; omega
      rw [this]; rfl
  · rw [if_neg h0, if_neg h0]
    by_cases h1 : -(l.length : Int) ≤ i
    · rw [if_pos h1, if_pos (by omega)]; rfl
    · rw [if_neg h1, if_neg (by omega)]; rfl

theorem pyGet_of_pyAt {α : Type} {l : List α} {i : Int} {a : α} (h : pyAt l i = some a) :
    pyGet l i = .ok a := by rw [pyGet_eq_pyAt, h]

theorem pyGet_of_none {α : Type} {l : List α} {i : Int} (h : pyAt l i = none) :
    pyGet l i = .error .indexError := by rw [pyGet_eq_pyAt, h]

theorem pyAt_sub_length {α : Type} {l : List α} {i : Int} (h0 : 0 ≤ i) (h1 : i < l.length) :
    pyAt l (i - l.length) = pyAt l i := by
  unfold pyAt
  rw [if_neg (by omega), if_pos (by omega), if_pos h0]
  congr 1; omega

/-- A loop that fills the rows of an output array. -/
theorem fill_ok_aux : ∀ {d : Nat} (s : Nat) (F : Fin d → Except PyErr (Fin n → K)) (u w : Mat c n K),
    forFin d (fun di u => F di >>= fun v => setOut u (s + di.val) v) u = .ok w ↔
      (∀ i : Fin d, s + i.val < c) ∧ ∃ v : Fin d → Fin n → K, (∀ i, F i = .ok (v i)) ∧
        w = fun a j => if h : s ≤ a.val ∧ a.val - s < d then v ⟨a.val - s, h.2⟩ j else u a j
  | 0, s, F, u, w => by
    simp only [forFin, Except.pure_eq, Except.ok.injEq]
    constructor
    · rintro rfl
      exact ⟨fun i => i.elim0, fun i => i.elim0, fun i => i.elim0, by funext a j; simp⟩
    · rintro ⟨_, v, _, rfl⟩; funext a j; simp
  | d+1, s, F, u, w => by
    simp only [forFin]
    rw [Except.bind_ok]
    have e : ∀ (u : Mat c n K), forFin d (fun (i : Fin d) u => F i.succ >>= fun v => setOut u (s + i.succ.val) v) u
        = forFin d (fun (i : Fin d) u => F i.succ >>= fun v => setOut u ((s+1) + i.val) v) u := by
      intro u
      refine forFin_congr (fun i u => ?_) u
      congr 1; funext v; congr 1
      simp only [Fin.val_succ]; omega
    simp only [e]
    constructor
    · rintro ⟨u1, h1, h2⟩
      obtain ⟨v0, hv0, hs⟩ := Except.bind_ok.1 h1
      obtain ⟨hc, v, hv, rfl⟩ := (fill_ok_aux (s+1) (fun i => F i.succ) u1 w).1 h2
      unfold setOut at hs
      split at hs
      swap
      · cases hs
      rename_i hlt
      injection hs with hs
      subst hs
      refine ⟨fun i => ?_, Fin.cons v0 v, fun i => ?_, ?_⟩
      · refine Fin.cases hlt (fun i => ?_) i
        have := hc i; simp only [Fin.val_succ]; omega
      · refine Fin.cases hv0 (fun i => ?_) i
        simpa using hv i
      · funext a j
        by_cases h : s ≤ a.val ∧ a.val - s < d + 1
        · rw [dif_pos h]
          by_cases h0 : a.val = s
          · rw [dif_neg (by omega)]
            show (if _ then _ else _) = _
            rw [if_pos (by simpa using h0)]
            have : (⟨a.val - s, h.2⟩ : Fin (d+1)) = 0 := by ext; simp [h0]
            rw [this]; rfl
          · rw [dif_pos (by omega)]
            have : (⟨a.val - s, h.2⟩ : Fin (d+1)) = Fin.succ ⟨a.val - (s+1), by omega⟩ := by
              ext; simp; omega
            rw [this]; rfl
        · rw [dif_neg h, dif_neg (by omega)]
          show (if _ then _ else _) = _
          rw [if_neg (by simp; omega)]
    · rintro ⟨hc, v, hv, rfl⟩
      refine ⟨_, Except.bind_ok.2 ⟨v 0, hv 0, by unfold setOut; rw [if_pos (hc 0)]⟩, ?_⟩
      rw [fill_ok_aux]
      refine ⟨fun i => by have := hc i.succ; simp only [Fin.val_succ] at this; omega,
        fun i => v i.succ, fun i => hv i.succ, ?_⟩
      funext a j
      by_cases h : s ≤ a.val ∧ a.val - s < d + 1
      · rw [dif_pos h]
        by_cases h0 : a.val = s
        · rw [dif_neg (by omega)]
          rw [if_pos (by simpa using h0)]
          have : (⟨a.val - s, h.2⟩ : Fin (d+1)) = 0 := by ext; simp [h0]
          rw [this]
        · rw [dif_pos (by omega)]
          have : (⟨a.val - s, h.2⟩ : Fin (d+1)) = Fin.succ ⟨a.val - (s+1), by omega⟩ := by
            ext; simp; omega
          rw [this]
      · rw [dif_neg h, dif_neg (by omega), if_neg (by simp; omega)]

theorem fill_ok (F : Fin d → Except PyErr (Fin n → K)) (u w : Mat c n K) :
    forFin d (fun di u => F di >>= fun v => setOut u di.val v) u = .ok w ↔
      d ≤ c ∧ ∃ v : Fin d → Fin n → K, (∀ i, F i = .ok (v i)) ∧
        w = fun a j => if h : a.val < d then v ⟨a.val, h⟩ j else u a j := by
  have := fill_ok_aux 0 F u w
  simp only [Nat.zero_add, Nat.zero_le, true_and, Nat.sub_zero] at this
  rw [this]
  refine and_congr_left fun _ => ⟨fun h => ?_, fun h i => by omega⟩
  by_contra hc
  have := h ⟨d - 1, by omega⟩
  simp at this; omega

/-- Errors of such a loop. -/
theorem fill_err {P : PyErr → Prop} (hP : P .indexError) : ∀ {d : Nat} (s : Nat)
    (F : Fin d → Except PyErr (Fin n → K)) (u : Mat c n K)
    (_ : ∀ i e, F i = .error e → P e) {e : PyErr}
    (_ : forFin d (fun di u => F di >>= fun v => setOut u (s + di.val) v) u = .error e), P e
  | 0, s, F, u, _, e, h => by simp [forFin] at h
  | d+1, s, F, u, hF, e, h => by
    simp only [forFin] at h
    cases h0 : F 0 with
    | error e0 =>
      rw [h0] at h
      injection h with h
      subst h; exact hF 0 _ h0
    | ok v =>
      rw [h0, Except.ok_bind', setOut] at h
      split at h
      · rw [Except.ok_bind'] at h
        refine fill_err hP (s+1) (fun i => F i.succ)
          (fun a j => if a.val = s + (0 : Fin (d+1)).val then v j else u a j) (fun i e => hF i.succ e) (e := e) ?_
        rw [← h]
        refine forFin_congr (fun i u => ?_) _
        congr 1; funext v; congr 1
        simp only [Fin.val_succ]; omega
      · injection h with h; subst h; exact hP

/-- The Gaussian branch with enough columns. -/
theorem edgeU_ok (std : {n : Nat} → (Fin n → K) → K) (b z : Mat d N K) (x : Mat n c K) (h : d ≤ c) :
    edgeU std b z x = .ok fun a j =>
      if ha : a.val < d then gaussU std (b ⟨a.val, ha⟩) (z ⟨a.val, ha⟩) (x j a) else lit 0 1 := by
  unfold edgeU
  have : ∀ di : Fin d, ∀ u : Mat c n K, (gridCol x di.val >>= fun col =>
      setOut u di.val fun j => gaussU std (b di) (z di) (col j))
      = ((Except.ok fun j => gaussU std (b di) (z di) (x j (Fin.castLE h di)) :
        Except PyErr (Fin n → K)) >>= fun v => setOut u di.val v) := by
    intro di u
    rw [gridCol, dif_pos (by omega : di.val < c)]
    rfl
  rw [forFin_congr this, fill_ok]
  refine ⟨h, fun di j => gaussU std (b di) (z di) (x j (Fin.castLE h di)), fun _ => rfl, ?_⟩
  funext a j
  by_cases ha : a.val < d
  · rw [dif_pos ha, dif_pos ha]; rfl
  · rw [dif_neg ha, dif_neg ha]

theorem forFin_error_index {σ : Type} {F : Fin d → σ → Except PyErr σ} :
    ∀ (s : σ) (_ : ∀ i s e, F i s = .error e → e = .indexError) (i : Fin d)
      (_ : ∀ s, F i s = .error .indexError), forFin d F s = .error .indexError := by
  induction d with
  | zero => intro _ _ i; exact i.elim0
  | succ d ih =>
    intro s hF i hi
    rw [forFin]
    cases h0 : F 0 s with
    | error e => rw [hF 0 s e h0]; rfl
    | ok s' =>
      rw [Except.ok_bind']
      refine Fin.cases (motive := fun i => (∀ s, F i s = .error .indexError) → _) (fun hi => ?_)
        (fun i hi => ?_) i hi
      · rw [hi s] at h0; cases h0
      · exact ih (F := fun i => F i.succ) s' (fun i s e => hF i.succ s e) i hi

/-- The Gaussian branch with too few columns. -/
theorem edgeU_err (std : {n : Nat} → (Fin n → K) → K) (b z : Mat d N K) (x : Mat n c K) (h : c < d) :
    edgeU std b z x = .error .indexError := by
  unfold edgeU
  refine forFin_error_index _ (fun i s e he => ?_) ⟨c, h⟩ (fun s => ?_)
  · by_cases hi : i.val < c
    · rw [gridCol, dif_pos hi, Except.ok_bind', setOut, if_pos hi] at he; cases he
    · rw [gridCol, dif_neg hi] at he
      injection he with he; exact he.symm
  · rw [gridCol, dif_neg (by simp)]; rfl

/-- What `calculate_u` does once the slices are found. -/
theorem calculateU_edge (env : Env ρ K) (o : Obj d N M K) (x : Mat n c K) (ti : Int) (b z zr : Mat d N K)
    (bnds : Fin d → K × K)
    (hb : pyAt o.B ti = some b) (hz : pyAt o.Z ti = some z) (hr : reference o ti = some zr)
    (hbox : interBox zr b = .ok bnds) (he : Edge o.timegrid.length ti) :
    calculateU env o x ti = (liftM (edgeU npStd b zr x) : RandM ρ (Mat c n K)) := by
  unfold calculateU
  unfold reference at hr
  unfold Edge at he
  rw [pyGet_of_pyAt hb, pyGet_of_pyAt hz]
  simp only [RandM.liftM_ok, pure_bind]
  cases hm : (o.cfg.reweight && o.cfg.brownBridge) with
  | false =>
    rw [hm] at hr
    simp only [Bool.false_eq_true, if_false] at hr
    rw [hr] at hz; cases hz
    simp only [RandM.liftM_ok, pure_bind, Option.getD_none]
    rw [hbox, RandM.liftM_ok, pure_bind, if_pos he]
  | true =>
    rw [hm] at hr
    simp only [if_true] at hr
    cases hT : o.Ztr with
    | none => rw [hT] at hr; cases hr
    | some T =>
      rw [hT] at hr
      simp only [Option.bind_some] at hr
      simp only [pyGet_of_pyAt hr, Except.ok_bind', RandM.liftM_ok, pure_bind, Option.getD_some]
      rw [hbox, RandM.liftM_ok, pure_bind, if_pos he]

theorem calculateU_inner (env : Env ρ K) (o : Obj d N M K) (x : Mat n c K) (ti : Int) (b z zr : Mat d N K)
    (bnds : Fin d → K × K)
    (hb : pyAt o.B ti = some b) (hz : pyAt o.Z ti = some z) (hr : reference o ti = some zr)
    (hbox : interBox zr b = .ok bnds) (he : ¬ Edge o.timegrid.length ti) :
    calculateU env o x ti = (npInducing env bnds M >>= fun Sxx =>
      (liftM (kernelU (effKern o.cfg.kern) Sxx b z
        (if o.cfg.reweight && o.cfg.brownBridge then some zr else none) x) : RandM ρ (Mat c n K))) := by
  unfold calculateU
  unfold reference at hr
  unfold Edge at he
  rw [pyGet_of_pyAt hb, pyGet_of_pyAt hz]
  simp only [RandM.liftM_ok, pure_bind]
  cases hm : (o.cfg.reweight && o.cfg.brownBridge) with
  | false =>
    rw [hm] at hr
    simp only [Bool.false_eq_true, if_false] at hr
    rw [hr] at hz; cases hz
    simp only [RandM.liftM_ok, pure_bind, Option.getD_none]
    rw [hbox, RandM.liftM_ok, pure_bind, if_neg he]
    rfl
  | true =>
    rw [hm] at hr
    simp only [if_true] at hr
    cases hT : o.Ztr with
    | none => rw [hT] at hr; cases hr
    | some T =>
      rw [hT] at hr
      simp only [Option.bind_some] at hr
      simp only [pyGet_of_pyAt hr, Except.ok_bind', RandM.liftM_ok, pure_bind, Option.getD_some]
      rw [hbox, RandM.liftM_ok, pure_bind, if_neg he]
      rfl

end

section real
variable {ρ : Type} {N M d n c : Nat}

/-- The interior control with points of the right width. -/
theorem kernelU_real (Sxx : Mat d M ℝ) (b z : Mat d N ℝ) (x : Mat n d ℝ) :
    kernelU "RBF" Sxx b z none x = .ok fun a j => pointScore b (tr Sxx) x a j
      - pointScore z (tr Sxx) x a j := by
  unfold kernelU
  have : ∀ di : Fin d, ∀ u : Mat d n ℝ, (scoreSepFn (tr b) (tr Sxx) (lit 1 1000) "RBF"
        (.vec (lengthScales b)) (di.val + 1) x >>= fun sB =>
      scoreSepFn (tr z) (tr Sxx) (lit 1 1000) "RBF" (.vec (lengthScales z)) (di.val + 1) x >>= fun sF =>
      setOut u di.val fun j => sB j - sF j)
      = ((Except.ok fun j => pointScore b (tr Sxx) x di j - pointScore z (tr Sxx) x di j :
        Except PyErr (Fin n → ℝ)) >>= fun v => setOut u di.val v) := by
    intro di u
    have hi : pyIdx d ((di.val : Int) + 1 - 1) = .ok di.val := by
      rw [Int.add_sub_cancel]; exact pyIdx_nat d di.2
    rw [real_lit_milli, scoreSepFn_real milli_gt _ _ _ _ di hi, scoreSepFn_real milli_gt _ _ _ _ di hi,
      lengthScales_real, lengthScales_real]
    rfl
  rw [forFin_congr this, fill_ok]
  refine ⟨le_refl _, _, fun _ => rfl, ?_⟩
  funext a j
  rw [dif_pos a.2]

theorem pt_lo_hi (hN : 0 < N) (y : ℝ) : lo (fun _ : Fin N => y) = y ∧ hi (fun _ : Fin N => y) = y := by
  have : Nonempty (Fin N) := ⟨⟨0, hN⟩⟩
  exact ⟨ciInf_const, ciSup_const⟩

theorem hasDerivAt_log_normal (μ s x : ℝ) (hs : s ≠ 0) :
    HasDerivAt (fun y => Real.log (normalPdf μ s y)) (-(x - μ) / s ^ 2) x := by
  have hC : s * Real.sqrt (2 * Real.pi) ≠ 0 :=
    mul_ne_zero hs (Real.sqrt_ne_zero'.2 (by positivity))
  have e : (fun y => Real.log (normalPdf μ s y))
      = fun y => -(y - μ) ^ 2 / (2 * s ^ 2) - Real.log (s * Real.sqrt (2 * Real.pi)) := by
    funext y
    rw [normalPdf, Real.log_div (Real.exp_ne_zero _) hC, Real.log_exp]
  rw [e]
  have h := ((((hasDerivAt_id x).sub_const μ).pow 2).neg.div_const (2 * s ^ 2)).sub_const
    (Real.log (s * Real.sqrt (2 * Real.pi)))
  have e2 : -(((2 : ℕ) : ℝ) * (id x - μ) ^ (2 - 1) * 1) / (2 * s ^ 2) = -(x - μ) / s ^ 2 := by
    simp only [id, Nat.cast_ofNat, Nat.add_one_sub_one, pow_one, mul_one]
    field_simp
  rw [e2] at h
  exact h

theorem gaussScore_eq (v : Fin N → ℝ) (hs : sdev v ≠ 0) (x : ℝ) :
    gaussScore v x = -(x - avg v) / sdev v ^ 2 :=
  (hasDerivAt_log_normal _ _ x hs).deriv

theorem gaussU_real (b z : Fin N → ℝ) (hb : sdev b ≠ 0) (hz : sdev z ≠ 0) (x : ℝ) :
    gaussU npStd b z x = gaussScore b x - gaussScore z x := by
  rw [gaussScore_eq b hb, gaussScore_eq z hz, gaussU]
  simp only [npStd_real, real_sq, real_mean, avg]

theorem unifs_mem {env : Env ρ ℝ} (h : UnitUniform env) (r : ρ) (a : Fin d) (m : Fin M) :
    0 ≤ unifs env d M r a m ∧ unifs env d M r a m < 1 := by
  have hv : ∀ (k : ℕ) (r : ρ) (i : Fin k), 0 ≤ (drawVec env.uniform k r).1 i
      ∧ (drawVec env.uniform k r).1 i < 1 := by
    intro k
    induction k with
    | zero => intro r i; exact i.elim0
    | succ k ih =>
      intro r i
      refine Fin.cases ?_ (fun i => ?_) i
      · exact h r
      · exact ih _ i
  unfold unifs
  induction d generalizing r with
  | zero => exact a.elim0
  | succ d ih =>
    refine Fin.cases ?_ (fun i => ?_) a
    · exact hv M r m
    · exact ih _ i

theorem tunifs_mem {env : Env ρ ℝ} (h : UnitUniform env) (r : ρ) (m : Fin M) (a : Fin d) :
    0 ≤ tunifs env d M r m a ∧ tunifs env d M r m a < 1 := unifs_mem (d := M) (M := d) h r m a

theorem between_of_unit {p q u : ℝ} (h0 : 0 ≤ u) (h1 : u ≤ 1) : Between p q (p + (q - p) * u) := by
  unfold Between
  rcases le_total p q with h | h
  · rw [min_eq_left h, max_eq_right h]
    constructor <;> nlinarith
  · rw [min_eq_right h, max_eq_left h]
    constructor <;> nlinarith

theorem inducing_between {env : Env ρ ℝ} (h : UnitUniform env) (l u : Fin d → ℝ) (r : ρ) (m : Fin M)
    (a : Fin d) : Between (l a) (u a) (inducing l u (unifs env d M r) m a) := by
  obtain ⟨h0, h1⟩ := unifs_mem h r a m
  exact between_of_unit h0 h1.le

theorem tinducing_between {env : Env ρ ℝ} (h : UnitUniform env) (l u : Fin d → ℝ) (r : ρ) (m : Fin M)
    (a : Fin d) : Between (l a) (u a) (tinducing l u (tunifs env d M r) m a) := by
  obtain ⟨h0, h1⟩ := tunifs_mem h r m a
  have := between_of_unit (p := l a) (q := u a) h0 h1.le
  rwa [mul_comm] at this

end real
end DPFC
