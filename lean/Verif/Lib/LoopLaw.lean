import Verif.Spec.LoopLaw
import Verif.Lib.Law
import Verif.Props.Loop

/-! Helper lemmas for C108. -/

namespace DPFC.LoopLaw
open MeasureTheory ProbabilityTheory Spec Law

set_option linter.unusedSectionVars false

variable {d n N M : ℕ}

/-- Position on the tape of the noise for coordinate `a` of path `q` at step `i`. -/
def pos2 (d n i0 : ℕ) (q : Bool × Fin n) (p : ℕ × Fin d) : ℕ :=
  i0 + (2 * p.1 + q.1.toNat) * (d * n) + (p.2.val * n + q.2.val)

theorem pos2_inj (d n i0 : ℕ) : Function.Injective fun p : (Bool × Fin n) × (ℕ × Fin d) => pos2 d n i0 p.1 p.2 := by
  rintro ⟨⟨β, j⟩, i, a⟩ ⟨⟨β', j'⟩, i', a'⟩ h
  unfold pos2 at h
  have h' : (2 * i + β.toNat) * (d * n) + (a.val * n + j.val) = (2 * i' + β'.toNat) * (d * n) + (a'.val * n + j'.val) := by
    simp only at h; omega
  obtain ⟨h1, h2⟩ := digit (cell_lt a j) (cell_lt a' j') h'
  obtain ⟨rfl, rfl⟩ := cell_inj h2
  cases β <;> cases β' <;> simp at h1 <;> first | (subst h1; rfl) | omega

theorem pos2_inj' (d n i0 : ℕ) :
    Function.Injective fun p : ((Bool × Fin n) × ℕ) × Fin d => pos2 d n i0 p.1.1 (p.1.2, p.2) := by
  rintro ⟨⟨q, i⟩, a⟩ ⟨⟨q', i'⟩, a'⟩ h
  have := pos2_inj d n i0 (a₁ := (q, (i, a))) (a₂ := (q', (i', a'))) h
  simp only [Prod.mk.injEq] at this ⊢
  tauto

theorem row2_law (d n i0 : ℕ) (q : Bool × Fin n) : gaussTape.map (fun ω p => ω (pos2 d n i0 q p))
    = Measure.infinitePi fun _ : ℕ × Fin d => gaussianReal 0 1 :=
  Measure.map_infinitePi_infinitePi_of_inj (P := fun _ : ℕ => gaussianReal 0 1) (f := pos2 d n i0 q) fun p p' h => by
    have := pos2_inj d n i0 (a₁ := (q, p)) (a₂ := (q, p')) h
    exact (Prod.mk.inj this).2

theorem rows2_indep (d n i0 : ℕ) :
    iIndepFun (fun (q : Bool × Fin n) (ω : ℕ → ℝ) (p : ℕ × Fin d) => ω (pos2 d n i0 q p)) gaussTape := by
  rw [iIndepFun_iff_map_fun_eq_infinitePi_map fun q => measurable_pi_iff.2 fun p => measurable_pi_apply _]
  simp_rw [row2_law]
  have h1 := Measure.map_infinitePi_infinitePi_of_inj (P := fun _ : ℕ => gaussianReal 0 1) (pos2_inj d n i0)
  have h2 := Measure.infinitePi_map_curry (ι := Bool × Fin n) (κ := ℕ × Fin d) fun _ _ => gaussianReal 0 1
  rw [← h1, Measure.map_map (by fun_prop) (by fun_prop)] at h2
  exact h2

theorem noise_law (d n i0 : ℕ) (q : Bool × Fin n) (i : ℕ) :
    gaussTape.map (fun ω a => ω (pos2 d n i0 q (i, a))) = stdNormals d := by
  have h := Measure.map_infinitePi_infinitePi_of_inj (P := fun _ : ℕ => gaussianReal 0 1)
    (f := fun a : Fin d => pos2 d n i0 q (i, a)) fun a a' h => by
      have := pos2_inj d n i0 (a₁ := (q, (i, a))) (a₂ := (q, (i, a'))) h
      simp only [Prod.mk.injEq] at this
      exact this.2.2
  rw [stdNormals, ← Measure.infinitePi_eq_pi]
  exact h

theorem noise_indep (d n i0 : ℕ) :
    iIndepFun (fun (Q : (Bool × Fin n) × ℕ) (ω : ℕ → ℝ) (a : Fin d) => ω (pos2 d n i0 Q.1 (Q.2, a))) gaussTape := by
  rw [iIndepFun_iff_map_fun_eq_infinitePi_map fun q => measurable_pi_iff.2 fun p => measurable_pi_apply _]
  have hr : ∀ Q : (Bool × Fin n) × ℕ, gaussTape.map (fun ω (a : Fin d) => ω (pos2 d n i0 Q.1 (Q.2, a)))
      = Measure.infinitePi fun _ : Fin d => gaussianReal 0 1 := fun Q => by
    rw [noise_law, stdNormals, Measure.infinitePi_eq_pi]
  simp_rw [hr]
  have h1 := Measure.map_infinitePi_infinitePi_of_inj (P := fun _ : ℕ => gaussianReal 0 1) (pos2_inj' d n i0)
  have h2 := Measure.infinitePi_map_curry (ι := (Bool × Fin n) × ℕ) (κ := Fin d) fun _ _ => gaussianReal 0 1
  rw [← h1, Measure.map_map (by fun_prop) (by fun_prop)] at h2
  exact h2

/-- The Euler-Maruyama path driven by `w`. -/
noncomputable def chain (φ : (Fin d → ℝ) → Fin d → ℝ) (g : ℝ) (y : Fin d → ℝ) (c : ℕ → (Fin d → ℝ) → Fin d → ℝ)
    (w : ℕ × Fin d → ℝ) : ℕ → Fin d → ℝ
  | 0 => y
  | i+1 => fun a => chain φ g y c w i a + (φ (chain φ g y c w i) a + g ^ 2 * c (i+1) (chain φ g y c w i) a) * (1/1000)
      + g * (Real.sqrt (1/1000) * w (i, a))

section
variable {φ : (Fin d → ℝ) → Fin d → ℝ} {c : ℕ → (Fin d → ℝ) → Fin d → ℝ} {g : ℝ} {y : Fin d → ℝ}

theorem chain_em (w : ℕ × Fin d → ℝ) : EMPath φ g y c (fun i a => w (i, a)) (chain φ g y c w) :=
  ⟨rfl, fun _ _ => rfl⟩

theorem chain_meas (hφ : Measurable φ) (hc : ∀ i, Measurable (c i)) : ∀ i, Measurable fun w => chain φ g y c w i
  | 0 => measurable_const
  | i+1 => by
    refine measurable_pi_iff.2 fun a => ?_
    have h := chain_meas hφ hc i
    exact ((measurable_pi_iff.1 h a).add (((measurable_pi_iff.1 (hφ.comp h) a).add
      ((measurable_pi_iff.1 ((hc (i+1)).comp h) a).const_mul _)).mul_const _)).add
      (((measurable_pi_apply _).const_mul _).const_mul _)

theorem chain_dep {w w' : ℕ × Fin d → ℝ} : ∀ i, (∀ m < i, ∀ a, w (m, a) = w' (m, a)) →
    chain φ g y c w i = chain φ g y c w' i
  | 0, _ => rfl
  | i+1, h => by
    have ih := chain_dep i fun m hm a => h m (by omega) a
    funext a
    simp only [chain, ih, h i (by omega) a]

/-- The noise of step `i` is independent of the path up to `i`. -/
theorem chain_indep (hφ : Measurable φ) (hc : ∀ i, Measurable (c i)) (i0 : ℕ) (q : Bool × Fin n) (i : ℕ) :
    IndepFun (fun ω (m : Fin (i+1)) => chain φ g y c (fun p => ω (pos2 d n i0 q p)) m)
      (fun ω (a : Fin d) => ω (pos2 d n i0 q (i, a))) gaussTape := by
  let p := i0 + (2 * i + q.1.toNat) * (d * n)
  have h := tape_indep.indepFun_finset (Finset.range p) (Finset.Ico p (p + d * n)) (by
      rw [Finset.disjoint_left]
      intro i h1 h2
      rw [Finset.mem_range] at h1
      rw [Finset.mem_Ico] at h2
      omega) (fun i => measurable_pi_apply i)
  let ψ : (Finset.Ico p (p + d * n) → ℝ) → Fin d → ℝ := fun w a =>
    w ⟨pos2 d n i0 q (i, a), by
      rw [Finset.mem_Ico]
      have := cell_lt a q.2
      simp only [pos2, p]
      omega⟩
  have h2 := h.comp (φ := fun w (m : Fin (i+1)) => chain φ g y c (fun r => ext p w (pos2 d n i0 q r)) m) (ψ := ψ)
    (measurable_pi_iff.2 fun m => (chain_meas hφ hc m).comp
      (measurable_pi_iff.2 fun r => measurable_pi_iff.1 (ext_meas p) _))
    (measurable_pi_iff.2 fun a => measurable_pi_apply _)
  refine h2.congr (Filter.Eventually.of_forall fun ω => ?_) (Filter.Eventually.of_forall fun ω => rfl)
  funext m
  simp only [Function.comp]
  refine chain_dep m fun l hl a => ext_eq ?_ ω
  simp only [pos2, p]
  have := cell_lt a q.2
  have h4 : (2 * l + 1 + q.1.toNat) * (d * n) ≤ (2 * i + q.1.toNat) * (d * n) := Nat.mul_le_mul_right _ (by omega)
  have h5 : (2 * l + 1 + q.1.toNat) * (d * n) = (2 * l + q.1.toNat) * (d * n) + d * n := by ring
  omega

theorem chains_indep (hφ : Measurable φ) (c : Bool → ℕ → (Fin d → ℝ) → Fin d → ℝ) (hc : ∀ β i, Measurable (c β i)) (i0 : ℕ) :
    iIndepFun (fun (q : Bool × Fin n) ω => chain φ g y (c q.1) fun p => ω (pos2 d n i0 q p)) gaussTape :=
  (rows2_indep d n i0).comp (fun q w => chain φ g y (c q.1) w) fun q => measurable_pi_iff.2 (chain_meas hφ (hc q.1))

theorem chains_ident (hφ : Measurable φ) (hc : ∀ i, Measurable (c i)) (i0 : ℕ) (q q' : Bool × Fin n) :
    IdentDistrib (fun ω => chain φ g y c fun p => ω (pos2 d n i0 q p))
      (fun ω => chain φ g y c fun p => ω (pos2 d n i0 q' p)) gaussTape gaussTape := by
  have hP : Measurable fun w => chain φ g y c w := measurable_pi_iff.2 (chain_meas hφ hc)
  have hr : ∀ q : Bool × Fin n, Measurable fun (ω : ℕ → ℝ) p => ω (pos2 d n i0 q p) := fun q =>
    measurable_pi_iff.2 fun p => measurable_pi_apply _
  have e : ∀ q : Bool × Fin n, gaussTape.map (fun ω => chain φ g y c fun p => ω (pos2 d n i0 q p))
      = (Measure.infinitePi fun _ : ℕ × Fin d => gaussianReal 0 1).map fun w => chain φ g y c w := fun q => by
    rw [← row2_law d n i0 q, Measure.map_map hP (hr q)]
    rfl
  exact ⟨(hP.comp (hr q)).aemeasurable, (hP.comp (hr q')).aemeasurable, by rw [e, e]⟩

end

/-! ### The controls -/

/-- Number of uniforms read by the queries before index `i + 1`. -/
def used (k D : ℕ) : ℕ → ℕ
  | 0 => 0
  | i+1 => used k D i + if 5 < i + 1 ∧ i + 1 + 5 < k then D else 0

/-- The control at index `i` as a function of the state. -/
noncomputable def ctl (o : Obj d N M ℝ) (υ : ℕ → ℝ) (s2 : ℕ) (i : ℕ) (p : Fin d → ℝ) (a : Fin d) : ℝ :=
  let b := o.B.getD i fun _ _ => 0
  let z := o.Z.getD i fun _ _ => 0
  if 5 < i ∧ i + 5 < o.timegrid.length then
    let P : Fin M → Fin d → ℝ := inducing (ibLow z b) (ibHigh z b) fun a m =>
      υ (s2 + used o.timegrid.length (d * M) (i - 1) + (a.val * M + m.val))
    score (1/1000) (fun k => 2 * sdev (b k)) (particle b) P a p - score (1/1000) (fun k => 2 * sdev (z k)) (particle z) P a p
  else gaussScore (b a) (p a) - gaussScore (z a) (p a)

theorem gauss_meas (l y : Fin d → ℝ) : Measurable fun x : Fin d → ℝ => gauss l x y := by
  unfold gauss
  fun_prop

theorem score_meas {m : ℕ} (C : ℝ) (l : Fin d → ℝ) (X : Fin N → Fin d → ℝ) (Z : Fin m → Fin d → ℝ) (j : Fin d) :
    Measurable fun x : Fin d → ℝ => score C l X Z j x := by
  unfold score
  exact Finset.measurable_sum _ fun i _ => (gauss_meas l (Z i)).const_mul _

theorem ctl_meas (o : Obj d N M ℝ) (υ : ℕ → ℝ) (s2 i : ℕ) : Measurable (ctl o υ s2 i) := by
  refine measurable_pi_iff.2 fun a => ?_
  unfold ctl
  by_cases h : 5 < i ∧ i + 5 < o.timegrid.length
  · simp only [h, and_self, if_true]
    exact (score_meas _ _ _ _ _).sub (score_meas _ _ _ _ _)
  · simp only [h, if_false]
    have hg : ∀ v : Fin N → ℝ, Measurable fun p : Fin d → ℝ => gaussScore v (p a) := fun v =>
      (measurable_deriv _).comp (measurable_pi_apply a)
    exact (hg _).sub (hg _)

/-- The run read off the tape. -/
theorem run_chain {ω υ : ℕ → ℝ} {emd : Solver} (o : Obj d N M ℝ) (hN : 0 < N)
    (hkern : o.cfg.kern = "RBF" ∨ o.cfg.kern = "periodic")
    (hm : (o.cfg.reweight && o.cfg.brownBridge) = false)
    (hs : ∀ i : ℕ, 1 ≤ i → i < o.timegrid.length - 1 →
      ∃ b z, o.B[i]? = some b ∧ o.Z[i]? = some z ∧ Spread b ∧ Spread z)
    {f : Mat d n ℝ → Mat d n ℝ} {φ : (Fin d → ℝ) → Fin d → ℝ} (hf : ActsPathwise f φ) {g : ℝ} {y1 : Fin d → ℝ} {s : ℕ × ℕ}
    {F G U : List (Mat d n ℝ)} {rs : ℕ → ℕ × ℕ} (h1 : rs 1 = s)
    (hrun : LoopRun (tapeEnv ω υ emd) (fun x i => calculateU (tapeEnv ω υ emd) o x i) f g y1 o.timegrid.length F G U rs) :
    ∀ i, i < o.timegrid.length - 1 →
      F[i]? = some (fun a j => chain φ g y1 (ctl o υ s.2) (fun p => ω (pos2 d n s.1 (false, j) p)) i a) ∧
      G[i]? = some (fun a j => chain φ g y1 (fun _ _ _ => 0) (fun p => ω (pos2 d n s.1 (true, j) p)) i a) ∧
      rs (i+1) = (s.1 + 2 * i * (d * n), s.2 + used o.timegrid.length (d * M) i) ∧
      (1 ≤ i → U[i]? = some fun a j =>
        ctl o υ s.2 i (chain φ g y1 (ctl o υ s.2) (fun p => ω (pos2 d n s.1 (false, j) p)) (i-1)) a) := by
  intro i
  induction i with
  | zero =>
    intro _
    refine ⟨hrun.startF, hrun.startG, ?_, fun h => by omega⟩
    rw [h1]; simp [used]
  | succ i ih =>
    intro hi
    obtain ⟨hF, hG, hr, -⟩ := ih (by omega)
    obtain ⟨u, q, hq, hU, hF', hG', hr'⟩ := hrun.step (i+1) _ _ (by omega) hi (by simpa using hF) (by simpa using hG)
    obtain ⟨b, z, hb, hz, sb, sz⟩ := hs (i+1) (by omega) hi
    have hat : ∀ (l : List (Mat d N ℝ)) (i : ℕ), pyAt l (i : Int) = l[i]? := fun l i => by simp [pyAt]
    obtain ⟨u', q', hq', he, hn⟩ := C35_dispatch (tapeEnv ω υ emd) o hN hkern hm
      (fun j a => chain φ g y1 (ctl o υ s.2) (fun p => ω (pos2 d n s.1 (false, j) p)) i a) ((i+1 : ℕ) : Int) b z
      (by rw [hat]; exact hb) (by rw [hat]; exact hz) sb sz (rs (i+1))
    rw [hq] at hq'
    cases hq'
    have hbD : o.B.getD (i+1) (fun _ _ => 0) = b := by simp [List.getD, hb]
    have hzD : o.Z.getD (i+1) (fun _ _ => 0) = z := by simp [List.getD, hz]
    have key : u = (fun a j => ctl o υ s.2 (i+1) (chain φ g y1 (ctl o υ s.2) (fun p => ω (pos2 d n s.1 (false, j) p)) i) a) ∧
        q = (s.1 + 2 * i * (d * n), s.2 + used o.timegrid.length (d * M) (i+1)) := by
      by_cases hc : 5 < i + 1 ∧ i + 1 + 5 < o.timegrid.length
      · obtain ⟨hq1, P, hP, hu⟩ := hn (by omega)
        refine ⟨?_, ?_⟩
        · funext a j
          rw [hu a j, hP]
          simp only [ctl, hc, and_self, if_true, hbD, hzD, pointScore, tape_unifs, hr, Nat.add_sub_cancel]
        · rw [hq1, tape_unifsNext, hr]
          simp only [used, hc, and_self, if_true, Nat.add_assoc]
      · obtain ⟨hq1, hu⟩ := he (by omega)
        refine ⟨?_, ?_⟩
        · funext a j
          rw [hu a j]
          simp only [ctl, hc, if_false, hbD, hzD]
        · rw [hq1, hr]
          simp only [used, hc, if_false, Nat.add_zero]
    obtain ⟨hu, hq2⟩ := key
    refine ⟨?_, ?_, ?_, fun _ => ?_⟩
    · rw [hF']
      congr 1
      funext a j
      simp only [controlledStep, hf _ a j, hu, tape_normals, hq2, chain]
      congr 3
    · rw [hG']
      congr 1
      funext a j
      simp only [controlledStep, hf _ a j, tape_normals, tape_normalsNext, hq2, chain]
      congr 3
      simp only [pos2, Bool.toNat_true]
      ring_nf
    · rw [hr', tape_normalsNext, tape_normalsNext, hq2]
      simp only [Prod.mk.injEq, and_true]
      ring
    · rw [hU, hu]; rfl

/-! ### Any object, any drift -/

theorem query_tape (ω ω' υ : ℕ → ℝ) (emd : Solver) (o : Obj d N M ℝ) (x : Mat n d ℝ) (ti : Int) :
    calculateU (tapeEnv ω υ emd) o x ti = calculateU (tapeEnv ω' υ emd) o x ti := rfl

theorem query_fst {ω υ : ℕ → ℝ} {emd : Solver} {o : Obj d N M ℝ} {x : Mat n d ℝ} {ti : Int} {s q : ℕ × ℕ} {u : Mat d n ℝ}
    (h : calculateU (tapeEnv ω υ emd) o x ti s = .ok (u, q)) : q.1 = s.1 := by
  unfold calculateU at h
  obtain ⟨b, r1, h1, h⟩ := RandM.bind_ok.1 h
  obtain ⟨z, r2, h2, h⟩ := RandM.bind_ok.1 h
  obtain ⟨zt, r3, h3, h⟩ := RandM.bind_ok.1 h
  obtain ⟨bn, r4, h4, h⟩ := RandM.bind_ok.1 h
  obtain ⟨-, rfl⟩ := RandM.lift_ok.1 h1
  obtain ⟨-, rfl⟩ := RandM.lift_ok.1 h2
  obtain ⟨-, rfl⟩ := RandM.lift_ok.1 h3
  obtain ⟨-, rfl⟩ := RandM.lift_ok.1 h4
  split at h
  · obtain ⟨-, rfl⟩ := RandM.lift_ok.1 h
    rfl
  · obtain ⟨S, r5, h5, h⟩ := RandM.bind_ok.1 h
    obtain ⟨-, rfl⟩ := RandM.lift_ok.1 h
    rw [npInducing_gen] at h5
    cases h5
    rw [tape_unifsNext]

section
variable {ω ω' υ : ℕ → ℝ} {emd : Solver} {o o' : Obj d N M ℝ} {f : Mat d n ℝ → Mat d n ℝ} {g : ℝ} {y1 : Fin d → ℝ} {s : ℕ × ℕ}
  {F G U F' G' U' : List (Mat d n ℝ)} {rs rs' : ℕ → ℕ × ℕ}

theorem slice_some {k i : ℕ} {L : List (Mat d n ℝ)} (hl : L.length = k) (hi : i < k) : ∃ x, L[i]? = some x :=
  ⟨_, List.getElem?_eq_getElem (by omega)⟩

theorem run_fst (h1 : rs 1 = s)
    (hrun : LoopRun (tapeEnv ω υ emd) (fun x i => calculateU (tapeEnv ω υ emd) o x i) f g y1 o.timegrid.length F G U rs) :
    ∀ i, i < o.timegrid.length - 1 → (rs (i+1)).1 = s.1 + 2 * i * (d * n) := by
  intro i
  induction i with
  | zero => intro _; rw [h1]; simp
  | succ i ih =>
    intro hi
    obtain ⟨x, hx⟩ := slice_some hrun.lenF (i := i) (by omega)
    obtain ⟨w, hw⟩ := slice_some hrun.lenG (i := i) (by omega)
    obtain ⟨u, q, hq, -, -, -, hr⟩ := hrun.step (i+1) x w (by omega) hi (by simpa using hx) (by simpa using hw)
    rw [hr, tape_normalsNext, tape_normalsNext]
    simp only [query_fst hq, ih (by omega)]
    ring

/-- Two runs with the same normals up to the position of step `i`. -/
theorem run_same (h1 : rs 1 = s) (h1' : rs' 1 = s)
    (hrun : LoopRun (tapeEnv ω υ emd) (fun x i => calculateU (tapeEnv ω υ emd) o x i) f g y1 o.timegrid.length F G U rs)
    (hrun' : LoopRun (tapeEnv ω' υ emd) (fun x i => calculateU (tapeEnv ω' υ emd) o x i) f g y1 o.timegrid.length F' G' U' rs') :
    ∀ i, i < o.timegrid.length - 1 → (∀ m < s.1 + 2 * i * (d * n), ω m = ω' m) →
      F[i]? = F'[i]? ∧ G[i]? = G'[i]? ∧ U[i]? = U'[i]? ∧ rs (i+1) = rs' (i+1) := by
  intro i
  induction i with
  | zero =>
    intro _ _
    exact ⟨hrun.startF.trans hrun'.startF.symm, hrun.startG.trans hrun'.startG.symm, hrun.firstU.trans hrun'.firstU.symm,
      h1.trans h1'.symm⟩
  | succ i ih =>
    intro hi hω
    have e : s.1 + 2 * (i+1) * (d * n) = s.1 + 2 * i * (d * n) + d * n + d * n := by ring
    rw [e] at hω
    obtain ⟨eF, eG, -, er⟩ := ih (by omega) fun m hm => hω m (by omega)
    obtain ⟨x, hx⟩ := slice_some hrun.lenF (i := i) (by omega)
    obtain ⟨w, hw⟩ := slice_some hrun.lenG (i := i) (by omega)
    obtain ⟨u, q, hq, hU, hF, hG, hr⟩ := hrun.step (i+1) x w (by omega) hi (by simpa using hx) (by simpa using hw)
    obtain ⟨u', q', hq', hU', hF', hG', hr'⟩ := hrun'.step (i+1) x w (by omega) hi (by simpa [← eF] using hx)
      (by simpa [← eG] using hw)
    have hf := run_fst h1 hrun i (by omega)
    have hqf : q.1 = s.1 + 2 * i * (d * n) := (query_fst hq).trans hf
    have : calculateU (tapeEnv ω υ emd) o (fun j a => x a j) ((i+1 : ℕ) : Int) (rs' (i+1)) = .ok (u', q') := hq'
    rw [← er] at this
    rw [hq] at this
    cases this
    have n1 : normals (tapeEnv ω υ emd) d n q = normals (tapeEnv ω' υ emd) d n q := by
      rw [tape_normals, tape_normals]
      funext a j
      exact hω _ (by have := cell_lt a j; omega)
    have n2 : normals (tapeEnv ω υ emd) d n (normalsNext (tapeEnv ω υ emd) d n q)
        = normals (tapeEnv ω' υ emd) d n (normalsNext (tapeEnv ω' υ emd) d n q) := by
      rw [tape_normals, tape_normals, tape_normalsNext, tape_normalsNext]
      funext a j
      exact hω _ (by have := cell_lt a j; simp only; omega)
    refine ⟨by rw [hF, hF', n1], by rw [hG, hG', n2], by rw [hU, hU'], ?_⟩
    rw [hr, hr', tape_normalsNext, tape_normalsNext, tape_normalsNext, tape_normalsNext]

/-- The uncontrolled paths do not depend on the object. -/
theorem free_same {N' M' : ℕ} {o' : Obj d N' M' ℝ} {s' : ℕ × ℕ} {υ' : ℕ → ℝ} (hs : s'.1 = s.1)
    (hl : o'.timegrid.length = o.timegrid.length) (h1 : rs 1 = s) (h1' : rs' 1 = s')
    (hrun : LoopRun (tapeEnv ω υ emd) (fun x i => calculateU (tapeEnv ω υ emd) o x i) f g y1 o.timegrid.length F G U rs)
    (hrun' : LoopRun (tapeEnv ω υ' emd) (fun x i => calculateU (tapeEnv ω υ' emd) o' x i) f g y1 o'.timegrid.length F' G' U' rs') :
    ∀ i, i < o.timegrid.length - 1 → G[i]? = G'[i]? := by
  intro i
  induction i with
  | zero => intro _; exact hrun.startG.trans hrun'.startG.symm
  | succ i ih =>
    intro hi
    have eG := ih (by omega)
    obtain ⟨x, hx⟩ := slice_some hrun.lenF (i := i) (by omega)
    obtain ⟨x', hx'⟩ := slice_some hrun'.lenF (i := i) (by omega)
    obtain ⟨w, hw⟩ := slice_some hrun.lenG (i := i) (by omega)
    obtain ⟨u, q, hq, -, -, hG, -⟩ := hrun.step (i+1) x w (by omega) hi (by simpa using hx) (by simpa using hw)
    obtain ⟨u', q', hq', -, -, hG', -⟩ := hrun'.step (i+1) x' w (by omega) (by omega) (by simpa using hx')
      (by simpa [← eG] using hw)
    have a1 : q.1 = s.1 + 2 * i * (d * n) := (query_fst hq).trans (run_fst h1 hrun i (by omega))
    have a2 : q'.1 = s.1 + 2 * i * (d * n) := by
      rw [← hs]; exact (query_fst hq').trans (run_fst h1' hrun' i (by omega))
    rw [hG, hG', tape_normals, tape_normals, tape_normalsNext, tape_normalsNext]
    simp only [a1, a2]

end

end DPFC.LoopLaw
