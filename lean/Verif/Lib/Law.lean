import Verif.Spec.Law
import Verif.Lib.Symmetry
import Mathlib.Probability.IdentDistrib

/-!
# Flows as functions of a tape of independent normals
-/

namespace DPFC
open Spec MeasureTheory ProbabilityTheory

namespace Law
variable {d N M : ℕ}

instance : IsProbabilityMeasure gaussTape := by unfold gaussTape; infer_instance

theorem tape_draw (ω υ : ℕ → ℝ) (emd : Solver) (m n : ℕ) (s : ℕ × ℕ) :
    drawVec (drawVec (tapeEnv ω υ emd).normal n) m s = (fun a k => ω (s.1 + (a.val * n + k.val)), (s.1 + m * n, s.2)) := by
  have := Sym.drawMat_steps (tapeEnv ω υ emd).normal (fun i => (s.1 + i, s.2)) (fun i => ω (s.1 + i)) n m 0 (m * n)
    (fun i _ => rfl) (by omega)
  simp only [zero_add] at this
  exact this

theorem tape_normals (ω υ : ℕ → ℝ) (emd : Solver) (d N : ℕ) (s : ℕ × ℕ) :
    normals (tapeEnv ω υ emd) d N s = fun a k => ω (s.1 + (a.val * N + k.val)) :=
  congrArg Prod.fst (tape_draw ω υ emd d N s)

theorem tape_normalsNext (ω υ : ℕ → ℝ) (emd : Solver) (d N : ℕ) (s : ℕ × ℕ) :
    normalsNext (tapeEnv ω υ emd) d N s = (s.1 + d * N, s.2) := congrArg Prod.snd (tape_draw ω υ emd d N s)

theorem tape_drawU (ω υ : ℕ → ℝ) (emd : Solver) (m n : ℕ) (s : ℕ × ℕ) :
    drawVec (drawVec (tapeEnv ω υ emd).uniform n) m s = (fun a k => υ (s.2 + (a.val * n + k.val)), (s.1, s.2 + m * n)) := by
  have := Sym.drawMat_steps (tapeEnv ω υ emd).uniform (fun i => (s.1, s.2 + i)) (fun i => υ (s.2 + i)) n m 0 (m * n)
    (fun i _ => rfl) (by omega)
  simp only [zero_add] at this
  exact this

theorem tape_unifs (ω υ : ℕ → ℝ) (emd : Solver) (d M : ℕ) (s : ℕ × ℕ) :
    unifs (tapeEnv ω υ emd) d M s = fun a k => υ (s.2 + (a.val * M + k.val)) :=
  congrArg Prod.fst (tape_drawU ω υ emd d M s)

theorem tape_unifsNext (ω υ : ℕ → ℝ) (emd : Solver) (d M : ℕ) (s : ℕ × ℕ) :
    unifsNext (tapeEnv ω υ emd) d M s = (s.1, s.2 + d * M) := congrArg Prod.snd (tape_drawU ω υ emd d M s)

theorem tape_tunifs (ω υ : ℕ → ℝ) (emd : Solver) (d M : ℕ) (s : ℕ × ℕ) :
    tunifs (tapeEnv ω υ emd) d M s = fun m a => υ (s.2 + (m.val * d + a.val)) :=
  congrArg Prod.fst (tape_drawU ω υ emd M d s)

theorem tape_tunifsNext (ω υ : ℕ → ℝ) (emd : Solver) (d M : ℕ) (s : ℕ × ℕ) :
    tunifsNext (tapeEnv ω υ emd) d M s = (s.1, s.2 + M * d) := congrArg Prod.snd (tape_drawU ω υ emd M d s)

theorem grid_head {t1 t2 : ℝ} (h : 0 < (mkGrid t1 t2).length) : (mkGrid t1 t2).getD 0 0 = t1 := by
  obtain ⟨e, -⟩ := (mkGrid_getElem_real t1 t2 0 _).1 (List.getElem?_eq_getElem h)
  rw [List.getD_eq_getElem?_getD, List.getElem?_eq_getElem h, Option.getD_some, e]
  simp

theorem digit {D j j' b b' : ℕ} (hb : b < D) (hb' : b' < D) (h : j * D + b = j' * D + b') : j = j' ∧ b = b' := by
  have hj : j = j' := by
    have h1 : (j * D + b) / D = j := by rw [Nat.add_comm, Nat.add_mul_div_right _ _ (by omega), Nat.div_eq_of_lt hb, zero_add]
    have h2 : (j' * D + b') / D = j' := by
      rw [Nat.add_comm, Nat.add_mul_div_right _ _ (by omega), Nat.div_eq_of_lt hb', zero_add]
    rw [← h1, h, h2]
  subst hj
  exact ⟨rfl, by omega⟩

theorem cell_lt (a : Fin d) (n : Fin N) : a.val * N + n.val < d * N := by
  have h1 := a.2
  have h2 := n.2
  calc a.val * N + n.val < a.val * N + N := by omega
    _ = (a.val + 1) * N := by ring
    _ ≤ d * N := Nat.mul_le_mul_right _ (by omega)

theorem cell_inj {a a' : Fin d} {n n' : Fin N} (h : a.val * N + n.val = a'.val * N + n'.val) : a = a' ∧ n = n' := by
  obtain ⟨h1, h2⟩ := digit n.2 n'.2 h
  exact ⟨Fin.ext h1, Fin.ext h2⟩

/-- Law of a block of the tape. -/
theorem block_law (i0 : ℕ) : gaussTape.map (fun ω (a : Fin d) (n : Fin N) => ω (i0 + (a.val * N + n.val)))
    = normalLaw (fun _ _ => 0) 1 := by
  have hinj : Function.Injective fun p : Fin d × Fin N => i0 + (p.1.val * N + p.2.val) := fun p q h => by
    obtain ⟨h1, h2⟩ := cell_inj (Nat.add_left_cancel h)
    exact Prod.ext h1 h2
  have h1 := Measure.map_infinitePi_infinitePi_of_inj (P := fun _ : ℕ => gaussianReal 0 1) hinj
  have h2 := Measure.infinitePi_map_curry (ι := Fin d) (κ := Fin N) fun _ _ => gaussianReal 0 1
  rw [← h1, Measure.map_map (by fun_prop) (by fun_prop)] at h2
  unfold gaussTape normalLaw
  rw [← Measure.infinitePi_eq_pi]
  simp_rw [← Measure.infinitePi_eq_pi]
  exact h2

theorem affine_law (m : Fin d → Fin N → ℝ) (c : ℝ) :
    (normalLaw (fun (_ : Fin d) (_ : Fin N) => (0:ℝ)) 1).map (fun ξ a n => m a n + c * ξ a n)
      = normalLaw m (Real.toNNReal (c ^ 2)) := by
  have h1 : ∀ μ : ℝ, (gaussianReal 0 1).map (fun x => μ + c * x) = gaussianReal μ (Real.toNNReal (c ^ 2)) := fun μ => by
    have : (fun x => μ + c * x) = (fun x => μ + x) ∘ fun x => c * x := rfl
    rw [this, ← Measure.map_map (by fun_prop) (by fun_prop), gaussianReal_map_const_mul, gaussianReal_map_const_add]
    congr 1
    · ring
    · rw [mul_one]; exact (Real.toNNReal_of_nonneg (sq_nonneg c)).symm
  unfold normalLaw
  have h2 : ∀ a, (Measure.pi fun _ : Fin N => gaussianReal 0 1).map (fun ξ n => m a n + c * ξ n)
      = Measure.pi fun n => gaussianReal (m a n) (Real.toNNReal (c ^ 2)) := fun a => by
    rw [← Measure.infinitePi_eq_pi, ← Measure.infinitePi_eq_pi,
      Measure.infinitePi_map_pi (f := fun n x => m a n + c * x) _ (fun n => by fun_prop)]
    simp_rw [h1]
  rw [← Measure.infinitePi_eq_pi, ← Measure.infinitePi_eq_pi,
    Measure.infinitePi_map_pi (f := fun a (ξ : Fin N → ℝ) n => m a n + c * ξ n) _ (fun a => by fun_prop)]
  simp_rw [h2]

/-- Law of an Euler-Maruyama step from a fixed cloud. -/
theorem noisy_law (f : Drift d N ℝ) (g : ℝ) (x : Fin d → Fin N → ℝ) (t : ℝ) (i0 : ℕ) :
    gaussTape.map (fun ω => noisy f g x t fun a n => ω (i0 + (a.val * N + n.val)))
      = normalLaw (fun a n => x a n + 1/1000 * f.call2 x t a n) (Real.toNNReal (g ^ 2 / 1000)) := by
  have e : (fun ω : ℕ → ℝ => noisy f g x t fun (a : Fin d) (n : Fin N) => ω (i0 + (a.val * N + n.val)))
      = (fun (ξ : Fin d → Fin N → ℝ) a n => (x a n + 1/1000 * f.call2 x t a n) + (g * Real.sqrt (1/1000)) * ξ a n) ∘
        fun (ω : ℕ → ℝ) (a : Fin d) (n : Fin N) => ω (i0 + (a.val * N + n.val)) := by
    funext ω a n
    simp only [noisy, Function.comp]
    ring
  rw [e, ← Measure.map_map (by fun_prop) (by fun_prop), block_law, affine_law]
  congr 2
  rw [mul_pow, Real.sq_sqrt (by norm_num)]
  ring

/-! ### Euler-Maruyama chains -/

/-- The chain driven by the tape from position `i0` on. -/
noncomputable def em (f : Drift d N ℝ) (g : ℝ) (t : List ℝ) (x0 : Fin d → Fin N → ℝ) (i0 : ℕ) (ω : ℕ → ℝ) :
    ℕ → Fin d → Fin N → ℝ
  | 0 => x0
  | j+1 => noisy f g (em f g t x0 i0 ω j) (t.getD j 0) fun a n => ω (i0 + j * (d * N) + (a.val * N + n.val))

theorem noisy_meas {Ω : Type} [MeasurableSpace Ω] {f : Drift d N ℝ} (g t : ℝ)
    (hf : Measurable fun x : Fin d → Fin N → ℝ => (f.call2 x t : Fin d → Fin N → ℝ)) {X ξ : Ω → Fin d → Fin N → ℝ}
    (hX : Measurable X) (hξ : Measurable ξ) : Measurable fun ω => noisy f g (X ω) t (ξ ω) := by
  refine measurable_pi_iff.2 fun a => measurable_pi_iff.2 fun n => ?_
  unfold noisy
  have h1 : Measurable fun ω => X ω a n := measurable_pi_iff.1 (measurable_pi_iff.1 hX a) n
  have h2 : Measurable fun ω => ξ ω a n := measurable_pi_iff.1 (measurable_pi_iff.1 hξ a) n
  have h3 : Measurable fun ω => f.call2 (X ω) t a n := measurable_pi_iff.1 (measurable_pi_iff.1 (hf.comp hX) a) n
  exact (h1.add (h3.const_mul _)).add ((h2.const_mul _).const_mul _)

section
variable {f : Drift d N ℝ} {g : ℝ} {t : List ℝ} {x0 : Fin d → Fin N → ℝ} {i0 : ℕ}

theorem em_meas (hf : ∀ t, Measurable fun x : Fin d → Fin N → ℝ => (f.call2 x t : Fin d → Fin N → ℝ)) :
    ∀ j, Measurable fun ω => em f g t x0 i0 ω j
  | 0 => measurable_const
  | j+1 => noisy_meas g _ (hf _) (em_meas hf j) (by fun_prop)

theorem em_dep : ∀ (j : ℕ) {ω ω' : ℕ → ℝ}, (∀ i < i0 + j * (d * N), ω i = ω' i) →
    em f g t x0 i0 ω j = em f g t x0 i0 ω' j
  | 0, _, _, _ => rfl
  | j+1, ω, ω', h => by
    have e : (j + 1) * (d * N) = j * (d * N) + d * N := by ring
    rw [e] at h
    unfold em
    rw [em_dep j fun i hi => h i (by omega)]
    congr 1
    funext a n
    exact h _ (by have := cell_lt a n; omega)

/-- A tape known up to position `m`, continued by zeros. -/
noncomputable def ext (m : ℕ) (w : Finset.range m → ℝ) : ℕ → ℝ := fun i => if h : i ∈ Finset.range m then w ⟨i, h⟩ else 0

theorem ext_meas (m : ℕ) : Measurable (ext m) := by
  refine measurable_pi_iff.2 fun i => ?_
  unfold ext
  by_cases h : i ∈ Finset.range m
  · simp only [h, dif_pos]; exact measurable_pi_apply _
  · simp only [h]; exact measurable_const

theorem ext_eq {m i : ℕ} (h : i < m) (ω : ℕ → ℝ) : ext m (fun i => ω i) i = ω i := by
  unfold ext; rw [dif_pos (Finset.mem_range.2 h)]

theorem tape_indep : iIndepFun (fun (i : ℕ) (ω : ℕ → ℝ) => ω i) gaussTape :=
  iIndepFun_infinitePi (X := fun _ x => x) fun _ => measurable_id

/-- The noise of step `j` is independent of the chain up to `j`. -/
theorem em_indep (hf : ∀ t, Measurable fun x : Fin d → Fin N → ℝ => (f.call2 x t : Fin d → Fin N → ℝ)) (j : ℕ) :
    IndepFun (fun ω (i : Fin (j+1)) => em f g t x0 i0 ω i)
      (fun ω (a : Fin d) (n : Fin N) => ω (i0 + j * (d * N) + (a.val * N + n.val))) gaussTape := by
  have h := tape_indep.indepFun_finset (Finset.range (i0 + j * (d * N)))
    (Finset.Ico (i0 + j * (d * N)) (i0 + j * (d * N) + d * N)) (by
      rw [Finset.disjoint_left]
      intro i h1 h2
      rw [Finset.mem_range] at h1
      rw [Finset.mem_Ico] at h2
      omega) (fun i => measurable_pi_apply i)
  let ψ : (Finset.Ico (i0 + j * (d * N)) (i0 + j * (d * N) + d * N) → ℝ) → Fin d → Fin N → ℝ := fun w a n =>
    w ⟨i0 + j * (d * N) + (a.val * N + n.val), by rw [Finset.mem_Ico]; have := cell_lt a n; omega⟩
  have h2 := h.comp (φ := fun w (i : Fin (j+1)) => em f g t x0 i0 (ext _ w) i) (ψ := ψ)
    (measurable_pi_iff.2 fun i => (em_meas hf i).comp (ext_meas _))
    (measurable_pi_iff.2 fun a => measurable_pi_iff.2 fun n => measurable_pi_apply _)
  refine h2.congr (Filter.Eventually.of_forall fun ω => ?_) (Filter.Eventually.of_forall fun ω => rfl)
  funext i
  simp only [Function.comp]
  refine em_dep i fun m hm => ext_eq ?_ ω
  have : i.val * (d * N) ≤ j * (d * N) := Nat.mul_le_mul_right _ (by omega)
  omega

/-- A fresh normal almost surely differs from any number computed from the earlier ones. -/
theorem fresh_ne (m : ℕ) (ψ : (Finset.range m → ℝ) → ℝ) (hψ : Measurable ψ) :
    ∀ᵐ ω ∂gaussTape, ω m ≠ ψ fun i => ω i := by
  have h := tape_indep.indepFun_finset (Finset.range m) {m} (by simp) (fun i => measurable_pi_apply i)
  have h2 : IndepFun (fun ω (i : Finset.range m) => ω i) (fun ω : ℕ → ℝ => ω m) gaussTape :=
    h.comp (φ := id) (ψ := fun w : (({m} : Finset ℕ) → ℝ) => w ⟨m, Finset.mem_singleton_self m⟩) measurable_id
      (measurable_pi_apply _)
  have hm1 : Measurable fun (ω : ℕ → ℝ) (i : Finset.range m) => ω i := measurable_pi_iff.2 fun i => measurable_pi_apply _
  have hm2 : Measurable fun ω : ℕ → ℝ => ω m := measurable_pi_apply _
  have hm := (indepFun_iff_map_prod_eq_prod_map_map hm1.aemeasurable hm2.aemeasurable).1 h2
  have hl : gaussTape.map (fun ω => ω m) = gaussianReal 0 1 := Measure.infinitePi_map_eval _ m
  have hS : MeasurableSet {p : (Finset.range m → ℝ) × ℝ | p.2 = ψ p.1} :=
    measurableSet_eq_fun measurable_snd (hψ.comp measurable_fst)
  have h0 : (gaussTape.map fun ω => ((fun (i : Finset.range m) => ω i : Finset.range m → ℝ), ω m))
      {p | p.2 = ψ p.1} = 0 := by
    rw [hm, hl]
    refine Measure.measure_prod_null_of_ae_null hS (Filter.Eventually.of_forall fun x => ?_)
    have := nullSingletonClass_gaussianReal (μ := 0) (v := 1) one_ne_zero
    have e : Prod.mk x ⁻¹' {p : (Finset.range m → ℝ) × ℝ | p.2 = ψ p.1} = {ψ x} := by ext y; simp
    show (gaussianReal 0 1) (Prod.mk x ⁻¹' {p : (Finset.range m → ℝ) × ℝ | p.2 = ψ p.1}) = 0
    rw [e]; exact measure_singleton _
  rw [Measure.map_apply (hm1.prodMk hm2) hS] at h0
  rw [ae_iff]
  convert h0 using 2
  ext ω
  simp

/-- Every cloud of the chain but the first almost surely has spread. -/
theorem em_spread (hg : g ≠ 0) (hN : 2 ≤ N)
    (hf : ∀ t, Measurable fun x : Fin d → Fin N → ℝ => (f.call2 x t : Fin d → Fin N → ℝ)) :
    ∀ᵐ ω ∂gaussTape, ∀ j, ∀ a : Fin d, em f g t x0 i0 ω (j+1) a ⟨0, by omega⟩ ≠ em f g t x0 i0 ω (j+1) a ⟨1, by omega⟩ := by
  rw [ae_all_iff]; intro j
  rw [ae_all_iff]; intro a
  set m := i0 + j * (d * N) + (a.val * N + 1) with hm
  let mu : (ℕ → ℝ) → Fin N → ℝ := fun ω n => em f g t x0 i0 ω j a n + 1/1000 * f.call2 (em f g t x0 i0 ω j) (t.getD j 0) a n
  have hc : g * Real.sqrt (1/1000) ≠ 0 := mul_ne_zero hg (by rw [Real.sqrt_ne_zero']; norm_num)
  have hmu : ∀ n, Measurable fun ω => mu ω n := fun n =>
    (measurable_pi_iff.1 (measurable_pi_iff.1 (em_meas hf j) a) n).add
      ((measurable_pi_iff.1 (measurable_pi_iff.1 ((hf _).comp (em_meas hf j)) a) n).const_mul _)
  have h := fresh_ne m (fun w => (mu (ext m w) ⟨0, by omega⟩ - mu (ext m w) ⟨1, by omega⟩) / (g * Real.sqrt (1/1000))
    + ext m w (i0 + j * (d * N) + (a.val * N + 0)))
    (((((hmu _).comp (ext_meas m)).sub ((hmu _).comp (ext_meas m))).div_const _).add
      (measurable_pi_iff.1 (ext_meas m) _))
  refine h.mono fun ω hω he => hω ?_
  have hd : em f g t x0 i0 (ext m fun i => ω i) j = em f g t x0 i0 ω j := em_dep j fun i hi => ext_eq (by omega) ω
  have h1 : mu (ext m fun i => ω i) = mu ω := by simp only [mu, hd]
  rw [h1, ext_eq (by omega)]
  simp only [em, noisy] at he
  have he' : mu ω ⟨0, by omega⟩ + g * Real.sqrt (1/1000) * ω (i0 + j * (d * N) + (a.val * N + 0))
      = mu ω ⟨1, by omega⟩ + g * Real.sqrt (1/1000) * ω m := by
    simp only [mu, hm]; linarith
  field_simp
  linarith

end

/-! ### Particles -/

/-- The chain of one particle. -/
noncomputable def pm (φ : (Fin d → ℝ) → ℝ → Fin d → ℝ) (g : ℝ) (t : List ℝ) (p0 : Fin d → ℝ) (w : ℕ × Fin d → ℝ) :
    ℕ → Fin d → ℝ
  | 0 => p0
  | j+1 => fun a => pm φ g t p0 w j a + 1/1000 * φ (pm φ g t p0 w j) (t.getD j 0) a + g * (Real.sqrt (1/1000) * w (j, a))

/-- Position on the tape of the noise for coordinate `a` of particle `n` at step `j`. -/
def pos (d N i0 : ℕ) (n : Fin N) (q : ℕ × Fin d) : ℕ := i0 + q.1 * (d * N) + (q.2.val * N + n.val)

theorem pos_inj (d N i0 : ℕ) : Function.Injective fun p : Fin N × (ℕ × Fin d) => pos d N i0 p.1 p.2 := by
  rintro ⟨n, j, a⟩ ⟨n', j', a'⟩ h
  unfold pos at h
  have h' : j * (d * N) + (a.val * N + n.val) = j' * (d * N) + (a'.val * N + n'.val) := by
    simp only at h; omega
  obtain ⟨rfl, h2⟩ := digit (cell_lt a n) (cell_lt a' n') h'
  obtain ⟨rfl, rfl⟩ := cell_inj h2
  rfl

theorem em_particle {f : Drift d N ℝ} {φ : (Fin d → ℝ) → ℝ → Fin d → ℝ} (hf : ActsBy f φ) (g : ℝ) (t : List ℝ)
    (p0 : Fin d → ℝ) (i0 : ℕ) (ω : ℕ → ℝ) (n : Fin N) : ∀ j, particle (em f g t (fun a _ => p0 a) i0 ω j) n
      = pm φ g t p0 (fun q => ω (pos d N i0 n q)) j
  | 0 => rfl
  | j+1 => by
    have ih := em_particle hf g t p0 i0 ω n j
    funext a
    have ia := congrFun ih a
    simp only [particle] at ia
    simp only [particle, em, noisy, pm, hf _ _ a n, ih, ia]
    rfl

theorem pm_meas {φ : (Fin d → ℝ) → ℝ → Fin d → ℝ} (hφ : ∀ t, Measurable fun p => φ p t) (g : ℝ) (t : List ℝ) (p0 : Fin d → ℝ) :
    ∀ j, Measurable fun w => pm φ g t p0 w j
  | 0 => measurable_const
  | j+1 => by
    refine measurable_pi_iff.2 fun a => ?_
    have h := pm_meas hφ g t p0 j
    exact ((measurable_pi_iff.1 h a).add ((measurable_pi_iff.1 ((hφ _).comp h) a).const_mul _)).add
      (((measurable_pi_apply _).const_mul _).const_mul _)

theorem acts_meas {f : Drift d N ℝ} {φ : (Fin d → ℝ) → ℝ → Fin d → ℝ} (hf : ActsBy f φ)
    (hφ : ∀ t, Measurable fun p => φ p t) (t : ℝ) :
    Measurable fun x : Fin d → Fin N → ℝ => (f.call2 x t : Fin d → Fin N → ℝ) := by
  refine measurable_pi_iff.2 fun a => measurable_pi_iff.2 fun n => ?_
  have e : (fun x : Fin d → Fin N → ℝ => f.call2 x t a n) = fun x => φ (particle x n) t a := funext fun x => hf x t a n
  show Measurable fun x : Fin d → Fin N → ℝ => f.call2 x t a n
  rw [e]
  refine measurable_pi_iff.1 ((hφ t).comp ?_) a
  exact measurable_pi_iff.2 fun b => measurable_pi_iff.1 (measurable_pi_apply (X := fun _ => Fin N → ℝ) b) n

theorem row_law (d N i0 : ℕ) (n : Fin N) : gaussTape.map (fun ω q => ω (pos d N i0 n q))
    = Measure.infinitePi fun _ : ℕ × Fin d => gaussianReal 0 1 :=
  Measure.map_infinitePi_infinitePi_of_inj (P := fun _ : ℕ => gaussianReal 0 1) (f := pos d N i0 n) fun q q' h => by
    have := pos_inj d N i0 (a₁ := (n, q)) (a₂ := (n, q')) h
    exact (Prod.mk.inj this).2

theorem rows_indep (d N i0 : ℕ) : iIndepFun (fun (n : Fin N) (ω : ℕ → ℝ) (q : ℕ × Fin d) => ω (pos d N i0 n q)) gaussTape := by
  rw [iIndepFun_iff_map_fun_eq_infinitePi_map fun n => measurable_pi_iff.2 fun q => measurable_pi_apply _]
  simp_rw [row_law]
  have h1 := Measure.map_infinitePi_infinitePi_of_inj (P := fun _ : ℕ => gaussianReal 0 1) (pos_inj d N i0)
  have h2 := Measure.infinitePi_map_curry (ι := Fin N) (κ := ℕ × Fin d) fun _ _ => gaussianReal 0 1
  rw [← h1, Measure.map_map (by fun_prop) (by fun_prop)] at h2
  exact h2

section
variable {f : Drift d N ℝ} {φ : (Fin d → ℝ) → ℝ → Fin d → ℝ}

theorem particles_indep (hf : ActsBy f φ) (hφ : ∀ t, Measurable fun p => φ p t) (g : ℝ) (t : List ℝ) (p0 : Fin d → ℝ) (i0 : ℕ) :
    iIndepFun (fun (n : Fin N) ω (j : ℕ) => particle (em f g t (fun a _ => p0 a) i0 ω j) n) gaussTape := by
  have h := (rows_indep d N i0).comp (fun _ w j => pm φ g t p0 w j) fun _ => measurable_pi_iff.2 (pm_meas hφ g t p0)
  have e : (fun (n : Fin N) ω (j : ℕ) => particle (em f g t (fun a _ => p0 a) i0 ω j) n)
      = fun n => (fun w j => pm φ g t p0 w j) ∘ fun ω q => ω (pos d N i0 n q) := by
    funext n ω j; exact em_particle hf g t p0 i0 ω n j
  rw [e]; exact h

theorem particles_ident (hf : ActsBy f φ) (hφ : ∀ t, Measurable fun p => φ p t) (g : ℝ) (t : List ℝ) (p0 : Fin d → ℝ) (i0 : ℕ)
    (n n' : Fin N) : IdentDistrib (fun ω (j : ℕ) => particle (em f g t (fun a _ => p0 a) i0 ω j) n)
      (fun ω (j : ℕ) => particle (em f g t (fun a _ => p0 a) i0 ω j) n') gaussTape gaussTape := by
  have hP : Measurable fun (w : ℕ × Fin d → ℝ) (j : ℕ) => pm φ g t p0 w j := measurable_pi_iff.2 (pm_meas hφ g t p0)
  have hr : ∀ n : Fin N, Measurable fun (ω : ℕ → ℝ) q => ω (pos d N i0 n q) := fun n =>
    measurable_pi_iff.2 fun q => measurable_pi_apply _
  have e : ∀ n : Fin N, (fun ω (j : ℕ) => particle (em f g t (fun a _ => p0 a) i0 ω j) n)
      = (fun w j => pm φ g t p0 w j) ∘ fun ω q => ω (pos d N i0 n q) := fun n => by
    funext ω j; exact em_particle hf g t p0 i0 ω n j
  refine ⟨?_, ?_, ?_⟩
  · rw [e]; exact (hP.comp (hr n)).aemeasurable
  · rw [e]; exact (hP.comp (hr n')).aemeasurable
  · rw [e, e, ← Measure.map_map hP (hr n), ← Measure.map_map hP (hr n'), row_law, row_law]

end

/-- The stochastic forward flow of the torch class, read off the tape. -/
theorem em_of_rec {ω υ : ℕ → ℝ} {emd : Solver} {c : Cfg d N M ℝ} (hw : c.reweight = false) {t : List ℝ} {x0 : Fin d → Fin N → ℝ}
    {s : ℕ × ℕ} {Z : ℕ → Option (Fin d → Fin N → ℝ)} {rs : ℕ → ℕ × ℕ}
    (h : TorchStochRec (tapeEnv ω υ emd) c Z (fun j => t[j]?) rs) (h0 : Z 0 = some x0) (hr : rs 0 = s) :
    ∀ i, (∀ j ≤ i, ∃ x, Z j = some x) → i < t.length →
    Z i = some (em c.f c.g t x0 s.1 ω i) ∧ rs i = (s.1 + i * (d * N), s.2) := by
  intro i
  induction i with
  | zero => intro _ _; exact ⟨h0, by rw [hr]; simp⟩
  | succ i ih =>
    intro hz hi
    obtain ⟨e1, e2⟩ := ih (fun j hj => hz j (by omega)) (by omega)
    obtain ⟨y, hy⟩ := hz (i+1) le_rfl
    have ht : t[i]? = some (t.getD i 0) := by
      rw [List.getD_eq_getElem?_getD, List.getElem?_eq_getElem (by omega)]; rfl
    obtain ⟨raw, hs, hn, hraw, _⟩ := h i _ y _ e1 hy ht
    rw [e2, tape_normals] at hs
    rw [e2, tape_normalsNext] at hn
    refine ⟨?_, ?_⟩
    · rw [hy, hraw hw, hs]; rfl
    · rw [hn]
      refine Prod.ext ?_ rfl
      simp only; ring

/-! ### Deterministic runs -/

theorem fst_tape (ω υ : ℕ → ℝ) (emd : Solver) (d N : ℕ) {nx : ℕ × ℕ → ℕ × ℕ} {D : ℕ} (hnx : ∀ s, nx s = (s.1, s.2 + D))
    (s : ℕ × ℕ) : ∀ j, Lim.fst (tapeEnv ω υ emd) d N nx s (j+1) = (s.1 + d * N, s.2 + j * D)
  | 0 => by unfold Lim.fst; rw [tape_normalsNext]; simp
  | j+1 => by
    unfold Lim.fst
    rw [fst_tape ω υ emd d N hnx s j, hnx]
    refine Prod.ext rfl ?_
    simp only; ring

section
variable {U : Type} {dr : ℕ × ℕ → U} {nx : ℕ × ℕ → ℕ × ℕ}
  {sF : (Fin d → Fin N → ℝ) → U → Fin d → Fin N → ℝ}
  {sR sB : (Fin d → Fin N → ℝ) → (Fin d → Fin N → ℝ) → U → Fin d → Fin N → ℝ}

/-- The forward flow only depends on the first block of normals. -/
theorem same_Z {ω ω' υ : ℕ → ℝ} {emd : Solver} {D : ℕ} (hnx : ∀ s, nx s = (s.1, s.2 + D)) {c : Cfg d N M ℝ} {t : List ℝ}
    {Z B Z' B' : Traj d N ℝ} {s r r' : ℕ × ℕ} (hω : ∀ i < s.1 + d * N, ω i = ω' i)
    (h : Lim.Run (tapeEnv ω υ emd) c U dr nx sF sR sB t Z B s r)
    (h' : Lim.Run (tapeEnv ω' υ emd) c U dr nx sF sR sB t Z' B' s r')
    (sZ : ∀ j, 1 ≤ j → j < t.length → Spread (Lim.sl Z j)) : Z' = Z := by
  have key : ∀ j, j < t.length → Lim.sl Z' j = Lim.sl Z j := by
    intro j
    induction j with
    | zero => intro _; rw [h.z0, h'.z0]
    | succ j ih =>
      intro hj
      have hx := ih (by omega)
      match j, hj, hx with
      | 0, hj, hx =>
        rw [h.z1 (by omega), h'.z1 (by omega), hx, tape_normals, tape_normals]
        congr 1
        funext a n
        exact (hω _ (by have := cell_lt a n; omega)).symm
      | j+1, hj, hx =>
        have sx := sZ (j+1) (by omega) (by omega)
        rw [h.zs j hj sx, h'.zs j hj (by rw [hx]; exact sx), hx, fst_tape _ _ _ _ _ hnx, fst_tape _ _ _ _ _ hnx]
  refine List.ext_getElem (by rw [h.lenZ, h'.lenZ]) fun j h1 h2 => ?_
  have := key j (by rw [← h'.lenZ]; exact h1)
  rwa [Lim.sl_eq (List.getElem?_eq_getElem h1), Lim.sl_eq (List.getElem?_eq_getElem h2)] at this

/-- The first backward step, read off the tape. -/
theorem back_step {ω υ : ℕ → ℝ} {emd : Solver} {D : ℕ} (hnx : ∀ s, nx s = (s.1, s.2 + D)) {c : Cfg d N M ℝ} {t : List ℝ}
    {Z B : Traj d N ℝ} {s r : ℕ × ℕ} (h : Lim.Run (tapeEnv ω υ emd) c U dr nx sF sR sB t Z B s r) (h3 : 3 ≤ t.length)
    (sx : Spread (Lim.sl Z (t.length - 1))) : B[t.length - 2]? = some fun a n =>
      (c.y2 a - 1/1000 * c.f.call2 (fun a _ => c.y2 a) (t.getD (t.length - 1) 0) a n
        + c.g^2 / 1000 * sR (Lim.sl Z (t.length - 1)) (fun a _ => c.y2 a) (dr (s.1 + d * N, s.2 + (t.length - 2) * D)) a n)
      + c.g * Real.sqrt (1/1000) * ω (s.1 + d * N + (a.val * N + n.val)) := by
  rw [Lim.sl_some (by rw [h.lenB]; omega), h.b1 h3 sx, h.bk]
  have e : Lim.fst (tapeEnv ω υ emd) d N nx s (t.length - 1) = (s.1 + d * N, s.2 + (t.length - 2) * D) := by
    rw [show t.length - 1 = (t.length - 2) + 1 by omega]; exact fst_tape _ _ _ _ _ hnx _ _
  rw [e, hnx, tape_normals]
  congr 1
  funext a n
  ring

theorem back_law (m : Fin d → Fin N → ℝ) (g : ℝ) (p : ℕ) :
    gaussTape.map (fun ω a n => m a n + g * Real.sqrt (1/1000) * ω (p + (a.val * N + n.val)))
      = normalLaw m (Real.toNNReal (g ^ 2 / 1000)) := by
  have e : (fun (ω : ℕ → ℝ) (a : Fin d) (n : Fin N) => m a n + g * Real.sqrt (1/1000) * ω (p + (a.val * N + n.val)))
      = (fun (ξ : Fin d → Fin N → ℝ) a n => m a n + (g * Real.sqrt (1/1000)) * ξ a n) ∘
        fun (ω : ℕ → ℝ) (a : Fin d) (n : Fin N) => ω (p + (a.val * N + n.val)) := rfl
  rw [e, ← Measure.map_map (by fun_prop) (by fun_prop), block_law, affine_law]
  congr 2
  rw [mul_pow, Real.sq_sqrt (by norm_num)]
  ring

end

theorem zseq_same {ω ω' υ : ℕ → ℝ} {emd : Solver} {c : Cfg d N M ℝ} {t : List ℝ} {s : ℕ × ℕ}
    (hω : ∀ i < s.1 + d * N, ω i = ω' i) :
    ∀ j, Lim.zseq (tapeEnv ω υ emd) c t s j = Lim.zseq (tapeEnv ω' υ emd) c t s j
  | 0 => rfl
  | 1 => by
    unfold Lim.zseq
    rw [tape_normals, tape_normals]
    congr 1
    funext a n
    exact hω _ (by have := cell_lt a n; omega)
  | j+2 => by
    have hnx : ∀ (ω : ℕ → ℝ) s, tunifsNext (tapeEnv ω υ emd) d M s = (s.1, s.2 + M * d) := fun ω s =>
      tape_tunifsNext _ _ _ _ _ _
    unfold Lim.zseq
    rw [fst_tape _ _ _ _ _ (hnx ω), fst_tape _ _ _ _ _ (hnx ω'), tape_tunifs, tape_tunifs, zseq_same hω (j+1)]

/-! ### The stochastic mode of the torch class -/

theorem blocks_indep (i0 : ℕ) : iIndepFun (fun (j : ℕ) (ω : ℕ → ℝ) (a : Fin d) (n : Fin N) =>
    ω (i0 + j * (d * N) + (a.val * N + n.val))) gaussTape := by
  have hinj : Function.Injective fun p : ℕ × (Fin d × Fin N) => i0 + p.1 * (d * N) + (p.2.1.val * N + p.2.2.val) := by
    rintro ⟨j, a, n⟩ ⟨j', a', n'⟩ h
    have h' : j * (d * N) + (a.val * N + n.val) = j' * (d * N) + (a'.val * N + n'.val) := by
      simp only at h; omega
    obtain ⟨rfl, h2⟩ := digit (cell_lt a n) (cell_lt a' n') h'
    obtain ⟨rfl, rfl⟩ := cell_inj h2
    rfl
  have hr : iIndepFun (fun (j : ℕ) (ω : ℕ → ℝ) (q : Fin d × Fin N) => ω (i0 + j * (d * N) + (q.1.val * N + q.2.val)))
      gaussTape := by
    rw [iIndepFun_iff_map_fun_eq_infinitePi_map fun n => measurable_pi_iff.2 fun q => measurable_pi_apply _]
    have hrow : ∀ j, gaussTape.map (fun ω (q : Fin d × Fin N) => ω (i0 + j * (d * N) + (q.1.val * N + q.2.val)))
        = Measure.infinitePi fun _ : Fin d × Fin N => gaussianReal 0 1 := fun j =>
      Measure.map_infinitePi_infinitePi_of_inj (P := fun _ : ℕ => gaussianReal 0 1) (fun q q' h => by
        have := hinj (a₁ := (j, q)) (a₂ := (j, q')) h
        exact (Prod.mk.inj this).2)
    simp_rw [hrow]
    have h1 := Measure.map_infinitePi_infinitePi_of_inj (P := fun _ : ℕ => gaussianReal 0 1) hinj
    have h2 := Measure.infinitePi_map_curry (ι := ℕ) (κ := Fin d × Fin N) fun _ _ => gaussianReal 0 1
    rw [← h1, Measure.map_map (by fun_prop) (by fun_prop)] at h2
    exact h2
  exact hr.comp (fun _ (w : Fin d × Fin N → ℝ) a n => w (a, n)) fun _ =>
    measurable_pi_iff.2 fun a => measurable_pi_iff.2 fun n => measurable_pi_apply _

/-- Construction returns when the chain has spread from slice 1 on. -/
theorem stoch_ok {ω υ : ℕ → ℝ} {emd : Solver} {c : Cfg d N M ℝ} (hd : 2 ≤ d) (hN : 2 ≤ N)
    (hdet : c.deterministic = false) (hw : c.reweight = false) (hk : KnownKernel c.kern) {t : List ℝ}
    (ht : torchGrid c.t1 c.t2 = .ok t) (h1 : 2 ≤ t.length) {s : ℕ × ℕ}
    (hω : ∀ j (a : Fin d), em c.f c.g t (fun a _ => if a.val < 2 then c.y1 a else 0) s.1 ω (j+1) a ⟨0, by omega⟩
      ≠ em c.f c.g t (fun a _ => if a.val < 2 then c.y1 a else 0) s.1 ω (j+1) a ⟨1, by omega⟩) :
    ∃ o r', torchConstruct (tapeEnv ω υ emd) c s = .ok (o, r') ∧ ∀ j < t.length,
      o.Z[j]? = some (em c.f c.g t (fun a _ => if a.val < 2 then c.y1 a else 0) s.1 ω j) := by
  have hE : c.reweight = true → EmdTotal (tapeEnv ω υ emd) := fun h => by rw [hw] at h; cases h
  have hv : torchVerdict t.length c = none := by
    unfold torchVerdict
    rw [if_neg (by omega), if_neg (by rw [hdet]; simp), if_neg (by omega)]
    split
    · rfl
    · simp only [hw, Bool.false_eq_true, false_and, if_false]
      rw [if_neg]
      rintro ⟨_, h⟩
      exact h hk
  have hok : ∃ o r', torchConstruct (tapeEnv ω υ emd) c s = .ok (o, r') := by
    cases hres : torchConstruct (tapeEnv ω υ emd) c s with
    | ok p => exact ⟨p.1, p.2, rfl⟩
    | error e =>
      obtain ⟨i, Z, rs, hi, hil, hz0, hr0, hz, hrec, x, a, hx, ha⟩ :=
        C64_stochastic_value_error _ c (by omega) (by omega) hE hdet t ht hv s e hres
      have := (em_of_rec hw hrec hz0 hr0 i hz hil).1
      rw [hx] at this
      obtain ⟨j, rfl⟩ : ∃ j, i = j + 1 := ⟨i - 1, by omega⟩
      exact absurd (ha ⟨0, by omega⟩ ⟨1, by omega⟩) (by rw [Option.some.inj this]; exact hω j a)
  obtain ⟨o, r', h⟩ := hok
  refine ⟨o, r', h, fun j hj => ?_⟩
  have hto : o.timegrid = t := by
    have := (torchConstruct_fields h).2.1
    rw [ht] at this; exact (Except.ok.inj this).symm
  have hs := C08_storage_sizes _ c (by omega) s r' o (.inr h)
  have hz0 : o.Z[0]? = some fun a _ => if a.val < 2 then c.y1 a else 0 := by
    obtain ⟨S, hS, hv⟩ := C06_stochastic_start _ c hdet s r' o (.inr h) (by rw [hto]; omega)
    rw [hS]; congr 1; funext a n
    rw [hv, show (lit 0 1 : ℝ) = 0 by simp]
    by_cases ha : a.val < 2
    · rw [if_pos ha, if_pos (by omega)]
    · rw [if_neg ha, if_neg (by omega)]
  rcases Nat.eq_zero_or_pos j with rfl | hj0
  · exact hz0
  obtain ⟨rs, _, hr0, hrec, _⟩ := C11_torch_stochastic_recurrence _ c (by omega) (by omega) hdet hk s r' o h (by rw [hto]; omega)
  rw [hto] at hrec
  have hlZ : o.Z.length = t.length := by rw [← hto]; exact hs.1
  exact (em_of_rec hw hrec hz0 hr0 j (fun m hm => ⟨_, List.getElem?_eq_getElem (by omega)⟩) hj).1

/-- Sums of independent normals. -/
theorem brownian {f : Drift d N ℝ} {g : ℝ} {t : List ℝ} {p0 : Fin d → ℝ} {Z ξ : ℕ → (ℕ → ℝ) → Fin d → Fin N → ℝ}
    (hf : ∀ x t a n, f.call2 x t a n = 0) (h0 : ∀ ω, Z 0 ω = fun a _ => p0 a)
    (hs : ∀ j ω, Z (j+1) ω = noisy f g (Z j ω) (t.getD j 0) (ξ j ω))
    (hl : ∀ j, gaussTape.map (ξ j) = normalLaw (fun _ _ => 0) 1)
    (hi : ∀ j, IndepFun (fun ω (i : Fin (j+1)) => Z i ω) (ξ j) gaussTape) :
    ∀ j a n, gaussTape.map (fun ω => Z j ω a n) = gaussianReal (p0 a) (j * Real.toNNReal (g ^ 2 / 1000))
  | 0, a, n => by
    simp only [h0, Nat.cast_zero, zero_mul, gaussianReal_zero_var]
    rw [Measure.map_const]; simp
  | j+1, a, n => by
    have ih := brownian hf h0 hs hl hi j a n
    have hmξ : AEMeasurable (ξ j) gaussTape := by
      refine AEMeasurable.of_map_ne_zero ?_
      rw [hl]; unfold normalLaw; exact IsProbabilityMeasure.ne_zero _
    have h1 : gaussTape.map (fun ω => g * Real.sqrt (1/1000) * ξ j ω a n) = gaussianReal 0 (Real.toNNReal (g^2/1000)) := by
      have e : gaussTape.map (fun ω => ξ j ω a n) = gaussianReal 0 1 := by
        have : (fun ω => ξ j ω a n) = (fun (x : Fin d → Fin N → ℝ) => x a n) ∘ ξ j := rfl
        have hev : Measurable fun x : Fin d → Fin N → ℝ => x a n := by fun_prop
        rw [this, ← AEMeasurable.map_map_of_aemeasurable hev.aemeasurable hmξ, hl]
        unfold normalLaw
        have h2 : (fun x : Fin d → Fin N → ℝ => x a n) = (fun y : Fin N → ℝ => y n) ∘ fun x => x a := rfl
        rw [h2, ← Measure.map_map (by fun_prop) (by fun_prop), (measurePreserving_eval _ a).map_eq,
          (measurePreserving_eval _ n).map_eq]
      have e2 : (fun ω => g * Real.sqrt (1/1000) * ξ j ω a n) = (fun x => (g * Real.sqrt (1/1000)) * x) ∘ fun ω => ξ j ω a n := rfl
      have hm2 : AEMeasurable (fun ω => ξ j ω a n) gaussTape := by
        refine AEMeasurable.of_map_ne_zero ?_
        rw [e]; exact IsProbabilityMeasure.ne_zero _
      rw [e2, ← AEMeasurable.map_map_of_aemeasurable (by fun_prop) hm2, e, gaussianReal_map_const_mul, mul_zero, mul_one]
      congr 1
      rw [← Real.toNNReal_of_nonneg, mul_pow, Real.sq_sqrt (by norm_num)]
      congr 1; ring
    have h2 : (fun ω => Z j ω a n) ⟂ᵢ[gaussTape] fun ω => g * Real.sqrt (1/1000) * ξ j ω a n :=
      (hi j).comp (φ := fun w : Fin (j+1) → Fin d → Fin N → ℝ => w (Fin.last j) a n)
        (ψ := fun x : Fin d → Fin N → ℝ => g * Real.sqrt (1/1000) * x a n) (by fun_prop) (by fun_prop)
    have h3 := gaussianReal_add_gaussianReal_of_indepFun h2 ih h1
    have e : (fun ω => Z (j+1) ω a n) = (fun ω => Z j ω a n) + fun ω => g * Real.sqrt (1/1000) * ξ j ω a n := by
      funext ω
      rw [hs]
      simp only [noisy, hf, Pi.add_apply]
      ring
    rw [e, h3]
    congr 1
    · ring
    · push_cast; ring

theorem splice_lt {p i : ℕ} (h : i < p) (w ω : ℕ → ℝ) : splice p w ω i = w i := if_pos h
theorem splice_ge {p i : ℕ} (h : p ≤ i) (w ω : ℕ → ℝ) : splice p w ω i = ω i := if_neg (by omega)

end Law
end DPFC
