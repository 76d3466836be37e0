import Verif.Lib.Law
import Verif.Props.Symmetry

/-!
# Symmetries acting on random tapes
-/

namespace DPFC
open Spec MeasureTheory ProbabilityTheory

namespace Law
variable {d N M : ℕ}

instance : IsProbabilityMeasure (volume.restrict (Set.Icc (0:ℝ) 1)) := ⟨by simp⟩
instance : IsProbabilityMeasure unifTape := by unfold unifTape; infer_instance
instance : IsProbabilityMeasure tapes := by unfold tapes; infer_instance

/-! ### Rearranging a tape block by block -/

section
variable {m q : ℕ}

/-- Row and column in a block of `m` rows and `q` columns. -/
def rowOf (hq : 0 < m * q) (p : ℕ) : Fin m := ⟨p % (m * q) / q, by
  have hm := Nat.mod_lt p hq
  rw [Nat.div_lt_iff_lt_mul (Nat.pos_of_ne_zero fun h => by rw [h] at hq; omega)]; exact hm⟩
@[inherit_doc rowOf] def colOf (hq : 0 < m * q) (p : ℕ) : Fin q := ⟨p % (m * q) % q,
  Nat.mod_lt _ (Nat.pos_of_ne_zero fun h => by rw [h] at hq; omega)⟩

theorem rowcol (hq : 0 < m * q) (j : ℕ) (a : Fin m) (k : Fin q) :
    (j * (m * q) + (a.val * q + k.val)) / (m * q) = j ∧ rowOf hq (j * (m * q) + (a.val * q + k.val)) = a ∧
    colOf hq (j * (m * q) + (a.val * q + k.val)) = k := by
  have hc := cell_lt a k
  have hk := k.2
  have hm : (j * (m * q) + (a.val * q + k.val)) % (m * q) = a.val * q + k.val := by
    rw [Nat.add_comm, Nat.add_mul_mod_self_right, Nat.mod_eq_of_lt hc]
  refine ⟨?_, Fin.ext ?_, Fin.ext ?_⟩
  · rw [Nat.add_comm, Nat.add_mul_div_right _ _ hq, Nat.div_eq_of_lt hc, zero_add]
  · show (j * (m * q) + (a.val * q + k.val)) % (m * q) / q = _
    rw [hm, Nat.add_comm, Nat.add_mul_div_right _ _ (by omega), Nat.div_eq_of_lt hk, zero_add]
  · show (j * (m * q) + (a.val * q + k.val)) % (m * q) % q = _
    rw [hm, Nat.add_comm, Nat.add_mul_mod_self_right, Nat.mod_eq_of_lt hk]

theorem cell_of (hq : 0 < m * q) (p : ℕ) : p = p / (m * q) * (m * q) + ((rowOf hq p).val * q + (colOf hq p).val) := by
  show p = p / (m * q) * (m * q) + (p % (m * q) / q * q + p % (m * q) % q)
  rw [Nat.div_add_mod' (p % (m * q)) q, Nat.div_add_mod' p (m * q)]

/-- Where position `p` of the rearranged tape comes from; the blocks start at `i0`. -/
def src (hq : 0 < m * q) (i0 : ℕ) (σ : Equiv.Perm (Fin m)) (τ : Equiv.Perm (Fin q)) (p : ℕ) : ℕ :=
  if p < i0 then p else i0 + ((p - i0) / (m * q) * (m * q) + ((σ (rowOf hq (p - i0))).val * q + (τ (colOf hq (p - i0))).val))

theorem src_cell (hq : 0 < m * q) (i0 : ℕ) (σ : Equiv.Perm (Fin m)) (τ : Equiv.Perm (Fin q)) (j : ℕ) (a : Fin m) (k : Fin q) :
    src hq i0 σ τ (i0 + (j * (m * q) + (a.val * q + k.val))) = i0 + (j * (m * q) + ((σ a).val * q + (τ k).val)) := by
  obtain ⟨h1, h2, h3⟩ := rowcol hq j a k
  unfold src
  rw [if_neg (by omega), Nat.add_sub_cancel_left, h1, h2, h3]

theorem src_inj (hq : 0 < m * q) (i0 : ℕ) (σ : Equiv.Perm (Fin m)) (τ : Equiv.Perm (Fin q)) :
    Function.Injective (src hq i0 σ τ) := by
  have hleft : ∀ p, src hq i0 σ.symm τ.symm (src hq i0 σ τ p) = p := fun p => by
    by_cases hp : p < i0
    · have : src hq i0 σ τ p = p := if_pos hp
      rw [this]; exact if_pos hp
    · have e : p = i0 + ((p - i0) / (m * q) * (m * q) + ((rowOf hq (p - i0)).val * q + (colOf hq (p - i0)).val)) := by
        rw [← cell_of hq]; omega
      rw [e, src_cell, src_cell, Equiv.symm_apply_apply, Equiv.symm_apply_apply]
  exact Function.LeftInverse.injective hleft

/-- The rearranged tape: the entry in row `a` and column `k` of a block is `φ a k` of the entry in row `σ a` and column
`τ k`. -/
noncomputable def rearr (hq : 0 < m * q) (i0 : ℕ) (σ : Equiv.Perm (Fin m)) (τ : Equiv.Perm (Fin q)) (φ : Fin m → Fin q → ℝ → ℝ)
    (ω : ℕ → ℝ) : ℕ → ℝ := fun p =>
  (if p < i0 then id else φ (rowOf hq (p - i0)) (colOf hq (p - i0))) (ω (src hq i0 σ τ p))

theorem rearr_cell (hq : 0 < m * q) (i0 : ℕ) (σ : Equiv.Perm (Fin m)) (τ : Equiv.Perm (Fin q)) (φ : Fin m → Fin q → ℝ → ℝ)
    (ω : ℕ → ℝ) (j : ℕ) (a : Fin m) (k : Fin q) : rearr hq i0 σ τ φ ω (i0 + (j * (m * q) + (a.val * q + k.val)))
      = φ a k (ω (i0 + (j * (m * q) + ((σ a).val * q + (τ k).val)))) := by
  obtain ⟨h1, h2, h3⟩ := rowcol hq j a k
  unfold rearr
  rw [src_cell, if_neg (by omega), Nat.add_sub_cancel_left, h2, h3]

theorem rearr_preserves (hq : 0 < m * q) (i0 : ℕ) (σ : Equiv.Perm (Fin m)) (τ : Equiv.Perm (Fin q))
    {φ : Fin m → Fin q → ℝ → ℝ} {P : Measure ℝ} [IsProbabilityMeasure P] (hφ : ∀ a k, MeasurePreserving (φ a k) P P) :
    MeasurePreserving (rearr hq i0 σ τ φ) (Measure.infinitePi fun _ => P) (Measure.infinitePi fun _ => P) := by
  have hψ : ∀ p, MeasurePreserving (if p < i0 then id else φ (rowOf hq (p - i0)) (colOf hq (p - i0))) P P := fun p => by
    split
    · exact MeasurePreserving.id _
    · exact hφ _ _
  refine ⟨measurable_pi_iff.2 fun p => (hψ p).measurable.comp (measurable_pi_apply _), ?_⟩
  have e : rearr hq i0 σ τ φ = (fun (x : ℕ → ℝ) p => (if p < i0 then id else φ (rowOf hq (p - i0)) (colOf hq (p - i0))) (x p)) ∘
      fun ω p => ω (src hq i0 σ τ p) := rfl
  have hm : Measurable fun (x : ℕ → ℝ) p => (if p < i0 then id else φ (rowOf hq (p - i0)) (colOf hq (p - i0))) (x p) :=
    measurable_pi_iff.2 fun p => (hψ p).measurable.comp (measurable_pi_apply _)
  rw [e, ← Measure.map_map hm (by fun_prop),
    Measure.map_infinitePi_infinitePi_of_inj (P := fun _ : ℕ => P) (src_inj hq i0 σ τ),
    Measure.infinitePi_map_pi _ fun p => (hψ p).measurable]
  congr 1
  funext p
  exact (hψ p).map_eq

end

/-! ### Symmetries -/

variable (S : Symmetry d N M)

/-- The tapes seen in the new coordinates. -/
noncomputable def tapeN (hN : 0 < d * N) (i0 : ℕ) : (ℕ → ℝ) → ℕ → ℝ := rearr hN i0 S.coord S.part fun a _ x => S.sign a * x
@[inherit_doc tapeN] noncomputable def tapeU (hM : 0 < d * M) (i0 : ℕ) : (ℕ → ℝ) → ℕ → ℝ :=
  rearr hM i0 S.coord S.ind fun a _ => S.flip a
@[inherit_doc tapeN] noncomputable def tapeT (hM : 0 < M * d) (i0 : ℕ) : (ℕ → ℝ) → ℕ → ℝ :=
  rearr hM i0 S.ind S.coord fun _ a => S.flip a

theorem sign_preserves (a : Fin d) : MeasurePreserving (fun x => S.sign a * x) (gaussianReal 0 1) (gaussianReal 0 1) := by
  refine ⟨by fun_prop, ?_⟩
  rw [gaussianReal_map_const_mul, mul_zero, mul_one]
  congr 1
  ext
  exact Sym.sq S a

theorem flip_preserves (a : Fin d) :
    MeasurePreserving (S.flip a) (volume.restrict (Set.Icc (0:ℝ) 1)) (volume.restrict (Set.Icc (0:ℝ) 1)) := by
  by_cases h : S.sign a = 1
  · have : S.flip a = id := by funext u; exact if_pos h
    rw [this]; exact MeasurePreserving.id _
  · have : S.flip a = fun u => 1 - u := by funext u; exact if_neg h
    rw [this]
    have h1 := (Measure.measurePreserving_sub_left (volume : Measure ℝ) 1).restrict_preimage (s := Set.Icc (0:ℝ) 1) measurableSet_Icc
    have h2 : (fun x : ℝ => 1 - x) ⁻¹' Set.Icc (0:ℝ) 1 = Set.Icc 0 1 := by
      ext x; simp only [Set.mem_preimage, Set.mem_Icc]; constructor <;> rintro ⟨h, h'⟩ <;> constructor <;> linarith
    rwa [h2] at h1

theorem tapes_preserve (hN : 0 < d * N) (hM : 0 < d * M) (s : ℕ × ℕ) :
    MeasurePreserving (Prod.map (tapeN S hN s.1) (tapeU S hM s.2)) tapes tapes :=
  (rearr_preserves hN s.1 _ _ fun a _ => sign_preserves S a).prod (rearr_preserves hM s.2 _ _ fun a _ => flip_preserves S a)

theorem ttapes_preserve (hN : 0 < d * N) (hM : 0 < M * d) (s : ℕ × ℕ) :
    MeasurePreserving (Prod.map (tapeN S hN s.1) (tapeT S hM s.2)) tapes tapes :=
  (rearr_preserves hN s.1 _ _ fun a _ => sign_preserves S a).prod (rearr_preserves hM s.2 _ _ fun _ a => flip_preserves S a)

/-- States reached from `s` by whole blocks. -/
def Aligned (D E : ℕ) (s r r' : ℕ × ℕ) : Prop := r' = r ∧ ∃ i j, r = (s.1 + i * D, s.2 + j * E)

theorem coupled (hN : 0 < d * N) (hM : 0 < d * M) (s : ℕ × ℕ) (ω υ : ℕ → ℝ) (emd : Solver) :
    S.Coupled (tapeEnv ω υ emd) (tapeEnv (tapeN S hN s.1 ω) (tapeU S hM s.2 υ) emd) (Aligned (d * N) (d * M) s) := by
  refine ⟨?_, ?_, ?_, ?_⟩
  · rintro _ _ ⟨rfl, i, j, rfl⟩
    rw [tape_normals, tape_normals]
    funext a n
    simp only [Symmetry.cloud]
    rw [Nat.add_assoc, Nat.add_assoc]
    exact rearr_cell hN s.1 _ _ _ ω i a n
  · rintro _ _ ⟨rfl, i, j, rfl⟩
    rw [tape_normalsNext, tape_normalsNext]
    exact ⟨rfl, i + 1, j, Prod.ext (by simp only; ring) rfl⟩
  · rintro _ _ ⟨rfl, i, j, rfl⟩ a m
    rw [tape_unifs, tape_unifs]
    simp only
    rw [Nat.add_assoc, Nat.add_assoc]
    exact rearr_cell hM s.2 _ _ _ υ j a m
  · rintro _ _ ⟨rfl, i, j, rfl⟩
    rw [tape_unifsNext, tape_unifsNext]
    exact ⟨rfl, i, j + 1, Prod.ext rfl (by simp only; ring)⟩

theorem tcoupled (hN : 0 < d * N) (hM : 0 < M * d) (s : ℕ × ℕ) (ω υ : ℕ → ℝ) (emd : Solver) :
    S.TorchCoupled (tapeEnv ω υ emd) (tapeEnv (tapeN S hN s.1 ω) (tapeT S hM s.2 υ) emd) (Aligned (d * N) (M * d) s) := by
  refine ⟨?_, ?_, ?_, ?_⟩
  · rintro _ _ ⟨rfl, i, j, rfl⟩
    rw [tape_normals, tape_normals]
    funext a n
    simp only [Symmetry.cloud]
    rw [Nat.add_assoc, Nat.add_assoc]
    exact rearr_cell hN s.1 _ _ _ ω i a n
  · rintro _ _ ⟨rfl, i, j, rfl⟩
    rw [tape_normalsNext, tape_normalsNext]
    exact ⟨rfl, i + 1, j, Prod.ext (by simp only; ring) rfl⟩
  · rintro _ _ ⟨rfl, i, j, rfl⟩ m a
    rw [tape_tunifs, tape_tunifs]
    simp only
    rw [Nat.add_assoc, Nat.add_assoc]
    exact rearr_cell hM s.2 _ _ _ υ j m a
  · rintro _ _ ⟨rfl, i, j, rfl⟩
    rw [tape_tunifsNext, tape_tunifsNext]
    exact ⟨rfl, i, j + 1, Prod.ext rfl (by simp only; ring)⟩

/-- The way back. -/
noncomputable def inv : Symmetry d N M where
  sign a := S.sign (S.coord.symm a)
  unit a := S.unit _
  coord := S.coord.symm
  part := S.part.symm
  ind := S.ind.symm

theorem inv_cloud (x : Fin d → Fin N → ℝ) : (inv S).cloud (S.cloud x) = x := by
  funext a k
  simp only [Symmetry.cloud, inv, Equiv.apply_symm_apply, ← mul_assoc, Sym.mulself, one_mul]

theorem cloud_inv (x : Fin d → Fin N → ℝ) : S.cloud ((inv S).cloud x) = x := by
  funext a k
  simp only [Symmetry.cloud, inv, Equiv.symm_apply_apply, ← mul_assoc, Sym.mulself, one_mul]

theorem inv_poses {c c' : Cfg d N M ℝ} (h : S.Poses c c') : (inv S).Poses c' c := by
  have hp : ∀ p, (inv S).point (S.point p) = p := fun p => by
    funext a
    simp only [Symmetry.point, inv, Equiv.apply_symm_apply, ← mul_assoc, Sym.mulself, one_mul]
  refine ⟨?_, fun x t => ?_⟩
  · rw [h.same]; simp only [hp]
  · have := h.drift ((inv S).cloud x) t
    rw [cloud_inv] at this
    rw [this, inv_cloud]

theorem map_map_inv (T : Traj d N ℝ) : (T.map (inv S).cloud).map S.cloud = T := by
  rw [List.map_map]
  have : S.cloud ∘ (inv S).cloud = id := funext (cloud_inv S)
  rw [this, List.map_id]

end Law
end DPFC
