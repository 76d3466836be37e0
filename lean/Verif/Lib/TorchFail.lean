import Verif.Lib.Steps
import Verif.Lib.RecReal2
import Verif.Lib.Transport
import Verif.Lib.Examples

/-! Which torch constructions fail: lemmas for C45 - C47. -/

set_option linter.unusedSectionVars false

namespace DPFC
open Spec

section
variable {K ρ : Type} [Add K] [Sub K] [Mul K] [Div K] [Neg K] [NumOps K]
variable {N M d : Nat}

theorem seqM_except_get {α : Type} : ∀ {n : Nat} {f : Fin n → Except PyErr α} {v : Fin n → α},
    seqM n f = .ok v → ∀ i, f i = .ok (v i)
  | 0, _, _, _, i => i.elim0
  | n+1, f, v, h, i => by
    unfold seqM at h
    obtain ⟨a, h1, h2⟩ := Except.bind_ok.1 h
    obtain ⟨w, h3, h4⟩ := Except.bind_ok.1 h2
    have h4 : Fin.cons a w = v := by cases h4; rfl
    subst h4
    refine Fin.cases ?_ (fun j => ?_) i
    · simpa using h1
    · simpa using seqM_except_get h3 j

theorem torchMin_ok_pos {v : Fin N → K} {w : K} (h : torchMin v = .ok w) : 0 < N := by
  cases N with
  | zero => cases h
  | succ n => omega

theorem torchBox_ok_pos {x : Mat d N K} {b} (h : torchBox x = .ok b) (a : Fin d) : 0 < N := by
  have := seqM_except_get h a
  obtain ⟨_, h1, _⟩ := Except.bind_ok.1 this
  exact torchMin_ok_pos h1

theorem densityBox_ok_pos {z b : Mat d N K} {w} (h : densityBox z b = .ok w) (a : Fin d) :
    0 < N := by
  have := seqM_except_get h a
  obtain ⟨_, h1, _⟩ := Except.bind_ok.1 this
  exact torchMin_ok_pos h1

end

section
variable {ρ : Type} {N M d : Nat}

theorem spread_of_lo_lt_hi (hN : 0 < N) {v : Fin N → ℝ} (h : lo v < hi v) :
    ∃ n n', v n < v n' := by
  by_contra hc
  push Not at hc
  haveI : Nonempty (Fin N) := ⟨⟨0, hN⟩⟩
  have h1 : hi v ≤ v ⟨0, hN⟩ := ciSup_le fun i => hc _ _
  have h2 : v ⟨0, hN⟩ ≤ lo v := le_ciInf fun i => hc _ _
  linarith

theorem torchInducing_ok_lt {env : Env ρ ℝ} {bnds : Fin d → ℝ × ℝ} {r r' : ρ} {S : Mat M d ℝ}
    (h : torchInducing env bnds M r = .ok (S, r')) (a : Fin d) : (bnds a).1 < (bnds a).2 := by
  by_contra hc
  rw [torchInducing_err env bnds r a hc] at h
  cases h

theorem torchFSeperate_ok_spread {env : Env ρ ℝ} {g : ℝ} {f : Drift d N ℝ} {x v : Mat d N ℝ} {t : ℝ}
    {r r' : ρ} (h : torchFSeperate env M g f x t r = .ok (v, r')) (a : Fin d) :
    ∃ n n', x a n < x a n' := by
  unfold torchFSeperate at h
  obtain ⟨bn, r1, h1, h2⟩ := RandM.bind_ok.1 h
  replace h1 := RandM.lift_ok.1 h1
  obtain ⟨h1, rfl⟩ := h1
  obtain ⟨S, r2, h3, _⟩ := RandM.bind_ok.1 h2
  have hN := torchBox_ok_pos h1 a
  rw [torchBox_real hN] at h1
  cases h1
  exact spread_of_lo_lt_hi hN (torchInducing_ok_lt h3 a)

theorem torchDensityAt_ok_spread {env : Env ρ ℝ} {kern : String} {z b v : Mat d N ℝ}
    {r r' : ρ} (h : torchDensityAt env M kern z b r = .ok (v, r')) (a : Fin d)
    (hb : ∀ n n', b a n = b a n') : ∃ n n', z a n < z a n' := by
  unfold torchDensityAt at h
  obtain ⟨bn, r1, h1, h2⟩ := RandM.bind_ok.1 h
  replace h1 := RandM.lift_ok.1 h1
  obtain ⟨h1, rfl⟩ := h1
  obtain ⟨S, r2, h3, _⟩ := RandM.bind_ok.1 h2
  have hN := densityBox_ok_pos h1 a
  rw [densityBox_real hN] at h1
  cases h1
  have h4 := torchInducing_ok_lt h3 a
  have he : lo (b a) = hi (b a) := by
    have hc : b a = fun _ => b a ⟨0, hN⟩ := funext fun n => hb _ _
    haveI : Nonempty (Fin N) := ⟨⟨0, hN⟩⟩
    rw [hc]; simp [lo, hi]
  simp only [if_pos he] at h4
  exact spread_of_lo_lt_hi hN h4

end

section
variable {ρ : Type} {N M d : Nat}

/-- In deterministic mode every forward slice after the first of a torch object has spread. -/
theorem torch_slices_spread {env : Env ρ ℝ} {c : Cfg d N M ℝ} (hdet : c.deterministic = true)
    {r r' : ρ} {o : Obj d N M ℝ} (h : torchConstruct env c r = .ok (o, r'))
    (hk : 3 ≤ o.timegrid.length) (i : ℕ) (hi : 1 ≤ i) (x : Mat d N ℝ) (hx : o.Z[i]? = some x)
    (a : Fin d) : ∃ n n', x a n < x a n' := by
  obtain ⟨_, hg, _⟩ := torchConstruct_fields h
  have hlen := torchConstruct_back_steps h (by omega)
  have hiL : i < o.timegrid.length := by
    rw [← hlen.1]
    by_contra hc
    rw [List.getElem?_eq_none (by omega)] at hx
    cases hx
  by_cases hlast : i + 1 = o.timegrid.length
  · -- last slice: the first backward density estimate
    obtain ⟨_, _, hB, rs, _, hs⟩ := hlen
    obtain ⟨z, tj, b, y, hz, _, hb, _, hst⟩ := hs (o.timegrid.length - 2) (by omega) (by omega)
    rw [show o.timegrid.length - 2 + 1 = o.timegrid.length - 1 by omega] at hz hb
    rw [hB] at hb
    rw [show o.timegrid.length - 1 = i by omega, hx] at hz
    cases hz; cases hb
    simp only [torchBack, backStep] at hst
    obtain ⟨gr, r1, h3, _⟩ := RandM.bind_ok.1 hst
    exact torchDensityAt_ok_spread h3 a (fun _ _ => rfl)
  · obtain ⟨ys, r1, zt, r2, bs, h1, _, _, ho⟩ :=
      (torchConstruct_det_iff env c hdet _ hg (by omega) r r' o).1 h
    obtain ⟨hl, rs, _, _, hs⟩ := chain_ok_iff.1 h1
    have hZ : o.Z = pt N c.y1 :: ys := by rw [ho]
    obtain ⟨t, ht⟩ := get_of_lt (l := o.timegrid.tail) (i := i) (by simp; omega)
    obtain ⟨y, hy⟩ := get_of_lt (l := pt N c.y1 :: ys) (i := i+1) (by simp at hl ⊢; omega)
    have hst := hs i t x y ht (hZ ▸ hx) hy
    unfold torchOttoSlice at hst
    rw [if_neg (by omega)] at hst
    obtain ⟨raw, r3, h3, _⟩ := RandM.bind_ok.1 hst
    unfold torchOttoStep at h3
    obtain ⟨v, r4, h4, _⟩ := RandM.bind_ok.1 h3
    exact torchFSeperate_ok_spread h4 a

/-- In any mode the last forward slice of a torch object has spread. -/
theorem torch_last_spread {env : Env ρ ℝ} {c : Cfg d N M ℝ}
    {r r' : ρ} {o : Obj d N M ℝ} (h : torchConstruct env c r = .ok (o, r'))
    (hk : 3 ≤ o.timegrid.length) (a : Fin d) :
    ∃ x, o.Z[o.timegrid.length - 1]? = some x ∧ ∃ n n', x a n < x a n' := by
  obtain ⟨_, _, hB, rs, _, hs⟩ := torchConstruct_back_steps h (by omega)
  obtain ⟨z, tj, b, y, hz, _, hb, _, hst⟩ := hs (o.timegrid.length - 2) (by omega) (by omega)
  rw [show o.timegrid.length - 2 + 1 = o.timegrid.length - 1 by omega] at hz hb
  rw [hB] at hb
  cases hb
  simp only [torchBack, backStep] at hst
  obtain ⟨gr, r1, h3, _⟩ := RandM.bind_ok.1 hst
  exact ⟨z, hz, torchDensityAt_ok_spread h3 a (fun _ _ => rfl)⟩

/-- The first forward slice of a deterministic torch object. -/
theorem torch_first_slice {env : Env ρ ℝ} {c : Cfg d N M ℝ} (hdet : c.deterministic = true)
    {r r' : ρ} {o : Obj d N M ℝ} (h : torchConstruct env c r = .ok (o, r'))
    (hk : 2 ≤ o.timegrid.length) :
    ∃ x t0, o.Z[1]? = some x ∧ o.timegrid[0]? = some t0 ∧
      (c.reweight = false → x = noisy c.f c.g (pt N c.y1) t0 (normals env d N r)) ∧
      (c.reweight = true → ∃ U, c.U = some U ∧
        torchReweight env (noisy c.f c.g (pt N c.y1) t0 (normals env d N r))
          (fun n => NumOps.exp (U.call2 (noisy c.f c.g (pt N c.y1) t0 (normals env d N r))
            (t0 + 1/1000) n * (dtc : ℝ))) = .ok x) := by
  obtain ⟨_, hg, hg'⟩ := torchConstruct_fields h
  rw [torchPoints_real] at hg'
  obtain ⟨ys, r1, zt, r2, bs, h1, _, _, ho⟩ :=
    (torchConstruct_det_iff env c hdet _ hg (by omega) r r' o).1 h
  obtain ⟨hl, rs, h0, _, hs⟩ := chain_ok_iff.1 h1
  obtain ⟨t0, t1, ts, ht⟩ : ∃ t0 t1 ts, o.timegrid = t0 :: t1 :: ts := by
    rcases hh : o.timegrid with _ | ⟨a, _ | ⟨b, l⟩⟩
    · rw [hh] at hk; simp at hk
    · rw [hh] at hk; simp at hk
    · exact ⟨a, b, l, rfl⟩
  have htt : t1 = t0 + 1/1000 := by
    have e0 := (mkGrid_getElem_real c.t1 c.t2 0 t0).1 (by rw [← hg', ht]; rfl)
    have e1 := (mkGrid_getElem_real c.t1 c.t2 1 t1).1 (by rw [← hg', ht]; rfl)
    rw [e0.1, e1.1]; norm_num
  rw [ht] at hs hl
  rcases ys with _ | ⟨x, ys⟩
  · simp at hl
  have hst := hs 0 t1 (pt N c.y1) x rfl rfl rfl
  rw [h0] at hst
  unfold torchOttoSlice at hst
  obtain ⟨raw, r3, h3, h4⟩ := RandM.bind_ok.1 hst
  rw [noisyStep_real] at h3
  have hraw : raw = noisy c.f c.g (pt N c.y1) t0 (normals env d N r) := by
    have h3 := congrArg Prod.fst (Except.ok.inj h3)
    change _ = raw at h3
    rw [← h3, htt, dtc_real, add_sub_cancel_right]
    rfl
  refine ⟨x, t0, by rw [ho]; rfl, by rw [ht]; rfl, ?_, ?_⟩
  · intro hr
    rw [hr] at h4
    rw [← hraw]; exact (RandM.pure_ok.1 h4).1.symm
  · intro hr
    simp only [hr, if_true] at h4
    obtain ⟨h5, _⟩ := RandM.lift_ok.1 h4
    unfold torchOttoRw at h5
    cases hU : c.U with
    | none => rw [hU] at h5; cases h5
    | some U =>
      rw [hU] at h5
      refine ⟨U, rfl, ?_⟩
      rw [← hraw, ← htt]; exact h5

end
end DPFC
