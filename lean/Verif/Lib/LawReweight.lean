import Verif.Lib.LawSym
import Verif.Lib.SymReweight
import Verif.Spec.LawReweight

/-! Lemmas for C73 with reweighting. -/

namespace DPFC.Law
open Spec MeasureTheory
variable {ρ ρ' : Type} {d N M : ℕ} (S : Symmetry d N M)

theorem seen_of {R : ρ → ρ' → Prop} {x : Except PyErr (Obj d N M ℝ × ρ)} {x' : Except PyErr (Obj d N M ℝ × ρ')}
    (h : S.SameOutcome R x x') : seen x' = S.seen (seen x) := by
  revert h
  cases x with
  | error e =>
    cases x' with
    | error e' => rintro (rfl : e = e'); rfl
    | ok p' => exact fun h => h.elim
  | ok p =>
    cases x' with
    | error e' => exact fun h => h.elim
    | ok p' =>
      rintro ⟨-, h1, h2, h3, -⟩
      show Except.ok (p'.1.Z, p'.1.B, p'.1.Ztr) = Except.ok _
      rw [h1, h2, h3]

theorem seen_inv (x : Seen d N) : S.seen ((inv S).seen x) = x := by
  cases x with
  | error e => rfl
  | ok p =>
    show Except.ok _ = _
    obtain ⟨a, b, t⟩ := p
    simp only [map_map_inv]
    cases t with
    | none => rfl
    | some T => simp [map_map_inv S T, -List.map_map]

theorem inv_posesAll {c c' : Cfg d N M ℝ} (h : S.PosesAll c c') : (inv S).PosesAll c' c := by
  have hp : ∀ p, (inv S).point (S.point p) = p := fun p => by
    funext a
    simp only [Symmetry.point, inv, Equiv.apply_symm_apply, ← mul_assoc, Sym.mulself, one_mul]
  have hdr : ∀ f f' : Drift d N ℝ, (∀ x t, f'.call2 (S.cloud x) t = S.cloud (f.call2 x t)) →
      ∀ x t, f.call2 ((inv S).cloud x) t = (inv S).cloud (f'.call2 x t) := fun f f' h x t => by
    have := h ((inv S).cloud x) t
    rw [cloud_inv] at this
    rw [this, inv_cloud]
  refine ⟨?_, hdr _ _ h.drift, ?_, ?_⟩
  · rw [h.same]; simp only [hp]
  · have := h.cost
    revert this
    rcases c.U with _ | U <;> rcases c'.U with _ | U' <;> intro h
    · trivial
    · exact h.elim
    · exact h.elim
    · intro x t k
      have := h ((inv S).cloud x) t (S.part.symm k)
      rw [cloud_inv, Equiv.apply_symm_apply] at this
      exact this.symm
  · have := h.trueDrift
    revert this
    rcases c.fTrue with _ | U <;> rcases c'.fTrue with _ | U' <;> intro h
    · trivial
    · exact h.elim
    · exact h.elim
    · exact hdr _ _ h

theorem inv_impartial {emd : Solver} (h : S.Impartial emd) : (inv S).Impartial emd := by
  intro w b D
  have := h (fun i => w (S.part.symm i)) (fun i => b (S.part.symm i)) (fun i j => D (S.part.symm i) (S.part.symm j))
  simp only [Equiv.symm_apply_apply] at this
  change emd w b D = _ at this
  change emd (fun i => w (S.part.symm i)) (fun i => b (S.part.symm i)) (fun i j => D (S.part.symm i) (S.part.symm j))
    = (emd w b D).map _
  rw [this]
  simp only [inv]
  cases emd (fun i => w (S.part.symm i)) (fun i => b (S.part.symm i)) (fun i j => D (S.part.symm i) (S.part.symm j)) with
  | error e => rfl
  | ok T =>
    show Except.ok T = Except.ok _
    simp only [Equiv.apply_symm_apply]

end DPFC.Law
