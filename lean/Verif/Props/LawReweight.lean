import Verif.Lib.LawReweight
import Verif.Props.LawSym
import Verif.Props.SymReweight

/-!
# C73 with reweighting

The symmetries in law persist when a path constraint reweights the particles, provided the transport solver does not
look at the numbering of the particles.
-/

namespace DPFC
open Spec MeasureTheory ProbabilityTheory

section
variable {N M d : ℕ}

/-- **C73** (numpy, with reweighting). Deterministic mode, with or without path constraint and bridge. With independent
standard normals and uniforms, what the user sees of the problem in the new coordinates (exception or flows) has the law of
what he sees of the original problem, transformed. (In exact arithmetic.) -/
theorem C73_numpy_reweighted_law (S : Symmetry d N M) (emd : Solver) (he : S.Impartial emd) (c c' : Cfg d N M ℝ)
    (hc : S.PosesAll c c') (hN : 0 < N) (hd : 0 < d) (hM : 0 < M) (hdet : c.deterministic = true) (hk : KnownKernel c.kern)
    (h2 : 2 ≤ (mkGrid c.t1 c.t2).length) (s : ℕ × ℕ) (A : Set (Seen d N)) :
    tapes {p | seen (construct (tapeEnv p.1 p.2 emd) c' s) ∈ A}
      = tapes {p | S.seen (seen (construct (tapeEnv p.1 p.2 emd) c s)) ∈ A} := by
  have le : ∀ (S : Symmetry d N M) (c c' : Cfg d N M ℝ), S.Impartial emd → S.PosesAll c c' → c.deterministic = true →
      KnownKernel c.kern → 2 ≤ (mkGrid c.t1 c.t2).length → ∀ A : Set (Seen d N),
      tapes {p | S.seen (seen (construct (tapeEnv p.1 p.2 emd) c s)) ∈ A}
        ≤ tapes {p | seen (construct (tapeEnv p.1 p.2 emd) c' s) ∈ A} := by
    intro S c c' he hc hdet hk h2 A
    have hp := Law.tapes_preserve S (Nat.mul_pos hd hN) (Nat.mul_pos hd hM) s
    refine le_trans (measure_mono ?_) (hp.measure_preimage_le _)
    rintro ⟨ω, υ⟩ h
    have := Law.seen_of S (C70_numpy_reweighted S _ _ _ (Law.coupled S (Nat.mul_pos hd hN) (Nat.mul_pos hd hM) s ω υ emd) he
      c c' hc hN hdet hk h2 s s ⟨rfl, 0, 0, by simp⟩)
    exact (congrArg (· ∈ A) this).mpr h
  refine le_antisymm ?_ (le S c c' he hc hdet hk h2 A)
  have e := hc.same
  have := le (Law.inv S) c' c (Law.inv_impartial S he) (Law.inv_posesAll S hc) (by rw [e]; exact hdet) (by rw [e]; exact hk)
    (by rw [e]; exact h2) {q | S.seen q ∈ A}
  simpa only [Set.mem_ofPred_eq, Law.seen_inv] using this

/-- **C73** (torch, with reweighting). The same for the torch class outside the bridge mode. -/
theorem C73_torch_reweighted_law (S : Symmetry d N M) (emd : Solver) (he : S.Impartial emd) (c c' : Cfg d N M ℝ)
    (hc : S.PosesAll c c') (hN : 0 < N) (hd : 2 ≤ d) (hM : 0 < M) (hdet : c.deterministic = true) (hk : KnownKernel c.kern)
    (hb : c.reweight = false ∨ c.brownBridge = false)
    (t : List ℝ) (ht : torchGrid c.t1 c.t2 = .ok t) (h2 : 2 ≤ t.length) (s : ℕ × ℕ) (A : Set (Seen d N)) :
    tapes {p | seen (torchConstruct (tapeEnv p.1 p.2 emd) c' s) ∈ A}
      = tapes {p | S.seen (seen (torchConstruct (tapeEnv p.1 p.2 emd) c s)) ∈ A} := by
  have hd0 : 0 < d := by omega
  have le : ∀ (S : Symmetry d N M) (c c' : Cfg d N M ℝ), S.Impartial emd → S.PosesAll c c' → c.deterministic = true →
      KnownKernel c.kern → (c.reweight = false ∨ c.brownBridge = false) → torchGrid c.t1 c.t2 = .ok t →
      ∀ A : Set (Seen d N),
      tapes {p | S.seen (seen (torchConstruct (tapeEnv p.1 p.2 emd) c s)) ∈ A}
        ≤ tapes {p | seen (torchConstruct (tapeEnv p.1 p.2 emd) c' s) ∈ A} := by
    intro S c c' he hc hdet hk hb ht A
    have hp := Law.ttapes_preserve S (Nat.mul_pos hd0 hN) (Nat.mul_pos hM hd0) s
    refine le_trans (measure_mono ?_) (hp.measure_preimage_le _)
    rintro ⟨ω, υ⟩ h
    have := Law.seen_of S (C70_torch_reweighted S _ _ _ (Law.tcoupled S (Nat.mul_pos hd0 hN) (Nat.mul_pos hM hd0) s ω υ emd) he
      c c' hc hN hd hdet hk hb t ht h2 s s ⟨rfl, 0, 0, by simp⟩)
    exact (congrArg (· ∈ A) this).mpr h
  refine le_antisymm ?_ (le S c c' he hc hdet hk hb ht A)
  have e := hc.same
  have := le (Law.inv S) c' c (Law.inv_impartial S he) (Law.inv_posesAll S hc) (by rw [e]; exact hdet) (by rw [e]; exact hk)
    (by rw [e]; exact hb) (by rw [e]; exact ht) {q | S.seen q ∈ A}
  simpa only [Set.mem_ofPred_eq, Law.seen_inv] using this

/-- **C73** (exchangeable particles, with reweighting). If drift, path constraint and true drift act particle by particle
and the solver is impartial, renumbering the particles does not change the law of the outcome: what reweighting does to a
particle depends on where the particle is, not on its number. -/
theorem C73_reweighted_exchangeable (emd : Solver) (c : Cfg d N M ℝ) (φ : (Fin d → ℝ) → ℝ → Fin d → ℝ) (hf : ActsBy c.f φ)
    (hU : ∀ U ∈ c.U, ∃ V, ChargesBy U V) (hT : ∀ f ∈ c.fTrue, ∃ ψ, ActsBy f ψ) (hN : 0 < N)
    (hd : 0 < d) (hM : 0 < M) (hdet : c.deterministic = true) (hk : KnownKernel c.kern)
    (h2 : 2 ≤ (mkGrid c.t1 c.t2).length) (s : ℕ × ℕ) (τ : Equiv.Perm (Fin N)) (he : (renumber d M τ).Impartial emd)
    (A : Set (Seen d N)) :
    tapes {p | seen (construct (tapeEnv p.1 p.2 emd) c s) ∈ A}
      = tapes {p | (renumber d M τ).seen (seen (construct (tapeEnv p.1 p.2 emd) c s)) ∈ A} := by
  refine C73_numpy_reweighted_law (renumber d M τ) emd he c c ?_ hN hd hM hdet hk h2 s A
  have hp := renumber_poses hf τ
  have hcl : ∀ x, (renumber d M τ).cloud x = fun a n => x a (τ n) := fun x => by rw [renumber_cloud]
  refine ⟨hp.same, hp.drift, ?_, ?_⟩
  · cases hc : c.U with
    | none => trivial
    | some U =>
      obtain ⟨V, hV⟩ := hU U hc
      intro x t k
      rw [hV, hV, hcl]
      rfl
  · cases hc : c.fTrue with
    | none => trivial
    | some f =>
      obtain ⟨ψ, hψ⟩ := hT f hc
      intro x t
      rw [hcl, hcl]
      funext a k
      rw [hψ, hψ]
      rfl

end

/-- The example solver is impartial, the reweighted bridge example acts particle by particle; interchanging two of four
particles does not change the law of its outcome. -/
example (A : Set (Seen 3 4)) :
    tapes {p | seen (construct (tapeEnv p.1 p.2 exSolver) (exCfg 3 4 5 20 true true true) (0, 0)) ∈ A}
      = tapes {p | (renumber 3 5 (Equiv.swap 0 1)).seen
          (seen (construct (tapeEnv p.1 p.2 exSolver) (exCfg 3 4 5 20 true true true) (0, 0))) ∈ A} :=
  C73_reweighted_exchangeable exSolver _ (fun p t a => p a + t) (fun _ _ _ _ => rfl)
    (by rintro U hU; cases hU; exact ⟨fun p t => t + ∑ a, p a, fun _ _ _ => rfl⟩) (by rintro U hU; cases hU; exact ⟨fun p _ a => -p a, fun _ _ _ _ => rfl⟩)
    (by norm_num) (by norm_num) (by norm_num) rfl (.inl rfl) (by rw [exCfg_grid]; norm_num) (0, 0) _
    (fun w b D => by
      show Except.ok _ = Except.ok _
      simp) A

/-- The reweighted example posed in the coordinates of `exSym` has the transformed law, in both classes. -/
example : ∃ c' c'', exSym.PosesAll (exCfg 3 4 5 20 true true true) c' ∧ exSym.PosesAll (exCfg 3 4 5 20 true true false) c'' ∧
    (∀ A : Set (Seen 3 4), tapes {p | seen (construct (tapeEnv p.1 p.2 exSolver) c' (0, 0)) ∈ A}
      = tapes {p | exSym.seen (seen (construct (tapeEnv p.1 p.2 exSolver) (exCfg 3 4 5 20 true true true) (0, 0))) ∈ A}) ∧
    (∀ A : Set (Seen 3 4), tapes {p | seen (torchConstruct (tapeEnv p.1 p.2 exSolver) c'' (0, 0)) ∈ A}
      = tapes {p | exSym.seen (seen (torchConstruct (tapeEnv p.1 p.2 exSolver) (exCfg 3 4 5 20 true true false) (0, 0))) ∈ A})
    := by
  obtain ⟨c', hc⟩ := C70_posable_all exSym (exCfg 3 4 5 20 true true true)
  obtain ⟨c'', hc'⟩ := C70_posable_all exSym (exCfg 3 4 5 20 true true false)
  have he : exSym.Impartial exSolver := fun w b D => by
    show Except.ok _ = Except.ok _
    simp
  exact ⟨c', c'', hc, hc', C73_numpy_reweighted_law exSym exSolver he _ c' hc (by norm_num) (by norm_num) (by norm_num) rfl
    (.inl rfl) (by rw [exCfg_grid]; norm_num) (0, 0), C73_torch_reweighted_law exSym exSolver he _ c'' hc' (by norm_num)
    (by norm_num) (by norm_num) rfl (.inl rfl) (.inr rfl) _ (exCfg_torchGrid 3 4 5 20 true true false)
    (by rw [exCfg_grid]; norm_num) (0, 0)⟩

end DPFC
