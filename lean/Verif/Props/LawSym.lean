import Verif.Lib.LawSym
import Verif.Props.Displace

/-!
# C73: symmetries in law

With independent standard normals and uniforms, posing the problem in new coordinates (mirrored or exchanged axes,
renumbered particles) gives flows with the transformed law: the labels of the particles carry no information.
-/

namespace DPFC
open Spec MeasureTheory ProbabilityTheory

section
variable {N M d : ℕ}

/-- **C73** (numpy). Deterministic mode, no reweighting. Let `c'` be the problem `c` in new coordinates. For every set `A`
of pairs of flows, the runs of `c'` that keep their spread lie in `A` with the same probability as the transformed runs of
`c` that keep their spread. -/
theorem C73_numpy_law (S : Symmetry d N M) (emd : Solver) (c c' : Cfg d N M ℝ) (hc : S.Poses c c') (hN : 0 < N) (hd : 0 < d)
    (hM : 0 < M) (hdet : c.deterministic = true) (hw : c.reweight = false) (hk : KnownKernel c.kern)
    (h2 : 2 ≤ (mkGrid c.t1 c.t2).length) (s : ℕ × ℕ) (A : Set (Traj d N ℝ × Traj d N ℝ)) :
    tapes {p | ∃ o r, construct (tapeEnv p.1 p.2 emd) c' s = .ok (o, r) ∧ KeepsSpread o ∧ (o.Z, o.B) ∈ A}
      = tapes {p | ∃ o r, construct (tapeEnv p.1 p.2 emd) c s = .ok (o, r) ∧ KeepsSpread o ∧
          (o.Z.map S.cloud, o.B.map S.cloud) ∈ A} := by
  have le : ∀ (S : Symmetry d N M) (c c' : Cfg d N M ℝ), S.Poses c c' → c.deterministic = true → c.reweight = false →
      KnownKernel c.kern → 2 ≤ (mkGrid c.t1 c.t2).length → ∀ A : Set (Traj d N ℝ × Traj d N ℝ),
      tapes {p | ∃ o r, construct (tapeEnv p.1 p.2 emd) c s = .ok (o, r) ∧ KeepsSpread o ∧
          (o.Z.map S.cloud, o.B.map S.cloud) ∈ A}
        ≤ tapes {p | ∃ o r, construct (tapeEnv p.1 p.2 emd) c' s = .ok (o, r) ∧ KeepsSpread o ∧ (o.Z, o.B) ∈ A} := by
    intro S c c' hc hdet hw hk h2 A
    have hp := Law.tapes_preserve S (Nat.mul_pos hd hN) (Nat.mul_pos hd hM) s
    refine le_trans (measure_mono ?_) (hp.measure_preimage_le _)
    rintro ⟨ω, υ⟩ ⟨o, r, h, ⟨sZ, sB⟩, hA⟩
    obtain ⟨o', r', h', -, ht, hZ, hB⟩ := C70_numpy_symmetry S _ _ _ (Law.coupled S (Nat.mul_pos hd hN) (Nat.mul_pos hd hM) s
      ω υ emd) c c' hc hN hd hdet hw hk s r s ⟨rfl, 0, 0, by simp⟩ o h (by rw [(construct_fields h).2]; exact h2) sZ sB
    refine ⟨o', r', h', ⟨fun j x hj hx => ?_, fun j x h1 hj hx => ?_⟩, by rw [hZ, hB]; exact hA⟩
    · rw [hZ, List.getElem?_map] at hx
      obtain ⟨y, hy, rfl⟩ := Option.map_eq_some_iff.1 hx
      exact Sym.spread S (sZ j y hj hy)
    · rw [hB, List.getElem?_map] at hx
      obtain ⟨y, hy, rfl⟩ := Option.map_eq_some_iff.1 hx
      exact Sym.spread S (sB j y h1 (by rw [← ht]; exact hj) hy)
  refine le_antisymm ?_ (le S c c' hc hdet hw hk h2 A)
  have e := hc.same
  have := le (Law.inv S) c' c (Law.inv_poses S hc) (by rw [e]; exact hdet) (by rw [e]; exact hw) (by rw [e]; exact hk)
    (by rw [e]; exact h2) {q | (q.1.map S.cloud, q.2.map S.cloud) ∈ A}
  simpa only [Set.mem_setOf_eq, Law.map_map_inv] using this

/-- **C73** (torch). The same for the torch class; the runs may also raise. -/
theorem C73_torch_law (S : Symmetry d N M) (emd : Solver) (c c' : Cfg d N M ℝ) (hc : S.Poses c c') (hN : 0 < N) (hd : 2 ≤ d)
    (hM : 0 < M) (hdet : c.deterministic = true) (hw : c.reweight = false) (hk : KnownKernel c.kern)
    (t : List ℝ) (ht : torchGrid c.t1 c.t2 = .ok t) (h3 : 3 ≤ t.length) (s : ℕ × ℕ) (A : Set (Traj d N ℝ × Traj d N ℝ)) :
    tapes {p | ∃ o r, torchConstruct (tapeEnv p.1 p.2 emd) c' s = .ok (o, r) ∧ KeepsSpread o ∧ (o.Z, o.B) ∈ A}
      = tapes {p | ∃ o r, torchConstruct (tapeEnv p.1 p.2 emd) c s = .ok (o, r) ∧ KeepsSpread o ∧
          (o.Z.map S.cloud, o.B.map S.cloud) ∈ A} := by
  have hd0 : 0 < d := by omega
  have le : ∀ (S : Symmetry d N M) (c c' : Cfg d N M ℝ), S.Poses c c' → c.deterministic = true → c.reweight = false →
      KnownKernel c.kern → torchGrid c.t1 c.t2 = .ok t → ∀ A : Set (Traj d N ℝ × Traj d N ℝ),
      tapes {p | ∃ o r, torchConstruct (tapeEnv p.1 p.2 emd) c s = .ok (o, r) ∧ KeepsSpread o ∧
          (o.Z.map S.cloud, o.B.map S.cloud) ∈ A}
        ≤ tapes {p | ∃ o r, torchConstruct (tapeEnv p.1 p.2 emd) c' s = .ok (o, r) ∧ KeepsSpread o ∧ (o.Z, o.B) ∈ A} := by
    intro S c c' hc hdet hw hk hg A
    have hp := Law.ttapes_preserve S (Nat.mul_pos hd0 hN) (Nat.mul_pos hM hd0) s
    refine le_trans (measure_mono ?_) (hp.measure_preimage_le _)
    rintro ⟨ω, υ⟩ ⟨o, r, h, ⟨sZ, sB⟩, hA⟩
    have hto : o.timegrid = t := by
      have := (torchConstruct_fields h).2.1
      rw [hg] at this; exact (Except.ok.inj this).symm
    obtain ⟨o', r', h', -, ht, hZ, hB⟩ := C70_torch_symmetry S _ _ _ (Law.tcoupled S (Nat.mul_pos hd0 hN) (Nat.mul_pos hM hd0) s
      ω υ emd) c c' hc hN hd hdet hw hk s r s ⟨rfl, 0, 0, by simp⟩ o h (by rw [hto]; exact h3) sB
    refine ⟨o', r', h', ⟨fun j x hj hx => ?_, fun j x h1 hj hx => ?_⟩, by rw [hZ, hB]; exact hA⟩
    · rw [hZ, List.getElem?_map] at hx
      obtain ⟨y, hy, rfl⟩ := Option.map_eq_some_iff.1 hx
      exact Sym.spread S (sZ j y hj hy)
    · rw [hB, List.getElem?_map] at hx
      obtain ⟨y, hy, rfl⟩ := Option.map_eq_some_iff.1 hx
      exact Sym.spread S (sB j y h1 (by rw [← ht]; exact hj) hy)
  refine le_antisymm ?_ (le S c c' hc hdet hw hk ht A)
  have e := hc.same
  have := le (Law.inv S) c' c (Law.inv_poses S hc) (by rw [e]; exact hdet) (by rw [e]; exact hw) (by rw [e]; exact hk)
    (by rw [e]; exact ht) {q | (q.1.map S.cloud, q.2.map S.cloud) ∈ A}
  simpa only [Set.mem_setOf_eq, Law.map_map_inv] using this

/-- **C73** (torch, forward flow). Without any assumption on the spread: the constructions of `c'` and of `c` return with
the same probability, and the law of the forward flow of `c'` is the transformed one. -/
theorem C73_torch_forward_law (S : Symmetry d N M) (emd : Solver) (c c' : Cfg d N M ℝ) (hc : S.Poses c c') (hN : 0 < N)
    (hd : 2 ≤ d) (hM : 0 < M) (hdet : c.deterministic = true) (hw : c.reweight = false) (hk : KnownKernel c.kern)
    (t : List ℝ) (ht : torchGrid c.t1 c.t2 = .ok t) (h3 : 3 ≤ t.length) (s : ℕ × ℕ) (A : Set (Traj d N ℝ)) :
    tapes {p | ∃ o r, torchConstruct (tapeEnv p.1 p.2 emd) c' s = .ok (o, r) ∧ o.Z ∈ A}
      = tapes {p | ∃ o r, torchConstruct (tapeEnv p.1 p.2 emd) c s = .ok (o, r) ∧ o.Z.map S.cloud ∈ A} := by
  have hd0 : 0 < d := by omega
  have le : ∀ (S : Symmetry d N M) (c c' : Cfg d N M ℝ), S.Poses c c' → c.deterministic = true → c.reweight = false →
      KnownKernel c.kern → torchGrid c.t1 c.t2 = .ok t → ∀ A : Set (Traj d N ℝ),
      tapes {p | ∃ o r, torchConstruct (tapeEnv p.1 p.2 emd) c s = .ok (o, r) ∧ o.Z.map S.cloud ∈ A}
        ≤ tapes {p | ∃ o r, torchConstruct (tapeEnv p.1 p.2 emd) c' s = .ok (o, r) ∧ o.Z ∈ A} := by
    intro S c c' hc hdet hw hk hg A
    have hp := Law.ttapes_preserve S (Nat.mul_pos hd0 hN) (Nat.mul_pos hM hd0) s
    refine le_trans (measure_mono ?_) (hp.measure_preimage_le _)
    rintro ⟨ω, υ⟩ ⟨o, r, h, hA⟩
    have hto : o.timegrid = t := by
      have := (torchConstruct_fields h).2.1
      rw [hg] at this; exact (Except.ok.inj this).symm
    have hR := Law.tcoupled S (Nat.mul_pos hd0 hN) (Nat.mul_pos hM hd0) s ω υ emd
    have e := hc.same
    have e1 : c'.t1 = c.t1 := by rw [e]
    have e2 : c'.t2 = c.t2 := by rw [e]
    have e3 : c'.deterministic = true := by rw [e]; exact hdet
    have e4 : c'.reweight = false := by rw [e]; exact hw
    have e5 : KnownKernel c'.kern := by rw [e]; exact hk
    have h3' : 3 ≤ o.timegrid.length := by rw [hto]; exact h3
    have hz := Sym.torch_zseq hN hd hdet hw hk h (by omega)
    have hzs := Sym.zseq S hc hR o.timegrid (r := s) (r' := s) ⟨rfl, 0, 0, by simp⟩
    obtain ⟨o', r', h'⟩ := Sym.torch_ok (c := c') hN hd e3 e4 e5
      (t := o.timegrid) (by rw [e1, e2, hto]; exact hg) h3' s (fun j h1 hj => by
        rw [hzs]
        exact Sym.spread S (Lim.torch_spread hdet h h3' j h1 _ (hz j hj)))
    have hto' : o'.timegrid = o.timegrid := by
      rw [(torchConstruct_fields h').2.2, (torchConstruct_fields h).2.2, e1, e2]
    refine ⟨o', r', h', ?_⟩
    have hz' := Sym.torch_zseq hN hd e3 e4 e5 h' (by rw [hto']; omega)
    have s1 := C08_storage_sizes _ c (by omega) s r o (.inr h)
    have s2 := C08_storage_sizes _ c' (by omega) s r' o' (.inr h')
    have hZ : o'.Z = o.Z.map S.cloud := Sym.traj S (by rw [s2.1, s1.1, hto']) fun j hj => by
      have hj' : j < o.timegrid.length := by rw [← s1.1]; exact hj
      rw [Lim.sl_eq (hz' j (by rw [hto']; exact hj')), Lim.sl_eq (hz j hj'), hto', hzs]
    rw [hZ]; exact hA
  refine le_antisymm ?_ (le S c c' hc hdet hw hk ht A)
  have e := hc.same
  have := le (Law.inv S) c' c (Law.inv_poses S hc) (by rw [e]; exact hdet) (by rw [e]; exact hw) (by rw [e]; exact hk)
    (by rw [e]; exact ht) {q | q.map S.cloud ∈ A}
  simpa only [Set.mem_setOf_eq, Law.map_map_inv] using this

/-- Only renumber the particles. -/
def renumber (d M : ℕ) (τ : Equiv.Perm (Fin N)) : Symmetry d N M := ⟨fun _ => 1, fun _ => .inl rfl, 1, τ, 1⟩

theorem renumber_poses {c : Cfg d N M ℝ} {φ : (Fin d → ℝ) → ℝ → Fin d → ℝ} (hf : ActsBy c.f φ) (τ : Equiv.Perm (Fin N)) :
    (renumber d M τ).Poses c c := by
  have hp : ∀ p, (renumber d M τ).point p = p := fun p => funext fun a => one_mul _
  refine ⟨by rw [hp, hp], fun x t => ?_⟩
  funext a n
  have e : (renumber d M τ).cloud x = fun a n => x a (τ n) := by funext a n; exact one_mul _
  rw [e]
  show _ = 1 * c.f.call2 x t a (τ n)
  rw [hf, hf, one_mul]
  rfl

theorem renumber_cloud (τ : Equiv.Perm (Fin N)) : (renumber d M τ).cloud = fun x a n => x a (τ n) := by
  funext x a n; simp [Symmetry.cloud, renumber]

/-- **C73** (exchangeable particles, numpy). If the drift acts particle by particle, renumbering the particles by any
permutation does not change the joint law of the two flows. -/
theorem C73_exchangeable (emd : Solver) (c : Cfg d N M ℝ) (φ : (Fin d → ℝ) → ℝ → Fin d → ℝ) (hf : ActsBy c.f φ) (hN : 0 < N)
    (hd : 0 < d) (hM : 0 < M) (hdet : c.deterministic = true) (hw : c.reweight = false) (hk : KnownKernel c.kern)
    (h2 : 2 ≤ (mkGrid c.t1 c.t2).length) (s : ℕ × ℕ) (τ : Equiv.Perm (Fin N)) (A : Set (Traj d N ℝ × Traj d N ℝ)) :
    tapes {p | ∃ o r, construct (tapeEnv p.1 p.2 emd) c s = .ok (o, r) ∧ KeepsSpread o ∧ (o.Z, o.B) ∈ A}
      = tapes {p | ∃ o r, construct (tapeEnv p.1 p.2 emd) c s = .ok (o, r) ∧ KeepsSpread o ∧
          (o.Z.map (fun x a n => x a (τ n)), o.B.map (fun x a n => x a (τ n))) ∈ A} := by
  have h := C73_numpy_law (renumber d M τ) emd c c (renumber_poses hf τ) hN hd hM hdet hw hk h2 s A
  rwa [renumber_cloud] at h

/-- **C73** (exchangeable particles, torch). The same for the forward flow of the torch class, without any assumption on
the spread. -/
theorem C73_torch_exchangeable (emd : Solver) (c : Cfg d N M ℝ) (φ : (Fin d → ℝ) → ℝ → Fin d → ℝ) (hf : ActsBy c.f φ)
    (hN : 0 < N) (hd : 2 ≤ d) (hM : 0 < M) (hdet : c.deterministic = true) (hw : c.reweight = false) (hk : KnownKernel c.kern)
    (t : List ℝ) (ht : torchGrid c.t1 c.t2 = .ok t) (h3 : 3 ≤ t.length) (s : ℕ × ℕ) (τ : Equiv.Perm (Fin N))
    (A : Set (Traj d N ℝ)) :
    tapes {p | ∃ o r, torchConstruct (tapeEnv p.1 p.2 emd) c s = .ok (o, r) ∧ o.Z ∈ A}
      = tapes {p | ∃ o r, torchConstruct (tapeEnv p.1 p.2 emd) c s = .ok (o, r) ∧
          o.Z.map (fun x a n => x a (τ n)) ∈ A} := by
  have h := C73_torch_forward_law (renumber d M τ) emd c c (renumber_poses hf τ) hN hd hM hdet hw hk t ht h3 s A
  rwa [renumber_cloud] at h

end

/-- Interchanging two of four particles does not change the law of the flows of the example; and the example posed in the
coordinates of `exSym` has the transformed law. -/
example (A : Set (Traj 3 4 ℝ × Traj 3 4 ℝ)) :
    tapes {p | ∃ o r, construct (tapeEnv p.1 p.2 exSolver) (exCfg 3 4 5 20 true false false) (0, 0) = .ok (o, r) ∧
        KeepsSpread o ∧ (o.Z, o.B) ∈ A}
      = tapes {p | ∃ o r, construct (tapeEnv p.1 p.2 exSolver) (exCfg 3 4 5 20 true false false) (0, 0) = .ok (o, r) ∧
        KeepsSpread o ∧ (o.Z.map (fun x a n => x a (Equiv.swap 0 1 n)), o.B.map (fun x a n => x a (Equiv.swap 0 1 n))) ∈ A} :=
  C73_exchangeable exSolver _ (fun p t a => p a + t) (fun _ _ _ _ => rfl) (by norm_num) (by norm_num) (by norm_num) rfl rfl
    (.inl rfl) (by rw [exCfg_grid]; norm_num) (0, 0) _ A

example : ∃ c', exSym.Poses (exCfg 3 4 5 20 true false false) c' ∧ ∀ A : Set (Traj 3 4 ℝ),
    tapes {p | ∃ o r, torchConstruct (tapeEnv p.1 p.2 exSolver) c' (0, 0) = .ok (o, r) ∧ o.Z ∈ A}
      = tapes {p | ∃ o r, torchConstruct (tapeEnv p.1 p.2 exSolver) (exCfg 3 4 5 20 true false false) (0, 0) = .ok (o, r) ∧
        o.Z.map exSym.cloud ∈ A} := by
  obtain ⟨c', hc⟩ := C70_posable exSym (exCfg 3 4 5 20 true false false)
  exact ⟨c', hc, C73_torch_forward_law exSym exSolver _ c' hc (by norm_num) (by norm_num) (by norm_num) rfl rfl (.inl rfl) _
    (exCfg_torchGrid 3 4 5 20 true false false) (by rw [exCfg_grid]; norm_num) (0, 0)⟩

end DPFC
