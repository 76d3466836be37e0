import Verif.Lib.QueryEquiv
import Verif.Props.Equivariance
import Verif.Props.Depend
import Verif.Props.Pins

/-!
# C61: the control does not depend on the choice of coordinates, time origin or length unit

The construction part is C51, C52, C55. Here the queries on the two objects are compared. Under
`x ↦ s x + v` the noise strength becomes `s g`, so that the control `u`, which enters the dynamics as
`g^2 u`, must become `u / s`.
-/

namespace DPFC
open Spec

section
variable {ρ : Type} {N M d : ℕ}

/-- **C61** (numpy). If the problem can be solved in one coordinate system it can be solved in every
other one, the control at the converted points is the converted control, and the coverage check gives
the same answer; queries raise the same exceptions and consume the same random numbers. In reweighted
Brownian-bridge mode this holds for deterministic runs at the edge indices only (elsewhere the query
points are clipped at coordinate 0, C40). -/
theorem C61_control_affine (env : Env ρ ℝ) (c : Cfg d N M ℝ) (s : ℝ) (v : Fin d → ℝ) (hd : 0 < d)
    (hN : 0 < N) (hs : 0 < s) (hkern : c.kern = "RBF" ∨ c.kern = "periodic")
    (hrw : c.reweight = true → (v = 0 ∨ SolverCouples env) ∧ (s = 1 ∨ SolverScaleFree env))
    (hst : c.deterministic = false → ∀ a : Fin d, 2 ≤ a.val → v a = 0) (r r1 : ρ) (o : Obj d N M ℝ)
    (h : construct env c r = .ok (o, r1)) :
    ∃ o', construct env (move s v c) r = .ok (o', r1) ∧
      (∀ (n : ℕ) (x : Mat n d ℝ) (ti : Int) (q : ρ),
        ((c.reweight && c.brownBridge) = false ∨
          c.deterministic = true ∧ Edge o.timegrid.length ti) →
        ScaledResult s (calculateU env o x ti q)
          (calculateU env o' (fun j a => s * x j a + v a) ti q)) ∧
      ∀ (X : Fin d → ℝ) (ti : Int),
        checkIfCovered o' (fun a => s * X a + v a) ti = checkIfCovered o X ti := by
  have hrel := C55_affine env c s v hd hN hs hkern hrw hst r
  rw [h] at hrel
  rcases h' : construct env (move s v c) r with e | ⟨o', r''⟩
  · rw [h'] at hrel; exact hrel.elim
  rw [h'] at hrel
  obtain ⟨⟨ht, hZ, hB, hT⟩, rfl⟩ := hrel
  have hc := (construct_fields h).1
  have hc' := (construct_fields h').1
  have hl : o'.timegrid.length = o.timegrid.length := by rw [ht]; simp
  refine ⟨o', rfl, fun n x ti q hq => ?_, fun X ti => checkIfCovered_moved hs hN o o' hZ hB ti X⟩
  rw [calculateU_moved env hs hN o o' (by rw [hc]; exact effKern_rbf hkern)
    (by rw [hc']; exact effKern_rbf hkern) hZ hB hl (by rw [hc, hc']; rfl) ti ?_ x, RandM.bind_app]
  · rcases calculateU env o x ti q with e | ⟨u, q'⟩
    · rfl
    · exact ⟨fun _ _ => rfl, rfl⟩
  · intro hb
    rw [hc] at hb hT
    rcases hq with hq | ⟨h1, h2⟩
    · rw [hb] at hq; cases hq
    · exact ⟨hT h1, h2⟩

/-- **C61** (torch), for `d >= 2`, outside reweighted Brownian-bridge mode. -/
theorem C61_control_affine_torch (env : Env ρ ℝ) (c : Cfg d N M ℝ) (s : ℝ) (v : Fin d → ℝ) (hd : 2 ≤ d)
    (hN : 0 < N) (hs : 0 < s) (hkern : c.kern = "RBF" ∨ c.kern = "periodic")
    (hrw : c.reweight = true → v = 0 ∨ SolverCouples env)
    (hbb : (c.reweight && c.brownBridge) = false)
    (hst : c.deterministic = false → ∀ a : Fin d, 2 ≤ a.val → v a = 0) (r r1 : ρ) (o : Obj d N M ℝ)
    (h : torchConstruct env c r = .ok (o, r1)) :
    ∃ o', torchConstruct env (move s v c) r = .ok (o', r1) ∧
      (∀ (n : ℕ) (x : Mat n d ℝ) (ti : Int) (q : ρ),
        ScaledDyn s (torchCalculateU env o x ti q)
          (torchCalculateU env o' (fun j a => s * x j a + v a) ti q)) ∧
      ∀ (X : Fin d → ℝ) (ti : Int),
        torchCheckIfCovered o' (fun a => s * X a + v a) ti = torchCheckIfCovered o X ti := by
  have hrel := C55_affine_torch env c s v hd hN hs hkern hrw (fun _ => hbb) hst r
  rw [h] at hrel
  rcases h' : torchConstruct env (move s v c) r with e | ⟨o', r''⟩
  · rw [h'] at hrel; exact hrel.elim
  rw [h'] at hrel
  obtain ⟨⟨ht, hZ, hB, hT⟩, rfl⟩ := hrel
  have hc := (torchConstruct_fields h).1
  have hc' := (torchConstruct_fields h').1
  have hl : o'.timegrid.length = o.timegrid.length := by rw [ht]; simp
  refine ⟨o', rfl, fun n x ti q => ?_, fun X ti => torchCheckIfCovered_moved hs hN o o' hZ hB ti X⟩
  rw [torchCalculateU_moved env hs hN hd o o' (by rw [hc]; exact effKern_rbf hkern)
    (by rw [hc']; exact effKern_rbf hkern) hZ hB hl (by rw [hc']; exact hbb) (by rw [hc]; exact hbb) ti x,
    RandM.bind_app]
  rcases torchCalculateU env o x ti q with e | ⟨u, q'⟩
  · rfl
  · exact ⟨rfl, rfl, rfl, fun _ _ => rfl⟩

/-- Two lists of zero arrays of the same length are equal. -/
private theorem zero_lists {T T' : List (Mat d N ℝ)} (hl : T'.length = T.length)
    (h : ∀ (i : Nat) (S : Mat d N ℝ), T[i]? = some S → ∀ a n, S a n = lit 0 1)
    (h' : ∀ (i : Nat) (S : Mat d N ℝ), T'[i]? = some S → ∀ a n, S a n = lit 0 1) : T' = T := by
  refine List.ext_getElem hl fun i h1 h2 => ?_
  funext a n
  rw [h i _ (List.getElem?_eq_getElem h2) a n, h' i _ (List.getElem?_eq_getElem h1) a n]

/-- **C61** (time origin, numpy). The problem posed `h` later has, at every time index and every query
array, exactly the same control and the same coverage, in every mode and for every kernel. -/
theorem C61_control_time_shift (env : Env ρ ℝ) (c : Cfg d N M ℝ) (hd : 0 < d) (τ : ℝ) (r r1 : ρ)
    (o : Obj d N M ℝ) (h : construct env c r = .ok (o, r1)) :
    ∃ o', construct env (delay τ c) r = .ok (o', r1) ∧
      (∀ (n m : ℕ) (x : Mat n m ℝ) (ti : Int), calculateU env o' x ti = calculateU env o x ti) ∧
      ∀ (m : ℕ) (X : Fin m → ℝ) (ti : Int), checkIfCovered o' X ti = checkIfCovered o X ti := by
  have hrel := C52_time_shift env c hd τ r
  rw [h] at hrel
  rcases h' : construct env (delay τ c) r with e | ⟨o', r''⟩
  · rw [h'] at hrel; exact hrel.elim
  rw [h'] at hrel
  obtain ⟨⟨ht, hZ, hB, hT⟩, rfl⟩ := hrel
  have hc := (construct_fields h).1
  have hc' := (construct_fields h').1
  rw [List.map_id_fun] at hZ hB
  have hl : o'.timegrid.length = o.timegrid.length := by rw [ht]; simp
  refine ⟨o', rfl, fun n m x ti => calculateU_sees env o o' hZ hB ?_ hl (by rw [hc, hc']; rfl)
    (by rw [hc, hc']; rfl) (by rw [hc, hc']; rfl) x ti, fun m X ti => ?_⟩
  · intro hb
    rw [hc] at hb hT
    cases hdet : c.deterministic with
    | true =>
      rw [hT hdet]
      cases o.Ztr <;> simp
    | false =>
      rw [Bool.and_eq_true] at hb
      obtain ⟨T, h1, h2, h3⟩ := C49_true_flow_zero_in_stochastic_mode env c hdet hb.1 hb.2 r r1 o (.inl h)
      obtain ⟨T', h1', h2', h3'⟩ := C49_true_flow_zero_in_stochastic_mode env (delay τ c) hdet hb.1 hb.2
        r r1 o' (.inl h')
      rw [h1, h1', zero_lists (by omega) h3 h3']
  · unfold checkIfCovered
    rw [hZ, hB]; rfl

/-- **C61** (time origin, torch). -/
theorem C61_control_time_shift_torch (env : Env ρ ℝ) (c : Cfg d N M ℝ) (hd : 0 < d) (τ : ℝ) (r r1 : ρ)
    (o : Obj d N M ℝ) (h : torchConstruct env c r = .ok (o, r1)) :
    ∃ o', torchConstruct env (delay τ c) r = .ok (o', r1) ∧
      (∀ (n m : ℕ) (x : Mat n m ℝ) (ti : Int), torchCalculateU env o' x ti = torchCalculateU env o x ti) ∧
      ∀ (m : ℕ) (X : Fin m → ℝ) (ti : Int), torchCheckIfCovered o' X ti = torchCheckIfCovered o X ti := by
  have hrel := C52_time_shift_torch env c hd τ r
  rw [h] at hrel
  rcases h' : torchConstruct env (delay τ c) r with e | ⟨o', r''⟩
  · rw [h'] at hrel; exact hrel.elim
  rw [h'] at hrel
  obtain ⟨⟨ht, hZ, hB, hT⟩, rfl⟩ := hrel
  have hc := (torchConstruct_fields h).1
  have hc' := (torchConstruct_fields h').1
  rw [List.map_id_fun] at hZ hB
  have hl : o'.timegrid.length = o.timegrid.length := by rw [ht]; simp
  refine ⟨o', rfl, fun n m x ti => torchCalculateU_sees env o o' hZ hB ?_ hl (by rw [hc, hc']; rfl)
    (by rw [hc, hc']; rfl) (by rw [hc, hc']; rfl) x ti, fun m X ti => ?_⟩
  · intro hb
    rw [hc] at hb hT
    cases hdet : c.deterministic with
    | true =>
      rw [hT hdet]
      cases o.Ztr <;> simp
    | false =>
      rw [Bool.and_eq_true] at hb
      obtain ⟨T, h1, h2, h3⟩ := C49_true_flow_zero_in_stochastic_mode env c hdet hb.1 hb.2 r r1 o (.inr h)
      obtain ⟨T', h1', h2', h3'⟩ := C49_true_flow_zero_in_stochastic_mode env (delay τ c) hdet hb.1 hb.2
        r r1 o' (.inr h')
      rw [h1, h1', zero_lists (by omega) h3 h3']
  · unfold torchCheckIfCovered
    rw [hZ, hB]; rfl

end

/-! ### The hypotheses can be met -/

/-- A run with 21 grid points, in new coordinates: an interior control (index 8) at 2 points is computed in
both runs and agrees up to the factor. -/
example (r q : ℕ) (x : Mat 2 3 ℝ) : ∃ o o' r' u q',
    construct exEnv (exCfg 3 4 5 20 true false false) r = .ok (o, r') ∧
    construct exEnv (move 2 (fun a => a.val + 1) (exCfg 3 4 5 20 true false false)) r = .ok (o', r') ∧
    calculateU exEnv o x 8 q = .ok (u, q') ∧
    calculateU exEnv o' (fun j a => 2 * x j a + (a.val + 1)) 8 q = .ok (fun a j => u a j / 2, q') := by
  obtain ⟨o, r', h, hl⟩ := ex_det 3 4 5 20 false false (by norm_num) (by norm_num) r
  obtain ⟨o', h', hU, _⟩ := C61_control_affine exEnv _ 2 (fun a => a.val + 1) (by norm_num) (by norm_num)
    (by norm_num) (Or.inl rfl) (fun h => by cases h) (fun h => by cases h) r r' o h
  have hlen := C08_storage_sizes exEnv _ (by norm_num) r r' o (.inl h)
  obtain ⟨b, hb⟩ : ∃ b, pyAt o.B 8 = some b := by
    have hb : o.B.length = 21 := by rw [hlen.2.1, hl]
    exact ⟨o.B[8], by simp [pyAt, hb]⟩
  obtain ⟨z, hz⟩ : ∃ z, pyAt o.Z 8 = some z := by
    have hb : o.Z.length = 21 := by rw [hlen.1, hl]
    exact ⟨o.Z[8], by simp [pyAt, hb]⟩
  have hcfg := (construct_fields h).1
  have hr : reference o 8 = some z := by
    unfold reference; rw [hcfg]; exact hz
  have hne : ¬ Edge o.timegrid.length 8 := by rw [hl]; unfold Edge; norm_num
  have hu : ∃ u q', calculateU exEnv o x 8 q = .ok (u, q') := by
    rw [calculateU_inner exEnv o x 8 b z z _ hb hz hr (interBox_real (by norm_num) z b) hne,
      RandM.bind_app, npInducing_gen, hcfg]
    have : effKern (exCfg 3 4 5 20 true false false).kern = "RBF" := effKern_rbf (Or.inl rfl)
    simp only [this]
    change ∃ u q', (liftM (kernelU "RBF" _ b z none x) : RandM ℕ _) _ = _
    rw [kernelU_real]
    exact ⟨_, _, rfl⟩
  obtain ⟨u, q', hu⟩ := hu
  have := hU 2 x 8 q (Or.inl rfl)
  rw [hu] at this
  refine ⟨o, o', r', u, q', h, h', hu, ?_⟩
  rcases hq : calculateU exEnv o' (fun j a => 2 * x j a + (a.val + 1)) 8 q with e | ⟨u', q''⟩
  · rw [hq] at this; exact this.elim
  · rw [hq] at this
    obtain ⟨h1, rfl⟩ := this
    congr 2
    funext a j; exact h1 a j

/-- The hypotheses of the torch version and of the time shift. -/
example (r : ℕ) : ∃ o o' o'' r', torchConstruct exEnv (exFan 3 4 5 20) r = .ok (o, r') ∧
    torchConstruct exEnv (move 2 (fun a => a.val + 1) (exFan 3 4 5 20)) r = .ok (o', r') ∧
    torchConstruct exEnv (delay 3 (exFan 3 4 5 20)) r = .ok (o'', r') ∧ o.timegrid.length = 21 := by
  obtain ⟨o, r', h, hl⟩ := ex_torch 3 4 5 20 (by norm_num) (by norm_num) (by norm_num) r
  obtain ⟨o', h', _⟩ := C61_control_affine_torch exEnv _ 2 (fun a => a.val + 1) (by norm_num) (by norm_num)
    (by norm_num) (Or.inl rfl) (fun h => by cases h) rfl (fun h => by cases h) r r' o h
  obtain ⟨o'', h'', _⟩ := C61_control_time_shift_torch exEnv _ (by norm_num) 3 r r' o h
  exact ⟨o, o', o'', r', h, h', h'', hl⟩

end DPFC
