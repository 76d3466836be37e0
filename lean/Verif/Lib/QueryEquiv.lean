import Verif.Lib.Affine
import Verif.Lib.Control2

/-! The queries in the coordinates `s x + v`. -/

set_option linter.unusedSectionVars false

namespace DPFC
open Spec

theorem pyGet_map {α β : Type} (g : α → β) (l : List α) (i : Int) :
    pyGet (l.map g) i = (pyGet l i).map g := by
  have : pyAt (l.map g) i = (pyAt l i).map g := by
    unfold pyAt
    simp only [List.length_map, List.getElem?_map]
    split <;> [skip; split] <;> rfl
  rw [pyGet_eq_pyAt, pyGet_eq_pyAt, this]
  cases pyAt l i <;> rfl

section
variable {ρ : Type} {N M d n c : ℕ} {s : ℝ} {v : Fin d → ℝ}

theorem gaussU_moved (hs : 0 < s) (hN : 0 < N) (b z : Mat d N ℝ) (a : Fin d) (x : ℝ) :
    gaussU npStd (moved s v b a) (moved s v z a) (s * x + v a) = gaussU npStd (b a) (z a) x / s := by
  have hm : ∀ w : Fin N → ℝ, mean w = avg w := fun w => by rw [real_mean]; rfl
  simp only [gaussU, npStd_real, real_sq, hm, avg_moved hN, sdev_moved hs hN]
  have h : ∀ m e : ℝ, -(s * x + v a - (s * m + v a)) / (s * e)^2 = -(x - m) / e^2 / s := by
    intro m e
    have : -(s * x + v a - (s * m + v a)) = s * -(x - m) := by ring
    rw [this, mul_pow, pow_two s, mul_assoc, mul_div_mul_left _ _ hs.ne', div_div, mul_comm s]
  rw [h, h]; ring

theorem tgaussU_moved (hs : 0 < s) (hN : 0 < N) (b z : Mat d N ℝ) (a : Fin d) (x : ℝ) :
    gaussU torchStd (moved s v b a) (moved s v z a) (s * x + v a) = gaussU torchStd (b a) (z a) x / s := by
  have hm : ∀ w : Fin N → ℝ, mean w = avg w := fun w => by rw [real_mean]; rfl
  simp only [gaussU, torchStd_real, real_sq, hm, avg_moved hN, sampleSdev_moved hs hN]
  have h : ∀ m e : ℝ, -(s * x + v a - (s * m + v a)) / (s * e)^2 = -(x - m) / e^2 / s := by
    intro m e
    have : -(s * x + v a - (s * m + v a)) = s * -(x - m) := by ring
    rw [this, mul_pow, pow_two s, mul_assoc, mul_div_mul_left _ _ hs.ne', div_div, mul_comm s]
  rw [h, h]; ring

theorem edgeU_moved (hs : 0 < s) (hN : 0 < N) (b z : Mat d N ℝ) (x : Mat n d ℝ) :
    edgeU npStd (moved s v b) (moved s v z) (fun j a => s * x j a + v a)
      = (edgeU npStd b z x).map fun u a j => u a j / s := by
  rw [edgeU_ok _ _ _ _ (le_refl d), edgeU_ok _ _ _ _ (le_refl d)]
  change Except.ok _ = Except.ok _
  congr 1; funext a j
  beta_reduce
  rw [dif_pos a.2, dif_pos a.2]
  exact gaussU_moved hs hN b z a _

theorem tedgeU_moved (hs : 0 < s) (hN : 0 < N) (b z : Mat d N ℝ) (x : Mat n d ℝ) :
    edgeU torchStd (moved s v b) (moved s v z) (fun j a => s * x j a + v a)
      = (edgeU torchStd b z x).map fun u a j => u a j / s := by
  rw [edgeU_ok _ _ _ _ (le_refl d), edgeU_ok _ _ _ _ (le_refl d)]
  change Except.ok _ = Except.ok _
  congr 1; funext a j
  beta_reduce
  rw [dif_pos a.2, dif_pos a.2]
  exact tgaussU_moved hs hN b z a _

theorem pointScore_moved (hs : 0 < s) (hN : 0 < N) (b : Mat d N ℝ) (P : Fin M → Fin d → ℝ)
    (x : Mat n d ℝ) (a : Fin d) (j : Fin n) :
    pointScore (moved s v b) (fun m a => s * P m a + v a) (fun j a => s * x j a + v a) a j
      = pointScore b P x a j / s := by
  unfold pointScore
  rw [← score_affine hs]
  have : (fun k => 2 * sdev (moved s v b k)) = fun k => s * (2 * sdev (b k)) := by
    funext k; rw [sdev_moved hs hN]; ring
  rw [this]
  rfl

theorem kernelU_moved (hs : 0 < s) (hN : 0 < N) (S : Mat d M ℝ) (b z : Mat d N ℝ) (x : Mat n d ℝ) :
    kernelU "RBF" (moved s v S) (moved s v b) (moved s v z) none (fun j a => s * x j a + v a)
      = (kernelU "RBF" S b z none x).map fun u a j => u a j / s := by
  rw [kernelU_real, kernelU_real]
  change Except.ok _ = Except.ok _
  congr 1; funext a j
  beta_reduce
  rw [sub_div, ← pointScore_moved (v := v) hs hN b (tr S) x a j,
    ← pointScore_moved (v := v) hs hN z (tr S) x a j]
  rfl

theorem npInducing_moved (env : Env ρ ℝ) (bnds : Fin d → ℝ × ℝ) :
    npInducing env (fun a => (s * (bnds a).1 + v a, s * (bnds a).2 + v a)) M
      = (do let S ← npInducing env bnds M; pure (moved s v S)) := by
  funext r
  rw [RandM.bind_app, npInducing_gen, npInducing_gen]
  simp only [RandM.pure_app]
  congr 2
  funext a m
  simp only [moved]; ring

theorem interBox_moved (hs : 0 < s) (hN : 0 < N) (z b : Mat d N ℝ) :
    interBox (moved s v z) (moved s v b)
      = (interBox z b).map fun bn a => (s * (bn a).1 + v a, s * (bn a).2 + v a) := by
  rw [interBox_real hN, interBox_real hN]
  change Except.ok _ = Except.ok _
  congr 1; funext a
  simp only [lo_moved hs hN, hi_moved hs hN, max_affine hs, min_affine hs]

theorem hullBox_moved (hs : 0 < s) (hN : 0 < N) (z b : Mat d N ℝ) :
    hullBox (moved s v z) (moved s v b)
      = (hullBox z b).map fun bn a => (s * (bn a).1 + v a, s * (bn a).2 + v a) := by
  rw [hullBox_real hN, hullBox_real hN]
  change Except.ok _ = Except.ok _
  congr 1; funext a
  simp only [lo_moved hs hN, hi_moved hs hN, max_affine hs, min_affine hs]

/-- `calculate_u` of an object whose flows are in the coordinates `s x + v`. -/
theorem calculateU_moved (env : Env ρ ℝ) (hs : 0 < s) (hN : 0 < N) (o o' : Obj d N M ℝ)
    (hk : effKern o.cfg.kern = "RBF") (hk' : effKern o'.cfg.kern = "RBF")
    (hZ : o'.Z = o.Z.map (moved s v)) (hB : o'.B = o.B.map (moved s v))
    (hl : o'.timegrid.length = o.timegrid.length)
    (hrb : (o'.cfg.reweight && o'.cfg.brownBridge) = (o.cfg.reweight && o.cfg.brownBridge))
    (ti : Int)
    (hT : (o.cfg.reweight && o.cfg.brownBridge) = true →
      o'.Ztr = o.Ztr.map (List.map (moved s v)) ∧ (ti ≤ 5 ∨ (o.timegrid.length : Int) - 5 ≤ ti))
    (x : Mat n d ℝ) :
    calculateU env o' (fun j a => s * x j a + v a) ti
      = (do let u ← calculateU env o x ti; pure fun a j => u a j / s) := by
  unfold calculateU
  rw [hZ, hB, hl, hk, hk', hrb, pyGet_map, pyGet_map]
  cases pyGet o.B ti with
  | error e => rfl
  | ok b =>
  cases pyGet o.Z ti with
  | error e => rfl
  | ok z =>
  simp only [Except.map, RandM.liftM_ok, pure_bind, bind_assoc]
  cases hc : (o.cfg.reweight && o.cfg.brownBridge) with
  | false =>
    simp only [RandM.liftM_ok, pure_bind, Option.getD_none, interBox_moved hs hN]
    rw [interBox_real hN]
    simp only [Except.map, RandM.liftM_ok, pure_bind]
    split
    · rw [edgeU_moved hs hN]; exact liftM_map _ _
    · rw [npInducing_moved (v := v) env
        (fun a => (max (lo (z a)) (lo (b a)), min (hi (z a)) (hi (b a))))]
      simp only [bind_assoc, pure_bind, kernelU_moved hs hN, liftM_map]
  | true =>
    obtain ⟨h1, h2⟩ := hT hc
    rw [h1]
    cases o.Ztr with
    | none => rfl
    | some T =>
      simp only [Option.map_some, pyGet_map]
      cases pyGet T ti with
      | error e => rfl
      | ok zt =>
        simp only [Except.map, Except.ok_bind', RandM.liftM_ok, pure_bind, Option.getD_some,
          interBox_moved hs hN]
        rw [interBox_real hN]
        simp only [Except.map, RandM.liftM_ok, pure_bind, if_pos h2]
        rw [edgeU_moved hs hN]; exact liftM_map _ _

theorem torchScoreFn_moved' (hs : 0 < s) (hd : 2 ≤ d) (X : Mat N d ℝ) (Z : Mat M d ℝ) (l : Fin d → ℝ) (C : ℝ)
    (Y : Mat n d ℝ) :
    torchScoreFn (fun i k => s * X i k + v k) (fun i k => s * Z i k + v k) (.tensor fun k => s * l k) C "RBF"
        (.tensor fun i k => s * Y i k + v k)
      = (torchScoreFn X Z (.tensor l) C "RBF" (.tensor Y)).map fun y i k => y i k / s := by
  rw [torchScoreFn_real _ _ _ _ (classify_tensor hd _) (by intro w h; cases h),
    torchScoreFn_real _ _ _ _ (classify_tensor hd _) (by intro w h; cases h)]
  change Except.ok _ = Except.ok _
  congr 1
  funext i j
  exact score_affine hs _ _ _ _ _ _ _

/-- The same for the torch class, for `d >= 2`, outside reweighted Brownian-bridge mode. -/
theorem torchCalculateU_moved (env : Env ρ ℝ) (hs : 0 < s) (hN : 0 < N) (hd : 2 ≤ d) (o o' : Obj d N M ℝ)
    (hk : effKern o.cfg.kern = "RBF") (hk' : effKern o'.cfg.kern = "RBF")
    (hZ : o'.Z = o.Z.map (moved s v)) (hB : o'.B = o.B.map (moved s v))
    (hl : o'.timegrid.length = o.timegrid.length)
    (hrb : (o'.cfg.reweight && o'.cfg.brownBridge) = false)
    (hrb' : (o.cfg.reweight && o.cfg.brownBridge) = false)
    (ti : Int) (x : Mat n d ℝ) :
    torchCalculateU env o' (fun j a => s * x j a + v a) ti
      = (do let u ← torchCalculateU env o x ti; pure ⟨u.n, u.m, fun a j => u.val a j / s⟩) := by
  unfold torchCalculateU
  rw [hZ, hB, hl, hk, hk', hrb, hrb', pyGet_map, pyGet_map]
  cases pyGet o.B ti with
  | error e => rfl
  | ok b =>
  cases pyGet o.Z ti with
  | error e => rfl
  | ok z =>
  simp only [Except.map, RandM.liftM_ok, pure_bind, bind_assoc, Option.getD_none, hullBox_moved hs hN]
  rw [hullBox_real hN]
  simp only [Except.map, RandM.liftM_ok, pure_bind]
  split
  · rw [tedgeU_moved hs hN, edgeU_ok _ _ _ _ (le_refl d)]
    rfl
  · rw [torchInducing_moved (v := v) env hs
      (fun a => (min (lo (z a)) (lo (b a)), max (hi (z a)) (hi (b a))))]
    simp only [bind_assoc, pure_bind]
    congr 1; funext S
    have h1 := fun w : Mat d N ℝ =>
      torchScoreFn_moved' (v := v) hs hd (tr w) S (torchLengthScales w) (lit 1 1000) x
    simp only [← torchLengthScales_moved (v := v) hs hN] at h1
    have h2 : ∀ w : Mat d N ℝ, torchScoreFn (tr (moved s v w)) (fun i k => s * S i k + v k)
        (.tensor (torchLengthScales (moved s v w))) (lit 1 1000) "RBF" (.tensor fun i k => s * x i k + v k)
        = _ := h1
    rw [h2, h2, liftM_map, liftM_map]
    simp only [bind_assoc, pure_bind]
    congr 1; funext y
    congr 1; funext y'
    congr 2
    funext i j
    ring

open Classical in
theorem checkIfCovered_moved (hs : 0 < s) (hN : 0 < N) (o o' : Obj d N M ℝ)
    (hZ : o'.Z = o.Z.map (moved s v)) (hB : o'.B = o.B.map (moved s v)) (ti : Int) (X : Fin d → ℝ) :
    checkIfCovered o' (fun a => s * X a + v a) ti = checkIfCovered o X ti := by
  cases d with
  | zero => rfl
  | succ d =>
  cases hz : pyAt o.Z ti with
  | none =>
    have h1 := pyGet_of_none hz
    have h2 : pyGet o'.Z ti = .error .indexError := by rw [hZ, pyGet_map, h1]; rfl
    unfold checkIfCovered
    simp only [h1, h2, forFin]; rfl
  | some z =>
  have hz1 := pyGet_of_pyAt hz
  have hz2 : pyGet o'.Z ti = .ok (moved s v z) := by rw [hZ, pyGet_map, hz1]; rfl
  cases hb : pyAt o.B ti with
  | none =>
    have h1 := pyGet_of_none hb
    have h2 : pyGet o'.B ti = .error .indexError := by rw [hB, pyGet_map, h1]; rfl
    unfold checkIfCovered
    simp only [h1, h2, forFin, hz1, hz2]; rfl
  | some b =>
    have hz' : pyAt o'.Z ti = some (moved s v z) := by
      rw [pyGet_eq_pyAt] at hz2
      revert hz2; cases pyAt o'.Z ti <;> simp
    have hb' : pyAt o'.B ti = some (moved s v b) := by
      have hb2 : pyGet o'.B ti = .ok (moved s v b) := by rw [hB, pyGet_map, pyGet_of_pyAt hb]; rfl
      rw [pyGet_eq_pyAt] at hb2
      revert hb2; cases pyAt o'.B ti <;> simp
    rw [checkIfCovered_real o _ ti z b hz hb hN, checkIfCovered_real o' _ ti _ _ hz' hb' hN]
    simp only [lo_moved hs hN, hi_moved hs hN, max_affine hs, min_affine hs, add_le_add_iff_right,
      mul_le_mul_iff_right₀ hs]

open Classical in
theorem torchCheckIfCovered_moved (hs : 0 < s) (hN : 0 < N) (o o' : Obj d N M ℝ)
    (hZ : o'.Z = o.Z.map (moved s v)) (hB : o'.B = o.B.map (moved s v)) (ti : Int) (X : Fin d → ℝ) :
    torchCheckIfCovered o' (fun a => s * X a + v a) ti = torchCheckIfCovered o X ti := by
  cases d with
  | zero => rfl
  | succ d =>
  cases hz : pyAt o.Z ti with
  | none =>
    have h1 := pyGet_of_none hz
    have h2 : pyGet o'.Z ti = .error .indexError := by rw [hZ, pyGet_map, h1]; rfl
    unfold torchCheckIfCovered
    simp only [h1, h2, forFin]; rfl
  | some z =>
  have hz1 := pyGet_of_pyAt hz
  have hz2 : pyGet o'.Z ti = .ok (moved s v z) := by rw [hZ, pyGet_map, hz1]; rfl
  cases hb : pyAt o.B ti with
  | none =>
    have h1 := pyGet_of_none hb
    have h2 : pyGet o'.B ti = .error .indexError := by rw [hB, pyGet_map, h1]; rfl
    unfold torchCheckIfCovered
    simp only [h1, h2, forFin, hz1, hz2]; rfl
  | some b =>
    have hz' : pyAt o'.Z ti = some (moved s v z) := by
      rw [pyGet_eq_pyAt] at hz2
      revert hz2; cases pyAt o'.Z ti <;> simp
    have hb' : pyAt o'.B ti = some (moved s v b) := by
      have hb2 : pyGet o'.B ti = .ok (moved s v b) := by rw [hB, pyGet_map, pyGet_of_pyAt hb]; rfl
      rw [pyGet_eq_pyAt] at hb2
      revert hb2; cases pyAt o'.B ti <;> simp
    rw [torchCheckIfCovered_real o _ ti z b hz hb hN, torchCheckIfCovered_real o' _ ti _ _ hz' hb' hN]
    simp only [lo_moved hs hN, hi_moved hs hN, max_affine hs, min_affine hs, add_le_add_iff_right,
      mul_le_mul_iff_right₀ hs]

/-- `calculate_u` sees only the flows, the number of grid points and three options. -/
theorem calculateU_sees {K : Type} [Add K] [Sub K] [Mul K] [Div K] [Neg K] [NumOps K] (env : Env ρ K)
    (o o' : Obj d N M K) (hZ : o'.Z = o.Z) (hB : o'.B = o.B) 
    (hT : (o.cfg.reweight && o.cfg.brownBridge) = true → o'.Ztr = o.Ztr)
    (hl : o'.timegrid.length = o.timegrid.length) (h1 : o'.cfg.reweight = o.cfg.reweight)
    (h2 : o'.cfg.brownBridge = o.cfg.brownBridge) (h3 : o'.cfg.kern = o.cfg.kern)
    (x : Mat n c K) (ti : Int) : calculateU env o' x ti = calculateU env o x ti := by
  unfold calculateU
  rw [hZ, hB, hl, h1, h2, h3]
  cases hb : (o.cfg.reweight && o.cfg.brownBridge) with
  | false => rfl
  | true => rw [hT hb]

theorem torchCalculateU_sees {K : Type} [Add K] [Sub K] [Mul K] [Div K] [Neg K] [NumOps K] (env : Env ρ K)
    (o o' : Obj d N M K) (hZ : o'.Z = o.Z) (hB : o'.B = o.B) 
    (hT : (o.cfg.reweight && o.cfg.brownBridge) = true → o'.Ztr = o.Ztr)
    (hl : o'.timegrid.length = o.timegrid.length) (h1 : o'.cfg.reweight = o.cfg.reweight)
    (h2 : o'.cfg.brownBridge = o.cfg.brownBridge) (h3 : o'.cfg.kern = o.cfg.kern)
    (x : Mat n c K) (ti : Int) : torchCalculateU env o' x ti = torchCalculateU env o x ti := by
  unfold torchCalculateU
  rw [hZ, hB, hl, h1, h2, h3]
  cases hb : (o.cfg.reweight && o.cfg.brownBridge) with
  | false => rfl
  | true => rw [hT hb]

end
end DPFC
