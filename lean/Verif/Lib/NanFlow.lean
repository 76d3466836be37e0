import Verif.Lib.NanBox
import Verif.Lib.Control

/-! NaN along the flows, for any arithmetic. -/

set_option linter.unusedSectionVars false

namespace DPFC
open Spec
section
variable {K ρ : Type} [Add K] [Sub K] [Mul K] [Div K] [Neg K] [NumOps K]
variable {N M d n c : Nat} (I : Ieee K)

theorem nan_noisyStep {env : Env ρ K} {g : K} {f : Drift d N K} {x y : Mat d N K} {t : K} {r r' : ρ}
    (h : noisyStep env g f x t r = .ok (y, r')) (a : Fin d) (p : Fin N) (hn : I.nan (x a p)) :
    I.nan (y a p) := by
  unfold noisyStep at h
  obtain ⟨xi, r1, _, h⟩ := RandM.bind_ok.1 h
  obtain ⟨rfl, _⟩ := RandM.pure_ok.1 h
  exact I.nan_add_left (I.nan_add_left hn)

theorem nan_ottoReweight {env : Env ρ K} {U : Option (Constraint d N K)} {x y : Mat d N K} {t : K}
    (h : ottoReweight env U x t = .ok y) (a : Fin d) (p p' : Fin N) (hn : I.nan (x a p)) :
    I.nan (y a p') := by
  unfold ottoReweight at h
  cases U with
  | none => cases h
  | some U =>
    dsimp only at h
    obtain ⟨T, _, h⟩ := Except.bind_ok.1 h
    injection h with h
    subst h
    exact nan_mm_row I p hn p'

theorem nan_torchReweight {env : Env ρ K} {e : Fin N → K} {x y : Mat d N K}
    (h : torchReweight env x e = .ok y) (a : Fin d) (p p' : Fin N) (hn : I.nan (x a p)) :
    I.nan (y a p') := by
  unfold torchReweight at h
  obtain ⟨mx, _, h⟩ := Except.bind_ok.1 h
  obtain ⟨T, _, h⟩ := Except.bind_ok.1 h
  injection h with h
  subst h
  exact nan_mm_row I p (I.nan_mul_right hn) p'

theorem nan_ottoSlice_one {env : Env ρ K} {c : Cfg d N M K} {t : K} {x y : Mat d N K} {r r' : ρ}
    (h : ottoSlice env c 1 t x r = .ok (y, r')) (a : Fin d) (p : Fin N) (hn : I.nan (x a p)) :
    I.nan (y a p) := by
  unfold ottoSlice at h
  rw [if_pos rfl] at h
  obtain ⟨raw, r1, h1, h⟩ := RandM.bind_ok.1 h
  have hr := nan_noisyStep I h1 a p hn
  split at h
  · exact nan_ottoReweight I (RandM.lift_ok.1 h).1 a p p hr
  · obtain ⟨rfl, _⟩ := RandM.pure_ok.1 h
    exact hr

theorem nan_torchOttoSlice_one {env : Env ρ K} {c : Cfg d N M K} {t : K} {x y : Mat d N K} {r r' : ρ}
    (h : torchOttoSlice env c 1 t x r = .ok (y, r')) (a : Fin d) (p : Fin N) (hn : I.nan (x a p)) :
    I.nan (y a p) := by
  unfold torchOttoSlice at h
  rw [if_pos rfl] at h
  obtain ⟨raw, r1, h1, h⟩ := RandM.bind_ok.1 h
  have hr := nan_noisyStep I h1 a p hn
  split at h
  · have h2 := (RandM.lift_ok.1 h).1
    unfold torchOttoRw at h2
    cases hU : c.U with
    | none => rw [hU] at h2; cases h2
    | some U =>
      rw [hU] at h2
      exact nan_torchReweight I h2 a p p hr
  · obtain ⟨rfl, _⟩ := RandM.pure_ok.1 h
    exact hr

/-- A numpy Otto step succeeds only on a cloud with finite ranges. -/
theorem ottoSlice_range {env : Env ρ K} {c : Cfg d N M K} {i : Nat} {t : K} {x y : Mat d N K} {r r' : ρ}
    (hi : i ≠ 1) (h : ottoSlice env c i t x r = .ok (y, r')) (a : Fin d) :
    ∃ l u, npMin (x a) = .ok l ∧ npMax (x a) = .ok u ∧ NumOps.isFinite (u - l) = true := by
  unfold ottoSlice at h
  rw [if_neg hi] at h
  obtain ⟨raw, r1, h1, _⟩ := RandM.bind_ok.1 h
  unfold ottoStep at h1
  obtain ⟨v, r2, h2, _⟩ := RandM.bind_ok.1 h1
  unfold fSeperate at h2
  obtain ⟨gp, r3, h3, _⟩ := RandM.bind_ok.1 h2
  unfold scoreAtParticles at h3
  obtain ⟨bn, r0, h0, h3⟩ := RandM.bind_ok.1 h3
  obtain ⟨bn', r0', h0g, h3⟩ := RandM.bind_ok.1 h3
  rw [optGuard_ok (RandM.lift_ok.1 h0g).1] at h3
  obtain ⟨S, r1, h4, _⟩ := RandM.bind_ok.1 h3
  obtain ⟨l, u, hl, hu, he⟩ := boxOf_get (RandM.lift_ok.1 h0).1 a
  have := (npInducing_get h4 a).1
  rw [he] at this
  exact ⟨l, u, hl, hu, this⟩

theorem ottoSlice_no_nan {env : Env ρ K} {c : Cfg d N M K} {i : Nat} {t : K} {x y : Mat d N K} {r r' : ρ}
    (hi : i ≠ 1) (h : ottoSlice env c i t x r = .ok (y, r')) (a : Fin d) (p : Fin N) : ¬ I.nan (x a p) := by
  obtain ⟨l, u, hl, hu, hf⟩ := ottoSlice_range hi h a
  exact fun hn => not_nan_of_range I hf (nan_npMin I hl p hn)

theorem torchOttoSlice_no_nan {env : Env ρ K} {c : Cfg d N M K} {i : Nat} {t : K} {x y : Mat d N K}
    {r r' : ρ} (hi : i ≠ 1) (h : torchOttoSlice env c i t x r = .ok (y, r')) (a : Fin d) (p : Fin N) :
    ¬ I.nan (x a p) := by
  unfold torchOttoSlice at h
  rw [if_neg hi] at h
  obtain ⟨raw, r1, h1, _⟩ := RandM.bind_ok.1 h
  unfold torchOttoStep at h1
  obtain ⟨v, r2, h2, _⟩ := RandM.bind_ok.1 h1
  exact torchFSeperate_no_nan I h2 a p

/-- Slices 0 and 1 of a chain whose first step carries NaN on and whose second step refuses it. -/
theorem chain_start_no_nan {step : Nat → K → Mat d N K → RandM ρ (Mat d N K)} {ts : List K}
    {x : Mat d N K} {ys : Traj d N K} {r r' : ρ} (h : chain step 1 ts x r = .ok (ys, r'))
    (h2 : 2 ≤ ts.length) (a : Fin d) (p : Fin N)
    (one : ∀ t x y r r', step 1 t x r = .ok (y, r') → I.nan (x a p) → I.nan (y a p))
    (two : ∀ t x y r r', step 2 t x r = .ok (y, r') → ¬ I.nan (x a p)) (i : Nat) (hi : i ≤ 1)
    (w : Mat d N K) (hw : (x :: ys)[i]? = some w) : ¬ I.nan (w a p) := by
  obtain ⟨hl, rs, _, _, hs⟩ := chain_ok_iff.1 h
  obtain ⟨t1, ht1⟩ := get_of_lt (l := ts) (i := 0) (by omega)
  obtain ⟨t2, ht2⟩ := get_of_lt (l := ts) (i := 1) (by omega)
  obtain ⟨y1, hy1⟩ := get_of_lt (l := x :: ys) (i := 1) (by simp; omega)
  obtain ⟨y2, hy2⟩ := get_of_lt (l := x :: ys) (i := 2) (by simp; omega)
  have s1 := hs 0 t1 x y1 ht1 rfl hy1
  have s2 := hs 1 t2 y1 y2 ht2 hy1 hy2
  have n1 := two _ _ _ _ _ s2
  have hi' : i = 0 ∨ i = 1 := by omega
  rcases hi' with rfl | rfl
  · cases hw
    exact fun hn => n1 (one _ _ _ _ _ s1 hn)
  · rw [hy1] at hw; cases hw
    exact n1

/-! ### Errors of the drift with score correction -/

theorem seqM_error_of {α : Type} {e : PyErr} : ∀ {n : Nat} {f : Fin n → RandM ρ α} (i : Fin n)
    (_ : ∀ j r e', f j r = .error e' → e' = e) (_ : ∀ r, f i r = .error e) (r : ρ),
    seqM n f r = .error e
  | 0, _, i, _, _, _ => i.elim0
  | n+1, f, i, h1, h2, r => by
    rw [seqM, RandM.bind_app]
    cases h0 : f 0 r with
    | error e' => rw [h1 0 r e' h0]
    | ok v =>
      obtain ⟨v, r1⟩ := v
      cases i using Fin.cases with
      | zero => rw [h2 r] at h0; cases h0
      | succ i =>
        dsimp only
        rw [RandM.bind_app, seqM_error_of i (fun j => h1 j.succ) h2 r1]

theorem npUniform_error {env : Env ρ K} {l u : K} {r : ρ} {e : PyErr}
    (h : npUniform env l u M r = .error e) : e = .overflowError := by
  unfold npUniform at h
  split at h
  · cases h
  · injection h with h; exact h.symm

theorem boxOf_total (hN : 0 < N) (x : Mat d N K) : ∃ bn, boxOf x = .ok bn := by
  choose xl h1 using fun a => npMin_total hN (x a)
  choose xh h2 using fun a => npMax_total hN (x a)
  refine ⟨fun a => (xl a, xh a), ?_⟩
  unfold boxOf
  exact seqM_except_ok.2 fun a => by rw [h1, h2]; rfl

theorem torchBox_total (hN : 0 < N) (x : Mat d N K) : ∃ bn, torchBox x = .ok bn := by
  choose xl h1 using fun a => torchMin_total hN (x a)
  choose xh h2 using fun a => torchMax_total hN (x a)
  refine ⟨fun a => (xl a, xh a), ?_⟩
  unfold torchBox
  exact seqM_except_ok.2 fun a => by rw [h1, h2]; rfl

theorem fSeperate_nan (pl : Bool) (env : Env ρ K) (kern : String) (g : K) (f : Drift d N K) (x : Mat d N K) (t : K)
    (a : Fin d) (p : Fin N) (h : I.nan (x a p)) (r : ρ) :
    fSeperate pl env M kern g f x t r
      = .error (if pl = true ∧ d < 2 then .indexError else .overflowError) := by
  have hN : 0 < N := by have := p.2; omega
  unfold fSeperate scoreAtParticles
  obtain ⟨bn, hb⟩ := boxOf_total hN x
  rw [hb, RandM.liftM_ok, pure_bind]
  obtain ⟨l, u, hl, hu, he⟩ := boxOf_get hb a
  by_cases hpl : pl = true ∧ d < 2
  · have hg : plotGuard bn = .error .indexError := by
      unfold plotGuard
      rw [if_neg, if_neg (by omega)]
      rw [I.isFinite_nan (I.nan_sum a (I.nan_add_left (by rw [he]; exact nan_npMin I hl p h)))]
      simp
    rw [if_pos hpl, if_pos hpl.1, hg]
    rfl
  rw [if_neg hpl]
  have hg : (if pl = true then plotGuard bn else .ok bn) = .ok bn := by
    cases hp : pl with
    | false => rfl
    | true => exact plotGuard_finite (.inr (by by_contra hd; exact hpl ⟨hp, by omega⟩))
  rw [hg, RandM.liftM_ok, pure_bind]
  have : npInducing env bn M r = .error .overflowError := by
    unfold npInducing
    refine seqM_error_of a (fun j r e' => npUniform_error) (fun r => ?_) r
    unfold npUniform
    rw [he, if_neg]
    dsimp only
    rw [I.isFinite_nan (I.nan_sub_right (nan_npMin I hl p h))]
    simp
  rw [RandM.bind_app, RandM.bind_app, this]

theorem torchFSeperate_nan (env : Env ρ K) (g : K) (f : Drift d N K) (x : Mat d N K) (t : K)
    (a : Fin d) (p : Fin N) (h : I.nan (x a p)) (r : ρ) :
    torchFSeperate env M g f x t r = .error .valueError := by
  have hN : 0 < N := by have := p.2; omega
  unfold torchFSeperate
  obtain ⟨bn, hb⟩ := torchBox_total hN x
  rw [hb, RandM.liftM_ok, pure_bind]
  obtain ⟨l, u, hl, hu, he⟩ := torchBox_get hb a
  have : torchInducing env bn M r = .error .valueError := by
    unfold torchInducing
    rw [if_neg]
    intro hall
    have := (List.all_eq_true.1 hall) a (List.mem_finRange a)
    rw [he] at this
    dsimp only at this
    rw [I.ltB_nan (Or.inl (nan_torchMin I hl p h))] at this
    cases this
  rw [RandM.bind_app, this]

/-! ### Queries -/

theorem torchCalculateU_edge (env : Env ρ K) (o : Obj d N M K) (x : Mat n c K) (ti : Int)
    (b z zr : Mat d N K) (hN : 0 < N)
    (hb : pyAt o.B ti = some b) (hz : pyAt o.Z ti = some z) (hr : reference o ti = some zr)
    (he : Edge o.timegrid.length ti) :
    torchCalculateU env o x ti = ((liftM (edgeU torchStd b zr x) : RandM ρ (Mat c n K)) >>= fun u =>
      pure (⟨c, n, u⟩ : Dyn2 K)) := by
  unfold torchCalculateU
  unfold reference at hr
  rw [pyGet_of_pyAt hb, pyGet_of_pyAt hz]
  simp only [RandM.liftM_ok, pure_bind,
    if_pos (show ti ≤ 5 ∨ (o.timegrid.length : Int) - 5 ≤ ti from he)]
  obtain ⟨bn, hbn⟩ := hullBox_total hN zr b
  cases hm : (o.cfg.reweight && o.cfg.brownBridge) with
  | false =>
    rw [hm] at hr
    simp only [Bool.false_eq_true, if_false] at hr
    rw [hr] at hz; cases hz
    simp only [RandM.liftM_ok, pure_bind, Option.getD_none]
    rw [hbn, RandM.liftM_ok, pure_bind]
  | true =>
    rw [hm] at hr
    simp only [if_true] at hr
    cases hT : o.Ztr with
    | none => rw [hT] at hr; cases hr
    | some T =>
      rw [hT] at hr
      simp only [Option.bind_some] at hr
      simp only [pyGet_of_pyAt hr, Except.ok_bind', RandM.liftM_ok, pure_bind, Option.getD_some]
      rw [hbn, RandM.liftM_ok, pure_bind]

/-- Both queries at an edge, `d` columns. -/
theorem edge_queries (env : Env ρ K) (o : Obj d N M K) (x : Mat n d K) (ti : Int)
    (b z zr : Mat d N K) (hN : 0 < N)
    (hb : pyAt o.B ti = some b) (hz : pyAt o.Z ti = some z) (hr : reference o ti = some zr)
    (he : Edge o.timegrid.length ti) (r : ρ) :
    calculateU env o x ti r = .ok (fun a j => gaussU npStd (b a) (zr a) (x j a), r) ∧
    torchCalculateU env o x ti r = .ok (⟨d, n, fun a j => gaussU torchStd (b a) (zr a) (x j a)⟩, r) := by
  have e : ∀ std : {n : Nat} → (Fin n → K) → K,
      edgeU std b zr x = .ok fun a j => gaussU std (b a) (zr a) (x j a) := by
    intro std
    rw [edgeU_ok std b zr x (le_refl d)]
    congr 1
    funext a j
    rw [dif_pos a.2]
  constructor
  · obtain ⟨bn, hbn⟩ := interBox_total hN zr b
    rw [calculateU_edge env o x ti b z zr bn hb hz hr hbn he, e]; rfl
  · rw [torchCalculateU_edge env o x ti b z zr hN hb hz hr he, e]; rfl

theorem nan_gaussU_b (std : {n : Nat} → (Fin n → K) → K) (b z : Fin N → K) (x : K) (p : Fin N)
    (h : I.nan (b p)) : I.nan (gaussU std b z x) :=
  I.nan_sub_left (I.nan_div_left (I.nan_neg (I.nan_sub_right (nan_mean I p h))))

/-- Division of anything by the square of a zero or NaN. -/
theorem not_fin_div_sq {a s : K} (h : I.zero s ∨ I.nan s) : ¬ I.fin (a / sq s) := by
  rcases h with h | h
  · exact I.div_zero (zero_sq I h)
  · exact I.nan_not_fin (I.nan_div_right (nan_sq I h))

theorem gaussU_same_nan (std : {n : Nat} → (Fin n → K) → K) (b : Fin N → K) (x : K)
    (h : I.zero (std b) ∨ I.nan (std b)) : I.nan (gaussU std b b x) :=
  I.sub_self_of_not_fin (not_fin_div_sq I h)

theorem gaussU_not_fin (std : {n : Nat} → (Fin n → K) → K) (b z : Fin N → K) (x : K)
    (h : I.zero (std b) ∨ I.nan (std b)) : ¬ I.fin (gaussU std b z x) :=
  I.sub_of_not_fin (not_fin_div_sq I h)

theorem pyAt_first {α : Type} {l : List α} {ti : Int} (h0 : 0 < l.length)
    (h : ti = 0 ∨ ti = -(l.length : Int)) : pyAt l ti = l[0]? := by
  unfold pyAt
  rcases h with rfl | rfl
  · simp
  · rw [if_neg (by omega), if_pos (by omega), show (-(l.length : Int) + l.length).toNat = 0 by omega]

theorem pyAt_last {α : Type} {l : List α} {ti : Int} (h0 : 0 < l.length)
    (h : ti = (l.length : Int) - 1 ∨ ti = -1) : pyAt l ti = l[l.length - 1]? := by
  unfold pyAt
  rcases h with rfl | rfl
  · rw [if_pos (by omega), show ((l.length : Int) - 1).toNat = l.length - 1 by omega]
  · rw [if_neg (by omega), if_pos (by omega), show (-1 + (l.length : Int)).toNat = l.length - 1 by omega]

end
end DPFC
