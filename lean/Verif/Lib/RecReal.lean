import Verif.Spec.Recurrence
import Verif.Lib.Examples

/-! The chains of slices over the reals satisfy the specified recurrences. -/

namespace DPFC
open Spec

variable {ρ : Type} {N M d : ℕ}

theorem softmax_real (v : Fin N → ℝ) : normWeights (fun n => NumOps.exp (v n)) = softmax v := rfl

theorem reweightOT_ok (env : Env ρ ℝ) (x : Mat d N ℝ) (v : Fin N → ℝ) (y : Mat d N ℝ) :
    (reweightOT env (tr x) (softmax v) >>= fun T => Except.ok (mm x T)) = .ok y ↔
      TransportedTo env v x y := by
  have hD : (fun i j => if i = j then (lit 0 1 : ℝ) else
      NumOps.sqrt (NumOps.sum fun k => sq (tr x i k - tr x j k))) = pdist x := by
    funext i j
    by_cases h : i = j
    · subst h; simp [pdist]
    · rw [if_neg h]; simp only [pdist, real_sqrt, real_sum, real_sq, tr]
  have hb : (fun _ : Fin N => (lit 1 1 : ℝ) / lit N 1) = fun _ => 1 / (N : ℝ) := by
    funext _; simp
  unfold reweightOT TransportedTo
  simp only [hD, hb]
  constructor
  · intro h
    obtain ⟨T, hT, h2⟩ := Except.bind_ok.1 h
    obtain ⟨P, hP, h3⟩ := Except.bind_ok.1 hT
    refine ⟨P, hP, ?_⟩
    cases h2
    cases h3
    intro a n
    simp [mm]
  · rintro ⟨T, hT, hy⟩
    rw [hT]
    simp only [Except.ok_bind']
    congr 1
    funext a n
    rw [hy]
    simp [mm]

theorem ottoReweight_ok (env : Env ρ ℝ) (U : Option (Constraint d N ℝ)) (x y : Mat d N ℝ) (t : ℝ) :
    ottoReweight env U x t = .ok y ↔
      ∃ u, U = some u ∧ TransportedTo env (fun n => u.call2 x t n * (1/1000)) x y := by
  cases U with
  | none => simp [ottoReweight]
  | some u =>
    simp only [ottoReweight, dtc_real, Option.some.injEq, exists_eq_left']
    exact reweightOT_ok env x _ y

theorem stochReweight_ok (env : Env ρ ℝ) (U : Option (Constraint d N ℝ)) (x y : Mat d N ℝ) :
    stochReweight env U x = .ok y ↔
      ∃ u v, U = some u ∧ u.call1 = some v ∧ TransportedTo env (v x) x y := by
  cases U with
  | none => simp [stochReweight]
  | some u =>
    cases hu : u.call1 with
    | none => simp [stochReweight, hu]
    | some v =>
      simp only [stochReweight, hu, Option.some.injEq, exists_eq_left', exists_and_left]
      exact reweightOT_ok env x _ y

theorem rawStep_spec (env : Env ρ ℝ) (hN : 0 < N) (f : Drift d N ℝ) (g : ℝ) (i : ℕ) (t : ℝ)
    (x y : Mat d N ℝ) (r r' : ρ)
    (h : (if 1 + i = 1 then noisyStep env g f x t else ottoStep pl env M "RBF" g f x t) r = .ok (y, r')) :
    ForwardStep env M f g i t x y r r' := by
  by_cases hi : i = 0
  · subst hi
    rw [if_pos rfl, noisyStep_real] at h
    cases h
    exact ⟨fun _ => ⟨rfl, rfl⟩, fun h => absurd rfl h⟩
  · rw [if_neg (by omega), ottoStep_real _ env hN] at h
    cases h
    exact ⟨fun h => absurd h hi, fun _ => ⟨fun _ => rfl, rfl⟩⟩

theorem grid_time {t1 t2 : ℝ} {i : ℕ} {ti tt : ℝ} (h : (mkGrid t1 t2)[i]? = some ti)
    (h' : (mkGrid t1 t2)[i+1]? = some tt) : tt = ti + 1/1000 := by
  rw [((mkGrid_getElem_real _ _ _ _).1 h).1, ((mkGrid_getElem_real _ _ _ _).1 h').1]
  push_cast; ring

theorem grid_get {t1 t2 : ℝ} {i : ℕ} (h : i < (mkGrid t1 t2).length) :
    ∃ t, (mkGrid t1 t2)[i]? = some t := ⟨_, List.getElem?_eq_getElem h⟩

theorem ottoChain_spec (env : Env ρ ℝ) (c : Cfg d N M ℝ) (hN : 0 < N) (hk : effKern c.kern = "RBF")
    (ys : Traj d N ℝ) (r r' : ρ) (h2 : 2 ≤ (mkGrid c.t1 c.t2).length)
    (h : chain (ottoSlice env c) 1 (mkGrid c.t1 c.t2).tail (pt N c.y1) r = .ok (ys, r')) :
    ∃ rs : ℕ → ρ, rs 0 = r ∧ rs ((mkGrid c.t1 c.t2).length - 1) = r' ∧
      ForwardRec env c (fun i => (pt N c.y1 :: ys)[i]?) (fun i => (mkGrid c.t1 c.t2)[i]?) rs := by
  obtain ⟨hl, rs, h0, h1, hs⟩ := chain_ok_iff.1 h
  rw [List.length_tail] at h1 hl
  refine ⟨rs, h0, h1, ?_⟩
  intro i x y ti hx hy ht
  have hi : i + 1 < (mkGrid c.t1 c.t2).length := by
    have := (List.getElem?_eq_some_iff.1 hy).1
    rw [List.length_cons] at this; omega
  obtain ⟨tt, htt⟩ := grid_get hi
  have htt' : (mkGrid c.t1 c.t2).tail[i]? = some tt := by
    rw [List.getElem?_tail]; exact htt
  have hst := hs i tt x y htt' hx hy
  have hti : tt - dtc = ti := by rw [grid_time ht htt, dtc_real]; ring
  rw [ottoSlice_bind, hk, hti] at hst
  obtain ⟨raw, rm, hraw, hrw⟩ := RandM.bind_ok.1 hst
  refine ⟨raw, ?_, ?_, ?_⟩
  · have := rawStep_spec env hN c.f c.g i ti x raw (rs i) rm hraw
    have hrm : rm = rs (i+1) := by
      split at hrw
      · exact ((RandM.lift_ok).1 hrw).2
      · exact ((RandM.pure_ok).1 hrw).2
    rwa [hrm] at this
  · intro hf
    rw [hf] at hrw
    exact ((RandM.pure_ok).1 hrw).1.symm
  · intro hf
    rw [hf, if_pos rfl] at hrw
    have := ((RandM.lift_ok).1 hrw).1
    rw [grid_time ht htt] at this
    exact (ottoReweight_ok env c.U raw y _).1 this

theorem trueChain_spec (env : Env ρ ℝ) (c : Cfg d N M ℝ) (hN : 0 < N) (hk : effKern c.kern = "RBF")
    (ys : Traj d N ℝ) (r r' : ρ) (h2 : 2 ≤ (mkGrid c.t1 c.t2).length)
    (h : chain (trueSlice env c) 1 (mkGrid c.t1 c.t2).tail (pt N c.y1) r = .ok (ys, r')) :
    ∃ rs : ℕ → ρ, rs 0 = r ∧ rs ((mkGrid c.t1 c.t2).length - 1) = r' ∧
      TrueRec env c (fun i => (pt N c.y1 :: ys)[i]?) (fun i => (mkGrid c.t1 c.t2)[i]?) rs := by
  obtain ⟨hl, rs, h0, h1, hs⟩ := chain_ok_iff.1 h
  rw [List.length_tail] at h1 hl
  cases hf : c.fTrue with
  | none =>
    exfalso
    obtain ⟨tt, htt⟩ := grid_get (t1 := c.t1) (t2 := c.t2) (i := 1) (by omega)
    have hy : (pt N c.y1 :: ys)[0+1]? = some (ys[0]'(by omega)) := by
      simp
    have := hs 0 tt _ _ (by rw [List.getElem?_tail]; exact htt) rfl hy
    simp [trueSlice, hf] at this
  | some ft =>
    refine ⟨rs, h0, h1, ft, hf, ?_⟩
    intro i x y ti hx hy ht
    have hi : i + 1 < (mkGrid c.t1 c.t2).length := by
      have := (List.getElem?_eq_some_iff.1 hy).1
      rw [List.length_cons] at this; omega
    obtain ⟨tt, htt⟩ := grid_get hi
    have htt' : (mkGrid c.t1 c.t2).tail[i]? = some tt := by
      rw [List.getElem?_tail]; exact htt
    have hst := hs i tt x y htt' hx hy
    have hti : tt - dtc = ti := by rw [grid_time ht htt, dtc_real]; ring
    simp only [trueSlice, hf, hk, hti] at hst
    exact rawStep_spec env hN ft c.g i ti x y _ _ hst

theorem visits_get {Z : Traj d N ℝ} {grid : List ℝ} (hl : Z.length = grid.length) {s : ℕ}
    {z : Mat d N ℝ} {t : ℝ} (hs : s + 2 < grid.length)
    (hz : Z[grid.length - 1 - s]? = some z) (ht : grid[grid.length - 1 - s]? = some t) :
    (visits Z grid)[s]? = some (z, t) := by
  unfold visits
  have hlen : ((Z.zip grid).drop 2).length = grid.length - 2 := by simp [hl]
  rw [List.getElem?_reverse (by rw [hlen]; omega), hlen, List.getElem?_drop]
  have : 2 + (grid.length - 2 - 1 - s) = grid.length - 1 - s := by omega
  rw [this]
  exact List.getElem?_zip_eq_some.2 ⟨hz, ht⟩

theorem visits_length {Z : Traj d N ℝ} {grid : List ℝ} (hl : Z.length = grid.length) :
    (visits Z grid).length = grid.length - 2 := by simp [visits, hl]

theorem backChain_spec (env : Env ρ ℝ) (c : Cfg d N M ℝ) (hN : 0 < N) (hk : effKern c.kern = "RBF")
    (Z bs : Traj d N ℝ) (grid : List ℝ) (r r' : ρ) (h2 : 2 ≤ grid.length)
    (hZ : Z.length = grid.length)
    (h : chain (npBack env c) 1 (visits Z grid) (pt N c.y2) r = .ok (bs, r')) :
    ∃ rs : ℕ → ρ, rs (grid.length - 2) = r ∧ rs 0 = r' ∧
      BackwardRec env c grid.length (fun i => Z[i]?)
        (fun i => (pt N c.y1 :: (bs.reverse ++ [pt N c.y2]))[i]?) (fun i => grid[i]?) rs := by
  obtain ⟨hl, rs, h0, h1, hs⟩ := chain_ok_iff.1 h
  rw [visits_length hZ] at h1 hl
  refine ⟨fun j => rs (grid.length - 2 - j), by simp [h0], by simpa using h1, ?_⟩
  intro j z b y tj hj1 hj2 hz hb hy ht
  simp only at hz hb hy ht
  have key : ∀ i, i ≤ bs.length → (pt N c.y1 :: (bs.reverse ++ [pt N c.y2]))[i+1]?
      = (pt N c.y2 :: bs)[bs.length - i]? := by
    intro i hi
    rw [List.getElem?_cons_succ]
    by_cases he : i = bs.length
    · subst he
      rw [List.getElem?_append_right (by simp)]
      simp
    · rw [List.getElem?_append_left (by simp; omega), List.getElem?_reverse (by omega)]
      obtain ⟨m, hm⟩ : ∃ m, bs.length - i = m + 1 := ⟨bs.length - i - 1, by omega⟩
      rw [hm, List.getElem?_cons_succ]
      congr 1; omega
  have hs' : (grid.length - 2 - j) + 2 < grid.length := by omega
  have hzt := visits_get hZ (s := grid.length - 2 - j) (z := z) (t := tj) hs'
    (by rw [show grid.length - 1 - (grid.length - 2 - j) = j + 1 by omega]; exact hz)
    (by rw [show grid.length - 1 - (grid.length - 2 - j) = j + 1 by omega]; exact ht)
  have hb' : (pt N c.y2 :: bs)[grid.length - 2 - j]? = some b := by
    have := key j (by omega)
    rw [hb, hl] at this
    rw [← this]
  have hy' : (pt N c.y2 :: bs)[grid.length - 2 - j + 1]? = some y := by
    obtain ⟨i, rfl⟩ : ∃ i, j = i + 1 := ⟨j - 1, by omega⟩
    have := key i (by omega)
    rw [hy, hl] at this
    rw [← show grid.length - 2 - i = grid.length - 2 - (i+1) + 1 by omega, ← this]
  have hst := hs _ _ b y hzt hb' hy'
  have hnext : grid.length - 2 - (j - 1) = grid.length - 2 - j + 1 := by omega
  simp only [hnext]
  simp only [npBack, backStep, hk] at hst
  rw [RandM.bind_app, densityAt_real env hN] at hst
  simp only at hst
  have hiff : ((1 + (grid.length - 2 - j) = 1 ∧ c.deterministic = true) ∨ c.deterministic = false)
      ↔ (j + 2 = grid.length ∨ c.deterministic = false) := by
    cases c.deterministic
    · simp
    · simp; omega
  refine ⟨fun hc => ?_, fun hc => ?_⟩
  · rw [if_pos (hiff.2 hc), RandM.bind_app, normalMat_real] at hst
    simp only [RandM.pure_app, dtc_real, real_sq, real_sqrt] at hst
    injection hst with hst
    injection hst with hst1 hst2
    exact ⟨fun _ => hst1.symm, hst2.symm⟩
  · rw [if_neg (fun h => hc (hiff.1 h)), RandM.bind_app, bwDensityAt_real env hN] at hst
    simp only [RandM.pure_app, dtc_real, real_sq, real_lit_half] at hst
    injection hst with hst
    injection hst with hst1 hst2
    refine ⟨fun _ _ => ?_, hst2.symm⟩
    rw [← hst1]
    funext a n
    simp only [scoreRho, scoreB]
    ring

end DPFC
