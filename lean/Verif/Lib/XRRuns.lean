import Verif.Lib.XRTotal

/-! Concrete runs of the numpy class over exact arithmetic with special values. -/

set_option linter.unusedSectionVars false

namespace DPFC
open Spec
namespace XR

attribute [local instance] exOps

variable {N M d n : ℕ} {ρ : Type}

theorem mem_visits {K : Type} {Z : Traj d N K} {ts : List K} {zt : Mat d N K × K} (h : zt ∈ visits Z ts) :
    ∃ j, 2 ≤ j ∧ Z[j]? = some zt.1 := by
  unfold visits at h
  rw [List.mem_reverse] at h
  obtain ⟨j, hj, e⟩ := List.getElem_of_mem h
  refine ⟨2 + j, by omega, ?_⟩
  rw [List.getElem_drop, List.getElem_zip] at e
  rw [← e]
  exact List.getElem?_eq_getElem _

/-- Lengthscales of a finite cloud with spread. -/
theorem pos_scales (hN : 0 < N) {x : Mat d N XR} {w : Mat d N ℝ} (h : ∀ a n, x a n = fin (w a n))
    (hs : ∀ a, sdev (w a) ≠ 0) (a : Fin d) : Pos (lengthScales x a) := by
  refine ⟨2 * sdev (w a), mul_ne_zero two_ne_zero (hs a), ?_⟩
  unfold lengthScales
  rw [show x a = fun i => fin (w a i) from funext (h a), npStd_lift hN]
  change fin ((((2:ℤ):ℝ) / ((1:ℕ):ℝ)) * sdev (w a)) = _
  norm_num

theorem F_scoreAtParticles (pl : Bool) (hN : 0 < N) {env : Env ρ XR} (hu : ∀ r, F (env.uniform r).1) {x : Mat d N XR}
    (hx : FM x) (hl : ∀ a, Pos (lengthScales x a)) (r : ρ) :
    ∃ v r', scoreAtParticles pl env M "RBF" x r = .ok (v, r') ∧ FM v := by
  obtain ⟨bn, hb⟩ := boxOf_total hN x
  have hbF : ∀ a, F (bn a).1 ∧ F (bn a).2 := fun a => by
    obtain ⟨l, u, h1, h2, h3⟩ := boxOf_get hb a
    rw [h3]
    exact ⟨F_npMin (hx a) h1, F_npMax (hx a) h2⟩
  obtain ⟨S, r1, h1⟩ := npInducing_total (M := M) env bn (fun a => by
    obtain ⟨y, hy⟩ := F_sub (hbF a).2 (hbF a).1
    rw [hy]; rfl) r
  have hS := F_npInducing hu hbF h1
  obtain ⟨v, h2, h3⟩ := seqM_lift_total (ρ := ρ) (fun di : Fin d =>
    scoreSep_total invTotal (tr x) (tr S) (lit 1 1000) (.vec (lengthScales x)) di) r1
  refine ⟨v, r1, ?_, fun a p => F_scoreSep (fun p a => hx a p) (fun m a => hS a m) hl (h3 a) p⟩
  unfold scoreAtParticles
  have hg : (if pl = true then plotGuard bn else .ok bn) = .ok bn := optGuard_finite pl (.inl (by
    obtain ⟨y, hy⟩ := F_sum fun a => F_add (hbF a).1 (hbF a).2
    rw [hy]; rfl))
  rw [hb, RandM.liftM_ok, pure_bind, hg, RandM.liftM_ok, pure_bind]
  exact RandM.bind_ok.2 ⟨S, r1, h1, h2⟩

theorem F_densityAt (hN : 0 < N) {env : Env ρ XR} (hu : ∀ r, F (env.uniform r).1) {z b : Mat d N XR}
    (hz : FM z) (hl : ∀ a, Pos (lengthScales z a)) (hb : FM b) (r : ρ) :
    ∃ v r', densityAt env M "RBF" z b r = .ok (v, r') ∧ FM v := by
  obtain ⟨bn, hbn⟩ := interBox_total hN z b
  obtain ⟨S, r1, h1⟩ := npInducing_total (M := M) env bn (finiteBox hN hz (.inl hb) bn hbn).2 r
  have hS := F_npInducing hu (finiteBox_bounds hN hz (.inl hb) hbn) h1
  obtain ⟨v, h2, h3⟩ := seqM_lift_total (ρ := ρ) (fun di : Fin d =>
    scoreSepFn_total invTotal (tr z) (tr S) (lit 1 1000) (lengthScales z) di (tr b)) r1
  refine ⟨v, r1, ?_, fun a p => F_scoreSepFn (fun p a => hz a p) (fun m a => hS a m) hl
    (fun p a => hb a p) (h3 a) p⟩
  unfold densityAt
  rw [hbn, RandM.liftM_ok, pure_bind, (finiteBox hN hz (.inl hb) bn hbn).1, RandM.liftM_ok, pure_bind]
  exact RandM.bind_ok.2 ⟨S, r1, h1, h2⟩

theorem F_bwDensityAt (hN : 0 < N) {env : Env ρ XR} (hu : ∀ r, F (env.uniform r).1) {z b : Mat d N XR}
    (hz : FM z) (hb : FM b) (hl : ∀ a, Pos (lengthScales b a)) (r : ρ) :
    ∃ v r', bwDensityAt env M "RBF" z b r = .ok (v, r') ∧ FM v := by
  obtain ⟨bn, hbn⟩ := interBox_total hN z b
  obtain ⟨S, r1, h1⟩ := npInducing_total (M := M) env bn (finiteBox hN hz (.inl hb) bn hbn).2 r
  have hS := F_npInducing hu (finiteBox_bounds hN hz (.inl hb) hbn) h1
  obtain ⟨v, h2, h3⟩ := seqM_lift_total (ρ := ρ) (fun di : Fin d =>
    scoreSep_total invTotal (tr b) (tr S) (lit 1 1000) (.vec (lengthScales b)) di) r1
  refine ⟨v, r1, ?_, fun a p => F_scoreSep (fun p a => hb a p) (fun m a => hS a m) hl (h3 a) p⟩
  unfold bwDensityAt
  rw [hbn, RandM.liftM_ok, pure_bind]
  exact RandM.bind_ok.2 ⟨S, r1, h1, h2⟩

/-- Draws: all normals are 1, all uniforms one half. -/
noncomputable def xrEnv : Env ℕ XR where
  normal r := (fin 1, r + 1)
  uniform r := (fin (1/2), r + 1)
  emd _ _ _ := .error .valueError

theorem xrEnv_F (r : ℕ) : F (xrEnv.uniform r).1 := ⟨_, rfl⟩

/-- Deterministic mode, `steps` grid steps from 0, no noise, start at the origin; particle `n` drifts with
velocity `n` in each coordinate. -/
noncomputable def xrFan (d N M steps : ℕ) (y2 : Fin d → XR) : Cfg d N M XR where
  t1 := fin 0
  t2 := fin (steps / 1000)
  y1 := fun _ => fin 0
  y2 := y2
  f := ⟨fun _ _ _ n => fin n.val, none⟩
  g := fin 0
  reweight := false
  U := none
  densEst := "nonparametric"
  reject := true
  kern := "RBF"
  fTrue := none
  brownBridge := false
  deterministic := true

/-- Stochastic mode with drift `f(x) = x` and unit noise. -/
noncomputable def xrStoch (d N M steps : ℕ) (y2 : Fin d → XR) : Cfg d N M XR where
  t1 := fin 0
  t2 := fin (steps / 1000)
  y1 := fun _ => fin 0
  y2 := y2
  f := ⟨fun x _ => x, some id⟩
  g := fin 1
  reweight := false
  U := none
  densEst := "nonparametric"
  reject := true
  kern := "RBF"
  fTrue := none
  brownBridge := false
  deterministic := false

theorem xr_grid (steps : ℕ) : (mkGrid (fin 0) (fin (steps / 1000))).length = steps + 1 := by
  unfold mkGrid npArange
  rw [List.length_map, List.length_range]
  have e : (fin ((steps:ℝ) / 1000) + dtc / lit 2 1 - fin 0) / dtc = fin ((steps:ℝ) + 1/2) := by
    have h2 : (((2:ℤ):ℝ) / ((1:ℕ):ℝ)) ≠ 0 := by norm_num
    have h3 : (((1:ℤ):ℝ) / ((1000:ℕ):ℝ)) ≠ 0 := by norm_num
    change (fin ((steps:ℝ) / 1000) + fin (((1:ℤ):ℝ) / ((1000:ℕ):ℝ)) / fin (((2:ℤ):ℝ) / ((1:ℕ):ℝ)) - fin 0)
      / fin (((1:ℤ):ℝ) / ((1000:ℕ):ℝ)) = _
    rw [fin_div h2]
    change fin _ / fin _ = _
    rw [fin_div h3]
    congr 1
    push_cast
    ring
  rw [e]
  change ⌈(steps:ℝ) + 1/2⌉₊ = steps + 1
  rw [Nat.ceil_eq_iff (by omega)]
  constructor <;> push_cast <;> linarith

theorem fan_sdev (hN : 2 ≤ N) (c s : ℝ) (hs : s ≠ 0) : sdev (fun n : Fin N => c + s * n.val) ≠ 0 :=
  sdev_ne_zero (i := ⟨0, by omega⟩) (j := ⟨1, by omega⟩) (by simpa using hs)

theorem dtc_fin : (dtc : XR) = fin (1/1000) := by
  change fin (((1:ℤ):ℝ) / ((1000:ℕ):ℝ)) = _
  norm_num

/-- The cloud after `i` steps of the fan, starting at `c`. -/
def FanAt (c : Fin d → ℝ) (s : ℝ) (x : Mat d N XR) : Prop := ∀ a n, x a n = fin (c a + s * n.val)

theorem FanAt.fm {c : Fin d → ℝ} {s : ℝ} {x : Mat d N XR} (h : FanAt c s x) : FM x :=
  fun a n => ⟨_, h a n⟩

theorem FanAt.pos (hN : 2 ≤ N) {c : Fin d → ℝ} {s : ℝ} (hs : s ≠ 0) {x : Mat d N XR} (h : FanAt c s x)
    (a : Fin d) : Pos (lengthScales x a) :=
  pos_scales (by omega) h (fun a => fan_sdev hN (c a) s hs) a

theorem F_zero_mul {x : XR} : F x → fin 0 * x = fin 0 := by
  rintro ⟨r, rfl⟩; change fin (0 * r) = _; simp

theorem sqrt_dtc : F (NumOps.sqrt (dtc : XR)) := by
  rw [dtc_fin]
  refine ⟨Real.sqrt (1/1000), ?_⟩
  change (if (1/1000 : ℝ) < 0 then nan else fin (Real.sqrt (1/1000))) = _
  rw [if_neg (by norm_num)]

theorem normalMat_xr (d n : ℕ) (s : XR) (hs : F s) (r : ℕ) :
    ∃ xi r', normalMat xrEnv s d n r = .ok (xi, r') ∧ FM xi := by
  refine ⟨_, _, rfl, fun i j => ?_⟩
  obtain ⟨r1, h⟩ := drawMat_mem xrEnv.normal n d r i j
  rw [h]
  exact F_add (F_lit 0 1) (F_mul hs ⟨1, rfl⟩)

theorem fan_forward_step (hN : 2 ≤ N) (steps : ℕ) (y2 : Fin d → XR) (i : ℕ) (hi : 1 ≤ i) (t : XR)
    (x : Mat d N XR) (r : ℕ) (hx : FanAt (fun _ => 0) (((i - 1 : ℕ) : ℝ) / 1000) x) :
    ∃ y r', ottoSlice xrEnv (xrFan d N M steps y2) i t x r = .ok (y, r') ∧
      FanAt (fun _ => 0) (((i + 1 - 1 : ℕ) : ℝ) / 1000) y := by
  have ec : ((i - 1 : ℕ) : ℝ) = i - 1 := by rw [Nat.cast_sub hi]; simp
  have ec2 : ((i + 1 - 1 : ℕ) : ℝ) = i := by simp
  rw [ec] at hx
  unfold ottoSlice
  by_cases h1 : i = 1
  · rw [if_pos h1]
    obtain ⟨xi, r', h2, hxi⟩ := normalMat_xr d N _ sqrt_dtc r
    refine ⟨_, r', RandM.bind_ok.2 ⟨_, r', RandM.bind_ok.2 ⟨xi, r', h2, rfl⟩, rfl⟩, ?_⟩
    intro a n
    change x a n + dtc * fin n.val + fin 0 * xi a n = _
    rw [hx a n, dtc_fin, F_zero_mul (hxi a n)]
    change fin _ = _
    congr 1
    rw [ec2]; ring
  · rw [if_neg h1]
    have hi0 : (i : ℝ) - 1 ≠ 0 := by
      have : (2:ℝ) ≤ i := by exact_mod_cast (by omega : 2 ≤ i)
      intro h; linarith
    obtain ⟨v, r', h2, hv⟩ := F_scoreAtParticles true (M := M) (N := N) (by omega) xrEnv_F hx.fm
      (hx.pos hN (by simpa using hi0)) r
    refine ⟨_, r', RandM.bind_ok.2 ⟨_, r', RandM.bind_ok.2 ⟨_, r', RandM.bind_ok.2 ⟨v, r', h2, rfl⟩, rfl⟩,
      rfl⟩, ?_⟩
    intro a n
    change x a n + dtc * (fin n.val - lit 1 2 * (fin 0 * fin 0) * v a n) = _
    rw [show (fin 0 * fin 0 : XR) = fin 0 by change fin (0*0) = _; simp,
      show (lit 1 2 * fin 0 : XR) = fin 0 by change fin (_ * 0) = _; simp,
      F_zero_mul (hv a n), hx a n, dtc_fin]
    change fin _ = _
    congr 1
    rw [ec2]; ring

theorem fan_backward_step (hN : 2 ≤ N) (steps : ℕ) (w : Fin d → ℝ) (y2 : Fin d → XR)
    (i : ℕ) (hi : 1 ≤ i) (zt : Mat d N XR × XR)
    (hz : FM zt.1 ∧ ∀ a, Pos (lengthScales zt.1 a)) (b : Mat d N XR) (r : ℕ)
    (hb : FanAt w (-(((i - 1 : ℕ) : ℝ) / 1000)) b) :
    ∃ y r', npBack xrEnv (xrFan d N M steps y2) i zt b r = .ok (y, r') ∧
      FanAt w (-(((i + 1 - 1 : ℕ) : ℝ) / 1000)) y := by
  have ec : ((i - 1 : ℕ) : ℝ) = i - 1 := by rw [Nat.cast_sub hi]; simp
  have ec2 : ((i + 1 - 1 : ℕ) : ℝ) = i := by simp
  have z0 : (fin 0 * fin 0 : XR) = fin 0 := by change fin (0*0) = _; simp
  rw [ec] at hb
  unfold npBack backStep
  obtain ⟨v, r1, h1, hv⟩ := F_densityAt (M := M) (N := N) (by omega) xrEnv_F hz.1 hz.2 hb.fm r
  by_cases h : i = 1
  · obtain ⟨xi, r', h2, hxi⟩ := normalMat_xr d N _ sqrt_dtc r1
    refine ⟨fun a n => b a n - fin n.val * dtc + dtc * (fin 0 * fin 0) * v a n + fin 0 * xi a n, r',
      RandM.bind_ok.2 ⟨v, r1, h1, ?_⟩, ?_⟩
    · rw [if_pos (.inl ⟨h, rfl⟩)]
      exact RandM.bind_ok.2 ⟨xi, r', h2, rfl⟩
    · intro a n
      change b a n - fin n.val * dtc + dtc * (fin 0 * fin 0) * v a n + fin 0 * xi a n = _
      rw [F_zero_mul (hxi a n), z0, hb a n, dtc_fin,
        show (fin (1/1000) * fin 0 : XR) = fin 0 by change fin (_*0) = _; simp, F_zero_mul (hv a n)]
      change fin _ = _
      congr 1
      rw [ec2]; ring
  · have hi0 : -(((i : ℝ) - 1) / 1000) ≠ 0 := by
      have : (2:ℝ) ≤ i := by exact_mod_cast (by omega : 2 ≤ i)
      intro h; linarith
    obtain ⟨v2, r2, h2, hv2⟩ := F_bwDensityAt (M := M) (N := N) (by omega) xrEnv_F hz.1 hb.fm
      (hb.pos hN hi0) r1
    refine ⟨fun a n => b a n - (fin n.val - (fin 0 * fin 0) * v a n
      + lit 1 2 * (fin 0 * fin 0) * v2 a n) * dtc, r2, RandM.bind_ok.2 ⟨v, r1, h1, ?_⟩, ?_⟩
    · rw [if_neg (by
        rintro (h' | h')
        · exact h h'.1
        · cases h')]
      exact RandM.bind_ok.2 ⟨v2, r2, h2, rfl⟩
    · intro a n
      change b a n - (fin n.val - (fin 0 * fin 0) * v a n + lit 1 2 * (fin 0 * fin 0) * v2 a n) * dtc = _
      rw [z0, show (lit 1 2 * fin 0 : XR) = fin 0 by change fin (_ * 0) = _; simp,
        F_zero_mul (hv a n), F_zero_mul (hv2 a n), hb a n, dtc_fin]
      change fin _ = _
      congr 1
      rw [ec2]; ring

/-- A backward cloud of NaN stays one, without an exception. -/
theorem nan_backward_step (hN : 0 < N) (hM : 0 < M) (c : Cfg d N M XR) (hk : effKern c.kern = "RBF")
    (i : ℕ) (zt : Mat d N XR × XR) (hz : FM zt.1) (b : Mat d N XR) (r : ℕ) (hb : NM b) :
    ∃ y r', npBack xrEnv c i zt b r = .ok (y, r') ∧ NM y := by
  obtain ⟨y, r', h⟩ := backStep_total (M := M) invTotal xrEnv hN c.f c.g c.deterministic i zt b
    (finiteBox hN hz (.inr hb)) r
  have h' : npBack xrEnv c i zt b r = .ok (y, r') := by unfold npBack; rw [hk]; exact h
  refine ⟨y, r', h', fun a p => ?_⟩
  exact nan_backStep exIeee (fun v r r' hv => nan_densityAt exIeee hM (by decide) hv p a (hb a p) a) h

/-- The numpy class constructs the fan, for finite targets and for targets that are NaN. -/
theorem xrFan_constructs (hN : 2 ≤ N) (hM : 0 < M) (steps : ℕ) (hs : 1 ≤ steps) (y2 : Fin d → XR)
    (hy : (∀ a, F (y2 a)) ∨ ∀ a, y2 a = nan) (r : ℕ) :
    ∃ o r', construct xrEnv (xrFan d N M steps y2) r = .ok (o, r') ∧ o.timegrid.length = steps + 1 := by
  have hg := xr_grid steps
  obtain ⟨ys, r1, h1, hys⟩ := chain_total_keep (ρ := ℕ)
    (step := ottoSlice xrEnv (xrFan d N M steps y2)) (Q := fun _ => True)
    (P := fun i x => 1 ≤ i ∧ FanAt (fun _ => 0) (((i - 1 : ℕ) : ℝ) / 1000) x)
    (fun i t x r _ h => by
      obtain ⟨y, r', h1, h2⟩ := fan_forward_step hN steps y2 i h.1 t x r h.2
      exact ⟨y, r', h1, by omega, h2⟩)
    (mkGrid (fin 0) (fin (steps / 1000))).tail 1 (pt N fun _ => fin 0) r (fun _ _ => trivial)
    ⟨le_refl _, fun a n => by simp [pt]⟩
  have hQ : ∀ zt ∈ visits (pt N (fun _ => fin 0) :: ys) (mkGrid (fin 0) (fin (steps / 1000))),
      FM zt.1 ∧ ∀ a, Pos (lengthScales zt.1 a) := by
    intro zt hzt
    obtain ⟨j, hj, e⟩ := mem_visits hzt
    obtain ⟨j, rfl⟩ : ∃ j', j = j' + 1 := ⟨j - 1, by omega⟩
    have := hys j zt.1 (by simpa using e)
    refine ⟨this.2.fm, this.2.pos hN ?_⟩
    have : ((1 + 1 + j - 1 : ℕ) : ℝ) ≠ 0 := by exact_mod_cast (by omega : 1 + 1 + j - 1 ≠ 0)
    simpa using this
  have hc : ∃ bs r2, chain (npBack xrEnv (xrFan d N M steps y2)) 1
      (visits (pt N (fun _ => fin 0) :: ys) (mkGrid (fin 0) (fin (steps / 1000)))) (pt N y2) r1
        = .ok (bs, r2) := by
    rcases hy with hy | hy
    · choose w hw using hy
      obtain ⟨bs, r2, h2, _⟩ := chain_total_keep (ρ := ℕ)
        (step := npBack xrEnv (xrFan d N M steps y2))
        (Q := fun zt => FM zt.1 ∧ ∀ a, Pos (lengthScales zt.1 a))
        (P := fun i x => 1 ≤ i ∧ FanAt w (-(((i - 1 : ℕ) : ℝ) / 1000)) x)
        (fun i t x r hq h => by
          obtain ⟨y, r', h1, h2⟩ := fan_backward_step hN steps w y2 i h.1 t hq x r h.2
          exact ⟨y, r', h1, by omega, h2⟩)
        _ 1 (pt N y2) r1 hQ ⟨le_refl _, fun a n => by simp [pt, hw]⟩
      exact ⟨bs, r2, h2⟩
    · obtain ⟨bs, r2, h2, _⟩ := chain_total_keep (ρ := ℕ)
        (step := npBack xrEnv (xrFan d N M steps y2))
        (Q := fun zt => FM zt.1 ∧ ∀ a, Pos (lengthScales zt.1 a))
        (P := fun _ x => NM x)
        (fun i t x r hq h => nan_backward_step (by omega) hM _ rfl i t hq.1 x r h)
        _ 1 (pt N y2) r1 hQ (fun a n => hy a)
      exact ⟨bs, r2, h2⟩
  obtain ⟨bs, r2, h2⟩ := hc
  exact ⟨_, r2, (construct_det_iff xrEnv (xrFan d N M steps y2) rfl (by
    change 2 ≤ (mkGrid (fin 0) (fin (steps / 1000))).length; omega) r r2 _).2
      ⟨ys, r1, none, r1, bs, h1, rfl, h2, rfl⟩, hg⟩

theorem normalVec_xr (d : ℕ) (s : XR) (hs : F s) (r : ℕ) :
    ∃ xi r', normalVec xrEnv s d r = .ok (xi, r') ∧ ∀ a, F (xi a) := by
  refine ⟨_, _, rfl, fun i => ?_⟩
  obtain ⟨r1, h⟩ := drawVec_mem xrEnv.normal d r i
  rw [h]
  exact F_add (F_lit 0 1) (F_mul hs ⟨1, rfl⟩)

theorem seqM_keep {α : Type} {P : α → Prop} : ∀ {n : ℕ} {f : Fin n → RandM ρ α},
    (∀ i r, ∃ v r', f i r = .ok (v, r') ∧ P v) → ∀ r, ∃ v r', seqM n f r = .ok (v, r') ∧ ∀ i, P (v i)
  | 0, _, _, r => ⟨_, r, rfl, fun i => i.elim0⟩
  | n+1, f, h, r => by
    obtain ⟨x, r1, h1, hx⟩ := h 0 r
    obtain ⟨v, r2, h2, hv⟩ := seqM_keep (f := fun i => f i.succ) (fun i => h i.succ) r1
    refine ⟨_, r2, RandM.bind_ok.2 ⟨x, r1, h1, RandM.bind_ok.2 ⟨v, r2, h2, rfl⟩⟩, fun i => ?_⟩
    cases i using Fin.cases with
    | zero => exact hx
    | succ i => exact hv i

theorem stoch_forward_step (steps : ℕ) (y2 : Fin d → XR) (i : ℕ) (t : XR) (x : Mat d N XR) (r : ℕ)
    (hx : FM x) : ∃ y r', stochSlice xrEnv (xrStoch d N M steps y2) i t x r = .ok (y, r') ∧ FM y := by
  obtain ⟨cols, r1, h1, hc⟩ := seqM_keep (P := fun v : Fin d → XR => ∀ a, F (v a))
    (f := stochCol xrEnv (xrStoch d N M steps y2) x) (fun i r => by
      obtain ⟨xi, r', h, hxi⟩ := normalVec_xr d _ sqrt_dtc r
      refine ⟨_, r', RandM.bind_ok.2 ⟨xi, r', h, rfl⟩, fun a => ?_⟩
      exact F_add (F_add (hx a i) (F_mul ⟨_, dtc_fin⟩ (hx a i))) (F_mul ⟨1, rfl⟩ (hxi a))) r
  exact ⟨_, r1, RandM.bind_ok.2 ⟨_, r1, RandM.bind_ok.2 ⟨cols, r1, h1, rfl⟩, rfl⟩, fun a n => hc n a⟩

/-- The numpy class constructs the stochastic example. -/
theorem xrStoch_constructs (hd : 2 ≤ d) (hN : 0 < N) (hM : 0 < M) (steps : ℕ) (hs : 1 ≤ steps)
    (y2 : Fin d → XR) (hy : ∀ a, F (y2 a)) (r : ℕ) :
    ∃ o r', construct xrEnv (xrStoch d N M steps y2) r = .ok (o, r') ∧ o.timegrid.length = steps + 1 := by
  have hg := xr_grid steps
  obtain ⟨ys, r1, h1, hys⟩ := chain_total_keep (ρ := ℕ)
    (step := stochSlice xrEnv (xrStoch d N M steps y2)) (Q := fun _ => True)
    (P := fun _ x => FM x)
    (fun i t x r _ h => stoch_forward_step steps y2 i t x r h)
    (mkGrid (fin 0) (fin (steps / 1000))).tail 1 (stochInit N fun _ => fin 0) r (fun _ _ => trivial)
    (fun a n => by unfold stochInit; split <;> exact ⟨_, rfl⟩)
  have hl := chain_length h1
  rw [List.length_tail, hg, Nat.add_sub_cancel] at hl
  have hpt : FM (pt N y2) := fun a _ => hy a
  -- the forward flow, and the visits of the backward flow
  have hQ : ∀ zt ∈ visits (stochInit N (fun _ => fin 0) :: (ys.dropLast ++ [pt N y2]))
      (mkGrid (fin 0) (fin (steps / 1000))), FM zt.1 := by
    intro zt hzt
    obtain ⟨j, hj, e⟩ := mem_visits hzt
    obtain ⟨j, rfl⟩ : ∃ j', j = j' + 1 := ⟨j - 1, by omega⟩
    rw [List.getElem?_cons_succ] at e
    have hm := List.mem_of_getElem? e
    rw [List.mem_append] at hm
    rcases hm with hm | hm
    · obtain ⟨j', hj'⟩ := List.mem_iff_getElem?.1 (List.mem_of_mem_dropLast hm)
      exact hys j' zt.1 hj'
    · rw [List.mem_singleton.1 hm]; exact hpt
  have hfirst : ∀ zt, (visits (stochInit N (fun _ => fin 0) :: (ys.dropLast ++ [pt N y2]))
      (mkGrid (fin 0) (fin (steps / 1000)))).head? = some zt → zt.1 = pt N y2 := by
    intro zt h
    unfold visits at h
    rw [List.head?_reverse, List.getLast?_eq_getElem?, List.getElem?_drop] at h
    obtain ⟨hlt, e⟩ := List.getElem?_eq_some_iff.1 h
    have hlen : ((stochInit N (fun _ => fin 0) :: (ys.dropLast ++ [pt N y2])).zip
        (mkGrid (fin 0) (fin (steps / 1000)))).length = steps + 1 := by
      simp [hg, hl]; omega
    rw [List.getElem_zip] at e
    rw [← e]
    dsimp only
    simp only [List.length_drop, hlen] at hlt ⊢
    have hi : 2 + (steps + 1 - 2 - 1) = (ys.dropLast.length) + 1 := by
      rw [List.length_dropLast, hl]; omega
    simp only [hi, List.getElem_cons_succ, List.getElem_concat_length]
  have hc : ∃ bs r2, chain (npBack xrEnv (xrStoch d N M steps y2)) 1
      (visits (stochInit N (fun _ => fin 0) :: (ys.dropLast ++ [pt N y2]))
        (mkGrid (fin 0) (fin (steps / 1000)))) (pt N y2) r1 = .ok (bs, r2) := by
    generalize visits (stochInit N (fun _ => fin 0) :: (ys.dropLast ++ [pt N y2]))
        (mkGrid (fin 0) (fin (steps / 1000))) = vs at hQ hfirst
    cases vs with
    | nil => exact ⟨[], r1, rfl⟩
    | cons zt vs =>
      have hz := hfirst zt rfl
      obtain ⟨b, r2, h2⟩ := backStep_total (M := M) invTotal xrEnv hN (xrStoch d N M steps y2).f
        (xrStoch d N M steps y2).g false 1 zt (pt N y2) (finiteBox hN (hQ zt (by simp)) (.inl hpt)) r1
      have hb : NM b := fun a p => nan_backStep exIeee (fun v r r' hv => by
        rw [hz] at hv
        exact densityAt_point_nan exIeee hM (by omega) (by decide) (fun a => ⟨hy a, by
          obtain ⟨w, hw⟩ := hy a
          rw [hw]; exact exactMean exInv N hN w⟩) xrEnv_F hv a p) h2
      obtain ⟨bs, r3, h3, _⟩ := chain_total_keep (ρ := ℕ)
        (step := npBack xrEnv (xrStoch d N M steps y2)) (Q := fun zt => FM zt.1) (P := fun _ x => NM x)
        (fun i t x r hq h => nan_backward_step hN hM _ rfl i t hq x r h)
        vs 2 b r2 (fun t ht => hQ t (by simp [ht])) hb
      exact ⟨b :: bs, r3, RandM.bind_ok.2 ⟨b, r2, h2, RandM.bind_ok.2 ⟨bs, r3, h3, rfl⟩⟩⟩
  obtain ⟨bs, r2, h2⟩ := hc
  exact ⟨_, r2, (construct_stoch_iff xrEnv (xrStoch d N M steps y2) rfl (by
    change 2 ≤ (mkGrid (fin 0) (fin (steps / 1000))).length; omega) hd r r2 _).2
      ⟨ys, r1, bs, h1, h2, rfl⟩, hg⟩

end XR
end DPFC
