import Verif.Lib.Limit
import Verif.Spec.Limit
import Verif.Props.Recurrence
import Verif.Props.Pins
import Verif.Props.TorchVerdict

/-!
# Runs written as explicit recursions, for limits
-/

namespace DPFC
open Spec Filter Topology

namespace Lim
variable {ρ : Type} {N M d : ℕ}

/-- Slice `j` of a stored flow. -/
def sl (T : Traj d N ℝ) (j : ℕ) : Fin d → Fin N → ℝ := T[j]?.getD fun _ _ => 0

theorem sl_some {T : Traj d N ℝ} {j : ℕ} (h : j < T.length) : T[j]? = some (sl T j) := by
  unfold sl; rw [List.getElem?_eq_getElem h]; rfl

theorem sl_eq {T : Traj d N ℝ} {j : ℕ} {x} (h : T[j]? = some x) : sl T j = x := by
  unfold sl; rw [h]; rfl

/-- Random state before forward step `j -> j+1`; `nx` the state after the inducing points. -/
def fst (env : Env ρ ℝ) (d N : ℕ) (nx : ρ → ρ) (r : ρ) : ℕ → ρ
  | 0 => r
  | 1 => normalsNext env d N r
  | j+2 => nx (fst env d N nx r (j+1))

/-- Random state after `m` backward steps. -/
def bst (env : Env ρ ℝ) (d N : ℕ) (nx : ρ → ρ) (R : ρ) : ℕ → ρ
  | 0 => R
  | 1 => normalsNext env d N (nx R)
  | m+2 => nx (nx (bst env d N nx R (m+1)))

/-- What a deterministic run without reweighting consists of; `sF`, `sR`, `sB` the score estimates. -/
structure Run (env : Env ρ ℝ) (c : Cfg d N M ℝ) (U : Type) (dr : ρ → U) (nx : ρ → ρ)
    (sF : (Fin d → Fin N → ℝ) → U → Fin d → Fin N → ℝ)
    (sR sB : (Fin d → Fin N → ℝ) → (Fin d → Fin N → ℝ) → U → Fin d → Fin N → ℝ)
    (t : List ℝ) (Z B : Traj d N ℝ) (r r' : ρ) : Prop where
  lenZ : Z.length = t.length
  lenB : B.length = t.length
  z0 : sl Z 0 = fun a _ => c.y1 a
  z1 : ∀ h : 0 < t.length - 1, sl Z 1 = noisy c.f c.g (sl Z 0) (t.getD (0) 0) (normals env d N r)
  zs : ∀ j (h : j + 2 < t.length), Spread (sl Z (j+1)) → sl Z (j+2) = fun a n => sl Z (j+1) a n
    + 1/1000 * (c.f.call2 (sl Z (j+1)) (t.getD (j+1) 0) a n
      - c.g^2/2 * sF (sl Z (j+1)) (dr (fst env d N nx r (j+1))) a n)
  b0 : sl B 0 = fun a _ => c.y1 a
  bk : sl B (t.length - 1) = fun a _ => c.y2 a
  b1 : ∀ h : 3 ≤ t.length, Spread (sl Z (t.length - 1)) → sl B (t.length - 2) = fun a n =>
    sl B (t.length - 1) a n - c.f.call2 (sl B (t.length - 1)) (t.getD (t.length - 1) 0) a n * (1/1000)
      + 1/1000 * c.g^2 * sR (sl Z (t.length - 1)) (sl B (t.length - 1)) (dr (fst env d N nx r (t.length - 1))) a n
      + c.g * (Real.sqrt (1/1000) * normals env d N (nx (fst env d N nx r (t.length - 1))) a n)
  bs : ∀ m j (h : j + 2 + m = t.length), 1 ≤ m → 1 ≤ j → Spread (sl Z (j+1)) → Spread (sl B (j+1)) →
    sl B j = fun a n => sl B (j+1) a n
      - 1/1000 * (c.f.call2 (sl B (j+1)) (t.getD (j+1) 0) a n
        - c.g^2 * sR (sl Z (j+1)) (sl B (j+1)) (dr (bst env d N nx (fst env d N nx r (t.length - 1)) (m))) a n
        + c.g^2/2 * sB (sl Z (j+1)) (sl B (j+1)) (dr (nx (bst env d N nx (fst env d N nx r (t.length - 1)) (m)))) a n)
  fin : r' = bst env d N nx (fst env d N nx r (t.length - 1)) (t.length - 2)

section
variable {ι : Type} {F : Filter ι} {U : Type} {dr : ρ → U} {nx : ρ → ρ}
  {sF : (Fin d → Fin N → ℝ) → U → Fin d → Fin N → ℝ}
  {sR sB : (Fin d → Fin N → ℝ) → (Fin d → Fin N → ℝ) → U → Fin d → Fin N → ℝ}

theorem pt_lim {y : ι → Fin d → ℝ} {y0 : Fin d → ℝ} (h : Tendsto y F (𝓝 y0)) :
    Tendsto (fun i => (fun a _ => y i a : Fin d → Fin N → ℝ)) F (𝓝 fun a _ => y0 a) :=
  of2 fun a _ => tendsto_pi_nhds.1 h a

theorem tof {α : Type} {f g : ι → α} {l : Filter α} (h : ∀ᶠ i in F, f i = g i) (hg : Tendsto g F l) :
    Tendsto f F l := hg.congr' (h.mono fun _ hi => hi.symm)

/-- Limits of runs, given that the score estimates are continuous where there is spread. -/
theorem run_lim {env : Env ρ ℝ} {c : ι → Cfg d N M ℝ} {c0 : Cfg d N M ℝ} (hc : CfgApproach F c c0) {t : List ℝ}
    (hk : 2 ≤ t.length) {Z B : ι → Traj d N ℝ} {Z0 B0 : Traj d N ℝ} {r r0 : ρ} {r' : ι → ρ}
    (h0 : Run env c0 U dr nx sF sR sB t Z0 B0 r r0) (h : ∀ᶠ i in F, Run env (c i) U dr nx sF sR sB t (Z i) (B i) r (r' i))
    (hF : ∀ u X X0, Tendsto X F (𝓝 X0) → Spread X0 → Tendsto (fun i => sF (X i) u) F (𝓝 (sF X0 u)))
    (hR1 : ∀ u X X0 (y : ι → Fin d → ℝ) (y0 : Fin d → ℝ), Tendsto X F (𝓝 X0) → Spread X0 → Tendsto y F (𝓝 y0) →
      Tendsto (fun i => sR (X i) (fun a _ => y i a) u) F (𝓝 (sR X0 (fun a _ => y0 a) u)))
    (hR : ∀ u X X0 Y Y0, Tendsto X F (𝓝 X0) → Spread X0 → Tendsto Y F (𝓝 Y0) → Spread Y0 →
      Tendsto (fun i => sR (X i) (Y i) u) F (𝓝 (sR X0 Y0 u)))
    (hB : ∀ u X X0 Y Y0, Tendsto X F (𝓝 X0) → Spread X0 → Tendsto Y F (𝓝 Y0) → Spread Y0 →
      Tendsto (fun i => sB (X i) (Y i) u) F (𝓝 (sB X0 Y0 u)))
    (sZ : ∀ j, 1 ≤ j → j < t.length → Spread (sl Z0 j)) (sBk : ∀ j, 2 ≤ j → j + 1 < t.length → Spread (sl B0 j)) :
    (∀ j, j < t.length → Tendsto (fun i => sl (Z i) j) F (𝓝 (sl Z0 j))) ∧
    (∀ j, j < t.length → Tendsto (fun i => sl (B i) j) F (𝓝 (sl B0 j))) ∧ ∀ᶠ i in F, r' i = r0 := by
  have hZ : ∀ j, j < t.length → Tendsto (fun i => sl (Z i) j) F (𝓝 (sl Z0 j)) := by
    intro j
    induction j with
    | zero =>
      intro _
      rw [h0.z0]
      exact (pt_lim hc.y1).congr' (h.mono fun i hi => hi.z0.symm)
    | succ j ih =>
      intro hj
      have hx := ih (by omega)
      match j, hj, hx with
      | 0, hj, hx =>
        have hj' : 0 < t.length - 1 := by omega
        rw [h0.z1 hj']
        refine tof (h.mono fun i hi => hi.z1 hj') ?_
        refine of2 fun a n => ?_
        unfold noisy
        exact ((at2 hx a n).add ((at2 (hc.f _ _ _ hx) a n).const_mul _)).add (hc.g.mul_const _)
      | j+1, hj, hx =>
        have sx := sZ (j+1) (by omega) (by omega)
        rw [h0.zs j hj sx]
        refine tof (h.mp ((spread hx sx).mono fun i hs hi => hi.zs j hj hs)) ?_
        refine of2 fun a n => (at2 hx a n).add (Tendsto.const_mul _ ((at2 (hc.f _ _ _ hx) a n).sub ?_))
        exact ((hc.g.pow 2).div_const _).mul (at2 (hF _ _ _ hx sx) a n)
  have hlast : Tendsto (fun i => sl (B i) (t.length - 1)) F (𝓝 (sl B0 (t.length - 1))) := by
    rw [h0.bk]
    exact (pt_lim hc.y2).congr' (h.mono fun i hi => hi.bk.symm)
  have hBm : ∀ m j, j + 1 + m = t.length → 1 ≤ j → Tendsto (fun i => sl (B i) j) F (𝓝 (sl B0 j)) := by
    intro m
    induction m with
    | zero =>
      intro j hj _
      obtain rfl : j = t.length - 1 := by omega
      exact hlast
    | succ m ih =>
      intro j hj h1
      have hz := hZ (j+1) (by omega)
      have sz := sZ (j+1) (by omega) (by omega)
      have hb := ih (j+1) (by omega) (by omega)
      match m, hj, hb with
      | 0, hj, hb =>
        obtain rfl : j = t.length - 2 := by omega
        have e : t.length - 2 + 1 = t.length - 1 := by omega
        rw [e] at hz sz hb
        have h3 : 3 ≤ t.length := by omega
        rw [h0.b1 h3 sz]
        refine tof (h.mp ((spread hz sz).mono fun i hs hi => hi.b1 h3 hs)) ?_
        refine of2 fun a n => (((at2 hb a n).sub ((at2 (hc.f _ _ _ hb) a n).mul_const _)).add
          (((hc.g.pow 2).const_mul _).mul ?_)).add (hc.g.mul_const _)
        have hh := hR1 (dr (fst env d N nx r (t.length - 1))) _ _ _ _ hz sz hc.y2
        rw [← h0.bk] at hh
        exact (at2 hh a n).congr' (h.mono fun i hi => by simp only [hi.bk])
      | m+1, hj, hb =>
        have sb := sBk (j+1) (by omega) (by omega)
        have hm : j + 2 + (m+1) = t.length := by omega
        have h1m : 1 ≤ m + 1 := by omega
        rw [h0.bs (m+1) j hm h1m h1 sz sb]
        refine tof (h.mp (((spread hz sz).and (spread hb sb)).mono fun i hs hi =>
          hi.bs (m+1) j hm h1m h1 hs.1 hs.2)) ?_
        refine of2 fun a n => (at2 hb a n).sub (Tendsto.const_mul _ (((at2 (hc.f _ _ _ hb) a n).sub ?_).add ?_))
        · exact (hc.g.pow 2).mul (at2 (hR _ _ _ _ _ hz sz hb sb) a n)
        · exact ((hc.g.pow 2).div_const _).mul (at2 (hB _ _ _ _ _ hz sz hb sb) a n)
  refine ⟨hZ, fun j hj => ?_, h.mono fun i hi => by rw [hi.fin, h0.fin]⟩
  rcases Nat.eq_zero_or_pos j with rfl | h1
  · rw [h0.b0]
    exact (pt_lim hc.y1).congr' (h.mono fun i hi => hi.b0.symm)
  · exact hBm (t.length - 1 - j) j (by omega) h1

end

section
variable {U : Type} {dr : ρ → U} {nx : ρ → ρ}

theorem fst_succ {env : Env ρ ℝ} {r : ρ} {rs : ℕ → ρ} {k : ℕ} (h0 : rs 0 = r) (h1 : 2 ≤ k → rs 1 = normalsNext env d N r)
    (hs : ∀ j, j + 2 < k → rs (j+2) = nx (rs (j+1))) : ∀ j, j < k → rs j = fst env d N nx r j
  | 0, _ => h0
  | 1, h => h1 h
  | j+2, h => by rw [hs j h, fst_succ h0 h1 hs (j+1) (by omega)]; rfl

theorem bst_succ {env : Env ρ ℝ} {R : ρ} {rs : ℕ → ρ} {k : ℕ} (h0 : rs (k-2) = R)
    (h1 : 3 ≤ k → rs (k-3) = normalsNext env d N (nx (rs (k-2))))
    (hs : ∀ m j, j + 2 + m = k → 1 ≤ m → 1 ≤ j → rs (j-1) = nx (nx (rs j))) :
    ∀ m j, j + 2 + m = k → rs j = bst env d N nx R m
  | 0, j, h => by rw [← h0]; congr 1; omega
  | 1, j, h => by
    have e : j = k - 3 := by omega
    rw [e, h1 (by omega), h0]; rfl
  | m+2, j, h => by
    rw [show j = (j+1) - 1 by omega, hs (m+1) (j+1) (by omega) (by omega) (by omega),
      bst_succ h0 h1 hs (m+1) (j+1) (by omega)]; rfl

end

/-- The numpy class. -/
theorem run_np {env : Env ρ ℝ} {c : Cfg d N M ℝ} (hN : 0 < N) (hd : 0 < d) (hdet : c.deterministic = true)
    (hk : c.kern = "RBF" ∨ c.kern = "periodic") (hw : c.reweight = false) {r r' : ρ} {o : Obj d N M ℝ}
    (h : construct env c r = .ok (o, r')) (h2 : 2 ≤ o.timegrid.length) :
    Run env c (Fin d → Fin M → ℝ) (unifs env d M) (unifsNext env d M)
      (fun x u => Spec.cloudScore x (Spec.inducing (fun a => Spec.lo (x a)) (fun a => Spec.hi (x a)) u) x) Spec.scoreRho Spec.scoreB
      o.timegrid o.Z o.B r r' := by
  obtain ⟨rsF, rsT, rsB, f0, hF, t0, _, ht, b0, hB, b1⟩ := C10_full_run env c hN hdet hk r r' o h h2
  have hs := C08_storage_sizes env c hd r r' o (.inl h)
  have hzt : o.Ztr = none := by
    have := hs.2.2.1; rw [hw] at this; simpa using this
  have gZ : ∀ j, j < o.timegrid.length → o.Z[j]? = some (sl o.Z j) := fun j hj => sl_some (by omega)
  have gB : ∀ j, j < o.timegrid.length → o.B[j]? = some (sl o.B j) := fun j hj => sl_some (by omega)
  have gt : ∀ j, j < o.timegrid.length → o.timegrid[j]? = some (o.timegrid.getD j 0) := fun j hj => by
    rw [List.getD_eq_getElem?_getD, List.getElem?_eq_getElem hj]; rfl
  have stF : ∀ j, j + 1 < o.timegrid.length → ∃ raw, ForwardStep env M c.f c.g j (o.timegrid.getD j 0) (sl o.Z j) raw
      (rsF j) (rsF (j+1)) ∧ sl o.Z (j+1) = raw := fun j hj => by
    obtain ⟨raw, h1, h2, _⟩ := hF j _ _ _ (gZ j (by omega)) (gZ (j+1) hj) (gt j (by omega))
    exact ⟨raw, h1, h2 hw⟩
  have eF := fst_succ (env := env) (d := d) (N := N) (nx := unifsNext env d M) (rs := rsF) (k := o.timegrid.length) f0
    (fun h => by obtain ⟨_, h1, _⟩ := stF 0 (by omega); rw [(h1.1 rfl).2, f0])
    (fun j hj => by obtain ⟨_, h1, _⟩ := stF (j+1) (by omega); rw [(h1.2 (by omega)).2])
  have stB := fun j h1 (hj : j + 2 ≤ o.timegrid.length) => hB j _ _ _ _ h1 hj (gZ (j+1) (by omega)) (gB (j+1) (by omega))
    (gB j (by omega)) (gt (j+1) (by omega))
  have R0 : rsB (o.timegrid.length - 2) = fst env d N (unifsNext env d M) r (o.timegrid.length - 1) := by
    rw [b0, ht hzt, t0, eF _ (by omega)]
  have eB := bst_succ (env := env) (d := d) (N := N) (nx := unifsNext env d M) (rs := rsB) (k := o.timegrid.length) R0
    (fun h3 => by
      have := ((stB (o.timegrid.length - 2) (by omega) (by omega)).1 (.inl (by omega))).2
      rwa [show o.timegrid.length - 2 - 1 = o.timegrid.length - 3 by omega] at this)
    (fun m j hm h1 hj => ((stB j hj (by omega)).2 (by rw [hdet]; simp; omega)).2)
  refine ⟨hs.1, hs.2.1, ?_, fun hh => ?_, fun j hj sp => ?_, ?_, ?_, fun h3 sp => ?_, fun m j hm h1m h1 sz sb => ?_, ?_⟩
  · obtain ⟨S, hS, hv⟩ := (C05_forward_flows_start_at_y1 env c hd hdet r r' o (.inl h)).1 (.inl h2)
    rw [sl_eq hS]; funext a n; exact hv a n
  · obtain ⟨raw, h1, e⟩ := stF 0 (by omega)
    rw [show (1:ℕ) = 0 + 1 from rfl, e, (h1.1 rfl).1, f0]
  · obtain ⟨raw, h1, e⟩ := stF (j+1) (by omega)
    rw [e, (h1.2 (by omega)).1 sp, eF _ (by omega)]
    rfl
  · obtain ⟨S, hS, hv⟩ := C03_backward_flow_starts_at_y1 env c hd r r' o (.inl h)
    rw [sl_eq hS]; funext a n; exact hv a n
  · obtain ⟨S, hS, hv⟩ := C04_backward_flow_ends_at_y2 env c hd r r' o (.inl h) h2
    rw [sl_eq hS]; funext a n; exact hv a n
  · have := ((stB (o.timegrid.length - 2) (by omega) (by omega)).1 (.inl (by omega))).1
    rw [show o.timegrid.length - 2 + 1 = o.timegrid.length - 1 by omega, R0] at this
    exact this sp
  · have := ((stB j h1 (by omega)).2 (by rw [hdet]; simp; omega)).1 sz sb
    rw [eB m j hm] at this
    exact this
  · rw [← b1, eB (o.timegrid.length - 2) 0 (by omega)]

/-- The torch class. -/
theorem run_torch {env : Env ρ ℝ} {c : Cfg d N M ℝ} (hN : 0 < N) (hd : 2 ≤ d) (hdet : c.deterministic = true)
    (hk : c.kern = "RBF" ∨ c.kern = "periodic") (hw : c.reweight = false) {r r' : ρ} {o : Obj d N M ℝ}
    (h : torchConstruct env c r = .ok (o, r')) (h2 : 2 ≤ o.timegrid.length) :
    Run env c (Fin M → Fin d → ℝ) (tunifs env d M) (tunifsNext env d M)
      (fun x u => Spec.tcloudScore x (Spec.tinducing (fun a => Spec.lo (x a)) (fun a => Spec.hi (x a)) u) x) Spec.tscoreRho
      Spec.tscoreB o.timegrid o.Z o.B r r' := by
  obtain ⟨rsF, rsB, f0, hF, b0, hB, b1⟩ := C10_torch_full_run env c hN (by omega) hdet hk r r' o h h2
  have hd0 : 0 < d := by omega
  have hs := C08_storage_sizes env c hd0 r r' o (.inr h)
  have gZ : ∀ j, j < o.timegrid.length → o.Z[j]? = some (sl o.Z j) := fun j hj => sl_some (by omega)
  have gB : ∀ j, j < o.timegrid.length → o.B[j]? = some (sl o.B j) := fun j hj => sl_some (by omega)
  have gt : ∀ j, j < o.timegrid.length → o.timegrid[j]? = some (o.timegrid.getD j 0) := fun j hj => by
    rw [List.getD_eq_getElem?_getD, List.getElem?_eq_getElem hj]; rfl
  have stF : ∀ j, j + 1 < o.timegrid.length → ∃ raw, TorchForwardStep env M c.f c.g j (o.timegrid.getD j 0) (sl o.Z j) raw
      (rsF j) (rsF (j+1)) ∧ sl o.Z (j+1) = raw := fun j hj => by
    obtain ⟨raw, h1, h2, _⟩ := hF j _ _ _ (gZ j (by omega)) (gZ (j+1) hj) (gt j (by omega))
    exact ⟨raw, h1, h2 hw⟩
  have eF := fst_succ (env := env) (d := d) (N := N) (nx := tunifsNext env d M) (rs := rsF) (k := o.timegrid.length) f0
    (fun h => by obtain ⟨_, h1, _⟩ := stF 0 (by omega); rw [(h1.1 rfl).2, f0])
    (fun j hj => by obtain ⟨_, h1, _⟩ := stF (j+1) (by omega); rw [(h1.2 (by omega)).2.1])
  have stB := fun j h1 (hj : j + 2 ≤ o.timegrid.length) => hB j _ _ _ _ h1 hj (gZ (j+1) (by omega)) (gB (j+1) (by omega))
    (gB j (by omega)) (gt (j+1) (by omega))
  have R0 : rsB (o.timegrid.length - 2) = fst env d N (tunifsNext env d M) r (o.timegrid.length - 1) := by
    rw [b0 (by rw [hw]; rfl), eF _ (by omega)]
  have eB := bst_succ (env := env) (d := d) (N := N) (nx := tunifsNext env d M) (rs := rsB) (k := o.timegrid.length) R0
    (fun h3 => by
      have := ((stB (o.timegrid.length - 2) (by omega) (by omega)).1 (.inl (by omega))).2
      rwa [show o.timegrid.length - 2 - 1 = o.timegrid.length - 3 by omega] at this)
    (fun m j hm h1 hj => ((stB j hj (by omega)).2 (by rw [hdet]; simp; omega)).2)
  refine ⟨hs.1, hs.2.1, ?_, fun hh => ?_, fun j hj sp => ?_, ?_, ?_, fun h3 sp => ?_, fun m j hm h1m h1 sz sb => ?_, ?_⟩
  · obtain ⟨S, hS, hv⟩ := (C05_forward_flows_start_at_y1 env c hd0 hdet r r' o (.inr h)).1 (.inl h2)
    rw [sl_eq hS]; funext a n; exact hv a n
  · obtain ⟨raw, h1, e⟩ := stF 0 (by omega)
    rw [show (1:ℕ) = 0 + 1 from rfl, e, (h1.1 rfl).1, f0]
  · obtain ⟨raw, h1, e⟩ := stF (j+1) (by omega)
    rw [e, (h1.2 (by omega)).2.2, eF _ (by omega)]
  · obtain ⟨S, hS, hv⟩ := C03_backward_flow_starts_at_y1 env c hd0 r r' o (.inr h)
    rw [sl_eq hS]; funext a n; exact hv a n
  · obtain ⟨S, hS, hv⟩ := C04_backward_flow_ends_at_y2 env c hd0 r r' o (.inr h) h2
    rw [sl_eq hS]; funext a n; exact hv a n
  · have := ((stB (o.timegrid.length - 2) (by omega) (by omega)).1 (.inl (by omega))).1
    rw [show o.timegrid.length - 2 + 1 = o.timegrid.length - 1 by omega, R0] at this
    exact this sp
  · have := ((stB j h1 (by omega)).2 (by rw [hdet]; simp; omega)).1 sz sb
    rw [eB m j hm] at this
    exact this
  · rw [← b1, eB (o.timegrid.length - 2) 0 (by omega)]

/-! ### Nearby torch runs do not raise -/

/-- The forward flow of the torch class as a recursion. -/
noncomputable def zseq (env : Env ρ ℝ) (c : Cfg d N M ℝ) (t : List ℝ) (r : ρ) : ℕ → Fin d → Fin N → ℝ
  | 0 => fun a _ => c.y1 a
  | 1 => noisy c.f c.g (fun a _ => c.y1 a) (t.getD 0 0) (normals env d N r)
  | j+2 => fun a n => zseq env c t r (j+1) a n + 1/1000 * (c.f.call2 (zseq env c t r (j+1)) (t.getD (j+1) 0) a n
      - c.g^2/2 * Spec.tcloudScore (zseq env c t r (j+1)) (Spec.tinducing (fun a => Spec.lo (zseq env c t r (j+1) a))
          (fun a => Spec.hi (zseq env c t r (j+1) a)) (tunifs env d M (fst env d N (tunifsNext env d M) r (j+1))))
        (zseq env c t r (j+1)) a n)

theorem zseq_of_rec {env : Env ρ ℝ} {c : Cfg d N M ℝ} (hw : c.reweight = false) {t : List ℝ} {r : ρ}
    {Z : ℕ → Option (Fin d → Fin N → ℝ)} {rs : ℕ → ρ} (h : TorchForwardRec env c Z (fun j => t[j]?) rs)
    (h0 : Z 0 = some (fun a _ => c.y1 a)) (hr : rs 0 = r) : ∀ i, (∀ j ≤ i, ∃ x, Z j = some x) → i < t.length →
    Z i = some (zseq env c t r i) ∧ rs i = fst env d N (tunifsNext env d M) r i := by
  intro i
  induction i with
  | zero => intro _ _; exact ⟨h0, hr⟩
  | succ i ih =>
    intro hz hi
    obtain ⟨e1, e2⟩ := ih (fun j hj => hz j (by omega)) (by omega)
    obtain ⟨y, hy⟩ := hz (i+1) le_rfl
    have ht : t[i]? = some (t.getD i 0) := by
      rw [List.getD_eq_getElem?_getD, List.getElem?_eq_getElem (by omega)]; rfl
    obtain ⟨raw, hs, hraw, _⟩ := h i _ y _ e1 hy ht
    rw [hy, hraw hw]
    match i, hs, e2 with
    | 0, hs, e2 =>
      obtain ⟨a, b⟩ := hs.1 rfl
      rw [a, b, e2]
      exact ⟨rfl, rfl⟩
    | j+1, hs, e2 =>
      obtain ⟨_, b, a⟩ := hs.2 (by omega)
      rw [a, b, e2]
      exact ⟨rfl, rfl⟩

theorem zseq_lim {ι : Type} {F : Filter ι} (hN : 0 < N) {env : Env ρ ℝ} {c : ι → Cfg d N M ℝ} {c0 : Cfg d N M ℝ}
    (hc : CfgApproach F c c0) (t : List ℝ) (r : ρ) (k : ℕ) (sp : ∀ j, 1 ≤ j → j < k → Spread (zseq env c0 t r j)) :
    ∀ j, j < k → Tendsto (fun i => zseq env (c i) t r j) F (𝓝 (zseq env c0 t r j))
  | 0, _ => pt_lim hc.y1
  | 1, _ => by
    have hx := pt_lim (N := N) hc.y1
    refine of2 fun a n => ?_
    unfold zseq noisy
    exact ((at2 hx a n).add ((at2 (hc.f _ _ _ hx) a n).const_mul _)).add (hc.g.mul_const _)
  | j+2, hj => by
    have hx := zseq_lim hN hc t r k sp (j+1) (by omega)
    refine of2 fun a n => ?_
    simp only [zseq]
    refine (at2 hx a n).add (Tendsto.const_mul _ ((at2 (hc.f _ _ _ hx) a n).sub ?_))
    exact ((hc.g.pow 2).div_const _).mul (at2 (tflowScore hN hx (sp (j+1) (by omega) (by omega)) _) a n)

/-- Slices of a torch object have spread. -/
theorem torch_spread {env : Env ρ ℝ} {c : Cfg d N M ℝ} (hdet : c.deterministic = true) {r r' : ρ} {o : Obj d N M ℝ}
    (h : torchConstruct env c r = .ok (o, r')) (h3 : 3 ≤ o.timegrid.length) (j : ℕ) (hj : 1 ≤ j) (x : Mat d N ℝ)
    (hx : o.Z[j]? = some x) : Spread x := fun a => by
  obtain ⟨n, n', hl⟩ := C45_object_has_spread env c hdet r r' o h h3 j hj x hx a
  exact sdev_ne_zero (i := n) (j := n') hl.ne

theorem cfg_fields {ι : Type} {F : Filter ι} {c : ι → Cfg d N M ℝ} {c0 : Cfg d N M ℝ} (hc : CfgApproach F c c0) (i : ι) :
    (c i).t1 = c0.t1 ∧ (c i).t2 = c0.t2 ∧ (c i).deterministic = c0.deterministic ∧ (c i).reweight = c0.reweight ∧
      (c i).kern = c0.kern ∧ (c i).brownBridge = c0.brownBridge := by
  have h := hc.same i
  refine ⟨?_, ?_, ?_, ?_, ?_, ?_⟩ <;> rw [h]

theorem torch_open {ι : Type} {F : Filter ι} (hN : 0 < N) (hd : 2 ≤ d) {env : Env ρ ℝ} {c : ι → Cfg d N M ℝ}
    {c0 : Cfg d N M ℝ} (hc : CfgApproach F c c0) (hdet : c0.deterministic = true) (hw : c0.reweight = false)
    (hk : KnownKernel c0.kern) {r r0 : ρ} {o0 : Obj d N M ℝ} (h0 : torchConstruct env c0 r = .ok (o0, r0))
    (h3 : 3 ≤ o0.timegrid.length) : ∀ᶠ i in F, ∃ o r', torchConstruct env (c i) r = .ok (o, r') := by
  obtain ⟨_, hg, _⟩ := torchConstruct_fields h0
  have hs := C08_storage_sizes env c0 (by omega) r r0 o0 (.inr h0)
  obtain ⟨rs, hr0, hrec⟩ := C09_torch_forward_recurrence env c0 hN (by omega) hdet hk r r0 o0 h0 (by omega)
  have hz0 : o0.Z[0]? = some fun a _ => c0.y1 a := by
    obtain ⟨S, hS, hv⟩ := (C05_forward_flows_start_at_y1 env c0 (by omega) hdet r r0 o0 (.inr h0)).1 (.inl (by omega))
    rw [hS]; congr 1; funext a n; exact hv a n
  have ez : ∀ j, j < o0.timegrid.length → o0.Z[j]? = some (zseq env c0 o0.timegrid r j) := fun j hj =>
    (zseq_of_rec hw hrec hz0 hr0 j (fun m hm => ⟨_, List.getElem?_eq_getElem (by omega)⟩) hj).1
  have sp : ∀ j, 1 ≤ j → j < o0.timegrid.length → Spread (zseq env c0 o0.timegrid r j) := fun j h1 hj =>
    torch_spread hdet h0 h3 j h1 _ (ez j hj)
  have hl := zseq_lim hN hc o0.timegrid r _ sp
  have hev : ∀ᶠ i in F, ∀ j : Fin o0.timegrid.length, 1 ≤ j.val → Spread (zseq env (c i) o0.timegrid r j) := by
    rw [eventually_all]
    intro j
    by_cases h1 : 1 ≤ j.val
    · exact (spread (hl j j.2) (sp j h1 j.2)).mono fun i hi _ => hi
    · exact Eventually.of_forall fun i h => absurd h h1
  refine hev.mono fun i hi => ?_
  obtain ⟨e1, e2, e3, e4, e5, _⟩ := cfg_fields hc i
  refine ((C64_value_error_iff env (c i) hN (by omega) (by rw [e3, hdet]) (by rw [e4, hw]; rfl)
    (fun h => by rw [e4, hw] at h; cases h) o0.timegrid (by rw [e1, e2]; exact hg) h3
    (torchVerdict_plain hd (by rw [e3, hdet]) (by rw [e4, hw]) (by rw [e5]; exact hk) h3) r).2).2 ?_
  rintro ⟨j, Z, rs, hj1, hjl, hz0, hr0, hz, hrec, x, a, hx, ha⟩
  have := (zseq_of_rec (by rw [e4, hw]) hrec hz0 hr0 j hz hjl).1
  rw [hx] at this
  have hx' := Option.some.inj this
  have hsp := hi ⟨j, hjl⟩ hj1 a
  rw [show zseq env (c i) o0.timegrid r (⟨j, hjl⟩ : Fin _).val = x from hx'.symm] at hsp
  exact lo_ne_hi hN hsp (by
    have : Nonempty (Fin N) := ⟨⟨0, hN⟩⟩
    have e : x a = fun _ => x a ⟨0, hN⟩ := funext fun n => ha _ _
    rw [e]; simp [Spec.lo, Spec.hi])

end Lim
end DPFC
