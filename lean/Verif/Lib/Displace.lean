import Verif.Lib.Symmetry
import Verif.Lib.ScoreLaws

/-!
# How far one step can move a particle
-/

namespace DPFC
open Spec

namespace Disp
variable {d N M : ℕ}

theorem scoreL_bound {l : Fin d → ℝ} (hl : ∀ k, l k ≠ 0) (x : Fin d → Fin N → ℝ) (P : Fin M → Fin d → ℝ)
    (y : Fin d → Fin N → ℝ) (a : Fin d) (n : Fin N) : |cloudScoreL l x P y a n| ≤ 500000 * M ^ 2 * N / |l a| := by
  have h1 := score_bound (C := 1/1000) (by norm_num) l (particle x) P a (particle y n)
  have h2 : ∑ m, |gradSum l (particle x) P a m| ≤ M * (N / |l a|) := by
    calc _ ≤ ∑ _m : Fin M, (N / |l a| : ℝ) := Finset.sum_le_sum fun m _ => gradSum_bound l hl (particle x) P a m
      _ = _ := by simp
  have hla : 0 < |l a| := abs_pos.2 (hl a)
  refine le_trans h1 ?_
  calc (M:ℝ) * ((∑ m, |gradSum l (particle x) P a m|) / ((1/1000 + 1/1000) * (1/1000)))
      ≤ M * ((M * (N / |l a|)) / ((1/1000 + 1/1000) * (1/1000))) := by gcongr
    _ = _ := by field_simp; ring

theorem sdev_pos {v : Fin N → ℝ} (h : sdev v ≠ 0) : 0 < sdev v := lt_of_le_of_ne (Real.sqrt_nonneg _) (Ne.symm h)

theorem cloudScore_bound {x : Fin d → Fin N → ℝ} (hx : Spread x) (P : Fin M → Fin d → ℝ) (y : Fin d → Fin N → ℝ) (a : Fin d)
    (n : Fin N) : |Spec.cloudScore x P y a n| ≤ 250000 * M ^ 2 * N / sdev (x a) := by
  have hp := sdev_pos (hx a)
  have h := scoreL_bound (l := fun k => 2 * sdev (x k)) (fun k => mul_ne_zero two_ne_zero (hx k)) x P y a n
  rw [abs_of_pos (show 0 < 2 * sdev (x a) by positivity)] at h
  refine le_trans h (le_of_eq ?_)
  field_simp; ring

theorem sampleSdev_ge {v : Fin N → ℝ} (h : sdev v ≠ 0) : sdev v ≤ sampleSdev v := by
  have hN : 2 ≤ N := by
    by_contra hN
    apply h
    have : Subsingleton (Fin N) := ⟨fun i j => Fin.ext (by have := i.2; have := j.2; omega)⟩
    unfold sdev variance
    have : ∀ i, v i - avg v = 0 := fun i => by
      have hv : v = fun _ => v i := funext fun j => by rw [Subsingleton.elim j i]
      have hN0 : 0 < N := by have := i.2; omega
      have : avg v = v i := by
        unfold avg; rw [hv]; simp only [Finset.sum_const, Finset.card_univ, Fintype.card_fin, nsmul_eq_mul]
        field_simp
      rw [this, sub_self]
    simp [this]
  unfold sdev variance sampleSdev
  refine Real.sqrt_le_sqrt ?_
  have h2 : (2:ℝ) ≤ N := by exact_mod_cast hN
  refine div_le_div_of_nonneg_left (Finset.sum_nonneg fun _ _ => sq_nonneg _) (by linarith) (by linarith)

theorem tcloudScore_bound {x : Fin d → Fin N → ℝ} (hx : Spread x) (P : Fin M → Fin d → ℝ) (y : Fin d → Fin N → ℝ) (a : Fin d)
    (n : Fin N) : |Spec.tcloudScore x P y a n| ≤ 250000 * M ^ 2 * N / sdev (x a) := by
  have hp := fun k => sdev_pos (hx k)
  have hq := fun k => sampleSdev_ge (hx k)
  have h := scoreL_bound (l := fun k => 2 * sampleSdev (x k)) (fun k => mul_ne_zero two_ne_zero (by
    have := hp k; have := hq k; linarith)) x P y a n
  rw [abs_of_pos (show 0 < 2 * sampleSdev (x a) by have := hp a; have := hq a; linarith)] at h
  refine le_trans h ?_
  calc (500000 * M ^ 2 * N : ℝ) / (2 * sampleSdev (x a)) ≤ 500000 * M ^ 2 * N / (2 * sdev (x a)) := by
        have := hp a; have := hq a
        gcongr
    _ = _ := by have := hp a; field_simp; ring

/-- Two separated values give a lower bound on the standard deviation. -/
theorem sdev_ge {v : Fin N → ℝ} {D : ℝ} (hD : 0 < D) {n0 n1 : Fin N} (h : D ≤ v n1 - v n0) :
    D / Real.sqrt (2 * N) ≤ sdev v := by
  have hN : (0:ℝ) < N := by have := n0.2; exact_mod_cast (by omega : 0 < N)
  have hne : n0 ≠ n1 := by rintro rfl; linarith
  rw [div_le_iff₀ (Real.sqrt_pos.2 (by linarith))]
  unfold sdev
  rw [← Real.sqrt_mul (by unfold variance; positivity)]
  refine Real.le_sqrt_of_sq_le ?_
  have h1 : (v n0 - avg v) ^ 2 + (v n1 - avg v) ^ 2 ≤ ∑ i, (v i - avg v) ^ 2 := by
    rw [← Finset.sum_pair (f := fun i => (v i - avg v) ^ 2) hne]
    exact Finset.sum_le_sum_of_subset_of_nonneg (Finset.subset_univ _) fun _ _ _ => sq_nonneg _
  have h2 : variance v * (2 * N) = 2 * ∑ i, (v i - avg v) ^ 2 := by unfold variance; field_simp
  rw [h2]
  have h3 : D ^ 2 ≤ (v n1 - v n0) ^ 2 := by gcongr
  nlinarith [sq_nonneg (v n1 - avg v + (v n0 - avg v))]

theorem sep_spread {x : Fin d → Fin N → ℝ} {D : ℝ} (hD : 0 < D) {n0 n1 : Fin N} (h : ∀ a, D ≤ x a n1 - x a n0) : Spread x :=
  fun a => sdev_ne_zero (i := n1) (j := n0) (by have := h a; intro e; linarith)

theorem cap_le {x : Fin d → Fin N → ℝ} {D : ℝ} (hD : 0 < D) {n0 n1 : Fin N} (h : ∀ a, D ≤ x a n1 - x a n0) (a : Fin d) :
    250000 * M ^ 2 * N / sdev (x a) ≤ 250000 * M ^ 2 * N * Real.sqrt (2 * N) / D := by
  have h1 := sdev_ge hD (h a)
  have hN : (0:ℝ) < N := by have := n0.2; exact_mod_cast (by omega : 0 < N)
  have hs : 0 < Real.sqrt (2 * N) := Real.sqrt_pos.2 (by linarith)
  calc (250000 * M ^ 2 * N : ℝ) / sdev (x a) ≤ 250000 * M ^ 2 * N / (D / Real.sqrt (2 * N)) := by gcongr
    _ = _ := by field_simp

/-- One probability-flow step keeps two particles apart. -/
theorem flow_sep {x y : Fin d → Fin N → ℝ} {D g : ℝ} (hD : 0 < D) {n0 n1 : Fin N} (h : ∀ a, D ≤ x a n1 - x a n0)
    {F s : Fin d → Fin N → ℝ} (hs : ∀ a n, |s a n| ≤ 250000 * M ^ 2 * N / sdev (x a))
    (hF : ∀ a, 250000 * g ^ 2 * M ^ 2 * N * Real.sqrt (2 * N) / D ≤ F a n1 - F a n0)
    (hy : ∀ a n, y a n = x a n + 1/1000 * (F a n - g^2/2 * s a n)) (a : Fin d) : D ≤ y a n1 - y a n0 := by
  have hc := cap_le (M := M) hD h a
  have h1 := abs_le.1 (le_trans (hs a n1) hc)
  have h0 := abs_le.1 (le_trans (hs a n0) hc)
  have hg : 0 ≤ g ^ 2 / 2 := by positivity
  have hd : g^2/2 * (s a n1 - s a n0) ≤ 250000 * g ^ 2 * M ^ 2 * N * Real.sqrt (2 * N) / D := by
    calc g^2/2 * (s a n1 - s a n0) ≤ g^2/2 * (2 * (250000 * M ^ 2 * N * Real.sqrt (2 * N) / D)) := by
          refine mul_le_mul_of_nonneg_left ?_ hg; linarith
      _ = _ := by ring
  rw [hy, hy]
  have := h a
  have := hF a
  linarith

section
variable {ρ U : Type} {env : Env ρ ℝ} {c : Cfg d N M ℝ} {dr : ρ → U} {nx : ρ → ρ}
  {sF : (Fin d → Fin N → ℝ) → U → Fin d → Fin N → ℝ}
  {sR sB : (Fin d → Fin N → ℝ) → (Fin d → Fin N → ℝ) → U → Fin d → Fin N → ℝ} {t : List ℝ} {Z B : Traj d N ℝ} {r r' : ρ}

theorem forward_move (h : Lim.Run env c U dr nx sF sR sB t Z B r r')
    (hF : ∀ x u a n, Spread x → |sF x u a n| ≤ 250000 * M ^ 2 * N / sdev (x a)) {j : ℕ} (h1 : 1 ≤ j) (hj : j + 1 < t.length)
    (sx : Spread (Lim.sl Z j)) (a : Fin d) (n : Fin N) :
    |Lim.sl Z (j+1) a n - (Lim.sl Z j a n + 1/1000 * c.f.call2 (Lim.sl Z j) (t.getD j 0) a n)|
      ≤ 125 * c.g ^ 2 * M ^ 2 * N / sdev (Lim.sl Z j a) := by
  obtain ⟨j, rfl⟩ : ∃ i, j = i + 1 := ⟨j - 1, by omega⟩
  rw [h.zs j (by omega) sx]
  have hb := hF (Lim.sl Z (j+1)) (dr (Lim.fst env d N nx r (j+1))) a n sx
  simp only
  rw [show ∀ x f s : ℝ, x + 1/1000 * (f - c.g^2/2 * s) - (x + 1/1000 * f) = -(c.g^2/2000 * s) by intros; ring, abs_neg, abs_mul,
    abs_of_nonneg (by positivity)]
  calc c.g^2/2000 * |sF (Lim.sl Z (j+1)) (dr (Lim.fst env d N nx r (j+1))) a n|
      ≤ c.g^2/2000 * (250000 * M ^ 2 * N / sdev (Lim.sl Z (j+1) a)) := by gcongr
    _ = _ := by ring

theorem backward_move (h : Lim.Run env c U dr nx sF sR sB t Z B r r')
    (hR : ∀ z b u a n, Spread z → |sR z b u a n| ≤ 250000 * M ^ 2 * N / sdev (z a))
    (hB : ∀ z b u a n, Spread b → |sB z b u a n| ≤ 250000 * M ^ 2 * N / sdev (b a)) {j : ℕ} (h1 : 1 ≤ j) (hj : j + 2 < t.length)
    (sz : Spread (Lim.sl Z (j+1))) (sb : Spread (Lim.sl B (j+1))) (a : Fin d) (n : Fin N) :
    |Lim.sl B j a n - (Lim.sl B (j+1) a n - 1/1000 * c.f.call2 (Lim.sl B (j+1)) (t.getD (j+1) 0) a n)|
      ≤ 250 * c.g ^ 2 * M ^ 2 * N / sdev (Lim.sl Z (j+1) a) + 125 * c.g ^ 2 * M ^ 2 * N / sdev (Lim.sl B (j+1) a) := by
  have e := h.bs (t.length - 2 - j) j (by omega) (by omega) h1 sz sb
  have e' := congrFun (congrFun e a) n
  rw [e']
  generalize dr (Lim.bst env d N nx (Lim.fst env d N nx r (t.length - 1)) (t.length - 2 - j)) = u1
  generalize dr (nx (Lim.bst env d N nx (Lim.fst env d N nx r (t.length - 1)) (t.length - 2 - j))) = u2
  have h2 := hR (Lim.sl Z (j+1)) (Lim.sl B (j+1)) u1 a n sz
  have h3 := hB (Lim.sl Z (j+1)) (Lim.sl B (j+1)) u2 a n sb
  rw [show ∀ x f s s' : ℝ, x - 1/1000 * (f - c.g^2 * s + c.g^2/2 * s') - (x - 1/1000 * f) = c.g^2/1000 * s + -(c.g^2/2000 * s')
    by intros; ring]
  refine le_trans (abs_add_le _ _) ?_
  rw [abs_neg, abs_mul, abs_mul, abs_of_nonneg (show 0 ≤ c.g^2/1000 by positivity), abs_of_nonneg (show 0 ≤ c.g^2/2000 by positivity)]
  refine add_le_add ?_ ?_
  · calc c.g^2/1000 * |sR (Lim.sl Z (j+1)) (Lim.sl B (j+1)) u1 a n|
        ≤ c.g^2/1000 * (250000 * M ^ 2 * N / sdev (Lim.sl Z (j+1) a)) := by gcongr
      _ = _ := by ring
  · calc c.g^2/2000 * |sB (Lim.sl Z (j+1)) (Lim.sl B (j+1)) u2 a n|
        ≤ c.g^2/2000 * (250000 * M ^ 2 * N / sdev (Lim.sl B (j+1) a)) := by gcongr
      _ = _ := by ring

/-- Two particles that are driven apart stay apart. -/
theorem run_sep (h : Lim.Run env c U dr nx sF sR sB t Z B r r')
    (hF : ∀ x u a n, Spread x → |sF x u a n| ≤ 250000 * M ^ 2 * N / sdev (x a)) {D : ℝ} (hD : 0 < D) {n0 n1 : Fin N}
    (hf : ∀ x τ a, (∀ a, D ≤ x a n1 - x a n0) →
      250000 * c.g ^ 2 * M ^ 2 * N * Real.sqrt (2 * N) / D ≤ c.f.call2 x τ a n1 - c.f.call2 x τ a n0)
    (h1 : ∀ a, D ≤ Lim.sl Z 1 a n1 - Lim.sl Z 1 a n0) : ∀ j, 1 ≤ j → j < t.length → ∀ a, D ≤ Lim.sl Z j a n1 - Lim.sl Z j a n0 := by
  intro j
  induction j with
  | zero => intro h; omega
  | succ j ih =>
    intro _ hj
    rcases Nat.eq_zero_or_pos j with rfl | hj0
    · exact h1
    obtain ⟨j, rfl⟩ : ∃ i, j = i + 1 := ⟨j - 1, by omega⟩
    have hx := ih (by omega) (by omega)
    have sx := sep_spread hD hx
    exact flow_sep (M := M) hD hx (fun a n => hF _ _ a n sx) (fun a => hf _ _ a hx)
      fun a n => by rw [h.zs j (by omega) sx]

/-- The same for the backward flow. -/
theorem run_sep_back (h : Lim.Run env c U dr nx sF sR sB t Z B r r')
    (hR : ∀ z b u a n, Spread z → |sR z b u a n| ≤ 250000 * M ^ 2 * N / sdev (z a))
    (hB : ∀ z b u a n, Spread b → |sB z b u a n| ≤ 250000 * M ^ 2 * N / sdev (b a)) {D E : ℝ} (hD : 0 < D) (hE : 0 < E)
    {n0 n1 m0 m1 : Fin N} (hZ : ∀ j, 1 ≤ j → j < t.length → ∀ a, D ≤ Lim.sl Z j a n1 - Lim.sl Z j a n0)
    (hf : ∀ x τ a, (∀ a, E ≤ x a m1 - x a m0) →
      500000 * c.g ^ 2 * M ^ 2 * N * Real.sqrt (2 * N) / D + 250000 * c.g ^ 2 * M ^ 2 * N * Real.sqrt (2 * N) / E
        ≤ c.f.call2 x τ a m0 - c.f.call2 x τ a m1)
    (h1 : ∀ a, E ≤ Lim.sl B (t.length - 2) a m1 - Lim.sl B (t.length - 2) a m0) :
    ∀ m j, j + 2 + m = t.length → 1 ≤ j → ∀ a, E ≤ Lim.sl B j a m1 - Lim.sl B j a m0 := by
  intro m
  induction m with
  | zero =>
    intro j hj _
    obtain rfl : j = t.length - 2 := by omega
    exact h1
  | succ m ih =>
    intro j hj hj1 a
    have hz := hZ (j+1) (by omega) (by omega)
    have hb := ih (j+1) (by omega) (by omega)
    have hm := fun n => abs_le.1 (backward_move h hR hB hj1 (by omega) (sep_spread hD hz) (sep_spread hE hb) a n)
    have c1 := cap_le (M := M) hD hz a
    have c2 := cap_le (M := M) hE hb a
    have hg : 0 ≤ c.g ^ 2 / 1000 := by positivity
    have d1 : 250 * c.g ^ 2 * M ^ 2 * N / sdev (Lim.sl Z (j+1) a) ≤ 250 * c.g ^ 2 * M ^ 2 * N * Real.sqrt (2 * N) / D := by
      have := mul_le_mul_of_nonneg_left c1 hg
      calc _ = c.g ^ 2 / 1000 * (250000 * M ^ 2 * N / sdev (Lim.sl Z (j+1) a)) := by ring
        _ ≤ _ := this
        _ = _ := by ring
    have d2 : 125 * c.g ^ 2 * M ^ 2 * N / sdev (Lim.sl B (j+1) a) ≤ 125 * c.g ^ 2 * M ^ 2 * N * Real.sqrt (2 * N) / E := by
      have := mul_le_mul_of_nonneg_left c2 (show 0 ≤ c.g ^ 2 / 2000 by positivity)
      calc _ = c.g ^ 2 / 2000 * (250000 * M ^ 2 * N / sdev (Lim.sl B (j+1) a)) := by ring
        _ ≤ _ := this
        _ = _ := by ring
    have hff := hf (Lim.sl B (j+1)) (t.getD (j+1) 0) a hb
    have e1 : 500000 * c.g ^ 2 * M ^ 2 * N * Real.sqrt (2 * N) / D = 2000 * (250 * c.g ^ 2 * M ^ 2 * N * Real.sqrt (2 * N) / D) := by
      ring
    have e2 : 250000 * c.g ^ 2 * M ^ 2 * N * Real.sqrt (2 * N) / E = 2000 * (125 * c.g ^ 2 * M ^ 2 * N * Real.sqrt (2 * N) / E) := by
      ring
    rw [e1, e2] at hff
    have := hb a
    have := hm m0
    have := hm m1
    linarith

end

/-- The forward recursion of the torch class. -/
theorem zseq_sep {ρ : Type} {env : Env ρ ℝ} {c : Cfg d N M ℝ} {t : List ℝ} {r : ρ} {D : ℝ} (hD : 0 < D) {n0 n1 : Fin N}
    (hf : ∀ x τ a, (∀ a, D ≤ x a n1 - x a n0) →
      250000 * c.g ^ 2 * M ^ 2 * N * Real.sqrt (2 * N) / D ≤ c.f.call2 x τ a n1 - c.f.call2 x τ a n0)
    (h1 : ∀ a, D ≤ Lim.zseq env c t r 1 a n1 - Lim.zseq env c t r 1 a n0) :
    ∀ j a, D ≤ Lim.zseq env c t r (j+1) a n1 - Lim.zseq env c t r (j+1) a n0
  | 0 => h1
  | j+1 => fun a => by
    have hx := zseq_sep hD hf h1 j
    have sx := sep_spread hD hx
    exact flow_sep (M := M) hD hx (fun a n => tcloudScore_bound sx _ _ a n) (fun a => hf _ (t.getD (j+1) 0) a hx)
      (fun a n => rfl) a

end Disp
end DPFC
