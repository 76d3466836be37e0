import Verif.Lib.Law
import Verif.Props.Verdict
import Verif.Props.Pins

/-!
# Lemmas for C72, numpy

The numpy class draws the normals of a stochastic step particle by particle, the torch class coordinate by coordinate. The
two orders differ by a permutation of the tape, which leaves its law as it is.
-/

namespace DPFC.Law
open Spec MeasureTheory ProbabilityTheory

variable {N M d : ℕ}

/-- From the order coordinate by coordinate to the order particle by particle. -/
def turn (d N i0 i : ℕ) : ℕ :=
  if i < i0 then i else
    i0 + (i - i0) / (d * N) * (d * N) + ((i - i0) % (d * N) % N * d + (i - i0) % (d * N) / N)

theorem turn_at (i0 j : ℕ) (a : Fin d) (n : Fin N) :
    turn d N i0 (i0 + j * (d * N) + (a.val * N + n.val)) = i0 + j * (d * N) + (n.val * d + a.val) := by
  unfold turn
  rw [if_neg (by omega)]
  have e : i0 + j * (d * N) + (a.val * N + n.val) - i0 = (a.val * N + n.val) + j * (d * N) := by omega
  have hlt := cell_lt a n
  have hn : 0 < N := lt_of_le_of_lt (Nat.zero_le _) n.2
  rw [e, Nat.add_mul_div_right _ _ (by omega), Nat.div_eq_of_lt hlt, zero_add, Nat.add_mul_mod_self_right, Nat.mod_eq_of_lt hlt,
    Nat.add_comm (a.val * N), Nat.add_mul_mod_self_right, Nat.mod_eq_of_lt n.2, Nat.add_mul_div_right _ _ hn,
    Nat.div_eq_of_lt n.2, zero_add]

theorem turn_split (hd : 0 < d) (hN : 0 < N) {i0 i : ℕ} (h : i0 ≤ i) :
    ∃ (j : ℕ) (a : Fin d) (n : Fin N), i = i0 + j * (d * N) + (a.val * N + n.val) := by
  have hD : 0 < d * N := Nat.mul_pos hd hN
  have h1 : (i - i0) % (d * N) / N < d := by
    rw [Nat.div_lt_iff_lt_mul hN]; exact Nat.mod_lt _ hD
  refine ⟨(i - i0) / (d * N), ⟨_, h1⟩, ⟨(i - i0) % (d * N) % N, Nat.mod_lt _ hN⟩, ?_⟩
  have e1 := Nat.div_add_mod' (i - i0) (d * N)
  have e2 := Nat.div_add_mod' ((i - i0) % (d * N)) N
  simp only
  omega

theorem turn_inj (hd : 0 < d) (hN : 0 < N) (i0 : ℕ) : Function.Injective (turn d N i0) := by
  intro i i' h
  by_cases h1 : i < i0 <;> by_cases h2 : i' < i0
  · unfold turn at h; rwa [if_pos h1, if_pos h2] at h
  · unfold turn at h
    rw [if_pos h1, if_neg h2, Nat.add_assoc] at h
    exact absurd h1 (by rw [h]; exact not_lt.2 (Nat.le_add_right _ _))
  · unfold turn at h
    rw [if_neg h1, if_pos h2, Nat.add_assoc] at h
    exact absurd h2 (by rw [← h]; exact not_lt.2 (Nat.le_add_right _ _))
  · obtain ⟨j, a, n, rfl⟩ := turn_split hd hN (not_lt.1 h1)
    obtain ⟨j', a', n', rfl⟩ := turn_split hd hN (not_lt.1 h2)
    rw [turn_at, turn_at] at h
    have h' : j * (d * N) + (n.val * d + a.val) = j' * (d * N) + (n'.val * d + a'.val) := by omega
    have c1 := cell_lt n a
    have c2 := cell_lt n' a'
    rw [Nat.mul_comm N d] at c1 c2
    obtain ⟨rfl, h3⟩ := digit c1 c2 h'
    obtain ⟨rfl, rfl⟩ := cell_inj h3
    rfl

/-- The turned tape. -/
def turned (d N i0 : ℕ) (ω : ℕ → ℝ) : ℕ → ℝ := fun i => ω (turn d N i0 i)

theorem turned_meas (d N i0 : ℕ) : Measurable (turned d N i0) := measurable_pi_iff.2 fun _ => measurable_pi_apply _

theorem turned_law (hd : 0 < d) (hN : 0 < N) (i0 : ℕ) : gaussTape.map (turned d N i0) = gaussTape :=
  Measure.map_infinitePi_infinitePi_of_inj (P := fun _ : ℕ => gaussianReal 0 1) (turn_inj hd hN i0)

theorem law_turned (hd : 0 < d) (hN : 0 < N) (i0 : ℕ) {E : Type} [MeasurableSpace E] {X : (ℕ → ℝ) → E} (hX : Measurable X) :
    gaussTape.map (fun ω => X (turned d N i0 ω)) = gaussTape.map X := by
  have : (fun ω => X (turned d N i0 ω)) = X ∘ turned d N i0 := rfl
  rw [this, ← Measure.map_map hX (turned_meas d N i0), turned_law hd hN]

theorem indep_turned (hd : 0 < d) (hN : 0 < N) (i0 : ℕ) {E F : Type} [MeasurableSpace E] [MeasurableSpace F]
    {X : (ℕ → ℝ) → E} {Y : (ℕ → ℝ) → F} (hX : Measurable X) (hY : Measurable Y) (h : IndepFun X Y gaussTape) :
    IndepFun (fun ω => X (turned d N i0 ω)) (fun ω => Y (turned d N i0 ω)) gaussTape := by
  have hT := turned_meas d N i0
  rw [indepFun_iff_map_prod_eq_prod_map_map hX.aemeasurable hY.aemeasurable] at h
  have hX' : Measurable fun ω => X (turned d N i0 ω) := hX.comp hT
  have hY' : Measurable fun ω => Y (turned d N i0 ω) := hY.comp hT
  rw [indepFun_iff_map_prod_eq_prod_map_map hX'.aemeasurable hY'.aemeasurable, law_turned hd hN i0 hX,
    law_turned hd hN i0 hY, ← h]
  exact law_turned hd hN i0 (hX.prodMk hY)

theorem iindep_turned (hd : 0 < d) (hN : 0 < N) (i0 : ℕ) {ι E : Type} [Countable ι] [MeasurableSpace E]
    {X : ι → (ℕ → ℝ) → E} (hX : ∀ i, Measurable (X i)) (h : iIndepFun X gaussTape) :
    iIndepFun (fun i ω => X i (turned d N i0 ω)) gaussTape := by
  have hT := turned_meas d N i0
  rw [iIndepFun_iff_map_fun_eq_infinitePi_map hX] at h
  have hX' : ∀ i, Measurable fun ω => X i (turned d N i0 ω) := fun i => (hX i).comp hT
  rw [iIndepFun_iff_map_fun_eq_infinitePi_map hX']
  simp_rw [law_turned hd hN i0 (hX _)]
  rw [← h]
  exact law_turned hd hN i0 (measurable_pi_iff.2 hX)

theorem ident_turned (hd : 0 < d) (hN : 0 < N) (i0 : ℕ) {E : Type} [MeasurableSpace E]
    {X Y : (ℕ → ℝ) → E} (hX : Measurable X) (hY : Measurable Y) (h : IdentDistrib X Y gaussTape gaussTape) :
    IdentDistrib (fun ω => X (turned d N i0 ω)) (fun ω => Y (turned d N i0 ω)) gaussTape gaussTape := by
  have hT := turned_meas d N i0
  exact ⟨(hX.comp hT).aemeasurable, (hY.comp hT).aemeasurable, by
    rw [law_turned hd hN i0 hX, law_turned hd hN i0 hY]; exact h.map_eq⟩

/-- A drift called without time, particle by particle. -/
noncomputable def timeless (N : ℕ) (f1 : (Fin d → ℝ) → Fin d → ℝ) : Drift d N ℝ := ⟨fun x _ a n => f1 (particle x n) a, none⟩

/-- The stochastic forward flow of the numpy class, read off the tape. -/
theorem em_of_stochRec {ω υ : ℕ → ℝ} {emd : Solver} {c : Cfg d N M ℝ} (hw : c.reweight = false)
    {f1 : (Fin d → ℝ) → Fin d → ℝ} (hf : c.f.call1 = some f1) {t : List ℝ} {x0 : Fin d → Fin N → ℝ} {k : ℕ}
    {s : ℕ × ℕ} {Z : ℕ → Option (Fin d → Fin N → ℝ)} {rs : ℕ → ℕ × ℕ}
    (h : StochRec (tapeEnv ω υ emd) c k Z rs) (h0 : Z 0 = some x0) (hr : rs 0 = s) :
    ∀ i, (∀ j ≤ i, ∃ x, Z j = some x) → i + 1 < k →
    Z i = some (em (timeless N f1) c.g t x0 s.1 (turned d N s.1 ω) i) ∧ rs i = (s.1 + i * (d * N), s.2) := by
  intro i
  induction i with
  | zero => intro _ _; exact ⟨h0, by rw [hr]; simp⟩
  | succ i ih =>
    intro hz hi
    obtain ⟨e1, e2⟩ := ih (fun j hj => hz j (by omega)) (by omega)
    obtain ⟨y, hy⟩ := hz (i+1) le_rfl
    obtain ⟨raw, hs, hraw, -⟩ := h.2 i _ y hi e1 hy
    have hn := h.1 i (by omega)
    have hdr := tape_draw ω υ emd N d (rs i)
    refine ⟨?_, ?_⟩
    · rw [hy, hraw hw]
      congr 1
      funext a n
      obtain ⟨f1', hf', ha⟩ := hs n
      rw [hf] at hf'
      cases hf'
      rw [ha a]
      have hem : em (timeless N f1) c.g t x0 s.1 (turned d N s.1 ω) (i+1) a n
          = em (timeless N f1) c.g t x0 s.1 (turned d N s.1 ω) i a n
            + 1/1000 * f1 (particle (em (timeless N f1) c.g t x0 s.1 (turned d N s.1 ω) i) n) a
            + c.g * (Real.sqrt (1/1000) * turned d N s.1 ω (s.1 + i * (d * N) + (a.val * N + n.val))) := rfl
      have ht : turned d N s.1 ω (s.1 + i * (d * N) + (a.val * N + n.val)) = ω (s.1 + i * (d * N) + (n.val * d + a.val)) :=
        congrArg ω (turn_at s.1 i a n)
      have : pnormals (tapeEnv ω υ emd) d N (rs i) n a = ω (s.1 + i * (d * N) + (n.val * d + a.val)) := by
        rw [pnormals, hdr, e2]
      rw [this, hem, ht]
    · rw [hn, pnormalsNext, hdr, e2]
      refine Prod.ext ?_ rfl
      simp only; ring

/-- Construction returns, and the flow is the chain. -/
theorem np_stoch_ok {ω υ : ℕ → ℝ} {emd : Solver} {c : Cfg d N M ℝ} (hd : 2 ≤ d) (hN : 0 < N)
    (hdet : c.deterministic = false) (hw : c.reweight = false) (hk : KnownKernel c.kern)
    {f1 : (Fin d → ℝ) → Fin d → ℝ} (hf : c.f.call1 = some f1) (h2 : 2 ≤ (mkGrid c.t1 c.t2).length) (s : ℕ × ℕ) :
    ∃ o r', construct (tapeEnv ω υ emd) c s = .ok (o, r') ∧
      (∀ j, j + 1 < (mkGrid c.t1 c.t2).length →
        o.Z[j]? = some (em (timeless N f1) c.g [] (fun a _ => if a.val < 2 then c.y1 a else 0) s.1 (turned d N s.1 ω) j)) ∧
      o.Z[(mkGrid c.t1 c.t2).length - 1]? = some fun a _ => c.y2 a := by
  have hv := C63_verdict (tapeEnv ω υ emd) c hN (by omega) (fun h => by rw [hw] at h; cases h) s
  have hnone : npVerdict (mkGrid c.t1 c.t2).length c = none := by
    unfold npVerdict
    rw [if_neg (by omega), if_neg (by rw [hdet]; simp), if_neg (by omega), if_neg (by omega),
      if_neg (by rw [hf]; simp), if_neg (by rw [hw]; simp), if_neg (by tauto)]
  rw [hnone] at hv
  obtain ⟨o, r', h⟩ := hv
  have hto := (construct_fields h).2
  have hlZ := (C08_storage_sizes _ _ (by omega) s r' o (.inl h)).1
  obtain ⟨S, hS, hv⟩ := C06_stochastic_start _ c hdet s r' o (.inl h) (by rw [hto]; exact h2)
  obtain ⟨E, hE, hw'⟩ := C06_stochastic_end _ c hdet s r' o h (by rw [hto]; exact h2)
  obtain ⟨rs, _, hr0, hrec, _⟩ := C11_stochastic_recurrence _ c hN hk hdet s r' o h (by rw [hto]; exact h2)
  have hS' : S = fun a _ => if a.val < 2 then c.y1 a else 0 := by
    funext a n
    rw [hv a n]
    by_cases ha : a.val ≤ 1
    · rw [if_pos ha, if_pos (by omega)]
    · rw [if_neg ha, if_neg (by omega), real_lit_zero]
  have hE' : E = fun a _ => c.y2 a := funext fun a => funext fun n => hw' a n
  rw [hto] at hlZ hrec hE
  refine ⟨o, r', h, fun j hj => ?_, by rw [hE, hE']⟩
  exact (em_of_stochRec hw hf hrec (by rw [hS, hS']) hr0 j (fun m hm => ⟨_, List.getElem?_eq_getElem (by omega)⟩) hj).1

end DPFC.Law
