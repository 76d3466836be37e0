import Verif.Lib.LiftFlat
import Verif.Lib.Verdict
import Verif.Lib.RecReal
import Verif.Lib.Comp

/-! Whole deterministic runs of the numpy class in a larger number system. -/

set_option linter.unusedSectionVars false

namespace DPFC
open Spec

section
variable {K ρ : Type} [Add K] [Sub K] [Mul K] [Div K] [Neg K] [NumOps K]
variable {em : ℝ → K} {N M d n m p : ℕ}

theorem visits_mapK {K' : Type} (τ : ℝ → K') {N' d' : Nat} (A : Mat d N ℝ → Mat d' N' K') (Z : Traj d N ℝ) (grid : List ℝ) :
    visits (Z.map A) (grid.map τ) = (visits Z grid).map (Prod.map A τ) := by
  unfold visits
  rw [List.zip_map, ← List.map_drop, ← List.map_reverse]

theorem pt_em (y : Fin d → ℝ) : pt N (emV em y) = emM em (pt N y) := rfl

/-- What the visits read. -/
theorem visits_get_inv {Z : Traj d N ℝ} {grid : List ℝ} (hl : Z.length = grid.length) {s : ℕ}
    {z : Mat d N ℝ} {t : ℝ} (h : (visits Z grid)[s]? = some (z, t)) :
    s + 2 < grid.length ∧ Z[grid.length - 1 - s]? = some z := by
  have hs : s < (visits Z grid).length := (List.getElem?_eq_some_iff.1 h).1
  rw [visits_length hl] at hs
  have h1 : s + 2 < grid.length := by omega
  obtain ⟨z', hz'⟩ := get_of_lt (l := Z) (i := grid.length - 1 - s) (by omega)
  obtain ⟨t', ht'⟩ := get_of_lt (l := grid) (i := grid.length - 1 - s) (by omega)
  rw [visits_get hl h1 hz' ht'] at h
  simp only [Option.some.injEq, Prod.mk.injEq] at h
  exact ⟨h1, by rw [hz', h.1]⟩

/-- Slice `i + 1` of the backward flow in the order of computation. -/
theorem back_order {α : Type} (q0 q : α) (bs : List α) (i : ℕ) (hi : i ≤ bs.length) :
    (q0 :: (bs.reverse ++ [q]))[i+1]? = (q :: bs)[bs.length - i]? := by
  rw [List.getElem?_cons_succ]
  have : bs.reverse ++ [q] = (q :: bs).reverse := by simp
  rw [this, List.getElem?_reverse (by simp; omega)]
  congr 1

theorem construct_det_len {env : Env ρ K} {c : Cfg d N M K} (hd : 0 < d) (hdet : c.deterministic = true) {r r' : ρ}
    {o : Obj d N M K} (hr : construct env c r = .ok (o, r')) :
    o.Z.length = (mkGrid c.t1 c.t2).length ∧ ∀ T, o.Ztr = some T → T.length = (mkGrid c.t1 c.t2).length := by
  by_cases hk : 2 ≤ (mkGrid c.t1 c.t2).length
  · obtain ⟨ys, r1, zt, r2, bs, h1, h2, h3, rfl⟩ := (construct_det_iff env c hdet hk r r' o).1 hr
    have hly := chain_length h1
    rw [List.length_tail] at hly
    refine ⟨by simp; omega, ?_⟩
    intro T hT
    change zt = some T at hT
    unfold trueFlow at h2
    split at h2
    · obtain ⟨zs, r3, h4, h5⟩ := RandM.bind_ok.1 h2
      rw [hT] at h5
      have := (RandM.pure_ok.1 h5).1
      have hlz := chain_length h4
      rw [List.length_tail] at hlz
      rw [← Option.some.inj this]
      simp; omega
    · rw [hT] at h2
      cases (RandM.pure_ok.1 h2).1
  · rcases hg : mkGrid c.t1 c.t2 with _ | ⟨t0, _ | ⟨t1, ts⟩⟩
    · rw [construct_empty env c hd hg] at hr
      cases hr
    · rw [construct_det_single env c hdet t0 hg] at hr
      rw [← (RandM.pure_ok.1 hr).1]
      refine ⟨rfl, fun T hT => ?_⟩
      dsimp only at hT
      split at hT
      · rw [← Option.some.inj hT]; rfl
      · cases hT
    · rw [hg] at hk; simp at hk

section
variable (h : Embeds em)
include h

/-- The conditions under which exact arithmetic meets no zero lengthscale. -/
theorem lift_construct_det {env : Env ρ ℝ} {env' : Env ρ K} (he : SameEnv em env env') (hN : 0 < N) (hd : 0 < d)
    {c : Cfg d N M ℝ} {c' : Cfg d N M K} (hc : SameCfg em c c') (hdet : c.deterministic = true) {r r' : ρ}
    {o : Obj d N M ℝ} (hr : construct env c r = .ok (o, r'))
    (hZ : ∀ i z, 1 ≤ i → 3 ≤ o.Z.length → o.Z[i]? = some z → Spread z)
    (hT : ∀ T i z, o.Ztr = some T → 1 ≤ i → i + 2 ≤ T.length → T[i]? = some z → Spread z)
    (hB : ∀ i b, 2 ≤ i → i + 2 ≤ o.B.length → o.B[i]? = some b → Spread b) :
    ∃ o', construct env' c' r = .ok (o', r') ∧ SameObj em o o' := by
  have hgrid : mkGrid c'.t1 c'.t2 = (mkGrid c.t1 c.t2).map em := by rw [hc.t1, hc.t2, Lift.mkGrid h]
  have hdet' : c'.deterministic = true := by rw [hc.deterministic, hdet]
  by_cases hk : 2 ≤ (mkGrid c.t1 c.t2).length
  · obtain ⟨ys, r1, zt, r2, bs, h1, h2, h3, rfl⟩ := (construct_det_iff env c hdet hk r r' o).1 hr
    have hly := chain_length h1
    have hlb := chain_length h3
    rw [visits_length (by simp [hly]; omega)] at hlb
    rw [List.length_tail] at hly
    simp only [List.length_cons, List.length_append, List.length_reverse, List.length_nil, hlb] at hZ hT hB
    rw [hly] at hZ
    have e1 := Lift.chain em (emM em) (fun i _ x => i ≠ 1 → Spread x) (fun i t x hx => Lift.ottoSlice h he hN hc i t x hx)
      _ _ _ _ _ _ h1 fun j t y hj hy hi => by
        have hjl := (List.getElem?_eq_some_iff.1 hj).1
        rw [List.length_tail] at hjl
        exact hZ j y (by omega) (by omega) hy
    have e2 : trueFlow env' c' ((mkGrid c.t1 c.t2).map em) r1 = .ok (zt.map (List.map (emM em)), r2) := by
      unfold trueFlow at h2 ⊢
      rw [hc.reweight, hc.brownBridge]
      split at h2
      · rename_i hb
        rw [if_pos hb]
        obtain ⟨zs, r3, h4, h5⟩ := RandM.bind_ok.1 h2
        obtain ⟨rfl, rfl⟩ := RandM.pure_ok.1 h5
        have hlz := chain_length h4
        rw [List.length_tail] at hlz
        rw [← List.map_tail, hc.y1, pt_em, RandM.bind_app,
          Lift.chain em (emM em) (fun i _ x => i ≠ 1 → Spread x) (fun i t x hx => Lift.trueSlice h he hN hc i t x hx)
            _ _ _ _ _ _ h4 fun j t y hj hy hi => by
              have hjl := (List.getElem?_eq_some_iff.1 hj).1
              rw [List.length_tail] at hjl
              exact hT _ j y rfl (by omega) (by simp [hlz]; omega) hy]
        rfl
      · rename_i hb
        rw [if_neg hb]
        obtain ⟨rfl, rfl⟩ := RandM.pure_ok.1 h2
        rfl
    have e3 := Lift.chain (Prod.map (emM em) em) (emM em)
      (fun i (zt : Mat d N ℝ × ℝ) b => Spread zt.1 ∧ (c.deterministic = true → i ≠ 1 → Spread b))
      (fun i zt b hx => Lift.npBack h he hN hc i zt b hx.1 hx.2) _ _ _ _ _ _ h3 fun j t y hj hy => by
        obtain ⟨q1, q2⟩ := visits_get_inv (by simp [hly]; omega) (t := t.2) (z := t.1) hj
        refine ⟨hZ _ _ (by omega) (by omega) q2, fun _ hi => ?_⟩
        refine hB ((mkGrid c.t1 c.t2).length - 2 - j + 1) y (by omega) (by omega) ?_
        rw [back_order _ _ _ _ (by omega), ← hy]
        congr 1; omega
    rw [← visits_mapK] at e3
    refine ⟨_, (construct_det_iff env' c' hdet' (by rw [hgrid]; simpa using hk) r r' _).2
      ⟨ys.map (emM em), r1, zt.map (List.map (emM em)), r2, bs.map (emM em), ?_, ?_, ?_, rfl⟩, ?_⟩
    · rw [hgrid, ← List.map_tail, hc.y1, pt_em]; exact e1
    · rw [hgrid]; exact e2
    · rw [hgrid, hc.y1, hc.y2, pt_em, pt_em, ← List.map_cons]; exact e3
    · refine ⟨hgrid, ?_, ?_, rfl⟩
      · simp only [hc.y1, pt_em, List.map_cons]
      · simp only [hc.y1, hc.y2, pt_em, List.map_cons, List.map_append, List.map_reverse, List.map_nil]
  · rcases hg : mkGrid c.t1 c.t2 with _ | ⟨t0, _ | ⟨t1, ts⟩⟩
    · rw [construct_empty env c hd hg] at hr
      cases hr
    · have hg' : mkGrid c'.t1 c'.t2 = [em t0] := by rw [hgrid, hg]; rfl
      rw [construct_det_single env c hdet t0 hg] at hr
      obtain ⟨rfl, rfl⟩ := RandM.pure_ok.1 hr
      rw [construct_det_single env' c' hdet' _ hg']
      refine ⟨_, rfl, rfl, ?_, ?_, ?_⟩
      · simp only [hc.brownBridge, hc.y1, hc.y2, pt_em]
        split <;> rfl
      · simp only [hc.y1, pt_em]; rfl
      · simp only [hc.brownBridge, hc.reweight, hc.y1, pt_em]
        split <;> rfl
    · rw [hg] at hk; simp at hk


section
variable (I : Ieee K) (hfin : ∀ x, I.fin (em x)) (hinv : InvOfNan I)
include hfin hinv

/-- The forward flow when a cloud lost its spread. -/
theorem ottoChain_flat {env : Env ρ ℝ} {env' : Env ρ K} (he : SameEnv em env env') (hN : 0 < N) (hd : 0 < d) (hM : 0 < M)
    {c : Cfg d N M ℝ} {c' : Cfg d N M K} (hc : SameCfg em c c') (hk : effKern c.kern = "RBF")
    (hs : c.reweight = true → SolverReturns env') {ts : List ℝ} {y1 : Mat d N ℝ} {ys : Traj d N ℝ} {r r1 : ρ}
    (h1 : chain (ottoSlice env c) 1 ts y1 r = .ok (ys, r1))
    (hf : ∃ i z, 1 ≤ i ∧ i + 1 ≤ ts.length ∧ (y1 :: ys)[i]? = some z ∧ ¬ Spread z) :
    chain (ottoSlice env' c') 1 (ts.map em) (emM em y1) r = .error (if d < 2 then .indexError else .overflowError) ∨
    ∃ w, AllNan I w ∧ chain (ottoSlice env' c') 1 (ts.map em) (emM em y1) r
      = .ok (ys.dropLast.map (emM em) ++ [w], r1) ∧
      ∀ i z, 1 ≤ i → i + 2 ≤ ts.length → (y1 :: ys)[i]? = some z → Spread z := by
  obtain ⟨i, z, q1, q2, q3, q4⟩ := hf
  rcases chain_flat I (if d < 2 then .indexError else .overflowError)
    (fun i t x hx => Lift.ottoSlice h he hN hc i t x hx)
    (fun i t x r hi hx y r' hr => ottoSlice_flat I h hfin hinv hN hM he hc hk hs i hi x hx t r r' y hr)
    (fun i t w r hi hw => ottoSlice_bad I hd hN env' c' i hi w hw t r) ts 1 y1 ys r r1 (le_refl _) h1
    ⟨i, z, by omega, by omega, q3, q4⟩ with ⟨e, _⟩ | ⟨w, hw, hsp, e⟩
  · exact .inl e
  · exact .inr ⟨w, hw, e, fun i z p1 p2 p3 => hsp i z (by omega) (by omega) p3⟩

/-- The true-drift flow when a cloud lost its spread. -/
theorem trueFlow_flat {env : Env ρ ℝ} {env' : Env ρ K} (he : SameEnv em env env') (hN : 0 < N) (hd : 0 < d) (hM : 0 < M)
    {c : Cfg d N M ℝ} {c' : Cfg d N M K} (hc : SameCfg em c c') (hk : effKern c.kern = "RBF")
    {grid : List ℝ} {zt : Option (Traj d N ℝ)} {r1 r2 : ρ} (h2 : trueFlow env c grid r1 = .ok (zt, r2)) :
    ((∀ T i z, zt = some T → 1 ≤ i → i + 3 ≤ T.length → T[i]? = some z → Spread z) →
      ∃ zt', trueFlow env' c' (grid.map em) r1 = .ok (zt', r2)) ∧
    ((∃ T i z, zt = some T ∧ 1 ≤ i ∧ i + 3 ≤ T.length ∧ T[i]? = some z ∧ ¬ Spread z) →
      trueFlow env' c' (grid.map em) r1 = .error .overflowError) := by
  unfold trueFlow at h2 ⊢
  rw [hc.reweight, hc.brownBridge]
  split at h2
  · rename_i hb
    rw [if_pos hb]
    obtain ⟨zs, r3, h4, h5⟩ := RandM.bind_ok.1 h2
    obtain ⟨rfl, rfl⟩ := RandM.pure_ok.1 h5
    have hlz := chain_length h4
    rw [← List.map_tail, hc.y1, pt_em, RandM.bind_app]
    have hft : 0 < grid.tail.length → c'.fTrue ≠ none := by
      intro hl he
      obtain ⟨t, ts, hts⟩ := List.exists_cons_of_length_pos hl
      rw [hts, chain] at h4
      obtain ⟨y, r5, h6, _⟩ := RandM.bind_ok.1 h4
      unfold trueSlice at h6
      have hf := hc.fTrue
      rw [he] at hf
      cases hcf : c.fTrue with
      | none => rw [hcf] at h6; cases h6
      | some f => rw [hcf] at hf; exact hf
    by_cases hall : ∀ j y, j < grid.tail.length → 1 + j ≠ 1 → (pt N c.y1 :: zs)[j]? = some y → Spread y
    · have e := Lift.chain em (emM em) (fun i _ x => i ≠ 1 → Spread x)
        (fun i t x hx => Lift.trueSlice h he hN hc i t x hx) _ _ _ _ _ _ h4 fun j t y hj hy hi =>
          hall j y (List.getElem?_eq_some_iff.1 hj).1 hi hy
      rw [e]
      refine ⟨fun _ => ⟨_, rfl⟩, ?_⟩
      rintro ⟨T, i, z, hT, q1, q2, q3, q4⟩
      obtain rfl := Option.some.inj hT
      simp only [List.length_cons, hlz] at q2
      exact absurd (hall i z (by omega) (by omega) q3) q4
    · push Not at hall
      obtain ⟨j, y, p1, p2, p3, p4⟩ := hall
      have hf0 := hft (by omega)
      rcases chain_flat I .overflowError (fun i t x hx => Lift.trueSlice h he hN hc i t x hx)
        (fun i t x r hi hx y r' hr => trueSlice_flat I h hfin hinv hN hM he hc hk i hi x hx t r r' y hr)
        (fun i t w r hi hw => trueSlice_bad I hd hN env' c' hf0 i hi w hw t r) _ 1 _ _ _ _ (le_refl _) h4
        ⟨j, y, p1, p2, p3, p4⟩ with ⟨e, j, y, q1, q2, q3, q4⟩ | ⟨w, hw, hsp, e⟩
      · rw [e]
        refine ⟨fun hT => ?_, fun _ => rfl⟩
        exact absurd (hT _ j y rfl (by omega) (by simp only [List.length_cons, hlz]; omega) q3) q4
      · rw [e]
        refine ⟨fun _ => ⟨_, rfl⟩, ?_⟩
        rintro ⟨T, i, z, hT, q1, q2, q3, q4⟩
        obtain rfl := Option.some.inj hT
        simp only [List.length_cons, hlz] at q2
        exact absurd (hsp i z (by omega) (by omega) q3) q4
  · rename_i hb
    rw [if_neg hb]
    obtain ⟨rfl, rfl⟩ := RandM.pure_ok.1 h2
    refine ⟨fun _ => ⟨_, rfl⟩, ?_⟩
    rintro ⟨T, i, z, hT, _⟩
    cases hT

omit hfin hinv h in
theorem npBack_bad (hN : 0 < N) (hd : 0 < d) (env' : Env ρ K) (c' : Cfg d N M K) (i : ℕ) (w : Mat d N K)
    (hw : AllNan I w) (t : K) (b : Mat d N K) (r : ρ) :
    npBack env' c' i (w, t) b r = .error (if d < 2 then .indexError else .overflowError) := by
  unfold npBack backStep
  rw [RandM.bind_app, densityAt_nan I env' _ w b ⟨0, hd⟩ ⟨0, hN⟩ (hw _ _)]

theorem lift_flat_forward {env : Env ρ ℝ} {env' : Env ρ K} (he : SameEnv em env env') (hN : 0 < N) (hd : 0 < d)
    (hM : 0 < M) {c : Cfg d N M ℝ} {c' : Cfg d N M K} (hc : SameCfg em c c') (hdet : c.deterministic = true)
    (hk : effKern c.kern = "RBF")
    (hs : c.reweight = true → SolverReturns env') {r r' : ρ} {o : Obj d N M ℝ} (hr : construct env c r = .ok (o, r'))
    (hf : ∃ i z, 1 ≤ i ∧ i + 2 ≤ o.Z.length ∧ o.Z[i]? = some z ∧ ¬ Spread z)
    (hT : d < 2 → (∃ i z, 1 ≤ i ∧ i + 3 ≤ o.Z.length ∧ o.Z[i]? = some z ∧ ¬ Spread z) ∨
      ∀ T i z, o.Ztr = some T → 1 ≤ i → i + 3 ≤ T.length → T[i]? = some z → Spread z) :
    construct env' c' r = .error (if d < 2 then .indexError else .overflowError) := by
  have hgrid : mkGrid c'.t1 c'.t2 = (mkGrid c.t1 c.t2).map em := by rw [hc.t1, hc.t2, Lift.mkGrid h]
  have hdet' : c'.deterministic = true := by rw [hc.deterministic, hdet]
  obtain ⟨i, z, q1, q2, q3, q4⟩ := hf
  have hlen : o.Z.length = (mkGrid c.t1 c.t2).length := (construct_det_len hd hdet hr).1
  have hk2 : 2 ≤ (mkGrid c.t1 c.t2).length := by omega
  obtain ⟨ys, r1, zt, r2, bs, h1, h2, h3, rfl⟩ := (construct_det_iff env c hdet hk2 r r' o).1 hr
  have hly := chain_length h1
  rw [List.length_tail] at hly
  rw [construct_det_eq env' c' hdet' (by rw [hgrid]; simpa using hk2), hgrid, ← List.map_tail, hc.y1, pt_em,
    RandM.bind_app]
  rcases ottoChain_flat h I hfin hinv he hN hd hM hc hk hs h1
    ⟨i, z, q1, by rw [List.length_tail]; omega, q3, q4⟩ with e | ⟨w, hw, e, hsp⟩
  · rw [e]
  · rw [e]
    simp only []
    rw [RandM.bind_app]
    obtain ⟨t1, t2⟩ := trueFlow_flat h I hfin hinv he hN hd hM hc hk h2
    have hback : ∀ r, chain (npBack env' c') 1 (visits (emM em (pt N c.y1) :: (ys.dropLast.map (emM em) ++ [w]))
        ((mkGrid c.t1 c.t2).map em)) (pt N c'.y2) r = .error (if d < 2 then .indexError else .overflowError) := by
      intro r
      have hg0 : (mkGrid c.t1 c.t2) ≠ [] := by intro e; rw [e] at hk2; simp at hk2
      have hv : visits (emM em (pt N c.y1) :: (ys.dropLast.map (emM em) ++ [w])) ((mkGrid c.t1 c.t2).map em)
          = (w, em ((mkGrid c.t1 c.t2).getLast hg0)) ::
            (((emM em (pt N c.y1) :: ys.dropLast.map (emM em)).zip ((mkGrid c.t1 c.t2).dropLast.map em)).drop 2).reverse := by
        unfold visits
        have hsp : (mkGrid c.t1 c.t2).map em = (mkGrid c.t1 c.t2).dropLast.map em ++ [em ((mkGrid c.t1 c.t2).getLast hg0)] := by
          conv_lhs => rw [← List.dropLast_append_getLast hg0]
          simp
        rw [hsp, ← List.cons_append, List.zip_append (by simp; omega), List.drop_append_of_le_length (by simp; omega)]
        simp
      rw [hv, chain, RandM.bind_app, npBack_bad I hN hd env' c' _ w hw]
    by_cases hall : ∀ T i z, zt = some T → 1 ≤ i → i + 3 ≤ T.length → T[i]? = some z → Spread z
    · obtain ⟨zt', e2⟩ := t1 hall
      rw [e2]
      simp only []
      rw [RandM.bind_app, hback]
    · have hd2 : ¬ d < 2 := fun hlt => by
        rcases hT hlt with ⟨i, z, p1, p2, p3, p4⟩ | hh
        · simp only [List.length_cons] at p2
          exact p4 (hsp i z p1 (by rw [List.length_tail]; omega) p3)
        · exact hall hh
      push Not at hall
      rw [t2 hall, if_neg hd2]

theorem lift_flat_true {env : Env ρ ℝ} {env' : Env ρ K} (he : SameEnv em env env') (hN : 0 < N) (hd : 0 < d)
    (hM : 0 < M) {c : Cfg d N M ℝ} {c' : Cfg d N M K} (hc : SameCfg em c c') (hdet : c.deterministic = true)
    (hk : effKern c.kern = "RBF") {r r' : ρ} {o : Obj d N M ℝ} (hr : construct env c r = .ok (o, r'))
    (hs : c.reweight = true → SolverReturns env')
    (hZ : ∀ i z, 1 ≤ i → i + 3 ≤ o.Z.length → o.Z[i]? = some z → Spread z)
    (hT : ∃ T i z, o.Ztr = some T ∧ 1 ≤ i ∧ i + 3 ≤ T.length ∧ T[i]? = some z ∧ ¬ Spread z) :
    construct env' c' r = .error .overflowError := by
  have hgrid : mkGrid c'.t1 c'.t2 = (mkGrid c.t1 c.t2).map em := by rw [hc.t1, hc.t2, Lift.mkGrid h]
  have hdet' : c'.deterministic = true := by rw [hc.deterministic, hdet]
  obtain ⟨T, i, z, q0, q1, q2, q3, q4⟩ := hT
  have hlT : T.length = (mkGrid c.t1 c.t2).length := (construct_det_len hd hdet hr).2 T q0
  have hk2 : 2 ≤ (mkGrid c.t1 c.t2).length := by omega
  obtain ⟨ys, r1, zt, r2, bs, h1, h2, h3, rfl⟩ := (construct_det_iff env c hdet hk2 r r' o).1 hr
  have hly := chain_length h1
  rw [List.length_tail] at hly
  rw [construct_det_eq env' c' hdet' (by rw [hgrid]; simpa using hk2), hgrid, ← List.map_tail, hc.y1, pt_em,
    RandM.bind_app]
  have hfl := (trueFlow_flat h I hfin hinv he hN hd hM hc hk h2).2 ⟨T, i, z, q0, q1, q2, q3, q4⟩
  have hfwd : ∃ a, chain (ottoSlice env' c') 1 ((mkGrid c.t1 c.t2).tail.map em) (emM em (pt N c.y1)) r = .ok (a, r1) := by
    by_cases hall : ∀ i z, 1 ≤ i → i + 2 ≤ (pt N c.y1 :: ys).length → (pt N c.y1 :: ys)[i]? = some z → Spread z
    · exact ⟨_, Lift.chain em (emM em) (fun i _ x => i ≠ 1 → Spread x)
        (fun i t x hx => Lift.ottoSlice h he hN hc i t x hx) _ _ _ _ _ _ h1 fun j t y hj hy hi => by
          have hjl := (List.getElem?_eq_some_iff.1 hj).1
          rw [List.length_tail] at hjl
          exact hall j y (by omega) (by simp; omega) hy⟩
    · push Not at hall
      obtain ⟨i, z, p1, p2, p3, p4⟩ := hall
      simp only [List.length_cons] at p2
      obtain ⟨-, j, y, f1, f2, f3, f4⟩ | ⟨w, hw, -, e⟩ := chain_flat I (if d < 2 then .indexError else .overflowError)
        (fun i t x hx => Lift.ottoSlice h he hN hc i t x hx)
        (fun i t x r hi hx y r' hr => ottoSlice_flat I h hfin hinv hN hM he hc hk hs i hi x hx t r r' y hr)
        (fun i t w r hi hw => ottoSlice_bad I hd hN env' c' i hi w hw t r) _ 1 _ _ _ _ (le_refl _) h1
        ⟨i, z, by rw [List.length_tail]; omega, by omega, p3, p4⟩
      · rw [List.length_tail] at f1
        exact absurd (hZ _ _ (by omega) (by simp; omega) f3) f4
      · exact ⟨_, e⟩
  obtain ⟨a, ha⟩ := hfwd
  rw [ha]
  simp only []
  rw [RandM.bind_app, hfl]

end

omit h in
/-- A run that reaches a score estimate knows its kernel. -/
theorem known_of_run {env : Env ρ ℝ} {c : Cfg d N M ℝ} (hN : 0 < N) (hd : 0 < d) (hdet : c.deterministic = true)
    {r r' : ρ} {o : Obj d N M ℝ} (hr : construct env c r = .ok (o, r')) (hk : 3 ≤ (mkGrid c.t1 c.t2).length) :
    KnownKernel c.kern := by
  by_contra hn
  obtain ⟨ys, r1, zt, r2, bs, h1, _⟩ := (construct_det_iff env c hdet (by omega) r r' o).1 hr
  obtain ⟨t0, t1, t2, ts, hg⟩ : ∃ t0 t1 t2 ts, mkGrid c.t1 c.t2 = t0 :: t1 :: t2 :: ts := by
    match hm : mkGrid c.t1 c.t2, hk with
    | a :: b :: e :: l, _ => exact ⟨a, b, e, l, rfl⟩
  rw [hg, List.tail_cons, chain] at h1
  obtain ⟨y, r3, _, h1⟩ := RandM.bind_ok.1 h1
  obtain ⟨w, r4, h1, _⟩ := RandM.bind_ok.1 h1
  rw [chain, RandM.bind_app, ottoSlice_two_fails env hN hd c hn _ y r3] at h1
  cases h1

end
end
end DPFC
