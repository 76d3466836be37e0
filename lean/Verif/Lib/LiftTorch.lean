import Verif.Lib.LiftQuery
import Verif.Lib.Limit

/-!
# Queries of the torch class in exact arithmetic and in a larger number system
-/

namespace DPFC
open Spec

namespace Lift
variable {K ρ : Type} [Add K] [Sub K] [Mul K] [Div K] [Neg K] [NumOps K] {em : ℝ → K}
variable {N M d n c : ℕ}

theorem gradientXK (l : LS d K) (s : K) (X : Mat n d K) (Y : Mat M d K) (G : Mat n M K) :
    (⟨l, s, some ⟨n, M, G⟩⟩ : RBF d K).gradientX X (some ⟨M, d, Y⟩)
      = .ok ⟨n, M, d, fun i j k => (X i k - Y j k) / DPFC.sq (l.at k) * G i j⟩ := by
  simp only [RBF.gradientX, bdim, if_true]
  congr 2
  funext i j k
  rw [dif_pos (by simp only [bidx_of_fin]; exact ⟨⟨i.2, j.2⟩, ⟨i.2, j.2⟩, k.2, k.2⟩)]
  simp only [bidx_of_fin, Fin.eta]

/-- The kernel matrix of the torch class. -/
def tker (ls : LS d K) (X : Mat N d K) (Z : Mat M d K) : Mat N M K :=
  fun i j => NumOps.lit 1 1 * DPFC.torchKern ls (X i) (Z j)

/-- The summed gradient. -/
def tgrad (ls : LS d K) (X : Mat N d K) (Z : Mat M d K) : Mat M d K := fun m k =>
  NumOps.sum fun n => -((X n k - Z m k) / DPFC.sq (ls.at k) * tker ls X Z n m)

theorem torchCommonK (X : Mat N d K) (Z : Mat M d K) (l : TLS d K) :
    DPFC.torchCommon X Z l = (do
      let ls ← l.classify
      let I ← NumOps.inv (DPFC.ridge (tker ls Z Z))
      .ok (ls, ⟨tker ls X Z, I, DPFC.mm (DPFC.tr (tker ls X Z)) (tker ls X Z)⟩, tgrad ls X Z)) := by
  unfold DPFC.torchCommon
  cases l.classify with
  | error e => rfl
  | ok ls =>
    simp only [Except.ok_bind', RBF.kernel, RBF.new]
    congr 1; funext I
    rw [gradientXK]
    simp only [Except.ok_bind']
    congr 3

theorem classify_em (l : Fin d → ℝ) :
    (TLS.tensor (emV em l) : TLS d K).classify = (TLS.tensor l : TLS d ℝ).classify.map (emLS em) := by
  unfold TLS.classify
  dsimp only
  split
  · rfl
  · split <;> rfl

theorem classify_ne {l : Fin d → ℝ} (hl : ∀ a, l a ≠ 0) {ls : LS d ℝ} (h : (TLS.tensor l : TLS d ℝ).classify = .ok ls) :
    LSne ls := by
  unfold TLS.classify at h
  dsimp only at h
  split at h
  · cases h; exact hl
  · split at h
    · cases h; exact hl _
    · cases h

theorem at_em (ls : LS d ℝ) (k : Fin d) : (emLS em ls).at k = em (ls.at k) := by cases ls <;> rfl

theorem at_ne {ls : LS d ℝ} (h : LSne ls) (k : Fin d) : ls.at k ≠ 0 := by
  cases ls with
  | scalar l => exact h
  | vec l => exact h k

section
variable (h : Embeds em)
include h

omit h in
theorem sq_ne {a : ℝ} (ha : a ≠ 0) : DPFC.sq a ≠ 0 := mul_ne_zero ha ha

theorem torchKern (ls : LS d ℝ) (hl : LSne ls) (x y : Fin d → ℝ) :
    DPFC.torchKern (emLS em ls) (emV em x) (emV em y) = em (DPFC.torchKern ls x y) := by
  cases ls with
  | scalar l =>
    simp only [DPFC.torchKern, emLS, emV, h.sub, sq h]
    rw [sum h, h.div _ _ (sq_ne hl), lit h, h.neg, h.mul, exp h]
  | vec l =>
    have : ∀ k, em (DPFC.sq (x k - y k)) / em (DPFC.sq (l k)) = em (DPFC.sq (x k - y k) / DPFC.sq (l k)) := fun k =>
      h.div _ _ (sq_ne (hl k))
    simp only [DPFC.torchKern, emLS, emV, h.sub, sq h, this]
    rw [sum h, lit h, h.neg, h.mul, exp h]

theorem tker_em (ls : LS d ℝ) (hl : LSne ls) (X : Mat N d ℝ) (Z : Mat M d ℝ) :
    tker (emLS em ls) (emM em X) (emM em Z) = emM em (tker ls X Z) := by
  funext i j
  show NumOps.lit 1 1 * DPFC.torchKern (emLS em ls) (emV em (X i)) (emV em (Z j)) = _
  rw [torchKern h ls hl, lit h, h.mul]
  rfl

theorem tgrad_em (ls : LS d ℝ) (hl : LSne ls) (X : Mat N d ℝ) (Z : Mat M d ℝ) :
    tgrad (emLS em ls) (emM em X) (emM em Z) = emM em (tgrad ls X Z) := by
  funext m k
  unfold tgrad
  rw [tker_em h ls hl]
  simp only [emM, at_em, h.sub, sq h, h.div _ _ (sq_ne (at_ne hl k)), h.mul, h.neg]
  rw [sum h]

theorem torchCommon (X : Mat N d ℝ) (Z : Mat M d ℝ) (l : Fin d → ℝ) (hl : ∀ a, l a ≠ 0) :
    DPFC.torchCommon (emM em X) (emM em Z) (.tensor (emV em l))
      = (DPFC.torchCommon X Z (.tensor l)).map fun p => (emLS em p.1, emP em p.2.1, emM em p.2.2) := by
  rw [torchCommonK, torchCommonK, classify_em]
  cases hc : (TLS.tensor l : TLS d ℝ).classify with
  | error e => rfl
  | ok ls =>
    have hls := classify_ne hl hc
    simp only [Except.map, Except.ok_bind']
    rw [tker_em h ls hls, tker_em h ls hls, tgrad_em h ls hls, ridge h, inv h]
    cases NumOps.inv (DPFC.ridge (tker ls Z Z)) with
    | error e => rfl
    | ok I =>
      simp only [Except.map, Except.ok_bind', emP, tr, mm h]

theorem torchKsz (Z : Mat M d ℝ) (l : Fin d → ℝ) (ls : LS d ℝ) (hl : LSne ls) (kern : String) (x : Mat n c ℝ) :
    DPFC.torchKsz (emM em Z) (.tensor (emV em l)) (emLS em ls) kern (.tensor (emM em x))
      = (DPFC.torchKsz Z (.tensor l) ls kern (.tensor x)).map (emM em) := by
  unfold DPFC.torchKsz
  split
  · cases ls with
    | scalar v => rfl
    | vec v =>
      simp only [emLS]
      split
      · change Except.ok _ = Except.ok _
        congr 1
        funext i j
        have : ∀ (k : Fin d) (w : ℝ), em w / em (DPFC.sq (v k)) = em (w / DPFC.sq (v k)) := fun k w =>
          h.div _ _ (sq_ne (hl k))
        simp only [emM, emV, h.sub, sq h, this]
        rw [sum h, lit h, h.neg, h.mul, exp h]
      · rfl
  · rfl

theorem torchScoreFn (X : Mat N d ℝ) (Z : Mat M d ℝ) (l : Fin d → ℝ) (hl : ∀ a, l a ≠ 0) (C : ℝ) (kern : String)
    (x : Mat n c ℝ) (C' : K) :
    DPFC.torchScoreFn (emM em X) (emM em Z) (.tensor (emV em l)) C' kern (.tensor (emM em x))
      = (DPFC.torchScoreFn X Z (.tensor l) C kern (.tensor x)).map (emM em) := by
  unfold DPFC.torchScoreFn
  rw [torchCommon h X Z l hl]
  cases hc : DPFC.torchCommon X Z (.tensor l) with
  | error e => rfl
  | ok p =>
    obtain ⟨ls, p, g⟩ := p
    have hls : LSne ls := by
      rw [torchCommonK] at hc
      cases hcl : (TLS.tensor l : TLS d ℝ).classify with
      | error e => rw [hcl] at hc; cases hc
      | ok ls' =>
        rw [hcl] at hc
        simp only [Except.ok_bind'] at hc
        cases hi : NumOps.inv (DPFC.ridge (tker ls' Z Z)) with
        | error e => rw [hi] at hc; cases hc
        | ok I =>
          rw [hi] at hc
          cases hc
          exact classify_ne hl hcl
    simp only [Except.map, Except.ok_bind']
    rw [torchKsz h Z l ls hls]
    cases DPFC.torchKsz Z (.tensor l) ls kern (.tensor x) with
    | error e => rfl
    | ok ksz =>
      simp only [Except.map, Except.ok_bind', emP]
      rw [lit h, innerMat h, inv h]
      cases NumOps.inv (DPFC.innerMat (NumOps.lit 1 1000) p.Ksinv p.A) with
      | error e => rfl
      | ok I =>
        simp only [Except.map, Except.ok_bind']
        rw [negM h, mm h, mm h, mm h]

theorem torchMin (v : Fin n → ℝ) : DPFC.torchMin (emV em v) = (DPFC.torchMin v).map em := by
  cases n with
  | zero => rfl
  | succ n => exact congrArg Except.ok (amin h v)

theorem torchMax (v : Fin n → ℝ) : DPFC.torchMax (emV em v) = (DPFC.torchMax v).map em := by
  cases n with
  | zero => rfl
  | succ n => exact congrArg Except.ok (amax h v)

theorem hullBox (z b : Mat d N ℝ) :
    DPFC.hullBox (emM em z) (emM em b) = (DPFC.hullBox z b).map (emB em) := by
  unfold DPFC.hullBox
  rw [seqME (fun b : ℝ × ℝ => (em b.1, em b.2))]
  · rfl
  intro i
  change (do
    let zlo ← DPFC.torchMin (emV em (z i))
    let blo ← DPFC.torchMin (emV em (b i))
    let zhi ← DPFC.torchMax (emV em (z i))
    let bhi ← DPFC.torchMax (emV em (b i))
    Except.ok (DPFC.pyMin zlo blo, DPFC.pyMax zhi bhi)) = _
  rw [torchMin h, torchMax h, torchMin h, torchMax h]
  cases DPFC.torchMin (z i) with
  | error e => rfl
  | ok a =>
    cases DPFC.torchMin (b i) with
    | error e => rfl
    | ok a' =>
      cases DPFC.torchMax (z i) with
      | error e => rfl
      | ok c =>
        cases DPFC.torchMax (b i) with
        | error e => rfl
        | ok c' => simp only [Except.map, Except.ok_bind', pyMax h, pyMin h]

theorem torchInducing {env : Env ρ ℝ} {env' : Env ρ K} (he : SameEnv em env env') (b : Fin d → ℝ × ℝ) :
    DPFC.torchInducing env' (emB em b) M = (do let y ← DPFC.torchInducing env b M; pure (emM em y)) := by
  funext r
  rw [RandM.bind_app]
  simp only [DPFC.torchInducing, emB, ltB h]
  split
  · rw [drawVec (fun v : Fin d → ℝ => fun i => em (v i)) (fun r => drawVec em he.uniform d r)]
    simp only [h.sub, h.mul, h.add]
    rfl
  · rfl

theorem torchLengthScales (hN : 2 ≤ N) (x : Mat d N ℝ) :
    DPFC.torchLengthScales (emM em x) = emV em (DPFC.torchLengthScales x) := by
  funext a
  change NumOps.lit 2 1 * DPFC.torchStd (emV em (x a)) = em _
  rw [torchStd h hN, lit h, h.mul]
  rfl

omit h in
theorem tstd_ne {x : Mat d N ℝ} (hx : Spread x) (a : Fin d) : DPFC.torchStd (x a) ≠ 0 := by
  rw [torchStd_real]
  exact Lim.sample_ne (hx a)

omit h in
theorem tls_ne {x : Mat d N ℝ} (hx : Spread x) (a : Fin d) : DPFC.torchLengthScales x a ≠ 0 := by
  unfold DPFC.torchLengthScales
  exact mul_ne_zero (by simp) (tstd_ne hx a)

theorem tgaussU (hN : 2 ≤ N) (b z : Fin N → ℝ) (hb : DPFC.torchStd b ≠ 0) (hz : DPFC.torchStd z ≠ 0) (x : ℝ) :
    DPFC.gaussU DPFC.torchStd (emV em b) (emV em z) (em x) = em (DPFC.gaussU DPFC.torchStd b z x) := by
  unfold DPFC.gaussU
  dsimp only
  rw [mean h (by omega), mean h (by omega), torchStd h hN, torchStd h hN, sq h, sq h, h.sub, h.sub, h.neg, h.neg,
    h.div _ _ (sq_ne hb), h.div _ _ (sq_ne hz), h.sub]

theorem tedgeU (hN : 2 ≤ N) (b z : Mat d N ℝ) (hb : Spread b) (hz : Spread z) (x : Mat n c ℝ) :
    DPFC.edgeU DPFC.torchStd (emM em b) (emM em z) (emM em x) = (DPFC.edgeU DPFC.torchStd b z x).map (emM em) := by
  unfold DPFC.edgeU
  rw [zeroM h]
  refine forFinE (emM em) (fun i s => ?_) _
  rw [gridCol]
  cases DPFC.gridCol x i with
  | error e => rfl
  | ok col =>
    refine Eq.trans ?_ (setOut _ _ _)
    show DPFC.setOut _ _ _ = _
    congr 1
    funext j
    exact tgaussU h hN _ _ (tstd_ne hb i) (tstd_ne hz i) _

omit h in
/-- A tensor of numbers. -/
def _root_.DPFC.emD (em : ℝ → K) (u : Dyn2 ℝ) : Dyn2 K := ⟨u.n, u.m, emM em u.val⟩

theorem torchCalculateU {env : Env ρ ℝ} {env' : Env ρ K} (he : SameEnv em env env') (hN : 2 ≤ N) {o : Obj d N M ℝ}
    {o' : Obj d N M K} (hs : SameObj em o o') (hrw : o'.cfg.reweight = o.cfg.reweight)
    (hbb : o'.cfg.brownBridge = o.cfg.brownBridge) (hkn : o'.cfg.kern = o.cfg.kern) (x : Mat n c ℝ) (ti : ℤ)
    (hb : ∀ b, pyAt o.B ti = some b → Spread b) (hz : ∀ z, reference o ti = some z → Spread z) :
    DPFC.torchCalculateU env' o' (emM em x) ti = (do let u ← DPFC.torchCalculateU env o x ti; pure (emD em u)) := by
  unfold DPFC.torchCalculateU
  rw [hs.timegrid, hs.Z, hs.B, hs.Ztr, hrw, hbb, hkn, pyGet, pyGet, liftM_map, List.length_map]
  have hget : ∀ {T : Traj d N ℝ} {w}, DPFC.pyGet T ti = .ok w → pyAt T ti = some w := by
    intro T w hw
    rw [pyGet_eq_pyAt] at hw
    cases ha : pyAt T ti with
    | none => rw [ha] at hw; cases hw
    | some v => rw [ha] at hw; cases hw; rfl
  cases hB : DPFC.pyGet o.B ti with
  | error e => rfl
  | ok b =>
  have sb := hb b (hget hB)
  simp only [RandM.liftM_ok, pure_bind]
  cases hZ : DPFC.pyGet o.Z ti with
  | error e => rfl
  | ok z =>
  simp only [Except.map, RandM.liftM_ok, pure_bind]
  have body : ∀ zt : Option (Mat d N ℝ), Spread (zt.getD z) →
      (do
        let bnds ← (liftM (DPFC.hullBox ((zt.map (emM em)).getD (emM em z)) (emM em b)) : RandM ρ (Fin d → K × K))
        if ti ≤ 5 ∨ (o.timegrid.length : Int) - 5 ≤ ti then do
          let u ← (liftM (DPFC.edgeU DPFC.torchStd (emM em b) ((zt.map (emM em)).getD (emM em z)) (emM em x))
            : RandM ρ (Mat c n K))
          pure (⟨c, n, u⟩ : Dyn2 K)
        else do
          let Sxx ← DPFC.torchInducing env' bnds M
          let sB ← (liftM (DPFC.torchScoreFn (DPFC.tr (emM em b)) Sxx (.tensor (DPFC.torchLengthScales (emM em b)))
            (NumOps.lit 1 1000) (effKern o.cfg.kern) (.tensor (emM em x))) : RandM ρ (Mat n d K))
          let sF ← (liftM (DPFC.torchScoreFn (DPFC.tr ((zt.map (emM em)).getD (emM em z))) Sxx
            (.tensor (DPFC.torchLengthScales ((zt.map (emM em)).getD (emM em z))))
            (NumOps.lit 1 1000) (effKern o.cfg.kern) (.tensor (emM em x))) : RandM ρ (Mat n d K))
          pure (⟨d, n, fun i j => sB j i - sF j i⟩ : Dyn2 K))
      = (do
        let u ← (do
          let bnds ← (liftM (DPFC.hullBox (zt.getD z) b) : RandM ρ (Fin d → ℝ × ℝ))
          if ti ≤ 5 ∨ (o.timegrid.length : Int) - 5 ≤ ti then do
            let u ← (liftM (DPFC.edgeU DPFC.torchStd b (zt.getD z) x) : RandM ρ (Mat c n ℝ))
            pure (⟨c, n, u⟩ : Dyn2 ℝ)
          else do
            let Sxx ← DPFC.torchInducing env bnds M
            let sB ← (liftM (DPFC.torchScoreFn (DPFC.tr b) Sxx (.tensor (DPFC.torchLengthScales b))
              (NumOps.lit 1 1000) (effKern o.cfg.kern) (.tensor x)) : RandM ρ (Mat n d ℝ))
            let sF ← (liftM (DPFC.torchScoreFn (DPFC.tr (zt.getD z)) Sxx (.tensor (DPFC.torchLengthScales (zt.getD z)))
              (NumOps.lit 1 1000) (effKern o.cfg.kern) (.tensor x)) : RandM ρ (Mat n d ℝ))
            pure (⟨d, n, fun i j => sB j i - sF j i⟩ : Dyn2 ℝ))
        pure (emD em u)) := by
    intro zt hzt
    have e0 : (zt.map (emM em)).getD (emM em z) = emM em (zt.getD z) := by cases zt <;> rfl
    rw [e0, hullBox h, liftM_map]
    simp only [bind_assoc, pure_bind]
    congr 1; funext bn
    split
    · rw [tedgeU h hN b _ sb hzt, liftM_map]
      simp only [bind_assoc, pure_bind]
      rfl
    · rw [torchInducing h he]
      simp only [bind_assoc, pure_bind]
      congr 1; funext S
      rw [tr, tr, torchLengthScales h hN, torchLengthScales h hN,
        torchScoreFn h _ S _ (tls_ne sb) (NumOps.lit 1 1000), liftM_map,
        torchScoreFn h _ S _ (tls_ne hzt) (NumOps.lit 1 1000), liftM_map]
      simp only [bind_assoc, pure_bind]
      congr 1; funext sB
      congr 1; funext sF
      refine congrArg pure ?_
      have e : (fun i j => emM em sB j i - emM em sF j i) = emM em fun i j => sB j i - sF j i := by
        funext i j; exact h.sub _ _
      rw [e]; rfl
  cases hm : o.cfg.reweight && o.cfg.brownBridge with
  | false =>
    simp only [RandM.liftM_ok, pure_bind]
    refine body none (hz z ?_)
    unfold reference
    rw [hm]
    exact hget hZ
  | true =>
    cases hT : o.Ztr with
    | none => rfl
    | some T =>
      simp only [Option.map_some]
      rw [pyGet]
      cases hw : DPFC.pyGet T ti with
      | error e => rfl
      | ok w =>
        simp only [Except.map, Except.ok_bind', RandM.liftM_ok, pure_bind]
        refine body (some w) (hz w ?_)
        unfold reference
        rw [hm, hT]
        exact hget hw

theorem torchCheckIfCovered {o : Obj d N M ℝ} {o' : Obj d N M K} (hs : SameObj em o o') (X : Fin c → ℝ) (ti : ℤ) :
    DPFC.torchCheckIfCovered o' (emV em X) ti = DPFC.torchCheckIfCovered o X ti := by
  unfold DPFC.torchCheckIfCovered
  refine forFin_congr (fun i s => ?_) _
  rw [hs.Z, hs.B, pyGet, pyGet]
  cases DPFC.pyGet o.Z ti with
  | error e => rfl
  | ok z =>
  cases DPFC.pyGet o.B ti with
  | error e => rfl
  | ok b =>
  simp only [Except.map, Except.ok_bind']
  rw [show emM em z i = emV em (z i) from rfl, show emM em b i = emV em (b i) from rfl, torchMin h, torchMin h,
    torchMax h, torchMax h]
  cases DPFC.torchMin (z i) with
  | error e => rfl
  | ok zlo =>
  cases DPFC.torchMin (b i) with
  | error e => rfl
  | ok blo =>
  cases DPFC.torchMax (z i) with
  | error e => rfl
  | ok zhi =>
  cases DPFC.torchMax (b i) with
  | error e => rfl
  | ok bhi =>
  simp only [Except.map, Except.ok_bind', pyMax h, pyMin h, emV, leB h]

end
end Lift
end DPFC
