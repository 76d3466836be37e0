import Verif.Lib.LiftRun
import Verif.Lib.LoopReal

/-!
# Queries in exact arithmetic and in a larger number system
-/

namespace DPFC
open Spec

namespace Lift
variable {K ρ : Type} [Add K] [Sub K] [Mul K] [Div K] [Neg K] [NumOps K] {em : ℝ → K}
variable {N M d n c : ℕ}

theorem forFinE {σ τ : Type} (A : σ → τ) : ∀ {n : ℕ} {f : Fin n → σ → Except PyErr σ}
    {f' : Fin n → τ → Except PyErr τ} (_ : ∀ i s, f' i (A s) = (f i s).map A) (s : σ),
    DPFC.forFin n f' (A s) = (DPFC.forFin n f s).map A
  | 0, _, _, _, _ => rfl
  | n+1, f, f', hf, s => by
    rw [DPFC.forFin, DPFC.forFin, hf 0]
    cases f 0 s with
    | error e => rfl
    | ok a => exact forFinE (n := n) A (fun i s => hf i.succ s) a

theorem pyGet (T : Traj d N ℝ) (ti : ℤ) : DPFC.pyGet (T.map (emM em)) ti = (DPFC.pyGet T ti).map (emM em) := by
  unfold DPFC.pyGet
  rw [List.length_map]
  cases pyIdx T.length ti with
  | error e => rfl
  | ok j =>
    simp only [Except.ok_bind', List.getElem?_map]
    cases T[j]? <;> rfl

theorem setOut (u : Mat c n ℝ) (di : ℕ) (v : Fin n → ℝ) :
    DPFC.setOut (emM em u) di (emV em v) = (DPFC.setOut u di v).map (emM em) := by
  unfold DPFC.setOut
  split
  · simp only [Except.map, Except.ok.injEq]
    funext a j
    simp only [emM, emV]
    split <;> rfl
  · rfl

theorem gridCol (x : Mat n c ℝ) (di : ℕ) :
    DPFC.gridCol (emM em x) di = (DPFC.gridCol x di).map (emV em) := by
  unfold DPFC.gridCol
  split <;> rfl

section
variable (h : Embeds em)
include h

theorem zeroM : (fun _ _ => NumOps.lit 0 1 : Mat c n K) = emM em (fun _ _ => NumOps.lit 0 1) := by
  funext _ _; exact lit h 0 1

theorem gaussU (hN : 0 < N) (b z : Fin N → ℝ) (hb : DPFC.npStd b ≠ 0) (hz : DPFC.npStd z ≠ 0) (x : ℝ) :
    DPFC.gaussU DPFC.npStd (emV em b) (emV em z) (em x) = em (DPFC.gaussU DPFC.npStd b z x) := by
  unfold DPFC.gaussU
  dsimp only
  rw [mean h hN, mean h hN, npStd h hN, npStd h hN, sq h, sq h, h.sub, h.sub, h.neg, h.neg, h.div _ _ (by
    unfold DPFC.sq; exact mul_ne_zero hb hb), h.div _ _ (by unfold DPFC.sq; exact mul_ne_zero hz hz), h.sub]

theorem std_ne {x : Mat d N ℝ} (hx : Spread x) (a : Fin d) : DPFC.npStd (x a) ≠ 0 := by
  have := lsne h x hx a
  intro h0
  apply this
  unfold DPFC.lengthScales
  rw [h0]
  simp

theorem edgeU (hN : 0 < N) (b z : Mat d N ℝ) (hb : Spread b) (hz : Spread z) (x : Mat n c ℝ) :
    DPFC.edgeU DPFC.npStd (emM em b) (emM em z) (emM em x) = (DPFC.edgeU DPFC.npStd b z x).map (emM em) := by
  unfold DPFC.edgeU
  rw [zeroM h]
  refine forFinE (emM em) (fun i s => ?_) _
  rw [gridCol]
  cases DPFC.gridCol x i with
  | error e => rfl
  | ok col =>
    refine Eq.trans ?_ (setOut _ _ _)
    show DPFC.setOut _ _ _ = _
    congr 1
    funext j
    exact gaussU h hN _ _ (std_ne h hb i) (std_ne h hz i) _

theorem clip1 (v lo hi : ℝ) : DPFC.clip1 (em v) (em lo) (em hi) = em (DPFC.clip1 v lo hi) := by
  unfold DPFC.clip1
  have e1 : (fun a : Fin 2 => if a.val = 0 then em v else em lo) = emV em fun a => if a.val = 0 then v else lo := by
    funext a; simp only [emV]; split <;> rfl
  rw [e1, amax h]
  have e2 : (fun a : Fin 2 => if a.val = 0 then em hi else em (NumOps.amax fun a : Fin 2 => if a.val = 0 then v else lo))
      = emV em fun a => if a.val = 0 then hi else (NumOps.amax fun a : Fin 2 => if a.val = 0 then v else lo) := by
    funext a; simp only [emV]; split <;> rfl
  rw [e2, amin h]

theorem bndsZtr (zt : Mat d N ℝ) (di : Fin d) :
    DPFC.bndsZtr (emM em zt) di = (DPFC.bndsZtr zt di).map (emM em) := by
  unfold DPFC.bndsZtr
  have e1 := npMin h (zt di)
  have e2 := npMax h (zt di)
  rw [show emM em zt di = emV em (zt di) from rfl, e1, e2]
  cases DPFC.npMin (zt di) with
  | error e => rfl
  | ok lo =>
    cases DPFC.npMax (zt di) with
    | error e => rfl
    | ok hi =>
      simp only [Except.map, Except.ok_bind', Except.ok.injEq]
      funext a e
      simp only [emM]
      split
      · split <;> rfl
      · exact lit h 0 1

theorem clipGrid (bz : Mat d 2 ℝ) (x : Mat n c ℝ) :
    DPFC.clipGrid (emM em bz) (emM em x) = (DPFC.clipGrid bz x).map (emM em) := by
  unfold DPFC.clipGrid
  split
  · split
    · simp only [Except.map, Except.ok.injEq]
      funext j e
      exact clip1 h _ _ _
    · rfl
  · rfl

theorem kernelU (hN : 0 < N) {kern : String} (hk : kern ≠ "periodic") (S : Mat d M ℝ) (b z : Mat d N ℝ)
    (zt : Option (Mat d N ℝ)) (hb : Spread b) (hz : Spread (zt.getD z)) (x : Mat n c ℝ) :
    DPFC.kernelU kern (emM em S) (emM em b) (emM em z) (zt.map (emM em)) (emM em x)
      = (DPFC.kernelU kern S b z zt x).map (emM em) := by
  unfold DPFC.kernelU
  rw [zeroM h]
  refine forFinE (emM em) (fun i s => ?_) _
  have key : ∀ (w : Mat d N ℝ), Spread w → ∀ {c' : ℕ} (y : Mat n c' ℝ),
      DPFC.scoreSepFn (DPFC.tr (emM em w)) (DPFC.tr (emM em S)) (NumOps.lit 1 1000) kern
          (.vec (DPFC.lengthScales (emM em w))) (i.val + 1) (emM em y)
        = (DPFC.scoreSepFn (DPFC.tr w) (DPFC.tr S) (NumOps.lit 1 1000) kern (.vec (DPFC.lengthScales w))
          (i.val + 1) y).map (emV em) := by
    intro w hw c' y
    rw [← scoreSepFn h (DPFC.tr w) (DPFC.tr S) (NumOps.lit 1 1000) hk (.vec (DPFC.lengthScales w))
      (lsne h w hw) (i.val + 1) y, lengthScales h hN, lit h 1 1000]
    rfl
  rw [key b hb]
  cases DPFC.scoreSepFn (DPFC.tr b) (DPFC.tr S) (NumOps.lit 1 1000) kern (.vec (DPFC.lengthScales b))
      (i.val + 1) x with
  | error e => rfl
  | ok sB =>
    have fin : ∀ sF : Except PyErr (Fin n → ℝ),
        ((sF.map (emV em)) >>= fun sF' => DPFC.setOut (emM em s) i fun j => emV em sB j - sF' j)
          = (sF >>= fun sF' => DPFC.setOut s i fun j => sB j - sF' j).map (emM em) := by
      intro sF
      cases sF with
      | error e => rfl
      | ok sF =>
        refine Eq.trans ?_ (setOut _ _ _)
        show DPFC.setOut _ _ _ = _
        congr 1
        funext j
        exact h.sub _ _
    cases zt with
    | none =>
      simp only [Except.map, Except.ok_bind', Option.map_none]
      rw [key z hz]
      exact fin _
    | some w =>
      simp only [Option.getD_some] at hz
      simp only [Except.map, Except.ok_bind', Option.map_some]
      rw [bndsZtr h]
      cases DPFC.bndsZtr w i with
      | error e => rfl
      | ok bz =>
        simp only [Except.map, Except.ok_bind']
        rw [clipGrid h]
        cases DPFC.clipGrid bz x with
        | error e => rfl
        | ok gx =>
          simp only [Except.map, Except.ok_bind']
          rw [key w hz]
          exact fin _

theorem calculateU {env : Env ρ ℝ} {env' : Env ρ K} (he : SameEnv em env env') (hN : 0 < N) {o : Obj d N M ℝ}
    {o' : Obj d N M K} (hs : SameObj em o o') (hrw : o'.cfg.reweight = o.cfg.reweight)
    (hbb : o'.cfg.brownBridge = o.cfg.brownBridge) (hkn : o'.cfg.kern = o.cfg.kern) (x : Mat n c ℝ) (ti : ℤ)
    (hb : ∀ b, pyAt o.B ti = some b → Spread b) (hz : ∀ z, reference o ti = some z → Spread z) :
    DPFC.calculateU env' o' (emM em x) ti = (do let u ← DPFC.calculateU env o x ti; pure (emM em u)) := by
  unfold DPFC.calculateU
  rw [hs.timegrid, hs.Z, hs.B, hs.Ztr, hrw, hbb, hkn, pyGet, pyGet, liftM_map, List.length_map]
  have hget : ∀ {T : Traj d N ℝ} {w}, DPFC.pyGet T ti = .ok w → pyAt T ti = some w := by
    intro T w hw
    rw [pyGet_eq_pyAt] at hw
    cases ha : pyAt T ti with
    | none => rw [ha] at hw; cases hw
    | some v => rw [ha] at hw; cases hw; rfl
  cases hB : DPFC.pyGet o.B ti with
  | error e => rfl
  | ok b =>
  have sb := hb b (hget hB)
  simp only [RandM.liftM_ok, pure_bind]
  cases hZ : DPFC.pyGet o.Z ti with
  | error e => rfl
  | ok z =>
  simp only [Except.map, RandM.liftM_ok, pure_bind]
  have body : ∀ zt : Option (Mat d N ℝ), Spread (zt.getD z) →
      (do
        let bnds ← (liftM (DPFC.interBox ((zt.map (emM em)).getD (emM em z)) (emM em b)) : RandM ρ (Fin d → K × K))
        if ti ≤ 5 ∨ (o.timegrid.length : Int) - 5 ≤ ti then
          liftM (DPFC.edgeU DPFC.npStd (emM em b) ((zt.map (emM em)).getD (emM em z)) (emM em x))
        else do
          let Sxx ← DPFC.npInducing env' bnds M
          (liftM (DPFC.kernelU (effKern o.cfg.kern) Sxx (emM em b) (emM em z) (zt.map (emM em)) (emM em x))
            : RandM ρ (Mat c n K)))
      = (do
        let u ← (do
          let bnds ← (liftM (DPFC.interBox (zt.getD z) b) : RandM ρ (Fin d → ℝ × ℝ))
          if ti ≤ 5 ∨ (o.timegrid.length : Int) - 5 ≤ ti then liftM (DPFC.edgeU DPFC.npStd b (zt.getD z) x)
          else do
            let Sxx ← DPFC.npInducing env bnds M
            (liftM (DPFC.kernelU (effKern o.cfg.kern) Sxx b z zt x) : RandM ρ (Mat c n ℝ)))
        pure (emM em u)) := by
    intro zt hzt
    have e0 : (zt.map (emM em)).getD (emM em z) = emM em (zt.getD z) := by cases zt <;> rfl
    rw [e0, interBox h, liftM_map]
    simp only [bind_assoc, pure_bind]
    congr 1; funext bn
    split
    · rw [edgeU h hN b _ sb hzt, liftM_map]
    · rw [npInducing h he]
      simp only [bind_assoc, pure_bind]
      congr 1; funext S
      rw [kernelU h hN (by unfold effKern; split <;> simp_all) S b z zt sb hzt, liftM_map]
  cases hm : o.cfg.reweight && o.cfg.brownBridge with
  | false =>
    simp only [RandM.liftM_ok, pure_bind]
    refine body none (hz z ?_)
    unfold reference
    rw [hm]
    exact hget hZ
  | true =>
    cases hT : o.Ztr with
    | none => rfl
    | some T =>
      simp only [Option.map_some]
      rw [pyGet]
      cases hw : DPFC.pyGet T ti with
      | error e => rfl
      | ok w =>
        simp only [Except.map, Except.ok_bind', RandM.liftM_ok, pure_bind]
        refine body (some w) (hz w ?_)
        unfold reference
        rw [hm, hT]
        exact hget hw

theorem checkIfCovered {o : Obj d N M ℝ} {o' : Obj d N M K} (hs : SameObj em o o') (X : Fin c → ℝ) (ti : ℤ) :
    DPFC.checkIfCovered o' (emV em X) ti = DPFC.checkIfCovered o X ti := by
  unfold DPFC.checkIfCovered
  refine forFin_congr (fun i s => ?_) _
  rw [hs.Z, hs.B, pyGet, pyGet]
  cases DPFC.pyGet o.Z ti with
  | error e => rfl
  | ok z =>
  cases DPFC.pyGet o.B ti with
  | error e => rfl
  | ok b =>
  simp only [Except.map, Except.ok_bind']
  rw [show emM em z i = emV em (z i) from rfl, show emM em b i = emV em (b i) from rfl, npMin h, npMin h, npMax h,
    npMax h]
  cases DPFC.npMin (z i) with
  | error e => rfl
  | ok zlo =>
  cases DPFC.npMin (b i) with
  | error e => rfl
  | ok blo =>
  cases DPFC.npMax (z i) with
  | error e => rfl
  | ok zhi =>
  cases DPFC.npMax (b i) with
  | error e => rfl
  | ok bhi =>
  simp only [Except.map, Except.ok_bind', pyMax h, pyMin h, emV, leB h]

theorem contStep {env : Env ρ ℝ} {env' : Env ρ K} (he : SameEnv em env env') {f : Mat d n ℝ → Mat d n ℝ}
    {f' : Mat d n K → Mat d n K} (hf : ∀ x, f' (emM em x) = emM em (f x)) (g : ℝ) (x u : Mat d n ℝ) :
    DPFC.contStep env' f' (em g) (emM em x) (emM em u)
      = (do let y ← DPFC.contStep env f g x u; pure (emM em y)) := by
  unfold DPFC.contStep
  rw [dtc h, sqrt h _ (by rw [dtc_real]; norm_num), normalMat h he]
  simp only [bind_assoc, pure_bind]
  congr 1; funext xi
  congr 1; funext i j
  rw [hf]
  simp only [emM, sq h, h.mul, h.add]

theorem freeStep {env : Env ρ ℝ} {env' : Env ρ K} (he : SameEnv em env env') {f : Mat d n ℝ → Mat d n ℝ}
    {f' : Mat d n K → Mat d n K} (hf : ∀ x, f' (emM em x) = emM em (f x)) (g : ℝ) (x : Mat d n ℝ) :
    DPFC.freeStep env' f' (em g) (emM em x) = (do let y ← DPFC.freeStep env f g x; pure (emM em y)) := by
  unfold DPFC.freeStep
  rw [dtc h, sqrt h _ (by rw [dtc_real]; norm_num), normalMat h he]
  simp only [bind_assoc, pure_bind]
  congr 1; funext xi
  congr 1; funext i j
  rw [hf]
  simp only [emM, h.mul, h.add]

theorem closedLoop {env : Env ρ ℝ} {env' : Env ρ K} (he : SameEnv em env env') (hN : 0 < N) {o : Obj d N M ℝ}
    {o' : Obj d N M K} (hs : SameObj em o o') (hrw : o'.cfg.reweight = o.cfg.reweight)
    (hbb : o'.cfg.brownBridge = o.cfg.brownBridge) (hkn : o'.cfg.kern = o.cfg.kern) (hk : 2 ≤ o.timegrid.length)
    (hsp : ∀ i : ℕ, 1 ≤ i → i < o.timegrid.length - 1 →
      (∀ b, pyAt o.B i = some b → Spread b) ∧ (∀ z, reference o i = some z → Spread z))
    {f : Mat d n ℝ → Mat d n ℝ} {f' : Mat d n K → Mat d n K} (hf : ∀ x, f' (emM em x) = emM em (f x)) (g : ℝ)
    (y1 : Fin d → ℝ) (r r' : ρ) (P : Paths d n ℝ) (hr : DPFC.closedLoop env o f g y1 r = .ok (P, r')) :
    DPFC.closedLoop env' o' f' (em g) (emV em y1) r
      = .ok (⟨P.cont.map (emM em), P.free.map (emM em), P.used.map (emM em)⟩, r') := by
  have hl : o'.timegrid.length = o.timegrid.length := by rw [hs.timegrid, List.length_map]
  rw [closedLoop_eq env o f g y1 hk] at hr
  rw [closedLoop_eq env' o' f' _ _ (by omega)]
  obtain ⟨l, r1, h1, h2⟩ := RandM.bind_ok.1 hr
  obtain ⟨h3, h4⟩ := RandM.pure_ok.1 h2
  let A : Mat d n ℝ × Mat d n ℝ × Mat d n ℝ → Mat d n K × Mat d n K × Mat d n K :=
    fun p => (emM em p.1, emM em p.2.1, emM em p.2.2)
  have hch := chain (step := loopStep env (DPFC.calculateU env o) f g)
    (step' := loopStep env' (DPFC.calculateU env' o') f' (em g)) em A
    (fun i _ _ => 1 ≤ i ∧ i < o.timegrid.length - 1) (fun i t p hP => by
      unfold loopStep
      obtain ⟨sb, sz⟩ := hsp i hP.1 hP.2
      have := calculateU h he hN hs hrw hbb hkn (DPFC.tr p.2.1) i sb sz
      rw [show DPFC.tr (A p).2.1 = emM em (DPFC.tr p.2.1) from rfl, this]
      simp only [bind_assoc, pure_bind]
      congr 1; funext u
      rw [show (A p).2.1 = emM em p.2.1 from rfl, show (A p).2.2 = emM em p.2.2 from rfl, contStep h he hf]
      simp only [bind_assoc, pure_bind]
      congr 1; funext x'
      rw [freeStep h he hf]
      simp only [bind_assoc, pure_bind]
      rfl) _ 1 _ l r r1 h1 (fun j t y ht _ => by
        have := (List.getElem?_eq_some_iff.1 ht).1
        simp only [List.length_tail, List.length_dropLast] at this
        omega)
  rw [RandM.bind_ok]
  refine ⟨l.map A, r1, ?_, ?_⟩
  · rw [hs.timegrid, ← List.map_dropLast, ← List.map_tail, ← hch]
    have e1 : (pt n fun _ => NumOps.lit 0 1 : Mat d n K) = emM em (pt n fun _ => NumOps.lit 0 1) :=
      zeroM (n := n) (c := d) h
    rw [e1]
    rfl
  · rw [RandM.pure_ok]
    refine ⟨?_, h4⟩
    rw [← h3]
    have e1 : (pt n fun _ => NumOps.lit 0 1 : Mat d n K) = emM em (pt n fun _ => NumOps.lit 0 1) :=
      zeroM (n := n) (c := d) h
    rw [e1]
    simp only [List.map_cons, List.map_append, List.map_nil, List.map_map]
    rfl

end
end Lift
end DPFC
