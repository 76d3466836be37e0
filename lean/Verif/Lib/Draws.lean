import Mathlib.Tactic.Ring
import Verif.Lib.Obj
import Verif.Spec.Object

/-! Counting random draws, for any arithmetic. -/

set_option linter.unusedSectionVars false

namespace DPFC
open Spec
section
variable {K ρ : Type} [Add K] [Sub K] [Mul K] [Div K] [Neg K] [NumOps K]
variable {N M d : Nat} {α β : Type}

/-- A successful run of `x` draws `n` normals and `u` uniforms. -/
def Draws (cn cu : ρ → Nat) (x : RandM ρ α) (n u : Nat) : Prop :=
  ∀ r a r', x r = .ok (a, r') → cn r' = cn r + n ∧ cu r' = cu r + u

variable {cn cu : ρ → Nat}

theorem Draws.pure (a : α) : Draws cn cu (Pure.pure a : RandM ρ α) 0 0 := by
  intro r a r' h
  obtain ⟨_, rfl⟩ := RandM.pure_ok.1 h
  exact ⟨rfl, rfl⟩

theorem Draws.raise (e : PyErr) (n u : Nat) : Draws cn cu (RandM.raise e : RandM ρ α) n u := by
  intro r a r' h; cases h

theorem Draws.lift (x : Except PyErr α) : Draws cn cu (liftM x : RandM ρ α) 0 0 := by
  intro r a r' h
  obtain ⟨_, rfl⟩ := RandM.lift_ok.1 h
  exact ⟨rfl, rfl⟩

theorem Draws.bind {x : RandM ρ α} {f : α → RandM ρ β} {n u n' u' : Nat} (hx : Draws cn cu x n u)
    (hf : ∀ a, Draws cn cu (f a) n' u') : Draws cn cu (x >>= f) (n + n') (u + u') := by
  intro r b r' h
  obtain ⟨a, r1, h1, h2⟩ := RandM.bind_ok.1 h
  have e1 := hx _ _ _ h1
  have e2 := hf _ _ _ _ h2
  omega

theorem Draws.cast {x : RandM ρ α} {n u n' u' : Nat} (h : Draws cn cu x n u) (hn : n = n')
    (hu : u = u') : Draws cn cu x n' u' := hn ▸ hu ▸ h

theorem Draws.seqM : ∀ {n : Nat} {f : Fin n → RandM ρ α} {a b : Nat},
    (∀ i, Draws cn cu (f i) a b) → Draws cn cu (seqM n f) (n * a) (n * b)
  | 0, f, a, b, _ => (Draws.pure _).cast (by simp) (by simp)
  | n+1, f, a, b, h => by
    have := (h 0).bind (f := fun a => (DPFC.seqM n fun i => f i.succ) >>= fun rest =>
      Pure.pure (Fin.cons a rest : Fin (n+1) → α))
      fun a => (Draws.seqM fun i => h i.succ).bind fun _ => Draws.pure _
    exact this.cast (by ring) (by ring)

theorem Draws.chain {τ S : Type} {step : Nat → τ → S → RandM ρ S} {a b m : Nat}
    (h : ∀ ti t x, m ≤ ti → Draws cn cu (step ti t x) a b) : ∀ (ts : List τ) (ti : Nat) (x : S),
    m ≤ ti → Draws cn cu (chain step ti ts x) (ts.length * a) (ts.length * b)
  | [], ti, x, _ => (Draws.pure _).cast (by simp) (by simp)
  | t :: ts, ti, x, hm => by
    have := (h ti t x hm).bind (f := fun y => DPFC.chain step (ti+1) ts y >>= fun ys =>
      Pure.pure (y :: ys)) fun y => (Draws.chain h ts (ti+1) y (by omega)).bind fun _ => Draws.pure _
    refine this.cast ?_ ?_ <;> simp only [List.length_cons] <;> ring

/-- A chain whose first step costs `(a, b)` and the others `(a', b')`. -/
theorem Draws.chain1 {τ S : Type} {step : Nat → τ → S → RandM ρ S} {a b a' b' : Nat}
    (h1 : ∀ t x, Draws cn cu (step 1 t x) a b)
    (h : ∀ ti t x, 2 ≤ ti → Draws cn cu (step ti t x) a' b') (ts : List τ) (hts : 1 ≤ ts.length) (x : S) :
    Draws cn cu (DPFC.chain step 1 ts x) (a + (ts.length - 1) * a') (b + (ts.length - 1) * b') := by
  rcases ts with _ | ⟨t, ts⟩
  · simp at hts
  · have := (h1 t x).bind (f := fun y => DPFC.chain step (1+1) ts y >>= fun ys =>
      Pure.pure (y :: ys)) fun y => (Draws.chain h ts (1+1) y (by omega)).bind fun _ => Draws.pure _
    refine this.cast ?_ ?_ <;> simp only [List.length_cons] <;> simp

section
variable {env : Env ρ K} (hc : Counters env cn cu)
include hc

theorem drawVec_normal : ∀ (n : Nat) (r : ρ), cn (drawVec env.normal n r).2 = cn r + n ∧
    cu (drawVec env.normal n r).2 = cu r
  | 0, r => ⟨rfl, rfl⟩
  | n+1, r => by
    have := drawVec_normal n (env.normal r).2
    rw [hc.normal_cn, hc.normal_cu] at this
    refine ⟨this.1.trans (by omega), this.2⟩

theorem drawVec_uniform : ∀ (n : Nat) (r : ρ), cu (drawVec env.uniform n r).2 = cu r + n ∧
    cn (drawVec env.uniform n r).2 = cn r
  | 0, r => ⟨rfl, rfl⟩
  | n+1, r => by
    have := drawVec_uniform n (env.uniform r).2
    rw [hc.uniform_cn, hc.uniform_cu] at this
    refine ⟨this.1.trans (by omega), this.2⟩

theorem drawMat_normal (n : Nat) : ∀ (d : Nat) (r : ρ),
    cn (drawVec (drawVec env.normal n) d r).2 = cn r + d * n ∧
    cu (drawVec (drawVec env.normal n) d r).2 = cu r
  | 0, r => ⟨by simp [drawVec], rfl⟩
  | d+1, r => by
    have := drawMat_normal n d (drawVec env.normal n r).2
    have h2 := drawVec_normal hc n r
    rw [h2.1, h2.2] at this
    refine ⟨this.1.trans (by ring), this.2⟩

theorem drawMat_uniform (n : Nat) : ∀ (d : Nat) (r : ρ),
    cu (drawVec (drawVec env.uniform n) d r).2 = cu r + d * n ∧
    cn (drawVec (drawVec env.uniform n) d r).2 = cn r
  | 0, r => ⟨by simp [drawVec], rfl⟩
  | d+1, r => by
    have := drawMat_uniform n d (drawVec env.uniform n r).2
    have h2 := drawVec_uniform hc n r
    rw [h2.1, h2.2] at this
    refine ⟨this.1.trans (by ring), this.2⟩

theorem draws_normalMat (s : K) (d n : Nat) : Draws cn cu (normalMat env s d n) (d * n) 0 := by
  intro r a r' h
  have : r' = (drawVec (drawVec env.normal n) d r).2 := by
    unfold normalMat at h; injection h with h; exact (congrArg Prod.snd h).symm
  rw [this]
  exact drawMat_normal hc n d r

theorem draws_normalVec (s : K) (d : Nat) : Draws cn cu (normalVec env s d) d 0 := by
  intro r a r' h
  have : r' = (drawVec env.normal d r).2 := by
    unfold normalVec at h; injection h with h; exact (congrArg Prod.snd h).symm
  rw [this]
  exact drawVec_normal hc d r

theorem draws_npUniform (l h : K) (M : Nat) : Draws cn cu (npUniform env l h M) 0 M := by
  intro r a r' hh
  unfold npUniform at hh
  split at hh
  · have : r' = (drawVec env.uniform M r).2 := by
      injection hh with hh; exact (congrArg Prod.snd hh).symm
    rw [this]
    have := drawVec_uniform hc M r
    exact ⟨this.2, this.1⟩
  · cases hh

theorem draws_npInducing (bnds : Fin d → K × K) (M : Nat) :
    Draws cn cu (npInducing env bnds M) 0 (d * M) :=
  (Draws.seqM fun _ => draws_npUniform hc _ _ M).cast (by simp) rfl

theorem draws_torchInducing (bnds : Fin d → K × K) (M : Nat) :
    Draws cn cu (torchInducing env bnds M) 0 (d * M) := by
  intro r a r' hh
  unfold torchInducing at hh
  split at hh
  · have : r' = (drawVec (drawVec env.uniform d) M r).2 := by
      injection hh with hh; exact (congrArg Prod.snd hh).symm
    rw [this]
    have := drawMat_uniform hc d M r
    exact ⟨this.2, this.1.trans (by ring)⟩
  · cases hh

theorem draws_noisyStep (g : K) (f : Drift d N K) (x : Mat d N K) (t : K) :
    Draws cn cu (noisyStep env g f x t) (d * N) 0 :=
  (draws_normalMat hc _ d N).bind fun _ => Draws.pure _

theorem draws_seqLift {n : Nat} {f : Fin n → Except PyErr α} :
    Draws cn cu (seqM n fun i => (liftM (f i) : RandM ρ α)) 0 0 :=
  (Draws.seqM fun _ => Draws.lift _).cast (by simp) (by simp)

theorem draws_ottoStep (pl : Bool) (kern : String) (g : K) (f : Drift d N K) (x : Mat d N K) (t : K) :
    Draws cn cu (ottoStep pl env M kern g f x t) 0 (d * M) :=
  (((((Draws.lift _).bind fun _ => (Draws.lift _).bind fun _ => (draws_npInducing hc _ M).bind fun _ => draws_seqLift hc).bind
    fun _ => Draws.pure _).bind fun _ => Draws.pure _ : Draws cn cu (ottoStep pl env M kern g f x t) _ _)).cast
    (by omega) (by omega)

theorem draws_torchOttoStep (g : K) (f : Drift d N K) (x : Mat d N K) (t : K) :
    Draws cn cu (torchOttoStep env M g f x t) 0 (d * M) :=
  (((((Draws.lift _).bind fun _ => (draws_torchInducing hc _ M).bind fun _ => (Draws.lift _).bind
    fun _ => Draws.pure _).bind fun _ => Draws.pure _ : Draws cn cu (torchOttoStep env M g f x t) _ _))).cast
    (by omega) (by omega)

theorem draws_rw (b : Bool) (f : Mat d N K → Except PyErr (Mat d N K)) (x : Mat d N K) :
    Draws cn cu (if b then (liftM (f x) : RandM ρ (Mat d N K)) else pure x) 0 0 := by
  split
  · exact Draws.lift _
  · exact Draws.pure _

theorem draws_ottoSlice_one (c : Cfg d N M K) (t : K) (x : Mat d N K) :
    Draws cn cu (ottoSlice env c 1 t x) (d * N) 0 :=
  (draws_noisyStep hc _ _ _ _).bind fun raw => draws_rw hc c.reweight (ottoReweight env c.U · t) raw

theorem draws_ottoSlice (c : Cfg d N M K) (ti : Nat) (t : K) (x : Mat d N K) (h : 2 ≤ ti) :
    Draws cn cu (ottoSlice env c ti t x) 0 (d * M) := by
  unfold ottoSlice
  rw [if_neg (by omega)]
  exact (draws_ottoStep hc _ _ _ _ _ _).bind fun raw =>
    draws_rw hc c.reweight (ottoReweight env c.U · t) raw

theorem draws_torchOttoSlice_one (c : Cfg d N M K) (t : K) (x : Mat d N K) :
    Draws cn cu (torchOttoSlice env c 1 t x) (d * N) 0 :=
  (draws_noisyStep hc _ _ _ _).bind fun raw => draws_rw hc c.reweight (torchOttoRw env c.U · t) raw

theorem draws_torchOttoSlice (c : Cfg d N M K) (ti : Nat) (t : K) (x : Mat d N K) (h : 2 ≤ ti) :
    Draws cn cu (torchOttoSlice env c ti t x) 0 (d * M) := by
  unfold torchOttoSlice
  rw [if_neg (by omega)]
  exact (draws_torchOttoStep hc _ _ _ _).bind fun raw =>
    draws_rw hc c.reweight (torchOttoRw env c.U · t) raw

theorem draws_trueSlice_one (c : Cfg d N M K) (t : K) (x : Mat d N K) :
    Draws cn cu (trueSlice env c 1 t x) (d * N) 0 := by
  unfold trueSlice
  split
  · exact Draws.raise _ _ _
  · exact draws_noisyStep hc _ _ _ _

theorem draws_trueSlice (c : Cfg d N M K) (ti : Nat) (t : K) (x : Mat d N K) (h : 2 ≤ ti) :
    Draws cn cu (trueSlice env c ti t x) 0 (d * M) := by
  unfold trueSlice
  split
  · exact Draws.raise _ _ _
  · rw [if_neg (by omega)]
    exact draws_ottoStep hc _ _ _ _ _ _

theorem draws_torchTrueSlice_one (c : Cfg d N M K) (t : K) (x : Mat d N K) :
    Draws cn cu (torchTrueSlice env c 1 t x) (d * N) 0 := by
  unfold torchTrueSlice
  split
  · exact Draws.raise _ _ _
  · exact draws_noisyStep hc _ _ _ _

theorem draws_torchTrueSlice (c : Cfg d N M K) (ti : Nat) (t : K) (x : Mat d N K) (h : 2 ≤ ti) :
    Draws cn cu (torchTrueSlice env c ti t x) 0 (d * M) := by
  unfold torchTrueSlice
  split
  · exact Draws.raise _ _ _
  · rw [if_neg (by omega)]
    rename_i ft _
    exact (((((Draws.lift _).bind fun _ => (draws_torchInducing hc _ M).bind fun _ => (Draws.lift _).bind
      fun _ => Draws.pure _).bind fun _ => Draws.pure _ :
        Draws cn cu (torchTrueStep env M c.g ft x (t - dtc)) _ _))).cast (by omega) (by omega)

theorem draws_stochSlice (c : Cfg d N M K) (ti : Nat) (t : K) (x : Mat d N K) :
    Draws cn cu (stochSlice env c ti t x) (d * N) 0 := by
  have hcol : ∀ i, Draws cn cu (stochCol env c x i) d 0 := by
    intro i
    unfold stochCol
    split
    · exact Draws.raise _ _ _
    · exact (draws_normalVec hc _ d).bind fun _ => Draws.pure _
  exact (((Draws.seqM hcol).bind fun _ => Draws.pure _).bind fun raw =>
    draws_rw hc c.reweight (stochReweight env c.U ·) raw).cast (by ring) (by simp)

theorem draws_torchStochSlice (c : Cfg d N M K) (ti : Nat) (t : K) (x : Mat d N K) :
    Draws cn cu (torchStochSlice env c ti t x) (d * N) 0 :=
  (draws_noisyStep hc _ _ _ _).bind fun raw => draws_rw hc c.reweight (torchStochRw env c.U ·) raw

theorem draws_backStep_noisy {dens bw : Mat d N K → Mat d N K → RandM ρ (Mat d N K)} {u : Nat}
    (hd : ∀ z b, Draws cn cu (dens z b) 0 u) (f : Drift d N K) (g : K) (det : Bool) (ti : Nat)
    (h : (ti = 1 ∧ det = true) ∨ det = false) (zt : Mat d N K × K) (b : Mat d N K) :
    Draws cn cu (backStep env dens bw f g det ti zt b) (d * N) u := by
  unfold backStep
  simp only [if_pos h]
  exact ((hd _ _).bind fun _ => (draws_normalMat hc _ d N).bind fun _ => Draws.pure _).cast
    (by omega) (by omega)

theorem draws_backStep_det {dens bw : Mat d N K → Mat d N K → RandM ρ (Mat d N K)} {u : Nat}
    (hd : ∀ z b, Draws cn cu (dens z b) 0 u) (hb : ∀ z b, Draws cn cu (bw z b) 0 u)
    (f : Drift d N K) (g : K) (det : Bool) (ti : Nat)
    (h : ¬ ((ti = 1 ∧ det = true) ∨ det = false)) (zt : Mat d N K × K) (b : Mat d N K) :
    Draws cn cu (backStep env dens bw f g det ti zt b) 0 (2 * u) := by
  unfold backStep
  simp only [if_neg h]
  exact ((hd _ _).bind fun _ => (hb _ _).bind fun _ => Draws.pure _).cast
    (by omega) (by omega)

theorem draws_densityAt (kern : String) (z b : Mat d N K) :
    Draws cn cu (densityAt env M kern z b) 0 (d * M) :=
  (((Draws.lift _).bind fun _ => (Draws.lift _).bind fun _ => (draws_npInducing hc _ M).bind fun _ =>
    draws_seqLift hc : Draws cn cu (densityAt env M kern z b) _ _)).cast (by omega) (by omega)

theorem draws_bwDensityAt (kern : String) (z b : Mat d N K) :
    Draws cn cu (bwDensityAt env M kern z b) 0 (d * M) :=
  (((Draws.lift _).bind fun _ => (draws_npInducing hc _ M).bind fun _ => draws_seqLift hc :
    Draws cn cu (bwDensityAt env M kern z b) _ _)).cast (by omega) (by omega)

theorem draws_torchDensityAt (kern : String) (z b : Mat d N K) :
    Draws cn cu (torchDensityAt env M kern z b) 0 (d * M) :=
  (((Draws.lift _).bind fun _ => (draws_torchInducing hc _ M).bind fun _ => (Draws.lift _).bind fun _ =>
    Draws.pure _ : Draws cn cu (torchDensityAt env M kern z b) _ _)).cast (by omega) (by omega)

theorem draws_torchBwDensityAt (kern : String) (z b : Mat d N K) :
    Draws cn cu (torchBwDensityAt env M kern z b) 0 (d * M) :=
  (((Draws.lift _).bind fun _ => (draws_torchInducing hc _ M).bind fun _ => (Draws.lift _).bind fun _ =>
    Draws.pure _ : Draws cn cu (torchBwDensityAt env M kern z b) _ _)).cast (by omega) (by omega)

end
end
end DPFC
