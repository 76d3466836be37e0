import Verif.Lib.LimitRun
import Verif.Spec.Symmetry

/-!
# Score estimates and runs in transformed coordinates
-/

namespace DPFC
open Spec

namespace Sym
variable {d N M n : ℕ} (S : Symmetry d N M)

theorem sq (a : Fin d) : S.sign a ^ 2 = 1 := by rcases S.unit a with h | h <;> rw [h] <;> norm_num
theorem mulself (a : Fin d) : S.sign a * S.sign a = 1 := by rw [← pow_two, sq]

theorem gauss (l x y : Fin d → ℝ) : Spec.gauss (fun a => l (S.coord a)) (S.point x) (S.point y) = Spec.gauss l x y := by
  unfold Spec.gauss
  congr 2
  rw [← Equiv.sum_comp S.coord fun k => (x k - y k) ^ 2 / (2 * l k ^ 2)]
  refine Finset.sum_congr rfl fun k _ => ?_
  unfold Symmetry.point
  rw [← mul_sub, mul_pow, sq, one_mul]

theorem score1 (C : ℝ) (l : Fin d → ℝ) (X : Fin N → Fin d → ℝ) (P : Fin M → Fin d → ℝ) (a : Fin d) (x : Fin d → ℝ) :
    score C (fun a => l (S.coord a)) (fun k => S.point (X k)) (fun m => S.point (P m)) a (S.point x)
      = S.sign a * score C l X P (S.coord a) x := by
  have hk : ∀ {p q : ℕ} (X : Fin p → Fin d → ℝ) (Y : Fin q → Fin d → ℝ),
      kmat (fun a => l (S.coord a)) (fun k => S.point (X k)) (fun m => S.point (Y m)) = kmat l X Y := fun X Y => by
    ext i j; exact gauss S l _ _
  have hg : gradSum (fun a => l (S.coord a)) (fun k => S.point (X k)) (fun m => S.point (P m)) a
      = S.sign a • gradSum l X P (S.coord a) := by
    funext m
    rw [Pi.smul_apply, smul_eq_mul, gradSum_eq, gradSum_eq, Finset.mul_sum]
    refine Finset.sum_congr rfl fun s _ => ?_
    rw [gauss S]
    unfold Symmetry.point
    ring
  unfold score coef sysMat gramReg
  rw [hk, hk, hg, Finset.mul_sum]
  refine Finset.sum_congr rfl fun i _ => ?_
  rw [gauss S, Matrix.mulVec_smul]
  simp only [Pi.neg_apply, Pi.smul_apply, smul_eq_mul]
  ring

theorem avg (v : Fin N → ℝ) (s : ℝ) (τ : Equiv.Perm (Fin N)) : Spec.avg (fun k => s * v (τ k)) = s * Spec.avg v := by
  unfold Spec.avg
  rw [← Finset.mul_sum, Equiv.sum_comp τ v, mul_div_assoc]

theorem sqsum (v : Fin N → ℝ) {s : ℝ} (hs : s ^ 2 = 1) (τ : Equiv.Perm (Fin N)) :
    ∑ i, (s * v (τ i) - Spec.avg (fun k => s * v (τ k))) ^ 2 = ∑ i, (v i - Spec.avg v) ^ 2 := by
  rw [avg, ← Equiv.sum_comp τ fun i => (v i - Spec.avg v) ^ 2]
  refine Finset.sum_congr rfl fun i _ => ?_
  rw [← mul_sub, mul_pow, hs, one_mul]

theorem variance (v : Fin N → ℝ) {s : ℝ} (hs : s ^ 2 = 1) (τ : Equiv.Perm (Fin N)) :
    Spec.variance (fun k => s * v (τ k)) = Spec.variance v := by
  unfold Spec.variance; rw [sqsum v hs]

theorem sdev (v : Fin N → ℝ) {s : ℝ} (hs : s ^ 2 = 1) (τ : Equiv.Perm (Fin N)) :
    Spec.sdev (fun k => s * v (τ k)) = Spec.sdev v := by
  unfold Spec.sdev; rw [variance v hs]

theorem sampleSdev (v : Fin N → ℝ) {s : ℝ} (hs : s ^ 2 = 1) (τ : Equiv.Perm (Fin N)) :
    Spec.sampleSdev (fun k => s * v (τ k)) = Spec.sampleSdev v := by
  unfold Spec.sampleSdev; rw [sqsum v hs]

theorem cloud_sdev (x : Fin d → Fin N → ℝ) (a : Fin d) : Spec.sdev (S.cloud x a) = Spec.sdev (x (S.coord a)) :=
  sdev _ (sq S a) _
theorem cloud_sampleSdev (x : Fin d → Fin N → ℝ) (a : Fin d) :
    Spec.sampleSdev (S.cloud x a) = Spec.sampleSdev (x (S.coord a)) := sampleSdev _ (sq S a) _

theorem spread {x : Fin d → Fin N → ℝ} (h : Spread x) : Spread (S.cloud x) := fun a => by
  rw [cloud_sdev]; exact h _

theorem iInf_neg (v : Fin N → ℝ) : ⨅ k, -v k = -⨆ k, v k := by
  have : Set.range (fun k => -v k) = -Set.range v := by rw [← Set.image_neg_eq_neg, ← Set.range_comp]; rfl
  unfold iInf iSup
  rw [this, Real.sInf_neg]

theorem iSup_neg (v : Fin N → ℝ) : ⨆ k, -v k = -⨅ k, v k := by
  have : Set.range (fun k => -v k) = -Set.range v := by rw [← Set.image_neg_eq_neg, ← Set.range_comp]; rfl
  unfold iInf iSup
  rw [this, Real.sSup_neg]

/-- The box `l', h'` is the box `l, h` in the new coordinates. -/
def Box (l h l' h' : Fin d → ℝ) : Prop := ∀ a,
  (S.sign a = 1 → l' a = l (S.coord a) ∧ h' a = h (S.coord a)) ∧
  (S.sign a = -1 → l' a = -h (S.coord a) ∧ h' a = -l (S.coord a))

theorem box (x : Fin d → Fin N → ℝ) : Box S (fun a => Spec.lo (x a)) (fun a => Spec.hi (x a))
    (fun a => Spec.lo (S.cloud x a)) (fun a => Spec.hi (S.cloud x a)) := fun a => by
  unfold Symmetry.cloud Spec.lo Spec.hi
  refine ⟨fun h => ?_, fun h => ?_⟩
  · simp only [h, one_mul]
    exact ⟨S.part.iInf_comp (g := fun k => x (S.coord a) k), S.part.iSup_comp (g := fun k => x (S.coord a) k)⟩
  · simp only [h, neg_one_mul]
    rw [S.part.iInf_comp (g := fun k => - x (S.coord a) k), S.part.iSup_comp (g := fun k => - x (S.coord a) k),
      iInf_neg, iSup_neg]
    exact ⟨rfl, rfl⟩

theorem box_hull {l h l' h' p q p' q' : Fin d → ℝ} (h1 : Box S l h l' h') (h2 : Box S p q p' q') :
    Box S (fun a => min (l a) (p a)) (fun a => max (h a) (q a)) (fun a => min (l' a) (p' a)) (fun a => max (h' a) (q' a)) :=
  fun a => ⟨fun e => by beta_reduce; rw [((h1 a).1 e).1, ((h1 a).1 e).2, ((h2 a).1 e).1, ((h2 a).1 e).2]; exact ⟨rfl, rfl⟩,
    fun e => by
      beta_reduce
      rw [((h1 a).2 e).1, ((h1 a).2 e).2, ((h2 a).2 e).1, ((h2 a).2 e).2]
      exact ⟨min_neg_neg _ _, max_neg_neg _ _⟩⟩

theorem box_meet {l h l' h' p q p' q' : Fin d → ℝ} (h1 : Box S l h l' h') (h2 : Box S p q p' q') :
    Box S (fun a => max (l a) (p a)) (fun a => min (h a) (q a)) (fun a => max (l' a) (p' a)) (fun a => min (h' a) (q' a)) :=
  fun a => ⟨fun e => by beta_reduce; rw [((h1 a).1 e).1, ((h1 a).1 e).2, ((h2 a).1 e).1, ((h2 a).1 e).2]; exact ⟨rfl, rfl⟩,
    fun e => by
      beta_reduce
      rw [((h1 a).2 e).1, ((h1 a).2 e).2, ((h2 a).2 e).1, ((h2 a).2 e).2]
      exact ⟨max_neg_neg _ _, min_neg_neg _ _⟩⟩

theorem inducing {l h l' h' : Fin d → ℝ} (hb : Box S l h l' h') {u u' : Fin d → Fin M → ℝ}
    (hu : ∀ a m, u' a m = S.flip a (u (S.coord a) (S.ind m))) :
    Spec.inducing l' h' u' = fun m => S.point (Spec.inducing l h u (S.ind m)) := by
  funext m a
  unfold Spec.inducing Symmetry.point
  rw [hu]
  unfold Symmetry.flip
  rcases S.unit a with e | e
  · rw [((hb a).1 e).1, ((hb a).1 e).2, if_pos e, e, one_mul]
  · rw [((hb a).2 e).1, ((hb a).2 e).2, if_neg (by rw [e]; norm_num), e]; ring

theorem tinducing {l h l' h' : Fin d → ℝ} (hb : Box S l h l' h') {u u' : Fin M → Fin d → ℝ}
    (hu : ∀ m a, u' m a = S.flip a (u (S.ind m) (S.coord a))) :
    Spec.tinducing l' h' u' = fun m => S.point (Spec.tinducing l h u (S.ind m)) := by
  funext m a
  unfold Spec.tinducing Symmetry.point
  rw [hu]
  unfold Symmetry.flip
  rcases S.unit a with e | e
  · rw [((hb a).1 e).1, ((hb a).1 e).2, if_pos e, e, one_mul]
  · rw [((hb a).2 e).1, ((hb a).2 e).2, if_neg (by rw [e]; norm_num), e]; ring

/-- The score estimate of a transformed cloud. -/
theorem score (C : ℝ) (l : Fin d → ℝ) (X : Fin d → Fin N → ℝ) (P : Fin M → Fin d → ℝ) (a : Fin d) (x : Fin d → ℝ) :
    Spec.score C (fun a => l (S.coord a)) (particle (S.cloud X)) (fun m => S.point (P (S.ind m))) a (S.point x)
      = S.sign a * Spec.score C l (particle X) P (S.coord a) x := by
  have := score1 S C l (fun k => particle X (S.part k)) (fun m => P (S.ind m)) a x
  rw [score_perm_samples C l (particle X) _ _ _ S.part, score_perm_inducing C l (particle X) P _ _ S.ind] at this
  exact this

theorem pointScore (X : Fin d → Fin N → ℝ) (P : Fin M → Fin d → ℝ) (y : Fin n → Fin d → ℝ) :
    Spec.pointScore (S.cloud X) (fun m => S.point (P (S.ind m))) (fun j => S.point (y j)) = S.control (Spec.pointScore X P y) := by
  funext a j
  unfold Spec.pointScore Symmetry.control
  rw [← score S]
  congr 1
  funext k
  rw [cloud_sdev]

theorem tpointScore (X : Fin d → Fin N → ℝ) (P : Fin M → Fin d → ℝ) (y : Fin n → Fin d → ℝ) :
    Spec.tpointScore (S.cloud X) (fun m => S.point (P (S.ind m))) (fun j => S.point (y j)) = S.control (Spec.tpointScore X P y) := by
  funext a j
  unfold Spec.tpointScore Symmetry.control
  rw [← score S]
  congr 1
  funext k
  rw [cloud_sampleSdev]

theorem cloudScore (X Y : Fin d → Fin N → ℝ) (P : Fin M → Fin d → ℝ) :
    Spec.cloudScore (S.cloud X) (fun m => S.point (P (S.ind m))) (S.cloud Y) = S.cloud (Spec.cloudScore X P Y) := by
  funext a j
  show _ = S.sign a * Spec.score _ _ _ _ _ (particle Y (S.part j))
  rw [← score S]
  unfold Spec.cloudScore
  congr 1
  funext k
  rw [cloud_sdev]

theorem tcloudScore (X Y : Fin d → Fin N → ℝ) (P : Fin M → Fin d → ℝ) :
    Spec.tcloudScore (S.cloud X) (fun m => S.point (P (S.ind m))) (S.cloud Y) = S.cloud (Spec.tcloudScore X P Y) := by
  funext a j
  show _ = S.sign a * Spec.score _ _ _ _ _ (particle Y (S.part j))
  rw [← score S]
  unfold Spec.tcloudScore Spec.cloudScoreL
  congr 1
  funext k
  rw [cloud_sampleSdev]

theorem flowScore (x : Fin d → Fin N → ℝ) {u u' : Fin d → Fin M → ℝ}
    (hu : ∀ a m, u' a m = S.flip a (u (S.coord a) (S.ind m))) :
    Spec.cloudScore (S.cloud x) (Spec.inducing (fun a => Spec.lo (S.cloud x a)) (fun a => Spec.hi (S.cloud x a)) u') (S.cloud x)
      = S.cloud (Spec.cloudScore x (Spec.inducing (fun a => Spec.lo (x a)) (fun a => Spec.hi (x a)) u) x) := by
  rw [inducing S (box S x) hu, cloudScore]

theorem scoreRho (z b : Fin d → Fin N → ℝ) {u u' : Fin d → Fin M → ℝ}
    (hu : ∀ a m, u' a m = S.flip a (u (S.coord a) (S.ind m))) :
    Spec.scoreRho (S.cloud z) (S.cloud b) u' = S.cloud (Spec.scoreRho z b u) := by
  unfold Spec.scoreRho
  rw [inducing S (box_meet S (box S z) (box S b)) hu, cloudScore]

theorem scoreB (z b : Fin d → Fin N → ℝ) {u u' : Fin d → Fin M → ℝ}
    (hu : ∀ a m, u' a m = S.flip a (u (S.coord a) (S.ind m))) :
    Spec.scoreB (S.cloud z) (S.cloud b) u' = S.cloud (Spec.scoreB z b u) := by
  unfold Spec.scoreB
  rw [inducing S (box_meet S (box S z) (box S b)) hu, cloudScore]

theorem tflowScore (x : Fin d → Fin N → ℝ) {u u' : Fin M → Fin d → ℝ}
    (hu : ∀ m a, u' m a = S.flip a (u (S.ind m) (S.coord a))) :
    Spec.tcloudScore (S.cloud x) (Spec.tinducing (fun a => Spec.lo (S.cloud x a)) (fun a => Spec.hi (S.cloud x a)) u') (S.cloud x)
      = S.cloud (Spec.tcloudScore x (Spec.tinducing (fun a => Spec.lo (x a)) (fun a => Spec.hi (x a)) u) x) := by
  rw [tinducing S (box S x) hu, tcloudScore]

theorem box_eq {l h l' h' : Fin d → ℝ} (hb : Box S l h l' h') (a : Fin d) : l' a = h' a ↔ l (S.coord a) = h (S.coord a) := by
  rcases S.unit a with e | e
  · rw [((hb a).1 e).1, ((hb a).1 e).2]
  · rw [((hb a).2 e).1, ((hb a).2 e).2, neg_inj, eq_comm]

theorem box_t (z b : Fin d → Fin N → ℝ) : Box S (tlow z b) (thigh z b) (tlow (S.cloud z) (S.cloud b))
    (thigh (S.cloud z) (S.cloud b)) := fun a => by
  have h1 := box S z a
  have h2 := box_hull S (box S z) (box S b) a
  have he := box_eq S (box S b) a
  unfold tlow thigh
  by_cases h : Spec.lo (b (S.coord a)) = Spec.hi (b (S.coord a))
  · rw [if_pos h, if_pos h, if_pos (he.2 h), if_pos (he.2 h)]; exact h1
  · rw [if_neg h, if_neg h, if_neg (mt he.1 h), if_neg (mt he.1 h)]; exact h2

theorem tscoreRho (z b : Fin d → Fin N → ℝ) {u u' : Fin M → Fin d → ℝ}
    (hu : ∀ m a, u' m a = S.flip a (u (S.ind m) (S.coord a))) :
    Spec.tscoreRho (S.cloud z) (S.cloud b) u' = S.cloud (Spec.tscoreRho z b u) := by
  unfold Spec.tscoreRho
  rw [tinducing S (box_t S z b) hu, tcloudScore]

theorem tscoreB (z b : Fin d → Fin N → ℝ) {u u' : Fin M → Fin d → ℝ}
    (hu : ∀ m a, u' m a = S.flip a (u (S.ind m) (S.coord a))) :
    Spec.tscoreB (S.cloud z) (S.cloud b) u' = S.cloud (Spec.tscoreB z b u) := by
  unfold Spec.tscoreB
  rw [tinducing S (box_hull S (box S z) (box S b)) hu, tcloudScore]

section
variable {ρ ρ' U : Type} {env : Env ρ ℝ} {env' : Env ρ' ℝ} {R : ρ → ρ' → Prop} {V : U → U → Prop}
  {dr : ρ → U} {nx : ρ → ρ} {dr' : ρ' → U} {nx' : ρ' → ρ'}
  {sF : (Fin d → Fin N → ℝ) → U → Fin d → Fin N → ℝ}
  {sR sB : (Fin d → Fin N → ℝ) → (Fin d → Fin N → ℝ) → U → Fin d → Fin N → ℝ}

/-- What `Coupled` and `TorchCoupled` say, with the draws of the uniforms left open. -/
structure Cpl (env : Env ρ ℝ) (env' : Env ρ' ℝ) (R : ρ → ρ' → Prop) (V : U → U → Prop) (dr : ρ → U) (nx : ρ → ρ)
    (dr' : ρ' → U) (nx' : ρ' → ρ') : Prop where
  n : ∀ r r', R r r' → Spec.normals env' d N r' = S.cloud (Spec.normals env d N r)
  nn : ∀ r r', R r r' → R (Spec.normalsNext env d N r) (Spec.normalsNext env' d N r')
  u : ∀ r r', R r r' → V (dr r) (dr' r')
  un : ∀ r r', R r r' → R (nx r) (nx' r')

theorem fst_R (hc : Cpl S env env' R V dr nx dr' nx') {r r'} (h : R r r') :
    ∀ j, R (Lim.fst env d N nx r j) (Lim.fst env' d N nx' r' j)
  | 0 => h
  | 1 => hc.nn _ _ h
  | j+2 => hc.un _ _ (fst_R hc h (j+1))

theorem bst_R (hc : Cpl S env env' R V dr nx dr' nx') {r r'} (h : R r r') :
    ∀ j, R (Lim.bst env d N nx r j) (Lim.bst env' d N nx' r' j)
  | 0 => h
  | 1 => hc.nn _ _ (hc.un _ _ h)
  | j+2 => hc.un _ _ (hc.un _ _ (bst_R hc h (j+1)))

theorem noisy {c c' : Cfg d N M ℝ} (hp : S.Poses c c') (x ξ : Fin d → Fin N → ℝ) (t : ℝ) :
    Spec.noisy c'.f c'.g (S.cloud x) t (S.cloud ξ) = S.cloud (Spec.noisy c.f c.g x t ξ) := by
  have hg : c'.g = c.g := by rw [hp.same]
  funext a k
  unfold Spec.noisy
  rw [hp.drift, hg]
  unfold Symmetry.cloud
  ring

theorem pt (p : Fin d → ℝ) : (fun a (_ : Fin N) => S.point p a) = S.cloud fun a _ => p a := rfl

/-- Runs in the new coordinates. -/
theorem run {c c' : Cfg d N M ℝ} (hp : S.Poses c c') (hc : Cpl S env env' R V dr nx dr' nx')
    (hF : ∀ x u u', V u u' → sF (S.cloud x) u' = S.cloud (sF x u))
    (hR : ∀ z b u u', V u u' → sR (S.cloud z) (S.cloud b) u' = S.cloud (sR z b u))
    (hB : ∀ z b u u', V u u' → sB (S.cloud z) (S.cloud b) u' = S.cloud (sB z b u))
    {t : List ℝ} (hk : 2 ≤ t.length) {Z B Z' B' : Traj d N ℝ} {r r1 : ρ} {r' r1' : ρ'} (hr : R r r')
    (h : Lim.Run env c U dr nx sF sR sB t Z B r r1) (h' : Lim.Run env' c' U dr' nx' sF sR sB t Z' B' r' r1')
    (sZ : ∀ j, 1 ≤ j → j < t.length → Spread (Lim.sl Z j)) (sBk : ∀ j, 2 ≤ j → j + 1 < t.length → Spread (Lim.sl B j)) :
    (∀ j, j < t.length → Lim.sl Z' j = S.cloud (Lim.sl Z j)) ∧
    (∀ j, j < t.length → Lim.sl B' j = S.cloud (Lim.sl B j)) ∧ R r1 r1' := by
  have hg : c'.g = c.g := by rw [hp.same]
  have hy1 : c'.y1 = S.point c.y1 := by rw [hp.same]
  have hy2 : c'.y2 = S.point c.y2 := by rw [hp.same]
  have hfs := fst_R S hc hr
  have hZ : ∀ j, j < t.length → Lim.sl Z' j = S.cloud (Lim.sl Z j) := by
    intro j
    induction j with
    | zero => intro _; rw [h.z0, h'.z0, hy1]; rfl
    | succ j ih =>
      intro hj
      have hx := ih (by omega)
      match j, hj, hx with
      | 0, hj, hx =>
        rw [h.z1 (by omega), h'.z1 (by omega), hx, hc.n _ _ hr, noisy S hp]
      | j+1, hj, hx =>
        have sx := sZ (j+1) (by omega) (by omega)
        rw [h.zs j hj sx, h'.zs j hj (by rw [hx]; exact spread S sx), hx, hp.drift, hg, hF _ _ _ (hc.u _ _ (hfs _))]
        funext a k
        unfold Symmetry.cloud
        ring
  have hBm : ∀ m j, j + 1 + m = t.length → 1 ≤ j → Lim.sl B' j = S.cloud (Lim.sl B j) := by
    intro m
    induction m with
    | zero =>
      intro j hj _
      obtain rfl : j = t.length - 1 := by omega
      rw [h.bk, h'.bk, hy2]; rfl
    | succ m ih =>
      intro j hj h1
      have hz := hZ (j+1) (by omega)
      have sz := sZ (j+1) (by omega) (by omega)
      have hb := ih (j+1) (by omega) (by omega)
      match m, hj, hb with
      | 0, hj, hb =>
        obtain rfl : j = t.length - 2 := by omega
        have e : t.length - 2 + 1 = t.length - 1 := by omega
        rw [e] at hz sz hb
        rw [h.b1 (by omega) sz, h'.b1 (by omega) (by rw [hz]; exact spread S sz), hz, hb, hp.drift, hg,
          hR _ _ _ _ (hc.u _ _ (hfs _)), hc.n _ _ (hc.un _ _ (hfs _))]
        funext a k
        unfold Symmetry.cloud
        ring
      | m+1, hj, hb =>
        have sb := sBk (j+1) (by omega) (by omega)
        have hbs := bst_R S hc (hfs (t.length - 1)) (m+1)
        rw [h.bs (m+1) j (by omega) (by omega) h1 sz sb, h'.bs (m+1) j (by omega) (by omega) h1
          (by rw [hz]; exact spread S sz) (by rw [hb]; exact spread S sb), hz, hb, hp.drift, hg,
          hR _ _ _ _ (hc.u _ _ hbs), hB _ _ _ _ (hc.u _ _ (hc.un _ _ hbs))]
        funext a k
        unfold Symmetry.cloud
        ring
  refine ⟨hZ, fun j hj => ?_, ?_⟩
  · rcases Nat.eq_zero_or_pos j with rfl | h1
    · rw [h.b0, h'.b0, hy1]; rfl
    · exact hBm (t.length - 1 - j) j (by omega) h1
  · rw [h.fin, h'.fin]; exact bst_R S hc (hfs _) _

end

theorem traj {T T' : Traj d N ℝ} (hl : T'.length = T.length) (h : ∀ j, j < T.length → Lim.sl T' j = S.cloud (Lim.sl T j)) :
    T' = T.map S.cloud := by
  refine List.ext_getElem (by simpa using hl) fun j h1 h2 => ?_
  have := h j (by omega)
  rw [Lim.sl_eq (List.getElem?_eq_getElem h1), Lim.sl_eq (List.getElem?_eq_getElem (by omega))] at this
  rw [this, List.getElem_map]

section
variable {ρ ρ' : Type} {env : Env ρ ℝ} {env' : Env ρ' ℝ} {R : ρ → ρ' → Prop}

theorem cpl (hc : S.Coupled env env' R) : Cpl S env env' R
    (fun u u' => ∀ a m, u' a m = S.flip a (u (S.coord a) (S.ind m))) (unifs env d M) (unifsNext env d M) (unifs env' d M)
    (unifsNext env' d M) := ⟨hc.normals, hc.normalsNext, hc.unifs, hc.unifsNext⟩

theorem tcpl (hc : S.TorchCoupled env env' R) : Cpl S env env' R
    (fun u u' => ∀ m a, u' m a = S.flip a (u (S.ind m) (S.coord a))) (tunifs env d M) (tunifsNext env d M) (tunifs env' d M)
    (tunifsNext env' d M) := ⟨hc.normals, hc.normalsNext, hc.unifs, hc.unifsNext⟩

theorem zseq {c c' : Cfg d N M ℝ} (hp : S.Poses c c') (hc : S.TorchCoupled env env' R) (t : List ℝ) {r : ρ} {r' : ρ'}
    (hr : R r r') : ∀ j, Lim.zseq env' c' t r' j = S.cloud (Lim.zseq env c t r j)
  | 0 => by
    have hy1 : c'.y1 = S.point c.y1 := by rw [hp.same]
    unfold Lim.zseq; rw [hy1]; rfl
  | 1 => by
    have hy1 : c'.y1 = S.point c.y1 := by rw [hp.same]
    unfold Lim.zseq
    rw [hc.normals _ _ hr, hy1, pt, noisy S hp]
  | j+2 => by
    have hg : c'.g = c.g := by rw [hp.same]
    simp only [Lim.zseq]
    rw [zseq hp hc t hr (j+1), hp.drift, hg, tflowScore S _ (hc.unifs _ _ (fst_R S (tcpl S hc) hr _))]
    funext a k
    simp only [Symmetry.cloud]
    ring

/-- The torch class returns when the forward flow keeps its spread. -/
theorem torch_ok {c : Cfg d N M ℝ} (hN : 0 < N) (hd : 2 ≤ d) (hdet : c.deterministic = true) (hw : c.reweight = false)
    (hk : KnownKernel c.kern) {t : List ℝ} (hg : torchGrid c.t1 c.t2 = .ok t) (h3 : 3 ≤ t.length) (r : ρ)
    (hs : ∀ j, 1 ≤ j → j < t.length → Spread (Lim.zseq env c t r j)) : ∃ o r', torchConstruct env c r = .ok (o, r') := by
  refine ((C64_value_error_iff env c hN (by omega) hdet (by rw [hw]; rfl) (fun h => by rw [hw] at h; cases h) t hg h3
    (torchVerdict_plain hd hdet hw hk h3) r).2).2 ?_
  rintro ⟨j, Z, rs, hj1, hjl, hz0, hr0, hz, hrec, x, a, hx, ha⟩
  have := (Lim.zseq_of_rec hw hrec hz0 hr0 j hz hjl).1
  rw [hx] at this
  have hsp := hs j hj1 hjl a
  rw [← Option.some.inj this] at hsp
  exact Lim.lo_ne_hi hN hsp (by
    have : Nonempty (Fin N) := ⟨⟨0, hN⟩⟩
    have e : x a = fun _ => x a ⟨0, hN⟩ := funext fun n => ha _ _
    rw [e]; simp [Spec.lo, Spec.hi])

/-- Every forward slice of a torch object is a value of the recursion. -/
theorem torch_zseq {c : Cfg d N M ℝ} (hN : 0 < N) (hd : 2 ≤ d) (hdet : c.deterministic = true) (hw : c.reweight = false)
    (hk : KnownKernel c.kern) {r r1 : ρ} {o : Obj d N M ℝ} (h : torchConstruct env c r = .ok (o, r1))
    (h2 : 2 ≤ o.timegrid.length) (j : ℕ) (hj : j < o.timegrid.length) :
    o.Z[j]? = some (Lim.zseq env c o.timegrid r j) := by
  have hs := C08_storage_sizes env c (by omega) r r1 o (.inr h)
  obtain ⟨rs, hr0, hrec⟩ := C09_torch_forward_recurrence env c hN (by omega) hdet hk r r1 o h (by omega)
  have hz0 : o.Z[0]? = some fun a _ => c.y1 a := by
    obtain ⟨S, hS, hv⟩ := (C05_forward_flows_start_at_y1 env c (by omega) hdet r r1 o (.inr h)).1 (.inl (by omega))
    rw [hS]; congr 1; funext a n; exact hv a n
  exact (Lim.zseq_of_rec hw hrec hz0 hr0 j (fun m hm => ⟨_, List.getElem?_eq_getElem (by omega)⟩) hj).1

end

theorem pyAt_map {α β : Type} (f : α → β) (l : List α) (i : Int) : pyAt (l.map f) i = (pyAt l i).map f := by
  unfold pyAt
  simp only [List.length_map, List.getElem?_map]
  split
  · rfl
  · split <;> rfl

/-! ### A generator that delivers the numbers of another one in transformed order -/

theorem drawVec_steps {σ : Type} (g : σ → ℝ × σ) (st : ℕ → σ) (v : ℕ → ℝ) : ∀ (n s L : ℕ),
    (∀ i, i < L → g (st i) = (v i, st (i+1))) → s + n ≤ L → drawVec g n (st s) = (fun k => v (s + k.val), st (s + n))
  | 0, s, L, _, _ => by unfold drawVec; congr 1; funext i; exact i.elim0
  | n+1, s, L, h, hs => by
    unfold drawVec
    rw [h s (by omega)]
    simp only
    rw [drawVec_steps g st v n (s+1) L h (by omega)]
    refine Prod.ext ?_ (by simp only; congr 1; omega)
    funext k
    refine Fin.cases ?_ (fun k => ?_) k
    · simp
    · simp only [Fin.cons_succ, Fin.val_succ]; congr 1; omega

theorem drawMat_steps {σ : Type} (g : σ → ℝ × σ) (st : ℕ → σ) (v : ℕ → ℝ) (n : ℕ) : ∀ (m s L : ℕ),
    (∀ i, i < L → g (st i) = (v i, st (i+1))) → s + m * n ≤ L →
    drawVec (drawVec g n) m (st s) = (fun a k => v (s + a.val * n + k.val), st (s + m * n))
  | 0, s, L, _, _ => by
    unfold drawVec; refine Prod.ext ?_ (by simp)
    funext i; exact i.elim0
  | m+1, s, L, h, hs => by
    have e : (m + 1) * n = m * n + n := by ring
    rw [e] at hs
    unfold drawVec
    rw [drawVec_steps g st v n s L h (by omega)]
    simp only
    rw [drawMat_steps g st v n m (s+n) L h (by omega)]
    refine Prod.ext ?_ (by simp only; congr 1; omega)
    funext a
    refine Fin.cases ?_ (fun a => ?_) a
    · funext k; simp
    · funext k
      simp only [Fin.cons_succ, Fin.val_succ]; congr 1; ring

/-- Deliver the numbers of a block one by one; when none are left, fetch a new block. -/
def pop {σ : Type} (block : σ → List ℝ × σ) (s : σ) (l : List ℝ) : ℝ × σ × List ℝ :=
  match l with
  | x :: l => (x, s, l)
  | [] => match (block s).1 with
    | x :: l => (x, (block s).2, l)
    | [] => (0, s, [])

/-- A generator fed by two kinds of blocks. -/
def queueEnv {ρ : Type} (env : Env ρ ℝ) (nb ub : ρ → List ℝ × ρ) : Env (ρ × List ℝ × List ℝ) ℝ where
  normal s := let p := pop nb s.1 s.2.1; (p.1, p.2.1, p.2.2, s.2.2)
  uniform s := let p := pop ub s.1 s.2.2; (p.1, p.2.1, s.2.1, p.2.2)
  emd := env.emd

/-- Rows of an array one after the other. -/
def flat (m n : ℕ) (x : Fin m → Fin n → ℝ) : List ℝ := (List.ofFn fun a => List.ofFn (x a)).flatten

theorem flat_length (m n : ℕ) (x : Fin m → Fin n → ℝ) : (flat m n x).length = m * n := by
  unfold flat
  rw [List.length_flatten, List.map_ofFn]
  simp [Function.comp_def, List.sum_ofFn]

theorem flat_get : ∀ (m n : ℕ) (x : Fin m → Fin n → ℝ) (a : Fin m) (k : Fin n),
    (flat m n x)[a.val * n + k.val]? = some (x a k)
  | 0, _, _, a, _ => a.elim0
  | m+1, n, x, a, k => by
    have e : flat (m+1) n x = List.ofFn (x 0) ++ flat m n (fun a => x a.succ) := by
      unfold flat; rw [List.ofFn_succ]; rfl
    rw [e]
    refine Fin.cases ?_ (fun a => ?_) a
    · rw [List.getElem?_append_left (by simp)]; simp
    · rw [List.getElem?_append_right (by rw [List.length_ofFn]; simp only [Fin.val_succ]; nlinarith),
        List.length_ofFn, ← flat_get m n (fun a => x a.succ) a k]
      congr 1
      simp only [Fin.val_succ]
      have : (a.val + 1) * n = a.val * n + n := by ring
      omega

theorem pop_block {σ : Type} (block : σ → List ℝ × σ) (s : σ) (hl : 0 < (block s).1.length) (i : ℕ)
    (hi : i < (block s).1.length) :
    pop block (if i = 0 then s else (block s).2) (if i = 0 then [] else (block s).1.drop i)
      = ((block s).1.getD i 0, (block s).2, (block s).1.drop (i+1)) := by
  unfold pop
  by_cases h0 : i = 0
  · subst h0
    simp only [if_true]
    generalize (block s).1 = L at hl
    cases L with
    | nil => simp at hl
    | cons x L => simp
  · simp only [if_neg h0]
    rw [List.drop_eq_getElem_cons hi]
    simp [List.getD, hi]

theorem queue_block {σ : Type} (block : σ → List ℝ × σ) (m n : ℕ) (hmn : 0 < m * n) (s : σ) (x : Fin m → Fin n → ℝ)
    (hx : (block s).1 = flat m n x) {τ : Type} (g : τ → ℝ × τ) (mk : σ → List ℝ → τ)
    (hg : ∀ s l, g (mk s l) = ((pop block s l).1, mk (pop block s l).2.1 (pop block s l).2.2)) :
    drawVec (drawVec g n) m (mk s []) = (x, mk (block s).2 []) := by
  have hl : (block s).1.length = m * n := by rw [hx, flat_length]
  have h := drawMat_steps g (fun i => mk (if i = 0 then s else (block s).2) (if i = 0 then [] else (block s).1.drop i))
    (fun i => (block s).1.getD i 0) n m 0 (m * n) (fun i hi => by
      rw [hg, pop_block block s (by omega) i (by omega)]
      simp) (by omega)
  simp only [if_true] at h
  rw [h]
  refine Prod.ext ?_ ?_
  · funext a k
    have := flat_get m n x a k
    rw [← hx] at this
    simp [List.getD, this]
  · have : (block s).1.drop (m * n) = [] := List.drop_eq_nil_of_le (by omega)
    simp only [zero_add, if_neg (by omega : m * n ≠ 0), this]

end Sym
end DPFC
