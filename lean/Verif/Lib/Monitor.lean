import Verif.Lib.Effects

/-! Runs with monitored callables: the calls follow a fixed schedule. -/

set_option linter.unusedSectionVars false
set_option linter.unusedSimpArgs false

namespace DPFC
open Spec

/-! ### Computations without calls -/

/-- `y` in the world with a further component is `x`, the further component is left alone. -/
def Free {ρ α σ : Type} (x : RandM ρ α) (y : RandM (ρ × σ) α) : Prop :=
  ∀ r s, y (r, s) = match x r with
    | .error e => .error e
    | .ok (a, r') => .ok (a, (r', s))

section
variable {ρ σ α β : Type}

theorem Free.pure (a : α) : Free (ρ := ρ) (σ := σ) (pure a) (pure a) := fun _ _ => rfl

theorem Free.lift (x : Except PyErr α) : Free (ρ := ρ) (σ := σ) (liftM x) (liftM x) := by
  intro r s; cases x <;> rfl

theorem Free.raise (e : PyErr) : Free (ρ := ρ) (σ := σ) (RandM.raise e : RandM ρ α) (RandM.raise e) :=
  fun _ _ => rfl

theorem Free.bind {x : RandM ρ α} {y : RandM (ρ × σ) α} {f : α → RandM ρ β} {g : α → RandM (ρ × σ) β}
    (h : Free x y) (hf : ∀ a, Free (f a) (g a)) : Free (x >>= f) (y >>= g) := by
  intro r s
  rw [RandM.bind_app, RandM.bind_app, h r s]
  cases x r with
  | error e => rfl
  | ok p => exact hf p.1 p.2 s

theorem Free.ite {p : Prop} [Decidable p] {x x' : RandM ρ α} {y y' : RandM (ρ × σ) α}
    (h : p → Free x y) (h' : ¬p → Free x' y') : Free (if p then x else x') (if p then y else y') := by
  by_cases hp : p
  · simp only [if_pos hp]; exact h hp
  · simp only [if_neg hp]; exact h' hp

theorem Free.seqM : ∀ {n : Nat} {f : Fin n → RandM ρ α} {g : Fin n → RandM (ρ × σ) α}
    (_ : ∀ i, Free (f i) (g i)), Free (DPFC.seqM n f) (DPFC.seqM n g)
  | 0, _, _, _ => Free.pure _
  | _+1, _, _, h => Free.bind (h 0) fun _ => Free.bind (Free.seqM fun i => h i.succ) fun _ => Free.pure _

theorem drawVec_besides {draw : ρ → α × ρ} {draw' : ρ × σ → α × (ρ × σ)}
    (h : ∀ r s, draw' (r, s) = ((draw r).1, ((draw r).2, s))) : ∀ (n : Nat) (r : ρ) (s : σ),
    drawVec draw' n (r, s) = ((drawVec draw n r).1, ((drawVec draw n r).2, s))
  | 0, _, _ => rfl
  | n+1, r, s => by
    simp only [drawVec, h, drawVec_besides h n]

end

section
variable {K ρ σ : Type} [Add K] [Sub K] [Mul K] [Div K] [Neg K] [NumOps K]
variable {N M d : Nat}

theorem Free.normalMat (env : Env ρ K) (sc : K) (d n : Nat) :
    Free (DPFC.normalMat env sc d n) (DPFC.normalMat (besides σ env) sc d n) := by
  intro r s
  have := drawVec_besides (draw := drawVec env.normal n) (draw' := drawVec (besides σ env).normal n)
    (fun r s => drawVec_besides (fun _ _ => rfl) n r s) d r s
  simp only [DPFC.normalMat, this]

theorem Free.normalVec (env : Env ρ K) (sc : K) (d : Nat) :
    Free (DPFC.normalVec env sc d) (DPFC.normalVec (besides σ env) sc d) := by
  intro r s
  have := drawVec_besides (draw := env.normal) (draw' := (besides σ env).normal) (fun r s => rfl) d r s
  simp only [DPFC.normalVec, this]

theorem Free.npInducing (env : Env ρ K) (bnds : Fin d → K × K) (M : Nat) :
    Free (DPFC.npInducing env bnds M) (DPFC.npInducing (besides σ env) bnds M) := by
  refine Free.seqM fun i r s => ?_
  have := drawVec_besides (draw := env.uniform) (draw' := (besides σ env).uniform) (fun r s => rfl) M r s
  simp only [npUniform, this]
  split <;> rfl

theorem Free.torchInducing (env : Env ρ K) (bnds : Fin d → K × K) (M : Nat) :
    Free (DPFC.torchInducing env bnds M) (DPFC.torchInducing (besides σ env) bnds M) := by
  intro r s
  have := drawVec_besides (draw := drawVec env.uniform d) (draw' := drawVec (besides σ env).uniform d)
    (fun r s => drawVec_besides (fun _ _ => rfl) d r s) M r s
  simp only [DPFC.torchInducing, this]
  split <;> rfl

theorem Free.scoreAtParticles (plot : Bool) (env : Env ρ K) (M : Nat) (kern : String) (x : Mat d N K) :
    Free (DPFC.scoreAtParticles plot env M kern x) (DPFC.scoreAtParticles plot (besides σ env) M kern x) := by
  unfold DPFC.scoreAtParticles
  exact Free.bind (Free.lift _) fun _ => Free.bind (Free.lift _) fun _ =>
    Free.bind (Free.npInducing _ _ _) fun _ => Free.seqM fun _ => Free.lift _

theorem Free.densityEst (env : Env ρ K) (M : Nat) (kern : String) (Z B : Traj d N K) (rev : Int) :
    Free (DPFC.densityEst env M kern Z B rev) (DPFC.densityEst (besides σ env) M kern Z B rev) := by
  unfold DPFC.densityEst
  exact Free.bind (Free.lift _) fun _ => Free.bind (Free.lift _) fun _ => Free.bind (Free.lift _) fun _ =>
    Free.bind (Free.lift _) fun _ =>
    Free.bind (Free.npInducing _ _ _) fun _ => Free.seqM fun _ => Free.lift _

theorem Free.bwDensityEst (env : Env ρ K) (M : Nat) (kern : String) (Z B : Traj d N K) (rev : Int) :
    Free (DPFC.bwDensityEst env M kern Z B rev) (DPFC.bwDensityEst (besides σ env) M kern Z B rev) := by
  unfold DPFC.bwDensityEst
  exact Free.bind (Free.lift _) fun _ => Free.bind (Free.lift _) fun _ => Free.bind (Free.lift _) fun _ =>
    Free.bind (Free.npInducing _ _ _) fun _ => Free.seqM fun _ => Free.lift _

theorem Free.torchDensityEst (env : Env ρ K) (M : Nat) (kern : String) (Z B : Traj d N K) (rev : Int) :
    Free (DPFC.torchDensityEst env M kern Z B rev) (DPFC.torchDensityEst (besides σ env) M kern Z B rev) := by
  unfold DPFC.torchDensityEst
  exact Free.bind (Free.lift _) fun _ => Free.bind (Free.lift _) fun _ => Free.bind (Free.lift _) fun _ =>
    Free.bind (Free.torchInducing _ _ _) fun _ => Free.bind (Free.lift _) fun _ => Free.pure _

theorem Free.torchBwDensityEst (env : Env ρ K) (M : Nat) (kern : String) (Z B : Traj d N K) (rev : Int) :
    Free (DPFC.torchBwDensityEst env M kern Z B rev)
      (DPFC.torchBwDensityEst (besides σ env) M kern Z B rev) := by
  unfold DPFC.torchBwDensityEst
  exact Free.bind (Free.lift _) fun _ => Free.bind (Free.lift _) fun _ => Free.bind (Free.lift _) fun _ =>
    Free.bind (Free.torchInducing _ _ _) fun _ => Free.bind (Free.lift _) fun _ => Free.pure _

end

/-! ### Computations with calls -/

section
variable {K ρ α β : Type} {N d : Nat}

theorem monitor_append {σ : Type} (h : Call d N K → σ → Except PyErr σ) :
    ∀ (l l' : List (Call d N K)) (s : σ), monitor h (l ++ l') s = match monitor h l s with
      | .error e => .error e
      | .ok s' => monitor h l' s'
  | [], _, _ => rfl
  | c :: cs, l', s => by
    simp only [List.cons_append, monitor]
    cases h c s with
    | error e => rfl
    | ok s' => exact monitor_append h cs l' s'

/-- The type of computations that run under every monitor. -/
abbrev Mon (d N : Nat) (ρ K α : Type) : Type 1 :=
  (σ : Type) → (Call d N K → σ → Except PyErr σ) → RandM (ρ × σ) α

theorem MakesCalls.free {x : RandM ρ α} {y : Mon d N ρ K α} (h : ∀ σ m, Free x (y σ m)) (r : ρ) :
    MakesCalls x y r [] := by
  intro σ m s
  rw [h σ m r s]
  rfl

theorem MakesCalls.call {x : RandM ρ α} (c : Call d N K) (r : ρ) :
    MakesCalls x (fun _ m => watched (m c) x) r [c] := by
  intro σ m s
  simp only [watched, monitor]
  cases m c s <;> rfl

theorem MakesCalls.bind_ok {x : RandM ρ α} {y : Mon d N ρ K α} {f : α → RandM ρ β}
    {g : α → Mon d N ρ K β} {r r' : ρ} {a : α} {l l' : List (Call d N K)}
    (h : MakesCalls x y r l) (hx : x r = .ok (a, r')) (hf : MakesCalls (f a) (g a) r' l') :
    MakesCalls (x >>= f) (fun σ m => y σ m >>= fun a => g a σ m) r (l ++ l') := by
  intro σ m s
  simp only [RandM.bind_app, h σ m s, hx, monitor_append]
  cases monitor m l s with
  | error e => rfl
  | ok s' => exact hf σ m s'

theorem MakesCalls.bind_error {x : RandM ρ α} {y : Mon d N ρ K α} {f : α → RandM ρ β}
    {g : α → Mon d N ρ K β} {r : ρ} {e : PyErr} {l : List (Call d N K)}
    (h : MakesCalls x y r l) (hx : x r = .error e) :
    MakesCalls (x >>= f) (fun σ m => y σ m >>= fun a => g a σ m) r l := by
  intro σ m s
  simp only [RandM.bind_app, h σ m s, hx]
  cases monitor m l s <;> rfl

/-- The calls follow the schedule `T`: all of it if the computation succeeds, an initial part otherwise. -/
def Sched (x : RandM ρ α) (y : Mon d N ρ K α) (T : List (Tag K)) : Prop :=
  ∀ r, ∃ l, MakesCalls x y r l ∧ l.map tag <+: T ∧ ∀ p, x r = .ok p → l.map tag = T

theorem Sched.free {x : RandM ρ α} {y : Mon d N ρ K α} (h : ∀ σ m, Free x (y σ m)) :
    Sched x y ([] : List (Tag K)) :=
  fun r => ⟨[], MakesCalls.free h r, by simp, fun _ _ => rfl⟩

theorem Sched.call {x : RandM ρ α} (c : Call d N K) : Sched x (fun _ m => watched (m c) x) [tag c] :=
  fun r => ⟨[c], MakesCalls.call c r, by simp, fun _ _ => rfl⟩

theorem Sched.bind {x : RandM ρ α} {y : Mon d N ρ K α} {f : α → RandM ρ β} {g : α → Mon d N ρ K β}
    {T T' : List (Tag K)} (h : Sched x y T) (hf : ∀ a, Sched (f a) (g a) T') :
    Sched (x >>= f) (fun σ m => y σ m >>= fun a => g a σ m) (T ++ T') := by
  intro r
  obtain ⟨l, hl, hp, ho⟩ := h r
  cases hx : x r with
  | error e =>
    refine ⟨l, MakesCalls.bind_error hl hx, hp.trans (List.prefix_append _ _), fun p h => ?_⟩
    rw [RandM.bind_app, hx] at h
    cases h
  | ok p =>
    obtain ⟨a, r'⟩ := p
    obtain ⟨l', hl', hp', ho'⟩ := hf a r'
    refine ⟨l ++ l', MakesCalls.bind_ok hl hx hl', ?_, fun p h => ?_⟩
    · rw [List.map_append, ho _ hx]
      exact (List.prefix_append_right_inj _).2 hp'
    · rw [RandM.bind_app, hx] at h
      rw [List.map_append, ho _ hx, ho' _ h]

theorem Sched.bind_left {x : RandM ρ α} {y : Mon d N ρ K α} {f : α → RandM ρ β} {g : α → Mon d N ρ K β}
    {T : List (Tag K)} (h : ∀ σ m, Free x (y σ m)) (hf : ∀ a, Sched (f a) (g a) T) :
    Sched (x >>= f) (fun σ m => y σ m >>= fun a => g a σ m) T :=
  (Sched.free h).bind hf

theorem Sched.bind_right {x : RandM ρ α} {y : Mon d N ρ K α} {f : α → RandM ρ β} {g : α → Mon d N ρ K β}
    {T : List (Tag K)} (h : Sched x y T) (hf : ∀ a σ m, Free (f a) (g a σ m)) :
    Sched (x >>= f) (fun σ m => y σ m >>= fun a => g a σ m) T := by
  simpa using h.bind fun a => Sched.free (hf a)

/-- A computation that never succeeds may stop anywhere in the schedule. -/
theorem Sched.fail {x : RandM ρ α} {y : Mon d N ρ K α} {T : List (Tag K)} (h : ∀ σ m, Free x (y σ m))
    (hx : ∀ r p, x r ≠ .ok p) : Sched x y T :=
  fun r => ⟨[], MakesCalls.free h r, by simp, fun p hp => absurd hp (hx r p)⟩

theorem Sched.forFin : ∀ {n : Nat} {f : Fin n → α → RandM ρ α} {g : Fin n → α → Mon d N ρ K α}
    {T : List (Tag K)} (_ : ∀ i a, Sched (f i a) (g i a) T) (a : α),
    Sched (DPFC.forFin n f a) (fun σ m => DPFC.forFin n (fun i a => g i a σ m) a)
      (List.replicate n T).flatten
  | 0, _, _, _, _, a => by simpa [DPFC.forFin] using Sched.free (fun σ m => Free.pure a)
  | n+1, _, _, _, h, a => by
    rw [List.replicate_succ, List.flatten_cons]
    exact (h 0 a).bind fun a => Sched.forFin (fun i a => h i.succ a) a

end

/-- Schedule of a time loop. -/
def loopTags {K : Type} (T : Nat → K → List (Tag K)) : Nat → List K → List (Tag K)
  | _, [] => []
  | ti, t :: ts => T ti t ++ loopTags T (ti + 1) ts

theorem Sched.enumLoop {K ρ S : Type} {d N : Nat} {body : Nat → K → S → RandM ρ S}
    {ybody : Nat → K → S → Mon d N ρ K S} {T : Nat → K → List (Tag K)} {b : Nat}
    (h : ∀ ti tt s, ti < b → Sched (body ti tt s) (ybody ti tt s) (T ti tt)) :
    ∀ (ts : List K) (ti : Nat) (s : S), ti + ts.length ≤ b →
    Sched (DPFC.enumLoop body ti ts s)
      (fun σ m => DPFC.enumLoop (fun ti tt s => ybody ti tt s σ m) ti ts s) (loopTags T ti ts)
  | [], _, s, _ => Sched.free (fun _ _ => Free.pure s)
  | t :: ts, ti, s, hb => (h ti t s (by simp at hb; omega)).bind fun s =>
      Sched.enumLoop h ts (ti + 1) s (by simp at hb; omega)

theorem loopTags_succ {K : Type} (T : Nat → K → List (Tag K)) (F : K → List (Tag K))
    (h : ∀ ti tt, T (ti + 1) tt = F tt) : ∀ (ts : List K) (ti : Nat), loopTags T (ti + 1) ts = ts.flatMap F
  | [], _ => rfl
  | t :: ts, ti => by
    rw [loopTags, h, loopTags_succ T F h ts, List.flatMap_cons]

theorem loopTags_const {K : Type} (T : Nat → List (Tag K)) : ∀ (ts : List K) (ti : Nat),
    loopTags (fun i _ => T i) ti ts = (List.range' ti ts.length).flatMap T
  | [], _ => rfl
  | t :: ts, ti => by
    rw [loopTags, loopTags_const T ts, List.length_cons, List.range'_succ, List.flatMap_cons]

/-- Time of the backward call at loop index `ti`. -/
def backTag {K : Type} (grid : List K) (ti : Nat) : List (Tag K) :=
  if ti = 0 then [] else (grid[grid.length - ti]?.map Tag.f).toList

theorem loopTags_back {K : Type} (grid : List K) :
    loopTags (fun i _ => backTag grid i) 0 grid.dropLast = (grid.drop 2).reverse.map Tag.f := by
  rw [loopTags_const, List.length_dropLast]
  rcases Nat.lt_or_ge grid.length 3 with h | h
  · rw [List.drop_eq_nil_of_le (by omega)]
    rcases (by omega : grid.length - 1 = 0 ∨ grid.length - 1 = 1) with h1 | h1 <;> rw [h1] <;> rfl
  · obtain ⟨n, hn⟩ : ∃ n, grid.length - 1 = n + 1 := ⟨grid.length - 2, by omega⟩
    rw [hn, List.range'_succ, List.flatMap_cons]
    show [] ++ _ = _
    rw [List.nil_append]
    have hdrop : grid.drop 2 = List.ofFn fun i : Fin n => grid[i.1 + 2]'(by omega) := by
      apply List.ext_getElem
      · simp; omega
      · intro i h1 h2
        simp [Nat.add_comm]
    rw [hdrop]
    have hb : ∀ m, m ≤ n → (List.range' 1 m).flatMap (backTag grid)
        = (List.ofFn fun i : Fin m => Tag.f (grid[grid.length - (i.1 + 1)]'(by omega))) := by
      intro m
      induction m with
      | zero => intro _; rfl
      | succ m ih =>
        intro hm
        rw [List.range'_concat, List.flatMap_append, ih (by omega), List.ofFn_succ_last]
        congr 1
        have h0 : 1 + 1 * m ≠ 0 := by omega
        simp only [List.flatMap_cons, List.flatMap_nil, backTag, if_neg h0, List.append_nil, Fin.val_last]
        rw [show 1 + 1 * m = m + 1 by omega,
          List.getElem?_eq_getElem (show grid.length - (m + 1) < grid.length by omega)]
        rfl
    rw [hb n le_rfl]
    apply List.ext_getElem
    · simp
    · intro i h1 h2
      simp at h1
      simp only [List.getElem_map, List.getElem_reverse, List.getElem_ofFn, List.length_ofFn]
      congr 2
      omega

section
variable {K ρ : Type} [Add K] [Sub K] [Mul K] [Div K] [Neg K] [NumOps K]
variable {N M d : Nat}

theorem Sched.pairBind {α β γ : Type} {x : RandM ρ (α × β)} {y : Mon d N ρ K (α × β)}
    {f : α × β → RandM ρ γ} {g : α × β → Mon d N ρ K γ} {T : List (Tag K)} (h : Sched x y T)
    (hf : ∀ a σ m, Free (f a) (g a σ m)) :
    Sched (x >>= f) (fun σ m => y σ m >>= fun a => g a σ m) T := h.bind_right hf

theorem Sched.noisy (env : Env ρ K) (g : K) (f : EDrift d N ρ K) (mk : Mat d N K → K → Call d N K)
    (x : Mat d N K) (t : K) :
    Sched (eNoisyStep env g f x t)
      (fun σ m => eNoisyStep (besides σ env) g
        ⟨fun x t => watched (m (mk x t)) (f.call2 x t), fun x => watched (m (.f1 x)) (f.call1 x)⟩ x t)
      [tag (mk x t)] := by
  unfold eNoisyStep
  exact (Sched.call (mk x t)).bind_right fun _ σ m =>
    Free.bind (Free.normalMat _ _ _ _) fun _ => Free.pure _

theorem Sched.otto (plot : Bool) (env : Env ρ K) (kern : String) (g : K) (f : EDrift d N ρ K)
    (mk : Mat d N K → K → Call d N K) (x : Mat d N K) (t : K) :
    Sched (eOttoStep plot env M kern g f x t)
      (fun σ m => eOttoStep plot (besides σ env) M kern g
        ⟨fun x t => watched (m (mk x t)) (f.call2 x t), fun x => watched (m (.f1 x)) (f.call1 x)⟩ x t)
      [tag (mk x t)] := by
  unfold eOttoStep eFSeperate
  refine Sched.bind_right ?_ fun _ σ m => Free.pure _
  refine Sched.bind_left (fun σ m => Free.scoreAtParticles _ _ _ _ _) fun _ => ?_
  exact (Sched.call (mk x t)).bind_right fun _ σ m => Free.pure _

theorem Sched.forward (plot : Bool) (env : Env ρ K) (kern : String) (g : K) (f : EDrift d N ρ K)
    (mk : Mat d N K → K → Call d N K) (ti : Nat) (x : Mat d N K) (t : K) :
    Sched (eForwardCall plot env M kern g f ti x t)
      (fun σ m => eForwardCall plot (besides σ env) M kern g
        ⟨fun x t => watched (m (mk x t)) (f.call2 x t), fun x => watched (m (.f1 x)) (f.call1 x)⟩ ti x t)
      [tag (mk x t)] := by
  unfold eForwardCall
  by_cases h1 : ti = 1
  · simp only [if_pos h1]
    exact Sched.noisy env g f mk x t
  · simp only [if_neg h1]
    exact Sched.otto plot env kern g f mk x t

/-- Schedule of one forward step. -/
def stepTags (reweight : Bool) (ti : Nat) (tt : K) : List (Tag K) :=
  if ti = 0 then [] else .f (tt - lit 1 1000) :: if reweight then [.U tt] else []

theorem Sched.ottoBody (env : Env ρ K) (c : ECfg d N M ρ K) (ti : Nat) (tt : K) (Z : Traj d N K) :
    Sched (eOttoBody env c ti tt Z) (fun σ m => eOttoBody (besides σ env) (watch m c) ti tt Z)
      (stepTags c.reweight ti tt) := by
  unfold eOttoBody stepTags
  by_cases h0 : ti = 0
  · subst h0
    refine Sched.bind_left (fun σ m => Free.lift _) fun Z => ?_
    simp only [watch, if_true, Nat.lt_irrefl, decide_false, Bool.and_false, Bool.false_eq_true, if_false]
    exact Sched.free fun σ m => Free.pure _
  · have hp : decide (0 < ti) = true := by simp; omega
    have hm : Sched (eOttoMove env c ti tt Z) (fun σ m => eOttoMove (besides σ env) (watch m c) ti tt Z)
        [Tag.f (tt - lit 1 1000)] := by
      unfold eOttoMove
      simp only [if_neg h0, watch]
      refine Sched.bind_left (fun σ m => Free.lift _) fun x => ?_
      exact (Sched.forward true env (effKern c.kern) c.g c.f Call.f ti x (tt - dtc)).bind_right
        fun _ σ m => Free.lift _
    simp only [if_neg h0, hp, Bool.and_true]
    refine hm.bind (T' := if c.reweight = true then [Tag.U tt] else []) fun Z => ?_
    simp only [watch]
    by_cases hr : c.reweight = true
    · simp only [hr, if_true]
      refine Sched.bind_left (fun σ m => Free.lift _) fun x => ?_
      refine Sched.bind_right ?_ fun _ σ m => Free.lift _
      unfold eOttoReweight
      exact (Sched.call (Call.U x tt)).bind_right fun _ σ m => Free.bind (Free.lift _) fun _ => Free.pure _
    · simp only [hr, if_false, Bool.false_eq_true]
      exact Sched.free fun σ m => Free.pure _

/-- Schedule of one step with the true drift. -/
def trueTags (ti : Nat) (tt : K) : List (Tag K) := if ti = 0 then [] else [.fTrue (tt - lit 1 1000)]

theorem Sched.trueBody (env : Env ρ K) (c : ECfg d N M ρ K) (ti : Nat) (tt : K) (Z : Traj d N K) :
    Sched (eOttoTrueBody env c ti tt Z) (fun σ m => eOttoTrueBody (besides σ env) (watch m c) ti tt Z)
      (trueTags ti tt) := by
  unfold eOttoTrueBody trueTags
  by_cases h0 : ti = 0
  · subst h0
    exact Sched.free fun σ m => Free.lift _
  · simp only [if_neg h0, watch]
    refine Sched.bind_left (fun σ m => Free.lift _) fun x => ?_
    exact (Sched.forward false env (effKern c.kern) c.g c.fTrue Call.fTrue ti x (tt - dtc)).bind_right
      fun _ σ m => Free.lift _

theorem replicate_flatten {α : Type} : ∀ (n : Nat) (a : α), (List.replicate n [a]).flatten = List.replicate n a
  | 0, _ => rfl
  | n+1, a => by rw [List.replicate_succ, List.flatten_cons, replicate_flatten n a]; rfl

/-- Schedule of one stochastic step (numpy). -/
def stochTags (N : Nat) (reweight : Bool) (ti : Nat) (_tt : K) : List (Tag K) :=
  if ti = 0 then [] else List.replicate N .f1 ++ if reweight then [.U1] else []

theorem Sched.stochMove (env : Env ρ K) (c : ECfg d N M ρ K) (ti : Nat) (Z : Traj d N K) :
    Sched (eStochMove env c ti Z) (fun σ m => eStochMove (besides σ env) (watch m c) ti Z)
      (List.replicate N Tag.f1) := by
  unfold eStochMove
  rw [← replicate_flatten N (Tag.f1 : Tag K)]
  refine Sched.forFin (g := fun i Z σ m => _) (fun i Z => ?_) Z
  refine Sched.bind_left (fun σ m => Free.lift _) fun x => ?_
  refine (Sched.call (Call.f1 fun a => x a i)).bind_right fun _ σ m => ?_
  exact Free.bind (Free.lift _) fun _ => Free.bind (Free.normalVec _ _ _) fun _ =>
    Free.bind (Free.lift _) fun _ => Free.lift _

theorem Sched.stochBody (env : Env ρ K) (c : ECfg d N M ρ K) (ti : Nat) (tt : K) (Z : Traj d N K) :
    Sched (eStochBody env c ti tt Z) (fun σ m => eStochBody (besides σ env) (watch m c) ti tt Z)
      (stochTags N c.reweight ti tt) := by
  unfold eStochBody stochTags
  by_cases h0 : ti = 0
  · subst h0
    exact Sched.free fun σ m => Free.bind (Free.lift _) fun _ => Free.bind (Free.lift _) fun _ =>
      Free.bind (Free.lift _) fun _ => Free.lift _
  · simp only [if_neg h0]
    refine (Sched.stochMove env c ti Z).bind fun Z => ?_
    simp only [watch]
    by_cases hr : c.reweight = true
    · simp only [hr, if_true]
      refine Sched.bind_left (fun σ m => Free.lift _) fun x => ?_
      refine Sched.bind_right ?_ fun _ σ m => Free.lift _
      unfold eStochReweight
      exact (Sched.call (Call.U1 x)).bind_right fun _ σ m => Free.bind (Free.lift _) fun _ => Free.pure _
    · simp only [hr, if_false, Bool.false_eq_true]
      exact Sched.free fun σ m => Free.pure _

theorem pyGet_back {grid : List K} {ti : Nat} (h0 : ti ≠ 0) (h1 : ti < grid.length) :
    pyGet grid ((grid.length : Int) - ti - 1 + 1) = .ok (grid[grid.length - ti]'(by omega)) := by
  have : ((grid.length : Int) - ti - 1 + 1) = ((grid.length - ti : Nat) : Int) := by omega
  rw [this]
  exact pyGet_of_getElem? (List.getElem?_eq_getElem (by omega))

theorem Sched.backBody (env : Env ρ K) (c : ECfg d N M ρ K) (grid : List K) (Z : Traj d N K)
    (ti : Nat) (tt : K) (B : Traj d N K) (h1 : ti < grid.length - 1) :
    Sched (eBackwardBody env c grid Z ti tt B)
      (fun σ m => eBackwardBody (besides σ env) (watch m c) grid Z ti tt B) (backTag grid ti) := by
  unfold eBackwardBody backTag
  by_cases h0 : ti = 0
  · subst h0
    exact Sched.free fun σ m => Free.lift _
  · simp only [if_neg h0, watch, pyGet_back h0 (show ti < grid.length by omega),
      List.getElem?_eq_getElem (show grid.length - ti < grid.length by omega), Option.map_some, Option.toList_some,
      RandM.liftM_ok, RandM.monadLift_ok, pure_bind]
    refine Sched.bind_left (fun σ m => Free.densityEst _ _ _ _ _ _) fun gro => ?_
    by_cases hc : (ti = 1 ∧ c.deterministic = true) ∨ c.deterministic = false
    · simp only [if_pos hc]
      refine Sched.bind_left (fun σ m => Free.lift _) fun b => ?_
      refine (Sched.call (Call.f b _)).bind_right fun _ σ m => ?_
      exact Free.bind (Free.normalMat _ _ _ _) fun _ => Free.lift _
    · simp only [if_neg hc]
      refine Sched.bind_left (fun σ m => Free.bwDensityEst _ _ _ _ _ _) fun grb => ?_
      refine Sched.bind_left (fun σ m => Free.lift _) fun b => ?_
      exact (Sched.call (Call.f b _)).bind_right fun _ σ m => Free.lift _

theorem loop_det (reweight : Bool) (grid : List K) : loopTags (stepTags reweight) 0 grid
    = grid.tail.flatMap fun t => .f (t - lit 1 1000) :: if reweight then [.U t] else [] := by
  cases grid with
  | nil => rfl
  | cons t ts => exact loopTags_succ _ _ (fun ti tt => by simp [stepTags]) ts 0

theorem loop_true (grid : List K) : loopTags trueTags 0 grid
    = grid.tail.map fun t => (.fTrue (t - lit 1 1000) : Tag K) := by
  cases grid with
  | nil => rfl
  | cons t ts =>
    refine (loopTags_succ trueTags (fun t => [.fTrue (t - lit 1 1000)]) (fun ti tt => by simp [trueTags]) ts 0).trans ?_
    simp [List.flatMap_singleton']
    induction ts with
    | nil => rfl
    | cons a l ih => simp [ih]

theorem loop_stoch (N : Nat) (reweight : Bool) (grid : List K) : loopTags (stochTags N reweight) 0 grid
    = grid.tail.flatMap fun _ => List.replicate N .f1 ++ if reweight then [.U1] else [] := by
  cases grid with
  | nil => rfl
  | cons t ts => exact loopTags_succ _ _ (fun ti tt => by simp [stochTags]) ts 0

theorem Sched.backward (env : Env ρ K) (c : ECfg d N M ρ K) (grid : List K) (Z B : Traj d N K) :
    Sched (eBackwardSim env c grid Z B) (fun σ m => eBackwardSim (besides σ env) (watch m c) grid Z B)
      ((grid.drop 2).reverse.map .f) := by
  unfold eBackwardSim
  rw [← loopTags_back]
  refine Sched.bind_right ?_ fun _ σ m => Free.lift _
  exact Sched.enumLoop (b := grid.length - 1) (fun ti tt B h => Sched.backBody env c grid Z ti tt B h)
    grid.dropLast 0 B (by simp)

theorem Sched.constructDet (env : Env ρ K) (c : ECfg d N M ρ K) (hdet : c.deterministic = true) :
    Sched (eConstruct env c) (fun σ m => eConstruct (besides σ env) (watch m c))
      (scheduleDet c.reweight c.brownBridge (mkGrid c.t1 c.t2)) := by
  unfold eConstruct scheduleDet
  simp only [show ∀ σ (m : Call d N K → σ → Except PyErr σ), (watch m c).deterministic = true from
    fun _ _ => hdet, hdet, if_true]
  rw [← loop_det, ← loop_true, List.append_assoc]
  refine (Sched.enumLoop (b := (mkGrid c.t1 c.t2).length) (fun ti tt Z _ => Sched.ottoBody env c ti tt Z)
    _ 0 _ (by omega)).bind fun Z => ?_
  by_cases hz : (c.reweight && c.brownBridge) = true
  · simp only [show ∀ σ (m : Call d N K → σ → Except PyErr σ), ((watch m c).reweight && (watch m c).brownBridge)
      = true from fun _ _ => hz, hz, if_true]
    simp only [bind_assoc, pure_bind]
    refine (Sched.enumLoop (b := (mkGrid c.t1 c.t2).length) (fun ti tt Z _ => Sched.trueBody env c ti tt Z)
      _ 0 _ (by omega)).bind fun T => ?_
    exact (Sched.backward env c _ Z _).bind_right fun _ σ m => Free.pure _
  · have hz' : (c.reweight && c.brownBridge) = false := by simpa using hz
    simp only [show ∀ σ (m : Call d N K → σ → Except PyErr σ), ((watch m c).reweight && (watch m c).brownBridge)
      = false from fun _ _ => hz', hz',
      if_false, Bool.false_eq_true, List.nil_append, pure_bind]
    exact (Sched.backward env c _ Z _).bind_right fun _ σ m => Free.pure _

theorem Sched.constructStoch (env : Env ρ K) (c : ECfg d N M ρ K) (hdet : c.deterministic = false) :
    Sched (eConstruct env c) (fun σ m => eConstruct (besides σ env) (watch m c))
      (scheduleStoch N c.reweight (mkGrid c.t1 c.t2)) := by
  unfold eConstruct scheduleStoch
  simp only [show ∀ σ (m : Call d N K → σ → Except PyErr σ), (watch m c).deterministic = false from
    fun _ _ => hdet, hdet, if_false, Bool.false_eq_true]
  rw [← loop_stoch]
  refine Sched.bind ?_ fun Z => ?_
  · unfold eForwardStoch
    refine Sched.bind_right ?_ fun _ σ m => Free.lift _
    exact Sched.enumLoop (b := (mkGrid c.t1 c.t2).length) (fun ti tt Z _ => Sched.stochBody env c ti tt Z)
      _ 0 _ (by omega)
  · exact (Sched.backward env c _ Z _).bind_right fun _ σ m => Free.pure _

/-! ### torch -/

theorem Sched.torchOttoBody (env : Env ρ K) (c : ECfg d N M ρ K) (ti : Nat) (tt : K) (Z : Traj d N K) :
    Sched (eTorchOttoBody env c ti tt Z) (fun σ m => eTorchOttoBody (besides σ env) (watch m c) ti tt Z)
      (stepTags c.reweight ti tt) := by
  unfold eTorchOttoBody stepTags
  by_cases h0 : ti = 0
  · subst h0
    refine Sched.bind_left (fun σ m => Free.lift _) fun Z => ?_
    simp only [watch, if_true, Nat.lt_irrefl, decide_false, Bool.and_false, Bool.false_eq_true, if_false]
    exact Sched.free fun σ m => Free.pure _
  · have hp : decide (0 < ti) = true := by simp; omega
    have hm : Sched (eTorchOttoMove env c ti tt Z)
        (fun σ m => eTorchOttoMove (besides σ env) (watch m c) ti tt Z) [Tag.f (tt - lit 1 1000)] := by
      unfold eTorchOttoMove
      simp only [if_neg h0, watch]
      by_cases h1 : ti = 1
      · simp only [if_pos h1]
        refine Sched.bind_left (fun σ m => Free.lift _) fun x => ?_
        exact (Sched.noisy env c.g c.f Call.f x (tt - dtc)).bind_right fun _ σ m => Free.lift _
      · simp only [if_neg h1]
        refine Sched.bind_left (fun σ m => Free.lift _) fun x => ?_
        refine Sched.bind_right ?_ fun _ σ m => Free.lift _
        unfold eTorchOttoStep eTorchFSeperate
        refine Sched.bind_right ?_ fun _ σ m => Free.pure _
        refine Sched.bind_left (fun σ m => Free.lift _) fun _ => ?_
        refine Sched.bind_left (fun σ m => Free.torchInducing _ _ _) fun _ => ?_
        refine Sched.bind_left (fun σ m => Free.lift _) fun _ => ?_
        exact (Sched.call (Call.f x (tt - dtc))).bind_right fun _ σ m => Free.pure _
    simp only [if_neg h0, hp, Bool.and_true]
    refine hm.bind (T' := if c.reweight = true then [Tag.U tt] else []) fun Z => ?_
    simp only [watch]
    by_cases hr : c.reweight = true
    · simp only [hr, if_true]
      refine Sched.bind_left (fun σ m => Free.lift _) fun x => ?_
      refine Sched.bind_right ?_ fun _ σ m => Free.lift _
      unfold eTorchOttoReweight
      exact (Sched.call (Call.U x tt)).bind_right fun _ σ m => Free.lift _
    · simp only [hr, if_false, Bool.false_eq_true]
      exact Sched.free fun σ m => Free.pure _

theorem Sched.torchTrueBody (env : Env ρ K) (c : ECfg d N M ρ K) (ti : Nat) (tt : K) (Z : Traj d N K) :
    Sched (eTorchTrueBody env c ti tt Z) (fun σ m => eTorchTrueBody (besides σ env) (watch m c) ti tt Z)
      (trueTags ti tt) := by
  unfold eTorchTrueBody trueTags
  by_cases h0 : ti = 0
  · subst h0
    exact Sched.free fun σ m => Free.lift _
  · simp only [if_neg h0, watch]
    by_cases h1 : ti = 1
    · simp only [if_pos h1]
      refine Sched.bind_left (fun σ m => Free.lift _) fun x => ?_
      exact (Sched.noisy env c.g c.fTrue Call.fTrue x (tt - dtc)).bind_right fun _ σ m => Free.lift _
    · simp only [if_neg h1]
      refine Sched.bind_left (fun σ m => Free.lift _) fun x => ?_
      refine Sched.bind_right ?_ fun _ σ m => Free.lift _
      unfold eTorchTrueStep
      refine Sched.bind_left (fun σ m => Free.lift _) fun _ => ?_
      refine Sched.bind_left (fun σ m => Free.torchInducing _ _ _) fun _ => ?_
      refine Sched.bind_left (fun σ m => Free.lift _) fun _ => ?_
      exact (Sched.call (Call.fTrue x (tt - dtc))).bind_right fun _ σ m => Free.pure _

/-- Schedule of one stochastic step (torch). -/
def torchStochTags (reweight : Bool) (ti : Nat) (tt : K) : List (Tag K) :=
  if ti = 0 then [] else .f (tt - lit 1 1000) :: if reweight then [.U1] else []

theorem Sched.torchStochBody (env : Env ρ K) (c : ECfg d N M ρ K) (ti : Nat) (tt : K) (Z : Traj d N K) :
    Sched (eTorchStochBody env c ti tt Z) (fun σ m => eTorchStochBody (besides σ env) (watch m c) ti tt Z)
      (torchStochTags c.reweight ti tt) := by
  unfold eTorchStochBody torchStochTags
  by_cases h0 : ti = 0
  · subst h0
    exact Sched.free fun σ m => Free.bind (Free.lift _) fun _ => Free.bind (Free.lift _) fun _ =>
      Free.bind (Free.lift _) fun _ => Free.lift _
  · simp only [if_neg h0]
    refine Sched.bind_left (fun σ m => Free.lift _) fun x => ?_
    refine (Sched.noisy env c.g c.f Call.f x (tt - dtc)).bind
      (T' := if c.reweight = true then [Tag.U1] else []) fun p => ?_
    refine Sched.bind_left (fun σ m => Free.lift _) fun Z => ?_
    simp only [watch]
    by_cases hr : c.reweight = true
    · simp only [hr, if_true]
      refine Sched.bind_left (fun σ m => Free.lift _) fun x => ?_
      refine Sched.bind_right ?_ fun _ σ m => Free.lift _
      unfold eTorchStochReweight
      exact (Sched.call (Call.U1 x)).bind_right fun _ σ m => Free.lift _
    · simp only [hr, if_false, Bool.false_eq_true]
      exact Sched.free fun σ m => Free.pure _

theorem loop_torchStoch (reweight : Bool) (grid : List K) : loopTags (torchStochTags reweight) 0 grid
    = grid.tail.flatMap fun t => .f (t - lit 1 1000) :: if reweight then [.U1] else [] := by
  cases grid with
  | nil => rfl
  | cons t ts => exact loopTags_succ _ _ (fun ti tt => by simp [torchStochTags]) ts 0

theorem Sched.torchBackBody (env : Env ρ K) (c : ECfg d N M ρ K) (grid : List K) (Z : Traj d N K)
    (ti : Nat) (tt : K) (B : Traj d N K) (h1 : ti < grid.length - 1) :
    Sched (eTorchBackwardBody env c grid Z ti tt B)
      (fun σ m => eTorchBackwardBody (besides σ env) (watch m c) grid Z ti tt B) (backTag grid ti) := by
  unfold eTorchBackwardBody backTag
  by_cases h0 : ti = 0
  · subst h0
    exact Sched.free fun σ m => Free.lift _
  · simp only [if_neg h0, watch, pyGet_back h0 (show ti < grid.length by omega),
      List.getElem?_eq_getElem (show grid.length - ti < grid.length by omega), Option.map_some, Option.toList_some,
      RandM.liftM_ok, RandM.monadLift_ok, pure_bind]
    refine Sched.bind_left (fun σ m => Free.torchDensityEst _ _ _ _ _ _) fun gro => ?_
    by_cases hc : (ti = 1 ∧ c.deterministic = true) ∨ c.deterministic = false
    · simp only [if_pos hc]
      refine Sched.bind_left (fun σ m => Free.lift _) fun b => ?_
      refine (Sched.call (Call.f b _)).bind_right fun _ σ m => ?_
      exact Free.bind (Free.normalMat _ _ _ _) fun _ => Free.lift _
    · simp only [if_neg hc]
      refine Sched.bind_left (fun σ m => Free.torchBwDensityEst _ _ _ _ _ _) fun grb => ?_
      refine Sched.bind_left (fun σ m => Free.lift _) fun b => ?_
      exact (Sched.call (Call.f b _)).bind_right fun _ σ m => Free.lift _

theorem Sched.torchBackward (env : Env ρ K) (c : ECfg d N M ρ K) (grid : List K) (Z B : Traj d N K) :
    Sched (eTorchBackwardSim env c grid Z B)
      (fun σ m => eTorchBackwardSim (besides σ env) (watch m c) grid Z B) ((grid.drop 2).reverse.map .f) := by
  unfold eTorchBackwardSim
  rw [← loopTags_back]
  refine Sched.bind_right ?_ fun _ σ m => Free.lift _
  exact Sched.enumLoop (b := grid.length - 1) (fun ti tt B h => Sched.torchBackBody env c grid Z ti tt B h)
    grid.dropLast 0 B (by simp)

theorem Sched.torchConstructDet (env : Env ρ K) (c : ECfg d N M ρ K) (hdet : c.deterministic = true)
    (grid : List K) (hg : torchGrid c.t1 c.t2 = .ok grid) :
    Sched (eTorchConstruct env c) (fun σ m => eTorchConstruct (besides σ env) (watch m c))
      (scheduleDet c.reweight c.brownBridge grid) := by
  unfold eTorchConstruct scheduleDet
  simp only [show ∀ σ (m : Call d N K → σ → Except PyErr σ), (watch m c).deterministic = true from
    fun _ _ => hdet, hdet, if_true, show ∀ σ (m : Call d N K → σ → Except PyErr σ), torchGrid (watch m c).t1
    (watch m c).t2 = .ok grid from fun _ _ => hg, hg, RandM.liftM_ok, RandM.monadLift_ok, pure_bind]
  rw [← loop_det, ← loop_true, List.append_assoc]
  refine (Sched.enumLoop (b := grid.length) (fun ti tt Z _ => Sched.torchOttoBody env c ti tt Z)
    _ 0 _ (by omega)).bind fun Z => ?_
  by_cases hz : (c.reweight && c.brownBridge) = true
  · simp only [show ∀ σ (m : Call d N K → σ → Except PyErr σ), ((watch m c).reweight && (watch m c).brownBridge)
      = true from fun _ _ => hz, hz, if_true]
    try simp only [bind_assoc, pure_bind]
    refine (Sched.enumLoop (b := grid.length) (fun ti tt Z _ => Sched.torchTrueBody env c ti tt Z)
      _ 0 _ (by omega)).bind fun T => ?_
    exact (Sched.torchBackward env c _ Z _).bind_right fun _ σ m => Free.pure _
  · have hz' : (c.reweight && c.brownBridge) = false := by simpa using hz
    simp only [show ∀ σ (m : Call d N K → σ → Except PyErr σ), ((watch m c).reweight && (watch m c).brownBridge)
      = false from fun _ _ => hz', hz',
      if_false, Bool.false_eq_true, List.nil_append, pure_bind]
    exact (Sched.torchBackward env c _ Z _).bind_right fun _ σ m => Free.pure _

theorem Sched.torchConstructStoch (env : Env ρ K) (c : ECfg d N M ρ K) (hdet : c.deterministic = false)
    (grid : List K) (hg : torchGrid c.t1 c.t2 = .ok grid) :
    Sched (eTorchConstruct env c) (fun σ m => eTorchConstruct (besides σ env) (watch m c))
      (scheduleTorchStoch c.reweight grid) := by
  unfold eTorchConstruct scheduleTorchStoch
  simp only [show ∀ σ (m : Call d N K → σ → Except PyErr σ), (watch m c).deterministic = false from
    fun _ _ => hdet, hdet, if_false, Bool.false_eq_true, show ∀ σ (m : Call d N K → σ → Except PyErr σ),
    torchGrid (watch m c).t1 (watch m c).t2 = .ok grid from fun _ _ => hg, hg, RandM.liftM_ok,
    RandM.monadLift_ok, pure_bind]
  rw [← loop_torchStoch]
  refine Sched.bind ?_ fun Z => ?_
  · exact Sched.enumLoop (b := grid.length) (fun ti tt Z _ => Sched.torchStochBody env c ti tt Z)
      _ 0 _ (by omega)
  · exact (Sched.torchBackward env c _ Z _).bind_right fun _ σ m => Free.pure _

end
end DPFC
