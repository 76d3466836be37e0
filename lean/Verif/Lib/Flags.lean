import Verif.Model.Flags
import Verif.Lib.Depend
import Verif.Lib.NanBox

set_option linter.unusedSectionVars false

/-! Helper lemmas for C105: sizes of the storage of runs with arbitrary switches. -/

namespace DPFC
variable {K ρ : Type} [Add K] [Sub K] [Mul K] [Div K] [Neg K] [NumOps K]
variable {N M d : Nat}

/-- Whatever a computation returns has `n` slices. -/
def KeepsLen (n : Nat) (m : RandM ρ (Traj d N K)) : Prop := ∀ r Z r', m r = .ok (Z, r') → Z.length = n

omit [Add K] [Sub K] [Mul K] [Div K] [Neg K] [NumOps K] in
theorem KeepsLen.bind_any {α : Type} {n : Nat} (x : RandM ρ α) {f : α → RandM ρ (Traj d N K)}
    (h : ∀ a, KeepsLen n (f a)) : KeepsLen n (x >>= f) := by
  intro r Z r' e
  obtain ⟨a, r1, _, h2⟩ := RandM.bind_ok.1 e
  exact h a _ _ _ h2

omit [Add K] [Sub K] [Mul K] [Div K] [Neg K] [NumOps K] in
theorem KeepsLen.bind {n m : Nat} {x : RandM ρ (Traj d N K)} (hx : KeepsLen m x)
    {f : Traj d N K → RandM ρ (Traj d N K)} (h : ∀ a, a.length = m → KeepsLen n (f a)) :
    KeepsLen n (x >>= f) := by
  intro r Z r' e
  obtain ⟨a, r1, h1, h2⟩ := RandM.bind_ok.1 e
  exact h a (hx _ _ _ h1) _ _ _ h2

omit [Add K] [Sub K] [Mul K] [Div K] [Neg K] [NumOps K] in
theorem KeepsLen.pure {Z : Traj d N K} : KeepsLen Z.length (pure Z : RandM ρ (Traj d N K)) := by
  intro r Z' r' e
  rw [(RandM.pure_ok.1 e).1]

omit [Add K] [Sub K] [Mul K] [Div K] [Neg K] [NumOps K] in
theorem KeepsLen.raise {n : Nat} (e : PyErr) : KeepsLen n (RandM.raise e : RandM ρ (Traj d N K)) := by
  intro r Z' r' h
  cases h

omit [Add K] [Sub K] [Mul K] [Div K] [Neg K] [NumOps K] in
theorem setSlice_keeps_len {T T' : Traj d N K} {t : Int} {S : Mat d N K} (h : setSlice T t S = .ok T') :
    T'.length = T.length := by
  unfold setSlice at h
  obtain ⟨j, _, h2⟩ := Except.bind_ok.1 h
  cases h2
  simp

omit [Add K] [Sub K] [Mul K] [Div K] [Neg K] [NumOps K] in
theorem setRow_keeps_len {T T' : Traj d N K} {a t : Int} {v : K} (h : setRow T a t v = .ok T') :
    T'.length = T.length := by
  unfold setRow at h
  obtain ⟨i, _, h2⟩ := Except.bind_ok.1 h
  obtain ⟨j, _, h3⟩ := Except.bind_ok.1 h2
  cases h3
  simp

omit [Add K] [Sub K] [Mul K] [Div K] [Neg K] [NumOps K] in
theorem forFin_keeps_len {n : Nat} {f : Fin n → Traj d N K → Except PyErr (Traj d N K)}
    (h : ∀ i T T', f i T = .ok T' → T'.length = T.length) :
    ∀ {T T' : Traj d N K}, forFin n f T = .ok T' → T'.length = T.length := by
  induction n with
  | zero =>
    intro T T' e
    cases e
    rfl
  | succ n ih =>
    intro T T' e
    obtain ⟨S, h1, h2⟩ := Except.bind_ok.1 e
    rw [ih (fun i => h i.succ) h2, h 0 _ _ h1]

omit [Add K] [Sub K] [Mul K] [Div K] [Neg K] [NumOps K] in
theorem forFinR_len {n m : Nat} {f : Fin n → Traj d N K → RandM ρ (Traj d N K)}
    (h : ∀ i T, T.length = m → KeepsLen m (f i T)) :
    ∀ {T : Traj d N K}, T.length = m → KeepsLen m (forFin n f T) := by
  induction n with
  | zero =>
    intro T e
    rw [← e]
    exact KeepsLen.pure
  | succ n ih =>
    intro T e
    exact KeepsLen.bind (h 0 T e) fun a ha => ih (fun i => h i.succ) ha

omit [Add K] [Sub K] [Mul K] [Div K] [Neg K] [NumOps K] in
theorem KeepsLen.lift {n : Nat} {x : Except PyErr (Traj d N K)} (h : ∀ Z, x = .ok Z → Z.length = n) :
    KeepsLen n (liftM x : RandM ρ (Traj d N K)) := by
  intro r Z r' e
  exact h Z (RandM.lift_ok.1 e).1

omit [Add K] [Sub K] [Mul K] [Div K] [Neg K] [NumOps K] in
theorem KeepsLen.setSlice {n : Nat} {Z : Traj d N K} (hZ : Z.length = n) (t : Int) (S : Mat d N K) :
    KeepsLen n (liftM (DPFC.setSlice Z t S) : RandM ρ (Traj d N K)) :=
  KeepsLen.lift fun _ e => (setSlice_keeps_len e).trans hZ

omit [Add K] [Sub K] [Mul K] [Div K] [Neg K] [NumOps K] in
theorem KeepsLen.setRow {n : Nat} {Z : Traj d N K} (hZ : Z.length = n) (a t : Int) (v : K) :
    KeepsLen n (liftM (DPFC.setRow Z a t v) : RandM ρ (Traj d N K)) :=
  KeepsLen.lift fun _ e => (setRow_keeps_len e).trans hZ

omit [Add K] [Sub K] [Mul K] [Div K] [Neg K] [NumOps K] in
theorem KeepsLen.pinRows {n : Nat} {Z : Traj d N K} (hZ : Z.length = n) (t : Int) (y : Fin d → K) :
    KeepsLen n (liftM (DPFC.pinRows Z t y) : RandM ρ (Traj d N K)) :=
  KeepsLen.lift fun _ e => (forFin_keeps_len (fun _ _ _ h => setRow_keeps_len h) e).trans hZ

omit [Add K] [Sub K] [Mul K] [Div K] [Neg K] [NumOps K] in
theorem KeepsLen.loop {n : Nat} {body : Nat → K → Traj d N K → RandM ρ (Traj d N K)}
    (h : ∀ ti tt Z, Z.length = n → KeepsLen n (body ti tt Z)) :
    ∀ (ts : List K) (ti : Nat) (Z : Traj d N K), Z.length = n → KeepsLen n (enumLoop body ti ts Z)
  | [], _, Z, hZ => by
    intro r Z' r' e
    rw [← hZ]
    exact KeepsLen.pure r Z' r' e
  | t :: ts, ti, Z, hZ => KeepsLen.bind (h ti t Z hZ) fun a ha => KeepsLen.loop h ts (ti + 1) a ha

omit [Add K] [Sub K] [Mul K] [Div K] [Neg K] [NumOps K] in
theorem start_keeps_len (c : Cfg d N M K) {n : Nat} {Z : Traj d N K} (hZ : Z.length = n) :
    KeepsLen n (liftM (forFin d (fun di Z => do
        let Z ← setRow Z di.val 0 (c.y1 di)
        if c.brownBridge then setRow Z di.val (-1) (c.y2 di) else .ok Z) Z :
        Except PyErr (Traj d N K)) : RandM ρ (Traj d N K)) := by
  refine KeepsLen.lift fun Z' e => (forFin_keeps_len (fun i T T' h => ?_) e).trans hZ
  obtain ⟨S, h1, h2⟩ := Except.bind_ok.1 h
  split at h2
  · rw [setRow_keeps_len h2, setRow_keeps_len h1]
  · cases h2
    exact setRow_keeps_len h1

theorem ottoBody_len (env : Env ρ K) (c : Cfg d N M K) {n : Nat} (ti : Nat) (tt : K) {Z : Traj d N K}
    (hZ : Z.length = n) : KeepsLen n (ottoBody env c ti tt Z) := by
  unfold ottoBody
  have hjp : ∀ a : Traj d N K, a.length = n → KeepsLen n (if (c.reweight && decide (0 < ti)) = true then do
      let x ← (pyGet a (ti : Int) : Except PyErr (Mat d N K))
      let y ← (ottoReweight env c.U x tt : Except PyErr (Mat d N K))
      (setSlice a ti y : Except PyErr (Traj d N K))
    else pure a : RandM ρ (Traj d N K)) := by
    intro a ha
    split
    · exact .bind_any _ fun x => .bind_any _ fun y => .setSlice ha _ _
    · rw [← ha]
      exact .pure
  dsimp only
  split
  · exact .bind (start_keeps_len c hZ) hjp
  · split
    · exact .bind_any _ fun x => .bind_any _ fun y => .bind (.setSlice hZ _ _) hjp
    · exact .bind_any _ fun x => .bind_any _ fun y => .bind (.setSlice hZ _ _) hjp

theorem ottoTrueBody_len (env : Env ρ K) (c : Cfg d N M K) {n : Nat} (ti : Nat) (tt : K) {Z : Traj d N K}
    (hZ : Z.length = n) : KeepsLen n (ottoTrueBody env c ti tt Z) := by
  unfold ottoTrueBody
  split
  · exact .pinRows hZ _ _
  · refine .bind_any _ fun x => ?_
    split
    · exact .raise _
    · dsimp only
      split
      · exact .bind_any _ fun y => .setSlice hZ _ _
      · exact .bind_any _ fun y => .setSlice hZ _ _

theorem stochBody_len (env : Env ρ K) (c : Cfg d N M K) {n : Nat} (ti : Nat) (tt : K) {Z : Traj d N K}
    (hZ : Z.length = n) : KeepsLen n (stochBody env c ti tt Z) := by
  unfold stochBody
  split
  · refine .bind_any _ fun x => .bind (.setRow hZ _ _ _) fun a ha => .bind_any _ fun y => .setRow ha _ _ _
  · refine KeepsLen.bind (m := n) ?_ fun a ha => ?_
    · unfold stochMove
      refine forFinR_len (fun i T hT => ?_) hZ
      refine .bind_any _ fun x => ?_
      split
      · exact .raise _
      · exact .bind_any _ fun y => .bind_any _ fun y => .setSlice hT _ _
    · split
      · exact .bind_any _ fun x => .bind_any _ fun y => .setSlice ha _ _
      · rw [← ha]
        exact .pure

theorem backwardSim_len (env : Env ρ K) (c : Cfg d N M K) (g : List K) {n : Nat} (Z : Traj d N K) {B : Traj d N K}
    (hB : B.length = n) : KeepsLen n (backwardSim env c g Z B) := by
  unfold backwardSim
  refine KeepsLen.bind (KeepsLen.loop (fun ti tt B hB => ?_) _ _ _ hB) fun a ha => .pinRows ha _ _
  unfold backwardBody
  split
  · exact .pinRows hB _ _
  · refine .bind_any _ fun x => ?_
    split
    · exact .bind_any _ fun x => .bind_any _ fun y => .bind_any _ fun y => .setSlice hB _ _
    · exact .bind_any _ fun x => .bind_any _ fun y => .bind_any _ fun y => .setSlice hB _ _

theorem torchOttoBody_len (env : Env ρ K) (c : Cfg d N M K) {n : Nat} (ti : Nat) (tt : K) {Z : Traj d N K}
    (hZ : Z.length = n) : KeepsLen n (torchOttoBody env c ti tt Z) := by
  unfold torchOttoBody
  have hjp : ∀ a : Traj d N K, a.length = n → KeepsLen n (if (c.reweight && decide (0 < ti)) = true then
      match c.U with
      | none => RandM.raise .typeError
      | some U => do
        let x ← (pyGet a (ti : Int) : Except PyErr (Mat d N K))
        let y ← (torchReweight env x fun n => NumOps.exp (U.call2 x tt n * dtc) :
          Except PyErr (Mat d N K))
        (setSlice a ti y : Except PyErr (Traj d N K))
    else pure a : RandM ρ (Traj d N K)) := by
    intro a ha
    split
    · split
      · exact .raise _
      · exact .bind_any _ fun x => .bind_any _ fun y => .setSlice ha _ _
    · rw [← ha]
      exact .pure
  dsimp only
  split
  · exact .bind (start_keeps_len c hZ) hjp
  · split
    · exact .bind_any _ fun x => .bind_any _ fun y => .bind (.setSlice hZ _ _) hjp
    · exact .bind_any _ fun x => .bind_any _ fun y => .bind (.setSlice hZ _ _) hjp

theorem torchTrueBody_len (env : Env ρ K) (c : Cfg d N M K) {n : Nat} (ti : Nat) (tt : K) {Z : Traj d N K}
    (hZ : Z.length = n) : KeepsLen n (torchTrueBody env c ti tt Z) := by
  unfold torchTrueBody
  split
  · exact .pinRows hZ _ _
  · refine .bind_any _ fun x => ?_
    split
    · exact .raise _
    · dsimp only
      split
      · exact .bind_any _ fun y => .setSlice hZ _ _
      · exact .bind_any _ fun y => .setSlice hZ _ _

theorem torchStochBody_len (env : Env ρ K) (c : Cfg d N M K) {n : Nat} (ti : Nat) (tt : K) {Z : Traj d N K}
    (hZ : Z.length = n) : KeepsLen n (torchStochBody env c ti tt Z) := by
  unfold torchStochBody
  split
  · refine .bind_any _ fun x => .bind (.setRow hZ _ _ _) fun a ha => .bind_any _ fun y => .setRow ha _ _ _
  · refine .bind_any _ fun x => .bind_any _ fun y => .bind (.setSlice hZ _ _) fun a ha => ?_
    split
    · split
      · exact .raise _
      · split
        · exact .raise _
        · exact .bind_any _ fun x => .bind_any _ fun y => .setSlice ha _ _
    · rw [← ha]
      exact .pure

theorem torchBackwardSim_len (env : Env ρ K) (c : Cfg d N M K) (g : List K) {n : Nat} (Z : Traj d N K) {B : Traj d N K}
    (hB : B.length = n) : KeepsLen n (torchBackwardSim env c g Z B) := by
  unfold torchBackwardSim
  refine KeepsLen.bind (KeepsLen.loop (fun ti tt B hB => ?_) _ _ _ hB) fun a ha => .pinRows ha _ _
  unfold torchBackwardBody
  split
  · exact .pinRows hB _ _
  · refine .bind_any _ fun x => ?_
    split
    · exact .bind_any _ fun x => .bind_any _ fun y => .bind_any _ fun y => .setSlice hB _ _
    · exact .bind_any _ fun x => .bind_any _ fun y => .bind_any _ fun y => .setSlice hB _ _

/-- Sizes of the storage after a run with arbitrary switches. -/
theorem constructFlags_len {env : Env ρ K} {c : Cfg d N M K} {s : Flags} {r r' : ρ} {o : Obj d N M K}
    (h : constructFlags env c s r = .ok (o, r')) :
    o.timegrid = mkGrid c.t1 c.t2 ∧ o.Z.length = o.timegrid.length ∧ o.B.length = o.timegrid.length ∧
    (if s.reweight.truth && s.brownBridge.truth then ∃ T, o.Ztr = some T ∧ T.length = o.timegrid.length
      else o.Ztr = none) ∧ o.cfg.kern = c.kern := by
  unfold constructFlags at h
  by_cases hdet : s.deterministic.truth = true <;>
    by_cases hb : (s.reweight.truth && s.brownBridge.truth) = true <;>
    simp only [hdet, hb, if_true, Bool.false_eq_true, if_false, RandM.bind_ok, RandM.pure_ok] at h ⊢
  · obtain ⟨Z, r1, hZ, T, r2, hT, zt, r3, ⟨rfl, rfl⟩, B, r4, hB, rfl, rfl⟩ := h
    refine ⟨rfl, ?_, ?_, ⟨T, rfl, ?_⟩, rfl⟩
    · exact KeepsLen.loop (fun ti tt Z hZ => ottoBody_len env _ ti tt hZ) _ _ _ (zerosT_length _ _ _) _ _ _ hZ
    · exact backwardSim_len env _ _ _ (zerosT_length _ _ _) _ _ _ hB
    · exact KeepsLen.loop (fun ti tt Z hZ => ottoTrueBody_len env _ ti tt hZ) _ _ _ (zerosT_length _ _ _) _ _ _ hT
  · obtain ⟨Z, r1, hZ, zt, r2, ⟨rfl, rfl⟩, B, r3, hB, rfl, rfl⟩ := h
    refine ⟨rfl, ?_, ?_, rfl, rfl⟩
    · exact KeepsLen.loop (fun ti tt Z hZ => ottoBody_len env _ ti tt hZ) _ _ _ (zerosT_length _ _ _) _ _ _ hZ
    · exact backwardSim_len env _ _ _ (zerosT_length _ _ _) _ _ _ hB
  · obtain ⟨Z, r1, hZ, B, r3, hB, rfl, rfl⟩ := h
    refine ⟨rfl, ?_, ?_, ⟨_, rfl, zerosT_length _ _ _⟩, rfl⟩
    · exact KeepsLen.bind (KeepsLen.loop (fun ti tt Z hZ => stochBody_len env _ ti tt hZ) _ _ _ (zerosT_length _ _ _))
        (fun a ha => .pinRows ha _ _) _ _ _ hZ
    · exact backwardSim_len env _ _ _ (zerosT_length _ _ _) _ _ _ hB
  · obtain ⟨Z, r1, hZ, B, r3, hB, rfl, rfl⟩ := h
    refine ⟨rfl, ?_, ?_, rfl, rfl⟩
    · exact KeepsLen.bind (KeepsLen.loop (fun ti tt Z hZ => stochBody_len env _ ti tt hZ) _ _ _ (zerosT_length _ _ _))
        (fun a ha => .pinRows ha _ _) _ _ _ hZ
    · exact backwardSim_len env _ _ _ (zerosT_length _ _ _) _ _ _ hB

theorem torchConstructFlags_len {env : Env ρ K} {c : Cfg d N M K} {s : Flags} {r r' : ρ} {o : Obj d N M K}
    (h : torchConstructFlags env c s r = .ok (o, r')) :
    torchGrid c.t1 c.t2 = .ok o.timegrid ∧ o.Z.length = o.timegrid.length ∧ o.B.length = o.timegrid.length ∧
    (if s.reweight.truth && s.brownBridge.truth then ∃ T, o.Ztr = some T ∧ T.length = o.timegrid.length
      else o.Ztr = none) ∧ o.cfg.kern = c.kern := by
  unfold torchConstructFlags at h
  by_cases hdet : s.deterministic.truth = true <;>
    by_cases hb : (s.reweight.truth && s.brownBridge.truth) = true <;>
    simp only [hdet, hb, if_true, Bool.false_eq_true, if_false, RandM.bind_ok, RandM.pure_ok] at h ⊢
  · obtain ⟨g, _, hg, Z, r1, hZ, T, r2, hT, zt, r3, ⟨rfl, rfl⟩, B, r4, hB, rfl, rfl⟩ := h
    refine ⟨(RandM.lift_ok.1 hg).1, ?_, ?_, ⟨T, rfl, ?_⟩, rfl⟩
    · exact KeepsLen.loop (fun ti tt Z hZ => torchOttoBody_len env _ ti tt hZ) _ _ _ (zerosT_length _ _ _) _ _ _ hZ
    · exact torchBackwardSim_len env _ _ _ (zerosT_length _ _ _) _ _ _ hB
    · exact KeepsLen.loop (fun ti tt Z hZ => torchTrueBody_len env _ ti tt hZ) _ _ _ (zerosT_length _ _ _) _ _ _ hT
  · obtain ⟨g, _, hg, Z, r1, hZ, zt, r2, ⟨rfl, rfl⟩, B, r3, hB, rfl, rfl⟩ := h
    refine ⟨(RandM.lift_ok.1 hg).1, ?_, ?_, rfl, rfl⟩
    · exact KeepsLen.loop (fun ti tt Z hZ => torchOttoBody_len env _ ti tt hZ) _ _ _ (zerosT_length _ _ _) _ _ _ hZ
    · exact torchBackwardSim_len env _ _ _ (zerosT_length _ _ _) _ _ _ hB
  · obtain ⟨g, _, hg, Z, r1, hZ, B, r3, hB, rfl, rfl⟩ := h
    refine ⟨(RandM.lift_ok.1 hg).1, ?_, ?_, ⟨_, rfl, zerosT_length _ _ _⟩, rfl⟩
    · exact KeepsLen.loop (fun ti tt Z hZ => torchStochBody_len env _ ti tt hZ) _ _ _ (zerosT_length _ _ _) _ _ _ hZ
    · exact torchBackwardSim_len env _ _ _ (zerosT_length _ _ _) _ _ _ hB
  · obtain ⟨g, _, hg, Z, r1, hZ, B, r3, hB, rfl, rfl⟩ := h
    refine ⟨(RandM.lift_ok.1 hg).1, ?_, ?_, rfl, rfl⟩
    · exact KeepsLen.loop (fun ti tt Z hZ => torchStochBody_len env _ ti tt hZ) _ _ _ (zerosT_length _ _ _) _ _ _ hZ
    · exact torchBackwardSim_len env _ _ _ (zerosT_length _ _ _) _ _ _ hB

/-- The forward flow is the result of the first phase. -/
theorem constructFlags_Z {env : Env ρ K} {c : Cfg d N M K} {s : Flags} {r r' : ρ} {o : Obj d N M K}
    (h : constructFlags env c s r = .ok (o, r')) :
    ∃ r1, (if s.deterministic.truth then
        forwardOtto env (c.switches s.reweight.isTrue s.brownBridge.truth s.deterministic.truth) (mkGrid c.t1 c.t2)
          (zerosT d N (mkGrid c.t1 c.t2).length)
      else forwardStoch env (c.switches s.reweight.isTrue s.brownBridge.truth s.deterministic.truth) (mkGrid c.t1 c.t2)
          (zerosT d N (mkGrid c.t1 c.t2).length)) r = .ok (o.Z, r1) := by
  unfold constructFlags at h
  by_cases hdet : s.deterministic.truth = true <;>
    by_cases hb : (s.reweight.truth && s.brownBridge.truth) = true <;>
    simp only [hdet, hb, if_true, Bool.false_eq_true, if_false, RandM.bind_ok, RandM.pure_ok] at h ⊢
  · obtain ⟨Z, r1, hZ, T, r2, hT, zt, r3, ⟨rfl, rfl⟩, B, r4, hB, rfl, rfl⟩ := h
    exact ⟨_, hZ⟩
  · obtain ⟨Z, r1, hZ, zt, r2, ⟨rfl, rfl⟩, B, r3, hB, rfl, rfl⟩ := h
    exact ⟨_, hZ⟩
  · obtain ⟨Z, r1, hZ, B, r3, hB, rfl, rfl⟩ := h
    exact ⟨_, hZ⟩
  · obtain ⟨Z, r1, hZ, B, r3, hB, rfl, rfl⟩ := h
    exact ⟨_, hZ⟩

theorem torchConstructFlags_Z {env : Env ρ K} {c : Cfg d N M K} {s : Flags} {r r' : ρ} {o : Obj d N M K}
    (h : torchConstructFlags env c s r = .ok (o, r')) :
    ∃ g r1, torchGrid c.t1 c.t2 = .ok g ∧ (if s.deterministic.truth then
        torchForwardOtto env (c.switches s.reweight.isTrue s.brownBridge.truth s.deterministic.truth) g
          (zerosT d N g.length)
      else torchForwardStoch env (c.switches s.reweight.isTrue s.brownBridge.truth s.deterministic.truth) g
          (zerosT d N g.length)) r = .ok (o.Z, r1) := by
  unfold torchConstructFlags at h
  by_cases hdet : s.deterministic.truth = true <;>
    by_cases hb : (s.reweight.truth && s.brownBridge.truth) = true <;>
    simp only [hdet, hb, if_true, Bool.false_eq_true, if_false, RandM.bind_ok, RandM.pure_ok] at h ⊢
  · obtain ⟨g, _, hg, Z, r1, hZ, T, r2, hT, zt, r3, ⟨rfl, rfl⟩, B, r4, hB, rfl, rfl⟩ := h
    obtain ⟨hg', rfl⟩ := RandM.lift_ok.1 hg
    exact ⟨_, _, hg', hZ⟩
  · obtain ⟨g, _, hg, Z, r1, hZ, zt, r2, ⟨rfl, rfl⟩, B, r3, hB, rfl, rfl⟩ := h
    obtain ⟨hg', rfl⟩ := RandM.lift_ok.1 hg
    exact ⟨_, _, hg', hZ⟩
  · obtain ⟨g, _, hg, Z, r1, hZ, B, r3, hB, rfl, rfl⟩ := h
    obtain ⟨hg', rfl⟩ := RandM.lift_ok.1 hg
    exact ⟨_, _, hg', hZ⟩
  · obtain ⟨g, _, hg, Z, r1, hZ, B, r3, hB, rfl, rfl⟩ := h
    obtain ⟨hg', rfl⟩ := RandM.lift_ok.1 hg
    exact ⟨_, _, hg', hZ⟩

/-- A time index in the Python sense. -/
theorem pyGet_of_valid {α : Type} {l : List α} {n : Nat} (hl : l.length = n) {ti : Int} (h : -(n : Int) ≤ ti) (h' : ti < n) :
    ∃ a, pyGet l ti = .ok a := by
  have : ∃ j, pyIdx l.length ti = .ok j := by
    unfold pyIdx
    split
    · split
      · exact ⟨_, rfl⟩
      · exfalso; omega
    · split
      · exact ⟨_, rfl⟩
      · exfalso; omega
  obtain ⟨j, hj⟩ := this
  unfold pyGet
  have hlt := pyIdx_ok_lt hj
  rw [hj]
  simp [hlt]

end DPFC
