import Verif.Spec.States
import Verif.Spec.Object
import Verif.Lib.Flags

set_option linter.unusedSectionVars false

/-! Helper lemmas for C106. -/

namespace DPFC
open Spec
variable {K ρ : Type} [Add K] [Sub K] [Mul K] [Div K] [Neg K] [NumOps K]
variable {N M d : Nat}

omit [Add K] [Sub K] [Mul K] [Div K] [Neg K] [NumOps K] in
theorem setRowVec_full (bad : PyErr) (T : Traj d N K) (r t : Int) (v : Fin N → K) :
    setRowVec bad T r t v = (do
      let i ← pyIdx d r
      let j ← pyIdx T.length t
      .ok (T.modify j fun S a n => if a.val = i then v n else S a n)) := by
  unfold setRowVec
  simp

omit [Add K] [Sub K] [Mul K] [Div K] [Neg K] [NumOps K] in
theorem putState_prescribes {Y : StateArg K} {P : Mat d N K} (h : Prescribes Y P) (bad : PyErr) (T : Traj d N K)
    (di : Fin d) (t : Int) : putState bad T di.val t Y = setRowVec bad T di.val t (P di) := by
  rw [setRowVec_full]
  cases Y with
  | flat v =>
    obtain ⟨x, h1, h2⟩ := h di
    have hlt : di.val < v.length := (List.getElem?_eq_some_iff.1 h1).1
    have e : pyGet v di.val = .ok x := by
      rw [pyGet_nat v hlt]
      exact congrArg _ (List.getElem?_eq_some_iff.1 h1).2
    simp only [putState, e, Except.ok_bind', setRow, h2]
  | @mat a b m =>
    obtain ⟨hb, h1⟩ := h
    obtain ⟨hlt, h2⟩ := h1 di
    simp only [putState, hlt, dif_pos, setRowVec]
    by_cases hN : b = N
    · have : ∀ n, m ⟨di.val, hlt⟩ (Fin.cast hN.symm n) = P di n := fun n => h2 n _ (.inr rfl)
      simp only [hN, dif_pos, this]
    · have hb1 : b = 1 := hb.resolve_left hN
      have : ∀ n, m ⟨di.val, hlt⟩ ⟨0, by omega⟩ = P di n := fun n => h2 n _ (.inl hb1)
      simp only [dif_neg hN, dif_pos hb1]
      congr 1; funext i; congr 1; funext j; congr 2; funext S a n
      rw [this n]
  | foreign a => exact h.elim

omit [Add K] [Sub K] [Mul K] [Div K] [Neg K] [NumOps K] in
theorem setRowVec_const (bad : PyErr) (T : Traj d N K) (r t : Int) (v : K) :
    setRowVec bad T r t (fun _ : Fin N => v) = setRow T r t v := by
  rw [setRowVec_full]; rfl

omit [Add K] [Sub K] [Mul K] [Div K] [Neg K] [NumOps K] in
theorem pinState_eq {Y : StateArg K} {y : Fin d → K} (h : Prescribes (N := N) Y fun i _ => y i) (bad : PyErr)
    (T : Traj d N K) (t : Int) : pinState bad T t Y = pinRows T t y := by
  unfold pinState pinRows
  refine forFin_congr (fun di T => ?_) T
  rw [putState_prescribes h, setRowVec_const]

omit [Add K] [Sub K] [Mul K] [Div K] [Neg K] [NumOps K] in
theorem enumLoop_congr_ge {body body' : Nat → K → Traj d N K → RandM ρ (Traj d N K)} {m : Nat}
    (h : ∀ ti tt Z, m ≤ ti → body ti tt Z = body' ti tt Z) :
    ∀ (ts : List K) (s : Nat) (_ : m ≤ s) (Z : Traj d N K), enumLoop body s ts Z = enumLoop body' s ts Z
  | [], _, _, _ => rfl
  | t :: ts, s, hs, Z => by
    unfold enumLoop
    rw [h s t Z hs]
    congr 1; funext Z'
    exact enumLoop_congr_ge h ts (s + 1) (by omega) Z'

omit [Add K] [Sub K] [Mul K] [Div K] [Neg K] [NumOps K] in
theorem loopFrom_eq {first : Traj d N K → Except PyErr (Traj d N K)}
    {body body' : Nat → K → Traj d N K → RandM ρ (Traj d N K)}
    (h0 : ∀ tt Z, body' 0 tt Z = (first Z : Except PyErr (Traj d N K)))
    (h : ∀ ti tt Z, 1 ≤ ti → body ti tt Z = body' ti tt Z) (ts : List K) (Z : Traj d N K) :
    loopFrom first body ts Z = enumLoop body' 0 ts Z := by
  cases ts with
  | nil => rfl
  | cons t ts =>
    have : enumLoop body 1 ts = enumLoop body' 1 ts := funext fun Z' => enumLoop_congr_ge h ts 1 (by omega) Z'
    have e : enumLoop body' 0 (t :: ts) Z = body' 0 t Z >>= enumLoop body' 1 ts := rfl
    rw [e, h0, ← this]
    rfl

omit [Add K] [Sub K] [Mul K] [Div K] [Neg K] [NumOps K] in
theorem startState_eq {Y1 Y2 : StateArg K} {y1 y2 : Fin d → K} (h1 : Prescribes (N := N) Y1 fun i _ => y1 i)
    (h2 : Prescribes (N := N) Y2 fun i _ => y2 i) (bad : PyErr) (bb : Bool) (Z : Traj d N K) :
    startState bad bb Y1 Y2 Z = forFin d (fun di Z => do
        let Z ← setRow Z di.val 0 (y1 di)
        if bb then setRow Z di.val (-1) (y2 di) else .ok Z) Z := by
  unfold startState
  refine forFin_congr (fun di T => ?_) Z
  rw [putState_prescribes h1, setRowVec_const]
  congr 1; funext T'
  rw [putState_prescribes h2, setRowVec_const]

omit [Add K] [Sub K] [Mul K] [Div K] [Neg K] [NumOps K] in
theorem putState_zero {Y1 : StateArg K} {y1 : Fin d → K} (h1 : Prescribes (N := N) Y1 fun i _ => y1 i)
    (hr : Y1.rows = d) (bad : PyErr) (Z : Traj d N K) (i : Nat) :
    putState bad Z i 0 Y1 = (do
      let v0 ← pyGet (List.ofFn y1) i
      setRow Z i 0 v0) := by
  by_cases hi : i < d
  · have e0 : pyGet (List.ofFn y1) (i : Int) = .ok (y1 ⟨i, hi⟩) := by
      rw [pyGet_nat _ (by simpa using hi)]; simp
    have p0 := putState_prescribes h1 bad Z ⟨i, hi⟩ 0
    rw [setRowVec_const] at p0
    rw [p0, e0]
    rfl
  · have e0 : pyGet (List.ofFn y1) (i : Int) = .error .indexError := by
      unfold pyGet pyIdx
      rw [if_pos (by omega), if_neg (by simp; omega)]; rfl
    rw [e0]
    cases Y1 with
    | flat v =>
      have : pyGet v (i : Int) = .error .indexError := by
        have : v.length = d := hr
        unfold pyGet pyIdx
        rw [if_pos (by omega), if_neg (by omega)]; rfl
      simp only [putState, this]
    | @mat a b m =>
      have : a = d := hr
      simp only [putState]
      rw [dif_neg (by omega)]
      first | done | rfl
    | foreign a => exact h1.elim

theorem startStoch_eq {Y1 : StateArg K} {y1 : Fin d → K} (h1 : Prescribes (N := N) Y1 fun i _ => y1 i)
    (hr : Y1.rows = d) (bad : PyErr) (Z : Traj d N K) :
    startStoch bad Y1 Z = (do
      let v0 ← pyGet (List.ofFn y1) 0
      let Z ← setRow Z 0 0 v0
      let v1 ← pyGet (List.ofFn y1) 1
      setRow Z 1 0 v1) := by
  have p0 := fun T => putState_zero h1 hr bad T 0
  have p1 := fun T => putState_zero h1 hr bad T 1
  unfold startStoch
  rw [p0]
  simp only [p1]
  cases e : pyGet (List.ofFn y1) 0 with
  | error e' => rfl
  | ok v => rfl

/-! ### Invariants of the loops -/

/-- Whatever a computation returns satisfies `Q`. -/
def KeepsQ (Q : Traj d N K → Prop) (m : RandM ρ (Traj d N K)) : Prop := ∀ r Z r', m r = .ok (Z, r') → Q Z

/-- `Q` survives writing the slice `t`. -/
def SliceSafe (Q : Traj d N K → Prop) (t : Int) : Prop := ∀ Z S Z', Q Z → setSlice Z t S = .ok Z' → Q Z'

omit [Add K] [Sub K] [Mul K] [Div K] [Neg K] [NumOps K] in
theorem KeepsQ.bind_any {α : Type} {Q : Traj d N K → Prop} (x : RandM ρ α) {f : α → RandM ρ (Traj d N K)}
    (h : ∀ a, KeepsQ Q (f a)) : KeepsQ Q (x >>= f) := by
  intro r Z r' e
  obtain ⟨a, r1, _, h2⟩ := RandM.bind_ok.1 e
  exact h a _ _ _ h2

omit [Add K] [Sub K] [Mul K] [Div K] [Neg K] [NumOps K] in
theorem KeepsQ.bind {Q Q' : Traj d N K → Prop} {x : RandM ρ (Traj d N K)} (hx : KeepsQ Q' x)
    {f : Traj d N K → RandM ρ (Traj d N K)} (h : ∀ a, Q' a → KeepsQ Q (f a)) : KeepsQ Q (x >>= f) := by
  intro r Z r' e
  obtain ⟨a, r1, h1, h2⟩ := RandM.bind_ok.1 e
  exact h a (hx _ _ _ h1) _ _ _ h2

omit [Add K] [Sub K] [Mul K] [Div K] [Neg K] [NumOps K] in
theorem KeepsQ.pure {Q : Traj d N K → Prop} {Z : Traj d N K} (h : Q Z) : KeepsQ Q (pure Z : RandM ρ (Traj d N K)) := by
  intro r Z' r' e
  rw [← (RandM.pure_ok.1 e).1]
  exact h

omit [Add K] [Sub K] [Mul K] [Div K] [Neg K] [NumOps K] in
theorem KeepsQ.raise {Q : Traj d N K → Prop} (e : PyErr) : KeepsQ Q (RandM.raise e : RandM ρ (Traj d N K)) := by
  intro r Z' r' h
  cases h

omit [Add K] [Sub K] [Mul K] [Div K] [Neg K] [NumOps K] in
theorem KeepsQ.lift {Q : Traj d N K → Prop} {x : Except PyErr (Traj d N K)} (h : ∀ Z, x = .ok Z → Q Z) :
    KeepsQ Q (liftM x : RandM ρ (Traj d N K)) := by
  intro r Z r' e
  exact h Z (RandM.lift_ok.1 e).1

omit [Add K] [Sub K] [Mul K] [Div K] [Neg K] [NumOps K] in
theorem KeepsQ.setSlice {Q : Traj d N K → Prop} {t : Int} (hs : SliceSafe Q t) {Z : Traj d N K} (hZ : Q Z)
    (S : Mat d N K) : KeepsQ Q (liftM (DPFC.setSlice Z t S) : RandM ρ (Traj d N K)) :=
  KeepsQ.lift fun _ e => hs _ _ _ hZ e

omit [Add K] [Sub K] [Mul K] [Div K] [Neg K] [NumOps K] in
theorem KeepsQ.forFinR {n : Nat} {Q : Traj d N K → Prop} {f : Fin n → Traj d N K → RandM ρ (Traj d N K)}
    (h : ∀ i T, Q T → KeepsQ Q (f i T)) : ∀ {T : Traj d N K}, Q T → KeepsQ Q (forFin n f T) := by
  induction n with
  | zero => exact fun e => KeepsQ.pure e
  | succ n ih => exact fun {T} e => KeepsQ.bind (h 0 T e) fun a ha => ih (fun i => h i.succ) ha

omit [Add K] [Sub K] [Mul K] [Div K] [Neg K] [NumOps K] in
theorem KeepsQ.loop {Q : Traj d N K → Prop} {body : Nat → K → Traj d N K → RandM ρ (Traj d N K)} {m : Nat} :
    ∀ (ts : List K) (ti : Nat) (Z : Traj d N K),
      (∀ j tt Z, m ≤ j → j < ti + ts.length → Q Z → KeepsQ Q (body j tt Z)) → m ≤ ti → Q Z →
      KeepsQ Q (enumLoop body ti ts Z)
  | [], _, Z, _, _, hZ => KeepsQ.pure hZ
  | t :: ts, ti, Z, h, hm, hZ =>
    KeepsQ.bind (h ti t Z hm (by simp) hZ) fun a ha =>
      KeepsQ.loop ts (ti + 1) a (fun j tt Z h1 h2 => h j tt Z h1 (by simp only [List.length_cons]; omega)) (by omega) ha

theorem ottoBody_q (env : Env ρ K) (c : Cfg d N M K) {Q : Traj d N K → Prop} {ti : Nat} (h1 : 1 ≤ ti)
    (hs : SliceSafe Q ti) (tt : K) {Z : Traj d N K} (hZ : Q Z) : KeepsQ Q (ottoBody env c ti tt Z) := by
  unfold ottoBody
  have hjp : ∀ a : Traj d N K, Q a → KeepsQ Q (if (c.reweight && decide (0 < ti)) = true then do
      let x ← (pyGet a (ti : Int) : Except PyErr (Mat d N K))
      let y ← (ottoReweight env c.U x tt : Except PyErr (Mat d N K))
      (setSlice a ti y : Except PyErr (Traj d N K))
    else pure a : RandM ρ (Traj d N K)) := by
    intro a ha
    split
    · exact .bind_any _ fun x => .bind_any _ fun y => .setSlice hs ha _
    · exact .pure ha
  dsimp only
  rw [if_neg (by omega)]
  split
  · exact .bind_any _ fun x => .bind_any _ fun y => .bind (.setSlice hs hZ _) hjp
  · exact .bind_any _ fun x => .bind_any _ fun y => .bind (.setSlice hs hZ _) hjp

theorem torchOttoBody_q (env : Env ρ K) (c : Cfg d N M K) {Q : Traj d N K → Prop} {ti : Nat} (h1 : 1 ≤ ti)
    (hs : SliceSafe Q ti) (tt : K) {Z : Traj d N K} (hZ : Q Z) : KeepsQ Q (torchOttoBody env c ti tt Z) := by
  unfold torchOttoBody
  have hjp : ∀ a : Traj d N K, Q a → KeepsQ Q (if (c.reweight && decide (0 < ti)) = true then
      match c.U with
      | none => RandM.raise .typeError
      | some U => do
        let x ← (pyGet a (ti : Int) : Except PyErr (Mat d N K))
        let y ← (torchReweight env x fun n => NumOps.exp (U.call2 x tt n * dtc) :
          Except PyErr (Mat d N K))
        (setSlice a ti y : Except PyErr (Traj d N K))
    else pure a : RandM ρ (Traj d N K)) := by
    intro a ha
    split
    · split
      · exact .raise _
      · exact .bind_any _ fun x => .bind_any _ fun y => .setSlice hs ha _
    · exact .pure ha
  dsimp only
  rw [if_neg (by omega)]
  split
  · exact .bind_any _ fun x => .bind_any _ fun y => .bind (.setSlice hs hZ _) hjp
  · exact .bind_any _ fun x => .bind_any _ fun y => .bind (.setSlice hs hZ _) hjp

theorem stochBody_q (env : Env ρ K) (c : Cfg d N M K) {Q : Traj d N K → Prop} {ti : Nat} (h1 : 1 ≤ ti)
    (hs : SliceSafe Q ti) (tt : K) {Z : Traj d N K} (hZ : Q Z) : KeepsQ Q (stochBody env c ti tt Z) := by
  unfold stochBody
  rw [if_neg (by omega)]
  refine KeepsQ.bind (Q' := Q) ?_ fun a ha => ?_
  · unfold stochMove
    refine KeepsQ.forFinR (fun i T hT => ?_) hZ
    refine .bind_any _ fun x => ?_
    split
    · exact .raise _
    · exact .bind_any _ fun y => .bind_any _ fun y => .setSlice hs hT _
  · split
    · exact .bind_any _ fun x => .bind_any _ fun y => .setSlice hs ha _
    · exact .pure ha

theorem torchStochBody_q (env : Env ρ K) (c : Cfg d N M K) {Q : Traj d N K → Prop} {ti : Nat} (h1 : 1 ≤ ti)
    (hs : SliceSafe Q ti) (tt : K) {Z : Traj d N K} (hZ : Q Z) : KeepsQ Q (torchStochBody env c ti tt Z) := by
  unfold torchStochBody
  rw [if_neg (by omega)]
  refine .bind_any _ fun x => .bind_any _ fun y => .bind (.setSlice hs hZ _) fun a ha => ?_
  split
  · split
    · exact .raise _
    · split
      · exact .raise _
      · exact .bind_any _ fun x => .bind_any _ fun y => .setSlice hs ha _
  · exact .pure ha

theorem ottoTrueBody_q (env : Env ρ K) (c : Cfg d N M K) {Q : Traj d N K → Prop} {ti : Nat} (h1 : 1 ≤ ti)
    (hs : SliceSafe Q ti) (tt : K) {Z : Traj d N K} (hZ : Q Z) : KeepsQ Q (ottoTrueBody env c ti tt Z) := by
  unfold ottoTrueBody
  rw [if_neg (by omega)]
  refine .bind_any _ fun x => ?_
  split
  · exact .raise _
  · dsimp only
    split
    · exact .bind_any _ fun y => .setSlice hs hZ _
    · exact .bind_any _ fun y => .setSlice hs hZ _

theorem torchTrueBody_q (env : Env ρ K) (c : Cfg d N M K) {Q : Traj d N K → Prop} {ti : Nat} (h1 : 1 ≤ ti)
    (hs : SliceSafe Q ti) (tt : K) {Z : Traj d N K} (hZ : Q Z) : KeepsQ Q (torchTrueBody env c ti tt Z) := by
  unfold torchTrueBody
  rw [if_neg (by omega)]
  refine .bind_any _ fun x => ?_
  split
  · exact .raise _
  · dsimp only
    split
    · exact .bind_any _ fun y => .setSlice hs hZ _
    · exact .bind_any _ fun y => .setSlice hs hZ _

theorem backwardBody_q (env : Env ρ K) (c : Cfg d N M K) (g : List K) (Z : Traj d N K) {Q : Traj d N K → Prop} {ti : Nat}
    (h1 : 1 ≤ ti) (hs : SliceSafe Q ((g.length : Int) - ti - 1)) (tt : K) {B : Traj d N K} (hB : Q B) :
    KeepsQ Q (backwardBody env c g Z ti tt B) := by
  unfold backwardBody
  rw [if_neg (by omega)]
  refine .bind_any _ fun x => ?_
  split
  · exact .bind_any _ fun x => .bind_any _ fun y => .bind_any _ fun y => .setSlice hs hB _
  · exact .bind_any _ fun x => .bind_any _ fun y => .bind_any _ fun y => .setSlice hs hB _

theorem torchBackwardBody_q (env : Env ρ K) (c : Cfg d N M K) (g : List K) (Z : Traj d N K) {Q : Traj d N K → Prop}
    {ti : Nat} (h1 : 1 ≤ ti) (hs : SliceSafe Q ((g.length : Int) - ti - 1)) (tt : K) {B : Traj d N K} (hB : Q B) :
    KeepsQ Q (torchBackwardBody env c g Z ti tt B) := by
  unfold torchBackwardBody
  rw [if_neg (by omega)]
  refine .bind_any _ fun x => ?_
  split
  · exact .bind_any _ fun x => .bind_any _ fun y => .bind_any _ fun y => .setSlice hs hB _
  · exact .bind_any _ fun x => .bind_any _ fun y => .bind_any _ fun y => .setSlice hs hB _

/-- Slice `j` of `n` slices is `P`. -/
def SliceIs (n j : Nat) (P : Mat d N K) (Z : Traj d N K) : Prop := Z.length = n ∧ Z[j]? = some P

omit [Add K] [Sub K] [Mul K] [Div K] [Neg K] [NumOps K] in
theorem sliceIs_safe {n j : Nat} {P : Mat d N K} {t : Nat} (h : t ≠ j) : SliceSafe (SliceIs n j P) (t : Int) := by
  rintro Z S Z' ⟨h1, h2⟩ e
  refine ⟨(setSlice_keeps_len e).trans h1, ?_⟩
  unfold setSlice at e
  obtain ⟨i, hi, e2⟩ := Except.bind_ok.1 e
  cases e2
  have : i = t := by
    have hlt := pyIdx_ok_lt hi
    unfold pyIdx at hi
    rw [if_pos (by omega)] at hi
    split at hi
    · cases hi; omega
    · cases hi
  subst this
  rw [List.getElem?_set_ne h, h2]

/-- After a row-by-row loop, every step of which sets row `di` of slice `j` (and perhaps other slices), slice `j` is as
prescribed. -/
theorem forFin_rows {n m j : Nat} (P : Mat d N K) {f : Fin m → Traj d N K → Except PyErr (Traj d N K)} (e : Fin m → Fin d)
    (h : ∀ i T T', T.length = n → f i T = .ok T' → T'.length = n ∧
      ∀ S, T[j]? = some S → T'[j]? = some (fun a x => if a = e i then P a x else S a x)) :
    ∀ {T T' : Traj d N K}, T.length = n → forFin m f T = .ok T' → T'.length = n ∧
      ∀ S, T[j]? = some S → ∃ S', T'[j]? = some S' ∧ ∀ a, ((∃ i, e i = a) → S' a = P a) ∧ ((¬ ∃ i, e i = a) → S' a = S a) := by
  induction m with
  | zero =>
    intro T T' hT h'
    cases h'
    exact ⟨hT, fun S hS => ⟨S, hS, fun a => ⟨fun ⟨i, _⟩ => i.elim0, fun _ => rfl⟩⟩⟩
  | succ m ih =>
    intro T T' hT h'
    obtain ⟨T1, h1, h2⟩ := Except.bind_ok.1 h'
    obtain ⟨l1, s1⟩ := h 0 _ _ hT h1
    obtain ⟨l2, s2⟩ := ih (fun i => e i.succ) (fun i => h i.succ) l1 h2
    refine ⟨l2, fun S hS => ?_⟩
    obtain ⟨S', hS', hr⟩ := s2 _ (s1 S hS)
    refine ⟨S', hS', fun a => ⟨?_, ?_⟩⟩
    · rintro ⟨i, rfl⟩
      by_cases hex : ∃ i', e (Fin.succ i') = e i
      · exact (hr _).1 hex
      · rw [(hr _).2 hex]
        have : i = 0 := by
          by_contra hne
          exact hex ⟨i.pred hne, by simp⟩
        subst this
        simp
    · intro hn
      rw [(hr a).2 fun ⟨i, hi⟩ => hn ⟨_, hi⟩]
      have : a ≠ e 0 := fun h => hn ⟨0, h.symm⟩
      simp [this]

theorem setRowVec_slice {n j : Nat} {bad : PyErr} {T T' : Traj d N K} {t : Int} {v : Fin N → K} (di : Fin d)
    (hj : pyIdx n t = .ok j) (hT : T.length = n) (h : setRowVec bad T di.val t v = .ok T') :
    T'.length = n ∧ (∀ S, T[j]? = some S → T'[j]? = some (fun a x => if a = di then v x else S a x)) ∧
    ∀ i, i ≠ j → T'[i]? = T[i]? := by
  rw [setRowVec_full, hT, hj, pyIdx_nat d di.isLt] at h
  simp only [Except.ok_bind'] at h
  cases h
  refine ⟨by simpa using hT, fun S hS => ?_, fun i hi => ?_⟩
  · rw [List.getElem?_modify_eq, hS]
    simp only [Fin.val_inj]; rfl
  · rw [List.getElem?_modify_ne _ _ (Ne.symm hi)]

theorem forFin_other {n j : Nat} {f : Fin n → Traj d N K → Except PyErr (Traj d N K)}
    (h : ∀ i T T', f i T = .ok T' → T'[j]? = T[j]?) :
    ∀ {T T' : Traj d N K}, forFin n f T = .ok T' → T'[j]? = T[j]? := by
  induction n with
  | zero =>
    intro T T' e
    cases e
    rfl
  | succ n ih =>
    intro T T' e
    obtain ⟨S, h1, h2⟩ := Except.bind_ok.1 e
    rw [ih (fun i => h i.succ) h2, h 0 _ _ h1]

theorem pinState_slice {Y : StateArg K} {P : Mat d N K} (h : Prescribes Y P) {n j : Nat} {bad : PyErr} {T T' : Traj d N K}
    {t : Int} (hj : pyIdx n t = .ok j) (hT : T.length = n) (e : pinState bad T t Y = .ok T') : SliceIs n j P T' := by
  unfold pinState at e
  obtain ⟨l, hS⟩ := forFin_rows (n := n) (j := j) P id (fun di T T' hT h' => by
    rw [putState_prescribes h] at h'
    obtain ⟨a, b, _⟩ := setRowVec_slice di hj hT h'
    refine ⟨a, fun S hS => (b S hS).trans ?_⟩
    congr 1; funext a x
    by_cases ha : a = di
    · subst ha; simp
    · simp [ha]) hT e
  refine ⟨l, ?_⟩
  have hlt := pyIdx_ok_lt hj
  obtain ⟨S', h1, h2⟩ := hS _ (List.getElem?_eq_getElem (hT ▸ hlt))
  rw [h1]
  congr 1
  exact funext fun a => (h2 a).1 ⟨a, rfl⟩

theorem pinState_other {Y : StateArg K} {P : Mat d N K} (h : Prescribes Y P) {n j i : Nat} {bad : PyErr}
    {T T' : Traj d N K} {t : Int} (hj : pyIdx n t = .ok j) (hT : T.length = n) (hi : i ≠ j)
    (e : pinState bad T t Y = .ok T') : T'[i]? = T[i]? := by
  unfold pinState at e
  have : ∀ (m : Nat) (e : Fin m → Fin d) {T T' : Traj d N K}, T.length = n →
      forFin m (fun di T => putState bad T (e di).val t Y) T = .ok T' → T'[i]? = T[i]? := by
    intro m
    induction m with
    | zero => intro e T T' _ h'; cases h'; rfl
    | succ m ih =>
      intro e T T' hT h'
      obtain ⟨T1, h1, h2⟩ := Except.bind_ok.1 h'
      replace h1 : putState bad T (e 0).val t Y = .ok T1 := h1
      rw [putState_prescribes h] at h1
      obtain ⟨l, _, o⟩ := setRowVec_slice (e 0) hj hT h1
      rw [ih (fun i => e i.succ) l h2, o i hi]
  exact this d id hT e

theorem startState_slice {Y1 Y2 : StateArg K} {P1 P2 : Mat d N K} (h1 : Prescribes Y1 P1) {bb : Bool}
    (h2 : bb = true → Prescribes Y2 P2) {n : Nat} (hn : 1 ≤ n) (hb : bb = true → 2 ≤ n) {bad : PyErr} {T T' : Traj d N K}
    (hT : T.length = n) (e : startState bad bb Y1 Y2 T = .ok T') : SliceIs n 0 P1 T' := by
  unfold startState at e
  obtain ⟨l, hS⟩ := forFin_rows (n := n) (j := 0) P1 id (fun di T T' hT h' => by
    obtain ⟨T1, e1, e2⟩ := Except.bind_ok.1 h'
    rw [putState_prescribes h1] at e1
    obtain ⟨a, b, _⟩ := setRowVec_slice di (pyIdx_zero (by omega)) hT e1
    have hfin : ∀ S, T[0]? = some S → T1[0]? = some (fun a x => if a = id di then P1 a x else S a x) := by
      intro S hS
      refine (b S hS).trans ?_
      congr 1; funext a x
      by_cases ha : a = di
      · subst ha; simp
      · simp [ha]
    split at e2
    · next hbb =>
      rw [putState_prescribes (h2 hbb)] at e2
      obtain ⟨a', _, o⟩ := setRowVec_slice di (pyIdx_neg_one (by omega)) a e2
      have := hb hbb
      exact ⟨a', fun S hS => (o 0 (by omega)).trans (hfin S hS)⟩
    · cases e2
      exact ⟨a, hfin⟩) hT e
  refine ⟨l, ?_⟩
  obtain ⟨S', h3, h4⟩ := hS _ (List.getElem?_eq_getElem (by omega))
  rw [h3]
  congr 1
  exact funext fun a => (h4 a).1 ⟨a, rfl⟩

/-! ### Missing rows -/

theorem putState_short {bad : PyErr} {T : Traj d N K} {di : Nat} {t : Int} {Y : StateArg K} (h : Y.rows ≤ di) :
    putState bad T di t Y = .error .indexError := by
  cases Y with
  | flat v =>
    have h : v.length ≤ di := h
    have : pyGet v (di : Int) = .error .indexError := by
      unfold pyGet pyIdx
      rw [if_pos (by omega), if_neg (by omega)]; rfl
    simp only [putState, this]; rfl
  | @mat a b m =>
    have h : a ≤ di := h
    simp only [putState]
    rw [dif_neg (by omega)]
  | foreign a =>
    have h : a ≤ di := h
    simp only [putState]
    rw [if_neg (by omega)]

theorem forFin_never {n : Nat} {f : Fin n → Traj d N K → Except PyErr (Traj d N K)} (i : Fin n)
    (h : ∀ T T', f i T ≠ .ok T') : ∀ T T', forFin n f T ≠ .ok T' := by
  induction n with
  | zero => exact i.elim0
  | succ n ih =>
    intro T T' e
    obtain ⟨S, h1, h2⟩ := Except.bind_ok.1 e
    by_cases hi : i = 0
    · subst hi
      exact h _ _ h1
    · refine ih (i.pred hi) (fun T T' => ?_) S T' h2
      have : (i.pred hi).succ = i := by simp
      rw [this]
      exact h T T'

theorem pinState_short {bad : PyErr} {T T' : Traj d N K} {t : Int} {Y : StateArg K} (h : Y.rows < d) :
    pinState bad T t Y ≠ .ok T' := by
  unfold pinState
  refine forFin_never ⟨Y.rows, h⟩ (fun T T' e => ?_) T T'
  rw [putState_short (by simp)] at e
  cases e

/-! ### Phases of a construction -/

theorem constructStates_ok {env : Env ρ K} {c : Cfg d N M K} {y1 y2 : StateArg K} {r r' : ρ} {o : Obj d N M K}
    (h : constructStates env c y1 y2 r = .ok (o, r')) :
    o.timegrid = mkGrid c.t1 c.t2 ∧
    (c.deterministic = true → ∃ r1, loopFrom (startState .valueError c.brownBridge y1 y2) (ottoBody env c) (mkGrid c.t1 c.t2)
      (zerosT d N (mkGrid c.t1 c.t2).length) r = .ok (o.Z, r1)) ∧
    (∀ T, c.deterministic = true → o.Ztr = some T → ∃ r1 r2, loopFrom (fun T => pinState .valueError T 0 y1)
      (ottoTrueBody env c) (mkGrid c.t1 c.t2) (zerosT d N (mkGrid c.t1 c.t2).length) r1 = .ok (T, r2)) ∧
    ∃ B r1 r2, loopFrom (fun B => pinState .valueError B (-1) y2) (backwardBody env c (mkGrid c.t1 c.t2) o.Z)
      (mkGrid c.t1 c.t2).dropLast (zerosT d N (mkGrid c.t1 c.t2).length) r1 = .ok (B, r2) ∧
      pinState .valueError B 0 y1 = .ok o.B := by
  unfold constructStates at h
  by_cases hdet : c.deterministic = true <;>
    by_cases hb : (c.reweight && c.brownBridge) = true <;>
    simp only [hdet, hb, if_true, Bool.false_eq_true, if_false, RandM.bind_ok, RandM.pure_ok, RandM.lift_ok] at h
  · obtain ⟨Z, r1, hZ, T, r2, hT, zt, r3, ⟨rfl, rfl⟩, B, r4, ⟨B1, r5, hB, hp, rfl⟩, rfl, rfl⟩ := h
    exact ⟨rfl, fun _ => ⟨_, hZ⟩, fun T' _ e => by cases e; exact ⟨_, _, hT⟩, _, _, _, hB, hp⟩
  · obtain ⟨Z, r1, hZ, zt, r2, ⟨rfl, rfl⟩, B, r4, ⟨B1, r5, hB, hp, rfl⟩, rfl, rfl⟩ := h
    exact ⟨rfl, fun _ => ⟨_, hZ⟩, fun T' _ e => (by cases e), _, _, _, hB, hp⟩
  · obtain ⟨Z0, r0, hZ0, Z, r1, ⟨hZ, rfl⟩, B, r4, ⟨B1, r5, hB, hp, rfl⟩, rfl, rfl⟩ := h
    exact ⟨rfl, fun e => absurd e hdet, fun T' e _ => absurd e hdet, _, _, _, hB, hp⟩
  · obtain ⟨Z0, r0, hZ0, Z, r1, ⟨hZ, rfl⟩, B, r4, ⟨B1, r5, hB, hp, rfl⟩, rfl, rfl⟩ := h
    exact ⟨rfl, fun e => absurd e hdet, fun T' e _ => absurd e hdet, _, _, _, hB, hp⟩

theorem torchConstructStates_ok {env : Env ρ K} {c : Cfg d N M K} {y1 y2 : StateArg K} {r r' : ρ} {o : Obj d N M K}
    (h : torchConstructStates env c y1 y2 r = .ok (o, r')) :
    torchGrid c.t1 c.t2 = .ok o.timegrid ∧
    (c.deterministic = true → ∃ r1, loopFrom (startState .runtimeError c.brownBridge y1 y2) (torchOttoBody env c) o.timegrid
      (zerosT d N o.timegrid.length) r = .ok (o.Z, r1)) ∧
    (∀ T, c.deterministic = true → o.Ztr = some T → ∃ r1 r2, loopFrom (fun T => pinState .runtimeError T 0 y1)
      (torchTrueBody env c) o.timegrid (zerosT d N o.timegrid.length) r1 = .ok (T, r2)) ∧
    ∃ B r1 r2, loopFrom (fun B => pinState .runtimeError B (-1) y2) (torchBackwardBody env c o.timegrid o.Z)
      o.timegrid.dropLast (zerosT d N o.timegrid.length) r1 = .ok (B, r2) ∧
      pinState .runtimeError B 0 y1 = .ok o.B := by
  unfold torchConstructStates at h
  by_cases hdet : c.deterministic = true <;>
    by_cases hb : (c.reweight && c.brownBridge) = true <;>
    simp only [hdet, hb, if_true, Bool.false_eq_true, if_false, RandM.bind_ok, RandM.pure_ok, RandM.lift_ok] at h
  · obtain ⟨g, _, ⟨hg, rfl⟩, Z, r1, hZ, T, r2, hT, zt, r3, ⟨rfl, rfl⟩, B, r4, ⟨B1, r5, hB, hp, rfl⟩, rfl, rfl⟩ := h
    exact ⟨hg, fun _ => ⟨_, hZ⟩, fun T' _ e => by cases e; exact ⟨_, _, hT⟩, _, _, _, hB, hp⟩
  · obtain ⟨g, _, ⟨hg, rfl⟩, Z, r1, hZ, zt, r2, ⟨rfl, rfl⟩, B, r4, ⟨B1, r5, hB, hp, rfl⟩, rfl, rfl⟩ := h
    exact ⟨hg, fun _ => ⟨_, hZ⟩, fun T' _ e => (by cases e), _, _, _, hB, hp⟩
  · obtain ⟨g, _, ⟨hg, rfl⟩, Z, r1, hZ, B, r4, ⟨B1, r5, hB, hp, rfl⟩, rfl, rfl⟩ := h
    exact ⟨hg, fun e => absurd e hdet, fun T' e _ => absurd e hdet, _, _, _, hB, hp⟩
  · obtain ⟨g, _, ⟨hg, rfl⟩, Z, r1, hZ, B, r4, ⟨B1, r5, hB, hp, rfl⟩, rfl, rfl⟩ := h
    exact ⟨hg, fun e => absurd e hdet, fun T' e _ => absurd e hdet, _, _, _, hB, hp⟩

/-- Slice 0 of a forward loop is what its first pass writes. -/
theorem loopFrom_zero {first : Traj d N K → Except PyErr (Traj d N K)}
    {body : Nat → K → Traj d N K → RandM ρ (Traj d N K)} {n : Nat} {P : Mat d N K} {Z0 : Traj d N K}
    (h0 : ∀ Z, first Z0 = .ok Z → SliceIs n 0 P Z)
    (hb : ∀ ti tt Z, 1 ≤ ti → SliceIs n 0 P Z → KeepsQ (SliceIs n 0 P) (body ti tt Z)) {ts : List K} (hts : 1 ≤ ts.length) :
    KeepsQ (SliceIs n 0 P) (loopFrom first body ts Z0) := by
  cases ts with
  | nil => simp at hts
  | cons t ts =>
    exact KeepsQ.bind (Q' := SliceIs n 0 P) (KeepsQ.lift fun Z e => h0 Z e) fun a ha =>
      KeepsQ.loop (m := 1) ts 1 a (fun j tt Z h1 _ => hb j tt Z h1) (by omega) ha

/-- The last slice of the backward loop is what its first pass writes. -/
theorem loopFrom_last {first : Traj d N K → Except PyErr (Traj d N K)}
    {body : Nat → K → Traj d N K → RandM ρ (Traj d N K)} {g : List K} {P : Mat d N K} {B0 : Traj d N K}
    (h0 : ∀ Z, first B0 = .ok Z → SliceIs g.length (g.length - 1) P Z)
    (hb : ∀ (ti : Nat) tt Z, 1 ≤ ti → SliceSafe (SliceIs g.length (g.length - 1) P) ((g.length : Int) - ti - 1) →
      SliceIs g.length (g.length - 1) P Z → KeepsQ (SliceIs g.length (g.length - 1) P) (body ti tt Z))
    (hts : 2 ≤ g.length) : KeepsQ (SliceIs g.length (g.length - 1) P) (loopFrom first body g.dropLast B0) := by
  have hl : g.dropLast.length = g.length - 1 := by simp
  cases hd : g.dropLast with
  | nil => rw [hd] at hl; simp at hl; omega
  | cons t ts =>
    rw [hd] at hl
    simp only [List.length_cons] at hl
    refine KeepsQ.bind (Q' := SliceIs g.length (g.length - 1) P) (KeepsQ.lift fun Z e => h0 Z e) fun a ha =>
      KeepsQ.loop (m := 1) ts 1 a (fun j tt Z h1 h2 hZ => hb j tt Z h1 ?_ hZ) (by omega) ha
    have : ((g.length : Int) - j - 1) = ((g.length - j - 1 : Nat) : Int) := by omega
    rw [this]
    exact sliceIs_safe (by omega)

/-- The first pass of a deterministic run whose initial state is a matrix with fewer rows than the dimension. -/
theorem startState_matrix {a b : Nat} (m : Mat a b K) (s' : StateArg K) (ha : 0 < a) (hb : 2 ≤ b) (hlt : a < d)
    (T : Traj d N K) (hl : 0 < T.length) :
    startState .valueError false (.mat m) s' T = .error (if b = N then .indexError else .valueError) := by
  by_cases hbN : b = N
  · rw [if_pos hbN]
    unfold startState
    have : ∀ (m' k : Nat) (e : Fin m' → Nat) (T : Traj d N K), 0 < T.length → (∀ i, e i = k + i.val) → k ≤ a →
        a < k + m' → k + m' ≤ d →
        forFin m' (fun di T => do
          let Z ← putState PyErr.valueError T (e di) 0 (.mat m)
          if false = true then putState PyErr.valueError Z (e di) (-1) s' else .ok Z) T = .error .indexError := by
      intro m'
      induction m' with
      | zero => intro k e T _ _ h1 h2 _; omega
      | succ m' ih =>
        intro k e T hl he h1 h2 h3
        unfold forFin
        have e0 : e 0 = k := by simpa using he 0
        simp only [e0]
        by_cases hk : k = a
        · rw [putState_short (Y := .mat m) (show a ≤ k by omega)]
          rfl
        · have hka : k < a := by omega
          have : ∃ T', putState PyErr.valueError T k 0 (.mat m) = .ok T' ∧ 0 < T'.length := by
            simp only [putState, dif_pos hka, setRowVec, dif_pos hbN,
              pyIdx_nat d (show k < d by omega), pyIdx_zero hl, Except.ok_bind']
            exact ⟨_, rfl, by simpa using hl⟩
          obtain ⟨T', hT', hl'⟩ := this
          rw [hT']
          simp only [Except.ok_bind', Bool.false_eq_true, if_false]
          refine ih (k + 1) (fun i => e i.succ) T' hl' (fun i => ?_) (by omega) (by omega) (by omega)
          rw [he]; simp; omega
    exact this d 0 (fun i => i.val) T hl (fun i => by simp) (by omega) (by omega) (by omega)
  · rw [if_neg hbN]
    unfold startState
    obtain ⟨p, rfl⟩ : ∃ p, d = p + 1 := ⟨d - 1, by omega⟩
    have hput : putState PyErr.valueError T 0 0 (.mat m) = .error .valueError := by
      have := pyIdx_nat (p + 1) (show 0 < p + 1 by omega)
      simp only [putState, dif_pos ha, setRowVec, dif_neg hbN, dif_neg (show ¬ b = 1 by omega), this, pyIdx_zero hl,
        Except.ok_bind']
    unfold forFin
    simp only [Fin.val_zero, hput]
    rfl

end DPFC
