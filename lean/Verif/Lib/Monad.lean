import Verif.Model.TorchDPFC

/-! Reasoning rules for `RandM`, `Except`, `seqM`, `forFin`, `enumLoop`, Python indexing. -/

namespace DPFC
namespace RandM
variable {ρ α β γ : Type}

@[simp] theorem pure_app (a : α) (r : ρ) : (pure a : RandM ρ α) r = .ok (a, r) := rfl

theorem bind_app (x : RandM ρ α) (f : α → RandM ρ β) (r : ρ) :
    (x >>= f) r = match x r with
      | .error e => .error e
      | .ok (a, r') => f a r' := rfl

instance : LawfulMonad (RandM ρ) := LawfulMonad.mk' (RandM ρ)
  (id_map := by
    intro α x; funext r
    show (match x r with
      | .error e => .error e
      | .ok (a, r') => .ok (id a, r')) = x r
    cases x r <;> rfl)
  (pure_bind := by intros; rfl)
  (bind_assoc := by
    intro α β γ x f g; funext r
    simp only [bind_app]
    cases x r <;> rfl)

@[simp] theorem liftM_ok (a : α) : (liftM (Except.ok a : Except PyErr α) : RandM ρ α) = pure a := rfl
@[simp] theorem liftM_error (e : PyErr) :
    (liftM (Except.error e : Except PyErr α) : RandM ρ α) = raise e := rfl
@[simp] theorem monadLift_ok (a : α) :
    (MonadLift.monadLift (Except.ok a : Except PyErr α) : RandM ρ α) = pure a := rfl
@[simp] theorem monadLift_error (e : PyErr) :
    (MonadLift.monadLift (Except.error e : Except PyErr α) : RandM ρ α) = raise e := rfl

@[simp] theorem raise_bind (e : PyErr) (f : α → RandM ρ β) : (raise e >>= f) = raise e := rfl

@[simp] theorem raise_app (e : PyErr) (r : ρ) : (raise e : RandM ρ α) r = .error e := rfl

theorem liftM_bind (x : Except PyErr α) (f : α → Except PyErr β) :
    (liftM (x >>= f) : RandM ρ β) = (liftM x >>= fun a => liftM (f a)) := by
  cases x <;> rfl

theorem bind_ok {x : RandM ρ α} {f : α → RandM ρ β} {r r' : ρ} {b : β} :
    (x >>= f) r = .ok (b, r') ↔ ∃ a r1, x r = .ok (a, r1) ∧ f a r1 = .ok (b, r') := by
  rw [bind_app]
  constructor
  · intro h
    cases hx : x r with
    | error e => rw [hx] at h; cases h
    | ok p => rw [hx] at h; exact ⟨p.1, p.2, rfl, h⟩
  · rintro ⟨a, r1, hx, h⟩
    rw [hx]; exact h

theorem pure_ok {r r' : ρ} {a b : α} :
    (pure a : RandM ρ α) r = .ok (b, r') ↔ a = b ∧ r = r' := by
  simp [pure_app]

theorem lift_ok {x : Except PyErr α} {r r' : ρ} {a : α} :
    (liftM x : RandM ρ α) r = .ok (a, r') ↔ x = .ok a ∧ r = r' := by
  cases x with
  | error e => simp
  | ok b => simp

end RandM

section except
variable {α β : Type}

@[simp] theorem Except.ok_bind' (a : α) (f : α → Except PyErr β) :
    (Except.ok a >>= f) = f a := rfl
@[simp] theorem Except.error_bind' (e : PyErr) (f : α → Except PyErr β) :
    ((Except.error e : Except PyErr α) >>= f) = .error e := rfl
@[simp] theorem Except.pure_eq (a : α) : (pure a : Except PyErr α) = .ok a := rfl

theorem Except.bind_ok {x : Except PyErr α} {f : α → Except PyErr β} {b : β} :
    (x >>= f) = .ok b ↔ ∃ a, x = .ok a ∧ f a = .ok b := by
  cases x <;> simp
end except

section loops
variable {m : Type → Type} [Monad m] {α β σ : Type}

theorem seqM_congr {n : Nat} {f g : Fin n → m α} (h : ∀ i, f i = g i) : seqM n f = seqM n g := by
  rw [show f = g from funext h]

/-- All parts succeed: the sequence succeeds. -/
theorem seqM_except_ok : ∀ {n : Nat} {f : Fin n → Except PyErr α} {v : Fin n → α},
    seqM n f = .ok v ↔ ∀ i, f i = .ok (v i)
  | 0, f, v => by
    simp only [seqM, Except.pure_eq, Except.ok.injEq]
    exact ⟨fun _ i => i.elim0, fun _ => funext fun i => i.elim0⟩
  | n+1, f, v => by
    simp only [seqM, Except.bind_ok, Except.pure_eq, Except.ok.injEq]
    constructor
    · rintro ⟨a, h0, w, hw, rfl⟩ i
      refine Fin.cases ?_ (fun i => ?_) i
      · simpa using h0
      · simpa using seqM_except_ok.1 hw i
    · intro h
      exact ⟨v 0, h 0, fun i => v i.succ, seqM_except_ok.2 fun i => h i.succ, Fin.cons_self_tail v⟩

theorem liftM_seqM {ρ : Type} : ∀ {n : Nat} (f : Fin n → Except PyErr α),
    (liftM (seqM n f) : RandM ρ (Fin n → α)) = seqM n fun i => (liftM (f i) : RandM ρ α)
  | 0, _ => rfl
  | n+1, f => by
    simp only [seqM, RandM.liftM_bind, liftM_seqM, Except.pure_eq, RandM.liftM_ok]

/-- A computation sequence in `RandM` whose parts succeed. -/
theorem seqM_rand_ok {ρ : Type} : ∀ {n : Nat} {f : Fin n → RandM ρ α} {v : Fin n → α} {r r' : ρ},
    seqM n f r = .ok (v, r') ↔
      ∃ rs : Fin (n+1) → ρ, rs 0 = r ∧ rs (Fin.last n) = r' ∧
        ∀ i : Fin n, f i (rs i.castSucc) = .ok (v i, rs i.succ)
  | 0, f, v, r, r' => by
    simp only [seqM, RandM.pure_ok]
    constructor
    · rintro ⟨_, rfl⟩
      exact ⟨fun _ => r, rfl, rfl, fun i => i.elim0⟩
    · rintro ⟨rs, h0, h1, _⟩
      refine ⟨funext fun i => i.elim0, ?_⟩
      rw [← h0, ← h1]; rfl
  | n+1, f, v, r, r' => by
    simp only [seqM, RandM.bind_ok, RandM.pure_ok]
    constructor
    · rintro ⟨a, r1, h0, w, r2, hw, rfl, rfl⟩
      obtain ⟨rs, e0, e1, hs⟩ := seqM_rand_ok.1 hw
      refine ⟨Fin.cons r rs, rfl, ?_, ?_⟩
      · rw [← Fin.succ_last, Fin.cons_succ, e1]
      · intro i
        refine Fin.cases ?_ (fun i => ?_) i
        · simpa [e0] using h0
        · simpa [← Fin.succ_castSucc] using hs i
    · rintro ⟨rs, e0, e1, hs⟩
      refine ⟨v 0, rs 1, ?_, fun i => v i.succ, r', ?_, Fin.cons_self_tail v, rfl⟩
      · have := hs 0; simpa [e0] using this
      · refine seqM_rand_ok.2 ⟨fun i => rs i.succ, rfl, ?_, fun i => ?_⟩
        · show rs (Fin.last n).succ = r'
          rw [Fin.succ_last, e1]
        · have := hs i.succ
          simpa using this

theorem forFin_congr {n : Nat} {f g : Fin n → σ → m σ} (h : ∀ i s, f i s = g i s) (s : σ) :
    forFin n f s = forFin n g s := by
  rw [show f = g from funext fun i => funext fun s => h i s]

theorem liftM_forFin {ρ : Type} : ∀ {n : Nat} (f : Fin n → σ → Except PyErr σ) (s : σ),
    (liftM (forFin n f s) : RandM ρ σ) = forFin n (fun i s => (liftM (f i s) : RandM ρ σ)) s
  | 0, _, _ => rfl
  | n+1, f, s => by
    simp only [forFin, RandM.liftM_bind, liftM_forFin]

end loops

section indexing
variable {α : Type}

@[simp] theorem pyIdx_nat (len : Nat) {i : Nat} (h : i < len) : pyIdx len (i : Int) = .ok i := by
  simp [pyIdx, h]

theorem pyIdx_zero {len : Nat} (h : 0 < len) : pyIdx len 0 = .ok 0 := by simp [pyIdx, h]

theorem pyIdx_neg_one {len : Nat} (h : 0 < len) : pyIdx len (-1) = .ok (len - 1) := by
  unfold pyIdx
  rw [if_neg (by omega), if_pos (by omega)]
  congr 1; omega

theorem pyIdx_ok_lt {len : Nat} {i : Int} {j : Nat} (h : pyIdx len i = .ok j) : j < len := by
  unfold pyIdx at h
  split at h
  · split at h
    · injection h with h; omega
    · cases h
  · split at h
    · injection h with h; omega
    · cases h

theorem pyIdx_empty (i : Int) : pyIdx 0 i = .error .indexError := by
  unfold pyIdx
  split
  · rw [if_neg (by omega)]
  · rw [if_neg (by omega)]

theorem pyIdx_error {len : Nat} {i : Int} {e : PyErr} (h : pyIdx len i = .error e) :
    e = .indexError ∧ ((len : Int) ≤ i ∨ i < -(len : Int)) := by
  unfold pyIdx at h
  split at h
  · split at h
    · cases h
    · injection h with h; exact ⟨h.symm, by omega⟩
  · split at h
    · cases h
    · injection h with h; exact ⟨h.symm, by omega⟩

theorem pyGet_nat (l : List α) {i : Nat} (h : i < l.length) : pyGet l (i : Int) = .ok l[i] := by
  simp [pyGet, pyIdx_nat _ h, List.getElem?_eq_getElem h]

theorem pyGet_ok {l : List α} {i : Int} {a : α} (h : pyGet l i = .ok a) :
    ∃ j, pyIdx l.length i = .ok j ∧ l[j]? = some a := by
  simp only [pyGet, Except.bind_ok] at h
  obtain ⟨j, hj, h⟩ := h
  refine ⟨j, hj, ?_⟩
  cases hl : l[j]? with
  | none => rw [hl] at h; cases h
  | some b => rw [hl] at h; injection h with h; rw [h]

theorem setSlice_nat {d N : Nat} {K : Type} (T : Traj d N K) {i : Nat} (h : i < T.length)
    (S : Mat d N K) : setSlice T (i : Int) S = .ok (T.set i S) := by
  simp [setSlice, pyIdx_nat _ h]

end indexing
end DPFC
