import Verif.Model.Shape
import Verif.Lib.Flow
import Verif.Lib.TorchFlow

/-! Broadcasting, and the lines in which `g` occurs. -/

namespace DPFC
open NArr

theorem clip_nil (s : List Nat) : clip s [] = s.map fun _ => 0 := by
  induction s with
  | nil => rfl
  | cons x s ih => simp [clip, ih]

theorem clip_zeros (s : List Nat) : ∀ n, clip s (List.replicate n 0) = s.map fun _ => 0 := by
  induction s with
  | nil => intro n; cases n <;> rfl
  | cons x s ih =>
    intro n
    cases n with
    | zero => exact clip_nil _
    | succ n => simp [clip, ih, List.replicate_succ]

/-- Two shapes that can be assigned to `t` broadcast to a shape that can be assigned to `t`. -/
theorem bcast_fits : ∀ (a b t : List Nat), fits a t = true → fits b t = true →
    ∃ o, bcast a b = some o ∧ fits o t = true
  | [], b, t, _, hb => ⟨b, by cases b <;> rfl, hb⟩
  | x :: a, [], t, ha, _ => ⟨x :: a, rfl, ha⟩
  | x :: a, y :: b, [], ha, hb => by
    simp only [fits, Bool.and_eq_true, decide_eq_true_eq] at ha hb
    obtain ⟨o, ho, hf⟩ := bcast_fits a b [] ha.2 hb.2
    refine ⟨1 :: o, ?_, by simp [fits, hf]⟩
    simp [bcast, ha.1, hb.1, ho]
  | x :: a, y :: b, t :: ts, ha, hb => by
    simp only [fits, Bool.and_eq_true, Bool.or_eq_true, decide_eq_true_eq] at ha hb
    obtain ⟨o, ho, hf⟩ := bcast_fits a b ts ha.2 hb.2
    rcases ha.1 with rfl | rfl <;> rcases hb.1 with rfl | rfl
    · exact ⟨1 :: o, by simp [bcast, ho], by simp [fits, hf]⟩
    · refine ⟨y :: o, ?_, by simp [fits, hf]⟩
      by_cases h : 1 = y
      · simp [bcast, ho, ← h]
      · simp [bcast, ho, h]
    · refine ⟨x :: o, ?_, by simp [fits, hf]⟩
      by_cases h : x = 1
      · simp [bcast, ho, h]
      · simp [bcast, ho, h]
    · exact ⟨y :: o, by simp [bcast, ho], by simp [fits, hf]⟩

/-- If the broadcast shape can be assigned to `t`, so can both operands. -/
theorem fits_of_bcast : ∀ (a b o t : List Nat), bcast a b = some o → fits o t = true →
    fits a t = true ∧ fits b t = true
  | [], b, o, t, h, hf => by
    have : o = b := by cases b <;> (simp only [bcast, Option.some.injEq] at h; exact h.symm)
    subst this
    exact ⟨rfl, hf⟩
  | x :: a, [], o, t, h, hf => by
    simp only [bcast, Option.some.injEq] at h
    subst h
    exact ⟨hf, rfl⟩
  | x :: a, y :: b, o, t, h, hf => by
    unfold bcast at h
    cases hab : bcast a b with
    | none =>
      rw [hab] at h
      split at h <;> simp at h
    | some o' =>
      rw [hab] at h
      split at h
      · simp at h
      · rename_i z hz
        simp only [Option.map_some, Option.some.injEq] at h
        subst h
        have hxz : x = z ∨ x = 1 := by
          split at hz
          · simp at hz; exact .inl hz
          · split at hz
            · rename_i h; exact .inr h
            · split at hz
              · simp at hz; exact .inl hz
              · simp at hz
        have hyz : y = z ∨ y = 1 := by
          split at hz
          · rename_i h; simp at hz; exact .inl (h ▸ hz)
          · split at hz
            · simp at hz; exact .inl hz
            · split at hz
              · rename_i h; exact .inr h
              · simp at hz
        cases t with
        | nil =>
          simp only [fits, Bool.and_eq_true, decide_eq_true_eq] at hf ⊢
          obtain ⟨i1, i2⟩ := fits_of_bcast a b o' [] hab hf.2
          refine ⟨⟨?_, i1⟩, ?_, i2⟩
          · rcases hxz with h | h
            · exact h.trans hf.1
            · exact h
          · rcases hyz with h | h
            · exact h.trans hf.1
            · exact h
        | cons t ts =>
          simp only [fits, Bool.and_eq_true, Bool.or_eq_true, decide_eq_true_eq] at hf ⊢
          obtain ⟨i1, i2⟩ := fits_of_bcast a b o' ts hab hf.2
          refine ⟨⟨?_, i1⟩, ?_, i2⟩
          · rcases hxz with h | h
            · rw [h]; exact hf.1
            · exact .inl h
          · rcases hyz with h | h
            · rw [h]; exact hf.1
            · exact .inl h

theorem clip_clip_nil (a o : List Nat) : clip a (clip o []) = clip a [] := by
  rw [clip_nil o, clip_nil a]
  have : (o.map fun _ => 0) = List.replicate o.length 0 := List.map_const' ..
  rw [this, clip_zeros]

/-- Reading an operand through the broadcast result is reading it directly. -/
theorem clip_bcast : ∀ (a b o i : List Nat), bcast a b = some o →
    clip a (clip o i) = clip a i ∧ clip b (clip o i) = clip b i
  | a, b, o, [], h => ⟨clip_clip_nil _ _, clip_clip_nil _ _⟩
  | [], b, o, i :: is, h => by
    have : o = b := by cases b <;> (simp only [bcast, Option.some.injEq] at h; exact h.symm)
    subst this
    refine ⟨rfl, ?_⟩
    exact clip_self o (i :: is)
  | x :: a, [], o, i :: is, h => by
    simp only [bcast, Option.some.injEq] at h
    subst h
    exact ⟨clip_self _ _, rfl⟩
  | x :: a, y :: b, o, i :: is, h => by
    unfold bcast at h
    cases hab : bcast a b with
    | none =>
      rw [hab] at h
      split at h <;> simp at h
    | some o' =>
      rw [hab] at h
      split at h
      · simp at h
      · rename_i z hz
        simp only [Option.map_some, Option.some.injEq] at h
        subst h
        obtain ⟨i1, i2⟩ := clip_bcast a b o' is hab
        have hxz : z = 1 → x = 1 ∧ y = 1 := by
          rintro rfl
          split at hz
          · rename_i h; simp at hz; exact ⟨hz, h ▸ hz⟩
          · split at hz
            · rename_i h; simp at hz; exact ⟨h, hz⟩
            · split at hz
              · rename_i h; simp at hz; exact ⟨hz, h⟩
              · simp at hz
        simp only [clip, i1, i2, List.cons.injEq, and_true]
        by_cases hz1 : z = 1
        · obtain ⟨h1, h2⟩ := hxz hz1
          simp [h1, h2]
        · simp [hz1]
where
  clip_self : ∀ (o i : List Nat), clip o (clip o i) = clip o i
  | [], _ => rfl
  | x :: o, [] => clip_clip_nil _ _
  | x :: o, i :: is => by
    simp only [clip, clip_self o is, List.cons.injEq, and_true]
    split <;> rfl

set_option linter.unusedSectionVars false

section
variable {K ρ : Type} [Add K] [Sub K] [Mul K] [Div K] [Neg K] [NumOps K]
variable {N M d : Nat}

/-- The array can be assigned to a `(d, N)` slice and then stores `V`. -/
def IsMat (d N : Nat) (A : NArr K) (V : Mat d N K) : Prop :=
  fits A.rshape [N, d] = true ∧ ∀ i n, A.val (clip A.rshape [n.val, i.val]) = V i n

/-- The array can be assigned to a `(d,)` slice and then stores `V`. -/
def IsVec (d : Nat) (A : NArr K) (V : Fin d → K) : Prop :=
  fits A.rshape [d] = true ∧ ∀ i, A.val (clip A.rshape [i.val]) = V i

theorem IsMat.op {A B : NArr K} {V W : Mat d N K} (e : PyErr) (f : K → K → K) (hA : IsMat d N A V)
    (hB : IsMat d N B W) : ∃ C, NArr.op e f A B = .ok C ∧ IsMat d N C fun i n => f (V i n) (W i n) := by
  obtain ⟨o, ho, hf⟩ := bcast_fits _ _ _ hA.1 hB.1
  unfold NArr.op
  rw [ho]
  refine ⟨_, rfl, hf, fun i n => ?_⟩
  obtain ⟨h1, h2⟩ := clip_bcast _ _ _ [n.val, i.val] ho
  simp only [h1, h2, hA.2, hB.2]

theorem IsVec.op {A B : NArr K} {V W : Fin d → K} (e : PyErr) (f : K → K → K) (hA : IsVec d A V)
    (hB : IsVec d B W) : ∃ C, NArr.op e f A B = .ok C ∧ IsVec d C fun i => f (V i) (W i) := by
  obtain ⟨o, ho, hf⟩ := bcast_fits _ _ _ hA.1 hB.1
  unfold NArr.op
  rw [ho]
  refine ⟨_, rfl, hf, fun i => ?_⟩
  obtain ⟨h1, h2⟩ := clip_bcast _ _ _ [i.val] ho
  simp only [h1, h2, hA.2, hB.2]

theorem isMat_scal (a : K) : IsMat d N (scal a) fun _ _ => a := ⟨rfl, fun _ _ => rfl⟩
theorem isVec_scal (a : K) : IsVec d (scal a) fun _ => a := ⟨rfl, fun _ => rfl⟩

theorem isMat_ofMat (x : Mat d N K) : IsMat d N (ofMat x) x := by
  refine ⟨by simp [ofMat, fits], fun i n => ?_⟩
  have h1 : (if N = 1 then 0 else n.val) = n.val := by split <;> omega
  have h2 : (if d = 1 then 0 else i.val) = i.val := by split <;> omega
  simp [ofMat, clip, h1, h2]

theorem isVec_ofVec (x : Fin d → K) : IsVec d (ofVec x) x := by
  refine ⟨by simp [ofVec, fits], fun i => ?_⟩
  have h2 : (if d = 1 then 0 else i.val) = i.val := by split <;> omega
  simp [ofVec, clip, h2]

theorem IsMat.sq' {A : NArr K} {V : Mat d N K} (h : IsMat d N A V) :
    IsMat d N A.sq' fun i n => sq (V i n) := ⟨h.1, fun i n => congrArg sq (h.2 i n)⟩

theorem IsMat.toMat {A : NArr K} {V : Mat d N K} (h : IsMat d N A V) (e : PyErr) :
    NArr.toMat e d N A = .ok V := by
  unfold NArr.toMat
  rw [if_pos h.1]
  congr 1
  funext i n
  exact h.2 i n

theorem IsVec.toVec {A : NArr K} {V : Fin d → K} (h : IsVec d A V) (e : PyErr) :
    NArr.toVec e d A = .ok V := by
  unfold NArr.toVec
  rw [if_pos h.1]
  congr 1
  funext i
  exact h.2 i

/-- The lines evaluated elementwise with coefficients `G` (slices) and `v` (single particles). -/
def elemLines (G : Mat d N K) (v : Fin d → K) : GLines d N K where
  noisy x fx xi := .ok fun i n => x i n + dtc * fx i n + G i n * xi i n
  otto x fx gpsi := .ok fun i n => x i n + dtc * (fx i n - lit 1 2 * sq (G i n) * gpsi i n)
  stoch x fx xi := .ok fun i => x i + dtc * fx i + v i * xi i
  backNoisy b fb gro xi := .ok fun i n =>
    b i n - fb i n * dtc + dtc * sq (G i n) * gro i n + G i n * xi i n
  backDet b fb gro grb := .ok fun i n =>
    b i n - (fb i n - sq (G i n) * gro i n + lit 1 2 * sq (G i n) * grb i n) * dtc

theorem noisyG_fit {g : NArr K} {G : Mat d N K} (hg : IsMat d N g G) (e : PyErr) (x fx xi : Mat d N K) :
    noisyG e g x fx xi = .ok fun i n => x i n + dtc * fx i n + G i n * xi i n := by
  unfold noisyG
  obtain ⟨A, hA, iA⟩ := (isMat_scal (dtc : K)).op e (· * ·) (isMat_ofMat fx)
  obtain ⟨B, hB, iB⟩ := (isMat_ofMat x).op e (· + ·) iA
  obtain ⟨C, hC, iC⟩ := hg.op e (· * ·) (isMat_ofMat xi)
  obtain ⟨D, hD, iD⟩ := iB.op e (· + ·) iC
  simp only [hA, hB, hC, hD, Except.ok_bind', iD.toMat]

theorem ottoG_fit {g : NArr K} {G : Mat d N K} (hg : IsMat d N g G) (e : PyErr) (x fx xi : Mat d N K) :
    ottoG e g x fx xi
      = .ok fun i n => x i n + dtc * (fx i n - lit 1 2 * sq (G i n) * xi i n) := by
  unfold ottoG
  obtain ⟨A, hA, iA⟩ := (isMat_scal (lit 1 2 : K)).op e (· * ·) hg.sq'
  obtain ⟨B, hB, iB⟩ := iA.op e (· * ·) (isMat_ofMat xi)
  obtain ⟨C, hC, iC⟩ := (isMat_ofMat fx).op e (· - ·) iB
  obtain ⟨D, hD, iD⟩ := (isMat_scal (dtc : K)).op e (· * ·) iC
  obtain ⟨E, hE, iE⟩ := (isMat_ofMat x).op e (· + ·) iD
  simp only [hA, hB, hC, hD, hE, Except.ok_bind', iE.toMat]

theorem stochG_fit {g : NArr K} {v : Fin d → K} (hg : IsVec d g v) (e : PyErr) (x fx xi : Fin d → K) :
    stochG e g x fx xi = .ok fun i => x i + dtc * fx i + v i * xi i := by
  unfold stochG
  obtain ⟨A, hA, iA⟩ := (isVec_scal (dtc : K)).op e (· * ·) (isVec_ofVec fx)
  obtain ⟨B, hB, iB⟩ := (isVec_ofVec x).op e (· + ·) iA
  obtain ⟨C, hC, iC⟩ := hg.op e (· * ·) (isVec_ofVec xi)
  obtain ⟨D, hD, iD⟩ := iB.op e (· + ·) iC
  simp only [hA, hB, hC, hD, Except.ok_bind', iD.toVec]

theorem backNoisyG_fit {g : NArr K} {G : Mat d N K} (hg : IsMat d N g G) (e : PyErr)
    (b fb gro xi : Mat d N K) : backNoisyG e g b fb gro xi = .ok fun i n =>
      b i n - fb i n * dtc + dtc * sq (G i n) * gro i n + G i n * xi i n := by
  unfold backNoisyG
  obtain ⟨A, hA, iA⟩ := (isMat_ofMat fb).op e (· * ·) (isMat_scal (dtc : K))
  obtain ⟨B, hB, iB⟩ := (isMat_ofMat b).op e (· - ·) iA
  obtain ⟨C, hC, iC⟩ := (isMat_scal (dtc : K)).op e (· * ·) hg.sq'
  obtain ⟨D, hD, iD⟩ := iC.op e (· * ·) (isMat_ofMat gro)
  obtain ⟨E, hE, iE⟩ := iB.op e (· + ·) iD
  obtain ⟨F, hF, iF⟩ := hg.op e (· * ·) (isMat_ofMat xi)
  obtain ⟨H, hH, iH⟩ := iE.op e (· + ·) iF
  simp only [hA, hB, hC, hD, hE, hF, hH, Except.ok_bind', iH.toMat]

theorem backDetG_fit {g : NArr K} {G : Mat d N K} (hg : IsMat d N g G) (e : PyErr)
    (b fb gro grb : Mat d N K) : backDetG e g b fb gro grb = .ok fun i n =>
      b i n - (fb i n - sq (G i n) * gro i n + lit 1 2 * sq (G i n) * grb i n) * dtc := by
  unfold backDetG
  obtain ⟨A, hA, iA⟩ := hg.sq'.op e (· * ·) (isMat_ofMat gro)
  obtain ⟨B, hB, iB⟩ := (isMat_ofMat fb).op e (· - ·) iA
  obtain ⟨C, hC, iC⟩ := (isMat_scal (lit 1 2 : K)).op e (· * ·) hg.sq'
  obtain ⟨D, hD, iD⟩ := iC.op e (· * ·) (isMat_ofMat grb)
  obtain ⟨E, hE, iE⟩ := iB.op e (· + ·) iD
  obtain ⟨F, hF, iF⟩ := iE.op e (· * ·) (isMat_scal (dtc : K))
  obtain ⟨H, hH, iH⟩ := (isMat_ofMat b).op e (· - ·) iF
  simp only [hA, hB, hC, hD, hE, hF, hH, Except.ok_bind', iH.toMat]

/-- All lines, for an array that broadcasts to both slices. -/
theorem arrayLines_fit {g : NArr K} {G : Mat d N K} {v : Fin d → K} (hg : IsMat d N g G)
    (hv : IsVec d g v) (e : PyErr) : arrayLines e g = elemLines G v := by
  unfold arrayLines elemLines
  congr 1
  · funext x fx xi; exact noisyG_fit hg e x fx xi
  · funext x fx xi; exact ottoG_fit hg e x fx xi
  · funext x fx xi; exact stochG_fit hv e x fx xi
  · funext b fb gro xi; exact backNoisyG_fit hg e b fb gro xi
  · funext b fb gro xi; exact backDetG_fit hg e b fb gro xi

/-! ### Arrays that do not broadcast -/

theorem op_bad_left {t : List Nat} (e : PyErr) (f : K → K → K) {A : NArr K} (B : NArr K)
    (h : fits A.rshape t = false) :
    NArr.op e f A B = .error e ∨ ∃ C, NArr.op e f A B = .ok C ∧ fits C.rshape t = false := by
  unfold NArr.op
  cases hb : bcast A.rshape B.rshape with
  | none => exact .inl rfl
  | some o =>
    refine .inr ⟨_, rfl, ?_⟩
    rw [Bool.eq_false_iff]
    intro ho
    rw [(fits_of_bcast _ _ _ _ hb ho).1] at h
    cases h

theorem op_bad_right {t : List Nat} (e : PyErr) (f : K → K → K) (A : NArr K) {B : NArr K}
    (h : fits B.rshape t = false) :
    NArr.op e f A B = .error e ∨ ∃ C, NArr.op e f A B = .ok C ∧ fits C.rshape t = false := by
  unfold NArr.op
  cases hb : bcast A.rshape B.rshape with
  | none => exact .inl rfl
  | some o =>
    refine .inr ⟨_, rfl, ?_⟩
    rw [Bool.eq_false_iff]
    intro ho
    rw [(fits_of_bcast _ _ _ _ hb ho).2] at h
    cases h

/-- An exception `e`, or an array that does not fit. -/
def Bad (e : PyErr) (t : List Nat) (x : Except PyErr (NArr K)) : Prop :=
  x = .error e ∨ ∃ C, x = .ok C ∧ fits C.rshape t = false

theorem Bad.then {e : PyErr} {t : List Nat} {x : Except PyErr (NArr K)} (h : Bad e t x) {β : Type}
    {k : NArr K → Except PyErr β} (hk : ∀ C, fits C.rshape t = false → k C = .error e) :
    (x >>= k) = .error e := by
  rcases h with h | ⟨C, h, hC⟩
  · rw [h]; rfl
  · rw [h]; exact hk C hC

theorem toMat_bad {e : PyErr} {C : NArr K} (h : fits C.rshape [N, d] = false) :
    NArr.toMat e d N C = .error e := by simp [NArr.toMat, h]

theorem toVec_bad {e : PyErr} {C : NArr K} (h : fits C.rshape [d] = false) :
    NArr.toVec e d C = .error e := by simp [NArr.toVec, h]

theorem noisyG_bad {g : NArr K} (h : fits g.rshape [N, d] = false) (e : PyErr) (x fx xi : Mat d N K) :
    noisyG e g x fx xi = .error e := by
  unfold noisyG
  obtain ⟨A, hA, iA⟩ := (isMat_scal (dtc : K)).op e (· * ·) (isMat_ofMat fx)
  obtain ⟨B, hB, iB⟩ := (isMat_ofMat x).op e (· + ·) iA
  simp only [hA, hB, Except.ok_bind']
  exact Bad.then (op_bad_left e _ _ h) fun C hC =>
    Bad.then (op_bad_right e _ _ hC) fun D hD => toMat_bad hD

theorem ottoG_bad {g : NArr K} (h : fits g.rshape [N, d] = false) (e : PyErr) (x fx xi : Mat d N K) :
    ottoG e g x fx xi = .error e := by
  unfold ottoG
  exact Bad.then (op_bad_right e _ _ (B := g.sq') h) fun C hC =>
    Bad.then (op_bad_left e _ _ hC) fun C hC =>
    Bad.then (op_bad_right e _ _ hC) fun C hC =>
    Bad.then (op_bad_right e _ _ hC) fun C hC =>
    Bad.then (op_bad_right e _ _ hC) fun D hD => toMat_bad hD

theorem stochG_bad {g : NArr K} (h : fits g.rshape [d] = false) (e : PyErr) (x fx xi : Fin d → K) :
    stochG e g x fx xi = .error e := by
  unfold stochG
  obtain ⟨A, hA, iA⟩ := (isVec_scal (dtc : K)).op e (· * ·) (isVec_ofVec fx)
  obtain ⟨B, hB, iB⟩ := (isVec_ofVec x).op e (· + ·) iA
  simp only [hA, hB, Except.ok_bind']
  exact Bad.then (op_bad_left e _ _ h) fun C hC =>
    Bad.then (op_bad_right e _ _ hC) fun D hD => toVec_bad hD

theorem backNoisyG_bad {g : NArr K} (h : fits g.rshape [N, d] = false) (e : PyErr)
    (b fb gro xi : Mat d N K) : backNoisyG e g b fb gro xi = .error e := by
  unfold backNoisyG
  obtain ⟨A, hA, iA⟩ := (isMat_ofMat fb).op e (· * ·) (isMat_scal (dtc : K))
  obtain ⟨B, hB, iB⟩ := (isMat_ofMat b).op e (· - ·) iA
  simp only [hA, hB, Except.ok_bind']
  refine Bad.then (op_bad_right e _ _ (B := g.sq') h) fun C hC =>
    Bad.then (op_bad_left e _ _ hC) fun C hC =>
    Bad.then (op_bad_right e _ _ hC) fun C hC =>
    Bad.then (op_bad_left e _ _ h) fun D hD =>
    Bad.then (op_bad_left e _ _ hC) fun D hD => toMat_bad hD

/-! ### Which shapes broadcast -/

theorem fits_singleton (x N d : Nat) : fits [x] [N, d] = true ↔ x = 1 ∨ x = N := by simp [fits]
theorem fits_pair (x y N d : Nat) : fits [y, x] [N, d] = true ↔ (y = 1 ∨ y = N) ∧ (x = 1 ∨ x = d) := by
  simp [fits]

end
end DPFC
