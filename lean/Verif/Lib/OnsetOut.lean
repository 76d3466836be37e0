import Verif.Lib.OnsetRun
import Verif.Inst.Real

namespace DPFC.Sync

section Generic
variable {K : Type} [Add K] [Sub K] [Mul K] [Div K] [Neg K] [NumOps K]

/-- the flags as a function -/
abbrev flag (thr : K) (R : List K) (j : ℕ) : Bool := (synchOrNot thr R).getD j false

theorem ups_nil_of_count {s : List Bool} (h : s.count true = 0) : ups (s.getD · false) s.length = [] := by
  unfold ups
  rw [List.filter_eq_nil_iff]
  intro i hi hc
  rw [List.mem_range] at hi
  simp only [Bool.and_eq_true, decide_eq_true_eq] at hc
  have : true ∈ s := by
    have h1 := hc.2
    rw [List.getD_eq_getElem?_getD, List.getElem?_eq_getElem hi, Option.getD_some] at h1
    rw [← h1]; exact List.getElem_mem hi
  exact (List.count_pos_iff.mpr this).ne' h

theorem run_none {trim : Bool} {thr : K} {minDur : ℕ} {tg R : List K}
    (h : ups (flag thr R) (R.length - 3) = []) : onsetRun trim thr minDur tg R = .ok none := by
  unfold onsetRun
  by_cases h0 : (synchOrNot thr R).count true = 0
  · simp only [h0, if_true]
  · have hne : synchOrNot thr R ≠ [] := by intro he; rw [he] at h0; exact h0 rfl
    rw [← synch_length thr R, ← starts_eq hne] at h
    simp only [h0, if_false, h]

theorem run_lasting {trim : Bool} {thr : K} {minDur : ℕ} {tg R : List K} {a : ℕ} {u : List ℕ} {t l : K}
    (h : ups (flag thr R) (R.length - 3) = a :: u) (h' : downs (flag thr R) (R.length - 3) = [])
    (ht : tg[a]? = some t) (hl : tg.getLast? = some l) :
    onsetRun trim thr minDur tg R = .ok (some {
        onset := t
        durM := l - t
        durStd := lit 0 1
        durMax := l - t
        durSum := lit ((synchOrNot thr R).count true) 1 / lit ((tg.length : Int) - 1 - a) 1 }) := by
  unfold onsetRun
  by_cases h0 : (synchOrNot thr R).count true = 0
  · have := ups_nil_of_count h0
    rw [synch_length] at this
    rw [this] at h; exact absurd h (by simp)
  · have hne : synchOrNot thr R ≠ [] := by intro he; rw [he] at h0; exact h0 rfl
    rw [← synch_length thr R, ← starts_eq hne] at h
    rw [← synch_length thr R, ← stops_eq hne] at h'
    have hpy : pyGet tg (-1) = .ok l := by
      have hpos : 0 < tg.length := by
        rw [List.length_pos_iff]; rintro rfl; simp at hl
      have : tg[tg.length - 1]? = some l := by rw [← List.getLast?_eq_getElem?]; exact hl
      unfold pyGet pyIdx
      have h1 : ¬ (0 : ℤ) ≤ -1 := by omega
      have h2 : -(tg.length : ℤ) ≤ -1 := by omega
      have h3 : (-1 + (tg.length : ℤ)).toNat = tg.length - 1 := by omega
      simp only [h1, if_false, h2, if_true, h3, bind, Except.bind, this]
    simp only [h0, if_false, h, h', tgAt, ht, bind, Except.bind, hpy]

theorem run_episodes {trim : Bool} {thr : K} {minDur : ℕ} {tg R : List K}
    (h : ups (flag thr R) (R.length - 3) ≠ []) (h' : downs (flag thr R) (R.length - 3) ≠ []) :
    onsetRun trim thr minDur tg R = onsetEpisodes trim minDur tg (synchOrNot thr R)
      (ups (flag thr R) (R.length - 3)) (downs (flag thr R) (R.length - 3)) := by
  unfold onsetRun
  by_cases h0 : (synchOrNot thr R).count true = 0
  · have := ups_nil_of_count h0
    rw [synch_length] at this
    rw [this] at h; exact absurd rfl h
  · have hne : synchOrNot thr R ≠ [] := by intro he; rw [he] at h0; exact h0 rfl
    have e1 := starts_eq hne
    have e2 := stops_eq hne
    rw [synch_length] at e1 e2
    simp only [h0, if_false]
    rw [e1, e2]
    cases hu : ups (flag thr R) (R.length - 3) with
    | nil => exact absurd hu h
    | cons a u =>
      cases hd : downs (flag thr R) (R.length - 3) with
      | nil => exact absurd hd h'
      | cons e d => rfl

end Generic

theorem flag_iff (thr : ℝ) (R : List ℝ) (j : ℕ) (h : j < R.length - 3) :
    flag thr R j = true ↔ Reaches thr R (j + 1) := by
  rw [synch_get thr R h]
  unfold ReachesB Reaches
  simp only [real_leB]

theorem sum_lits (l : List ℤ) (g : ℝ → ℝ) :
    ∑ i : Fin l.length, g ((lit l[i] 1 : ℝ)) = (l.map fun z : ℤ => g z).sum := by
  simp only [real_lit_int]
  have := Fin.sum_univ_getElem (l.map fun z : ℤ => g z)
  rw [← this]
  refine Fintype.sum_equiv (finCongr (by simp)) _ _ fun i => ?_
  simp

theorem st_lt {b : ℕ → Bool} {n : ℕ} {L : List (ℕ × ℕ)} {pre tail : List ℕ} (h : St b n L pre tail) :
    ∀ p ∈ L, p.1 < p.2 := fun p hp => ((h.mem p).mp hp).2.1

theorem st_pre_lt {b : ℕ → Bool} {n e : ℕ} {L : List (ℕ × ℕ)} {tail : List ℕ} (h : St b n L [e] tail) :
    ∀ a ∈ ups b n, e < a := by
  intro a ha
  rcases h.hp with ⟨h1, -⟩ | ⟨e', h1, h2, h3, h4, h5⟩
  · simp at h1
  · simp only [List.cons.injEq, and_true] at h1
    subst h1
    simp only [ups, List.mem_filter, List.mem_range, Bool.and_eq_true, decide_eq_true_eq, Bool.not_eq_true'] at ha
    by_contra hc
    have := h5 (a - 1) (by omega)
    rw [ha.2.1.2] at this; exact absurd this (by simp)

/-- alignment: what is needed for `episodes_none`, `episodes_some` -/
theorem st_align {b : ℕ → Bool} {n : ℕ} {L : List (ℕ × ℕ)} {pre tail : List ℕ} {trim : Bool} (h : St b n L pre tail)
    (hu : ups b n ≠ []) (hd : downs b n ≠ []) (ht : trim = true ∨ b 0 = false) :
    (trim = true ∧ ∃ e, pre = [e] ∧ e < (L.map Prod.fst ++ tail).headD 0) ∨ (pre = [] ∧ L ≠ []) := by
  rcases h.hp with ⟨rfl, -⟩ | ⟨e, rfl, h2, h3, h4, h5⟩
  · refine Or.inr ⟨rfl, ?_⟩
    rintro rfl
    exact hd (by rw [h.hd]; rfl)
  · refine Or.inl ⟨?_, e, rfl, ?_⟩
    · rcases ht with ht | ht
      · exact ht
      · rw [h5 0 h2] at ht; exact absurd ht (by simp)
    · rw [← h.hu]
      cases hq : ups b n with
      | nil => exact absurd hq hu
      | cons a u => exact st_pre_lt h a (by rw [hq]; simp)

theorem begins_ups {thr : ℝ} {R : List ℝ} : (∃ i, Begins (Reaches thr R) R.length i) ↔
    ups (flag thr R) (R.length - 3) ≠ [] := by
  constructor
  · rintro ⟨i, hi⟩ he
    have h1 := hi.2.1.1
    rw [show i = (i - 1) + 1 by omega, begins_iff (flag_iff thr R), he] at hi
    simp at hi
  · intro h
    obtain ⟨a, ha⟩ := List.exists_mem_of_ne_nil _ h
    exact ⟨a + 1, (begins_iff (flag_iff thr R) a).mpr ha⟩

theorem ends_downs {thr : ℝ} {R : List ℝ} : (∃ i, Ends (Reaches thr R) R.length i) ↔
    downs (flag thr R) (R.length - 3) ≠ [] := by
  constructor
  · rintro ⟨i, hi⟩ he
    have h1 := hi.2.1.1
    rw [show i = (i - 1) + 1 by omega, ends_iff (flag_iff thr R), he] at hi
    simp at hi
  · intro h
    obtain ⟨a, ha⟩ := List.exists_mem_of_ne_nil _ h
    exact ⟨a + 1, (ends_iff (flag_iff thr R) a).mpr ha⟩

theorem no_ends_mono {S : ℕ → Prop} {k i : ℕ} (h : ∀ j, ¬Ends S k j) (hi : 1 ≤ i) (hS : S i) (m : ℕ) (hm : i + m + 2 < k) :
    S (i + m) := by
  induction m with
  | zero => exact hS
  | succ m ih =>
    by_contra hc
    exact h (i + (m + 1)) ⟨⟨by omega, by omega⟩, ⟨by omega, by omega⟩, ih (by omega), hc⟩

end DPFC.Sync

namespace DPFC.Sync

theorem zip_neg {a : ℕ} (L : List (ℕ × ℕ)) : ∀ e, L.Pairwise (fun p q => p.2 < q.1) → (∀ p ∈ L, e < p.1) → e < a →
    (∀ p ∈ L, p.2 < a) →
    ∀ d ∈ List.zipWith (fun (e a : ℕ) => (e : ℤ) - a) (e :: L.map Prod.snd) (L.map Prod.fst ++ [a]), d < 0 := by
  induction L with
  | nil =>
    intro e _ _ he _ d hd
    simp at hd; omega
  | cons p L ih =>
    intro e hp h1 he h2 d hd
    rw [List.pairwise_cons] at hp
    simp only [List.map_cons, List.cons_append, List.zipWith_cons_cons, List.mem_cons] at hd
    rcases hd with rfl | hd
    · have := h1 p (by simp); omega
    · exact ih p.2 hp.2 (fun q hq => hp.1 q hq) (h2 p (by simp)) (fun q hq => h2 q (by simp [hq])) d
        (by simpa using hd)

section Generic
variable {K : Type} [Add K] [Sub K] [Mul K] [Div K] [Neg K] [NumOps K]

theorem untrimmed_neg {minDur : ℕ} {tg : List K} {s : List Bool} {L : List (ℕ × ℕ)} {e a : ℕ}
    (h0 : L.Pairwise (fun p q => p.2 < q.1)) (h1 : ∀ p ∈ L, e < p.1) (h2 : e < a) (h3 : ∀ p ∈ L, p.2 < a) :
    onsetEpisodes false minDur tg s (L.map Prod.fst ++ [a]) ([e] ++ L.map Prod.snd) = .ok none := by
  unfold onsetEpisodes
  have hd : durations ([e] ++ L.map Prod.snd) (L.map Prod.fst ++ [a]) =
      .ok (List.zipWith (fun (e a : ℕ) => (e : ℤ) - a) (e :: L.map Prod.snd) (L.map Prod.fst ++ [a])) := by
    unfold durations
    have h : (L.map Prod.fst ++ [a]).take ([e] ++ L.map Prod.snd).length = L.map Prod.fst ++ [a] :=
      List.take_of_length_le (by simp)
    simp only [h]
    rw [if_pos (by simp)]
    rfl
  simp only [Bool.false_and, Bool.false_eq_true, if_false, hd, bind, Except.bind]
  rw [List.filter_eq_nil_iff.mpr]
  intro i hi
  rw [List.mem_range] at hi
  have := zip_neg L e h0 h1 h2 h3 _ (List.getElem_mem hi)
  rw [List.getD_eq_getElem?_getD, List.getElem?_eq_getElem hi]
  simp only [Option.getD_some, decide_eq_true_eq]
  omega

theorem untrimmed_one {minDur : ℕ} {tg : List K} {s : List Bool} {p : ℕ × ℕ} {e : ℕ} (h1 : e < p.1) (h2 : p.1 < p.2) :
    onsetEpisodes false minDur tg s [p.1] [e, p.2] =
      if minDur ≤ steps p then .error .indexError else .ok none := by
  unfold onsetEpisodes
  have hd : durations [e, p.2] [p.1] = .ok [(e : ℤ) - p.1, (p.2 : ℤ) - p.1] := rfl
  simp only [Bool.false_and, Bool.false_eq_true, if_false, hd, bind, Except.bind]
  have hr : List.range [(e : ℤ) - p.1, (p.2 : ℤ) - p.1].length = [0, 1] := rfl
  rw [hr]
  have h3 : ¬ ((minDur : ℤ) ≤ (e : ℤ) - p.1) := by omega
  by_cases h : minDur ≤ steps p
  · have h4 : (minDur : ℤ) ≤ (p.2 : ℤ) - p.1 := by simp only [steps] at h; omega
    simp only [List.filter, List.getD_cons_zero, List.getD_cons_succ, h3, h4, decide_true, decide_false, if_pos h]
    rfl
  · have h4 : ¬ ((minDur : ℤ) ≤ (p.2 : ℤ) - p.1) := by simp only [steps] at h; omega
    simp only [List.filter, List.getD_cons_zero, List.getD_cons_succ, h3, h4, decide_false, if_neg h]

theorem untrimmed_many {minDur : ℕ} {tg : List K} {s : List Bool} {L : List (ℕ × ℕ)} {e : ℕ} (h : 2 ≤ L.length) :
    onsetEpisodes false minDur tg s (L.map Prod.fst) (e :: L.map Prod.snd) = .error .valueError := by
  match L, h with
  | p :: q :: L, _ =>
    unfold onsetEpisodes
    have hd : durations (e :: (p :: q :: L).map Prod.snd) ((p :: q :: L).map Prod.fst) = .error .valueError := by
      unfold durations
      have h : ((p :: q :: L).map Prod.fst).take (e :: (p :: q :: L).map Prod.snd).length =
          (p :: q :: L).map Prod.fst := List.take_of_length_le (by simp)
      simp only [h]
      rw [if_neg (by simp)]
      rfl
    simp only [Bool.false_and, Bool.false_eq_true, if_false, hd, bind, Except.bind]

end Generic

/-- a record that is synchronised at the first index looked at, and seen to become synchronised -/
theorem st_first {b : ℕ → Bool} {n : ℕ} {L : List (ℕ × ℕ)} {pre tail : List ℕ} (h : St b n L pre tail)
    (hu : ups b n ≠ []) (h0 : b 0 = true) :
    (∃ e, pre = [e]) ∧ ((b (n - 1) = true ∧ ∃ a, tail = [a] ∧ ∀ p ∈ L, p.2 < a) ∨ (b (n - 1) = false ∧ tail = [])) := by
  have hnot : ¬ ∀ i < n, b i = true := by
    intro hall
    obtain ⟨a, ha⟩ := List.exists_mem_of_ne_nil _ hu
    simp only [ups, List.mem_filter, List.mem_range, Bool.and_eq_true, decide_eq_true_eq, Bool.not_eq_true'] at ha
    have := hall (a - 1) (by omega)
    rw [ha.2.1.2] at this; exact absurd this (by simp)
  constructor
  · rcases h.hp with ⟨-, h1 | h1⟩ | ⟨e, he, -⟩
    · rw [h0] at h1; exact absurd h1 (by simp)
    · exact absurd h1 hnot
    · exact ⟨e, he⟩
  · rcases h.ht with ⟨h1, h2 | h2⟩ | ⟨a, h1, h2, h3, h4, h5⟩
    · exact Or.inr ⟨h2, h1⟩
    · exact absurd h2 hnot
    · refine Or.inl ⟨h5 (n - 1) (by omega) (by omega), a, h1, fun p hp => ?_⟩
      have hE := (h.mem p).mp hp
      by_contra hc
      have := h5 p.2 (by omega) hE.2.2.1
      rw [hE.2.2.2.2.1] at this; exact absurd this (by simp)

theorem first_long {L : List (ℕ × ℕ)} {m : ℕ} (h : ∃ p ∈ L, m ≤ steps p) :
    ∃ p ∈ L, m ≤ steps p ∧ ∀ q ∈ L, q.1 < p.1 → steps q < m := by
  classical
  obtain ⟨p, hp, hm⟩ := h
  obtain ⟨q, hq, hmin⟩ := (L.toFinset.filter fun p => m ≤ steps p).exists_min_image Prod.fst
    ⟨p, by simp [hp, hm]⟩
  simp only [Finset.mem_filter, List.mem_toFinset] at hq hmin
  refine ⟨q, hq.1, hq.2, fun r hr hlt => ?_⟩
  by_contra hc
  have := hmin r ⟨hr, by omega⟩
  omega

end DPFC.Sync
