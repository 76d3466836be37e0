import Verif.Lib.Onset
import Mathlib.Data.Set.Card
import Mathlib.Algebra.BigOperators.Fin

namespace DPFC.Sync

section Generic
variable {K : Type} [Add K] [Sub K] [Mul K] [Div K] [Neg K] [NumOps K]

/-- `Reaches` for any scalars -/
def ReachesB (thr : K) (R : List K) (i : ℕ) : Prop := ∃ r, R[i]? = some r ∧ NumOps.leB thr r = true

theorem synch_length (thr : K) (R : List K) : (synchOrNot thr R).length = R.length - 3 := by
  simp [synchOrNot]; omega

theorem synch_get (thr : K) (R : List K) {j : ℕ} (h : j < R.length - 3) :
    (synchOrNot thr R).getD j false = true ↔ ReachesB thr R (j + 1) := by
  have h1 : j + 1 < R.length := by omega
  unfold synchOrNot ReachesB
  rw [List.getD_eq_getElem?_getD, List.getElem?_map, List.getElem?_drop, List.getElem?_eq_getElem (by simp; omega),
    List.getElem_dropLast, List.getElem_dropLast, List.getElem?_eq_getElem h1]
  simp [Nat.add_comm]

theorem diffPos_zero (s : List Bool) : (diffPos s)[0]? = some 0 := rfl

theorem diffPos_succ (s : List Bool) {j : ℕ} (h : j + 1 < s.length) :
    (diffPos s)[j + 1]? = some ((s.getD (j + 1) false).toInt - (s.getD j false).toInt) := by
  unfold diffPos
  rw [List.getElem?_cons_succ, List.getElem?_zipWith, List.getElem?_tail, List.getD_eq_getElem?_getD,
    List.getD_eq_getElem?_getD, List.getElem?_eq_getElem h, List.getElem?_eq_getElem (by omega : j < s.length)]
  rfl

theorem diffPos_length {s : List Bool} (h : s ≠ []) : (diffPos s).length = s.length := by
  have : 0 < s.length := List.length_pos_iff.mpr h
  simp [diffPos]; omega

theorem starts_eq {s : List Bool} (h : s ≠ []) : argWhere (diffPos s) 1 = ups (s.getD · false) s.length := by
  unfold argWhere ups
  rw [diffPos_length h]
  refine List.filter_congr fun i hi => ?_
  rw [List.mem_range] at hi
  cases i with
  | zero => rw [diffPos_zero]; rfl
  | succ j =>
    rw [diffPos_succ s hi]
    simp only [Nat.add_sub_cancel, Nat.succ_pos, decide_true, Bool.true_and]
    generalize s.getD (j + 1) false = x
    generalize s.getD j false = y
    cases x <;> cases y <;> rfl

theorem stops_eq {s : List Bool} (h : s ≠ []) : argWhere (diffPos s) (-1) = downs (s.getD · false) s.length := by
  unfold argWhere downs
  rw [diffPos_length h]
  refine List.filter_congr fun i hi => ?_
  rw [List.mem_range] at hi
  cases i with
  | zero => rw [diffPos_zero]; rfl
  | succ j =>
    rw [diffPos_succ s hi]
    simp only [Nat.add_sub_cancel, Nat.succ_pos, decide_true, Bool.true_and]
    generalize s.getD (j + 1) false = x
    generalize s.getD j false = y
    cases x <;> cases y <;> rfl

theorem filter_first {P : ℕ → Bool} {j m : ℕ} (hj : P j = true) (hlt : ∀ i < j, P i = false) (hm : j < m) :
    ∃ t, (List.range m).filter P = j :: t := by
  induction m with
  | zero => omega
  | succ m ih =>
    rw [List.range_succ, List.filter_append]
    by_cases h : j < m
    · obtain ⟨t, ht⟩ := ih h
      exact ⟨_, by rw [ht]; rfl⟩
    · have : j = m := by omega
      subst this
      refine ⟨[], ?_⟩
      rw [List.filter_eq_nil_iff.mpr]
      · simp [hj]
      · intro i hi; simp [hlt i (List.mem_range.mp hi)]

theorem durations_zip (L : List (ℕ × ℕ)) (tail : List ℕ) :
    durations (L.map Prod.snd) (L.map Prod.fst ++ tail) = .ok (L.map fun p => (p.2 : ℤ) - p.1) := by
  unfold durations
  have h : (L.map Prod.fst ++ tail).take (L.map Prod.snd).length = L.map Prod.fst := by
    rw [List.length_map, List.take_left' (by simp)]
  simp only [h]
  rw [if_pos (by simp), List.zipWith_map, List.zipWith_self]

/-- the branch with episodes, aligned lists -/
theorem episodes_none {trim : Bool} {minDur : ℕ} {tg : List K} {s : List Bool} {L : List (ℕ × ℕ)} {pre tail : List ℕ}
    (hp : (trim = true ∧ ∃ e, pre = [e] ∧ e < (L.map Prod.fst ++ tail).headD 0) ∨ (pre = [] ∧ L ≠ []))
    (hL : ∀ p ∈ L, p.1 < p.2) (h : ∀ p ∈ L, steps p < minDur) :
    onsetEpisodes trim minDur tg s (L.map Prod.fst ++ tail) (pre ++ L.map Prod.snd) = .ok none := by
  have hst : (if trim && decide ((pre ++ L.map Prod.snd).headD 0 < (L.map Prod.fst ++ tail).headD 0) then
      (pre ++ L.map Prod.snd).drop 1 else pre ++ L.map Prod.snd) = L.map Prod.snd := by
    rcases hp with ⟨rfl, e, rfl, he⟩ | ⟨rfl, hne⟩
    · rw [if_pos]
      · rfl
      · simpa using he
    · rw [if_neg]
      · rfl
      · cases L with
        | nil => exact absurd rfl hne
        | cons p L => have := hL p (by simp); simp; intro _; omega
  unfold onsetEpisodes
  simp only [hst, durations_zip]
  simp only [bind, Except.bind]
  rw [List.filter_eq_nil_iff.mpr]
  intro i hi
  rw [List.length_map, List.mem_range] at hi
  rw [List.getD_eq_getElem?_getD, List.getElem?_map, List.getElem?_eq_getElem hi]
  have := h L[i] (List.getElem_mem hi)
  have := hL L[i] (List.getElem_mem hi)
  simp only [Option.map_some, Option.getD_some, decide_eq_true_eq, steps] at *
  omega

theorem episodes_some {trim : Bool} {minDur : ℕ} {tg : List K} {s : List Bool} {L : List (ℕ × ℕ)} {pre tail : List ℕ}
    (hp : (trim = true ∧ ∃ e, pre = [e] ∧ e < (L.map Prod.fst ++ tail).headD 0) ∨ (pre = [] ∧ L ≠ []))
    (hL : ∀ p ∈ L, p.1 < p.2) (hs : L.Pairwise fun p q => p.2 < q.1) {p : ℕ × ℕ} (hpm : p ∈ L) (hd : minDur ≤ steps p)
    (hfirst : ∀ q ∈ L, q.1 < p.1 → steps q < minDur) {t : K} (ht : tg[p.1]? = some t) :
    onsetEpisodes trim minDur tg s (L.map Prod.fst ++ tail) (pre ++ L.map Prod.snd) = .ok (some {
        onset := t
        durM := mean fun i : Fin (L.map fun p => (p.2 : ℤ) - p.1).length => lit (L.map fun p => (p.2 : ℤ) - p.1)[i] 1
        durStd := npStd fun i : Fin (L.map fun p => (p.2 : ℤ) - p.1).length =>
          lit (L.map fun p => (p.2 : ℤ) - p.1)[i] 1
        durMax := lit ((L.map fun p => (p.2 : ℤ) - p.1).max?.getD 0) 1
        durSum := lit ((s.drop p.1).count true) 1 / lit ((tg.length : Int) - 1 - p.1) 1 }) := by
  have hst : (if trim && decide ((pre ++ L.map Prod.snd).headD 0 < (L.map Prod.fst ++ tail).headD 0) then
      (pre ++ L.map Prod.snd).drop 1 else pre ++ L.map Prod.snd) = L.map Prod.snd := by
    rcases hp with ⟨rfl, e, rfl, he⟩ | ⟨rfl, hne⟩
    · rw [if_pos]
      · rfl
      · simpa using he
    · rw [if_neg]
      · rfl
      · cases L with
        | nil => exact absurd rfl hne
        | cons p L => have := hL p (by simp); simp; intro _; omega
  obtain ⟨j, hj, hjp⟩ := List.getElem_of_mem hpm
  have hfil : ∃ r, (List.range (L.map fun p => (p.2 : ℤ) - p.1).length).filter
      (fun i => decide ((minDur : Int) ≤ (L.map fun p => (p.2 : ℤ) - p.1).getD i 0)) = j :: r := by
    refine filter_first ?_ ?_ (by simpa using hj)
    · rw [List.getD_eq_getElem?_getD, List.getElem?_map, List.getElem?_eq_getElem hj, hjp]
      have := hL p hpm
      simp only [Option.map_some, Option.getD_some, decide_eq_true_eq, steps] at *
      omega
    · intro i hi
      rw [List.getD_eq_getElem?_getD, List.getElem?_map, List.getElem?_eq_getElem (hi.trans hj)]
      have h1 := List.pairwise_iff_getElem.mp hs i j (hi.trans hj) hj hi
      rw [hjp] at h1
      have h2 := hL L[i] (List.getElem_mem (hi.trans hj))
      have h3 := hfirst L[i] (List.getElem_mem (hi.trans hj)) (by omega)
      simp only [Option.map_some, Option.getD_some, decide_eq_false_iff_not, steps] at *
      omega
  obtain ⟨r, hr⟩ := hfil
  have hget : (L.map Prod.fst ++ tail)[j]? = some p.1 := by
    rw [List.getElem?_append_left (by simpa using hj), List.getElem?_map, List.getElem?_eq_getElem hj, hjp]; rfl
  unfold onsetEpisodes
  simp only [hst, durations_zip]
  simp only [bind, Except.bind, hr, hget, tgAt, ht]

end Generic

/-! ### From indices counted from zero to indices of times -/

theorem listing_unique {S : ℕ → Prop} {k : ℕ} {L L' : List (ℕ × ℕ)} (h : Listing S k L) (h' : Listing S k L') :
    L = L' := by
  have key : ∀ {L : List (ℕ × ℕ)}, Listing S k L → L.Pairwise fun p q => p.1 < q.1 := by
    intro L h
    refine h.1.imp_of_mem ?_
    intro p q hp _ hpq
    have := ((h.2 p).mp hp).2.2.1
    omega
  have nd : ∀ {L : List (ℕ × ℕ)}, Listing S k L → L.Nodup := by
    intro L h
    refine (key h).imp ?_
    intro p q hpq he
    rw [he] at hpq; omega
  refine ((List.perm_ext_iff_of_nodup (nd h) (nd h')).mpr fun p => by rw [h.2, h'.2]).eq_of_pairwise ?_ (key h) (key h')
  intro p q _ _ h1 h2; omega

/-- shift of an episode -/
def up1 (p : ℕ × ℕ) : ℕ × ℕ := (p.1 + 1, p.2 + 1)

theorem steps_up1 (p : ℕ × ℕ) : steps (up1 p) = steps p := by simp [steps, up1]

theorem begins_iff {S : ℕ → Prop} {b : ℕ → Bool} {k : ℕ} (hb : ∀ j, j < k - 3 → (b j = true ↔ S (j + 1))) (j : ℕ) :
    Begins S k (j + 1) ↔ j ∈ ups b (k - 3) := by
  unfold Begins Seen ups
  simp only [List.mem_filter, List.mem_range, Bool.and_eq_true, decide_eq_true_eq, Bool.not_eq_true',
    Nat.add_sub_cancel]
  constructor
  · rintro ⟨⟨h1, h2⟩, ⟨h3, h4⟩, h5, h6⟩
    refine ⟨by omega, ⟨by omega, ?_⟩, (hb j (by omega)).mpr h6⟩
    rw [← Bool.not_eq_true, hb (j - 1) (by omega), show j - 1 + 1 = j by omega]; exact h5
  · rintro ⟨h1, ⟨h2, h3⟩, h4⟩
    refine ⟨⟨by omega, by omega⟩, ⟨by omega, by omega⟩, ?_, (hb j h1).mp h4⟩
    rw [← Bool.not_eq_true, hb (j - 1) (by omega), show j - 1 + 1 = j by omega] at h3; exact h3

theorem ends_iff {S : ℕ → Prop} {b : ℕ → Bool} {k : ℕ} (hb : ∀ j, j < k - 3 → (b j = true ↔ S (j + 1))) (j : ℕ) :
    Ends S k (j + 1) ↔ j ∈ downs b (k - 3) := by
  unfold Ends Seen downs
  simp only [List.mem_filter, List.mem_range, Bool.and_eq_true, decide_eq_true_eq, Bool.not_eq_true',
    Nat.add_sub_cancel]
  constructor
  · rintro ⟨⟨h1, h2⟩, ⟨h3, h4⟩, h5, h6⟩
    refine ⟨by omega, ⟨by omega, ?_⟩, ?_⟩
    · rw [hb (j - 1) (by omega), show j - 1 + 1 = j by omega]; exact h5
    · rw [← Bool.not_eq_true, hb j (by omega)]; exact h6
  · rintro ⟨h1, ⟨h2, h3⟩, h4⟩
    refine ⟨⟨by omega, by omega⟩, ⟨by omega, by omega⟩, ?_, ?_⟩
    · rw [hb (j - 1) (by omega), show j - 1 + 1 = j by omega] at h3; exact h3
    · rw [← Bool.not_eq_true, hb j h1] at h4; exact h4

theorem ep_iff {S : ℕ → Prop} {b : ℕ → Bool} {k : ℕ} (hb : ∀ j, j < k - 3 → (b j = true ↔ S (j + 1))) (p : ℕ × ℕ) :
    Episode S k (up1 p) ↔ Ep b (k - 3) p := by
  unfold Episode Ep
  simp only [up1, begins_iff hb, ends_iff hb, ups, downs, List.mem_filter, List.mem_range, Bool.and_eq_true,
    decide_eq_true_eq, Bool.not_eq_true']
  constructor
  · rintro ⟨⟨h1, ⟨h2, h3⟩, h4⟩, ⟨h5, ⟨h6, h7⟩, h8⟩, h9, h10⟩
    refine ⟨h2, by omega, h5, h3, h8, fun i hi hi' => ?_⟩
    exact (hb i (by omega)).mpr (h10 (i + 1) (by omega) (by omega))
  · rintro ⟨h1, h2, h3, h4, h5, h6⟩
    refine ⟨⟨by omega, ⟨h1, h4⟩, h6 _ le_rfl h2⟩, ⟨h3, ⟨by omega, h6 _ (by omega) (by omega)⟩, h5⟩, by omega, ?_⟩
    intro i hi hi'
    have := (hb (i - 1) (by omega)).mp (h6 (i - 1) (by omega) (by omega))
    rwa [show i - 1 + 1 = i by omega] at this

theorem listing_of_st {S : ℕ → Prop} {b : ℕ → Bool} {k : ℕ} (hb : ∀ j, j < k - 3 → (b j = true ↔ S (j + 1)))
    {L : List (ℕ × ℕ)} {pre tail : List ℕ} (h : St b (k - 3) L pre tail) : Listing S k (L.map up1) := by
  constructor
  · rw [List.pairwise_map]
    exact h.sorted.imp fun {p q} h => by simp only [up1]; omega
  · intro p
    constructor
    · intro hp
      obtain ⟨q, hq, rfl⟩ := List.mem_map.mp hp
      exact (ep_iff hb q).mpr ((h.mem q).mp hq)
    · intro hp
      have h1 := hp.1.2.1.1
      have h2 := hp.2.1.2.1.1
      have he : p = up1 (p.1 - 1, p.2 - 1) := by
        ext <;> simp only [up1] <;> omega
      rw [he] at hp ⊢
      exact List.mem_map.mpr ⟨_, (h.mem _).mpr ((ep_iff hb _).mp hp), rfl⟩

theorem count_drop (s : List Bool) (a : ℕ) :
    (s.drop a).count true = {j | a ≤ j ∧ j < s.length ∧ s.getD j false = true}.ncard := by
  have key : ∀ l : List Bool, l.count true = {j | j < l.length ∧ l.getD j false = true}.ncard := by
    intro l
    induction l using List.reverseRecOn with
    | nil => simp
    | append_singleton l x ih =>
      rw [List.count_append, ih]
      have hfin : {j | j < l.length ∧ l.getD j false = true}.Finite := (Set.finite_lt_nat l.length).subset fun j h => h.1
      cases x
      · rw [show List.count true [false] = 0 from rfl, Nat.add_zero]
        refine congrArg Set.ncard (Set.ext fun j => ?_)
        rw [List.length_append, List.length_singleton]
        simp only [Set.mem_ofPred_eq, List.getD_eq_getElem?_getD]
        constructor
        · rintro ⟨h1, h2⟩
          exact ⟨by omega, by rwa [List.getElem?_append_left h1]⟩
        · rintro ⟨h1, h2⟩
          by_cases h : j < l.length
          · exact ⟨h, by rwa [List.getElem?_append_left h] at h2⟩
          · rw [show j = l.length by omega] at h2; simp at h2
      · have : {j | j < (l ++ [true]).length ∧ (l ++ [true]).getD j false = true} =
            insert l.length {j | j < l.length ∧ l.getD j false = true} := by
          ext j
          simp only [Set.mem_ofPred_eq, List.getD_eq_getElem?_getD, Set.mem_insert_iff, List.length_append,
            List.length_singleton]
          constructor
          · rintro ⟨h1, h2⟩
            by_cases h : j < l.length
            · exact Or.inr ⟨h, by rwa [List.getElem?_append_left h] at h2⟩
            · exact Or.inl (by omega)
          · rintro (rfl | ⟨h1, h2⟩)
            · exact ⟨by omega, by simp⟩
            · exact ⟨by omega, by rwa [List.getElem?_append_left h1]⟩
        rw [this, Set.ncard_insert_of_notMem (by simp) hfin]
        simp
  rw [key]
  rw [← Set.ncard_image_of_injective _ (add_right_injective a)]
  congr 1
  ext j
  simp only [Set.mem_image, Set.mem_ofPred_eq, List.length_drop, List.getD_eq_getElem?_getD, List.getElem?_drop]
  constructor
  · rintro ⟨i, ⟨h1, h2⟩, rfl⟩
    exact ⟨by omega, by omega, h2⟩
  · rintro ⟨h1, h2, h3⟩
    exact ⟨j - a, ⟨by omega, by rwa [show a + (j - a) = j by omega]⟩, by omega⟩

theorem count_seen {S : ℕ → Prop} {s : List Bool} {k : ℕ} (hl : s.length = k - 3)
    (hb : ∀ j, j < k - 3 → (s.getD j false = true ↔ S (j + 1))) (a : ℕ) :
    (s.drop a).count true = {i | a + 1 ≤ i ∧ Seen k i ∧ S i}.ncard := by
  rw [count_drop, ← Set.ncard_image_of_injective _ (add_left_injective 1)]
  congr 1
  ext i
  simp only [Set.mem_image, Set.mem_ofPred_eq, Seen]
  constructor
  · rintro ⟨j, ⟨h1, h2, h3⟩, rfl⟩
    exact ⟨by omega, ⟨by omega, by omega⟩, (hb j (by omega)).mp h3⟩
  · rintro ⟨h1, ⟨h2, h3⟩, h4⟩
    refine ⟨i - 1, ⟨by omega, by omega, (hb (i - 1) (by omega)).mpr ?_⟩, by omega⟩
    rwa [show i - 1 + 1 = i by omega]

theorem max_steps (l : List ℕ) : (l.map (fun n : ℕ => (n : ℤ))).max?.getD 0 = ((l.foldr max 0 : ℕ) : ℤ) := by
  induction l with
  | nil => rfl
  | cons a l ih =>
    rw [List.map_cons, List.max?_cons, Option.getD_some]
    cases h : (l.map (fun n : ℕ => (n : ℤ))).max? with
    | none =>
      rw [h] at ih
      simp only [Option.elim, List.foldr_cons, Option.getD_none] at *
      push_cast
      rw [← ih]; simp
    | some m =>
      rw [h] at ih
      simp only [Option.elim, List.foldr_cons, Option.getD_some] at *
      push_cast
      rw [ih]

theorem dur_steps {L : List (ℕ × ℕ)} (hL : ∀ p ∈ L, p.1 < p.2) :
    (L.map fun p => (p.2 : ℤ) - p.1) = (L.map steps).map (fun n : ℕ => (n : ℤ)) := by
  rw [List.map_map]
  refine List.map_congr_left fun p hp => ?_
  have := hL p hp
  simp only [Function.comp, steps]; omega

end DPFC.Sync
