import Verif.Lib.OnsetOut
import Verif.Inst.XR
import Mathlib.Tactic.IntervalCases

/-!
# C103: onset and duration of synchronisation

`onsetRun trim thr minDur tg R` is the analysis of one repetition: `R` is the order parameter at the times `tg`, `thr`
the threshold, `minDur` the smallest number of steps that counts. `trim = false` is the analysis of two oscillators
(A2.py), `trim = true` that of six (A6.py). `none`: the repetition counts as not synchronised. `S` of the specification
is `Reaches thr R`; all indices refer to `R` and `tg`.
-/

namespace DPFC
open Sync

variable {trim : Bool} {thr : ℝ} {minDur : ℕ} {tg R : List ℝ}

/-- For every record there is exactly one list of its complete episodes. -/
theorem C103_listing (S : ℕ → Prop) (k : ℕ) : ∃! L, Listing S k L := by
  classical
  have hb : ∀ j, j < k - 3 → ((fun j => decide (S (j + 1))) j = true ↔ S (j + 1)) := fun j _ => decide_eq_true_iff
  obtain ⟨L, pre, tail, h⟩ := st_exists (fun j => decide (S (j + 1))) (k - 3)
  exact ⟨_, listing_of_st hb h, fun L' h' => listing_unique h' (listing_of_st hb h)⟩

/-- A record in which the beginning of synchronisation is not seen counts as not synchronised, in particular one that is
synchronised at all times, whatever the thresholds and the times. -/
theorem C103_not_seen (h : ∀ i, ¬Begins (Reaches thr R) R.length i) : onsetRun trim thr minDur tg R = .ok none := by
  refine run_none ?_
  by_contra hc
  obtain ⟨i, hi⟩ := begins_ups.mpr hc
  exact h i hi

theorem C103_always_synchronised (h : ∀ r ∈ R, thr ≤ r) : onsetRun trim thr minDur tg R = .ok none := by
  refine C103_not_seen fun i hi => hi.2.2.1 ?_
  have h1 : i - 1 < R.length := by have := hi.1.2; omega
  exact ⟨R[i - 1], List.getElem?_eq_getElem h1, h _ (List.getElem_mem h1)⟩

/-- Synchronisation that begins at index `i` and is never seen to end is reported whatever its duration: as onset the
time *before* `i`, as duration the time from there to the end of the grid, as fraction of synchronised time
`(k - 2 - i) / (k - i)`. -/
theorem C103_lasting (hk : tg.length = R.length) {i : ℕ} (hi : Begins (Reaches thr R) R.length i)
    (hE : ∀ j, ¬Ends (Reaches thr R) R.length j) :
    onsetRun trim thr minDur tg R = .ok (some {
      onset := tg.getD (i - 1) 0
      durM := tg.getD (R.length - 1) 0 - tg.getD (i - 1) 0
      durStd := 0
      durMax := tg.getD (R.length - 1) 0 - tg.getD (i - 1) 0
      durSum := ((R.length : ℝ) - 2 - i) / (R.length - i) }) := by
  have hi1 := hi.2.1.1
  have hi2 := hi.2.1.2
  have hu := (begins_iff (flag_iff thr R) (i - 1)).mp (by rwa [show i - 1 + 1 = i by omega])
  have hd : downs (flag thr R) (R.length - 3) = [] := by
    by_contra hc
    obtain ⟨j, hj⟩ := ends_downs.mpr hc
    exact hE j hj
  obtain ⟨L, pre, tail, hst⟩ := st_exists (flag thr R) (R.length - 3)
  have hL : pre = [] ∧ L = [] := by
    have := hst.hd; rw [hd] at this
    have := List.append_eq_nil_iff.mp this.symm
    exact ⟨this.1, List.map_eq_nil_iff.mp this.2⟩
  obtain ⟨rfl, rfl⟩ := hL
  have hups : ups (flag thr R) (R.length - 3) = [i - 1] := by
    have hu' := hst.hu
    rw [List.map_nil, List.nil_append] at hu'
    rw [hu'] at hu ⊢
    rcases hst.ht with ⟨rfl, -⟩ | ⟨a, rfl, -⟩
    · simp at hu
    · rw [List.mem_singleton] at hu; rw [hu]
  have hcount : (synchOrNot thr R).count true = R.length - 2 - i := by
    have h0 := count_seen (synch_length thr R) (flag_iff thr R) 0
    rw [List.drop_zero] at h0
    rw [h0]
    have : {j | 0 + 1 ≤ j ∧ Seen R.length j ∧ Reaches thr R j} = Set.Ico i (R.length - 2) := by
      ext j
      simp only [Set.mem_ofPred_eq, Set.mem_Ico]
      constructor
      · rintro ⟨h1, h2, h3⟩
        refine ⟨?_, by have := h2.2; omega⟩
        by_contra hc
        refine hi.2.2.1 ?_
        have := no_ends_mono hE h2.1 h3 (i - 1 - j) (by omega)
        rwa [show j + (i - 1 - j) = i - 1 by omega] at this
      · rintro ⟨h1, h2⟩
        refine ⟨by omega, ⟨by omega, by omega⟩, ?_⟩
        have := no_ends_mono hE hi1 hi.2.2.2 (j - i) (by omega)
        rwa [show i + (j - i) = j by omega] at this
    rw [this, ← Finset.coe_Ico, Set.ncard_coe_finset, Nat.card_Ico]
  have hg : ∀ n, n < tg.length → tg[n]? = some (tg.getD n 0) := by
    intro n hn; rw [List.getD_eq_getElem?_getD, List.getElem?_eq_getElem hn]; rfl
  have hlast : tg.getLast? = some (tg.getD (R.length - 1) 0) := by
    rw [List.getLast?_eq_getElem?, hk]; exact hg _ (by omega)
  rw [run_lasting hups hd (hg (i - 1) (by omega)) hlast, hcount, hk]
  have e1 : ((R.length - 2 - i : ℕ) : ℝ) = (R.length : ℝ) - 2 - i := by
    rw [Nat.cast_sub (by omega), Nat.cast_sub (by omega)]; norm_num
  have e2 : (((R.length : ℤ) - 1 - ((i - 1 : ℕ) : ℤ) : ℤ) : ℝ) = R.length - i := by
    rw [Nat.cast_sub hi1]; push_cast; ring
  simp only [real_lit_int, e2, Int.cast_natCast, e1, Int.cast_zero]

/-- Otherwise - a beginning and an end are seen - only complete episodes matter. With the analysis of six oscillators, or
if the first time looked at is not synchronised, no complete episode of at least `minDur` steps means not synchronised,
even if the record ends with a long synchronised episode. -/
theorem C103_short (hB : ∃ i, Begins (Reaches thr R) R.length i) (hE : ∃ i, Ends (Reaches thr R) R.length i)
    (ht : trim = true ∨ ¬Reaches thr R 1) {L : List (ℕ × ℕ)} (hL : Listing (Reaches thr R) R.length L)
    (h : ∀ p ∈ L, steps p < minDur) : onsetRun trim thr minDur tg R = .ok none := by
  obtain ⟨L', pre, tail, hst⟩ := st_exists (flag thr R) (R.length - 3)
  have hu := begins_ups.mp hB
  have hd := ends_downs.mp hE
  have e := listing_unique hL (listing_of_st (flag_iff thr R) hst)
  subst e
  rw [run_episodes hu hd, hst.hu, hst.hd]
  refine episodes_none (st_align hst hu hd ?_) (st_lt hst) ?_
  · refine ht.imp_right fun h1 => ?_
    obtain ⟨i, hi⟩ := hB
    have := hi.1.2; have := hi.1.1
    rw [← Bool.not_eq_true, flag_iff thr R 0 (by omega)]; exact h1
  · intro p hp
    rw [← steps_up1]; exact h _ (List.mem_map_of_mem hp)

/-- If there is such an episode, `p` being the first, then the onset reported is the time *before* its beginning; the
durations are those of all complete episodes, long or short, counted in *steps*; the last number is the fraction of the
time from the onset on that is synchronised. -/
theorem C103_onset (hk : tg.length = R.length) (hB : ∃ i, Begins (Reaches thr R) R.length i)
    (hE : ∃ i, Ends (Reaches thr R) R.length i) (ht : trim = true ∨ ¬Reaches thr R 1) {L : List (ℕ × ℕ)}
    (hL : Listing (Reaches thr R) R.length L) {p : ℕ × ℕ} (hp : p ∈ L) (hd : minDur ≤ steps p)
    (hfirst : ∀ q ∈ L, q.1 < p.1 → steps q < minDur) :
    onsetRun trim thr minDur tg R = .ok (some {
      onset := tg.getD (p.1 - 1) 0
      durM := (L.map fun q => (steps q : ℝ)).sum / L.length
      durStd := √((L.map fun q => ((steps q : ℝ) - (L.map fun q => (steps q : ℝ)).sum / L.length) ^ 2).sum / L.length)
      durMax := ((L.map steps).foldr max 0 : ℕ)
      durSum := ({i | p.1 ≤ i ∧ Seen R.length i ∧ Reaches thr R i}.ncard : ℝ) / (R.length - p.1) }) := by
  obtain ⟨L', pre, tail, hst⟩ := st_exists (flag thr R) (R.length - 3)
  have hu := begins_ups.mp hB
  have hdn := ends_downs.mp hE
  have e := listing_unique hL (listing_of_st (flag_iff thr R) hst)
  subst e
  obtain ⟨q, hq, rfl⟩ := List.mem_map.mp hp
  have hq2 := (hL.2 _).mp hp
  have hq3 : q.1 < tg.length := by have := hq2.1.2.1.2; simp only [up1] at this; omega
  have hT : tg[q.1]? = some (tg.getD q.1 0) := by
    rw [List.getD_eq_getElem?_getD, List.getElem?_eq_getElem hq3]; rfl
  rw [run_episodes hu hdn, hst.hu, hst.hd]
  rw [episodes_some (st_align hst hu hdn ?_) (st_lt hst) hst.sorted hq (by rw [← steps_up1]; exact hd) ?_ hT]
  · have hlen : (L'.map up1).length = L'.length := List.length_map _
    have hms : (L'.map up1).map steps = L'.map steps := by
      rw [List.map_map]; exact List.map_congr_left fun p _ => steps_up1 p
    have hmr : ∀ g : ℝ → ℝ, ((L'.map up1).map fun q => g (steps q)) = (L'.map steps).map fun n : ℕ => g n := by
      intro g; rw [← hms, List.map_map, List.map_map, List.map_map]; rfl
    have hsum : ∀ g : ℝ → ℝ, (∑ i : Fin (L'.map fun p => (p.2 : ℤ) - p.1).length,
        g ((lit (L'.map fun p => (p.2 : ℤ) - p.1)[i] 1 : ℝ))) = ((L'.map steps).map fun n : ℕ => g n).sum := by
      intro g
      rw [sum_lits, dur_steps (st_lt hst), List.map_map]
      refine congrArg List.sum (List.map_congr_left fun n _ => ?_)
      simp [Function.comp]
    have hmean : (mean fun i : Fin (L'.map fun p => (p.2 : ℤ) - p.1).length =>
        (lit (L'.map fun p => (p.2 : ℤ) - p.1)[i] 1 : ℝ)) =
        ((L'.map up1).map fun q => (steps q : ℝ)).sum / (L'.map up1).length := by
      rw [real_mean, hsum (fun x => x), hmr (fun x => x), hlen, List.length_map]
    have e1 : (((tg.length : ℤ) - 1 - ((q.1 : ℕ) : ℤ) : ℤ) : ℝ) = R.length - ((up1 q).1 : ℕ) := by
      rw [hk]; simp only [up1]; push_cast; ring
    have e2 : (List.count true (List.drop q.1 (synchOrNot thr R)) : ℝ) =
        ({i | (up1 q).1 ≤ i ∧ Seen R.length i ∧ Reaches thr R i}.ncard : ℝ) := by
      rw [count_seen (synch_length thr R) (flag_iff thr R) q.1]; rfl
    have e3 : (L'.map fun p => (p.2 : ℤ) - p.1).max?.getD 0 = (((L'.map up1).map steps).foldr max 0 : ℕ) := by
      rw [dur_steps (st_lt hst), max_steps, hms]
    have e4 : (npStd fun i : Fin (L'.map fun p => (p.2 : ℤ) - p.1).length =>
        (lit (L'.map fun p => (p.2 : ℤ) - p.1)[i] 1 : ℝ)) =
        √(((L'.map up1).map fun q => ((steps q : ℝ) - ((L'.map up1).map fun q => (steps q : ℝ)).sum /
          (L'.map up1).length) ^ 2).sum / (L'.map up1).length) := by
      unfold npStd
      rw [hmean, real_sqrt, real_sum]
      simp only [real_sq]
      rw [hsum fun x => (x - ((L'.map up1).map fun q => (steps q : ℝ)).sum / (L'.map up1).length) ^ 2,
        hmr fun x => (x - ((L'.map up1).map fun q => (steps q : ℝ)).sum / (L'.map up1).length) ^ 2]
      simp only [real_lit_int, Int.cast_natCast, List.length_map]
    rw [hmean, e4, e3]
    simp only [real_lit_int, e1, Int.cast_natCast, e2]
    rfl
  · refine ht.imp_right fun h1 => ?_
    obtain ⟨i, hi⟩ := hB
    have := hi.1.2; have := hi.1.1
    rw [← Bool.not_eq_true, flag_iff thr R 0 (by omega)]; exact h1
  · intro p hp' hlt
    rw [← steps_up1]
    exact hfirst _ (List.mem_map_of_mem hp') (by simp only [up1]; omega)

/-- The analysis of two oscillators, of a record that is synchronised at the first time looked at and is seen to become
synchronised later: ends and beginnings are paired wrongly. If the record ends synchronised it counts as not
synchronised, whatever the episodes; if not, there is an exception for two or more complete episodes, and also for a
single one if it is long enough. -/
theorem C103_misaligned (hB : ∃ i, Begins (Reaches thr R) R.length i) (h1 : Reaches thr R 1) {L : List (ℕ × ℕ)}
    (hL : Listing (Reaches thr R) R.length L) :
    (Reaches thr R (R.length - 3) → onsetRun false thr minDur tg R = .ok none) ∧
    (¬Reaches thr R (R.length - 3) → 2 ≤ L.length → onsetRun false thr minDur tg R = .error .valueError) ∧
    (¬Reaches thr R (R.length - 3) → ∀ p, L = [p] →
      onsetRun false thr minDur tg R = if minDur ≤ steps p then .error .indexError else .ok none) ∧
    (¬Reaches thr R (R.length - 3) → L ≠ []) := by
  obtain ⟨L', pre, tail, hst⟩ := st_exists (flag thr R) (R.length - 3)
  have e := listing_unique hL (listing_of_st (flag_iff thr R) hst)
  subst e
  have hu := begins_ups.mp hB
  obtain ⟨i, hi⟩ := hB
  have hi1 := hi.1.1
  have hi2 := hi.2.1.2
  have hi3 := hi.1.2
  obtain ⟨⟨e, rfl⟩, htl⟩ := st_first hst hu ((flag_iff thr R 0 (by omega)).mpr h1)
  have hdn : downs (flag thr R) (R.length - 3) ≠ [] := by rw [hst.hd]; simp
  have hlt := st_pre_lt hst
  have hlast : flag thr R (R.length - 3 - 1) = true ↔ Reaches thr R (R.length - 3) := by
    rw [flag_iff thr R _ (by omega), show R.length - 3 - 1 + 1 = R.length - 3 by omega]
  have hrun : onsetRun false thr minDur tg R = onsetEpisodes false minDur tg (synchOrNot thr R)
      (L'.map Prod.fst ++ tail) ([e] ++ L'.map Prod.snd) := by
    rw [run_episodes hu hdn, hst.hu, hst.hd]
  have hlt' : ∀ p ∈ L', e < p.1 := fun p hp => hlt p.1 (by rw [hst.hu]; simp; exact Or.inl ⟨p.2, hp⟩)
  refine ⟨fun h => ?_, fun h h2 => ?_, fun h p hp => ?_, fun h => ?_⟩
  · rw [← hlast] at h
    rcases htl with ⟨-, a, rfl, ha⟩ | ⟨h', -⟩
    · rw [hrun]
      exact untrimmed_neg hst.sorted hlt' (hlt a (by rw [hst.hu]; simp)) ha
    · rw [h] at h'; exact absurd h' (by simp)
  all_goals
    rw [← hlast] at h
    have htail : tail = [] := by
      rcases htl with ⟨h', -⟩ | ⟨-, h'⟩
      · exact absurd h' h
      · exact h'
    subst htail
    rw [List.append_nil] at hrun
  · rw [hrun]
    exact untrimmed_many (by simpa using h2)
  · match L', hp with
    | [q], hp =>
      simp only [List.map_cons, List.map_nil, List.cons.injEq, and_true] at hp
      rw [hrun, ← hp, steps_up1]
      exact untrimmed_one (hlt' q (by simp)) (st_lt hst q (by simp))
  · rintro he
    have := hst.hu
    rw [List.map_eq_nil_iff.mp he] at this
    exact hu this

/-- The analysis of six oscillators never fails, that of two never if the first time looked at is not synchronised. -/
theorem C103_total (hk : tg.length = R.length) (ht : trim = true ∨ ¬Reaches thr R 1) :
    ∃ o, onsetRun trim thr minDur tg R = .ok o := by
  by_cases hB : ∃ i, Begins (Reaches thr R) R.length i
  · by_cases hE : ∃ i, Ends (Reaches thr R) R.length i
    · obtain ⟨L, hL, -⟩ := C103_listing (Reaches thr R) R.length
      by_cases hp : ∃ p ∈ L, minDur ≤ steps p
      · obtain ⟨p, hp, hd, hf⟩ := first_long hp
        exact ⟨_, C103_onset hk hB hE ht hL hp hd hf⟩
      · push Not at hp
        exact ⟨_, C103_short hB hE ht hL hp⟩
    · push Not at hE
      obtain ⟨i, hi⟩ := hB
      exact ⟨_, C103_lasting hk hi hE⟩
  · push Not at hB
    exact ⟨_, C103_not_seen hB⟩

/-- Which repetitions are counted as synchronised: a beginning is seen, and either no end is seen or there is a complete
episode of at least `minDur` steps; with the analysis of two oscillators, moreover, the first time looked at must not be
synchronised. -/
theorem C103_counted (hk : tg.length = R.length) {o : Option (Onset ℝ)}
    (ho : onsetRun trim thr minDur tg R = .ok o) :
    o.isSome = true ↔ (∃ i, Begins (Reaches thr R) R.length i) ∧
      ((∀ i, ¬Ends (Reaches thr R) R.length i) ∨
        (∃ p, Episode (Reaches thr R) R.length p ∧ minDur ≤ steps p) ∧ (trim = true ∨ ¬Reaches thr R 1)) := by
  obtain ⟨L, hL, -⟩ := C103_listing (Reaches thr R) R.length
  by_cases hB : ∃ i, Begins (Reaches thr R) R.length i
  · simp only [hB, true_and]
    by_cases hE : ∃ i, Ends (Reaches thr R) R.length i
    · have hE' : ¬ ∀ i, ¬Ends (Reaches thr R) R.length i := by push Not; exact hE
      simp only [hE', false_or]
      by_cases ht : trim = true ∨ ¬Reaches thr R 1
      · simp only [ht, and_true]
        by_cases hp : ∃ p ∈ L, minDur ≤ steps p
        · have hp' : ∃ p, Episode (Reaches thr R) R.length p ∧ minDur ≤ steps p := by
            obtain ⟨p, h1, h2⟩ := hp; exact ⟨p, (hL.2 p).mp h1, h2⟩
          obtain ⟨p, hp, hd, hf⟩ := first_long hp
          rw [C103_onset hk hB hE ht hL hp hd hf] at ho
          simp only [hp', iff_true]
          rw [← Except.ok.inj ho]; rfl
        · have hp' : ¬ ∃ p, Episode (Reaches thr R) R.length p ∧ minDur ≤ steps p := by
            rintro ⟨p, h1, h2⟩; exact hp ⟨p, (hL.2 p).mpr h1, h2⟩
          push Not at hp
          rw [C103_short hB hE ht hL hp] at ho
          simp only [hp', iff_false]
          rw [← Except.ok.inj ho]; simp
      · simp only [ht, and_false, iff_false]
        push Not at ht
        have htf : trim = false := by simpa using ht.1
        subst htf
        obtain ⟨m1, m2, m3, m4⟩ := C103_misaligned (minDur := minDur) (tg := tg) hB ht.2 hL
        by_cases h : Reaches thr R (R.length - 3)
        · rw [m1 h] at ho; rw [← Except.ok.inj ho]; simp
        · match L, m2 h, m3 h, m4 h with
          | [], _, _, m4 => exact absurd rfl m4
          | [p], _, m3, _ =>
            rw [m3 p rfl] at ho
            by_cases hd : minDur ≤ steps p
            · rw [if_pos hd] at ho; cases ho
            · rw [if_neg hd] at ho; rw [← Except.ok.inj ho]; simp
          | p :: q :: L, m2, _, _ => rw [m2 (by simp)] at ho; cases ho
    · push Not at hE
      obtain ⟨i, hi⟩ := hB
      rw [C103_lasting hk hi hE] at ho
      rw [← Except.ok.inj ho]
      simp only [Option.isSome_some, true_iff]
      exact Or.inl hE
  · simp only [hB, false_and, iff_false]
    push Not at hB
    rw [C103_not_seen hB] at ho
    rw [← Except.ok.inj ho]; simp

/-- The number of repetitions reported as synchronised. -/
theorem C103_count {Rs : List (List ℝ)} (hk : ∀ R ∈ Rs, tg.length = R.length) {c : ℕ}
    (hc : onsetCount trim thr minDur tg Rs = .ok c) :
    c = {i : Fin Rs.length | (∃ j, Begins (Reaches thr Rs[i]) Rs[i].length j) ∧
      ((∀ j, ¬Ends (Reaches thr Rs[i]) Rs[i].length j) ∨
        (∃ p, Episode (Reaches thr Rs[i]) Rs[i].length p ∧ minDur ≤ steps p) ∧
          (trim = true ∨ ¬Reaches thr Rs[i] 1))}.ncard := by
  induction Rs generalizing c with
  | nil =>
    rw [← Except.ok.inj hc]
    have h0 : ∀ s : Set (Fin ([] : List (List ℝ)).length), s.ncard = 0 := fun s => by
      rw [Set.eq_empty_of_forall_notMem (s := s) fun i => i.elim0, Set.ncard_empty]
    exact (h0 _).symm
  | cons R Rs ih =>
    unfold onsetCount at hc
    cases ho : onsetRun trim thr minDur tg R with
    | error e => rw [ho] at hc; cases hc
    | ok o =>
      cases hc' : onsetCount trim thr minDur tg Rs with
      | error e => rw [ho, hc'] at hc; cases hc
      | ok c' =>
        rw [ho, hc'] at hc
        have h1 := C103_counted (hk R (by simp)) ho
        have h2 := ih (fun R' hR' => hk R' (by simp [hR'])) hc'
        have hc2 : c = c' + if o.isSome then 1 else 0 := (Except.ok.inj hc).symm
        rw [hc2, h2, ← Set.ncard_image_of_injective _ (Fin.succ_injective Rs.length)]
        by_cases hs : o.isSome = true
        · rw [if_pos hs, ← Set.ncard_insert_of_notMem (a := (0 : Fin (Rs.length + 1))) (by
            rintro ⟨j, -, hj⟩; exact Fin.succ_ne_zero j hj)]
          refine congrArg Set.ncard (Set.ext fun i => ?_)
          refine Fin.cases ?_ (fun j => ?_) i
          · simp only [Set.mem_insert_iff, true_or, true_iff]
            exact h1.mp hs
          · simp only [Set.mem_insert_iff, Fin.succ_ne_zero, false_or]
            constructor
            · rintro ⟨j', hj', he⟩
              rw [← Fin.succ_injective _ he]; exact hj'
            · intro hj; exact ⟨j, hj, rfl⟩
        · rw [if_neg hs, Nat.add_zero]
          refine congrArg Set.ncard (Set.ext fun i => ?_)
          refine Fin.cases ?_ (fun j => ?_) i
          · constructor
            · rintro ⟨j, -, hj⟩; exact absurd hj (Fin.succ_ne_zero j)
            · intro h; exact absurd (h1.mpr h) hs
          · constructor
            · rintro ⟨j', hj', he⟩
              rw [← Fin.succ_injective _ he]; exact hj'
            · intro hj; exact ⟨j, hj, rfl⟩

/-- The reported fraction of synchronised time never reaches one, whatever the record. -/
theorem C103_fraction (hk : tg.length = R.length) {o : Onset ℝ} (ho : onsetRun trim thr minDur tg R = .ok (some o)) :
    0 < o.durSum ∧ o.durSum < 1 := by
  obtain ⟨hB, h⟩ := (C103_counted hk ho).mp rfl
  by_cases hE : ∃ i, Ends (Reaches thr R) R.length i
  · rcases h with h | ⟨⟨p, hp, hd⟩, ht⟩
    · obtain ⟨i, hi⟩ := hE; exact absurd hi (h i)
    · obtain ⟨L, hL, -⟩ := C103_listing (Reaches thr R) R.length
      obtain ⟨q, hq, hd, hf⟩ := first_long ⟨p, (hL.2 p).mpr hp, hd⟩
      rw [C103_onset hk hB hE ht hL hq hd hf] at ho
      rw [← Option.some.inj (Except.ok.inj ho)]
      have hqE := (hL.2 q).mp hq
      have h1 := hqE.1.2.1.2
      have hpos : (0 : ℝ) < R.length - q.1 := by
        rw [sub_pos, Nat.cast_lt]; omega
      have hsub : {i | q.1 ≤ i ∧ Seen R.length i ∧ Reaches thr R i} ⊆ Set.Ico q.1 (R.length - 2) := by
        rintro i ⟨h2, h3, -⟩
        exact ⟨h2, by have := h3.2; omega⟩
      have hfin := (Set.finite_Ico q.1 (R.length - 2)).subset hsub
      have hne : 0 < {i | q.1 ≤ i ∧ Seen R.length i ∧ Reaches thr R i}.ncard :=
        (Set.ncard_pos hfin).mpr ⟨q.1, le_rfl, hqE.1.2.1, hqE.1.2.2.2⟩
      have hcard : {i | q.1 ≤ i ∧ Seen R.length i ∧ Reaches thr R i}.ncard ≤ R.length - 2 - q.1 := by
        have := Set.ncard_le_ncard hsub (Set.finite_Ico _ _)
        rwa [← Finset.coe_Ico, Set.ncard_coe_finset, Nat.card_Ico] at this
      refine ⟨div_pos (by exact_mod_cast hne) hpos, ?_⟩
      show _ / _ < _
      rw [div_lt_one hpos, lt_sub_iff_add_lt]
      exact_mod_cast (by omega : _ + q.1 < R.length)
  · push Not at hE
    obtain ⟨i, hi⟩ := hB
    have h1 := hi.2.1.2
    rw [C103_lasting hk hi hE] at ho
    rw [← Option.some.inj (Except.ok.inj ho)]
    have hpos : (0 : ℝ) < R.length - 2 - i := by
      have : ((i + 2 : ℕ) : ℝ) < R.length := by exact_mod_cast h1
      push_cast at this; linarith
    exact ⟨div_pos hpos (by linarith), (div_lt_one (by linarith)).mpr (by linarith)⟩

/-- The reported onset is earlier than the first synchronised time of the episode it belongs to. -/
theorem C103_early (hk : tg.length = R.length) (htg : tg.Pairwise (· < ·)) {o : Onset ℝ}
    (ho : onsetRun trim thr minDur tg R = .ok (some o)) :
    ∃ i, Begins (Reaches thr R) R.length i ∧ o.onset = tg.getD (i - 1) 0 ∧ o.onset < tg.getD i 0 := by
  have hlt : ∀ i, Begins (Reaches thr R) R.length i → tg.getD (i - 1) 0 < tg.getD i 0 := by
    intro i hi
    have h1 := hi.2.1.1
    have h2 := hi.2.1.2
    rw [List.getD_eq_getElem?_getD, List.getD_eq_getElem?_getD, List.getElem?_eq_getElem (by omega),
      List.getElem?_eq_getElem (by omega)]
    exact List.pairwise_iff_getElem.mp htg _ _ _ _ (by omega)
  obtain ⟨hB, h⟩ := (C103_counted hk ho).mp rfl
  by_cases hE : ∃ i, Ends (Reaches thr R) R.length i
  · rcases h with h | ⟨⟨p, hp, hd⟩, ht⟩
    · obtain ⟨i, hi⟩ := hE; exact absurd hi (h i)
    · obtain ⟨L, hL, -⟩ := C103_listing (Reaches thr R) R.length
      obtain ⟨q, hq, hd, hf⟩ := first_long ⟨p, (hL.2 p).mpr hp, hd⟩
      rw [C103_onset hk hB hE ht hL hq hd hf] at ho
      rw [← Option.some.inj (Except.ok.inj ho)]
      have hqB := ((hL.2 q).mp hq).1
      exact ⟨q.1, hqB, rfl, hlt _ hqB⟩
  · push Not at hE
    obtain ⟨i, hi⟩ := hB
    rw [C103_lasting hk hi hE] at ho
    rw [← Option.some.inj (Except.ok.inj ho)]
    exact ⟨i, hi, rfl, hlt _ hi⟩

/-- NaN replaced by a value below every threshold -/
def Sync.nanLow : XR → XR
  | .nan => .ninf
  | r => r

/-- Over exact arithmetic with special values: times at which the order parameter is NaN count as not synchronised, so
that a run lost in NaN is seen to end its episode. -/
theorem C103_nan (inv : ∀ {m : ℕ}, Mat m m XR → Except PyErr (Mat m m XR)) (thr : ℝ) (tg R : List XR) (trim : Bool)
    (minDur : ℕ) :
    letI : NumOps XR := XR.ops inv
    onsetRun trim (XR.fin thr) minDur tg R =
      onsetRun trim (XR.fin thr) minDur tg (R.map Sync.nanLow) := by
  classical
  letI : NumOps XR := XR.ops inv
  have h : synchOrNot (XR.fin thr) R = synchOrNot (XR.fin thr) (R.map Sync.nanLow) := by
    unfold synchOrNot
    rw [← List.map_dropLast, ← List.map_dropLast, ← List.map_drop, List.map_map]
    refine List.map_congr_left fun r _ => ?_
    cases r with
    | nan =>
      have h1 : NumOps.leB (XR.fin thr) XR.nan = false := decide_eq_false (by simp [XR.le])
      have h2 : NumOps.leB (XR.fin thr) XR.ninf = false := decide_eq_false (by simp [XR.le])
      simp only [Function.comp, Sync.nanLow, h1, h2]
    | _ => rfl
  unfold onsetRun
  rw [h]

/-! ### Examples -/

/-- two synchronised episodes, the second one is not seen to end -/
def exSync : List ℝ := [0, 0, 1, 1, 0, 0, 1, 1, 0, 0]
/-- ten times -/
def exTimes : List ℝ := [0, 1, 2, 3, 4, 5, 6, 7, 8, 9]

example : onsetRun true (1 / 2) 2 exTimes exSync = .ok (some {
    onset := 1, durM := 2, durStd := 0, durMax := 2, durSum := 1 / 2 }) := by
  obtain ⟨L, hL, hu⟩ := C103_listing (Reaches (1 / 2) exSync) exSync.length
  have yes : ∀ i ∈ [2, 3, 6, 7], Reaches (1 / 2) exSync i := by
    intro i hi
    simp only [List.mem_cons, List.not_mem_nil, or_false] at hi
    rcases hi with rfl | rfl | rfl | rfl <;> exact ⟨1, rfl, by norm_num⟩
  have no : ∀ i ∈ [1, 4, 5], ¬Reaches (1 / 2) exSync i := by
    rintro i hi ⟨r, hr, h⟩
    simp only [List.mem_cons, List.not_mem_nil, or_false] at hi
    rcases hi with rfl | rfl | rfl <;> (cases hr; norm_num at h)
  have hB : Begins (Reaches (1 / 2) exSync) exSync.length 2 :=
    ⟨⟨by decide, by decide⟩, ⟨by decide, by decide⟩, no _ (by decide), yes _ (by decide)⟩
  have hE : Ends (Reaches (1 / 2) exSync) exSync.length 4 :=
    ⟨⟨by decide, by decide⟩, ⟨by decide, by decide⟩, yes _ (by decide), no _ (by decide)⟩
  have hEp : Episode (Reaches (1 / 2) exSync) exSync.length (2, 4) :=
    ⟨hB, hE, by decide, fun i h1 h2 => yes i (by
      have h1' : 2 ≤ i := h1
      have h2' : i < 4 := h2
      interval_cases i <;> simp)⟩
  have hl : [(2, 4)] = L := by
    refine hu _ ⟨List.pairwise_singleton _ _, fun p => ⟨?_, fun hp => ?_⟩⟩
    · intro h; rw [List.mem_singleton.mp h]; exact hEp
    · obtain ⟨a, e⟩ := p
      have a1 : 1 ≤ a - 1 := hp.1.1.1
      have a2 : a + 2 < 10 := hp.1.2.1.2
      have e2 : e + 2 < 10 := hp.2.1.2.1.2
      have ae : a < e := hp.2.2.1
      have nb : ¬Reaches (1 / 2) exSync (a - 1) := hp.1.2.2.1
      have ne : ¬Reaches (1 / 2) exSync e := hp.2.1.2.2.2
      have ya : Reaches (1 / 2) exSync a := hp.1.2.2.2
      have ye : Reaches (1 / 2) exSync (e - 1) := hp.2.1.2.2.1
      have h1 : a < 8 := by omega
      have h2 : e < 8 := by omega
      have h3 : 2 ≤ a := by omega
      have : a = 2 := by
        interval_cases a
        · rfl
        · exact absurd (yes 2 (by decide)) nb
        · exact absurd ya (no 4 (by decide))
        · exact absurd ya (no 5 (by decide))
        · exact absurd (yes 7 (by decide)) (by
            have : e = 7 := by omega
            rwa [this] at ne)
        · omega
      subst this
      have : e = 4 := by
        interval_cases e
        · exact absurd (yes 3 (by decide)) ne
        · rfl
        · exact absurd ye (no 4 (by decide))
        · exact absurd (yes 6 (by decide)) ne
        · exact absurd (yes 7 (by decide)) ne
      subst this
      simp
  subst hl
  rw [C103_onset (tg := exTimes) (R := exSync) (p := (2, 4)) rfl ⟨2, hB⟩ ⟨4, hE⟩ (Or.inl rfl) hL (by simp) (by decide) (by
    intro q hq h; rw [List.mem_singleton.mp hq] at h; exact absurd h (by decide))]
  have hset : {i | (2, 4).1 ≤ i ∧ Seen exSync.length i ∧ Reaches (1 / 2) exSync i} = ↑({2, 3, 6, 7} : Finset ℕ) := by
    ext i
    simp only [Set.mem_ofPred_eq, Finset.coe_insert, Finset.coe_singleton, Set.mem_insert_iff, Set.mem_singleton_iff]
    constructor
    · rintro ⟨h1, ⟨h2, h3⟩, h4⟩
      have h3' : i + 2 < 10 := h3
      have : i < 8 := by omega
      have h1' : 2 ≤ i := h1
      interval_cases i
      · simp
      · simp
      · exact absurd h4 (no 4 (by decide))
      · exact absurd h4 (no 5 (by decide))
      · simp
      · simp
    · intro h
      rcases h with rfl | rfl | rfl | rfl <;>
        exact ⟨by decide, ⟨by decide, by decide⟩, yes _ (by decide)⟩
  rw [hset, Set.ncard_coe_finset]
  norm_num [exTimes, exSync, steps]

/-- synchronised from the third of the times looked at on -/
def exLasting : List ℝ := [0, 0, 0, 1, 1, 1, 1, 1]

example : onsetRun false (1 / 2) 20 [0, 1, 2, 3, 4, 5, 6, 7] exLasting = .ok (some {
    onset := 2, durM := 5, durStd := 0, durMax := 5, durSum := 3 / 5 }) := by
  have yes : ∀ i, 3 ≤ i → i < 8 → Reaches (1 / 2) exLasting i := by
    intro i h1 h2
    interval_cases i <;> exact ⟨1, rfl, by norm_num⟩
  have no : ∀ i, i < 3 → ¬Reaches (1 / 2) exLasting i := by
    rintro i hi ⟨r, hr, h⟩
    interval_cases i <;> (cases hr; norm_num at h)
  rw [C103_lasting (tg := [0, 1, 2, 3, 4, 5, 6, 7]) (R := exLasting) (i := 3) rfl ⟨⟨by decide, by decide⟩, ⟨by decide, by decide⟩, no _ (by decide), yes _ (by decide) (by decide)⟩]
  · norm_num [exLasting]
  · intro j hj
    have h1 : j + 2 < 8 := hj.2.1.2
    by_cases h : j < 3
    · exact no (j - 1) (by omega) hj.2.2.1
    · exact hj.2.2.2 (yes j (by omega) (by omega))

section
theorem exLe1 : NumOps.leB (1 / 2 : ℝ) 1 = true := by rw [real_leB]; norm_num
theorem exLe0 : NumOps.leB (1 / 2 : ℝ) 0 = false := by rw [← Bool.not_eq_true, real_leB]; norm_num

/-- the three wrong outcomes of the analysis of two oscillators -/
example (tg : List ℝ) :
    onsetRun false (1 / 2) 1 tg [1, 1, 0, 1, 1, 1, 1] = .ok none ∧
    onsetRun false (1 / 2) 1 tg [1, 1, 0, 1, 0, 0, 0] = .error .indexError ∧
    onsetRun false (1 / 2) 1 tg [1, 1, 0, 1, 0, 1, 0, 0, 0] = .error .valueError := by
  refine ⟨?_, ?_, ?_⟩ <;> simp only [onsetRun, synchOrNot, List.dropLast, List.drop, List.map, exLe1, exLe0] <;> rfl

example : Reaches (1 / 2) [1, 1, 0, 1, 1, 1, 1] 1 ∧
    ∃ i, Begins (Reaches (1 / 2) [1, 1, 0, 1, 1, 1, 1]) ([1, 1, 0, 1, 1, 1, 1] : List ℝ).length i :=
  ⟨⟨1, rfl, by norm_num⟩, 3, ⟨by decide, by decide⟩, ⟨by decide, by decide⟩, by
    rintro ⟨r, hr, h⟩; cases hr; norm_num at h, ⟨1, rfl, by norm_num⟩⟩

/-- the analysis of six oscillators on the same records, and the numbers of counted repetitions -/
example : onsetCount true (1 / 2 : ℝ) 1 [0, 1, 2, 3, 4, 5, 6] [[1, 1, 0, 1, 1, 1, 1], [1, 1, 0, 1, 0, 0, 0], [1, 1, 1, 1, 1, 1, 1]] =
    .ok 1 := by
  simp only [onsetCount, onsetRun, synchOrNot, List.dropLast, List.drop, List.map, exLe1, exLe0]
  rfl
end

end DPFC
