import Verif.Lib.Obj

/-! Every step of a successful construction, for any arithmetic. -/

set_option linter.unusedSectionVars false

namespace DPFC
section
variable {K ρ : Type} [Add K] [Sub K] [Mul K] [Div K] [Neg K] [NumOps K]
variable {N M d : Nat}

theorem visits_get' {Z : Traj d N K} {grid : List K} (hl : Z.length = grid.length) {s : ℕ}
    {z : Mat d N K} {t : K} (hs : s + 2 < grid.length)
    (hz : Z[grid.length - 1 - s]? = some z) (ht : grid[grid.length - 1 - s]? = some t) :
    (visits Z grid)[s]? = some (z, t) := by
  unfold visits
  have hlen : ((Z.zip grid).drop 2).length = grid.length - 2 := by simp [hl]
  rw [List.getElem?_reverse (by rw [hlen]; omega), hlen, List.getElem?_drop]
  have : 2 + (grid.length - 2 - 1 - s) = grid.length - 1 - s := by omega
  rw [this]
  exact List.getElem?_zip_eq_some.2 ⟨hz, ht⟩

/-- A backward chain, indexed by time. -/
theorem backChain_steps {step : Nat → Mat d N K × K → Mat d N K → RandM ρ (Mat d N K)}
    {Z bs : Traj d N K} {grid : List K} {p q : Mat d N K} {r r' : ρ} (h2 : 2 ≤ grid.length)
    (hZ : Z.length = grid.length) (h : chain step 1 (visits Z grid) q r = .ok (bs, r')) :
    bs.length + 2 = grid.length ∧
    ∃ rs : ℕ → ρ, rs (grid.length - 2) = r ∧ rs 0 = r' ∧
      ∀ j z b y tj, 1 ≤ j → j + 2 ≤ grid.length → Z[j+1]? = some z → grid[j+1]? = some tj →
        (p :: (bs.reverse ++ [q]))[j+1]? = some b → (p :: (bs.reverse ++ [q]))[j]? = some y →
        step (grid.length - 1 - j) (z, tj) b (rs j) = .ok (y, rs (j-1)) := by
  obtain ⟨hl, rs, h0, h1, hs⟩ := chain_ok_iff.1 h
  have hv : (visits Z grid).length = grid.length - 2 := by simp [visits, hZ]
  rw [hv] at h1 hl
  refine ⟨by omega, fun j => rs (grid.length - 2 - j), by simp [h0], by simpa using h1, ?_⟩
  intro j z b y tj hj1 hj2 hz ht hb hy
  have key : ∀ i, i ≤ bs.length → (p :: (bs.reverse ++ [q]))[i+1]?
      = (q :: bs)[bs.length - i]? := by
    intro i hi
    rw [List.getElem?_cons_succ]
    by_cases he : i = bs.length
    · subst he
      rw [List.getElem?_append_right (by simp)]
      simp
    · rw [List.getElem?_append_left (by simp; omega), List.getElem?_reverse (by omega)]
      obtain ⟨m, hm⟩ : ∃ m, bs.length - i = m + 1 := ⟨bs.length - i - 1, by omega⟩
      rw [hm, List.getElem?_cons_succ]
      congr 1; omega
  have hs' : (grid.length - 2 - j) + 2 < grid.length := by omega
  have hzt := visits_get' hZ (s := grid.length - 2 - j) (z := z) (t := tj) hs'
    (by rw [show grid.length - 1 - (grid.length - 2 - j) = j + 1 by omega]; exact hz)
    (by rw [show grid.length - 1 - (grid.length - 2 - j) = j + 1 by omega]; exact ht)
  have hb' : (q :: bs)[grid.length - 2 - j]? = some b := by
    have := key j (by omega)
    rw [hb, hl] at this
    rw [← this]
  have hy' : (q :: bs)[grid.length - 2 - j + 1]? = some y := by
    obtain ⟨i, rfl⟩ : ∃ i, j = i + 1 := ⟨j - 1, by omega⟩
    have := key i (by omega)
    rw [hy, hl] at this
    rw [← show grid.length - 2 - i = grid.length - 2 - (i+1) + 1 by omega, ← this]
  have hst := hs _ _ b y hzt hb' hy'
  change step _ _ _ (rs (grid.length - 2 - j)) = .ok (y, rs (grid.length - 2 - (j - 1)))
  rw [show grid.length - 1 - j = 1 + (grid.length - 2 - j) by omega,
    show grid.length - 2 - (j - 1) = grid.length - 2 - j + 1 by omega]
  exact hst

theorem get_of_lt {α : Type} {l : List α} {i : Nat} (h : i < l.length) : ∃ a, l[i]? = some a :=
  ⟨_, List.getElem?_eq_getElem h⟩

/-- All backward steps of a numpy object. -/
theorem construct_back_steps {env : Env ρ K} {c : Cfg d N M K} {r r' : ρ} {o : Obj d N M K}
    (h : construct env c r = .ok (o, r')) (hk : 2 ≤ o.timegrid.length) :
    o.Z.length = o.timegrid.length ∧ o.B.length = o.timegrid.length ∧
    o.B[o.timegrid.length - 1]? = some (pt N c.y2) ∧
    ∃ rs : ℕ → ρ, rs 0 = r' ∧ ∀ j, 1 ≤ j → j + 2 ≤ o.timegrid.length →
      ∃ z tj b y, o.Z[j+1]? = some z ∧ o.timegrid[j+1]? = some tj ∧ o.B[j+1]? = some b ∧
        o.B[j]? = some y ∧
        npBack env c (o.timegrid.length - 1 - j) (z, tj) b (rs j) = .ok (y, rs (j-1)) := by
  obtain ⟨hc, hg⟩ := construct_fields h
  have main : ∀ (Z bs : Traj d N K) (r1 : ρ), Z.length = o.timegrid.length → o.Z = Z →
      o.B = pt N c.y1 :: (bs.reverse ++ [pt N c.y2]) →
      chain (npBack env c) 1 (visits Z o.timegrid) (pt N c.y2) r1 = .ok (bs, r') → 
      o.Z.length = o.timegrid.length ∧ o.B.length = o.timegrid.length ∧
      o.B[o.timegrid.length - 1]? = some (pt N c.y2) ∧
      ∃ rs : ℕ → ρ, rs 0 = r' ∧ ∀ j, 1 ≤ j → j + 2 ≤ o.timegrid.length →
        ∃ z tj b y, o.Z[j+1]? = some z ∧ o.timegrid[j+1]? = some tj ∧ o.B[j+1]? = some b ∧
          o.B[j]? = some y ∧
          npBack env c (o.timegrid.length - 1 - j) (z, tj) b (rs j) = .ok (y, rs (j-1)) := by
    intro Z bs r1 hZ hZ' hB' hch
    obtain ⟨hl, rs, _, h0, hs⟩ := backChain_steps (p := pt N c.y1) hk hZ hch
    have hBl : o.B.length = o.timegrid.length := by rw [hB']; simp; omega
    refine ⟨hZ' ▸ hZ, hBl, ?_, rs, h0, ?_⟩
    · rw [hB', ← hl, show bs.length + 2 - 1 = bs.length + 1 by omega, List.getElem?_cons_succ,
        List.getElem?_append_right (by simp)]
      simp
    · intro j h1 h2'
      obtain ⟨z, hz⟩ := get_of_lt (l := o.Z) (i := j+1) (by rw [hZ', hZ]; omega)
      obtain ⟨tj, ht⟩ := get_of_lt (l := o.timegrid) (i := j+1) (by omega)
      obtain ⟨b, hb⟩ := get_of_lt (l := o.B) (i := j+1) (by omega)
      obtain ⟨y, hy⟩ := get_of_lt (l := o.B) (i := j) (by omega)
      exact ⟨z, tj, b, y, hz, ht, hb, hy,
        hs j z b y tj h1 h2' (hZ' ▸ hz) ht (hB' ▸ hb) (hB' ▸ hy)⟩
  by_cases hdet : c.deterministic = true
  · obtain ⟨ys, r1, zt, r2, bs, h1, _, h3, ho⟩ :=
      (construct_det_iff env c hdet (hg ▸ hk) r r' o).1 h
    have l1 := chain_length h1
    refine main (pt N c.y1 :: ys) bs r2 ?_ (by rw [ho]) (by rw [ho]) (by rw [hg]; exact h3)
    rw [hg] at hk ⊢
    simp at l1 ⊢; omega
  · have hdet : c.deterministic = false := by simpa using hdet
    by_cases hd2 : 2 ≤ d
    · obtain ⟨ys, r1, bs, h1, h3, ho⟩ := (construct_stoch_iff env c hdet (hg ▸ hk) hd2 r r' o).1 h
      have l1 := chain_length h1
      refine main _ bs r1 ?_ (by rw [ho]) (by rw [ho]) (by rw [hg]; exact h3)
      rw [hg] at hk ⊢
      simp at l1 ⊢; omega
    · rw [construct_stoch_dim1 env c hdet (by rw [← hg]; omega) (by omega)] at h
      cases h

/-- All backward steps of a torch object. -/
theorem torchConstruct_back_steps {env : Env ρ K} {c : Cfg d N M K} {r r' : ρ} {o : Obj d N M K}
    (h : torchConstruct env c r = .ok (o, r')) (hk : 2 ≤ o.timegrid.length) :
    o.Z.length = o.timegrid.length ∧ o.B.length = o.timegrid.length ∧
    o.B[o.timegrid.length - 1]? = some (pt N c.y2) ∧
    ∃ rs : ℕ → ρ, rs 0 = r' ∧ ∀ j, 1 ≤ j → j + 2 ≤ o.timegrid.length →
      ∃ z tj b y, o.Z[j+1]? = some z ∧ o.timegrid[j+1]? = some tj ∧ o.B[j+1]? = some b ∧
        o.B[j]? = some y ∧
        torchBack env c (o.timegrid.length - 1 - j) (z, tj) b (rs j) = .ok (y, rs (j-1)) := by
  obtain ⟨hc, hg, _⟩ := torchConstruct_fields h
  have main : ∀ (Z bs : Traj d N K) (r1 : ρ), Z.length = o.timegrid.length → o.Z = Z →
      o.B = pt N c.y1 :: (bs.reverse ++ [pt N c.y2]) →
      chain (torchBack env c) 1 (visits Z o.timegrid) (pt N c.y2) r1 = .ok (bs, r') → 
      o.Z.length = o.timegrid.length ∧ o.B.length = o.timegrid.length ∧
      o.B[o.timegrid.length - 1]? = some (pt N c.y2) ∧
      ∃ rs : ℕ → ρ, rs 0 = r' ∧ ∀ j, 1 ≤ j → j + 2 ≤ o.timegrid.length →
        ∃ z tj b y, o.Z[j+1]? = some z ∧ o.timegrid[j+1]? = some tj ∧ o.B[j+1]? = some b ∧
          o.B[j]? = some y ∧
          torchBack env c (o.timegrid.length - 1 - j) (z, tj) b (rs j) = .ok (y, rs (j-1)) := by
    intro Z bs r1 hZ hZ' hB' hch
    obtain ⟨hl, rs, _, h0, hs⟩ := backChain_steps (p := pt N c.y1) hk hZ hch
    have hBl : o.B.length = o.timegrid.length := by rw [hB']; simp; omega
    refine ⟨hZ' ▸ hZ, hBl, ?_, rs, h0, ?_⟩
    · rw [hB', ← hl, show bs.length + 2 - 1 = bs.length + 1 by omega, List.getElem?_cons_succ,
        List.getElem?_append_right (by simp)]
      simp
    · intro j h1 h2'
      obtain ⟨z, hz⟩ := get_of_lt (l := o.Z) (i := j+1) (by rw [hZ', hZ]; omega)
      obtain ⟨tj, ht⟩ := get_of_lt (l := o.timegrid) (i := j+1) (by omega)
      obtain ⟨b, hb⟩ := get_of_lt (l := o.B) (i := j+1) (by omega)
      obtain ⟨y, hy⟩ := get_of_lt (l := o.B) (i := j) (by omega)
      exact ⟨z, tj, b, y, hz, ht, hb, hy,
        hs j z b y tj h1 h2' (hZ' ▸ hz) ht (hB' ▸ hb) (hB' ▸ hy)⟩
  by_cases hdet : c.deterministic = true
  · obtain ⟨ys, r1, zt, r2, bs, h1, _, h3, ho⟩ :=
      (torchConstruct_det_iff env c hdet _ hg hk r r' o).1 h
    have l1 := chain_length h1
    refine main (pt N c.y1 :: ys) bs r2 ?_ (by rw [ho]) (by rw [ho]) h3
    simp at l1 ⊢; omega
  · have hdet : c.deterministic = false := by simpa using hdet
    by_cases hd2 : 2 ≤ d
    · obtain ⟨ys, r1, bs, h1, h3, ho⟩ := (torchConstruct_stoch_iff env c hdet _ hg hk hd2 r r' o).1 h
      have l1 := chain_length h1
      refine main _ bs r1 ?_ (by rw [ho]) (by rw [ho]) h3
      simp at l1 ⊢; omega
    · obtain ⟨t0, ts, he⟩ : ∃ t0 ts, o.timegrid = t0 :: ts := by
        rcases hh : o.timegrid with _ | ⟨a, b⟩
        · rw [hh] at hk; simp at hk
        · exact ⟨a, b, rfl⟩
      rw [he] at hg
      rw [torchConstruct_stoch_dim1 env c hdet t0 ts hg (by omega)] at h
      cases h

end
end DPFC
