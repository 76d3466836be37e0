import Verif.Lib.TorchFlow

/-! Case analysis of successful constructions, for any arithmetic. -/

set_option linter.unusedSectionVars false
set_option linter.unusedSimpArgs false

namespace DPFC
section
variable {K ρ : Type} [Add K] [Sub K] [Mul K] [Div K] [Neg K] [NumOps K]
variable {N M d : Nat}

theorem grid_cases {α : Type} (g : List α) :
    g = [] ∨ (∃ t0, g = [t0]) ∨ 2 ≤ g.length := by
  rcases g with _ | ⟨a, _ | ⟨b, g⟩⟩
  · exact .inl rfl
  · exact .inr (.inl ⟨a, rfl⟩)
  · exact .inr (.inr (by simp))

/-- What a successful numpy construction stores. -/
theorem construct_fields {env : Env ρ K} {c : Cfg d N M K} {r r' : ρ} {o : Obj d N M K}
    (h : construct env c r = .ok (o, r')) : o.cfg = c ∧ o.timegrid = mkGrid c.t1 c.t2 := by
  unfold construct at h
  by_cases hdet : c.deterministic = true <;> by_cases hb : (c.reweight && c.brownBridge) = true <;>
    simp only [hdet, hb, if_true, Bool.false_eq_true, if_false, RandM.bind_ok, RandM.pure_ok] at h
  · obtain ⟨Z, r1, _, zt, r2, _, zt', _, _, B, r3, _, rfl, _⟩ := h
    exact ⟨rfl, rfl⟩
  · obtain ⟨Z, r1, _, zt, r2, _, B, r3, _, rfl, _⟩ := h
    exact ⟨rfl, rfl⟩
  · obtain ⟨Z, r1, _, B, r3, _, rfl, _⟩ := h
    exact ⟨rfl, rfl⟩
  · obtain ⟨Z, r1, _, B, r3, _, rfl, _⟩ := h
    exact ⟨rfl, rfl⟩

theorem torchPoints_length (t1 t2 : K) : (torchPoints t1 t2).length = (mkGrid t1 t2).length := by
  simp [torchPoints, mkGrid, arange, npArange]

/-- What a successful torch construction stores. -/
theorem torchConstruct_fields {env : Env ρ K} {c : Cfg d N M K} {r r' : ρ} {o : Obj d N M K}
    (h : torchConstruct env c r = .ok (o, r')) :
    o.cfg = c ∧ torchGrid c.t1 c.t2 = .ok o.timegrid ∧ o.timegrid = torchPoints c.t1 c.t2 := by
  obtain ⟨grid, hg⟩ := torchConstruct_grid h
  have hm : grid = torchPoints c.t1 c.t2 := by
    unfold torchGrid at hg
    split at hg
    · cases hg
    · exact (Except.ok.inj hg).symm
  unfold torchConstruct at h
  rw [hg] at h
  by_cases hdet : c.deterministic = true <;> by_cases hb : (c.reweight && c.brownBridge) = true <;>
    simp only [hdet, hb, if_true, Bool.false_eq_true, if_false, RandM.bind_ok, RandM.pure_ok,
      RandM.liftM_ok] at h
  · obtain ⟨g, _, ⟨rfl, _⟩, Z, r1, _, zt, r2, _, zt', _, _, B, r3, _, rfl, _⟩ := h
    exact ⟨rfl, hg, hm⟩
  · obtain ⟨g, _, ⟨rfl, _⟩, Z, r1, _, zt, r2, _, B, r3, _, rfl, _⟩ := h
    exact ⟨rfl, hg, hm⟩
  · obtain ⟨g, _, ⟨rfl, _⟩, Z, r1, _, B, r3, _, rfl, _⟩ := h
    exact ⟨rfl, hg, hm⟩
  · obtain ⟨g, _, ⟨rfl, _⟩, Z, r1, _, B, r3, _, rfl, _⟩ := h
    exact ⟨rfl, hg, hm⟩

/-- The grid of a constructed object is not empty (numpy). -/
theorem construct_grid_ne {env : Env ρ K} {c : Cfg d N M K} {r r' : ρ} {o : Obj d N M K}
    (hd : 0 < d) (h : construct env c r = .ok (o, r')) : mkGrid c.t1 c.t2 ≠ [] := by
  intro he
  rw [construct_empty env c hd he] at h
  cases h

theorem torchConstruct_grid_ne {env : Env ρ K} {c : Cfg d N M K} {r r' : ρ} {o : Obj d N M K}
    (hd : 0 < d) (h : torchConstruct env c r = .ok (o, r')) : o.timegrid ≠ [] := by
  intro he
  have hg := (torchConstruct_fields h).2.1
  rw [he] at hg
  rw [torchConstruct_empty env c hd hg] at h
  cases h

/-- Backward flow of a constructed object with at least two grid points: the pinned ends and an
interior. -/
theorem construct_B {env : Env ρ K} {c : Cfg d N M K} {r r' : ρ} {o : Obj d N M K}
    (hd : 0 < d) (h : construct env c r = .ok (o, r')) :
    (o.timegrid.length = 1 ∧ o.B = [pt N c.y1]) ∨
    (2 ≤ o.timegrid.length ∧ ∃ bs : Traj d N K, bs.length + 2 = o.timegrid.length ∧
      o.B = pt N c.y1 :: (bs ++ [pt N c.y2])) := by
  obtain ⟨hc, hg⟩ := construct_fields h
  rw [hg]
  rcases grid_cases (mkGrid c.t1 c.t2) with he | ⟨t0, he⟩ | h2
  · exact absurd he (construct_grid_ne hd h)
  · left
    refine ⟨by rw [he]; rfl, ?_⟩
    by_cases hdet : c.deterministic = true
    · rw [construct_det_single env c hdet t0 he] at h
      obtain ⟨rfl, _⟩ := RandM.pure_ok.1 h
      rfl
    · have hdet : c.deterministic = false := by simpa using hdet
      by_cases hd2 : 2 ≤ d
      · rw [construct_stoch_single env c hdet hd2 t0 he] at h
        obtain ⟨rfl, _⟩ := RandM.pure_ok.1 h
        rfl
      · rw [construct_stoch_dim1 env c hdet (by rw [he]; simp) (by omega)] at h
        cases h
  · right
    refine ⟨h2, ?_⟩
    by_cases hdet : c.deterministic = true
    · obtain ⟨ys, r1, zt, r2, bs, h1, _, h3, rfl⟩ := (construct_det_iff env c hdet h2 r r' o).1 h
      refine ⟨bs.reverse, ?_, rfl⟩
      have l1 := chain_length h1
      have l3 := chain_length h3
      simp [visits] at l1 l3
      rw [List.length_reverse]
      omega
    · have hdet : c.deterministic = false := by simpa using hdet
      by_cases hd2 : 2 ≤ d
      · obtain ⟨ys, r1, bs, h1, h3, rfl⟩ := (construct_stoch_iff env c hdet h2 hd2 r r' o).1 h
        refine ⟨bs.reverse, ?_, rfl⟩
        have l1 := chain_length h1
        have l3 := chain_length h3
        simp [visits] at l1 l3
        rw [List.length_reverse]
        omega
      · rw [construct_stoch_dim1 env c hdet (by omega) (by omega)] at h
        cases h

theorem torchConstruct_B {env : Env ρ K} {c : Cfg d N M K} {r r' : ρ} {o : Obj d N M K}
    (hd : 0 < d) (h : torchConstruct env c r = .ok (o, r')) :
    (o.timegrid.length = 1 ∧ o.B = [pt N c.y1]) ∨
    (2 ≤ o.timegrid.length ∧ ∃ bs : Traj d N K, bs.length + 2 = o.timegrid.length ∧
      o.B = pt N c.y1 :: (bs ++ [pt N c.y2])) := by
  obtain ⟨hc, hg, _⟩ := torchConstruct_fields h
  rcases grid_cases o.timegrid with he | ⟨t0, he⟩ | h2
  · exact absurd he (torchConstruct_grid_ne hd h)
  · left
    refine ⟨by rw [he]; rfl, ?_⟩
    rw [he] at hg
    by_cases hdet : c.deterministic = true
    · rw [torchConstruct_det_single env c hdet t0 hg] at h
      obtain ⟨rfl, _⟩ := RandM.pure_ok.1 h
      rfl
    · have hdet : c.deterministic = false := by simpa using hdet
      by_cases hd2 : 2 ≤ d
      · rw [torchConstruct_stoch_single env c hdet hd2 t0 hg] at h
        obtain ⟨rfl, _⟩ := RandM.pure_ok.1 h
        rfl
      · rw [torchConstruct_stoch_dim1 env c hdet t0 [] hg (by omega)] at h
        cases h
  · right
    refine ⟨h2, ?_⟩
    by_cases hdet : c.deterministic = true
    · obtain ⟨ys, r1, zt, r2, bs, h1, _, h3, ho⟩ :=
        (torchConstruct_det_iff env c hdet _ hg h2 r r' o).1 h
      refine ⟨bs.reverse, ?_, by rw [ho]⟩
      have l1 := chain_length h1
      have l3 := chain_length h3
      simp [visits] at l1 l3
      rw [List.length_reverse]
      omega
    · have hdet : c.deterministic = false := by simpa using hdet
      by_cases hd2 : 2 ≤ d
      · obtain ⟨ys, r1, bs, h1, h3, ho⟩ :=
          (torchConstruct_stoch_iff env c hdet _ hg h2 hd2 r r' o).1 h
        refine ⟨bs.reverse, ?_, by rw [ho]⟩
        have l1 := chain_length h1
        have l3 := chain_length h3
        simp [visits] at l1 l3
        rw [List.length_reverse]
        omega
      · obtain ⟨t0, ts, he⟩ : ∃ t0 ts, o.timegrid = t0 :: ts := by
          rcases hh : o.timegrid with _ | ⟨a, b⟩
          · rw [hh] at h2; simp at h2
          · exact ⟨a, b, rfl⟩
        rw [he] at hg
        rw [torchConstruct_stoch_dim1 env c hdet t0 ts hg (by omega)] at h
        cases h

/-- A chain on a concatenation. -/
theorem chain_append {τ S : Type} (step : Nat → τ → S → RandM ρ S) :
    ∀ (ts us : List τ) (ti : Nat) (x : S), chain step ti (ts ++ us) x = (do
      let ys ← chain step ti ts x
      let zs ← chain step (ti + ts.length) us ((x :: ys).getLast (by simp))
      pure (ys ++ zs))
  | [], us, ti, x => by
    simp only [List.nil_append, chain, pure_bind, List.length_nil, Nat.add_zero,
      List.getLast_singleton, List.nil_append, bind_pure]
  | t :: ts, us, ti, x => by
    simp only [List.cons_append, chain, bind_assoc, pure_bind]
    congr 1
    funext y
    rw [chain_append step ts us (ti+1) y]
    simp only [bind_assoc, pure_bind, List.length_cons, List.getLast_cons_cons, List.cons_append,
      Nat.add_assoc, Nat.add_comm 1]

/-- Two successful chains from the same state with a common prefix of inputs agree on it. -/
theorem chain_prefix {τ S : Type} {step : Nat → τ → S → RandM ρ S} {ts us vs : List τ} {ti : Nat}
    {x : S} {r r1 r2 : ρ} {ys zs : List S}
    (h1 : chain step ti (ts ++ us) x r = .ok (ys, r1))
    (h2 : chain step ti (ts ++ vs) x r = .ok (zs, r2)) : ys.take ts.length = zs.take ts.length := by
  rw [chain_append] at h1 h2
  simp only [RandM.bind_ok, RandM.pure_ok] at h1 h2
  obtain ⟨a, ra, ha, b, rb, hb, rfl, _⟩ := h1
  obtain ⟨a', ra', ha', b', rb', hb', rfl, _⟩ := h2
  rw [ha] at ha'
  cases ha'
  have := chain_length ha
  rw [← this]
  simp

end
end DPFC
