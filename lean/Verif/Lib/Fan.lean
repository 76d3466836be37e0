import Verif.Props.Recurrence
import Verif.Props.Pins
import Verif.Lib.Control2

/-!
# The example without noise whose particles fan out

All slices after the first one are known in closed form and have spread; used to show that hypotheses of
the form `Spread` are met on real runs.
-/

namespace DPFC
open Spec

theorem fan_forward (N M d steps : ℕ) (hN : 2 ≤ N) (hs : 0 < steps) (r r' : ℕ) (hd : 0 < d)
    (o : Obj d N M ℝ) (h : construct exEnv (exFan d N M steps) r = .ok (o, r'))
    (hl : o.timegrid.length = steps + 1) : ∀ (i : ℕ) (x : Mat d N ℝ), o.Z[i]? = some x →
      ∀ a n, x a n = (exFan d N M steps).y1 a + i * n.val / 1000 := by
  obtain ⟨rs, _, hF⟩ := C09_forward_recurrence exEnv (exFan d N M steps) (by omega) rfl (.inl rfl) r r' o h
    (by omega)
  have hlen := (C08_storage_sizes exEnv _ hd r r' o (.inl h)).1
  intro i
  induction i with
  | zero =>
    intro x hx a n
    obtain ⟨S, hS, hv⟩ := (C05_forward_flows_start_at_y1 exEnv _ hd rfl r r' o (.inl h)).1 (.inr rfl)
    rw [hx] at hS; cases hS
    rw [hv]; simp
  | succ i ih =>
    intro y hy a n
    have hi : i + 1 < o.Z.length := (List.getElem?_eq_some_iff.1 hy).1
    have hx : o.Z[i]? = some o.Z[i] := List.getElem?_eq_getElem (by omega)
    have ht : o.timegrid[i]? = some o.timegrid[i] := List.getElem?_eq_getElem (by omega)
    have ihx := ih _ hx
    obtain ⟨raw, hst, h1, _⟩ := hF i _ y _ hx hy ht
    rw [h1 rfl]
    by_cases h0 : i = 0
    · rw [(hst.1 h0).1, noisy, ihx a n]
      simp only [exFan, fanDrift]
      push_cast; ring
    · have sx : Spread o.Z[i] := fun a => sdev_ne_zero (i := ⟨0, by omega⟩) (j := ⟨1, by omega⟩) (by
        rw [ihx, ihx]
        have : (i:ℝ) ≠ 0 := by exact_mod_cast h0
        intro hh
        simp only [Nat.cast_zero, mul_zero, Nat.cast_one, mul_one] at hh
        exact this (by linarith))
      rw [(hst.2 h0).1 sx, flowing, ihx a n]
      simp only [exFan, fanDrift]
      push_cast; ring

/-- All forward slices but the first have spread. -/
theorem fan_forward_spread (N M d steps : ℕ) (hN : 2 ≤ N) (hs : 0 < steps) (r r' : ℕ) (hd : 0 < d)
    (o : Obj d N M ℝ) (h : construct exEnv (exFan d N M steps) r = .ok (o, r'))
    (hl : o.timegrid.length = steps + 1) (i : ℕ) (hi : 1 ≤ i) (x : Mat d N ℝ) (hx : o.Z[i]? = some x) :
    Spread x := fun a => sdev_ne_zero (i := ⟨0, by omega⟩) (j := ⟨1, by omega⟩) (by
      rw [fan_forward N M d steps hN hs r r' hd o h hl i x hx,
        fan_forward N M d steps hN hs r r' hd o h hl i x hx]
      have : (i:ℝ) ≠ 0 := by exact_mod_cast (by omega : i ≠ 0)
      intro hh
      simp only [Nat.cast_zero, mul_zero, Nat.cast_one, mul_one] at hh
      exact this (by linarith))

/-- The numpy class constructs the example. -/
theorem fan_constructs (N M d steps : ℕ) (hN : 2 ≤ N) (hs : 0 < steps) (r : ℕ) :
    ∃ o r', construct exEnv (exFan d N M steps) r = .ok (o, r') ∧ o.timegrid.length = steps + 1 := by
  have hgr : (mkGrid (exFan d N M steps).t1 (exFan d N M steps).t2).length = steps + 1 :=
    exCfg_grid d N M steps true false false
  obtain ⟨o, r', h⟩ := construct_det_total exEnv (exFan d N M steps) (by omega) rfl
    (by rw [hgr]; omega) rfl (fun hh => by cases hh) (fun hh => by cases hh) r
  exact ⟨o, r', h, by rw [(construct_fields h).2, hgr]⟩

/-- The backward slices of the example. -/
theorem fan_backward (N M d steps : ℕ) (hN : 2 ≤ N) (r r' : ℕ) (hd : 0 < d)
    (o : Obj d N M ℝ) (h : construct exEnv (exFan d N M steps) r = .ok (o, r'))
    (hl : o.timegrid.length = steps + 1) : ∀ i : ℕ, i < steps → ∀ x : Mat d N ℝ, o.B[steps - i]? = some x →
      ∀ a n, x a n = (exFan d N M steps).y2 a - i * n.val / 1000 := by
  have hlen := (C08_storage_sizes exEnv _ hd r r' o (.inl h))
  intro i
  induction i with
  | zero =>
    intro hi x hx a n
    obtain ⟨S, hS, hv⟩ := C04_backward_flow_ends_at_y2 exEnv _ hd r r' o (.inl h) (by omega)
    rw [hl] at hS
    rw [show steps - 0 = steps + 1 - 1 by omega, hS] at hx; cases hx
    rw [hv]; simp
  | succ i ih =>
    intro hi y hy a n
    obtain ⟨rs, _, hB⟩ := C10_backward_recurrence exEnv (exFan d N M steps) (by omega) (.inl rfl) r r' o h
      (by omega)
    have e : steps - (i + 1) + 1 = steps - i := by omega
    have hb : o.B[steps - i]? = some o.B[steps - i] := List.getElem?_eq_getElem (by omega)
    have hz : o.Z[steps - i]? = some o.Z[steps - i] := List.getElem?_eq_getElem (by omega)
    have ht : o.timegrid[steps - i]? = some o.timegrid[steps - i] := List.getElem?_eq_getElem (by omega)
    have ihx := ih (by omega) _ hb
    have sz := fan_forward_spread N M d steps hN (by omega) r r' hd o h hl (steps - i) (by omega) _ hz
    obtain ⟨h1, h2⟩ := hB (steps - (i + 1)) _ _ y _ (by omega) (by omega) (by rw [e]; exact hz)
      (by rw [e]; exact hb) hy (by rw [e]; exact ht)
    by_cases h0 : i = 0
    · rw [(h1 (.inl (by omega))).1 sz]
      simp only [ihx a n]
      simp only [exFan, fanDrift]
      push_cast; ring
    · have sb : Spread o.B[steps - i] := fun a => sdev_ne_zero (i := ⟨0, by omega⟩) (j := ⟨1, by omega⟩) (by
        rw [ihx, ihx]
        have : (i:ℝ) ≠ 0 := by exact_mod_cast h0
        intro hh
        simp only [Nat.cast_zero, mul_zero, Nat.cast_one, mul_one] at hh
        exact this (by linarith))
      rw [(h2 (by
        rintro (hh | hh)
        · omega
        · cases hh)).1 sz sb]
      simp only [ihx a n]
      simp only [exFan, fanDrift]
      push_cast; ring

theorem fan_backward_spread (N M d steps : ℕ) (hN : 2 ≤ N) (r r' : ℕ) (hd : 0 < d)
    (o : Obj d N M ℝ) (h : construct exEnv (exFan d N M steps) r = .ok (o, r'))
    (hl : o.timegrid.length = steps + 1) (j : ℕ) (hj : 1 ≤ j) (hj2 : j < steps) (x : Mat d N ℝ)
    (hx : o.B[j]? = some x) : Spread x := fun a =>
  sdev_ne_zero (i := ⟨0, by omega⟩) (j := ⟨1, by omega⟩) (by
    have e : steps - (steps - j) = j := by omega
    have hv := fan_backward N M d steps hN r r' hd o h hl (steps - j) (by omega) x (by rw [e]; exact hx)
    rw [hv, hv]
    have : ((steps - j : ℕ):ℝ) ≠ 0 := by exact_mod_cast (by omega : steps - j ≠ 0)
    intro hh
    simp only [Nat.cast_zero, mul_zero, Nat.cast_one, mul_one] at hh
    exact this (by linarith))

/-- The torch class produces the same forward flow. -/
theorem fan_torch_forward (N M d steps : ℕ) (hN : 2 ≤ N) (hs : 0 < steps) (r r' : ℕ) (hd : 2 ≤ d)
    (o : Obj d N M ℝ) (h : torchConstruct exEnv (exFan d N M steps) r = .ok (o, r'))
    (hl : o.timegrid.length = steps + 1) : ∀ (i : ℕ) (x : Mat d N ℝ), o.Z[i]? = some x →
      ∀ a n, x a n = (exFan d N M steps).y1 a + i * n.val / 1000 := by
  obtain ⟨rs, _, hF⟩ := C09_torch_forward_recurrence exEnv (exFan d N M steps) (by omega) (by omega) rfl (.inl rfl)
    r r' o h (by omega)
  have hlen := (C08_storage_sizes exEnv _ (by omega) r r' o (.inr h)).1
  intro i
  induction i with
  | zero =>
    intro x hx a n
    obtain ⟨S, hS, hv⟩ := (C05_forward_flows_start_at_y1 exEnv _ (by omega) rfl r r' o (.inr h)).1 (.inr rfl)
    rw [hx] at hS; cases hS
    rw [hv]; simp
  | succ i ih =>
    intro y hy a n
    have hi : i + 1 < o.Z.length := (List.getElem?_eq_some_iff.1 hy).1
    have hx : o.Z[i]? = some o.Z[i] := List.getElem?_eq_getElem (by omega)
    have ht : o.timegrid[i]? = some o.timegrid[i] := List.getElem?_eq_getElem (by omega)
    have ihx := ih _ hx
    obtain ⟨raw, hst, h1, _⟩ := hF i _ y _ hx hy ht
    rw [h1 rfl]
    by_cases h0 : i = 0
    · rw [(hst.1 h0).1, noisy, ihx a n]
      simp only [exFan, fanDrift]
      push_cast; ring
    · rw [(hst.2 h0).2.2]
      simp only [ihx a n]
      simp only [exFan, fanDrift]
      push_cast; ring

theorem fan_torch_spread (N M d steps : ℕ) (hN : 2 ≤ N) (hs : 0 < steps) (r r' : ℕ) (hd : 2 ≤ d)
    (o : Obj d N M ℝ) (h : torchConstruct exEnv (exFan d N M steps) r = .ok (o, r'))
    (hl : o.timegrid.length = steps + 1) (i : ℕ) (hi : 1 ≤ i) (x : Mat d N ℝ) (hx : o.Z[i]? = some x) :
    Spread x := fun a => sdev_ne_zero (i := ⟨0, by omega⟩) (j := ⟨1, by omega⟩) (by
      rw [fan_torch_forward N M d steps hN hs r r' hd o h hl i x hx,
        fan_torch_forward N M d steps hN hs r r' hd o h hl i x hx]
      have : (i:ℝ) ≠ 0 := by exact_mod_cast (by omega : i ≠ 0)
      intro hh
      simp only [Nat.cast_zero, mul_zero, Nat.cast_one, mul_one] at hh
      exact this (by linarith))

/-- The backward slices of the example in the torch class. -/
theorem fan_torch_backward (N M d steps : ℕ) (hN : 2 ≤ N) (r r' : ℕ) (hd : 2 ≤ d)
    (o : Obj d N M ℝ) (h : torchConstruct exEnv (exFan d N M steps) r = .ok (o, r'))
    (hl : o.timegrid.length = steps + 1) : ∀ i : ℕ, i < steps → ∀ x : Mat d N ℝ, o.B[steps - i]? = some x →
      ∀ a n, x a n = (exFan d N M steps).y2 a - i * n.val / 1000 := by
  have hlen := C08_storage_sizes exEnv _ (by omega) r r' o (.inr h)
  intro i
  induction i with
  | zero =>
    intro hi x hx a n
    obtain ⟨S, hS, hv⟩ := C04_backward_flow_ends_at_y2 exEnv _ (by omega) r r' o (.inr h) (by omega)
    rw [hl] at hS
    rw [show steps - 0 = steps + 1 - 1 by omega, hS] at hx; cases hx
    rw [hv]; simp
  | succ i ih =>
    intro hi y hy a n
    obtain ⟨_, rs, _, _, _, hB, _⟩ := C10_torch_full_run exEnv (exFan d N M steps) (by omega) (by omega) rfl (.inl rfl) r r' o h
      (by omega)
    have e : steps - (i + 1) + 1 = steps - i := by omega
    have hb : o.B[steps - i]? = some o.B[steps - i] := List.getElem?_eq_getElem (by omega)
    have hz : o.Z[steps - i]? = some o.Z[steps - i] := List.getElem?_eq_getElem (by omega)
    have ht : o.timegrid[steps - i]? = some o.timegrid[steps - i] := List.getElem?_eq_getElem (by omega)
    have ihx := ih (by omega) _ hb
    have sz := fan_torch_spread N M d steps hN (by omega) r r' hd o h hl (steps - i) (by omega) _ hz
    obtain ⟨h1, h2⟩ := hB (steps - (i + 1)) _ _ y _ (by omega) (by omega) (by rw [e]; exact hz)
      (by rw [e]; exact hb) hy (by rw [e]; exact ht)
    by_cases h0 : i = 0
    · rw [(h1 (.inl (by omega))).1 sz]
      simp only [ihx a n]
      simp only [exFan, fanDrift]
      push_cast; ring
    · have sb : Spread o.B[steps - i] := fun a => sdev_ne_zero (i := ⟨0, by omega⟩) (j := ⟨1, by omega⟩) (by
        rw [ihx, ihx]
        have : (i:ℝ) ≠ 0 := by exact_mod_cast h0
        intro hh
        simp only [Nat.cast_zero, mul_zero, Nat.cast_one, mul_one] at hh
        exact this (by linarith))
      rw [(h2 (by
        rintro (hh | hh)
        · omega
        · cases hh)).1 sz sb]
      simp only [ihx a n]
      simp only [exFan, fanDrift]
      push_cast; ring

theorem fan_torch_backward_spread (N M d steps : ℕ) (hN : 2 ≤ N) (r r' : ℕ) (hd : 2 ≤ d)
    (o : Obj d N M ℝ) (h : torchConstruct exEnv (exFan d N M steps) r = .ok (o, r'))
    (hl : o.timegrid.length = steps + 1) (j : ℕ) (hj : 1 ≤ j) (hj2 : j < steps) (x : Mat d N ℝ)
    (hx : o.B[j]? = some x) : Spread x := fun a =>
  sdev_ne_zero (i := ⟨0, by omega⟩) (j := ⟨1, by omega⟩) (by
    have e : steps - (steps - j) = j := by omega
    have hv := fan_torch_backward N M d steps hN r r' hd o h hl (steps - j) (by omega) x (by rw [e]; exact hx)
    rw [hv, hv]
    have : ((steps - j : ℕ):ℝ) ≠ 0 := by exact_mod_cast (by omega : steps - j ≠ 0)
    intro hh
    simp only [Nat.cast_zero, mul_zero, Nat.cast_one, mul_one] at hh
    exact this (by linarith))

theorem exEnv_unit : UnitUniform exEnv := fun _ => ⟨by norm_num [exEnv], by norm_num [exEnv]⟩

end DPFC
