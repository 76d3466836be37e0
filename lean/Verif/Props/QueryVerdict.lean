import Verif.Spec.QueryVerdict
import Verif.Props.Bridge
import Verif.Props.TorchControl
import Verif.Props.Coverage
import Verif.Props.Estimators
import Verif.Props.Pins
import Verif.Props.Verdict
import Verif.Props.TorchVerdict
import Verif.Props.TorchFail

/-!
# C68: what a query on a constructed object can do

Outcome tables for `calculate_u` and `check_if_covered`: exact arithmetic, all indices, all column counts.
-/

namespace DPFC
open Spec
variable {ρ : Type} {N M d n c : ℕ}

theorem qv_pyAt_some {α : Type} {l : List α} {i : Int} (h : ¬ (i < -(l.length : Int) ∨ (l.length : Int) ≤ i)) :
    ∃ a, pyAt l i = some a := by
  unfold pyAt
  split
  · exact ⟨_, List.getElem?_eq_getElem (by omega)⟩
  · rw [if_pos (by omega)]
    exact ⟨_, List.getElem?_eq_getElem (by omega)⟩

theorem qv_pyAt_none {α : Type} {l : List α} {i : Int} (h : i < -(l.length : Int) ∨ (l.length : Int) ≤ i) :
    pyAt l i = none := by
  unfold pyAt
  split
  · exact List.getElem?_eq_none (by omega)
  · rw [if_neg (by omega)]

theorem qv_forFin_ok {σ : Type} : ∀ {d : ℕ} {F : Fin d → σ → Except PyErr σ} (_ : ∀ i s, ∃ s', F i s = .ok s') (s : σ),
    ∃ s', forFin d F s = .ok s'
  | 0, _, _, s => ⟨s, rfl⟩
  | d+1, F, h, s => by
    obtain ⟨s', hs⟩ := h 0 s
    rw [forFin, hs]
    exact qv_forFin_ok (d := d) (fun i s => h i.succ s) s'

/-- The kernel loop in reweighted Brownian-bridge mode. -/
theorem qv_kernelU_bridge (hN : 0 < N) (hd : 0 < d) (Sxx : Mat d M ℝ) (b z zr : Mat d N ℝ) (x : Mat n c ℝ) :
    Outcome (if c = 0 then some .typeError else if d < c then some .indexError
      else if d = 1 then some .indexError else if 2 < c then some .valueError
      else if c < d then some .indexError else none) (kernelU "RBF" Sxx b z (some zr) x) := by
  obtain ⟨d, rfl⟩ : ∃ e, d = e + 1 := ⟨d - 1, by omega⟩
  unfold kernelU
  by_cases hc0 : c = 0
  · subst hc0
    rw [if_pos rfl, forFin, scoreSepFn_zero]
    rfl
  rw [if_neg hc0]
  by_cases hgt : d + 1 < c
  · rw [if_pos hgt, forFin, scoreSepFn_gt (tr b) _ (lengthScales b) 0 x hgt]
    rfl
  rw [if_neg hgt]
  obtain ⟨v, hv⟩ := scoreSepFn_lt (tr b) (tr Sxx) (lengthScales b) 0 x (by omega) (by omega)
  by_cases hd1 : d + 1 = 1
  · rw [if_pos hd1, forFin, hv]
    simp only [Except.ok_bind', bndsZtr_real hN, clipGrid, dif_neg (show ¬ 2 ≤ d + 1 by omega)]
    rfl
  rw [if_neg hd1]
  by_cases hc3 : 2 < c
  · rw [if_pos hc3, forFin, hv]
    simp only [Except.ok_bind', bndsZtr_real hN, clipGrid, dif_pos (show 2 ≤ d + 1 by omega),
      dif_neg (show ¬ (c = 2 ∨ c = 1) by omega)]
    rfl
  rw [if_neg hc3]
  have hc' : c = 2 ∨ c = 1 := by omega
  have hall : ∀ (i : Fin (d+1)), ∃ v w, scoreSepFn (tr b) (tr Sxx) (lit 1 1000) "RBF"
      (.vec (lengthScales b)) (i.val + 1) x = .ok v ∧ ∃ gx, clipGrid (bz0 zr i) x = .ok gx ∧
      scoreSepFn (tr zr) (tr Sxx) (lit 1 1000) "RBF" (.vec (lengthScales zr)) (i.val + 1) gx = .ok w := by
    intro i
    obtain ⟨v, hv⟩ := scoreSepFn_lt (tr b) (tr Sxx) (lengthScales b) i x (by omega) (by omega)
    have hg : ∃ gx, clipGrid (bz0 zr i) x = .ok gx := by
      unfold clipGrid
      rw [dif_pos (by omega), dif_pos hc']
      exact ⟨_, rfl⟩
    obtain ⟨gx, hg⟩ := hg
    obtain ⟨w, hw⟩ := scoreSepFn_lt (tr zr) (tr Sxx) (lengthScales zr) i gx (by omega) (by omega)
    exact ⟨v, w, hv, gx, hg, hw⟩
  by_cases hlt : c < d + 1
  · rw [if_pos hlt]
    refine forFin_error_index _ (fun i s e hh => ?_) ⟨c, hlt⟩ (fun s => ?_)
    · obtain ⟨v, w, hv, gx, hg, hw⟩ := hall i
      simp only [hv, bndsZtr_real hN, hg, hw, Except.ok_bind', setOut] at hh
      split at hh
      · cases hh
      · injection hh with hh; exact hh.symm
    · obtain ⟨v, w, hv, gx, hg, hw⟩ := hall ⟨c, hlt⟩
      simp only [hv, bndsZtr_real hN, hg, hw, Except.ok_bind', setOut, lt_irrefl, if_false]
  · rw [if_neg hlt]
    refine qv_forFin_ok (fun i s => ?_) _
    obtain ⟨v, w, hv, gx, hg, hw⟩ := hall i
    simp only [hv, bndsZtr_real hN, hg, hw, Except.ok_bind', setOut, if_pos (show i.val < c by omega)]
    exact ⟨_, rfl⟩

/-- **C68**. On every object returned by the constructor, `calculate_u` does what the table `queryVerdict` says: which
exception it raises, if any, is decided by the number of grid points, the dimension, the number of columns of the
points, the mode and the index, never by the particles, the points or the random stream. -/
theorem C68_query_verdict (env : Env ρ ℝ) (cf : Cfg d N M ℝ) (hN : 0 < N) (hd : 0 < d) (r0 r1 : ρ)
    (o : Obj d N M ℝ) (ho : construct env cf r0 = .ok (o, r1)) (x : Mat n c ℝ) (ti : Int) (r : ρ) :
    Outcome (queryVerdict o.timegrid.length d c (cf.reweight && cf.brownBridge) ti) (calculateU env o x ti r) := by
  obtain ⟨hcfg, hgrid⟩ := construct_fields ho
  obtain ⟨lZ, lB, sT, lT⟩ := C08_storage_sizes env cf hd r0 r1 o (.inl ho)
  unfold queryVerdict
  by_cases hout : ti < -(o.timegrid.length : Int) ∨ (o.timegrid.length : Int) ≤ ti
  · rw [if_pos hout]
    show calculateU env o x ti r = _
    unfold calculateU
    rw [pyGet_of_none (qv_pyAt_none (by rw [lB]; exact hout))]
    rfl
  rw [if_neg hout]
  obtain ⟨b, hb⟩ := qv_pyAt_some (l := o.B) (i := ti) (by rw [lB]; exact hout)
  obtain ⟨z, hz⟩ := qv_pyAt_some (l := o.Z) (i := ti) (by rw [lZ]; exact hout)
  obtain ⟨zr, hr⟩ : ∃ zr, reference o ti = some zr := by
    unfold reference
    rw [hcfg]
    cases hm : (cf.reweight && cf.brownBridge) with
    | false => exact ⟨z, hz⟩
    | true =>
      rw [hm] at sT
      obtain ⟨T, hT⟩ := Option.isSome_iff_exists.1 sT
      rw [hT]
      exact qv_pyAt_some (by rw [lT T hT]; exact hout)
  by_cases he : Edge o.timegrid.length ti
  · rw [if_pos he, calculateU_edge env o x ti b z zr _ hb hz hr (interBox_real hN zr b) he]
    by_cases h : c < d
    · rw [if_pos h, edgeU_err npStd b zr x h]; rfl
    · rw [if_neg h, edgeU_ok npStd b zr x (by omega)]; exact ⟨_, rfl⟩
  rw [if_neg he]
  have hk : o.cfg.kern = "RBF" ∨ o.cfg.kern = "periodic" := by
    rw [hcfg]
    by_contra hn
    push Not at hn
    obtain ⟨e, h⟩ := (C31_unknown_kernel_raises env cf hd hn.1 hn.2 (by
      rw [← hgrid]; unfold Edge at he; omega) r0).1
    rw [ho] at h; cases h
  cases hm : (cf.reweight && cf.brownBridge) with
  | true =>
    simp only [if_true]
    rw [calculateU_inner env o x ti b z zr _ hb hz hr (interBox_real hN zr b) he, effKern_rbf hk, RandM.bind_app,
      npInducing_gen, hcfg, hm]
    simp only [if_true]
    have := qv_kernelU_bridge (n := n) (M := M) hN hd (tr (inducing (ibLow zr b) (ibHigh zr b) (unifs env d M r)))
      b z zr x
    revert this
    generalize (if c = 0 then some .typeError else if d < c then some .indexError
      else if d = 1 then some .indexError else if 2 < c then some .valueError
      else if c < d then some .indexError else none : Option PyErr) = v
    intro this
    cases v with
    | none =>
      obtain ⟨u, hu⟩ := this
      refine ⟨(u, unifsNext env d M r), ?_⟩
      erw [hu]
      rfl
    | some e =>
      have hu : kernelU "RBF" _ b z (some zr) x = .error e := this
      show _ = _
      erw [hu]
      rfl
  | false =>
    have hm' : (o.cfg.reweight && o.cfg.brownBridge) = false := by rw [hcfg]; exact hm
    by_cases hc : c = d
    · subst hc
      rw [if_neg (by omega), if_neg (by omega), if_neg (by simp), if_neg (by omega)]
      exact ⟨_, C39_interior_control env o hN hk hm' x ti he b z hb hz r⟩
    · have := C38_interior_layout env o hN hd hk hm' x ti he b z hb hz r hc
      by_cases h0 : c = 0
      · rw [if_pos h0] at this ⊢; exact this
      · rw [if_neg h0] at this ⊢
        by_cases h1 : d < c
        · rw [if_pos h1]; exact this
        · rw [if_neg h1, if_neg (by simp), if_pos (by omega)]; exact this

open Classical in
/-- **C68** (torch). -/
theorem C68_torch_query_verdict (env : Env ρ ℝ) (cf : Cfg d N M ℝ) (hN : 0 < N) (hd : 0 < d) (r0 r1 : ρ)
    (o : Obj d N M ℝ) (ho : torchConstruct env cf r0 = .ok (o, r1)) (x : Mat n c ℝ) (ti : Int) (r : ρ) :
    Outcome (torchQueryVerdict o.timegrid.length d c
      (∃ b z, pyAt o.B ti = some b ∧ reference o ti = some z ∧ BothFlat b z) ti) (torchCalculateU env o x ti r) := by
  obtain ⟨hcfg, _, hgrid⟩ := torchConstruct_fields ho
  obtain ⟨lZ, lB, sT, lT⟩ := C08_storage_sizes env cf hd r0 r1 o (.inr ho)
  unfold torchQueryVerdict
  by_cases hout : ti < -(o.timegrid.length : Int) ∨ (o.timegrid.length : Int) ≤ ti
  · rw [if_pos hout]
    show torchCalculateU env o x ti r = _
    unfold torchCalculateU
    rw [pyGet_of_none (qv_pyAt_none (by rw [lB]; exact hout))]
    rfl
  rw [if_neg hout]
  obtain ⟨b, hb⟩ := qv_pyAt_some (l := o.B) (i := ti) (by rw [lB]; exact hout)
  obtain ⟨z, hz⟩ := qv_pyAt_some (l := o.Z) (i := ti) (by rw [lZ]; exact hout)
  obtain ⟨zr, hr⟩ : ∃ zr, reference o ti = some zr := by
    unfold reference
    rw [hcfg]
    cases hm : (cf.reweight && cf.brownBridge) with
    | false => exact ⟨z, hz⟩
    | true =>
      rw [hm] at sT
      obtain ⟨T, hT⟩ := Option.isSome_iff_exists.1 sT
      rw [hT]
      exact qv_pyAt_some (by rw [lT T hT]; exact hout)
  by_cases he : Edge o.timegrid.length ti
  · rw [if_pos he, torchCalculateU_edge env o x ti b z zr hN hb hz hr he]
    by_cases h : c < d
    · rw [if_pos h, edgeU_err torchStd b zr x h]; rfl
    · rw [if_neg h, edgeU_ok torchStd b zr x (by omega)]; exact ⟨_, rfl⟩
  rw [if_neg he]
  have hk : o.cfg.kern = "RBF" ∨ o.cfg.kern = "periodic" := by
    rw [hcfg]
    by_contra hn
    push Not at hn
    have h3 : 3 ≤ o.timegrid.length := by unfold Edge at he; omega
    obtain ⟨e, h⟩ := (C31_unknown_kernel_raises env cf hd hn.1 hn.2 (by
      rw [hgrid, torchPoints_real] at h3; exact h3) r0).2
    rw [ho] at h; cases h
  by_cases hf : BothFlat b zr
  · rw [if_pos ⟨b, zr, hb, hr, hf⟩]
    obtain ⟨a, v, hv⟩ := hf
    exact C39_torch_no_spread_raises env o hN x ti he b z zr hb hz hr a v hv r
  rw [if_neg (by
    rintro ⟨b', z', h1, h2, h3⟩
    rw [hb] at h1; rw [hr] at h2
    cases h1; cases h2
    exact hf h3)]
  have hbox : ∀ a, hullLow zr b a < hullHigh zr b a := by
    intro a
    by_contra hn
    refine hf ⟨a, b a ⟨0, hN⟩, fun p => ?_⟩
    have l1 : ∀ (w : Fin N → ℝ) q, lo w ≤ w q := fun w q => (lo_le_iff hN _ _).2 ⟨q, le_refl _⟩
    have l2 : ∀ (w : Fin N → ℝ) q, w q ≤ hi w := fun w q => (le_hi_iff hN _ _).2 ⟨q, le_refl _⟩
    have hle : max (hi (zr a)) (hi (b a)) ≤ min (lo (zr a)) (lo (b a)) := not_lt.1 hn
    rw [max_le_iff, le_min_iff, le_min_iff] at hle
    obtain ⟨⟨q1, q2⟩, q3, q4⟩ := hle
    have := l1 (b a) p; have := l2 (b a) p; have := l1 (b a) ⟨0, hN⟩; have := l2 (b a) ⟨0, hN⟩
    have := l1 (zr a) p; have := l2 (zr a) p
    exact ⟨by linarith, by linarith⟩
  obtain ⟨g1, g2, g3⟩ := C38_torch_interior_layout (n := n) (c := c) env o hN hk ti he b z zr hb hz hr hbox r
  by_cases hd1 : d = 1
  · rw [if_pos hd1]; exact g3 hd1 x
  rw [if_neg hd1]
  have hok : ∀ y : Mat n d ℝ, ∃ a, torchCalculateU env o y ti r = .ok a := fun y =>
    ⟨_, C39_torch_interior_control env o hN (by omega) hk y ti he b z zr hb hz hr hbox r⟩
  by_cases hc : c = d ∨ c = 1
  · rw [if_pos hc]
    rcases hc with rfl | rfl
    · exact hok x
    · show ∃ a, _ = _
      rw [g1 (by omega) x]
      exact hok _
  · rw [if_neg hc]
    exact g2 (by omega) x (by tauto) (by tauto)

/-- **C68** (coverage). In both classes `check_if_covered` raises IndexError exactly for an index out of range or a
point with fewer than `dim` entries, and otherwise answers. -/
theorem C68_coverage_verdict (env : Env ρ ℝ) (cf : Cfg d N M ℝ) (hN : 0 < N) (hd : 0 < d) (r0 r1 : ρ)
    (o : Obj d N M ℝ) (ho : construct env cf r0 = .ok (o, r1) ∨ torchConstruct env cf r0 = .ok (o, r1))
    (X : Fin c → ℝ) (ti : Int) :
    Outcome (coverVerdict o.timegrid.length d c ti) (checkIfCovered o X ti) ∧
    Outcome (coverVerdict o.timegrid.length d c ti) (torchCheckIfCovered o X ti) := by
  obtain ⟨lZ, lB, _, _⟩ := C08_storage_sizes env cf hd r0 r1 o ho
  unfold coverVerdict
  by_cases hout : ti < -(o.timegrid.length : Int) ∨ (o.timegrid.length : Int) ≤ ti
  · rw [if_pos hout]
    obtain ⟨d, rfl⟩ : ∃ e, d = e + 1 := ⟨d - 1, by omega⟩
    have h1 : pyGet o.Z ti = .error .indexError := pyGet_of_none (qv_pyAt_none (by rw [lZ]; exact hout))
    constructor
    · show checkIfCovered o X ti = _
      unfold checkIfCovered
      rw [forFin, h1]; rfl
    · show torchCheckIfCovered o X ti = _
      unfold torchCheckIfCovered
      rw [forFin, h1]; rfl
  rw [if_neg hout]
  obtain ⟨b, hb⟩ := qv_pyAt_some (l := o.B) (i := ti) (by rw [lB]; exact hout)
  obtain ⟨z, hz⟩ := qv_pyAt_some (l := o.Z) (i := ti) (by rw [lZ]; exact hout)
  by_cases h : c < d
  · rw [if_pos h]
    exact ⟨checkIfCovered_out o X ti z b hz hb hN h, torchCheckIfCovered_out o X ti z b hz hb hN h⟩
  · rw [if_neg h]
    classical
    constructor
    · rw [(C42_lengths o hN ti z b hz hb X).2 (by omega), checkIfCovered_real o _ ti z b hz hb hN]
      exact ⟨_, rfl⟩
    · obtain ⟨N, rfl⟩ : ∃ m, N = m + 1 := ⟨N - 1, by omega⟩
      have e : torchCheckIfCovered o X ti
          = torchCheckIfCovered o (fun a => X (Fin.castLE (show d ≤ c by omega) a)) ti := by
        unfold torchCheckIfCovered
        refine congrFun (congrArg _ ?_) _
        funext ii cov
        simp only [dif_pos (show ii.val < c by omega), dif_pos ii.2, Fin.castLE]
      rw [e, torchCheckIfCovered_real o _ ti z b hz hb hN]
      exact ⟨_, rfl⟩

/-- **C68** (torch, deterministic objects). On an object of deterministic mode outside reweighted Brownian-bridge mode
the ValueError never occurs: between the edges the query returns for points with one or `dim` columns and raises
RuntimeError for all others. -/
theorem C68_torch_deterministic (env : Env ρ ℝ) (cf : Cfg d N M ℝ) (hN : 0 < N) (hd : 0 < d) (r0 r1 : ρ)
    (o : Obj d N M ℝ) (ho : torchConstruct env cf r0 = .ok (o, r1)) (hdet : cf.deterministic = true)
    (hm : (cf.reweight && cf.brownBridge) = false) (x : Mat n c ℝ) (ti : Int)
    (hin : 5 < ti ∧ ti < (o.timegrid.length : Int) - 5) (r : ρ) :
    Outcome (if c = d ∨ c = 1 then none else some .runtimeError) (torchCalculateU env o x ti r) := by
  classical
  obtain ⟨hcfg, _, hgrid⟩ := torchConstruct_fields ho
  obtain ⟨lZ, _⟩ := C08_storage_sizes env cf hd r0 r1 o (.inr ho)
  have h := C68_torch_query_verdict env cf hN hd r0 r1 o ho x ti r
  unfold torchQueryVerdict at h
  rw [if_neg (by omega), if_neg (by unfold Edge; omega)] at h
  have hd1 : d ≠ 1 := by
    rintro rfl
    have h3 : 3 ≤ (mkGrid cf.t1 cf.t2).length := by
      rw [← torchPoints_length, ← hgrid]; omega
    obtain ⟨e, he⟩ := C46_one_dimension_never_constructs env cf h3 r0
    rw [ho] at he; cases he
  rw [if_neg, if_neg hd1] at h
  · exact h
  · rintro ⟨b, z, _, hz, a, v, hv⟩
    have hz' : o.Z[ti.toNat]? = some z := by
      unfold reference at hz
      rw [hcfg, hm] at hz
      simp only [Bool.false_eq_true, if_false, pyAt] at hz
      rw [if_pos (by omega)] at hz
      exact hz
    obtain ⟨p, q, hpq⟩ := C45_object_has_spread env cf hdet r0 r1 o ho (by omega) ti.toNat (by omega) z hz' a
    rw [(hv p).2, (hv q).2] at hpq
    exact lt_irrefl _ hpq

/-- Reweighted Brownian-bridge objects of the numpy class in two and three dimensions, and a torch object, with 21 grid
points: points of the right width, too few and too many columns, an index out of range. -/
example (r : ℕ) : ∃ o o' ot r1 r2 r3, construct exEnv (exCfg 2 4 5 20 true true true) r = .ok (o, r1) ∧
    construct exEnv (exCfg 3 4 5 20 true true true) r = .ok (o', r2) ∧
    torchConstruct exEnv (exFan 3 4 5 20) r = .ok (ot, r3) ∧
    (∃ u, calculateU exEnv o (fun (_ : Fin 7) (_ : Fin 2) => (0:ℝ)) 10 r = .ok u) ∧
    calculateU exEnv o (fun (_ : Fin 7) (_ : Fin 2) => (0:ℝ)) 21 r = .error .indexError ∧
    calculateU exEnv o (fun (_ : Fin 7) (_ : Fin 1) => (0:ℝ)) 10 r = .error .indexError ∧
    calculateU exEnv o' (fun (_ : Fin 7) (_ : Fin 3) => (0:ℝ)) 10 r = .error .valueError ∧
    (∃ u, torchCalculateU exEnv ot (fun (_ : Fin 7) (_ : Fin 3) => (0:ℝ)) 10 r = .ok u) ∧
    torchCalculateU exEnv ot (fun (_ : Fin 7) (_ : Fin 2) => (0:ℝ)) 10 r = .error .runtimeError ∧
    checkIfCovered ot (fun (_ : Fin 3) => (0:ℝ)) (-22) = .error .indexError := by
  obtain ⟨o, r1, h, hl⟩ := ex_det 2 4 5 20 true true (by norm_num) (by norm_num) r
  obtain ⟨o', r2, h', hl'⟩ := ex_det 3 4 5 20 true true (by norm_num) (by norm_num) r
  obtain ⟨ot, r3, ht, hlt⟩ := ex_torch 3 4 5 20 (by norm_num) (by norm_num) (by norm_num) r
  have q := fun (c : ℕ) (x : Mat 7 c ℝ) ti => C68_query_verdict exEnv _ (by norm_num) (by norm_num) r r1 o h x ti r
  have q' := fun (c : ℕ) (x : Mat 7 c ℝ) ti => C68_query_verdict exEnv _ (by norm_num) (by norm_num) r r2 o' h' x ti r
  rw [hl] at q
  rw [hl'] at q'
  have qt := fun (c : ℕ) (x : Mat 7 c ℝ) => C68_torch_deterministic exEnv _ (by norm_num) (by norm_num) r r3 ot ht rfl
    rfl x 10 (by rw [hlt]; norm_num) r
  have qc := (C68_coverage_verdict exEnv _ (by norm_num) (by norm_num) r r3 ot (.inr ht) (fun (_ : Fin 3) => (0:ℝ))
    (-22)).1
  rw [hlt] at qc
  exact ⟨o, o', ot, r1, r2, r3, h, h', ht, q 2 _ 10, q 2 _ 21, q 1 _ 10, q' 3 _ 10, qt 3 _, qt 2 _, qc⟩

end DPFC
