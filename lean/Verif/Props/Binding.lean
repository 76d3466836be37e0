import Verif.Lib.Binding
import Verif.Props.Flags

/-!
# Property C110: positional arguments, keywords and defaults

`bindArgs sig pos kw` is the list of values of the parameters in the call `callee(*pos, **kw)`.
-/

namespace DPFC
open Spec
variable {d N M : ℕ} {K : Type} [NumOps K]

/-- The signatures of the library and of the constructors in the example scripts. -/
def signatures : List (List (Param (PyV d N K))) :=
  [npSig, torchSig, scriptSig, kuramotoSig, scoreSig, scoreAllSig, torchScoreSig]

theorem signatures_nodup : ∀ sig ∈ (signatures : List (List (Param (PyV d N K)))), NamesNodup sig := by
  intro sig h
  simp only [signatures, List.mem_cons, List.not_mem_nil, or_false] at h
  rcases h with rfl | rfl | rfl | rfl | rfl | rfl | rfl <;>
    simp [NamesNodup, npSig, torchSig, scriptSig, kuramotoSig, scoreSig, scoreAllSig, torchScoreSig]

/-- **C110** (outcome of every call). A call of one of these callables goes through iff it is well-formed; then every
parameter has the value given by position, else by keyword, else its default. Any other call raises TypeError. -/
theorem C110_outcome (sig : List (Param (PyV d N K))) (hsig : sig ∈ (signatures : List (List (Param (PyV d N K)))))
    (pos : List (PyV d N K)) (kw : List (String × PyV d N K)) :
    (WellFormed sig pos kw ∧ ∃ vals, bindArgs sig pos kw = .ok vals ∧ vals.length = sig.length ∧
      ∀ (i : ℕ) (p : Param (PyV d N K)), sig[i]? = some p → ∃ v, vals[i]? = some v ∧ Gets pos kw i p v) ∨
    (¬ WellFormed sig pos kw ∧ bindArgs sig pos kw = .error .typeError) := by
  have hn := signatures_nodup sig hsig
  by_cases hw : WellFormed sig pos kw
  · left
    refine ⟨hw, ?_⟩
    obtain ⟨w0, w1, w2, w3⟩ := hw
    have hex : ∀ (i : Fin sig.length), ∃ v, Gets pos kw i.val sig[i] v := by
      intro i
      by_cases hi : i.val < pos.length
      · exact ⟨pos[i.val], .inl (List.getElem?_eq_getElem hi)⟩
      · by_cases hv : ∃ v, (sig[i].name, v) ∈ kw
        · obtain ⟨v, hv⟩ := hv
          exact ⟨v, .inr (.inl ⟨by omega, hv⟩)⟩
        · push Not at hv
          cases hd : sig[i].default with
          | some v => exact ⟨v, .inr (.inr ⟨by omega, hv, hd⟩)⟩
          | none =>
            rcases w3 i.val _ (List.getElem?_eq_getElem i.2) hd with h | ⟨v, h⟩
            · exact absurd h hi
            · exact absurd h (hv v)
    choose v hv using hex
    have key : (List.ofFn v).length = sig.length ∧ ∀ (i : ℕ) (p : Param (PyV d N K)), sig[i]? = some p →
        ∃ w, (List.ofFn v)[i]? = some w ∧ Gets pos kw i p w := by
      refine ⟨by simp, fun i p hp => ?_⟩
      obtain ⟨hi, rfl⟩ := List.getElem?_eq_some_iff.1 hp
      exact ⟨v ⟨i, hi⟩, by simp [List.getElem?_ofFn, hi], hv ⟨i, hi⟩⟩
    exact ⟨List.ofFn v, (bindArgs_ok hn pos kw _).2 ⟨⟨w0, w1, w2, w3⟩, key.1, key.2⟩, key.1, key.2⟩
  · right
    refine ⟨hw, ?_⟩
    cases h : bindArgs sig pos kw with
    | error e => rw [bindArgs_error pos kw h]
    | ok vals => exact absurd ((bindArgs_ok hn pos kw vals).1 h).1 hw

/-- **C110** (order of keywords). Permuting the keywords changes nothing. -/
theorem C110_keyword_order (sig : List (Param (PyV d N K)))
    (hsig : sig ∈ (signatures : List (List (Param (PyV d N K))))) (pos : List (PyV d N K))
    (kw kw' : List (String × PyV d N K)) (h : kw.Perm kw') : bindArgs sig pos kw = bindArgs sig pos kw' := by
  have hn := signatures_nodup sig hsig
  have key : ∀ (kw kw' : List (String × PyV d N K)), kw.Perm kw' → ∀ vals, bindArgs sig pos kw = .ok vals →
      bindArgs sig pos kw' = .ok vals := by
    intro kw kw' hp vals hb
    obtain ⟨⟨w0, w1, w2, w3⟩, hl, hg⟩ := (bindArgs_ok hn pos kw vals).1 hb
    refine (bindArgs_ok hn pos kw' vals).2 ⟨⟨w0, ?_, ?_, ?_⟩, hl, ?_⟩
    · exact ((hp.map Prod.fst).nodup_iff).1 w1
    · exact fun n v hv => w2 n v (hp.mem_iff.2 hv)
    · intro i p hp' hd
      rcases w3 i p hp' hd with h | ⟨v, h⟩
      · exact .inl h
      · exact .inr ⟨v, hp.mem_iff.1 h⟩
    · intro i p hp'
      obtain ⟨v, hv, hg⟩ := hg i p hp'
      refine ⟨v, hv, ?_⟩
      rcases hg with hg | ⟨hi, hg⟩ | ⟨hi, hno, hg⟩
      · exact .inl hg
      · exact .inr (.inl ⟨hi, hp.mem_iff.1 hg⟩)
      · exact .inr (.inr ⟨hi, fun w hw => hno w (hp.mem_iff.2 hw), hg⟩)
  cases h1 : bindArgs sig pos kw with
  | ok vals => rw [key kw kw' h vals h1]
  | error e =>
    cases h2 : bindArgs sig pos kw' with
    | ok vals => rw [key kw' kw h.symm vals h2] at h1; cases h1
    | error e' => rw [bindArgs_error _ _ h1, bindArgs_error _ _ h2]

/-- **C110** (position or keyword). Giving the last positional argument by keyword instead changes nothing. -/
theorem C110_position_or_keyword (sig : List (Param (PyV d N K)))
    (hsig : sig ∈ (signatures : List (List (Param (PyV d N K))))) (pos : List (PyV d N K)) (v : PyV d N K)
    (kw : List (String × PyV d N K)) (p : Param (PyV d N K)) (hp : sig[pos.length]? = some p) :
    bindArgs sig (pos ++ [v]) kw = bindArgs sig pos ((p.name, v) :: kw) := by
  have hn := signatures_nodup sig hsig
  have hlt : pos.length < sig.length := (List.getElem?_eq_some_iff.1 hp).1
  have e1 : pos.map some ++ List.replicate (sig.length - pos.length) none
      = pos.map some ++ none :: List.replicate (sig.length - (pos ++ [v]).length) none := by
    rw [← List.replicate_succ]; congr 2; simp; omega
  unfold bindArgs
  rw [if_neg (by simp; omega), if_neg (by omega)]
  have hf := (findIdx_name hn p.name pos.length).2 ⟨p, hp, rfl⟩
  conv_rhs => rw [bindKw, hf]
  rw [e1]
  have hs : (pos.map some ++ none :: List.replicate (sig.length - (pos ++ [v]).length) none)[pos.length]?
      = some none := by
    rw [List.getElem?_append_right (by simp)]; simp
  simp only [hs]
  rw [List.set_append_right _ _ (by simp)]
  simp

/-- **C110** (defaults). The call with the eight required arguments, `M` last, is the deterministic run without
reweighting, constraint and bridge, with the RBF kernel. -/
theorem C110_defaults (t1 t2 g : K) (y1 y2 : Fin d → K) (f : Drift d N K) :
    (bindArgs npSig [.num t1, .num t2, .state y1, .state y2, .drift f, .num g, .int N, .int M] []).map (cfgFrom M)
      = .ok (some ⟨t1, t2, y1, y2, f, g, false, none, "nonparametric", true, "RBF", none, false, true⟩) := by
  simp only [bindArgs, npSig, bindKw, List.length_cons, List.length_nil]
  simp [fillDefaults, Except.map, cfgFrom]

/-- **C110** (switching to torch). Every call that the numpy constructor accepts is accepted by the torch constructor with
the same values, and `device=None`. Conversely a call accepted by torch that does not mention `device` is
accepted by numpy with the same values; one that passes `device`, by keyword or as 17th argument, raises TypeError
in numpy. -/
theorem C110_class_switch (pos : List (PyV d N K)) (kw : List (String × PyV d N K)) :
    (∀ vals, bindArgs npSig pos kw = .ok vals → bindArgs torchSig pos kw = .ok (vals ++ [.none])) ∧
    (∀ vals, bindArgs torchSig pos kw = .ok vals → pos.length ≤ 16 → (∀ v, ("device", v) ∉ kw) →
      bindArgs npSig pos kw = .ok (vals.take 16)) ∧
    ((16 < pos.length ∨ ∃ v, ("device", v) ∈ kw) → bindArgs npSig pos kw = .error .typeError) := by
  have hnp : NamesNodup (npSig : List (Param (PyV d N K))) := signatures_nodup _ (by simp [signatures])
  have hto : NamesNodup (torchSig : List (Param (PyV d N K))) := signatures_nodup _ (by simp [signatures])
  have hl : (npSig : List (Param (PyV d N K))).length = 16 := rfl
  have hl' : (torchSig : List (Param (PyV d N K))).length = 17 := rfl
  have hsplit : (torchSig : List (Param (PyV d N K))) = npSig ++ [⟨"device", some .none⟩] := rfl
  have hidx : ∀ i, i < 16 → (torchSig : List (Param (PyV d N K)))[i]? = (npSig : List (Param (PyV d N K)))[i]? := by
    intro i hi
    rw [hsplit, List.getElem?_append_left (by rw [hl]; exact hi)]
  have hdev : (torchSig : List (Param (PyV d N K)))[16]? = some ⟨"device", some .none⟩ := rfl
  have hno : ∀ (i : ℕ) (p : Param (PyV d N K)), (npSig : List (Param (PyV d N K)))[i]? = some p → p.name ≠ "device" := by
    intro i p hp e
    have hi : i < 16 := by rw [← hl]; exact (List.getElem?_eq_some_iff.1 hp).1
    have := (names_inj hto (by rw [hidx i hi]; exact hp) hdev (by rw [e])).1
    omega
  refine ⟨fun vals hb => ?_, fun vals hb hpos hkw => ?_, fun h => ?_⟩
  · obtain ⟨⟨w0, w1, w2, w3⟩, hv, hg⟩ := (bindArgs_ok hnp pos kw vals).1 hb
    have hkw : ∀ v, ("device", v) ∉ kw := by
      intro v hv
      obtain ⟨i, p, hp, hn, _⟩ := w2 _ v hv
      exact hno i p hp hn
    refine (bindArgs_ok hto pos kw _).2 ⟨⟨by rw [hl] at w0; rw [hl']; omega, w1, fun n v hv => ?_, fun i p hp hd => ?_⟩,
      by rw [List.length_append, hv]; rfl, fun i p hp => ?_⟩
    · obtain ⟨i, p, hp, hn, hi⟩ := w2 n v hv
      have : i < 16 := by rw [← hl]; exact (List.getElem?_eq_some_iff.1 hp).1
      exact ⟨i, p, by rw [hidx i this]; exact hp, hn, hi⟩
    · have : i < 17 := by rw [← hl']; exact (List.getElem?_eq_some_iff.1 hp).1
      by_cases hi : i < 16
      · exact w3 i p (by rw [← hidx i hi]; exact hp) hd
      · obtain rfl : i = 16 := by omega
        rw [hdev] at hp; cases hp; cases hd
    · have : i < 17 := by rw [← hl']; exact (List.getElem?_eq_some_iff.1 hp).1
      by_cases hi : i < 16
      · obtain ⟨v, h1, h2⟩ := hg i p (by rw [← hidx i hi]; exact hp)
        exact ⟨v, by rw [List.getElem?_append_left (by rw [hv, hl]; exact hi)]; exact h1, h2⟩
      · obtain rfl : i = 16 := by omega
        rw [hdev] at hp; cases hp
        refine ⟨.none, ?_, .inr (.inr ⟨by rw [hl] at w0; exact w0, hkw, rfl⟩)⟩
        rw [List.getElem?_append_right (by rw [hv, hl]), hv, hl]; rfl
  · obtain ⟨⟨w0, w1, w2, w3⟩, hv, hg⟩ := (bindArgs_ok hto pos kw vals).1 hb
    refine (bindArgs_ok hnp pos kw _).2 ⟨⟨by rw [hl]; exact hpos, w1, fun n v hv => ?_, fun i p hp hd => ?_⟩,
      by rw [List.length_take, hv, hl', hl]; rfl, fun i p hp => ?_⟩
    · obtain ⟨i, p, hp, hn, hi⟩ := w2 n v hv
      have : i < 17 := by rw [← hl']; exact (List.getElem?_eq_some_iff.1 hp).1
      by_cases hi' : i < 16
      · exact ⟨i, p, by rw [← hidx i hi']; exact hp, hn, hi⟩
      · obtain rfl : i = 16 := by omega
        rw [hdev] at hp; cases hp
        exact absurd hv (by rw [← hn]; exact hkw v)
    · have hi : i < 16 := by rw [← hl]; exact (List.getElem?_eq_some_iff.1 hp).1
      exact w3 i p (by rw [hidx i hi]; exact hp) hd
    · have hi : i < 16 := by rw [← hl]; exact (List.getElem?_eq_some_iff.1 hp).1
      obtain ⟨v, h1, h2⟩ := hg i p (by rw [hidx i hi]; exact hp)
      exact ⟨v, by rw [List.getElem?_take, if_pos hi]; exact h1, h2⟩
  · rcases C110_outcome npSig (by simp [signatures]) pos kw with ⟨⟨w0, _, w2, _⟩, _⟩ | ⟨_, h'⟩
    · rcases h with h | ⟨v, h⟩
      · rw [hl] at w0; omega
      · obtain ⟨i, p, hp, hn, _⟩ := w2 _ v h
        exact absurd hn (hno i p hp)
    · exact h'

/-- **C110** (third argument of the score estimators). The same positional call means different things in the numpy and
torch estimators: the third argument is `func_out` in numpy and the lengthscale in torch. By keyword it is the same
everywhere. -/
theorem C110_score_third_argument (X Z a : PyV d N K) :
    (∃ vals, bindArgs scoreAllSig [X, Z, a] [] = .ok vals ∧ HasValue scoreAllSig vals "func_out" a ∧
      HasValue scoreAllSig vals "l" (.int 1)) ∧
    (∃ vals, bindArgs scoreSig [X, Z, a] [] = .ok vals ∧ HasValue scoreSig vals "func_out" a ∧
      HasValue scoreSig vals "l" (.int 1)) ∧
    (∃ vals, bindArgs torchScoreSig [X, Z, a] [] = .ok vals ∧ HasValue torchScoreSig vals "l" a ∧
      HasValue torchScoreSig vals "func_out" (.bool false)) ∧
    ∀ sig ∈ [scoreAllSig, scoreSig, torchScoreSig], ∃ vals, bindArgs sig [X, Z] [("l", a)] = .ok vals ∧
      HasValue sig vals "l" a ∧ HasValue sig vals "func_out" (.bool false) := by
  refine ⟨⟨_, rfl, ⟨2, _, rfl, rfl, rfl⟩, ⟨5, _, rfl, rfl, rfl⟩⟩, ⟨_, rfl, ⟨2, _, rfl, rfl, rfl⟩, ⟨5, _, rfl, rfl, rfl⟩⟩,
    ⟨_, rfl, ⟨2, _, rfl, rfl, rfl⟩, ⟨3, _, rfl, rfl, rfl⟩⟩, fun sig h => ?_⟩
  simp only [List.mem_cons, List.not_mem_nil, or_false] at h
  rcases h with rfl | rfl | rfl
  · exact ⟨_, rfl, ⟨5, _, rfl, rfl, rfl⟩, ⟨2, _, rfl, rfl, rfl⟩⟩
  · exact ⟨_, rfl, ⟨5, _, rfl, rfl, rfl⟩, ⟨2, _, rfl, rfl, rfl⟩⟩
  · exact ⟨_, rfl, ⟨2, _, rfl, rfl, rfl⟩, ⟨3, _, rfl, rfl, rfl⟩⟩

/-- **C110** (calls in the style of the scripts). The nine positional arguments `t1, t2, y1, y2, f, g, N, k, M` of the
constructors in the example scripts, passed to the library constructors, are accepted: the number of time points
becomes the number of inducing points and the number of inducing points becomes the switch `reweight`. -/
theorem C110_script_style (t1 t2 y1 y2 f g n k m : PyV d N K) :
    (∀ sig ∈ [scriptSig, kuramotoSig], ∃ vals, bindArgs sig [t1, t2, y1, y2, f, g, n, k, m] [] = .ok vals ∧
      HasValue sig vals "k" k ∧ HasValue sig vals "M" m ∧ HasValue sig vals "reweight" (.bool false)) ∧
    ∀ sig ∈ [npSig, torchSig], ∃ vals, bindArgs sig [t1, t2, y1, y2, f, g, n, k, m] [] = .ok vals ∧
      HasValue sig vals "M" k ∧ HasValue sig vals "reweight" m ∧ HasValue sig vals "U" .none := by
  constructor
  · intro sig h
    simp only [List.mem_cons, List.not_mem_nil, or_false] at h
    rcases h with rfl | rfl
    · exact ⟨_, rfl, ⟨7, _, rfl, rfl, rfl⟩, ⟨8, _, rfl, rfl, rfl⟩, ⟨9, _, rfl, rfl, rfl⟩⟩
    · exact ⟨_, rfl, ⟨7, _, rfl, rfl, rfl⟩, ⟨8, _, rfl, rfl, rfl⟩, ⟨9, _, rfl, rfl, rfl⟩⟩
  · intro sig h
    simp only [List.mem_cons, List.not_mem_nil, or_false] at h
    rcases h with rfl | rfl
    · exact ⟨_, rfl, ⟨7, _, rfl, rfl, rfl⟩, ⟨8, _, rfl, rfl, rfl⟩, ⟨9, _, rfl, rfl, rfl⟩⟩
    · exact ⟨_, rfl, ⟨7, _, rfl, rfl, rfl⟩, ⟨8, _, rfl, rfl, rfl⟩, ⟨9, _, rfl, rfl, rfl⟩⟩

/-- **C110** (calls in the style of the scripts run silently). With at least two inducing points such a call of the library
constructors is not an error, and is not reweighted either: it is the default run with as many inducing points
as the script has time points, and the number of inducing points is ignored. -/
theorem C110_script_style_silent {ρ : Type} [Add K] [Sub K] [Mul K] [Div K] [Neg K] (env : Env ρ K) (t1 t2 g : K)
    (y1 y2 : Fin d → K) (f : Drift d N K) (k m : ℕ) (hm : 2 ≤ m) :
    (∃ vals c s, bindArgs npSig [.num t1, .num t2, .state y1, .state y2, .drift f, .num g, .int N, .int k, .int m] [] = .ok vals ∧
      flagCfgFrom k vals = some (c, s) ∧ constructFlags env c s = construct env
        (⟨t1, t2, y1, y2, f, g, false, none, "nonparametric", true, "RBF", none, false, true⟩ : Cfg d N k K)) ∧
    (∃ vals c s, bindArgs torchSig [.num t1, .num t2, .state y1, .state y2, .drift f, .num g, .int N, .int k, .int m] [] = .ok vals ∧
      flagCfgFrom k vals = some (c, s) ∧ torchConstructFlags env c s = torchConstruct env
        (⟨t1, t2, y1, y2, f, g, false, none, "nonparametric", true, "RBF", none, false, true⟩ : Cfg d N k K)) := by
  obtain ⟨m, rfl⟩ : ∃ j, m = j + 2 := ⟨m - 2, by omega⟩
  refine ⟨⟨_, ⟨t1, t2, y1, y2, f, g, true, none, "nonparametric", true, "RBF", none, false, true⟩,
    ⟨.truthy, .no, .yes⟩, rfl, ?_, ?_⟩, ⟨_, ⟨t1, t2, y1, y2, f, g, true, none, "nonparametric", true, "RBF", none, false, true⟩,
    ⟨.truthy, .no, .yes⟩, rfl, ?_, ?_⟩⟩
  · simp [flagCfgFrom, flagOf, cfgFrom, Flag.truth, Flag.ofBool]
  · exact (C105_runs env _ ⟨.truthy, .no, .yes⟩ (by simp [Flag.truth])).1
  · simp [flagCfgFrom, flagOf, cfgFrom, Flag.truth, Flag.ofBool]
  · exact (C105_runs env _ ⟨.truthy, .no, .yes⟩ (by simp [Flag.truth])).2

/-! ### concrete calls -/

/-- The call of the example script, `DPFC(t1, t2, y1, y2, f, g, N, M, dens_est='nonparametric', deterministic=True)`, is
well-formed, and means the same as the one without keywords. -/
example (t1 t2 y1 y2 f g n m : PyV d N K) :
    WellFormed npSig [t1, t2, y1, y2, f, g, n, m] [("dens_est", .str "nonparametric"), ("deterministic", .bool true)] ∧
    bindArgs npSig [t1, t2, y1, y2, f, g, n, m] [("dens_est", .str "nonparametric"), ("deterministic", .bool true)]
      = bindArgs npSig [t1, t2, y1, y2, f, g, n, m] [] := by
  refine ⟨?_, rfl⟩
  have h : bindArgs npSig [t1, t2, y1, y2, f, g, n, m]
      [("dens_est", .str "nonparametric"), ("deterministic", .bool true)] = .ok _ := rfl
  exact ((bindArgs_ok (signatures_nodup npSig (by simp [signatures])) _ _ _).1 h).1

/-- A misspelt keyword, a doubly given parameter and a missing one are refused. -/
example (t1 t2 y1 y2 f g n m : PyV d N K) :
    bindArgs npSig [t1, t2, y1, y2, f, g, n, m] [("reweigh", .bool true)] = .error .typeError ∧
    bindArgs npSig [t1, t2, y1, y2, f, g, n, m] [("M", m)] = .error .typeError ∧
    bindArgs npSig [t1, t2, y1, y2, f, g, n] [] = .error .typeError ∧
    bindArgs npSig [t1, t2, y1, y2, f, g, n, m] [("device", .none)] = .error .typeError := ⟨rfl, rfl, rfl, rfl⟩

/-- Keywords in any order, and `M` by keyword. -/
example (t1 t2 y1 y2 f g n m : PyV d N K) :
    bindArgs npSig [t1, t2, y1, y2, f, g, n] [("kern", .str "RBF"), ("M", m)]
      = bindArgs npSig [t1, t2, y1, y2, f, g, n, m] [("kern", .str "RBF")] := by
  rw [C110_keyword_order npSig (by simp [signatures]) _ _ [("M", m), ("kern", .str "RBF")]
    (List.Perm.swap _ _ _)]
  exact (C110_position_or_keyword npSig (by simp [signatures]) [t1, t2, y1, y2, f, g, n] m _ _ rfl).symm

end DPFC
