import Verif.Spec.Binding
import Verif.Lib.Monad
import Mathlib.Data.List.Nodup

/-! Argument binding. -/

namespace DPFC
open Spec
variable {V : Type}

/-- Parameter names are distinct. -/
def NamesNodup (sig : List (Param V)) : Prop := (sig.map Param.name).Nodup

theorem names_inj {sig : List (Param V)} (h : NamesNodup sig) {i j : ℕ} {p q : Param V}
    (hi : sig[i]? = some p) (hj : sig[j]? = some q) (e : p.name = q.name) : i = j ∧ p = q := by
  have hi' := (List.getElem?_eq_some_iff.1 hi)
  have hj' := (List.getElem?_eq_some_iff.1 hj)
  obtain ⟨li, ei⟩ := hi'
  obtain ⟨lj, ej⟩ := hj'
  have : i = j := by
    have hn := (List.nodup_iff_injective_get.1 h)
    have := @hn ⟨i, by simpa using li⟩ ⟨j, by simpa using lj⟩ (by simp [ei, ej, e])
    simpa using this
  subst this
  exact ⟨rfl, by rw [hi] at hj; exact Option.some.inj hj⟩

theorem findIdx_name {sig : List (Param V)} (h : NamesNodup sig) (n : String) (i : ℕ) :
    sig.findIdx? (fun p => p.name == n) = some i ↔ ∃ p, sig[i]? = some p ∧ p.name = n := by
  constructor
  · intro hi
    obtain ⟨hlt, hp, _⟩ := List.findIdx?_eq_some_iff_getElem.1 hi
    exact ⟨sig[i], List.getElem?_eq_getElem hlt, by simpa using hp⟩
  · rintro ⟨p, hp, rfl⟩
    have hex : ∃ j, sig.findIdx? (fun q => q.name == p.name) = some j := by
      cases hf : sig.findIdx? (fun q => q.name == p.name) with
      | some j => exact ⟨j, rfl⟩
      | none =>
        have := List.findIdx?_eq_none_iff.1 hf p (List.mem_of_getElem? hp)
        simp at this
    obtain ⟨j, hj⟩ := hex
    obtain ⟨hlt, hq, _⟩ := List.findIdx?_eq_some_iff_getElem.1 hj
    have := (names_inj h hp (List.getElem?_eq_getElem hlt) (by simpa using (beq_iff_eq.1 hq).symm)).1
    rw [hj, this]

theorem bindKw_ok {sig : List (Param V)} (h : NamesNodup sig) :
    ∀ (kw : List (String × V)) (slots slots' : List (Option V)), slots.length = sig.length →
      (bindKw sig kw slots = .ok slots' ↔
        (kw.map Prod.fst).Nodup ∧
        (∀ n v, (n, v) ∈ kw → ∃ (i : ℕ) (p : Param V), sig[i]? = some p ∧ p.name = n ∧ slots[i]? = some none) ∧
        slots'.length = sig.length ∧
        ∀ (i : ℕ) (p : Param V), sig[i]? = some p → ∃ s, slots'[i]? = some s ∧
          ((∃ v, (p.name, v) ∈ kw ∧ s = some v) ∨ ((∀ v, (p.name, v) ∉ kw) ∧ slots[i]? = some s)))
  | [], slots, slots', hl => by
    simp only [bindKw, Except.ok.injEq, List.map_nil, List.nodup_nil, List.not_mem_nil, IsEmpty.forall_iff,
      implies_true, true_and, false_and, exists_false, false_or, not_false_eq_true]
    constructor
    · rintro rfl
      refine ⟨hl, fun i p hp => ?_⟩
      have : i < slots.length := by rw [hl]; exact (List.getElem?_eq_some_iff.1 hp).1
      exact ⟨slots[i], List.getElem?_eq_getElem this, List.getElem?_eq_getElem this⟩
    · rintro ⟨hl', hs⟩
      refine List.ext_getElem? fun i => ?_
      by_cases hi : i < sig.length
      · obtain ⟨s, h1, h2⟩ := hs i _ (List.getElem?_eq_getElem hi)
        rw [h1, h2]
      · rw [List.getElem?_eq_none (by omega), List.getElem?_eq_none (by omega)]
  | (n, v) :: kw, slots, slots', hl => by
    constructor
    · intro hb
      unfold bindKw at hb
      split at hb
      · cases hb
      · rename_i i hf
        split at hb
        · rename_i hsl
          obtain ⟨p0, hp0, hn0⟩ := (findIdx_name h n i).1 hf
          obtain ⟨h1, h2, h3, h4⟩ := (bindKw_ok h kw (slots.set i (some v)) slots' (by simpa using hl)).1 hb
          have hfresh : ∀ w, (n, w) ∉ kw := by
            intro w hw
            obtain ⟨j, q, hq, hqn, hj⟩ := h2 n w hw
            obtain ⟨rfl, rfl⟩ := names_inj h hq hp0 (by rw [hqn, hn0])
            have hlt : j < slots.length := (List.getElem?_eq_some_iff.1 hsl).1
            rw [List.getElem?_set_self hlt] at hj
            cases hj
          refine ⟨?_, ?_, h3, ?_⟩
          · rw [List.map_cons, List.nodup_cons]
            refine ⟨?_, h1⟩
            intro hm
            obtain ⟨⟨a, w⟩, hw, e⟩ := List.mem_map.1 hm
            simp only at e
            subst e
            exact hfresh w hw
          · intro m w hw
            rcases List.mem_cons.1 hw with e | hw
            · cases e
              exact ⟨i, p0, hp0, hn0, hsl⟩
            · obtain ⟨j, q, hq, hqn, hj⟩ := h2 m w hw
              refine ⟨j, q, hq, hqn, ?_⟩
              by_cases hij : i = j
              · subst hij; exact hsl
              · rwa [List.getElem?_set_ne hij] at hj
          · intro j q hq
            obtain ⟨s, hs, hor⟩ := h4 j q hq
            refine ⟨s, hs, ?_⟩
            rcases hor with ⟨w, hw, rfl⟩ | ⟨hno, hj⟩
            · exact .inl ⟨w, List.mem_cons_of_mem _ hw, rfl⟩
            · by_cases hij : i = j
              · subst hij
                have hlt : i < slots.length := (List.getElem?_eq_some_iff.1 hsl).1
                rw [List.getElem?_set_self hlt] at hj
                have : q.name = n := by
                  rw [hp0] at hq; rw [← Option.some.inj hq]; exact hn0
                exact .inl ⟨v, by rw [this]; exact List.mem_cons_self, (Option.some.inj hj).symm⟩
              · rw [List.getElem?_set_ne hij] at hj
                refine .inr ⟨fun w hw => ?_, hj⟩
                rcases List.mem_cons.1 hw with e | hw
                · have hqn : q.name = n := congrArg Prod.fst e
                  exact hij (names_inj h hp0 hq (by rw [hn0, hqn])).1
                · exact hno w hw
        · cases hb
    · rintro ⟨h1, h2, h3, h4⟩
      rw [List.map_cons, List.nodup_cons] at h1
      obtain ⟨i, p0, hp0, hn0, hsl⟩ := h2 n v List.mem_cons_self
      have hf := (findIdx_name h n i).2 ⟨p0, hp0, hn0⟩
      have hlt : i < slots.length := (List.getElem?_eq_some_iff.1 hsl).1
      have hfresh : ∀ w, (n, w) ∉ kw := fun w hw => h1.1 (List.mem_map.2 ⟨(n, w), hw, rfl⟩)
      unfold bindKw
      simp only [hf, hsl]
      refine (bindKw_ok h kw (slots.set i (some v)) slots' (by simpa using hl)).2 ⟨h1.2, ?_, h3, ?_⟩
      · intro m w hw
        obtain ⟨j, q, hq, hqn, hj⟩ := h2 m w (List.mem_cons_of_mem _ hw)
        refine ⟨j, q, hq, hqn, ?_⟩
        by_cases hij : i = j
        · subst hij
          have : q.name = n := by rw [hp0] at hq; rw [← Option.some.inj hq]; exact hn0
          exact absurd hw (by rw [← hqn, this]; exact hfresh w)
        · rw [List.getElem?_set_ne hij]; exact hj
      · intro j q hq
        obtain ⟨s, hs, hor⟩ := h4 j q hq
        refine ⟨s, hs, ?_⟩
        by_cases hij : i = j
        · subst hij
          have hqn : q.name = n := by rw [hp0] at hq; rw [← Option.some.inj hq]; exact hn0
          refine .inr ⟨fun w hw => hfresh w (by rw [← hqn]; exact hw), ?_⟩
          rw [List.getElem?_set_self hlt]
          rcases hor with ⟨w, hw, rfl⟩ | ⟨hno, _⟩
          · rcases List.mem_cons.1 hw with e | hw
            · rw [show w = v from congrArg Prod.snd e]
            · exact absurd (by rw [← hqn]; exact hw) (hfresh w)
          · exact absurd (by rw [hqn]; exact List.mem_cons_self) (hno v)
        · rw [List.getElem?_set_ne hij]
          rcases hor with ⟨w, hw, rfl⟩ | ⟨hno, hj⟩
          · rcases List.mem_cons.1 hw with e | hw
            · have hqn : q.name = n := congrArg Prod.fst e
              exact absurd (names_inj h hp0 hq (by rw [hn0, hqn])).1 hij
            · exact .inl ⟨w, hw, rfl⟩
          · exact .inr ⟨fun w hw => hno w (List.mem_cons_of_mem _ hw), hj⟩

theorem fillDefaults_ok : ∀ (sig : List (Param V)) (slots : List (Option V)) (vals : List V),
    slots.length = sig.length → (fillDefaults sig slots = .ok vals ↔
      vals.length = sig.length ∧ ∀ (i : ℕ) (p : Param V) (s : Option V), sig[i]? = some p → slots[i]? = some s →
        ∃ v, vals[i]? = some v ∧ s.or p.default = some v)
  | [], slots, vals, hl => by
    simp only [fillDefaults, Except.ok.injEq, List.length_nil, List.getElem?_nil, reduceCtorEq, IsEmpty.forall_iff,
      implies_true, and_true, List.length_eq_zero_iff]
    exact eq_comm
  | p :: ps, [], vals, hl => by simp at hl
  | p :: ps, s :: ss, vals, hl => by
    have hl' : ss.length = ps.length := by simpa using hl
    constructor
    · intro hf
      simp only [fillDefaults] at hf
      split at hf
      · cases hf
      · rename_i v hv
        cases hr : fillDefaults ps ss with
        | error e => rw [hr] at hf; cases hf
        | ok rest =>
          rw [hr] at hf
          cases hf
          obtain ⟨h1, h2⟩ := (fillDefaults_ok ps ss rest hl').1 hr
          refine ⟨by simp [h1], fun i q t hq ht => ?_⟩
          cases i with
          | zero =>
            simp only [List.getElem?_cons_zero, Option.some.injEq] at hq ht
            subst hq ht
            exact ⟨v, rfl, hv⟩
          | succ i => exact h2 i q t (by simpa using hq) (by simpa using ht)
    · rintro ⟨h1, h2⟩
      obtain ⟨v, hv, hs⟩ := h2 0 p s rfl rfl
      cases vals with
      | nil => simp at hv
      | cons w rest =>
        simp only [List.getElem?_cons_zero, Option.some.injEq] at hv
        subst hv
        have hr := (fillDefaults_ok ps ss rest hl').2 ⟨by simpa using h1, fun i q t hq ht => by
          simpa using h2 (i+1) q t (by simpa using hq) (by simpa using ht)⟩
        simp only [fillDefaults, hs, hr]
        rfl

theorem slots0 {pos : List V} {n : ℕ} (h : pos.length ≤ n) (i : ℕ) (hi : i < n) :
    (pos.map some ++ List.replicate (n - pos.length) none)[i]? = some (pos[i]?) := by
  by_cases hp : i < pos.length
  · rw [List.getElem?_append_left (by simpa using hp), List.getElem?_map, List.getElem?_eq_getElem hp]
    rfl
  · rw [List.getElem?_append_right (by simpa using hp), List.getElem?_eq_none (by omega : pos.length ≤ i),
      List.getElem?_replicate]
    simp; omega

/-- Outcome of a call. -/
theorem bindArgs_ok {sig : List (Param V)} (h : NamesNodup sig) (pos : List V) (kw : List (String × V))
    (vals : List V) : bindArgs sig pos kw = .ok vals ↔
      WellFormed sig pos kw ∧ vals.length = sig.length ∧
        ∀ (i : ℕ) (p : Param V), sig[i]? = some p → ∃ v, vals[i]? = some v ∧ Gets pos kw i p v := by
  unfold bindArgs
  by_cases hlen : sig.length < pos.length
  · rw [if_pos hlen]
    constructor
    · intro h; cases h
    · rintro ⟨h1, _⟩; exact absurd h1.1 (by omega)
  rw [if_neg hlen]
  have hle : pos.length ≤ sig.length := by omega
  have hsl : (pos.map some ++ List.replicate (sig.length - pos.length) none).length = sig.length := by
    simp; omega
  constructor
  · intro hb
    cases hk : bindKw sig kw (pos.map some ++ List.replicate (sig.length - pos.length) none) with
    | error e => rw [hk] at hb; cases hb
    | ok slots =>
      rw [hk] at hb
      obtain ⟨k1, k2, k3, k4⟩ := (bindKw_ok h kw _ slots hsl).1 hk
      obtain ⟨f1, f2⟩ := (fillDefaults_ok sig slots vals k3).1 hb
      have hg : ∀ (i : ℕ) (p : Param V), sig[i]? = some p → ∃ v, vals[i]? = some v ∧ Gets pos kw i p v := by
        intro i p hp
        have hi : i < sig.length := (List.getElem?_eq_some_iff.1 hp).1
        obtain ⟨s, hs, hor⟩ := k4 i p hp
        obtain ⟨v, hv, hd⟩ := f2 i p s hp hs
        refine ⟨v, hv, ?_⟩
        rcases hor with ⟨w, hw, rfl⟩ | ⟨hno, hs0⟩
        · obtain ⟨j, q, hq, hqn, hj⟩ := k2 _ w hw
          obtain ⟨rfl, rfl⟩ := names_inj h hq hp hqn
          rw [slots0 hle j hi] at hj
          simp only [Option.some_or, Option.some.injEq] at hd
          subst hd
          exact .inr (.inl ⟨List.getElem?_eq_none_iff.1 (Option.some.inj hj), hw⟩)
        · rw [slots0 hle i hi] at hs0
          have hs1 := Option.some.inj hs0
          cases hpi : pos[i]? with
          | some w =>
            rw [hpi] at hs1
            subst hs1
            simp only [Option.some_or, Option.some.injEq] at hd
            subst hd
            exact .inl hpi
          | none =>
            rw [hpi] at hs1
            subst hs1
            simp only [Option.none_or] at hd
            exact .inr (.inr ⟨List.getElem?_eq_none_iff.1 hpi, hno, hd⟩)
      refine ⟨⟨hle, k1, fun n v hv => ?_, fun i p hp hd => ?_⟩, f1, hg⟩
      · obtain ⟨i, p, hp, hn, hi⟩ := k2 n v hv
        have hlt : i < sig.length := (List.getElem?_eq_some_iff.1 hp).1
        rw [slots0 hle i hlt] at hi
        exact ⟨i, p, hp, hn, List.getElem?_eq_none_iff.1 (Option.some.inj hi)⟩
      · obtain ⟨v, _, hg⟩ := hg i p hp
        rcases hg with hg | ⟨_, hg⟩ | ⟨_, _, hg⟩
        · exact .inl (List.getElem?_eq_some_iff.1 hg).1
        · exact .inr ⟨v, hg⟩
        · rw [hd] at hg; cases hg
  · rintro ⟨⟨_, w1, w2, w3⟩, hl, hg⟩
    have hinj : ∀ n v w, (n, v) ∈ kw → (n, w) ∈ kw → v = w := by
      intro n v w hv hw
      have := List.inj_on_of_nodup_map w1 hv hw rfl
      exact congrArg Prod.snd this
    let slots : List (Option V) := sig.mapIdx fun i p => if i < pos.length then pos[i]? else
      (kw.find? fun e => e.1 == p.name).map Prod.snd
    have hslots : ∀ (i : ℕ) (p : Param V), sig[i]? = some p → slots[i]? = some (if i < pos.length then pos[i]? else
      (kw.find? fun e => e.1 == p.name).map Prod.snd) := by
      intro i p hp
      simp only [slots, List.getElem?_mapIdx, hp, Option.map_some]
    have hfind : ∀ n v, (n, v) ∈ kw → (kw.find? fun e => e.1 == n).map Prod.snd = some v := by
      intro n v hv
      cases hf : kw.find? fun e => e.1 == n with
      | none =>
        have := List.find?_eq_none.1 hf (n, v) hv
        simp at this
      | some e =>
        have h1 := List.find?_some hf
        have h2 := List.mem_of_find?_eq_some hf
        obtain ⟨a, b⟩ := e
        have : a = n := by simpa using h1
        subst this
        simp [hinj a b v h2 hv]
    have hfind0 : ∀ n, (∀ v, (n, v) ∉ kw) → (kw.find? fun e => e.1 == n).map Prod.snd = none := by
      intro n hno
      cases hf : kw.find? fun e => e.1 == n with
      | none => rfl
      | some e =>
        obtain ⟨a, b⟩ := e
        have h1 : a = n := by simpa using List.find?_some hf
        subst h1
        exact absurd (List.mem_of_find?_eq_some hf) (hno b)
    have hk : bindKw sig kw (pos.map some ++ List.replicate (sig.length - pos.length) none) = .ok slots := by
      refine (bindKw_ok h kw _ slots hsl).2 ⟨w1, fun n v hv => ?_, by simp [slots], fun i p hp => ?_⟩
      · obtain ⟨i, p, hp, hn, hi⟩ := w2 n v hv
        refine ⟨i, p, hp, hn, ?_⟩
        rw [slots0 hle i (List.getElem?_eq_some_iff.1 hp).1, List.getElem?_eq_none hi]
      · refine ⟨_, hslots i p hp, ?_⟩
        have hi : i < sig.length := (List.getElem?_eq_some_iff.1 hp).1
        by_cases hpi : i < pos.length
        · refine .inr ⟨fun v hv => ?_, ?_⟩
          · obtain ⟨j, q, hq, hqn, hj⟩ := w2 _ v hv
            obtain ⟨rfl, _⟩ := names_inj h hq hp hqn
            omega
          · rw [if_pos hpi, slots0 hle i hi]
        · rw [if_neg hpi]
          by_cases hv : ∃ v, (p.name, v) ∈ kw
          · obtain ⟨v, hv⟩ := hv
            exact .inl ⟨v, hv, hfind _ v hv⟩
          · push Not at hv
            refine .inr ⟨hv, ?_⟩
            rw [hfind0 _ hv, slots0 hle i hi, List.getElem?_eq_none (by omega)]
    rw [hk]
    refine (fillDefaults_ok sig slots vals (by simp [slots])).2 ⟨hl, fun i p s hp hs => ?_⟩
    obtain ⟨v, hv, hget⟩ := hg i p hp
    refine ⟨v, hv, ?_⟩
    rw [hslots i p hp] at hs
    have hs := Option.some.inj hs
    rcases hget with hp' | ⟨hi, hkw⟩ | ⟨hi, hno, hd⟩
    · rw [if_pos (List.getElem?_eq_some_iff.1 hp').1, hp'] at hs
      rw [← hs]; rfl
    · rw [if_neg (by omega), hfind _ v hkw] at hs
      rw [← hs]; rfl
    · rw [if_neg (by omega), hfind0 _ hno] at hs
      rw [← hs]; simpa using hd

theorem bindArgs_error {sig : List (Param V)} (pos : List V) (kw : List (String × V)) {e : PyErr}
    (he : bindArgs sig pos kw = .error e) : e = .typeError := by
  have hk : ∀ (kw : List (String × V)) (slots : List (Option V)) e, bindKw sig kw slots = .error e → e = .typeError := by
    intro kw
    induction kw with
    | nil => intro slots e h; cases h
    | cons x kw ih =>
      intro slots e h
      unfold bindKw at h
      split at h
      · cases h; rfl
      · split at h
        · exact ih _ _ h
        · cases h; rfl
  have hf : ∀ (sig : List (Param V)) (slots : List (Option V)) e, fillDefaults sig slots = .error e → e = .typeError := by
    intro sig
    induction sig with
    | nil => intro slots e h; simp [fillDefaults] at h
    | cons p ps ih =>
      intro slots e h
      cases slots with
      | nil => simp [fillDefaults] at h
      | cons s ss =>
        simp only [fillDefaults] at h
        split at h
        · cases h; rfl
        · cases hr : fillDefaults ps ss with
          | error e' => rw [hr] at h; cases h; exact ih _ _ hr
          | ok rest => rw [hr] at h; cases h
  unfold bindArgs at he
  split at he
  · cases he; rfl
  · cases hb : bindKw sig kw (pos.map some ++ List.replicate (sig.length - pos.length) none) with
    | error e' => rw [hb] at he; cases he; exact hk _ _ _ hb
    | ok slots => rw [hb] at he; exact hf _ _ _ he

end DPFC
