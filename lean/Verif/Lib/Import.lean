import Verif.Model.Import

/-!
# Lemmas about the import system: modules that can never be imported
-/

namespace DPFC.Import

variable {w : World}

theorem foldlM_mem {α σ ε : Type} {P : σ → Prop} (f : σ → α → Except ε σ) :
    ∀ (l : List α) (s s' : σ), (∀ a ∈ l, ∀ t t', P t → f t a = .ok t' → P t') → P s →
      l.foldlM f s = .ok s' → P s'
  | [], s, s', _, hs, h => by
    rw [List.foldlM_nil] at h
    cases h
    exact hs
  | a :: l, s, s', hf, hs, h => by
    rw [List.foldlM_cons] at h
    cases h1 : f s a with
    | error e => rw [h1] at h; cases h
    | ok t =>
      rw [h1] at h
      exact foldlM_mem f l t s' (fun b hb => hf b (List.mem_cons_of_mem _ hb)) (hf a (by simp) s t hs h1) h

/-- Every element is processed from some state reached with `P`. -/
theorem foldlM_visit {α σ ε : Type} {P : σ → Prop} (f : σ → α → Except ε σ) :
    ∀ (l : List α) (s s' : σ), (∀ a ∈ l, ∀ t t', P t → f t a = .ok t' → P t') → P s →
      l.foldlM f s = .ok s' → ∀ a ∈ l, ∃ t t', P t ∧ f t a = .ok t'
  | [], _, _, _, _, _ => fun a ha => by simp at ha
  | a :: l, s, s', hf, hs, h => by
    rw [List.foldlM_cons] at h
    cases h1 : f s a with
    | error e => rw [h1] at h; cases h
    | ok t =>
      rw [h1] at h
      intro b hb
      rcases List.mem_cons.1 hb with rfl | hb
      · exact ⟨s, t, hs, h1⟩
      · exact foldlM_visit f l t s' (fun c hc => hf c (List.mem_cons_of_mem _ hc)) (hf a (by simp) s t hs h1) h b hb

theorem execStmt_sys {imp : List Path → Path → Except ImpErr (List Path)} {p : Path} {k : Bool} {e e' : Exec} {s : Stmt}
    (h : execStmt imp p k e s = .ok e') : e'.sys = e.sys ∨ ∃ q, imp e.sys q = .ok e'.sys := by
  unfold execStmt at h
  split at h
  · cases hr : resolve p k s with
    | none =>
      rw [hr] at h
      simp only [importResolved] at h
      cases hs : s.soft with
      | true => rw [hs] at h; cases h; exact .inl rfl
      | false => rw [hs] at h; cases h
    | some q =>
      rw [hr] at h
      simp only [importResolved] at h
      cases hi : imp e.sys q with
      | ok sys =>
        rw [hi] at h
        cases hs : s.soft <;> rw [hs] at h <;> cases h <;> exact .inr ⟨q, hi⟩
      | error err =>
        rw [hi] at h
        cases err <;> cases hs : s.soft <;> rw [hs] at h <;> cases h
        exact .inl rfl
  · cases h; exact .inl rfl

theorem execStmt_hard {imp : List Path → Path → Except ImpErr (List Path)} {p : Path} {k : Bool} {e e' : Exec} {s : Stmt}
    (h : execStmt imp p k e s = .ok e') (hs : s.soft = false) (hg : s.guards.all (Guard.holds p e) = true) :
    ∃ q, resolve p k s = some q ∧ imp e.sys q = .ok e'.sys := by
  unfold execStmt at h
  rw [if_pos hg, hs] at h
  cases hr : resolve p k s with
  | none => rw [hr] at h; cases h
  | some q =>
    rw [hr] at h
    simp only [importResolved] at h
    cases hi : imp e.sys q with
    | ok sys => rw [hi] at h; cases h; exact ⟨q, rfl, hi⟩
    | error err => rw [hi] at h; cases err <;> cases h

/-- `sys.modules` only grows. -/
theorem importPath_mono : ∀ (fuel : Nat) (sys : List Path) (x : Path) (sys' : List Path),
    importPath w fuel sys x = .ok sys' → ∀ y ∈ sys, y ∈ sys'
  | 0, _, _, _, h => by cases h
  | fuel+1, sys, x, sys', h => by
    intro y hy
    unfold importPath at h
    refine foldlM_mem (P := fun t => y ∈ t) _ _ _ _ (fun z _ t t' ht hl => ?_) hy h
    unfold loadOne at hl
    split at hl
    · cases hl; exact ht
    · split at hl
      · next f _ =>
        cases hf : f.stmts.foldlM (execStmt (importPath w fuel) z f.isPkg) ⟨z :: t, []⟩ with
        | error e => rw [hf] at hl; cases hl
        | ok e =>
          rw [hf] at hl
          cases hl
          refine foldlM_mem (P := fun e => y ∈ e.sys) _ _ _ _ (fun s _ a b ha hb => ?_) (by simp [ht]) hf
          rcases execStmt_sys hb with hb | ⟨q, hb⟩
          · rw [hb]; exact ha
          · exact importPath_mono fuel _ _ _ hb y ha
      · split at hl
        · split at hl
          · cases hl; simp [ht]
          · cases hl
        · cases hl

theorem loadOne_self (fuel : Nat) (t : List Path) (z : Path) (t' : List Path)
    (hl : loadOne w (importPath w fuel) t z = .ok t') : z ∈ t' ∧ ∀ y ∈ t, y ∈ t' := by
  unfold loadOne at hl
  split at hl
  · next hc => cases hl; exact ⟨by simpa using hc, fun _ h => h⟩
  · split at hl
    · next f _ =>
      cases hf : f.stmts.foldlM (execStmt (importPath w fuel) z f.isPkg) ⟨z :: t, []⟩ with
      | error e => rw [hf] at hl; cases hl
      | ok e =>
        rw [hf] at hl
        cases hl
        have : ∀ y ∈ z :: t, y ∈ e.sys := by
          intro y hy
          refine foldlM_mem (P := fun e => y ∈ e.sys) _ _ _ _ (fun s _ a b ha hb => ?_) hy hf
          rcases execStmt_sys hb with hb | ⟨q, hb⟩
          · rw [hb]; exact ha
          · exact importPath_mono fuel _ _ _ hb y ha
        exact ⟨this z (by simp), fun y hy => this y (by simp [hy])⟩
    · split at hl
      · split at hl
        · cases hl; exact ⟨by simp, fun y hy => by simp [hy]⟩
        · cases hl
      · cases hl

/-- After a successful import all packages on the way and the module are in `sys.modules`. -/
theorem importPath_self (fuel : Nat) (sys : List Path) (x : Path) (sys' : List Path)
    (h : importPath w fuel sys x = .ok sys') : ∀ y ∈ x.inits.tail, y ∈ sys' := by
  cases fuel with
  | zero => cases h
  | succ fuel =>
    unfold importPath at h
    generalize x.inits.tail = l at h
    intro y hy
    induction l generalizing sys with
    | nil => simp at hy
    | cons z l ih =>
      rw [List.foldlM_cons] at h
      cases h1 : loadOne w (importPath w fuel) sys z with
      | error e => rw [h1] at h; cases h
      | ok t =>
        rw [h1] at h
        rcases List.mem_cons.1 hy with rfl | hy
        · exact foldlM_mem (P := fun s => y ∈ s) _ _ _ _ (fun a _ u u' hu ha => (loadOne_self fuel u a u' ha).2 y hu)
            (loadOne_self _ _ _ _ h1).1 h
        · exact ih t h hy

/-- `Doomed w c p`: importing `p` can never succeed, because of the chain `c` of modules starting with `p`, each of which
unconditionally imports the next one, the last of which does not exist (or is imported relative to no package). -/
inductive Doomed (w : World) : List Path → Path → Prop
  | missing {p : Path} (h : w.local' p = none) (hm : ∀ n, p = [n] → w.installed n = false) : Doomed w [p] p
  | unresolved {p : Path} {f : File} {s : Stmt} (h : w.local' p = some f) (hs : s ∈ f.stmts)
      (hsoft : s.soft = false) (hg : ∀ e, s.guards.all (Guard.holds p e) = true)
      (hr : resolve p f.isPkg s = none) : Doomed w [p] p
  | dep {c : List Path} {p q : Path} {f : File} {s : Stmt} (h : w.local' p = some f) (hs : s ∈ f.stmts)
      (hsoft : s.soft = false) (hg : ∀ e, s.guards.all (Guard.holds p e) = true)
      (hq : ∀ r, resolve p f.isPkg s = some r → q ∈ r.inits.tail) (hc : p ∉ c) (hd : Doomed w c q) : Doomed w (p :: c) p

theorem Doomed.head {c : List Path} {p : Path} (h : Doomed w c p) : p ∈ c := by
  cases h <;> simp

/-- No module of `c` is in `sys.modules`. -/
def Clear (c : List Path) (sys : List Path) : Prop := ∀ y ∈ c, y ∉ sys

theorem import_of_load {c : List Path} (n : Nat)
    (h : ∀ fuel < n, ∀ t z t', Clear c t → loadOne w (importPath w fuel) t z = .ok t' → Clear c t') :
    ∀ fuel ≤ n, ∀ sys x sys', Clear c sys → importPath w fuel sys x = .ok sys' → Clear c sys' := by
  intro fuel hn sys x sys' h0 hi
  cases fuel with
  | zero => cases hi
  | succ fuel =>
    unfold importPath at hi
    exact foldlM_mem (P := Clear c) _ _ _ _ (fun z _ t t' ht hl => h fuel (by omega) t z t' ht hl) h0 hi

/-- Loading another module than `p` does not put `p` into `sys.modules`, if imports at this recursion depth do not. -/
theorem load_other {c : List Path} {fuel : Nat} {p : Path}
    (hi : ∀ sys x sys', Clear (p :: c) sys → importPath w fuel sys x = .ok sys' → Clear (p :: c) sys')
    (hc : ∀ t z t', Clear c t → loadOne w (importPath w fuel) t z = .ok t' → Clear c t')
    {t : List Path} {z : Path} {t' : List Path} (hzp : z ≠ p) (ht : Clear (p :: c) t)
    (hl : loadOne w (importPath w fuel) t z = .ok t') : Clear (p :: c) t' := by
  have htc : Clear c t := fun y hy => ht y (by simp [hy])
  have htc' := hc t z t' htc hl
  have hzc : z ∉ c := fun h => htc' z h (loadOne_self _ _ _ _ hl).1
  have hcl : Clear (p :: c) (z :: t) := by
    intro y hy
    simp only [List.mem_cons, not_or]
    refine ⟨fun e => ?_, ht y hy⟩
    subst e
    rcases List.mem_cons.1 hy with hy | hy
    · exact hzp hy
    · exact hzc hy
  unfold loadOne at hl
  split at hl
  · cases hl; exact ht
  · split at hl
    · next f _ =>
      cases he : f.stmts.foldlM (execStmt (importPath w fuel) z f.isPkg) ⟨z :: t, []⟩ with
      | error e => rw [he] at hl; cases hl
      | ok e =>
        rw [he] at hl
        cases hl
        refine foldlM_mem (P := fun e => Clear (p :: c) e.sys) _ _ _ _ (fun s _ a b ha hb => ?_) hcl he
        rcases execStmt_sys hb with hb | ⟨q, hb⟩
        · rw [hb]; exact ha
        · exact hi _ _ _ ha hb
    · split at hl
      · split at hl
        · cases hl; exact hcl
        · cases hl
      · cases hl

/-- From the two facts "other modules do not bring `p` in" and "`p` itself does not load" by induction on the recursion
depth. -/
theorem load_ind {c : List Path} {p : Path}
    (hc : ∀ fuel t z t', Clear c t → loadOne w (importPath w fuel) t z = .ok t' → Clear c t')
    (hp : ∀ fuel t t', Clear (p :: c) t → loadOne w (importPath w fuel) t p ≠ .ok t') :
    ∀ fuel t z t', Clear (p :: c) t → loadOne w (importPath w fuel) t z = .ok t' → Clear (p :: c) t' := by
  intro fuel
  induction fuel using Nat.strong_induction_on with
  | _ fuel ih =>
    intro t z t' ht hl
    by_cases hzp : z = p
    · subst hzp
      exact absurd hl (hp fuel t t' ht)
    · exact load_other (import_of_load fuel ih fuel le_rfl) (hc fuel) hzp ht hl

theorem Doomed.load {c : List Path} {p : Path} (hd : Doomed w c p) :
    ∀ fuel t z t', Clear c t → loadOne w (importPath w fuel) t z = .ok t' → Clear c t' := by
  have hnil : ∀ fuel t z t', Clear [] t → loadOne w (importPath w fuel) t z = .ok t' → Clear [] t' :=
    fun _ _ _ _ _ _ y hy => by simp at hy
  induction hd with
  | @missing p h hm =>
    refine load_ind hnil fun fuel t t' ht hl => ?_
    have hp : p ∉ t := ht p (by simp)
    unfold loadOne at hl
    rw [if_neg (by simpa using hp), h] at hl
    simp only at hl
    split at hl
    · next n =>
      rw [hm n rfl] at hl
      cases hl
    · cases hl
  | @unresolved p f s h hs hsoft hg hr =>
    refine load_ind hnil fun fuel t t' ht hl => ?_
    have hp : p ∉ t := ht p (by simp)
    unfold loadOne at hl
    rw [if_neg (by simpa using hp), h] at hl
    simp only at hl
    cases he : f.stmts.foldlM (execStmt (importPath w fuel) p f.isPkg) ⟨p :: t, []⟩ with
    | error e => rw [he] at hl; cases hl
    | ok e =>
      obtain ⟨u, u', -, hu'⟩ := foldlM_visit (P := fun _ => True) _ _ _ _ (fun _ _ _ _ _ _ => trivial) trivial he s hs
      obtain ⟨r, hr', -⟩ := execStmt_hard hu' hsoft (hg u)
      rw [hr] at hr'
      cases hr'
  | @dep c p q f s h hs hsoft hg hq hc hd ihd =>
    refine load_ind ihd fun fuel t t' ht hl => ?_
    have hp : p ∉ t := ht p (by simp)
    have hi := import_of_load fuel (fun m _ => ihd m) fuel le_rfl
    unfold loadOne at hl
    rw [if_neg (by simpa using hp), h] at hl
    simp only at hl
    cases he : f.stmts.foldlM (execStmt (importPath w fuel) p f.isPkg) ⟨p :: t, []⟩ with
    | error e => rw [he] at hl; cases hl
    | ok e =>
      have hpres : ∀ a ∈ f.stmts, ∀ (u u' : Exec), Clear c u.sys →
          execStmt (importPath w fuel) p f.isPkg u a = .ok u' → Clear c u'.sys := by
        intro s _ a b ha hb
        rcases execStmt_sys hb with hb | ⟨q, hb⟩
        · rw [hb]; exact ha
        · exact hi _ _ _ ha hb
      obtain ⟨u, u', hu, hu'⟩ := foldlM_visit (P := fun e => Clear c e.sys) _ _ _ _ hpres (by
        intro y hy
        simp only [List.mem_cons, not_or]
        exact ⟨fun e => hc (e ▸ hy), ht y (by simp [hy])⟩) he s hs
      obtain ⟨r, hr, hi'⟩ := execStmt_hard hu' hsoft (hg u)
      exact hi _ _ _ hu hi' q hd.head (importPath_self fuel _ _ _ hi' q (hq r hr))

/-- A doomed module, and everything below it, cannot be imported. -/
theorem Doomed.fails {c : List Path} {p : Path} (hd : Doomed w c p) (fuel : Nat) (sys : List Path) (x : Path)
    (hs : ∀ y ∈ c, y ∉ sys) (hx : p ∈ x.inits.tail) (sys' : List Path) : importPath w fuel sys x ≠ .ok sys' := by
  intro h
  exact import_of_load fuel (fun m _ => hd.load m) fuel le_rfl _ _ _ hs h p hd.head (importPath_self _ _ _ _ h p hx)

/-! ### More recursion depth does not change the outcome -/

theorem foldlM_fuel {α σ : Type} (f g : σ → α → Except ImpErr σ)
    (hfg : ∀ s a, f s a ≠ .error .recursionError → g s a = f s a) :
    ∀ (l : List α) (s : σ), l.foldlM f s ≠ .error .recursionError → l.foldlM g s = l.foldlM f s
  | [], _, _ => rfl
  | a :: l, s, h => by
    rw [List.foldlM_cons] at h ⊢
    have h1 : f s a ≠ .error .recursionError := by
      intro e
      rw [e] at h
      exact h rfl
    rw [hfg s a h1, List.foldlM_cons]
    cases h2 : f s a with
    | error e => rfl
    | ok t =>
      rw [h2] at h
      exact foldlM_fuel f g hfg l t h

theorem importPath_succ : ∀ (fuel : Nat) (sys : List Path) (x : Path),
    importPath w fuel sys x ≠ .error .recursionError → importPath w (fuel+1) sys x = importPath w fuel sys x
  | 0, _, _, h => absurd rfl h
  | fuel+1, sys, x, h => by
    rw [importPath] at h
    rw [importPath, importPath]
    refine foldlM_fuel _ _ (fun t z hl => ?_) _ _ h
    unfold loadOne at hl ⊢
    split
    · rfl
    · next hc =>
      rw [if_neg hc] at hl
      split
      · next f hf =>
        rw [hf] at hl
        simp only at hl
        have : f.stmts.foldlM (execStmt (importPath w (fuel+1)) z f.isPkg) ⟨z :: t, []⟩
            = f.stmts.foldlM (execStmt (importPath w fuel) z f.isPkg) ⟨z :: t, []⟩ := by
          refine foldlM_fuel _ _ (fun e s he => ?_) _ _ (fun e => hl (by rw [e]; rfl))
          unfold execStmt at he ⊢
          split
          · next hg =>
            rw [if_pos hg] at he
            cases hr : resolve z f.isPkg s with
            | none => rfl
            | some q =>
              rw [hr] at he
              simp only [importResolved] at he ⊢
              rw [importPath_succ fuel]
              intro e'
              rw [e'] at he
              exact he rfl
          · rfl
        rw [this]
      · rfl

theorem importPath_fuel {fuel : Nat} {sys : List Path} {x : Path} (h : importPath w fuel sys x ≠ .error .recursionError)
    (m : Nat) (hm : fuel ≤ m) : importPath w m sys x = importPath w fuel sys x := by
  induction m, hm using Nat.le_induction with
  | base => rfl
  | succ m _ ih => rw [importPath_succ m _ _ (by rw [ih]; exact h), ih]

end DPFC.Import
