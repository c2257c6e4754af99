import Verif.Lemmas.Mag

/-! # Which symbols the pipeline can produce -/

namespace Verif

/-- All symbols of a list satisfy `P`. -/
def AllSym (P : Sym → Prop) (l : UList) : Prop := ∀ u ∈ l, P u.unit

/-- `P` holds of every symbol the tables mention. -/
def TableClosed (P : Sym → Prop) : Prop :=
  ∀ s ∈ [c!"kg", c!"m", c!"s", c!"J", c!"lbf", c!"in", c!"g", c!"A", c!"Pa", c!"W", c!"psi", c!"cP",
    c!"C", c!"V", c!"K"], P s

section
variable {P : Sym → Prop}

@[simp] theorem allSym_nil : AllSym P [] := by simp [AllSym]
@[simp] theorem allSym_cons {u : BaseUnit} {l : UList} :
    AllSym P (u :: l) ↔ P u.unit ∧ AllSym P l := by simp [AllSym]
@[simp] theorem allSym_append {l l' : UList} :
    AllSym P (l ++ l') ↔ AllSym P l ∧ AllSym P l' := by
  simp only [AllSym, List.mem_append, or_imp, forall_and]
@[simp] theorem allSym_map_pow {l : UList} {n : ℚ} : AllSym P (l.map (·.pow n)) ↔ AllSym P l := by
  simp [AllSym, BaseUnit.pow]

theorem AllSym.sub {l l' : UList} (h : AllSym P l) (hs : ∀ u ∈ l', u ∈ l) : AllSym P l' :=
  fun u hu => h u (hs u hu)

theorem allSym_cancelInner (u1 : BaseUnit) (l : UList) (h : AllSym P l) :
    AllSym P (cancelInner u1 l).2 := by
  induction l generalizing u1 with
  | nil => simp [cancelInner]
  | cons u l ih =>
    rw [allSym_cons] at h
    unfold cancelInner
    split
    · simp only [allSym_cons]; exact ⟨h.1, ih _ h.2⟩
    · simp only [allSym_cons]; exact ⟨h.1, ih _ h.2⟩

theorem allSym_cancelLoop (t b : UList) (ht : AllSym P t) (hb : AllSym P b) :
    AllSym P (cancelLoop t b).1 ∧ AllSym P (cancelLoop t b).2 := by
  induction t generalizing b with
  | nil => simp [cancelLoop, hb]
  | cons u t ih =>
    rw [allSym_cons] at ht
    have := ih _ ht.2 (allSym_cancelInner u b hb)
    simp only [cancelLoop, allSym_cons, cancelInner_unit]
    exact ⟨⟨ht.1, this.1⟩, this.2⟩

theorem allSym_cancelUnits (t b : UList) (ht : AllSym P t) (hb : AllSym P b) :
    AllSym P (cancelUnits t b).1 ∧ AllSym P (cancelUnits t b).2 := by
  obtain ⟨h1, h2⟩ := allSym_cancelLoop t b ht hb
  simp only [cancelUnits, allSym_append]
  refine ⟨h1.sub fun u hu => (List.mem_filter.1 hu).1, ?_, h2.sub fun u hu => (List.mem_filter.1 hu).1⟩
  intro u hu
  obtain ⟨v, hv, rfl⟩ := List.mem_map.1 hu
  exact h1 v (List.mem_filter.1 hv).1

theorem allSym_absorb (u1 : BaseUnit) (l : UList) (h : AllSym P l) :
    AllSym P (absorb u1 l).2 := by
  induction l generalizing u1 with
  | nil => simp [absorb]
  | cons u l ih =>
    rw [allSym_cons] at h
    unfold absorb
    split
    · simp only [allSym_cons]; exact ⟨h.1, ih _ h.2⟩
    · simp only [allSym_cons]; exact ⟨h.1, ih _ h.2⟩

theorem allSym_combineAt (l : UList) (i : ℕ) (h : AllSym P l) : AllSym P (combineAt l i) := by
  unfold combineAt
  split
  · exact h
  · rename_i u post e
    have hd : AllSym P (u :: post) := by
      rw [← e]; exact h.sub fun u hu => List.mem_of_mem_drop hu
    rw [allSym_cons] at hd
    simp only [allSym_append, allSym_cons, absorb_unit]
    exact ⟨allSym_absorb _ _ (h.sub fun u hu => List.mem_of_mem_take hu), hd.1,
      allSym_absorb _ _ hd.2⟩

theorem allSym_combineUnits (l : UList) (h : AllSym P l) : AllSym P (combineUnits l) := by
  unfold combineUnits
  suffices ∀ (is : List ℕ) (l : UList), AllSym P l → AllSym P (is.foldl combineAt l) from this _ _ h
  intro is
  induction is with
  | nil => exact fun _ h => h
  | cons i is ih => intro l h; exact ih _ (allSym_combineAt l i h)

theorem DeconRule.allSym (hP : TableClosed P) {s t b} (h : DeconRule s t b) :
    P s ∧ AllSym P t ∧ AllSym P b := by
  cases h <;> refine ⟨hP _ (by simp), ?_, ?_⟩ <;>
    simp only [allSym_cons, allSym_nil, and_true] <;>
    (repeat' apply And.intro) <;> exact hP _ (by simp)

theorem allSym_deconPass (hP : TableClosed P) (n : ℕ) (done rem other : UList) (hit : Bool)
    (h1 : AllSym P done) (h2 : AllSym P rem) (h3 : AllSym P other) {a b : UList} {r : Bool}
    (e : deconPass n done rem other hit = .ok (a, b, r)) : AllSym P a ∧ AllSym P b := by
  induction n generalizing done rem other hit with
  | zero =>
    cases rem with
    | nil => simp only [deconPass, Except.ok.injEq, Prod.mk.injEq] at e; obtain ⟨rfl, rfl, -⟩ := e
             exact ⟨h1, h3⟩
    | cons u rem => simp [deconPass] at e
  | succ n ih =>
    cases rem with
    | nil => simp only [deconPass, Except.ok.injEq, Prod.mk.injEq] at e; obtain ⟨rfl, rfl, -⟩ := e
             exact ⟨h1, h3⟩
    | cons u rem =>
      rw [allSym_cons] at h2
      rcases deconDef_cases u with ⟨t, b', hr, ed⟩ | ⟨ed, -⟩
      · simp only [deconPass, ed] at e
        obtain ⟨-, ht, hb⟩ := hr.allSym hP
        have hrest : AllSym P (rem ++ t.map (·.pow u.exp)) := by simp [h2.2, ht]
        refine ih _ _ _ _ ?_ (hrest.sub fun u hu => List.mem_of_mem_drop hu) ?_ e
        · simp only [allSym_append]; exact ⟨h1, hrest.sub fun u hu => List.mem_of_mem_take hu⟩
        · simp [h3, hb]
      · simp only [deconPass, ed] at e
        exact ih _ _ _ _ (by simp [h1, h2.1]) h2.2 h3 e

theorem allSym_deconRound (hP : TableClosed P) {t b t' b' : UList} {r : Bool} (ht : AllSym P t)
    (hb : AllSym P b) (e : deconRound t b = .ok (t', b', r)) : AllSym P t' ∧ AllSym P b' := by
  unfold deconRound at e
  split at e
  · cases e
  · rename_i t1 b1 r1 e1
    obtain ⟨h1, h2⟩ := allSym_deconPass hP _ _ _ _ _ allSym_nil ht hb e1
    split at e
    · cases e
    · rename_i b2 t2 r2 e2
      obtain ⟨h3, h4⟩ := allSym_deconPass hP _ _ _ _ _ allSym_nil h2 h1 e2
      cases e; exact ⟨h4, h3⟩

theorem allSym_deconLoop (hP : TableClosed P) (n : ℕ) {t b t' b' : UList} (ht : AllSym P t)
    (hb : AllSym P b) (e : deconLoop n t b = .ok (t', b')) : AllSym P t' ∧ AllSym P b' := by
  induction n generalizing t b with
  | zero => simp [deconLoop] at e
  | succ n ih =>
    unfold deconLoop at e
    split at e
    · cases e
    · rename_i t1 b1 r1 e1
      obtain ⟨h1, h2⟩ := allSym_deconRound hP ht hb e1
      split at e
      · exact ih h1 h2 e
      · cases e; exact ⟨h1, h2⟩

theorem allSym_applyMatch (hP : TableClosed P) {t b t' b' : UList} {k : Sym} {n : ℚ}
    (ht : AllSym P t) (hb : AllSym P b) (e : applyMatch t b k n = .ok (t', b')) :
    AllSym P t' ∧ AllSym P b' := by
  rcases lookup_decon k with ⟨d, bt, bb, h1, h2, h3⟩ | ⟨h1, -⟩
  · simp only [applyMatch, h1, h2] at e
    obtain ⟨hk, hbt, hbb⟩ := h3.allSym hP
    obtain ⟨h4, h5⟩ := allSym_cancelUnits (P := P) (t ++ bb.map (·.pow n)) (b ++ bt.map (·.pow n))
      (by simp [ht, hbb]) (by simp [hb, hbt])
    cases e
    exact ⟨by simp [h4, hk], h5⟩
  · simp [applyMatch, h1] at e

theorem allSym_simplLoop (hP : TableClosed P) (n : ℕ) {t b t' b' : UList} (ht : AllSym P t)
    (hb : AllSym P b) (e : simplLoop n t b = .ok (t', b')) : AllSym P t' ∧ AllSym P b' := by
  induction n generalizing t b with
  | zero => simp [simplLoop] at e
  | succ n ih =>
    unfold simplLoop at e
    split at e
    · cases e
    · cases e; exact ⟨ht, hb⟩
    · split at e
      · cases e; exact ⟨ht, hb⟩
      · simp only at e
        split at e
        · cases e
        · rename_i e1
          obtain ⟨h1, h2⟩ := allSym_applyMatch hP ht hb e1
          exact ih h1 h2 e

theorem allSym_simplifyUnits (hP : TableClosed P) {t b t' b' : UList} (ht : AllSym P t)
    (hb : AllSym P b) (e : simplifyUnits t b = .ok (t', b')) : AllSym P t' ∧ AllSym P b' := by
  unfold simplifyUnits at e
  split at e
  · cases e
  · rename_i t1 b1 e1
    obtain ⟨h1, h2⟩ := allSym_simplLoop hP _ ht hb e1
    rw [commonSimplifications_eq] at e
    split_ifs at e <;> cases e
    · exact ⟨by simpa using hP _ (by simp), by
        simp only [allSym_cons, allSym_nil, and_true]; exact ⟨hP _ (by simp), hP _ (by simp)⟩⟩
    · exact ⟨by simpa using hP _ (by simp), by
        simp only [allSym_cons, allSym_nil, and_true]; exact ⟨hP _ (by simp), hP _ (by simp)⟩⟩
    · exact ⟨by simpa using hP _ (by simp), by
        simp only [allSym_cons, allSym_nil, and_true]; exact hP _ (by simp)⟩
    · exact ⟨h1, h2⟩

theorem allSym_reduceAfter (hP : TableClosed P) (c1 c2 : Bool) {t b t' b' t'' b'' : UList}
    (ht : AllSym P t) (hb : AllSym P b) (h1 : deconstructUnits t b = .ok (t', b'))
    (h2 : simplifyUnits
      (cancelUnits (if c1 then combineUnits t' else t') (if c2 then combineUnits b' else b')).1
      (cancelUnits (if c1 then combineUnits t' else t') (if c2 then combineUnits b' else b')).2
        = .ok (t'', b'')) : AllSym P t'' ∧ AllSym P b'' := by
  obtain ⟨g1, g2⟩ := allSym_deconLoop hP _ ht hb h1
  have g3 : AllSym P (if c1 then combineUnits t' else t') := by
    split
    · exact allSym_combineUnits _ g1
    · exact g1
  have g4 : AllSym P (if c2 then combineUnits b' else b') := by
    split
    · exact allSym_combineUnits _ g2
    · exact g2
  obtain ⟨g5, g6⟩ := allSym_cancelUnits _ _ g3 g4
  exact allSym_simplifyUnits hP g5 g6 h2

end

theorem unprefixed_closed : TableClosed Unprefixed := by
  unfold TableClosed
  have one : ∀ c, Unprefixed [c] := fun c => .inr (.inr (.inr (.inr (.inl ⟨c, rfl⟩))))
  have two : ∀ c cs, (∀ p ∈ siPrefixes, p.1 ≠ c) → Unprefixed (c :: cs) :=
    fun c cs h => .inr (.inr (.inr (.inr (.inr ⟨c, cs, rfl, h⟩))))
  simp only [List.forall_mem_cons, List.not_mem_nil, false_imp_iff, implies_true, and_true]
  exact ⟨.inl rfl, one _, one _, one _, two _ _ (by decide +kernel), two _ _ (by decide +kernel), one _,
    one _, two _ _ (by decide +kernel), one _, two _ _ (by decide +kernel), .inr (.inr (.inl rfl)), one _,
    one _, one _⟩

theorem stem_unprefixed : ∀ s ∈ prefixStems, Unprefixed s := by
  have one : ∀ c, Unprefixed [c] := fun c => .inr (.inr (.inr (.inr (.inl ⟨c, rfl⟩))))
  have two : ∀ c cs, (∀ p ∈ siPrefixes, p.1 ≠ c) → Unprefixed (c :: cs) :=
    fun c cs h => .inr (.inr (.inr (.inr (.inr ⟨c, cs, rfl, h⟩))))
  simp only [prefixStems, List.forall_mem_cons, List.not_mem_nil, false_imp_iff, implies_true,
    and_true]
  exact ⟨one _, one _, one _, one _, one _, .inr (.inr (.inr (.inl rfl))), one _, two _ _ (by decide +kernel),
    one _, one _, one _, one _, one _, two _ _ (by decide +kernel)⟩

theorem Unprefixed.well {s : Sym} (h : Unprefixed s) : WellPrefixed s := by
  unfold Unprefixed at h; unfold WellPrefixed; tauto

theorem UnprefixedList.well {l : UList} (h : UnprefixedList l) : WellPrefixedList l :=
  fun u hu => (h u hu).well

theorem WellPrefixed.strip_unprefixed {u : BaseUnit} (h : WellPrefixed u.unit) {p : Sym}
    {v : BaseUnit} (e : stripUnit u = .ok (p, v)) : Unprefixed v.unit := by
  rcases h.cases with h | ⟨q, hq, st, hst, e', hg, hf, hk⟩
  · rw [h.strip] at e; cases e; exact h
  · simp only [stripUnit, hk, if_false, hg] at e; cases e; exact stem_unprefixed _ hst

theorem mapPy_strip_unprefixed {l : UList} (h : WellPrefixedList l) {ps : List (Sym × BaseUnit)}
    (e : mapPy stripUnit l = .ok ps) : UnprefixedList (ps.map (·.2)) := by
  induction l generalizing ps with
  | nil => simp only [mapPy] at e; cases e; simp [UnprefixedList]
  | cons u l ih =>
    obtain ⟨p, s, e1, -, -, -⟩ := (h u (by simp)).strip
    obtain ⟨qs, e2, -, -, -⟩ := strip_list (fun v hv => h v (List.mem_cons_of_mem _ hv))
    simp only [mapPy, e1, e2] at e
    cases e
    intro v hv
    rcases List.mem_cons.1 hv with rfl | hv
    · exact (h u (by simp)).strip_unprefixed e1
    · exact ih (fun v hv => h v (List.mem_cons_of_mem _ hv)) e2 v hv

theorem deconstructPrefixes_result {top bot t b : UList} {f : ℝ} (ht : WellPrefixedList top)
    (hb : WellPrefixedList bot) (e : deconstructPrefixes (K := ℝ) top bot = .ok (t, b, f)) :
    UnprefixedList t ∧ UnprefixedList b := by
  obtain ⟨ps, e1, h1, -, -⟩ := strip_list ht
  obtain ⟨qs, e2, h2, -, -⟩ := strip_list hb
  simp only [deconstructPrefixes, e1, e2, prefixFactorLoop_spec false ps h1,
    prefixFactorLoop_spec true qs h2] at e
  cases e
  exact ⟨mapPy_strip_unprefixed ht e1, mapPy_strip_unprefixed hb e2⟩

/-- The reduction pipeline on genuine prefixes: always returns, in reduced form, without prefixes; the
returned factor is the product of the prefixes and accounts exactly for the change of the units. -/
theorem reduce_full (c1 c2 : Bool) {top bot : UList} (ht : WellPrefixedList top)
    (hb : WellPrefixedList bot) :
    ∃ t b, reduceUnits (K := ℝ) c1 c2 top bot = .ok (t, b, prefixProd top / prefixProd bot) ∧
      Reduced t b ∧ UnprefixedList t ∧ UnprefixedList b ∧
      ∀ ρ, Coherent ρ → ∀ v, mag ρ (v * (prefixProd top / prefixProd bot)) t b = mag ρ v top bot := by
  obtain ⟨t, b, e, hn⟩ := deconstructPrefixes_spec ht hb
  obtain ⟨hu1, hu2⟩ := deconstructPrefixes_result ht hb e
  obtain ⟨t1, b1, e1⟩ := deconstructUnits_ok t b
  obtain ⟨t2, b2, e2⟩ := simplifyUnits_ok
    (cancelUnits (if c1 then combineUnits t1 else t1) (if c2 then combineUnits b1 else b1)).1
    (cancelUnits (if c1 then combineUnits t1 else t1) (if c2 then combineUnits b1 else b1)).2
  obtain ⟨g1, g2⟩ := allSym_reduceAfter unprefixed_closed c1 c2 hu1 hu2 e1 e2
  refine ⟨t2, b2, ?_, simplifyUnits_reduced e2 (cancelUnits_reduced _ _), g1, g2, ?_⟩
  · simp only [reduceUnits, e, e1, e2]
  · intro ρ hρ v
    have hf := div_pos (prefixProd_pos top) (prefixProd_pos bot)
    rw [mag_eq hρ.pos, mag_eq hρ.pos, ← hn ρ hρ, Real.exp_add, Real.exp_log hf,
      reduceAfter hρ.laws c1 c2 e1 e2]
    ring

end Verif
