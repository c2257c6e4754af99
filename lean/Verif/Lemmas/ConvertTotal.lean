import Verif.Lemmas.ConvertDim
import Verif.Lemmas.ConvertMag
import Verif.Spec.Convertible

/-! # When every stage of a compound conversion returns -/

namespace Verif

/-! ## Prefixes -/

/-- What stripping does to a symbol of the vocabulary. -/
theorem strip_known : ∀ s ∈ plainNames ++ definedNames,
    (s = c!"kg" ∨ getPrefix s = .ok ([], s)) ∧
    ∀ p ∈ siPrefixes, p.1 :: s = c!"kg" ∨ getPrefix (p.1 :: s) = .ok ([p.1], s) ∨
      (getPrefix (p.1 :: s) = .ok ([], p.1 :: s) ∧ p.1 :: s ∈ plainNames ++ definedNames) := by
  decide +kernel

theorem mem_spelled {s : Sym} {l : List Sym} (h : s ∈ l) : Spelled l s := ⟨s, h, .inl rfl⟩

/-- Stripping leaves a vocabulary name and the exponent; the prefix, if any, is an SI prefix. -/
theorem strip_ordinary {u : BaseUnit} (h : Spelled (plainNames ++ definedNames) u.unit) :
    ∃ p s, stripUnit u = .ok (p, ⟨s, u.exp⟩) ∧ s ∈ plainNames ++ definedNames ∧
      ((p = [] ∧ u.unit = s) ∨ ∃ q ∈ siPrefixes, p = [q.1] ∧ u.unit = q.1 :: s) := by
  obtain ⟨T, hT, hs⟩ := h
  obtain ⟨s, e⟩ := u
  simp only at hs ⊢
  have kg : c!"kg" ∈ plainNames ++ definedNames := by decide +kernel
  obtain ⟨h1, h2⟩ := strip_known T hT
  have hkg : s = c!"kg" → ∃ p s', stripUnit ⟨s, e⟩ = .ok (p, ⟨s', e⟩) ∧ s' ∈ plainNames ++ definedNames ∧
      ((p = [] ∧ s = s') ∨ ∃ q ∈ siPrefixes, p = [q.1] ∧ s = q.1 :: s') := by
    rintro rfl
    exact ⟨[], c!"kg", by simp [stripUnit], kg, .inl ⟨rfl, rfl⟩⟩
  by_cases hk : s = c!"kg"
  · exact hkg hk
  have hun : ∀ r, getPrefix s = .ok r → stripUnit ⟨s, e⟩ = .ok (r.1, ⟨r.2, e⟩) := by
    intro r hr
    simp only [stripUnit, hk, if_false, hr]
  rcases hs with rfl | ⟨p, hp, rfl⟩
  · rcases h1 with h1 | h1
    · exact absurd h1 hk
    · exact ⟨_, _, hun _ h1, hT, .inl ⟨rfl, rfl⟩⟩
  · rcases h2 p hp with h3 | h3 | ⟨h3, h4⟩
    · exact absurd h3 hk
    · exact ⟨_, _, hun _ h3, hT, .inr ⟨p, hp, rfl, rfl⟩⟩
    · exact ⟨_, _, hun _ h3, h4, .inl ⟨rfl, rfl⟩⟩

/-- Stripped entries. -/
structure StrippedEntry (u : BaseUnit) : Prop where
  known : u.unit ∈ plainNames ++ definedNames
  power : u.unit ∈ namedPowers → u.exp = 1
  temp : u.unit ∈ temperatureNames → u.exp ≠ 0

theorem strip_list_ordinary {l : UList} (h : ∀ u ∈ l, OrdinaryEntry u) :
    ∃ ps, mapPy stripUnit l = .ok ps ∧ (∀ p ∈ ps, p.1 = [] ∨ ∃ q ∈ siPrefixes, p.1 = [q.1]) ∧
      (∀ u ∈ ps.map (·.2), StrippedEntry u) ∧
      ∀ (S : List Sym), (ps.map (·.2)).countP (fun u => decide (u.unit ∈ S)) ≤
          l.countP (fun u => decide (Spelled S u.unit)) ∧
        ((∀ u ∈ l, ¬ Spelled S u.unit) → ∀ u ∈ ps.map (·.2), u.unit ∉ S) := by
  induction l with
  | nil => exact ⟨[], rfl, by simp, by simp, by simp⟩
  | cons u l ih =>
    obtain ⟨ps, h1, h2, h3, h4⟩ := ih fun v hv => h v (List.mem_cons_of_mem _ hv)
    obtain ⟨hk, hpow, htemp⟩ := h u (by simp)
    obtain ⟨p, s, e, hs, hp⟩ := strip_ordinary hk
    have spelled : ∀ S : List Sym, s ∈ S → Spelled S u.unit := by
      intro S hS
      rcases hp with ⟨-, hp⟩ | ⟨q, hq, -, hp⟩
      · exact ⟨s, hS, .inl hp⟩
      · exact ⟨s, hS, .inr ⟨q, hq, hp⟩⟩
    refine ⟨(p, ⟨s, u.exp⟩) :: ps, by simp only [mapPy, e, h1], ?_, ?_, ?_⟩
    · intro x hx
      rcases List.mem_cons.1 hx with rfl | hx
      · rcases hp with ⟨hp, -⟩ | ⟨q, hq, hp, -⟩
        · exact .inl hp
        · exact .inr ⟨q, hq, hp⟩
      · exact h2 x hx
    · intro x hx
      rw [List.map_cons] at hx
      rcases List.mem_cons.1 hx with rfl | hx
      · exact ⟨hs, fun h => hpow (spelled _ h), fun h => htemp (spelled _ h)⟩
      · exact h3 x hx
    · intro S
      constructor
      · rw [List.map_cons, List.countP_cons, List.countP_cons]
        refine Nat.add_le_add (h4 S).1 ?_
        by_cases hS : s ∈ S
        · simp [hS, spelled S hS]
        · simp [hS]
      · intro hn x hx
        rw [List.map_cons] at hx
        rcases List.mem_cons.1 hx with rfl | hx
        · exact fun hS => hn u (by simp) (spelled S hS)
        · exact (h4 S).2 (fun v hv => hn v (List.mem_cons_of_mem _ hv)) x hx

theorem prefixFactor_si : ∀ q ∈ siPrefixes, prefixFactor [q.1] = some q.2 ∧ 0 < q.2 := by decide +kernel

theorem prefixFactorLoop_total (inv : Bool) (ps : List (Sym × BaseUnit))
    (h : ∀ p ∈ ps, p.1 = [] ∨ ∃ q ∈ siPrefixes, p.1 = [q.1]) (f : ℝ) : ∃ g, prefixFactorLoop inv f ps = .ok g := by
  induction ps generalizing f with
  | nil => exact ⟨f, rfl⟩
  | cons x ps ih =>
    obtain ⟨p, u⟩ := x
    have ih := ih fun p hp => h p (List.mem_cons_of_mem _ hp)
    rcases h (p, u) (by simp) with h0 | ⟨q, hq, h0⟩
    · simp only at h0
      subst h0
      obtain ⟨g, hg⟩ := ih f
      exact ⟨g, by simp only [prefixFactorLoop, if_true, hg]⟩
    · simp only at h0
      subst h0
      obtain ⟨e1, e2⟩ := prefixFactor_si q hq
      have hpos : (0 : ℝ) < (if inv then 1 / (q.2 : ℝ) else (q.2 : ℝ)) := by
        split
        · exact_mod_cast one_div_pos.2 e2
        · exact_mod_cast e2
      obtain ⟨g, hg⟩ := ih (f * ((if inv then 1 / (q.2 : ℝ) else (q.2 : ℝ)) ^ (u.exp : ℝ)))
      refine ⟨g, ?_⟩
      simp only [prefixFactorLoop, List.cons_ne_nil, if_false, e1, pow_real_pos hpos, hg]

/-! ## One pass -/

/-- The fragile names: never produced, always replaced when alone. -/
theorem rules_defined : ∀ s t b, DeconRule s t b → ∀ u ∈ t ++ b,
    u.unit ∈ plainNames ∧ u.unit ∉ definedNames ∧ u.unit ∉ namedPowers ∧ u.unit ∉ temperatureNames := by
  intro s t b h
  cases h <;> decide +kernel

theorem defined_derived : ∀ s ∈ definedNames, s ∈ derivedNames := by decide +kernel

theorem defined_rule : ∀ s ∈ definedNames, ∃ t b, DeconRule s t b := by
  intro s hs
  simp only [definedNames, List.mem_cons, List.not_mem_nil, or_false] at hs
  rcases hs with rfl | rfl | rfl | rfl
  · exact ⟨_, _, .W⟩
  · exact ⟨_, _, .V⟩
  · exact ⟨_, _, .cP⟩
  · exact ⟨_, _, .psi⟩

/-- A list on which one pass removes the fragile names. -/
def FewOK (l : UList) : Prop :=
  (∀ u ∈ l, u.unit ∉ definedNames) ∨ (l.countP fun u => decide (u.unit ∈ derivedNames)) ≤ 1

theorem deconPass_nodef (n : ℕ) (done rem other : UList) (hit : Bool) {a b : UList} {r : Bool}
    (h1 : ∀ u ∈ done, u.unit ∉ definedNames) (h2 : ∀ u ∈ rem, u.unit ∉ definedNames)
    (e : deconPass n done rem other hit = .ok (a, b, r)) : ∀ u ∈ a, u.unit ∉ definedNames := by
  induction n generalizing done rem other hit with
  | zero =>
    cases rem with
    | nil => simp only [deconPass, Except.ok.injEq, Prod.mk.injEq] at e; obtain ⟨rfl, rfl, -⟩ := e; exact h1
    | cons u rem => simp [deconPass] at e
  | succ n ih =>
    cases rem with
    | nil => simp only [deconPass, Except.ok.injEq, Prod.mk.injEq] at e; obtain ⟨rfl, rfl, -⟩ := e; exact h1
    | cons u rem =>
      rcases deconDef_cases u with ⟨t, b', hr, ed⟩ | ⟨ed, -⟩
      · simp only [deconPass, ed] at e
        have hrest : ∀ v ∈ rem ++ t.map (·.pow u.exp), v.unit ∉ definedNames := by
          intro v hv
          rcases List.mem_append.1 hv with hv | hv
          · exact h2 v (List.mem_cons_of_mem _ hv)
          · obtain ⟨x, hx, rfl⟩ := List.mem_map.1 hv
            exact (rules_defined _ _ _ hr x (by simp [hx])).2.1
        refine ih _ _ _ _ ?_ (fun v hv => hrest v (List.mem_of_mem_drop hv)) e
        intro v hv
        rcases List.mem_append.1 hv with hv | hv
        · exact h1 v hv
        · exact hrest v (List.mem_of_mem_take hv)
      · simp only [deconPass, ed] at e
        refine ih _ _ _ _ ?_ (fun v hv => h2 v (List.mem_cons_of_mem _ hv)) e
        intro v hv
        rcases List.mem_append.1 hv with hv | hv
        · exact h1 v hv
        · simp only [List.mem_singleton] at hv; subst hv; exact h2 _ (by simp)

theorem deconPass_few (n : ℕ) (done rem other : UList) (hit : Bool) {a b : UList} {r : Bool}
    (h1 : ∀ u ∈ done, u.unit ∉ definedNames) (h2 : FewOK rem) (e : deconPass n done rem other hit = .ok (a, b, r)) :
    ∀ u ∈ a, u.unit ∉ definedNames := by
  rcases h2 with h2 | h2
  · exact deconPass_nodef n done rem other hit h1 h2 e
  induction n generalizing done rem other hit with
  | zero =>
    cases rem with
    | nil => simp only [deconPass, Except.ok.injEq, Prod.mk.injEq] at e; obtain ⟨rfl, rfl, -⟩ := e; exact h1
    | cons u rem => simp [deconPass] at e
  | succ n ih =>
    cases rem with
    | nil => simp only [deconPass, Except.ok.injEq, Prod.mk.injEq] at e; obtain ⟨rfl, rfl, -⟩ := e; exact h1
    | cons u rem =>
      rcases deconDef_cases u with ⟨t, b', hr, ed⟩ | ⟨ed, hnd⟩
      · simp only [deconPass, ed] at e
        have hd := hr.derived
        rw [List.countP_cons_of_pos (by simpa using hd)] at h2
        have h0 : (rem.countP fun u => decide (u.unit ∈ derivedNames)) = 0 := by omega
        rw [List.countP_eq_zero] at h0
        have hrest : ∀ v ∈ rem ++ t.map (·.pow u.exp), v.unit ∉ definedNames := by
          intro v hv
          rcases List.mem_append.1 hv with hv | hv
          · intro hp
            have := h0 v hv
            simp only [decide_eq_true_eq] at this
            exact this (defined_derived _ hp)
          · obtain ⟨x, hx, rfl⟩ := List.mem_map.1 hv
            exact (rules_defined _ _ _ hr x (by simp [hx])).2.1
        refine deconPass_nodef _ _ _ _ _ ?_ (fun v hv => hrest v (List.mem_of_mem_drop hv)) e
        intro v hv
        rcases List.mem_append.1 hv with hv | hv
        · exact h1 v hv
        · exact hrest v (List.mem_of_mem_take hv)
      · simp only [deconPass, ed] at e
        refine ih _ _ _ _ ?_ e (le_trans ?_ h2)
        · intro v hv
          rcases List.mem_append.1 hv with hv | hv
          · exact h1 v hv
          · simp only [List.mem_singleton] at hv; subst hv
            intro hp
            obtain ⟨t, b, hr⟩ := defined_rule _ hp
            exact hnd _ _ hr
        · rw [List.countP_cons]; omega

theorem deconstructOnce_few {top bot t b : UList} (h1 : FewOK top) (h2 : FewOK bot)
    (e : deconstructOnce top bot = .ok (t, b)) : ∀ u ∈ t ++ b, u.unit ∉ definedNames := by
  have hno : ∀ s, s ∉ derivedNames → s ∉ definedNames := fun s h hd => h (defined_derived s hd)
  unfold deconstructOnce deconRound at e
  split at e
  · cases e
  · rename_i x1 x2 x3 e0
    cases e
    split at e0
    · cases e0
    · rename_i t1 b1 r1 e1
      split at e0
      · cases e0
      · rename_i b2 t2 r2 e2
        cases e0
        have k1 := deconPass_few _ _ _ _ _ (by simp) h1 e1
        obtain ⟨x, rfl, hx⟩ := deconPass_other _ _ _ _ _ e1
        have h2' : FewOK (bot ++ x) := by
          rcases h2 with h2 | h2
          · left; intro u hu
            rcases List.mem_append.1 hu with hu | hu
            · exact h2 u hu
            · exact hno _ (hx u hu)
          · right
            have h0 : (x.countP fun u => decide (u.unit ∈ derivedNames)) = 0 := by
              rw [List.countP_eq_zero]; intro u hu; simpa using hx u hu
            rw [List.countP_append, h0]; simpa using h2
        have k2 := deconPass_few _ _ _ _ _ (by simp) h2' e2
        obtain ⟨y, hy1, hy⟩ := deconPass_other _ _ _ _ _ e2
        intro u hu
        rcases List.mem_append.1 hu with hu | hu
        · rw [hy1] at hu
          rcases List.mem_append.1 hu with hu | hu
          · exact k1 u hu
          · exact hno _ (hy u hu)
        · exact k2 u hu

theorem deconstructOnce_total (top bot : UList) : ∃ t b, deconstructOnce top bot = .ok (t, b) := by
  obtain ⟨t, b, h, e, -⟩ := deconRound_spec dimOf_laws top bot
  exact ⟨t, b, by unfold deconstructOnce; rw [e]⟩

/-! ## One entry -/

/-- Entries after the pass. -/
structure PlainEntry (u : BaseUnit) : Prop where
  known : u.unit ∈ plainNames
  power : u.unit ∈ namedPowers → u.exp = 1
  temp : u.unit ∈ temperatureNames → u.exp ≠ 0

/-- What is needed of a name to convert it. -/
def NameOK (s : Sym) : Prop :=
  '^' ∉ s ∧ ((s ∈ temperatureUnits ∧ getUnitClass s = .ok .temperature) ∨
    (s ∉ temperatureUnits ∧ s ∉ unitComposites ∧ ∃ c ∈ linearClasses, getUnitClass s = .ok c ∧
      (c = .pressure → s ∈ pressureUnits) ∧ (c = .force → s ∈ forceUnits) ∧
      (standardOf c = some s ∨ ∃ e ∈ entries, e.1 = c ∧ e.2.1 = s)) ∨
    (s ∉ temperatureUnits ∧ s ∉ unitComposites ∧ ∃ c ∈ [UCls.current, .amount], getUnitClass s = .ok c ∧
      standardOf c = some s) ∨
    s = c!"L" ∨ s = c!"acre")

instance (s : Sym) : Decidable (NameOK s) := by unfold NameOK; infer_instance

theorem plain_ok : ∀ s ∈ plainNames, NameOK s := by decide +kernel

theorem convert_std {c : UCls} {s : Sym} (e : ℚ)
    (hs : standardOf c = some s) (h1 : s ∉ temperatureUnits) (h2 : s ∉ unitComposites) (h3 : '^' ∉ s) :
    convertAndGetFactor stdTables (⟨c, 1, s, e⟩ : UnitV ℝ) = .ok ⟨c, 1, s, e⟩ := by
  rw [cagf_parsed hs h1 h2 h3]
  unfold convertParsed
  rw [if_pos rfl]

/-- Conversion of one entry to its standard. -/
theorem step_total {x : BaseUnit} (h : PlainEntry x) :
    ∃ u u' : UnitV ℝ, toUnitObj x = .ok u ∧ convertAndGetFactor stdTables u = .ok u' ∧ u'.value ≠ 0 := by
  obtain ⟨s, e⟩ := x
  obtain ⟨hk, hpow, htemp⟩ := h
  simp only at hk hpow htemp
  have fin : ∀ u u' : UnitV ℝ, toUnitObj (⟨s, e⟩ : BaseUnit) = .ok u → convertAndGetFactor stdTables u = .ok u' →
      ∃ u u' : UnitV ℝ, toUnitObj (⟨s, e⟩ : BaseUnit) = .ok u ∧ convertAndGetFactor stdTables u = .ok u' ∧
        u'.value ≠ 0 := by
    intro u u' h1 h2
    exact ⟨u, u', h1, h2, step_ne (step_of_ok (toUnitObj_ok h1) h2).2 htemp⟩
  obtain ⟨hc, ⟨h1, h2⟩ | ⟨h1, h2, c, hcl, h3, h4, h5, h6⟩ | ⟨h1, h2, c, hcl, h3, h4⟩ | h1 | h1⟩ := plain_ok s hk
  · have ho : toUnitObj (K := ℝ) ⟨s, e⟩ = .ok ⟨.temperature, 1, s, e⟩ := by
      unfold toUnitObj
      simp only [h2]
      rfl
    simp only [temperatureUnits, List.mem_cons, List.not_mem_nil, or_false] at h1
    by_cases hK : s = c!"K" ∨ s = c!"C"
    · exact fin _ _ ho (by simp only [convertAndGetFactor, hK, if_true]; rfl)
    · have hR : s = c!"R" ∨ s = c!"F" := by tauto
      exact fin _ _ ho (by simp only [convertAndGetFactor, hK, hR, if_true, if_false]; rfl)
  · have ho : toUnitObj (K := ℝ) ⟨s, e⟩ = .ok ⟨c, 1, s, e⟩ := by
      unfold toUnitObj
      simp only [h3, mkUnit_linear hcl h4 h5]
    rcases h6 with h6 | ⟨en, hen, rfl, rfl⟩
    · exact fin _ _ ho (convert_std e h6 h1 h2 hc)
    · obtain ⟨std, hs, hstd, -⟩ := standard_facts en.1 hcl
      have hpos : (0 : ℝ) < 1 * (en.2.2.1 : ℝ) := by
        rw [one_mul]; exact_mod_cast (entries_facts en hen).2.2.2.2.2.2.1
      exact fin _ _ ho (by
        rw [cagf_parsed hs h1 h2 hstd]
        exact convertParsed_to hen hs 1 e e (pow_real_pos hpos e))
  · have ho : toUnitObj (K := ℝ) ⟨s, e⟩ = .ok ⟨c, 1, s, e⟩ := by
      unfold toUnitObj
      simp only [h3]
      simp only [List.mem_cons, List.not_mem_nil, or_false] at hcl
      rcases hcl with rfl | rfl <;> cases h4 <;> rfl
    exact fin _ _ ho (convert_std e h4 h1 h2 hc)
  · subst h1
    have he : e = 1 := hpow (by decide)
    subst he
    exact fin ⟨.volume, 1, c!"L", 1⟩ _ rfl litre_val
  · subst h1
    have he : e = 1 := hpow (by decide)
    subst he
    exact fin ⟨.area, 1, c!"acre", 1⟩ _ rfl acre_val

/-! ## The lists -/

theorem baseToUnit_plain {l : UList} (h : ∀ u ∈ l, PlainEntry u) : ∃ T : List (UnitV ℝ), mapPy (toUnitObj (K := ℝ)) l = .ok T ∧
    List.Forall₂ (fun x u => toUnitObj (K := ℝ) x = .ok u) l T := by
  induction l with
  | nil => exact ⟨[], rfl, .nil⟩
  | cons x l ih =>
    obtain ⟨T, h1, h2⟩ := ih fun v hv => h v (List.mem_cons_of_mem _ hv)
    obtain ⟨u, -, hu, -⟩ := step_total (h x (by simp))
    exact ⟨u :: T, by simp only [mapPy, hu, h1], .cons hu h2⟩

theorem factorTop_total {l : UList} {T : List (UnitV ℝ)} (h : ∀ u ∈ l, PlainEntry u)
    (hT : List.Forall₂ (fun x u => toUnitObj (K := ℝ) x = .ok u) l T) (f : ℝ) :
    ∃ F r, factorTop stdTables f T = .ok (F, r) := by
  induction hT generalizing f with
  | nil => exact ⟨f, [], rfl⟩
  | @cons x u l T hx _ ih =>
    obtain ⟨v, u', h1, h2, -⟩ := step_total (h x (by simp))
    rw [hx] at h1; cases h1
    obtain ⟨F, r, hF⟩ := ih (fun v hv => h v (List.mem_cons_of_mem _ hv)) (f * u'.value)
    exact ⟨F, _, by simp only [factorTop, h2, hF]; rfl⟩

theorem factorBot_total {l : UList} {T : List (UnitV ℝ)} (h : ∀ u ∈ l, PlainEntry u)
    (hT : List.Forall₂ (fun x u => toUnitObj (K := ℝ) x = .ok u) l T) (f : ℝ) :
    ∃ F r, factorBot stdTables f T = .ok (F, r) := by
  induction hT generalizing f with
  | nil => exact ⟨f, [], rfl⟩
  | @cons x u l T hx _ ih =>
    obtain ⟨v, u', h1, h2, h3⟩ := step_total (h x (by simp))
    rw [hx] at h1; cases h1
    obtain ⟨F, r, hF⟩ := ih (fun v hv => h v (List.mem_cons_of_mem _ hv)) (f * (1 / u'.value))
    exact ⟨F, _, by simp only [factorBot, h2, pyDiv, h3, if_false, hF]; rfl⟩

/-! ## After the factors -/

/-- Names in which the lists are written once every entry is in standard units. -/
def standardNames : List Sym :=
  [c!"K", c!"C", c!"R", c!"F", c!"m", c!"kg", c!"s", c!"A", c!"mol", c!"J", c!"Pa", c!"N", c!"lbf", c!"in", c!"g",
   c!"W", c!"V", c!"cP", c!"psi"]

theorem standardNames_closed : TableClosed (· ∈ standardNames) := by
  unfold TableClosed; decide +kernel

theorem step_standard {x : BaseUnit} {u : UnitV ℝ} (h : Step x u) : u.unit ∈ standardNames := by
  have hstd : ∀ c ∈ linearClasses ++ [.current, .amount], ∀ s ∈ standardOf c, s ∈ standardNames := by decide +kernel
  cases h with
  | kelvin s e hs => rcases hs with rfl | rfl <;> simp [standardNames]
  | rankine s e hs => rcases hs with rfl | rfl <;> simp [standardNames]
  | std c s e hc hs => exact hstd c hc s hs
  | entry c s std a b e hen hs => exact hstd c (List.mem_append_left _ (entries_facts _ hen).2.2.1) std hs
  | litre => decide +kernel
  | acre => decide +kernel

/-- Names left after full deconstruction. -/
def finalNames : List Sym :=
  [c!"K", c!"R", c!"F", c!"m", c!"kg", c!"s", c!"A", c!"mol", c!"N", c!"lbf", c!"in", c!"g"]

theorem standard_final : ∀ s ∈ standardNames, s ∈ finalNames ∨ s ∈ derivedNames := by decide +kernel

theorem final_ok : ∀ s ∈ finalNames, s ∈ plainNames ∧ s ∉ namedPowers := by decide +kernel

theorem derived_rule : ∀ s ∈ derivedNames, ∃ t b, DeconRule s t b := by
  intro s hs
  simp only [derivedNames, List.mem_cons, List.not_mem_nil, or_false] at hs
  rcases hs with rfl | rfl | rfl | rfl | rfl | rfl | rfl
  · exact ⟨_, _, .Pa⟩
  · exact ⟨_, _, .J⟩
  · exact ⟨_, _, .W⟩
  · exact ⟨_, _, .psi⟩
  · exact ⟨_, _, .cP⟩
  · exact ⟨_, _, .C⟩
  · exact ⟨_, _, .V⟩

theorem final_obj {x : BaseUnit} (h : x.unit ∈ finalNames) : ∃ u : UnitV ℝ, toUnitObj x = .ok u := by
  by_cases ht : x.unit ∈ temperatureNames
  · obtain ⟨s, e⟩ := x
    have h1 : ∀ s ∈ temperatureNames, getUnitClass s = .ok .temperature := by decide +kernel
    have h2 := h1 s ht
    refine ⟨⟨.temperature, 1, s, e⟩, ?_⟩
    unfold toUnitObj
    simp only [h2]
    rfl
  · obtain ⟨u, -, hu, -⟩ := step_total (x := x) ⟨(final_ok _ h).1, fun h' => absurd h' (final_ok _ h).2,
      fun h' => absurd h' ht⟩
    exact ⟨u, hu⟩

theorem final_objs {l : UList} (h : ∀ u ∈ l, u.unit ∈ finalNames) :
    ∃ T : List (UnitV ℝ), mapPy (toUnitObj (K := ℝ)) l = .ok T := by
  induction l with
  | nil => exact ⟨[], rfl⟩
  | cons x l ih =>
    obtain ⟨T, h1⟩ := ih fun v hv => h v (List.mem_cons_of_mem _ hv)
    obtain ⟨u, hu⟩ := final_obj (h x (by simp))
    exact ⟨u :: T, by simp only [mapPy, hu, h1]⟩

/-! ## The whole analysis of one side -/

theorem ordinary_plain {top bot : UList} (h : Ordinary top bot) {ts bs : UList} {f : ℝ}
    (e : deconstructPrefixes top bot = .ok (ts, bs, f)) {t b : UList} (e2 : deconstructOnce ts bs = .ok (t, b)) :
    ∀ u ∈ t ++ b, PlainEntry u := by
  obtain ⟨ps, e3, -, h1, h2⟩ := strip_list_ordinary fun u hu => h.entries u (List.mem_append_left _ hu)
  obtain ⟨qs, e4, -, h3, h4⟩ := strip_list_ordinary fun u hu => h.entries u (List.mem_append_right _ hu)
  obtain ⟨ps', qs', g, e5, e6, rfl, rfl, -, -⟩ := deconstructPrefixes_parts e
  rw [e3] at e5; cases e5
  rw [e4] at e6; cases e6
  have few : ∀ (l l' : UList), FewDefined l → (∀ (S : List Sym),
      l'.countP (fun u => decide (u.unit ∈ S)) ≤ l.countP (fun u => decide (Spelled S u.unit)) ∧
        ((∀ u ∈ l, ¬ Spelled S u.unit) → ∀ u ∈ l', u.unit ∉ S)) → FewOK l' := by
    intro l l' hl hS
    rcases hl with hl | hl
    · exact .inl ((hS _).2 hl)
    · exact .inr ((hS _).1.trans hl)
  have hf := deconstructOnce_few (few _ _ h.fewTop h2) (few _ _ h.fewBot h4) e2
  have hall : ∀ u ∈ t ++ b, StrippedEntry u := by
    refine deconstructOnce_all ?_ ?_ e2
    · intro s t b hr u hu q
      obtain ⟨k1, k2, k3, k4⟩ := rules_defined s t b hr u hu
      exact ⟨List.mem_append_left _ k1, fun h => absurd h k3, fun h => absurd h k4⟩
    · intro u hu
      rcases List.mem_append.1 hu with hu | hu
      · exact h1 u hu
      · exact h3 u hu
  intro u hu
  obtain ⟨a1, a2, a3⟩ := hall u hu
  rcases List.mem_append.1 a1 with a1 | a1
  · exact ⟨a1, a2, a3⟩
  · exact absurd a1 (hf u hu)

/-- The analysis of an ordinary unit returns. -/
theorem analysis_total {top bot : UList} (h : Ordinary top bot) :
    ∃ s F tally, convertStart (K := ℝ) top bot = .ok s ∧ convertFinish stdTables s = .ok (F, tally) := by
  obtain ⟨ps, e1, h1, -, -⟩ := strip_list_ordinary fun u hu => h.entries u (List.mem_append_left _ hu)
  obtain ⟨qs, e2, h2, -, -⟩ := strip_list_ordinary fun u hu => h.entries u (List.mem_append_right _ hu)
  obtain ⟨g, e3⟩ := prefixFactorLoop_total false ps h1 1
  obtain ⟨f, e4⟩ := prefixFactorLoop_total true qs h2 g
  have e5 : deconstructPrefixes (K := ℝ) top bot = .ok (ps.map (·.2), qs.map (·.2), f) := by
    simp only [deconstructPrefixes, e1, e2, e3, e4]
  obtain ⟨t, b, e6⟩ := deconstructOnce_total (ps.map (·.2)) (qs.map (·.2))
  have hp := ordinary_plain h e5 e6
  obtain ⟨T, e7, oT⟩ := baseToUnit_plain fun u hu => hp u (List.mem_append_left _ hu)
  obtain ⟨B, e8, oB⟩ := baseToUnit_plain fun u hu => hp u (List.mem_append_right _ hu)
  have e9 : convertStart (K := ℝ) top bot = .ok (T, B, f) := by
    simp only [convertStart, e5, e6, baseToUnit, e7, e8]
  obtain ⟨F1, lt, e10⟩ := factorTop_total (fun u hu => hp u (List.mem_append_left _ hu)) oT (1 * f)
  obtain ⟨F2, lb, e11⟩ := factorBot_total (fun u hu => hp u (List.mem_append_right _ hu)) oB F1
  obtain ⟨tU, k1, -, -, rfl⟩ := factorTop_ok (oT.imp fun _ _ => toUnitObj_ok) e10
  obtain ⟨bU, j1, -, -, -, rfl⟩ := factorBot_ok (oB.imp fun _ _ => toUnitObj_ok) e11
  obtain ⟨t2, b2, e12, -, hno⟩ := deconstructUnits_spec dimOf_laws (tU.map UnitV.entry) (bU.map UnitV.entry)
  have hsym : ∀ (l : UList) (U : List (UnitV ℝ)), List.Forall₂ Step l U → AllSym (· ∈ standardNames) (U.map UnitV.entry) := by
    intro l U h u hu
    obtain ⟨v, hv, rfl⟩ := List.mem_map.1 hu
    obtain ⟨x, -, hx⟩ := forall₂_mem h.flip v hv
    exact step_standard hx
  obtain ⟨a1, a2⟩ := allSym_deconLoop standardNames_closed _ (hsym _ _ k1) (hsym _ _ j1) e12
  have hfin : ∀ u ∈ t2 ++ b2, u.unit ∈ finalNames := by
    intro u hu
    have : u.unit ∈ standardNames := by
      rcases List.mem_append.1 hu with hu | hu
      · exact a1 u hu
      · exact a2 u hu
    rcases standard_final _ this with h | h
    · exact h
    · obtain ⟨x, y, hr⟩ := derived_rule _ h
      exact absurd hr (hno u hu x y)
  have hnc : ∀ u ∈ t2 ++ b2, '^' ∉ u.unit := by
    have : ∀ s ∈ finalNames, '^' ∉ s := by decide +kernel
    exact fun u hu => this _ (hfin u hu)
  obtain ⟨T2, e13⟩ := final_objs fun u hu => hfin u (List.mem_append_left _ hu)
  obtain ⟨B2, e14⟩ := final_objs fun u hu => hfin u (List.mem_append_right _ hu)
  have oT2 := (mapPy_forall₂ e13).imp fun _ _ => toUnitObj_ok
  have oB2 := (mapPy_forall₂ e14).imp fun _ _ => toUnitObj_ok
  have hmap : mapPy (classDiff T2 B2) allClasses = .ok (allClasses.map fun c => tot c t2 - tot c b2) := by
    apply mapPy_ok_map
    intro c _
    simp only [classDiff, classTotal_eq oT2 fun u hu => hnc u (List.mem_append_left _ hu),
      classTotal_eq oB2 fun u hu => hnc u (List.mem_append_right _ hu)]
  exact ⟨_, F2, _, e9, by simp only [convertFinish, e10, e11, e12, baseToUnit, e13, e14, hmap]; rfl⟩

/-! ## The tally -/

theorem forceOf_laws : DerivedLaws forceOf := by constructor <;> decide +kernel

/-- The exponent of a class, read off from dimension and force. -/
def classFrom (d : Dim) (f : ℚ) : UCls → ℚ
  | .length => d.1 - f
  | .mass => d.2.1 - f
  | .time => d.2.2.1 + 2 * f
  | .temperature => d.2.2.2.1
  | .current => d.2.2.2.2.1
  | .amount => d.2.2.2.2.2
  | .force => f
  | _ => 0

theorem classFrom_final : ∀ s ∈ finalNames, ∀ c ∈ allClasses,
    (if getUnitClass s = .ok c then 1 else 0) = classFrom (dimOf s) (forceOf s) c := by decide +kernel

theorem classFrom_add (d d' : Dim) (f f' : ℚ) (c : UCls) :
    classFrom (d + d') (f + f') c = classFrom d f c + classFrom d' f' c := by
  cases c <;> simp only [classFrom, Prod.fst_add, Prod.snd_add] <;> ring

theorem classFrom_sub (d d' : Dim) (f f' : ℚ) (c : UCls) :
    classFrom (d - d') (f - f') c = classFrom d f c - classFrom d' f' c := by
  cases c <;> simp only [classFrom, Prod.fst_sub, Prod.snd_sub] <;> ring

theorem classFrom_smul (q : ℚ) (d : Dim) (f : ℚ) (c : UCls) : classFrom (q • d) (q • f) c = q * classFrom d f c := by
  cases c <;> simp only [classFrom, Prod.smul_fst, Prod.smul_snd, smul_eq_mul] <;> ring

theorem allClasses_mem (c : UCls) : c ∈ allClasses := by cases c <;> decide

theorem tot_final {l : UList} (h : ∀ u ∈ l, u.unit ∈ finalNames) (c : UCls) :
    tot c l = classFrom (wsum dimOf l) (wsum forceOf l) c := by
  induction l with
  | nil => cases c <;> simp [tot, wsum, classFrom]
  | cons u l ih =>
    rw [wsum_cons, wsum_cons, classFrom_add, classFrom_smul, ← ih fun v hv => h v (List.mem_cons_of_mem _ hv),
      ← classFrom_final _ (h u (by simp)) c (allClasses_mem c)]
    simp only [tot, List.map_cons, List.sum_cons, mul_ite, mul_one, mul_zero]

theorem strip_force {u : BaseUnit} (h : OrdinaryEntry u) {p : Sym} {u' : BaseUnit} (e : stripUnit u = .ok (p, u')) :
    u'.exp • forceOf u'.unit = u.exp • forceOf u.unit := by
  obtain ⟨p', s, e', hs, hp⟩ := strip_ordinary h.known
  rw [e] at e'; cases e'
  have h2 : ∀ s ∈ plainNames ++ definedNames, ∀ q ∈ siPrefixes, forceOf (q.1 :: s) = forceOf s := by decide +kernel
  rcases hp with ⟨-, hp⟩ | ⟨q, hq, -, hp⟩
  · rw [hp]
  · rw [hp, h2 s hs q hq]

theorem strip_list_force {l : UList} {ps : List (Sym × BaseUnit)} (h : mapPy stripUnit l = .ok ps)
    (ho : ∀ u ∈ l, OrdinaryEntry u) : wsum forceOf (ps.map (·.2)) = wsum forceOf l := by
  replace h := mapPy_forall₂ h
  induction h with
  | nil => rfl
  | @cons x y l r hx _ ih =>
    obtain ⟨p, u'⟩ := y
    rw [List.map_cons, wsum_cons, wsum_cons, ih fun u hu => ho u (List.mem_cons_of_mem _ hu),
      strip_force (ho x (by simp)) hx]

theorem strip_list_dim' {l : UList} {ps : List (Sym × BaseUnit)} (h : mapPy stripUnit l = .ok ps)
    (ho : ∀ u ∈ l, OrdinaryEntry u) : wsum dimOf (ps.map (·.2)) = wsum dimOf l := by
  have hk : ∀ s ∈ plainNames ++ definedNames, s ∈ registry.map (·.1) ++ derivedNames ∧ '^' ∉ s := by decide +kernel
  obtain ⟨ps', e, -, h2, -⟩ := strip_list_ordinary ho
  rw [h] at e; cases e
  exact strip_list_dim h fun u hu => hk _ (h2 u hu).known

theorem step_force {x : BaseUnit} {u : UnitV ℝ} (h : Step x u) (hx : x.unit ∈ plainNames) :
    u.entry.exp • forceOf u.entry.unit = x.exp • forceOf x.unit := by
  have hen : ∀ e ∈ entries, e.2.1 ∈ plainNames → ∀ std ∈ standardOf e.1, forceOf std = forceOf e.2.1 := by decide +kernel
  cases h with
  | kelvin s e hs => rfl
  | rankine s e hs => rfl
  | std c s e hc hs => rfl
  | entry c s std a b e he hs => simp only [UnitV.entry]; rw [hen _ he hx std hs]
  | litre => simp only [UnitV.entry]; decide +kernel
  | acre => simp only [UnitV.entry]; decide +kernel

theorem steps_force {l : UList} {U : List (UnitV ℝ)} (h : List.Forall₂ Step l U) (hl : ∀ x ∈ l, x.unit ∈ plainNames) :
    wsum forceOf (U.map UnitV.entry) = wsum forceOf l := by
  induction h with
  | nil => rfl
  | @cons x u l U hx _ ih =>
    rw [List.map_cons, wsum_cons, wsum_cons, ih fun y hy => hl y (List.mem_cons_of_mem _ hy), step_force hx (hl x (by simp))]

/-- The tally of an ordinary unit is determined by its dimension and its force exponent. -/
theorem Stages.ordinary_tally {top bot : UList} {F : ℝ} {tally : List ℚ} (s : Stages top bot F tally)
    (h : Ordinary top bot) :
    tally = allClasses.map (classFrom (dimOfUnit top bot) (forceOfUnit top bot)) := by
  have hp := ordinary_plain h s.prefixes s.once
  obtain ⟨t', b', e', h1, h2⟩ := deconstructUnits_spec dimOf_laws (s.tU.map UnitV.entry) (s.bU.map UnitV.entry)
  have hfull := s.full
  rw [e'] at hfull
  obtain ⟨rfl, rfl⟩ : t' = s.t2 ∧ b' = s.b2 := by cases hfull; exact ⟨rfl, rfl⟩
  obtain ⟨t', b', e'', h3, -⟩ := deconstructUnits_spec forceOf_laws (s.tU.map UnitV.entry) (s.bU.map UnitV.entry)
  rw [e'] at e''
  obtain ⟨rfl, rfl⟩ : s.t2 = t' ∧ s.b2 = b' := by cases e''; exact ⟨rfl, rfl⟩
  have hsym : ∀ (l : UList) (U : List (UnitV ℝ)), List.Forall₂ Step l U → AllSym (· ∈ standardNames) (U.map UnitV.entry) := by
    intro l U h u hu
    obtain ⟨v, hv, rfl⟩ := List.mem_map.1 hu
    obtain ⟨x, -, hx⟩ := forall₂_mem h.flip v hv
    exact step_standard hx
  obtain ⟨a1, a2⟩ := allSym_deconLoop standardNames_closed _ (hsym _ _ s.tStep) (hsym _ _ s.bStep) s.full
  have hfin : ∀ u ∈ s.t2 ++ s.b2, u.unit ∈ finalNames := by
    intro u hu
    have : u.unit ∈ standardNames := by
      rcases List.mem_append.1 hu with hu | hu
      · exact a1 u hu
      · exact a2 u hu
    rcases standard_final _ this with h | h
    · exact h
    · obtain ⟨x, y, hr⟩ := derived_rule _ h
      exact absurd hr (h2 u hu x y)
  obtain ⟨ps, qs, g, p1, p2, p3, p4, -, -⟩ := deconstructPrefixes_parts s.prefixes
  have o1 : ∀ u ∈ top, OrdinaryEntry u := fun u hu => h.entries u (List.mem_append_left _ hu)
  have o2 : ∀ u ∈ bot, OrdinaryEntry u := fun u hu => h.entries u (List.mem_append_right _ hu)
  have hd : net dimOf s.t2 s.b2 = net dimOf top bot := by
    have e1 : net dimOf (s.tU.map UnitV.entry) (s.bU.map UnitV.entry) = net dimOf s.t s.b := by
      simp only [net, steps_dim s.tStep, steps_dim s.bStep]
    rw [h1, e1, deconstructOnce_net dimOf_laws s.once, p3, p4]
    simp only [net, strip_list_dim' p1 o1, strip_list_dim' p2 o2]
  have hf : net forceOf s.t2 s.b2 = net forceOf top bot := by
    have e1 : net forceOf (s.tU.map UnitV.entry) (s.bU.map UnitV.entry) = net forceOf s.t s.b := by
      simp only [net, steps_force s.tStep fun x hx => (hp x (List.mem_append_left _ hx)).known,
        steps_force s.bStep fun x hx => (hp x (List.mem_append_right _ hx)).known]
    rw [h3, e1, deconstructOnce_net forceOf_laws s.once, p3, p4]
    simp only [net, strip_list_force p1 o1, strip_list_force p2 o2]
  rw [s.tally]
  apply List.map_congr_left
  intro c _
  rw [tot_final fun u hu => hfin u (List.mem_append_left _ hu), tot_final fun u hu => hfin u (List.mem_append_right _ hu),
    ← classFrom_sub]
  change classFrom (net dimOf s.t2 s.b2) (net forceOf s.t2 s.b2) c = _
  rw [hd, hf]
  rfl

end Verif
