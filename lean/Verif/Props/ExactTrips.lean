import Verif.Props.CompoundConv
import Verif.Props.Guards

/-! # Round trips and unit guards, without exception (C19, C30)

`C19_round_trip_partial` says when a conversion can be undone and `C30_check_units_partial` when a guard lets a value
pass.  Here both are completed: the round trip succeeds exactly when no temperature has exponent zero, and `check_units`
is described for every argument and every string. -/

namespace Verif

/-! ## C19 -/

/-- A temperature other than degrees Celsius has exponent zero.  (`C` is deconstructed as the coulomb.) -/
def AbsoluteZeroth (top bot : UList) : Prop :=
  ∃ u ∈ top ++ bot, u.exp = 0 ∧ ∃ T ∈ [c!"K", c!"R", c!"F"], u.unit = T ∨ ∃ p ∈ siPrefixes, u.unit = p.1 :: T

/-- Every spelling of a temperature loses its prefix letter, if it has one. -/
theorem getPrefix_temp : ∀ T ∈ [c!"K", c!"R", c!"F"], (T ≠ c!"kg" ∧ ∃ p, getPrefix T = .ok (p, T)) ∧
    ∀ q ∈ siPrefixes, (q.1 :: T) ≠ c!"kg" ∧ ∃ p, getPrefix (q.1 :: T) = .ok (p, T) := by
  intro T hT
  simp only [List.mem_cons, List.not_mem_nil, or_false] at hT
  rcases hT with rfl | rfl | rfl <;>
  · refine ⟨⟨by decide, [], by decide +kernel⟩, ?_⟩
    intro q hq
    simp only [siPrefixes, List.mem_cons, List.not_mem_nil, or_false] at hq
    rcases hq with rfl | rfl | rfl | rfl | rfl <;>
    exact ⟨by decide, _, rfl⟩

theorem strip_temp {l : UList} {ps : List (Sym × BaseUnit)} (h : mapPy stripUnit l = .ok ps) {u : BaseUnit} (hu : u ∈ l)
    {T : Sym} (hT : T ∈ [c!"K", c!"R", c!"F"]) (ht : u.unit = T ∨ ∃ p ∈ siPrefixes, u.unit = p.1 :: T) :
    (⟨T, u.exp⟩ : BaseUnit) ∈ ps.map (·.2) := by
  have hs : ∃ p, stripUnit u = .ok (p, ⟨T, u.exp⟩) := by
    obtain ⟨⟨h1, p, h2⟩, h3⟩ := getPrefix_temp T hT
    rcases ht with h | ⟨q, hq, h⟩
    · exact ⟨p, by unfold stripUnit; rw [h, if_neg h1, h2]⟩
    · obtain ⟨h4, p, h5⟩ := h3 q hq
      exact ⟨p, by unfold stripUnit; rw [h, if_neg h4, h5]⟩
  obtain ⟨p, e⟩ := hs
  obtain ⟨w, hw, e'⟩ := forall₂_mem (mapPy_forall₂ h) u hu
  rw [e] at e'
  cases e'
  exact List.mem_map.2 ⟨_, hw, rfl⟩

theorem step_temp_zero {T : Sym} (hT : T ∈ [c!"K", c!"R", c!"F"]) {u : UnitV ℝ} (h : Step ⟨T, 0⟩ u) : u.value = 0 := by
  have k1 : ∀ c ∈ linearClasses ++ [.current, .amount], ∀ s ∈ standardOf c, s ∉ [c!"K", c!"R", c!"F"] := by
    decide +kernel
  have k2 : ∀ e ∈ entries, e.2.1 ∉ [c!"K", c!"R", c!"F"] := by decide +kernel
  cases h with
  | kelvin s e hs => simp
  | rankine s e hs => simp
  | std c s e hc hs => exact absurd hT (k1 c hc _ hs)
  | entry c s std a b e hen hs => exact absurd hT (k2 _ hen)

/-- The factor to standard units is zero when a temperature other than degrees Celsius has exponent zero. -/
theorem Stages.factor_zero {top bot : UList} {F : ℝ} {tally : List ℚ} (s : Stages top bot F tally)
    (h : AbsoluteZeroth top bot) : F = 0 := by
  obtain ⟨u, hu, h0, T, hT, ht⟩ := h
  have hm : (⟨T, 0⟩ : BaseUnit) ∈ s.ts ++ s.bs := by
    obtain ⟨ps, qs, g, e1, e2, e3, e4, -⟩ := deconstructPrefixes_parts s.prefixes
    rw [← h0, e3, e4]
    rcases List.mem_append.1 hu with hu | hu
    · exact List.mem_append.2 (.inl (strip_temp e1 hu hT ht))
    · exact List.mem_append.2 (.inr (strip_temp e2 hu hT ht))
  have hd : ∀ T ∈ [c!"K", c!"R", c!"F"], T ∉ derivedNames := by decide +kernel
  rcases deconstructOnce_keeps s.once _ hm with h | h
  · exact absurd h (hd T hT)
  · rcases List.mem_append.1 h with h | h
    · obtain ⟨w, hw, hs⟩ := forall₂_mem s.tStep _ h
      rw [s.factor, List.prod_eq_zero (List.mem_map.2 ⟨w, hw, step_temp_zero hT hs⟩), mul_zero, zero_div]
    · obtain ⟨w, hw, hs⟩ := forall₂_mem s.bStep _ h
      exact absurd (step_temp_zero hT hs) (s.bot_ne w hw)

/-- Going back, without exception: once `MultiUnit(v, s)` has been converted to `t`, converting back either restores value,
units and class, or the first conversion has returned 0 whatever `v` was and converting back raises ZeroDivisionError.
Which of the two happens depends on the factor to standard units only. -/
theorem round_trip_factor {cls : MCls} {v : ℝ} {s t : Sym} {m q : MultiV ℝ} (hm : mkMulti cls v s = .ok m) (hs : s ≠ [])
    (h : convertMulti stdTables m t = .ok q) : ∃ (F : ℝ) (tally : List ℚ), Nonempty (Stages m.top m.bot F tally) ∧
      (F ≠ 0 → convertMulti stdTables q s = .ok m) ∧
      (F = 0 → q.value = 0 ∧ convertMulti stdTables q s = .error .zeroDivision) := by
  obtain ⟨hp, hne, hcls⟩ := convert_units h
  obtain ⟨ct, cb, right, left, lf, rf, tally, h1, h2, h3, h4, h5, h6, h7⟩ := convertMulti_ok h
  rw [h1] at hp; simp only [Except.ok.injEq, Prod.mk.injEq] at hp
  obtain ⟨rfl, rfl⟩ := hp
  refine ⟨lf, tally, stages_of_ok h3 h4, ?_⟩
  unfold mkMulti at hm h7
  rw [if_neg hs] at hm
  rw [if_neg hne, h1] at h7
  split at hm
  · cases hm
  · rename_i mt mb hps
    cases hm
    simp only [Except.ok.injEq] at h7
    refine ⟨fun hlf => ?_, fun hlf => ⟨by rw [← h7, hlf]; simp, ?_⟩⟩
    · rw [convertMulti_eq hps h3 h2 h5 h4 hlf]
      unfold mkMulti
      rw [if_neg hs, hps, ← h7]
      simp only [Except.ok.injEq, MultiV.mk.injEq, and_self, and_true, true_and]
      field_simp
    · unfold convertMulti
      simp only [hps, h3, h2, h4, h5, ne_eq, not_true, if_false, pyDiv, hlf, if_true]

/-- The round trip, without exception.  Once `MultiUnit(v, s)` has been converted to `t`, converting back restores value,
units and class if no temperature in `s` has exponent zero.  If one in K, R or F has, the conversion has returned 0,
whatever `v` was, and converting back raises ZeroDivisionError.  In any case one of the two happens. -/
theorem C19_round_trip_exact (cls : MCls) (v : ℝ) (s t : Sym) (m q : MultiV ℝ) (hm : mkMulti cls v s = .ok m)
    (hs : s ≠ []) (h : convertMulti stdTables m t = .ok q) :
    (TempNonzero m.top m.bot → convertMulti stdTables q s = .ok m) ∧
    (AbsoluteZeroth m.top m.bot → q.value = 0 ∧ convertMulti stdTables q s = .error .zeroDivision) ∧
    (convertMulti stdTables q s = .ok m ∨ q.value = 0 ∧ convertMulti stdTables q s = .error .zeroDivision) := by
  obtain ⟨F, tally, ⟨sl⟩, h1, h2⟩ := round_trip_factor hm hs h
  refine ⟨fun hz => h1 (sl.factor_ne hz), fun hz => h2 (sl.factor_zero hz), ?_⟩
  by_cases hF : F = 0
  · exact .inr (h2 hF)
  · exact .inl (h1 hF)

/-- A quantity that has lost its value: 5 mK⁰ becomes 0 m⁰. -/
example : AbsoluteZeroth [⟨c!"mK", 0⟩] [] ∧ mkMulti .multi (5 : ℚ) c!"mK^0" = .ok ⟨.multi, 5, [⟨c!"mK", 0⟩], []⟩ ∧
    convertMulti (K := ℚ) stdTables ⟨.multi, 5, [⟨c!"mK", 0⟩], []⟩ c!"m^0" = .ok ⟨.multi, 0, [⟨c!"m", 0⟩], []⟩ :=
  ⟨⟨⟨c!"mK", 0⟩, by simp, rfl, c!"K", by simp, .inr ⟨('m', 1 / 1000), by simp [siPrefixes], rfl⟩⟩, by decide +kernel,
    by decide +kernel⟩

/-- Degrees Celsius with exponent zero are taken for coulombs and come back unharmed, unless a derived unit in front of
them hides them from the single pass. -/
theorem C19_celsius_zero :
    convertMulti (K := ℚ) stdTables ⟨.multi, 5, [⟨c!"C", 0⟩], []⟩ c!"m^0" = .ok ⟨.multi, 5, [⟨c!"m", 0⟩], []⟩ ∧
    convertMulti (K := ℚ) stdTables ⟨.multi, 5, [⟨c!"J", 1⟩, ⟨c!"C", 0⟩], []⟩ c!"J" = .ok ⟨.multi, 0, [⟨c!"J", 1⟩], []⟩ :=
  ⟨by decide +kernel, by decide +kernel⟩

/-! ## C30 -/

/-- `check_units` for every argument and every string: numbers, None and other objects pass; a simple quantity passes if
its unit is the string, else IncorrectUnits; for a compound quantity the string is read, with whatever exception that
raises, and it passes if the lists are the same, in the same order, else AttributeError; an instance of `object` itself is
an IndexError. -/
theorem C30_check_units_exact (v : Val ℝ) (s : Sym) :
    (checkUnits v s = .ok () ↔ (∀ u, v = .unit u → u.unit = s) ∧
      (∀ m, v = .multi m → parseUnits s = .ok (m.top, m.bot)) ∧ v ≠ .bare) ∧
    (∀ e, checkUnits v s = .error e ↔
      (∃ u, v = .unit u ∧ u.unit ≠ s ∧ e = .incorrectUnits) ∨
      (∃ m, v = .multi m ∧ (parseUnits s = .error e ∨
        ∃ t b, parseUnits s = .ok (t, b) ∧ ¬ (m.top = t ∧ m.bot = b) ∧ e = .attributeError)) ∨
      (v = .bare ∧ e = .indexError)) := by
  cases v with
  | num x => simp [checkUnits]
  | none => simp [checkUnits]
  | other => simp [checkUnits]
  | bare => simp [checkUnits, eq_comm]
  | unit u =>
    by_cases h : u.unit = s
    · simp [checkUnits, h]
    · simp only [checkUnits, h, if_false]
      refine ⟨by simp [h], fun e => ?_⟩
      simp [h, eq_comm (a := e)]
  | multi m =>
    cases hp : parseUnits s with
    | error e => simp [checkUnits, hp]
    | ok p =>
      obtain ⟨t, b⟩ := p
      by_cases h : m.top = t ∧ m.bot = b
      · obtain ⟨rfl, rfl⟩ := h
        simp [checkUnits, hp]
      · simp only [checkUnits, hp, h, if_false, reduceCtorEq, false_iff, Except.error.injEq]
        refine ⟨?_, ?_⟩
        · rintro ⟨-, h2, -⟩
          have := h2 m rfl
          simp only [Except.ok.injEq, Prod.mk.injEq] at this
          exact h ⟨this.1.symm, this.2.symm⟩
        · intro e
          constructor
          · intro he
            exact .inr (.inl ⟨m, rfl, .inr ⟨t, b, rfl, h, he.symm⟩⟩)
          · rintro (⟨u, hu, -⟩ | ⟨m', hm, h | ⟨t', b', h1, h2, h3⟩⟩ | ⟨h, -⟩)
            · cases hu
            · cases h
            · exact h3.symm
            · cases h

/-- The order of the units in the required string matters. -/
example : checkUnits (.multi (⟨.multi, 1, [⟨c!"kg", 1⟩], [⟨c!"m", 1⟩, ⟨c!"s", 1⟩]⟩ : MultiV ℚ)) c!"kg/m*s" = .ok () ∧
    checkUnits (.multi (⟨.multi, 1, [⟨c!"kg", 1⟩], [⟨c!"m", 1⟩, ⟨c!"s", 1⟩]⟩ : MultiV ℚ)) c!"kg/s*m" =
      .error .attributeError := by
  constructor <;> decide +kernel

end Verif
