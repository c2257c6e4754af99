import Verif.Lemmas.ConvertDim
import Verif.Lemmas.ConvertMag

/-! # C17, C18, C19: conversion of compound quantities -/

namespace Verif

/-- The units of the result are the parsed target. -/
theorem convert_units {m r : MultiV ℝ} {unit : Sym} {T : Tables ℝ} (h : convertMulti T m unit = .ok r) :
    parseUnits unit = .ok (r.top, r.bot) ∧ unit ≠ [] ∧ r.cls = m.cls := by
  obtain ⟨ct, cb, right, left, lf, rf, tally, h1, h2, -, -, -, -, h7⟩ := convertMulti_ok h
  have hne : unit ≠ [] := by
    rintro rfl
    have : parseUnits [] = .ok ([⟨[], 1⟩], []) := by decide +kernel
    rw [this] at h1; cases h1
    have : convertStart (K := ℝ) [⟨[], 1⟩] [] = .error .indexError := by
      simp [convertStart, deconstructPrefixes, mapPy, stripUnit, getPrefix]
    rw [this] at h2; cases h2
  unfold mkMulti at h7
  rw [if_neg hne, h1] at h7
  cases h7
  exact ⟨h1, hne, rfl⟩

/-! ## C17 -/

/-- A compound conversion that returns does not change the physical dimension, whatever the quantity and the target
string; equivalently, if the dimensions differ it raises. -/
theorem C17_same_dimension (m r : MultiV ℝ) (unit : Sym) (h : convertMulti stdTables m unit = .ok r) :
    dimOfUnit m.top m.bot = dimOfUnit r.top r.bot := by
  obtain ⟨hp, -, -⟩ := convert_units h
  obtain ⟨ct, cb, right, left, lf, rf, tally, h1, h2, h3, h4, h5, -, -⟩ := convertMulti_ok h
  rw [hp] at h1; cases h1
  obtain ⟨sl⟩ := stages_of_ok h3 h4
  obtain ⟨sr⟩ := stages_of_ok h2 h5
  exact sl.dim.trans sr.dim.symm

/-- With the target's dimension different, the result is an exception. -/
theorem C17_mismatch_raises (m : MultiV ℝ) (unit : Sym) (t b : UList) (hp : parseUnits unit = .ok (t, b))
    (hd : dimOfUnit m.top m.bot ≠ dimOfUnit t b) : ∃ e, convertMulti stdTables m unit = .error e := by
  cases h : convertMulti stdTables m unit with
  | error e => exact ⟨e, rfl⟩
  | ok r =>
    obtain ⟨hp', -, -⟩ := convert_units h
    rw [hp] at hp'
    simp only [Except.ok.injEq, Prod.mk.injEq] at hp'
    exact absurd (by rw [hp'.1, hp'.2]; exact C17_same_dimension m r unit h) hd

/-- A conversion that returns (heat transfer coefficient to imperial units), and one between different dimensions. -/
example : ∃ r, convertMulti (K := ℚ) stdTables ⟨.multi, 5, [⟨c!"W", 1⟩], [⟨c!"m", 2⟩, ⟨c!"K", 1⟩]⟩ c!"BTU/hr*ft^2*F" = .ok r ∧
    dimOfUnit [⟨c!"W", 1⟩] [⟨c!"m", 2⟩, ⟨c!"K", 1⟩] = (0, 1, -3, -1, 0, 0) := by
  refine ⟨⟨.multi, 5 * ((1 / (((3048 / 10000) ^ 2) * (5/9)) * 1055056 / 1000 / 3600)⁻¹),
    [⟨c!"BTU", 1⟩], [⟨c!"hr", 1⟩, ⟨c!"ft", 2⟩, ⟨c!"F", 1⟩]⟩, by decide +kernel, by decide +kernel⟩

example : dimOfUnit [⟨c!"kg", 1⟩] [⟨c!"m", 3⟩] ≠ dimOfUnit [⟨c!"mol", 1⟩] [⟨c!"L", 1⟩] := by decide +kernel

/-! ## C18 -/

/-- Conditions on one quantity or target for the magnitude theorem: genuine SI prefixes, temperature units with exponent
one, and `psi` not together with another derived unit in the same half. -/
structure SafeUnits (top bot : UList) : Prop where
  prefixTop : WellPrefixedList top
  prefixBot : WellPrefixedList bot
  temps : ∀ u ∈ top ++ bot, IsTemp u.unit → u.exp = 1
  psiTop : PsiAlone top
  psiBot : PsiAlone bot

/-- A compound conversion that returns keeps the SI magnitude.  Missing from the full claim: temperature units with an
exponent other than one (`C18_temperature_false`), `psi` next to another derived unit (`C18_psi_false`), and symbols
whose first letter is not a genuine prefix. -/
theorem C18_same_magnitude_partial (m r : MultiV ℝ) (unit : Sym) (h : convertMulti stdTables m unit = .ok r)
    (hm : SafeUnits m.top m.bot) (hr : SafeUnits r.top r.bot) : r.mag siR = m.mag siR := by
  obtain ⟨hp, hne, -⟩ := convert_units h
  obtain ⟨ct, cb, right, left, lf, rf, tally, h1, h2, h3, h4, h5, h6, h7⟩ := convertMulti_ok h
  rw [hp] at h1; cases h1
  obtain ⟨sl⟩ := stages_of_ok h3 h4
  obtain ⟨sr⟩ := stages_of_ok h2 h5
  have e1 := sl.size hm.1 hm.2 hm.3 hm.4 hm.5
  have e2 := sr.size hr.1 hr.2 hr.3 hr.4 hr.5
  have hv : r.value = m.value * (lf / rf) := by
    unfold mkMulti at h7
    rw [if_neg hne, hp] at h7
    simp only [Except.ok.injEq] at h7
    rw [← h7]
  unfold MultiV.mag Verif.mag
  rw [← e1, ← e2, hv]
  field_simp

example : SafeUnits [⟨c!"W", 1⟩] [⟨c!"m", 2⟩, ⟨c!"K", 1⟩] ∧
    SafeUnits [⟨c!"BTU", 1⟩] [⟨c!"hr", 1⟩, ⟨c!"ft", 2⟩, ⟨c!"F", 1⟩] ∧
    SafeUnits [⟨c!"psi", 1⟩, ⟨c!"L", 1⟩] [⟨c!"kg", 1⟩, ⟨c!"K", 1⟩] := by
  refine ⟨⟨?_, ?_, ?_, ?_, ?_⟩, ⟨?_, ?_, ?_, ?_, ?_⟩, ⟨?_, ?_, ?_, ?_, ?_⟩⟩ <;> decide +kernel

/-- Evaluation of the conversion of entries that need no table. -/
theorem C18_temperature_value (v : ℝ) :
    convertMulti stdTables ⟨.multi, v, [⟨c!"K", 2⟩], []⟩ c!"R^2" =
      .ok ⟨.multi, v * ((1 * (1 * 2)) / (1 * (5 / 9 * 2))), [⟨c!"R", 2⟩], []⟩ := by
  have hp : parseUnits c!"R^2" = .ok ([⟨c!"R", 2⟩], []) := by decide +kernel
  have hd : ∀ s, s = c!"K" ∨ s = c!"R" → deconstructOnce [⟨s, 2⟩] [] = .ok ([⟨s, 2⟩], []) ∧
      deconstructUnits [⟨s, 2⟩] [] = .ok ([⟨s, 2⟩], []) ∧ getUnitClass s = .ok .temperature := by
    rintro s (rfl | rfl) <;> decide +kernel
  have hb : ∀ s, s = c!"K" ∨ s = c!"R" → baseToUnit (K := ℝ) [⟨s, 2⟩] [] = .ok ([⟨.temperature, 1, s, 2⟩], []) := by
    intro s hs
    simp [baseToUnit, mapPy, toUnitObj, (hd s hs).2.2, mkUnit]
  have hs : ∀ s, s = c!"K" ∨ s = c!"R" → convertStart (K := ℝ) [⟨s, 2⟩] [] = .ok ([⟨.temperature, 1, s, 2⟩], [], 1) := by
    intro s hs
    have hu : UnprefixedList [⟨s, 2⟩] := by rcases hs with rfl | rfl <;> decide +kernel
    unfold convertStart
    rw [deconstructPrefixes_unprefixed hu (by decide +kernel)]
    simp only [(hd s hs).1, hb s hs]
  have hf : ∀ (s : Sym) (x : ℝ), s = c!"K" ∨ s = c!"R" → convertAndGetFactor stdTables (⟨.temperature, 1, s, 2⟩ : UnitV ℝ) =
      .ok ⟨.temperature, x, s, 2⟩ → ∃ t, convertFinish stdTables ([⟨.temperature, 1, s, 2⟩], [], (1 : ℝ)) =
        .ok (1 * x, t) ∧ t = (allClasses.map fun c => if c = .temperature then 2 else 0) := by
    intro s x hs hx
    refine ⟨_, ?_, rfl⟩
    have hm : mapPy (classDiff [(⟨.temperature, 1, s, 2⟩ : UnitV ℝ)] []) allClasses =
        .ok (allClasses.map fun c => if c = .temperature then (2 : ℚ) else 0) := by
      apply mapPy_ok_map
      intro c _
      simp [classDiff, classTotal, mapPy, (hd s hs).2.2]
      congr 1
      simp only [eq_comm]
    simp only [convertFinish, factorTop, hx, factorBot, (hd s hs).2.1, hb s hs, hm, one_mul]
  obtain ⟨t1, a1, rfl⟩ := hf c!"K" (1 * (1 * 2)) (.inl rfl) (by simp [convertAndGetFactor])
  obtain ⟨t2, a2, rfl⟩ := hf c!"R" (1 * (5 / 9 * 2)) (.inr rfl) (by simp [convertAndGetFactor])
  rw [convertMulti_eq (m := ⟨.multi, v, [⟨c!"K", 2⟩], []⟩) hp (hs _ (.inr rfl)) (hs _ (.inl rfl)) a1 a2 (by norm_num)]
  unfold mkMulti
  rw [if_neg (by decide), hp]
  simp

/-- Full claim, false: a temperature squared is converted with twice the factor instead of its square. -/
theorem C18_temperature_false : ¬ ∀ (m r : MultiV ℝ) (unit : Sym), convertMulti stdTables m unit = .ok r →
    r.mag siR = m.mag siR := by
  intro h
  have := h _ _ _ (C18_temperature_value 1)
  have hK : siR c!"K" = 1 := by unfold siR; rw [show siSize c!"K" = 1 by decide +kernel]; simp
  have hR : siR c!"R" = 5 / 9 := by unfold siR; rw [show siSize c!"R" = 5 / 9 by decide +kernel]; norm_num
  simp only [MultiV.mag, Verif.mag, lsize, List.map_cons, List.map_nil, List.prod_cons, List.prod_nil, hK, hR] at this
  norm_num at this

/-- Also false without temperatures: next to `J`, one `psi` becomes 6894.76 Pa, while the `lbf/in^2` it is defined as
becomes 4.44822/0.0254² N/m². -/
theorem C18_psi_false : ¬ ∀ (v : ℚ) (r r' : MultiV ℚ),
    convertMulti stdTables ⟨.multi, v, [⟨c!"J", 1⟩, ⟨c!"psi", 1⟩], []⟩ c!"J*Pa" = .ok r →
    convertMulti stdTables ⟨.multi, v, [⟨c!"lbf", 1⟩], [⟨c!"in", 2⟩]⟩ c!"N/m^2" = .ok r' → r.value = r'.value := by
  intro h
  have := h 1 ⟨.multi, 689476 / 100, [⟨c!"J", 1⟩, ⟨c!"Pa", 1⟩], []⟩
    ⟨.multi, 444822 / 100000 / (254 / 10000) ^ 2, [⟨c!"N", 1⟩], [⟨c!"m", 2⟩]⟩ (by decide +kernel) (by decide +kernel)
  revert this
  decide +kernel

/-- Whether a conversion is possible depends on the order of the factors: the second of two derived units is not
deconstructed in the single pass. -/
theorem C18_order_matters : (∃ r, convertMulti (K := ℚ) stdTables ⟨.multi, 1, [⟨c!"J", 1⟩, ⟨c!"psi", 1⟩], []⟩ c!"J*Pa" = .ok r) ∧
    convertMulti (K := ℚ) stdTables ⟨.multi, 1, [⟨c!"psi", 1⟩, ⟨c!"J", 1⟩], []⟩ c!"J*Pa" = .error .unitConversion :=
  ⟨⟨⟨.multi, 689476 / 100, [⟨c!"J", 1⟩, ⟨c!"Pa", 1⟩], []⟩, by decide +kernel⟩, by decide +kernel⟩

/-! ## C19 -/

/-- No temperature unit has exponent zero. -/
def TempNonzero (top bot : UList) : Prop := ∀ u ∈ top ++ bot, IsTemp u.unit → u.exp ≠ 0

/-- Converting to `t` and back to `s` restores value, units and class.  Missing from the full claim: temperature units
with exponent zero in `s` (`C19_round_trip_false`); a quantity built from the empty string has no string to return to. -/
theorem C19_round_trip_partial (cls : MCls) (v : ℝ) (s t : Sym) (m q : MultiV ℝ) (hm : mkMulti cls v s = .ok m)
    (hs : s ≠ []) (hz : TempNonzero m.top m.bot) (h : convertMulti stdTables m t = .ok q) :
    convertMulti stdTables q s = .ok m := by
  obtain ⟨hp, hne, hcls⟩ := convert_units h
  obtain ⟨ct, cb, right, left, lf, rf, tally, h1, h2, h3, h4, h5, h6, h7⟩ := convertMulti_ok h
  have hp2 := hp
  rw [h1] at hp; simp only [Except.ok.injEq, Prod.mk.injEq] at hp
  obtain ⟨rfl, rfl⟩ := hp
  obtain ⟨sl⟩ := stages_of_ok h3 h4
  have hlf := sl.factor_ne hz
  unfold mkMulti at hm h7
  rw [if_neg hs] at hm
  rw [if_neg hne, h1] at h7
  split at hm
  · cases hm
  · rename_i mt mb hps
    cases hm
    simp only [Except.ok.injEq] at h7
    rw [convertMulti_eq hps h3 h2 h5 h4 hlf]
    unfold mkMulti
    rw [if_neg hs, hps, ← h7]
    simp only [Except.ok.injEq, MultiV.mk.injEq, and_self, and_true, true_and]
    field_simp

/-- Converting through an intermediate unit gives what the direct conversion gives. -/
theorem C19_path (m q r : MultiV ℝ) (t u : Sym)
    (h : convertMulti stdTables m t = .ok q) (h' : convertMulti stdTables q u = .ok r) :
    convertMulti stdTables m u = .ok r := by
  obtain ⟨hp, hne, hcls⟩ := convert_units h
  obtain ⟨ct, cb, right, left, lf, rf, tally, h1, h2, h3, h4, h5, h6, h7⟩ := convertMulti_ok h
  rw [h1] at hp; simp only [Except.ok.injEq, Prod.mk.injEq] at hp
  obtain ⟨rfl, rfl⟩ := hp
  obtain ⟨ct, cb, right', left', lf', rf', tally', j1, j2, j3, j4, j5, j6, j7⟩ := convertMulti_ok h'
  rw [j3] at h2; cases h2
  rw [j4] at h5; cases h5
  rw [convertMulti_eq j1 j2 h3 h4 j5 j6, ← j7, hcls]
  have hv : q.value = m.value * (lf / rf) := by
    unfold mkMulti at h7
    rw [if_neg hne, h1] at h7
    simp only [Except.ok.injEq] at h7
    rw [← h7]
  rw [hv]
  congr 1
  field_simp

/-- Converting to the unit it already has returns the quantity, whenever that conversion returns at all. -/
theorem C19_identity (cls : MCls) (v : ℝ) (s : Sym) (m q : MultiV ℝ) (hm : mkMulti cls v s = .ok m) (hs : s ≠ [])
    (h : convertMulti stdTables m s = .ok q) : q = m := by
  obtain ⟨ct, cb, right, left, lf, rf, tally, h1, h2, h3, h4, h5, h6, h7⟩ := convertMulti_ok h
  unfold mkMulti at hm h7
  rw [if_neg hs, h1] at hm h7
  cases hm
  rw [h2] at h3; cases h3
  rw [h4] at h5; cases h5
  rw [div_self h6, mul_one] at h7
  cases h7; rfl

/-- A round trip over W/m²K and BTU/hr ft² F satisfies the hypotheses. -/
example : TempNonzero [⟨c!"W", 1⟩] [⟨c!"m", 2⟩, ⟨c!"K", 1⟩] ∧
    mkMulti .multi (5 : ℚ) c!"W/m^2*K" = .ok ⟨.multi, 5, [⟨c!"W", 1⟩], [⟨c!"m", 2⟩, ⟨c!"K", 1⟩]⟩ := by
  constructor
  · unfold TempNonzero; decide +kernel
  · decide +kernel

/-- Full claim, false: `5 K^0` becomes `0 m^0`, and converting back raises. -/
theorem C19_round_trip_false : ¬ ∀ (v : ℚ) (s t : Sym) (m q : MultiV ℚ), mkMulti .multi v s = .ok m →
    convertMulti stdTables m t = .ok q → convertMulti stdTables q s = .ok m := by
  intro h
  have := h 5 c!"K^0" c!"m^0" ⟨.multi, 5, [⟨c!"K", 0⟩], []⟩ ⟨.multi, 0, [⟨c!"m", 0⟩], []⟩ (by decide +kernel)
    (by decide +kernel)
  revert this
  decide +kernel

end Verif
