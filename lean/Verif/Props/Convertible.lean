import Verif.Lemmas.ConvertTotal
import Verif.Props.CompoundConv

/-! # C76: which compound units can be converted into each other -/

namespace Verif

/-- For units built from the vocabulary, conversion returns exactly when the two units have the same dimension and the
same net exponent of force.  Missing from the full claim "same dimension suffices": units of force are not broken into
mass, length and time (`C76_force_false`), `psi` is a force per area (`C76_psi_false`), two derived units in one half
(`C76_watt_false`), and names outside the vocabulary. -/
theorem C76_convertible_iff_partial (m : MultiV ℝ) (unit : Sym) (t b : UList) (hp : parseUnits unit = .ok (t, b))
    (hm : Ordinary m.top m.bot) (ht : Ordinary t b) :
    (∃ r, convertMulti stdTables m unit = .ok r) ↔
      dimOfUnit m.top m.bot = dimOfUnit t b ∧ forceOfUnit m.top m.bot = forceOfUnit t b := by
  constructor
  · rintro ⟨r, h⟩
    obtain ⟨ct, cb, right, left, lf, rf, tally, h1, h2, h3, h4, h5, -, -⟩ := convertMulti_ok h
    rw [hp] at h1; cases h1
    obtain ⟨sl⟩ := stages_of_ok h3 h4
    obtain ⟨sr⟩ := stages_of_ok h2 h5
    have e := (sl.ordinary_tally hm).symm.trans (sr.ordinary_tally ht)
    simp only [allClasses, List.map_cons, List.map_nil, classFrom, List.cons.injEq, and_true, true_and] at e
    refine ⟨sl.dim.trans sr.dim.symm, ?_⟩
    tauto
  · rintro ⟨hd, hf⟩
    obtain ⟨left, lf, lt, h1, h2⟩ := analysis_total hm
    obtain ⟨right, rf, rt, h3, h4⟩ := analysis_total ht
    obtain ⟨sl⟩ := stages_of_ok h1 h2
    obtain ⟨sr⟩ := stages_of_ok h3 h4
    have el := sl.ordinary_tally hm
    have er := sr.ordinary_tally ht
    rw [hd, hf, ← er] at el
    subst el
    have hrf : rf ≠ 0 := sr.factor_ne fun u hu h => (ht.entries u hu).temp h
    rw [convertMulti_eq hp h3 h1 h2 h4 hrf]
    unfold mkMulti
    split
    · exact ⟨_, rfl⟩
    · rw [hp]; exact ⟨_, rfl⟩

/-- Total correctness: under the conditions of C18 as well, the conversion returns the quantity of the target unit with
the SI size of the original. -/
theorem C76_converted_value_partial (m : MultiV ℝ) (unit : Sym) (t b : UList) (hp : parseUnits unit = .ok (t, b))
    (hm : Ordinary m.top m.bot) (ht : Ordinary t b) (sm : SafeUnits m.top m.bot) (st : SafeUnits t b)
    (hd : dimOfUnit m.top m.bot = dimOfUnit t b) (hf : forceOfUnit m.top m.bot = forceOfUnit t b) :
    convertMulti stdTables m unit =
      .ok ⟨m.cls, m.value * (lsize siR m.top / lsize siR m.bot) / (lsize siR t / lsize siR b), t, b⟩ := by
  obtain ⟨r, h⟩ := (C76_convertible_iff_partial m unit t b hp hm ht).2 ⟨hd, hf⟩
  obtain ⟨hp', -, hc⟩ := convert_units h
  rw [hp] at hp'
  simp only [Except.ok.injEq, Prod.mk.injEq] at hp'
  obtain ⟨rfl, rfl⟩ := hp'
  have hmag := C18_same_magnitude_partial m r unit h sm st
  have hpos : ∀ l, 0 < lsize siR l := by
    intro l
    apply List.prod_pos
    intro x hx
    obtain ⟨u, -, rfl⟩ := List.mem_map.1 hx
    exact Real.rpow_pos_of_pos (siR_pos _) _
  have hq : lsize siR r.top / lsize siR r.bot ≠ 0 := (div_pos (hpos _) (hpos _)).ne'
  rw [h]
  obtain ⟨cls, v, top, bot⟩ := r
  simp only [Except.ok.injEq, MultiV.mk.injEq, and_true] at *
  refine ⟨hc, ?_⟩
  rw [eq_div_iff hq]
  exact hmag

/-- Converting back is possible whenever converting is: convertibility does not depend on the direction. -/
theorem C76_symmetric (m n r : MultiV ℝ) (s unit : Sym) (hs : parseUnits s = .ok (m.top, m.bot))
    (hm : Ordinary m.top m.bot) (hn : Ordinary n.top n.bot) (hp : parseUnits unit = .ok (n.top, n.bot))
    (h : convertMulti stdTables m unit = .ok r) : ∃ q, convertMulti stdTables n s = .ok q := by
  obtain ⟨h1, h2⟩ := (C76_convertible_iff_partial m unit _ _ hp hm hn).1 ⟨r, h⟩
  exact (C76_convertible_iff_partial n s _ _ hs hn hm).2 ⟨h1.symm, h2.symm⟩

/-- An ordinary unit can be converted to itself, whatever the value. -/
theorem C76_reflexive (m : MultiV ℝ) (s : Sym) (hs : parseUnits s = .ok (m.top, m.bot)) (hm : Ordinary m.top m.bot) :
    ∃ q, convertMulti stdTables m s = .ok q :=
  (C76_convertible_iff_partial m s _ _ hs hm hm).2 ⟨rfl, rfl⟩

/-- Whether a conversion is possible does not depend on the order of the entries. -/
theorem C76_order (m m' : MultiV ℝ) (unit : Sym) (t b : UList) (hp : parseUnits unit = .ok (t, b))
    (hm : Ordinary m.top m.bot) (ht : Ordinary t b) (h1 : m.top.Perm m'.top) (h2 : m.bot.Perm m'.bot) :
    (∃ r, convertMulti stdTables m unit = .ok r) ↔ ∃ r, convertMulti stdTables m' unit = .ok r := by
  have few : ∀ l l' : UList, l.Perm l' → FewDefined l → FewDefined l' := by
    intro l l' hl h
    rcases h with h | h
    · exact .inl fun u hu => h u (hl.mem_iff.2 hu)
    · exact .inr (by rwa [← hl.countP_eq])
  have hm' : Ordinary m'.top m'.bot := by
    refine ⟨fun u hu => hm.entries u ?_, few _ _ h1 hm.fewTop, few _ _ h2 hm.fewBot⟩
    rcases List.mem_append.1 hu with hu | hu
    · exact List.mem_append_left _ (h1.mem_iff.2 hu)
    · exact List.mem_append_right _ (h2.mem_iff.2 hu)
  rw [C76_convertible_iff_partial m unit t b hp hm ht, C76_convertible_iff_partial m' unit t b hp hm' ht]
  simp only [dimOfUnit, forceOfUnit, (h1.map _).sum_eq, (h2.map _).sum_eq]

/-- The hypotheses hold of the usual units, prefixed ones among them. -/
example : Ordinary [⟨c!"kW", 1⟩] [⟨c!"m", 2⟩, ⟨c!"K", 1⟩] ∧ Ordinary [⟨c!"BTU", 1⟩] [⟨c!"hr", 1⟩, ⟨c!"ft", 2⟩, ⟨c!"F", 1⟩] ∧
    Ordinary [⟨c!"mol", 1⟩] [⟨c!"L", 1⟩, ⟨c!"min", 1⟩] ∧ Ordinary [⟨c!"kPa", 1⟩, ⟨c!"L", 1⟩] [⟨c!"mol", 1⟩, ⟨c!"K", 1⟩] ∧
    dimOfUnit [⟨c!"kW", 1⟩] [⟨c!"m", 2⟩, ⟨c!"K", 1⟩] = dimOfUnit [⟨c!"BTU", 1⟩] [⟨c!"hr", 1⟩, ⟨c!"ft", 2⟩, ⟨c!"F", 1⟩] := by
  refine ⟨?_, ?_, ?_, ?_, ?_⟩ <;> decide +kernel

/-- A conversion obtained from the theorem. -/
example (v : ℝ) : ∃ r, convertMulti stdTables ⟨.multi, v, [⟨c!"kW", 1⟩], [⟨c!"m", 2⟩, ⟨c!"K", 1⟩]⟩ c!"BTU/hr*ft^2*F" = .ok r :=
  (C76_convertible_iff_partial _ _ [⟨c!"BTU", 1⟩] [⟨c!"hr", 1⟩, ⟨c!"ft", 2⟩, ⟨c!"F", 1⟩] (by decide +kernel)
    (by dsimp only; decide +kernel) (by decide +kernel)).2 (by dsimp only; decide +kernel)

/-- Same dimension does not suffice, for any value: a newton cannot be converted to kg m/s². -/
theorem C76_force_false (v : ℝ) : dimOfUnit [⟨c!"N", 1⟩] [] = dimOfUnit [⟨c!"kg", 1⟩, ⟨c!"m", 1⟩] [⟨c!"s", 2⟩] ∧
    ¬ ∃ r, convertMulti stdTables ⟨.multi, v, [⟨c!"N", 1⟩], []⟩ c!"kg*m/s^2" = .ok r := by
  refine ⟨by decide +kernel, ?_⟩
  rw [C76_convertible_iff_partial _ _ [⟨c!"kg", 1⟩, ⟨c!"m", 1⟩] [⟨c!"s", 2⟩] (by decide +kernel)
    (by dsimp only; decide +kernel) (by decide +kernel)]
  dsimp only
  decide +kernel

/-- Nor can a pressure in `psi` that is part of a compound unit be converted to pascal. -/
theorem C76_psi_false (v : ℝ) : dimOfUnit [⟨c!"psi", 1⟩] [⟨c!"s", 1⟩] = dimOfUnit [⟨c!"Pa", 1⟩] [⟨c!"s", 1⟩] ∧
    ¬ ∃ r, convertMulti stdTables ⟨.multi, v, [⟨c!"psi", 1⟩], [⟨c!"s", 1⟩]⟩ c!"Pa/s" = .ok r := by
  refine ⟨by decide +kernel, ?_⟩
  rw [C76_convertible_iff_partial _ _ [⟨c!"Pa", 1⟩] [⟨c!"s", 1⟩] (by decide +kernel)
    (by dsimp only; decide +kernel) (by decide +kernel)]
  dsimp only
  decide +kernel

/-- A coefficient per degree Celsius never converts to one per kelvin: in a compound unit `C` is the coulomb. -/
theorem C76_celsius_false (v : ℝ) :
    ¬ ∃ r, convertMulti stdTables ⟨.multi, v, [⟨c!"W", 1⟩], [⟨c!"m", 2⟩, ⟨c!"C", 1⟩]⟩ c!"W/m^2*K" = .ok r := by
  rw [C76_convertible_iff_partial _ _ [⟨c!"W", 1⟩] [⟨c!"m", 2⟩, ⟨c!"K", 1⟩] (by decide +kernel)
    (by dsimp only; decide +kernel) (by decide +kernel)]
  dsimp only
  decide +kernel

/-- Two derived units in one half: `J*W` cannot even be converted to itself. -/
theorem C76_watt_false (v : ℝ) :
    convertMulti stdTables ⟨.multi, v, [⟨c!"J", 1⟩, ⟨c!"W", 1⟩], []⟩ c!"J*W" = .error .keyError := by
  have hp : parseUnits c!"J*W" = .ok ([⟨c!"J", 1⟩, ⟨c!"W", 1⟩], []) := by decide +kernel
  have h2 : ∃ t b, deconstructOnce [⟨c!"J", 1⟩, ⟨c!"W", 1⟩] [] = .ok (⟨c!"W", 1⟩ :: t, b) :=
    ⟨[⟨c!"kg", 1⟩, ⟨c!"m", 2⟩], [⟨c!"s", 2⟩], by decide +kernel⟩
  obtain ⟨t, b, h2⟩ := h2
  have hW : toUnitObj (K := ℝ) ⟨c!"W", 1⟩ = .error .keyError := by
    have : getUnitClass c!"W" = .error .keyError := by decide +kernel
    unfold toUnitObj; simp only [this]
  have hs : convertStart (K := ℝ) [⟨c!"J", 1⟩, ⟨c!"W", 1⟩] [] = .error .keyError := by
    unfold convertStart
    rw [deconstructPrefixes_unprefixed (by decide +kernel) (by decide +kernel)]
    simp only [h2, baseToUnit, mapPy, hW]
  unfold convertMulti
  simp only [hp, hs]

end Verif
