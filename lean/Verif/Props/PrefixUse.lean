import Verif.Lemmas.PrefixUse
import Verif.Spec.PrefixTable
import Verif.Props.Returns

/-!
# C100: what becomes of the prefixes of the arguments
-/

namespace Verif
open Code

theorem prefixTable_passes : ∀ t ∈ prefixTable,
    (codedFormulas.any fun f => decide (f.name = t.name) && t.passes f.code) = true := by
  decide +kernel

/-- Every row of the table: whatever the formula returns has the size that the formula, read as an expression over the
real numbers, has at the sizes the arguments are taken to have. -/
theorem C100_prefixes : ∀ t ∈ prefixTable, ∃ f ∈ codedFormulas, f.name = t.name ∧ t.Describes f.code f.model := by
  intro t ht
  obtain ⟨f, hf, h⟩ := List.any_eq_true.1 (prefixTable_passes t ht)
  simp only [Bool.and_eq_true, decide_eq_true_eq] at h
  exact ⟨f, hf, h.1, PrefixUse.describes_of (C82_formulas f hf) h.2⟩

/-- The table leaves out three formulas: two that lose an exponent (C99) and one written with prefixed constants. -/
theorem C100_covers : ∀ f ∈ codedFormulas, (∃ t ∈ prefixTable, t.name = f.name) ∨
    f.name = c!"Sb_calc" ∨ f.name = c!"Sc_calc" ∨ f.name = c!"K_from_standard" := by
  have : (codedFormulas.all fun f => prefixTable.any (fun t => decide (t.name = f.name)) ||
      (decide (f.name = c!"Sb_calc") || (decide (f.name = c!"Sc_calc") || decide (f.name = c!"K_from_standard")))) = true := by
    decide +kernel
  intro f hf
  have := List.all_eq_true.1 this f hf
  simpa only [Bool.or_eq_true, List.any_eq_true, decide_eq_true_eq] using this

/-- The formulas use no arguments that are not in the table. -/
theorem prefixTable_uses : ∀ t ∈ prefixTable, ∀ f ∈ codedFormulas, f.name = t.name →
    f.code.uses (fun i => (t.arg i).isSome) = true := by
  have : ∀ t ∈ prefixTable,
      (codedFormulas.all fun f => !decide (f.name = t.name) || f.code.uses (fun i => (t.arg i).isSome)) = true := by
    decide +kernel
  intro t ht f hf hn
  have := List.all_eq_true.1 (this t ht) f hf
  simpa [hn] using this

theorem PrefixUse.offBy_zero {a : ℕ → Val ℝ} {l : List ℚ} (h : ∀ q ∈ l, q = 0) : PrefixUse.offBy a l = 1 := by
  induction l generalizing a with
  | nil => rfl
  | cons q l ih =>
    rw [List.forall_mem_cons] at h
    simp [PrefixUse.offBy, h.1, ih h.2]

theorem PrefixUse.offBy_plain {a : ℕ → Val ℝ} {l : List ℚ} (h : ∀ i q, l[i]? = some q → q = 0 ∨ (a i).scale = 1) :
    PrefixUse.offBy a l = 1 := by
  induction l generalizing a with
  | nil => rfl
  | cons q l ih =>
    have h0 : (a 0).scale ^ (q : ℝ) = 1 := by
      rcases h 0 q rfl with rfl | h
      · simp
      · rw [h, Real.one_rpow]
    rw [PrefixUse.offBy, h0, one_mul]
    exact ih fun i q hq => h (i + 1) q hq

/-- Where no prefix is ignored the result has the size of the formula at the sizes of the arguments. -/
theorem C100_heeded : ∀ t ∈ prefixTable, (∀ i k, t.arg i = some k → k.2 ≠ .ignored) → (∀ q ∈ t.off, q = 0) →
    ∃ f ∈ codedFormulas, f.name = t.name ∧ ∀ a, t.Admits a → ∀ r, f.model a = .ok r →
      ∀ ρ, Coherent ρ → (f.code.hasConst = true → ρ = fun s => (siSize s : ℝ)) →
        r.magn ρ = f.code.eval fun i => (a i).magn ρ := by
  intro t ht hi ho
  obtain ⟨f, hf, hn, h⟩ := C100_prefixes t ht
  refine ⟨f, hf, hn, fun a ha r hr ρ hρ hc => ?_⟩
  rw [h a ha r hr ρ hρ hc, PrefixUse.offBy_zero ho, mul_one]
  congr 1
  funext i
  unfold PrefixUse.taken
  split
  · rename_i k hk
    exact absurd rfl (hi i _ hk)
  · rfl

/-- An ignored prefix is as good as none: calls with arguments that have the same size, or after the prefixes are struck out
if these are ignored, have results of the same size. -/
theorem C100_struck : ∀ t ∈ prefixTable, ∃ f ∈ codedFormulas, f.name = t.name ∧ ∀ a b, t.Admits a → t.Admits b →
    ∀ ρ, Coherent ρ → (f.code.hasConst = true → ρ = fun s => (siSize s : ℝ)) →
      (∀ i k, t.arg i = some k → if k.2 = .ignored then (a i).struck ρ = (b i).struck ρ else (a i).magn ρ = (b i).magn ρ) →
        (∀ i q, t.off[i]? = some q → q = 0 ∨ (a i).scale = 1 ∧ (b i).scale = 1) →
          ∀ r r', f.model a = .ok r → f.model b = .ok r' → r.magn ρ = r'.magn ρ := by
  intro t ht
  obtain ⟨f, hf, hn, h⟩ := C100_prefixes t ht
  refine ⟨f, hf, hn, fun a b ha hb ρ hρ hc hs ho r r' hr hr' => ?_⟩
  rw [h a ha r hr ρ hρ hc, h b hb r' hr' ρ hρ hc, PrefixUse.offBy_plain fun i q hq => (ho i q hq).imp_right And.left,
    PrefixUse.offBy_plain fun i q hq => (ho i q hq).imp_right And.right, mul_one, mul_one]
  refine Code.eval_congr (fun i hi => ?_) _ (prefixTable_uses t ht f hf hn)
  obtain ⟨⟨k, p⟩, hk⟩ := Option.isSome_iff_exists.1 hi
  have := hs i _ hk
  cases p <;> simpa [PrefixUse.taken, hk] using this

/-- An ignored prefix makes the result wrong: if one argument has a prefix that is ignored and C98 claims an effect of this
argument, the result is off from the formula's value in the direction claimed. -/
theorem C100_wrong : ∀ t ∈ prefixTable, ∀ T ∈ trendTable, T.name = t.name → ∃ f ∈ codedFormulas, f.name = t.name ∧
    ∀ a, t.Admits a → ∀ ρ, Coherent ρ → (f.code.hasConst = true → ρ = fun s => (siSize s : ℝ)) →
      (∀ j A s, T.arg j = some A → A.sign = some s → s.Of ((a j).magn ρ)) →
      (∀ p ∈ T.above, (a p.2).magn ρ < (a p.1).magn ρ ∧ t.taken ρ a p.2 < t.taken ρ a p.1) →
      ∀ i k A e, t.arg i = some (k, .ignored) → T.arg i = some A → A.effect = some e →
        (∀ j, j ≠ i → (a j).scale = 1) → (t.off.getD i 0 = 0) → 0 < (a i).magn ρ →
          ∀ r, f.model a = .ok r →
            ((a i).scale < 1 → e.Rel (f.code.eval fun i => (a i).magn ρ) (r.magn ρ)) ∧
            (1 < (a i).scale → e.Rel (r.magn ρ) (f.code.eval fun i => (a i).magn ρ)) := by
  intro t ht T hT hTn
  obtain ⟨f, hf, hn, h⟩ := C100_prefixes t ht
  obtain ⟨g, hg, h'⟩ := List.any_eq_true.1 (trendTable_reads T hT)
  simp only [Bool.and_eq_true, decide_eq_true_eq] at h'
  obtain rfl : f = g := List.inj_on_of_nodup_map codedFormulas_names hf hg (hn.trans (hTn.symm.trans h'.1.symm))
  refine ⟨f, hf, hn, fun a ha ρ hρ hc hs hab i k A e hk hA he h1 ho hpos r hr => ?_⟩
  have hoff : PrefixUse.offBy a t.off = 1 := PrefixUse.offBy_plain fun j q hq => by
    by_cases hj : j = i
    · subst hj
      left
      simpa [List.getD, hq] using ho
    · exact .inr (h1 j hj)
  have other (j : ℕ) (hj : j ≠ i) : t.taken ρ a j = (a j).magn ρ := by
    unfold PrefixUse.taken
    split
    · rw [Val.struck, h1 j hj, div_one]
    · rfl
  have own : t.taken ρ a i = (a i).magn ρ / (a i).scale := by simp [PrefixUse.taken, hk, Val.struck]
  have sp := (a i).scale_pos
  have sgn (s : Sgn) (x y : ℝ) (hy : 0 < y) (hx : s.Of x) : s.Of (x / y) := by
    cases s with
    | pos => exact div_pos hx hy
    | neg => exact div_neg_of_neg_of_pos hx hy
  have m1 : Meets T.signs T.above fun i => (a i).magn ρ := by
    refine ⟨fun j s hj => ?_, fun p hp => (hab p hp).1⟩
    obtain ⟨B, hB, hB'⟩ := Option.bind_eq_some_iff.1 hj
    exact hs j B s hB hB'
  have m2 : Meets T.signs T.above (t.taken ρ a) := by
    refine ⟨fun j s hj => ?_, fun p hp => (hab p hp).2⟩
    by_cases hi : j = i
    · subst hi; rw [own]; exact sgn s _ _ sp (m1.sign _ _ hj)
    · rw [other j hi]; exact m1.sign _ _ hj
  rw [h a ha r hr ρ hρ hc, hoff, mul_one]
  refine ⟨fun hlt => ?_, fun hlt => ?_⟩
  · refine Trends.reads_sound h'.2.2 m1 m2 hA he (fun j hj => (other j hj).symm) ?_
    rw [own]
    exact (lt_div_iff₀ sp).2 (by nlinarith)
  · refine Trends.reads_sound h'.2.2 m2 m1 hA he (fun j hj => other j hj) ?_
    rw [own]
    exact (div_lt_iff₀ sp).2 (by nlinarith)

/-! ## Witnesses -/

/-- 3 W/(m²·K), 50 cm, 2 W/(m·K). -/
def bodyInCentimetres : ℕ → Val ℝ
  | 0 => .multi ⟨.multi, 3, [⟨c!"W", 1⟩], [⟨c!"m", 2⟩, ⟨c!"K", 1⟩]⟩
  | 1 => .unit ⟨.length, 50, c!"cm", 1⟩
  | _ => .multi ⟨.multi, 2, [⟨c!"W", 1⟩], [⟨c!"m", 1⟩, ⟨c!"K", 1⟩]⟩

open PrefixArg in
theorem bodyInCentimetres_admitted :
    PrefixUse.Admits ⟨c!"biot", [ignored htc, ignored length, heeded thermalConductivity], []⟩ bodyInCentimetres := by
  have d0 : (Val.multi (K := ℝ) ⟨.multi, 3, [⟨c!"W", 1⟩], [⟨c!"m", 2⟩, ⟨c!"K", 1⟩]⟩).dim = Kind.htc.dim :=
    (show (Val.multi (K := ℝ) ⟨.multi, 0, [⟨c!"W", 1⟩], [⟨c!"m", 2⟩, ⟨c!"K", 1⟩]⟩).dim = _ by decide +kernel)
  have d1 : (Val.unit (K := ℝ) ⟨.length, 50, c!"cm", 1⟩).dim = Kind.length.dim :=
    (show (Val.unit (K := ℝ) ⟨.length, 0, c!"cm", 1⟩).dim = _ by decide +kernel)
  have d2 : (Val.multi (K := ℝ) ⟨.multi, 2, [⟨c!"W", 1⟩], [⟨c!"m", 1⟩, ⟨c!"K", 1⟩]⟩).dim = Kind.conductivity.dim :=
    (show (Val.multi (K := ℝ) ⟨.multi, 0, [⟨c!"W", 1⟩], [⟨c!"m", 1⟩, ⟨c!"K", 1⟩]⟩).dim = _ by decide +kernel)
  intro i k hk
  match i, hk with
  | 0, hk => cases hk; exact ⟨⟨⟨_, rfl⟩, ⟨by decide +kernel, by decide +kernel⟩, d0⟩, by simp⟩
  | 1, hk => cases hk; exact ⟨⟨⟨_, rfl, rfl⟩, ⟨⟨50, c!"cm", 1, rfl⟩, by decide +kernel, by decide⟩, d1⟩, by simp⟩
  | 2, hk => cases hk; exact ⟨⟨⟨_, rfl⟩, ⟨by decide +kernel, by decide +kernel⟩, d2⟩, by simp⟩
  | n + 3, hk => cases hk

theorem biot_in_centimetres : biot (.ok (bodyInCentimetres 0)) (.ok (bodyInCentimetres 1)) (.ok (bodyInCentimetres 2)) =
    .ok (.num 75) := by
  units_eval [biot, bodyInCentimetres]
  norm_num

theorem bodyInCentimetres_sizes : (bodyInCentimetres 0).magn (fun s => (siSize s : ℝ)) = 3 ∧
    (bodyInCentimetres 1).magn (fun s => (siSize s : ℝ)) = 1 / 2 ∧
    (bodyInCentimetres 2).magn (fun s => (siSize s : ℝ)) = 2 ∧ (bodyInCentimetres 1).scale = 1 / 100 := by
  have w : siSize c!"W" = 1 := by decide +kernel
  have m : siSize c!"m" = 1 := by decide +kernel
  have k : siSize c!"K" = 1 := by decide +kernel
  have cm : siSize c!"cm" = 1 / 100 := by decide +kernel
  have pc : prefixOf c!"cm" = 1 / 100 := by decide +kernel
  refine ⟨?_, ?_, ?_, ?_⟩
  · simp [bodyInCentimetres, Val.magn, MultiV.mag, mag, lsize, w, m, k]
  · simp [bodyInCentimetres, Val.magn, UnitV.mag, mag, cm]; norm_num
  · simp [bodyInCentimetres, Val.magn, MultiV.mag, mag, lsize, w, m, k]
  · simp [bodyInCentimetres, Val.scale, pc]

/-- That every formula heeds the prefixes of all its arguments is false: the Biot number of a body measured in centimetres
comes out 100 times too large. -/
theorem C100_all_heeded_false : ¬ ∀ f ∈ codedFormulas, ∀ a, (∀ i, LooseVal (a i)) → ∀ r, f.model a = .ok r →
    r.magn (fun s => (siSize s : ℝ)) = f.code.eval fun i => (a i).magn fun s => (siSize s : ℝ) := by
  intro h
  obtain ⟨f, hf, h1, h2⟩ : ∃ f ∈ codedFormulas, f.code = (var 0 * var 1) / var 2 ∧
      ∀ a, f.model a = biot (.ok (a 0)) (.ok (a 1)) (.ok (a 2)) :=
    ⟨⟨c!"biot", (var 0 * var 1) / var 2, fun a => biot (.ok (a 0)) (.ok (a 1)) (.ok (a 2))⟩, by simp [codedFormulas], rfl, fun _ => rfl⟩
  have := h f hf bodyInCentimetres (fun i => match i with
    | 0 => (bodyInCentimetres_admitted 0 _ rfl).1.2.1
    | 1 => (bodyInCentimetres_admitted 1 _ rfl).1.2.1
    | n + 2 => (bodyInCentimetres_admitted 2 _ rfl).1.2.1) _ ((h2 _).trans biot_in_centimetres)
  obtain ⟨e0, e1, e2, -⟩ := bodyInCentimetres_sizes
  rw [h1, eval_div, eval_mul, eval_var, eval_var, eval_var, e0, e1, e2] at this
  norm_num [Val.magn] at this

/-! ## Non-vacuity -/

/-- The hypotheses of `C100_prefixes`, `C100_struck` and `C100_wrong` hold of this call: its length has a prefix that is
ignored, the row of C98 claims that the Biot number grows with the length, and the call returns. -/
example : ∃ t ∈ prefixTable, ∃ T ∈ trendTable, T.name = t.name ∧ t.Admits bodyInCentimetres ∧
    (∃ k, t.arg 1 = some (k, .ignored)) ∧ (∃ A, T.arg 1 = some A ∧ A.effect = some .up) ∧
    (∀ j A s, T.arg j = some A → A.sign = some s → s.Of ((bodyInCentimetres j).magn fun s => (siSize s : ℝ))) ∧
    T.above = [] ∧ (∀ j, j ≠ 1 → (bodyInCentimetres j).scale = 1) ∧ (bodyInCentimetres 1).scale < 1 ∧
    ∃ f ∈ codedFormulas, f.name = t.name ∧ f.model bodyInCentimetres = .ok (.num 75) := by
  obtain ⟨e0, e1, e2, e3⟩ := bodyInCentimetres_sizes
  refine ⟨_, by decide +kernel, ⟨c!"biot", [TrendRow.up (PKind.htc false), TrendRow.up (PKind.length false),
    TrendRow.down (PKind.conductivity true)], []⟩, by simp [trendTable], rfl, bodyInCentimetres_admitted, ⟨_, rfl⟩,
    ⟨_, rfl, rfl⟩, ?_, rfl, ?_, by rw [e3]; norm_num, ?_⟩
  · intro j A s hA hs
    match j, hA with
    | 0, hA => cases hA; cases hs; rw [e0]; exact three_pos
    | 1, hA => cases hA; cases hs; rw [e1]; exact one_half_pos
    | 2, hA => cases hA; cases hs; rw [e2]; exact two_pos
    | n + 3, hA => cases hA
  · intro j hj
    match j, hj with
    | 0, _ => exact PlainVal.scale ⟨by decide +kernel, by decide +kernel⟩
    | 1, h => exact absurd rfl h
    | n + 2, _ => exact PlainVal.scale ⟨by decide +kernel, by decide +kernel⟩
  · exact ⟨⟨c!"biot", (var 0 * var 1) / var 2, fun a => biot (.ok (a 0)) (.ok (a 1)) (.ok (a 2))⟩, by simp [codedFormulas],
      rfl, biot_in_centimetres⟩

end Verif
