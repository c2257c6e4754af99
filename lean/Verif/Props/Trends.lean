import Verif.Lemmas.Trends
import Verif.Spec.TrendTable
import Verif.Props.AnyUnitsSeries

/-!
# C98: the results move the way the physics says
-/

namespace Verif
open Trends Code

theorem trendTable_reads : ∀ t ∈ trendTable,
    (codedFormulas.any fun f => decide (f.name = t.name) && (t.fits f.code && t.reads f.code)) = true := by
  decide +kernel

/-- Every row of the table holds of the formula it names. -/
theorem C98_trends : ∀ t ∈ trendTable, ∃ f ∈ codedFormulas, f.name = t.name ∧ t.Hold f.model := by
  intro t ht
  obtain ⟨f, hf, h⟩ := List.any_eq_true.1 (trendTable_reads t ht)
  simp only [Bool.and_eq_true, decide_eq_true_eq] at h
  exact ⟨f, hf, h.1, hold_of_reads (C82_formulas f hf) h.2.1 h.2.2⟩

/-- The same formula written differently. -/
theorem Trends.hold_of_form {t : Trends} {f : (ℕ → Val ℝ) → PyM (Val ℝ)} {c : Code} (hc : ∀ a, c.run a = f a)
    (hf : t.fits c = true) (c' : Code) (he : ∀ x, Meets t.signs t.above x → c.eval x = c'.eval x) (h : t.reads c' = true) :
    t.Hold f := by
  refine hold_of hc hf fun x y hx hy i A e hA hi hs hl => ?_
  rw [he x hx, he y hy]
  exact reads_sound h hx hy hA hi hs hl

section
variable (x : ℕ → ℝ) (a b : Code)
theorem eval_mul : (a * b).eval x = a.eval x * b.eval x := rfl
theorem eval_div : (a / b).eval x = a.eval x / b.eval x := rfl
theorem eval_add : (a + b).eval x = a.eval x + b.eval x := rfl
theorem eval_sub : (a - b).eval x = a.eval x - b.eval x := rfl
theorem eval_lit (q : ℚ) : (lit q).eval x = q := rfl
theorem eval_pow (q : ℚ) : (pow a q).eval x = a.eval x ^ (q : ℝ) := rfl
theorem eval_var (i : ℕ) : (var i).eval x = x i := rfl
theorem eval_pi : pi.eval x = Real.pi := rfl
end

theorem Trends.of_form {t : Trends} (c c' : Code)
    (hf : (codedFormulas.any fun f => decide (f.name = t.name) && (decide (f.code = c) && t.fits f.code)) = true)
    (he : ∀ x, Meets t.signs t.above x → c.eval x = c'.eval x) (h : t.reads c' = true) :
    ∃ f ∈ codedFormulas, f.name = t.name ∧ t.Hold f.model := by
  obtain ⟨f, hm, hf⟩ := List.any_eq_true.1 hf
  simp only [Bool.and_eq_true, decide_eq_true_eq] at hf
  obtain ⟨h1, rfl, h3⟩ := hf
  exact ⟨f, hm, h1, hold_of_form (C82_formulas f hm) h3 c' he h⟩

/-- The rows that need the formula to be rearranged. -/
theorem C98_trends_more : ∀ t ∈ trendTableMore, ∃ f ∈ codedFormulas, f.name = t.name ∧ t.Hold f.model := by
  have shells (r1 r2 d : ℝ) (h1 : 0 < r1) (h2 : 0 < r2) (h : r1 < r2) :
      -4 * Real.pi * r1 * r2 * (-d / (r2 - r1)) = 4 * Real.pi * (d / (1 / r1 - 1 / r2)) := by
    have := (sub_pos.2 h).ne'
    have h3 : 1 / r1 - 1 / r2 = (r2 - r1) / (r1 * r2) := by field_simp
    rw [h3, div_div_eq_mul_div, neg_div]
    ring
  have sphereMass (kind : Bool → PTy) (x : ℕ → ℝ) (hx : Meets (Trends.signs ⟨c!"sphere_mass_transfer_steady_state",
      [TrendRow.mute (PKind.diffusivity false), TrendRow.down (PKind.length false), TrendRow.up (PKind.length false),
        TrendRow.mute' (kind true), TrendRow.mute' (kind true)], [(1, 2), (4, 3)]⟩) [(1, 2), (4, 3)] x) :
      (lit (-4) * pi * var 2 * var 1 * var 0 * ((var 3 - var 4) / (var 1 - var 2))).eval x =
        (lit 4 * pi * ((var 4 - var 3) / (lit 1 / var 2 - lit 1 / var 1)) * var 0).eval x := by
    have := shells (x 2) (x 1) (x 4 - x 3) (hx.sign 2 .pos rfl) (hx.sign 1 .pos rfl) (hx.above (1, 2) (by simp))
    simp only [eval_mul, eval_div, eval_sub, eval_lit, eval_var, eval_pi, Rat.cast_neg, Rat.cast_ofNat, Rat.cast_one]
    rw [← this]
    ring
  rw [trendTableMore]
  simp (config := { proj := false }) only [List.forall_mem_cons, List.not_mem_nil, false_imp_iff, implies_true, and_true]
  refine ⟨?_, ?_, ?_, ?_, ?_, ?_, ?_, ?_⟩
  · exact of_form _ _ (by decide +kernel) (sphereMass PKind.density) (by decide +kernel)
  · exact of_form _ _ (by decide +kernel) (sphereMass PKind.molarity) (by decide +kernel)
  · refine of_form ((var 2 - var 1) / (var 0 - var 1)) (lit 1 - (var 0 - var 2) / (var 0 - var 1)) (by decide +kernel)
      (fun x hx => ?_) (by decide +kernel)
    have := (sub_pos.2 (hx.above (0, 1) (by simp))).ne'
    simp only [eval_div, eval_sub, eval_lit, eval_var, Rat.cast_one] at this ⊢
    field_simp
    ring
  · refine of_form (((lit (2 / 10) * pow ((var 0 * var 1) / var 2) (6 / 10) * pow (var 3) (33 / 100) * var 5) * var 4) / var 0)
      (lit (2 / 10) * pow (var 1 / var 2) (6 / 10) * pow (var 3) (33 / 100) * var 5 * var 4 * pow (var 0) (-4 / 10))
      (by decide +kernel) (fun x hx => ?_) (by decide +kernel)
    have h0 : 0 < x 0 := hx.sign 0 .pos rfl
    have h1 : 0 < x 1 := hx.sign 1 .pos rfl
    have h2 : 0 < x 2 := hx.sign 2 .pos rfl
    simp only [eval_mul, eval_div, eval_lit, eval_var, eval_pow]
    have e : x 0 ^ ((-4 / 10 : ℚ) : ℝ) = x 0 ^ ((6 / 10 : ℚ) : ℝ) / x 0 := by
      rw [show ((-4 / 10 : ℚ) : ℝ) = ((6 / 10 : ℚ) : ℝ) - 1 by norm_num, Real.rpow_sub_one h0.ne']
    rw [e, mul_div_assoc (x 0), Real.mul_rpow h0.le (div_pos h1 h2).le]
    ring
  · refine of_form (((lit (185 / 100) * pow (var 0 * var 1 * (var 2 / var 3)) (1 / 3) * var 5) * var 4) / var 2)
      (lit (185 / 100) * pow (var 0 * var 1 / var 3) (1 / 3) * var 5 * var 4 * pow (var 2) (-2 / 3))
      (by decide +kernel) (fun x hx => ?_) (by decide +kernel)
    have h0 : 0 < x 0 := hx.sign 0 .pos rfl
    have h1 : 0 < x 1 := hx.sign 1 .pos rfl
    have h2 : 0 < x 2 := hx.sign 2 .pos rfl
    have h3 : 0 < x 3 := hx.sign 3 .pos rfl
    simp only [eval_mul, eval_div, eval_lit, eval_var, eval_pow]
    have e : x 2 ^ ((-2 / 3 : ℚ) : ℝ) = x 2 ^ ((1 / 3 : ℚ) : ℝ) / x 2 := by
      rw [show ((-2 / 3 : ℚ) : ℝ) = ((1 / 3 : ℚ) : ℝ) - 1 by norm_num, Real.rpow_sub_one h2.ne']
    rw [e, show x 0 * x 1 * (x 2 / x 3) = x 2 * (x 0 * x 1 / x 3) by ring,
      Real.mul_rpow h2.le (div_pos (mul_pos h0 h1) h3).le]
    ring
  · refine of_form ((var 0 * var 1) / (var 2 + (lit (6 / 10) * var 1))) (var 0 / (var 2 / var 1 + lit (6 / 10)))
      (by decide +kernel) (fun x hx => ?_) (by decide +kernel)
    have h1 : 0 < x 1 := hx.sign 1 .pos rfl
    simp only [eval_mul, eval_div, eval_lit, eval_var, eval_add]
    rw [div_add' _ _ _ h1.ne', div_div_eq_mul_div]
  · refine of_form ((lit 2 * var 1 * var 0) / (var 2 + lit (2 / 10) * var 1)) (lit 2 * var 0 / (var 2 / var 1 + lit (2 / 10)))
      (by decide +kernel) (fun x hx => ?_) (by decide +kernel)
    have h1 : 0 < x 1 := hx.sign 1 .pos rfl
    simp only [eval_mul, eval_div, eval_lit, eval_var, eval_add]
    rw [div_add' _ _ _ h1.ne', div_div_eq_mul_div]
    ring
  · refine of_form ((var 0 - var 1) / (((var 0 + var 1) / lit 2) * (var 2 - var 3)))
      ((lit 1 - lit 2 / (var 0 / var 1 + lit 1)) * (lit 2 / (var 2 - var 3)))
      (by decide +kernel) (fun x hx => ?_) (by decide +kernel)
    have h0 : 0 < x 0 := hx.sign 0 .pos rfl
    have h1 : 0 < x 1 := hx.sign 1 .pos rfl
    simp only [eval_mul, eval_div, eval_lit, eval_var, eval_add, eval_sub, Rat.cast_ofNat, Rat.cast_one]
    have : x 0 + x 1 ≠ 0 := (add_pos h0 h1).ne'
    rw [div_add' _ _ _ h1.ne', div_div_eq_mul_div, one_mul, one_sub_div this, div_mul_eq_mul_div, div_mul_div_comm,
      div_div_eq_mul_div]
    ring

/-! ## The log mean temperature difference -/

/-- The log mean grows with both differences. -/
theorem logMean_lt {a b c : ℝ} (ha : 0 < a) (hb : 0 < b) (hc : 0 < c) (hac : a ≠ c) (hbc : b ≠ c) (h : a < b) :
    (a - c) / Real.log (a / c) < (b - c) / Real.log (b / c) := by
  have key := strictConcaveOn_log_Ioi.secant_strict_mono (a := c) (x := a) (y := b) hc ha hb hac hbc h
  rw [← Real.log_div ha.ne' hc.ne', ← Real.log_div hb.ne' hc.ne'] at key
  have pos : ∀ x : ℝ, 0 < x → x ≠ c → 0 < Real.log (x / c) / (x - c) := by
    intro x hx hxc
    rcases lt_or_gt_of_ne hxc with h | h
    · exact div_pos_of_neg_of_neg (Real.log_neg (div_pos hx hc) ((div_lt_one hc).2 h)) (sub_neg.2 h)
    · exact div_pos (Real.log_pos ((one_lt_div hc).2 h)) (sub_pos.2 h)
  have := inv_strictAnti₀ (pos b hb hbc) key
  rwa [inv_div, inv_div] at this

theorem logMean_swap (a b : ℝ) (ha : 0 < a) (hb : 0 < b) :
    (a - b) / Real.log (a / b) = (b - a) / Real.log (b / a) := by
  rw [Real.log_div ha.ne' hb.ne', Real.log_div hb.ne' ha.ne', ← neg_sub b a, ← neg_sub (Real.log b), neg_div_neg_eq]

theorem div_zero_error (v : Val ℝ) : ∃ e, v.div (.num 0) = .error e := by
  cases v <;> simp [Val.div, unitDiv, multiDiv, pyDiv]

/-- `deltat_logmean`, counter-current: the mean grows with the temperatures of the hot stream and falls with those of the
cold one. -/
theorem C98_logmean : ∃ f ∈ codedFormulas, f.name = logmeanTrends.name ∧ logmeanTrends.Hold f.model := by
  let num : Code := (var 0 - var 3) - (var 1 - var 2)
  let den : Code := (var 0 - var 3) / (var 1 - var 2)
  have hf : (codedFormulas.any fun f => decide (f.name = logmeanTrends.name) &&
      (decide (f.code = num / fn .log den) && logmeanTrends.fits f.code)) = true := by decide +kernel
  have hd : logmeanTrends.fits den = true := by decide +kernel
  obtain ⟨f, hm, hf⟩ := List.any_eq_true.1 hf
  simp only [Bool.and_eq_true, decide_eq_true_eq] at hf
  obtain ⟨h1, h2, h3⟩ := hf
  refine ⟨f, hm, h1, ?_⟩
  have ne (ρ : Sym → ℝ) (hρ : Coherent ρ) (a : ℕ → Val ℝ) (ha : logmeanTrends.Admits ρ a) (r : Val ℝ)
      (hr : f.model a = .ok r) : r.magn ρ = ((a 0).magn ρ - (a 3).magn ρ - ((a 1).magn ρ - (a 2).magn ρ)) /
        Real.log (((a 0).magn ρ - (a 3).magn ρ) / ((a 1).magn ρ - (a 2).magn ρ)) ∧
        (a 0).magn ρ - (a 3).magn ρ ≠ (a 1).magn ρ - (a 2).magn ρ := by
    rw [← C82_formulas f hm] at hr
    refine ⟨?_, ?_⟩
    · rw [ha.returns hρ h3 hr, h2]; rfl
    · intro e
      rw [h2] at hr
      obtain ⟨v, w, -, hw, hv⟩ := lift2_inv (show lift2 Val.div (num.run a) ((fn .log den).run a) = _ from hr)
      obtain ⟨z, hz, rfl⟩ := MathFn.run_inv (show MathFn.log.run (den.run a) = .ok w by rw [← hw, run_fn, fn_log]; rfl)
      have hden := ha.returns hρ hd hz
      have : den.eval (fun i => (logmeanTrends.pad a i).magn ρ) =
          ((a 0).magn ρ - (a 3).magn ρ) / ((a 1).magn ρ - (a 2).magn ρ) := rfl
      rw [this, e, div_self (sub_pos.2 (ha.2 (1, 2) (by decide))).ne'] at hden
      simp only [Val.magn] at hden
      subst hden
      obtain ⟨err, he⟩ := div_zero_error v
      simp only [MathFn.meaning, Real.log_one, he] at hv
      cases hv
  intro ρ hρ a b ha hb i A e hA he hs hi r r' hr hr'
  obtain ⟨ea, na⟩ := ne ρ hρ a ha r hr
  obtain ⟨eb, nb⟩ := ne ρ hρ b hb r' hr'
  have pa := sub_pos.2 (ha.2 (0, 3) (by decide))
  have qa := sub_pos.2 (ha.2 (1, 2) (by decide))
  have pb := sub_pos.2 (hb.2 (0, 3) (by decide))
  have qb := sub_pos.2 (hb.2 (1, 2) (by decide))
  simp only at pa qa pb qb
  rw [ea, eb]
  match i, hA with
  | 0, hA =>
    cases hA; cases he
    have e1 := hs 1 (by decide) rfl
    have e2 := hs 2 (by decide) rfl
    have e3 := hs 3 (by decide) rfl
    rw [e1, e2, e3] at na ⊢
    rw [e3] at pa
    exact logMean_lt pa pb qb na nb (by linarith)
  | 1, hA =>
    cases hA; cases he
    have e0 := hs 0 (by decide) rfl
    have e2 := hs 2 (by decide) rfl
    have e3 := hs 3 (by decide) rfl
    rw [e0, e2, e3] at na ⊢
    rw [e2] at qa
    rw [logMean_swap _ _ pb qa, logMean_swap _ _ pb qb]
    exact logMean_lt qa qb pb na.symm nb.symm (by linarith)
  | 2, hA =>
    cases hA; cases he
    have e0 := hs 0 (by decide) rfl
    have e1 := hs 1 (by decide) rfl
    have e3 := hs 3 (by decide) rfl
    rw [e0, e1, e3] at na ⊢
    rw [e1] at qa
    rw [logMean_swap _ _ pb qa, logMean_swap _ _ pb qb]
    exact logMean_lt qb qa pb nb.symm na.symm (by linarith)
  | 3, hA =>
    cases hA; cases he
    have e0 := hs 0 (by decide) rfl
    have e1 := hs 1 (by decide) rfl
    have e2 := hs 2 (by decide) rfl
    rw [e0, e1, e2] at na ⊢
    rw [e0] at pa
    exact logMean_lt pb pa qb nb na (by linarith)
  | n + 4, hA => cases hA

/-! ## Formulas with a constant of nature -/

/-- A formula with one more argument, put in. -/
theorem Trends.Hold.specialise {name : Sym} {args : List (Option TrendArg)} {above : List (ℕ × ℕ)} {k : PTy} {v : Val ℝ}
    {f : (ℕ → Val ℝ) → PyM (Val ℝ)} {n : ℕ} (hn : args.length = n)
    (hab : ∀ p ∈ above, p.1 ≠ n ∧ p.2 ≠ n) (hk : k.Has v) (hv : ∀ ρ, Coherent ρ → 0 < v.magn ρ)
    (h : Trends.Hold ⟨name, args ++ [TrendRow.mute k], above⟩ f) :
    Trends.Hold ⟨name, args, above⟩ fun a => f (Function.update a n v) := by
  subst hn
  have arg (i : ℕ) (A : TrendArg) (e : (args ++ [TrendRow.mute k]).getD i none = some A) :
      (args.getD i none = some A ∧ i ≠ args.length) ∨ i = args.length ∧ A = ⟨k, some .pos, none⟩ := by
    rw [List.getD_eq_getElem?_getD] at e ⊢
    rcases lt_trichotomy i args.length with h | h | h
    · rw [List.getElem?_append_left h] at e
      exact .inl ⟨e, h.ne⟩
    · subst h
      rw [List.getElem?_append_right le_rfl] at e
      simp only [Nat.sub_self, List.getElem?_cons_zero, Option.getD_some, TrendRow.mute] at e
      cases e
      exact .inr ⟨rfl, rfl⟩
    · rw [List.getElem?_eq_none (by simp; omega)] at e
      cases e
  intro ρ hρ a b ha hb i A e hA he hs hi r r' hr hr'
  have lt : i < args.length := by
    by_contra hl
    rw [Trends.arg, List.getD_eq_getElem?_getD, List.getElem?_eq_none (not_lt.1 hl)] at hA
    cases hA
  have adm (c : ℕ → Val ℝ) (hc : Trends.Admits ⟨name, args, above⟩ ρ c) :
      Trends.Admits ⟨name, args ++ [TrendRow.mute k], above⟩ ρ (Function.update c args.length v) := by
    refine ⟨?_, ?_⟩
    · intro j B hB
      rcases arg j B hB with ⟨h1, h2⟩ | ⟨rfl, rfl⟩
      · rw [Function.update_of_ne h2]; exact hc.1 j B h1
      · rw [Function.update_self]
        exact ⟨hk, fun s hs => by cases hs; exact hv ρ hρ⟩
    · intro p hp
      rw [Function.update_of_ne (hab p hp).1, Function.update_of_ne (hab p hp).2]
      exact hc.2 p hp
  refine h ρ hρ _ _ (adm a ha) (adm b hb) i A e ?_ he ?_ ?_ r r' hr hr'
  · simp only [Trends.arg] at hA ⊢
    rw [List.getD_eq_getElem?_getD, List.getElem?_append_left lt, ← List.getD_eq_getElem?_getD]; exact hA
  · intro j hj hsome
    obtain ⟨B, hB⟩ := Option.isSome_iff_exists.1 hsome
    rcases arg j B hB with ⟨h1, h2⟩ | ⟨rfl, rfl⟩
    · rw [Function.update_of_ne h2, Function.update_of_ne h2]
      exact hs j hj (by simp only [Trends.arg, h1, Option.isSome_some])
    · simp
  · rw [Function.update_of_ne lt.ne, Function.update_of_ne lt.ne]; exact hi

theorem boltzmann_pos (ρ : Sym → ℝ) (hρ : Coherent ρ) : 0 < Val.magn ρ (.multi ⟨.multi, 1380649 / 10 ^ 29,
    [⟨c!"m", 2⟩, ⟨c!"kg", 1⟩], [⟨c!"s", 2⟩, ⟨c!"K", 1⟩]⟩) := by
  have h := hρ.pos
  have h1 := h c!"m"
  have h2 := h c!"kg"
  have h3 := h c!"s"
  have h4 := h c!"K"
  simp [Val.magn, MultiV.mag, mag, lsize]
  positivity

theorem faraday_pos (ρ : Sym → ℝ) (hρ : Coherent ρ) :
    0 < Val.magn ρ (.multi ⟨.multi, 96500, [⟨c!"C", 1⟩], [⟨c!"mol", 1⟩]⟩) := by
  have h1 := hρ.pos c!"C"
  have h2 := hρ.pos c!"mol"
  simp [Val.magn, MultiV.mag, mag, lsize]
  positivity

/-- `stokes_einstein`: the diffusivity grows with the temperature and falls with the viscosity and the size of the
particle. -/
theorem C98_stokes_einstein : stokesEinsteinTrends.Hold fun a => stokesEinstein (.ok (a 0)) (.ok (a 1)) (.ok (a 2)) := by
  have h : Trends.Hold ⟨stokesEinsteinTrends.name, stokesEinsteinTrends.args ++
      [TrendRow.mute (.compound false (2, 1, -2, -1, 0, 0))], []⟩
      fun a => ((var 3 * var 0) / (lit 6 * pi * var 1 * var 2)).run a :=
    hold_of_reads (fun _ => rfl) (by decide +kernel) (by decide +kernel)
  have := h.specialise rfl (by simp) (k := .compound false (2, 1, -2, -1, 0, 0)) ⟨_, rfl,
    ⟨by decide +kernel, by decide +kernel⟩, by decide +kernel⟩ boltzmann_pos
  refine cast (congrArg _ (funext fun a => ?_)) this
  simp only [stokesEinstein, boltzmann_eq, run_div, run_mul, run_var, run_lit, run_pi]
  simp [Function.update, stokesEinsteinTrends]

/-- `ionic_diffusion_coefficient`. -/
theorem C98_ionic : ionicTrends.Hold fun a =>
    ionicDiffusion (.ok (a 0)) (.ok (a 1)) (.ok (a 2)) (.ok (a 3)) (.ok (a 4)) (.ok (a 5)) := by
  have h : Trends.Hold ⟨ionicTrends.name, ionicTrends.args ++ [TrendRow.mute (.compound false (0, 0, 1, 0, 1, -1))], []⟩
      fun a => ((var 0 * var 1 * ((lit 1 / var 2) + (lit 1 / var 3))) /
        (pow (var 6) 2 * ((lit 1 / var 4) + (lit 1 / var 5)))).run a :=
    hold_of_reads (fun _ => rfl) (by decide +kernel) (by decide +kernel)
  have := h.specialise rfl (by simp) (k := .compound false (0, 0, 1, 0, 1, -1)) ⟨_, rfl,
    ⟨by decide +kernel, by decide +kernel⟩, by decide +kernel⟩ faraday_pos
  refine cast (congrArg _ (funext fun a => ?_)) this
  simp only [ionicDiffusion, faraday_eq, run_div, run_mul, run_add, run_pow, run_var, run_lit]
  simp [Function.update, ionicTrends]

/-! ## The heat through a sphere -/

/-- The heat through a sphere, as far as it holds: SI units; it grows with the hot temperature and the inner radius and
falls with the cold temperature and the outer radius.  Missing: it should grow with the conductivity
(`C98_sphere_heat_false`). -/
theorem C98_sphere_heat_partial (k k' : PyM (Val ℝ)) (t1 t2 r2 r1 t1' t2' r2' r1' : ℝ) (h1 : 0 < r1) (h1' : 0 < r1') (h : r1 < r2)
    (h' : r1' < r2') (ht : t2 < t1) (ht' : t2' < t1')
    (hle : t1 ≤ t1' ∧ t2' ≤ t2 ∧ r2' ≤ r2 ∧ r1 ≤ r1') (hlt : t1 < t1' ∨ t2' < t2 ∨ r2' < r2 ∨ r1 < r1') :
    ∃ q q', sphereHeat k (tempSI t1) (tempSI t2) (lenSI r2) (lenSI r1) = qMulti q c!"K*m" ∧
      sphereHeat k' (tempSI t1') (tempSI t2') (lenSI r2') (lenSI r1') = qMulti q' c!"K*m" ∧ q < q' := by
  have value (k : PyM (Val ℝ)) (t1 t2 r2 r1 : ℝ) (h1 : 0 < r1) (h : r1 < r2) :
      sphereHeat k (tempSI t1) (tempSI t2) (lenSI r2) (lenSI r1) =
        qMulti (4 * Real.pi * ((t1 - t2) / (1 / r1 - 1 / r2))) c!"K*m" := by
    rw [C35_sphere_ignores_conductivity k (condSI 1), C35_sphere_partial 1 t1 t2 r2 r1 (sub_pos.2 h).ne']
    congr 1
    have := (sub_pos.2 h).ne'
    have h3 : 1 / r1 - 1 / r2 = (r2 - r1) / (r1 * r2) := by
      have := (h1.trans h).ne'
      field_simp
    rw [h3, div_div_eq_mul_div]
    ring
  refine ⟨_, _, value k t1 t2 r2 r1 h1 h, value k' t1' t2' r2' r1' h1' h', ?_⟩
  have p : 0 < 1 / r1 - 1 / r2 := sub_pos.2 (one_div_lt_one_div_of_lt h1 h)
  have p' : 0 < 1 / r1' - 1 / r2' := sub_pos.2 (one_div_lt_one_div_of_lt h1' h')
  have d1 : 1 / r1' ≤ 1 / r1 := one_div_le_one_div_of_le h1 hle.2.2.2
  have d2 : 1 / r2 ≤ 1 / r2' := one_div_le_one_div_of_le (h1'.trans h') hle.2.2.1
  have hpi : 0 < 4 * Real.pi := by positivity
  refine mul_lt_mul_of_pos_left ?_ hpi
  rw [div_lt_div_iff₀ p p']
  rcases hlt with hl | hl | hl | hl
  · exact mul_lt_mul (by linarith) (by linarith) p' (by linarith)
  · exact mul_lt_mul (by linarith) (by linarith) p' (by linarith)
  · have := one_div_lt_one_div_of_lt (h1'.trans h') hl
    exact mul_lt_mul' (by linarith) (by linarith) p'.le (by linarith)
  · have := one_div_lt_one_div_of_lt h1 hl
    exact mul_lt_mul' (by linarith) (by linarith) p'.le (by linarith)

/-- A shell with twice the conductivity: the same result. -/
theorem C98_sphere_heat_false : ¬ sphereConductivityTrends.Hold fun a =>
    sphereHeat (.ok (a 0)) (.ok (a 1)) (.ok (a 2)) (.ok (a 3)) (.ok (a 4)) := by
  intro h
  let a (k : ℝ) : ℕ → Val ℝ
    | 0 => .multi ⟨.multi, k, [⟨c!"W", 1⟩], [⟨c!"m", 1⟩, ⟨c!"K", 1⟩]⟩
    | 1 => .unit ⟨.temperature, 2, c!"K", 1⟩
    | 2 => .unit ⟨.temperature, 1, c!"K", 1⟩
    | 3 => .unit ⟨.length, 2, c!"m", 1⟩
    | 4 => .unit ⟨.length, 1, c!"m", 1⟩
    | _ => .num 0
  have size : siSize c!"W" = 1 ∧ siSize c!"m" = 1 ∧ siSize c!"K" = 1 := by decide +kernel
  have mk (k : ℝ) : (a k 0).magn (fun s => (siSize s : ℝ)) = k := by
    simp [a, Val.magn, MultiV.mag, mag, lsize, size]
  have adm (k : ℝ) (hk : 0 < k) : sphereConductivityTrends.Admits (fun s => (siSize s : ℝ)) (a k) := by
    refine ⟨?_, ?_⟩
    · intro i A hA
      match i, hA with
      | 0, hA =>
        cases hA
        have loose : LooseList [⟨c!"W", 1⟩] ∧ LooseList [⟨c!"m", 1⟩, ⟨c!"K", 1⟩] := by decide +kernel
        have dim : (Val.multi (K := ℝ) ⟨.multi, k, [⟨c!"W", 1⟩], [⟨c!"m", 1⟩, ⟨c!"K", 1⟩]⟩).dim =
          Kind.conductivity.dim :=
          (show (Val.multi (K := ℝ) ⟨.multi, 0, [⟨c!"W", 1⟩], [⟨c!"m", 1⟩, ⟨c!"K", 1⟩]⟩).dim = _ by decide +kernel)
        refine ⟨⟨_, rfl, loose, dim⟩, fun s hs => ?_⟩
        cases hs
        exact (mk k).symm ▸ hk
      | 1, hA =>
        cases hA
        exact ⟨⟨_, rfl, ⟨⟨2, c!"K", 1, rfl⟩, by decide +kernel, by decide +kernel⟩, rfl, by decide +kernel⟩,
          fun s hs => by cases hs⟩
      | 2, hA =>
        cases hA
        exact ⟨⟨_, rfl, ⟨⟨1, c!"K", 1, rfl⟩, by decide +kernel, by decide +kernel⟩, rfl, by decide +kernel⟩,
          fun s hs => by cases hs⟩
      | 3, hA =>
        cases hA
        refine ⟨⟨_, rfl, ⟨⟨2, c!"m", 1, rfl⟩, by decide +kernel, by decide +kernel⟩, rfl, by decide +kernel⟩,
          fun s hs => ?_⟩
        cases hs
        simp [a, Val.magn, UnitV.mag, Sgn.Of, size]
      | 4, hA =>
        cases hA
        refine ⟨⟨_, rfl, ⟨⟨1, c!"m", 1, rfl⟩, by decide +kernel, by decide +kernel⟩, rfl, by decide +kernel⟩,
          fun s hs => ?_⟩
        cases hs
        simp [a, Val.magn, UnitV.mag, Sgn.Of, size]
      | n + 5, hA => cases hA
    · intro p hp
      simp only [sphereConductivityTrends, List.mem_cons, List.not_mem_nil, or_false] at hp
      rcases hp with rfl | rfl <;> simp [a, Val.magn, UnitV.mag, size]
  have hr : sphereHeat (.ok (a 1 0)) (.ok (a 1 1)) (.ok (a 1 2)) (.ok (a 1 3)) (.ok (a 1 4)) =
      qMulti (-4 * Real.pi * 1 * 2 * (1 - 2) / (2 - 1)) c!"K*m" := by
    rw [← C35_sphere_partial 1 2 1 2 1 (by norm_num)]
    units_eval [tempSI, lenSI, sphereHeat, a]
  units_eval [] at hr
  have := h _ siSize_coherent (a 1) (a 2) (adm 1 one_pos) (adm 2 two_pos) 0 _ .up rfl rfl (fun j hj _ => by
    match j, hj with
    | 0, hj => exact absurd rfl hj
    | 1, _ | 2, _ | 3, _ | 4, _ | n + 5, _ => rfl) (by rw [mk, mk]; norm_num) _ _ hr hr
  exact lt_irrefl _ this

/-! ## Non-vacuity -/

/-- The row of `z_factor` admits the temperatures 400, 350, 290 and 330 K, and hotter steam. -/
example (t : ℝ) (ht : 350 < t) : Trends.Admits
    ⟨c!"z_factor", [TrendRow.up' (PKind.temperature true), TrendRow.down' (PKind.temperature true),
      TrendRow.up' (PKind.temperature true), TrendRow.down' (PKind.temperature true)], [(0, 1), (3, 2)]⟩
    (fun s => (siSize s : ℝ))
    (fun i => .unit ⟨.temperature, [t, 350, 290, 330].getD i 0, c!"K", 1⟩) := by
  have size : siSize c!"K" = 1 := by decide +kernel
  have loose : Loose c!"K" := by decide +kernel
  have dim : dimOf c!"K" = Kind.temperature.dim := by decide +kernel
  refine ⟨?_, ?_⟩
  · intro i A hA
    have : A = ⟨PKind.temperature true, none, A.effect⟩ := by
      match i, hA with
      | 0, hA | 1, hA | 2, hA | 3, hA => cases hA; rfl
      | n + 4, hA => cases hA
    rw [this]
    exact ⟨⟨_, rfl, ⟨⟨_, c!"K", 1, rfl⟩, loose, one_ne_zero⟩, rfl, dim⟩, fun s hs => by cases hs⟩
  · intro p hp
    simp only [List.mem_cons, List.not_mem_nil, or_false] at hp
    rcases hp with rfl | rfl <;> simp [Val.magn, UnitV.mag, size, ht]
    norm_num

/-- The sphere: 400 and 300 K, 2 m and 1 m; a hotter inside gives more heat. -/
example : ∃ q q', sphereHeat (condSI 1) (tempSI (400 : ℝ)) (tempSI 300) (lenSI 2) (lenSI 1) = qMulti q c!"K*m" ∧
    sphereHeat (condSI 1) (tempSI (410 : ℝ)) (tempSI 300) (lenSI 2) (lenSI 1) = qMulti q' c!"K*m" ∧ q < q' :=
  C98_sphere_heat_partial _ _ 400 300 2 1 410 300 2 1 (by norm_num) (by norm_num) (by norm_num) (by norm_num)
    (by norm_num) (by norm_num) (by norm_num) (by norm_num)

end Verif
