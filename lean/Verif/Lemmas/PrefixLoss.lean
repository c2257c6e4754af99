import Verif.Spec.Prefixes
import Verif.Props.AnyUnitsSolve

/-!
# Prefixes through the operations

For every operation on quantities with prefixes: the magnitude of the result, and the factor of its prefixes.
-/

namespace Verif

variable {x y r : Val ℝ} {ρ : Sym → ℝ}

theorem prefixOf_pos' (s : Sym) : (0 : ℝ) < prefixOf s := by
  have h := prefixProd_pos [⟨s, 1⟩]
  simpa [prefixProd] using h

theorem Val.scale_pos (v : Val ℝ) : 0 < v.scale := by
  cases v with
  | unit u => exact Real.rpow_pos_of_pos (prefixOf_pos' _) _
  | multi m => exact div_pos (prefixProd_pos _) (prefixProd_pos _)
  | _ => exact one_pos

theorem unit_scale (u : UnitV ℝ) : (Val.unit u).scale = prefixProd [⟨u.unit, u.exp⟩] := by simp [Val.scale, prefixProd]

theorem PlainVal.scale (h : PlainVal x) : x.scale = 1 := by
  cases x with
  | unit u => rw [unit_scale]; exact prefixProd_unprefixed fun v hv => by rw [List.mem_singleton] at hv; subst hv; exact h.2.1.1
  | multi m =>
    show prefixProd m.top / prefixProd m.bot = 1
    rw [prefixProd_unprefixed h.plain.1, prefixProd_unprefixed h.plain.2, div_one]
  | _ => rfl

theorem prefixProd_append (l l' : UList) : prefixProd (l ++ l') = prefixProd l * prefixProd l' := by
  simp [prefixProd]

/-! ## Products -/

theorem mul_magn (hx : LooseVal x) (hy : LooseVal y) (hs : MulSafe x y) (h : Val.mul x y = .ok r) (hρ : Coherent ρ) :
    r.magn ρ = x.magn ρ * y.magn ρ :=
  ((mul_keeps hx.sound hy.sound hs h).2 ρ hρ _ _ (hx.hasMag ρ) (hy.hasMag ρ)).magn_eq

theorem mul_num_scale {q : ℝ} (hy : LooseVal y) (hs : MulDimSafe (.num q) y) (h : Val.mul (.num q) y = .ok r) :
    r.scale = y.scale := by
  cases y with
  | none | other | bare => exact hy.elim
  | num b => cases h; rfl
  | unit u =>
    simp only [Val.mul, unitRmul, hy.1.rebuild, wrapUnit, Except.ok.injEq] at h
    subst h
    simp only [MulDimSafe] at hs
    simp [Val.scale, hs]
  | multi m =>
    simp only [Val.mul, multiRmul, Except.ok.injEq] at h
    subst h
    rfl

theorem mul_num_scale' {q : ℝ} (hx : LooseVal x) (hs : MulDimSafe x (.num q)) (h : Val.mul x (.num q) = .ok r) :
    r.scale = x.scale := by
  cases x with
  | none | other | bare => exact hx.elim
  | num b => cases h; rfl
  | unit u =>
    simp only [Val.mul, unitMul, hx.1.rebuild, wrapUnit, Except.ok.injEq] at h
    subst h
    simp only [MulDimSafe] at hs
    simp [Val.scale, hs]
  | multi m =>
    simp only [Val.mul, multiMul, Except.ok.injEq] at h
    subst h
    rfl

theorem mul_unit_scale {u w : UnitV ℝ} (hx : LooseVal (.unit u)) (hs : MulDimSafe (.unit u) (.unit w))
    (h : Val.mul (.unit u) (.unit w) = .ok r) : r.scale = (Val.unit u).scale * (Val.unit w).scale := by
  simp only [Val.mul, unitMul] at h
  split at h
  · rename_i hc
    simp only [hx.1.rebuild, wrapUnit, Except.ok.injEq] at h
    subst h
    simp only [Val.scale, ← hc.2, Rat.cast_add]
    exact Real.rpow_add (prefixOf_pos' _) _ _
  · rename_i hc
    simp only [Except.ok.injEq] at h
    subst h
    simp only [MulDimSafe] at hs
    rcases hs with hs | ⟨h1, h2⟩
    · exact absurd (by simpa using hs) hc
    · simp [Val.scale, prefixProd, h1, h2]

/-- A compound quantity times a simple one: the prefixes are struck out. -/
theorem mul_mixed {m : MultiV ℝ} {u : UnitV ℝ} (hm : LooseVal (.multi m)) (hu : LooseVal (.unit u))
    (h : Val.mul (.multi m) (.unit u) = .ok r ∨ Val.mul (.unit u) (.multi m) = .ok r) (hρ : Coherent ρ) :
    PlainVal r ∧ r.magn ρ * ((Val.multi m).scale * (Val.unit u).scale) = (Val.multi m).magn ρ * (Val.unit u).magn ρ := by
  refine ⟨?_, ?_⟩
  · obtain ⟨t, bo, f, e, hr, g1, g2⟩ := reduce_loose true true (hm.1.append (loose_single (e := u.exp) hu.2.1)) hm.2
    have h' : multiMulUnit m u = .ok r := by rcases h with h | h <;> exact h
    simp only [multiMulUnit, e, Except.ok.injEq] at h'
    subst h'
    exact packMul_plainVal hr g1 g2
  · obtain ⟨r', e1, e2, hr⟩ := C03_mul_unit_partial m u hm.sound hu.2.1.1
    have : r' = r := by
      rcases h with h | h
      · rw [h] at e1; cases e1; rfl
      · rw [h] at e2; cases e2; rfl
    subst this
    rw [(hr ρ hρ).magn_eq, prefixProd_append, unit_scale]
    have h1 := (prefixProd_pos m.top).ne'
    have h2 := (prefixProd_pos m.bot).ne'
    have h3 := (prefixProd_pos [⟨u.unit, u.exp⟩]).ne'
    show m.mag ρ * u.mag ρ / _ * (prefixProd m.top / prefixProd m.bot * _) = m.mag ρ * u.mag ρ
    field_simp

/-! ## Quotients -/

theorem div_magn (hx : LooseVal x) (hy : LooseVal y) (hs : DivSafe x y) (h : Val.div x y = .ok r) (hρ : Coherent ρ) :
    r.magn ρ = x.magn ρ / y.magn ρ :=
  ((div_keeps hx.sound hy.sound hs h).2 ρ hρ _ _ (hx.hasMag ρ) (hy.hasMag ρ)).magn_eq

theorem div_num_scale {q : ℝ} (hx : LooseVal x) (h : Val.div x (.num q) = .ok r) : r.scale = x.scale := by
  cases x with
  | none | other | bare => exact hx.elim
  | num b =>
    simp only [Val.div] at h
    split at h
    · cases h
    · cases h; rfl
  | unit u =>
    simp only [Val.div, unitDiv] at h
    split at h
    · cases h
    · simp only [hx.1.rebuild, wrapUnit, Except.ok.injEq] at h
      subst h
      rfl
  | multi m =>
    simp only [Val.div, multiDiv] at h
    split at h
    · cases h
    · cases h; rfl

theorem num_div_scale {q : ℝ} (hy : LooseVal y) (h : Val.div (.num q) y = .ok r) : r.scale = y.scale⁻¹ := by
  cases y with
  | none | other | bare => exact hy.elim
  | num b =>
    simp only [Val.div] at h
    split at h
    · cases h
    · cases h; simp [Val.scale]
  | unit u => cases h
  | multi m =>
    simp only [Val.div, multiRdiv] at h
    split at h
    · cases h
    · cases h; simp [Val.scale]

theorem unit_div_scale {u w : UnitV ℝ} (hx : LooseVal (.unit u)) (h : Val.div (.unit u) (.unit w) = .ok r) :
    r.scale = (Val.unit u).scale / (Val.unit w).scale := by
  have hv : w.value ≠ 0 := by
    intro h0
    simp [Val.div, unitDiv, pyDiv, h0] at h
  simp only [Val.div, unitDiv, pyDiv_ne hv] at h
  split at h
  · rename_i hc
    have hs : (Val.unit u).scale / (Val.unit w).scale = (prefixOf u.unit : ℝ) ^ ((u.exp - w.exp : ℚ) : ℝ) := by
      simp only [Val.scale, ← hc, Rat.cast_sub]
      exact (Real.rpow_sub (prefixOf_pos' _) _ _).symm
    split at h
    · rename_i h0
      cases h
      rw [hs, h0]; simp [Val.scale]
    · simp only [hx.1.rebuild, wrapUnit, Except.ok.injEq] at h
      subst h
      rw [hs]; rfl
  · simp only [Except.ok.injEq] at h
    subst h
    rw [unit_scale, unit_scale]; rfl

/-- A simple quantity divided by a compound one: the prefixes are struck out. -/
theorem div_mixed {m : MultiV ℝ} {u : UnitV ℝ} (hu : LooseVal (.unit u)) (hm : LooseVal (.multi m))
    (h : Val.div (.unit u) (.multi m) = .ok r) (hρ : Coherent ρ) :
    PlainVal r ∧ r.magn ρ * ((Val.unit u).scale / (Val.multi m).scale) = (Val.unit u).magn ρ / (Val.multi m).magn ρ := by
  obtain ⟨t, bo, f, e, hr, h1, h2⟩ := reduce_loose true false (hm.2.append (loose_single (e := u.exp) hu.2.1)) hm.1
  have hv : m.value ≠ 0 := by
    intro h0
    simp [Val.div, unitDiv, unitDivMulti, e, pyDiv, h0] at h
  refine ⟨?_, ?_⟩
  · simp only [Val.div, unitDiv, unitDivMulti, e, pyDiv_ne hv, Except.ok.injEq] at h
    subst h; exact packDiv_plainVal hr h1 h2
  · obtain ⟨r', e1, hr⟩ := C04_unit_div_partial m u hm.sound hu.2.1.1 hv
    rw [h] at e1; cases e1
    rw [(hr ρ hρ).magn_eq, prefixProd_append, unit_scale]
    have h1 := (prefixProd_pos m.top).ne'
    have h2 := (prefixProd_pos m.bot).ne'
    have h3 := (prefixProd_pos [⟨u.unit, u.exp⟩]).ne'
    show u.mag ρ / m.mag ρ / _ * (_ / (prefixProd m.top / prefixProd m.bot)) = u.mag ρ / m.mag ρ
    field_simp

/-! ## Sums, opposites and powers -/

theorem add_magn (hx : LooseVal x) (hy : LooseVal y) (hs : AddSafe x y) (h : Val.add x y = .ok r) (hρ : Coherent ρ) :
    r.magn ρ = x.magn ρ + y.magn ρ :=
  ((add_keeps hx.sound hy.sound hs h).2 ρ hρ _ _ (hx.hasMag ρ) (hy.hasMag ρ)).magn_eq

theorem sub_magn (hx : LooseVal x) (hy : LooseVal y) (hs : AddSafe x y) (h : Val.sub x y = .ok r) (hρ : Coherent ρ) :
    r.magn ρ = x.magn ρ - y.magn ρ :=
  ((sub_keeps hx.sound hy.sound hs h).2 ρ hρ _ _ (hx.hasMag ρ) (hy.hasMag ρ)).magn_eq

/-- A sum or difference is written like the left operand. -/
theorem add_form (hx : LooseVal x) (hy : LooseVal y) (hs : AddSafe x y)
    (h : Val.add x y = .ok r ∨ Val.sub x y = .ok r) :
    r.scale = x.scale ∧ ((∃ p, x = .num p) → ∃ p, r = .num p) ∧ (∀ k, (∃ u, x = .unit u ∧ u.exp = k) → ∃ u, r = .unit u ∧ u.exp = k) ∧
      ((∃ m, x = .multi m) → ∃ m, r = .multi m) := by
  cases x with
  | none | other | bare => exact hx.elim
  | num a => cases y with
    | none | other | bare => exact hy.elim
    | num b => rcases h with h | h <;> (cases h; exact ⟨rfl, fun _ => ⟨_, rfl⟩, by simp, by simp⟩)
    | unit u => rcases h with h | h <;> cases h
    | multi m => rcases h with h | h <;> cases h
  | unit u => cases y with
    | none | other | bare => exact hy.elim
    | num b => exact hs.elim
    | unit v =>
      rcases C08_add_sub_unit u hx.1 (.unit v) (by simp) with ⟨v', e, ha, h3, h4⟩ | ⟨-, h3, h4⟩
      · rcases h with h | h
        · rw [h] at h3; cases h3; exact ⟨rfl, by simp, fun k ⟨w, hw, he⟩ => by cases hw; exact ⟨_, rfl, he⟩, by simp⟩
        · rw [h] at h4; cases h4; exact ⟨rfl, by simp, fun k ⟨w, hw, he⟩ => by cases hw; exact ⟨_, rfl, he⟩, by simp⟩
      · rcases h with h | h
        · rw [h] at h3; cases h3
        · rw [h] at h4; cases h4
    | multi m => rcases h with h | h <;> cases h
  | multi m => cases y with
    | none | other | bare => exact hy.elim
    | num b => rcases h with h | h <;> cases h
    | unit u => rcases h with h | h <;> cases h
    | multi o =>
      rcases h with h | h
      · rcases C08_add_multi m (.multi o) with ⟨o', e, -, hu, h3⟩ | ⟨-, h3⟩
        · rw [h] at h3; cases h3; exact ⟨rfl, by simp, by simp, fun _ => ⟨_, rfl⟩⟩
        · rw [h] at h3; cases h3
      · rcases C08_sub_multi m (.multi o) (by simp) with ⟨o', e, hu, h3⟩ | ⟨-, h3⟩
        · rw [h] at h3; cases h3; exact ⟨rfl, by simp, by simp, fun _ => ⟨_, rfl⟩⟩
        · rw [h] at h3; cases h3

theorem neg_magn (hx : LooseVal x) (h : Val.neg x = .ok r) : r.magn ρ = -x.magn ρ :=
  ((neg_keeps hx.sound h).2 ρ _ (hx.hasMag ρ)).magn_eq

theorem neg_form (hx : LooseVal x) (h : Val.neg x = .ok r) :
    r.scale = x.scale ∧ ((∃ p, x = .num p) → ∃ p, r = .num p) ∧ (∀ k, (∃ u, x = .unit u ∧ u.exp = k) → ∃ u, r = .unit u ∧ u.exp = k) ∧
      ((∃ m, x = .multi m) → ∃ m, r = .multi m) := by
  cases x with
  | none | other | bare => exact hx.elim
  | num a => cases h; exact ⟨rfl, fun _ => ⟨_, rfl⟩, by simp, by simp⟩
  | unit u =>
    simp only [Val.neg, unitNeg, hx.1.rebuild, wrapUnit, Except.ok.injEq] at h
    subst h
    exact ⟨rfl, by simp, fun k ⟨w, hw, he⟩ => by cases hw; exact ⟨_, rfl, he⟩, by simp⟩
  | multi m =>
    simp only [Val.neg, multiNeg, Except.ok.injEq] at h
    subst h
    exact ⟨rfl, by simp, by simp, fun _ => ⟨_, rfl⟩⟩

theorem pow_magn {q : ℚ} (hx : LooseVal x) (h : Val.pow x q = .ok r) (hρ : Coherent ρ) : r.magn ρ = x.magn ρ ^ (q : ℝ) :=
  ((pow_keeps hx.sound h).2 ρ hρ _ (hx.hasMag ρ)).magn_eq

theorem pow_unit_scale {q : ℚ} {u : UnitV ℝ} (hx : LooseVal (.unit u)) (h : Val.pow (.unit u) q = .ok r) :
    r.scale = (Val.unit u).scale ^ (q : ℝ) ∧ ∃ w, r = .unit w ∧ w.exp = u.exp * q := by
  simp only [Val.pow, unitPow] at h
  split at h
  · cases h
  · simp only [hx.1.rebuild, wrapUnit, Except.ok.injEq] at h
    subst h
    refine ⟨?_, _, rfl, rfl⟩
    simp only [Val.scale, Rat.cast_mul]
    exact Real.rpow_mul (prefixOf_pos' _).le _ _

theorem pow_num {q : ℚ} {p : ℝ} (h : Val.pow (.num p) q = .ok r) : ∃ z, r = .num z := by
  simp only [Val.pow] at h
  split at h
  · cases h
  · cases h; exact ⟨_, rfl⟩

/-- The logarithm of the prefix, a weight that respects the definitions of the derived units: none of the symbols has one. -/
theorem prefix_laws : DerivedLaws fun s => Real.log (prefixOf s : ℝ) := by
  have h : ∀ s ∈ [c!"Pa", c!"kg", c!"m", c!"s", c!"J", c!"W", c!"psi", c!"lbf", c!"in", c!"cP", c!"g", c!"C", c!"A", c!"V"],
      prefixOf s = 1 := by decide +kernel
  simp only [List.forall_mem_cons] at h
  obtain ⟨h1, h2, h3, h4, h5, h6, h7, h8, h9, h10, h11, h12, h13, h14, -⟩ := h
  constructor <;> simp [h1, h2, h3, h4, h5, h6, h7, h8, h9, h10, h11, h12, h13, h14]

theorem log_prefixProd (l : UList) : Real.log (prefixProd l) = wsum (fun s => Real.log (prefixOf s : ℝ)) l := by
  induction l with
  | nil => simp [prefixProd, wsum]
  | cons u l ih =>
    have h1 : prefixProd (u :: l) = (prefixOf u.unit : ℝ) ^ (u.exp : ℝ) * prefixProd l := by simp [prefixProd]
    have h2 : wsum (fun s => Real.log (prefixOf s : ℝ)) (u :: l) =
        u.exp • Real.log (prefixOf u.unit : ℝ) + wsum (fun s => Real.log (prefixOf s : ℝ)) l := by simp [wsum]
    rw [h1, h2, Real.log_mul (Real.rpow_pos_of_pos (prefixOf_pos' _) _).ne' (prefixProd_pos l).ne', ih,
      Real.log_rpow (prefixOf_pos' _), Rat.smul_def]

theorem pow_multi_scale {q : ℚ} {m : MultiV ℝ} (h : Val.pow (.multi m) q = .ok r) :
    r.scale = (Val.multi m).scale ^ (q : ℝ) := by
  obtain ⟨t, b, er, -, hn⟩ := reducePow_spec (m.top.map (·.pow q)) (m.bot.map (·.pow q))
  simp only [Val.pow, multiPow, er] at h
  split at h
  · cases h
  · simp only [Except.ok.injEq] at h
    subst h
    have := hn _ prefix_laws
    simp only [net, wsum_map_pow, ← log_prefixProd] at this
    show prefixProd t / prefixProd b = (prefixProd m.top / prefixProd m.bot) ^ (q : ℝ)
    have p1 := prefixProd_pos t
    have p2 := prefixProd_pos b
    have p3 := div_pos (prefixProd_pos m.top) (prefixProd_pos m.bot)
    rw [← Real.exp_log (div_pos p1 p2), Real.log_div p1.ne' p2.ne', this, Real.rpow_def_of_pos p3,
      Real.log_div (prefixProd_pos _).ne' (prefixProd_pos _).ne', ← smul_sub, Rat.smul_def, mul_comm]

theorem pow_multi {q : ℚ} {m : MultiV ℝ} (h : Val.pow (.multi m) q = .ok r) : ∃ z, r = .multi z := by
  obtain ⟨t, b, er, -, -⟩ := reducePow_spec (m.top.map (·.pow q)) (m.bot.map (·.pow q))
  simp only [Val.pow, multiPow, er] at h
  split at h
  · cases h
  · simp only [Except.ok.injEq] at h
    exact ⟨_, h.symm⟩

end Verif
