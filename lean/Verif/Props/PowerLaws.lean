import Verif.Props.Expressions
import Verif.Props.Scaling
import Verif.Props.Products
import Verif.Props.FloatCounts

/-!
# C109: laws of powers

`q*q*…*q` against `q**n`, and `q**a * q**b`, `(q**a)**b`, `q**a / q**b`, `(q*r)**n`.
-/

namespace Verif

section
variable {K : Type} [Zero K] [One K] [Add K] [Sub K] [Mul K] [Div K] [Neg K] [NatCast K] [RatCast K] [LinearOrder K] [PyPow K]

/-- `t = x; for y in ys: t = t * y`. -/
def timesAll (x : Val K) : List (Val K) → PyM (Val K)
  | [] => .ok x
  | y :: ys => match x.mul y with
    | .error e => .error e
    | .ok t => timesAll t ys

end

/-! ## Simple quantities: the same objects -/

/-- The power of a simple quantity, when it exists. -/
theorem unit_pow_value {u : UnitV ℝ} (hu : u.Constructed) {e : ℚ} {v : ℝ} (h : (PyPow.pow u.value e : PyM ℝ) = .ok v) :
    Val.pow (.unit u) e = .ok (.unit ⟨u.cls, v, u.unit, u.exp * e⟩) := by
  simp only [Val.pow, unitPow, h, hu.rebuild, wrapUnit]

theorem unit_mul_same {u : UnitV ℝ} (hu : u.Constructed) (x y : ℝ) (a b : ℚ) :
    Val.mul (.unit ⟨u.cls, x, u.unit, a⟩) (.unit ⟨u.cls, y, u.unit, b⟩) =
      .ok (.unit ⟨u.cls, x * y, u.unit, a + b⟩) := by
  simp only [Val.mul, unitMul, and_self, if_true, hu.rebuild, wrapUnit]

theorem pow_real_int {x : ℝ} (n : ℤ) (h : x ≠ 0 ∨ 0 ≤ n) : (PyPow.pow x (n : ℚ) : PyM ℝ) = .ok (x ^ n) := by
  have h1 : ¬ (x = 0 ∧ (n : ℚ) < 0) := by
    rintro ⟨h1, h2⟩
    rcases h with h | h
    · exact h h1
    · exact absurd (Int.cast_lt_zero.1 h2) (not_lt.2 h)
  have h2 : ¬ ((n : ℚ).den ≠ 1) := by simp
  simp only [PyPow.pow, h1, h2, and_false, if_false]; simp

/-- Multiplying a simple quantity with itself `n` times gives its power `n + 1`: the same class, value, unit and
exponent, for values of any sign. -/
theorem C109_repeated (u : UnitV ℝ) (hu : u.Constructed) (n : ℕ) :
    timesAll (.unit u) (List.replicate n (.unit u)) = Val.pow (.unit u) ((n : ℚ) + 1) := by
  have key : ∀ (n : ℕ) (x : ℝ) (a : ℚ), timesAll (.unit ⟨u.cls, x, u.unit, a⟩) (List.replicate n (.unit u)) =
      .ok (.unit ⟨u.cls, x * u.value ^ n, u.unit, a + u.exp * n⟩) := by
    intro n
    induction n with
    | zero => intro x a; simp [timesAll]
    | succ n ih =>
      intro x a
      have e := unit_mul_same hu x u.value a u.exp
      simp only [List.replicate_succ, timesAll]
      rw [show (Val.unit u : Val ℝ) = .unit ⟨u.cls, u.value, u.unit, u.exp⟩ from rfl, e]
      simp only []
      rw [show (Val.unit ⟨u.cls, u.value, u.unit, u.exp⟩ : Val ℝ) = .unit u from rfl, ih]
      congr 3
      · ring
      · push_cast; ring
  have h := key n u.value u.exp
  rw [show (Val.unit ⟨u.cls, u.value, u.unit, u.exp⟩ : Val ℝ) = .unit u from rfl] at h
  have hp : (PyPow.pow u.value ((n : ℚ) + 1) : PyM ℝ) = .ok (u.value ^ (n + 1)) := by
    exact_mod_cast pow_real_nat u.value (n + 1)
  rw [h, unit_pow_value hu hp]
  congr 3
  · ring
  · ring

/-- `q**a * q**b` is `q**(a+b)` for positive values and any exponents. -/
theorem C109_add (u : UnitV ℝ) (hu : u.Constructed) (hv : 0 < u.value) (a b : ℚ) :
    ∃ p q, Val.pow (.unit u) a = .ok p ∧ Val.pow (.unit u) b = .ok q ∧
      Val.mul p q = Val.pow (.unit u) (a + b) := by
  refine ⟨_, _, unit_pow_value hu (pow_real_pos hv a), unit_pow_value hu (pow_real_pos hv b), ?_⟩
  rw [unit_mul_same hu, unit_pow_value hu (pow_real_pos hv _), ← Real.rpow_add hv]
  push_cast
  congr 3
  ring

/-- The same for whole exponents and values of any sign. -/
theorem C109_add_int (u : UnitV ℝ) (hu : u.Constructed) (hv : u.value ≠ 0) (a b : ℤ) :
    ∃ p q, Val.pow (.unit u) a = .ok p ∧ Val.pow (.unit u) b = .ok q ∧
      Val.mul p q = Val.pow (.unit u) ((a + b : ℤ) : ℚ) := by
  refine ⟨_, _, unit_pow_value hu (pow_real_int a (.inl hv)), unit_pow_value hu (pow_real_int b (.inl hv)), ?_⟩
  rw [unit_mul_same hu, unit_pow_value hu (pow_real_int (a + b) (.inl hv)), ← zpow_add₀ hv]
  congr 3
  push_cast; ring

/-- `(q**a)**b` is `q**(a*b)` for positive values and any exponents. -/
theorem C109_pow_pow (u : UnitV ℝ) (hu : u.Constructed) (hv : 0 < u.value) (a b : ℚ) :
    ∃ p, Val.pow (.unit u) a = .ok p ∧ Val.pow p b = Val.pow (.unit u) (a * b) := by
  refine ⟨_, unit_pow_value hu (pow_real_pos hv a), ?_⟩
  have hu' : (⟨u.cls, u.value ^ (a : ℝ), u.unit, u.exp * a⟩ : UnitV ℝ).Constructed := ⟨_, _, _, hu.rebuild _ _⟩
  rw [unit_pow_value hu' (pow_real_pos (Real.rpow_pos_of_pos hv _) b), unit_pow_value hu (pow_real_pos hv _),
    ← Real.rpow_mul hv.le]
  push_cast
  congr 3
  ring

/-- The same for whole exponents and values of any sign. -/
theorem C109_pow_pow_int (u : UnitV ℝ) (hu : u.Constructed) (hv : u.value ≠ 0) (a b : ℤ) :
    ∃ p, Val.pow (.unit u) a = .ok p ∧ Val.pow p b = Val.pow (.unit u) ((a * b : ℤ) : ℚ) := by
  refine ⟨_, unit_pow_value hu (pow_real_int a (.inl hv)), ?_⟩
  have hu' : (⟨u.cls, u.value ^ a, u.unit, u.exp * a⟩ : UnitV ℝ).Constructed := ⟨_, _, _, hu.rebuild _ _⟩
  rw [unit_pow_value hu' (pow_real_int b (.inl (zpow_ne_zero a hv))), unit_pow_value hu (pow_real_int (a * b) (.inl hv)),
    ← zpow_mul]
  congr 3
  push_cast; ring

/-- The square root of the square: the quantity itself, or its negative when the value is negative. -/
theorem C109_root_of_square (u : UnitV ℝ) (hu : u.Constructed) :
    ∃ p, Val.pow (.unit u) 2 = .ok p ∧ Val.pow p (1 / 2) = .ok (.unit ⟨u.cls, |u.value|, u.unit, u.exp⟩) := by
  refine ⟨_, unit_pow_value hu (pow_real_two _), ?_⟩
  have hu' : (⟨u.cls, u.value ^ 2, u.unit, u.exp * 2⟩ : UnitV ℝ).Constructed := ⟨_, _, _, hu.rebuild _ _⟩
  rw [unit_pow_value hu' (pow_real_half (sq_nonneg _)), Real.sqrt_sq_eq_abs]
  congr 3
  ring

/-- The square of the square root is the quantity itself; the square root of a negative one raises. -/
theorem C109_square_of_root (u : UnitV ℝ) (hu : u.Constructed) :
    (0 ≤ u.value → ∃ p, Val.pow (.unit u) (1 / 2) = .ok p ∧ Val.pow p 2 = .ok (.unit u)) ∧
    (u.value < 0 → Val.pow (.unit u) (1 / 2) = .error .complexResult) := by
  constructor
  · intro hv
    refine ⟨_, unit_pow_value hu (pow_real_half hv), ?_⟩
    have hu' : (⟨u.cls, √u.value, u.unit, u.exp * (1 / 2)⟩ : UnitV ℝ).Constructed := ⟨_, _, _, hu.rebuild _ _⟩
    rw [unit_pow_value hu' (pow_real_two _), Real.sq_sqrt hv, show u.exp * (1 / 2) * 2 = u.exp by ring]
  · intro hv
    have h1 : ¬ (u.value = 0 ∧ (1 / 2 : ℚ) < 0) := fun h => hv.ne h.1
    have h2 : u.value < 0 ∧ (1 / 2 : ℚ).den ≠ 1 := ⟨hv, by decide +kernel⟩
    simp only [Val.pow, unitPow, PyPow.pow, if_neg h1, if_pos h2]

/-- `q**a / q**b` is `q**(a-b)` when the exponents differ, and a number when they are equal. -/
theorem C109_div_partial (u : UnitV ℝ) (hu : u.Constructed) (hv : 0 < u.value) (he : u.exp ≠ 0) (a b : ℚ) :
    ∃ p q, Val.pow (.unit u) a = .ok p ∧ Val.pow (.unit u) b = .ok q ∧
      (a ≠ b → Val.div p q = Val.pow (.unit u) (a - b)) ∧ (a = b → Val.div p q = .ok (.num 1)) := by
  refine ⟨_, _, unit_pow_value hu (pow_real_pos hv a), unit_pow_value hu (pow_real_pos hv b), ?_, ?_⟩
  · intro hab
    have h0 : u.value ^ (b : ℝ) ≠ 0 := (Real.rpow_pos_of_pos hv _).ne'
    have h1 : ¬ (u.exp * a - u.exp * b = 0) := by
      rw [← mul_sub]; exact mul_ne_zero he (sub_ne_zero.2 hab)
    simp only [Val.div, unitDiv, pyDiv, h0, if_false, if_true, h1, hu.rebuild, wrapUnit]
    rw [unit_pow_value hu (pow_real_pos hv _)]
    push_cast
    rw [Real.rpow_sub hv]
    congr 3
    ring
  · rintro rfl
    have h0 : u.value ^ (a : ℝ) ≠ 0 := (Real.rpow_pos_of_pos hv _).ne'
    simp only [Val.div, unitDiv, pyDiv, h0, if_false, if_true, sub_self, div_self h0]

/-- The full law fails for equal exponents: `q**0` is a quantity with exponent 0, not the number 1. -/
theorem C109_div_false : ¬ ∀ (u : UnitV ℝ), u.Constructed → 0 < u.value → u.exp ≠ 0 → ∀ a b : ℚ, ∃ p q,
    Val.pow (.unit u) a = .ok p ∧ Val.pow (.unit u) b = .ok q ∧ Val.div p q = Val.pow (.unit u) (a - b) := by
  intro h
  have hc : (⟨.length, 2, c!"m", 1⟩ : UnitV ℝ).Constructed := ⟨2, c!"m", 1, rfl⟩
  obtain ⟨p, q, h1, h2, h3⟩ := h _ hc two_pos one_ne_zero 1 1
  obtain ⟨p', q', h1', h2', -, h4⟩ := C109_div_partial _ hc two_pos one_ne_zero 1 1
  rw [h1] at h1'; rw [h2] at h2'
  cases h1'; cases h2'
  rw [h4 rfl, sub_self, unit_pow_value hc (pow_real_pos two_pos 0)] at h3
  simp at h3

/-- Non-vacuity: a length in feet. -/
example : timesAll (.unit ⟨.length, -2, c!"ft", 1⟩) [.unit ⟨.length, -2, c!"ft", 1⟩, .unit ⟨.length, -2, c!"ft", 1⟩] =
    (.ok (.unit ⟨.length, -8, c!"ft", 3⟩) : PyM (Val ℚ)) := by decide +kernel

/-! ## Compound quantities: the same magnitudes -/

theorem mag_pos_iff {ρ : Sym → ℝ} (hρ : Coherent ρ) (m : MultiV ℝ) : 0 < m.mag ρ ↔ 0 < m.value := by
  simp only [MultiV.mag, mag]
  exact mul_pos_iff_of_pos_right (div_pos (lsize_pos hρ.pos _) (lsize_pos hρ.pos _))

/-- Multiplying any number of compound quantities never fails and gives the product of the magnitudes. -/
theorem C109_product (m : MultiV ℝ) (hm : m.Genuine) (ms : List (MultiV ℝ)) (h : ∀ o ∈ ms, o.Genuine) :
    ∃ r : MultiV ℝ, timesAll (.multi m) (ms.map .multi) = .ok (.multi r) ∧ r.Genuine ∧
      ∀ ρ, Coherent ρ → r.mag ρ = m.mag ρ * (ms.map fun o => o.mag ρ).prod := by
  induction ms generalizing m with
  | nil => exact ⟨m, rfl, hm, fun ρ _ => by simp⟩
  | cons o ms ih =>
    obtain ⟨c, e, -, hp, hc⟩ := C01_mul_magnitude m o hm (h o (List.mem_cons_self ..))
    obtain ⟨r, er, hr, hmag⟩ := ih c ⟨hp.1.well, hp.2.well⟩ fun o' ho' => h o' (List.mem_cons_of_mem _ ho')
    refine ⟨r, ?_, hr, fun ρ hρ => ?_⟩
    · simp only [List.map_cons, timesAll, e]; exact er
    · rw [hmag ρ hρ, hc ρ hρ, List.map_cons, List.prod_cons, mul_assoc]

/-- The order of the factors does not matter for the magnitude. -/
theorem C109_product_order (m o : MultiV ℝ) (ms os : List (MultiV ℝ)) (h : ∀ x ∈ m :: ms, x.Genuine)
    (hp : (m :: ms).Perm (o :: os)) : ∃ r s : MultiV ℝ, timesAll (.multi m) (ms.map .multi) = .ok (.multi r) ∧
      timesAll (.multi o) (os.map .multi) = .ok (.multi s) ∧ ∀ ρ, Coherent ρ → r.mag ρ = s.mag ρ := by
  have h' : ∀ x ∈ o :: os, x.Genuine := fun x hx => h x (hp.mem_iff.2 hx)
  obtain ⟨r, e1, -, h1⟩ := C109_product m (h m (List.mem_cons_self ..)) ms fun x hx => h x (List.mem_cons_of_mem _ hx)
  obtain ⟨s, e2, -, h2⟩ := C109_product o (h' o (List.mem_cons_self ..)) os fun x hx => h' x (List.mem_cons_of_mem _ hx)
  refine ⟨r, s, e1, e2, fun ρ hρ => ?_⟩
  rw [h1 ρ hρ, h2 ρ hρ]
  have := (hp.map fun x : MultiV ℝ => x.mag ρ).prod_eq
  simpa using this

/-- Multiplying a compound quantity with itself `n` times has the magnitude of its power `n + 1`. -/
theorem C109_repeated_compound (m : MultiV ℝ) (hm : m.Genuine) (n : ℕ) :
    ∃ r p : MultiV ℝ, timesAll (.multi m) (List.replicate n (.multi m)) = .ok (.multi r) ∧
      Val.pow (.multi m) ((n : ℚ) + 1) = .ok (.multi p) ∧ ∀ ρ, Coherent ρ → r.mag ρ = p.mag ρ := by
  obtain ⟨r, e1, -, h1⟩ := C109_product m hm (List.replicate n m) fun o ho => by rw [List.eq_of_mem_replicate ho]; exact hm
  obtain ⟨p, e2, h2⟩ := C07_pow_multi_int m ((n : ℤ) + 1) (.inr (by positivity))
  refine ⟨r, p, by simpa using e1, by exact_mod_cast e2, fun ρ hρ => ?_⟩
  rw [h1 ρ hρ, h2 ρ hρ]
  simp only [List.map_replicate, List.prod_replicate]
  rw [show ((n : ℤ) + 1) = ((n + 1 : ℕ) : ℤ) by push_cast; rfl, zpow_natCast]
  ring

/-- Powers of compound quantities with genuine prefixes: they exist for positive values and stay genuine. -/
theorem pow_genuine (m : MultiV ℝ) (hm : m.Genuine) (hv : 0 < m.value) (a : ℚ) :
    ∃ p : MultiV ℝ, Val.pow (.multi m) a = .ok (.multi p) ∧ p.Genuine ∧ 0 < p.value ∧
      ∀ ρ, Coherent ρ → p.mag ρ = m.mag ρ ^ (a : ℝ) := by
  rcases C07_pow_multi m hv.le a with ⟨h, -⟩ | ⟨p, e, h⟩
  · exact absurd h hv.ne'
  · refine ⟨p, e, (pow_keeps (x := .multi m) (r := .multi p) hm e).1, ?_, h⟩
    simp only [Val.pow, multiPow, pow_real_pos hv] at e
    split at e
    · cases e
    · cases e; exact Real.rpow_pos_of_pos hv _

/-- `m**a * m**b` has the magnitude of `m**(a+b)`. -/
theorem C109_add_compound (m : MultiV ℝ) (hm : m.Genuine) (hv : 0 < m.value) (a b : ℚ) :
    ∃ p q r s : MultiV ℝ, Val.pow (.multi m) a = .ok (.multi p) ∧ Val.pow (.multi m) b = .ok (.multi q) ∧
      Val.mul (.multi p) (.multi q) = .ok (.multi r) ∧ Val.pow (.multi m) (a + b) = .ok (.multi s) ∧
      ∀ ρ, Coherent ρ → r.mag ρ = s.mag ρ := by
  obtain ⟨p, e1, g1, -, h1⟩ := pow_genuine m hm hv a
  obtain ⟨q, e2, g2, -, h2⟩ := pow_genuine m hm hv b
  obtain ⟨s, e3, -, -, h3⟩ := pow_genuine m hm hv (a + b)
  obtain ⟨r, e4, -, -, h4⟩ := C01_mul_magnitude p q g1 g2
  refine ⟨p, q, r, s, e1, e2, e4, e3, fun ρ hρ => ?_⟩
  rw [h4 ρ hρ, h1 ρ hρ, h2 ρ hρ, h3 ρ hρ]
  push_cast
  rw [Real.rpow_add ((mag_pos_iff hρ m).2 hv)]

/-- `(m**a)**b` has the magnitude of `m**(a*b)`, and `m**1` that of `m`. -/
theorem C109_pow_pow_compound (m : MultiV ℝ) (hm : m.Genuine) (hv : 0 < m.value) (a b : ℚ) :
    ∃ p r s : MultiV ℝ, Val.pow (.multi m) a = .ok (.multi p) ∧ Val.pow (.multi p) b = .ok (.multi r) ∧
      Val.pow (.multi m) (a * b) = .ok (.multi s) ∧
      ∀ ρ, Coherent ρ → r.mag ρ = s.mag ρ ∧ (a * b = 1 → r.mag ρ = m.mag ρ) := by
  obtain ⟨p, e1, g1, v1, h1⟩ := pow_genuine m hm hv a
  obtain ⟨r, e2, -, -, h2⟩ := pow_genuine p g1 v1 b
  obtain ⟨s, e3, -, -, h3⟩ := pow_genuine m hm hv (a * b)
  refine ⟨p, r, s, e1, e2, e3, fun ρ hρ => ?_⟩
  have h : r.mag ρ = s.mag ρ := by
    rw [h2 ρ hρ, h1 ρ hρ, h3 ρ hρ, ← Real.rpow_mul ((mag_pos_iff hρ m).2 hv).le]
    push_cast; rfl
  refine ⟨h, fun hab => ?_⟩
  rw [h, h3 ρ hρ, hab]
  simp

/-- `(m*o)**a` has the magnitude of `m**a * o**a`. -/
theorem C109_product_pow (m o : MultiV ℝ) (hm : m.Genuine) (ho : o.Genuine) (hv : 0 < m.value) (hw : 0 < o.value) (a : ℚ) :
    ∃ c r p q s : MultiV ℝ, Val.mul (.multi m) (.multi o) = .ok (.multi c) ∧ Val.pow (.multi c) a = .ok (.multi r) ∧
      Val.pow (.multi m) a = .ok (.multi p) ∧ Val.pow (.multi o) a = .ok (.multi q) ∧
      Val.mul (.multi p) (.multi q) = .ok (.multi s) ∧ ∀ ρ, Coherent ρ → r.mag ρ = s.mag ρ := by
  obtain ⟨c, e, -, hp, hc⟩ := C01_mul_magnitude m o hm ho
  have hcv : 0 < c.value := by
    have h := hc _ siSize_coherent
    have : 0 < c.mag (fun s => (siSize s : ℝ)) := by rw [h]; exact mul_pos ((mag_pos_iff siSize_coherent m).2 hv) ((mag_pos_iff siSize_coherent o).2 hw)
    exact (mag_pos_iff siSize_coherent c).1 this
  obtain ⟨r, e1, -, -, h1⟩ := pow_genuine c ⟨hp.1.well, hp.2.well⟩ hcv a
  obtain ⟨p, e2, g2, -, h2⟩ := pow_genuine m hm hv a
  obtain ⟨q, e3, g3, -, h3⟩ := pow_genuine o ho hw a
  obtain ⟨s, e4, -, -, h4⟩ := C01_mul_magnitude p q g2 g3
  refine ⟨c, r, p, q, s, e, e1, e2, e3, e4, fun ρ hρ => ?_⟩
  rw [h1 ρ hρ, hc ρ hρ, h4 ρ hρ, h2 ρ hρ, h3 ρ hρ, Real.mul_rpow ((mag_pos_iff hρ m).2 hv).le ((mag_pos_iff hρ o).2 hw).le]

/-- The objects differ: a product is written without prefixes, a power keeps them, so that `(2 km/s)**2` and
`(2 km/s)*(2 km/s)` are not `==`. -/
theorem C109_compound_equal_false : ¬ ∀ (m r p : MultiV ℚ), m.Genuine → Val.mul (.multi m) (.multi m) = .ok (.multi r) →
    Val.pow (.multi m) 2 = .ok (.multi p) → Val.eq (.multi r) (.multi p) = true := by
  intro h
  have := h ⟨.multi, 2, [⟨c!"km", 1⟩], [⟨c!"s", 1⟩]⟩ ⟨.multi, 4000000, [⟨c!"m", 2⟩], [⟨c!"s", 2⟩]⟩
    ⟨.multi, 4, [⟨c!"km", 2⟩], [⟨c!"s", 2⟩]⟩ (by decide) (by decide +kernel) (by decide +kernel)
  exact absurd this (by decide +kernel)

/-- Non-vacuity: a velocity in kilometres per second, cubed. -/
example : timesAll (.multi ⟨.multi, 2, [⟨c!"km", 1⟩], [⟨c!"s", 1⟩]⟩)
    (List.replicate 2 (.multi ⟨.multi, 2, [⟨c!"km", 1⟩], [⟨c!"s", 1⟩]⟩)) =
    (.ok (.multi ⟨.multi, 8000000000, [⟨c!"m", 3⟩], [⟨c!"s", 3⟩]⟩) : PyM (Val ℚ)) ∧
    (⟨.multi, 2, [⟨c!"km", 1⟩], [⟨c!"s", 1⟩]⟩ : MultiV ℚ).Genuine := by decide +kernel

/-! ## Rounding -/

variable {A : FloatArith}

theorem roundings_of_plain {l : UList} (h : UnprefixedList l) : roundings l = 0 := by
  induction l with
  | nil => rfl
  | cons a l ih =>
    have ha : a.roundings = 0 := by simp [BaseUnit.roundings, h a (by simp)]
    have := ih fun x hx => h x (List.mem_cons_of_mem _ hx)
    simp only [roundings, List.map_cons, List.sum_cons] at this ⊢
    rw [ha, this, add_zero]

/-- The product of any number of compound quantities in floating point ends like the exact one, off by at most two
rounding errors for each multiplication and those of the prefix of each factor. -/
theorem C109_rounding {k : ℝ} (m : MultiV (Fl A)) (m' : MultiV ℝ) (h : m.Near k m') (hm : m'.Genuine)
    (os : List (MultiV (Fl A))) (ho : ∀ o ∈ os, WellPrefixedList o.top ∧ WellPrefixedList o.bot) :
    SameOutcome (Val.Near (k + (2 * os.length + (roundings m'.top + roundings m'.bot) +
        (os.map fun o => roundings o.top + roundings o.bot).sum) * A.ε))
      (timesAll (.multi m) (os.map .multi))
      (timesAll (.multi m') (os.map fun o => .multi ⟨o.cls, o.value.val, o.top, o.bot⟩)) := by
  have he := A.nonneg
  induction os generalizing m m' k with
  | nil =>
    refine Verif.MultiV.Near.mono h ?_
    have := mul_nonneg (add_nonneg (roundings_list_nonneg m'.top) (roundings_list_nonneg m'.bot)) he
    simp only [List.length_nil, Nat.cast_zero, mul_zero, zero_add, List.map_nil, List.sum_nil, add_zero]
    linarith
  | cons o os ih =>
    have hn : MultiV.Near (A := A) 0 o ⟨o.cls, o.value.val, o.top, o.bot⟩ := ⟨rfl, rfl, rfl, Close.refl le_rfl _⟩
    have h1 := near_multiMulMulti h hn
    obtain ⟨c', e', -, hp, -⟩ := C01_mul_magnitude m' ⟨o.cls, o.value.val, o.top, o.bot⟩ hm (ho o (List.mem_cons_self ..))
    have e'' : multiMulMulti m' ⟨o.cls, o.value.val, o.top, o.bot⟩ = .ok (.multi c') := e'
    rw [e''] at h1
    simp only [List.map_cons, timesAll, Val.mul, multiMul, e'']
    cases e : multiMulMulti m o with
    | error er => rw [e] at h1; exact False.elim h1
    | ok w =>
      rw [e] at h1
      cases w <;> try exact False.elim h1
      rename_i c
      have := ih c c' h1 ⟨hp.1.well, hp.2.well⟩ fun o' ho' => ho o' (List.mem_cons_of_mem _ ho')
      rw [roundings_of_plain hp.1, roundings_of_plain hp.2] at this
      refine this.mono fun _ _ h => h.mono (le_of_eq ?_)
      simp only [List.length_cons, List.sum_cons]
      push_cast
      ring

/-- Multiplying a simple quantity with itself `n` times is off by at most `n` rounding errors. -/
theorem C109_rounding_repeated (u : UnitV (Fl A)) (hu : u.Constructed) (n : ℕ) :
    ∃ v : Fl A, timesAll (.unit u) (List.replicate n (.unit u)) = .ok (.unit ⟨u.cls, v, u.unit, u.exp * (n + 1)⟩) ∧
      Close (n * A.ε) v.val (u.value.val ^ (n + 1)) := by
  have key : ∀ (n : ℕ) (x : Fl A) (y k : ℝ) (a : ℚ), Close k x.val y → ∃ v : Fl A,
      timesAll (.unit ⟨u.cls, x, u.unit, a⟩) (List.replicate n (.unit u)) = .ok (.unit ⟨u.cls, v, u.unit, a + u.exp * n⟩) ∧
        Close (k + n * A.ε) v.val (y * u.value.val ^ n) := by
    intro n
    induction n with
    | zero => intro x y k a h; exact ⟨x, by simp [timesAll], by simpa using h⟩
    | succ n ih =>
      intro x y k a h
      have e : Val.mul (.unit ⟨u.cls, x, u.unit, a⟩) (.unit u) = .ok (.unit ⟨u.cls, x * u.value, u.unit, a + u.exp⟩) := by
        simp only [Val.mul, unitMul, and_self, if_true, hu.rebuild, wrapUnit]
      obtain ⟨v, e1, h1⟩ := ih (x * u.value) (y * u.value.val) (k + 0 + A.ε) (a + u.exp)
        (near_mul h (Close.refl le_rfl u.value.val))
      refine ⟨v, ?_, ?_⟩
      · simp only [List.replicate_succ, timesAll, e, e1]
        congr 3
        push_cast; ring
      · have hy : y * u.value.val ^ (n + 1) = y * u.value.val * u.value.val ^ n := by ring
        rw [hy]
        exact h1.mono (le_of_eq (by push_cast; ring))
  obtain ⟨v, e, h⟩ := key n u.value u.value.val 0 u.exp (Close.refl le_rfl _)
  refine ⟨v, ?_, ?_⟩
  · have : u.exp * ((n : ℚ) + 1) = u.exp + u.exp * n := by ring
    rw [this]; exact e
  · have hy : u.value.val ^ (n + 1) = u.value.val * u.value.val ^ n := by ring
    rw [hy]
    exact h.mono (by linarith)

end Verif
