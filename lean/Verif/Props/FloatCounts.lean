import Verif.Props.FloatLibrary
import Verif.Props.FloatExamples
import Verif.Lemmas.NoPrefix
import Verif.Tactic.UnitsEval
import Mathlib.Analysis.Complex.ExponentialBounds

/-!
# C82: formulas whose rounding errors can be counted in advance

For arguments without prefixes the number a formula returns is the formula on plain numbers, and for most formulas of the
library the number of rounding errors then follows from the formula alone.
-/

namespace Verif

/-! ## The formula on plain numbers -/

/-- A function of the `math` module on real numbers. -/
noncomputable def Fn.eval (x : ℝ) : Fn → ℝ
  | .exp => Real.exp x
  | .log => Real.log x
  | .sin => Real.sin x
  | .erf => Verif.erf x
  | .erfc => 1 - Verif.erf x

/-- The expression on plain real numbers. -/
noncomputable def Code.eval (a : ℕ → ℝ) : Code → ℝ
  | .var i => a i
  | .lit q => q
  | .pi => Real.pi
  | .const _ q _ => q
  | .mul x y => x.eval a * y.eval a
  | .div x y => x.eval a / y.eval a
  | .add x y => x.eval a + y.eval a
  | .sub x y => x.eval a - y.eval a
  | .neg x => -x.eval a
  | .pow x q => x.eval a ^ (q : ℝ)
  | .fn f x => f.eval (x.eval a)
  | .conv x _ => x.eval a

/-- The constants of the expression have no prefixes, and nothing is converted. -/
def Code.unprefixed : Code → Bool
  | .const _ _ u => match parseUnits u with
    | .ok (t, b) => decide (UnprefixedList t) && decide (UnprefixedList b)
    | .error _ => true
  | .mul x y | .div x y | .add x y | .sub x y => x.unprefixed && y.unprefixed
  | .neg x | .pow x _ | .fn _ x => x.unprefixed
  | .conv _ _ => false
  | _ => true

theorem fn_isPlain {f : Fn} {x r : Val ℝ} (h : f.call x = .ok r) : IsPlain (f.eval x.amount) r := by
  cases x <;> simp only [Fn.call] at h
  case num x =>
    cases f <;> simp only at h
    case log =>
      split at h
      · cases h; exact ⟨trivial, rfl⟩
      · cases h
    all_goals (cases h; exact ⟨trivial, rfl⟩)
  all_goals cases h

theorem constant_isPlain {c : MCls} {q : ℚ} {u : Sym} (hc : (Code.const c q u).unprefixed = true) {r : Val ℝ}
    (h : constant (K := ℝ) c q u = .ok r) : IsPlain q r := by
  simp only [Code.unprefixed] at hc
  simp only [constant, mkMulti] at h
  by_cases hu : u = []
  · rw [if_pos hu] at h
    cases h
    exact ⟨⟨by simp [UnprefixedList], by simp [UnprefixedList]⟩, rfl⟩
  · rw [if_neg hu] at h
    cases hp : parseUnits u with
    | error e => rw [hp] at h; cases h
    | ok tb =>
      rw [hp] at h hc
      cases h
      simp only [Bool.and_eq_true, decide_eq_true_eq] at hc
      exact ⟨hc, rfl⟩

/-- For arguments without prefixes, the number a formula returns is the formula on the numbers of its arguments, and the
result has no prefixes either. -/
theorem C82_plain_numbers (env : ℕ → Val ℝ) (henv : ∀ i, (env i).NoPrefix) (c : Code) (hc : c.unprefixed = true) (r : Val ℝ)
    (h : c.run env = .ok r) : r.NoPrefix ∧ r.amount = c.eval fun i => (env i).amount := by
  induction c generalizing r with
  | var i => cases h; exact ⟨henv i, rfl⟩
  | lit q => cases h; exact ⟨trivial, rfl⟩
  | pi => cases h; exact ⟨trivial, rfl⟩
  | const cl q u => exact constant_isPlain hc h
  | mul a b iha ihb =>
    simp only [Code.unprefixed, Bool.and_eq_true] at hc
    simp only [Code.run] at h
    cases ha : a.run env with
    | error e => rw [ha] at h; cases h
    | ok x => cases hb : b.run env with
      | error e => rw [ha, hb] at h; cases h
      | ok y =>
        rw [ha, hb, ok_mul] at h
        obtain ⟨h1, h2⟩ := iha hc.1 x ha
        obtain ⟨h3, h4⟩ := ihb hc.2 y hb
        rw [Code.eval, ← h2, ← h4]
        exact mul_isPlain h1 h3 h
  | div a b iha ihb =>
    simp only [Code.unprefixed, Bool.and_eq_true] at hc
    simp only [Code.run] at h
    cases ha : a.run env with
    | error e => rw [ha] at h; cases h
    | ok x => cases hb : b.run env with
      | error e => rw [ha, hb] at h; cases h
      | ok y =>
        rw [ha, hb, ok_div] at h
        obtain ⟨h1, h2⟩ := iha hc.1 x ha
        obtain ⟨h3, h4⟩ := ihb hc.2 y hb
        rw [Code.eval, ← h2, ← h4]
        exact div_isPlain h1 h3 h
  | add a b iha ihb =>
    simp only [Code.unprefixed, Bool.and_eq_true] at hc
    simp only [Code.run] at h
    cases ha : a.run env with
    | error e => rw [ha] at h; cases h
    | ok x => cases hb : b.run env with
      | error e => rw [ha, hb] at h; cases h
      | ok y =>
        rw [ha, hb, ok_add] at h
        obtain ⟨h1, h2⟩ := iha hc.1 x ha
        obtain ⟨h3, h4⟩ := ihb hc.2 y hb
        rw [Code.eval, ← h2, ← h4]
        exact add_isPlain h1 h
  | sub a b iha ihb =>
    simp only [Code.unprefixed, Bool.and_eq_true] at hc
    simp only [Code.run] at h
    cases ha : a.run env with
    | error e => rw [ha] at h; cases h
    | ok x => cases hb : b.run env with
      | error e => rw [ha, hb] at h; cases h
      | ok y =>
        rw [ha, hb, ok_sub] at h
        obtain ⟨h1, h2⟩ := iha hc.1 x ha
        obtain ⟨h3, h4⟩ := ihb hc.2 y hb
        rw [Code.eval, ← h2, ← h4]
        exact sub_isPlain h1 h
  | neg a iha =>
    simp only [Code.run] at h
    cases ha : a.run env with
    | error e => rw [ha] at h; cases h
    | ok x =>
      rw [ha, ok_neg] at h
      obtain ⟨h1, h2⟩ := iha hc x ha
      rw [Code.eval, ← h2]
      exact neg_isPlain h1 h
  | pow a q iha =>
    simp only [Code.run] at h
    cases ha : a.run env with
    | error e => rw [ha] at h; cases h
    | ok x =>
      rw [ha, ok_pow] at h
      obtain ⟨h1, h2⟩ := iha hc x ha
      rw [Code.eval, ← h2]
      exact pow_isPlain h1 h
  | fn f a iha =>
    simp only [Code.run] at h
    cases ha : a.run env with
    | error e => rw [ha] at h; cases h
    | ok x =>
      rw [ha] at h
      obtain ⟨h1, h2⟩ := iha hc x ha
      rw [Code.eval, ← h2]
      exact fn_isPlain h
  | conv a t => cases hc

theorem runRoundings_noPrefix {env : ℕ → Val ℝ} (henv : ∀ i, (env i).NoPrefix) {c : Code} (hc : c.unprefixed = true) :
    runRoundings (c.run env) = 0 := by
  have key : ∀ l : UList, UnprefixedList l → roundings l = 0 := by
    intro l hl
    induction l with
    | nil => rfl
    | cons a l ih =>
      have := ih fun x hx => hl x (List.mem_cons_of_mem _ hx)
      have ha : a.roundings = 0 := by simp [BaseUnit.roundings, hl a (by simp)]
      simp only [roundings, List.map_cons, List.sum_cons] at this ⊢
      rw [ha, this, add_zero]
  cases h : c.run env with
  | error e => rfl
  | ok r =>
    have := (C82_plain_numbers env henv c hc r h).1
    simp only [runRoundings]
    cases r <;> simp only [Val.NoPrefix] at this <;> simp only [Val.roundings]
    · simp [BaseUnit.roundings, this.2]
    · rw [key _ this.1, key _ this.2, add_zero]

/-! ## Counting -/

/-- The value cannot be negative when no argument is. -/
def Code.nonneg : Code → Bool
  | .var _ => true
  | .lit q => decide (0 ≤ q)
  | .pi => true
  | .const _ q _ => decide (0 ≤ q)
  | .mul a b | .div a b | .add a b => a.nonneg && b.nonneg
  | .pow a _ => a.nonneg
  | .fn .exp _ => true
  | _ => false

/-- The number of rounding errors when it is known in advance: argument `i` carries `n i` of them; `pos` when no argument is
negative. -/
def Code.count (pos : Bool) (n : ℕ → ℚ) : Code → Option ℚ
  | .var i => some (n i)
  | .lit _ => some 1
  | .pi => some 1
  | .const _ _ _ => some 1
  | .mul a b | .div a b => match a.count pos n, b.count pos n with
    | some x, some y => some (x + y + 2)
    | _, _ => none
  | .add a b => match a.count pos n, b.count pos n with
    | some x, some y =>
      if (pos && a.nonneg && b.nonneg) then some (max x y + 1) else if max x y = 0 then some 1 else none
    | _, _ => none
  | .sub a b => match a.count pos n, b.count pos n with
    | some x, some y => if max x y = 0 then some 1 else none
    | _, _ => none
  | .neg a => a.count pos n
  | .pow a q => match a.count pos n with
    | some x => some (|q| * x + 1)
    | none => none
  | .fn .erf a => match a.count pos n with
    | some x => some (x + 1)
    | none => none
  | .fn _ a => if a.count pos n = some 0 then some 1 else none
  | .conv _ _ => none

theorem nonneg_amount {env : ℕ → Val ℝ} (henv : ∀ i, (env i).NoPrefix) (hpos : ∀ i, 0 ≤ (env i).amount) {c : Code}
    (hc : c.unprefixed = true) (hn : c.nonneg = true) : 0 ≤ runAmount (c.run env) := by
  cases h : c.run env with
  | error e => exact le_rfl
  | ok r =>
    rw [runAmount, (C82_plain_numbers env henv c hc r h).2]
    clear h hc
    induction c with
    | var i => exact hpos i
    | lit q => simpa [Code.nonneg, Code.eval] using hn
    | pi => exact Real.pi_pos.le
    | const cl q u => simpa [Code.nonneg, Code.eval] using hn
    | mul a b iha ihb =>
      simp only [Code.nonneg, Bool.and_eq_true] at hn
      exact mul_nonneg (iha hn.1) (ihb hn.2)
    | div a b iha ihb =>
      simp only [Code.nonneg, Bool.and_eq_true] at hn
      exact div_nonneg (iha hn.1) (ihb hn.2)
    | add a b iha ihb =>
      simp only [Code.nonneg, Bool.and_eq_true] at hn
      exact add_nonneg (iha hn.1) (ihb hn.2)
    | sub a b => cases hn
    | neg a => cases hn
    | pow a q iha => exact Real.rpow_nonneg (iha hn) _
    | fn f a => cases f <;> first | exact (Real.exp_pos _).le | cases hn
    | conv a t => cases hn

theorem count_spec {ε : ℝ} {env : ℕ → Val ℝ} (henv : ∀ i, (env i).NoPrefix) {pos : Bool}
    (hpos : pos = true → ∀ i, 0 ≤ (env i).amount) {n : ℕ → ℚ} {c : Code} (hc : c.unprefixed = true) {k : ℚ}
    (hk : c.count pos n = some k) : c.bound env (fun i => n i) = k ∧ c.Stable ε env (fun i => n i) := by
  induction c generalizing k with
  | var i => cases hk; exact ⟨rfl, trivial⟩
  | lit q => cases hk; exact ⟨by simp [Code.bound], trivial⟩
  | pi => cases hk; exact ⟨by simp [Code.bound], trivial⟩
  | const cl q u => cases hk; exact ⟨by simp [Code.bound], trivial⟩
  | mul a b iha ihb =>
    simp only [Code.unprefixed, Bool.and_eq_true] at hc
    simp only [Code.count] at hk
    split at hk
    · next x y e1 e2 =>
      cases hk
      obtain ⟨h1, h2⟩ := iha hc.1 e1
      obtain ⟨h3, h4⟩ := ihb hc.2 e2
      refine ⟨?_, h2, h4⟩
      simp only [Code.bound, runRoundings_noPrefix henv hc.1, runRoundings_noPrefix henv hc.2, h1, h3]
      push_cast; ring
    · cases hk
  | div a b iha ihb =>
    simp only [Code.unprefixed, Bool.and_eq_true] at hc
    simp only [Code.count] at hk
    split at hk
    · next x y e1 e2 =>
      cases hk
      obtain ⟨h1, h2⟩ := iha hc.1 e1
      obtain ⟨h3, h4⟩ := ihb hc.2 e2
      refine ⟨?_, h2, h4⟩
      simp only [Code.bound, runRoundings_noPrefix henv hc.1, runRoundings_noPrefix henv hc.2, h1, h3]
      push_cast; ring
    · cases hk
  | add a b iha ihb =>
    simp only [Code.unprefixed, Bool.and_eq_true] at hc
    simp only [Code.count] at hk
    split at hk
    · next x y e1 e2 =>
      obtain ⟨h1, h2⟩ := iha hc.1 e1
      obtain ⟨h3, h4⟩ := ihb hc.2 e2
      simp only [Code.bound, Code.Stable, h1, h3]
      split at hk
      · next hp =>
        cases hk
        simp only [Bool.and_eq_true] at hp
        have := mul_nonneg (nonneg_amount henv (hpos hp.1.1) hc.1 hp.1.2) (nonneg_amount henv (hpos hp.1.1) hc.2 hp.2)
        refine ⟨?_, h2, h4, .inl this⟩
        rw [sumRoundings, if_pos this]
        push_cast; rfl
      · split at hk
        · next h0 =>
          cases hk
          have h0' : max (x : ℝ) (y : ℝ) = 0 := by rw [← Rat.cast_max, h0, Rat.cast_zero]
          refine ⟨?_, h2, h4, .inr (.inl h0')⟩
          simp only [sumRoundings, h0']
          split <;> simp
        · cases hk
    · cases hk
  | sub a b iha ihb =>
    simp only [Code.unprefixed, Bool.and_eq_true] at hc
    simp only [Code.count] at hk
    split at hk
    · next x y e1 e2 =>
      obtain ⟨h1, h2⟩ := iha hc.1 e1
      obtain ⟨h3, h4⟩ := ihb hc.2 e2
      simp only [Code.bound, Code.Stable, h1, h3]
      split at hk
      · next h0 =>
        cases hk
        have h0' : max (x : ℝ) (y : ℝ) = 0 := by rw [← Rat.cast_max, h0, Rat.cast_zero]
        refine ⟨?_, h2, h4, .inr (.inl h0')⟩
        simp only [sumRoundings, h0']
        split <;> simp
      · cases hk
    · cases hk
  | neg a iha => exact iha hc hk
  | pow a q iha =>
    simp only [Code.count] at hk
    split at hk
    · next x e1 =>
      cases hk
      obtain ⟨h1, h2⟩ := iha hc e1
      refine ⟨?_, h2⟩
      simp only [Code.bound, h1]
      push_cast; rfl
    · cases hk
  | fn f a iha =>
    cases f <;> simp only [Code.count] at hk
    case erf =>
      split at hk
      · next x e1 =>
        cases hk
        obtain ⟨h1, h2⟩ := iha hc e1
        refine ⟨?_, h2, trivial⟩
        simp only [Code.bound, h1, Fn.roundings]
        push_cast; rfl
      · cases hk
    all_goals
      split at hk
      · next h0 =>
        cases hk
        obtain ⟨h1, h2⟩ := iha hc h0
        simp [Code.bound, Code.Stable, h1, h2, Fn.roundings, Fn.Stable]
      · cases hk
  | conv a t => cases hc

/-! ## Exact arguments -/

/-- The exact value of a floating point quantity. -/
def Val.exact {A : FloatArith} : Val (Fl A) → Val ℝ
  | .num x => .num x.val
  | .unit u => .unit ⟨u.cls, u.value.val, u.unit, u.exp⟩
  | .multi m => .multi ⟨m.cls, m.value.val, m.top, m.bot⟩
  | .none => .none
  | .other => .other
  | .bare => .bare

theorem Val.near_exact {A : FloatArith} (x : Val (Fl A)) : x.Near (((0 : ℚ) : ℝ) * A.ε) x.exact := by
  rw [Rat.cast_zero, zero_mul]
  cases x <;> first | exact Close.refl le_rfl _ | exact UnitV.near_self _ | exact MultiV.near_self _ | trivial

/-- The rounding errors of a formula can be counted before it is run: for floating point arguments without prefixes the
result is within that many rounding errors of the exact result for the same arguments. -/
theorem C82_counted {M : FloatMath} (env : ℕ → Val (Fl M.toFloatArith)) (henv : ∀ i, (env i).exact.NoPrefix) (pos : Bool)
    (hpos : pos = true → ∀ i, 0 ≤ (env i).exact.amount) (c : Code) (hc : c.unprefixed = true) (k : ℚ)
    (hk : c.count pos (fun _ => 0) = some k) :
    SameOutcome (Val.Near (k * M.ε)) (c.run env) (c.run fun i => (env i).exact) := by
  obtain ⟨h1, h2⟩ := count_spec (ε := M.ε) henv hpos hc hk
  have := C82_formula env (fun i => (env i).exact) _ (fun i => (env i).near_exact) c h2
  rwa [h1] at this

/-! ## The formulas of the library -/

/-- Name, whether arguments must not be negative, rounding errors. -/
def countedFormulas : List (Sym × Bool × ℚ) := [
  (c!"planar_heat (q)", false, 7),
  (c!"planar_heat (thickness)", false, 7),
  (c!"planar_flux (qA)", false, 5),
  (c!"planar_flux (thickness)", false, 5),
  (c!"sphere_heat", false, 14),
  (c!"z_factor", false, 4),
  (c!"nh_factor", false, 4),
  (c!"equivalent_diameter", false, 5),
  (c!"Ge_calc", false, 4),
  (c!"htc_shell", false, 77/5),
  (c!"wall_viscosity_correction_factor", false, 32/25),
  (c!"htc_open_field_turbulent_local", false, 13),
  (c!"htc_pipe_laminar", false, 12),
  (c!"htc_pipe_turbulent", false, 13),
  (c!"htc_cross_cylinder", true, 12),
  (c!"htc_cross_sphere", true, 12),
  (c!"htc_short_pipe_correction", true, 27/5),
  (c!"condensation_transfer_coefficient", false, 33/4),
  (c!"flux_max_boiling (value)", false, 41/4),
  (c!"planar_mass_transfer_steady_state", false, 7),
  (c!"planar_mass_flux_steady_state", false, 5),
  (c!"sphere_mass_transfer_steady_state", false, 16),
  (c!"stokes_einstein", false, 13),
  (c!"ionic_diffusion_coefficient", true, 19),
  (c!"max_vessel_pressure (cylinder)", true, 8),
  (c!"max_vessel_pressure (sphere)", true, 11),
  (c!"FAR", false, 5),
  (c!"OSHA_incidence_rate", false, 5),
  (c!"Qm_evaporation", false, 10),
  (c!"enclosure_concentration", false, 15),
  (c!"ppm_to_other", false, 11),
  (c!"reynolds", false, 6),
  (c!"biot", false, 4),
  (c!"prandtl", false, 4),
  (c!"schmidt", false, 4),
  (c!"gretz", false, 12),
  (c!"grashof", false, 14),
  (c!"beta", false, 10),
  (c!"cstr_volume", false, 3)]

theorem countedFormulas_check : ∀ p ∈ countedFormulas, ∃ f ∈ codedFormulas, f.name = p.1 ∧ f.code.unprefixed = true ∧
    f.code.count p.2.1 (fun _ => 0) = some p.2.2 := by
  decide +kernel

/-- Rounding errors of the formulas in the table, for all floating point arguments without prefixes. -/
theorem C82_table {M : FloatMath} (name : Sym) (pos : Bool) (k : ℚ) (h : (name, pos, k) ∈ countedFormulas) :
    ∃ f ∈ codedFormulas, f.name = name ∧ ∀ env : ℕ → Val (Fl M.toFloatArith), (∀ i, (env i).exact.NoPrefix) →
      (pos = true → ∀ i, 0 ≤ (env i).exact.amount) →
      SameOutcome (Val.Near (k * M.ε)) (f.code.run env) (f.model fun i => (env i).exact) := by
  obtain ⟨f, hf, h1, h2, h3⟩ := countedFormulas_check _ h
  refine ⟨f, hf, h1, fun env henv hpos => ?_⟩
  rw [← C82_formulas f hf]
  exact C82_counted env henv pos hpos f.code h2 k h3

/-! ## Single formulas -/

/-- A conductivity in W/(m K). -/
def conductivity {K : Type} (v : K) : Val K :=
  .multi ⟨.sub c!"ThermalConductivity", v, [⟨c!"W", 1⟩], [⟨c!"m", 1⟩, ⟨c!"K", 1⟩]⟩

/-- A temperature in K. -/
def kelvin {K : Type} (v : K) : Val K := .unit ⟨.temperature, v, c!"K", 1⟩

/-- A length in m. -/
def metre {K : Type} (v : K) : Val K := .unit ⟨.length, v, c!"m", 1⟩

theorem conductivity_noPrefix (v : ℝ) : (conductivity v).NoPrefix :=
  ⟨by dsimp only; decide +kernel, by dsimp only; decide +kernel⟩

theorem kelvin_noPrefix (v : ℝ) : (kelvin v).NoPrefix := ⟨⟨v, _, 1, rfl⟩, by dsimp only; decide +kernel⟩

theorem metre_noPrefix (v : ℝ) : (metre v).NoPrefix := ⟨⟨v, _, 1, rfl⟩, by dsimp only; decide +kernel⟩

/-- `planar_flux` is accurate to five rounding errors whatever its arguments, even when the two temperatures are close. -/
theorem C82_planar_flux {M : FloatMath} (k t1 t2 x : Fl M.toFloatArith) :
    SameOutcome (Val.Near (5 * M.ε)) (planarFlux [conductivity k, kelvin t1, kelvin t2, metre x] [])
      (planarFlux [conductivity k.val, kelvin t1.val, kelvin t2.val, metre x.val] []) := by
  have := C82_counted (M := M) (fun | 0 => conductivity k | 1 => kelvin t1 | 2 => kelvin t2 | _ => metre x)
    (fun i => by
      rcases i with _ | _ | _ | i
      · exact conductivity_noPrefix _
      · exact kelvin_noPrefix _
      · exact kelvin_noPrefix _
      · exact metre_noPrefix _) false nofun
    ((-(Code.var 0)) * ((.var 2 - .var 1) / .var 3)) rfl 5 (by decide +kernel)
  exact_mod_cast this

/-- In double precision: the relative error of the flux is below 10⁻¹⁴. -/
example (k t1 t2 x : Fl double) (hx : x.val ≠ 0) : ∃ a b,
    planarFlux [conductivity k, kelvin t1, kelvin t2, metre x] [] = .ok a ∧
    planarFlux [conductivity k.val, kelvin t1.val, kelvin t2.val, metre x.val] [] = .ok b ∧
    |a.exact.amount - b.amount| ≤ 1 / 10 ^ 14 * |b.amount| := by
  rcases (C82_planar_flux (M := doubleMath) k t1 t2 x).elim with ⟨e, -, h⟩ | ⟨a, b, h1, h2, h⟩
  · have : ∃ b, planarFlux [conductivity k.val, kelvin t1.val, kelvin t2.val, metre x.val] [] = .ok b := by
      have e : planarFlux [conductivity k.val, kelvin t1.val, kelvin t2.val, metre x.val] [] =
        (-(.ok (conductivity k.val))) * ((.ok (kelvin t2.val) - .ok (kelvin t1.val)) / .ok (metre x.val)) := rfl
      rw [e]
      unfold conductivity kelvin metre
      units_eval [hx]
      exact ⟨_, rfl⟩
    rw [h] at this
    obtain ⟨b, hb⟩ := this
    cases hb
  · refine ⟨a, b, h1, h2, ?_⟩
    have hc : Close (5 * double.ε) a.exact.amount b.amount := by
      cases a <;> cases b <;> simp only [Val.Near] at h
      · exact h
      · exact h.2.2.2
      · exact h.2.2.2
      all_goals exact Close.refl (by have := double.nonneg; positivity) _
    refine (C78_double (by norm_num) hc).trans ?_
    exact mul_le_mul_of_nonneg_right (by norm_num) (abs_nonneg _)

/-- `pipe_heat` loses accuracy only through the logarithm: `14 + 4 / |log (r2 / r1)|` rounding errors, provided that the
logarithm itself is not lost. -/
theorem C82_pipe_heat {M : FloatMath} (env : ℕ → Val (Fl M.toFloatArith)) (henv : ∀ i, (env i).exact.NoPrefix)
    (hr : (env 4).exact.amount ≠ (env 5).exact.amount)
    (hs : 4 / |Real.log ((env 4).exact.amount / (env 5).exact.amount)| * M.ε ≤ 1) :
    SameOutcome (Val.Near ((14 + 4 / |Real.log ((env 4).exact.amount / (env 5).exact.amount)|) * M.ε))
      ((Code.lit (-2) * .pi * .var 3 * .var 0 * ((.var 2 - .var 1) / .fn .log (.var 4 / .var 5))).run env)
      (pipeHeat (.ok (env 0).exact) (.ok (env 1).exact) (.ok (env 2).exact) (.ok (env 3).exact) (.ok (env 4).exact)
        (.ok (env 5).exact)) := by
  set c : Code := Code.lit (-2) * .pi * .var 3 * .var 0 * ((.var 2 - .var 1) / .fn .log (.var 4 / .var 5)) with hcdef
  have hrun : pipeHeat (.ok (env 0).exact) (.ok (env 1).exact) (.ok (env 2).exact) (.ok (env 3).exact) (.ok (env 4).exact)
        (.ok (env 5).exact) = c.run fun i => (env i).exact := by
    simp only [hcdef, run_sub, run_mul, run_div, run_pi, run_lit, run_var, run_fn, fn_log]
    push_cast
    rfl
  rw [hrun]
  have h0 : ∀ d : Code, d.unprefixed = true → runRoundings (d.run fun i => (env i).exact) = 0 := fun d hd =>
    runRoundings_noPrefix henv hd
  have hv : ∀ i, runRoundings ((Code.var i).run fun i => (env i).exact) = 0 := fun i => h0 _ rfl
  have hp : runRoundings (Code.pi.run fun i => (env i).exact) = 0 := h0 _ rfl
  have hq : runRoundings ((Code.lit (-2)).run fun i => (env i).exact) = 0 := h0 _ rfl
  set a := runAmount ((Code.div (.var 4) (.var 5)).run fun i => (env i).exact) with ha
  have hcase : a = 0 ∨ ((env 5).exact.amount ≠ 0 ∧ a = (env 4).exact.amount / (env 5).exact.amount) := by
    cases h : (Code.div (.var 4) (.var 5)).run fun i => (env i).exact with
    | error e => left; rw [ha, h]; rfl
    | ok r =>
      have := (C82_plain_numbers _ henv _ rfl r h).2
      by_cases h5 : (env 5).exact.amount = 0
      · left; rw [ha, h, runAmount, this, Code.eval, Code.eval, Code.eval, h5, div_zero]
      · right; rw [ha, h]; exact ⟨h5, this⟩
  have hlog : 4 / |Real.log a| ≤ 4 / |Real.log ((env 4).exact.amount / (env 5).exact.amount)| := by
    rcases hcase with h | ⟨-, h⟩
    · rw [h]; simp only [Real.log_zero, abs_zero, div_zero]; positivity
    · rw [h]
  have hb : c.bound (fun i => (env i).exact) (fun _ => 0) = 14 + 4 / |Real.log a| := by
    change (((1 + 1 + (2 + runRoundings ((Code.lit (-2)).run _) + runRoundings (Code.pi.run _))) + 0
      + (2 + runRoundings (Code.run _ (.mul (.lit (-2)) .pi)) + runRoundings (Code.run _ (.var 3)))) + 0
      + (2 + runRoundings (Code.run _ (.mul (.mul (.lit (-2)) .pi) (.var 3))) + runRoundings (Code.run _ (.var 0)))) +
      (sumRoundings 0 0 _ _ + (2 * (0 + 0 + (2 + runRoundings (Code.run _ (.var 4)) + runRoundings (Code.run _ (.var 5))))
        / |Real.log a| + 1) + (2 + runRoundings (Code.run _ (.sub (.var 2) (.var 1))) +
          runRoundings (Code.run _ (.fn .log (.div (.var 4) (.var 5)))))) +
      (2 + runRoundings (Code.run _ (.mul (.mul (.mul (.lit (-2)) .pi) (.var 3)) (.var 0))) +
        runRoundings (Code.run _ (.div (.sub (.var 2) (.var 1)) (.fn .log (.div (.var 4) (.var 5)))))) = _
    simp only [h0, hv, hp, hq, Code.unprefixed, Bool.and_self]
    have : ∀ x y, sumRoundings 0 0 x y = 1 := fun x y => by simp [sumRoundings]
    rw [this]
    ring
  have hst : c.Stable M.ε (fun i => (env i).exact) (fun _ => 0) := by
    refine ⟨⟨⟨⟨trivial, trivial⟩, trivial⟩, trivial⟩, ⟨trivial, trivial, .inr (.inl (max_self _))⟩, ⟨trivial, trivial⟩, ?_⟩
    rcases hcase with h | ⟨h5, h⟩
    · left
      exact h.le
    · right; right
      have h4 : 2 * (0 + 0 + (2 + runRoundings (Code.run (fun i => (env i).exact) (.var 4)) +
          runRoundings (Code.run (fun i => (env i).exact) (.var 5)))) / |Real.log a| * M.ε ≤ 1 := by
        simp only [hv]
        refine le_trans ?_ hs
        refine mul_le_mul_of_nonneg_right ?_ M.nonneg
        refine le_trans (le_of_eq ?_) hlog
        ring
      refine ⟨?_, h4⟩
      change a ≠ 1
      rw [h]
      intro h1
      exact hr ((div_eq_one_iff_eq h5).1 h1)
  have := C82_formula env (fun i => (env i).exact) (fun _ => 0)
    (fun i => by have := (env i).near_exact; rwa [Rat.cast_zero] at this) c hst
  rw [hb] at this
  exact this.mono fun _ _ h => h.mono (mul_le_mul_of_nonneg_right (by linarith) M.nonneg)

/-- A pipe twice as wide outside as inside, in double precision. -/
example (k t1 t2 l r : Fl doubleMath.toFloatArith) (h : r.val ≠ 0) :
    let env : ℕ → Val (Fl doubleMath.toFloatArith) := fun
      | 0 => conductivity k
      | 1 => kelvin t1
      | 2 => kelvin t2
      | 3 => metre l
      | 4 => metre ⟨2 * r.val⟩
      | _ => metre r
    SameOutcome (Val.Near (20 * doubleMath.ε))
      (Code.run env
        (.lit (-2) * .pi * .var 3 * .var 0 * ((.var 2 - .var 1) / .fn .log (.var 4 / .var 5))))
      (pipeHeat (.ok (conductivity k.val)) (.ok (kelvin t1.val)) (.ok (kelvin t2.val)) (.ok (metre l.val))
        (.ok (metre (2 * r.val))) (.ok (metre r.val))) := by
  intro env
  have hl : (Val.exact (env 4)).amount / (Val.exact (env 5)).amount = 2 := by
    show 2 * r.val / r.val = 2
    field_simp
  have h2 : 4 / |Real.log 2| ≤ 6 := by
    have := Real.log_two_gt_d9
    rw [abs_of_pos (by linarith), div_le_iff₀ (by linarith)]
    linarith
  have he : doubleMath.ε ≤ 1 / 6 := by
    show -Real.log (1 - 2⁻¹ ^ 53) ≤ _
    have := Real.one_sub_inv_le_log_of_pos (show (0 : ℝ) < 1 - 2⁻¹ ^ 53 by norm_num)
    have h2 : (1 - (2⁻¹ : ℝ) ^ 53)⁻¹ ≤ 1 + 1 / 6 := by norm_num
    linarith
  have h0 := doubleMath.nonneg
  have := C82_pipe_heat (M := doubleMath) env (fun i => by
      rcases i with _ | _ | _ | _ | _ | i
      · exact conductivity_noPrefix _
      · exact kelvin_noPrefix _
      · exact kelvin_noPrefix _
      · exact metre_noPrefix _
      · exact metre_noPrefix _
      · exact metre_noPrefix _)
    (fun e => h (by have e' : 2 * r.val = r.val := e; linarith))
    (by rw [hl]; nlinarith)
  rw [hl] at this
  exact this.mono fun _ _ h => h.mono (mul_le_mul_of_nonneg_right (by linarith) h0)

end Verif
