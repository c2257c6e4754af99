import Verif.Lemmas.PlainOps
import Verif.Props.Sums
import Verif.Tactic.UnitsEval

/-!
# C64: arithmetic expressions over quantities

An expression built from quantities and numbers with `+ - * / **` has, whenever the library returns a result, the
magnitude the same expression has on magnitudes.  False in general; the theorem names, node by node, the only operations
that break it.
-/

namespace Verif

/-! ## Expressions and their meaning -/

/-- The functions of the `math` module. -/
inductive MathFn
  | exp | log | sin | erf | erfc

/-- The Python function. -/
noncomputable def MathFn.run : MathFn → PyM (Val ℝ) → PyM (Val ℝ)
  | exp => pyExp
  | log => pyLog
  | sin => pySin
  | erf => pyErf
  | erfc => pyErfc

/-- The mathematical function. -/
noncomputable def MathFn.meaning : MathFn → ℝ → ℝ
  | exp => Real.exp
  | log => Real.log
  | sin => Real.sin
  | erf => Verif.erf
  | erfc => fun x => 1 - Verif.erf x

/-- A Python arithmetic expression. -/
inductive Arith
  | var (i : ℕ)
  | lit (x : ℝ)
  | mul (a b : Arith)
  | div (a b : Arith)
  | add (a b : Arith)
  | sub (a b : Arith)
  | neg (a : Arith)
  | pow (a : Arith) (q : ℚ)
  | fn (f : MathFn) (a : Arith)

namespace Arith

/-- What the library computes. -/
noncomputable def run (env : ℕ → Val ℝ) : Arith → PyM (Val ℝ)
  | var i => .ok (env i)
  | lit x => pnum x
  | mul a b => a.run env * b.run env
  | div a b => a.run env / b.run env
  | add a b => a.run env + b.run env
  | sub a b => a.run env - b.run env
  | neg a => -(a.run env)
  | pow a q => ppow (a.run env) q
  | fn f a => f.run (a.run env)

/-- The same expression on real numbers. -/
noncomputable def meaning (μ : ℕ → ℝ) : Arith → ℝ
  | var i => μ i
  | lit x => x
  | mul a b => a.meaning μ * b.meaning μ
  | div a b => a.meaning μ / b.meaning μ
  | add a b => a.meaning μ + b.meaning μ
  | sub a b => a.meaning μ - b.meaning μ
  | neg a => -(a.meaning μ)
  | pow a q => a.meaning μ ^ (q : ℝ)
  | fn f a => f.meaning (a.meaning μ)

end Arith

/-- Quantities whose prefix letters are genuine prefixes. -/
def SoundVal : Val ℝ → Prop
  | .num _ => True
  | .unit u => u.Constructed ∧ WellPrefixed u.unit
  | .multi m => m.Genuine
  | _ => False

/-- Multiplications that lose nothing: no power of a simple unit times a number or times another simple unit, and no
prefix when a simple unit meets a compound one. -/
def MulSafe : Val ℝ → Val ℝ → Prop
  | .unit u, .num _ => u.exp = 1
  | .num _, .unit u => u.exp = 1
  | .unit u, .unit w => (u.cls = w.cls ∧ u.unit = w.unit) ∨ (u.exp = 1 ∧ w.exp = 1)
  | .unit u, .multi m => m.Plain ∧ Unprefixed u.unit
  | .multi m, .unit u => m.Plain ∧ Unprefixed u.unit
  | _, _ => True

/-- Divisions that lose nothing: no prefix when a simple unit is divided by a compound one. -/
def DivSafe : Val ℝ → Val ℝ → Prop
  | .unit u, .multi m => m.Plain ∧ Unprefixed u.unit
  | _, _ => True

/-- Sums that mean something: no number is added to a simple quantity. -/
def AddSafe : Val ℝ → Val ℝ → Prop
  | .unit _, .num _ => False
  | _, _ => True

/-- Every operation that is carried out is safe. -/
def Arith.Safe (env : ℕ → Val ℝ) : Arith → Prop
  | .var _ => True
  | .lit _ => True
  | .mul a b => a.Safe env ∧ b.Safe env ∧ ∀ x y, a.run env = .ok x → b.run env = .ok y → MulSafe x y
  | .div a b => a.Safe env ∧ b.Safe env ∧ ∀ x y, a.run env = .ok x → b.run env = .ok y → DivSafe x y
  | .add a b => a.Safe env ∧ b.Safe env ∧ ∀ x y, a.run env = .ok x → b.run env = .ok y → AddSafe x y
  | .sub a b => a.Safe env ∧ b.Safe env ∧ ∀ x y, a.run env = .ok x → b.run env = .ok y → AddSafe x y
  | .neg a => a.Safe env
  | .pow a _ => a.Safe env
  | .fn _ a => a.Safe env

/-! ## Operations -/

theorem HasMag.of_eq {ρ : Sym → ℝ} {v : Val ℝ} {x y : ℝ} (h : HasMag ρ v x) (e : x = y) : HasMag ρ v y := e ▸ h

theorem packDiv_sound {v : ℝ} {t b : UList} (h1 : UnprefixedList t) (h2 : UnprefixedList b) :
    SoundVal (packDiv v t b) := by
  unfold packDiv
  split
  · trivial
  · exact ⟨constructed_plain _ _ _, (h1 _ (by simp)).well⟩
  · exact ⟨constructed_plain _ _ _, (h2 _ (by simp)).well⟩
  · exact ⟨h1.well, h2.well⟩

theorem packMul_sound {v : ℝ} {t b : UList} (h1 : UnprefixedList t) (h2 : UnprefixedList b) :
    SoundVal (packMul v t b) := by
  unfold packMul
  split
  · trivial
  · exact ⟨constructed_plain _ _ _, (h1 _ (by simp)).well⟩
  · exact ⟨h1.well, h2.well⟩

theorem UnitV.Constructed.with {u : UnitV ℝ} (h : u.Constructed) (v : ℝ) (e : ℚ) :
    (⟨u.cls, v, u.unit, e⟩ : UnitV ℝ).Constructed := ⟨v, u.unit, e, h.rebuild v e⟩

/-- What an operation preserves. -/
def Keeps (f : ℝ → ℝ → ℝ) (x y r : Val ℝ) : Prop :=
  SoundVal r ∧ ∀ ρ, Coherent ρ → ∀ a b, HasMag ρ x a → HasMag ρ y b → HasMag ρ r (f a b)

theorem mul_multi_unit_sound {m : MultiV ℝ} {u : UnitV ℝ} (hs : m.Plain ∧ Unprefixed u.unit) :
    ∃ r, multiMulUnit m u = .ok r ∧ SoundVal r ∧ ∀ ρ, Coherent ρ → HasMag ρ r (m.mag ρ * u.mag ρ) := by
  obtain ⟨r, e1, -, hr⟩ := C03_mul_unit_plain_partial m u hs.1 hs.2
  obtain ⟨t, bo, e, -, h1, h2, -⟩ := reduce_full true true
    (wellPrefixed_append hs.1.1.well (wellPrefixed_single (e := u.exp) hs.2.well)) hs.1.2.well
  have : multiMulUnit m u = .ok (packMul (u.value * m.value) t bo) := by simp only [multiMulUnit, e]
  refine ⟨_, this, packMul_sound h1 h2, ?_⟩
  have e1' : multiMulUnit m u = .ok r := e1
  rw [this] at e1'; cases e1'
  exact hr

theorem mul_keeps {x y r : Val ℝ} (hx : SoundVal x) (hy : SoundVal y) (hs : MulSafe x y)
    (h : Val.mul x y = .ok r) : Keeps (· * ·) x y r := by
  cases x with
  | none | other | bare => exact hx.elim
  | num a => cases y with
    | none | other | bare => exact hy.elim
    | num b =>
      cases h
      refine ⟨trivial, fun ρ hρ p q hp hq => ?_⟩
      cases hp; cases hq; exact .num _
    | unit u =>
      simp only [Val.mul, unitRmul, hy.1.rebuild, wrapUnit, Except.ok.injEq] at h
      subst h
      refine ⟨⟨hy.1.with _ _, hy.2⟩, fun ρ hρ p q hp hq => ?_⟩
      cases hp; cases hq
      refine (HasMag.unit _).of_eq ?_
      simp only [MulSafe] at hs
      simp only [UnitV.mag, hs]; ring
    | multi m =>
      simp only [Val.mul, multiRmul, Except.ok.injEq] at h
      subst h
      refine ⟨hy, fun ρ hρ p q hp hq => ?_⟩
      cases hp; cases hq
      refine (HasMag.multi _).of_eq ?_
      simp only [MultiV.mag, mag]; ring
  | unit u => cases y with
    | none | other | bare => exact hy.elim
    | num b =>
      simp only [Val.mul, unitMul, hx.1.rebuild, wrapUnit, Except.ok.injEq] at h
      subst h
      refine ⟨⟨hx.1.with _ _, hx.2⟩, fun ρ hρ p q hp hq => ?_⟩
      cases hp; cases hq
      refine (HasMag.unit _).of_eq ?_
      simp only [MulSafe] at hs
      simp only [UnitV.mag, hs]; ring
    | unit w =>
      obtain ⟨r', e, hm⟩ := C05_unit_mul_unit_partial u w hx.1 hs
      rw [h] at e; cases e
      refine ⟨?_, fun ρ hρ p q hp hq => ?_⟩
      · simp only [Val.mul, unitMul] at h
        split at h
        · rename_i hc
          simp only [hx.1.rebuild, wrapUnit, Except.ok.injEq] at h
          subst h
          exact ⟨hx.1.with _ _, hx.2⟩
        · simp only [Except.ok.injEq] at h
          subst h
          refine ⟨?_, by simp [WellPrefixedList]⟩
          intro b hb
          simp only [List.mem_cons, List.not_mem_nil, or_false] at hb
          rcases hb with rfl | rfl
          · exact hx.2
          · exact hy.2
      · cases hp; cases hq; exact hm ρ hρ.pos
    | multi m =>
      obtain ⟨r', e, h1, h2⟩ := mul_multi_unit_sound hs
      have h' : multiMulUnit m u = .ok r := h
      rw [e] at h'; cases h'
      refine ⟨h1, fun ρ hρ p q hp hq => ?_⟩
      cases hp; cases hq; exact (h2 ρ hρ).of_eq (mul_comm _ _)
  | multi m => cases y with
    | none | other | bare => exact hy.elim
    | num b =>
      simp only [Val.mul, multiMul, Except.ok.injEq] at h
      subst h
      refine ⟨hx, fun ρ hρ p q hp hq => ?_⟩
      cases hp; cases hq
      refine (HasMag.multi _).of_eq ?_
      simp only [MultiV.mag, mag]; ring
    | unit u =>
      obtain ⟨r', e, h1, h2⟩ := mul_multi_unit_sound hs
      have h' : multiMulUnit m u = .ok r := h
      rw [e] at h'; cases h'
      refine ⟨h1, fun ρ hρ p q hp hq => ?_⟩
      cases hp; cases hq; exact h2 ρ hρ
    | multi o =>
      obtain ⟨c, e, -, hp, hm⟩ := C01_mul_magnitude m o hx hy
      rw [h] at e; cases e
      refine ⟨⟨hp.1.well, hp.2.well⟩, fun ρ hρ p q hp hq => ?_⟩
      cases hp; cases hq; exact (HasMag.multi _).of_eq (hm ρ hρ)

theorem pyDiv_inv {x y v : ℝ} (h : pyDiv x y = .ok v) : y ≠ 0 ∧ v = x / y := by
  unfold pyDiv at h
  split at h
  · cases h
  · rename_i hn; cases h; exact ⟨hn, rfl⟩

theorem div_keeps {x y r : Val ℝ} (hx : SoundVal x) (hy : SoundVal y) (hs : DivSafe x y)
    (h : Val.div x y = .ok r) : Keeps (· / ·) x y r := by
  cases x with
  | none | other | bare => exact hx.elim
  | num a => cases y with
    | none | other | bare => exact hy.elim
    | num b =>
      simp only [Val.div] at h
      split at h
      · cases h
      · rename_i v hv
        obtain ⟨-, rfl⟩ := pyDiv_inv hv
        cases h
        refine ⟨trivial, fun ρ hρ p q hp hq => ?_⟩
        cases hp; cases hq; exact .num _
    | unit u => cases h
    | multi m =>
      simp only [Val.div, multiRdiv] at h
      split at h
      · cases h
      · rename_i v hv
        obtain ⟨-, rfl⟩ := pyDiv_inv hv
        cases h
        refine ⟨⟨hy.2, hy.1⟩, fun ρ hρ p q hp hq => ?_⟩
        cases hp; cases hq
        refine (HasMag.multi _).of_eq ?_
        simp only [MultiV.mag, mag]
        have := (lsize_pos hρ.pos m.bot).ne'
        have := (lsize_pos hρ.pos m.top).ne'
        field_simp
  | unit u => cases y with
    | none | other | bare => exact hy.elim
    | num b =>
      simp only [Val.div, unitDiv] at h
      split at h
      · cases h
      · rename_i v hv
        obtain ⟨-, rfl⟩ := pyDiv_inv hv
        simp only [hx.1.rebuild, wrapUnit, Except.ok.injEq] at h
        subst h
        refine ⟨⟨hx.1.with _ _, hx.2⟩, fun ρ hρ p q hp hq => ?_⟩
        cases hp; cases hq
        refine (HasMag.unit _).of_eq ?_
        simp only [UnitV.mag]; ring
    | unit w =>
      have hv : w.value ≠ 0 := by
        intro h0
        simp [Val.div, unitDiv, pyDiv, h0] at h
      obtain ⟨r', e, hm⟩ := C05_unit_div_unit u w hx.1 hv
      rw [h] at e; cases e
      refine ⟨?_, fun ρ hρ p q hp hq => ?_⟩
      · simp only [Val.div, unitDiv, pyDiv_ne hv] at h
        split at h
        · split at h
          · cases h; trivial
          · simp only [hx.1.rebuild, wrapUnit, Except.ok.injEq] at h
            subst h
            exact ⟨hx.1.with _ _, hx.2⟩
        · simp only [Except.ok.injEq] at h
          subst h
          exact ⟨wellPrefixed_single hx.2, wellPrefixed_single hy.2⟩
      · cases hp; cases hq; exact hm ρ hρ.pos
    | multi m =>
      obtain ⟨t, bo, e, -, h1, h2, -⟩ := reduce_full true false
        (wellPrefixed_append hs.1.2.well (wellPrefixed_single (e := u.exp) hs.2.well)) hs.1.1.well
      have hv : m.value ≠ 0 := by
        intro h0
        simp [Val.div, unitDiv, unitDivMulti, e, pyDiv, h0] at h
      obtain ⟨r', e', hm⟩ := C04_unit_div_plain_partial m u hs.1 hs.2 hv
      rw [h] at e'; cases e'
      refine ⟨?_, fun ρ hρ p q hp hq => ?_⟩
      · simp only [Val.div, unitDiv, unitDivMulti, e, pyDiv_ne hv, Except.ok.injEq] at h
        subst h; exact packDiv_sound h1 h2
      · cases hp; cases hq; exact hm ρ hρ
  | multi m => cases y with
    | none | other | bare => exact hy.elim
    | num b =>
      simp only [Val.div, multiDiv] at h
      split at h
      · cases h
      · rename_i v hv
        obtain ⟨-, rfl⟩ := pyDiv_inv hv
        cases h
        refine ⟨hx, fun ρ hρ p q hp hq => ?_⟩
        cases hp; cases hq
        refine (HasMag.multi _).of_eq ?_
        simp only [MultiV.mag, mag]; ring
    | unit u =>
      obtain ⟨t, bo, e, -, h1, h2, -⟩ := reduce_full false true hx.1
        (wellPrefixed_append hx.2 (wellPrefixed_single (e := u.exp) hy.2))
      have hv : u.value ≠ 0 := by
        intro h0
        simp [Val.div, multiDiv, multiDivUnit, e, pyDiv, h0] at h
      obtain ⟨r', e', hm⟩ := C04_div_by_unit m u hx hy.2 hv
      rw [h] at e'; cases e'
      refine ⟨?_, fun ρ hρ p q hp hq => ?_⟩
      · simp only [Val.div, multiDiv, multiDivUnit, e, pyDiv_ne hv, Except.ok.injEq] at h
        subst h; exact packDiv_sound h1 h2
      · cases hp; cases hq; exact hm ρ hρ
    | multi o =>
      have hv : o.value ≠ 0 := by
        intro h0
        rw [C02_div_zero m o hx hy h0] at h; cases h
      obtain ⟨r', e', hm⟩ := C02_div_magnitude m o hx hy hv
      rw [h] at e'; cases e'
      refine ⟨?_, fun ρ hρ p q hp hq => ?_⟩
      · obtain ⟨t, bo, e, -, h1, h2, -⟩ := reduce_full true true
          (wellPrefixed_append hx.1 hy.2) (wellPrefixed_append hx.2 hy.1)
        simp only [Val.div, multiDiv, multiDivMulti, e, pyDiv_ne hv] at h
        split at h
        · cases h; trivial
        · cases h; exact packDiv_sound h1 h2
      · cases hp; cases hq; exact hm ρ hρ

theorem add_keeps {x y r : Val ℝ} (hx : SoundVal x) (hy : SoundVal y) (hs : AddSafe x y)
    (h : Val.add x y = .ok r) : Keeps (· + ·) x y r := by
  cases x with
  | none | other | bare => exact hx.elim
  | num a => cases y with
    | none | other | bare => exact hy.elim
    | num b =>
      cases h
      refine ⟨trivial, fun ρ hρ p q hp hq => ?_⟩
      cases hp; cases hq; exact .num _
    | unit u => cases h
    | multi m => cases h
  | unit u => cases y with
    | none | other | bare => exact hy.elim
    | num b => exact hs.elim
    | unit w =>
      refine ⟨?_, fun ρ hρ p q hp hq => ?_⟩
      · rcases C08_add_sub_unit u hx.1 (.unit w) (by simp) with ⟨w', e, -, h3, -⟩ | ⟨-, h3, -⟩
        · cases e
          rw [h] at h3; cases h3
          exact ⟨hx.1.with _ _, hx.2⟩
        · rw [h] at h3; cases h3
      · cases hp; cases hq; exact (C08_unit_magnitude u w hx.1 r ρ).1 h
    | multi m => cases h
  | multi m => cases y with
    | none | other | bare => exact hy.elim
    | num b => cases h
    | unit u => cases h
    | multi o =>
      refine ⟨?_, fun ρ hρ p q hp hq => ?_⟩
      · rcases C08_add_multi m (.multi o) with ⟨o', e, -, -, h3⟩ | ⟨-, h3⟩
        · rw [h] at h3; cases h3; exact hx
        · rw [h] at h3; cases h3
      · cases hp; cases hq; exact (C08_multi_magnitude m o r ρ).1 h

theorem sub_keeps {x y r : Val ℝ} (hx : SoundVal x) (hy : SoundVal y) (hs : AddSafe x y)
    (h : Val.sub x y = .ok r) : Keeps (· - ·) x y r := by
  cases x with
  | none | other | bare => exact hx.elim
  | num a => cases y with
    | none | other | bare => exact hy.elim
    | num b =>
      cases h
      refine ⟨trivial, fun ρ hρ p q hp hq => ?_⟩
      cases hp; cases hq; exact .num _
    | unit u => cases h
    | multi m => cases h
  | unit u => cases y with
    | none | other | bare => exact hy.elim
    | num b => exact hs.elim
    | unit w =>
      refine ⟨?_, fun ρ hρ p q hp hq => ?_⟩
      · rcases C08_add_sub_unit u hx.1 (.unit w) (by simp) with ⟨w', e, -, -, h3⟩ | ⟨-, -, h3⟩
        · cases e
          rw [h] at h3; cases h3
          exact ⟨hx.1.with _ _, hx.2⟩
        · rw [h] at h3; cases h3
      · cases hp; cases hq; exact (C08_unit_magnitude u w hx.1 r ρ).2 h
    | multi m => cases h
  | multi m => cases y with
    | none | other | bare => exact hy.elim
    | num b => cases h
    | unit u => cases h
    | multi o =>
      refine ⟨?_, fun ρ hρ p q hp hq => ?_⟩
      · rcases C08_sub_multi m (.multi o) (by simp) with ⟨o', e, -, h3⟩ | ⟨-, h3⟩
        · rw [h] at h3; cases h3; exact hx
        · rw [h] at h3; cases h3
      · cases hp; cases hq; exact (C08_multi_magnitude m o r ρ).2 h

theorem neg_keeps {x r : Val ℝ} (hx : SoundVal x) (h : Val.neg x = .ok r) :
    SoundVal r ∧ ∀ ρ a, HasMag ρ x a → HasMag ρ r (-a) := by
  cases x with
  | none | other | bare => exact hx.elim
  | num a => cases h; exact ⟨trivial, fun ρ p hp => by cases hp; exact .num _⟩
  | unit u =>
    simp only [Val.neg, unitNeg, hx.1.rebuild, wrapUnit, Except.ok.injEq] at h
    subst h
    refine ⟨⟨hx.1.with _ _, hx.2⟩, fun ρ p hp => ?_⟩
    cases hp
    exact (HasMag.unit _).of_eq (by simp only [UnitV.mag]; ring)
  | multi m =>
    simp only [Val.neg, multiNeg, Except.ok.injEq] at h
    subst h
    refine ⟨hx, fun ρ p hp => ?_⟩
    cases hp
    exact (HasMag.multi _).of_eq (by simp only [MultiV.mag, mag]; ring)

theorem pyPow_inv {x v : ℝ} {q : ℚ} (h : (PyPow.pow x q : PyM ℝ) = .ok v) :
    v = x ^ (q : ℝ) ∧ (0 ≤ x ∨ ∃ n : ℤ, q = n) := by
  rw [pow_cases] at h
  split at h
  · cases h
  · split at h
    · cases h
    · rename_i h2
      cases h
      refine ⟨rfl, ?_⟩
      by_cases hx : 0 ≤ x
      · exact .inl hx
      · refine .inr ⟨q.num, ?_⟩
        have : q.den = 1 := by
          by_contra hd
          exact h2 ⟨not_le.1 hx, hd⟩
        exact (Rat.coe_int_num_of_den_eq_one this).symm

theorem mul_rpow_mixed {x s : ℝ} {q : ℚ} (hs : 0 < s) (h : 0 ≤ x ∨ ∃ n : ℤ, q = n) :
    (x * s) ^ (q : ℝ) = x ^ (q : ℝ) * s ^ (q : ℝ) := by
  rcases h with h | ⟨n, rfl⟩
  · exact Real.mul_rpow h hs.le
  · push_cast
    simp only [Real.rpow_intCast, mul_zpow]

theorem wellPrefixed_closed : TableClosed WellPrefixed := fun s h => (unprefixed_closed s h).well

theorem pow_keeps {x r : Val ℝ} {q : ℚ} (hx : SoundVal x) (h : Val.pow x q = .ok r) :
    SoundVal r ∧ ∀ ρ, Coherent ρ → ∀ a, HasMag ρ x a → HasMag ρ r (a ^ (q : ℝ)) := by
  cases x with
  | none | other | bare => exact hx.elim
  | num a =>
    simp only [Val.pow] at h
    split at h
    · cases h
    · rename_i v hv
      obtain ⟨rfl, -⟩ := pyPow_inv hv
      cases h
      exact ⟨trivial, fun ρ hρ p hp => by cases hp; exact .num _⟩
  | unit u =>
    simp only [Val.pow, unitPow] at h
    split at h
    · cases h
    · rename_i v hv
      obtain ⟨rfl, hc⟩ := pyPow_inv hv
      simp only [hx.1.rebuild, wrapUnit, Except.ok.injEq] at h
      subst h
      refine ⟨⟨hx.1.with _ _, hx.2⟩, fun ρ hρ p hp => ?_⟩
      cases hp
      refine (HasMag.unit _).of_eq ?_
      simp only [UnitV.mag]
      rw [mul_rpow_mixed (Real.rpow_pos_of_pos (hρ.pos _) _) hc, ← Real.rpow_mul (hρ.pos _).le]
      push_cast; rfl
  | multi m =>
    obtain ⟨t, b, er, -, hn⟩ := reducePow_spec (m.top.map (·.pow q)) (m.bot.map (·.pow q))
    simp only [Val.pow, multiPow, er] at h
    split at h
    · cases h
    · rename_i v hv
      obtain ⟨rfl, hc⟩ := pyPow_inv hv
      simp only [Except.ok.injEq] at h
      subst h
      refine ⟨?_, fun ρ hρ p hp => ?_⟩
      · obtain ⟨t1, b1, e1⟩ := deconstructUnits_ok (m.top.map (·.pow q)) (m.bot.map (·.pow q))
        simp only [reducePow, e1] at er
        exact allSym_reduceAfter (P := WellPrefixed) wellPrefixed_closed true true
          (allSym_map_pow.2 hx.1) (allSym_map_pow.2 hx.2) e1 (by simpa using er)
      · cases hp
        refine (HasMag.multi _).of_eq ?_
        simp only [MultiV.mag]
        rw [mag_eq hρ.pos, mag_eq hρ.pos, hn (lw ρ) hρ.laws, mul_rpow_mixed (Real.exp_pos _) hc, ← Real.exp_mul]
        congr 2
        simp only [net, wsum_map_pow, Rat.smul_def]; ring

/-! ## C64 -/

theorem lift2_inv {f : Val ℝ → Val ℝ → PyM (Val ℝ)} {a b : PyM (Val ℝ)} {r : Val ℝ} (h : lift2 f a b = .ok r) :
    ∃ x y, a = .ok x ∧ b = .ok y ∧ f x y = .ok r := by
  unfold lift2 at h
  split at h
  · cases h
  · split at h
    · cases h
    · exact ⟨_, _, rfl, rfl, h⟩

theorem lift1_inv {f : Val ℝ → PyM (Val ℝ)} {a : PyM (Val ℝ)} {r : Val ℝ} (h : lift1 f a = .ok r) :
    ∃ x, a = .ok x ∧ f x = .ok r := by
  unfold lift1 at h
  split at h
  · cases h
  · exact ⟨_, rfl, h⟩

/-- The functions of the `math` module return only on plain numbers. -/
theorem MathFn.run_inv {f : MathFn} {a : PyM (Val ℝ)} {r : Val ℝ} (h : f.run a = .ok r) :
    ∃ x, a = .ok (.num x) ∧ r = .num (f.meaning x) := by
  cases f with
  | log =>
    obtain ⟨x, rfl, h'⟩ := lift1_inv h
    cases x with
    | num x =>
      clear h
      dsimp only at h'
      split at h'
      · cases h'; exact ⟨_, rfl, rfl⟩
      · cases h'
    | _ => cases h'
  | _ =>
    obtain ⟨x, rfl, h⟩ := lift1_inv h
    cases x with
    | num x => cases h; exact ⟨_, rfl, rfl⟩
    | _ => cases h

/-- Whatever a safe expression returns is a quantity with the magnitude of the expression.  Missing for the full claim:
unsafe operations, where it is false (`C64_expression_false`). -/
theorem C64_expression_partial (e : Arith) (env : ℕ → Val ℝ) (hs : e.Safe env) (henv : ∀ i, SoundVal (env i))
    (ρ : Sym → ℝ) (hρ : Coherent ρ) (μ : ℕ → ℝ) (hμ : ∀ i, HasMag ρ (env i) (μ i)) :
    ∀ r, e.run env = .ok r → SoundVal r ∧ HasMag ρ r (e.meaning μ) := by
  induction e with
  | var i => intro r h; cases h; exact ⟨henv i, hμ i⟩
  | lit x => intro r h; cases h; exact ⟨trivial, .num x⟩
  | mul a b iha ihb =>
    intro r h
    obtain ⟨x, y, h1, h2, h3⟩ := lift2_inv h
    obtain ⟨sx, mx⟩ := iha hs.1 x h1
    obtain ⟨sy, my⟩ := ihb hs.2.1 y h2
    obtain ⟨k1, k2⟩ := mul_keeps sx sy (hs.2.2 x y h1 h2) h3
    exact ⟨k1, k2 ρ hρ _ _ mx my⟩
  | div a b iha ihb =>
    intro r h
    obtain ⟨x, y, h1, h2, h3⟩ := lift2_inv h
    obtain ⟨sx, mx⟩ := iha hs.1 x h1
    obtain ⟨sy, my⟩ := ihb hs.2.1 y h2
    obtain ⟨k1, k2⟩ := div_keeps sx sy (hs.2.2 x y h1 h2) h3
    exact ⟨k1, k2 ρ hρ _ _ mx my⟩
  | add a b iha ihb =>
    intro r h
    obtain ⟨x, y, h1, h2, h3⟩ := lift2_inv h
    obtain ⟨sx, mx⟩ := iha hs.1 x h1
    obtain ⟨sy, my⟩ := ihb hs.2.1 y h2
    obtain ⟨k1, k2⟩ := add_keeps sx sy (hs.2.2 x y h1 h2) h3
    exact ⟨k1, k2 ρ hρ _ _ mx my⟩
  | sub a b iha ihb =>
    intro r h
    obtain ⟨x, y, h1, h2, h3⟩ := lift2_inv h
    obtain ⟨sx, mx⟩ := iha hs.1 x h1
    obtain ⟨sy, my⟩ := ihb hs.2.1 y h2
    obtain ⟨k1, k2⟩ := sub_keeps sx sy (hs.2.2 x y h1 h2) h3
    exact ⟨k1, k2 ρ hρ _ _ mx my⟩
  | neg a iha =>
    intro r h
    obtain ⟨x, h1, h3⟩ := lift1_inv h
    obtain ⟨sx, mx⟩ := iha hs x h1
    obtain ⟨k1, k2⟩ := neg_keeps sx h3
    exact ⟨k1, k2 ρ _ mx⟩
  | pow a q iha =>
    intro r h
    obtain ⟨x, h1, h3⟩ := lift1_inv h
    obtain ⟨sx, mx⟩ := iha hs x h1
    obtain ⟨k1, k2⟩ := pow_keeps sx h3
    exact ⟨k1, k2 ρ hρ _ mx⟩
  | fn f a iha =>
    intro r h
    obtain ⟨x, h1, rfl⟩ := MathFn.run_inv h
    obtain ⟨-, mx⟩ := iha hs _ h1
    cases mx
    exact ⟨trivial, .num _⟩

/-- Expressions without division by a quantity. -/
def Arith.NoQuotient : Arith → Prop
  | .var _ => True
  | .lit _ => True
  | .mul a b => a.NoQuotient ∧ b.NoQuotient
  | .div a b => a.NoQuotient ∧ ∃ x, b = .lit x
  | .add a b => a.NoQuotient ∧ b.NoQuotient
  | .sub a b => a.NoQuotient ∧ b.NoQuotient
  | .neg a => a.NoQuotient
  | .pow a _ => a.NoQuotient
  | .fn _ a => a.NoQuotient

/-- A number or a compound quantity. -/
def NotSimple : Val ℝ → Prop
  | .num _ => True
  | .multi _ => True
  | _ => False

theorem notSimple_mul {x y r : Val ℝ} (hx : NotSimple x) (hy : NotSimple y) (h : Val.mul x y = .ok r) : NotSimple r := by
  cases x <;> cases y <;> simp only [NotSimple] at hx hy
  · cases h; trivial
  · cases h; trivial
  · cases h; trivial
  · simp only [Val.mul, multiMul, multiMulMulti] at h
    split at h
    · cases h
    · cases h; trivial

theorem notSimple_add {x y r : Val ℝ} (hx : NotSimple x) (hy : NotSimple y) (h : Val.add x y = .ok r) : NotSimple r := by
  cases x <;> cases y <;> simp only [NotSimple] at hx hy
  · cases h; trivial
  · cases h
  · cases h
  · simp only [Val.add, multiAdd] at h
    split_ifs at h
    cases h; trivial

theorem notSimple_sub {x y r : Val ℝ} (hx : NotSimple x) (hy : NotSimple y) (h : Val.sub x y = .ok r) : NotSimple r := by
  cases x <;> cases y <;> simp only [NotSimple] at hx hy
  · cases h; trivial
  · cases h
  · cases h
  · simp only [Val.sub, multiSub] at h
    split_ifs at h
    cases h; trivial

theorem notSimple_div {x r : Val ℝ} {c : ℝ} (hx : NotSimple x) (h : Val.div x (.num c) = .ok r) : NotSimple r := by
  cases x <;> simp only [NotSimple] at hx
  · simp only [Val.div] at h
    split at h
    · cases h
    · cases h; trivial
  · simp only [Val.div, multiDiv] at h
    split at h
    · cases h
    · cases h; trivial

theorem notSimple_neg {x r : Val ℝ} (hx : NotSimple x) (h : Val.neg x = .ok r) : NotSimple r := by
  cases x <;> simp only [NotSimple] at hx <;> (cases h; trivial)

theorem notSimple_pow {x r : Val ℝ} {q : ℚ} (hx : NotSimple x) (h : Val.pow x q = .ok r) : NotSimple r := by
  cases x <;> simp only [NotSimple] at hx
  · simp only [Val.pow] at h
    split at h
    · cases h
    · cases h; trivial
  · simp only [Val.pow, multiPow] at h
    split at h
    · cases h
    · split at h
      · cases h
      · cases h; trivial

theorem noQuotient_notSimple (e : Arith) (env : ℕ → Val ℝ) (henv : ∀ i, NotSimple (env i)) (he : e.NoQuotient) :
    ∀ r, e.run env = .ok r → NotSimple r := by
  induction e with
  | var i => intro r h; cases h; exact henv i
  | lit x => intro r h; cases h; trivial
  | mul a b iha ihb =>
    intro r h
    obtain ⟨x, y, h1, h2, h3⟩ := lift2_inv h
    exact notSimple_mul (iha he.1 x h1) (ihb he.2 y h2) h3
  | div a b iha ihb =>
    intro r h
    obtain ⟨x, y, h1, h2, h3⟩ := lift2_inv h
    obtain ⟨c, rfl⟩ := he.2
    cases h2
    exact notSimple_div (iha he.1 x h1) h3
  | add a b iha ihb =>
    intro r h
    obtain ⟨x, y, h1, h2, h3⟩ := lift2_inv h
    exact notSimple_add (iha he.1 x h1) (ihb he.2 y h2) h3
  | sub a b iha ihb =>
    intro r h
    obtain ⟨x, y, h1, h2, h3⟩ := lift2_inv h
    exact notSimple_sub (iha he.1 x h1) (ihb he.2 y h2) h3
  | neg a iha =>
    intro r h
    obtain ⟨x, h1, h3⟩ := lift1_inv h
    exact notSimple_neg (iha he x h1) h3
  | pow a q iha =>
    intro r h
    obtain ⟨x, h1, h3⟩ := lift1_inv h
    exact notSimple_pow (iha he x h1) h3
  | fn f a iha =>
    intro r h
    obtain ⟨x, h1, rfl⟩ := MathFn.run_inv h
    trivial

theorem NotSimple.mulSafe {x y : Val ℝ} (hx : NotSimple x) (hy : NotSimple y) : MulSafe x y := by
  cases x <;> cases y <;> simp_all [NotSimple, MulSafe]

theorem NotSimple.divSafe {x y : Val ℝ} (hx : NotSimple x) : DivSafe x y := by
  cases x <;> cases y <;> simp_all [NotSimple, DivSafe]

theorem NotSimple.addSafe {x y : Val ℝ} (hx : NotSimple x) : AddSafe x y := by
  cases x <;> cases y <;> simp_all [NotSimple, AddSafe]

theorem noQuotient_safe (e : Arith) (env : ℕ → Val ℝ) (henv : ∀ i, NotSimple (env i)) (he : e.NoQuotient) :
    e.Safe env := by
  have key := fun (e : Arith) (he : e.NoQuotient) => noQuotient_notSimple e env henv he
  induction e with
  | var | lit => trivial
  | mul a b iha ihb =>
    exact ⟨iha he.1, ihb he.2, fun x y h1 h2 => (key a he.1 x h1).mulSafe (key b he.2 y h2)⟩
  | div a b iha ihb =>
    obtain ⟨c, rfl⟩ := he.2
    exact ⟨iha he.1, trivial, fun x y h1 h2 => (key a he.1 x h1).divSafe⟩
  | add a b iha ihb => exact ⟨iha he.1, ihb he.2, fun x y h1 h2 => (key a he.1 x h1).addSafe⟩
  | sub a b iha ihb => exact ⟨iha he.1, ihb he.2, fun x y h1 h2 => (key a he.1 x h1).addSafe⟩
  | neg a iha => exact iha he
  | pow a q iha => exact iha he
  | fn f a iha => exact iha he

/-- C64 for compound quantities in any units: an expression without quotients, or the quotient of two such expressions. -/
theorem C64_compound (e : Arith) (env : ℕ → MultiV ℝ)
    (he : e.NoQuotient ∨ ∃ a b : Arith, e = .div a b ∧ a.NoQuotient ∧ b.NoQuotient)
    (henv : ∀ i, (env i).Genuine) (r : Val ℝ) (h : e.run (fun i => .multi (env i)) = .ok r) (ρ : Sym → ℝ)
    (hρ : Coherent ρ) : HasMag ρ r (e.meaning fun i => (env i).mag ρ) := by
  refine (C64_expression_partial e (fun i => .multi (env i)) ?_ henv ρ hρ (fun i => (env i).mag ρ)
    (fun i => .multi _) r h).2
  have hn : ∀ i, NotSimple (.multi (env i)) := fun _ => trivial
  rcases he with he | ⟨a, b, rfl, ha, hb⟩
  · exact noQuotient_safe e _ hn he
  · exact ⟨noQuotient_safe a _ hn ha, noQuotient_safe b _ hn hb,
      fun x y h1 h2 => (noQuotient_notSimple a _ hn ha x h1).divSafe⟩

/-- The full claim is false, also for plain compound quantities: `(4 ft^3/s) / (2 ft/s) * 3` is `6 ft`, not `6 ft^2`. -/
theorem C64_expression_false : ¬ ∀ (e : Arith) (env : ℕ → MultiV ℝ), (∀ i, (env i).Plain) → ∀ (r : Val ℝ),
    e.run (fun i => .multi (env i)) = .ok r → ∀ ρ, Coherent ρ → HasMag ρ r (e.meaning fun i => (env i).mag ρ) := by
  intro h
  let q0 : MultiV ℝ := ⟨.multi, 4, [⟨c!"ft", 3⟩], [⟨c!"s", 1⟩]⟩
  let q1 : MultiV ℝ := ⟨.multi, 2, [⟨c!"ft", 1⟩], [⟨c!"s", 1⟩]⟩
  let env : ℕ → MultiV ℝ := fun i => if i = 0 then q0 else q1
  have hp : ∀ i, (env i).Plain := by
    intro i
    by_cases hi : i = 0
    · have : env i = q0 := if_pos hi
      rw [this]; exact ⟨by decide, by decide⟩
    · have : env i = q1 := if_neg hi
      rw [this]; exact ⟨by decide, by decide⟩
  have hr : (Arith.mul (.div (.var 0) (.var 1)) (.lit 3)).run (fun i => .multi (env i)) =
      .ok (.unit ⟨.unit, 4 / 2 * 3, c!"ft", 1⟩) := by
    have e0 : env 0 = q0 := rfl
    have e1 : env 1 = q1 := rfl
    simp only [Arith.run, e0, e1, q0, q1]
    units_eval [OfNat.ofNat_ne_zero]
  have h1 := (h _ env hp _ hr _ siSize_coherent).unique (.unit _)
  have hs : siSize c!"ft" = 3048 / 10000 := by decide +kernel
  have hs' : siSize c!"s" = 1 := by decide +kernel
  have e0 : env 0 = q0 := rfl
  have e1 : env 1 = q1 := rfl
  simp only [Arith.meaning, e0, e1, q0, q1, UnitV.mag, MultiV.mag, mag, lsize_single, hs, hs'] at h1
  norm_num at h1

/-- Non-vacuity: `0.5 * rho * v**2 / 2` with a density and a velocity in prefixed units is covered by `C64_compound`. -/
example : (Arith.div (.mul (.lit (1 / 2)) (.mul (.var 0) (.pow (.var 1) 2))) (.lit 2)).NoQuotient ∧
    (⟨.multi, 3, [⟨c!"g", 1⟩], [⟨c!"cm", 3⟩]⟩ : MultiV ℝ).Genuine ∧
    (⟨.multi, 5, [⟨c!"km", 1⟩], [⟨c!"hr", 1⟩]⟩ : MultiV ℝ).Genuine :=
  ⟨⟨⟨trivial, trivial, trivial⟩, _, rfl⟩, ⟨by decide, by decide⟩, ⟨by decide, by decide⟩⟩

end Verif
