import Verif.Props.FloatLaws
import Verif.Props.FloatLibrary
import Verif.Props.RangeInputs

/-!
# C124: the same numbers as without units

With units that carry no SI prefix, a calculation with quantities computes exactly the numbers of the same calculation with
plain numbers: every operation is done on the same numbers in double precision, so the results agree bit for bit.  The library
adds a multiplication by the factor of the prefixes, which is 1 and changes nothing.
-/

namespace Verif

/-- A symbol without prefix, as it occurs in a unit. -/
def BareSym (s : Sym) : Prop := Unprefixed s ∧ '^' ∉ s

/-- `v` is the number `x`, alone or with units without prefixes. -/
def Val.Shows {K : Type} (x : K) : Val K → Prop
  | .num y => y = x
  | .unit u => u.value = x ∧ BareSym u.unit
  | .multi m => m.value = x ∧ AllSym BareSym m.top ∧ AllSym BareSym m.bot
  | _ => False

/-- The formula without units. -/
def Code.numbers : Code → Code
  | .const _ q _ => .lit q
  | .mul a b => .mul a.numbers b.numbers
  | .div a b => .div a.numbers b.numbers
  | .add a b => .add a.numbers b.numbers
  | .sub a b => .sub a.numbers b.numbers
  | .neg a => .neg a.numbers
  | .pow a q => .pow a.numbers q
  | .fn f a => .fn f a.numbers
  | c => c

/-- No conversions, and no prefixes in the constants. -/
def Code.Unconverted : Code → Prop
  | .const _ _ u => ∀ t b, parseUnits u = .ok (t, b) → AllSym BareSym t ∧ AllSym BareSym b
  | .mul a b => a.Unconverted ∧ b.Unconverted
  | .div a b => a.Unconverted ∧ b.Unconverted
  | .add a b => a.Unconverted ∧ b.Unconverted
  | .sub a b => a.Unconverted ∧ b.Unconverted
  | .neg a => a.Unconverted
  | .pow a _ => a.Unconverted
  | .fn _ a => a.Unconverted
  | .conv _ _ => False
  | _ => True

/-- What is used of the arithmetic: factors may be exchanged, and multiplying a result by 1 does not change it. -/
structure NumberLaws (K : Type) [Zero K] [One K] [Mul K] [Div K] [DecidableEq K] : Prop where
  mul_comm : ∀ x y : K, x * y = y * x
  mul_one : ∀ x y : K, x * y * 1 = x * y
  div_one : ∀ x y : K, x / y * 1 = x / y

section
set_option linter.unusedSectionVars false
variable {K : Type} [Zero K] [One K] [Add K] [Sub K] [Mul K] [Div K] [Neg K] [NatCast K] [RatCast K] [LinearOrder K] [PyPow K]

theorem plainSym_closed : TableClosed BareSym := by
  intro s hs
  refine ⟨unprefixed_closed s hs, ?_⟩
  revert s
  decide +kernel

theorem AllSym.unprefixed {l : UList} (h : AllSym BareSym l) : UnprefixedList l := fun u hu => (h u hu).1

theorem reduceUnits_plain {x y : Bool} {top bot t b : UList} {f : K} (ht : AllSym BareSym top) (hb : AllSym BareSym bot)
    (h : reduceUnits x y top bot = .ok (t, b, f)) : f = 1 ∧ AllSym BareSym t ∧ AllSym BareSym b := by
  have skip : ∀ (inv : Bool) (l : UList) (g : K), prefixFactorLoop inv g (l.map fun u => (([] : Sym), u)) = .ok g := by
    intro inv l g
    have := (prefixFactorLoop_skip inv [] l g).1
    rw [List.nil_append] at this
    rw [this]; rfl
  have hd : deconstructPrefixes (K := K) top bot = .ok (top, bot, 1) := by
    unfold deconstructPrefixes
    rw [strip_unprefixed_list ht.unprefixed, strip_unprefixed_list hb.unprefixed]
    simp only [skip, List.map_map]
    have : ((fun x : Sym × BaseUnit => x.2) ∘ fun u : BaseUnit => (([] : Sym), u)) = id := rfl
    rw [this, List.map_id, List.map_id]
  unfold reduceUnits at h
  rw [hd] at h
  dsimp only at h
  split at h
  · cases h
  next t1 b1 h1 =>
  split at h
  · cases h
  next t2 b2 h2 =>
  cases h
  exact ⟨rfl, allSym_reduceAfter plainSym_closed x y ht hb h1 h2⟩

theorem reducePow_plain {top bot t b : UList} (ht : AllSym BareSym top) (hb : AllSym BareSym bot)
    (h : reducePow top bot = .ok (t, b)) : AllSym BareSym t ∧ AllSym BareSym b := by
  unfold reducePow at h
  split at h
  · cases h
  next t1 b1 h1 =>
  exact allSym_reduceAfter plainSym_closed true true ht hb h1 (by simpa using h)

theorem mkUnit_shows {c : UCls} {x : K} {s : Sym} {e : ℚ} {v : Val K} (hs : BareSym s)
    (h : wrapUnit (mkUnit c x s e) = .ok v) : v.Shows x := by
  have key : ∀ u, mkUnit c x s e = .ok u → u.value = x ∧ u.unit = s := by
    intro u hu
    cases c <;> simp only [mkUnit, if_neg hs.2] at hu
    all_goals first
      | (cases hu; exact ⟨rfl, rfl⟩)
      | (split at hu
         · cases hu; exact ⟨rfl, rfl⟩
         · cases hu)
  unfold wrapUnit at h
  split at h
  · cases h
  next u hu =>
  cases h
  obtain ⟨h1, h2⟩ := key u hu
  exact ⟨h1, h2 ▸ hs⟩

theorem packDiv_shows {x : K} {t b : UList} (ht : AllSym BareSym t) (hb : AllSym BareSym b) : (packDiv x t b).Shows x := by
  unfold packDiv
  split
  · rfl
  · exact ⟨rfl, ht _ (by simp)⟩
  · exact ⟨rfl, hb _ (by simp)⟩
  · exact ⟨rfl, ht, hb⟩

theorem packMul_shows {x : K} {t b : UList} (ht : AllSym BareSym t) (hb : AllSym BareSym b) : (packMul x t b).Shows x := by
  unfold packMul
  split
  · rfl
  · exact ⟨rfl, ht _ (by simp)⟩
  · exact ⟨rfl, ht, hb⟩

variable (hK : NumberLaws K)

/-! ## The operators -/

theorem mulUnit_shows {m : MultiV K} {u : UnitV K} {v : Val K} (ht : AllSym BareSym m.top) (hb : AllSym BareSym m.bot)
    (hu : BareSym u.unit) (h : multiMulUnit m u = .ok v) : v.Shows (u.value * m.value) := by
  unfold multiMulUnit at h
  split at h
  · cases h
  next t b f e =>
  cases h
  obtain ⟨-, h1, h2⟩ := reduceUnits_plain (by simp [ht, hu]) hb e
  exact packMul_shows h1 h2

include hK in
theorem mul_shows {x y : K} {a b v : Val K} (ha : a.Shows x) (hb : b.Shows y) (h : a.mul b = .ok v) : v.Shows (x * y) := by
  cases a with
  | num a =>
    cases ha
    cases b with
    | num b => cases hb; cases h; rfl
    | unit u =>
      obtain ⟨rfl, h2⟩ := hb
      rw [hK.mul_comm]
      exact mkUnit_shows h2 h
    | multi m =>
      obtain ⟨rfl, h2, h3⟩ := hb
      cases h
      exact ⟨rfl, h2, h3⟩
    | none => exact hb.elim
    | other => exact hb.elim
    | bare => exact hb.elim
  | unit u =>
    obtain ⟨rfl, h2⟩ := ha
    cases b with
    | num b => cases hb; exact mkUnit_shows h2 h
    | unit o =>
      obtain ⟨rfl, h4⟩ := hb
      simp only [Val.mul, unitMul] at h
      split at h
      · exact mkUnit_shows h2 h
      · cases h
        exact ⟨rfl, by simp [h2, h4], by simp⟩
    | multi m =>
      obtain ⟨rfl, h3, h4⟩ := hb
      exact mulUnit_shows h3 h4 h2 h
    | none => exact hb.elim
    | other => exact hb.elim
    | bare => exact hb.elim
  | multi m =>
    obtain ⟨rfl, h2, h3⟩ := ha
    cases b with
    | num b => cases hb; cases h; exact ⟨rfl, h2, h3⟩
    | unit u =>
      obtain ⟨rfl, h4⟩ := hb
      rw [hK.mul_comm]
      exact mulUnit_shows h2 h3 h4 h
    | multi o =>
      obtain ⟨rfl, h4, h5⟩ := hb
      simp only [Val.mul, multiMul, multiMulMulti] at h
      split at h
      · cases h
      next t b f e =>
      cases h
      obtain ⟨rfl, h6, h7⟩ := reduceUnits_plain (by simp [h2, h4]) (by simp [h3, h5]) e
      exact ⟨hK.mul_one _ _, h6, h7⟩
    | none => exact hb.elim
    | other => exact hb.elim
    | bare => exact hb.elim
  | none => exact ha.elim
  | other => exact ha.elim
  | bare => exact ha.elim

theorem pyDiv_result {x y v : K} (h : pyDiv x y = .ok v) : v = x / y ∧ pyDiv x y = .ok (x / y) := by
  have h' := h
  unfold pyDiv at h
  split at h
  · cases h
  · cases h
    exact ⟨rfl, h'⟩

/-- The quotient of the plain numbers is returned, and the number shown is the same. -/
def QuotientShown (x y : K) (v : Val K) : Prop := pyDiv x y = .ok (x / y) ∧ v.Shows (x / y)

include hK in
theorem div_shows {x y : K} {a b v : Val K} (ha : a.Shows x) (hb : b.Shows y) (h : a.div b = .ok v) : QuotientShown x y v := by
  cases a with
  | num a =>
    cases ha
    cases b with
    | num b =>
      cases hb
      simp only [Val.div] at h
      split at h
      · cases h
      next q hq => cases h; exact ⟨(pyDiv_result hq).2, (pyDiv_result hq).1⟩
    | unit u => cases h
    | multi m =>
      obtain ⟨rfl, h2, h3⟩ := hb
      simp only [Val.div, multiRdiv] at h
      split at h
      · cases h
      next q hq => cases h; exact ⟨(pyDiv_result hq).2, (pyDiv_result hq).1, h3, h2⟩
    | none => exact hb.elim
    | other => exact hb.elim
    | bare => exact hb.elim
  | unit u =>
    obtain ⟨rfl, h2⟩ := ha
    cases b with
    | num b =>
      cases hb
      simp only [Val.div, unitDiv] at h
      split at h
      · cases h
      next q hq =>
      exact ⟨(pyDiv_result hq).2, (pyDiv_result hq).1 ▸ mkUnit_shows h2 h⟩
    | unit o =>
      obtain ⟨rfl, h4⟩ := hb
      simp only [Val.div, unitDiv] at h
      split at h
      · cases h
      next q hq =>
      refine ⟨(pyDiv_result hq).2, ?_⟩
      rw [← (pyDiv_result hq).1]
      split at h
      · split at h
        · cases h; rfl
        · exact mkUnit_shows h2 h
      · cases h
        exact ⟨rfl, by simp [h2], by simp [h4]⟩
    | multi m =>
      obtain ⟨rfl, h3, h4⟩ := hb
      simp only [Val.div, unitDiv, unitDivMulti] at h
      split at h
      · cases h
      next t b f e =>
      split at h
      · cases h
      next q hq =>
      cases h
      obtain ⟨-, h6, h7⟩ := reduceUnits_plain (by simp [h2, h4]) h3 e
      exact ⟨(pyDiv_result hq).2, (pyDiv_result hq).1 ▸ packDiv_shows h6 h7⟩
    | none => exact hb.elim
    | other => exact hb.elim
    | bare => exact hb.elim
  | multi m =>
    obtain ⟨rfl, h2, h3⟩ := ha
    cases b with
    | num b =>
      cases hb
      simp only [Val.div, multiDiv] at h
      split at h
      · cases h
      next q hq => cases h; exact ⟨(pyDiv_result hq).2, (pyDiv_result hq).1, h2, h3⟩
    | unit u =>
      obtain ⟨rfl, h4⟩ := hb
      simp only [Val.div, multiDiv, multiDivUnit] at h
      split at h
      · cases h
      next t b f e =>
      split at h
      · cases h
      next q hq =>
      cases h
      obtain ⟨rfl, h6, h7⟩ := reduceUnits_plain h2 (by simp [h3, h4]) e
      refine ⟨(pyDiv_result hq).2, ?_⟩
      rw [(pyDiv_result hq).1, hK.div_one]
      exact packDiv_shows h6 h7
    | multi o =>
      obtain ⟨rfl, h4, h5⟩ := hb
      simp only [Val.div, multiDiv, multiDivMulti] at h
      split at h
      · split at h
        · cases h
        next q hq => cases h; exact ⟨(pyDiv_result hq).2, (pyDiv_result hq).1⟩
      · split at h
        · cases h
        next t b f e =>
        split at h
        · cases h
        next q hq =>
        cases h
        obtain ⟨rfl, h6, h7⟩ := reduceUnits_plain (by simp [h2, h5]) (by simp [h3, h4]) e
        refine ⟨(pyDiv_result hq).2, ?_⟩
        rw [(pyDiv_result hq).1, hK.div_one]
        exact packDiv_shows h6 h7
    | none => exact hb.elim
    | other => exact hb.elim
    | bare => exact hb.elim
  | none => exact ha.elim
  | other => exact ha.elim
  | bare => exact ha.elim

theorem add_shows {x y : K} {a b v : Val K} (ha : a.Shows x) (hb : b.Shows y) (h : a.add b = .ok v) : v.Shows (x + y) := by
  cases a with
  | num a =>
    cases ha
    cases b with
    | num b => cases hb; cases h; rfl
    | _ => cases h
  | unit u =>
    obtain ⟨rfl, h2⟩ := ha
    cases b with
    | num b => cases hb; exact mkUnit_shows h2 h
    | unit o =>
      obtain ⟨rfl, h4⟩ := hb
      simp only [Val.add, unitAdd] at h
      split at h
      · split at h
        · exact mkUnit_shows h2 h
        · cases h
      · cases h
    | _ => cases h
  | multi m =>
    obtain ⟨rfl, h2, h3⟩ := ha
    cases b with
    | multi o =>
      obtain ⟨rfl, h4, h5⟩ := hb
      simp only [Val.add, multiAdd] at h
      split at h
      · split at h
        · cases h; exact ⟨rfl, h2, h3⟩
        · cases h
      · cases h
    | _ => cases h
  | none => exact ha.elim
  | other => exact ha.elim
  | bare => exact ha.elim

theorem sub_shows {x y : K} {a b v : Val K} (ha : a.Shows x) (hb : b.Shows y) (h : a.sub b = .ok v) : v.Shows (x - y) := by
  cases a with
  | num a =>
    cases ha
    cases b with
    | num b => cases hb; cases h; rfl
    | _ => cases h
  | unit u =>
    obtain ⟨rfl, h2⟩ := ha
    cases b with
    | num b => cases hb; exact mkUnit_shows h2 h
    | unit o =>
      obtain ⟨rfl, h4⟩ := hb
      simp only [Val.sub, unitSub] at h
      split at h
      · split at h
        · exact mkUnit_shows h2 h
        · cases h
      · cases h
    | _ => cases h
  | multi m =>
    obtain ⟨rfl, h2, h3⟩ := ha
    cases b with
    | multi o =>
      obtain ⟨rfl, h4, h5⟩ := hb
      simp only [Val.sub, multiSub] at h
      split at h
      · cases h; exact ⟨rfl, h2, h3⟩
      · cases h
    | _ => cases h
  | none => exact ha.elim
  | other => exact ha.elim
  | bare => exact ha.elim

theorem neg_shows {x : K} {a v : Val K} (ha : a.Shows x) (h : a.neg = .ok v) : v.Shows (-x) := by
  cases a with
  | num a => cases ha; cases h; rfl
  | unit u => obtain ⟨rfl, h2⟩ := ha; exact mkUnit_shows h2 h
  | multi m => obtain ⟨rfl, h2, h3⟩ := ha; cases h; exact ⟨rfl, h2, h3⟩
  | none => exact ha.elim
  | other => exact ha.elim
  | bare => exact ha.elim

theorem pow_shows {x : K} {e : ℚ} {a v : Val K} (ha : a.Shows x) (h : a.pow e = .ok v) :
    ∃ y, (PyPow.pow x e : PyM K) = .ok y ∧ v.Shows y := by
  cases a with
  | num a =>
    cases ha
    simp only [Val.pow] at h
    split at h
    · cases h
    next y hy => cases h; exact ⟨y, hy, rfl⟩
  | unit u =>
    obtain ⟨rfl, h2⟩ := ha
    simp only [Val.pow, unitPow] at h
    split at h
    · cases h
    next y hy => exact ⟨y, hy, mkUnit_shows h2 h⟩
  | multi m =>
    obtain ⟨rfl, h2, h3⟩ := ha
    simp only [Val.pow, multiPow] at h
    split at h
    · cases h
    next t b hr =>
    split at h
    · cases h
    next y hy =>
    cases h
    exact ⟨y, hy, rfl, reducePow_plain (allSym_map_pow.2 h2) (allSym_map_pow.2 h3) hr⟩
  | none => exact ha.elim
  | other => exact ha.elim
  | bare => exact ha.elim

/-! ## Formulas -/

variable [PyMath K]

include hK in
/-- If a formula over quantities without prefixes returns, the same formula over their plain numbers returns the number of the
result. -/
theorem C124_formula (env : ℕ → Val K) (x : ℕ → K) (henv : ∀ i, (env i).Shows (x i)) (c : Code) (hc : c.Unconverted)
    {v : Val K} (h : c.run env = .ok v) : ∃ y, c.numbers.run (fun i => .num (x i)) = .ok (.num y) ∧ v.Shows y := by
  have two : ∀ {f : Val K → Val K → PyM (Val K)} {a b : PyM (Val K)} {v : Val K}, lift2 f a b = .ok v →
      ∃ p q, a = .ok p ∧ b = .ok q ∧ f p q = .ok v := by
    intro f a b v h
    unfold lift2 at h
    split at h
    · cases h
    next p =>
    split at h
    · cases h
    next q => exact ⟨p, q, rfl, rfl, h⟩
  have one : ∀ {f : Val K → PyM (Val K)} {a : PyM (Val K)} {v : Val K}, lift1 f a = .ok v → ∃ p, a = .ok p ∧ f p = .ok v := by
    intro f a v h
    unfold lift1 at h
    split at h
    · cases h
    next p => exact ⟨p, rfl, h⟩
  induction c generalizing v with
  | var i =>
    cases h
    exact ⟨x i, rfl, henv i⟩
  | lit q => cases h; exact ⟨(q : K), rfl, rfl⟩
  | pi => cases h; exact ⟨PyMath.pi, rfl, rfl⟩
  | const cl q u =>
    refine ⟨(q : K), rfl, ?_⟩
    simp only [Code.run, constant, mkMulti] at h
    split at h
    · cases h
    next m hm =>
    cases h
    split at hm
    · cases hm; exact ⟨rfl, by simp, by simp⟩
    · split at hm
      · cases hm
      next t b ht =>
      cases hm
      exact ⟨rfl, hc t b ht⟩
  | mul a b iha ihb =>
    obtain ⟨p, q, e1, e2, e⟩ := two h
    obtain ⟨y, h1, h2⟩ := iha hc.1 e1
    obtain ⟨z, h3, h4⟩ := ihb hc.2 e2
    refine ⟨y * z, ?_, mul_shows hK h2 h4 e⟩
    simp only [Code.numbers, Code.run, h1, h3]
    rfl
  | div a b iha ihb =>
    obtain ⟨p, q, e1, e2, e⟩ := two h
    obtain ⟨y, h1, h2⟩ := iha hc.1 e1
    obtain ⟨z, h3, h4⟩ := ihb hc.2 e2
    obtain ⟨h5, h6⟩ := div_shows hK h2 h4 e
    refine ⟨y / z, ?_, h6⟩
    simp only [Code.numbers, Code.run, h1, h3]
    rw [ok_div]
    simp only [Val.div, h5]
  | add a b iha ihb =>
    obtain ⟨p, q, e1, e2, e⟩ := two h
    obtain ⟨y, h1, h2⟩ := iha hc.1 e1
    obtain ⟨z, h3, h4⟩ := ihb hc.2 e2
    refine ⟨y + z, ?_, add_shows h2 h4 e⟩
    simp only [Code.numbers, Code.run, h1, h3]
    rfl
  | sub a b iha ihb =>
    obtain ⟨p, q, e1, e2, e⟩ := two h
    obtain ⟨y, h1, h2⟩ := iha hc.1 e1
    obtain ⟨z, h3, h4⟩ := ihb hc.2 e2
    refine ⟨y - z, ?_, sub_shows h2 h4 e⟩
    simp only [Code.numbers, Code.run, h1, h3]
    rfl
  | neg a iha =>
    obtain ⟨p, e1, e⟩ := one h
    obtain ⟨y, h1, h2⟩ := iha hc e1
    refine ⟨-y, ?_, neg_shows h2 e⟩
    simp only [Code.numbers, Code.run, h1]
    rfl
  | pow a q iha =>
    obtain ⟨p, e1, e⟩ := one h
    obtain ⟨y, h1, h2⟩ := iha hc e1
    obtain ⟨z, h3, h4⟩ := pow_shows h2 e
    refine ⟨z, ?_, h4⟩
    simp only [Code.numbers, Code.run, h1]
    rw [ok_pow]
    simp only [Val.pow, h3]
  | fn f a iha =>
    obtain ⟨p, e1, e⟩ := one h
    obtain ⟨y, h1, h2⟩ := iha hc e1
    cases p with
    | num a =>
      cases h2
      simp only [Code.numbers, Code.run, h1]
      cases f
      all_goals simp only [Fn.call] at e
      case log =>
        split at e
        · cases e; rename_i hp; exact ⟨_, by simp only [lift1, Fn.call, if_pos hp], rfl⟩
        · cases e
      all_goals cases e; exact ⟨_, rfl, rfl⟩
    | _ => cases e
  | conv a t iha => exact hc.elim

end

/-! ## Exact and double precision numbers -/

theorem numberLaws_field {K : Type} [Field K] [DecidableEq K] : NumberLaws K :=
  ⟨mul_comm, fun _ _ => mul_one _, fun _ _ => mul_one _⟩

theorem roundEven_int (n : ℤ) : roundEven n = n := by
  unfold roundEven
  rw [if_pos (by norm_num), Int.floor_intCast]

/-- A whole number of digits is not rounded. -/
theorem roundDouble_digits {k d : ℤ} (h : lastDigit ((k : ℝ) * 2 ^ d) ≤ d) : roundDouble ((k : ℝ) * 2 ^ d) = k * 2 ^ d := by
  unfold roundDouble
  obtain ⟨l, hl⟩ : ∃ l, l = lastDigit ((k : ℝ) * 2 ^ d) := ⟨_, rfl⟩
  rw [← hl] at h ⊢
  obtain ⟨n, hn⟩ := Int.eq_ofNat_of_zero_le (sub_nonneg.2 h)
  have e : (k : ℝ) * 2 ^ d / 2 ^ l = ((k * 2 ^ n : ℤ) : ℝ) := by
    rw [mul_div_assoc, ← zpow_sub₀ (by norm_num), hn]
    push_cast
    simp
  rw [e, roundEven_int, ← e]
  field_simp

/-- Results in range are rounded to numbers in range, which are not rounded again. -/
theorem roundDouble_again {x : ℝ} (h : DoubleNormal x) : DoubleNormal (roundDouble x) ∧ roundDouble (roundDouble x) = roundDouble x := by
  rcases h with rfl | ⟨h1, h2⟩
  · have : roundDouble 0 = 0 := by simp [roundDouble, roundEven]
    rw [this]
    exact ⟨Or.inl rfl, this⟩
  have hx : 0 < |x| := lt_of_lt_of_le (by positivity) h1
  obtain ⟨e, he⟩ : ∃ e, e = Int.log 2 |x| := ⟨_, rfl⟩
  have hlog : -1022 ≤ e := by
    rw [he, ← Int.zpow_le_iff_le_log (by norm_num) hx]
    exact_mod_cast h1
  have hd : lastDigit x = e - 52 := by
    unfold lastDigit
    rw [← he]
    exact max_eq_left (by omega)
  have lo : (2 : ℝ) ^ e ≤ |x| := by
    have := Int.zpow_log_le_self (b := 2) (by norm_num) hx
    rw [he]; exact_mod_cast this
  have up : |x| < (2 : ℝ) ^ (e + 1) := by
    have := Int.lt_zpow_succ_log_self (b := 2) (by norm_num) |x|
    rw [he]; exact_mod_cast this
  obtain ⟨n, hn⟩ : ∃ n, n = roundEven (x / 2 ^ (e - 52)) := ⟨_, rfl⟩
  have hs : (0 : ℝ) < 2 ^ (e - 52) := by positivity
  have hc := roundEven_close (x / 2 ^ (e - 52))
  rw [← hn] at hc
  have hr : roundDouble x = n * 2 ^ (e - 52) := by
    unfold roundDouble
    rw [hd, ← hn]
  have p52 : (2 : ℝ) ^ e = 2 ^ 52 * 2 ^ (e - 52) := by
    rw [← zpow_natCast, ← zpow_add₀ (by norm_num)]; congr 1; push_cast; ring
  have p53 : (2 : ℝ) ^ (e + 1) = 2 ^ 53 * 2 ^ (e - 52) := by
    rw [← zpow_natCast, ← zpow_add₀ (by norm_num)]; congr 1; push_cast; ring
  have t1 : (2 : ℝ) ^ 52 ≤ |x / 2 ^ (e - 52)| := by
    rw [abs_div, abs_of_pos hs, le_div_iff₀ hs, ← p52]; exact lo
  have t2 : |x / 2 ^ (e - 52)| < (2 : ℝ) ^ 53 := by
    rw [abs_div, abs_of_pos hs, div_lt_iff₀ hs, ← p53]; exact up
  have n1 : (2 : ℤ) ^ 52 ≤ |n| := by
    have a1 : |x / 2 ^ (e - 52)| ≤ |(n : ℝ)| + 1 / 2 := by
      have := abs_sub_abs_le_abs_sub (x / 2 ^ (e - 52)) (n : ℝ)
      rw [abs_sub_comm] at this
      linarith
    have a2 : (2 : ℝ) ^ 52 - 1 < ((|n| : ℤ) : ℝ) := by push_cast; linarith
    have a3 : (2 : ℤ) ^ 52 - 1 < |n| := by exact_mod_cast a2
    omega
  have n2 : |n| ≤ (2 : ℤ) ^ 53 := by
    have a1 : |(n : ℝ)| ≤ |x / 2 ^ (e - 52)| + 1 / 2 := by
      have := abs_sub_abs_le_abs_sub (n : ℝ) (x / 2 ^ (e - 52))
      linarith
    have a2 : ((|n| : ℤ) : ℝ) < (2 : ℝ) ^ 53 + 1 := by push_cast; linarith
    have a3 : |n| < (2 : ℤ) ^ 53 + 1 := by exact_mod_cast a2
    omega
  have n1' : (2 : ℝ) ^ 52 ≤ |(n : ℝ)| := by exact_mod_cast n1
  have n2' : |(n : ℝ)| ≤ (2 : ℝ) ^ 53 := by exact_mod_cast n2
  have ay : |roundDouble x| = |(n : ℝ)| * 2 ^ (e - 52) := by rw [hr, abs_mul, abs_of_pos hs]
  have hfix : roundDouble (roundDouble x) = roundDouble x := by
    rw [hr]
    rcases lt_or_eq_of_le n2 with hlt | heq
    · refine roundDouble_digits ?_
      have hlt' : |(n : ℝ)| < (2 : ℝ) ^ 53 := by exact_mod_cast hlt
      have hpos : 0 < |(n : ℝ) * 2 ^ (e - 52)| := by rw [abs_mul, abs_of_pos hs]; positivity
      have : Int.log 2 |(n : ℝ) * 2 ^ (e - 52)| < e + 1 := by
        rw [← Int.lt_zpow_iff_log_lt (by norm_num) hpos, abs_mul, abs_of_pos hs]
        push_cast
        rw [p53]
        exact mul_lt_mul_of_pos_right hlt' hs
      unfold lastDigit
      exact max_le (by omega) (by omega)
    · obtain ⟨k, hk, hk'⟩ : ∃ k : ℤ, n = 2 * k ∧ |k| = 2 ^ 52 := by
        rcases abs_choice n with h | h <;> rw [h] at heq
        · exact ⟨2 ^ 52, by omega, by norm_num⟩
        · exact ⟨-2 ^ 52, by omega, by norm_num⟩
      have ek : (n : ℝ) * 2 ^ (e - 52) = k * 2 ^ (e - 51) := by
        rw [hk, show e - 51 = (e - 52) + 1 by ring, zpow_add_one₀ (by norm_num)]
        push_cast; ring
      rw [ek]
      refine roundDouble_digits ?_
      have hs' : (0 : ℝ) < 2 ^ (e - 51) := by positivity
      have hk2 : |(k : ℝ)| = (2 : ℝ) ^ 52 := by exact_mod_cast hk'
      have hpos : 0 < |(k : ℝ) * 2 ^ (e - 51)| := by rw [abs_mul, abs_of_pos hs', hk2]; positivity
      have : Int.log 2 |(k : ℝ) * 2 ^ (e - 51)| < e + 2 := by
        rw [← Int.lt_zpow_iff_log_lt (by norm_num) hpos, abs_mul, abs_of_pos hs', hk2]
        push_cast
        have : (2 : ℝ) ^ (e + 2) = 2 ^ 53 * 2 ^ (e - 51) := by
          rw [← zpow_natCast, ← zpow_add₀ (by norm_num)]; congr 1; push_cast; ring
        rw [this]
        exact mul_lt_mul_of_pos_right (by norm_num) hs'
      unfold lastDigit
      exact max_le (by omega) (by omega)
  refine ⟨Or.inr ⟨?_, ?_⟩, hfix⟩
  · have a1 : (2 : ℝ) ^ e ≤ |roundDouble x| := by
      rw [ay, p52]; exact mul_le_mul_of_nonneg_right n1' hs.le
    exact le_trans (zpow_le_zpow_right₀ (by norm_num) hlog) a1
  · have hE : e < 1024 := by
      by_contra hge
      have a1 : (2 : ℝ) ^ (1024 : ℤ) ≤ 2 ^ e := zpow_le_zpow_right₀ (by norm_num) (by omega)
      have a2 : (0 : ℝ) < 2 ^ (970 : ℤ) := by positivity
      exact lt_irrefl _ ((h2.trans_le (sub_le_self _ a2.le)).trans_le (a1.trans lo))
    rcases Int.lt_or_eq_of_le (Int.le_of_lt_add_one hE : e ≤ 1023) with hlt | rfl
    · have a1 : |roundDouble x| ≤ 2 ^ (e + 1) := by
        rw [ay, p53]; exact mul_le_mul_of_nonneg_right n2' hs.le
      have a2 : (2 : ℝ) ^ (e + 1) ≤ 2 ^ (1023 : ℤ) := zpow_le_zpow_right₀ (by norm_num) (by omega)
      have a3 : (2 : ℝ) ^ (1024 : ℤ) = 2 ^ (1023 : ℤ) * 2 := by
        rw [← zpow_add_one₀ (by norm_num)]; norm_num
      have a4 : (2 : ℝ) ^ (970 : ℤ) < 2 ^ (1023 : ℤ) := zpow_lt_zpow_right₀ (by norm_num) (by norm_num)
      have key : ∀ b c : ℝ, c < b → b < b * 2 - c := fun b c h => by linarith
      rw [a3]
      exact (a1.trans a2).trans_lt (key _ _ a4)
    · have q : (2 : ℝ) ^ (1024 : ℤ) = 2 ^ 53 * 2 ^ ((1023 : ℤ) - 52) := by
        rw [← p53]; norm_num
      have q' : (2 : ℝ) ^ (970 : ℤ) = 1 / 2 * 2 ^ ((1023 : ℤ) - 52) := by
        rw [show ((1023 : ℤ) - 52) = 970 + 1 by norm_num, zpow_add_one₀ (by norm_num)]; ring
      have a1 : |x / 2 ^ ((1023 : ℤ) - 52)| < 2 ^ 53 - 1 / 2 := by
        rw [abs_div, abs_of_pos hs, div_lt_iff₀ hs]
        rw [q, q'] at h2
        exact h2.trans_eq (by ring)
      have a2 : |(n : ℝ)| < 2 ^ 53 := by
        have := abs_sub_abs_le_abs_sub (n : ℝ) (x / 2 ^ ((1023 : ℤ) - 52))
        linarith
      have a3 : |n| < (2 : ℤ) ^ 53 := by exact_mod_cast a2
      have a4 : |n| ≤ (2 : ℤ) ^ 53 - 1 := by omega
      have a5 : |(n : ℝ)| ≤ 2 ^ 53 - 1 := by exact_mod_cast a4
      have key : ∀ N S : ℝ, N ≤ 2 ^ 53 - 1 → 0 < S → N * S < 2 ^ 53 * S - 1 / 2 * S := fun N S h h' => by nlinarith
      rw [ay, q, q']
      exact key _ _ a5 hs

theorem checked_one (t : ℝ) : (Ranged.checked t (roundDouble t) : Ranged binary64) * 1 = Ranged.checked t (roundDouble t) := by
  by_cases h : DoubleNormal t
  · obtain ⟨h1, h2⟩ := roundDouble_again h
    rw [Ranged.checked_pos (M := binary64) h]
    show (Ranged.checked (roundDouble t * 1) (roundDouble (roundDouble t * 1)) : Ranged binary64) = _
    rw [mul_one, h2, Ranged.checked_pos (M := binary64) h1]
  · rw [Ranged.checked_neg (M := binary64) h]; rfl

/-- Double precision, with overflow and underflow. -/
theorem numberLaws_double : NumberLaws (Ranged binary64) where
  mul_comm x y := by
    cases x <;> cases y <;> try rfl
    rename_i a b
    show (Ranged.checked (a * b) (roundDouble (a * b)) : Ranged binary64) = Ranged.checked (b * a) (roundDouble (b * a))
    rw [mul_comm]
  mul_one x y := by
    cases x <;> cases y <;> try rfl
    exact checked_one _
  div_one x y := by
    cases x <;> cases y <;> try rfl
    exact checked_one _

/-- Double precision: quantities without prefixes compute the same numbers as plain numbers, bit for bit. -/
theorem C124_double (env : ℕ → Val (Ranged binary64)) (x : ℕ → Ranged binary64) (henv : ∀ i, (env i).Shows (x i)) (c : Code)
    (hc : c.Unconverted) {v : Val (Ranged binary64)} (h : c.run env = .ok v) :
    ∃ y, c.numbers.run (fun i => .num (x i)) = .ok (.num y) ∧ v.Shows y :=
  C124_formula numberLaws_double env x henv c hc h

/-- Exact arithmetic. -/
theorem C124_exact (env : ℕ → Val ℝ) (x : ℕ → ℝ) (henv : ∀ i, (env i).Shows (x i)) (c : Code)
    (hc : c.Unconverted) {v : Val ℝ} (h : c.run env = .ok v) :
    ∃ y, c.numbers.run (fun i => .num (x i)) = .ok (.num y) ∧ v.Shows y :=
  C124_formula numberLaws_field env x henv c hc h

/-- Sums, products and quotients of `L` positive quantities without prefixes, their numbers between 2⁻ᵏ and 2ᵏ: if
`L * k ≤ 1021` and the units fit, nothing overflows and the number of the result is accurate to `3 L - 2` roundings. -/
theorem C124_no_overflow {k : ℝ} (hk : 2 ≤ k) (env : ℕ → Val (Ranged binary64)) (a b : ℕ → ℝ)
    (henv : ∀ i, (env i).Shows (.fin (a i))) (hab : ∀ i, Close binary64.ε (a i) (b i) ∧ (2 : ℝ) ^ (-k) ≤ b i ∧ b i ≤ 2 ^ k)
    (c : Code) (hc : c.Unconverted) (hp : c.numbers.Positive) (hl : c.numbers.Powerless) (hw : c.numbers.Within k)
    (h : c.numbers.leaves * k ≤ 1021) {v : Val (Ranged binary64)} (hv : c.run env = .ok v) :
    ∃ x y, v.Shows (.fin x) ∧ c.numbers.run (fun i => .num (b i)) = .ok (.num y) ∧ 0 < y ∧
      Close ((3 * c.numbers.leaves - 2) * binary64.ε) x y := by
  obtain ⟨z, h1, h2⟩ := C124_double env (fun i => .fin (a i)) henv c hc hv
  obtain ⟨x, y, h3, h4, h5, h6⟩ := C105_leaves hk (fun i => .num (.fin (a i))) (fun i => .num (b i))
    (fun i => ⟨a i, b i, rfl, rfl, (hab i).1, (hab i).2⟩) c.numbers hp hl hw h
  rw [h1] at h3
  cases h3
  exact ⟨x, y, h2, h4, h5, h6⟩

/-! ## The library -/

/-- `Code.Unconverted`, computed. -/
def Code.unconverted : Code → Bool
  | .const _ _ u => match parseUnits u with
    | .ok (t, b) => t.all (fun w => decide (Unprefixed w.unit ∧ '^' ∉ w.unit)) && b.all fun w => decide (Unprefixed w.unit ∧ '^' ∉ w.unit)
    | .error _ => true
  | .mul x y | .div x y | .add x y | .sub x y => x.unconverted && y.unconverted
  | .neg x | .pow x _ | .fn _ x => x.unconverted
  | .conv _ _ => false
  | _ => true

theorem unconverted_spec {c : Code} (h : c.unconverted = true) : c.Unconverted := by
  induction c with
  | const cl q u =>
    intro t b hp
    simp only [Code.unconverted, hp, Bool.and_eq_true, List.all_eq_true, decide_eq_true_eq] at h
    exact ⟨h.1, h.2⟩
  | mul a b iha ihb | div a b iha ihb | add a b iha ihb | sub a b iha ihb =>
    simp only [Code.unconverted, Bool.and_eq_true] at h
    exact ⟨iha h.1, ihb h.2⟩
  | neg a iha => exact iha h
  | pow a q iha => exact iha h
  | fn f a iha => exact iha h
  | conv a t iha => cases h
  | _ => trivial

theorem codedFormulas_unconverted : ∀ f ∈ codedFormulas, f.name ≠ c!"K_from_standard" → f.code.unconverted = true := by
  decide +kernel

/-- The formulas of the library: called with quantities without prefixes, they return the number they return for plain numbers.
`K_from_standard` contains a constant in cm/s. -/
theorem C124_library (f : CodedFormula) (hf : f ∈ codedFormulas) (hn : f.name ≠ c!"K_from_standard")
    (env : ℕ → Val (Ranged binary64)) (x : ℕ → Ranged binary64) (henv : ∀ i, (env i).Shows (x i))
    {v : Val (Ranged binary64)} (h : f.code.run env = .ok v) :
    ∃ y, f.code.numbers.run (fun i => .num (x i)) = .ok (.num y) ∧ v.Shows y :=
  C124_double env x henv f.code (unconverted_spec (codedFormulas_unconverted f hf hn)) h

/-- The functions themselves, in exact arithmetic. -/
theorem C124_library_exact (f : CodedFormula) (hf : f ∈ codedFormulas) (hn : f.name ≠ c!"K_from_standard")
    (env : ℕ → Val ℝ) (x : ℕ → ℝ) (henv : ∀ i, (env i).Shows (x i)) {v : Val ℝ} (h : f.model env = .ok v) :
    ∃ y, f.code.numbers.run (fun i => .num (x i)) = .ok (.num y) ∧ v.Shows y := by
  rw [← C82_formulas f hf] at h
  exact C124_exact env x henv f.code (unconverted_spec (codedFormulas_unconverted f hf hn)) h

/-- With prefixes the number of the result is another one: 2 km/hr times 3 kg/m is 6000 kg/hr. -/
theorem C124_prefix_matters : Val.mul (.multi (⟨.multi, 2, [⟨c!"km", 1⟩], [⟨c!"hr", 1⟩]⟩ : MultiV ℚ))
    (.multi ⟨.multi, 3, [⟨c!"kg", 1⟩], [⟨c!"m", 1⟩]⟩) = .ok (.multi ⟨.multi, 6000, [⟨c!"kg", 1⟩], [⟨c!"hr", 1⟩]⟩) := by
  decide +kernel

/-- 3 m / 2 s + 1 m / 2 s in double precision. -/
example : ∃ v y, (Code.add (.div (.var 0) (.var 1)) (.div (.var 2) (.var 1))).run (fun i =>
      if i = 0 then .unit ⟨.length, .fin 3, c!"m", 1⟩ else if i = 1 then .unit ⟨.time, .fin 2, c!"s", 1⟩
      else .unit (⟨.length, .fin 1, c!"m", 1⟩ : UnitV (Ranged binary64))) = .ok v ∧
    (Code.add (.div (.var 0) (.var 1)) (.div (.var 2) (.var 1))).run (fun i =>
      .num (if i = 0 then .fin 3 else if i = 1 then .fin 2 else .fin 1 : Ranged binary64)) = .ok (.num y) ∧ v.Shows y := by
  have ne : ¬ (Ranged.fin 2 : Ranged binary64) = 0 := by
    intro h
    have h' : (Ranged.fin 2 : Ranged binary64) = .fin 0 := h
    injection h' with h'
    norm_num at h'
  have hv : (Code.add (.div (.var 0) (.var 1)) (.div (.var 2) (.var 1))).run (fun i =>
      if i = 0 then .unit ⟨.length, .fin 3, c!"m", 1⟩ else if i = 1 then .unit ⟨.time, .fin 2, c!"s", 1⟩
      else .unit (⟨.length, .fin 1, c!"m", 1⟩ : UnitV (Ranged binary64))) =
      .ok (.multi ⟨.multi, .fin 3 / .fin 2 + .fin 1 / .fin 2, [⟨c!"m", 1⟩], [⟨c!"s", 1⟩]⟩) := by
    have hms : ¬ (c!"m" : Sym) = c!"s" := by decide
    simp [Code.run, ok_div, ok_add, Val.div, unitDiv, pyDiv, ne, hms, Val.add, multiAdd]
  obtain ⟨y, h1, h2⟩ := C124_double _ (fun i => if i = 0 then .fin 3 else if i = 1 then .fin 2 else .fin 1)
    (fun i => by
      have m : BareSym c!"m" := by unfold BareSym; decide
      have t : BareSym c!"s" := by unfold BareSym; decide
      split_ifs
      · exact ⟨rfl, m⟩
      · exact ⟨rfl, t⟩
      · exact ⟨rfl, m⟩) _ (by simp [Code.Unconverted]) hv
  exact ⟨_, y, hv, h1, h2⟩

end Verif
