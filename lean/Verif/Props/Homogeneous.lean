import Verif.Props.Expressions
import Verif.Lemmas.ConvertDim

/-!
# C74: dimensional analysis

Whenever an arithmetic expression over quantities returns, it is dimensionally homogeneous (both sides of every sum have
the same dimension, functions like log are applied to dimensionless numbers) and its result has the dimension found by dimensional analysis.  Unlike C64 this needs nothing about
prefixes: the operations that lose a prefix factor keep the dimension.
-/

namespace Verif

/-- Physical dimension of a value; numbers are dimensionless. -/
def Val.dim : Val ℝ → Dim
  | .unit u => u.exp • dimOf u.unit
  | .multi m => dimOfUnit m.top m.bot
  | _ => 0

/-- Dimensional analysis of an expression.  `none`: not homogeneous. -/
def Arith.dim (δ : ℕ → Dim) : Arith → Option Dim
  | .var i => some (δ i)
  | .lit _ => some 0
  | .mul a b => match a.dim δ, b.dim δ with
    | some x, some y => some (x + y)
    | _, _ => none
  | .div a b => match a.dim δ, b.dim δ with
    | some x, some y => some (x - y)
    | _, _ => none
  | .add a b => match a.dim δ, b.dim δ with
    | some x, some y => if x = y then some x else none
    | _, _ => none
  | .sub a b => match a.dim δ, b.dim δ with
    | some x, some y => if x = y then some x else none
    | _, _ => none
  | .neg a => a.dim δ
  | .pow a q => (a.dim δ).map (q • ·)
  | .fn _ a => match a.dim δ with
    | some x => if x = 0 then some 0 else none
    | none => none

/-- Multiplications that keep the dimension: no power of a simple unit times a number or another simple unit. -/
def MulDimSafe : Val ℝ → Val ℝ → Prop
  | .unit u, .num _ => u.exp = 1
  | .num _, .unit u => u.exp = 1
  | .unit u, .unit w => (u.cls = w.cls ∧ u.unit = w.unit) ∨ (u.exp = 1 ∧ w.exp = 1)
  | _, _ => True

/-- Every operation that is carried out keeps the dimension. -/
def Arith.DimSafe (env : ℕ → Val ℝ) : Arith → Prop
  | .var _ => True
  | .lit _ => True
  | .mul a b => a.DimSafe env ∧ b.DimSafe env ∧ ∀ x y, a.run env = .ok x → b.run env = .ok y → MulDimSafe x y
  | .div a b => a.DimSafe env ∧ b.DimSafe env
  | .add a b => a.DimSafe env ∧ b.DimSafe env ∧ ∀ x y, a.run env = .ok x → b.run env = .ok y → AddSafe x y
  | .sub a b => a.DimSafe env ∧ b.DimSafe env ∧ ∀ x y, a.run env = .ok x → b.run env = .ok y → AddSafe x y
  | .neg a => a.DimSafe env
  | .pow a _ => a.DimSafe env
  | .fn _ a => a.DimSafe env

/-! ## From weights to dimensions -/

theorem dimOf_si : ∀ p ∈ siPrefixes, ∀ s ∈ prefixStems, p.1 :: s ≠ c!"kg" → dimOf (p.1 :: s) = dimOf s := by
  decide +kernel

/-- A linear functional of the dimension is a formal weight. -/
theorem formal_dim (f : Dim →ₗ[ℚ] ℚ) : FormalWeight fun s => f (dimOf s) where
  pascal := by rw [dimOf_laws.pascal]; simp [map_sub, map_smul]
  joule := by rw [dimOf_laws.joule]; simp [map_sub, map_add, map_smul]
  watt := by rw [dimOf_laws.watt]; simp [map_sub]
  psi := by rw [dimOf_laws.psi]; simp [map_sub, map_smul]
  centipoise := by rw [dimOf_laws.centipoise]; simp [map_sub]
  coulomb := by rw [dimOf_laws.coulomb]; simp [map_add]
  volt := by rw [dimOf_laws.volt]; simp [map_sub, map_add, map_smul]
  si := fun p hp s hs hn => by rw [dimOf_si p hp s hs hn]

theorem weight_dim (f : Dim →ₗ[ℚ] ℚ) (v : Val ℝ) : v.weight (fun s => f (dimOf s)) = f v.dim := by
  cases v with
  | unit u => simp [Val.weight, Val.dim]
  | multi m =>
    simp only [Val.weight, Val.dim, dimOfUnit, net, wsum, map_sub, map_list_sum, List.map_map]
    congr 2 <;>
    · congr 1
      funext u
      simp
  | _ => simp [Val.weight, Val.dim]

theorem dim_ext {a b : Dim} (h : ∀ f : Dim →ₗ[ℚ] ℚ, f a = f b) : a = b := by
  have e1 := h (LinearMap.fst ℚ _ _)
  have e2 := h (LinearMap.fst ℚ _ _ ∘ₗ LinearMap.snd ℚ _ _)
  have e3 := h (LinearMap.fst ℚ _ _ ∘ₗ LinearMap.snd ℚ _ _ ∘ₗ LinearMap.snd ℚ _ _)
  have e4 := h (LinearMap.fst ℚ _ _ ∘ₗ LinearMap.snd ℚ _ _ ∘ₗ LinearMap.snd ℚ _ _ ∘ₗ LinearMap.snd ℚ _ _)
  have e5 := h (LinearMap.fst ℚ _ _ ∘ₗ LinearMap.snd ℚ _ _ ∘ₗ LinearMap.snd ℚ _ _ ∘ₗ LinearMap.snd ℚ _ _ ∘ₗ
    LinearMap.snd ℚ _ _)
  have e6 := h (LinearMap.snd ℚ _ _ ∘ₗ LinearMap.snd ℚ _ _ ∘ₗ LinearMap.snd ℚ _ _ ∘ₗ LinearMap.snd ℚ _ _ ∘ₗ
    LinearMap.snd ℚ _ _)
  simp only [LinearMap.comp_apply, LinearMap.fst_apply, LinearMap.snd_apply] at e1 e2 e3 e4 e5 e6
  exact Prod.ext e1 (Prod.ext e2 (Prod.ext e3 (Prod.ext e4 (Prod.ext e5 e6))))

/-! ## Operations -/

theorem packDiv_weight (v : ℝ) (t b : UList) (w : Sym → ℚ) : (packDiv v t b).weight w = net w t b := by
  unfold packDiv
  split <;> simp [Val.weight, net]

/-- Sound result with a given weight. -/
def Weighs (x : Val ℝ) (f : (Sym → ℚ) → ℚ) : Prop := SoundVal x ∧ ∀ w, FormalWeight w → x.weight w = f w

theorem mul_unit_weighs {m : MultiV ℝ} {u : UnitV ℝ} {r : Val ℝ} (hm : m.Genuine) (hu : WellPrefixed u.unit)
    (h : multiMulUnit m u = .ok r) : Weighs r fun w => net w m.top m.bot + u.exp * w u.unit := by
  have w1 := wellPrefixed_append hm.1 (wellPrefixed_single (e := u.exp) hu)
  obtain ⟨t, bo, e, -, g1, g2, -⟩ := reduce_full true true w1 hm.2
  simp only [multiMulUnit, e, Except.ok.injEq] at h
  subst h
  refine ⟨packMul_sound g1 g2, fun w hw => ?_⟩
  rw [packMul_weight, reduce_weight true true w1 hm.2 e w hw]
  simp only [net, wsum_append, wsum_cons, wsum_nil, smul_eq_mul]; ring

theorem mul_weighs {x y r : Val ℝ} (hx : SoundVal x) (hy : SoundVal y) (hs : MulDimSafe x y)
    (h : Val.mul x y = .ok r) : Weighs r fun w => x.weight w + y.weight w := by
  cases x with
  | none | other | bare => exact hx.elim
  | num a => cases y with
    | none | other | bare => exact hy.elim
    | num b => cases h; exact ⟨trivial, fun w _ => by simp [Val.weight]⟩
    | unit u =>
      simp only [Val.mul, unitRmul, hy.1.rebuild, wrapUnit, Except.ok.injEq] at h
      subst h
      simp only [MulDimSafe] at hs
      exact ⟨⟨hy.1.with _ _, hy.2⟩, fun w _ => by simp [Val.weight, hs]⟩
    | multi m =>
      simp only [Val.mul, multiRmul, Except.ok.injEq] at h
      subst h
      exact ⟨hy, fun w _ => by simp [Val.weight]⟩
  | unit u => cases y with
    | none | other | bare => exact hy.elim
    | num b =>
      simp only [Val.mul, unitMul, hx.1.rebuild, wrapUnit, Except.ok.injEq] at h
      subst h
      simp only [MulDimSafe] at hs
      exact ⟨⟨hx.1.with _ _, hx.2⟩, fun w _ => by simp [Val.weight, hs]⟩
    | unit v =>
      simp only [MulDimSafe] at hs
      simp only [Val.mul, unitMul] at h
      split at h
      · rename_i hc
        simp only [hx.1.rebuild, wrapUnit, Except.ok.injEq] at h
        subst h
        refine ⟨⟨hx.1.with _ _, hx.2⟩, fun w _ => ?_⟩
        simp only [Val.weight, ← hc.2]; ring
      · rename_i hc
        simp only [Except.ok.injEq] at h
        subst h
        have he : u.exp = 1 ∧ v.exp = 1 := hs.resolve_left (fun k => hc k)
        refine ⟨⟨?_, by simp [WellPrefixedList]⟩, fun w _ => ?_⟩
        · intro b hb
          simp only [List.mem_cons, List.not_mem_nil, or_false] at hb
          rcases hb with rfl | rfl
          · exact hx.2
          · exact hy.2
        · simp [Val.weight, net, wsum_cons, he]
    | multi m =>
      have h' : multiMulUnit m u = .ok r := h
      obtain ⟨s, k⟩ := mul_unit_weighs hy hx.2 h'
      exact ⟨s, fun w hw => by rw [k w hw]; simp only [Val.weight]; ring⟩
  | multi m => cases y with
    | none | other | bare => exact hy.elim
    | num b =>
      simp only [Val.mul, multiMul, Except.ok.injEq] at h
      subst h
      exact ⟨hx, fun w _ => by simp [Val.weight]⟩
    | unit u => exact mul_unit_weighs hx hy.2 h
    | multi o =>
      obtain ⟨c, ec, hp, -, hw, -⟩ := mul_multi_full m o hx hy
      rw [h] at ec; cases ec
      exact ⟨⟨hp.1.well, hp.2.well⟩, hw⟩

theorem div_weighs {x y r : Val ℝ} (hx : SoundVal x) (hy : SoundVal y)
    (h : Val.div x y = .ok r) : Weighs r fun w => x.weight w - y.weight w := by
  cases x with
  | none | other | bare => exact hx.elim
  | num a => cases y with
    | none | other | bare => exact hy.elim
    | num b =>
      simp only [Val.div] at h
      split at h
      · cases h
      · cases h; exact ⟨trivial, fun w _ => by simp [Val.weight]⟩
    | unit u => cases h
    | multi m =>
      simp only [Val.div, multiRdiv] at h
      split at h
      · cases h
      · cases h
        exact ⟨⟨hy.2, hy.1⟩, fun w _ => by simp [Val.weight, net]⟩
  | unit u => cases y with
    | none | other | bare => exact hy.elim
    | num b =>
      simp only [Val.div, unitDiv] at h
      split at h
      · cases h
      · simp only [hx.1.rebuild, wrapUnit, Except.ok.injEq] at h
        subst h
        exact ⟨⟨hx.1.with _ _, hx.2⟩, fun w _ => by simp [Val.weight]⟩
    | unit v =>
      have hv : v.value ≠ 0 := by
        intro h0
        simp [Val.div, unitDiv, pyDiv, h0] at h
      simp only [Val.div, unitDiv, pyDiv_ne hv] at h
      split at h
      · rename_i hc
        split at h
        · rename_i he
          cases h
          refine ⟨trivial, fun w _ => ?_⟩
          simp only [Val.weight, ← hc]
          rw [← sub_mul, he, zero_mul]
        · simp only [hx.1.rebuild, wrapUnit, Except.ok.injEq] at h
          subst h
          refine ⟨⟨hx.1.with _ _, hx.2⟩, fun w _ => ?_⟩
          simp only [Val.weight, ← hc]; ring
      · simp only [Except.ok.injEq] at h
        subst h
        exact ⟨⟨wellPrefixed_single hx.2, wellPrefixed_single hy.2⟩, fun w _ => by simp [Val.weight, net]⟩
    | multi m =>
      have w1 := wellPrefixed_append hy.2 (wellPrefixed_single (e := u.exp) hx.2)
      obtain ⟨t, bo, e, -, h1, h2, -⟩ := reduce_full true false w1 hy.1
      have hv : m.value ≠ 0 := by
        intro h0
        simp [Val.div, unitDiv, unitDivMulti, e, pyDiv, h0] at h
      simp only [Val.div, unitDiv, unitDivMulti, e, pyDiv_ne hv, Except.ok.injEq] at h
      subst h
      refine ⟨packDiv_sound h1 h2, fun w hw => ?_⟩
      rw [packDiv_weight, reduce_weight true false w1 hy.1 e w hw]
      simp only [Val.weight, net, wsum_append, wsum_cons, wsum_nil, smul_eq_mul]; ring
  | multi m => cases y with
    | none | other | bare => exact hy.elim
    | num b =>
      simp only [Val.div, multiDiv] at h
      split at h
      · cases h
      · cases h
        exact ⟨hx, fun w _ => by simp [Val.weight]⟩
    | unit u =>
      have w2 := wellPrefixed_append hx.2 (wellPrefixed_single (e := u.exp) hy.2)
      obtain ⟨t, bo, e, -, h1, h2, -⟩ := reduce_full false true hx.1 w2
      have hv : u.value ≠ 0 := by
        intro h0
        simp [Val.div, multiDiv, multiDivUnit, e, pyDiv, h0] at h
      simp only [Val.div, multiDiv, multiDivUnit, e, pyDiv_ne hv, Except.ok.injEq] at h
      subst h
      refine ⟨packDiv_sound h1 h2, fun w hw => ?_⟩
      rw [packDiv_weight, reduce_weight false true hx.1 w2 e w hw]
      simp only [Val.weight, net, wsum_append, wsum_cons, wsum_nil, smul_eq_mul]; ring
    | multi o =>
      have hv : o.value ≠ 0 := by
        intro h0
        rw [C02_div_zero m o hx hy h0] at h; cases h
      have w1 := wellPrefixed_append hx.1 hy.2
      have w2 := wellPrefixed_append hx.2 hy.1
      obtain ⟨t, bo, e, -, h1, h2, -⟩ := reduce_full true true w1 w2
      simp only [Val.div, multiDiv, multiDivMulti, e, pyDiv_ne hv] at h
      split at h
      · rename_i hs
        cases h
        exact ⟨trivial, fun w _ => by simp [Val.weight, hs.1, hs.2]⟩
      · cases h
        refine ⟨packDiv_sound h1 h2, fun w hw => ?_⟩
        rw [packDiv_weight, reduce_weight true true w1 w2 e w hw]
        simp only [Val.weight, net, wsum_append]; ring

theorem add_weighs {x y r : Val ℝ} (hx : SoundVal x) (hy : SoundVal y) (hs : AddSafe x y)
    (h : Val.add x y = .ok r ∨ Val.sub x y = .ok r) : (∀ w, x.weight w = y.weight w) ∧ Weighs r fun w => x.weight w := by
  cases x with
  | none | other | bare => exact hx.elim
  | num a => cases y with
    | none | other | bare => exact hy.elim
    | num b => rcases h with h | h <;> (cases h; exact ⟨fun w => rfl, trivial, fun w _ => rfl⟩)
    | unit u => rcases h with h | h <;> cases h
    | multi m => rcases h with h | h <;> cases h
  | unit u => cases y with
    | none | other | bare => exact hy.elim
    | num b => exact hs.elim
    | unit v =>
      rcases C08_add_sub_unit u hx.1 (.unit v) (by simp) with ⟨v', e, ha, h3, h4⟩ | ⟨-, h3, h4⟩
      · cases e
        have : ∀ w : Sym → ℚ, (Val.unit u).weight w = (Val.unit v).weight w := fun w => by
          simp only [Val.weight, ha.2.1, ha.2.2]
        rcases h with h | h
        · rw [h] at h3; cases h3
          exact ⟨this, ⟨hx.1.with _ _, hx.2⟩, fun w _ => rfl⟩
        · rw [h] at h4; cases h4
          exact ⟨this, ⟨hx.1.with _ _, hx.2⟩, fun w _ => rfl⟩
      · rcases h with h | h
        · rw [h] at h3; cases h3
        · rw [h] at h4; cases h4
    | multi m => rcases h with h | h <;> cases h
  | multi m => cases y with
    | none | other | bare => exact hy.elim
    | num b => rcases h with h | h <;> cases h
    | unit u => rcases h with h | h <;> cases h
    | multi o =>
      rcases h with h | h
      · rcases C08_add_multi m (.multi o) with ⟨o', e, -, hu, h3⟩ | ⟨-, h3⟩
        · cases e
          rw [h] at h3; cases h3
          exact ⟨fun w => by simp only [Val.weight, hu.1, hu.2], hx, fun w _ => rfl⟩
        · rw [h] at h3; cases h3
      · rcases C08_sub_multi m (.multi o) (by simp) with ⟨o', e, hu, h3⟩ | ⟨-, h3⟩
        · cases e
          rw [h] at h3; cases h3
          exact ⟨fun w => by simp only [Val.weight, hu.1, hu.2], hx, fun w _ => rfl⟩
        · rw [h] at h3; cases h3

theorem neg_weighs {x r : Val ℝ} (hx : SoundVal x) (h : Val.neg x = .ok r) : Weighs r fun w => x.weight w := by
  cases x with
  | none | other | bare => exact hx.elim
  | num a => cases h; exact ⟨trivial, fun w _ => rfl⟩
  | unit u =>
    simp only [Val.neg, unitNeg, hx.1.rebuild, wrapUnit, Except.ok.injEq] at h
    subst h
    exact ⟨⟨hx.1.with _ _, hx.2⟩, fun w _ => rfl⟩
  | multi m =>
    simp only [Val.neg, multiNeg, Except.ok.injEq] at h
    subst h
    exact ⟨hx, fun w _ => rfl⟩

theorem pow_weighs {x r : Val ℝ} {q : ℚ} (hx : SoundVal x) (h : Val.pow x q = .ok r) :
    Weighs r fun w => q * x.weight w := by
  refine ⟨(pow_keeps hx h).1, fun w hw => ?_⟩
  cases x with
  | none | other | bare => exact hx.elim
  | num a =>
    simp only [Val.pow] at h
    split at h
    · cases h
    · cases h; simp [Val.weight]
  | unit u =>
    simp only [Val.pow, unitPow] at h
    split at h
    · cases h
    · simp only [hx.1.rebuild, wrapUnit, Except.ok.injEq] at h
      subst h
      simp only [Val.weight]; ring
  | multi m =>
    obtain ⟨t, b, er, -, hn⟩ := reducePow_spec (m.top.map (·.pow q)) (m.bot.map (·.pow q))
    simp only [Val.pow, multiPow, er] at h
    split at h
    · cases h
    · simp only [Except.ok.injEq] at h
      subst h
      simp only [Val.weight]
      rw [hn w hw.toDerivedLaws]
      simp only [net, wsum_map_pow, smul_eq_mul]; ring

theorem Weighs.dim {r : Val ℝ} {f : (Sym → ℚ) → ℚ} (h : Weighs r f) {d : Dim}
    (hd : ∀ g : Dim →ₗ[ℚ] ℚ, f (fun s => g (dimOf s)) = g d) : r.dim = d :=
  dim_ext fun g => by rw [← weight_dim, h.2 _ (formal_dim g), hd]

/-! ## C74 -/

/-- **C74**: an expression that returns is dimensionally homogeneous, and its result has the dimension of the expression.
Missing for the full claim: expressions that multiply a power of a simple unit by a number or by a different simple unit,
or add a number to a simple quantity, where it is false (`C74_false`). -/
theorem C74_homogeneous_partial (e : Arith) (env : ℕ → Val ℝ) (hs : e.DimSafe env) (henv : ∀ i, SoundVal (env i)) :
    ∀ r, e.run env = .ok r → SoundVal r ∧ e.dim (fun i => (env i).dim) = some r.dim := by
  induction e with
  | var i => intro r h; cases h; exact ⟨henv i, rfl⟩
  | lit x => intro r h; cases h; exact ⟨trivial, rfl⟩
  | mul a b iha ihb =>
    intro r h
    obtain ⟨x, y, h1, h2, h3⟩ := lift2_inv h
    obtain ⟨sx, dx⟩ := iha hs.1 x h1
    obtain ⟨sy, dy⟩ := ihb hs.2.1 y h2
    have k := mul_weighs sx sy (hs.2.2 x y h1 h2) h3
    refine ⟨k.1, ?_⟩
    simp only [Arith.dim, dx, dy]
    rw [k.dim (d := x.dim + y.dim) fun g => by rw [weight_dim, weight_dim, map_add]]
  | div a b iha ihb =>
    intro r h
    obtain ⟨x, y, h1, h2, h3⟩ := lift2_inv h
    obtain ⟨sx, dx⟩ := iha hs.1 x h1
    obtain ⟨sy, dy⟩ := ihb hs.2 y h2
    have k := div_weighs sx sy h3
    refine ⟨k.1, ?_⟩
    simp only [Arith.dim, dx, dy]
    rw [k.dim (d := x.dim - y.dim) fun g => by rw [weight_dim, weight_dim, map_sub]]
  | add a b iha ihb =>
    intro r h
    obtain ⟨x, y, h1, h2, h3⟩ := lift2_inv h
    obtain ⟨sx, dx⟩ := iha hs.1 x h1
    obtain ⟨sy, dy⟩ := ihb hs.2.1 y h2
    obtain ⟨k1, k⟩ := add_weighs sx sy (hs.2.2 x y h1 h2) (.inl h3)
    refine ⟨k.1, ?_⟩
    have e : x.dim = y.dim := dim_ext fun g => by rw [← weight_dim, ← weight_dim, k1]
    simp only [Arith.dim, dx, dy, e, if_true]
    rw [k.dim (d := y.dim) fun g => by rw [weight_dim, e]]
  | sub a b iha ihb =>
    intro r h
    obtain ⟨x, y, h1, h2, h3⟩ := lift2_inv h
    obtain ⟨sx, dx⟩ := iha hs.1 x h1
    obtain ⟨sy, dy⟩ := ihb hs.2.1 y h2
    obtain ⟨k1, k⟩ := add_weighs sx sy (hs.2.2 x y h1 h2) (.inr h3)
    refine ⟨k.1, ?_⟩
    have e : x.dim = y.dim := dim_ext fun g => by rw [← weight_dim, ← weight_dim, k1]
    simp only [Arith.dim, dx, dy, e, if_true]
    rw [k.dim (d := y.dim) fun g => by rw [weight_dim, e]]
  | neg a iha =>
    intro r h
    obtain ⟨x, h1, h3⟩ := lift1_inv h
    obtain ⟨sx, dx⟩ := iha hs x h1
    have k := neg_weighs sx h3
    refine ⟨k.1, ?_⟩
    simp only [Arith.dim, dx]
    rw [k.dim (d := x.dim) fun g => by rw [weight_dim]]
  | pow a q iha =>
    intro r h
    obtain ⟨x, h1, h3⟩ := lift1_inv h
    obtain ⟨sx, dx⟩ := iha hs x h1
    have k := pow_weighs sx h3
    refine ⟨k.1, ?_⟩
    simp only [Arith.dim, dx, Option.map_some]
    rw [k.dim (d := q • x.dim) fun g => by rw [weight_dim, map_smul, smul_eq_mul]]
  | fn f a iha =>
    intro r h
    obtain ⟨x, h1, rfl⟩ := MathFn.run_inv h
    obtain ⟨-, dx⟩ := iha hs _ h1
    refine ⟨trivial, ?_⟩
    have e : (Val.num x : Val ℝ).dim = 0 := rfl
    simp only [Arith.dim, dx, e, if_true]
    rfl

/-- In particular: an expression that is not homogeneous never returns a value. -/
theorem C74_inhomogeneous_raises_partial (e : Arith) (env : ℕ → Val ℝ) (hs : e.DimSafe env) (henv : ∀ i, SoundVal (env i))
    (hd : e.dim (fun i => (env i).dim) = none) : ∃ err, e.run env = .error err := by
  cases h : e.run env with
  | error err => exact ⟨err, rfl⟩
  | ok r => rw [(C74_homogeneous_partial e env hs henv r h).2] at hd; cases hd

/-- The claim for all expressions is false: twice an area given as a length to the second power is a length. -/
theorem C74_false : ¬ ∀ (e : Arith) (env : ℕ → Val ℝ), (∀ i, SoundVal (env i)) →
    ∀ r, e.run env = .ok r → e.dim (fun i => (env i).dim) = some r.dim := by
  intro h
  have := h (.mul (.lit 2) (.var 0)) (fun _ => .unit ⟨.length, 3, c!"m", 2⟩)
    (fun _ => ⟨⟨3, c!"m", 2, rfl⟩, by decide +kernel⟩) (.unit ⟨.length, 3 * 2, c!"m", 1⟩) rfl
  simp only [Arith.dim, Val.dim, Option.some.injEq] at this
  revert this
  decide +kernel

/-- `MultiUnit(2, "J/m^2*s") * Length(5, "cm")` loses the factor 1/100 but has the dimension of a power per length. -/
example :
    let env : ℕ → Val ℝ := fun i => if i = 0 then .multi ⟨.multi, 2, [⟨c!"J", 1⟩], [⟨c!"m", 2⟩, ⟨c!"s", 1⟩]⟩
      else .unit ⟨.length, 5, c!"cm", 1⟩
    (∃ r, (Arith.mul (.var 0) (.var 1)).run env = .ok r) ∧
      (Arith.mul (.var 0) (.var 1)).dim (fun i => (env i).dim) = some (1, 1, -3, 0, 0, 0) ∧
      (Arith.add (.var 0) (.var 1)).dim (fun i => (env i).dim) = none := by
  refine ⟨?_, ?_, ?_⟩
  · have w1 : WellPrefixedList ([⟨c!"J", 1⟩] ++ [⟨c!"cm", 1⟩]) := by decide +kernel
    have w2 : WellPrefixedList [⟨c!"m", 2⟩, ⟨c!"s", 1⟩] := by decide +kernel
    obtain ⟨t, b, e, -⟩ := reduce_full true true w1 w2
    refine ⟨packMul (5 * 2) t b, ?_⟩
    show multiMulUnit _ _ = _
    unfold multiMulUnit
    simp only [e]
  · simp only [Arith.dim, Val.dim, one_ne_zero, if_false, if_true, Option.some.injEq]; decide +kernel
  · simp only [Arith.dim, Val.dim, one_ne_zero, if_false, if_true]; decide +kernel

end Verif
