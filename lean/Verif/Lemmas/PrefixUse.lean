import Verif.Lemmas.PrefixLoss
import Verif.Lemmas.Returns

/-!
# A checker for what becomes of the prefixes

For every subexpression: its kind and dimension, the powers of the arguments' factors by which its size differs from the
size stated, and the powers of which the factor of its own prefixes is composed.
-/

namespace Verif

/-! ## Products of powers of the factors, by their logarithms -/

namespace Powers

def add : List ℚ → List ℚ → List ℚ
  | [], l => l
  | l, [] => l
  | q :: l, p :: m => (q + p) :: add l m

def smul (q : ℚ) (l : List ℚ) : List ℚ := l.map (q * ·)

def neg (l : List ℚ) : List ℚ := smul (-1) l

def sub (l m : List ℚ) : List ℚ := add l (neg m)

def single : ℕ → ℚ → List ℚ
  | 0, q => [q]
  | n + 1, q => 0 :: single n q

def isZero (l : List ℚ) : Bool := l.all fun q => q = 0

noncomputable def val (L : ℕ → ℝ) : List ℚ → ℝ
  | [] => 0
  | q :: l => q * L 0 + val (fun i => L (i + 1)) l

theorem val_add (l m : List ℚ) : ∀ L, val L (add l m) = val L l + val L m := by
  induction l generalizing m with
  | nil => intro L; simp [add, val]
  | cons q l ih =>
    intro L
    cases m with
    | nil => simp [add, val]
    | cons p m => simp only [add, val, ih]; push_cast; ring

theorem val_smul (q : ℚ) (l : List ℚ) : ∀ L, val L (smul q l) = q * val L l := by
  induction l with
  | nil => intro L; simp [smul, val]
  | cons p l ih =>
    intro L
    have := ih fun i => L (i + 1)
    simp only [smul, List.map_cons, val] at this ⊢
    rw [this]; push_cast; ring

theorem val_neg (l : List ℚ) (L : ℕ → ℝ) : val L (neg l) = -val L l := by
  simp [neg, val_smul]

theorem val_sub (l m : List ℚ) (L : ℕ → ℝ) : val L (sub l m) = val L l - val L m := by
  simp [sub, val_add, val_neg, sub_eq_add_neg]

theorem val_single (n : ℕ) (q : ℚ) : ∀ L, val L (single n q) = q * L n := by
  induction n with
  | zero => intro L; simp [single, val]
  | succ n ih => intro L; simp [single, val, ih]

theorem val_isZero {l : List ℚ} (h : isZero l = true) : ∀ L, val L l = 0 := by
  induction l with
  | nil => intro L; rfl
  | cons q l ih =>
    intro L
    simp only [isZero, List.all_cons, Bool.and_eq_true, decide_eq_true_eq] at h
    simp [val, h.1, ih h.2]

/-- The product of powers is the exponential of the sum. -/
theorem val_offBy (l : List ℚ) : ∀ a : ℕ → Val ℝ, PrefixUse.offBy a l = Real.exp (val (fun i => Real.log (a i).scale) l) := by
  induction l with
  | nil => intro a; simp [PrefixUse.offBy, val]
  | cons q l ih =>
    intro a
    simp only [PrefixUse.offBy, val, ih, Real.exp_add]
    rw [Real.rpow_def_of_pos (Val.scale_pos _), mul_comm (Real.log _)]

end Powers

/-! ## Kinds of values -/

/-- A number, a simple quantity with an exponent, a compound quantity, or anything of a dimension, perhaps with the
exponent it has if it is simple; the flag says whether there may be prefixes. -/
inductive QTy
  | num
  | simple (pre : Bool) (d : Dim) (e : ℚ)
  | compound (pre : Bool) (d : Dim)
  | any (pre : Bool) (d : Dim) (e : Option ℚ)
  deriving DecidableEq

namespace QTy

def Has : QTy → Val ℝ → Prop
  | .num, v => ∃ x, v = .num x
  | .simple p d e, v => (∃ u, v = .unit u ∧ u.exp = e) ∧ ValOk p v ∧ v.dim = d
  | .compound p d, v => (∃ m, v = .multi m) ∧ ValOk p v ∧ v.dim = d
  | .any p d e, v => ValOk p v ∧ v.dim = d ∧ ∀ k, e = some k → ∀ u, v = .unit u → u.exp = k

def dim : QTy → Dim
  | .num => 0
  | .simple _ d _ | .compound _ d | .any _ d _ => d

def pre : QTy → Bool
  | .num => false
  | .simple p _ _ | .compound p _ | .any p _ _ => p

/-- Quantities of a compound dimension are compound. -/
def mk (p : Bool) (d : Dim) (e : Option ℚ := none) : QTy := if isCompound d then .compound p d else .any p d e

def exp : QTy → Option ℚ
  | .simple _ _ e => some e
  | _ => none

def isNum : QTy → Bool
  | .num => true
  | _ => false

def isSimple : QTy → Bool
  | .simple _ _ _ => true
  | _ => false

def isMulti : QTy → Bool
  | .compound _ _ => true
  | _ => false

/-- Not a simple quantity with an exponent other than one. -/
def first : QTy → Bool
  | .num => true
  | .simple _ _ e => e = 1
  | .compound _ _ => true
  | .any _ d e => e = some 1 || isFirstPower d

/-- Certainly not a number. -/
def notNum (t : QTy) : Bool := t.isSimple || t.isMulti || t.dim ≠ 0

/-- Without the exponent. -/
def forget : QTy → QTy
  | .any p d _ => .any p d none
  | t => t

/-- Certainly not a simple quantity. -/
def notUnit (t : QTy) : Bool := t.isNum || t.isMulti || t.dim = 0

/-- Certainly not a compound quantity. -/
def notMulti (t : QTy) : Bool := t.isNum || t.isSimple

def pow (q : ℚ) : QTy → QTy
  | .num => .num
  | .simple p d e => .simple p (q • d) (e * q)
  | .compound p d => .compound p (q • d)
  | .any p d e => .any p (q • d) (e.map (· * q))

variable {t : QTy} {v : Val ℝ}

theorem Has.ok (h : t.Has v) : ValOk t.pre v := by
  cases t with
  | num => obtain ⟨x, rfl⟩ := h; trivial
  | simple p d e => exact h.2.1
  | compound p d => exact h.2.1
  | any p d e => exact h.1

theorem Has.loose (h : t.Has v) : LooseVal v := h.ok.loose

theorem Has.plain (h : t.Has v) (hp : t.pre = false) : PlainVal v := by
  have := h.ok
  rw [hp] at this
  exact this

theorem Has.dim (h : t.Has v) : v.dim = t.dim := by
  cases t with
  | num => obtain ⟨x, rfl⟩ := h; rfl
  | simple p d e => exact h.2.2
  | compound p d => exact h.2.2
  | any p d e => exact h.2.1

theorem Has.is_num (h : t.Has v) (ht : t.isNum = true) : ∃ x, v = .num x := by
  cases t with
  | num => exact h
  | _ => cases ht

theorem Has.is_simple (h : t.Has v) (ht : t.isSimple = true) : ∃ x, v = .unit x := by
  cases t with
  | simple p d e => obtain ⟨⟨u, h, -⟩, -⟩ := h; exact ⟨u, h⟩
  | _ => cases ht

theorem Has.is_multi (h : t.Has v) (ht : t.isMulti = true) : ∃ x, v = .multi x := by
  cases t with
  | compound p d => exact h.1
  | _ => cases ht

theorem Has.first_exp {u : UnitV ℝ} (h : t.Has (.unit u)) (hf : t.first = true) : u.exp = 1 := by
  cases t with
  | num => obtain ⟨x, h⟩ := h; cases h
  | simple p d e =>
    obtain ⟨⟨w, h, he⟩, -⟩ := h
    cases h
    simp only [first, decide_eq_true_eq] at hf
    rw [he, hf]
  | compound p d => obtain ⟨⟨w, h⟩, -⟩ := h; cases h
  | any p d e =>
    simp only [first, Bool.or_eq_true, decide_eq_true_eq] at hf
    rcases hf with hf | hf
    · exact h.2.2 1 hf u rfl
    · exact first_of_dim' h.loose (by rw [h.dim]; exact hf)

theorem Has.exp_eq {p : Bool} {d : Dim} {e : ℚ} {u : UnitV ℝ} (h : (QTy.simple p d e).Has (.unit u)) : u.exp = e := by
  obtain ⟨⟨w, h, he⟩, -⟩ := h
  cases h
  exact he

theorem Has.not_num (h : t.Has v) (ht : t.notNum = true) : ∀ z, v ≠ .num z := by
  rintro z rfl
  simp only [notNum, Bool.or_eq_true, decide_eq_true_eq] at ht
  rcases ht with (ht | ht) | ht
  · obtain ⟨x, e⟩ := h.is_simple ht; cases e
  · obtain ⟨x, e⟩ := h.is_multi ht; cases e
  · exact ht h.dim.symm

theorem mk_has {p : Bool} {d : Dim} {e : Option ℚ} (h : ValOk p v) (hd : v.dim = d)
    (he : ∀ k, e = some k → ∀ u, v = .unit u → u.exp = k := by simp) : (mk p d e).Has v := by
  unfold mk
  split
  · rename_i hc
    exact ⟨multi_of_compound' h.loose (by rw [hd]; exact hc), h, hd⟩
  · exact ⟨h, hd, he⟩

theorem Has.not_unit (h : t.Has v) (ht : t.notUnit = true) : ∀ u, v ≠ .unit u := by
  rintro u rfl
  simp only [notUnit, Bool.or_eq_true, decide_eq_true_eq] at ht
  rcases ht with (ht | ht) | ht
  · obtain ⟨x, e⟩ := h.is_num ht; cases e
  · obtain ⟨x, e⟩ := h.is_multi ht; cases e
  · exact h.loose.dim_ne (h.dim.trans ht)

theorem Has.not_multi (h : t.Has v) (ht : t.notMulti = true) : ∀ m, v ≠ .multi m := by
  rintro u rfl
  simp only [notMulti, Bool.or_eq_true] at ht
  rcases ht with ht | ht
  · obtain ⟨x, e⟩ := h.is_num ht; cases e
  · obtain ⟨x, e⟩ := h.is_simple ht; cases e

end QTy

/-! ## The checker -/

/-- The kind of a value; the powers of the factors by which its size is off; the powers its own factor is made of, if
known. -/
structure QSt where
  ty : QTy
  off : List ℚ
  own : Option (List ℚ)

namespace QSt

open Powers

/-- A function of both factors, if both are known. -/
def both (f : List ℚ → List ℚ → List ℚ) (s t : QSt) : Option (List ℚ) :=
  s.own.bind fun a => t.own.map fun b => f a b

def expWith (f : ℚ → ℚ → ℚ) (s t : QSt) : Option ℚ := s.ty.exp.bind fun a => t.ty.exp.map fun b => f a b

def mul (s t : QSt) : Option QSt :=
  if s.ty.isMulti || t.ty.isMulti || (s.ty.first && t.ty.first) then
    if s.ty.isNum then some ⟨t.ty.forget, add s.off t.off, t.own⟩
    else if t.ty.isNum then some ⟨s.ty.forget, add s.off t.off, s.own⟩
    else if s.ty.isMulti && t.ty.isMulti then some ⟨.compound false (s.ty.dim + t.ty.dim), add s.off t.off, some []⟩
    else if s.ty.isSimple && t.ty.isSimple then
      some ⟨.mk (s.ty.pre || t.ty.pre) (s.ty.dim + t.ty.dim) (s.expWith (· + ·) t), add s.off t.off, s.both add t⟩
    else if (s.ty.isMulti && t.ty.isSimple) || (s.ty.isSimple && t.ty.isMulti) then
      (s.both add t).map fun o => ⟨.mk false (s.ty.dim + t.ty.dim), sub (add s.off t.off) o, some []⟩
    else if !s.ty.pre && !t.ty.pre then some ⟨.mk false (s.ty.dim + t.ty.dim), add s.off t.off, some []⟩
    else if (s.ty.notUnit && t.ty.notUnit) || (s.ty.notMulti && t.ty.notMulti) then
      some ⟨.mk (s.ty.pre || t.ty.pre) (s.ty.dim + t.ty.dim), add s.off t.off, none⟩
    else none
  else none

def div (s t : QSt) : Option QSt :=
  if t.ty.isNum then some ⟨s.ty.forget, sub s.off t.off, s.own⟩
  else if s.ty.isNum then some ⟨.mk t.ty.pre (s.ty.dim - t.ty.dim), sub s.off t.off, t.own.map neg⟩
  else if s.ty.isMulti && t.ty.notNum then some ⟨.mk false (s.ty.dim - t.ty.dim), sub s.off t.off, some []⟩
  else if s.ty.isSimple && t.ty.isSimple then
    some ⟨.mk (s.ty.pre || t.ty.pre) (s.ty.dim - t.ty.dim) (s.expWith (· - ·) t), sub s.off t.off, s.both sub t⟩
  else if s.ty.isSimple && t.ty.isMulti then
    (s.both sub t).map fun o => ⟨.mk false (s.ty.dim - t.ty.dim), sub (sub s.off t.off) o, some []⟩
  else if !s.ty.pre && !t.ty.pre then some ⟨.mk false (s.ty.dim - t.ty.dim), sub s.off t.off, some []⟩
  else if s.ty.notUnit || t.ty.notMulti then
    some ⟨.mk (s.ty.pre || t.ty.pre) (s.ty.dim - t.ty.dim), sub s.off t.off, none⟩
  else none

def addSub (s t : QSt) : Option QSt :=
  if isZero (sub s.off t.off) && (s.ty.isNum || s.ty.isMulti || t.ty.notNum) then some ⟨s.ty, s.off, s.own⟩ else none

def pow (q : ℚ) (s : QSt) : Option QSt :=
  if q = 0 then none else some ⟨s.ty.pow q, smul q s.off, s.own.map (smul q)⟩

end QSt

/-- The checker. -/
def Code.fate (Γ : ℕ → Option QSt) : Code → Option QSt
  | .var i => Γ i
  | .lit _ | .pi => some ⟨.num, [], some []⟩
  | .mul a b => (a.fate Γ).bind fun s => (b.fate Γ).bind fun t => s.mul t
  | .div a b => (a.fate Γ).bind fun s => (b.fate Γ).bind fun t => s.div t
  | .add a b => (a.fate Γ).bind fun s => (b.fate Γ).bind fun t => s.addSub t
  | .sub a b => (a.fate Γ).bind fun s => (b.fate Γ).bind fun t => s.addSub t
  | .neg a => a.fate Γ
  | .pow a q => (a.fate Γ).bind fun s => s.pow q
  | .fn _ a => (a.fate Γ).bind fun s => if Powers.isZero s.off then some ⟨.num, [], some []⟩ else none
  | .const _ _ u => match parseUnits u with
    | .ok (t, b) => if u ≠ [] ∧ ∀ v ∈ t ++ b, v.unit ∈ siSymbols then some ⟨.compound false (dimOfUnit t b), [], some []⟩ else none
    | .error _ => none
  | .conv _ _ => none

/-! ## Soundness -/

section
open Powers

/-- The value `v` is as `s` says; its size is stated to be `e`. -/
structure QSt.Holds (ρ : Sym → ℝ) (L : ℕ → ℝ) (s : QSt) (e : ℝ) (v : Val ℝ) : Prop where
  has : s.ty.Has v
  magn : v.magn ρ = e * Real.exp (val L s.off)
  own : ∀ o, s.own = some o → v.scale = Real.exp (val L o)

variable {ρ : Sym → ℝ} {L : ℕ → ℝ} {s t w : QSt} {e e' : ℝ} {x y r : Val ℝ}

theorem plainOwn (h : PlainVal x) (o : List ℚ) (ho : some [] = some o) : x.scale = Real.exp (val L o) := by
  cases ho; rw [h.scale]; simp [val]

theorem QSt.both_some {f : List ℚ → List ℚ → List ℚ} {o : List ℚ} (h : s.both f t = some o) :
    ∃ a b, s.own = some a ∧ t.own = some b ∧ o = f a b := by
  simp only [QSt.both, Option.bind_eq_some_iff, Option.map_eq_some_iff] at h
  obtain ⟨a, h1, b, h2, h3⟩ := h
  exact ⟨a, b, h1, h2, h3.symm⟩

theorem QSt.expWith_some {f : ℚ → ℚ → ℚ} {k : ℚ} (h : s.expWith f t = some k) {u w : UnitV ℝ} (hu : s.ty.Has (.unit u))
    (hw : t.ty.Has (.unit w)) : k = f u.exp w.exp := by
  simp only [QSt.expWith, Option.bind_eq_some_iff, Option.map_eq_some_iff] at h
  obtain ⟨a, h1, b, h2, h3⟩ := h
  have key : ∀ {τ : QTy} {v : UnitV ℝ} {c : ℚ}, τ.Has (.unit v) → τ.exp = some c → v.exp = c := by
    intro τ v c hv hc
    cases τ with
    | simple p d e => cases hc; exact hv.exp_eq
    | _ => cases hc
  rw [key hu h1, key hw h2, h3]

theorem QSt.mul_sound (hρ : Coherent ρ) (hx : s.Holds ρ L e x) (hy : t.Holds ρ L e' y) (hw : s.mul t = some w)
    (h : Val.mul x y = .ok r) : w.Holds ρ L (e * e') r := by
  have lx := hx.has.loose
  have ly := hy.has.loose
  simp only [QSt.mul] at hw
  split at hw
  swap
  · cases hw
  rename_i hg
  simp only [Bool.or_eq_true, Bool.and_eq_true] at hg
  have hs : MulDimSafe x y ∧ ∀ u w, x = .unit u → y = .unit w → u.exp + w.exp ≠ 0 := by
    rcases hg with (h | h) | ⟨h1, h2⟩
    · obtain ⟨m, rfl⟩ := hx.has.is_multi h
      exact ⟨by cases y <;> trivial, by simp⟩
    · obtain ⟨m, rfl⟩ := hy.has.is_multi h
      exact ⟨by cases x <;> trivial, by simp⟩
    · refine ⟨?_, ?_⟩
      · cases x with
        | num p => cases y with
          | unit u => exact hy.has.first_exp h2
          | _ => trivial
        | unit u => cases y with
          | num p => exact hx.has.first_exp h1
          | unit w => exact .inr ⟨hx.has.first_exp h1, hy.has.first_exp h2⟩
          | _ => trivial
        | _ => trivial
      · rintro u w rfl rfl
        rw [hx.has.first_exp h1, hy.has.first_exp h2]; norm_num
  have hdim : r.dim = s.ty.dim + t.ty.dim := by
    rw [(mul_weighs lx.sound ly.sound hs.1 h).dim (d := x.dim + y.dim) fun g => by
      rw [weight_dim, weight_dim, map_add], hx.has.dim, hy.has.dim]
  have hok := mul_valOk hx.has.ok hy.has.ok hs.2 h
  have hexact (hs : MulSafe x y) : r.magn ρ = e * e' * Real.exp (val L (add s.off t.off)) := by
    rw [mul_magn lx ly hs h hρ, hx.magn, hy.magn, val_add, Real.exp_add]; ring
  split at hw
  · rename_i hn
    cases hw
    obtain ⟨p, rfl⟩ := hx.has.is_num hn
    have hk := mul_num_scale ly hs.1 h
    have he := hexact (by cases y <;> exact hs.1)
    have hpx : s.ty = .num := by
      cases hst : s.ty <;> rw [hst] at hn <;> first | rfl | cases hn
    rw [hpx] at hdim hok
    simp only [QTy.dim, zero_add, QTy.pre, Bool.false_or] at hdim hok
    refine ⟨?_, he, fun o ho => by rw [hk, hy.own o ho]⟩
    cases hty : t.ty with
    | num =>
      obtain ⟨q, rfl⟩ := hy.has.is_num (by rw [hty]; rfl)
      cases h; exact ⟨_, rfl⟩
    | simple p' d k =>
      have hh := hy.has
      rw [hty] at hdim hok hh
      obtain ⟨u, rfl⟩ := hy.has.is_simple (by rw [hty]; rfl)
      have h1 : u.exp = 1 := hs.1
      simp only [Val.mul, unitRmul, ly.1.rebuild, wrapUnit, Except.ok.injEq] at h
      exact ⟨⟨_, h.symm, by rw [← hh.exp_eq, h1]⟩, hok, hdim⟩
    | compound p' d =>
      rw [hty] at hdim hok
      obtain ⟨m, rfl⟩ := hy.has.is_multi (by rw [hty]; rfl)
      simp only [Val.mul, multiRmul, Except.ok.injEq] at h
      exact ⟨⟨_, h.symm⟩, hok, hdim⟩
    | any p' d k => rw [hty] at hdim hok; exact ⟨hok, hdim, by simp⟩
  split at hw
  · rename_i hn
    cases hw
    obtain ⟨p, rfl⟩ := hy.has.is_num hn
    have hk := mul_num_scale' lx hs.1 h
    have he := hexact (by cases x <;> exact hs.1)
    have hpx : t.ty = .num := by
      cases hst : t.ty <;> rw [hst] at hn <;> first | rfl | cases hn
    rw [hpx] at hdim hok
    simp only [QTy.dim, add_zero, QTy.pre, Bool.or_false] at hdim hok
    refine ⟨?_, he, fun o ho => by rw [hk, hx.own o ho]⟩
    cases hty : s.ty with
    | num =>
      obtain ⟨q, rfl⟩ := hx.has.is_num (by rw [hty]; rfl)
      cases h; exact ⟨_, rfl⟩
    | simple p' d k =>
      have hh := hx.has
      rw [hty] at hdim hok hh
      obtain ⟨u, rfl⟩ := hx.has.is_simple (by rw [hty]; rfl)
      have h1 : u.exp = 1 := hs.1
      simp only [Val.mul, unitMul, lx.1.rebuild, wrapUnit, Except.ok.injEq] at h
      exact ⟨⟨_, h.symm, by rw [← hh.exp_eq, h1]⟩, hok, hdim⟩
    | compound p' d =>
      rw [hty] at hdim hok
      obtain ⟨m, rfl⟩ := hx.has.is_multi (by rw [hty]; rfl)
      simp only [Val.mul, multiMul, Except.ok.injEq] at h
      exact ⟨⟨_, h.symm⟩, hok, hdim⟩
    | any p' d k => rw [hty] at hdim hok; exact ⟨hok, hdim, by simp⟩
  split at hw
  · rename_i hn
    cases hw
    rw [Bool.and_eq_true] at hn
    obtain ⟨m, rfl⟩ := hx.has.is_multi hn.1
    obtain ⟨o, rfl⟩ := hy.has.is_multi hn.2
    obtain ⟨k, rfl, hp⟩ := mul_multi_plain lx ly h
    exact ⟨⟨⟨k, rfl⟩, hp, hdim⟩, hexact trivial, plainOwn hp⟩
  split at hw
  · rename_i hn
    cases hw
    rw [Bool.and_eq_true] at hn
    obtain ⟨m, rfl⟩ := hx.has.is_simple hn.1
    obtain ⟨o, rfl⟩ := hy.has.is_simple hn.2
    refine ⟨QTy.mk_has hok hdim fun k hk u hu => ?_, hexact hs.1, fun p hp => ?_⟩
    · rw [QSt.expWith_some hk hx.has hy.has]
      subst hu
      simp only [Val.mul, unitMul] at h
      split at h
      · simp only [lx.1.rebuild, wrapUnit, Except.ok.injEq, Val.unit.injEq] at h
        rw [← h]
      · cases h
    · obtain ⟨a, b, ha, hb, rfl⟩ := QSt.both_some hp
      rw [mul_unit_scale lx hs.1 h, hx.own a ha, hy.own b hb, val_add, Real.exp_add]
  split at hw
  · rename_i hn
    simp only [Option.map_eq_some_iff] at hw
    obtain ⟨o, ho, rfl⟩ := hw
    obtain ⟨a, b, ha, hb, rfl⟩ := QSt.both_some ho
    simp only [Bool.or_eq_true, Bool.and_eq_true] at hn
    have key : PlainVal r ∧ r.magn ρ * (x.scale * y.scale) = x.magn ρ * y.magn ρ := by
      rcases hn with ⟨h1, h2⟩ | ⟨h1, h2⟩
      · obtain ⟨m, rfl⟩ := hx.has.is_multi h1
        obtain ⟨u, rfl⟩ := hy.has.is_simple h2
        exact mul_mixed lx ly (.inl h) hρ
      · obtain ⟨u, rfl⟩ := hx.has.is_simple h1
        obtain ⟨m, rfl⟩ := hy.has.is_multi h2
        obtain ⟨k1, k2⟩ := mul_mixed ly lx (.inr h) hρ
        exact ⟨k1, by rw [mul_comm (Val.scale _), k2, mul_comm]⟩
    obtain ⟨hp, hm⟩ := key
    refine ⟨QTy.mk_has hp hdim, ?_, plainOwn hp⟩
    rw [hx.own a ha, hy.own b hb, hx.magn, hy.magn] at hm
    have h1 := (Real.exp_pos (val L a)).ne'
    have h2 := (Real.exp_pos (val L b)).ne'
    rw [val_sub, val_add, val_add, Real.exp_sub, Real.exp_add, Real.exp_add, mul_div_assoc', eq_div_iff (mul_ne_zero h1 h2), hm]
    ring
  split at hw
  · rename_i hn
    cases hw
    simp only [Bool.and_eq_true, Bool.not_eq_true'] at hn
    have px := hx.has.plain hn.1
    have py := hy.has.plain hn.2
    rw [hn.1, hn.2] at hok
    replace hok : PlainVal r := hok
    have hsafe : MulSafe x y := by
      have hd := hs.1
      cases x with
      | unit u => cases y with
        | multi m => exact ⟨py.plain, px.2.1.1⟩
        | _ => exact hd
      | multi m => cases y with
        | unit u => exact ⟨px.plain, py.2.1.1⟩
        | _ => trivial
      | num p => cases y <;> exact hd
      | _ => trivial
    exact ⟨QTy.mk_has hok hdim, hexact hsafe, plainOwn hok⟩
  split at hw
  · rename_i hn
    cases hw
    simp only [Bool.or_eq_true, Bool.and_eq_true] at hn
    have hsafe : MulSafe x y := by
      have hd := hs.1
      rcases hn with ⟨h1, h2⟩ | ⟨h1, h2⟩
      · cases x with
        | unit u => exact absurd rfl (hx.has.not_unit h1 u)
        | _ => cases y with
          | unit u => exact absurd rfl (hy.has.not_unit h2 u)
          | _ => trivial
      · cases x with
        | multi u => exact absurd rfl (hx.has.not_multi h1 u)
        | _ => cases y with
          | multi u => exact absurd rfl (hy.has.not_multi h2 u)
          | _ => exact hd
    exact ⟨QTy.mk_has hok hdim, hexact hsafe, by simp⟩
  · cases hw

theorem QSt.div_sound (hρ : Coherent ρ) (hx : s.Holds ρ L e x) (hy : t.Holds ρ L e' y) (hw : s.div t = some w)
    (h : Val.div x y = .ok r) : w.Holds ρ L (e / e') r := by
  have lx := hx.has.loose
  have ly := hy.has.loose
  simp only [QSt.div] at hw
  have hdim : r.dim = s.ty.dim - t.ty.dim := by
    rw [(div_weighs lx.sound ly.sound h).dim (d := x.dim - y.dim) fun g => by
      rw [weight_dim, weight_dim, map_sub], hx.has.dim, hy.has.dim]
  have hok := div_valOk hx.has.ok hy.has.ok h
  have hexact (hs : DivSafe x y) : r.magn ρ = e / e' * Real.exp (val L (sub s.off t.off)) := by
    rw [div_magn lx ly hs h hρ, hx.magn, hy.magn, val_sub, Real.exp_sub]
    rw [mul_div_mul_comm]
  split at hw
  · rename_i hn
    cases hw
    obtain ⟨p, rfl⟩ := hy.has.is_num hn
    have hk := div_num_scale lx h
    have he := hexact (by cases x <;> trivial)
    have hpx : t.ty = .num := by
      cases hst : t.ty <;> rw [hst] at hn <;> first | rfl | cases hn
    rw [hpx] at hdim hok
    simp only [QTy.dim, sub_zero, QTy.pre, Bool.or_false] at hdim hok
    refine ⟨?_, he, fun o ho => by rw [hk, hx.own o ho]⟩
    cases hty : s.ty with
    | num =>
      obtain ⟨q, rfl⟩ := hx.has.is_num (by rw [hty]; rfl)
      simp only [Val.div] at h
      split at h
      · cases h
      · cases h; exact ⟨_, rfl⟩
    | simple p' d k =>
      have hh := hx.has
      rw [hty] at hdim hok hh
      obtain ⟨u, rfl⟩ := hx.has.is_simple (by rw [hty]; rfl)
      simp only [Val.div, unitDiv] at h
      split at h
      · cases h
      · simp only [lx.1.rebuild, wrapUnit, Except.ok.injEq] at h
        exact ⟨⟨_, h.symm, by rw [← hh.exp_eq]⟩, hok, hdim⟩
    | compound p' d =>
      rw [hty] at hdim hok
      obtain ⟨m, rfl⟩ := hx.has.is_multi (by rw [hty]; rfl)
      simp only [Val.div, multiDiv] at h
      split at h
      · cases h
      · simp only [Except.ok.injEq] at h
        exact ⟨⟨_, h.symm⟩, hok, hdim⟩
    | any p' d k => rw [hty] at hdim hok; exact ⟨hok, hdim, by simp⟩
  split at hw
  · rename_i hn
    cases hw
    obtain ⟨p, rfl⟩ := hx.has.is_num hn
    have hpx : s.ty.pre = false := by
      cases hst : s.ty <;> rw [hst] at hn <;> first | rfl | cases hn
    rw [hpx, Bool.false_or] at hok
    exact ⟨QTy.mk_has hok hdim, hexact (by cases y <;> trivial),
      fun o ho => by
        obtain ⟨b, hb, rfl⟩ := Option.map_eq_some_iff.1 ho
        rw [num_div_scale ly h, hy.own b hb, val_neg, Real.exp_neg]⟩
  split at hw
  · rename_i hn
    cases hw
    rw [Bool.and_eq_true] at hn
    obtain ⟨m, rfl⟩ := hx.has.is_multi hn.1
    have hp := div_multi_plain lx ly (hy.has.not_num hn.2) h
    exact ⟨QTy.mk_has hp hdim, hexact (by cases y <;> trivial), plainOwn hp⟩
  split at hw
  · rename_i hn
    cases hw
    rw [Bool.and_eq_true] at hn
    obtain ⟨m, rfl⟩ := hx.has.is_simple hn.1
    obtain ⟨o, rfl⟩ := hy.has.is_simple hn.2
    refine ⟨QTy.mk_has hok hdim fun k hk u hu => ?_, hexact trivial, fun p hp => ?_⟩
    · rw [QSt.expWith_some hk hx.has hy.has]
      subst hu
      have hv : o.value ≠ 0 := by
        intro h0
        simp [Val.div, unitDiv, pyDiv, h0] at h
      simp only [Val.div, unitDiv, pyDiv_ne hv] at h
      split at h
      · split at h
        · cases h
        · simp only [lx.1.rebuild, wrapUnit, Except.ok.injEq, Val.unit.injEq] at h
          rw [← h]
      · cases h
    · obtain ⟨a, b, ha, hb, rfl⟩ := QSt.both_some hp
      rw [unit_div_scale lx h, hx.own a ha, hy.own b hb, val_sub, Real.exp_sub]
  split at hw
  · rename_i hn
    simp only [Option.map_eq_some_iff] at hw
    obtain ⟨o, ho, rfl⟩ := hw
    obtain ⟨a, b, ha, hb, rfl⟩ := QSt.both_some ho
    rw [Bool.and_eq_true] at hn
    obtain ⟨m, rfl⟩ := hx.has.is_simple hn.1
    obtain ⟨o, rfl⟩ := hy.has.is_multi hn.2
    obtain ⟨hp, hm⟩ := div_mixed lx ly h hρ
    refine ⟨QTy.mk_has hp hdim, ?_, plainOwn hp⟩
    rw [hx.own a ha, hy.own b hb, hx.magn, hy.magn] at hm
    have h1 := (Real.exp_pos (val L a)).ne'
    have h2 := (Real.exp_pos (val L b)).ne'
    rw [val_sub, val_sub, val_sub, Real.exp_sub, Real.exp_sub, Real.exp_sub, mul_div_assoc', eq_div_iff (div_ne_zero h1 h2), hm]
    rw [mul_div_mul_comm]
  split at hw
  · rename_i hn
    cases hw
    simp only [Bool.and_eq_true, Bool.not_eq_true'] at hn
    have px := hx.has.plain hn.1
    have py := hy.has.plain hn.2
    rw [hn.1, hn.2] at hok
    replace hok : PlainVal r := hok
    have hsafe : DivSafe x y := by
      cases x with
      | unit u => cases y with
        | multi m => exact ⟨py.plain, px.2.1.1⟩
        | _ => trivial
      | _ => trivial
    exact ⟨QTy.mk_has hok hdim, hexact hsafe, plainOwn hok⟩
  split at hw
  · rename_i hn
    cases hw
    simp only [Bool.or_eq_true] at hn
    have hsafe : DivSafe x y := by
      cases x with
      | unit u =>
        rcases hn with h1 | h1
        · exact absurd rfl (hx.has.not_unit h1 u)
        · cases y with
          | multi m => exact absurd rfl (hy.has.not_multi h1 m)
          | _ => trivial
      | _ => trivial
    exact ⟨QTy.mk_has hok hdim, hexact hsafe, by simp⟩
  · cases hw

theorem form_back (hx : LooseVal x) (f2 : (∃ p, x = .num p) → ∃ p, r = .num p)
    (f3 : ∀ k, (∃ u, x = .unit u ∧ u.exp = k) → ∃ u, r = .unit u ∧ u.exp = k)
    (f4 : (∃ m, x = .multi m) → ∃ m, r = .multi m) {u : UnitV ℝ} (hr : r = .unit u) : ∃ w, x = .unit w ∧ w.exp = u.exp := by
  subst hr
  cases x with
  | none | other | bare => exact hx.elim
  | num z => obtain ⟨z', e⟩ := f2 ⟨z, rfl⟩; cases e
  | multi z => obtain ⟨z', e⟩ := f4 ⟨z, rfl⟩; cases e
  | unit w => obtain ⟨z', e, h⟩ := f3 _ ⟨w, rfl, rfl⟩; cases e; exact ⟨w, rfl, h.symm⟩

theorem QSt.add_sound (hρ : Coherent ρ) (hx : s.Holds ρ L e x) (hy : t.Holds ρ L e' y) (hw : s.addSub t = some w) :
    (Val.add x y = .ok r → w.Holds ρ L (e + e') r) ∧ (Val.sub x y = .ok r → w.Holds ρ L (e - e') r) := by
  have lx := hx.has.loose
  have ly := hy.has.loose
  simp only [QSt.addSub] at hw
  split at hw
  swap
  · cases hw
  rename_i hg
  cases hw
  simp only [Bool.or_eq_true, Bool.and_eq_true] at hg
  have ho : val L s.off = val L t.off := by
    have := val_isZero hg.1 L
    rw [val_sub] at this; linarith
  have hs : AddSafe x y := by
    rcases hg.2 with (h | h) | h
    · obtain ⟨p, rfl⟩ := hx.has.is_num h; cases y <;> trivial
    · obtain ⟨p, rfl⟩ := hx.has.is_multi h; cases y <;> trivial
    · cases x with
      | unit u => cases y with
        | num q => exact hy.has.not_num h q rfl
        | _ => trivial
      | _ => trivial
  have form (h : Val.add x y = .ok r ∨ Val.sub x y = .ok r) : s.ty.Has r ∧ ∀ o, s.own = some o → r.scale = Real.exp (val L o) := by
    obtain ⟨f1, f2, f3, f4⟩ := add_form lx ly hs h
    have hok := add_valOk hx.has.ok ly hs h
    have hdim : r.dim = s.ty.dim := by
      rw [(add_weighs lx.sound ly.sound hs h).2.dim (d := x.dim) fun g => by rw [weight_dim], hx.has.dim]
    refine ⟨?_, fun o ho => by rw [f1, hx.own o ho]⟩
    cases hty : s.ty with
    | num => exact f2 (hx.has.is_num (by rw [hty]; rfl))
    | simple p d k => have hh := hx.has; rw [hty] at hdim hok hh; exact ⟨f3 _ hh.1, hok, hdim⟩
    | compound p d => rw [hty] at hdim hok; exact ⟨f4 (hx.has.is_multi (by rw [hty]; rfl)), hok, hdim⟩
    | any p d k =>
      have hh := hx.has
      rw [hty] at hdim hok hh
      refine ⟨hok, hdim, fun k' hk u hu => ?_⟩
      obtain ⟨w, rfl, hw⟩ := form_back lx f2 f3 f4 hu
      rw [← hw, hh.2.2 k' hk w rfl]
  refine ⟨fun h => ⟨(form (.inl h)).1, ?_, (form (.inl h)).2⟩, fun h => ⟨(form (.inr h)).1, ?_, (form (.inr h)).2⟩⟩
  · rw [add_magn lx ly hs h hρ, hx.magn, hy.magn, ho]; ring
  · rw [sub_magn lx ly hs h hρ, hx.magn, hy.magn, ho]; ring

theorem QSt.neg_sound (hx : s.Holds ρ L e x) (h : Val.neg x = .ok r) : s.Holds ρ L (-e) r := by
  have lx := hx.has.loose
  obtain ⟨f1, f2, f3, f4⟩ := neg_form lx h
  have hok := neg_valOk hx.has.ok h
  have hdim : r.dim = s.ty.dim := by
    rw [(neg_weighs lx.sound h).dim (d := x.dim) fun g => by rw [weight_dim], hx.has.dim]
  refine ⟨?_, by rw [neg_magn lx h, hx.magn]; ring, fun o ho => by rw [f1, hx.own o ho]⟩
  cases hty : s.ty with
  | num => exact f2 (hx.has.is_num (by rw [hty]; rfl))
  | simple p d k => have hh := hx.has; rw [hty] at hdim hok hh; exact ⟨f3 _ hh.1, hok, hdim⟩
  | compound p d => rw [hty] at hdim hok; exact ⟨f4 (hx.has.is_multi (by rw [hty]; rfl)), hok, hdim⟩
  | any p d k =>
    have hh := hx.has
    rw [hty] at hdim hok hh
    refine ⟨hok, hdim, fun k' hk u hu => ?_⟩
    obtain ⟨w, rfl, hw⟩ := form_back lx f2 f3 f4 hu
    rw [← hw, hh.2.2 k' hk w rfl]

/-- A positive factor can be taken out of a power. -/
theorem mul_exp_rpow (e z : ℝ) {q : ℚ} (hq : q ≠ 0) :
    (e * Real.exp z) ^ (q : ℝ) = e ^ (q : ℝ) * Real.exp (q * z) := by
  have hq' : (q : ℝ) ≠ 0 := by exact_mod_cast hq
  rcases lt_trichotomy e 0 with h | rfl | h
  · rw [Real.rpow_def_of_neg (mul_neg_of_neg_of_pos h (Real.exp_pos z)), Real.rpow_def_of_neg h,
      Real.log_mul h.ne (Real.exp_pos z).ne', Real.log_exp, add_mul, Real.exp_add, mul_comm z]
    ring
  · rw [zero_mul, Real.zero_rpow hq', zero_mul]
  · rw [Real.mul_rpow h.le (Real.exp_pos z).le, ← Real.exp_mul, mul_comm z]

theorem QSt.pow_sound {q : ℚ} (hρ : Coherent ρ) (hx : s.Holds ρ L e x) (hw : s.pow q = some w)
    (h : Val.pow x q = .ok r) : w.Holds ρ L (e ^ (q : ℝ)) r := by
  have lx := hx.has.loose
  simp only [QSt.pow] at hw
  split at hw
  · cases hw
  rename_i hq
  cases hw
  have hok := pow_valOk hx.has.ok hq h
  have hdim : r.dim = q • s.ty.dim := by
    rw [(pow_weighs lx.sound h).dim (d := q • x.dim) fun g => by rw [weight_dim, map_smul, smul_eq_mul], hx.has.dim]
  refine ⟨?_, ?_, ?_⟩
  · show (s.ty.pow q).Has r
    cases hty : s.ty with
    | num => obtain ⟨p, rfl⟩ := hx.has.is_num (by rw [hty]; rfl); exact pow_num h
    | simple p d k =>
      have hh := hx.has
      rw [hty] at hdim hok hh
      obtain ⟨u, rfl⟩ := hx.has.is_simple (by rw [hty]; rfl)
      obtain ⟨w, e1, e2⟩ := (pow_unit_scale lx h).2
      exact ⟨⟨w, e1, by rw [e2, hh.exp_eq]⟩, hok, hdim⟩
    | compound p d =>
      rw [hty] at hdim hok
      obtain ⟨u, rfl⟩ := hx.has.is_multi (by rw [hty]; rfl)
      exact ⟨pow_multi h, hok, hdim⟩
    | any p d k =>
      have hh := hx.has
      rw [hty] at hdim hok hh
      refine ⟨hok, hdim, fun k' hk u hu => ?_⟩
      obtain ⟨a, ha, rfl⟩ := Option.map_eq_some_iff.1 hk
      cases x with
      | none | other | bare => exact lx.elim
      | num z => obtain ⟨z', e⟩ := pow_num h; rw [hu] at e; cases e
      | multi m => obtain ⟨z', e⟩ := pow_multi h; rw [hu] at e; cases e
      | unit w =>
        obtain ⟨w', e1, e2⟩ := (pow_unit_scale lx h).2
        rw [hu] at e1
        cases e1
        rw [e2, hh.2.2 a ha w rfl]
  · show r.magn ρ = _ * Real.exp (val L (smul q s.off))
    rw [pow_magn lx h hρ, hx.magn, val_smul, mul_exp_rpow _ _ hq]
  · intro o ho
    obtain ⟨a, ha, rfl⟩ := Option.map_eq_some_iff.1 ho
    have h1 := hx.own a ha
    rw [val_smul, mul_comm, Real.exp_mul, ← h1]
    cases x with
    | none | other | bare => exact lx.elim
    | num z => obtain ⟨z', rfl⟩ := pow_num h; simp [Val.scale]
    | unit u => exact (pow_unit_scale lx h).1
    | multi m => exact pow_multi_scale h

/-- Soundness of the checker. -/
theorem Code.fate_sound {Γ : ℕ → Option QSt} {env : ℕ → Val ℝ} {ξ : ℕ → ℝ} (hρ : Coherent ρ)
    (hΓ : ∀ i s, Γ i = some s → s.Holds ρ L (ξ i) (env i)) (c : Code) :
    (c.hasConst = true → ρ = siR) → ∀ w, c.fate Γ = some w → ∀ r, c.run env = .ok r → w.Holds ρ L (c.eval ξ) r := by
  induction c with
  | var i => intro hc w hw r h; cases h; exact hΓ i w hw
  | lit q =>
    intro hc w hw r h; cases hw; cases h
    exact ⟨⟨_, rfl⟩, by simp [Val.magn, val, Code.eval], by simp [Val.scale, val]⟩
  | pi =>
    intro hc w hw r h; cases hw; cases h
    exact ⟨⟨_, rfl⟩, by simp [Val.magn, val, Code.eval]; rfl, by simp [Val.scale, val]⟩
  | const k q u =>
    intro hc w hw r h
    obtain rfl := hc rfl
    simp only [Code.fate] at hw
    split at hw
    swap
    · cases hw
    rename_i t b hp
    split at hw
    swap
    · cases hw
    rename_i hall
    cases hw
    obtain ⟨hu, hsi⟩ := hall
    have h1 : ∀ v ∈ t, v.unit ∈ siSymbols := fun v hv => hsi v (List.mem_append_left _ hv)
    have h2 : ∀ v ∈ b, v.unit ∈ siSymbols := fun v hv => hsi v (List.mem_append_right _ hv)
    have hr : r = .multi ⟨k, q, t, b⟩ := by
      have h' : constant (K := ℝ) k q u = .ok r := h
      simp only [constant, mkMulti] at h'
      rw [if_neg hu, hp] at h'
      cases h'; rfl
    subst hr
    have hpl : PlainVal (.multi ⟨k, (q : ℝ), t, b⟩) := ⟨known_of_si h1, known_of_si h2⟩
    exact ⟨⟨⟨_, rfl⟩, hpl, rfl⟩, by simp [Val.magn, MultiV.mag, mag, lsize_ones h1, lsize_ones h2, val, Code.eval],
      by rw [hpl.scale]; simp [val]⟩
  | conv => intro hc w hw; cases hw
  | mul a b iha ihb =>
    intro hc w hw r h
    simp only [Code.fate, Option.bind_eq_some_iff] at hw
    obtain ⟨s, ha, t, hb, hw⟩ := hw
    obtain ⟨x, y, h1, h2, h3⟩ := lift2_inv h
    exact QSt.mul_sound hρ (iha (fun h => hc (by simp [Code.hasConst, h])) s ha x h1) (ihb (fun h => hc (by simp [Code.hasConst, h])) t hb y h2) hw h3
  | div a b iha ihb =>
    intro hc w hw r h
    simp only [Code.fate, Option.bind_eq_some_iff] at hw
    obtain ⟨s, ha, t, hb, hw⟩ := hw
    obtain ⟨x, y, h1, h2, h3⟩ := lift2_inv h
    exact QSt.div_sound hρ (iha (fun h => hc (by simp [Code.hasConst, h])) s ha x h1) (ihb (fun h => hc (by simp [Code.hasConst, h])) t hb y h2) hw h3
  | add a b iha ihb =>
    intro hc w hw r h
    simp only [Code.fate, Option.bind_eq_some_iff] at hw
    obtain ⟨s, ha, t, hb, hw⟩ := hw
    obtain ⟨x, y, h1, h2, h3⟩ := lift2_inv h
    exact (QSt.add_sound hρ (iha (fun h => hc (by simp [Code.hasConst, h])) s ha x h1) (ihb (fun h => hc (by simp [Code.hasConst, h])) t hb y h2) hw).1 h3
  | sub a b iha ihb =>
    intro hc w hw r h
    simp only [Code.fate, Option.bind_eq_some_iff] at hw
    obtain ⟨s, ha, t, hb, hw⟩ := hw
    obtain ⟨x, y, h1, h2, h3⟩ := lift2_inv h
    exact (QSt.add_sound hρ (iha (fun h => hc (by simp [Code.hasConst, h])) s ha x h1) (ihb (fun h => hc (by simp [Code.hasConst, h])) t hb y h2) hw).2 h3
  | neg a iha =>
    intro hc w hw r h
    obtain ⟨x, h1, h3⟩ := lift1_inv h
    exact QSt.neg_sound (iha hc w hw x h1) h3
  | pow a q iha =>
    intro hc w hw r h
    simp only [Code.fate, Option.bind_eq_some_iff] at hw
    obtain ⟨s, ha, hw⟩ := hw
    obtain ⟨x, h1, h3⟩ := lift1_inv h
    exact QSt.pow_sound hρ (iha (fun h => hc (by simp [Code.hasConst, h])) s ha x h1) hw h3
  | fn f a iha =>
    intro hc w hw r h
    simp only [Code.fate, Option.bind_eq_some_iff] at hw
    obtain ⟨s, ha, hw⟩ := hw
    obtain ⟨x, h1, h3⟩ := lift1_inv h
    have hx := iha hc s ha x h1
    split at hw
    swap
    · cases hw
    rename_i h0
    cases hw
    have hm := hx.magn
    rw [val_isZero h0, Real.exp_zero, mul_one] at hm
    obtain ⟨k1, k2⟩ := fn_isPlain h3
    cases x with
    | num z =>
      have hz : z = a.eval ξ := hm
      subst hz
      cases f <;> simp only [Fn.call] at h3
      case log =>
        split at h3
        · cases h3; exact ⟨⟨_, rfl⟩, by simp [Val.magn, val, Code.eval]; rfl, by simp [Val.scale, val]⟩
        · cases h3
      all_goals (cases h3; exact ⟨⟨_, rfl⟩, by simp [Val.magn, val, Code.eval]; rfl, by simp [Val.scale, val]⟩)
    | _ => cases h3

end

/-! ## Rows of the table -/

namespace PrefixUse

/-- What the checker is told about argument `i`. -/
def state (t : PrefixUse) (i : ℕ) : Option QSt :=
  match t.arg i with
  | none => none
  | some (k, b) =>
    match k with
    | .number => if b = .ignored then none else some ⟨.num, [], some []⟩
    | .simple d e => some ⟨.simple (b ≠ .absent) d e, if b = .ignored then Powers.single i 1 else [],
      some (if b = .absent then [] else Powers.single i 1)⟩
    | .compound d => some ⟨.compound (b ≠ .absent) d, if b = .ignored then Powers.single i 1 else [],
      some (if b = .absent then [] else Powers.single i 1)⟩

def passes (t : PrefixUse) (c : Code) : Bool :=
  match c.fate t.state with
  | some w => Powers.isZero (Powers.sub w.off t.off)
  | none => false

theorem state_holds {t : PrefixUse} {a : ℕ → Val ℝ} (h : t.Admits a) (ρ : Sym → ℝ) (i : ℕ)
    (s : QSt) (e : t.state i = some s) :
    s.Holds ρ (fun i => Real.log (a i).scale) (t.taken ρ a i) (a i) := by
  unfold state at e
  cases ha : t.arg i with
  | none => rw [ha] at e; cases e
  | some kb =>
    obtain ⟨k, b⟩ := kb
    obtain ⟨hk, hb⟩ := h i _ ha
    have pos := (a i).scale_pos
    have off : (a i).magn ρ = t.taken ρ a i *
        Real.exp (Powers.val (fun i => Real.log (a i).scale) (if b = .ignored then Powers.single i 1 else [])) := by
      simp only [taken, ha]
      cases b with
      | ignored =>
        simp only [if_true, Powers.val_single, Rat.cast_one, one_mul, Real.exp_log pos, Val.struck]
        field_simp
      | heeded => simp [Powers.val]
      | absent => simp [Powers.val]
    have own : ∀ o, some (if b = .absent then [] else Powers.single i 1) = some o →
        (a i).scale = Real.exp (Powers.val (fun i => Real.log (a i).scale) o) := by
      intro o ho
      cases ho
      split
      · rename_i h0
        rw [(hb h0).scale]; simp [Powers.val]
      · simp only [Powers.val_single, Rat.cast_one, one_mul, Real.exp_log pos]
    have ok (hl : LooseVal (a i)) : ValOk (decide (b ≠ .absent)) (a i) := by
      cases b with
      | absent => exact hb rfl
      | _ => exact hl
    rw [ha] at e
    cases k with
    | number =>
      simp only at e
      split at e
      · cases e
      rename_i hn
      cases e
      obtain ⟨x, hx⟩ := hk
      rw [if_neg hn] at off
      exact ⟨⟨x, hx⟩, off, by rw [hx]; simp [Val.scale, Powers.val]⟩
    | simple d k => cases e; exact ⟨⟨hk.1, ok hk.2.1, hk.2.2⟩, off, own⟩
    | compound d => cases e; exact ⟨⟨hk.1, ok hk.2.1, hk.2.2⟩, off, own⟩

theorem describes_of {t : PrefixUse} {c : Code} {f : (ℕ → Val ℝ) → PyM (Val ℝ)} (hc : ∀ a, c.run a = f a)
    (hp : t.passes c = true) : t.Describes c f := by
  intro a h r hr ρ hρ hcon
  unfold passes at hp
  split at hp
  swap
  · cases hp
  rename_i w hw
  have := (Code.fate_sound hρ (state_holds h ρ) c hcon w hw r (by rw [hc, hr])).magn
  rw [this, Powers.val_offBy]
  have h0 := Powers.val_isZero hp fun i => Real.log (a i).scale
  rw [Powers.val_sub] at h0
  rw [show Powers.val (fun i => Real.log (a i).scale) w.off = Powers.val (fun i => Real.log (a i).scale) t.off by linarith]

end PrefixUse

end Verif
