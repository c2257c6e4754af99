import Verif.Units.MathFun
import Verif.Lemmas.Cast
import Lean

/-!
# Evaluating unit algebra with symbolic values

`units_eval [h₁, ...]` rewrites a Python expression over quantities with literal units and symbolic real values to its
result.  The unit part is closed data: the simplification procedure runs the model's own functions over ℚ to find the
result and has the kernel check the equation (`Decidable.decide`), so nothing here is trusted.
-/

namespace Verif

/-- The constructors only store the value. -/
theorem mkUnit_param {K : Type} (c : UCls) (v : K) (s : Sym) (e : ℚ) :
    mkUnit c v s e = match mkUnit c (0 : ℚ) s e with
      | .error err => .error err
      | .ok u => .ok ⟨u.cls, v, u.unit, u.exp⟩ := by
  cases c <;> simp only [mkUnit]
  all_goals try (split_ifs <;> rfl)
  all_goals
    split_ifs
    · rcases splitOn '^' s with _ | ⟨a, _ | ⟨b, _ | ⟨d, r⟩⟩⟩ <;> try rfl
      simp only
      cases pyFloat b <;> rfl
    · rfl

theorem mkUnit_cast {K : Type} {c c' : UCls} {s s' : Sym} {e e' : ℚ}
    (h : mkUnit c (0 : ℚ) s e = .ok ⟨c', 0, s', e'⟩) (v : K) : mkUnit c v s e = .ok ⟨c', v, s', e'⟩ := by
  rw [mkUnit_param, h]

theorem mkUnit_cast_error {K : Type} {c : UCls} {s : Sym} {e : ℚ} {err : Err}
    (h : mkUnit c (0 : ℚ) s e = .error err) (v : K) : mkUnit c v s e = .error err := by
  rw [mkUnit_param, h]

end Verif

namespace Verif.UnitsEval

open Lean Meta

/-- Read a rational literal expression. -/
partial def ratOf? (e : Expr) : Option ℚ :=
  match e.getAppFnArgs with
  | (``OfNat.ofNat, #[_, n, _]) => n.rawNatLit?.map fun k => (k : ℚ)
  | (``Neg.neg, #[_, _, a]) => (ratOf? a).map fun x => -x
  | (``HAdd.hAdd, #[_, _, _, _, a, b]) => do return (← ratOf? a) + (← ratOf? b)
  | (``HSub.hSub, #[_, _, _, _, a, b]) => do return (← ratOf? a) - (← ratOf? b)
  | (``HMul.hMul, #[_, _, _, _, a, b]) => do return (← ratOf? a) * (← ratOf? b)
  | (``HDiv.hDiv, #[_, _, _, _, a, b]) => do return (← ratOf? a) / (← ratOf? b)
  | _ => none

/-- Read a list literal. -/
partial def listOf? {α : Type} (f : Expr → Option α) (e : Expr) : Option (List α) :=
  match e.getAppFnArgs with
  | (``List.nil, _) => some []
  | (``List.cons, #[_, a, r]) => do return (← f a) :: (← listOf? f r)
  | (``HAppend.hAppend, #[_, _, _, _, a, b]) => do return (← listOf? f a) ++ (← listOf? f b)
  | _ => none

/-- Read a character literal. -/
def charOf? (e : Expr) : Option Char :=
  match e.getAppFnArgs with
  | (``Char.ofNat, #[n]) => n.rawNatLit?.map Char.ofNat
  | _ => none

/-- Read a `BaseUnit` literal. -/
def baseOf? (e : Expr) : Option BaseUnit :=
  match e.getAppFnArgs with
  | (``BaseUnit.mk, #[s, q]) => do return ⟨← listOf? charOf? s, ← ratOf? q⟩
  | _ => none

def boolOf? (e : Expr) : Option Bool :=
  if e.isConstOf ``true then some true else if e.isConstOf ``false then some false else none

/-- Write a rational literal. -/
def ratExpr (q : ℚ) : MetaM Expr := do
  let ty := mkConst ``Rat
  let n ← mkNumeral ty q.num.natAbs
  let n ← if q.num < 0 then mkAppM ``Neg.neg #[n] else pure n
  if q.den = 1 then return n else mkAppM ``HDiv.hDiv #[n, ← mkNumeral ty q.den]

def symExpr (s : Sym) : MetaM Expr :=
  mkListLit (mkConst ``Char) (s.map fun c => mkApp (mkConst ``Char.ofNat) (mkRawNatLit c.toNat))

def baseExpr (u : BaseUnit) : MetaM Expr := do
  return mkApp2 (mkConst ``BaseUnit.mk) (← symExpr u.unit) (← ratExpr u.exp)

def ulistExpr (l : UList) : MetaM Expr := do
  mkListLit (mkConst ``BaseUnit) (← l.mapM baseExpr)

/-- A kernel checked proof of a closed decidable proposition. -/
def kernelProof (p : Expr) : MetaM Expr := do
  let pf ← mkDecideProof p
  let nm ← mkAuxLemma [] p pf
  return mkConst nm

/-- Evaluate `reduceUnits` over ℝ on literal lists. -/
simproc_decl evalReduceUnits (reduceUnits (K := ℝ) _ _ _ _) := fun e => do
  let args := e.getAppArgs
  let n := args.size
  let some c1 := boolOf? args[n-4]! | return .continue
  let some c2 := boolOf? args[n-3]! | return .continue
  let some top := listOf? baseOf? args[n-2]! | return .continue
  let some bot := listOf? baseOf? args[n-1]! | return .continue
  match reduceUnits (K := ℚ) c1 c2 top bot with
  | .error _ => return .continue
  | .ok (t, b, f) =>
    let te ← ulistExpr t
    let be ← ulistExpr b
    let fe ← ratExpr f
    let lhs ← mkAppOptM ``reduceUnits
      #[some (mkConst ``Rat), none, none, none, none, none, some args[n-4]!, some args[n-3]!, some args[n-2]!, some args[n-1]!]
    let tup ← mkAppM ``Prod.mk #[te, ← mkAppM ``Prod.mk #[be, fe]]
    let rhs ← mkAppOptM ``Except.ok #[some (mkConst ``Err), none, some tup]
    let h ← kernelProof (← mkEq lhs rhs)
    let pf ← mkAppM ``reduceUnits_cast #[h]
    let some (_, _, r) := (← inferType pf).eq? | return .continue
    return .visit { expr := r, proof? := some pf }

/-- Evaluate `reducePow` on literal lists. -/
simproc_decl evalReducePow (reducePow _ _) := fun e => do
  let args := e.getAppArgs
  let some top := listOf? baseOf? args[0]! | return .continue
  let some bot := listOf? baseOf? args[1]! | return .continue
  match reducePow top bot with
  | .error _ => return .continue
  | .ok (t, b) =>
    let tup ← mkAppM ``Prod.mk #[← ulistExpr t, ← ulistExpr b]
    let rhs ← mkAppOptM ``Except.ok #[some (mkConst ``Err), none, some tup]
    let h ← kernelProof (← mkEq e rhs)
    return .visit { expr := rhs, proof? := some h }

/-- Evaluate `parseUnits` on a literal string. -/
simproc_decl evalParseUnits (parseUnits _) := fun e => do
  let args := e.getAppArgs
  let some str := listOf? charOf? args[0]! | return .continue
  match parseUnits str with
  | .error _ => return .continue
  | .ok (t, b) =>
    let tup ← mkAppM ``Prod.mk #[← ulistExpr t, ← ulistExpr b]
    let rhs ← mkAppOptM ``Except.ok #[some (mkConst ``Err), none, some tup]
    let h ← kernelProof (← mkEq e rhs)
    return .visit { expr := rhs, proof? := some h }

/-- Read a class of simple units. -/
def clsOf? (e : Expr) : Option UCls :=
  [(``UCls.unit, UCls.unit), (``UCls.temperature, .temperature), (``UCls.pressure, .pressure), (``UCls.length, .length),
    (``UCls.time, .time), (``UCls.energy, .energy), (``UCls.mass, .mass), (``UCls.current, .current),
    (``UCls.amount, .amount), (``UCls.force, .force), (``UCls.volume, .volume), (``UCls.area, .area)].lookup e.constName

/-- Evaluate the constructor of a simple unit on literal arguments. -/
simproc_decl evalMkUnit (mkUnit _ _ _ _) := fun e => do
  let args := e.getAppArgs
  let n := args.size
  let some c := clsOf? args[n-4]! | return .continue
  let some s := listOf? charOf? args[n-2]! | return .continue
  let some q := ratOf? args[n-1]! | return .continue
  let zero ← ratExpr 0
  let lhs ← mkAppM ``mkUnit #[args[n-4]!, zero, args[n-2]!, args[n-1]!]
  match mkUnit c (0 : ℚ) s q with
  | .error err =>
    let some errC := [(Err.typeError, ``Err.typeError), (.valueError, ``Err.valueError)].lookup err | return .continue
    let rhs ← mkAppOptM ``Except.error #[none, some (← mkAppM ``UnitV #[mkConst ``Rat]), some (mkConst errC)]
    let h ← kernelProof (← mkEq lhs rhs)
    let pf ← mkAppM ``mkUnit_cast_error #[h, args[n-3]!]
    let some (_, _, r) := (← inferType pf).eq? | return .continue
    return .visit { expr := r, proof? := some pf }
  | .ok u =>
    let ue ← mkAppM ``UnitV.mk #[args[n-4]!, zero, ← symExpr u.unit, ← ratExpr u.exp]
    let rhs ← mkAppOptM ``Except.ok #[some (mkConst ``Err), none, some ue]
    let h ← kernelProof (← mkEq lhs rhs)
    let pf ← mkAppM ``mkUnit_cast #[h, args[n-3]!]
    let some (_, _, r) := (← inferType pf).eq? | return .continue
    return .visit { expr := r, proof? := some pf }

/-- Normalise closed arithmetic in ℚ (exponents). -/
def ratNorm (e : Expr) : SimpM Simp.Step := do
  let some q := ratOf? e | return .continue
  let r ← ratExpr q
  if r == e then return .continue
  let h ← kernelProof (← mkEq e r)
  return .done { expr := r, proof? := some h }

simproc_decl ratAdd ((_ : ℚ) + _) := ratNorm
simproc_decl ratSub ((_ : ℚ) - _) := ratNorm
simproc_decl ratMul ((_ : ℚ) * _) := ratNorm
simproc_decl ratDiv ((_ : ℚ) / _) := ratNorm
simproc_decl ratNeg (-(_ : ℚ)) := ratNorm

/-- Decide a closed proposition. -/
def closedProp (e : Expr) (b : Bool) : SimpM Simp.Step := do
  if b then
    let h ← kernelProof e
    return .done { expr := mkConst ``True, proof? := some (← mkAppM ``eq_true #[h]) }
  else
    let h ← kernelProof (← mkAppM ``Not #[e])
    return .done { expr := mkConst ``False, proof? := some (← mkAppM ``eq_false #[h]) }

simproc_decl ratEq ((_ : ℚ) = _) := fun e => do
  let some (_, a, b) := e.eq? | return .continue
  let some x := ratOf? a | return .continue
  let some y := ratOf? b | return .continue
  closedProp e (x = y)

simproc_decl symEq ((_ : List Char) = _) := fun e => do
  let some (_, a, b) := e.eq? | return .continue
  let some x := listOf? charOf? a | return .continue
  let some y := listOf? charOf? b | return .continue
  closedProp e (x = y)

simproc_decl ulistEq ((_ : List BaseUnit) = _) := fun e => do
  let some (_, a, b) := e.eq? | return .continue
  let some x := listOf? baseOf? a | return .continue
  let some y := listOf? baseOf? b | return .continue
  closedProp e (x = y)

end Verif.UnitsEval

namespace Verif

theorem mkUnit_plain {K : Type} (v : K) (s : Sym) (e : ℚ) : mkUnit .unit v s e = .ok ⟨.unit, v, s, e⟩ := rfl
theorem mkUnit_temperature {K : Type} (v : K) (s : Sym) (e : ℚ) :
    mkUnit .temperature v s e = .ok ⟨.temperature, v, s, e⟩ := rfl
theorem mkUnit_length {K : Type} (v : K) (s : Sym) (e : ℚ) : mkUnit .length v s e = .ok ⟨.length, v, s, e⟩ := rfl
theorem mkUnit_time {K : Type} (v : K) (s : Sym) (e : ℚ) : mkUnit .time v s e = .ok ⟨.time, v, s, e⟩ := rfl
theorem mkUnit_energy {K : Type} (v : K) (s : Sym) (e : ℚ) : mkUnit .energy v s e = .ok ⟨.energy, v, s, e⟩ := rfl
theorem mkUnit_mass {K : Type} (v : K) (s : Sym) (e : ℚ) : mkUnit .mass v s e = .ok ⟨.mass, v, s, e⟩ := rfl

theorem pyDiv_ok {K : Type} [Field K] [DecidableEq K] {x y : K} (h : y ≠ 0) : pyDiv x y = .ok (x / y) := if_neg h

theorem okMulti_congr {K : Type} {c : MCls} {v w : K} {t b : UList} (h : v = w) :
    (Except.ok (Val.multi ⟨c, v, t, b⟩) : PyM (Val K)) = .ok (.multi ⟨c, w, t, b⟩) := by rw [h]

theorem okUnit_congr {K : Type} {c : UCls} {v w : K} {s : Sym} {e : ℚ} (h : v = w) :
    (Except.ok (Val.unit ⟨c, v, s, e⟩) : PyM (Val K)) = .ok (.unit ⟨c, w, s, e⟩) := by rw [h]

theorem okNum_congr {K : Type} {v w : K} (h : v = w) :
    (Except.ok (Val.num v) : PyM (Val K)) = .ok (.num w) := by rw [h]

/-- Evaluate a Python expression with literal units; the values are left as computed. -/
macro "units_eval" "[" hs:Lean.Parser.Tactic.simpLemma,* "]" loc:(Lean.Parser.Tactic.location)? : tactic =>
  `(tactic| simp only [ok_mul, ok_div, ok_add, ok_sub, ok_neg, ok_pow, err_mul, err_div, err_add, err_sub, err_neg,
      err_pow, mul_err, div_err, add_err, sub_err, pnum,
      Val.mul, Val.div, Val.add, Val.sub, Val.neg, Val.pow, multiMul, multiMulMulti, multiMulUnit, multiDiv, multiDivMulti,
      multiDivUnit, unitDivMulti, multiRdiv, multiRmul, multiAdd, multiSub, multiPow, multiNeg, unitAdd, unitSub, unitDiv,
      unitMul, unitRmul, unitPow, unitNeg, isInstance, wrapUnit, packDiv, packMul, pyDiv_ok, BaseUnit.pow,
      List.map_cons, List.map_nil, List.cons_append, List.nil_append,
      UnitsEval.evalMkUnit, mkUnit_plain, mkUnit_temperature, mkUnit_length, mkUnit_time, mkUnit_energy, mkUnit_mass,
      qM, qMulti, qU, mkMulti, pcall, mapPy, pNone, UnitsEval.evalParseUnits,
      UnitsEval.evalReduceUnits, UnitsEval.evalReducePow, UnitsEval.ratAdd, UnitsEval.ratSub, UnitsEval.ratMul,
      UnitsEval.ratDiv, UnitsEval.ratNeg, UnitsEval.ratEq, UnitsEval.symEq, UnitsEval.ulistEq,
      reduceCtorEq, ne_eq, neg_eq_zero, mul_eq_zero, div_eq_zero_iff, not_false_eq_true, not_true_eq_false, or_false,
      false_or, or_self, and_self, and_true, true_and, and_false, false_and, or_true, true_or, if_true, if_false,
      ↓reduceIte, Rat.cast_one, mul_one, eq_self, pow_real_two, pow_real_three, pow_real_four, pow_eq_zero_iff,
      OfNat.ofNat_ne_zero, pyPi, Real.pi_ne_zero, pyExp_num, pyErf_num, pySin_num, $hs,*] $[$loc]?)

end Verif
