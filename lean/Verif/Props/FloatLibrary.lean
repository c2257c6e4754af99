import Verif.Props.FloatFormula
import Verif.Units.CodeLibrary
import Verif.Tactic.UnitsEval

/-!
# C82: rounding errors of the formulas of the library, one by one
-/

namespace Verif

theorem fn_exp (x : PyM (Val ℝ)) : lift1 (Fn.call .exp) x = pyExp x := by
  rcases x with _ | (_ | _ | _ | _ | _ | _) <;> rfl
theorem fn_log (x : PyM (Val ℝ)) : lift1 (Fn.call .log) x = pyLog x := by
  rcases x with _ | (_ | _ | _ | _ | _ | _) <;> rfl
theorem fn_sin (x : PyM (Val ℝ)) : lift1 (Fn.call .sin) x = pySin x := by
  rcases x with _ | (_ | _ | _ | _ | _ | _) <;> rfl
theorem fn_erf (x : PyM (Val ℝ)) : lift1 (Fn.call .erf) x = pyErf x := by
  rcases x with _ | (_ | _ | _ | _ | _ | _) <;> rfl
theorem fn_erfc (x : PyM (Val ℝ)) : lift1 (Fn.call .erfc) x = pyErfc x := by
  rcases x with _ | (_ | _ | _ | _ | _ | _) <;> rfl

section
variable (env : ℕ → Val ℝ) (a b : Code)
theorem run_add : (a + b).run env = a.run env + b.run env := rfl
theorem run_sub : (a - b).run env = a.run env - b.run env := rfl
theorem run_mul : (a * b).run env = a.run env * b.run env := rfl
theorem run_div : (a / b).run env = a.run env / b.run env := rfl
theorem run_neg : (-a).run env = -a.run env := rfl
theorem run_pow (q : ℚ) : (a.pow q).run env = ppow (a.run env) q := rfl
theorem run_pi : Code.pi.run env = pyPi := rfl
theorem run_lit (q : ℚ) : (Code.lit q).run env = pnum (q : ℝ) := rfl
theorem run_var (i : ℕ) : (Code.var i).run env = .ok (env i) := rfl
theorem run_fn (f : Fn) : (Code.fn f a).run env = lift1 f.call (a.run env) := rfl
theorem run_const (c : MCls) (q : ℚ) (u : Sym) : (Code.const c q u).run env = constant c q u := rfl
theorem constant_multi (q : ℚ) (u : Sym) : constant .multi q u = qMulti (q : ℝ) u := by
  unfold constant qMulti; cases mkMulti .multi (q : ℝ) u <;> rfl
theorem constant_sub (n : Sym) (q : ℚ) (u : Sym) : constant (.sub n) q u = qM n (q : ℝ) u := by
  unfold constant qM; cases mkMulti (.sub n) (q : ℝ) u <;> rfl
end

/-- Every expression computes its formula. -/
theorem C82_formulas : ∀ f ∈ codedFormulas, ∀ env, f.code.run env = f.model env := by
  simp only [codedFormulas, List.forall_mem_cons, List.not_mem_nil, false_imp_iff, implies_true, and_true]
  refine ⟨?_, ?_, ?_, ?_, ?_, ?_, ?_, ?_, ?_, ?_, ?_, ?_, ?_, ?_, ?_, ?_, ?_, ?_, ?_, ?_, ?_, ?_, ?_, ?_, ?_, ?_, ?_, ?_, ?_, ?_,
    ?_, ?_, ?_, ?_, ?_, ?_, ?_, ?_, ?_, ?_, ?_, ?_, ?_, ?_, ?_, ?_, ?_, ?_, ?_, ?_, ?_, ?_, ?_, ?_, ?_, ?_, ?_, ?_, ?_⟩
  all_goals intro env
  all_goals simp only [run_add, run_sub, run_mul, run_div, run_neg, run_pow, run_pi, run_lit, run_var, run_fn, run_const,
    constant_multi, constant_sub, fn_exp, fn_log, fn_erf]
  all_goals try push_cast
  all_goals rfl

/-- A sum of terms is the loop of the library. -/
theorem run_sum (env : ℕ → Val ℝ) (n : ℕ) (c : ℤ) (hc : c.toNat = n) (term : ℕ → Code) (f : ℕ → PyM (Val ℝ))
    (h : ∀ i, (term i).run env = f i) : (Code.sum n term).run env = pySum c f := by
  subst hc
  unfold Code.sum pySum
  have key : ∀ (l : List ℕ) (a : Code) (b : PyM (Val ℝ)), a.run env = b →
      (l.foldl (fun acc i => acc + term i) a).run env = l.foldl (fun acc i => acc + f i) b := by
    intro l
    induction l with
    | nil => intro a b h; exact h
    | cons i l ih =>
      intro a b hab
      refine ih _ _ ?_
      rw [run_add, hab, h]
  refine key _ _ _ ?_
  rw [run_lit, Rat.cast_zero]

/-- The series solutions. -/
theorem C82_series (env : ℕ → Val ℝ) (iterations : ℤ) :
    (Code.finiteSlabConduction iterations).run env = finiteSlabConduction (.ok (env 0)) (.ok (env 1)) (.ok (env 2))
      (.ok (env 3)) (.ok (env 4)) (.ok (env 5)) (.ok (env 6)) (.ok (env 7)) iterations ∧
    (Code.finiteSlabTotalHeat iterations).run env = finiteSlabTotalHeat (.ok (env 0)) (.ok (env 1)) (.ok (env 2))
      (.ok (env 3)) (.ok (env 4)) (.ok (env 5)) (.ok (env 6)) (.ok (env 7)) iterations ∧
    (Code.finiteSlabDiffusion iterations).run env = finiteSlabDiffusion (.ok (env 0)) (.ok (env 1)) (.ok (env 2))
      (.ok (env 3)) (.ok (env 4)) (.ok (env 5)) iterations := by
  refine ⟨?_, ?_, ?_⟩
  · simp only [Code.finiteSlabConduction, finiteSlabConduction, run_sub, run_mul, run_div, run_var, run_lit, run_pi]
    rw [run_sum env _ (iterations + 1) rfl _ (slabTerm (.ok (env 2)) (.ok (env 3))
      (.ok (env 4) / (.ok (env 5) * .ok (env 6))) (.ok (env 7)))]
    · push_cast; rfl
    · intro i
      simp only [Code.slabTerm, slabTerm, run_mul, run_div, run_var, run_lit, run_pi, run_fn, run_neg, run_pow, fn_sin, fn_exp]
      push_cast
      rfl
  · simp only [Code.finiteSlabTotalHeat, finiteSlabTotalHeat, run_sub, run_mul, run_div, run_var, run_lit, run_pi, run_pow]
    rw [run_sum env _ iterations rfl _ (slabHeatTerm (.ok (env 0)) (.ok (env 5) / (.ok (env 1) * .ok (env 2)))
      (.ok (env 6)))]
    · push_cast; rfl
    · intro i
      simp only [Code.slabHeatTerm, slabHeatTerm, run_mul, run_div, run_var, run_lit, run_pi, run_fn, run_neg, run_pow, fn_exp,
        run_sub]
      push_cast
      rfl
  · simp only [Code.finiteSlabDiffusion, finiteSlabDiffusion, run_sub, run_mul, run_var]
    rw [run_sum env _ iterations rfl _ (slabDiffusionTerm (.ok (env 2)) (.ok (env 3)) (.ok (env 4)) (.ok (env 5)))]
    intro i
    simp only [Code.slabDiffusionTerm, slabDiffusionTerm, run_mul, run_div, run_var, run_lit, run_fn, run_pow, fn_erfc,
      run_sub, run_add]
    push_cast
    rfl

/-- Rounding errors of every formula of the list. -/
theorem C82_library {M : FloatMath} (env : ℕ → Val (Fl M.toFloatArith)) (env' : ℕ → Val ℝ) (n : ℕ → ℝ)
    (henv : ∀ i, (env i).Near (n i * M.ε) (env' i)) (f : CodedFormula) (hf : f ∈ codedFormulas)
    (hc : f.code.Stable M.ε env' n) :
    SameOutcome (Val.Near (f.code.bound env' n * M.ε)) (f.code.run env) (f.model env') := by
  rw [← C82_formulas f hf]
  exact C82_formula env env' n henv f.code hc

end Verif
