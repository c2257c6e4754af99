import Verif.Props.Exchangers
import Verif.Props.Guards
import Verif.Props.Registration
import Verif.Props.Sums
import Verif.Props.Water
import Mathlib.Analysis.Convex.Slope
import Mathlib.Analysis.Convex.SpecificFunctions.Basic

/-!
# Exactly when sums can be extended, foreign operands raise, registered units round trip, the phase is right

Exact conditions for more of the claims that fail in general: C09, C24, C29, C44 and C62.
-/

namespace Verif

/-! ## C09 -/

/-- **C09**, exactly: sums of three compound quantities of one class and with the same units can be formed if and only if
the class is `MultiUnit` itself. -/
theorem C09_sum_multi_exact (a b c : MultiV ℝ) (hab : a.cls = b.cls) (hac : a.cls = c.cls) (ub : SameUnits a b)
    (uc : SameUnits a c) :
    (∃ ab r, Val.add (.multi a) (.multi b) = .ok ab ∧ Val.add ab (.multi c) = .ok r) ↔ a.cls = .multi := by
  constructor
  · rintro ⟨ab, r, h1, h2⟩
    cases hcls : a.cls with
    | multi => rfl
    | sub n =>
      obtain ⟨ab', h3, h4⟩ := C09_sum_subclass_raises n a b c hcls (hab ▸ hcls) (hac ▸ hcls) ub
      rw [h1] at h3
      cases h3
      rw [h2] at h4
      cases h4
  · intro h
    obtain ⟨ab, bc, r, s, h1, -, h2, -⟩ := C09_sum_multi_partial a b c h (hab ▸ h) (hac ▸ h) ub uc
    exact ⟨ab, r, h1, h2⟩

/-! ## C29 -/

/-- **C29**, exactly which combinations of a quantity and a foreign operand raise TypeError. -/
theorem C29_exact (q f : Val ℝ) (hq : Quantity q) (hf : Foreign f) :
    Val.add q f = .error .typeError ∧ Val.add f q = .error .typeError ∧ Val.sub f q = .error .typeError ∧
    (Val.sub q f = .error .typeError ↔ f ≠ .bare ∨ ∃ u, q = .unit u) ∧
    (Val.mul q f = .error .typeError ↔ f ≠ .bare ∧ ∃ u, q = .unit u) ∧
    (Val.div q f = .error .typeError ↔ f ≠ .bare ∧ ∃ u, q = .unit u) ∧
    (Val.mul f q = .error .typeError ↔ f ≠ .bare ∨ ∃ u, q = .unit u) ∧
    (Val.div f q = .error .typeError ↔ f ≠ .bare ∨ ∃ u, q = .unit u) := by
  cases q <;> cases f <;> simp_all [Quantity, Foreign, Val.add, Val.sub, Val.mul, Val.div, unitAdd, multiAdd,
    unitSub, multiSub, unitRmul, multiRmul, multiRdiv, unitMul, unitDiv, multiMul, multiDiv]

/-! ## C24 -/

/-- **C24**, exactly: a unit registered from an existing one, with `a` the conversion of that one to the standard and `f`
the conversion of the new one to the existing one, round trips if and only if `a` and `f` commute. -/
theorem C24_round_trip_exact (T : Tables ℝ) (c : UCls) (hc : c ∈ openClasses) (ex n std : Sym)
    (hstd : standardOf c = some std)
    (hcl : getUnitClass ex = .ok c) (hT : (T c).isSome) (hn : FreshName c n) (hx : FreshName c ex)
    (a b f g : ℝ → ℝ) (ha : lookupTo T c ex = .ok (fun x => .ok (a x))) (hb : lookupFrom T c ex = .ok (fun x => .ok (b x)))
    (hba : ∀ x, b (a x) = x) (hab : ∀ x, a (b x) = x) (hgf : ∀ x, g (f x) = x) (hfg : ∀ x, f (g x) = x) :
    ∃ T', registerUnit T n ex (fun x => .ok (f x)) (fun x => .ok (g x)) = .ok T' ∧
      (∀ v, convertUnit T' ⟨c, v, n, 1⟩ std = .ok ⟨c, a (f v), std, 1⟩) ∧
      ((∀ v, convertUnit T' ⟨c, a (f v), std, 1⟩ n = .ok ⟨c, v, n, 1⟩) ↔ ∀ v, a (f v) = f (a v)) := by
  obtain ⟨t, ht⟩ := Option.isSome_iff_exists.1 hT
  have hxs : some ex ≠ standardOf c := fun e => hx.2.2 e.symm
  have h2 := setTable_new (T := T) (c := c) (t := t) n (convComp (fun x => .ok (a x)) fun x => .ok (f x))
    (convComp (fun x => .ok (b x)) fun x => .ok (g x))
  have back : ∀ v, convertUnit (setTable T c ⟨(n, convComp (fun x => .ok (a x)) fun x => .ok (f x)) :: t.toStd,
      (n, convComp (fun x => .ok (b x)) fun x => .ok (g x)) :: t.fromStd⟩) ⟨c, a (f v), std, 1⟩ n =
      .ok ⟨c, b (g (a (f v))), n, 1⟩ := fun v => (convert_new hc hn hstd h2.1 h2.2 _).2 _ rfl
  refine ⟨setTable T c ⟨(n, convComp (fun x => .ok (a x)) fun x => .ok (f x)) :: t.toStd,
    (n, convComp (fun x => .ok (b x)) fun x => .ok (g x)) :: t.fromStd⟩,
    by unfold registerUnit; simp only [hcl, hxs, ne_eq, not_false_eq_true, if_true, ha, hb, ht],
    fun v => (convert_new hc hn hstd h2.1 h2.2 v).1 _ rfl, ?_⟩
  refine forall_congr' fun v => ?_
  rw [back v]
  constructor
  · intro h
    have h3 : b (g (a (f v))) = v := by
      injection h with h
      injection h
    have h4 : g (a (f v)) = a v := by rw [← hab (g (a (f v))), h3]
    rw [← hfg (a (f v)), h4]
  · intro h
    rw [h, hgf, hba]

/-- Fahrenheit degrees counted from the freezing point, registered from `C`: the shift and the factor do not commute. -/
example : ¬ ∀ v : ℝ, (v * (5 / 9)) + 27315 / 100 = (v + 27315 / 100) * (5 / 9) := by
  intro h
  have := h 0
  norm_num at this

/-! ## C44 -/

/-- The logarithmic mean is injective in its first argument. -/
theorem logMean_injective {x y b : ℝ} (hx : 0 < x) (hy : 0 < y) (hb : 0 < b) (hxb : x ≠ b) (hyb : y ≠ b)
    (h : logMean x b = logMean y b) : x = y := by
  by_contra hne
  have key : ∀ u v : ℝ, 0 < u → 0 < v → u ≠ b → v ≠ b → u < v → logMean u b ≠ logMean v b := by
    intro u v hu hv hub hvb huv e
    have s := strictConcaveOn_log_Ioi.secant_strict_mono (a := b) (x := u) (y := v) hb hu hv hub hvb huv
    have l : ∀ w : ℝ, 0 < w → w ≠ b → (Real.log w - Real.log b) / (w - b) = (logMean w b)⁻¹ := by
      intro w hw hwb
      rw [logMean, Real.log_div hw.ne' hb.ne', inv_div]
    rw [l u hu hub, l v hv hvb, e] at s
    exact lt_irrefl _ s
  rcases lt_or_gt_of_ne hne with h1 | h1
  · exact key x y hx hy hxb hyb h1 h
  · exact key y x hy hx hyb hxb h1 h.symm

/-- **C44** for co-current flow, exactly: the result is the logarithmic mean of the end differences if and only if the
inlet temperature of side A happens to be twice that of side B. -/
theorem C44_cocurrent_exact (s : Sym) (t0a t1a t0b t1b : ℝ) (h0 : 0 < t0b) (ha : 0 < t0a - t0b) (hb : 0 < t1a - t1b)
    (hab : t0b ≠ t1a - t1b) (hab' : t0a - t0b ≠ t1a - t1b) :
    deltatLogmean (qU .temperature t0a s) (qU .temperature t1a s) (qU .temperature t0b s) (qU .temperature t1b s) true
        = qU .temperature (logMean (t0a - t0b) (t1a - t1b)) s ↔ t0a = 2 * t0b := by
  rw [C44_cocurrent_value s t0a t1a t0b t1b h0 hb hab]
  constructor
  · intro h
    have h1 : logMean t0b (t1a - t1b) = logMean (t0a - t0b) (t1a - t1b) := by
      simp only [qU] at h
      injection h with h
      injection h with h
      injection h
    have := logMean_injective h0 ha hb hab hab' h1
    linarith
  · intro h
    rw [show t0a - t0b = t0b by linarith]

/-! ## C62 -/

/-- **C62**, exactly: the reported phase is right if and only if the temperature is not strictly between 365 K and the
boiling point. -/
theorem C62_phase_exact {T : ℝ} (h1 : 275 ≤ T) (h2 : T ≤ 1345) :
    waterPhase T = some (if T < 37312 / 100 then c!"liquid" else c!"vapor") ↔ ¬ (365 < T ∧ T < 37312 / 100) := by
  constructor
  · rintro h ⟨h3, h4⟩
    rw [C62_phase_false h3 h4, if_pos h4] at h
    revert h
    decide
  · intro h
    refine C62_phase_partial h1 h2 ?_
    by_contra hc
    push Not at hc
    exact h hc

end Verif
