import Verif.Props.Sums
import Verif.Props.Scaling
import Verif.Props.Float

/-!
# C108: totals and averages of lists of quantities

The loop `t = x; for y in ys: t = t + y`, for lists of any length.
-/

namespace Verif

section
variable {K : Type} [Add K]

/-- `t = x; for y in ys: t = t + y`. -/
def total (x : Val K) : List (Val K) → PyM (Val K)
  | [] => .ok x
  | y :: ys => match x.add y with
    | .error e => .error e
    | .ok t => total t ys

/-- Python's `sum(l)`: the loop starts at the integer 0. -/
def builtinSum [Zero K] (l : List (Val K)) : PyM (Val K) := total (.num 0) l

/-- Same class, unit and exponent. -/
def SameKind (u w : UnitV K) : Prop := w.cls = u.cls ∧ w.unit = u.unit ∧ w.exp = u.exp

/-- Whatever the numbers, the values are added from left to right and the rest is kept. -/
theorem total_units (u : UnitV K) (hu : u.Constructed) (ws : List (UnitV K)) (h : ∀ w ∈ ws, SameKind u w) :
    total (.unit u) (ws.map .unit) =
      .ok (.unit ⟨u.cls, (ws.map UnitV.value).foldl (· + ·) u.value, u.unit, u.exp⟩) := by
  induction ws generalizing u with
  | nil => rfl
  | cons w ws ih =>
    obtain ⟨h1, h2, h3⟩ := h w (List.mem_cons_self ..)
    have hi : isInstance w.cls u.cls := .inr h1
    have e : Val.add (.unit u) (.unit w) = .ok (.unit ⟨u.cls, u.value + w.value, u.unit, u.exp⟩) := by
      simp only [Val.add, unitAdd, hi, if_true, h2, h3, and_self, wrapUnit]
      rw [hu.rebuild]
    simp only [List.map_cons, total, e]
    rw [ih ⟨u.cls, u.value + w.value, u.unit, u.exp⟩ ⟨_, _, _, hu.rebuild _ _⟩
      (fun w' hw' => h w' (List.mem_cons_of_mem _ hw')), List.foldl_cons]

theorem total_append (x : Val K) (ys zs : List (Val K)) :
    total x (ys ++ zs) = match total x ys with
      | .error e => .error e
      | .ok t => total t zs := by
  induction ys generalizing x with
  | nil => rfl
  | cons y ys ih =>
    simp only [List.cons_append, total]
    cases x.add y with
    | error e => rfl
    | ok t => exact ih t

/-- Python's `sum` never adds quantities: the start value 0 does not take one. -/
theorem C108_builtin_sum [Zero K] (v : Val K) (vs : List (Val K)) (hv : ∀ x, v ≠ .num x) :
    builtinSum (v :: vs) = .error .typeError := by
  have : Val.add (.num 0) v = .error .typeError := by
    cases v with
    | num x => exact absurd rfl (hv x)
    | _ => rfl
  simp only [builtinSum, total, this]

end

theorem foldl_add_eq (l : List ℝ) (x : ℝ) : l.foldl (· + ·) x = x + l.sum := by
  induction l generalizing x with
  | nil => simp
  | cons y l ih => rw [List.foldl_cons, ih, List.sum_cons]; ring

/-- Simple quantities of one kind: the value of the total is the sum of the values, the rest is kept. -/
theorem C108_units (u : UnitV ℝ) (hu : u.Constructed) (ws : List (UnitV ℝ)) (h : ∀ w ∈ ws, SameKind u w) :
    total (.unit u) (ws.map .unit) = .ok (.unit ⟨u.cls, ((u :: ws).map UnitV.value).sum, u.unit, u.exp⟩) := by
  rw [total_units u hu ws h, foldl_add_eq, List.map_cons, List.sum_cons]

/-- The order does not matter. -/
theorem C108_order (u u' : UnitV ℝ) (hu : u.Constructed) (ws ws' : List (UnitV ℝ)) (h : ∀ w ∈ ws, SameKind u w)
    (hp : (u :: ws).Perm (u' :: ws')) : total (.unit u) (ws.map .unit) = total (.unit u') (ws'.map .unit) := by
  have h0 : ∀ w ∈ u :: ws, SameKind u w := by
    intro w hw
    rcases List.mem_cons.1 hw with rfl | hw
    · exact ⟨rfl, rfl, rfl⟩
    · exact h w hw
  have k : SameKind u u' := h0 u' (hp.symm.subset (List.mem_cons_self ..))
  have hu' : u'.Constructed := by
    obtain ⟨k1, k2, k3⟩ := k
    refine ⟨u'.value, u'.unit, u'.exp, ?_⟩
    have := hu.rebuild u'.value u'.exp
    rw [← k1, ← k2] at this
    exact this
  have h' : ∀ w ∈ ws', SameKind u' w := by
    intro w hw
    obtain ⟨a, b, c⟩ := h0 w (hp.symm.subset (List.mem_cons_of_mem _ hw))
    obtain ⟨k1, k2, k3⟩ := k
    exact ⟨a.trans k1.symm, b.trans k2.symm, c.trans k3.symm⟩
  rw [C108_units u hu ws h, C108_units u' hu' ws' h', (hp.map UnitV.value).sum_eq, k.1, k.2.1, k.2.2]

/-- Subtotals may be formed. -/
theorem C108_subtotals (u z : UnitV ℝ) (hu : u.Constructed) (hz : z.Constructed) (ws zs : List (UnitV ℝ)) (h : ∀ w ∈ ws, SameKind u w)
    (huz : SameKind u z) (h' : ∀ w ∈ zs, SameKind z w) :
    lift2 Val.add (total (.unit u) (ws.map .unit)) (total (.unit z) (zs.map .unit)) =
      total (.unit u) ((ws ++ z :: zs).map .unit) := by
  have h3 : ∀ w ∈ ws ++ z :: zs, SameKind u w := by
    intro w hw
    obtain ⟨k1, k2, k3⟩ := huz
    rcases List.mem_append.1 hw with hw | hw
    · exact h w hw
    · rcases List.mem_cons.1 hw with rfl | hw
      · exact ⟨k1, k2, k3⟩
      · obtain ⟨a, b, c⟩ := h' w hw
        exact ⟨a.trans k1, b.trans k2, c.trans k3⟩
  rw [C108_units u hu ws h, C108_units z hz zs h', C108_units u hu _ h3]
  have := total_units (⟨u.cls, ((u :: ws).map UnitV.value).sum, u.unit, u.exp⟩ : UnitV ℝ) ⟨_, _, _, hu.rebuild _ _⟩
    [⟨z.cls, ((z :: zs).map UnitV.value).sum, z.unit, z.exp⟩] (by simpa [SameKind] using huz)
  simp only [List.map_cons, List.map_nil, total, List.foldl_cons, List.foldl_nil] at this
  simp only [lift2, List.map_cons, List.sum_cons] at this ⊢
  split at this
  · cases this
  · rename_i t e
    rw [e, this]
    simp only [List.map_append, List.sum_append, List.map_cons, List.sum_cons, Except.ok.injEq, Val.unit.injEq, UnitV.mk.injEq, true_and,
      and_true]
    ring

/-- A sum of simple quantities exists exactly when every term fits the first. -/
theorem C108_units_iff (u : UnitV ℝ) (hu : u.Constructed) (vs : List (Val ℝ)) (hv : ∀ v ∈ vs, ∀ x, v ≠ .num x) :
    (∃ r, total (.unit u) vs = .ok r) ↔ ∀ v ∈ vs, ∃ w, v = .unit w ∧ UnitAddable u w := by
  induction vs generalizing u with
  | nil => simp [total]
  | cons v vs ih =>
    have hv' : ∀ v ∈ vs, ∀ x, v ≠ .num x := fun v' h => hv v' (List.mem_cons_of_mem _ h)
    rcases C08_add_sub_unit u hu v (hv v (List.mem_cons_self ..)) with ⟨w, rfl, ha, e, -⟩ | ⟨hn, e, -⟩
    · simp only [total, e, List.forall_mem_cons]
      rw [ih ⟨u.cls, u.value + w.value, u.unit, u.exp⟩ ⟨_, _, _, hu.rebuild _ _⟩ hv']
      constructor
      · exact fun h => ⟨⟨w, rfl, ha⟩, h⟩
      · exact fun h => h.2
    · simp only [total, e, List.forall_mem_cons]
      constructor
      · rintro ⟨r, h⟩; cases h
      · exact fun h => absurd h.1 hn

/-- Averages: the sum over the number of terms, between any bounds of the values. -/
theorem C108_mean (u : UnitV ℝ) (hu : u.Constructed) (ws : List (UnitV ℝ)) (h : ∀ w ∈ ws, SameKind u w) :
    ∃ m : ℝ, lift2 Val.div (total (.unit u) (ws.map .unit)) (pnum ((u :: ws).length : ℝ)) =
        .ok (.unit ⟨u.cls, m, u.unit, u.exp⟩) ∧
      m * (u :: ws).length = ((u :: ws).map UnitV.value).sum ∧
      ∀ a b : ℝ, (∀ w ∈ u :: ws, a ≤ w.value ∧ w.value ≤ b) → a ≤ m ∧ m ≤ b := by
  have hn : (0 : ℝ) < (u :: ws).length := by exact_mod_cast Nat.succ_pos _
  rw [C108_units u hu ws h]
  refine ⟨((u :: ws).map UnitV.value).sum / (u :: ws).length, ?_, div_mul_cancel₀ _ hn.ne', ?_⟩
  · have := C06_div_unit ⟨u.cls, ((u :: ws).map UnitV.value).sum, u.unit, u.exp⟩ ⟨_, _, _, hu.rebuild _ _⟩
      ((u :: ws).length : ℝ)
    rw [if_neg hn.ne'] at this
    exact this
  · intro a b hab
    have key : ∀ l : List (UnitV ℝ), (∀ w ∈ l, a ≤ w.value ∧ w.value ≤ b) →
        a * l.length ≤ (l.map UnitV.value).sum ∧ (l.map UnitV.value).sum ≤ b * l.length := by
      intro l
      induction l with
      | nil => intro _; simp
      | cons w l ih =>
        intro hl
        obtain ⟨h1, h2⟩ := ih fun w' h' => hl w' (List.mem_cons_of_mem _ h')
        obtain ⟨h3, h4⟩ := hl w (List.mem_cons_self ..)
        rw [List.map_cons, List.sum_cons, List.length_cons]
        push_cast
        constructor <;> linarith
    obtain ⟨h1, h2⟩ := key _ hab
    exact ⟨(le_div_iff₀ hn).2 h1, (div_le_iff₀ hn).2 h2⟩

example : total (.unit ⟨.mass, 1, c!"kg", 1⟩) [.unit ⟨.mass, 2, c!"kg", 1⟩, .unit ⟨.mass, 4, c!"kg", 1⟩] =
    .ok (.unit ⟨.mass, (7 : ℚ), c!"kg", 1⟩) := by decide +kernel

/-! ## Compound quantities -/

/-- A compound quantity of the plain class with the units of `m`. -/
def PlainLike (m : MultiV ℝ) (v : Val ℝ) : Prop := ∃ o, v = .multi o ∧ o.cls = .multi ∧ SameUnits m o

/-- Plain compound quantities: the total exists exactly when all have the same units. -/
theorem total_multi_iff (m : MultiV ℝ) (hm : m.cls = .multi) (vs : List (Val ℝ)) :
    (∃ r, total (.multi m) vs = .ok r) ↔ ∀ v ∈ vs, PlainLike m v := by
  induction vs generalizing m with
  | nil => simp [total]
  | cons v vs ih =>
    rcases C08_add_multi m v with ⟨o, rfl, hc, hs, e⟩ | ⟨hn, e⟩
    · simp only [total, e, List.forall_mem_cons]
      rw [ih ⟨.multi, m.value + o.value, m.top, m.bot⟩ rfl]
      constructor
      · exact fun h => ⟨⟨o, rfl, hc ▸ hm, hs⟩, h⟩
      · exact fun h => h.2
    · simp only [total, e, List.forall_mem_cons]
      constructor
      · rintro ⟨r, h⟩; cases h
      · rintro ⟨⟨o, rfl, h1, h2⟩, -⟩
        exact absurd ⟨o, rfl, hm.trans h1.symm, h2⟩ hn

/-- When a total of compound quantities exists: the second is of the class of the first, all further ones are plain
`MultiUnit` (because the sum of two is), and all have the same units. -/
theorem C108_compound_iff (m : MultiV ℝ) (v : Val ℝ) (vs : List (Val ℝ)) :
    (∃ r, total (.multi m) (v :: vs) = .ok r) ↔
      (∃ o, v = .multi o ∧ o.cls = m.cls ∧ SameUnits m o) ∧ ∀ x ∈ vs, PlainLike m x := by
  rcases C08_add_multi m v with ⟨o, rfl, hc, hs, e⟩ | ⟨hn, e⟩
  · simp only [total, e]
    rw [total_multi_iff ⟨.multi, m.value + o.value, m.top, m.bot⟩ rfl]
    constructor
    · exact fun h => ⟨⟨o, rfl, hc.symm, hs⟩, h⟩
    · exact fun h => h.2
  · simp only [total, e]
    constructor
    · rintro ⟨r, h⟩; cases h
    · rintro ⟨⟨o, rfl, h1, h2⟩, -⟩
      exact absurd ⟨o, rfl, h1.symm, h2⟩ hn

/-- So three or more quantities of one class and with the same units have a total exactly when the class is `MultiUnit`. -/
theorem C108_one_class_iff (m o p : MultiV ℝ) (ps : List (MultiV ℝ))
    (h : ∀ x ∈ o :: p :: ps, x.cls = m.cls ∧ SameUnits m x) :
    (∃ r, total (.multi m) ((o :: p :: ps).map .multi) = .ok r) ↔ m.cls = .multi := by
  rw [List.map_cons, C108_compound_iff]
  constructor
  · rintro ⟨-, h2⟩
    obtain ⟨q, hq, hc, -⟩ := h2 (.multi p) (by simp)
    cases hq
    exact (h p (by simp)).1.symm.trans hc
  · intro hm
    refine ⟨⟨o, rfl, h o (by simp)⟩, ?_⟩
    intro x hx
    obtain ⟨q, hq, rfl⟩ := List.mem_map.1 hx
    obtain ⟨h1, h2⟩ := h q (List.mem_cons_of_mem _ hq)
    exact ⟨q, rfl, h1.trans hm, h2⟩

/-- Full claim, false: three densities cannot be added. -/
theorem C108_compound_false : ¬ ∀ (m : MultiV ℝ) (os : List (MultiV ℝ)), (∀ o ∈ os, o.cls = m.cls ∧ SameUnits m o) →
    ∃ r, total (.multi m) (os.map .multi) = .ok r := by
  intro h
  let d : MultiV ℝ := ⟨.sub c!"Density", 1, [⟨c!"kg", 1⟩], [⟨c!"m", 3⟩]⟩
  have hd : ∀ o ∈ [d, d], o.cls = d.cls ∧ SameUnits d o := by simp [SameUnits]
  have := (C108_one_class_iff d d d [] hd).1 (h d [d, d] hd)
  cases this

/-- Then the value is the sum of the values.  Missing from the full claim: subclasses of `MultiUnit`. -/
theorem C108_compound_partial (m : MultiV ℝ) (hm : m.cls = .multi) (os : List (MultiV ℝ))
    (h : ∀ o ∈ os, o.cls = .multi ∧ SameUnits m o) :
    total (.multi m) (os.map .multi) = .ok (.multi ⟨.multi, ((m :: os).map MultiV.value).sum, m.top, m.bot⟩) := by
  induction os generalizing m with
  | nil => obtain ⟨c, v, t, b⟩ := m; cases hm; simp [total]
  | cons o os ih =>
    obtain ⟨h1, h2, h3⟩ := h o (List.mem_cons_self ..)
    have e : Val.add (.multi m) (.multi o) = .ok (.multi ⟨.multi, m.value + o.value, m.top, m.bot⟩) := by
      simp [Val.add, multiAdd, hm, h1, h2, h3]
    simp only [List.map_cons, total, e]
    rw [ih ⟨.multi, m.value + o.value, m.top, m.bot⟩ rfl fun o' h' => h o' (List.mem_cons_of_mem _ h')]
    simp only [List.map_cons, List.sum_cons, Except.ok.injEq, Val.multi.injEq, MultiV.mk.injEq, true_and, and_true]
    ring

example : total (.multi ⟨.multi, 1, [⟨c!"kg", 1⟩], [⟨c!"m", 3⟩]⟩) [.multi ⟨.multi, 2, [⟨c!"kg", 1⟩], [⟨c!"m", 3⟩]⟩,
    .multi ⟨.multi, 5, [⟨c!"kg", 1⟩], [⟨c!"m", 3⟩]⟩] = .ok (.multi ⟨.multi, (8 : ℚ), [⟨c!"kg", 1⟩], [⟨c!"m", 3⟩]⟩) := by
  decide +kernel

/-! ## Double precision -/

section
variable {A : FloatArith}

/-- Running sums of `n` additions are off by at most `n` rounding errors, relative to the sum of the absolute values. -/
theorem running_sum (xs : List (Fl A)) (s : Fl A) (S B : ℝ) (n : ℕ) (hB : |S| ≤ B)
    (h : |s.val - S| ≤ (Real.exp (n * A.ε) - 1) * B) :
    |(xs.foldl (· + ·) s).val - (S + (xs.map Fl.val).sum)| ≤
      (Real.exp ((n + xs.length : ℕ) * A.ε) - 1) * (B + (xs.map fun x => |x.val|).sum) := by
  induction xs generalizing s S B n with
  | nil => simpa using h
  | cons x xs ih =>
    have e0 := A.nonneg
    have h1 := (A.add_close s.val x.val).abs_sub_le
    have hE : 1 ≤ Real.exp A.ε := Real.one_le_exp e0
    have hN : 1 ≤ Real.exp (n * A.ε) := Real.one_le_exp (by positivity)
    have hb : 0 ≤ B := (abs_nonneg _).trans hB
    have h2 : |(s + x).val - (S + x.val)| ≤ (Real.exp ((n + 1 : ℕ) * A.ε) - 1) * (B + |x.val|) := by
      have t1 : |(s + x).val - (S + x.val)| ≤ |(s + x).val - (s.val + x.val)| + |s.val - S| := by
        have : (s + x).val - (S + x.val) = ((s + x).val - (s.val + x.val)) + (s.val - S) := by ring
        rw [this]; exact abs_add_le _ _
      have t2 : |s.val + x.val| ≤ |s.val - S| + (B + |x.val|) := by
        have : s.val + x.val = (s.val - S) + (S + x.val) := by ring
        rw [this]
        refine (abs_add_le _ _).trans ?_
        have := abs_add_le S x.val
        linarith
      have t3 : Real.exp ((n + 1 : ℕ) * A.ε) = Real.exp (n * A.ε) * Real.exp A.ε := by
        rw [← Real.exp_add]; congr 1; push_cast; ring
      rw [Fl.val_add] at t1 ⊢
      rw [t3]
      have hx := abs_nonneg x.val
      have hd := abs_nonneg (s.val - S)
      generalize |s.val - S| = d at *
      generalize Real.exp A.ε = E at *
      generalize Real.exp (n * A.ε) = N at *
      generalize |x.val| = a at *
      have t4 : (E - 1) * |s.val + x.val| ≤ (E - 1) * (d + (B + a)) := mul_le_mul_of_nonneg_left t2 (by linarith)
      have t5 : E * d ≤ E * ((N - 1) * B) := mul_le_mul_of_nonneg_left h (by linarith)
      have t6 : 0 ≤ E * ((N - 1) * a) := by
        apply mul_nonneg (by linarith); exact mul_nonneg (by linarith) hx
      nlinarith
    have h3 : |S + x.val| ≤ B + |x.val| := (abs_add_le _ _).trans (by linarith)
    have := ih (s + x) (S + x.val) (B + |x.val|) (n + 1) h3 h2
    rw [List.foldl_cons, List.map_cons, List.map_cons, List.sum_cons, List.sum_cons, List.length_cons]
    rw [show n + (xs.length + 1) = n + 1 + xs.length by ring, ← add_assoc, ← add_assoc]
    exact this

/-- Totals in double precision: a list of `n + 1` simple quantities is added with at most `n` rounding errors, relative to the
sum of the absolute values. -/
theorem C108_rounding (u : UnitV (Fl A)) (hu : u.Constructed) (ws : List (UnitV (Fl A))) (h : ∀ w ∈ ws, SameKind u w) :
    ∃ s : Fl A, total (.unit u) (ws.map .unit) = .ok (.unit ⟨u.cls, s, u.unit, u.exp⟩) ∧
      |s.val - ((u :: ws).map fun w => w.value.val).sum| ≤
        (Real.exp (ws.length * A.ε) - 1) * ((u :: ws).map fun w => |w.value.val|).sum := by
  refine ⟨_, total_units u hu ws h, ?_⟩
  have := running_sum (ws.map UnitV.value) u.value u.value.val |u.value.val| 0 le_rfl (by simp)
  simpa [List.map_map, Function.comp_def] using this

/-- Two orders of adding the same quantities differ by at most twice as much. -/
theorem C108_rounding_order (u u' : UnitV (Fl A)) (hu : u.Constructed) (hu' : u'.Constructed) (ws ws' : List (UnitV (Fl A)))
    (h : ∀ w ∈ ws, SameKind u w) (h' : ∀ w ∈ ws', SameKind u' w) (hp : (u :: ws).Perm (u' :: ws')) :
    ∃ s s' : Fl A, total (.unit u) (ws.map .unit) = .ok (.unit ⟨u.cls, s, u.unit, u.exp⟩) ∧
      total (.unit u') (ws'.map .unit) = .ok (.unit ⟨u'.cls, s', u'.unit, u'.exp⟩) ∧
      |s.val - s'.val| ≤ 2 * ((Real.exp (ws.length * A.ε) - 1) * ((u :: ws).map fun w => |w.value.val|).sum) := by
  obtain ⟨s, e, b⟩ := C108_rounding u hu ws h
  obtain ⟨s', e', b'⟩ := C108_rounding u' hu' ws' h'
  refine ⟨s, s', e, e', ?_⟩
  have hl : ws'.length = ws.length := by simpa using hp.length_eq.symm
  rw [← (hp.map fun w => w.value.val).sum_eq, ← (hp.map fun w => |w.value.val|).sum_eq, hl] at b'
  rw [abs_le] at b b' ⊢
  constructor <;> linarith [b.1, b.2, b'.1, b'.2]

example : (⟨.mass, ⟨1⟩, c!"kg", 1⟩ : UnitV (Fl A)).Constructed ∧
    ∀ w ∈ [⟨.mass, ⟨-2⟩, c!"kg", 1⟩, (⟨.mass, ⟨1 / 10⟩, c!"kg", 1⟩ : UnitV (Fl A))], SameKind ⟨.mass, ⟨1⟩, c!"kg", 1⟩ w := by
  refine ⟨⟨⟨1⟩, c!"kg", 1, rfl⟩, ?_⟩
  simp [SameKind]

end

end Verif
