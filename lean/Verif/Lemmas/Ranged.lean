import Verif.Lemmas.FloatOps
import Verif.Units.Ranged

/-! # Runs over numbers of finite range that lose nothing are runs over floating point numbers -/

namespace Verif

open Classical in
/-- The arithmetic of the machine, with exact operations outside its range. -/
noncomputable def FloatMachine.math (M : FloatMachine) : FloatMath where
  ε := M.ε
  add x y := if M.normal (x + y) then M.add x y else x + y
  sub x y := if M.normal (x - y) then M.sub x y else x - y
  mul x y := if M.normal (x * y) then M.mul x y else x * y
  div x y := if M.normal (x / y) then M.div x y else x / y
  pow x e := if M.normal (x ^ (e : ℝ)) then M.pow x e else x ^ (e : ℝ)
  lit q := if M.normal q then M.lit q else q
  exp x := if M.normal (Real.exp x) then M.exp x else Real.exp x
  log x := if M.normal (Real.log x) then M.log x else Real.log x
  sin x := if M.normal (Real.sin x) then M.sin x else Real.sin x
  erf x := if M.normal (Verif.erf x) then M.erf x else Verif.erf x
  erfc x := if M.normal (1 - Verif.erf x) then M.erfc x else 1 - Verif.erf x
  pi := M.pi
  nonneg := M.nonneg
  add_close x y := by split <;> rename_i h; exacts [M.add_close x y h, Close.refl M.nonneg _]
  sub_close x y := by split <;> rename_i h; exacts [M.sub_close x y h, Close.refl M.nonneg _]
  mul_close x y := by split <;> rename_i h; exacts [M.mul_close x y h, Close.refl M.nonneg _]
  div_close x y h0 := by split <;> rename_i h; exacts [M.div_close x y h0 h, Close.refl M.nonneg _]
  pow_close x e h0 := by split <;> rename_i h; exacts [M.pow_close x e h0 h, Close.refl M.nonneg _]
  lit_close q := by split <;> rename_i h; exacts [M.lit_close q h, Close.refl M.nonneg _]
  exp_close x := by split <;> rename_i h; exacts [M.exp_close x h, Close.refl M.nonneg _]
  log_close x h0 := by split <;> rename_i h; exacts [M.log_close x h0 h, Close.refl M.nonneg _]
  sin_close x := by split <;> rename_i h; exacts [M.sin_close x h, Close.refl M.nonneg _]
  erf_close x := by split <;> rename_i h; exacts [M.erf_close x h, Close.refl M.nonneg _]
  erfc_close x := by split <;> rename_i h; exacts [M.erfc_close x h, Close.refl M.nonneg _]
  pi_close := M.pi_close

variable {M : FloatMachine}

/-- Its numbers. -/
abbrev FloatMachine.Num (M : FloatMachine) : Type := Fl M.math.toFloatArith

/-- The number as a number of finite range. -/
def Fl.up (x : M.Num) : Ranged M := .fin x.val

namespace Ranged

theorem up_zero : (0 : Ranged M) = (0 : M.Num).up := rfl
theorem up_one : (1 : Ranged M) = (1 : M.Num).up := rfl

theorem checked_eq {x r s : ℝ} (h : (checked x r : Ranged M) = .fin s) : M.normal x ∧ s = r := by
  unfold checked at h
  split at h
  · next hn => cases h; exact ⟨hn, rfl⟩
  · cases h

theorem op2_eq {exact run : ℝ → ℝ → ℝ} {x y : Ranged M} {r : ℝ} (h : op2 exact run x y = .fin r) :
    ∃ a b, x = .fin a ∧ y = .fin b ∧ M.normal (exact a b) ∧ r = run a b := by
  cases x <;> cases y <;> simp only [op2, reduceCtorEq] at h
  exact ⟨_, _, rfl, rfl, checked_eq h⟩

theorem op1_eq {exact run : ℝ → ℝ} {x : Ranged M} {r : ℝ} (h : op1 exact run x = .fin r) :
    ∃ a, x = .fin a ∧ M.normal (exact a) ∧ r = run a := by
  cases x <;> simp only [op1, reduceCtorEq] at h
  exact ⟨_, rfl, checked_eq h⟩

theorem add_up {x y : Ranged M} {r : M.Num} (h : x + y = r.up) : ∃ a b : M.Num, x = a.up ∧ y = b.up ∧ a + b = r := by
  obtain ⟨a, b, rfl, rfl, hn, hr⟩ := op2_eq h
  exact ⟨⟨a⟩, ⟨b⟩, rfl, rfl, Fl.val_injective (by rw [hr]; exact if_pos hn)⟩

theorem sub_up {x y : Ranged M} {r : M.Num} (h : x - y = r.up) : ∃ a b : M.Num, x = a.up ∧ y = b.up ∧ a - b = r := by
  obtain ⟨a, b, rfl, rfl, hn, hr⟩ := op2_eq h
  exact ⟨⟨a⟩, ⟨b⟩, rfl, rfl, Fl.val_injective (by rw [hr]; exact if_pos hn)⟩

theorem mul_up {x y : Ranged M} {r : M.Num} (h : x * y = r.up) : ∃ a b : M.Num, x = a.up ∧ y = b.up ∧ a * b = r := by
  obtain ⟨a, b, rfl, rfl, hn, hr⟩ := op2_eq h
  exact ⟨⟨a⟩, ⟨b⟩, rfl, rfl, Fl.val_injective (by rw [hr]; exact if_pos hn)⟩

theorem div_up {x y : Ranged M} {r : M.Num} (h : x / y = r.up) : ∃ a b : M.Num, x = a.up ∧ y = b.up ∧ a / b = r := by
  obtain ⟨a, b, rfl, rfl, hn, hr⟩ := op2_eq h
  exact ⟨⟨a⟩, ⟨b⟩, rfl, rfl, Fl.val_injective (by rw [hr]; exact if_pos hn)⟩

theorem neg_up {x : Ranged M} {r : M.Num} (h : -x = r.up) : ∃ a : M.Num, x = a.up ∧ -a = r := by
  cases x with
  | lost => cases h
  | fin a =>
    have h' : (.fin (-a) : Ranged M) = .fin r.val := h
    injection h' with h'
    exact ⟨⟨a⟩, rfl, Fl.val_injective h'⟩

theorem ratCast_up {q : ℚ} {r : M.Num} (h : (q : Ranged M) = r.up) : (q : M.Num) = r := by
  obtain ⟨hn, hr⟩ := checked_eq h
  exact Fl.val_injective (by rw [hr]; exact if_pos hn)

theorem up_injective {a b : M.Num} (h : a.up = b.up) : a = b := by
  cases a; cases b; cases h; rfl

theorem pyDiv_up {x y : Ranged M} {r : M.Num} (h : pyDiv x y = .ok r.up) :
    ∃ a b : M.Num, x = a.up ∧ y = b.up ∧ pyDiv a b = .ok r := by
  unfold pyDiv at h
  split at h
  · cases h
  · next h0 =>
    simp only [Except.ok.injEq] at h
    obtain ⟨a, b, rfl, rfl, hr⟩ := div_up h
    refine ⟨a, b, rfl, rfl, ?_⟩
    rw [pyDiv, if_neg, hr]
    rintro rfl
    exact h0 rfl

theorem pow_up {x : Ranged M} {e : ℚ} {r : M.Num} (h : (PyPow.pow x e : PyM (Ranged M)) = .ok r.up) :
    ∃ a : M.Num, x = a.up ∧ (PyPow.pow a e : PyM M.Num) = .ok r := by
  cases x with
  | lost => cases h
  | fin a =>
    simp only [PyPow.pow] at h ⊢
    refine ⟨⟨a⟩, rfl, ?_⟩
    split at h
    · cases h
    next h1 =>
    split at h
    · cases h
    next h2 =>
    rw [if_neg h1, if_neg h2]
    simp only [Except.ok.injEq] at h
    obtain ⟨hn, hr⟩ := checked_eq h
    exact congrArg _ (Fl.val_injective (by rw [hr]; exact if_pos hn))

end Ranged

open Ranged

/-! ## Prefixes -/

theorem prefixFactorLoop_up (inv : Bool) {ps : List (Sym × BaseUnit)} {f g : Ranged M} (f' : M.Num)
    (h : prefixFactorLoop inv f ps = .ok g) :
    ∃ g', prefixFactorLoop inv f' ps = .ok g' ∧ ∀ r : M.Num, g = r.up → ∃ s : M.Num, f = s.up ∧ (s = f' → g' = r) := by
  induction ps generalizing f f' with
  | nil =>
    cases h
    exact ⟨f', rfl, fun r hr => ⟨r, hr, fun h => h.symm⟩⟩
  | cons p ps ih =>
    obtain ⟨p, u⟩ := p
    simp only [prefixFactorLoop] at h ⊢
    split at h
    · next hp => simp only [hp, if_true]; exact ih f' h
    next hp =>
    simp only [hp, if_false]
    split at h
    · cases h
    next q hq =>
    have hq0 : 0 < q := by
      unfold prefixFactor at hq
      repeat' split at hq
      all_goals first | (cases hq; norm_num) | cases hq
    have hpos : 0 < (if inv then 1 / (q : M.Num) else (q : M.Num)).val := by
      have h1 := M.math.lit_close q
      have h2 : 0 < M.math.lit q := by
        obtain ⟨t, -, e⟩ := h1
        rw [e]
        exact mul_pos (by exact_mod_cast hq0) (Real.exp_pos t)
      split
      · obtain ⟨t, -, e⟩ := M.math.div_close 1 (M.math.lit q) h2.ne'
        show 0 < M.math.div 1 (M.math.lit q)
        rw [e]
        positivity
      · exact h2
    split at h
    · cases h
    next x hx =>
    have hx' : ∃ x', PyPow.pow (if inv then 1 / (q : M.Num) else (q : M.Num)) u.exp = .ok x' := by
      simp only [PyPow.pow, hpos.ne', hpos.le.not_gt, false_and, if_false]
      exact ⟨_, rfl⟩
    obtain ⟨x', hx'⟩ := hx'
    rw [hx']
    obtain ⟨g', e, hg⟩ := ih (f' * x') h
    refine ⟨g', e, fun r hr => ?_⟩
    obtain ⟨s, hs, hsr⟩ := hg r hr
    obtain ⟨a, b, rfl, rfl, rfl⟩ := mul_up hs
    refine ⟨a, rfl, fun ha => hsr ?_⟩
    obtain ⟨c, hc, hcb⟩ := pow_up hx
    have hc' : (if inv then 1 / (q : M.Num) else (q : M.Num)) = c := by
      split at hc
      · next hi =>
        obtain ⟨c1, c2, e1, e2, e3⟩ := div_up hc
        rw [if_pos hi, ratCast_up e2, up_injective (a := 1) (b := c1) e1, e3]
      · next hi => rw [if_neg hi, ratCast_up hc]
    rw [hc'] at hx'
    rw [hcb] at hx'
    cases hx'
    rw [ha]

theorem deconstructPrefixes_up {top bot t b : UList} {f : Ranged M} (h : deconstructPrefixes top bot = .ok (t, b, f)) :
    ∃ f' : M.Num, deconstructPrefixes top bot = .ok (t, b, f') ∧ ∀ r : M.Num, f = r.up → f' = r := by
  unfold deconstructPrefixes at h ⊢
  split at h
  · cases h
  next ts hts =>
  split at h
  · cases h
  next bs hbs =>
  split at h
  · cases h
  next f1 hf1 =>
  split at h
  · cases h
  next f2 hf2 =>
  simp only [Except.ok.injEq, Prod.mk.injEq] at h
  obtain ⟨rfl, rfl, rfl⟩ := h
  obtain ⟨g1, e1, h1⟩ := prefixFactorLoop_up false (1 : M.Num) hf1
  obtain ⟨g2, e2, h2⟩ := prefixFactorLoop_up true g1 hf2
  simp only [e1, e2]
  refine ⟨g2, rfl, fun r hr => ?_⟩
  obtain ⟨s, hs, hsr⟩ := h2 r hr
  obtain ⟨s', hs', hsr'⟩ := h1 s hs
  exact hsr (hsr' (up_injective (b := 1) hs'.symm)).symm

theorem reduceUnits_up {x y : Bool} {top bot t b : UList} {f : Ranged M} (h : reduceUnits x y top bot = .ok (t, b, f)) :
    ∃ f' : M.Num, reduceUnits x y top bot = .ok (t, b, f') ∧ ∀ r : M.Num, f = r.up → f' = r := by
  unfold reduceUnits at h ⊢
  split at h
  · cases h
  next t0 b0 f0 h0 =>
  obtain ⟨f', e, hf⟩ := deconstructPrefixes_up h0
  simp only [e]
  split at h
  · cases h
  next t1 b1 h1 =>
  simp only at h
  split at h
  · cases h
  next t2 b2 h2 =>
  simp only [Except.ok.injEq, Prod.mk.injEq] at h
  obtain ⟨rfl, rfl, rfl⟩ := h
  exact ⟨f', rfl, hf⟩

/-! ## Quantities -/

/-- The same unit, nothing lost. -/
def UnitV.Held (u : UnitV (Ranged M)) (w : UnitV M.Num) : Prop :=
  u.cls = w.cls ∧ u.unit = w.unit ∧ u.exp = w.exp ∧ u.value = w.value.up

/-- The same compound quantity, nothing lost. -/
def MultiV.Held (m : MultiV (Ranged M)) (w : MultiV M.Num) : Prop :=
  m.cls = w.cls ∧ m.top = w.top ∧ m.bot = w.bot ∧ m.value = w.value.up

/-- The same number or quantity, nothing lost. -/
def Val.Held : Val (Ranged M) → Val M.Num → Prop
  | .num x, .num y => x = y.up
  | .unit u, .unit w => u.Held w
  | .multi m, .multi w => m.Held w
  | _, _ => False

theorem mkUnit_up {c : UCls} {x : Ranged M} {s : Sym} {e : ℚ} {u : UnitV (Ranged M)} {w : UnitV M.Num}
    (h : mkUnit c x s e = .ok u) (hu : u.Held w) : ∃ x' : M.Num, x = x'.up ∧ mkUnit c x' s e = .ok w := by
  obtain ⟨c', v, s', e'⟩ := w
  unfold mkUnit at h ⊢
  refine ⟨v, ?_⟩
  cases c
  all_goals simp only at h ⊢
  all_goals repeat' split at h
  all_goals first
    | (cases h; obtain ⟨h1, h2, h3, h4⟩ := hu; simp only at h1 h2 h3 h4; subst h1 h2 h3 h4; simp_all)
    | cases h

theorem wrapUnit_up {r : PyM (UnitV (Ranged M))} {v : Val (Ranged M)} {w : Val M.Num} (h : wrapUnit r = .ok v)
    (hw : v.Held w) : ∃ u u', r = .ok u ∧ w = .unit u' ∧ u.Held u' := by
  cases r with
  | error e => cases h
  | ok u =>
    cases h
    cases w <;> simp only [Val.Held] at hw
    exact ⟨u, _, rfl, rfl, hw⟩

theorem wrapMk_up {c : UCls} {x : Ranged M} {s : Sym} {e : ℚ} {v : Val (Ranged M)} {w : Val M.Num}
    (h : wrapUnit (mkUnit c x s e) = .ok v) (hw : v.Held w) :
    ∃ x' : M.Num, x = x'.up ∧ wrapUnit (mkUnit c x' s e) = .ok w := by
  obtain ⟨u, u', e1, rfl, hu⟩ := wrapUnit_up h hw
  obtain ⟨x', rfl, e2⟩ := mkUnit_up e1 hu
  exact ⟨x', rfl, by rw [e2]; rfl⟩

theorem mkMulti_up {c : MCls} {x : Ranged M} {s : Sym} {u : MultiV (Ranged M)} {w : MultiV M.Num}
    (h : mkMulti c x s = .ok u) (hu : u.Held w) : ∃ x' : M.Num, x = x'.up ∧ mkMulti c x' s = .ok w := by
  obtain ⟨c', v, t', b'⟩ := w
  unfold mkMulti at h ⊢
  refine ⟨v, ?_⟩
  repeat' split at h
  all_goals first
    | (cases h; obtain ⟨h1, h2, h3, h4⟩ := hu; simp only at h1 h2 h3 h4; subst h1 h2 h3 h4; simp_all)
    | cases h

theorem packDiv_up {x : Ranged M} {t b : UList} {w : Val M.Num} (h : (packDiv x t b).Held w) :
    ∃ x' : M.Num, x = x'.up ∧ packDiv x' t b = w := by
  unfold packDiv at h ⊢
  split at h <;> cases w <;> simp only [Val.Held] at h
  · exact ⟨_, h, rfl⟩
  all_goals
    rename_i w
    obtain ⟨c, v, s, e⟩ := w
    obtain ⟨h1, h2, h3, h4⟩ := h
    simp only at h1 h2 h3 h4
    subst h1 h2 h3
    exact ⟨v, h4, by simp_all⟩

theorem packMul_up {x : Ranged M} {t b : UList} {w : Val M.Num} (h : (packMul x t b).Held w) :
    ∃ x' : M.Num, x = x'.up ∧ packMul x' t b = w := by
  unfold packMul at h ⊢
  split at h <;> cases w <;> simp only [Val.Held] at h
  · exact ⟨_, h, rfl⟩
  all_goals
    rename_i w
    obtain ⟨c, v, s, e⟩ := w
    obtain ⟨h1, h2, h3, h4⟩ := h
    simp only at h1 h2 h3 h4
    subst h1 h2 h3
    exact ⟨v, h4, by simp_all⟩

/-! ## Operators -/

theorem UnitV.held_of {u : UnitV (Ranged M)} {x : M.Num} (h : u.value = x.up) : u.Held ⟨u.cls, x, u.unit, u.exp⟩ :=
  ⟨rfl, rfl, rfl, h⟩

theorem MultiV.held_of {m : MultiV (Ranged M)} {x : M.Num} (h : m.value = x.up) : m.Held ⟨m.cls, x, m.top, m.bot⟩ :=
  ⟨rfl, rfl, rfl, h⟩

theorem Val.held_multi {c : MCls} {x : Ranged M} {t b : UList} {w : Val M.Num}
    (h : Val.Held (.multi ⟨c, x, t, b⟩) w) : ∃ x' : M.Num, x = x'.up ∧ w = .multi ⟨c, x', t, b⟩ := by
  cases w <;> simp only [Val.Held] at h
  rename_i m
  obtain ⟨c', v, t', b'⟩ := m
  obtain ⟨h1, h2, h3, h4⟩ := h
  simp only at h1 h2 h3 h4
  subst h1 h2 h3
  exact ⟨v, h4, rfl⟩

theorem Val.held_num {x : Ranged M} {w : Val M.Num} (h : Val.Held (.num x) w) : ∃ x' : M.Num, x = x'.up ∧ w = .num x' := by
  cases w <;> simp only [Val.Held] at h
  exact ⟨_, h, rfl⟩

theorem multiMulMulti_up {m o : MultiV (Ranged M)} {v : Val (Ranged M)} {w : Val M.Num} (h : multiMulMulti m o = .ok v)
    (hw : v.Held w) : ∃ m' o', m.Held m' ∧ o.Held o' ∧ multiMulMulti m' o' = .ok w := by
  unfold multiMulMulti at h
  split at h
  · cases h
  next t b f hr =>
  cases h
  obtain ⟨x, hx, rfl⟩ := Val.held_multi hw
  obtain ⟨a, f', ha, hf, rfl⟩ := mul_up hx
  obtain ⟨y, z, hy, hz, rfl⟩ := mul_up ha
  obtain ⟨g, hg, hgf⟩ := reduceUnits_up hr
  refine ⟨_, _, MultiV.held_of hy, MultiV.held_of hz, ?_⟩
  simp only [multiMulMulti, hg, hgf _ hf]

theorem multiMulUnit_up {m : MultiV (Ranged M)} {u : UnitV (Ranged M)} {v : Val (Ranged M)} {w : Val M.Num}
    (h : multiMulUnit m u = .ok v) (hw : v.Held w) : ∃ m' u', m.Held m' ∧ u.Held u' ∧ multiMulUnit m' u' = .ok w := by
  unfold multiMulUnit at h
  split at h
  · cases h
  next t b f hr =>
  cases h
  obtain ⟨x, hx, rfl⟩ := packMul_up hw
  obtain ⟨y, z, hy, hz, rfl⟩ := mul_up hx
  obtain ⟨g, hg, -⟩ := reduceUnits_up hr
  refine ⟨_, _, MultiV.held_of hz, UnitV.held_of hy, ?_⟩
  simp only [multiMulUnit, hg]

theorem multiDivMulti_up {m o : MultiV (Ranged M)} {v : Val (Ranged M)} {w : Val M.Num} (h : multiDivMulti m o = .ok v)
    (hw : v.Held w) : ∃ m' o', m.Held m' ∧ o.Held o' ∧ multiDivMulti m' o' = .ok w := by
  unfold multiDivMulti at h
  split at h
  · next hs =>
    split at h
    · cases h
    next q hq =>
    cases h
    obtain ⟨q', rfl, rfl⟩ := Val.held_num hw
    obtain ⟨y, z, hy, hz, e⟩ := pyDiv_up hq
    refine ⟨_, _, MultiV.held_of hy, MultiV.held_of hz, ?_⟩
    simp only [multiDivMulti, hs, and_self, if_true, e]
  next hs =>
  split at h
  · cases h
  next t b f hr =>
  split at h
  · cases h
  next q hq =>
  cases h
  obtain ⟨x, hx, rfl⟩ := packDiv_up hw
  obtain ⟨q', f', rfl, hf, rfl⟩ := mul_up hx
  obtain ⟨y, z, hy, hz, e⟩ := pyDiv_up hq
  obtain ⟨g, hg, hgf⟩ := reduceUnits_up hr
  refine ⟨_, _, MultiV.held_of hy, MultiV.held_of hz, ?_⟩
  simp only [multiDivMulti, hs, if_false, hg, hgf _ hf, e]

theorem multiDivUnit_up {m : MultiV (Ranged M)} {u : UnitV (Ranged M)} {v : Val (Ranged M)} {w : Val M.Num}
    (h : multiDivUnit m u = .ok v) (hw : v.Held w) : ∃ m' u', m.Held m' ∧ u.Held u' ∧ multiDivUnit m' u' = .ok w := by
  unfold multiDivUnit at h
  split at h
  · cases h
  next t b f hr =>
  split at h
  · cases h
  next q hq =>
  cases h
  obtain ⟨x, hx, rfl⟩ := packDiv_up hw
  obtain ⟨q', f', rfl, hf, rfl⟩ := mul_up hx
  obtain ⟨y, z, hy, hz, e⟩ := pyDiv_up hq
  obtain ⟨g, hg, hgf⟩ := reduceUnits_up hr
  refine ⟨_, _, MultiV.held_of hy, UnitV.held_of hz, ?_⟩
  simp only [multiDivUnit, hg, hgf _ hf, e]

theorem unitDivMulti_up {m : MultiV (Ranged M)} {u : UnitV (Ranged M)} {v : Val (Ranged M)} {w : Val M.Num}
    (h : unitDivMulti u m = .ok v) (hw : v.Held w) : ∃ u' m', u.Held u' ∧ m.Held m' ∧ unitDivMulti u' m' = .ok w := by
  unfold unitDivMulti at h
  split at h
  · cases h
  next t b f hr =>
  split at h
  · cases h
  next q hq =>
  cases h
  obtain ⟨x, rfl, rfl⟩ := packDiv_up hw
  obtain ⟨y, z, hy, hz, e⟩ := pyDiv_up hq
  obtain ⟨g, hg, -⟩ := reduceUnits_up hr
  refine ⟨_, _, UnitV.held_of hy, MultiV.held_of hz, ?_⟩
  simp only [unitDivMulti, hg, e]

/-- Every operand of the operation was held, and the floating point operation returns the same. -/
def Up2 (op : Val (Ranged M) → Val (Ranged M) → PyM (Val (Ranged M))) (op' : Val M.Num → Val M.Num → PyM (Val M.Num)) : Prop :=
  ∀ a b v w, op a b = .ok v → v.Held w → ∃ a' b', a.Held a' ∧ b.Held b' ∧ op' a' b' = .ok w

/-- The same for one operand. -/
def Up1 (op : Val (Ranged M) → PyM (Val (Ranged M))) (op' : Val M.Num → PyM (Val M.Num)) : Prop :=
  ∀ a v w, op a = .ok v → v.Held w → ∃ a', a.Held a' ∧ op' a' = .ok w

theorem val_mul_up : Up2 (M := M) Val.mul Val.mul := by
  intro a b v w h hw
  cases a <;> cases b <;> simp only [Val.mul, unitMul, unitRmul, multiMul, multiRmul, reduceCtorEq, Except.ok.injEq] at h
  case num.num x y =>
    subst h
    obtain ⟨r, hr, rfl⟩ := Val.held_num hw
    obtain ⟨a, b, ha, hb, rfl⟩ := mul_up hr
    exact ⟨.num a, .num b, ha, hb, rfl⟩
  case num.unit x u =>
    obtain ⟨r, hr, e⟩ := wrapMk_up h hw
    obtain ⟨a, b, ha, hb, rfl⟩ := mul_up hr
    exact ⟨.num b, .unit _, hb, UnitV.held_of ha, e⟩
  case num.multi x m =>
    subst h
    obtain ⟨r, hr, rfl⟩ := Val.held_multi hw
    obtain ⟨a, b, ha, hb, rfl⟩ := mul_up hr
    exact ⟨.num a, .multi _, ha, MultiV.held_of hb, rfl⟩
  case unit.num u x =>
    obtain ⟨r, hr, e⟩ := wrapMk_up h hw
    obtain ⟨a, b, ha, hb, rfl⟩ := mul_up hr
    exact ⟨.unit _, .num b, UnitV.held_of ha, hb, e⟩
  case unit.unit u o =>
    split at h
    · next hc =>
      obtain ⟨r, hr, e⟩ := wrapMk_up h hw
      obtain ⟨a, b, ha, hb, rfl⟩ := mul_up hr
      exact ⟨.unit _, .unit _, UnitV.held_of ha, UnitV.held_of hb, by simp only [Val.mul, unitMul, hc, and_self, if_true]; rw [← hc.1, ← hc.2]; exact e⟩
    · next hc =>
      cases h
      obtain ⟨r, hr, rfl⟩ := Val.held_multi hw
      obtain ⟨a, b, ha, hb, rfl⟩ := mul_up hr
      exact ⟨.unit _, .unit _, UnitV.held_of ha, UnitV.held_of hb, by simp only [Val.mul, unitMul, hc, if_false]⟩
  case unit.multi u m =>
    obtain ⟨m', u', hm, hu, e⟩ := multiMulUnit_up h hw
    exact ⟨.unit u', .multi m', hu, hm, e⟩
  case multi.num m x =>
    subst h
    obtain ⟨r, hr, rfl⟩ := Val.held_multi hw
    obtain ⟨a, b, ha, hb, rfl⟩ := mul_up hr
    exact ⟨.multi _, .num b, MultiV.held_of ha, hb, rfl⟩
  case multi.unit m u =>
    obtain ⟨m', u', hm, hu, e⟩ := multiMulUnit_up h hw
    exact ⟨.multi m', .unit u', hm, hu, e⟩
  case multi.multi m o =>
    obtain ⟨m', o', hm, ho, e⟩ := multiMulMulti_up h hw
    exact ⟨.multi m', .multi o', hm, ho, e⟩
  all_goals (subst h; cases w <;> simp only [Val.Held] at hw)

theorem val_div_up : Up2 (M := M) Val.div Val.div := by
  intro a b v w h hw
  cases a <;> cases b <;> simp only [Val.div, unitDiv, multiDiv, multiRdiv, reduceCtorEq, Except.ok.injEq] at h
  case num.num x y =>
    split at h
    · cases h
    next q hq =>
    cases h
    obtain ⟨r, rfl, rfl⟩ := Val.held_num hw
    obtain ⟨a, b, ha, hb, e⟩ := pyDiv_up hq
    exact ⟨.num a, .num b, ha, hb, by simp only [Val.div, e]⟩
  case num.multi x m =>
    split at h
    · cases h
    next q hq =>
    cases h
    obtain ⟨r, rfl, rfl⟩ := Val.held_multi hw
    obtain ⟨a, b, ha, hb, e⟩ := pyDiv_up hq
    exact ⟨.num a, .multi _, ha, MultiV.held_of hb, by simp only [Val.div, multiRdiv, e]⟩
  case unit.num u x =>
    split at h
    · cases h
    next q hq =>
    obtain ⟨r, rfl, e⟩ := wrapMk_up h hw
    obtain ⟨a, b, ha, hb, e'⟩ := pyDiv_up hq
    exact ⟨.unit _, .num b, UnitV.held_of ha, hb, by simp only [Val.div, unitDiv, e']; exact e⟩
  case unit.unit u o =>
    split at h
    · cases h
    next q hq =>
    split at h
    · next hu =>
      split at h
      · next he =>
        cases h
        obtain ⟨r, rfl, rfl⟩ := Val.held_num hw
        obtain ⟨a, b, ha, hb, e⟩ := pyDiv_up hq
        exact ⟨.unit _, .unit _, UnitV.held_of ha, UnitV.held_of hb, by simp only [Val.div, unitDiv, e, hu, he, if_true]⟩
      · next he =>
        obtain ⟨r, rfl, e'⟩ := wrapMk_up h hw
        obtain ⟨a, b, ha, hb, e⟩ := pyDiv_up hq
        exact ⟨.unit _, .unit _, UnitV.held_of ha, UnitV.held_of hb,
          by simp only [Val.div, unitDiv, e, if_pos hu, if_neg he]; exact e'⟩
    · next hu =>
      cases h
      obtain ⟨r, rfl, rfl⟩ := Val.held_multi hw
      obtain ⟨a, b, ha, hb, e⟩ := pyDiv_up hq
      exact ⟨.unit _, .unit _, UnitV.held_of ha, UnitV.held_of hb, by simp only [Val.div, unitDiv, e, if_neg hu]⟩
  case unit.multi u m =>
    obtain ⟨u', m', hu, hm, e⟩ := unitDivMulti_up h hw
    exact ⟨.unit u', .multi m', hu, hm, e⟩
  case multi.num m x =>
    split at h
    · cases h
    next q hq =>
    cases h
    obtain ⟨r, rfl, rfl⟩ := Val.held_multi hw
    obtain ⟨a, b, ha, hb, e⟩ := pyDiv_up hq
    exact ⟨.multi _, .num b, MultiV.held_of ha, hb, by simp only [Val.div, multiDiv, e]⟩
  case multi.unit m u =>
    obtain ⟨m', u', hm, hu, e⟩ := multiDivUnit_up h hw
    exact ⟨.multi m', .unit u', hm, hu, e⟩
  case multi.multi m o =>
    obtain ⟨m', o', hm, ho, e⟩ := multiDivMulti_up h hw
    exact ⟨.multi m', .multi o', hm, ho, e⟩
  all_goals (subst h; cases w <;> simp only [Val.Held] at hw)

theorem val_add_up : Up2 (M := M) Val.add Val.add := by
  intro a b v w h hw
  cases a <;> cases b <;> simp only [Val.add, unitAdd, multiAdd, reduceCtorEq, Except.ok.injEq] at h
  case num.num x y =>
    subst h
    obtain ⟨r, hr, rfl⟩ := Val.held_num hw
    obtain ⟨a, b, ha, hb, rfl⟩ := add_up hr
    exact ⟨.num a, .num b, ha, hb, rfl⟩
  case unit.num u x =>
    obtain ⟨r, hr, e⟩ := wrapMk_up h hw
    obtain ⟨a, b, ha, hb, rfl⟩ := add_up hr
    exact ⟨.unit _, .num b, UnitV.held_of ha, hb, e⟩
  case unit.unit u o =>
    split at h
    swap
    · cases h
    next hi =>
    split at h
    swap
    · cases h
    next hc =>
    obtain ⟨r, hr, e⟩ := wrapMk_up h hw
    obtain ⟨a, b, ha, hb, rfl⟩ := add_up hr
    refine ⟨.unit _, .unit _, UnitV.held_of ha, UnitV.held_of hb, ?_⟩
    simp only [Val.add, unitAdd, if_pos hi, if_pos hc]
    exact e
  case multi.multi m o =>
    split at h
    swap
    · cases h
    next hi =>
    split at h
    swap
    · cases h
    next hc =>
    cases h
    obtain ⟨r, hr, rfl⟩ := Val.held_multi hw
    obtain ⟨a, b, ha, hb, rfl⟩ := add_up hr
    refine ⟨.multi _, .multi _, MultiV.held_of ha, MultiV.held_of hb, ?_⟩
    simp only [Val.add, multiAdd, if_pos hi, if_pos hc]

theorem val_sub_up : Up2 (M := M) Val.sub Val.sub := by
  intro a b v w h hw
  cases a <;> cases b <;> simp only [Val.sub, unitSub, multiSub, reduceCtorEq, Except.ok.injEq] at h
  case num.num x y =>
    subst h
    obtain ⟨r, hr, rfl⟩ := Val.held_num hw
    obtain ⟨a, b, ha, hb, rfl⟩ := sub_up hr
    exact ⟨.num a, .num b, ha, hb, rfl⟩
  case unit.num u x =>
    obtain ⟨r, hr, e⟩ := wrapMk_up h hw
    obtain ⟨a, b, ha, hb, rfl⟩ := sub_up hr
    exact ⟨.unit _, .num b, UnitV.held_of ha, hb, e⟩
  case unit.unit u o =>
    split at h
    swap
    · cases h
    next hi =>
    split at h
    swap
    · cases h
    next hc =>
    obtain ⟨r, hr, e⟩ := wrapMk_up h hw
    obtain ⟨a, b, ha, hb, rfl⟩ := sub_up hr
    refine ⟨.unit _, .unit _, UnitV.held_of ha, UnitV.held_of hb, ?_⟩
    simp only [Val.sub, unitSub, if_pos hi, if_pos hc]
    exact e
  case multi.multi m o =>
    split at h
    swap
    · cases h
    next hc =>
    cases h
    obtain ⟨r, hr, rfl⟩ := Val.held_multi hw
    obtain ⟨a, b, ha, hb, rfl⟩ := sub_up hr
    refine ⟨.multi _, .multi _, MultiV.held_of ha, MultiV.held_of hb, ?_⟩
    simp only [Val.sub, multiSub, if_pos hc]

theorem val_pow_up (q : ℚ) : Up1 (M := M) (Val.pow · q) (Val.pow · q) := by
  intro a v w h hw
  cases a <;> simp only [Val.pow, unitPow, multiPow, reduceCtorEq] at h
  case num x =>
    split at h
    · cases h
    next y hy =>
    cases h
    obtain ⟨r, rfl, rfl⟩ := Val.held_num hw
    obtain ⟨a, ha, e⟩ := pow_up hy
    exact ⟨.num a, ha, by simp only [Val.pow, e]⟩
  case unit u =>
    split at h
    · cases h
    next y hy =>
    obtain ⟨r, rfl, e⟩ := wrapMk_up h hw
    obtain ⟨a, ha, e'⟩ := pow_up hy
    exact ⟨.unit _, UnitV.held_of ha, by simp only [Val.pow, unitPow, e']; exact e⟩
  case multi m =>
    split at h
    · cases h
    next t b hr =>
    split at h
    · cases h
    next y hy =>
    cases h
    obtain ⟨r, rfl, rfl⟩ := Val.held_multi hw
    obtain ⟨a, ha, e'⟩ := pow_up hy
    exact ⟨.multi _, MultiV.held_of ha, by simp only [Val.pow, multiPow, hr, e']⟩

theorem val_neg_up : Up1 (M := M) Val.neg Val.neg := by
  intro a v w h hw
  cases a <;> simp only [Val.neg, unitNeg, multiNeg, reduceCtorEq, Except.ok.injEq] at h
  case num x =>
    subst h
    obtain ⟨r, hr, rfl⟩ := Val.held_num hw
    obtain ⟨a, ha, rfl⟩ := neg_up hr
    exact ⟨.num a, ha, rfl⟩
  case unit u =>
    obtain ⟨r, hr, e⟩ := wrapMk_up h hw
    obtain ⟨a, ha, rfl⟩ := neg_up hr
    exact ⟨.unit _, UnitV.held_of ha, e⟩
  case multi m =>
    subst h
    obtain ⟨r, hr, rfl⟩ := Val.held_multi hw
    obtain ⟨a, ha, rfl⟩ := neg_up hr
    exact ⟨.multi _, MultiV.held_of ha, rfl⟩

theorem call_up (f : Fn) : Up1 (M := M) f.call f.call := by
  intro a v w h hw
  cases a <;> cases f <;> simp only [Fn.call, reduceCtorEq, Except.ok.injEq] at h
  case num.log x =>
    split at h
    swap
    · cases h
    next h0 =>
    cases h
    obtain ⟨r, hr, rfl⟩ := Val.held_num hw
    obtain ⟨a, rfl, hn, hr⟩ := op1_eq hr
    have h0' : (0 : M.Num) < ⟨a⟩ := by
      have : ((0 : ℝ) : WithTop ℝ) < (a : WithTop ℝ) := h0
      have h1 : (0 : ℝ) < a := WithTop.coe_lt_coe.1 this
      exact h1
    refine ⟨.num ⟨a⟩, rfl, ?_⟩
    simp only [Fn.call, if_pos h0']
    exact congrArg (fun z => Except.ok (Val.num z)) (Fl.val_injective (by rw [hr]; exact if_pos hn))
  all_goals
    subst h
    obtain ⟨r, hr, rfl⟩ := Val.held_num hw
    obtain ⟨a, rfl, hn, hr⟩ := op1_eq hr
    exact ⟨.num ⟨a⟩, rfl, congrArg (fun z => Except.ok (Val.num z)) (Fl.val_injective (by rw [hr]; exact if_pos hn))⟩

end Verif
