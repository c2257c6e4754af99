import Verif.Props.FloatExpr
import Verif.Props.SimpleConv
import Verif.Props.CompoundConv
import Verif.Tactic.UnitsEval
import Verif.Utility.Dimensionless

/-!
# C78: round trips, and concrete double precision calculations
-/

namespace Verif

variable {A : FloatArith}

theorem mkMulti_value {K : Type} {c : MCls} {v : K} {s : Sym} {m : MultiV K} (h : mkMulti c v s = .ok m) : m.value = v := by
  unfold mkMulti at h
  split at h
  · cases h; rfl
  · split at h
    · cases h
    · cases h; rfl

theorem qM_eq {K : Type} {s : Sym} {t b : UList} (h : parseUnits s = .ok (t, b)) (hs : s ≠ []) (name : Sym) (v : K) :
    qM name v s = .ok (.multi ⟨.sub name, v, t, b⟩) := by
  simp only [qM, mkMulti, h, hs, if_false]

theorem UnitV.near_self (u : UnitV (Fl A)) : u.Near 0 ⟨u.cls, u.value.val, u.unit, u.exp⟩ :=
  ⟨rfl, rfl, rfl, Close.refl le_rfl _⟩

theorem MultiV.near_self (m : MultiV (Fl A)) : m.Near 0 ⟨m.cls, m.value.val, m.top, m.bot⟩ :=
  ⟨rfl, rfl, rfl, Close.refl le_rfl _⟩

/-- Converting a floating point quantity to another unit and back changes it by at most twenty rounding errors. -/
theorem C78_round_trip_simple (c : UCls) (hc : c ∈ linearClasses) (s t : Sym) (hs : UnitOf c s) (ht : UnitOf c t)
    (hs' : s ∉ inexact) (ht' : t ∉ inexact) (hs2 : '^' ∉ s) (ht2 : '^' ∉ t) (v : Fl A) :
    ∃ u w : UnitV (Fl A), convertUnit stdTables ⟨c, v, s, 1⟩ t = .ok u ∧ u.unit = t ∧ convertUnit stdTables u s = .ok w ∧
      w.unit = s ∧ w.exp = 1 ∧ Close (20 * A.ε) w.value.val v.val := by
  obtain ⟨u', h1, h2, h3, h4⟩ := C20_round_trip_partial c hc s t hs ht hs' ht' v.val
  have hct : c ≠ .temperature := by rintro rfl; revert hc; decide
  rcases (C78_convert_simple (UnitV.near_self (⟨c, v, s, 1⟩ : UnitV (Fl A))) hct t ht2).elim with
    ⟨e, -, e2⟩ | ⟨u, u'', e1, e2, hu⟩
  · rw [h1] at e2; cases e2
  rw [h1] at e2
  cases e2
  rcases (C78_convert_simple hu (by rw [h3]; exact hct) s hs2).elim with ⟨e, -, e2⟩ | ⟨w, w', e3, e4, hw⟩
  · rw [h4] at e2; cases e2
  rw [h4] at e4
  cases e4
  exact ⟨u, w, e1, hu.2.1.trans h2, e3, hw.2.1, hw.2.2.1, hw.2.2.2.mono (by linarith [A.nonneg])⟩

/-- The same for compound units. -/
theorem C78_round_trip_compound (cls : MCls) (v : Fl A) (s t : Sym) (m q : MultiV (Fl A))
    (hm : mkMulti cls v s = .ok m) (hs : s ≠ []) (hz : TempNonzero m.top m.bot) (h : convertMulti stdTables m t = .ok q) :
    ∃ w, convertMulti stdTables q s = .ok w ∧ w.cls = m.cls ∧ w.top = m.top ∧ w.bot = m.bot ∧
      Close ((sideRoundings m.top m.bot + targetRoundings t + sideRoundings q.top q.bot + targetRoundings s + 4) * A.ε)
        w.value.val v.val := by
  have hm' : mkMulti cls v.val s = .ok ⟨m.cls, m.value.val, m.top, m.bot⟩ := by
    rcases (near_mkMulti cls (Close.refl le_rfl v.val) s).elim with ⟨e, e1, -⟩ | ⟨a, b, e1, e2, h1, h2, h3, h4⟩
    · rw [hm] at e1; cases e1
    · rw [hm] at e1
      cases e1
      rw [e2]
      obtain ⟨c', v', t', b'⟩ := b
      simp only at h1 h2 h3
      have hv : v' = v.val := mkMulti_value e2
      have hv2 : m.value = v := mkMulti_value hm
      simp [h1, h2, h3, hv, hv2]
  have hv2 : m.value = v := mkMulti_value hm
  rcases (C78_convert_compound m.near_self t).elim with ⟨e, e1, -⟩ | ⟨q1, q', e1, e2, hq⟩
  · rw [h] at e1; cases e1
  rw [h] at e1
  cases e1
  have h4 := C19_round_trip_partial cls v.val s t _ q' hm' hs hz e2
  rcases (C78_convert_compound hq s).elim with ⟨e, -, e2⟩ | ⟨w, w', e3, e4, hw⟩
  · rw [h4] at e2; cases e2
  rw [h4] at e4
  cases e4
  refine ⟨w, e3, hw.1, hw.2.1, hw.2.2.1, ?_⟩
  have := hw.2.2.2
  simp only [hv2] at this
  rw [← hq.2.1, ← hq.2.2.1] at this
  exact this.mono (by linarith)

/-- The Reynolds number in SI units: six rounding errors. -/
theorem C78_reynolds (rho v L mu : Fl A) (h : mu.val ≠ 0) :
    ∃ w : Fl A, reynolds (qM c!"Density" rho c!"kg/m^3") (qM c!"Velocity" v c!"m/s") (qU .length L c!"m")
        (qM c!"DynamicViscosity" mu c!"kg/m*s") = .ok (.num w) ∧
      Close (6 * A.ε) w.val (rho.val * v.val * L.val / mu.val) := by
  let env : ℕ → Val (Fl A)
    | 0 => .multi ⟨.sub c!"Density", rho, [⟨c!"kg", 1⟩], [⟨c!"m", 3⟩]⟩
    | 1 => .multi ⟨.sub c!"Velocity", v, [⟨c!"m", 1⟩], [⟨c!"s", 1⟩]⟩
    | 2 => .unit ⟨.length, L, c!"m", 1⟩
    | _ => .multi ⟨.sub c!"DynamicViscosity", mu, [⟨c!"kg", 1⟩], [⟨c!"m", 1⟩, ⟨c!"s", 1⟩]⟩
  let env' : ℕ → Val ℝ
    | 0 => .multi ⟨.sub c!"Density", rho.val, [⟨c!"kg", 1⟩], [⟨c!"m", 3⟩]⟩
    | 1 => .multi ⟨.sub c!"Velocity", v.val, [⟨c!"m", 1⟩], [⟨c!"s", 1⟩]⟩
    | 2 => .unit ⟨.length, L.val, c!"m", 1⟩
    | _ => .multi ⟨.sub c!"DynamicViscosity", mu.val, [⟨c!"kg", 1⟩], [⟨c!"m", 1⟩, ⟨c!"s", 1⟩]⟩
  have henv : ∀ i, (env i).Near (0 * A.ε) (env' i) := by
    intro i
    rw [zero_mul]
    rcases i with _ | _ | _ | i <;> exact ⟨rfl, rfl, rfl, Close.refl le_rfl _⟩
  let c : Calc := .div (.mul (.mul (.var 0) (.var 1)) (.var 2)) (.var 3)
  have q0 : ∀ {K : Type} (x : K), qM c!"Density" x c!"kg/m^3" = .ok (.multi ⟨.sub c!"Density", x, [⟨c!"kg", 1⟩], [⟨c!"m", 3⟩]⟩) :=
    qM_eq (by decide +kernel) (by decide) _
  have q1 : ∀ {K : Type} (x : K), qM c!"Velocity" x c!"m/s" = .ok (.multi ⟨.sub c!"Velocity", x, [⟨c!"m", 1⟩], [⟨c!"s", 1⟩]⟩) :=
    qM_eq (by decide +kernel) (by decide) _
  have q3 : ∀ {K : Type} (x : K), qM c!"DynamicViscosity" x c!"kg/m*s" =
      .ok (.multi ⟨.sub c!"DynamicViscosity", x, [⟨c!"kg", 1⟩], [⟨c!"m", 1⟩, ⟨c!"s", 1⟩]⟩) :=
    qM_eq (by decide +kernel) (by decide) _
  have e1 : reynolds (qM c!"Density" rho c!"kg/m^3") (qM c!"Velocity" v c!"m/s") (qU .length L c!"m")
      (qM c!"DynamicViscosity" mu c!"kg/m*s") = c.run env := by
    rw [q0, q1, q3]; rfl
  have p1 : (Calc.mul (.var 0) (.var 1)).run env' =
      .ok (.multi ⟨.multi, rho.val * v.val, [⟨c!"kg", 1⟩], [⟨c!"m", 2⟩, ⟨c!"s", 1⟩]⟩) := by
    have : qM c!"Density" rho.val c!"kg/m^3" * qM c!"Velocity" v.val c!"m/s" =
        .ok (.multi ⟨.multi, rho.val * v.val, [⟨c!"kg", 1⟩], [⟨c!"m", 2⟩, ⟨c!"s", 1⟩]⟩) := by units_eval []
    rw [q0, q1] at this
    exact this
  have p2 : (Calc.mul (.mul (.var 0) (.var 1)) (.var 2)).run env' =
      .ok (.multi ⟨.multi, rho.val * v.val * L.val, [⟨c!"kg", 1⟩], [⟨c!"m", 1⟩, ⟨c!"s", 1⟩]⟩) := by
    have : qM c!"Density" rho.val c!"kg/m^3" * qM c!"Velocity" v.val c!"m/s" * qU .length L.val c!"m" =
        .ok (.multi ⟨.multi, rho.val * v.val * L.val, [⟨c!"kg", 1⟩], [⟨c!"m", 1⟩, ⟨c!"s", 1⟩]⟩) := by
      units_eval []
      rw [mul_comm L.val]
    rw [q0, q1] at this
    exact this
  have e2 : c.run env' = .ok (.num (rho.val * v.val * L.val / mu.val)) := by
    have : reynolds (qM c!"Density" rho.val c!"kg/m^3") (qM c!"Velocity" v.val c!"m/s") (qU .length L.val c!"m")
        (qM c!"DynamicViscosity" mu.val c!"kg/m*s") = .ok (.num (rho.val * v.val * L.val / mu.val)) := by
      units_eval [reynolds, h, pnum]
      rw [mul_comm L.val]
    rw [q0, q1, q3] at this
    exact this
  have hb : c.bound env' (fun _ => 0) = 6 := by
    have u1 : Unprefixed c!"kg" := by decide
    have u2 : Unprefixed c!"m" := by decide
    have u3 : Unprefixed c!"s" := by decide
    simp only [c, Calc.bound, p1, p2]
    simp [Calc.run, env', runRoundings, Val.roundings, roundings, BaseUnit.roundings, u1, u2, u3]
    norm_num
  have := C78_calculation_partial env env' (fun _ => 0) henv c ⟨⟨⟨trivial, trivial⟩, trivial⟩, trivial⟩
  rw [hb] at this
  rcases this.elim with ⟨e, -, e4⟩ | ⟨x, y, e3, e4, hxy⟩
  · rw [e2] at e4; cases e4
  rw [e2] at e4
  cases e4
  cases x <;> simp only [Val.Near] at hxy
  exact ⟨_, e1.trans e3, hxy⟩

/-- In double precision. -/
example (rho v L mu : Fl double) (h : mu.val ≠ 0) :
    ∃ w : Fl double, reynolds (qM c!"Density" rho c!"kg/m^3") (qM c!"Velocity" v c!"m/s") (qU .length L c!"m")
        (qM c!"DynamicViscosity" mu c!"kg/m*s") = .ok (.num w) ∧
      |w.val - rho.val * v.val * L.val / mu.val| ≤ 6 * 2⁻¹ ^ 51 * |rho.val * v.val * L.val / mu.val| := by
  obtain ⟨w, h1, h2⟩ := C78_reynolds rho v L mu h
  exact ⟨w, h1, C78_double (by norm_num) h2⟩

/-- The product of a prefixed pressure and a length: six rounding errors, four of them for the prefix. -/
example (x y : Fl A) : SameOutcome (Val.Near (6 * A.ε))
    ((Val.multi ⟨.multi, x, [⟨c!"kPa", 1⟩], []⟩).mul (.multi ⟨.multi, y, [⟨c!"m", 1⟩], []⟩))
    (qMulti x.val c!"kPa" * qMulti y.val c!"m") := by
  have e : ∀ (s : Sym) (w : ℝ) (t b : UList), s ≠ [] → parseUnits s = .ok (t, b) → qMulti w s = .ok (.multi ⟨.multi, w, t, b⟩) :=
    fun s w t b hs h => by simp only [qMulti, mkMulti, h, hs, if_false]
  rw [e c!"kPa" _ [⟨c!"kPa", 1⟩] [] (by decide) (by decide +kernel), e c!"m" _ [⟨c!"m", 1⟩] [] (by decide) (by decide +kernel)]
  have u1 : ¬ Unprefixed c!"kPa" := by decide
  have u2 : Unprefixed c!"m" := by decide
  refine (C78_product (x := .multi ⟨.multi, x, [⟨c!"kPa", 1⟩], []⟩) (y := .multi ⟨.multi, y, [⟨c!"m", 1⟩], []⟩)
    (x' := .multi ⟨.multi, x.val, [⟨c!"kPa", 1⟩], []⟩) (y' := .multi ⟨.multi, y.val, [⟨c!"m", 1⟩], []⟩)
    (MultiV.near_self ⟨.multi, x, [⟨c!"kPa", 1⟩], []⟩) (MultiV.near_self ⟨.multi, y, [⟨c!"m", 1⟩], []⟩)).mono fun _ _ h => h.mono ?_
  simp [Val.roundings, roundings, BaseUnit.roundings, u1, u2]
  linarith

example (x y : ℝ) : qMulti x c!"kPa" * qMulti y c!"m" =
    .ok (.multi ⟨.multi, x * y * 1000, [⟨c!"kg", 1⟩], [⟨c!"s", 2⟩]⟩) := by
  units_eval [Rat.cast_ofNat]

/-- A cancelling and a non cancelling sum. -/
example : ¬ (Calc.sub (.add (.var 0) (.var 1)) (.var 2)).NoCancellation tenths := by
  intro h
  have := h.2.2 _ _ rfl rfl
  revert this
  show ¬ ((1 / 10 + 7 / 10 : ℝ) * (8 / 10) ≤ 0)
  norm_num

example : (Calc.add (.add (.var 0) (.var 1)) (.var 2)).NoCancellation tenths ∧
    (Calc.add (.add (.var 0) (.var 1)) (.var 2)).bound tenths (fun _ => 1) = 3 := by
  refine ⟨⟨⟨trivial, trivial, ?_⟩, trivial, ?_⟩, ?_⟩
  · rintro _ _ ⟨⟩ ⟨⟩
    show (0 : ℝ) ≤ 1 / 10 * (7 / 10)
    norm_num
  · rintro _ _ ⟨⟩ ⟨⟩
    show (0 : ℝ) ≤ (1 / 10 + 7 / 10) * (8 / 10)
    norm_num
  · norm_num [Calc.bound]

/-- A conversion there and back. -/
example (v : Fl double) : ∃ u w : UnitV (Fl double), convertUnit stdTables ⟨.length, v, c!"m", 1⟩ c!"yd" = .ok u ∧
    u.unit = c!"yd" ∧ convertUnit stdTables u c!"m" = .ok w ∧ w.unit = c!"m" ∧ w.exp = 1 ∧
    Close (20 * double.ε) w.value.val v.val :=
  C78_round_trip_simple .length (by decide) c!"m" c!"yd" (.inl rfl)
    (by right; simp only [tableKeys, stdTables, lengthTable, List.map_cons, List.map_nil]; decide)
    (by decide) (by decide) (by decide) (by decide) v

end Verif
