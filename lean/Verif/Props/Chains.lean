import Verif.Props.ExactTrips
import Verif.Props.Exact2
import Verif.Props.Float

/-!
# C106: converting through any chain of units

`u.convert_to(a).convert_to(b)…`, for chains of any length.
-/

namespace Verif

section
variable {K : Type} [Zero K] [One K] [Add K] [Sub K] [Mul K] [Div K] [Neg K] [NatCast K] [RatCast K] [LinearOrder K] [PyPow K]

/-- `u.convert_to(t1).convert_to(t2)…` for a simple quantity. -/
def convertAll (u : UnitV K) : List Sym → PyM (UnitV K)
  | [] => .ok u
  | t :: l => match convertUnit stdTables u t with
    | .error e => .error e
    | .ok w => convertAll w l

/-- `m.convert_to(t1).convert_to(t2)…` for a compound quantity. -/
def convertAllMulti (m : MultiV K) : List Sym → PyM (MultiV K)
  | [] => .ok m
  | t :: l => match convertMulti stdTables m t with
    | .error e => .error e
    | .ok w => convertAllMulti w l

end

/-! ## Temperatures -/

/-- A temperature converted through any list of scales and then to `t` is the temperature converted to `t`. -/
theorem C106_temperature (s t : Scale) (l : List Scale) (v : ℝ) :
    convertAll ⟨.temperature, v, s.sym, 1⟩ (l.map Scale.sym ++ [t.sym]) =
      convertUnit stdTables ⟨.temperature, v, s.sym, 1⟩ t.sym := by
  induction l generalizing s v with
  | nil =>
    obtain ⟨v', e, -⟩ := C22_temperature_exact s t v
    simp only [List.map_nil, List.nil_append, convertAll, e]
  | cons r l ih =>
    obtain ⟨u, w, e1, e2, e3⟩ := C22_temperature_path s r t v
    obtain ⟨v', e, -⟩ := C22_temperature_exact s r v
    rw [e] at e1; cases e1
    simp only [List.map_cons, List.cons_append, convertAll, e, ih, e2, e3]

example : convertAll ⟨.temperature, (212 : ℝ), c!"F", 1⟩ [c!"K", c!"R", c!"F", c!"C"] =
    .ok ⟨.temperature, 100, c!"C", 1⟩ := by
  have := C106_temperature .F .C [.K, .R, .F] 212
  simp only [Scale.sym, List.map_cons, List.map_nil, List.cons_append, List.nil_append] at this
  rw [this]
  obtain ⟨v', e, h⟩ := C22_temperature_exact .F .C 212
  simp only [Scale.sym, Scale.kelvin] at e h
  rw [e]
  have : v' = 100 := by linarith
  rw [this]

/-! ## Quantities with one factor per unit -/

/-- What a chain returns, in terms of the value in the standard unit. -/
theorem convertAll_exact (c : UCls) (hc : c ∈ linearClasses) (l : List Sym) (hl : ∀ t ∈ l, UnitOf c t ∧ t ∉ inexact)
    (r : Sym) (hr : UnitOf c r) (s : Sym) (hs : UnitOf c s) (hsr : s ≠ r ∨ s ∉ inexact) (v : ℝ) :
    convertAll ⟨c, v, s, 1⟩ (l ++ [r]) = convertUnit stdTables ⟨c, v, s, 1⟩ r := by
  induction l generalizing s v with
  | nil =>
    simp only [List.nil_append, convertAll]
    cases convertUnit stdTables ⟨c, v, s, 1⟩ r <;> rfl
  | cons t l ih =>
    obtain ⟨ht, ht'⟩ := hl t (List.mem_cons_self ..)
    have hl' : ∀ t ∈ l, UnitOf c t ∧ t ∉ inexact := fun t h => hl t (List.mem_cons_of_mem _ h)
    by_cases hst : s = r
    · subst hst
      have hs' : s ∉ inexact := hsr.resolve_left fun h => h rfl
      obtain ⟨u, e1, hu, hcu, e2⟩ := C20_round_trip_partial c hc s t hs ht hs' ht' v
      have hu' : u = ⟨c, u.value, t, 1⟩ := by
        by_cases hne : s = t
        · subst hne; rw [hs.self hc v] at e1; cases e1; rfl
        · obtain ⟨a, b, h1, -⟩ := hs.factors hc
          obtain ⟨a', b', h1', -⟩ := ht.factors hc
          rw [convertUnit_one hc h1 h1' hne v] at e1; cases e1; rfl
      simp only [List.cons_append, convertAll, e1]
      rw [hu'] at e2 ⊢
      rw [ih hl' t ht (.inr ht'), e2, hs.self hc v]
    · obtain ⟨u, w, e1, e2, e3⟩ := C20_path_partial c hc s t r hs ht hr hst ht' v
      have hu' : u = ⟨c, u.value, t, 1⟩ := by
        by_cases hne : s = t
        · subst hne; rw [hs.self hc v] at e1; cases e1; rfl
        · obtain ⟨a, b, h1, -⟩ := hs.factors hc
          obtain ⟨a', b', h1', -⟩ := ht.factors hc
          rw [convertUnit_one hc h1 h1' hne v] at e1; cases e1; rfl
      simp only [List.cons_append, convertAll, e1]
      rw [hu'] at e2 ⊢
      rw [ih hl' t ht (.inr ht'), e2, e3]

/-- A pressure, length, time, energy, mass or force converted through any list of units and then to `r` is the quantity
converted to `r`.  Missing from the full claim: inch, foot, mile and pound along the way (`C106_drift`), volumes and areas
(C20). -/
theorem C106_simple_partial (c : UCls) (hc : c ∈ linearClasses) (l : List Sym)
    (hl : ∀ t ∈ l, UnitOf c t ∧ t ∉ inexact) (s r : Sym) (hs : UnitOf c s) (hr : UnitOf c r) (hsr : s ≠ r ∨ s ∉ inexact)
    (v : ℝ) : convertAll ⟨c, v, s, 1⟩ (l ++ [r]) = convertUnit stdTables ⟨c, v, s, 1⟩ r :=
  convertAll_exact c hc l hl r hr s hs hsr v

example : UnitOf .length c!"ft" ∧ UnitOf .length c!"in" ∧ c!"ft" ≠ c!"in" ∧
    ∀ t ∈ [c!"cm", c!"m", c!"mm"], UnitOf .length t ∧ t ∉ inexact := by
  refine ⟨.inr ?_, .inr ?_, by decide, ?_⟩
  · simp only [tableKeys, stdTables, lengthTable, List.map_cons, List.map_nil]; decide
  · simp only [tableKeys, stdTables, lengthTable, List.map_cons, List.map_nil]; decide
  · unfold UnitOf
    simp only [tableKeys, stdTables, lengthTable, List.map_cons, List.map_nil, standardOf]; decide

/-- `n` times to `t` and back to `s`. -/
def backAndForth (s t : Sym) : ℕ → List Sym
  | 0 => []
  | n + 1 => t :: s :: backAndForth s t n

theorem roundTrips (c : UCls) (hc : c ∈ linearClasses) {s t : Sym} {a b a' b' : ℚ} (hs : HasFactors c s a b)
    (ht : HasFactors c t a' b') (hne : s ≠ t) (n : ℕ) (v : ℝ) :
    convertAll ⟨c, v, s, 1⟩ (backAndForth s t n) = .ok ⟨c, v * ((a * b * (a' * b') : ℚ) : ℝ) ^ n, s, 1⟩ := by
  induction n generalizing v with
  | zero => simp [backAndForth, convertAll]
  | succ n ih =>
    simp only [backAndForth, convertAll, convertUnit_one hc hs ht hne v, convertUnit_one hc ht hs (Ne.symm hne), ih]
    simp only [Except.ok.injEq, UnitV.mk.injEq, true_and, and_true]
    rw [pow_succ]
    push_cast
    ring

/-- Going to `t` and back `n` times multiplies the value by the `n`-th power of a fixed factor.  The factor is one exactly
when neither unit is an inch, a foot, a mile or a pound; unless a mile is among them it is one within 6·10⁻⁶. -/
theorem C106_round_trips (c : UCls) (hc : c ∈ linearClasses) (s t : Sym) (hs : UnitOf c s) (ht : UnitOf c t) (hne : s ≠ t) :
    ∃ q : ℝ, 0 < q ∧ (q = 1 ↔ s ∉ inexact ∧ t ∉ inexact) ∧ (s ≠ c!"mile" → t ≠ c!"mile" → |q - 1| ≤ 6 / 1000000) ∧
      ∀ (n : ℕ) (v : ℝ), convertAll ⟨c, v, s, 1⟩ (backAndForth s t n) = .ok ⟨c, v * q ^ n, s, 1⟩ := by
  obtain ⟨a, b, h1, pa, pb, -, c1⟩ := hs.factors hc
  obtain ⟨a', b', h1', pa', pb', -, c1'⟩ := ht.factors hc
  have h0 : (0 : ℚ) < a * b * (a' * b') := by positivity
  refine ⟨((a * b * (a' * b') : ℚ) : ℝ), by exact_mod_cast h0, ?_, ?_, roundTrips c hc h1 h1' hne⟩
  · have hx := C20_round_trip_exact c hc s t hs ht 1
    have hr := roundTrips c hc h1 h1' hne 1 1
    simp only [backAndForth, convertAll] at hr
    simp only [one_ne_zero, hne, false_or] at hx
    rw [← hx, convertUnit_one hc h1 h1' hne 1]
    rw [convertUnit_one hc h1 h1' hne 1] at hr
    simp only at hr
    constructor
    · intro hq
      refine ⟨_, rfl, ?_⟩
      rw [hq] at hr
      cases h : convertUnit stdTables ⟨c, 1 * (a : ℝ) * b', t, 1⟩ s with
      | error e => rw [h] at hr; cases hr
      | ok w => rw [h] at hr; simpa using hr
    · rintro ⟨u, hu, h⟩
      cases hu
      rw [h] at hr
      simp only [Except.ok.injEq, UnitV.mk.injEq, true_and, and_true, one_mul, pow_one] at hr
      exact hr.symm
  · intro ns nt
    have e1 := c1 ns
    have e2 := c1' nt
    rw [abs_le] at e1 e2
    have : |a * b * (a' * b') - 1| ≤ 6 / 1000000 := by
      rw [abs_le]
      generalize a * b = x at *
      generalize a' * b' = y at *
      constructor <;> nlinarith
    have h' : ((|a * b * (a' * b') - 1| : ℚ) : ℝ) ≤ ((6 / 1000000 : ℚ) : ℝ) := by exact_mod_cast this
    push_cast at h' ⊢
    exact h'

/-- So with a foot (or inch, mile, pound) on the way a loop that converts there and back drifts: every pass moves a nonzero
value, always by the same factor, and after enough passes it is off by any factor one likes. -/
theorem C106_drift (c : UCls) (hc : c ∈ linearClasses) (s t : Sym) (hs : UnitOf c s) (ht : UnitOf c t) (hne : s ≠ t)
    (hin : s ∈ inexact ∨ t ∈ inexact) (v : ℝ) (hv : v ≠ 0) (B : ℝ) :
    ∃ n v', convertAll ⟨c, v, s, 1⟩ (backAndForth s t n) = .ok ⟨c, v', s, 1⟩ ∧ (B < |v' / v| ∨ B < |v / v'|) := by
  obtain ⟨q, q0, q1, -, h⟩ := C106_round_trips c hc s t hs ht hne
  have hq : q ≠ 1 := by
    intro e
    have := q1.1 e
    rcases hin with h | h
    · exact this.1 h
    · exact this.2 h
  rcases lt_or_gt_of_ne hq with hlt | hgt
  · have h1 : 1 < q⁻¹ := (one_lt_inv₀ q0).2 hlt
    obtain ⟨n, hn⟩ := pow_unbounded_of_one_lt B h1
    refine ⟨n, _, h n v, .inr ?_⟩
    have : v / (v * q ^ n) = q⁻¹ ^ n := by
      rw [inv_pow]; field_simp
    rw [this, abs_of_pos (by positivity)]
    exact hn
  · obtain ⟨n, hn⟩ := pow_unbounded_of_one_lt B hgt
    refine ⟨n, _, h n v, .inl ?_⟩
    rw [mul_div_cancel_left₀ _ hv, abs_of_pos (by positivity)]
    exact hn

/-- Full claim, false: a metre converted to feet and back is not a metre. -/
theorem C106_simple_false : ¬ ∀ (l : List Sym), (∀ t ∈ l, UnitOf .length t) → ∀ (s r : Sym), UnitOf .length s →
    UnitOf .length r → ∀ v : ℝ, convertAll ⟨.length, v, s, 1⟩ (l ++ [r]) = convertUnit stdTables ⟨.length, v, s, 1⟩ r := by
  intro h
  have hc : UCls.length ∈ linearClasses := by decide
  have hm : UnitOf .length c!"m" := .inl rfl
  have hf : UnitOf .length c!"ft" := .inr (by
    simp only [tableKeys, stdTables, lengthTable, List.map_cons, List.map_nil]; decide)
  have := h [c!"ft"] (by simpa using hf) c!"m" c!"m" hm hm 1
  rw [hm.self hc] at this
  obtain ⟨q, q0, q1, -, hq⟩ := C106_round_trips .length hc c!"m" c!"ft" hm hf (by decide)
  have e := hq 1 1
  simp only [backAndForth, List.cons_append, List.nil_append] at e this
  rw [e] at this
  simp only [Except.ok.injEq, UnitV.mk.injEq, true_and, and_true, one_mul, pow_one] at this
  exact (q1.1 this).2 (by decide)

/-! ## Compound quantities -/

/-- Two conversions of the same quantity can be put one after the other. -/
theorem convertMulti_then {m q r : MultiV ℝ} {t u : Sym}
    (h : convertMulti stdTables m t = .ok q) (h' : convertMulti stdTables m u = .ok r) :
    convertMulti stdTables q u = .ok r := by
  obtain ⟨hp, hne, hcls⟩ := convert_units h
  obtain ⟨ct, cb, right, left, lf, rf, tally, h1, h2, h3, h4, h5, h6, h7⟩ := convertMulti_ok h
  rw [h1] at hp; simp only [Except.ok.injEq, Prod.mk.injEq] at hp
  obtain ⟨rfl, rfl⟩ := hp
  obtain ⟨ct, cb, right', left', lf', rf', tally', j1, j2, j3, j4, j5, j6, j7⟩ := convertMulti_ok h'
  rw [h3] at j3; cases j3
  rw [h4] at j4; cases j4
  rw [convertMulti_eq j1 j2 h2 h5 j5 j6, ← j7, hcls]
  have hv : q.value = m.value * (lf / rf) := by
    unfold mkMulti at h7
    rw [if_neg hne, h1] at h7
    simp only [Except.ok.injEq] at h7
    rw [← h7]
  rw [hv]
  congr 1
  field_simp

/-- A compound quantity converted through any list of units and then to `u`: if the chain returns, it returns what the
direct conversion returns. -/
theorem C106_compound (m r : MultiV ℝ) (l : List Sym) (u : Sym) (h : convertAllMulti m (l ++ [u]) = .ok r) :
    convertMulti stdTables m u = .ok r := by
  induction l generalizing m with
  | nil =>
    simp only [List.nil_append, convertAllMulti] at h
    split at h
    · cases h
    · rename_i w e; cases h; exact e
  | cons t l ih =>
    simp only [List.cons_append, convertAllMulti] at h
    split at h
    · cases h
    · rename_i w e; exact C19_path m w r t u e (ih w h)

/-- And it returns exactly when every conversion of the quantity itself to a unit of the list returns. -/
theorem C106_compound_iff (m r : MultiV ℝ) (l : List Sym) (u : Sym) :
    convertAllMulti m (l ++ [u]) = .ok r ↔
      (∀ t ∈ l, ∃ q, convertMulti stdTables m t = .ok q) ∧ convertMulti stdTables m u = .ok r := by
  constructor
  · intro h
    refine ⟨?_, C106_compound m r l u h⟩
    induction l generalizing m with
    | nil => simp
    | cons t l ih =>
      simp only [List.cons_append, convertAllMulti] at h
      split at h
      · cases h
      · rename_i w e
        intro t' ht'
        rcases List.mem_cons.1 ht' with rfl | ht'
        · exact ⟨w, e⟩
        · obtain ⟨q, hq⟩ := ih w h t' ht'
          exact ⟨q, C19_path m w q t t' e hq⟩
  · rintro ⟨h1, h2⟩
    induction l generalizing m with
    | nil => simp only [List.nil_append, convertAllMulti, h2]
    | cons t l ih =>
      obtain ⟨q, hq⟩ := h1 t (List.mem_cons_self ..)
      simp only [List.cons_append, convertAllMulti, hq]
      refine ih q (fun t' ht' => ?_) (convertMulti_then hq h2)
      obtain ⟨q', hq'⟩ := h1 t' (List.mem_cons_of_mem _ ht')
      exact ⟨q', convertMulti_then hq hq'⟩

/-- A heat transfer coefficient can be taken through these. -/
example : [c!"J/s*m^2*K", c!"BTU/hr*ft^2*R", c!"kW/cm^2*K", c!"W/m^2*K"].all fun t =>
    match convertMulti stdTables (⟨.sub c!"HeatTransferCoefficient", 5, [⟨c!"W", 1⟩], [⟨c!"m", 2⟩, ⟨c!"K", 1⟩]⟩ : MultiV ℚ) t with
    | .ok _ => true
    | .error _ => false := by decide +kernel

/-! ## Rounding -/

theorem mkUnit_cls {K : Type} {c : UCls} {v : K} {s : Sym} {e : ℚ} {w : UnitV K} (h : mkUnit c v s e = .ok w) : w.cls = c := by
  cases c <;> simp only [mkUnit] at h <;> (repeat' split at h) <;> cases h <;> rfl

/-- A conversion keeps the class. -/
theorem convertUnit_cls {u w : UnitV ℝ} {t : Sym} (h : convertUnit stdTables u t = .ok w) : w.cls = u.cls := by
  simp only [convertUnit, convertParsed] at h
  repeat' split at h
  all_goals first | (cases h; rfl) | cases h | exact mkUnit_cls h

variable {A : FloatArith} {k : ℝ}

/-- A chain of conversions in floating point fails where the exact chain fails, and otherwise is off by at most ten
rounding errors for each conversion. -/
theorem C106_rounding {u : UnitV (Fl A)} {u' : UnitV ℝ} (hu : u.Near k u') (hc : u'.cls ≠ .temperature) (l : List Sym)
    (hl : ∀ t ∈ l, '^' ∉ t) :
    SameOutcome (UnitV.Near (k + 10 * l.length * A.ε)) (convertAll u l) (convertAll u' l) := by
  induction l generalizing u u' k with
  | nil => simpa [convertAll, SameOutcome] using hu
  | cons t l ih =>
    have h := C78_convert_simple hu hc t (hl t (List.mem_cons_self ..))
    simp only [convertAll]
    cases e1 : convertUnit stdTables u t with
    | error e =>
      cases e2 : convertUnit stdTables u' t with
      | error e' => rw [e1, e2] at h; exact h
      | ok w' => rw [e1, e2] at h; exact False.elim h
    | ok w =>
      cases e2 : convertUnit stdTables u' t with
      | error e' => rw [e1, e2] at h; exact False.elim h
      | ok w' =>
        rw [e1, e2] at h
        have := ih h (by rw [convertUnit_cls e2]; exact hc) fun t' h' => hl t' (List.mem_cons_of_mem _ h')
        simp only [List.length_cons]
        refine this.mono fun _ _ h => h.mono (le_of_eq ?_)
        push_cast; ring

/-- So the result of a chain in floating point is within `10 (n + 1)` rounding errors of the exact direct conversion. -/
theorem C106_rounding_direct (c : UCls) (hc : c ∈ linearClasses) (l : List Sym)
    (hl : ∀ t ∈ l, UnitOf c t ∧ t ∉ inexact) (s r : Sym) (hs : UnitOf c s) (hr : UnitOf c r) (hsr : s ≠ r ∨ s ∉ inexact)
    (hp : ∀ t ∈ l ++ [r], '^' ∉ t) (v : Fl A) :
    SameOutcome (UnitV.Near (10 * (l.length + 1) * A.ε)) (convertAll ⟨c, v, s, 1⟩ (l ++ [r]))
      (convertUnit stdTables ⟨c, v.val, s, 1⟩ r) := by
  have hn : UnitV.Near (A := A) 0 ⟨c, v, s, 1⟩ ⟨c, v.val, s, 1⟩ := ⟨rfl, rfl, rfl, Close.refl le_rfl _⟩
  have ht : c ≠ .temperature := by rintro rfl; exact absurd hc (by decide)
  have h := C106_rounding hn ht (l ++ [r]) hp
  rw [C106_simple_partial c hc l hl s r hs hr hsr] at h
  refine h.mono fun _ _ h => h.mono (le_of_eq ?_)
  simp

/-- The rounding errors of a chain of compound conversions, from units that need `n` of them. -/
noncomputable def chainRoundings (n : ℝ) : List Sym → ℝ
  | [] => 0
  | t :: l => n + targetRoundings t + 2 + chainRoundings (targetRoundings t) l

/-- A chain of compound conversions in floating point. -/
theorem C106_rounding_compound {m : MultiV (Fl A)} {m' : MultiV ℝ} (hm : m.Near k m') (l : List Sym) :
    SameOutcome (MultiV.Near (k + chainRoundings (sideRoundings m'.top m'.bot) l * A.ε)) (convertAllMulti m l)
      (convertAllMulti m' l) := by
  induction l generalizing m m' k with
  | nil => simpa [convertAllMulti, SameOutcome, chainRoundings] using hm
  | cons t l ih =>
    have h := C78_convert_compound hm t
    simp only [convertAllMulti]
    cases e1 : convertMulti stdTables m t with
    | error e =>
      cases e2 : convertMulti stdTables m' t with
      | error e' => rw [e1, e2] at h; exact h
      | ok w' => rw [e1, e2] at h; exact False.elim h
    | ok w =>
      cases e2 : convertMulti stdTables m' t with
      | error e' => rw [e1, e2] at h; exact False.elim h
      | ok w' =>
        rw [e1, e2] at h
        have hp : sideRoundings w'.top w'.bot = targetRoundings t := by
          simp only [targetRoundings, (convert_units e2).1]
        have := ih h
        rw [hp] at this
        refine this.mono fun _ _ h => h.mono (le_of_eq ?_)
        simp only [chainRoundings]
        ring

/-- One conversion of a temperature in floating point, on the thermodynamic scale. -/
theorem kelvin_step (s t : Scale) (v : Fl A) :
    ∃ w : Fl A, convertUnit stdTables ⟨.temperature, v, s.sym, 1⟩ t.sym = .ok ⟨.temperature, w, t.sym, 1⟩ ∧
      |t.kelvin w.val - s.kelvin v.val| ≤ 4 * (Real.exp (14 * A.ε) - 1) * (|s.kelvin v.val| + 484) := by
  have mem : ∀ s : Scale, s.sym ∈ [c!"K", c!"C", c!"R", c!"F"] := by intro s; cases s <;> decide
  have hn : UnitV.Near (A := A) 0 ⟨.temperature, v, s.sym, 1⟩ ⟨.temperature, v.val, s.sym, 1⟩ := ⟨rfl, rfl, rfl, Close.refl le_rfl _⟩
  obtain ⟨w, w', h1, h2, hc, hu, he, hb⟩ := C78_convert_temperature hn rfl (mem s) t.sym (mem t)
  obtain ⟨x, h3, hk⟩ := C22_temperature_exact s t v.val
  rw [h3] at h2; cases h2
  obtain ⟨c, w, u, e⟩ := w
  simp only at hc hu he hb
  subst hc hu he
  refine ⟨w, h1, ?_⟩
  have h0 : 0 ≤ Real.exp (14 * A.ε) - 1 := by
    have := Real.add_one_le_exp (14 * A.ε)
    linarith [A.nonneg]
  rw [zero_add] at hb
  have hslope : |t.kelvin w.val - t.kelvin x| ≤ |w.val - x| := by
    cases t <;> simp only [Scale.kelvin]
    · exact le_rfl
    · rw [add_sub_add_right_eq_sub]
    · rw [← sub_mul, abs_mul, abs_of_pos (show (0 : ℝ) < 5 / 9 by norm_num)]
      linarith [abs_nonneg (w.val - x)]
    · rw [← sub_mul, add_sub_add_right_eq_sub, abs_mul, abs_of_pos (show (0 : ℝ) < 5 / 9 by norm_num)]
      linarith [abs_nonneg (w.val - x)]
  have hv : |v.val| ≤ 2 * |s.kelvin v.val| + 460 := by
    have ha := abs_le.1 (le_refl |s.kelvin v.val|)
    have hp := abs_nonneg (s.kelvin v.val)
    rw [abs_le]
    cases s <;> simp only [Scale.kelvin] at ha hp ⊢ <;> norm_num at ha ⊢ <;> constructor <;> linarith [ha.1, ha.2]
  rw [hk] at hslope
  calc |t.kelvin w.val - s.kelvin v.val| ≤ _ := hslope
    _ ≤ _ := hb
    _ ≤ (Real.exp (14 * A.ε) - 1) * (2 * (2 * |s.kelvin v.val| + 460) + 1016) := by gcongr
    _ = 4 * (Real.exp (14 * A.ε) - 1) * (|s.kelvin v.val| + 484) := by ring

/-- A chain of `n` conversions of a temperature in floating point returns, and the reading it returns is off by at most
`(1 + 4 (e^(14 ε) - 1))^n - 1` of the thermodynamic temperature plus 484 K. -/
theorem C106_rounding_temperature (s : Scale) (l : List Scale) (v : Fl A) :
    ∃ w : Fl A, convertAll ⟨.temperature, v, s.sym, 1⟩ (l.map Scale.sym) = .ok ⟨.temperature, w, (l.getLastD s).sym, 1⟩ ∧
      |(l.getLastD s).kelvin w.val - s.kelvin v.val| ≤
        ((1 + 4 * (Real.exp (14 * A.ε) - 1)) ^ l.length - 1) * (|s.kelvin v.val| + 484) := by
  have h0 : 0 ≤ 4 * (Real.exp (14 * A.ε) - 1) := by
    have := Real.add_one_le_exp (14 * A.ε)
    linarith [A.nonneg]
  induction l generalizing s v with
  | nil => exact ⟨v, rfl, by simp⟩
  | cons t l ih =>
    obtain ⟨x, e1, b1⟩ := kelvin_step s t v
    obtain ⟨w, e2, b2⟩ := ih t x
    refine ⟨w, by simp only [List.map_cons, convertAll, e1, e2, List.getLastD_cons], ?_⟩
    simp only [List.getLastD_cons, List.length_cons]
    generalize 4 * (Real.exp (14 * A.ε) - 1) = η at *
    have hx : |t.kelvin x.val| ≤ |s.kelvin v.val| + η * (|s.kelvin v.val| + 484) := by
      have := abs_sub_abs_le_abs_sub (t.kelvin x.val) (s.kelvin v.val); linarith
    have hp : 0 ≤ (1 + η) ^ l.length - 1 := by
      have : (1 : ℝ) ≤ (1 + η) ^ l.length := one_le_pow₀ (by linarith)
      linarith
    calc |(l.getLastD t).kelvin w.val - s.kelvin v.val| =
          |((l.getLastD t).kelvin w.val - t.kelvin x.val) + (t.kelvin x.val - s.kelvin v.val)| := by ring_nf
      _ ≤ _ := abs_add_le _ _
      _ ≤ ((1 + η) ^ l.length - 1) * (|s.kelvin v.val| + η * (|s.kelvin v.val| + 484) + 484) + η * (|s.kelvin v.val| + 484) := by
          refine add_le_add (b2.trans ?_) b1
          gcongr
      _ = ((1 + η) ^ (l.length + 1) - 1) * (|s.kelvin v.val| + 484) := by ring

/-- A thousand conversions in double precision of a temperature below 1000 K cost less than a millionth of a degree. -/
example (s : Scale) (l : List Scale) (v : Fl A) (hl : l.length = 1000) (hA : A.ε = 2⁻¹ ^ 52) (hv : |s.kelvin v.val| ≤ 1000) :
    ∃ w : Fl A, convertAll ⟨.temperature, v, s.sym, 1⟩ (l.map Scale.sym) = .ok ⟨.temperature, w, (l.getLastD s).sym, 1⟩ ∧
      |(l.getLastD s).kelvin w.val - s.kelvin v.val| ≤ 1 / 1000000 := by
  obtain ⟨w, e, b⟩ := C106_rounding_temperature s l v
  refine ⟨w, e, b.trans ?_⟩
  have h1 : Real.exp (14 * A.ε) - 1 ≤ 28 * 2⁻¹ ^ 52 := by
    have h : |14 * A.ε| ≤ 1 := by rw [hA, abs_of_pos (by positivity)]; norm_num
    have := (abs_le.1 (Real.abs_exp_sub_one_le h)).2
    rw [hA, abs_of_pos (by positivity)] at this
    rw [hA]
    linarith
  have h0 : 0 ≤ Real.exp (14 * A.ε) - 1 := by
    have := Real.add_one_le_exp (14 * A.ε)
    linarith [A.nonneg]
  have h2 : (1 + 4 * (Real.exp (14 * A.ε) - 1)) ^ l.length ≤ Real.exp (1000 * (4 * (28 * 2⁻¹ ^ 52))) := by
    rw [hl, show (1000 : ℝ) * (4 * (28 * 2⁻¹ ^ 52)) = (1000 : ℕ) * (4 * (28 * 2⁻¹ ^ 52)) by norm_num, Real.exp_nat_mul]
    gcongr
    have := Real.add_one_le_exp (4 * (28 * (2⁻¹ : ℝ) ^ 52))
    linarith
  have h3 : Real.exp (1000 * (4 * (28 * 2⁻¹ ^ 52))) - 1 ≤ 2 * (1000 * (4 * (28 * 2⁻¹ ^ 52))) := by
    have h : |(1000 * (4 * (28 * 2⁻¹ ^ 52)) : ℝ)| ≤ 1 := by rw [abs_of_pos (by positivity)]; norm_num
    have := (abs_le.1 (Real.abs_exp_sub_one_le h)).2
    rwa [abs_of_pos (by positivity)] at this
  calc _ ≤ 2 * (1000 * (4 * (28 * 2⁻¹ ^ 52))) * (1000 + 484 : ℝ) := by
        refine mul_le_mul (by linarith) (by linarith) (by positivity) (by positivity)
    _ ≤ _ := by norm_num

end Verif
