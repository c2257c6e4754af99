import Verif.Lemmas.Faults
import Verif.Props.Returns
import Verif.Props.Exchangers

/-!
# C117: calls that cannot be computed raise the exception of the arithmetic
-/

namespace Verif
open Code

/-- Every way of calling a formula with SI quantities, whatever their numbers: the call raises the first exception that the
expression raises on the plain numbers, and returns the value of the expression when there is none.  The units never add a
failure and never hide one. -/
theorem C117_faults : ∀ t ∈ callTable ++ oddCallTable, ∃ f ∈ codedFormulas, f.name = t.name ∧ ∀ a, t.Fits a →
    (∀ e, f.code.fault (fun i => (a i).amount) = some e → f.model a = .error e) ∧
    (f.code.fault (fun i => (a i).amount) = none → ∃ r, f.model a = .ok r ∧ r.dim = t.result ∧
      r.magn (fun s => (siSize s : ℝ)) = r.amount ∧ (t.result = 0 → ∃ x, r = .num x) ∧
      r.amount = f.code.eval fun i => (a i).amount) := by
  intro t ht
  obtain ⟨f, hf, h1, h2⟩ := SICall.found ht
  exact ⟨f, hf, h1, fun a ha => SICall.follows_of (C82_formulas f hf) h2 a ha⟩

/-- The exceptions an expression can raise on numbers. -/
theorem fault_kinds (a : ℕ → ℝ) (c : Code) (e : Err) (h : c.fault a = some e) :
    e = .zeroDivision ∨ e = .valueError ∨ e = .complexResult := by
  induction c with
  | var | lit | pi | const => cases h
  | mul x y ihx ihy | add x y ihx ihy | sub x y ihx ihy =>
    rcases Option.or_eq_some_iff.1 h with h | ⟨-, h⟩
    · exact ihx h
    · exact ihy h
  | div x y ihx ihy =>
    rcases Option.or_eq_some_iff.1 h with h | ⟨-, h⟩
    · rcases Option.or_eq_some_iff.1 h with h | ⟨-, h⟩
      · exact ihx h
      · exact ihy h
    · split at h
      · cases h; exact .inl rfl
      · cases h
  | neg x ih | conv x _ ih => exact ih h
  | pow x q ih =>
    rcases Option.or_eq_some_iff.1 h with h | ⟨-, h⟩
    · exact ih h
    · unfold powFault at h
      split at h
      · cases h; exact .inl rfl
      · split at h
        · cases h; exact .inr (.inr rfl)
        · cases h
  | fn f x ih =>
    rcases Option.or_eq_some_iff.1 h with h | ⟨-, h⟩
    · exact ih h
    · cases f with
      | log =>
        simp only [Fn.fault] at h
        split at h
        · cases h; exact .inr (.inl rfl)
        · cases h
      | exp | sin | erf | erfc => cases h

/-- No such call ends in a `TypeError`, a `KeyError` or any exception of the library: only in a division by zero, the
logarithm of a number that is not positive, or a root of a negative number. -/
theorem C117_exceptions : ∀ t ∈ callTable ++ oddCallTable, ∃ f ∈ codedFormulas, f.name = t.name ∧ ∀ a, t.Fits a → ∀ e,
    f.model a = .error e → e = .zeroDivision ∨ e = .valueError ∨ e = .complexResult := by
  intro t ht
  obtain ⟨f, hf, h1, h2⟩ := C117_faults t ht
  refine ⟨f, hf, h1, fun a ha e he => ?_⟩
  obtain ⟨h3, h4⟩ := h2 a ha
  cases hk : f.code.fault fun i => (a i).amount with
  | some e' =>
    rw [h3 e' hk] at he
    cases he
    exact fault_kinds _ _ _ hk
  | none =>
    obtain ⟨r, hr, -⟩ := h4 hk
    rw [hr] at he
    cases he

/-- The call returns exactly when the expression can be computed on the numbers. -/
theorem C117_returns_iff : ∀ t ∈ callTable ++ oddCallTable, ∃ f ∈ codedFormulas, f.name = t.name ∧ ∀ a, t.Fits a →
    ((∃ r, f.model a = .ok r) ↔ f.code.fault (fun i => (a i).amount) = none) := by
  intro t ht
  obtain ⟨f, hf, h1, h2⟩ := C117_faults t ht
  refine ⟨f, hf, h1, fun a ha => ⟨fun ⟨r, hr⟩ => ?_, fun h => ?_⟩⟩
  · cases hk : f.code.fault fun i => (a i).amount with
    | some e =>
      rw [(h2 a ha).1 e hk] at hr
      cases hr
    | none => rfl
  · obtain ⟨r, hr, -⟩ := (h2 a ha).2 h
    exact ⟨r, hr⟩

/-- Arguments of the same kinds with the same numbers: whether and how the call fails does not depend on the arrangement of
the units. -/
theorem C117_arrangement : ∀ t ∈ callTable ++ oddCallTable, ∃ f ∈ codedFormulas, f.name = t.name ∧ ∀ a b, t.Fits a → t.Fits b →
    (∀ i, (a i).amount = (b i).amount) → ∀ e, f.model a = .error e → f.model b = .error e := by
  intro t ht
  obtain ⟨f, hf, h1, h2⟩ := C117_faults t ht
  refine ⟨f, hf, h1, fun a b ha hb hab e he => ?_⟩
  have hn : (fun i => (a i).amount) = fun i => (b i).amount := funext hab
  cases hk : f.code.fault fun i => (a i).amount with
  | some e' =>
    rw [(h2 a ha).1 e' hk] at he
    cases he
    exact (h2 b hb).1 e (by rw [← hn]; exact hk)
  | none =>
    obtain ⟨r, hr, -⟩ := (h2 a ha).2 hk
    rw [hr] at he
    cases he

/-! ## In words -/

/-- Arguments `k`, `T1`, `T2`, the length, the outer and the inner radius. -/
def pipeCall : SICall := ⟨c!"pipe_heat", [SIArg.any SIArg.conductivity, SIArg.any SIArg.temperature, SIArg.any SIArg.temperature,
  SIArg.any SIArg.length, SIArg.pos SIArg.length, SIArg.pos SIArg.length], [(4, 5)], [], Kind.power.dim⟩

theorem pipeCall_follows (a : ℕ → Val ℝ) (ha : pipeCall.Fits a) {c : Code} (hc : c = Code.lit (-2) * .pi * .var 3 * .var 0 *
    ((.var 2 - .var 1) / .fn .log (.var 4 / .var 5))) :
    (∀ e, c.fault (fun i => (a i).amount) = some e →
      pipeHeat (.ok (a 0)) (.ok (a 1)) (.ok (a 2)) (.ok (a 3)) (.ok (a 4)) (.ok (a 5)) = .error e) ∧
    (c.fault (fun i => (a i).amount) = none →
      ∃ r, pipeHeat (.ok (a 0)) (.ok (a 1)) (.ok (a 2)) (.ok (a 3)) (.ok (a 4)) (.ok (a 5)) = .ok r ∧
        r.dim = Kind.power.dim ∧ r.magn (fun s => (siSize s : ℝ)) = r.amount) := by
  obtain ⟨f, hf, h1, h2⟩ := C117_faults pipeCall (by decide +kernel)
  have hm : f = ⟨c!"pipe_heat", Code.lit (-2) * .pi * .var 3 * .var 0 * ((.var 2 - .var 1) / .fn .log (.var 4 / .var 5)),
      fun a => pipeHeat (.ok (a 0)) (.ok (a 1)) (.ok (a 2)) (.ok (a 3)) (.ok (a 4)) (.ok (a 5))⟩ :=
    List.inj_on_of_nodup_map codedFormulas_names hf (by simp [codedFormulas]) h1
  subst hm hc
  obtain ⟨h3, h4⟩ := h2 a ha
  refine ⟨h3, fun h => ?_⟩
  obtain ⟨r, r1, r2, r3, -⟩ := h4 h
  exact ⟨r, r1, r2, r3⟩

/-- `pipe_heat` in SI units, whatever the numbers and the arrangement of the units: an inner radius of zero and equal radii
divide by zero, radii of opposite signs or an outer radius of zero raise ValueError, all else returns a power. -/
theorem C117_pipe_heat (a : ℕ → Val ℝ) (ha : pipeCall.Fits a) :
    let call := pipeHeat (.ok (a 0)) (.ok (a 1)) (.ok (a 2)) (.ok (a 3)) (.ok (a 4)) (.ok (a 5))
    ((a 5).amount = 0 ∨ (a 4).amount = (a 5).amount → call = .error .zeroDivision) ∧
    ((a 5).amount ≠ 0 → (a 4).amount / (a 5).amount ≤ 0 → call = .error .valueError) ∧
    (0 < (a 4).amount / (a 5).amount → (a 4).amount ≠ (a 5).amount →
      ∃ r, call = .ok r ∧ r.dim = Kind.power.dim ∧ r.magn (fun s => (siSize s : ℝ)) = r.amount) := by
  obtain ⟨h1, h2⟩ := pipeCall_follows a ha rfl
  have hf : (Code.lit (-2) * .pi * .var 3 * .var 0 * ((.var 2 - .var 1) / .fn .log (.var 4 / .var 5)) : Code).fault
      (fun i => (a i).amount) = if (a 5).amount = 0 then some .zeroDivision else
        if (a 4).amount / (a 5).amount ≤ 0 then some .valueError else
          if Real.log ((a 4).amount / (a 5).amount) = 0 then some .zeroDivision else none := by
    change ((none : Option Err).or (((none : Option Err).or (((none : Option Err).or (if (a 5).amount = 0 then some Err.zeroDivision
      else none)).or (if (a 4).amount / (a 5).amount ≤ 0 then some Err.valueError else none))).or
        (if Real.log ((a 4).amount / (a 5).amount) = 0 then some Err.zeroDivision else none))) = _
    by_cases h5 : (a 5).amount = 0
    · simp [h5]
    · by_cases h4 : (a 4).amount / (a 5).amount ≤ 0
      · simp [h5, h4]
      · simp [h5, h4]
  refine ⟨fun h => h1 _ ?_, fun h5 h4 => h1 _ ?_, fun hp hne => h2 ?_⟩
  · rw [hf]
    by_cases h5 : (a 5).amount = 0
    · rw [if_pos h5]
    · have h := h.resolve_left h5
      rw [h, div_self h5, Real.log_one]
      norm_num
  · rw [hf, if_neg h5, if_pos h4]
  · have h5 : (a 5).amount ≠ 0 := by rintro h; rw [h, div_zero] at hp; exact lt_irrefl _ hp
    rw [hf, if_neg h5, if_neg (not_le.2 hp), if_neg]
    exact Real.log_ne_zero_of_pos_of_ne_one hp (by rwa [Ne, div_eq_one_iff_eq h5])

/-- Every number is allowed: conductivity in `W/(m*K)`, temperatures in kelvin and lengths in metres. -/
example (k T1 T2 L r2 r1 : ℝ) : pipeCall.Fits fun i => match i with
    | 0 => .multi ⟨.multi, k, [⟨c!"W", 1⟩], [⟨c!"m", 1⟩, ⟨c!"K", 1⟩]⟩
    | 1 => .unit ⟨.temperature, T1, c!"K", 1⟩
    | 2 => .unit ⟨.temperature, T2, c!"K", 1⟩
    | 3 => .unit ⟨.length, L, c!"m", 1⟩
    | 4 => .unit ⟨.length, r2, c!"m", 1⟩
    | _ => .unit ⟨.length, r1, c!"m", 1⟩ := by
  have d0 : (Val.multi (K := ℝ) ⟨.multi, k, [⟨c!"W", 1⟩], [⟨c!"m", 1⟩, ⟨c!"K", 1⟩]⟩).dim = Kind.conductivity.dim :=
    (show (Val.multi (K := ℝ) ⟨.multi, 0, [⟨c!"W", 1⟩], [⟨c!"m", 1⟩, ⟨c!"K", 1⟩]⟩).dim = _ by decide +kernel)
  refine ⟨fun i k hk => ?_, by simp [pipeCall]⟩
  match i, hk with
  | 0, hk => cases hk; exact ⟨_, rfl, by simp [siSymbols], d0⟩
  | 1, hk => cases hk; exact ⟨_, rfl, T1, c!"K", 1, rfl⟩
  | 2, hk => cases hk; exact ⟨_, rfl, T2, c!"K", 1, rfl⟩
  | 3, hk => cases hk; exact ⟨_, rfl, L, c!"m", 1, rfl⟩
  | 4, hk => cases hk; exact ⟨_, rfl, r2, c!"m", 1, rfl⟩
  | 5, hk => cases hk; exact ⟨_, rfl, r1, c!"m", 1, rfl⟩
  | n + 6, hk => cases hk

/-- `deltat_logmean` of four temperatures in kelvin, counter-current: equal differences at the ends, or none at the end of
the divisor, divide by zero; differences of opposite signs raise ValueError; all else returns a temperature. -/
theorem C117_logmean (t0a t1a t0b t1b : ℝ) :
    let call := deltatLogmean (tempSI t0a) (tempSI t1a) (tempSI t0b) (tempSI t1b)
    let x := t0a - t1b
    let y := t1a - t0b
    (y = 0 ∨ x = y → call = .error .zeroDivision) ∧ (y ≠ 0 → x / y ≤ 0 → call = .error .valueError) ∧
      (0 < x / y → x ≠ y → call = tempSI (logMean x y)) := by
  intro call x y
  refine ⟨?_, ?_, ?_⟩
  · intro h
    by_cases h5 : t1a - t0b = 0
    · units_eval [call, deltatLogmean, tempSI, Bool.false_eq_true]
      simp [pyDiv, h5]
      rfl
    · have h := h.resolve_left h5
      have hxy : t0a - t1b = t1a - t0b := h
      have hq : (0 : ℝ) < (t0a - t1b) / (t1a - t0b) := by rw [hxy, div_self h5]; exact one_pos
      units_eval [call, deltatLogmean, tempSI, pyLog_num hq, h5, Bool.false_eq_true]
      simp only [pyDiv, hxy, div_self h5, Real.log_one, if_true]
  · intro h5 h4
    have h5 : t1a - t0b ≠ 0 := h5
    have h4 : (t0a - t1b) / (t1a - t0b) ≤ 0 := h4
    have hl : pyLog (.ok (.num ((t0a - t1b) / (t1a - t0b)))) = .error .valueError := if_neg (not_lt.2 h4)
    units_eval [call, deltatLogmean, tempSI, h5, Bool.false_eq_true, hl]
  · intro hp hne
    have hp : (0 : ℝ) < (t0a - t1b) / (t1a - t0b) := hp
    have h5 : t1a - t0b ≠ 0 := by rintro h; rw [h, div_zero] at hp; exact lt_irrefl _ hp
    have hlog : Real.log ((t0a - t1b) / (t1a - t0b)) ≠ 0 :=
      Real.log_ne_zero_of_pos_of_ne_one hp (by rw [Ne, div_eq_one_iff_eq h5]; exact hne)
    units_eval [call, deltatLogmean, tempSI, pyLog_num hp, hlog, h5, Bool.false_eq_true]
    rfl

end Verif
