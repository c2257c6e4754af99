import Verif.Lemmas.Calls
import Verif.Units.CallsLibrary
import Verif.Props.FloatLibrary

/-!
# C91: calling the functions of the library never changes the quantities of the caller
-/

set_option linter.unusedSectionVars false
set_option linter.unusedSimpArgs false

namespace Verif

section
variable {K : Type} [Zero K] [One K] [Add K] [Sub K] [Mul K] [Div K] [Neg K] [NatCast K] [RatCast K] [LinearOrder K]
  [PyPow K] [PyMath K]

/-- **Calls are functions of values**: after any program of statements and calls, every variable looks as if quantities
were plain values and each call computed one new value from those of its arguments. -/
theorem C91_refinement (T : Tables K) (p : List (Line K)) (hp : ∀ c ∈ p, c.proper) (x : ℕ) :
    ((Machine.start : Machine K).lines T p).get x = ((Values.start : Values K).lines T p).get x := by
  obtain ⟨_, _, h⟩ := lines_ok T p (Machine.start_wf (K := K)) hp
  rw [← Machine.values_get, h]
  rfl

/-- **A call changes no variable of the caller**, not even one that raises. -/
theorem C91_arguments_kept (T : Tables K) (p : List (Line K)) (hp : ∀ c ∈ p, c.proper) (f : Body K)
    (hf : f.proper (fun _ => false) = true) (args : List ℕ) {x : ℕ}
    (hx : x < ((Machine.start : Machine K).lines T p).vars.length) :
    (((Machine.start : Machine K).lines T p).line T (.call f args)).get x =
      ((Machine.start : Machine K).lines T p).get x := by
  obtain ⟨_, hw, _⟩ := lines_ok T p (Machine.start_wf (K := K)) hp
  obtain ⟨_, _, hv⟩ := line_ok T hw (.call f args) hf
  rw [← Machine.values_get, ← Machine.values_get, hv]
  unfold Values.line
  dsimp only
  split
  · rfl
  · exact Values.bind_get _ _ hx (fun r hr => by simpa [Machine.values] using hw.vars r hr)

/-- **The result is a new object**: no other variable refers to it, so converting either in place cannot show through the
other. -/
theorem C91_result_new (T : Tables K) (p : List (Line K)) (hp : ∀ c ∈ p, c.proper) (f : Body K)
    (hf : f.proper (fun _ => false) = true) (args : List ℕ) :
    let s := (Machine.start : Machine K).lines T p
    (s.line T (.call f args)).vars = s.vars ∨ ∃ r, r ∉ s.vars ∧ (s.line T (.call f args)).vars = s.vars ++ [r] := by
  intro s
  obtain ⟨_, hw, _⟩ := lines_ok T p (Machine.start_wf (K := K)) hp
  obtain ⟨_, _, hv⟩ := line_ok T hw (.call f args) hf
  have hv' := congrArg Values.vars hv
  change (s.line T (.call f args)).vars = _ at hv'
  rw [hv']
  unfold Values.line
  dsimp only
  split
  · exact .inl rfl
  · rename_i rs h
    cases f.run (s.values.env rs) with
    | error e => exact .inl rfl
    | ok v =>
      refine .inr ⟨s.values.objs.length, fun h => ?_, rfl⟩
      have := hw.vars _ h
      simp [Machine.values, s] at this

/-- A function that returns its argument, which no function of the library does, returns the object itself: the new variable
is another name of the old one. -/
theorem C91_returned_argument (T : Tables K) (s : Machine K) {x r : ℕ} (hx : s.vars[x]? = some r) (hr : r < s.objs.length) :
    s.line T (.call (.ret (.var 0)) [x]) = ⟨s.mem, s.objs, s.vars ++ [r]⟩ := by
  simp [Machine.line, argRefs, hx, Body.exec, Code.exec, hr]

/-- **Afterwards the result and the arguments stay apart**: an in-place conversion of the result leaves every variable of
the caller alone, and an in-place conversion of any of those leaves the result alone. -/
theorem C91_result_apart (T : Tables K) (p : List (Line K)) (hp : ∀ c ∈ p, c.proper) (f : Body K)
    (hf : f.proper (fun _ => false) = true) (args : List ℕ) (unit : Sym) {x : ℕ}
    (hx : x < ((Machine.start : Machine K).lines T p).vars.length) :
    let s := (Machine.start : Machine K).lines T p
    let s' := s.line T (.call f args)
    let y := s.vars.length
    y < s'.vars.length →
      (s'.line T (.stmt (.inplace y unit))).get x = s.get x ∧ (s'.line T (.stmt (.inplace x unit))).get y = s'.get y := by
  intro s s' y hy
  obtain ⟨_, hw, _⟩ := lines_ok T p (Machine.start_wf (K := K)) hp
  obtain ⟨_, hw', _⟩ := line_ok T hw (.call f args) hf
  have hkeep : s'.get x = s.get x := C91_arguments_kept T p hp f hf args hx
  have hvars : ∃ r, r ∉ s.vars ∧ s'.vars = s.vars ++ [r] := by
    rcases C91_result_new T p hp f hf args with h | h
    · exfalso
      have h' : s'.vars = s.vars := h
      rw [h'] at hy
      exact lt_irrefl _ hy
    · exact h
  obtain ⟨r, hr, he⟩ := hvars
  have hne : s'.vars[y]? ≠ s'.vars[x]? := by
    rw [he, List.getElem?_append_left hx, List.getElem?_eq_getElem hx, List.getElem?_concat_length]
    exact fun h => hr (by rw [Option.some.inj h]; exact List.getElem_mem hx)
  have key : ∀ a b : ℕ, b < s'.vars.length → s'.vars[a]? ≠ s'.vars[b]? →
      (s'.line T (.stmt (.inplace a unit))).get b = s'.get b := by
    intro a b hb hab
    obtain ⟨_, _, hv⟩ := step_ok T hw' (.inplace a unit)
    show (s'.step T (.inplace a unit)).get b = s'.get b
    rw [← Machine.values_get, ← Machine.values_get, hv]
    exact Values.step_get T _ _ hb (fun r hr => by simpa [Machine.values] using hw'.vars r hr)
      (fun y' u h => by cases h; exact hab)
  refine ⟨?_, key x y hy (Ne.symm hne)⟩
  rw [← hkeep]
  refine key y x ?_ hne
  rw [he, List.length_append]
  exact Nat.lt_add_right _ hx

end

/-! ## The functions of the library -/

/-- The same results; when one raises so does the other. -/
def SameValues {α : Type} (a b : PyM α) : Prop := ∀ v, a = .ok v ↔ b = .ok v

theorem SameValues.rfl {α : Type} (a : PyM α) : SameValues a a := fun _ => Iff.rfl

theorem SameValues.errors {α : Type} {a b : PyM α} (ha : ∃ e, a = .error e) (hb : ∃ e, b = .error e) : SameValues a b := by
  obtain ⟨e, rfl⟩ := ha
  obtain ⟨e', rfl⟩ := hb
  exact fun v => ⟨nofun, nofun⟩

/-- Look up local variables. -/
local macro "locals" : tactic => `(tactic| simp only [reduceIte, Nat.reduceEqDiff, OfNat.ofNat_ne_zero, OfNat.ofNat_ne_one,
  OfNat.zero_ne_ofNat, OfNat.one_ne_ofNat, one_ne_zero, zero_ne_one])

/-- An expression gives a new object. -/
theorem Code.foldl_isNew (term : ℕ → Code) : ∀ (l : List ℕ) (a : Code), a.isNew = true →
    (l.foldl (fun acc i => acc + term i) a).isNew = true
  | [], _, h => h
  | _ :: l, _, _ => Code.foldl_isNew term l _ rfl

/-- **Every one-line formula is proper and computes its model.** -/
theorem C91_formulas : ∀ f ∈ codedFormulas, ((Body.ret f.code : Body ℝ).proper (fun _ => false) = true) ∧
    ∀ env, (Body.ret f.code).run env = f.model env := by
  intro f hf
  refine ⟨?_, fun env => C82_formulas f hf env⟩
  have key : ∀ f ∈ codedFormulas, f.code.isNew = true := by
    simp only [codedFormulas, List.forall_mem_cons, List.not_mem_nil, false_imp_iff, implies_true, and_true]
    repeat' constructor
  unfold Body.proper
  rw [key f hf]
  rfl

/-- The series solutions, for any number of terms. -/
theorem C91_series (iterations : ℤ) :
    (Body.ret (Code.finiteSlabConduction iterations) : Body ℝ).proper (fun _ => false) = true ∧
    (Body.ret (Code.finiteSlabTotalHeat iterations) : Body ℝ).proper (fun _ => false) = true ∧
    (Body.ret (Code.finiteSlabDiffusion iterations) : Body ℝ).proper (fun _ => false) = true :=
  ⟨rfl, rfl, rfl⟩

/-- **The laminar correlations convert in place, but an object of their own.** -/
theorem C91_laminar (fmt : ℚ → Sym) (env : ℕ → Val ℝ) :
    ((laminarBody fmt (332 / 1000) : Body ℝ).proper (fun _ => false) = true ∧
      (laminarBody fmt (332 / 1000)).run env = htcLaminarLocal stdTables fmt (.ok (env 0)) (.ok (env 1)) (.ok (env 2))
        (.ok (env 3)) (.ok (env 4))) ∧
    (laminarBody fmt (664 / 1000) : Body ℝ).proper (fun _ => false) = true ∧
      (laminarBody fmt (664 / 1000)).run env = htcLaminarAvg stdTables fmt (.ok (env 0)) (.ok (env 1)) (.ok (env 2))
        (.ok (env 3)) (.ok (env 4)) := by
  have key : ∀ c : ℚ, (laminarBody fmt c).run env = openField stdTables fmt
      (pnum (c : ℝ) * ppow (.ok (env 0)) (1 / 2) * ppow (.ok (env 1)) (1 / 3) * .ok (env 4)) (.ok (env 2)) (.ok (env 3)) := by
    intro c
    simp only [laminarBody, Body.run, run_mul, run_div, run_lit, run_pow, run_var, openField]
    generalize pnum (c : ℝ) * ppow (.ok (env 0)) (1 / 2) * ppow (.ok (env 1)) (1 / 3) * .ok (env 4) = nu
    cases nu with
    | error e => rfl
    | ok nu =>
      locals
      generalize ((.ok nu * .ok (env 3)) / .ok (env 2) : PyM (Val ℝ)) = h
      rcases h with e | (x | u | m | _ | _ | _)
      · rfl
      · rfl
      · simp only [callConvert]
        cases convertUnit stdTables u _ <;> simp [wrapUnit]
      · simp only [callConvert]
        cases convertMulti stdTables m _ <;> simp
      · rfl
      · rfl
      · rfl
  refine ⟨⟨rfl, ?_⟩, rfl, ?_⟩
  · rw [key]; unfold htcLaminarLocal; push_cast; rfl
  · rw [key]; unfold htcLaminarAvg; push_cast; rfl

/-- `flux_max_boiling` converts, but not in place. -/
theorem C91_flux_max_boiling (env : ℕ → Val ℝ) :
    (fluxMaxBoilingBody : Body ℝ).proper (fun _ => false) = true ∧
    fluxMaxBoilingBody.run env = fluxMaxBoiling stdTables (.ok (env 0)) (.ok (env 1)) (.ok (env 2)) (.ok (env 3)) (.ok (env 4)) := by
  refine ⟨rfl, ?_⟩
  simp only [fluxMaxBoilingBody, Body.run, run_mul, run_sub, run_lit, run_pow, run_var, fluxMaxBoiling, fluxMaxBoilingValue]
  push_cast
  generalize pnum (15 / 100 : ℝ) * _ * _ * _ = x
  rcases x with e | (x | u | m | _ | _ | _)
  · rfl
  · rfl
  · simp only [Code.run, lift1, callConvert, if_true]
    cases convertUnit stdTables u _ <;> simp [wrapUnit]
  · simp only [Code.run, lift1, callConvert, if_true]
    cases convertMulti stdTables m _ <;> simp
  · rfl
  · rfl
  · rfl

/-- `deltat_logmean`, with its assignment to a parameter. -/
theorem C91_logmean (cocurrent : Bool) (env : ℕ → Val ℝ) :
    (logmeanBody cocurrent : Body ℝ).proper (fun _ => false) = true ∧
    SameValues ((logmeanBody cocurrent).run env)
      (deltatLogmean (.ok (env 0)) (.ok (env 1)) (.ok (env 2)) (.ok (env 3)) cocurrent) := by
  cases cocurrent with
  | true =>
    refine ⟨rfl, ?_⟩
    simp only [logmeanBody, if_true, Body.run, run_sub, run_div, run_fn, run_var, deltatLogmean, fn_log]
    locals
    cases h : (.ok (env 1) - .ok (env 3) : PyM (Val ℝ)) with
    | error e => exact .errors ⟨e, rfl⟩ ⟨e, rfl⟩
    | ok b =>
      locals
      generalize ((.ok (env 2) - .ok b) / pyLog (.ok (env 2) / .ok b) : PyM (Val ℝ)) = x
      cases x <;> exact .rfl _
  | false =>
    refine ⟨rfl, ?_⟩
    simp only [logmeanBody, Bool.false_eq_true, if_false, Body.run, run_sub, run_div, run_fn, run_var, deltatLogmean, fn_log]
    cases h0 : (.ok (env 0) - .ok (env 3) : PyM (Val ℝ)) with
    | error e => exact .errors ⟨e, rfl⟩ ⟨e, rfl⟩
    | ok a =>
      locals
      cases h : (.ok (env 1) - .ok (env 2) : PyM (Val ℝ)) with
      | error e => exact .errors ⟨e, rfl⟩ ⟨e, rfl⟩
      | ok b =>
        locals
        generalize ((.ok a - .ok b) / pyLog (.ok a / .ok b) : PyM (Val ℝ)) = x
        cases x <;> exact .rfl _

/-- `radiative_heat_flow`. -/
theorem C91_radiation (env : ℕ → Val ℝ) :
    radiativeBody.proper (fun _ => false) = true ∧
    radiativeBody.run env = radiativeHeatFlow (.ok (env 0)) (.ok (env 1)) (.ok (env 2)) (.ok (env 3)) := by
  refine ⟨rfl, ?_⟩
  simp only [radiativeBody, Body.run, run_mul, run_sub, run_pow, run_var, run_const, constant_multi, radiativeHeatFlow,
    radiationConstant]
  push_cast
  generalize (qMulti _ _ * _ * _ * _ : PyM (Val ℝ)) = x
  rcases x with e | (x | u | m | _ | _ | _) <;> rfl

theorem castBuild_run (scale : ℝ) (x : ℕ) (env : ℕ → Val ℝ) :
    (Body.build x (castBuild scale)).run env = castDiffusion scale (.ok (env x)) := by
  unfold Body.run castDiffusion
  generalize env x = v
  rcases v with x | u | m | _ | _ | _ <;> simp only [castBuild]
  · rfl
  · by_cases h : m.cls = .multi
    · rw [if_pos h, if_pos h]; rfl
    · rw [if_neg h, if_neg h]

/-- `wilke_chang`. -/
theorem C91_wilke_chang (env : ℕ → Val ℝ) :
    wilkeChangBody.proper (fun _ => false) = true ∧
    wilkeChangBody.run env = wilkeChang (.ok (env 0)) (.ok (env 1)) (.ok (env 2)) (.ok (env 3)) (.ok (env 4)) := by
  refine ⟨rfl, ?_⟩
  unfold wilkeChangBody
  rw [Body.run]
  simp only [run_mul, run_div, run_lit, run_pow, run_var, wilkeChang, castBuild_run]
  push_cast
  generalize (pnum _ * _ * _ / _ : PyM (Val ℝ)) = x
  cases x <;> rfl

theorem checkUnits_run (x : ℕ) (unit : Sym) (rest : Body ℝ) (env : ℕ → Val ℝ) :
    (Body.checkUnits x unit rest).run env = guardUnits (.ok (env x)) unit (rest.run env) := by
  unfold Body.checkUnits
  rw [Body.run]
  unfold guardUnits
  dsimp only
  cases checkUnits (env x) unit <;> rfl

/-- `fullers`. -/
theorem C91_fullers (env : ℕ → Val ℝ) :
    fullersBody.proper (fun _ => false) = true ∧
    SameValues (fullersBody.run env)
      (fullers (.ok (env 0)) (.ok (env 1)) (.ok (env 2)) (.ok (env 3)) (.ok (env 4)) (.ok (env 5))) := by
  refine ⟨rfl, ?_⟩
  unfold fullersBody fullers
  simp only [checkUnits_run]
  have guard : ∀ (u : PyM (Val ℝ)) (unit : Sym) (a b : PyM (Val ℝ)), SameValues a b →
      SameValues (guardUnits u unit a) (guardUnits u unit b) := by
    intro u unit a b h
    unfold guardUnits
    cases u with
    | error e => exact .rfl _
    | ok v =>
      dsimp only
      cases checkUnits v unit with
      | error e => exact .rfl _
      | ok _ => exact h
  refine guard _ _ _ _ (guard _ _ _ _ (guard _ _ _ _ (guard _ _ _ _ (guard _ _ _ _ (guard _ _ _ _ ?_)))))
  rw [Body.run]
  simp only [run_add, run_mul, run_div, run_lit, run_pow, run_var]
  push_cast
  generalize (pnum 2 / (pnum 1 / _ + pnum 1 / _) : PyM (Val ℝ)) = mab
  cases mab with
  | error e =>
    refine .errors ⟨e, rfl⟩ ?_
    generalize (pnum _ * ppow _ _ : PyM (Val ℝ)) = num
    cases num with
    | error e' => exact ⟨e', rfl⟩
    | ok v =>
      refine ⟨e, ?_⟩
      rfl
  | ok mab =>
    dsimp only
    rw [Body.run]
    simp only [run_add, run_mul, run_div, run_lit, run_pow, run_var]
    locals
    push_cast
    generalize (pnum _ * ppow _ _ / _ : PyM (Val ℝ)) = d
    cases d with
    | error e => exact .errors ⟨e, rfl⟩ ⟨e, rfl⟩
    | ok d =>
      dsimp only
      rw [castBuild_run]
      exact .rfl _

/-- `shell_htc_full`. -/
theorem C91_shell (env : ℕ → Val ℝ) :
    (shellHtcBody : Body ℝ).proper (fun _ => false) = true ∧
    SameValues (shellHtcBody.run env) (shellHtcFull (.ok (env 0)) (.ok (env 1)) (.ok (env 2)) (.ok (env 3)) (.ok (env 4))
      (.ok (env 5)) (.ok (env 6)) (.ok (env 7)) (.ok (env 8)) (.ok (env 9))) := by
  refine ⟨rfl, ?_⟩
  unfold shellHtcFull
  simp only [shellHtcBody, Body.run, run_mul, run_sub, run_div, run_lit, run_pow, run_var, run_pi]
  locals
  simp only [sbCalc, scCalc, geCalc, prandtl]
  push_cast
  generalize (.ok (env 0) * (pyPi * ppow (.ok (env 1)) 2 / pnum 4) - .ok (env 3) * (pyPi * ppow (.ok (env 2)) 2 / pnum 4) :
    PyM (Val ℝ)) = sb
  generalize (.ok (env 4) * .ok (env 1) * (pnum 1 - .ok (env 2) / .ok (env 5)) : PyM (Val ℝ)) = sc
  cases sb with
  | error e => exact .errors ⟨e, rfl⟩ ⟨e, rfl⟩
  | ok sb =>
    locals
    cases sc with
    | error e =>
      refine .errors ⟨e, rfl⟩ ?_
      cases h : (.ok (env 6) / .ok sb : PyM (Val ℝ)) with
      | error e' => exact ⟨e', rfl⟩
      | ok v => exact ⟨e, rfl⟩
    | ok sc =>
      locals
      generalize (ppow (.ok (env 6) / .ok sb * (.ok (env 6) / .ok sc)) (1 / 2) : PyM (Val ℝ)) = ge
      cases ge with
      | error e => exact .errors ⟨e, rfl⟩ ⟨e, rfl⟩
      | ok ge =>
        locals
        cases h : (.ok (env 2) * .ok ge / .ok (env 7) : PyM (Val ℝ)) with
        | error e => exact .errors ⟨e, rfl⟩ ⟨e, rfl⟩
        | ok re =>
          locals
          generalize (.ok (env 7) * .ok (env 8) / .ok (env 9) : PyM (Val ℝ)) = pr
          simp only [htcShell, h]
          cases pr with
          | error e =>
            refine .errors ⟨e, rfl⟩ ?_
            generalize (pnum _ * ppow (.ok re) _ : PyM (Val ℝ)) = x
            cases x with
            | error e' => exact ⟨e', rfl⟩
            | ok v => exact ⟨e, rfl⟩
          | ok pr =>
            locals
            generalize (pnum _ * ppow _ _ * ppow _ _ * pnum 1 * .ok (env 9) / .ok (env 2) : PyM (Val ℝ)) = x
            cases x <;> exact .rfl _

/-! ### The cubic equations -/

theorem lift2_error_right {f : Val ℝ → Val ℝ → PyM (Val ℝ)} {a b : PyM (Val ℝ)} (h : ∃ e, b = .error e) :
    ∃ e, lift2 f a b = .error e := by
  obtain ⟨e, rfl⟩ := h
  cases a with
  | error e' => exact ⟨e', rfl⟩
  | ok v => exact ⟨e, rfl⟩

theorem lift2_error_left {f : Val ℝ → Val ℝ → PyM (Val ℝ)} {a b : PyM (Val ℝ)} (h : ∃ e, a = .error e) :
    ∃ e, lift2 f a b = .error e := by
  obtain ⟨e, rfl⟩ := h
  exact ⟨e, rfl⟩

theorem loop_errors {f : PyM (Val ℝ) → PyM (Val ℝ)} (hf : ∀ e, ∃ e', f (.error e) = .error e') (n : ℕ) :
    ∀ e, ∃ e', loop f n (.error e) = .error e' := by
  induction n with
  | zero => exact fun e => ⟨e, rfl⟩
  | succ n ih =>
    intro e
    obtain ⟨e', h⟩ := hf e
    unfold loop
    rw [h]
    exact ih e'

/-- The loop of a body is the loop of the model. -/
theorem iterate_run (step : Code) (f : PyM (Val ℝ) → PyM (Val ℝ)) (hf : ∀ e, ∃ e', f (.error e) = .error e') (n : ℕ) :
    ∀ env : ℕ → Val ℝ, (∀ z w : Val ℝ, step.run (fun i => if i = 11 then z else if i = 10 then w else env i) = f (.ok z)) →
      SameValues ((Body.iterate step n).run env) (loop f n (.ok (env 10))) := by
  induction n with
  | zero => exact fun env _ => .rfl _
  | succ n ih =>
    intro env h
    unfold Body.iterate loop
    rw [Body.run, run_var]
    dsimp only
    rw [Body.run]
    have e1 : step.run (fun i => if i = 11 then env 10 else env i) = f (.ok (env 10)) := by
      rw [← h (env 10) (env 10)]
      congr 1
      funext i
      by_cases h1 : i = 11
      · simp [h1]
      · by_cases h2 : i = 10 <;> simp [h1, h2]
    rw [e1]
    cases hz : f (.ok (env 10)) with
    | error e => exact .errors ⟨e, rfl⟩ (loop_errors hf n e)
    | ok z =>
      dsimp only
      have := ih (fun i => if i = 10 then z else if i = 11 then env 10 else env i) (by
        intro z' w'
        rw [← h z' w']
        congr 1
        funext i
        by_cases h1 : i = 11
        · simp [h1]
        · by_cases h2 : i = 10 <;> simp [h1, h2])
      simpa using this

theorem vapourStep_errors (beta q : PyM (Val ℝ)) (e : Err) : ∃ e', vapourStep beta q (.error e) = .error e' :=
  lift2_error_right (lift2_error_right (lift2_error_left ⟨e, rfl⟩))

theorem liquidStep_errors (beta q : PyM (Val ℝ)) (e : Err) : ∃ e', liquidStep beta q (.error e) = .error e' := by
  cases beta <;> exact ⟨_, rfl⟩

/-- The common part of the four functions. -/
theorem cubic_run (omega psi : ℚ) (alpha firstV firstL : Code) (state : Sym) (iterations : ℤ) (env : ℕ → Val ℝ)
    (alpha' : PyM (Val ℝ) → PyM (Val ℝ)) (fV fL : PyM (Val ℝ) → PyM (Val ℝ) → PyM (Val ℝ))
    (ha : ∀ p t, alpha.run (fun i => if i = 6 then t else if i = 5 then p else env i) = alpha' (.ok t))
    (hV : ∀ env : ℕ → Val ℝ, env 11 = .num 1 → firstV.run env = fV (.ok (env 8)) (.ok (env 9)))
    (hL : ∀ env : ℕ → Val ℝ, env 11 = env 8 → firstL.run env = fL (.ok (env 8)) (.ok (env 9))) :
    SameValues ((cubicBody omega psi alpha firstV firstL state iterations).run env)
      (let p : PyM (Val ℝ) := .ok (env 1) / .ok (env 3)
       let t : PyM (Val ℝ) := .ok (env 0) / .ok (env 2)
       let beta := pnum (omega : ℝ) * (p / t)
       let q := (pnum (psi : ℝ) * alpha' t) / (pnum (omega : ℝ) * t)
       iterateState state iterations beta q (fV beta q) (fL beta q)) := by
  unfold cubicBody
  dsimp only
  rw [Body.run, run_div, run_var, run_var]
  cases (.ok (env 1) / .ok (env 3) : PyM (Val ℝ)) with
  | error e => exact .errors ⟨e, rfl⟩ ⟨e, rfl⟩
  | ok p =>
    dsimp only
    rw [Body.run, run_div, run_var, run_var]
    locals
    cases (.ok (env 0) / .ok (env 2) : PyM (Val ℝ)) with
    | error e => exact .errors ⟨e, rfl⟩ ⟨e, rfl⟩
    | ok t =>
      dsimp only
      rw [Body.run, ha]
      cases hal : alpha' (.ok t) with
      | error e =>
        refine .errors ⟨e, rfl⟩ ?_
        cases (pnum (omega : ℝ) * (.ok p / .ok t) : PyM (Val ℝ)) with
        | error e' => exact ⟨e', rfl⟩
        | ok b => exact ⟨e, rfl⟩
      | ok al =>
        dsimp only
        rw [Body.run, run_mul, run_div, run_lit, run_var, run_var]
        locals
        cases (pnum (omega : ℝ) * (.ok p / .ok t) : PyM (Val ℝ)) with
        | error e => exact .errors ⟨e, rfl⟩ ⟨e, rfl⟩
        | ok b =>
          dsimp only
          rw [Body.run, run_div, run_mul, run_mul, run_lit, run_lit, run_var, run_var]
          locals
          cases (pnum (psi : ℝ) * .ok al / (pnum (omega : ℝ) * .ok t) : PyM (Val ℝ)) with
          | error e => exact .errors ⟨e, rfl⟩ ⟨e, rfl⟩
          | ok q =>
            dsimp only
            unfold iterateState
            dsimp only
            split
            · rw [Body.run, run_lit, Rat.cast_one]
              dsimp only [pnum]
              rw [Body.run, hV _ rfl]
              locals
              cases hz : fV (.ok b) (.ok q) with
              | error e => exact .errors ⟨e, rfl⟩ (loop_errors (vapourStep_errors _ _) _ e)
              | ok z =>
                dsimp only
                refine iterate_run Code.vapourStep _ (vapourStep_errors _ _) _ _ fun z w => ?_
                simp only [Code.vapourStep, run_add, run_sub, run_mul, run_div, run_lit, run_var, vapourStep, Rat.cast_one]
                locals
            · split
              · rw [Body.run, run_var]
                dsimp only
                rw [Body.run, hL _ rfl]
                locals
                cases hz : fL (.ok b) (.ok q) with
                | error e => exact .errors ⟨e, rfl⟩ (loop_errors (liquidStep_errors _ _) _ e)
                | ok z =>
                  dsimp only
                  refine iterate_run Code.liquidStep _ (liquidStep_errors _ _) _ _ fun z w => ?_
                  simp only [Code.liquidStep, run_add, run_sub, run_mul, run_div, run_lit, run_var, liquidStep, Rat.cast_one]
                  locals
              · exact .rfl _

theorem iterate_proper (step : Code) (hs : step.isNew = true) (n : ℕ) : ∀ own : ℕ → Bool, own 10 = true →
    (Body.iterate step n : Body ℝ).proper own = true := by
  induction n with
  | zero => intro own h; simp [Body.iterate, Body.proper, h]
  | succ n ih =>
    intro own h
    unfold Body.iterate
    rw [Body.proper]
    simp only [Code.isNew, Bool.false_eq_true, if_false]
    rw [Body.proper, if_pos hs]
    exact ih _ (by simp)

theorem cubic_proper (omega psi : ℚ) (alpha firstV firstL : Code) (hV : firstV.isNew = true) (hL : firstL.isNew = true)
    (ha : alpha.isNew = true) (state : Sym) (iterations : ℤ) :
    (cubicBody omega psi alpha firstV firstL state iterations : Body ℝ).proper (fun _ => false) = true := by
  unfold cubicBody
  have hn : ∀ x y : Code, (x / y).isNew = true := fun _ _ => rfl
  have hm : ∀ x y : Code, (x * y).isNew = true := fun _ _ => rfl
  simp only [Body.proper, hn, hm, ha, if_true]
  split
  · simp only [Body.proper, Code.isNew, if_true]
    rw [if_pos hV]
    exact iterate_proper _ rfl _ _ (by simp)
  · split
    · simp only [Body.proper, Code.isNew, Bool.false_eq_true, if_false]
      rw [if_pos hL]
      exact iterate_proper _ rfl _ _ (by simp)
    · simp [Body.proper, Code.isNew]

/-- **The cubic equations**, for every state and number of iterations. -/
theorem C91_cubic (state : Sym) (iterations : ℤ) (env : ℕ → Val ℝ) (w : ℝ) (hw : env 4 = .num w) :
    ((rendlichKwongBody state iterations : Body ℝ).proper (fun _ => false) = true ∧
      SameValues ((rendlichKwongBody state iterations).run env)
        (rendlichKwong (.ok (env 0)) (.ok (env 1)) (.ok (env 2)) (.ok (env 3)) state iterations)) ∧
    ((vanDerWaalsBody state iterations : Body ℝ).proper (fun _ => false) = true ∧
      SameValues ((vanDerWaalsBody state iterations).run env)
        (vanDerWaals (.ok (env 0)) (.ok (env 1)) (.ok (env 2)) (.ok (env 3)) state iterations)) ∧
    ((soaveBody state iterations : Body ℝ).proper (fun _ => false) = true ∧
      SameValues ((soaveBody state iterations).run env)
        (soaveRendlichKwong (.ok (env 0)) (.ok (env 1)) (.ok (env 2)) (.ok (env 3)) state w iterations)) ∧
    ((pengRobinsonBody state iterations : Body ℝ).proper (fun _ => false) = true ∧
      SameValues ((pengRobinsonBody state iterations).run env)
        (pengRobinson (.ok (env 0)) (.ok (env 1)) (.ok (env 2)) (.ok (env 3)) state w iterations)) := by
  have hV : ∀ env : ℕ → Val ℝ, env 11 = .num 1 → Code.vapourStep.run env = vapourStep (.ok (env 8)) (.ok (env 9)) (pnum 1) := by
    intro env h
    simp only [Code.vapourStep, run_add, run_sub, run_mul, run_div, run_lit, run_var, vapourStep, Rat.cast_one, h]
    rfl
  have hL : ∀ env : ℕ → Val ℝ, env 11 = env 8 →
      Code.liquidStep.run env = liquidStep (.ok (env 8)) (.ok (env 9)) (.ok (env 8)) := by
    intro env h
    simp only [Code.liquidStep, run_add, run_sub, run_mul, run_div, run_lit, run_var, liquidStep, Rat.cast_one, h]
  have hP : ∀ (env : ℕ → Val ℝ), Code.prStep.run env = prStep (pnum 1 + ppow (pnum 2) (1 / 2))
      (pnum 1 - ppow (pnum 2) (1 / 2)) (.ok (env 8)) (.ok (env 9)) (.ok (env 11)) := by
    intro env
    simp only [Code.prStep, run_add, run_sub, run_mul, run_div, run_lit, run_var, run_pow, prStep, Rat.cast_one,
      Rat.cast_ofNat]
  refine ⟨⟨cubic_proper _ _ _ _ _ rfl rfl rfl _ _, ?_⟩, ⟨cubic_proper _ _ _ _ _ rfl rfl rfl _ _, ?_⟩,
    ⟨cubic_proper _ _ _ _ _ rfl rfl rfl _ _, ?_⟩, cubic_proper _ _ _ _ _ rfl rfl rfl _ _, ?_⟩
  · have := cubic_run (8664 / 100000) (42748 / 100000) (.pow (.var 6) (-1 / 2)) Code.vapourStep Code.liquidStep state
      iterations env (fun t => ppow t (-1 / 2)) (fun b q => vapourStep b q (pnum 1)) (fun b q => liquidStep b q b)
      (fun p t => rfl) hV hL
    push_cast at this
    unfold rendlichKwong
    push_cast
    exact this
  · have := cubic_run (1 / 8) (27 / 64) (.lit 1) Code.vapourStep Code.liquidStep state
      iterations env (fun _ => pnum 1) (fun b q => vapourStep b q (pnum 1)) (fun b q => liquidStep b q b)
      (fun p t => by rw [run_lit, Rat.cast_one]) hV hL
    push_cast at this
    unfold vanDerWaals
    push_cast
    exact this
  · have := cubic_run (8664 / 100000) (42748 / 100000) Code.soaveAlpha Code.vapourStep Code.liquidStep state
      iterations env (fun t => ppow (pnum 1 + (pnum (480 / 1000) + pnum (1574 / 1000) * pnum w -
        pnum (176 / 1000) * ppow (pnum w) 2) * (pnum 1 - ppow t (1 / 2))) 2)
      (fun b q => vapourStep b q (pnum 1)) (fun b q => liquidStep b q b)
      (fun p t => by
        simp only [Code.soaveAlpha, Code.prAlpha, run_add, run_sub, run_mul, run_lit, run_var, run_pow]
        locals
        rw [hw]
        push_cast
        rfl) hV hL
    push_cast at this
    unfold soaveRendlichKwong
    push_cast
    exact this
  · have := cubic_run (7780 / 100000) (45724 / 100000) Code.prAlpha Code.prStep Code.prStep state
      iterations env (fun t => ppow (pnum 1 + (pnum (37464 / 100000) + pnum (154226 / 100000) * pnum w -
        pnum (26992 / 100000) * ppow (pnum w) 2) * (pnum 1 - ppow t (1 / 2))) 2)
      (fun b q => prStep (pnum 1 + ppow (pnum 2) (1 / 2)) (pnum 1 - ppow (pnum 2) (1 / 2)) b q (pnum 1))
      (fun b q => prStep (pnum 1 + ppow (pnum 2) (1 / 2)) (pnum 1 - ppow (pnum 2) (1 / 2)) b q b)
      (fun p t => by
        simp only [Code.soaveAlpha, Code.prAlpha, run_add, run_sub, run_mul, run_lit, run_var, run_pow]
        locals
        rw [hw]
        push_cast
        rfl) (fun env h => by rw [hP, h]; rfl) (fun env h => by rw [hP, h])
    push_cast at this
    unfold pengRobinson
    push_cast
    exact this

/-! ## Programs that call -/

/-- Only for running the examples: they use none of these functions. -/
local instance : PyMath ℚ := ⟨id, id, id, id, id, 0⟩

/-- `def f(q): h = 2 * q; h.convert_to("g*m/s", True); return MultiUnit(h._value, top_half=…, bottom_half=…)` -/
def ownInPlace : Body ℚ :=
  .assign 1 (.lit 2 * .var 0) (.inplace 1 (fun _ => c!"g*m/s") (.recast 1 .multi))

/-- `def f(q): q.convert_to("g*m/s", True); return -q` -/
def parameterInPlace : Body ℚ := .inplace 0 (fun _ => c!"g*m/s") (.ret (-.var 0))

/-- `def f(q): return q` -/
def returnParameter : Body ℚ := .ret (.var 0)

/-- `q = MultiUnit(6, "kg*m/s"); r = f(q)` -/
def callingProgram (f : Body ℚ) : List (Line ℚ) :=
  [.stmt (.multi .multi 6 c!"kg*m/s"), .call f [0]]

example : ∀ c ∈ callingProgram ownInPlace, c.proper := by
  simp [callingProgram, Line.proper]; decide +kernel

example : (List.range 2).map (Machine.start.lines stdTables (callingProgram ownInPlace)).get =
    [some (.multi ⟨.multi, 6, [⟨c!"kg", 1⟩, ⟨c!"m", 1⟩], [⟨c!"s", 1⟩]⟩),
     some (.multi ⟨.multi, 12000, [⟨c!"g", 1⟩, ⟨c!"m", 1⟩], [⟨c!"s", 1⟩]⟩)] := by decide +kernel

/-- A formula of the library: `planar_flux`. -/
example : ((Machine.start.lines stdTables
    [.stmt (.multi (.sub c!"ThermalConductivity") 3 c!"W/m*K"), .stmt (.unit .temperature 300 c!"K" 1),
     .stmt (.unit .temperature 290 c!"K" 1), .stmt (.unit .length 2 c!"m" 1),
     .call (.ret ((-(.var 0)) * ((.var 2 - .var 1) / .var 3))) [0, 1, 2, 3]] : Machine ℚ)).get 4 =
    some (.multi ⟨.multi, 15, [⟨c!"W", 1⟩], [⟨c!"m", 2⟩]⟩) := by decide +kernel

/-- **The condition is needed**: a function that converts its parameter in place is not proper and the caller sees the
change, … -/
theorem C91_parameter_in_place_shows : parameterInPlace.proper (fun _ => false) = false ∧
    (Machine.start.lines stdTables (callingProgram parameterInPlace)).get 0 ≠
      (Machine.start.lines stdTables ((callingProgram parameterInPlace).take 1)).get 0 := by decide +kernel

/-- … and one that returns its parameter makes a second name for the same object. -/
theorem C91_returned_parameter_shows : returnParameter.proper (fun _ => false) = false ∧
    (Machine.start.lines stdTables (callingProgram returnParameter ++ [.stmt (.inplace 1 c!"g*m/s")])).get 0 ≠
      (Machine.start.lines stdTables (callingProgram returnParameter)).get 0 := by decide +kernel

end Verif
