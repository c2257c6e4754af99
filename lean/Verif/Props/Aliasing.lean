import Verif.Units.Heap
import Verif.Units.Real
import Mathlib.Tactic

/-!
# C58: aliasing by `convert_to`
-/

namespace Verif

variable {K : Type} [Field K] [LinearOrder K] [PyPow K]

/-- The conversion of the model of values is what the object level does. -/
theorem convertObj_value (T : Tables K) (u : UnitV K) (t : Sym) :
    convertUnit T u t = match convertObj T (.unit u) t with
      | .error e => .error e
      | .ok .self => .ok u
      | .ok (.fresh (.unit v)) => .ok v
      | .ok (.fresh (.multi _)) => .error .notRepresentable := by
  simp only [convertUnit, convertObj]
  cases hp : parseTarget u.unit t with
  | error e => simp
  | ok p =>
    obtain ⟨tgt, ret, e⟩ := p
    simp only
    by_cases h : u.unit = tgt
    · simp [convertParsed, h]
    · rw [if_neg h]
      cases convertParsed T u tgt ret e <;> simp

/-- Every variable refers to an object. -/
def Store.Wf (s : Store K) : Prop := ∀ r ∈ s.vars, r < s.heap.length

theorem Store.step_wf (T : Tables K) {s : Store K} (h : s.Wf) (c : Stmt K) : (s.step T c).Wf := by
  cases c with
  | new o =>
    intro r hr
    simp only [Store.step, List.mem_append, List.mem_singleton] at hr ⊢
    rcases hr with hr | rfl
    · have := h r hr; simp; omega
    · simp
  | convert y unit =>
    simp only [Store.step]
    split
    · exact h
    · rename_i r hy
      split
      · exact h
      · split
        · exact h
        · intro r' hr'
          simp only [List.mem_append, List.mem_singleton] at hr' ⊢
          rcases hr' with hr' | rfl
          · exact h r' hr'
          · exact h _ (List.mem_of_getElem? hy)
        · intro r' hr'
          simp only [List.mem_append, List.mem_singleton] at hr' ⊢
          rcases hr' with hr' | rfl
          · have := h r' hr'; simp; omega
          · simp
  | inplace y unit =>
    simp only [Store.step]
    split
    · exact h
    · split
      · exact h
      · split
        · exact h
        · intro r' hr'
          simpa using h r' hr'

theorem Store.run_wf (T : Tables K) {s : Store K} (h : s.Wf) (cs : List (Stmt K)) : (s.run T cs).Wf := by
  induction cs generalizing s with
  | nil => exact h
  | cons c cs ih => exact ih (s.step_wf T h c)

/-- Old variables keep their references. -/
theorem Store.step_vars (T : Tables K) (s : Store K) (c : Stmt K) {x : ℕ} (hx : x < s.vars.length) :
    (s.step T c).vars[x]? = s.vars[x]? := by
  cases c with
  | new o => simp [Store.step, List.getElem?_append_left hx]
  | convert y unit =>
    simp only [Store.step]
    split
    · rfl
    · split
      · rfl
      · split
        · rfl
        · exact List.getElem?_append_left hx
        · exact List.getElem?_append_left hx
  | inplace y unit =>
    simp only [Store.step]
    split
    · rfl
    · split
      · rfl
      · split <;> rfl

/-- A statement changes the object of an existing variable only if it converts, in place, a variable with the same
reference. -/
theorem Store.step_frame (T : Tables K) {s : Store K} (h : s.Wf) (c : Stmt K) {x : ℕ} (hx : x < s.vars.length)
    (hne : ∀ y unit, c = .inplace y unit → s.vars[y]? ≠ s.vars[x]?) : (s.step T c).get x = s.get x := by
  unfold Store.get
  rw [Store.step_vars T s c hx]
  have hxr : s.vars[x]? = some s.vars[x] := List.getElem?_eq_getElem hx
  have hlt : s.vars[x] < s.heap.length := h _ (List.getElem_mem hx)
  rw [hxr]
  simp only
  cases c with
  | new o => simp only [Store.step]; exact List.getElem?_append_left hlt
  | convert y unit =>
    simp only [Store.step]
    split
    · rfl
    · split
      · rfl
      · split
        · rfl
        · rfl
        · exact List.getElem?_append_left hlt
  | inplace y unit =>
    simp only [Store.step]
    split
    · rfl
    · rename_i r hy
      split
      · rfl
      · split
        · rfl
        · have : r ≠ s.vars[x] := by
            intro e
            apply hne y unit rfl
            rw [hy, hxr, e]
          exact List.getElem?_set_ne this

/-- Two variables do not refer to the same object. -/
def Independent (s : Store K) (x y : ℕ) : Prop := s.vars[x]? ≠ s.vars[y]?

theorem Store.run_vars (T : Tables K) (s : Store K) (cs : List (Stmt K)) {x : ℕ} (hx : x < s.vars.length) :
    (s.run T cs).vars[x]? = s.vars[x]? ∧ s.vars.length ≤ (s.run T cs).vars.length := by
  induction cs generalizing s with
  | nil => exact ⟨rfl, le_rfl⟩
  | cons c cs ih =>
    have hlen : s.vars.length ≤ (s.step T c).vars.length := by
      by_contra hc
      push Not at hc
      have h1 := Store.step_vars T s c (x := s.vars.length - 1) (by omega)
      rw [List.getElem?_eq_none (by omega), List.getElem?_eq_getElem (by omega)] at h1
      exact absurd h1 (by simp)
    obtain ⟨a, b⟩ := ih (s.step T c) (by omega)
    exact ⟨by rw [show Store.run T s (c :: cs) = Store.run T (s.step T c) cs from rfl, a, Store.step_vars T s c hx],
      hlen.trans b⟩

/-- **C58**, what independence gives: along any history, a variable keeps its value as long as no in-place conversion of a
variable with the same reference is executed. -/
theorem C58_frame (T : Tables K) (s : Store K) (h : s.Wf) (cs : List (Stmt K)) {x : ℕ} (hx : x < s.vars.length)
    (hne : ∀ y unit, Stmt.inplace y unit ∈ cs → y < s.vars.length → Independent s y x)
    (hnew : ∀ y unit, Stmt.inplace y unit ∈ cs → y < s.vars.length) :
    (s.run T cs).get x = s.get x := by
  induction cs generalizing s with
  | nil => rfl
  | cons c cs ih =>
    have hlen : s.vars.length ≤ (s.step T c).vars.length := (Store.run_vars T s [c] hx).2
    have := ih (s.step T c) (s.step_wf T h c) (by omega)
      (by
        intro y unit hm hy
        have hy' := hnew y unit (by simp [hm])
        have := hne y unit (by simp [hm]) hy'
        unfold Independent at this ⊢
        rwa [Store.step_vars T s c hy', Store.step_vars T s c hx])
      (by
        intro y unit hm
        have := hnew y unit (by simp [hm])
        omega)
    rw [show Store.run T s (c :: cs) = Store.run T (s.step T c) cs from rfl, this]
    apply Store.step_frame T h c hx
    intro y unit hc
    subst hc
    exact hne y unit (by simp) (hnew y unit (by simp))

/-- The variable bound by `x = y.convert_to(unit)` is independent of every earlier variable exactly when the conversion
does not return its argument. -/
theorem Store.step_convert (T : Tables K) {s : Store K} (h : s.Wf) {y : ℕ} {unit : Sym} {o : Obj K} (hy : s.get y = some o)
    {r : ConvResult K} (hc : convertObj T o unit = .ok r) :
    (s.step T (.convert y unit)).vars.length = s.vars.length + 1 ∧
    match r with
    | .self => (s.step T (.convert y unit)).vars[s.vars.length]? = s.vars[y]?
    | .fresh _ => ∀ z < s.vars.length, Independent (s.step T (.convert y unit)) s.vars.length z := by
  unfold Store.get at hy
  cases hv : s.vars[y]? with
  | none => rw [hv] at hy; simp at hy
  | some ref =>
    rw [hv] at hy
    simp only at hy
    cases r with
    | self =>
      simp only [Store.step, hv, hy, hc]
      simp
    | fresh o' =>
      simp only [Store.step, hv, hy, hc]
      refine ⟨by simp, fun z hz => ?_⟩
      unfold Independent
      simp only [List.getElem?_append_left hz]
      rw [List.getElem?_append_right (le_refl _), List.getElem?_eq_getElem hz]
      have := h _ (List.getElem_mem hz)
      simp
      omega

/-- **C58** for compound quantities: after `b = a.convert_to(u)`, in any store reached by any history, `b` shares its
object with no earlier variable. -/
theorem C58_compound (T : Tables K) (hist : List (Stmt K)) {y : ℕ} {unit : Sym} {m m' : MultiV K}
    (hy : (Store.run T Store.empty hist).get y = some (.multi m)) (hc : convertMulti T m unit = .ok m') :
    let s := Store.run T Store.empty hist
    ∀ z < s.vars.length, Independent (s.step T (.convert y unit)) s.vars.length z := by
  intro s
  have hw : s.Wf := Store.run_wf T (fun r hr => by simp [Store.empty] at hr) hist
  exact (Store.step_convert T hw (o := .multi m) (r := .fresh (.multi m')) hy (by simp [convertObj, hc])).2

/-- **C58** for simple quantities, as far as it holds: the result is independent if the quantity is not already written in
the target unit.  Missing: a quantity already in the target unit, which returns itself (`C58_false`). -/
theorem C58_simple_partial (T : Tables K) (hist : List (Stmt K)) {y : ℕ} {unit : Sym} {u v : UnitV K}
    (hy : (Store.run T Store.empty hist).get y = some (.unit u)) (hc : convertUnit T u unit = .ok v)
    (hne : ∀ tgt ret e, parseTarget u.unit unit = .ok (tgt, ret, e) → u.unit ≠ tgt) :
    let s := Store.run T Store.empty hist
    ∀ z < s.vars.length, Independent (s.step T (.convert y unit)) s.vars.length z := by
  intro s
  have hw : s.Wf := Store.run_wf T (fun r hr => by simp [Store.empty] at hr) hist
  have ho : convertObj T (.unit u) unit = .ok (.fresh (.unit v)) := by
    unfold convertUnit at hc
    simp only [convertObj]
    cases hp : parseTarget u.unit unit with
    | error e => rw [hp] at hc; exact absurd hc (by simp)
    | ok p =>
      obtain ⟨tgt, ret, e⟩ := p
      rw [hp] at hc
      simp only at hc ⊢
      rw [if_neg (hne tgt ret e hp), hc]
  exact (Store.step_convert T hw (o := .unit u) hy ho).2

/-- Conversely a quantity already in the target unit is returned itself, and the two variables are aliases in every later
store. -/
theorem C58_alias (T : Tables K) (hist later : List (Stmt K)) {y : ℕ} {unit : Sym} {u : UnitV K}
    (hy : (Store.run T Store.empty hist).get y = some (.unit u)) {ret : Sym} {e : ℚ}
    (hp : parseTarget u.unit unit = .ok (u.unit, ret, e)) :
    let s := Store.run T Store.empty hist
    ¬ Independent ((s.step T (.convert y unit)).run T later) s.vars.length y := by
  intro s
  have hw : s.Wf := Store.run_wf T (fun r hr => by simp [Store.empty] at hr) hist
  have ho : convertObj T (.unit u) unit = .ok .self := by simp [convertObj, hp]
  obtain ⟨h1, h2⟩ := Store.step_convert T hw (o := .unit u) hy ho
  have hyl : y < s.vars.length := by
    by_contra hc
    change s.get y = _ at hy
    unfold Store.get at hy
    rw [List.getElem?_eq_none (by omega)] at hy
    exact absurd hy (by simp)
  unfold Independent
  rw [not_not, (Store.run_vars T _ later (x := s.vars.length) (by omega)).1,
    (Store.run_vars T _ later (x := y) (by omega)).1, h2, Store.step_vars T s _ hyl]

/-- **C58** is false: `a = Length(5, "m"); b = a.convert_to("m"); a.convert_to("cm", True)` changes `b`. -/
theorem C58_false :
    let a : UnitV ℚ := ⟨.length, 5, c!"m", 1⟩
    let s := Store.run stdTables Store.empty [.new (.unit a), .convert 0 c!"m"]
    s.get 1 = some (.unit a) ∧
    (s.run stdTables [.inplace 0 c!"cm"]).get 1 = some (.unit ⟨.length, 500, c!"cm", 1⟩) := by
  decide +kernel

/-- The statement is not a conversion that returns its argument. -/
def NoSelf (T : Tables K) (s : Store K) : Stmt K → Prop
  | .convert y unit => ∀ o, s.get y = some o → convertObj T o unit ≠ .ok .self
  | _ => True

/-- No statement of the history is a conversion that returns its argument. -/
def NoSelfRun (T : Tables K) : Store K → List (Stmt K) → Prop
  | _, [] => True
  | s, c :: cs => NoSelf T s c ∧ NoSelfRun T (s.step T c) cs

theorem Store.step_nodup (T : Tables K) {s : Store K} (h : s.Wf) (hn : s.vars.Nodup) (c : Stmt K) (hc : NoSelf T s c) :
    (s.step T c).vars.Nodup := by
  have hfresh : (s.vars ++ [s.heap.length]).Nodup := by
    rw [List.nodup_append]
    refine ⟨hn, by simp, fun a ha b hb => ?_⟩
    have := h a ha
    simp at hb
    omega
  cases c with
  | new o => exact hfresh
  | convert y unit =>
    simp only [Store.step]
    simp only [NoSelf, Store.get] at hc
    split
    · exact hn
    · rename_i r hy
      split
      · exact hn
      · rename_i o ho
        rw [hy] at hc
        split
        · exact hn
        · rename_i heq; exact absurd heq (hc o ho)
        · exact hfresh
  | inplace y unit =>
    simp only [Store.step]
    split
    · exact hn
    · split
      · exact hn
      · split <;> exact hn

theorem Store.run_nodup (T : Tables K) {s : Store K} (h : s.Wf) (hn : s.vars.Nodup) (cs : List (Stmt K))
    (hc : NoSelfRun T s cs) : (s.run T cs).vars.Nodup := by
  induction cs generalizing s with
  | nil => exact hn
  | cons c cs ih => exact ih (s.step_wf T h c) (s.step_nodup T h hn c hc.1) hc.2

/-- **C58** over whole histories, as far as it holds: if no conversion returns its argument, then after any history a
statement other than an in-place conversion of `x` itself leaves the value of `x` alone.  Missing: histories with a
conversion to the unit the quantity already has (`C58_false`). -/
theorem C58_history_partial (T : Tables K) (hist : List (Stmt K)) (hns : NoSelfRun T Store.empty hist) (c : Stmt K) {x : ℕ}
    (hx : x < (Store.run T Store.empty hist).vars.length) (hc : ∀ unit, c ≠ .inplace x unit) :
    ((Store.run T Store.empty hist).step T c).get x = (Store.run T Store.empty hist).get x := by
  have hw : (Store.run T Store.empty hist).Wf := Store.run_wf T (fun r hr => by simp [Store.empty] at hr) hist
  have hn := Store.run_nodup T (s := Store.empty) (fun r hr => by simp [Store.empty] at hr) (by simp [Store.empty]) hist hns
  apply Store.step_frame T hw c hx
  rintro y unit rfl he
  rw [List.getElem?_eq_getElem hx] at he
  obtain ⟨hy, he⟩ := List.getElem?_eq_some_iff.mp he
  have := (hn.getElem_inj_iff (hi := hy) (hj := hx)).mp he
  exact hc unit (by rw [this])

/-- A history with conversions of both kinds and no self-return: `a = Length(5, "m"); b = a.convert_to("cm");
a.convert_to("mm", True)` leaves `b` at 500 cm. -/
example :
    let s := Store.run (stdTables (K := ℚ)) Store.empty
      [.new (.unit ⟨.length, 5, c!"m", 1⟩), .convert 0 c!"cm", .inplace 0 c!"mm"]
    s.get 0 = some (.unit ⟨.length, 5000, c!"mm", 1⟩) ∧ s.get 1 = some (.unit ⟨.length, 500, c!"cm", 1⟩) := by
  decide +kernel

/-- A compound quantity converted to the unit it already has is copied. -/
example :
    let m : MultiV ℚ := ⟨.multi, 5, [⟨c!"m", 1⟩], [⟨c!"s", 1⟩]⟩
    let s := Store.run stdTables Store.empty [.new (.multi m), .convert 0 c!"m/s", .inplace 0 c!"cm/s"]
    s.get 1 = some (.multi m) := by
  decide +kernel

/-- In place or not, the conversion gives the same quantity: either both forms raise and the store is as before, or `y`
holds after `y.convert_to(unit, True)` what `x` holds after `x = y.convert_to(unit)`. -/
theorem C58_inplace_same (T : Tables K) (hist : List (Stmt K)) (y : ℕ) (unit : Sym) :
    let s := Store.run T Store.empty hist
    (s.step T (.inplace y unit) = s ∧ s.step T (.convert y unit) = s) ∨
      ∃ o, (s.step T (.convert y unit)).get s.vars.length = some o ∧ (s.step T (.inplace y unit)).get y = some o ∧
        (s.step T (.inplace y unit)).vars = s.vars := by
  intro s
  have hw : s.Wf := Store.run_wf T (fun r hr => by simp [Store.empty] at hr) hist
  cases hv : s.vars[y]? with
  | none => left; simp only [Store.step, hv, and_self]
  | some r =>
    have hr : r < s.heap.length := hw r (List.mem_of_getElem? hv)
    obtain ⟨o, ho⟩ : ∃ o, s.heap[r]? = some o := ⟨_, List.getElem?_eq_getElem hr⟩
    cases o with
    | unit u =>
      have hval := convertObj_value T u unit
      cases hc : convertObj T (.unit u) unit with
      | error e =>
        rw [hc] at hval
        left; simp only [Store.step, hv, ho, hc, convertInplace, hval, and_self]
      | ok res =>
        right
        cases res with
        | self =>
          rw [hc] at hval
          refine ⟨.unit u, ?_, ?_, ?_⟩
          · simp only [Store.step, hv, ho, hc, Store.get]; simp [ho]
          · simp only [Store.step, hv, ho, convertInplace, hval, Store.get]; simp [hr]
          · simp only [Store.step, hv, ho, convertInplace, hval]
        | fresh o' =>
          rw [hc] at hval
          cases o' with
          | multi m =>
            exfalso
            simp only [convertObj] at hc
            split at hc
            · cases hc
            · split at hc
              · cases hc
              · split at hc <;> cases hc
          | unit v =>
            refine ⟨.unit v, ?_, ?_, ?_⟩
            · simp only [Store.step, hv, ho, hc, Store.get]; simp
            · simp only [Store.step, hv, ho, convertInplace, hval, Store.get]; simp [hr]
            · simp only [Store.step, hv, ho, convertInplace, hval]
    | multi m =>
      cases hc : convertMulti T m unit with
      | error e => left; simp only [Store.step, hv, ho, convertObj, hc, convertInplace, and_self]
      | ok m' =>
        right
        refine ⟨.multi m', ?_, ?_, ?_⟩
        · simp only [Store.step, hv, ho, convertObj, hc, Store.get]; simp
        · simp only [Store.step, hv, ho, convertInplace, hc, Store.get]; simp [hr]
        · simp only [Store.step, hv, ho, convertInplace, hc]

/-- A compound quantity, both ways. -/
example :
    let m : MultiV ℚ := ⟨.multi, 5, [⟨c!"m", 1⟩], [⟨c!"s", 1⟩]⟩
    let s := Store.run stdTables Store.empty [.new (.multi m), .convert 0 c!"cm/s", .inplace 0 c!"cm/s"]
    s.get 1 = some (.multi ⟨.multi, 500, [⟨c!"cm", 1⟩], [⟨c!"s", 1⟩]⟩) ∧ s.get 0 = s.get 1 := by
  decide +kernel

end Verif
