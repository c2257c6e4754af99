import Verif.Lemmas.Convert
import Verif.Lemmas.Construct
import Verif.Spec.Dimension
import Verif.Spec.SI
import Mathlib.Tactic.Linarith
import Mathlib.Tactic.NormNum

/-!
# C115: what the class of a quantity says

A quantity of class `Area` should be an area.  `Honest` says so in terms of physical dimensions.  The registry is honest, sums and
differences of honest quantities are, but the constructors of seven classes do not look at the unit, and no product or quotient
ever is.
-/

set_option linter.unusedTactic false

namespace Verif

/-- The dimension that the name of a class stands for. -/
def classDim : UCls → Dim
  | .unit => 0
  | .temperature => (0, 0, 0, 1, 0, 0)
  | .pressure => (-1, 1, -2, 0, 0, 0)
  | .length => (1, 0, 0, 0, 0, 0)
  | .time => (0, 0, 1, 0, 0, 0)
  | .energy => (2, 1, -2, 0, 0, 0)
  | .mass => (0, 1, 0, 0, 0, 0)
  | .current => (0, 0, 0, 0, 1, 0)
  | .amount => (0, 0, 0, 0, 0, 1)
  | .force => (1, 1, -2, 0, 0, 0)
  | .volume => (3, 0, 0, 0, 0, 0)
  | .area => (2, 0, 0, 0, 0, 0)

/-- The dimension of the unit of a simple quantity; `C` alone is a degree, not a coulomb. -/
def simpleDim (s : Sym) : Dim := if s = c!"C" then (0, 0, 0, 1, 0, 0) else dimOf s

/-- The dimension of a simple quantity. -/
def UnitV.dim {K : Type} (u : UnitV K) : Dim := u.exp • simpleDim u.unit

/-- The quantity is of the kind that its class names. The class `Unit` names none. -/
def UnitV.Honest {K : Type} (u : UnitV K) : Prop := u.cls ≠ .unit ∧ u.dim = classDim u.cls

instance {K : Type} (u : UnitV K) : Decidable u.Honest := by unfold UnitV.Honest; infer_instance

theorem classDim_ne {c : UCls} (h : c ≠ .unit) : classDim c ≠ 0 := by
  revert h; cases c <;> decide +kernel

/-! ## The registry -/

theorem registry_nodup : (registry.map (·.1)).Nodup := by decide +kernel

theorem lookupSym_of_mem {α : Type} {s : Sym} {v : α} : ∀ {l : List (Sym × α)}, (l.map (·.1)).Nodup → (s, v) ∈ l →
    lookupSym s l = some v
  | [], _, h => by cases h
  | (k, w) :: l, hn, h => by
    rw [List.map_cons, List.nodup_cons] at hn
    unfold lookupSym
    rcases List.mem_cons.1 h with h | h'
    · cases h; rw [if_pos rfl]
    · rw [if_neg, lookupSym_of_mem hn.2 h']
      rintro rfl
      exact hn.1 (List.mem_map.2 ⟨_, h', rfl⟩)

/-- `get_unit_class` gives the class under which the unit is listed, and there is only one. -/
theorem C115_class_lookup (s : Sym) (c : UCls) : getUnitClass s = .ok c ↔ (s, c) ∈ registry :=
  ⟨getUnitClass_mem, fun h => by unfold getUnitClass; rw [lookupSym_of_mem registry_nodup h]⟩

/-- The vocabulary as a user knows it: the names of the units of every kind … -/
def vocabulary : List (UCls × List Sym) :=
  [(.temperature, [c!"K", c!"C", c!"F", c!"R"]), (.length, [c!"m", c!"ft", c!"in", c!"yd", c!"mile"]),
    (.mass, [c!"g", c!"lb"]), (.current, [c!"A"]), (.time, [c!"s", c!"min", c!"hr", c!"day"]), (.energy, [c!"J", c!"BTU"]),
    (.pressure, [c!"Pa", c!"psi", c!"atm", c!"bar", c!"mmHg"]), (.force, [c!"N", c!"lbf"]),
    (.volume, [c!"m^3", c!"L", c!"ft^3", c!"in^3"]), (.area, [c!"m^2", c!"acre", c!"ft^2", c!"in^2"]), (.amount, [c!"mol"])]

/-- … and those of them that take the letters `u`, `m`, `c`, `d`, `k` and `M` in front. -/
def metricVocabulary : List (UCls × List Sym) :=
  [(.length, [c!"m"]), (.mass, [c!"g"]), (.energy, [c!"J"]), (.pressure, [c!"Pa"]), (.force, [c!"N"]),
    (.volume, [c!"m^3", c!"L"]), (.area, [c!"m^2"])]

/-- The lookup knows exactly this vocabulary: these units, the metric ones also with a prefix letter, and no others. -/
theorem C115_vocabulary (s : Sym) (c : UCls) : getUnitClass s = .ok c ↔
    (∃ names, (c, names) ∈ vocabulary ∧ s ∈ names) ∨
      ∃ names p u, (c, names) ∈ metricVocabulary ∧ u ∈ names ∧ p ∈ ['u', 'm', 'c', 'd', 'k', 'M'] ∧ s = p :: u := by
  rw [C115_class_lookup]
  constructor
  · intro h
    have key : ∀ x ∈ registry, (∃ v ∈ vocabulary, v.1 = x.2 ∧ x.1 ∈ v.2) ∨
        ∃ v ∈ metricVocabulary, v.1 = x.2 ∧ ∃ u ∈ v.2, ∃ p ∈ ['u', 'm', 'c', 'd', 'k', 'M'], x.1 = p :: u := by decide +kernel
    rcases key _ h with ⟨⟨c', names⟩, hv, rfl, hs⟩ | ⟨⟨c', names⟩, hv, rfl, u, hu, p, hp, hs⟩
    · exact .inl ⟨names, hv, hs⟩
    · exact .inr ⟨names, p, u, hv, hu, hp, hs⟩
  · have k1 : ∀ v ∈ vocabulary, ∀ s ∈ v.2, (s, v.1) ∈ registry := by decide +kernel
    have k2 : ∀ v ∈ metricVocabulary, ∀ u ∈ v.2, ∀ p ∈ ['u', 'm', 'c', 'd', 'k', 'M'], (p :: u, v.1) ∈ registry := by
      decide +kernel
    rintro (⟨names, hv, hs⟩ | ⟨names, p, u, hv, hu, hp, rfl⟩)
    · exact k1 _ hv _ hs
    · exact k2 _ hv _ hu _ hp

/-- Miles and decilitres are known, kilomiles and nanometres are not. -/
example : getUnitClass c!"mile" = .ok .length ∧ getUnitClass c!"dL" = .ok .volume ∧ getUnitClass c!"kmile" = .error .keyError ∧
    getUnitClass c!"nm" = .error .keyError := by decide +kernel

/-- For all other strings it raises KeyError. -/
theorem C115_class_unknown (s : Sym) : getUnitClass s = .error .keyError ↔ ∀ c, (s, c) ∉ registry := by
  constructor
  · intro h c hc
    rw [(C115_class_lookup s c).2 hc] at h
    cases h
  · intro h
    unfold getUnitClass
    split
    · rename_i c e
      exact absurd (lookupSym_mem e) (h c)
    · rfl

/-- A unit listed under two classes would be ambiguous; none is. -/
theorem C115_class_unique {s : Sym} {c d : UCls} (hc : (s, c) ∈ registry) (hd : (s, d) ∈ registry) : c = d := by
  have h1 := (C115_class_lookup s c).2 hc
  rw [(C115_class_lookup s d).2 hd] at h1
  cases h1; rfl

/-- The value plays no part in the checks of the constructors. -/
theorem mkUnit_value {K : Type} (c : UCls) (v : K) (s : Sym) (e : ℚ) : mkUnit c v s e = match mkUnit c () s e with
    | .ok u => .ok ⟨u.cls, v, u.unit, u.exp⟩
    | .error err => .error err := by
  cases c <;> simp only [mkUnit]
  case pressure | current | amount | force => split <;> rfl
  case volume | area =>
    by_cases h : '^' ∈ s
    · simp only [h, if_true]
      rcases splitOn '^' s with _ | ⟨a, _ | ⟨b, _ | ⟨c, l⟩⟩⟩
      · rfl
      · rfl
      · simp only
        cases pyFloat b <;> rfl
      · rfl
    · simp only [h, if_false]

/-- Every listed unit can be given to the constructor of its class, and the result is what the class says. -/
theorem C115_known_units {K : Type} (s : Sym) (c : UCls) (h : (s, c) ∈ registry) (v : K) :
    ∃ u, mkUnit c v s 1 = .ok u ∧ u.value = v ∧ u.cls = c ∧ u.Honest := by
  have key : ∀ p ∈ registry, (match mkUnit p.2 () p.1 1 with
      | .ok u => decide (u.cls = p.2 ∧ u.Honest)
      | .error _ => false) = true := by decide +kernel
  have h1 := key _ h
  rw [mkUnit_value]
  cases e : mkUnit c () s 1 with
  | error err => rw [e] at h1; cases h1
  | ok u =>
    rw [e] at h1
    obtain ⟨h2, h3⟩ := of_decide_eq_true h1
    exact ⟨_, rfl, rfl, h2, h3⟩

example : (c!"acre", UCls.area) ∈ registry ∧ (c!"um^3", UCls.volume) ∈ registry ∧ (c!"C", UCls.temperature) ∈ registry := by
  decide +kernel

/-- `base_to_unit` makes one object for each entry, in order, of value one, with the class, unit and exponent of the entry. -/
theorem C115_objects (t b : UList) (T B : List (UnitV ℝ)) (h : baseToUnit (K := ℝ) t b = .ok (T, B))
    (hc : ∀ x ∈ t ++ b, '^' ∉ x.unit) :
    List.Forall₂ (fun x u => (x.unit, u.cls) ∈ registry ∧ u = ⟨u.cls, 1, x.unit, x.exp⟩) t T ∧
    List.Forall₂ (fun x u => (x.unit, u.cls) ∈ registry ∧ u = ⟨u.cls, 1, x.unit, x.exp⟩) b B := by
  obtain ⟨h1, h2⟩ := baseToUnit_ok h
  have key : ∀ (l : UList) (L : List (UnitV ℝ)), (∀ x ∈ l, '^' ∉ x.unit) → List.Forall₂ objOf l L →
      List.Forall₂ (fun x u => (x.unit, u.cls) ∈ registry ∧ u = ⟨u.cls, 1, x.unit, x.exp⟩) l L := by
    intro l L hl hL
    induction hL with
    | nil => exact .nil
    | cons hx _ ih =>
      exact .cons ⟨hx.1, hx.2.2.1 (hl _ (by simp))⟩ (ih fun x hx => hl x (List.mem_cons_of_mem _ hx))
  exact ⟨key t T (fun x hx => hc x (by simp [hx])) h1, key b B (fun x hx => hc x (by simp [hx])) h2⟩

theorem toUnitObj_exact (x : BaseUnit) (hx : '^' ∉ x.unit) : (∀ c, (x.unit, c) ∈ registry →
    toUnitObj (K := ℝ) x = .ok ⟨c, 1, x.unit, x.exp⟩) ∧ ((∀ c, (x.unit, c) ∉ registry) →
    toUnitObj (K := ℝ) x = .error .keyError) := by
  constructor
  · intro c hc
    obtain ⟨u, h1, -, -, -⟩ := C115_known_units x.unit c hc (1 : ℝ)
    have hb := mkUnit_ok hx h1
    unfold toUnitObj
    rw [(C115_class_lookup _ _).2 hc]
    subst hb
    exact UnitV.Constructed.rebuild (u := ⟨c, 1, x.unit, 1⟩) ⟨_, _, _, h1⟩ 1 x.exp
  · intro h
    unfold toUnitObj
    rw [(C115_class_unknown _).2 h]

/-- It returns exactly when all units are listed. -/
theorem C115_objects_iff (t b : UList) (hc : ∀ x ∈ t ++ b, '^' ∉ x.unit) :
    (∃ r, baseToUnit (K := ℝ) t b = .ok r) ↔ ∀ x ∈ t ++ b, ∃ c, (x.unit, c) ∈ registry := by
  constructor
  · rintro ⟨⟨T, B⟩, h⟩ x hx
    obtain ⟨h1, h2⟩ := baseToUnit_ok h
    have key : ∀ (l : UList) (L : List (UnitV ℝ)), List.Forall₂ objOf l L → ∀ x ∈ l, ∃ c, (x.unit, c) ∈ registry := by
      intro l L hL
      induction hL with
      | nil => intro x hx; cases hx
      | cons hx _ ih =>
        intro y hy
        rcases List.mem_cons.1 hy with rfl | hy
        · exact ⟨_, hx.1⟩
        · exact ih y hy
    rcases List.mem_append.1 hx with hx | hx
    · exact key _ _ h1 x hx
    · exact key _ _ h2 x hx
  · intro h
    have key : ∀ l : UList, (∀ x ∈ l, '^' ∉ x.unit) → (∀ x ∈ l, ∃ c, (x.unit, c) ∈ registry) →
        ∃ L, mapPy (toUnitObj (K := ℝ)) l = .ok L := by
      intro l
      induction l with
      | nil => intros; exact ⟨[], rfl⟩
      | cons x l ih =>
        intro h1 h2
        obtain ⟨c, hc⟩ := h2 x (by simp)
        obtain ⟨L, hL⟩ := ih (fun y hy => h1 y (List.mem_cons_of_mem _ hy)) fun y hy => h2 y (List.mem_cons_of_mem _ hy)
        exact ⟨_, by rw [mapPy, (toUnitObj_exact x (h1 x (by simp))).1 c hc, hL]⟩
    obtain ⟨T, hT⟩ := key t (fun x hx => hc x (by simp [hx])) fun x hx => h x (by simp [hx])
    obtain ⟨B, hB⟩ := key b (fun x hx => hc x (by simp [hx])) fun x hx => h x (by simp [hx])
    exact ⟨(T, B), by rw [baseToUnit, hT, hB]⟩

/-! ## The constructors -/

/-- The classes whose constructors compare the unit with the list of the class. -/
def checkedClasses : List UCls := [.pressure, .current, .amount, .force]

/-- The four checked classes accept exactly their units and are honest. Missing for the full claim: the other classes. -/
theorem C115_constructor_partial {K : Type} (c : UCls) (hc : c ∈ checkedClasses) (s : Sym) (v : K) :
    ((s, c) ∈ registry ∧ mkUnit c v s 1 = .ok ⟨c, v, s, 1⟩ ∧ (⟨c, v, s, 1⟩ : UnitV K).Honest) ∨
      ((s, c) ∉ registry ∧ mkUnit c v s 1 = .error .typeError) := by
  by_cases h : (s, c) ∈ registry
  · refine .inl ⟨h, ?_⟩
    obtain ⟨u, h1, h2, h3, h4⟩ := C115_known_units s c h v
    have e : mkUnit c v s 1 = .ok ⟨c, v, s, 1⟩ := by
      simp only [checkedClasses, List.mem_cons, List.not_mem_nil, or_false] at hc
      rcases hc with rfl | rfl | rfl | rfl <;> simp only [mkUnit] at h1 ⊢ <;> split at h1 <;> simp_all
    rw [e] at h1
    cases h1
    exact ⟨e, h4⟩
  · refine .inr ⟨h, ?_⟩
    have h0 : ∀ s, (s ∈ pressureUnits → (s, UCls.pressure) ∈ registry) ∧ (s ∈ currentUnits → (s, UCls.current) ∈ registry) ∧
        (s ∈ amountUnits → (s, UCls.amount) ∈ registry) ∧ (s ∈ forceUnits → (s, UCls.force) ∈ registry) := by
      intro s
      have k1 : ∀ s ∈ pressureUnits, (s, UCls.pressure) ∈ registry := by decide +kernel
      have k2 : ∀ s ∈ currentUnits, (s, UCls.current) ∈ registry := by decide +kernel
      have k3 : ∀ s ∈ amountUnits, (s, UCls.amount) ∈ registry := by decide +kernel
      have k4 : ∀ s ∈ forceUnits, (s, UCls.force) ∈ registry := by decide +kernel
      exact ⟨k1 s, k2 s, k3 s, k4 s⟩
    obtain ⟨k1, k2, k3, k4⟩ := h0 s
    simp only [checkedClasses, List.mem_cons, List.not_mem_nil, or_false] at hc
    rcases hc with rfl | rfl | rfl | rfl <;> simp only [mkUnit]
    · rw [if_neg fun hm => h (k1 hm)]
    · rw [if_neg fun hm => h (k2 hm)]
    · rw [if_neg fun hm => h (k3 hm)]
    · rw [if_neg fun hm => h (k4 hm)]

/-- The other classes accept any unit without `^`. -/
theorem C115_constructor_unchecked {K : Type} (c : UCls) (hc : c ∉ checkedClasses) (s : Sym) (hs : '^' ∉ s) (v : K) (e : ℚ) :
    mkUnit c v s e = .ok ⟨c, v, s, e⟩ := by
  cases c <;> first | rfl | (exact absurd (by decide) hc) | simp [mkUnit, hs]

/-- So the claim that a constructed quantity is what its class says fails: `Length(1, "kg")`. -/
theorem C115_constructor_false : ¬ ∀ (c : UCls) (s : Sym) (v : ℚ) (u : UnitV ℚ), c ≠ .unit → mkUnit c v s 1 = .ok u → u.Honest := by
  intro h
  have := h .length c!"kg" 1 ⟨.length, 1, c!"kg", 1⟩ (by decide) rfl
  revert this
  decide +kernel

/-- It fails for each of the other classes with a unit of any other class. -/
theorem C115_constructor_exact (c : UCls) (s : Sym) (d : UCls) (hs : '^' ∉ s) (hd : (s, d) ∈ registry) (hc : c ≠ .unit) (v : ℝ)
    (u : UnitV ℝ) (h : mkUnit c v s 1 = .ok u) : u.Honest ↔ c = d := by
  have hu : u = ⟨c, v, s, 1⟩ := mkUnit_ok hs h
  have key : ∀ p ∈ registry, '^' ∉ p.1 → (1 : ℚ) • simpleDim p.1 = classDim p.2 := by decide +kernel
  have inj : ∀ c d : UCls, c ≠ .unit → classDim d = classDim c → c = d := by
    intro c d
    cases c <;> cases d <;> decide +kernel
  subst hu
  constructor
  · rintro ⟨-, h2⟩
    refine inj c d hc ?_
    rw [← key _ hd hs]
    exact h2
  · rintro rfl
    exact ⟨hc, key _ hd hs⟩

/-! ## Arithmetic -/

section
variable {u w r x : UnitV ℝ} (hu : u.Constructed)
include hu

/-- Sums and differences of honest quantities, and their negatives, are honest. -/
theorem C115_sum_honest (h : u.Honest) (hr : Val.add (.unit u) (.unit w) = .ok (.unit r) ∨ Val.sub (.unit u) (.unit w) = .ok (.unit r) ∨
    Val.neg (.unit u) = .ok (.unit r)) : r.Honest := by
  rcases hr with hr | hr | hr
  · simp only [Val.add, unitAdd, hu.rebuild, wrapUnit] at hr
    split at hr
    · split at hr
      · cases hr; exact h
      · cases hr
    · cases hr
  · simp only [Val.sub, unitSub, hu.rebuild, wrapUnit] at hr
    split at hr
    · split at hr
      · cases hr; exact h
      · cases hr
    · cases hr
  · simp only [Val.neg, unitNeg, hu.rebuild, wrapUnit] at hr
    cases hr; exact h

theorem mul_simple (hr : Val.mul (.unit u) (.unit w) = .ok (.unit r)) :
    u.unit = w.unit ∧ r = ⟨u.cls, u.value * w.value, u.unit, u.exp + w.exp⟩ := by
  simp only [Val.mul, unitMul, hu.rebuild, wrapUnit] at hr
  split at hr
  · rename_i h; cases hr; exact ⟨h.2, rfl⟩
  · cases hr

theorem div_simple (hr : Val.div (.unit u) (.unit w) = .ok (.unit r)) :
    u.unit = w.unit ∧ ∃ v, r = ⟨u.cls, v, u.unit, u.exp - w.exp⟩ := by
  simp only [Val.div, unitDiv] at hr
  split at hr
  · cases hr
  · rename_i v _
    simp only [hu.rebuild, wrapUnit] at hr
    split at hr
    · rename_i h
      split at hr
      · cases hr
      · cases hr; exact ⟨h, v, rfl⟩
    · cases hr

/-- The class of a simple product or quotient is that of the left operand, whatever its dimension. -/
theorem C115_left_class (hr : Val.mul (.unit u) (.unit w) = .ok (.unit r) ∨ Val.div (.unit u) (.unit w) = .ok (.unit r)) :
    r.cls = u.cls := by
  rcases hr with hr | hr
  · rw [(mul_simple hu hr).2]
  · obtain ⟨-, v, e⟩ := div_simple hu hr
    rw [e]

/-- No simple product or quotient of honest quantities is honest. -/
theorem C115_product_never (h : u.Honest) (h' : w.Honest)
    (hr : Val.mul (.unit u) (.unit w) = .ok (.unit r) ∨ Val.div (.unit u) (.unit w) = .ok (.unit r)) : ¬ r.Honest := by
  rintro ⟨-, hd⟩
  have hw : w.dim ≠ 0 := by rw [h'.2]; exact classDim_ne h'.1
  rw [C115_left_class hu hr, ← h.2] at hd
  rcases hr with hr | hr
  · obtain ⟨e1, e2⟩ := mul_simple hu hr
    rw [e2] at hd
    simp only [UnitV.dim, add_smul, e1] at hd hw
    exact hw (by simpa using hd)
  · obtain ⟨e1, v, e2⟩ := div_simple hu hr
    rw [e2] at hd
    simp only [UnitV.dim, sub_smul, e1] at hd hw
    exact hw (by simpa using hd)

/-- The user's view: a product or quotient that is an area (length, …) physically can neither be added to an area (length, …) nor
subtracted from it, and it is not equal to it. -/
theorem C115_product_not_addable (h : u.Honest) (h' : w.Honest) (hx : x.Honest) (hd : r.dim = x.dim)
    (hr : Val.mul (.unit u) (.unit w) = .ok (.unit r) ∨ Val.div (.unit u) (.unit w) = .ok (.unit r)) :
    Val.add (.unit r) (.unit x) = .error .typeError ∧ Val.add (.unit x) (.unit r) = .error .typeError ∧
    Val.sub (.unit r) (.unit x) = .error .typeError ∧ Val.sub (.unit x) (.unit r) = .error .typeError ∧
    Val.eq (.unit r) (.unit x) = false := by
  have hc := C115_left_class hu hr
  have hru : r.cls ≠ .unit := hc ▸ h.1
  have hne : x.cls ≠ r.cls := fun e => C115_product_never hu h h' hr ⟨hru, by rw [hd, hx.2, e]⟩
  have i1 : ¬ isInstance x.cls r.cls := by rintro (e | e); exacts [hru e, hne e]
  have i2 : ¬ isInstance r.cls x.cls := by rintro (e | e); exacts [hx.1 e, hne e.symm]
  refine ⟨?_, ?_, ?_, ?_, ?_⟩
  · simp only [Val.add, unitAdd, if_neg i1]
  · simp only [Val.add, unitAdd, if_neg i2]
  · simp only [Val.sub, unitSub, if_neg i1]
  · simp only [Val.sub, unitSub, if_neg i2]
  · simp only [Val.eq, unitEq, hru, false_and, if_false, unitEqMethod, hne.symm, hx.1, decide_false, Bool.or_self, Bool.false_and]

end

/-- Two metres times three metres, and six square metres. -/
example : (⟨.length, 2, c!"m", 1⟩ : UnitV ℝ).Honest ∧ (⟨.area, 6, c!"m", 2⟩ : UnitV ℝ).Honest ∧
    (⟨.length, 6, c!"m", 2⟩ : UnitV ℝ).dim = (⟨.area, 6, c!"m", 2⟩ : UnitV ℝ).dim ∧
    Val.mul (.unit ⟨.length, 2, c!"m", 1⟩) (.unit ⟨.length, 3, c!"m", 1⟩) = .ok (.unit (⟨.length, 6, c!"m", 2⟩ : UnitV ℝ)) := by
  refine ⟨?_, ?_, rfl, ?_⟩
  · exact ⟨by decide, show (1 : ℚ) • simpleDim c!"m" = classDim .length by decide +kernel⟩
  · exact ⟨by decide, show (2 : ℚ) • simpleDim c!"m" = classDim .area by decide +kernel⟩
  · simp [Val.mul, unitMul, mkUnit, wrapUnit]; norm_num

/-- Nor is a volume divided by an area a length. -/
example : (Val.div (.unit ⟨.volume, 6, c!"m", 3⟩) (.unit ⟨.area, 2, c!"m", 2⟩) : PyM (Val ℚ)) = .ok (.unit ⟨.volume, 3, c!"m", 1⟩) := by
  decide +kernel

/-- A simple quantity that a compound calculation ends in has the class `Unit`. It can have a quantity of any class with its unit added
to it, but cannot be added to one. -/
theorem C115_plain_class {u x : UnitV ℝ} (hu : u.cls = .unit) (hc : x.cls ≠ .unit) (h1 : u.unit = x.unit)
    (h2 : u.exp = x.exp) :
    Val.add (.unit u) (.unit x) = .ok (.unit ⟨.unit, u.value + x.value, x.unit, x.exp⟩) ∧
    Val.add (.unit x) (.unit u) = .error .typeError := by
  obtain ⟨cls, v, s, e⟩ := u
  subst hu h1 h2
  refine ⟨?_, ?_⟩
  · simp [Val.add, unitAdd, isInstance, mkUnit, wrapUnit]
  · have : ¬ isInstance .unit x.cls := by rintro (e | e); exacts [hc e, hc e.symm]
    simp only [Val.add, unitAdd, if_neg this]

/-! ## Results of compound calculations -/

theorem packDiv_cls (v : ℝ) (t b : UList) : (∀ u, packDiv v t b = .unit u → u.cls = .unit) ∧
    ∀ m, packDiv v t b = .multi m → m.cls = .multi := by
  unfold packDiv
  constructor <;> intro x h <;> split at h <;> cases h <;> rfl

theorem packMul_cls (v : ℝ) (t b : UList) : (∀ u, packMul v t b = .unit u → u.cls = .unit) ∧
    ∀ m, packMul v t b = .multi m → m.cls = .multi := by
  unfold packMul
  constructor <;> intro x h <;> split at h <;> cases h <;> rfl

/-- A simple quantity that comes out of a product or quotient with a compound one has the class `Unit`. -/
theorem C115_from_compound (m : MultiV ℝ) (a : Val ℝ) (r : UnitV ℝ) (h : Val.mul (.multi m) a = .ok (.unit r) ∨
    Val.mul a (.multi m) = .ok (.unit r) ∨ Val.div (.multi m) a = .ok (.unit r) ∨ Val.div a (.multi m) = .ok (.unit r)) :
    r.cls = .unit := by
  rcases h with h | h | h | h
  · cases a <;> simp only [Val.mul, multiMul, multiMulMulti, multiMulUnit] at h <;> (try split at h) <;>
      first
      | (cases h; done)
      | (simp only [Except.ok.injEq] at h; exact (packMul_cls _ _ _).1 _ h)
  · cases a <;> simp only [Val.mul, multiMul, multiRmul, unitMul, multiMulMulti, multiMulUnit] at h <;> (try split at h) <;>
      first
      | (cases h; done)
      | (simp only [Except.ok.injEq] at h; exact (packMul_cls _ _ _).1 _ h)
  · cases a <;> simp only [Val.div, multiDiv, multiDivMulti, multiDivUnit] at h <;> (repeat' split at h) <;>
      first
      | (cases h; done)
      | (simp only [Except.ok.injEq] at h; exact (packDiv_cls _ _ _).1 _ h)
  · cases a <;> simp only [Val.div, multiDiv, multiDivMulti, multiRdiv, unitDiv, unitDivMulti] at h <;> (repeat' split at h) <;>
      first
      | (cases h; done)
      | (simp only [Except.ok.injEq] at h; exact (packDiv_cls _ _ _).1 _ h)

/-- Whatever the operands, a compound product, quotient, sum, difference or power has the class `MultiUnit`, never `Density` or
the like. -/
theorem C115_compound_class (a b : Val ℝ) (e : ℚ) (r : MultiV ℝ) (h : Val.mul a b = .ok (.multi r) ∨ Val.div a b = .ok (.multi r) ∨
    Val.add a b = .ok (.multi r) ∨ Val.sub a b = .ok (.multi r) ∨ Val.pow a e = .ok (.multi r)) : r.cls = .multi := by
  rcases h with h | h | h | h | h
  · cases a <;> cases b <;>
      simp only [Val.mul, multiMul, multiRmul, unitMul, unitRmul, multiMulMulti, multiMulUnit, wrapUnit] at h <;>
      (repeat' split at h) <;>
      first
      | (cases h; done)
      | (cases h; rfl)
      | (simp only [Except.ok.injEq] at h; exact (packMul_cls _ _ _).2 _ h)
  · cases a <;> cases b <;>
      simp only [Val.div, multiDiv, multiDivMulti, multiDivUnit, multiRdiv, unitDiv, unitDivMulti, wrapUnit] at h <;>
      (repeat' split at h) <;>
      first
      | (cases h; done)
      | (cases h; rfl)
      | (simp only [Except.ok.injEq] at h; exact (packDiv_cls _ _ _).2 _ h)
  · cases a <;> cases b <;> simp only [Val.add, multiAdd, unitAdd, wrapUnit] at h <;> (repeat' split at h) <;>
      first
      | (cases h; done)
      | (cases h; rfl)
  · cases a <;> cases b <;> simp only [Val.sub, multiSub, unitSub, wrapUnit] at h <;> (repeat' split at h) <;>
      first
      | (cases h; done)
      | (cases h; rfl)
  · cases a <;> simp only [Val.pow, multiPow, unitPow, wrapUnit] at h <;> (repeat' split at h) <;>
      first
      | (cases h; done)
      | (cases h; rfl)

/-- So a computed density can be subtracted from a `Density` with the same units, but not added to one, and the two are never equal. -/
theorem C115_named_class (m o : MultiV ℝ) (n : Sym) (hm : m.cls = .multi) (ho : o.cls = .sub n) :
    Val.add (.multi m) (.multi o) = .error .typeError ∧ Val.add (.multi o) (.multi m) = .error .typeError ∧
    Val.eq (.multi m) (.multi o) = false ∧ Val.eq (.multi o) (.multi m) = false ∧
    (m.top = o.top ∧ m.bot = o.bot → Val.sub (.multi m) (.multi o) = .ok (.multi ⟨.multi, m.value - o.value, m.top, m.bot⟩)) := by
  have h1 : m.cls ≠ o.cls := by rw [hm, ho]; exact fun h => by cases h
  refine ⟨?_, ?_, ?_, ?_, fun h => ?_⟩
  · simp only [Val.add, multiAdd, if_neg h1]
  · simp only [Val.add, multiAdd, if_neg h1.symm]
  · simp only [Val.eq, multiEq, h1, decide_false, Bool.false_and]
  · simp only [Val.eq, multiEq, h1.symm, decide_false, Bool.false_and]
  · simp only [Val.sub, multiSub, if_pos h]

/-- Two kilograms per cubic metre, computed and written. -/
example : (Val.div (.unit ⟨.mass, 4, c!"kg", 1⟩) (.unit ⟨.volume, 2, c!"m", 3⟩) : PyM (Val ℚ)) =
      .ok (.multi ⟨.multi, 2, [⟨c!"kg", 1⟩], [⟨c!"m", 3⟩]⟩) ∧
    (qM c!"Density" 2 c!"kg/m^3" : PyM (Val ℚ)) = .ok (.multi ⟨.sub c!"Density", 2, [⟨c!"kg", 1⟩], [⟨c!"m", 3⟩]⟩) := by
  decide +kernel

end Verif
