import Verif.Lemmas.Simple
import Mathlib.Tactic.Linarith
import Mathlib.Tactic.NormNum

/-! # C24, C25: registering units -/

namespace Verif

/-- A call of `register_unit_from_existing`. -/
structure Reg (K : Type) where
  new : Sym
  existing : Sym
  toF : Conv K
  fromF : Conv K

/-- A finite history of registrations; one that raises leaves the tables alone (units.py:127-141 raises before it
writes). -/
def runRegs (T : Tables ℝ) (h : List (Reg ℝ)) : Tables ℝ :=
  h.foldl (fun T r => match registerUnit T r.new r.existing r.toF r.fromF with
    | .ok T' => T'
    | .error _ => T) T

theorem lookupSym_cons_ne {α : Type} {s k : Sym} {v : α} {l : List (Sym × α)} (h : s ≠ k) :
    lookupSym s ((k, v) :: l) = lookupSym s l := by
  show (if s = k then some v else lookupSym s l) = _
  rw [if_neg h]

theorem lookupSym_cons_eq {α : Type} {k : Sym} {v : α} {l : List (Sym × α)} :
    lookupSym k ((k, v) :: l) = some v := by
  unfold lookupSym; rw [if_pos rfl]

theorem setTable_lookup {T : Tables ℝ} {c : UCls} {t : ClassTable ℝ} (hT : T c = some t) {n s : Sym} (hs : s ≠ n)
    (f g : Conv ℝ) (c' : UCls) :
    lookupTo (setTable T c ⟨(n, f) :: t.toStd, (n, g) :: t.fromStd⟩) c' s = lookupTo T c' s ∧
    lookupFrom (setTable T c ⟨(n, f) :: t.toStd, (n, g) :: t.fromStd⟩) c' s = lookupFrom T c' s := by
  by_cases hc : c' = c
  · subst hc
    simp only [lookupTo, lookupFrom, setTable, if_true, hT, lookupSym_cons_ne hs, and_self]
  · simp only [lookupTo, lookupFrom, setTable, hc, if_false, and_self]

theorem setTable_new {T : Tables ℝ} {c : UCls} {t : ClassTable ℝ} (n : Sym) (f g : Conv ℝ) :
    lookupTo (setTable T c ⟨(n, f) :: t.toStd, (n, g) :: t.fromStd⟩) c n = .ok f ∧
    lookupFrom (setTable T c ⟨(n, f) :: t.toStd, (n, g) :: t.fromStd⟩) c n = .ok g := by
  simp only [lookupTo, lookupFrom, setTable, if_true, lookupSym_cons_eq, and_self]

/-- What a successful registration does. -/
theorem registerUnit_ok {T T' : Tables ℝ} {r : Reg ℝ}
    (h : registerUnit T r.new r.existing r.toF r.fromF = .ok T') :
    ∃ c t f g, getUnitClass r.existing = .ok c ∧ T c = some t ∧
      T' = setTable T c ⟨(r.new, f) :: t.toStd, (r.new, g) :: t.fromStd⟩ ∧
      ((standardOf c = some r.existing ∧ f = r.toF ∧ g = r.fromF) ∨
       (standardOf c ≠ some r.existing ∧ ∃ et ef, lookupTo T c r.existing = .ok et ∧
        lookupFrom T c r.existing = .ok ef ∧ f = convComp et r.toF ∧ g = convComp ef r.fromF)) := by
  unfold registerUnit at h
  cases hc : getUnitClass r.existing with
  | error e => rw [hc] at h; cases h
  | ok c =>
    rw [hc] at h
    simp only at h
    split at h
    · rename_i hne
      cases h1 : lookupTo T c r.existing with
      | error e => rw [h1] at h; cases h
      | ok et =>
        cases h2 : lookupFrom T c r.existing with
        | error e => rw [h1, h2] at h; cases h
        | ok ef =>
          rw [h1, h2] at h
          simp only at h
          cases ht : T c with
          | none => rw [ht] at h; cases h
          | some t =>
            rw [ht] at h; cases h
            exact ⟨c, t, _, _, rfl, ht, rfl, .inr ⟨fun e => hne e.symm, et, ef, h1, h2, rfl, rfl⟩⟩
    · rename_i hne
      rw [not_not] at hne
      cases ht : T c with
      | none => rw [ht] at h; cases h
      | some t =>
        rw [ht] at h; cases h
        exact ⟨c, t, _, _, rfl, ht, rfl, .inl ⟨hne.symm, rfl, rfl⟩⟩

/-! ## C25: histories -/

/-- Names that were not registered keep their conversions, in every class, through any history. -/
theorem C25_unregistered_unchanged (T : Tables ℝ) (h : List (Reg ℝ)) (s : Sym) (hs : ∀ r ∈ h, r.new ≠ s) (c : UCls) :
    lookupTo (runRegs T h) c s = lookupTo T c s ∧ lookupFrom (runRegs T h) c s = lookupFrom T c s := by
  induction h generalizing T with
  | nil => exact ⟨rfl, rfl⟩
  | cons r h ih =>
    have ih := ih (T := match registerUnit T r.new r.existing r.toF r.fromF with | .ok T' => T' | .error _ => T)
      (fun r hr => hs r (List.mem_cons_of_mem _ hr))
    show lookupTo (runRegs _ h) c s = _ ∧ lookupFrom (runRegs _ h) c s = _
    rw [ih.1, ih.2]
    cases e : registerUnit T r.new r.existing r.toF r.fromF with
    | error e => exact ⟨rfl, rfl⟩
    | ok T' =>
      obtain ⟨c', t, f, g, -, ht, rfl, -⟩ := registerUnit_ok e
      exact setTable_lookup ht (Ne.symm (hs r (by simp))) f g c

/-- Observable form: a conversion whose source and target names were not registered has the same outcome after any
history, whether it returns or raises. -/
theorem C25_conversion_unchanged (T : Tables ℝ) (h : List (Reg ℝ)) (u : UnitV ℝ) (target : Sym)
    (h1 : ∀ r ∈ h, r.new ≠ u.unit) (h2 : ∀ r ∈ h, r.new ≠ target)
    (h3 : ∀ r ∈ h, ∀ p ∈ splitOn '^' target, r.new ≠ p) :
    convertUnit (runRegs T h) u target = convertUnit T u target := by
  have ht : ∀ tgt ret e, parseTarget u.unit target = .ok (tgt, ret, e) → ∀ r ∈ h, r.new ≠ tgt := by
    intro tgt ret e he r hr
    unfold parseTarget at he
    split at he
    · split at he
      · rename_i a b hsp
        split at he
        · cases he; exact h3 r hr _ (by rw [hsp]; simp)
        · cases he
      · cases he
    · split at he
      · split at he
        · split at he
          · cases he; exact h2 r hr
          · cases he
        · cases he
      · cases he; exact h2 r hr
  unfold convertUnit
  cases he : parseTarget u.unit target with
  | error e => rfl
  | ok x =>
    obtain ⟨tgt, ret, e⟩ := x
    have h5 := C25_unregistered_unchanged T h u.unit h1 u.cls
    have h6 := C25_unregistered_unchanged T h tgt (ht _ _ _ he) u.cls
    simp only [convertParsed, h5.1, h6.2]

/-- The last registration of a name decides its conversions, and they are those computed from the tables at that
moment: whatever is registered later under other names, including a new meaning of the unit it was defined from, has
no effect. -/
theorem C25_last_wins (T : Tables ℝ) (h h' : List (Reg ℝ)) (r : Reg ℝ) (hr : ∀ r' ∈ h', r'.new ≠ r.new)
    {T' : Tables ℝ} (hok : registerUnit (runRegs T h) r.new r.existing r.toF r.fromF = .ok T') :
    ∃ c, getUnitClass r.existing = .ok c ∧
      ((standardOf c = some r.existing ∧ lookupTo (runRegs T (h ++ r :: h')) c r.new = .ok r.toF ∧
          lookupFrom (runRegs T (h ++ r :: h')) c r.new = .ok r.fromF) ∨
        (standardOf c ≠ some r.existing ∧ ∃ et ef, lookupTo (runRegs T h) c r.existing = .ok et ∧
          lookupFrom (runRegs T h) c r.existing = .ok ef ∧
          lookupTo (runRegs T (h ++ r :: h')) c r.new = .ok (convComp et r.toF) ∧
          lookupFrom (runRegs T (h ++ r :: h')) c r.new = .ok (convComp ef r.fromF))) := by
  have hsplit : runRegs T (h ++ r :: h') = runRegs T' h' := by
    unfold runRegs at hok ⊢
    rw [List.foldl_append, List.foldl_cons]
    simp only [hok]
  obtain ⟨c, t, f, g, hc, ht, rfl, hfg⟩ := registerUnit_ok hok
  have h1 := C25_unregistered_unchanged (setTable (runRegs T h) c ⟨(r.new, f) :: t.toStd, (r.new, g) :: t.fromStd⟩) h'
    r.new hr c
  have h2 := setTable_new (T := runRegs T h) (c := c) (t := t) r.new f g
  refine ⟨c, hc, ?_⟩
  rw [hsplit, h1.1, h1.2, h2.1, h2.2]
  rcases hfg with ⟨h3, rfl, rfl⟩ | ⟨h3, et, ef, h4, h5, rfl, rfl⟩
  · exact .inl ⟨h3, rfl, rfl⟩
  · exact .inr ⟨h3, et, ef, h4, h5, rfl, rfl⟩

/-- A registration that raises changes nothing. -/
theorem C25_failed_registration (T : Tables ℝ) (r : Reg ℝ) (e : Err)
    (h : registerUnit T r.new r.existing r.toF r.fromF = .error e) : runRegs T [r] = T := by
  simp [runRegs, h]

/-- A history that redefines `ft` after deriving `fathom` from it. -/
example : ∃ T', registerUnit (runRegs (stdTables (K := ℝ)) []) c!"fathom" c!"ft" (mulBy 6) (divBy 6) = .ok T' ∧
    ∀ r' ∈ [(⟨c!"ft", c!"m", mulBy 7, divBy 7⟩ : Reg ℝ)], r'.new ≠ c!"fathom" :=
  ⟨_, rfl, by decide⟩

/-! ## C24: round trips of registered units -/

/-- Classes whose constructor accepts any unit name and whose standard is a plain symbol. -/
def openClasses : List UCls := [.temperature, .length, .time, .energy, .mass]

theorem mkUnit_open {c : UCls} (hc : c ∈ openClasses) (v : ℝ) (s : Sym) (e : ℚ) : mkUnit c v s e = .ok ⟨c, v, s, e⟩ := by
  simp only [openClasses, List.mem_cons, List.not_mem_nil, or_false] at hc
  rcases hc with rfl | rfl | rfl | rfl | rfl <;> rfl

theorem open_standard {c : UCls} (hc : c ∈ openClasses) : ∃ std, standardOf c = some std ∧ '^' ∉ std ∧
    std ∉ unitComposites := by
  simp only [openClasses, List.mem_cons, List.not_mem_nil, or_false] at hc
  rcases hc with rfl | rfl | rfl | rfl | rfl <;> exact ⟨_, rfl, by decide, by decide⟩

/-- A name usable for a new unit. -/
def FreshName (c : UCls) (n : Sym) : Prop := '^' ∉ n ∧ n ∉ unitComposites ∧ standardOf c ≠ some n

/-- Conversion between a name with known table entries and the standard. -/
theorem convert_new {T : Tables ℝ} {c : UCls} (hc : c ∈ openClasses) {n std : Sym} (hn : FreshName c n)
    (hstd : standardOf c = some std) {f g : Conv ℝ} (hf : lookupTo T c n = .ok f) (hg : lookupFrom T c n = .ok g)
    (v : ℝ) :
    (∀ y, f v = .ok y → convertUnit T ⟨c, v, n, 1⟩ std = .ok ⟨c, y, std, 1⟩) ∧
    (∀ y, g v = .ok y → convertUnit T ⟨c, v, std, 1⟩ n = .ok ⟨c, y, n, 1⟩) := by
  obtain ⟨std', h1, h2, h3⟩ := open_standard hc
  rw [hstd] at h1; cases h1
  have hne : n ≠ std := by rintro rfl; exact hn.2.2 hstd
  constructor <;> intro y hy <;> unfold convertUnit
  · rw [parseTarget_plain hn.2.1 h2]
    simp only [convertParsed, hne, if_false, hstd, if_true, applyConv, hf, hy, pow_real_one, mkUnit_open hc]
  · rw [parseTarget_plain h3 hn.1]
    simp only [convertParsed, hne, hne.symm, if_false, hstd, if_true, applyConv, hg, hy, pow_real_one, mkUnit_open hc]

/-- Registered from the standard unit of its class, with any functions `f` and `g` inverse to each other: converting to
the standard gives `f`, converting back is the identity.  The tables may have any history.  Missing from the full
claim: existing units other than the standard (`C24_affine_false`, `C24_linear_partial`), and pressures and forces
(`C24_pressure_unusable`). -/
theorem C24_from_standard_partial (T : Tables ℝ) (c : UCls) (hc : c ∈ openClasses) (std n : Sym)
    (hstd : standardOf c = some std) (hT : (T c).isSome) (hn : FreshName c n) (f g : ℝ → ℝ) (hgf : ∀ x, g (f x) = x) :
    ∃ T', registerUnit T n std (fun x => .ok (f x)) (fun x => .ok (g x)) = .ok T' ∧
      ∀ v, convertUnit T' ⟨c, v, n, 1⟩ std = .ok ⟨c, f v, std, 1⟩ ∧
        convertUnit T' ⟨c, f v, std, 1⟩ n = .ok ⟨c, v, n, 1⟩ := by
  obtain ⟨t, ht⟩ := Option.isSome_iff_exists.1 hT
  have hcl : getUnitClass std = .ok c := by
    simp only [openClasses, List.mem_cons, List.not_mem_nil, or_false] at hc
    rcases hc with rfl | rfl | rfl | rfl | rfl <;> cases hstd <;> decide +kernel
  have hreg : registerUnit T n std (fun x => .ok (f x)) (fun x => .ok (g x)) =
      .ok (setTable T c ⟨(n, fun x => .ok (f x)) :: t.toStd, (n, fun x => .ok (g x)) :: t.fromStd⟩) := by
    unfold registerUnit
    simp only [hcl, hstd, ne_eq, not_true, if_false, ht]
  have h2 := setTable_new (T := T) (c := c) (t := t) n (fun x => .ok (f x)) (fun x => .ok (g x))
  refine ⟨_, hreg, fun v => ⟨?_, ?_⟩⟩
  · exact (convert_new hc hn hstd h2.1 h2.2 v).1 _ rfl
  · exact (convert_new hc hn hstd h2.1 h2.2 (f v)).2 _ (by rw [hgf])

/-- Réaumur-like scale: affine functions from kelvin. -/
example : FreshName .temperature c!"Re" ∧ ((stdTables (K := ℝ)) .temperature).isSome ∧
    ∀ x : ℝ, (fun y => (y - 273.15) * 0.8) ((fun y => y / 0.8 + 273.15) x) = x :=
  ⟨⟨by decide, by decide, by decide⟩, rfl, fun x => by norm_num⟩

/-- Converting a new unit to the unit it was defined from gives `f`, for every `f` and every existing unit whose own
two conversions are inverse. -/
theorem C24_to_existing (T : Tables ℝ) (c : UCls) (hc : c ∈ openClasses) (ex n : Sym)
    (hcl : getUnitClass ex = .ok c) (hT : (T c).isSome) (hn : FreshName c n) (hx : FreshName c ex) (hne : n ≠ ex)
    (a b f g : ℝ → ℝ) (ha : lookupTo T c ex = .ok (fun x => .ok (a x))) (hb : lookupFrom T c ex = .ok (fun x => .ok (b x)))
    (hba : ∀ x, b (a x) = x) :
    ∃ T', registerUnit T n ex (fun x => .ok (f x)) (fun x => .ok (g x)) = .ok T' ∧
      ∀ v, convertUnit T' ⟨c, v, n, 1⟩ ex = .ok ⟨c, f v, ex, 1⟩ := by
  obtain ⟨t, ht⟩ := Option.isSome_iff_exists.1 hT
  obtain ⟨std, hstd, -⟩ := open_standard hc
  have hxs : some ex ≠ standardOf c := fun e => hx.2.2 e.symm
  refine ⟨setTable T c ⟨(n, convComp (fun x => .ok (a x)) fun x => .ok (f x)) :: t.toStd,
    (n, convComp (fun x => .ok (b x)) fun x => .ok (g x)) :: t.fromStd⟩,
    by unfold registerUnit; simp only [hcl, hxs, ne_eq, not_false_eq_true, if_true, ha, hb, ht], fun v => ?_⟩
  have h2 := setTable_new (T := T) (c := c) (t := t) n (convComp (fun x => .ok (a x)) fun x => .ok (f x))
    (convComp (fun x => .ok (b x)) fun x => .ok (g x))
  have h3 := setTable_lookup ht (Ne.symm hne) (convComp (fun x => .ok (a x)) fun x => .ok (f x))
    (convComp (fun x => .ok (b x)) fun x => .ok (g x)) c
  have n1 : n ≠ std := by rintro rfl; exact hn.2.2 hstd
  have n2 : ex ≠ std := by rintro rfl; exact hx.2.2 hstd
  unfold convertUnit
  rw [parseTarget_plain hn.2.1 hx.1]
  simp only [convertParsed, hne, n1, n2, if_false, hstd, applyConv, h2.1, h3.2, hb, convComp, pow_real_one, hba,
    mkUnit_open hc]

/-- With linear functions and an existing unit with linear, inverse conversions, the round trip holds too. -/
theorem C24_linear_partial (T : Tables ℝ) (c : UCls) (hc : c ∈ openClasses) (ex n std : Sym)
    (hstd : standardOf c = some std)
    (hcl : getUnitClass ex = .ok c) (hT : (T c).isSome) (hn : FreshName c n) (hx : FreshName c ex)
    (q k : ℝ) (hq : q ≠ 0) (hk : k ≠ 0) (ha : lookupTo T c ex = .ok (fun x => .ok (x * q)))
    (hb : lookupFrom T c ex = .ok (fun x => .ok (x / q))) :
    ∃ T', registerUnit T n ex (fun x => .ok (x * k)) (fun x => .ok (x / k)) = .ok T' ∧
      ∀ v, convertUnit T' ⟨c, v, n, 1⟩ std = .ok ⟨c, v * k * q, std, 1⟩ ∧
        convertUnit T' ⟨c, v * k * q, std, 1⟩ n = .ok ⟨c, v, n, 1⟩ := by
  obtain ⟨t, ht⟩ := Option.isSome_iff_exists.1 hT
  have hxs : some ex ≠ standardOf c := fun e => hx.2.2 e.symm
  refine ⟨setTable T c ⟨(n, convComp (fun x => .ok (x * q)) fun x => .ok (x * k)) :: t.toStd,
    (n, convComp (fun x => .ok (x / q)) fun x => .ok (x / k)) :: t.fromStd⟩,
    by unfold registerUnit; simp only [hcl, hxs, ne_eq, not_false_eq_true, if_true, ha, hb, ht], fun v => ?_⟩
  have h2 := setTable_new (T := T) (c := c) (t := t) n (convComp (fun x => .ok (x * q)) fun x => .ok (x * k))
    (convComp (fun x => .ok (x / q)) fun x => .ok (x / k))
  refine ⟨(convert_new hc hn hstd h2.1 h2.2 v).1 _ rfl, (convert_new hc hn hstd h2.1 h2.2 _).2 _ ?_⟩
  simp only [convComp]
  congr 1
  field_simp

/-- Deriving from `yd`. -/
example : getUnitClass c!"yd" = .ok .length ∧ FreshName .length c!"yd" ∧ FreshName .length c!"chain" ∧
    lookupTo (stdTables (K := ℝ)) .length c!"yd" = .ok (fun x => .ok (x * ((9144 / 10000 : ℚ) : ℝ))) ∧
    lookupFrom (stdTables (K := ℝ)) .length c!"yd" = .ok (fun x => .ok (x / ((9144 / 10000 : ℚ) : ℝ))) :=
  ⟨by decide +kernel, ⟨by decide, by decide, by decide⟩, ⟨by decide, by decide, by decide⟩, rfl, rfl⟩

/-- Full claim, false: for a unit derived from `C` with `f x = 2x`, `g x = x/2` the way back composes in the wrong
order. -/
theorem C24_affine_false : ¬ ∀ f g : ℚ → ℚ, (∀ x, g (f x) = x) → ∀ T',
    registerUnit (stdTables (K := ℚ)) c!"Q" c!"C" (fun x => .ok (f x)) (fun x => .ok (g x)) = .ok T' →
    ∀ v u, convertUnit T' ⟨.temperature, v, c!"Q", 1⟩ c!"K" = .ok u →
      convertUnit T' u c!"Q" = .ok ⟨.temperature, v, c!"Q", 1⟩ := by
  intro h
  have h1 := h (fun x => x * 2) (fun x => x / 2) (fun x => by ring)
    (setTable stdTables .temperature
      ⟨(c!"Q", convComp (fun x => .ok (x + ((27315 / 100 : ℚ) : ℚ))) fun x => .ok (x * 2)) :: temperatureTable.toStd,
       (c!"Q", convComp (fun x => .ok (x - ((27315 / 100 : ℚ) : ℚ))) fun x => .ok (x / 2)) ::
        temperatureTable.fromStd⟩) rfl 0 ⟨.temperature, 27315 / 100, c!"K", 1⟩ (by decide +kernel)
  revert h1
  decide +kernel

/-- A unit registered for pressure cannot be used: neither the constructor nor a conversion into it returns. -/
theorem C24_pressure_unusable (T : Tables ℝ) (n : Sym) (hn : n ∉ pressureUnits) (hn' : '^' ∉ n) :
    (∀ (v : ℝ) (e : ℚ), mkUnit .pressure v n e = .error .typeError) ∧
    ∀ (v : ℝ) (s : Sym), s ∈ pressureUnits → ∀ u, convertUnit T ⟨.pressure, v, s, 1⟩ n ≠ .ok u := by
  refine ⟨fun v e => by simp [mkUnit, hn], fun v s hs u h => ?_⟩
  have hsc : s ∉ unitComposites := by
    have : ∀ s ∈ pressureUnits, s ∉ unitComposites := by decide +kernel
    exact this s hs
  have hne : s ≠ n := by rintro rfl; exact hn hs
  have hm : ∀ (v : ℝ) (e : ℚ), mkUnit .pressure v n e = .error .typeError := fun v e => by simp [mkUnit, hn]
  unfold convertUnit at h
  rw [parseTarget_plain hsc hn'] at h
  simp only [convertParsed, hne, if_false, standardOf, hm] at h
  split at h
  · split at h <;> cases h
  · split at h
    · split at h <;> cases h
    · split at h
      · cases h
      · cases h
      · split at h <;> cases h

example : c!"torr" ∉ pressureUnits ∧ '^' ∉ c!"torr" := by decide +kernel

/-- A registered unit is not in the registry: nothing can be registered from it. -/
theorem C24_no_chain (T : Tables ℝ) (n m : Sym) (f g : Conv ℝ) (hn : ∀ p ∈ registry, p.1 ≠ n) :
    registerUnit T m n f g = .error .keyError := by
  have hl : ∀ l : List (Sym × UCls), (∀ p ∈ l, p.1 ≠ n) → lookupSym n l = none := by
    intro l hl
    induction l with
    | nil => rfl
    | cons x l ih =>
      obtain ⟨k, v⟩ := x
      rw [lookupSym_cons_ne (Ne.symm (hl (k, v) (by simp)))]
      exact ih fun p hp => hl p (List.mem_cons_of_mem _ hp)
  have : getUnitClass n = .error .keyError := by unfold getUnitClass; rw [hl _ hn]
  unfold registerUnit; rw [this]

end Verif
