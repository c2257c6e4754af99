import Verif.Spec.Dimension
import Verif.Lemmas.Simple
import Verif.Lemmas.Closure
import Mathlib.Tactic.Module

/-! # Compound conversion -/

namespace Verif

theorem DeconRule.derived {s : Sym} {t b : UList} (h : DeconRule s t b) : s ∈ derivedNames := by
  cases h <;> decide

/-! ## One pass keeps what it does not replace -/

theorem deconPass_keeps (n : ℕ) (done rem other : UList) (hit : Bool) {a b : UList} {r : Bool}
    (e : deconPass n done rem other hit = .ok (a, b, r)) :
    (∀ u ∈ done, u ∈ a) ∧ (∀ u ∈ rem, u.unit ∈ derivedNames ∨ u ∈ a) ∧ (∀ u ∈ other, u ∈ b) := by
  induction n generalizing done rem other hit with
  | zero =>
    cases rem with
    | nil => simp only [deconPass, Except.ok.injEq, Prod.mk.injEq] at e; obtain ⟨rfl, rfl, -⟩ := e
             exact ⟨fun u h => h, by simp, fun u h => h⟩
    | cons u rem => simp [deconPass] at e
  | succ n ih =>
    cases rem with
    | nil => simp only [deconPass, Except.ok.injEq, Prod.mk.injEq] at e; obtain ⟨rfl, rfl, -⟩ := e
             exact ⟨fun u h => h, by simp, fun u h => h⟩
    | cons u rem =>
      rcases deconDef_cases u with ⟨t, b', hr, ed⟩ | ⟨ed, -⟩
      · simp only [deconPass, ed] at e
        obtain ⟨h1, h2, h3⟩ := ih _ _ _ _ e
        refine ⟨fun v hv => h1 v (by simp [hv]), ?_, fun v hv => h3 v (by simp [hv])⟩
        intro v hv
        rcases List.mem_cons.1 hv with rfl | hv
        · left; exact hr.derived
        · have hv' : v ∈ rem ++ t.map (·.pow u.exp) := by simp [hv]
          rw [← List.take_append_drop 1 (rem ++ t.map (·.pow u.exp)), List.mem_append] at hv'
          rcases hv' with hv' | hv'
          · right; exact h1 v (by simp only [List.mem_append]; exact .inr hv')
          · exact h2 v hv'
      · simp only [deconPass, ed] at e
        obtain ⟨h1, h2, h3⟩ := ih _ _ _ _ e
        refine ⟨fun v hv => h1 v (by simp [hv]), ?_, h3⟩
        intro v hv
        rcases List.mem_cons.1 hv with rfl | hv
        · right; exact h1 v (by simp)
        · exact h2 v hv

theorem deconstructOnce_keeps {top bot t b : UList} (e : deconstructOnce top bot = .ok (t, b)) :
    ∀ u ∈ top ++ bot, u.unit ∈ derivedNames ∨ u ∈ t ++ b := by
  unfold deconstructOnce deconRound at e
  split at e
  · cases e
  · rename_i x1 x2 x3 e0
    cases e
    split at e0
    · cases e0
    · rename_i t1 b1 h1 e1
      split at e0
      · cases e0
      · rename_i b2 t2 h2 e2
        cases e0
        obtain ⟨-, k1, k2⟩ := deconPass_keeps _ _ _ _ _ e1
        obtain ⟨-, k3, k4⟩ := deconPass_keeps _ _ _ _ _ e2
        intro u hu
        rcases List.mem_append.1 hu with hu | hu
        · rcases k1 u hu with h | h
          · exact .inl h
          · exact .inr (List.mem_append.2 (.inl (k4 u h)))
        · rcases k3 u (k2 u hu) with h | h
          · exact .inl h
          · exact .inr (List.mem_append.2 (.inr h))

/-! ## Predicates on entries -/

theorem deconPass_all {P : BaseUnit → Prop} (hP : ∀ s t b, DeconRule s t b → ∀ u ∈ t ++ b, ∀ q, P (u.pow q))
    (n : ℕ) (done rem other : UList) (hit : Bool)
    (h1 : ∀ u ∈ done, P u) (h2 : ∀ u ∈ rem, P u) (h3 : ∀ u ∈ other, P u) {a b : UList} {r : Bool}
    (e : deconPass n done rem other hit = .ok (a, b, r)) : (∀ u ∈ a, P u) ∧ (∀ u ∈ b, P u) := by
  induction n generalizing done rem other hit with
  | zero =>
    cases rem with
    | nil => simp only [deconPass, Except.ok.injEq, Prod.mk.injEq] at e; obtain ⟨rfl, rfl, -⟩ := e
             exact ⟨h1, h3⟩
    | cons u rem => simp [deconPass] at e
  | succ n ih =>
    cases rem with
    | nil => simp only [deconPass, Except.ok.injEq, Prod.mk.injEq] at e; obtain ⟨rfl, rfl, -⟩ := e
             exact ⟨h1, h3⟩
    | cons u rem =>
      rcases deconDef_cases u with ⟨t, b', hr, ed⟩ | ⟨ed, -⟩
      · simp only [deconPass, ed] at e
        have ht : ∀ v ∈ t.map (·.pow u.exp), P v := by
          intro v hv; obtain ⟨x, hx, rfl⟩ := List.mem_map.1 hv; exact hP _ _ _ hr x (by simp [hx]) _
        have hb : ∀ v ∈ b'.map (·.pow u.exp), P v := by
          intro v hv; obtain ⟨x, hx, rfl⟩ := List.mem_map.1 hv; exact hP _ _ _ hr x (by simp [hx]) _
        have hrest : ∀ v ∈ rem ++ t.map (·.pow u.exp), P v := by
          intro v hv
          rcases List.mem_append.1 hv with hv | hv
          · exact h2 v (List.mem_cons_of_mem _ hv)
          · exact ht v hv
        refine ih _ _ _ _ ?_ (fun v hv => hrest v (List.mem_of_mem_drop hv)) ?_ e
        · intro v hv
          rcases List.mem_append.1 hv with hv | hv
          · exact h1 v hv
          · exact hrest v (List.mem_of_mem_take hv)
        · intro v hv
          rcases List.mem_append.1 hv with hv | hv
          · exact h3 v hv
          · exact hb v hv
      · simp only [deconPass, ed] at e
        refine ih _ _ _ _ ?_ (fun v hv => h2 v (List.mem_cons_of_mem _ hv)) h3 e
        intro v hv
        rcases List.mem_append.1 hv with hv | hv
        · exact h1 v hv
        · simp only [List.mem_singleton] at hv; subst hv; exact h2 _ (by simp)

theorem deconstructOnce_all {P : BaseUnit → Prop}
    (hP : ∀ s t b, DeconRule s t b → ∀ u ∈ t ++ b, ∀ q, P (u.pow q)) {top bot t b : UList}
    (h : ∀ u ∈ top ++ bot, P u) (e : deconstructOnce top bot = .ok (t, b)) : ∀ u ∈ t ++ b, P u := by
  unfold deconstructOnce deconRound at e
  split at e
  · cases e
  · rename_i x1 x2 x3 e0
    cases e
    split at e0
    · cases e0
    · rename_i t1 b1 h1 e1
      split at e0
      · cases e0
      · rename_i b2 t2 h2 e2
        cases e0
        obtain ⟨k1, k2⟩ := deconPass_all hP _ _ _ _ _ (by simp) (fun u hu => h u (by simp [hu]))
          (fun u hu => h u (by simp [hu])) e1
        obtain ⟨k3, k4⟩ := deconPass_all hP _ _ _ _ _ (by simp) k2 k1 e2
        intro u hu
        rcases List.mem_append.1 hu with hu | hu
        · exact k4 u hu
        · exact k3 u hu

theorem deconstructOnce_net {V : Type*} [AddCommGroup V] [Module ℚ V] {w : Sym → V} (hw : DerivedLaws w)
    {top bot t b : UList} (e : deconstructOnce top bot = .ok (t, b)) : net w t b = net w top bot := by
  obtain ⟨t', b', h, e', h1, -⟩ := deconRound_spec hw top bot
  unfold deconstructOnce at e
  rw [e'] at e; cases e; exact h1

/-! ## Unit objects -/

theorem lookupSym_mem {α : Type} {s : Sym} {l : List (Sym × α)} {v : α} (h : lookupSym s l = some v) : (s, v) ∈ l := by
  induction l with
  | nil => simp [lookupSym] at h
  | cons x l ih =>
    obtain ⟨k, w⟩ := x
    unfold lookupSym at h
    split at h
    · rename_i e; cases h; rw [e]; simp
    · exact List.mem_cons_of_mem _ (ih h)

theorem getUnitClass_mem {s : Sym} {c : UCls} (h : getUnitClass s = .ok c) : (s, c) ∈ registry := by
  unfold getUnitClass at h
  split at h
  · rename_i c' e; cases h; exact lookupSym_mem e
  · cases h

theorem mkUnit_ok {c : UCls} {v : ℝ} {s : Sym} {e : ℚ} {u : UnitV ℝ} (hs : '^' ∉ s) (h : mkUnit c v s e = .ok u) :
    u = ⟨c, v, s, e⟩ := by
  cases c <;> simp only [mkUnit, hs, if_false] at h <;>
    first
    | (cases h; rfl)
    | (split at h <;> cases h; rfl)

/-- The unit objects are those of the entries, with value one. -/
def objOf (x : BaseUnit) (u : UnitV ℝ) : Prop :=
  (x.unit, u.cls) ∈ registry ∧ getUnitClass x.unit = .ok u.cls ∧
    ('^' ∉ x.unit → u = ⟨u.cls, 1, x.unit, x.exp⟩) ∧ mkUnit u.cls (1 : ℝ) x.unit x.exp = .ok u

theorem toUnitObj_ok {x : BaseUnit} {u : UnitV ℝ} (h : toUnitObj (K := ℝ) x = .ok u) : objOf x u := by
  unfold toUnitObj at h
  split at h
  · cases h
  · rename_i c e
    have hc : u.cls = c := by
      cases c <;> simp only [mkUnit] at h <;>
        first
        | (cases h; rfl)
        | (split at h <;> cases h; rfl)
        | (split at h
           · split at h
             · split at h <;> cases h; rfl
             · cases h
           · cases h; rfl)
    subst hc
    exact ⟨getUnitClass_mem e, e, fun hs => mkUnit_ok hs h, h⟩

theorem mapPy_forall₂ {α β : Type} {f : α → PyM β} {l : List α} {r : List β} (h : mapPy f l = .ok r) :
    List.Forall₂ (fun x y => f x = .ok y) l r := by
  induction l generalizing r with
  | nil => simp only [mapPy, Except.ok.injEq] at h; subst h; exact .nil
  | cons x l ih =>
    unfold mapPy at h
    split at h
    · cases h
    · rename_i y e
      split at h
      · cases h
      · rename_i ys e2
        cases h
        exact .cons e (ih e2)

theorem baseToUnit_ok {t b : UList} {T B : List (UnitV ℝ)} (h : baseToUnit (K := ℝ) t b = .ok (T, B)) :
    List.Forall₂ objOf t T ∧ List.Forall₂ objOf b B := by
  unfold baseToUnit at h
  split at h
  · cases h
  · rename_i t' e1
    split at h
    · cases h
    · rename_i b' e2
      cases h
      exact ⟨(mapPy_forall₂ e1).imp fun _ _ => toUnitObj_ok, (mapPy_forall₂ e2).imp fun _ _ => toUnitObj_ok⟩

/-! ## One unit to its standard -/

/-- Registered names without `^`, classified. -/
theorem registry_cases : ∀ p ∈ registry, '^' ∉ p.1 → (p.1 ∈ temperatureUnits ∧ p.2 = .temperature) ∨
    (p.2 ∈ linearClasses ∧ p.1 ∉ unitComposites ∧ p.1 ∉ temperatureUnits) ∨
    (p.2 ∈ [UCls.current, .amount] ∧ standardOf p.2 = some p.1 ∧ p.1 ∉ unitComposites ∧ p.1 ∉ temperatureUnits) ∨
    (p.1 = c!"L" ∧ p.2 = .volume) ∨ (p.1 = c!"acre" ∧ p.2 = .area) ∨
    (p.2 = .volume ∧ p.1 ∉ unitComposites ∧ p.1 ∉ temperatureUnits ∧ p.1 ≠ c!"m") := by
  decide +kernel

/-- Registered names with `^` become objects whose conversion raises. -/
theorem registry_caret : ∀ p ∈ registry, '^' ∈ p.1 → (p.2 = .volume ∨ p.2 = .area) ∧
    ∃ u ∈ splitOn '^' p.1, ∃ e ∈ splitOn '^' p.1, splitOn '^' p.1 = [u, e] ∧ u ∉ temperatureUnits ∧
      (pyFloat e = .ok 2 ∨ pyFloat e = .ok 3) := by
  decide +kernel

/-- What the conversion of one entry to standard units does: the value is the factor. -/
inductive Step : BaseUnit → UnitV ℝ → Prop
  | kelvin (s : Sym) (e : ℚ) (hs : s = c!"K" ∨ s = c!"C") : Step ⟨s, e⟩ ⟨.temperature, e, s, e⟩
  | rankine (s : Sym) (e : ℚ) (hs : s = c!"R" ∨ s = c!"F") : Step ⟨s, e⟩ ⟨.temperature, 5 / 9 * e, s, e⟩
  | std (c : UCls) (s : Sym) (e : ℚ) (hc : c ∈ linearClasses ++ [.current, .amount]) (hs : standardOf c = some s) :
      Step ⟨s, e⟩ ⟨c, 1, s, e⟩
  | entry (c : UCls) (s std : Sym) (a b : ℚ) (e : ℚ) (h : (c, s, a, b) ∈ entries) (hs : standardOf c = some std) :
      Step ⟨s, e⟩ ⟨c, (a : ℝ) ^ (e : ℝ), std, e⟩
  | litre : Step ⟨c!"L", 1⟩ ⟨.volume, 1 / 1000, c!"m", 3⟩
  | acre : Step ⟨c!"acre", 1⟩ ⟨.area, 4046873 / 1000, c!"m", 2⟩

theorem lookupTo_entry {c : UCls} (hc : c ∈ linearClasses) {s : Sym} {f : Conv ℝ}
    (h : lookupTo stdTables c s = .ok f) : ∃ e ∈ entries, e.1 = c ∧ e.2.1 = s := by
  apply entries_complete c hc
  unfold lookupTo at h
  unfold tableKeys
  split at h
  · cases h
  · rename_i t ht
    split at h
    · cases h
    · rename_i g hg
      rw [ht]
      exact List.mem_map.2 ⟨_, lookupSym_mem hg, rfl⟩

theorem cagf_parsed {c : UCls} {s std : Sym} {e : ℚ} (hstd : standardOf c = some std) (h1 : s ∉ temperatureUnits)
    (h2 : s ∉ unitComposites) (h3 : '^' ∉ std) :
    convertAndGetFactor stdTables (⟨c, 1, s, e⟩ : UnitV ℝ) = convertParsed stdTables ⟨c, 1, s, e⟩ std std e := by
  simp only [temperatureUnits, List.mem_cons, List.not_mem_nil, or_false, not_or] at h1
  unfold convertAndGetFactor
  simp only [h1, or_self, if_false, hstd]
  split
  · rename_i he
    unfold convertUnit
    rw [parseTarget_plain h2 h3, he]
  · simp only [parseStdTarget, h3, h2, if_false]

theorem litre_val : convertAndGetFactor stdTables (⟨.volume, 1, c!"L", 1⟩ : UnitV ℝ) =
    .ok ⟨.volume, 1 / 1000, c!"m", 3⟩ := by
  have hp : parseTarget c!"L" c!"m^3" = .ok (c!"m^3", c!"m", 3) := by decide +kernel
  have h1 : (c!"L" : Sym) ≠ c!"m^3" := by decide
  have hm : ∀ v : ℝ, mkUnit .volume v c!"m" 3 = .ok ⟨.volume, v, c!"m", 3⟩ := by
    intro v; rfl
  have hl : lookupTo (stdTables (K := ℝ)) .volume c!"L" = .ok (divBy 10) := rfl
  have hd : (divBy 10 : Conv ℝ) 1 = .ok (1 / 10) := by simp [divBy]
  have hpw : (PyPow.pow (1 / 10 : ℝ) 3 : PyM ℝ) = .ok (1 / 1000) := by
    rw [pow_real_pos (by norm_num)]
    congr 1
    norm_num
  unfold convertAndGetFactor
  rw [if_neg (by decide), if_neg (by decide)]
  simp only [standardOf, if_true, convertUnit, hp, convertParsed, h1, if_false, applyConv, hl, hd, hpw, hm]

theorem acre_val : convertAndGetFactor stdTables (⟨.area, 1, c!"acre", 1⟩ : UnitV ℝ) =
    .ok ⟨.area, 4046873 / 1000, c!"m", 2⟩ := by
  have hp : parseTarget c!"acre" c!"m^2" = .ok (c!"m^2", c!"m", 2) := by decide +kernel
  have h1 : (c!"acre" : Sym) ≠ c!"m^2" := by decide
  have hm : ∀ v : ℝ, mkUnit .area v c!"m" 2 = .ok ⟨.area, v, c!"m", 2⟩ := by
    intro v; rfl
  obtain ⟨f, hl, hf⟩ : ∃ f, lookupTo (stdTables (K := ℝ)) .area c!"acre" = .ok f ∧
      ∀ r : ℝ, (acreRoot : PyM ℝ) = .ok r → f 1 = .ok (1 * r) :=
    ⟨_, rfl, fun r hr => by simp only [hr]⟩
  have hr : (acreRoot : PyM ℝ) = .ok ((4046873 / 1000 : ℝ) ^ (((1 / 2 : ℚ)) : ℝ)) := by
    unfold acreRoot
    rw [pow_real_pos (by norm_num)]
    norm_num
  have hpw : (PyPow.pow (1 * (4046873 / 1000 : ℝ) ^ (((1 / 2 : ℚ)) : ℝ)) 2 : PyM ℝ) = .ok (4046873 / 1000) := by
    rw [pow_real_pos (by positivity)]
    congr 1
    rw [one_mul, ← Real.rpow_mul (by norm_num)]
    norm_num
  unfold convertAndGetFactor
  rw [if_neg (by decide), if_neg (by decide)]
  simp only [standardOf, if_true, convertUnit, hp, convertParsed, h1, if_false, applyConv, hl, hf _ hr, hpw, hm]

theorem step_of_ok {x : BaseUnit} {u u' : UnitV ℝ} (ho : objOf x u)
    (h : convertAndGetFactor stdTables u = .ok u') : '^' ∉ x.unit ∧ Step x u' := by
  obtain ⟨hreg, -, hobj, hmk⟩ := ho
  by_cases hc : '^' ∈ x.unit
  · exfalso
    obtain ⟨hcls, a, -, e, -, hsp, ht, he⟩ := registry_caret _ hreg hc
    have hu : ∃ q : ℚ, q ≠ 1 ∧ u.unit = a ∧ u.exp = q := by
      have : ∃ q : ℚ, q ≠ 1 ∧ pyFloat e = .ok q := by
        rcases he with he | he
        · exact ⟨2, by norm_num, he⟩
        · exact ⟨3, by norm_num, he⟩
      obtain ⟨q, hq, he⟩ := this
      refine ⟨q, hq, ?_⟩
      rcases hcls with hcls | hcls <;> simp only at hcls <;> rw [hcls] at hmk <;>
        simp only [mkUnit, hc, if_true] at hmk <;> simp only at hsp <;> rw [hsp] at hmk <;>
        simp only [he] at hmk <;> cases hmk <;> exact ⟨rfl, rfl⟩
    obtain ⟨q, hq, hua, hue⟩ := hu
    have hs : ∃ std, standardOf u.cls = some std ∧ '^' ∈ std := by
      rcases hcls with hcls | hcls <;> simp only at hcls <;> rw [hcls] <;> exact ⟨_, rfl, by decide⟩
    obtain ⟨std, hs1, hs2⟩ := hs
    rw [← hua] at ht
    simp only [temperatureUnits, List.mem_cons, List.not_mem_nil, or_false, not_or] at ht
    unfold convertAndGetFactor at h
    simp only [ht, or_self, if_false, hs1, hue, hq, parseStdTarget, hs2, if_true] at h
    cases h
  refine ⟨hc, ?_⟩
  have hobj := hobj hc
  rw [hobj] at h
  generalize hcl : u.cls = c at *
  obtain ⟨s, e⟩ := x
  simp only at *
  rcases registry_cases _ hreg hc with ⟨h1, rfl⟩ | ⟨h1, h2, h3⟩ | ⟨h1, h2, h3, h4⟩ | ⟨rfl, rfl⟩ | ⟨rfl, rfl⟩ | ⟨rfl, h1, h2, h3⟩
  · unfold convertAndGetFactor at h
    simp only at h
    split at h
    · rename_i hs; cases h; simpa using Step.kelvin s e hs
    · rename_i hs
      have hs' : s = c!"R" ∨ s = c!"F" := by
        simp only [temperatureUnits, List.mem_cons, List.not_mem_nil, or_false, not_or] at h1 hs; tauto
      rw [if_pos hs'] at h
      cases h
      have := Step.rankine s e hs'
      push_cast
      simpa using this
  · obtain ⟨std, hstd, n1, n2, -⟩ := standard_facts c h1
    rw [cagf_parsed hstd h3 h2 n1] at h
    by_cases hne : s = std
    · subst hne
      simp only [convertParsed, if_true, Except.ok.injEq] at h
      subst h
      exact .std _ _ _ (by simp [h1]) hstd
    · cases hl : lookupTo (stdTables (K := ℝ)) c s with
      | error err =>
        simp only [convertParsed, hne, if_false, hstd, if_true, applyConv, hl] at h; cases h
      | ok f =>
        obtain ⟨⟨c', s', a, b⟩, hen, rfl, rfl⟩ := lookupTo_entry h1 hl
        have hpos : (0 : ℝ) < 1 * (a : ℝ) := by
          have := (entries_facts _ hen).2.2.2.2.2.2.1
          rw [one_mul]; exact_mod_cast this
        rw [convertParsed_to hen hstd 1 e e (pow_real_pos hpos e)] at h
        cases h
        rw [one_mul]
        exact .entry _ _ _ _ _ _ hen hstd
  · have n1 : '^' ∉ s := hc
    rw [cagf_parsed h2 h4 h3 n1] at h
    simp only [convertParsed, if_true, Except.ok.injEq] at h
    subst h
    refine .std _ _ _ ?_ h2
    simp only [List.mem_append]; exact .inr h1
  · by_cases he : e = 1
    · subst he
      rw [litre_val] at h; cases h; exact .litre
    · unfold convertAndGetFactor at h
      rw [if_neg (by simp), if_neg (by simp)] at h
      simp only [standardOf, he, if_false, parseStdTarget] at h
      rw [if_pos (by decide)] at h; cases h
  · by_cases he : e = 1
    · subst he
      rw [acre_val] at h; cases h; exact .acre
    · unfold convertAndGetFactor at h
      rw [if_neg (by simp), if_neg (by simp)] at h
      simp only [standardOf, he, if_false, parseStdTarget] at h
      rw [if_pos (by decide)] at h; cases h
  · exfalso
    simp only [temperatureUnits, List.mem_cons, List.not_mem_nil, or_false, not_or] at h2
    unfold convertAndGetFactor at h
    simp only [h2, or_self, if_false, standardOf] at h
    split at h
    · unfold convertUnit at h
      have hp : parseTarget s c!"m^3" = .ok (c!"m", c!"m", 3) := by
        unfold parseTarget
        rw [if_pos ⟨by decide, h1⟩]
        decide +kernel
      have hl : lookupFrom (stdTables (K := ℝ)) .volume c!"m" = .error .keyError := rfl
      have hne : ¬ (s = c!"m^3") := by rintro rfl; exact hc (by decide)
      have hne2 : ¬ ((c!"m" : Sym) = c!"m^3") := by decide
      rw [hp] at h
      simp only [convertParsed, h3, if_false, standardOf, hne, hne2, applyConv, hl] at h
      split at h <;> cases h
    · simp only [parseStdTarget] at h
      rw [if_pos (by decide)] at h; cases h

end Verif
