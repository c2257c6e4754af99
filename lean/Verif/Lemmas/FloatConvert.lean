import Verif.Lemmas.FloatOps

/-! # Conversions over floating point numbers -/

namespace Verif

variable {A : FloatArith}

/-- The entry of a conversion table adds at most four rounding errors. -/
def ConvNear (f : Conv (Fl A)) (g : Conv ℝ) : Prop :=
  ∀ (k : ℝ) (x : Fl A) (y : ℝ), Close k x.val y →
    SameOutcome (fun a b => Close (k + entryRoundings * A.ε) a.val b) (f x) (g y)

/-- The same keys, and entries that follow each other. -/
def EntriesNear (l : List (Sym × Conv (Fl A))) (l' : List (Sym × Conv ℝ)) : Prop :=
  List.Forall₂ (fun p q => p.1 = q.1 ∧ ConvNear p.2 q.2) l l'

/-- Tables that follow each other, apart from temperature. -/
def TablesNear (T : Tables (Fl A)) (T' : Tables ℝ) : Prop :=
  ∀ c, c ≠ .temperature → (T c = none ∧ T' c = none) ∨
    ∃ t t', T c = some t ∧ T' c = some t' ∧ EntriesNear t.toStd t'.toStd ∧ EntriesNear t.fromStd t'.fromStd

theorem convNear_mulBy (q : ℚ) : ConvNear (A := A) (mulBy q) (mulBy q) := by
  intro k x y h
  have he := A.nonneg
  exact (near_mul h (A.lit_close q)).mono (by unfold entryRoundings; linarith)

theorem convNear_divBy {q : ℚ} (hq : q ≠ 0) : ConvNear (A := A) (divBy q) (divBy q) := by
  intro k x y h
  have he := A.nonneg
  exact (near_div h (A.lit_close q) (by exact_mod_cast hq)).mono (by unfold entryRoundings; linarith)

theorem convNear_id : ConvNear (A := A) (fun x => .ok x) (fun x => .ok x) := by
  intro k x y h
  have he := A.nonneg
  exact h.mono (by unfold entryRoundings; linarith)

theorem convNear_inchTo : ConvNear (A := A) (fun x => .ok (x / ((12 : ℚ) : Fl A) * ((3048 / 10000 : ℚ) : Fl A)))
    (fun x => .ok (x / ((12 : ℚ) : ℝ) * ((3048 / 10000 : ℚ) : ℝ))) := by
  intro k x y h
  exact (near_mul (near_div h (A.lit_close 12) (by norm_num)) (A.lit_close _)).mono (by unfold entryRoundings; linarith)

theorem convNear_inchFrom : ConvNear (A := A) (fun x => .ok (x * ((12 : ℚ) : Fl A) * ((328084 / 100000 : ℚ) : Fl A)))
    (fun x => .ok (x * ((12 : ℚ) : ℝ) * ((328084 / 100000 : ℚ) : ℝ))) := by
  intro k x y h
  exact (near_mul (near_mul h (A.lit_close 12)) (A.lit_close _)).mono (by unfold entryRoundings; linarith)

theorem near_acreRoot : SameOutcome (fun a b => Close (2 * A.ε) a.val b ∧ b ≠ 0) (acreRoot : PyM (Fl A)) (acreRoot : PyM ℝ) := by
  have h := near_pow (A := A) (x := ((4046873 / 1000 : ℚ) : Fl A)) (A.lit_close (4046873 / 1000)) (1 / 2)
  rcases h.elim with ⟨e, e1, e2⟩ | ⟨a, b, e1, e2, hab⟩
  · rw [pow_real_pos (by norm_num)] at e2
    cases e2
  · unfold acreRoot
    rw [e1, e2]
    refine ⟨hab.mono ?_, ?_⟩
    · have := A.nonneg
      norm_num
      linarith
    · rw [pow_real_pos (by norm_num)] at e2
      cases e2
      exact (Real.rpow_pos_of_pos (by norm_num) _).ne'

theorem convNear_err (e : Err) : ConvNear (A := A) (fun _ => .error e) (fun _ => .error e) := fun _ _ _ _ => rfl

theorem stdTables_near : TablesNear (A := A) stdTables stdTables := by
  intro c hc
  cases c
  case temperature => exact absurd rfl hc
  case unit => exact Or.inl ⟨rfl, rfl⟩
  case current => exact Or.inl ⟨rfl, rfl⟩
  case amount => exact Or.inl ⟨rfl, rfl⟩
  all_goals
    refine Or.inr ⟨_, _, rfl, rfl, ?_, ?_⟩
    all_goals
      simp only [EntriesNear, pressureTable, lengthTable, timeTable, energyTable, massTable, forceTable, volumeTable,
        areaTable, List.forall₂_cons, List.forall₂_nil_left_iff, true_and, and_true]
      repeat' apply And.intro
  all_goals first
    | exact convNear_mulBy _
    | exact convNear_divBy (by norm_num)
    | exact convNear_id
    | exact convNear_inchTo
    | exact convNear_inchFrom
    | (intro k x y h
       have he := A.nonneg
       rcases (near_acreRoot (A := A)).elim with ⟨e, e1, e2⟩ | ⟨a, b, e1, e2, hab, h0⟩
       · simp only [e1, e2]; rfl
       · simp only [e1, e2]
         first
           | exact (near_mul h hab).mono (by unfold entryRoundings; linarith)
           | exact (near_div h hab h0).mono (by unfold entryRoundings; linarith))
    | exact convNear_err _

theorem lookupSym_near {l : List (Sym × Conv (Fl A))} {l' : List (Sym × Conv ℝ)} (h : EntriesNear l l') (s : Sym) :
    (lookupSym s l = none ∧ lookupSym s l' = none) ∨
      ∃ f g, lookupSym s l = some f ∧ lookupSym s l' = some g ∧ ConvNear f g := by
  induction h with
  | nil => exact Or.inl ⟨rfl, rfl⟩
  | @cons p q l l' hpq _ ih =>
    obtain ⟨p1, p2⟩ := p
    obtain ⟨q1, q2⟩ := q
    obtain ⟨rfl, hc⟩ := hpq
    simp only [lookupSym]
    split
    · exact Or.inr ⟨_, _, rfl, rfl, hc⟩
    · exact ih

theorem lookupTo_near {T : Tables (Fl A)} {T' : Tables ℝ} (h : TablesNear T T') {c : UCls} (hc : c ≠ .temperature) (s : Sym) :
    SameOutcome ConvNear (lookupTo T c s) (lookupTo T' c s) := by
  unfold lookupTo
  rcases h c hc with ⟨h1, h2⟩ | ⟨t, t', h1, h2, h3, -⟩
  · simp only [h1, h2]; rfl
  · simp only [h1, h2]
    rcases lookupSym_near h3 s with ⟨e1, e2⟩ | ⟨f, g, e1, e2, hfg⟩
    · simp only [e1, e2]; rfl
    · simp only [e1, e2]; exact hfg

theorem lookupFrom_near {T : Tables (Fl A)} {T' : Tables ℝ} (h : TablesNear T T') {c : UCls} (hc : c ≠ .temperature) (s : Sym) :
    SameOutcome ConvNear (lookupFrom T c s) (lookupFrom T' c s) := by
  unfold lookupFrom
  rcases h c hc with ⟨h1, h2⟩ | ⟨t, t', h1, h2, -, h3⟩
  · simp only [h1, h2]; rfl
  · simp only [h1, h2]
    rcases lookupSym_near h3 s with ⟨e1, e2⟩ | ⟨f, g, e1, e2, hfg⟩
    · simp only [e1, e2]; rfl
    · simp only [e1, e2]; exact hfg

theorem applyConv_near {f : PyM (Conv (Fl A))} {g : PyM (Conv ℝ)} (h : SameOutcome ConvNear f g) {k : ℝ} {x : Fl A} {y : ℝ}
    (hx : Close k x.val y) (e : ℚ) :
    SameOutcome (fun a b => Close (|(e : ℝ)| * (k + entryRoundings * A.ε) + A.ε) a.val b) (applyConv f x e) (applyConv g y e) := by
  rcases h.elim with ⟨er, rfl, rfl⟩ | ⟨f, g, rfl, rfl, hfg⟩
  · rfl
  · simp only [applyConv]
    rcases (hfg k x y hx).elim with ⟨er, e1, e2⟩ | ⟨a, b, e1, e2, hab⟩
    · simp only [e1, e2]; rfl
    · simp only [e1, e2]; exact near_pow hab e

theorem UnitV.Near.mono {k l : ℝ} {x : UnitV (Fl A)} {y : UnitV ℝ} (h : x.Near k y) (hl : k ≤ l) : x.Near l y :=
  ⟨h.1, h.2.1, h.2.2.1, h.2.2.2.mono hl⟩

theorem MultiV.Near.mono {k l : ℝ} {x : MultiV (Fl A)} {y : MultiV ℝ} (h : x.Near k y) (hl : k ≤ l) : x.Near l y :=
  ⟨h.1, h.2.1, h.2.2.1, h.2.2.2.mono hl⟩

theorem Val.Near.mono {k l : ℝ} {x : Val (Fl A)} {y : Val ℝ} (h : x.Near k y) (hl : k ≤ l) : x.Near l y := by
  cases x <;> cases y <;> simp only [Val.Near] at h ⊢
  · exact Close.mono h hl
  · exact UnitV.Near.mono h hl
  · exact MultiV.Near.mono h hl

theorem convertParsed_near {T : Tables (Fl A)} {T' : Tables ℝ} (h : TablesNear T T') {k : ℝ} {u : UnitV (Fl A)} {u' : UnitV ℝ}
    (hu : u.Near k u') (hc : u'.cls ≠ .temperature) (tgt ret : Sym) (e : ℚ) :
    SameOutcome (UnitV.Near (convBound A.ε k e)) (convertParsed T u tgt ret e) (convertParsed T' u' tgt ret e) := by
  obtain ⟨c, v, s, x⟩ := u
  obtain ⟨c', v', s', x'⟩ := u'
  obtain ⟨rfl, rfl, rfl, h1⟩ := hu
  simp only at h1 hc
  unfold convertParsed
  simp only
  split
  · exact UnitV.Near.mono (k := k) ⟨rfl, rfl, rfl, h1⟩ (le_max_left _ _)
  split
  · rfl
  next std hstd =>
  split
  · rcases (applyConv_near (lookupTo_near h hc s) h1 e).elim with ⟨er, e1, e2⟩ | ⟨a, b, e1, e2, hab⟩
    · simp only [e1, e2]; rfl
    · simp only [e1, e2]
      exact (near_mkUnit c hab ret e).mono fun _ _ hn => hn.mono ((le_max_left _ _).trans (le_max_right _ _))
  split
  · rcases (applyConv_near (lookupFrom_near h hc tgt) h1 e).elim with ⟨er, e1, e2⟩ | ⟨a, b, e1, e2, hab⟩
    · simp only [e1, e2]; rfl
    · simp only [e1, e2]
      exact (near_mkUnit c hab ret e).mono fun _ _ hn => hn.mono ((le_max_left _ _).trans (le_max_right _ _))
  · rcases (applyConv_near (lookupTo_near h hc s) h1 e).elim with ⟨er, e1, e2⟩ | ⟨a, b, e1, e2, hab⟩
    · simp only [e1, e2]
      cases er <;> rfl
    · simp only [e1, e2]
      rcases (applyConv_near (lookupFrom_near h hc tgt) hab e).elim with ⟨er, e1, e2⟩ | ⟨a, b, e1, e2, hab⟩
      · simp only [e1, e2]; rfl
      · simp only [e1, e2]
        refine (near_mkUnit c hab ret e).mono fun _ _ hn => hn.mono ?_
        exact (le_max_right _ _).trans (le_max_right _ _)

/-- The exponent the target string asks for (1 when it has none). -/
def targetExp (self target : Sym) : ℝ :=
  match parseTarget self target with
  | .ok (_, _, e) => e
  | .error _ => 0

theorem convertUnit_near {T : Tables (Fl A)} {T' : Tables ℝ} (h : TablesNear T T') {k : ℝ} {u : UnitV (Fl A)} {u' : UnitV ℝ}
    (hu : u.Near k u') (hc : u'.cls ≠ .temperature) (target : Sym) :
    SameOutcome (UnitV.Near (convBound A.ε k (targetExp u'.unit target))) (convertUnit T u target)
      (convertUnit T' u' target) := by
  unfold convertUnit targetExp
  rw [hu.2.1]
  cases parseTarget u'.unit target with
  | error e => rfl
  | ok r => exact convertParsed_near h hu hc r.1 r.2.1 r.2.2

/-! ## Compound quantities -/

theorem mapPy_near {α β γ : Type} {R : β → γ → Prop} (f : α → PyM β) (g : α → PyM γ) (l : List α)
    (h : ∀ x ∈ l, SameOutcome R (f x) (g x)) : SameOutcome (List.Forall₂ R) (mapPy f l) (mapPy g l) := by
  induction l with
  | nil => exact List.Forall₂.nil
  | cons x l ih =>
    simp only [mapPy]
    rcases (h x (by simp)).elim with ⟨e, e1, e2⟩ | ⟨a, b, e1, e2, hab⟩
    · simp only [e1, e2]; rfl
    · simp only [e1, e2]
      rcases (ih fun y hy => h y (by simp [hy])).elim with ⟨e, e1, e2⟩ | ⟨as, bs, e1, e2, habs⟩
      · simp only [e1, e2]; rfl
      · simp only [e1, e2]; exact List.Forall₂.cons hab habs

theorem convBound_scale (ε e : ℝ) (h : 0 ≤ ε) : convBound ε 0 e = convBound 1 0 e * ε := by
  unfold convBound
  rw [max_mul_of_nonneg _ _ h, max_mul_of_nonneg _ _ h]
  congr 1
  · ring
  · congr 1 <;> ring

theorem parseTarget_std {c : UCls} {std self t r : Sym} {e : ℚ} (hs : standardOf c = some std)
    (h : parseTarget self std = .ok (t, r, e)) : (e : ℝ) = stdExp c := by
  have g3 : pyFloat c!"3" = .ok 3 := by decide +kernel
  have g2 : pyFloat c!"2" = .ok 2 := by decide +kernel
  unfold parseTarget at h
  cases c <;> simp only [standardOf, Option.some.injEq, reduceCtorEq] at hs <;> subst hs <;>
    by_cases hc : self ∈ unitComposites <;> simp [hc, g3, g2, splitOn] at h <;> simp [stdExp, ← h.2.2]

/-- A temperature is one of the four scales. -/
def TempOk {K : Type} (u : UnitV K) : Prop :=
  u.cls = .temperature → u.unit = c!"K" ∨ u.unit = c!"C" ∨ u.unit = c!"R" ∨ u.unit = c!"F"

theorem convertAndGetFactor_near {T : Tables (Fl A)} {T' : Tables ℝ} (h : TablesNear T T') {u : UnitV (Fl A)} {u' : UnitV ℝ}
    (hu : u.Near 0 u') (hc : TempOk u') :
    SameOutcome (UnitV.Near (factorRoundings u'.cls u'.exp * A.ε)) (convertAndGetFactor T u) (convertAndGetFactor T' u') := by
  have he := A.nonneg
  have h4 : 4 * A.ε ≤ factorRoundings u'.cls u'.exp * A.ε := mul_le_mul_of_nonneg_right (le_max_left _ _) he
  obtain ⟨c, v, s, x⟩ := u
  obtain ⟨c', v', s', x'⟩ := u'
  obtain ⟨rfl, rfl, rfl, h1⟩ := hu
  simp only at h1 h4
  unfold convertAndGetFactor
  simp only
  split
  · refine ⟨rfl, rfl, rfl, (near_mul h1 (near_mul (Close.refl (k := 0) le_rfl 1) (A.lit_close x))).mono ?_⟩
    linarith
  split
  · refine ⟨rfl, rfl, rfl, (near_mul h1 (near_mul (A.lit_close (5 / 9)) (A.lit_close x))).mono ?_⟩
    linarith
  next n1 n2 =>
  have hcls : c ≠ .temperature := by
    intro h0
    rcases hc h0 with h | h | h | h
    · exact n1 (Or.inl h)
    · exact n1 (Or.inr h)
    · exact n2 (Or.inl h)
    · exact n2 (Or.inr h)
  split
  · rfl
  next std hstd =>
  split
  · next h1x =>
    have hb : ∀ e : ℚ, (e : ℝ) = stdExp c → convBound A.ε 0 e ≤ factorRoundings c x * A.ε := by
      intro e he'
      rw [convBound_scale _ _ he, factorRoundings, if_pos h1x, he']
      exact mul_le_mul_of_nonneg_right (le_max_right _ _) he
    unfold convertUnit
    simp only
    cases hp : parseTarget s std with
    | error e => rfl
    | ok r =>
      refine (convertParsed_near h (u' := ⟨c, v', s, x⟩) ⟨rfl, rfl, rfl, h1⟩ hcls r.1 r.2.1 r.2.2).mono
        fun _ _ hn => hn.mono (hb _ (parseTarget_std hstd hp))
  · next h1x =>
    have hb : convBound A.ε 0 x ≤ factorRoundings c x * A.ε := by
      rw [convBound_scale _ _ he, factorRoundings, if_neg h1x]
      exact mul_le_mul_of_nonneg_right (le_max_right _ _) he
    unfold parseStdTarget
    split
    · next hq =>
      split at hq
      · cases hq; rfl
      · split at hq <;> cases hq
    · next tgt ret e hq =>
      have hex : e = x := by
        split at hq
        · cases hq
        · split at hq <;> cases hq <;> rfl
      subst hex
      refine (convertParsed_near h (u' := ⟨c, v', s, e⟩) ⟨rfl, rfl, rfl, h1⟩ hcls tgt ret e).mono
        fun _ _ hn => hn.mono hb

/-- What the unit objects of the two runs have in common. -/
def ObjNear (x : BaseUnit) (u : UnitV (Fl A)) (u' : UnitV ℝ) : Prop :=
  u.Near 0 u' ∧ TempOk u' ∧ entryFactorRoundings x = factorRoundings u'.cls u'.exp

theorem registry_temperature {s : Sym} (h : getUnitClass s = .ok .temperature) :
    s = c!"K" ∨ s = c!"C" ∨ s = c!"R" ∨ s = c!"F" := by
  have key : ∀ p ∈ registry, p.2 = .temperature → p.1 = c!"K" ∨ p.1 = c!"C" ∨ p.1 = c!"R" ∨ p.1 = c!"F" := by
    decide +kernel
  have mem : ∀ (l : List (Sym × UCls)) (c : UCls), lookupSym s l = some c → (s, c) ∈ l := by
    intro l c
    induction l with
    | nil => intro h; cases h
    | cons p l ih =>
      obtain ⟨a, b⟩ := p
      intro h
      simp only [lookupSym] at h
      split at h
      · next hs => cases h; simp [hs]
      · exact List.mem_cons_of_mem _ (ih h)
  unfold getUnitClass at h
  split at h
  · next c hc => cases h; exact key _ (mem _ _ hc) rfl
  · cases h

theorem toUnitObj_near (x : BaseUnit) :
    SameOutcome (ObjNear x) (toUnitObj (K := Fl A) x) (toUnitObj (K := ℝ) x) := by
  unfold toUnitObj
  split
  · rfl
  next c hc =>
  have h1 : SameOutcome (UnitV.Near 0) (mkUnit c (1 : Fl A) x.unit x.exp) (mkUnit c (1 : ℝ) x.unit x.exp) :=
    near_mkUnit c (Close.refl le_rfl 1) x.unit x.exp
  have h2 : ∀ u', mkUnit c (1 : ℝ) x.unit x.exp = .ok u' →
      mkUnit c () x.unit x.exp = .ok ⟨u'.cls, (), u'.unit, u'.exp⟩ ∧ u'.cls = c ∧ (c = .temperature → u'.unit = x.unit) := by
    intro u'
    unfold mkUnit
    cases c
    all_goals simp only
    all_goals repeat' split
    all_goals (intro h; cases h)
    all_goals exact ⟨rfl, rfl, by simp⟩
  rcases h1.elim with ⟨e, e1, e2⟩ | ⟨a, b, e1, e2, hab⟩
  · simp only [e1, e2]; rfl
  · simp only [e1, e2]
    obtain ⟨g1, g2, g3⟩ := h2 b e2
    refine ⟨hab, ?_, ?_⟩
    · intro hb
      rw [g2] at hb
      rw [g3 hb]
      exact registry_temperature (hb ▸ hc)
    · simp only [entryFactorRoundings, hc, g1]

/-- Units as they come out of `base_to_unit` in the two runs. -/
def ObjsNear (l : List (UnitV (Fl A))) (l' : List (UnitV ℝ)) : Prop :=
  List.Forall₂ (fun u u' => u.Near 0 u' ∧ TempOk u') l l'

/-- Rounding errors of the factors of a list of unit objects. -/
def objsRoundings (l : List (UnitV ℝ)) : ℝ := (l.map fun u => factorRoundings u.cls u.exp + 2).sum

theorem objsRoundings_cons (u : UnitV ℝ) (l : List (UnitV ℝ)) :
    objsRoundings (u :: l) = factorRoundings u.cls u.exp + 2 + objsRoundings l := by simp [objsRoundings]

theorem mapPy_objsRoundings {l : UList} {us : List (UnitV ℝ)} (h : mapPy (toUnitObj (K := ℝ)) l = .ok us) :
    objsRoundings us = factorsRoundings l := by
  induction l generalizing us with
  | nil => cases h; rfl
  | cons x l ih =>
    simp only [mapPy] at h
    split at h
    · cases h
    next y hy =>
    split at h
    · cases h
    next ys hys =>
    cases h
    rw [objsRoundings_cons, ih hys]
    have := (toUnitObj_near (A := double) x).elim
    rcases this with ⟨e, e1, e2⟩ | ⟨a, b, e1, e2, hab⟩
    · rw [e2] at hy; cases hy
    · rw [e2] at hy; cases hy
      simp [factorsRoundings, hab.2.2]

theorem baseToUnit_near (t b : UList) :
    SameOutcome (fun x y => ObjsNear x.1 y.1 ∧ ObjsNear x.2 y.2 ∧ objsRoundings y.1 = factorsRoundings t ∧
      objsRoundings y.2 = factorsRoundings b) (baseToUnit (K := Fl A) t b) (baseToUnit (K := ℝ) t b) := by
  have key : ∀ l : UList, SameOutcome (fun x y => ObjsNear x y) (mapPy (toUnitObj (K := Fl A)) l)
      (mapPy (toUnitObj (K := ℝ)) l) := fun l =>
    mapPy_near _ _ l fun x _ => (toUnitObj_near (A := A) x).mono fun _ _ h => ⟨h.1, h.2.1⟩
  unfold baseToUnit
  rcases (key t).elim with ⟨e, e1, e2⟩ | ⟨x, y, e1, e2, hxy⟩
  · simp only [e1, e2]; rfl
  · simp only [e1, e2]
    rcases (key b).elim with ⟨e, e1', e2'⟩ | ⟨x', y', e1', e2', hxy'⟩
    · simp only [e1', e2']; rfl
    · simp only [e1', e2']
      exact ⟨hxy, hxy', mapPy_objsRoundings e2, mapPy_objsRoundings e2'⟩

theorem factorTop_near {T : Tables (Fl A)} {T' : Tables ℝ} (h : TablesNear T T') {us : List (UnitV (Fl A))}
    {us' : List (UnitV ℝ)} (hus : ObjsNear us us') {k : ℝ} {f : Fl A} {g : ℝ} (hf : Close k f.val g) :
    SameOutcome (fun a b => Close (k + objsRoundings us' * A.ε) a.1.val b.1 ∧ a.2 = b.2) (factorTop T f us)
      (factorTop T' g us') := by
  have he := A.nonneg
  induction hus generalizing k f g with
  | nil => exact ⟨hf.mono (by simp [objsRoundings]), rfl⟩
  | @cons u u' us us' hu _ ih =>
    simp only [factorTop]
    rcases (convertAndGetFactor_near h hu.1 hu.2).elim with ⟨e, e1, e2⟩ | ⟨w, w', e1, e2, hw⟩
    · simp only [e1, e2]; rfl
    · simp only [e1, e2]
      rcases (ih (near_mul hf hw.2.2.2)).elim with ⟨e, e1, e2⟩ | ⟨⟨x, l⟩, ⟨x', l'⟩, e1, e2, hx, hl⟩
      · rw [show factorTop T (f * w.value) us = _ from e1, e2]; rfl
      · rw [show factorTop T (f * w.value) us = _ from e1, e2]
        simp only at hl
        subst hl
        refine ⟨hx.mono ?_, by simp only [hw.2.1, hw.2.2.1]⟩
        rw [objsRoundings_cons]
        nlinarith

theorem factorBot_near {T : Tables (Fl A)} {T' : Tables ℝ} (h : TablesNear T T') {us : List (UnitV (Fl A))}
    {us' : List (UnitV ℝ)} (hus : ObjsNear us us') {k : ℝ} {f : Fl A} {g : ℝ} (hf : Close k f.val g) :
    SameOutcome (fun a b => Close (k + objsRoundings us' * A.ε) a.1.val b.1 ∧ a.2 = b.2) (factorBot T f us)
      (factorBot T' g us') := by
  have he := A.nonneg
  induction hus generalizing k f g with
  | nil => exact ⟨hf.mono (by simp [objsRoundings]), rfl⟩
  | @cons u u' us us' hu _ ih =>
    simp only [factorBot]
    rcases (convertAndGetFactor_near h hu.1 hu.2).elim with ⟨e, e1, e2⟩ | ⟨w, w', e1, e2, hw⟩
    · simp only [e1, e2]; rfl
    · simp only [e1, e2]
      rcases (near_pyDiv (A := A) (x := 1) (Close.refl (k := 0) le_rfl 1) hw.2.2.2).elim with
        ⟨e, e1, e2⟩ | ⟨r, r', e1, e2, hr⟩
      · simp only [e1, e2]; rfl
      · simp only [e1, e2]
        rcases (ih (near_mul hf hr)).elim with ⟨e, e1, e2⟩ | ⟨⟨x, l⟩, ⟨x', l'⟩, e1, e2, hx, hl⟩
        · rw [show factorBot T (f * r) us = _ from e1, e2]; rfl
        · rw [show factorBot T (f * r) us = _ from e1, e2]
          simp only at hl
          subst hl
          refine ⟨hx.mono ?_, by simp only [hw.2.1, hw.2.2.1]⟩
          rw [objsRoundings_cons]
          nlinarith

theorem classTotal_near (c : UCls) {l : List (UnitV (Fl A))} {l' : List (UnitV ℝ)} (h : ObjsNear l l') :
    classTotal c l = classTotal c l' := by
  have h1 : mapPy (fun u : UnitV (Fl A) => getUnitClass u.unit) l = mapPy (fun u : UnitV ℝ => getUnitClass u.unit) l' := by
    induction h with
    | nil => rfl
    | cons hu _ ih => simp only [mapPy, hu.1.2.1, ih]
  unfold classTotal
  rw [h1]
  split
  · rfl
  next cs hcs =>
  congr 2
  clear h1 hcs
  induction h generalizing cs with
  | nil => simp
  | cons hu _ ih =>
    cases cs with
    | nil => simp
    | cons d ds => simp only [List.zip_cons_cons, List.map_cons, ih, hu.1.2.2.1]

theorem classDiff_near {t b : List (UnitV (Fl A))} {t' b' : List (UnitV ℝ)} (h : ObjsNear t t') (h' : ObjsNear b b') :
    classDiff t b = classDiff t' b' := by
  funext c
  simp only [classDiff, classTotal_near c h, classTotal_near c h']

theorem convertStart_near (top bot : UList) :
    SameOutcome (fun a b => ObjsNear a.1 b.1 ∧ ObjsNear a.2.1 b.2.1 ∧ ∃ k, Close (k * A.ε) a.2.2.val b.2.2 ∧
      k + 1 + objsRoundings b.1 + objsRoundings b.2.1 = sideRoundings top bot)
      (convertStart (K := Fl A) top bot) (convertStart (K := ℝ) top bot) := by
  unfold convertStart
  rcases (near_deconstructPrefixes (A := A) top bot).elim with ⟨e, e1, e2⟩ | ⟨⟨t, b, f⟩, ⟨t', b', f'⟩, e1, e2, h1, h2, h3⟩
  · simp only [e1, e2]; rfl
  simp only at h1 h2 h3
  subst h1 h2
  have hs : startUnits top bot = deconstructOnce t b := by
    unfold deconstructPrefixes at e2
    unfold startUnits
    split at e2
    · cases e2
    split at e2
    · cases e2
    split at e2
    · cases e2
    split at e2
    · cases e2
    cases e2
    simp only [*]
  simp only [e1, e2]
  cases hd : deconstructOnce t b with
  | error e => rfl
  | ok r =>
    obtain ⟨t1, b1⟩ := r
    simp only
    rcases (baseToUnit_near (A := A) t1 b1).elim with ⟨e, e1, e2⟩ | ⟨⟨x, y⟩, ⟨x', y'⟩, e1, e2, g1, g2, g3, g4⟩
    · simp only [e1, e2]; rfl
    · simp only [e1, e2]
      refine ⟨g1, g2, roundings top + roundings bot, h3, ?_⟩
      simp only [sideRoundings, hs, hd, g3, g4]
      ring

theorem convertFinish_near {T : Tables (Fl A)} {T' : Tables ℝ} (h : TablesNear T T')
    {s : List (UnitV (Fl A)) × List (UnitV (Fl A)) × Fl A} {s' : List (UnitV ℝ) × List (UnitV ℝ) × ℝ}
    (h1 : ObjsNear s.1 s'.1) (h2 : ObjsNear s.2.1 s'.2.1) {k n : ℝ} (h3 : Close (k * A.ε) s.2.2.val s'.2.2)
    (hn : k + 1 + objsRoundings s'.1 + objsRoundings s'.2.1 = n) :
    SameOutcome (fun a b => Close (n * A.ε) a.1.val b.1 ∧ a.2 = b.2) (convertFinish T s) (convertFinish T' s') := by
  unfold convertFinish
  rcases (factorTop_near h h1 (near_mul (A := A) (Close.refl (k := 0) le_rfl 1) h3)).elim with
    ⟨e, e1, e2⟩ | ⟨⟨f, t⟩, ⟨f', t'⟩, e1, e2, hf, ht⟩
  · rw [show factorTop T (1 * s.2.2) s.1 = _ from e1, e2]; rfl
  rw [show factorTop T (1 * s.2.2) s.1 = _ from e1, e2]
  simp only at ht
  subst ht
  simp only
  rcases (factorBot_near h h2 hf).elim with ⟨e, e1, e2⟩ | ⟨⟨g, b⟩, ⟨g', b'⟩, e1, e2, hg, hb⟩
  · simp only [e1, e2]; rfl
  simp only [e1, e2]
  simp only at hb
  subst hb
  cases deconstructUnits t b with
  | error e => rfl
  | ok r =>
    obtain ⟨t1, b1⟩ := r
    simp only
    rcases (baseToUnit_near (A := A) t1 b1).elim with ⟨e, e1, e2⟩ | ⟨⟨x, y⟩, ⟨x', y'⟩, e1, e2, g1, g2, -, -⟩
    · simp only [e1, e2]; rfl
    simp only [e1, e2]
    rw [classDiff_near g1 g2]
    cases mapPy (classDiff x' y') allClasses with
    | error e => rfl
    | ok tally => exact ⟨hg.mono (by rw [← hn]; linarith), rfl⟩

/-- Precision of a compound conversion. -/
theorem convertMulti_near {T : Tables (Fl A)} {T' : Tables ℝ} (h : TablesNear T T') {k : ℝ} {m : MultiV (Fl A)}
    {m' : MultiV ℝ} (hm : m.Near k m') (target : Sym) :
    SameOutcome (MultiV.Near (k + (sideRoundings m'.top m'.bot + targetRoundings target + 2) * A.ε)) (convertMulti T m target)
      (convertMulti T' m' target) := by
  unfold convertMulti targetRoundings
  cases hp : parseUnits target with
  | error e => rfl
  | ok r =>
    obtain ⟨ct, cb⟩ := r
    simp only [hm.2.1, hm.2.2.1]
    rcases (convertStart_near (A := A) ct cb).elim with ⟨e, e1, e2⟩ | ⟨x, x', e1, e2, x1, x2, k1, x3, x4⟩
    · simp only [e1, e2]; rfl
    simp only [e1, e2]
    rcases (convertStart_near (A := A) m'.top m'.bot).elim with ⟨e, e1, e2⟩ | ⟨y, y', e1, e2, y1, y2, k2, y3, y4⟩
    · simp only [e1, e2]; rfl
    simp only [e1, e2]
    rcases (convertFinish_near h y1 y2 y3 y4).elim with ⟨e, e1, e2⟩ | ⟨⟨lf, lt⟩, ⟨lf', lt'⟩, e1, e2, hl, ht⟩
    · simp only [e1, e2]; rfl
    simp only at ht
    subst ht
    simp only [e1, e2]
    rcases (convertFinish_near h x1 x2 x3 x4).elim with ⟨e, e1, e2⟩ | ⟨⟨rf, rt⟩, ⟨rf', rt'⟩, e1, e2, hr, ht⟩
    · simp only [e1, e2]; rfl
    simp only at ht
    subst ht
    simp only [e1, e2]
    split
    · rfl
    rcases (near_pyDiv hl hr).elim with ⟨e, e1, e2⟩ | ⟨q, q', e1, e2, hq⟩
    · simp only [e1, e2]; rfl
    simp only [e1, e2]
    rw [hm.1]
    refine (near_mkMulti m'.cls (near_mul hm.2.2.2 hq) target).mono fun _ _ hn => hn.mono ?_
    linarith

end Verif
