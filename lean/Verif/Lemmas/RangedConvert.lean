import Verif.Lemmas.Ranged

/-! # Conversions over numbers of finite range -/

namespace Verif

open Ranged

variable {M : FloatMachine}

/-- The entry of a conversion table returns what the floating point entry returns. -/
def ConvUp (f : Conv (Ranged M)) (g : Conv M.Num) : Prop :=
  ∀ (x : Ranged M) (r : M.Num), f x = .ok r.up → ∃ x' : M.Num, x = x'.up ∧ g x' = .ok r

/-- The same keys, and entries that follow each other. -/
def EntriesUp (l : List (Sym × Conv (Ranged M))) (l' : List (Sym × Conv M.Num)) : Prop :=
  List.Forall₂ (fun p q => p.1 = q.1 ∧ ConvUp p.2 q.2) l l'

/-- Tables that follow each other. -/
def TablesUp (T : Tables (Ranged M)) (T' : Tables M.Num) : Prop :=
  ∀ c, (T c = none ∧ T' c = none) ∨
    ∃ t t', T c = some t ∧ T' c = some t' ∧ EntriesUp t.toStd t'.toStd ∧ EntriesUp t.fromStd t'.fromStd

theorem convUp_mulBy (q : ℚ) : ConvUp (M := M) (mulBy q) (mulBy q) := by
  intro x r h
  simp only [mulBy, Except.ok.injEq] at h ⊢
  obtain ⟨a, b, rfl, hb, rfl⟩ := mul_up h
  exact ⟨a, rfl, by rw [ratCast_up hb]⟩

theorem convUp_divBy (q : ℚ) : ConvUp (M := M) (divBy q) (divBy q) := by
  intro x r h
  simp only [divBy, Except.ok.injEq] at h ⊢
  obtain ⟨a, b, rfl, hb, rfl⟩ := div_up h
  exact ⟨a, rfl, by rw [ratCast_up hb]⟩

theorem convUp_id : ConvUp (M := M) (fun x => .ok x) (fun x => .ok x) := by
  intro x r h
  cases h
  exact ⟨r, rfl, rfl⟩

theorem convUp_err (e : Err) : ConvUp (M := M) (fun _ => .error e) (fun _ => .error e) := by
  intro x r h
  cases h

theorem convUp_inchTo : ConvUp (M := M) (fun x => .ok (x / ((12 : ℚ) : Ranged M) * ((3048 / 10000 : ℚ) : Ranged M)))
    (fun x => .ok (x / ((12 : ℚ) : M.Num) * ((3048 / 10000 : ℚ) : M.Num))) := by
  intro x r h
  simp only [Except.ok.injEq] at h ⊢
  obtain ⟨a, b, ha, hb, rfl⟩ := mul_up h
  obtain ⟨c, d, rfl, hd, rfl⟩ := div_up ha
  exact ⟨c, rfl, by rw [ratCast_up hb, ratCast_up hd]⟩

theorem convUp_inchFrom : ConvUp (M := M) (fun x => .ok (x * ((12 : ℚ) : Ranged M) * ((328084 / 100000 : ℚ) : Ranged M)))
    (fun x => .ok (x * ((12 : ℚ) : M.Num) * ((328084 / 100000 : ℚ) : M.Num))) := by
  intro x r h
  simp only [Except.ok.injEq] at h ⊢
  obtain ⟨a, b, ha, hb, rfl⟩ := mul_up h
  obtain ⟨c, d, rfl, hd, rfl⟩ := mul_up ha
  exact ⟨c, rfl, by rw [ratCast_up hb, ratCast_up hd]⟩

theorem acreRoot_up {r : M.Num} (h : (acreRoot : PyM (Ranged M)) = .ok r.up) : (acreRoot : PyM M.Num) = .ok r := by
  unfold acreRoot at h ⊢
  obtain ⟨a, ha, e⟩ := pow_up h
  rw [ratCast_up ha, e]

theorem stdTables_up : TablesUp (M := M) stdTables stdTables := by
  intro c
  cases c
  case unit => exact Or.inl ⟨rfl, rfl⟩
  case current => exact Or.inl ⟨rfl, rfl⟩
  case amount => exact Or.inl ⟨rfl, rfl⟩
  all_goals
    refine Or.inr ⟨_, _, rfl, rfl, ?_, ?_⟩
    all_goals
      simp only [EntriesUp, temperatureTable, pressureTable, lengthTable, timeTable, energyTable, massTable, forceTable,
        volumeTable, areaTable, List.forall₂_cons, List.forall₂_nil_left_iff, true_and, and_true]
      repeat' apply And.intro
  all_goals first
    | exact convUp_mulBy _
    | exact convUp_divBy _
    | exact convUp_id
    | exact convUp_inchTo
    | exact convUp_inchFrom
    | exact convUp_err _
    | (intro x r h
       cases hr : (acreRoot : PyM (Ranged M)) with
       | error e => rw [hr] at h; cases h
       | ok y =>
         rw [hr] at h
         simp only [Except.ok.injEq] at h
         first
           | (obtain ⟨a, b, rfl, rfl, rfl⟩ := mul_up h
              exact ⟨a, rfl, by rw [acreRoot_up hr]⟩)
           | (obtain ⟨a, b, rfl, rfl, rfl⟩ := div_up h
              exact ⟨a, rfl, by rw [acreRoot_up hr]⟩))
    | (intro x r h
       simp only [Except.ok.injEq] at h ⊢
       first
         | (obtain ⟨a, b, ha, hb, rfl⟩ := mul_up h
            obtain ⟨c, d, rfl, hd, rfl⟩ := add_up hb
            exact ⟨c, rfl, by rw [ratCast_up ha, ratCast_up hd]⟩)
         | (obtain ⟨a, b, ha, hb, rfl⟩ := add_up h
            obtain ⟨c, d, hc, hd, rfl⟩ := mul_up ha
            obtain ⟨e, f, rfl, hf, rfl⟩ := sub_up hd
            exact ⟨e, rfl, by rw [ratCast_up hb, ratCast_up hc, ratCast_up hf]⟩)
         | (obtain ⟨a, b, rfl, hb, rfl⟩ := add_up h
            exact ⟨a, rfl, by rw [ratCast_up hb]⟩)
         | (obtain ⟨a, b, rfl, hb, rfl⟩ := sub_up h
            exact ⟨a, rfl, by rw [ratCast_up hb]⟩))

theorem lookupSym_up {l : List (Sym × Conv (Ranged M))} {l' : List (Sym × Conv M.Num)} (h : EntriesUp l l') {s : Sym}
    {f : Conv (Ranged M)} (hf : lookupSym s l = some f) : ∃ g, lookupSym s l' = some g ∧ ConvUp f g := by
  induction h with
  | nil => cases hf
  | @cons p q l l' hpq _ ih =>
    obtain ⟨p1, p2⟩ := p
    obtain ⟨q1, q2⟩ := q
    obtain ⟨rfl, hc⟩ := hpq
    simp only [lookupSym] at hf ⊢
    split at hf
    · next hs => cases hf; rw [if_pos hs]; exact ⟨_, rfl, hc⟩
    · next hs => rw [if_neg hs]; exact ih hf

theorem lookupTo_up {T : Tables (Ranged M)} {T' : Tables M.Num} (h : TablesUp T T') {c : UCls} {s : Sym}
    {f : Conv (Ranged M)} (hf : lookupTo T c s = .ok f) : ∃ g, lookupTo T' c s = .ok g ∧ ConvUp f g := by
  unfold lookupTo at hf ⊢
  rcases h c with ⟨h1, h2⟩ | ⟨t, t', h1, h2, h3, -⟩
  · simp only [h1, reduceCtorEq] at hf
  · simp only [h1, h2] at hf ⊢
    split at hf
    · cases hf
    next f' hl =>
    cases hf
    obtain ⟨g, e, hg⟩ := lookupSym_up h3 hl
    exact ⟨g, by rw [e], hg⟩

theorem lookupFrom_up {T : Tables (Ranged M)} {T' : Tables M.Num} (h : TablesUp T T') {c : UCls} {s : Sym}
    {f : Conv (Ranged M)} (hf : lookupFrom T c s = .ok f) : ∃ g, lookupFrom T' c s = .ok g ∧ ConvUp f g := by
  unfold lookupFrom at hf ⊢
  rcases h c with ⟨h1, h2⟩ | ⟨t, t', h1, h2, -, h3⟩
  · simp only [h1, reduceCtorEq] at hf
  · simp only [h1, h2] at hf ⊢
    split at hf
    · cases hf
    next f' hl =>
    cases hf
    obtain ⟨g, e, hg⟩ := lookupSym_up h3 hl
    exact ⟨g, by rw [e], hg⟩

theorem applyConv_up {f : PyM (Conv (Ranged M))} {g : PyM (Conv M.Num)}
    (hfg : ∀ f', f = .ok f' → ∃ g', g = .ok g' ∧ ConvUp f' g') {x : Ranged M} {e : ℚ} {r : M.Num}
    (h : applyConv f x e = .ok r.up) : ∃ x' : M.Num, x = x'.up ∧ applyConv g x' e = .ok r := by
  unfold applyConv at h
  split at h
  · cases h
  next f' =>
  split at h
  · cases h
  next y hy =>
  obtain ⟨g', rfl, hg⟩ := hfg f' rfl
  obtain ⟨a, rfl, e'⟩ := pow_up h
  obtain ⟨x', rfl, e''⟩ := hg x a hy
  exact ⟨x', rfl, by simp only [applyConv, e'', e']⟩

theorem UnitV.Held.unique {u : UnitV (Ranged M)} {v w : UnitV M.Num} (hv : u.Held v) (hw : u.Held w) : v = w := by
  obtain ⟨c, x, s, e⟩ := v
  obtain ⟨c', x', s', e'⟩ := w
  obtain ⟨h1, h2, h3, h4⟩ := hv
  obtain ⟨g1, g2, g3, g4⟩ := hw
  simp only at h1 h2 h3 h4 g1 g2 g3 g4
  rw [h1] at g1
  rw [h2] at g2
  rw [h3] at g3
  rw [h4] at g4
  rw [g1, g2, g3, up_injective g4]

theorem convertParsed_up {T : Tables (Ranged M)} {T' : Tables M.Num} (h : TablesUp T T') {u v : UnitV (Ranged M)}
    {w : UnitV M.Num} {tgt ret : Sym} {e : ℚ} (hc : convertParsed T u tgt ret e = .ok v) (hw : v.Held w) :
    ∃ u', u.Held u' ∧ convertParsed T' u' tgt ret e = .ok w := by
  unfold convertParsed at hc
  split at hc
  · next h1 =>
    cases hc
    exact ⟨w, hw, by rw [convertParsed, if_pos (by rw [← hw.2.1]; exact h1)]⟩
  next h1 =>
  split at hc
  · cases hc
  next std hstd =>
  split at hc
  · next h2 =>
    split at hc
    · cases hc
    next y hy =>
    obtain ⟨y', rfl, e1⟩ := mkUnit_up hc hw
    obtain ⟨x, hx, e2⟩ := applyConv_up (fun f' => lookupTo_up h) hy
    refine ⟨_, UnitV.held_of hx, ?_⟩
    simp only [convertParsed, if_neg h1, hstd, if_pos h2, e2, e1]
  next h2 =>
  split at hc
  · next h3 =>
    split at hc
    · cases hc
    next y hy =>
    obtain ⟨y', rfl, e1⟩ := mkUnit_up hc hw
    obtain ⟨x, hx, e2⟩ := applyConv_up (fun f' => lookupFrom_up h) hy
    refine ⟨_, UnitV.held_of hx, ?_⟩
    simp only [convertParsed, if_neg h1, hstd, if_neg h2, if_pos h3, e2, e1]
  next h3 =>
  split at hc
  · cases hc
  · cases hc
  next y hy =>
  split at hc
  · cases hc
  next z hz =>
  obtain ⟨z', rfl, e1⟩ := mkUnit_up hc hw
  obtain ⟨y', rfl, e2⟩ := applyConv_up (fun f' => lookupFrom_up h) hz
  obtain ⟨x, hx, e3⟩ := applyConv_up (fun f' => lookupTo_up h) hy
  refine ⟨_, UnitV.held_of hx, ?_⟩
  simp only [convertParsed, if_neg h1, hstd, if_neg h2, if_neg h3, e3, e2, e1]

theorem convertUnit_up {T : Tables (Ranged M)} {T' : Tables M.Num} (h : TablesUp T T') {u v : UnitV (Ranged M)}
    {w : UnitV M.Num} {target : Sym} (hc : convertUnit T u target = .ok v) (hw : v.Held w) :
    ∃ u', u.Held u' ∧ convertUnit T' u' target = .ok w := by
  unfold convertUnit at hc
  split at hc
  · cases hc
  next tgt ret e hp =>
  obtain ⟨u', hu, e1⟩ := convertParsed_up h hc hw
  exact ⟨u', hu, by simp only [convertUnit, ← hu.2.1, hp, e1]⟩

/-! ## Compound quantities -/

theorem mapPy_up {α β γ : Type} {R : β → γ → Prop} {f : α → PyM β} {g : α → PyM γ} {l : List α}
    (h : ∀ x b, f x = .ok b → ∃ c, g x = .ok c ∧ R b c) {bs : List β} (hb : mapPy f l = .ok bs) :
    ∃ cs, mapPy g l = .ok cs ∧ List.Forall₂ R bs cs := by
  induction l generalizing bs with
  | nil => cases hb; exact ⟨[], rfl, .nil⟩
  | cons x l ih =>
    simp only [mapPy] at hb ⊢
    split at hb
    · cases hb
    next y hy =>
    split at hb
    · cases hb
    next ys hys =>
    cases hb
    obtain ⟨c, e1, h1⟩ := h x y hy
    obtain ⟨cs, e2, h2⟩ := ih hys
    exact ⟨c :: cs, by simp only [e1, e2], .cons h1 h2⟩

theorem toUnitObj_up (x : BaseUnit) (u : UnitV (Ranged M)) (h : toUnitObj x = .ok u) :
    ∃ w : UnitV M.Num, toUnitObj x = .ok w ∧ u.Held w := by
  unfold toUnitObj at h ⊢
  split at h
  · cases h
  next c hc =>
  have h1 : u.value = 1 := by
    unfold mkUnit at h
    cases c
    all_goals simp only at h
    all_goals repeat' split at h
    all_goals first | (cases h; rfl) | cases h
  have hu : u.Held ⟨u.cls, 1, u.unit, u.exp⟩ := UnitV.held_of h1
  obtain ⟨x', e1, e2⟩ := mkUnit_up h hu
  have : x' = 1 := up_injective (b := 1) e1.symm
  rw [this] at e2
  exact ⟨_, e2, hu⟩

theorem baseToUnit_up {t b : UList} {x y : List (UnitV (Ranged M))} (h : baseToUnit t b = .ok (x, y)) :
    ∃ x' y' : List (UnitV M.Num), baseToUnit t b = .ok (x', y') ∧ List.Forall₂ UnitV.Held x x' ∧
      List.Forall₂ UnitV.Held y y' := by
  unfold baseToUnit at h ⊢
  split at h
  · cases h
  next t' ht =>
  split at h
  · cases h
  next b' hb =>
  cases h
  obtain ⟨x', e1, h1⟩ := mapPy_up toUnitObj_up ht
  obtain ⟨y', e2, h2⟩ := mapPy_up toUnitObj_up hb
  exact ⟨x', y', by simp only [e1, e2], h1, h2⟩

theorem convertAndGetFactor_up {T : Tables (Ranged M)} {T' : Tables M.Num} (h : TablesUp T T') {u v : UnitV (Ranged M)}
    {w : UnitV M.Num} (hc : convertAndGetFactor T u = .ok v) (hw : v.Held w) :
    ∃ u', u.Held u' ∧ convertAndGetFactor T' u' = .ok w := by
  unfold convertAndGetFactor at hc
  split at hc
  · next h1 =>
    cases hc
    obtain ⟨c, x, s, e⟩ := w
    obtain ⟨g1, g2, g3, g4⟩ := hw
    simp only at g1 g2 g3 g4
    obtain ⟨a, b, ha, hb, rfl⟩ := mul_up g4
    obtain ⟨o, p, ho, hp, rfl⟩ := mul_up hb
    refine ⟨_, UnitV.held_of ha, ?_⟩
    subst g1 g2 g3
    have ho' : (1 : M.Num) = o := up_injective ho
    simp only [convertAndGetFactor, if_pos h1, ratCast_up hp, ho']
  next h1 =>
  split at hc
  · next h2 =>
    cases hc
    obtain ⟨c, x, s, e⟩ := w
    obtain ⟨g1, g2, g3, g4⟩ := hw
    simp only at g1 g2 g3 g4
    obtain ⟨a, b, ha, hb, rfl⟩ := mul_up g4
    obtain ⟨o, p, ho, hp, rfl⟩ := mul_up hb
    refine ⟨_, UnitV.held_of ha, ?_⟩
    subst g1 g2 g3
    simp only [convertAndGetFactor, if_neg h1, if_pos h2, ratCast_up hp, ratCast_up ho]
  next h2 =>
  split at hc
  · cases hc
  next std hstd =>
  split at hc
  · next h3 =>
    obtain ⟨u', hu, e⟩ := convertUnit_up h hc hw
    refine ⟨u', hu, ?_⟩
    obtain ⟨g1, g2, g3, -⟩ := hu
    rw [g2] at h1 h2
    rw [g3] at h3
    rw [g1] at hstd
    simp only [convertAndGetFactor, if_neg h1, if_neg h2, hstd, if_pos h3, e]
  · next h3 =>
    split at hc
    · cases hc
    next tgt ret e hp =>
    obtain ⟨u', hu, e⟩ := convertParsed_up h hc hw
    refine ⟨u', hu, ?_⟩
    obtain ⟨g1, g2, g3, -⟩ := hu
    rw [g2] at h1 h2
    rw [g3] at h3
    rw [g2, g3] at hp
    rw [g1] at hstd
    simp only [convertAndGetFactor, if_neg h1, if_neg h2, hstd, if_neg h3, hp, e]

theorem factorTop_up {T : Tables (Ranged M)} {T' : Tables M.Num} (h : TablesUp T T') {us : List (UnitV (Ranged M))}
    {us' : List (UnitV M.Num)} (hus : List.Forall₂ UnitV.Held us us') {f : Ranged M} {r : M.Num} {l : UList}
    (hf : factorTop T f us = .ok (r.up, l)) : ∃ s : M.Num, f = s.up ∧ factorTop T' s us' = .ok (r, l) := by
  induction hus generalizing f l with
  | nil =>
    simp only [factorTop, Except.ok.injEq, Prod.mk.injEq] at hf
    exact ⟨r, hf.1, by rw [← hf.2]; rfl⟩
  | @cons u u' us us' hu _ ih =>
    simp only [factorTop] at hf
    split at hf
    · cases hf
    next v hv =>
    split at hf
    · cases hf
    next f' l' hr =>
    simp only [Except.ok.injEq, Prod.mk.injEq] at hf
    obtain ⟨rfl, rfl⟩ := hf
    obtain ⟨s, hs, e⟩ := ih hr
    obtain ⟨a, b, rfl, hb, rfl⟩ := mul_up hs
    obtain ⟨u'', hu'', e'⟩ := convertAndGetFactor_up h hv (UnitV.held_of hb)
    rw [hu''.unique hu] at e'
    exact ⟨a, rfl, by simp only [factorTop, e', e]⟩

theorem factorBot_up {T : Tables (Ranged M)} {T' : Tables M.Num} (h : TablesUp T T') {us : List (UnitV (Ranged M))}
    {us' : List (UnitV M.Num)} (hus : List.Forall₂ UnitV.Held us us') {f : Ranged M} {r : M.Num} {l : UList}
    (hf : factorBot T f us = .ok (r.up, l)) : ∃ s : M.Num, f = s.up ∧ factorBot T' s us' = .ok (r, l) := by
  induction hus generalizing f l with
  | nil =>
    simp only [factorBot, Except.ok.injEq, Prod.mk.injEq] at hf
    exact ⟨r, hf.1, by rw [← hf.2]; rfl⟩
  | @cons u u' us us' hu _ ih =>
    simp only [factorBot] at hf
    split at hf
    · cases hf
    next v hv =>
    split at hf
    · cases hf
    next q hq =>
    split at hf
    · cases hf
    next f' l' hr =>
    simp only [Except.ok.injEq, Prod.mk.injEq] at hf
    obtain ⟨rfl, rfl⟩ := hf
    obtain ⟨s, hs, e⟩ := ih hr
    obtain ⟨a, b, rfl, rfl, rfl⟩ := mul_up hs
    obtain ⟨o, d, ho, hd, e2⟩ := pyDiv_up hq
    obtain ⟨u'', hu'', e'⟩ := convertAndGetFactor_up h hv (UnitV.held_of hd)
    rw [hu''.unique hu] at e'
    have ho' : (1 : M.Num) = o := up_injective ho
    rw [← ho'] at e2
    exact ⟨a, rfl, by simp only [factorBot, e', e2, e]⟩

theorem classTotal_up (c : UCls) {l : List (UnitV (Ranged M))} {l' : List (UnitV M.Num)} (h : List.Forall₂ UnitV.Held l l') :
    classTotal c l = classTotal c l' := by
  have h1 : mapPy (fun u : UnitV (Ranged M) => getUnitClass u.unit) l = mapPy (fun u : UnitV M.Num => getUnitClass u.unit) l' := by
    induction h with
    | nil => rfl
    | cons hu _ ih => simp only [mapPy, hu.2.1, ih]
  unfold classTotal
  rw [h1]
  split
  · rfl
  next cs hcs =>
  congr 2
  clear h1 hcs
  induction h generalizing cs with
  | nil => simp
  | cons hu _ ih =>
    cases cs with
    | nil => simp
    | cons d ds => simp only [List.zip_cons_cons, List.map_cons, ih, hu.2.2.1]

theorem convertStart_up {top bot : UList} {t b : List (UnitV (Ranged M))} {f : Ranged M}
    (h : convertStart top bot = .ok (t, b, f)) :
    ∃ (t' b' : List (UnitV M.Num)) (f' : M.Num), convertStart top bot = .ok (t', b', f') ∧ List.Forall₂ UnitV.Held t t' ∧
      List.Forall₂ UnitV.Held b b' ∧ ∀ r : M.Num, f = r.up → f' = r := by
  unfold convertStart at h ⊢
  split at h
  · cases h
  next t0 b0 f0 h0 =>
  obtain ⟨f', e0, hf⟩ := deconstructPrefixes_up h0
  simp only [e0]
  split at h
  · cases h
  next t1 b1 h1 =>
  split at h
  · cases h
  next t2 b2 h2 =>
  simp only [Except.ok.injEq, Prod.mk.injEq] at h
  obtain ⟨rfl, rfl, rfl⟩ := h
  obtain ⟨x', y', e2, hx, hy⟩ := baseToUnit_up h2
  simp only [e2]
  exact ⟨x', y', f', rfl, hx, hy, hf⟩

theorem convertFinish_up {T : Tables (Ranged M)} {T' : Tables M.Num} (h : TablesUp T T')
    {t b : List (UnitV (Ranged M))} {f : Ranged M} {t' b' : List (UnitV M.Num)} {f' : M.Num}
    (ht : List.Forall₂ UnitV.Held t t') (hb : List.Forall₂ UnitV.Held b b') (hff : ∀ r : M.Num, f = r.up → f' = r)
    {r : M.Num} {tally : List ℚ} (hc : convertFinish T (t, b, f) = .ok (r.up, tally)) :
    convertFinish T' (t', b', f') = .ok (r, tally) := by
  unfold convertFinish at hc ⊢
  simp only at hc ⊢
  split at hc
  · cases hc
  next f1 t1 h1 =>
  split at hc
  · cases hc
  next f2 b2 h2 =>
  split at hc
  · cases hc
  next t3 b3 h3 =>
  split at hc
  · cases hc
  next t4 b4 h4 =>
  split at hc
  · cases hc
  next ta hta =>
  simp only [Except.ok.injEq, Prod.mk.injEq] at hc
  obtain ⟨rfl, rfl⟩ := hc
  obtain ⟨s, rfl, e2⟩ := factorBot_up h hb h2
  obtain ⟨s', hs', e1⟩ := factorTop_up h ht h1
  obtain ⟨o, p, ho, hp, rfl⟩ := mul_up hs'
  have ho' : (1 : M.Num) = o := up_injective ho
  rw [← ho', ← hff p hp] at e1
  obtain ⟨x', y', e4, hx, hy⟩ := baseToUnit_up h4
  have hd : classDiff t4 b4 = classDiff x' y' := by
    funext c
    simp only [classDiff, classTotal_up c hx, classTotal_up c hy]
  rw [hd] at hta
  simp only [e1, e2, h3, e4, hta]

theorem convertMulti_up {T : Tables (Ranged M)} {T' : Tables M.Num} (h : TablesUp T T') {m v : MultiV (Ranged M)}
    {w : MultiV M.Num} {target : Sym} (hc : convertMulti T m target = .ok v) (hw : v.Held w) :
    ∃ m', m.Held m' ∧ convertMulti T' m' target = .ok w := by
  unfold convertMulti at hc
  split at hc
  · cases hc
  next ct cb hp =>
  split at hc
  · cases hc
  next right hr =>
  split at hc
  · cases hc
  next left hl =>
  split at hc
  · cases hc
  next lf lt hlf =>
  split at hc
  · cases hc
  next rf rt hrf =>
  split at hc
  · cases hc
  next htally =>
  split at hc
  · cases hc
  next q hq =>
  obtain ⟨x, hx, e1⟩ := mkMulti_up hc hw
  obtain ⟨a, q', ha, rfl, rfl⟩ := mul_up hx
  obtain ⟨l', r', rfl, rfl, e2⟩ := pyDiv_up hq
  obtain ⟨t1, b1, f1⟩ := left
  obtain ⟨t2, b2, f2⟩ := right
  obtain ⟨t1', b1', f1', s1, g1, g2, g3⟩ := convertStart_up hl
  obtain ⟨t2', b2', f2', s2, k1, k2, k3⟩ := convertStart_up hr
  have e3 := convertFinish_up h g1 g2 g3 hlf
  have e4 := convertFinish_up h k1 k2 k3 hrf
  refine ⟨_, MultiV.held_of ha, ?_⟩
  simp only [convertMulti, hp, s1, s2, e3, e4, if_neg htally, e2, e1]

theorem callConvert_up (t : Sym) : Up1 (M := M) (callConvert · t) (callConvert · t) := by
  intro a v w h hw
  cases a <;> simp only [callConvert, reduceCtorEq] at h
  case unit u =>
    obtain ⟨x, x', e1, rfl, hx⟩ := wrapUnit_up h hw
    obtain ⟨u', hu, e2⟩ := convertUnit_up stdTables_up e1 hx
    exact ⟨.unit u', hu, by simp only [callConvert, e2]; rfl⟩
  case multi m =>
    split at h
    · cases h
    next x hx =>
    cases h
    cases w <;> simp only [Val.Held] at hw
    obtain ⟨m', hm, e⟩ := convertMulti_up stdTables_up hx hw
    exact ⟨.multi m', hm, by simp only [callConvert, e]⟩

end Verif
