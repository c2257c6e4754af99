import Verif.Units.Convert
import Verif.Lemmas.Cast
import Verif.Tactic.UnitsEval

/-!
# Conversions with literal units over ℝ

A conversion evaluated over ℚ (which the kernel can do) determines the one over ℝ, for every value.
-/

namespace Verif

/-- The same quantity with a real value. -/
noncomputable def UnitV.cast (u : UnitV ℚ) : UnitV ℝ := ⟨u.cls, (u.value : ℝ), u.unit, u.exp⟩

theorem mkUnit_toReal {c : UCls} {v : ℚ} {s : Sym} {e : ℚ} {u : UnitV ℚ} (h : mkUnit c v s e = .ok u) :
    mkUnit c (v : ℝ) s e = .ok u.cast := by
  rw [mkUnit_param] at h ⊢
  cases h' : mkUnit c (0 : ℚ) s e with
  | error => rw [h'] at h; cases h
  | ok w => rw [h'] at h; cases h; rfl

/-- Two table entries that agree on the rationals. -/
def SameEntry (p : Sym × Conv ℚ) (q : Sym × Conv ℝ) : Prop :=
  p.1 = q.1 ∧ ∀ x y, p.2 x = .ok y → q.2 (x : ℝ) = .ok (y : ℝ)

theorem lookupSym_cast {l : List (Sym × Conv ℚ)} {l' : List (Sym × Conv ℝ)} (h : List.Forall₂ SameEntry l l') (s : Sym)
    {f : Conv ℚ} (hf : lookupSym s l = some f) :
    ∃ g, lookupSym s l' = some g ∧ ∀ x y, f x = .ok y → g (x : ℝ) = .ok (y : ℝ) := by
  induction h with
  | nil => cases hf
  | @cons a b l l' hab _ ih =>
    obtain ⟨a, f'⟩ := a
    obtain ⟨b, g'⟩ := b
    obtain ⟨h1, h2⟩ := hab
    simp only at h1
    subst h1
    simp only [lookupSym] at hf ⊢
    split at hf
    · next he =>
      rw [if_pos he]; cases hf
      exact ⟨g', rfl, h2⟩
    · next he =>
      rw [if_neg he]
      exact ih hf

theorem SameEntry.mulBy (s : Sym) (q : ℚ) : SameEntry (s, Verif.mulBy q) (s, Verif.mulBy q) :=
  ⟨rfl, fun x y h => by cases h; simp [Verif.mulBy]⟩
theorem SameEntry.divBy (s : Sym) (q : ℚ) : SameEntry (s, Verif.divBy q) (s, Verif.divBy q) :=
  ⟨rfl, fun x y h => by cases h; simp [Verif.divBy]⟩

theorem stdTables_cast (c : UCls) : match stdTables (K := ℚ) c, stdTables (K := ℝ) c with
    | none, none => True
    | some t, some t' => List.Forall₂ SameEntry t.toStd t'.toStd ∧ List.Forall₂ SameEntry t.fromStd t'.fromStd
    | _, _ => False := by
  cases c <;> simp only [stdTables, temperatureTable, pressureTable, lengthTable, timeTable, energyTable, massTable,
    forceTable, volumeTable, areaTable]
  all_goals first
    | trivial
    | refine ⟨?_, ?_⟩
  all_goals
    repeat' first
      | exact .nil
      | refine .cons ?_ ?_
      | exact SameEntry.mulBy _ _
      | exact SameEntry.divBy _ _
  all_goals refine ⟨rfl, fun x y h => ?_⟩
  all_goals
    first
      | (simp only at h; cases h; simp)
      | cases h
      | (simp only at h
         have ha : (acreRoot : PyM ℚ) = .error .notRepresentable := by decide +kernel
         rw [ha] at h; cases h)

theorem lookupTo_cast {c : UCls} {s : Sym} {f : Conv ℚ} (h : lookupTo stdTables c s = .ok f) :
    ∃ g, lookupTo stdTables c s = .ok g ∧ ∀ x y, f x = .ok y → g (x : ℝ) = .ok (y : ℝ) := by
  have ht := stdTables_cast c
  unfold lookupTo at h ⊢
  cases h1 : stdTables (K := ℚ) c with
  | none => rw [h1] at h; cases h
  | some t => cases h2 : stdTables (K := ℝ) c with
    | none => rw [h1, h2] at ht; exact ht.elim
    | some t' =>
      rw [h1, h2] at ht
      rw [h1] at h
      simp only at h ⊢
      cases h3 : lookupSym s t.toStd with
      | none => rw [h3] at h; cases h
      | some f' =>
        rw [h3] at h; cases h
        obtain ⟨g, hg, hfg⟩ := lookupSym_cast ht.1 s h3
        exact ⟨g, by rw [hg], hfg⟩

theorem lookupFrom_cast {c : UCls} {s : Sym} {f : Conv ℚ} (h : lookupFrom stdTables c s = .ok f) :
    ∃ g, lookupFrom stdTables c s = .ok g ∧ ∀ x y, f x = .ok y → g (x : ℝ) = .ok (y : ℝ) := by
  have ht := stdTables_cast c
  unfold lookupFrom at h ⊢
  cases h1 : stdTables (K := ℚ) c with
  | none => rw [h1] at h; cases h
  | some t => cases h2 : stdTables (K := ℝ) c with
    | none => rw [h1, h2] at ht; exact ht.elim
    | some t' =>
      rw [h1, h2] at ht
      rw [h1] at h
      simp only at h ⊢
      cases h3 : lookupSym s t.fromStd with
      | none => rw [h3] at h; cases h
      | some f' =>
        rw [h3] at h; cases h
        obtain ⟨g, hg, hfg⟩ := lookupSym_cast ht.2 s h3
        exact ⟨g, by rw [hg], hfg⟩

theorem applyConv_cast {f : PyM (Conv ℚ)} {f' : PyM (Conv ℝ)} {x y : ℚ} {e : ℚ}
    (hf : ∀ g, f = .ok g → ∃ g', f' = .ok g' ∧ ∀ x y, g x = .ok y → g' (x : ℝ) = .ok (y : ℝ))
    (h : applyConv f x e = .ok y) : applyConv f' (x : ℝ) e = .ok (y : ℝ) := by
  unfold applyConv at h
  cases f with
  | error => cases h
  | ok g =>
    obtain ⟨g', rfl, hg⟩ := hf g rfl
    simp only at h
    cases h1 : g x with
    | error => rw [h1] at h; cases h
    | ok z =>
      rw [h1] at h
      simp only [applyConv, hg x z h1]
      exact pow_cast h

theorem convertParsed_cast {u r : UnitV ℚ} {tgt ret : Sym} {e : ℚ} (h : convertParsed stdTables u tgt ret e = .ok r) :
    convertParsed stdTables u.cast tgt ret e = .ok r.cast := by
  obtain ⟨uc, uv, us, ue⟩ := u
  change convertParsed stdTables ⟨uc, (uv : ℝ), us, ue⟩ tgt ret e = .ok r.cast
  unfold convertParsed at h ⊢
  simp only at h ⊢
  split at h
  · next h1 => rw [if_pos h1]; cases h; rfl
  · next h1 =>
    rw [if_neg h1]
    cases hs : standardOf uc with
    | none => rw [hs] at h; cases h
    | some std =>
      rw [hs] at h
      simp only at h ⊢
      split at h
      · next h2 =>
        rw [if_pos h2]
        cases ha : applyConv (lookupTo stdTables uc us) uv e with
        | error => rw [ha] at h; cases h
        | ok v =>
          rw [ha] at h
          rw [applyConv_cast (fun g hg => lookupTo_cast hg) ha]
          exact mkUnit_toReal h
      · next h2 =>
        rw [if_neg h2]
        split at h
        · next h3 =>
          rw [if_pos h3]
          cases ha : applyConv (lookupFrom stdTables uc tgt) uv e with
          | error => rw [ha] at h; cases h
          | ok v =>
            rw [ha] at h
            rw [applyConv_cast (fun g hg => lookupFrom_cast hg) ha]
            exact mkUnit_toReal h
        · next h3 =>
          rw [if_neg h3]
          cases ha : applyConv (lookupTo stdTables uc us) uv e with
          | error er => rw [ha] at h; cases er <;> cases h
          | ok v =>
            rw [ha] at h
            rw [applyConv_cast (fun g hg => lookupTo_cast hg) ha]
            simp only at h ⊢
            cases hb : applyConv (lookupFrom stdTables uc tgt) v e with
            | error => rw [hb] at h; cases h
            | ok w =>
              rw [hb] at h
              rw [applyConv_cast (fun g hg => lookupFrom_cast hg) hb]
              exact mkUnit_toReal h

theorem convertUnit_cast {u r : UnitV ℚ} {target : Sym} (h : convertUnit stdTables u target = .ok r) :
    convertUnit stdTables u.cast target = .ok r.cast := by
  unfold convertUnit at h ⊢
  change (match parseTarget u.unit target with
    | .error err => .error err
    | .ok (tgt, ret, e) => convertParsed stdTables u.cast tgt ret e : PyM (UnitV ℝ)) = _
  cases hp : parseTarget u.unit target with
  | error => rw [hp] at h; cases h
  | ok p => rw [hp] at h; exact convertParsed_cast h

theorem convertAndGetFactor_cast {u r : UnitV ℚ} (h : convertAndGetFactor stdTables u = .ok r) :
    convertAndGetFactor stdTables u.cast = .ok r.cast := by
  obtain ⟨uc, uv, us, ue⟩ := u
  change convertAndGetFactor stdTables ⟨uc, (uv : ℝ), us, ue⟩ = .ok r.cast
  unfold convertAndGetFactor at h ⊢
  simp only at h ⊢
  split at h
  · next h1 => rw [if_pos h1]; cases h; simp [UnitV.cast]
  · next h1 =>
    rw [if_neg h1]
    split at h
    · next h2 => rw [if_pos h2]; cases h; simp [UnitV.cast]
    · next h2 =>
      rw [if_neg h2]
      cases hs : standardOf uc with
      | none => rw [hs] at h; cases h
      | some std =>
        rw [hs] at h
        simp only at h ⊢
        split at h
        · next h3 => rw [if_pos h3]; exact convertUnit_cast (u := ⟨uc, uv, us, ue⟩) h
        · next h3 =>
          rw [if_neg h3]
          cases hp : parseStdTarget us std ue with
          | error => rw [hp] at h; cases h
          | ok p => rw [hp] at h; exact convertParsed_cast (u := ⟨uc, uv, us, ue⟩) h

theorem factorTop_cast {l : List (UnitV ℚ)} {f F : ℚ} {t : UList} (h : factorTop stdTables f l = .ok (F, t)) :
    factorTop stdTables (f : ℝ) (l.map UnitV.cast) = .ok ((F : ℝ), t) := by
  induction l generalizing f F t with
  | nil => cases h; rfl
  | cons u l ih =>
    simp only [factorTop, List.map_cons] at h ⊢
    cases h1 : convertAndGetFactor stdTables u with
    | error => rw [h1] at h; cases h
    | ok v =>
      rw [h1] at h
      rw [convertAndGetFactor_cast h1]
      simp only at h ⊢
      cases h2 : factorTop stdTables (f * v.value) l with
      | error => rw [h2] at h; cases h
      | ok p =>
        rw [h2] at h; cases h
        have := ih h2
        push_cast at this
        simp only [UnitV.cast, this]

theorem pyDiv_cast {x y z : ℚ} (h : pyDiv x y = .ok z) : pyDiv (x : ℝ) (y : ℝ) = .ok (z : ℝ) := by
  unfold pyDiv at h ⊢
  split at h
  · cases h
  · next hn =>
    cases h
    rw [if_neg (by exact_mod_cast hn)]
    push_cast; rfl

theorem factorBot_cast {l : List (UnitV ℚ)} {f F : ℚ} {t : UList} (h : factorBot stdTables f l = .ok (F, t)) :
    factorBot stdTables (f : ℝ) (l.map UnitV.cast) = .ok ((F : ℝ), t) := by
  induction l generalizing f F t with
  | nil => cases h; rfl
  | cons u l ih =>
    simp only [factorBot, List.map_cons] at h ⊢
    cases h1 : convertAndGetFactor stdTables u with
    | error => rw [h1] at h; cases h
    | ok v =>
      rw [h1] at h
      rw [convertAndGetFactor_cast h1]
      simp only at h ⊢
      cases h3 : pyDiv 1 v.value with
      | error => rw [h3] at h; cases h
      | ok q =>
        rw [h3] at h
        have h3' := pyDiv_cast h3
        rw [Rat.cast_one] at h3'
        simp only [UnitV.cast, h3'] at h ⊢
        cases h2 : factorBot stdTables (f * q) l with
        | error => rw [h2] at h; cases h
        | ok p =>
          rw [h2] at h; cases h
          have := ih h2
          push_cast at this
          simp only [this]

theorem mapPy_cast {α β γ : Type} {f : α → PyM β} {f' : α → PyM γ} (g : β → γ) (hf : ∀ a b, f a = .ok b → f' a = .ok (g b))
    {l : List α} {r : List β} (h : mapPy f l = .ok r) : mapPy f' l = .ok (r.map g) := by
  induction l generalizing r with
  | nil => cases h; rfl
  | cons a l ih =>
    simp only [mapPy] at h ⊢
    cases h1 : f a with
    | error => rw [h1] at h; cases h
    | ok b =>
      rw [h1] at h
      rw [hf a b h1]
      simp only at h ⊢
      cases h2 : mapPy f l with
      | error => rw [h2] at h; cases h
      | ok bs => rw [h2] at h; cases h; rw [ih h2]; rfl

theorem toUnitObj_cast {x : BaseUnit} {u : UnitV ℚ} (h : toUnitObj x = .ok u) : toUnitObj x = .ok u.cast := by
  unfold toUnitObj at h ⊢
  cases h1 : getUnitClass x.unit with
  | error => rw [h1] at h; cases h
  | ok c =>
    rw [h1] at h
    have := mkUnit_toReal h
    rw [Rat.cast_one] at this
    exact this

theorem baseToUnit_cast {top bot : UList} {t b : List (UnitV ℚ)} (h : baseToUnit top bot = .ok (t, b)) :
    baseToUnit top bot = .ok (t.map UnitV.cast, b.map UnitV.cast) := by
  unfold baseToUnit at h ⊢
  cases h1 : mapPy (toUnitObj (K := ℚ)) top with
  | error => rw [h1] at h; cases h
  | ok t' =>
    rw [h1] at h
    simp only at h
    cases h2 : mapPy (toUnitObj (K := ℚ)) bot with
    | error => rw [h2] at h; cases h
    | ok b' =>
      rw [h2] at h; cases h
      rw [mapPy_cast UnitV.cast (fun _ _ => toUnitObj_cast) h1, mapPy_cast UnitV.cast (fun _ _ => toUnitObj_cast) h2]

theorem convertStart_cast {top bot : UList} {t b : List (UnitV ℚ)} {f : ℚ} (h : convertStart top bot = .ok (t, b, f)) :
    convertStart top bot = .ok (t.map UnitV.cast, b.map UnitV.cast, (f : ℝ)) := by
  unfold convertStart at h ⊢
  cases h1 : deconstructPrefixes (K := ℚ) top bot with
  | error => rw [h1] at h; cases h
  | ok p =>
    obtain ⟨t1, b1, f1⟩ := p
    rw [h1] at h
    rw [deconstructPrefixes_cast h1]
    simp only at h ⊢
    cases h2 : deconstructOnce t1 b1 with
    | error => rw [h2] at h; cases h
    | ok p =>
      rw [h2] at h
      simp only at h ⊢
      cases h3 : baseToUnit (K := ℚ) p.1 p.2 with
      | error => rw [h3] at h; cases h
      | ok p => rw [h3] at h; cases h; rw [baseToUnit_cast h3]

theorem classTotal_cast (c : UCls) (l : List (UnitV ℚ)) : classTotal c (l.map UnitV.cast) = classTotal c l := by
  have : mapPy (fun u : UnitV ℝ => getUnitClass u.unit) (l.map UnitV.cast) =
      mapPy (fun u : UnitV ℚ => getUnitClass u.unit) l := by
    induction l with
    | nil => rfl
    | cons a l ih => simp only [List.map_cons, mapPy, ih]; rfl
  simp only [classTotal, this]
  cases mapPy (fun u : UnitV ℚ => getUnitClass u.unit) l with
  | error => rfl
  | ok cs =>
    simp only [List.zip_map_right, List.map_map]
    rfl

theorem convertFinish_cast {t b : List (UnitV ℚ)} {f F : ℚ} {y : List ℚ} (h : convertFinish stdTables (t, b, f) = .ok (F, y)) :
    convertFinish stdTables (t.map UnitV.cast, b.map UnitV.cast, (f : ℝ)) = .ok ((F : ℝ), y) := by
  unfold convertFinish at h ⊢
  simp only at h ⊢
  cases h1 : factorTop stdTables (1 * f) t with
  | error => rw [h1] at h; cases h
  | ok p =>
    rw [h1] at h
    have h1' := factorTop_cast h1
    push_cast at h1'
    rw [h1']
    simp only at h ⊢
    cases h2 : factorBot stdTables p.1 b with
    | error => rw [h2] at h; cases h
    | ok q =>
      rw [h2] at h
      rw [factorBot_cast h2]
      simp only at h ⊢
      cases h3 : deconstructUnits p.2 q.2 with
      | error => rw [h3] at h; cases h
      | ok d =>
        rw [h3] at h
        simp only at h ⊢
        cases h4 : baseToUnit (K := ℚ) d.1 d.2 with
        | error => rw [h4] at h; cases h
        | ok w =>
          obtain ⟨w1, w2⟩ := w
          rw [h4] at h
          rw [baseToUnit_cast h4]
          simp only at h ⊢
          have : classDiff (w1.map UnitV.cast) (w2.map UnitV.cast) = classDiff w1 w2 := by
            funext c
            simp only [classDiff, classTotal_cast]
          rw [this]
          cases h5 : mapPy (classDiff w1 w2) allClasses with
          | error => rw [h5] at h; cases h
          | ok l => rw [h5] at h; cases h; rfl

/-- A conversion of the unit value evaluated over ℚ gives the conversion of every real value. -/
theorem convertMulti_cast {cls : MCls} {top bot t b : UList} {unit : Sym} {q : ℚ}
    (h : convertMulti (K := ℚ) stdTables ⟨cls, 1, top, bot⟩ unit = .ok ⟨cls, q, t, b⟩) (v : ℝ) :
    convertMulti stdTables ⟨cls, v, top, bot⟩ unit = .ok ⟨cls, v * (q : ℝ), t, b⟩ := by
  unfold convertMulti at h ⊢
  simp only at h ⊢
  cases h1 : parseUnits unit with
  | error => rw [h1] at h; cases h
  | ok p =>
    rw [h1] at h
    simp only at h ⊢
    cases h2 : convertStart (K := ℚ) p.1 p.2 with
    | error => rw [h2] at h; cases h
    | ok r =>
      obtain ⟨r1, r2, r3⟩ := r
      rw [h2] at h
      rw [convertStart_cast h2]
      simp only at h ⊢
      cases h3 : convertStart (K := ℚ) top bot with
      | error => rw [h3] at h; cases h
      | ok l =>
        obtain ⟨l1, l2, l3⟩ := l
        rw [h3] at h
        rw [convertStart_cast h3]
        simp only at h ⊢
        cases h4 : convertFinish stdTables (l1, l2, l3) with
        | error => rw [h4] at h; cases h
        | ok lf =>
          obtain ⟨lf, lt⟩ := lf
          rw [h4] at h
          rw [convertFinish_cast h4]
          simp only at h ⊢
          cases h5 : convertFinish stdTables (r1, r2, r3) with
          | error => rw [h5] at h; cases h
          | ok rf =>
            obtain ⟨rf, rt⟩ := rf
            rw [h5] at h
            rw [convertFinish_cast h5]
            simp only at h ⊢
            split at h
            · cases h
            · next h6 =>
              rw [if_neg h6]
              cases h7 : pyDiv lf rf with
              | error => rw [h7] at h; cases h
              | ok x =>
                rw [h7] at h
                rw [pyDiv_cast h7]
                simp only [mkMulti] at h ⊢
                split at h
                · next h8 => rw [if_pos h8]; cases h; simp
                · next h8 =>
                  rw [if_neg h8]
                  rw [h1] at h ⊢
                  cases h; simp

end Verif
