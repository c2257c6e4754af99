import Verif.Lemmas.Convert

/-! # The conversion pipeline, taken apart -/

namespace Verif

/-- The entry a converted unit leaves in the list. -/
def UnitV.entry (u : UnitV ℝ) : BaseUnit := ⟨u.unit, u.exp⟩

theorem factorTop_ok {f F : ℝ} {t : UList} {T : List (UnitV ℝ)} {l : UList} (ho : List.Forall₂ objOf t T)
    (h : factorTop stdTables f T = .ok (F, l)) :
    ∃ U : List (UnitV ℝ), List.Forall₂ Step t U ∧ (∀ u ∈ t, '^' ∉ u.unit) ∧ F = f * (U.map (·.value)).prod ∧
      l = U.map UnitV.entry := by
  induction ho generalizing f l with
  | nil => simp only [factorTop, Except.ok.injEq, Prod.mk.injEq] at h; obtain ⟨rfl, rfl⟩ := h
           exact ⟨[], .nil, by simp, by simp, rfl⟩
  | @cons x u t T hx ho ih =>
    unfold factorTop at h
    split at h
    · cases h
    · rename_i u' hu
      obtain ⟨hc, hs⟩ := step_of_ok hx hu
      split at h
      · cases h
      · rename_i f' l' hf
        cases h
        obtain ⟨U, h1, h2, h3, h4⟩ := ih hf
        refine ⟨u' :: U, .cons hs h1, ?_, ?_, ?_⟩
        · intro v hv; rcases List.mem_cons.1 hv with rfl | hv
          · exact hc
          · exact h2 v hv
        · rw [h3, List.map_cons, List.prod_cons]; ring
        · rw [h4]; rfl

theorem factorBot_ok {f F : ℝ} {t : UList} {T : List (UnitV ℝ)} {l : UList} (ho : List.Forall₂ objOf t T)
    (h : factorBot stdTables f T = .ok (F, l)) :
    ∃ U : List (UnitV ℝ), List.Forall₂ Step t U ∧ (∀ u ∈ t, '^' ∉ u.unit) ∧ F = f / (U.map (·.value)).prod ∧
      (∀ u ∈ U, u.value ≠ 0) ∧ l = U.map UnitV.entry := by
  induction ho generalizing f l with
  | nil => simp only [factorBot, Except.ok.injEq, Prod.mk.injEq] at h; obtain ⟨rfl, rfl⟩ := h
           exact ⟨[], .nil, by simp, by simp, by simp, rfl⟩
  | @cons x u t T hx ho ih =>
    unfold factorBot at h
    split at h
    · cases h
    · rename_i u' hu
      obtain ⟨hc, hs⟩ := step_of_ok hx hu
      split at h
      · cases h
      · rename_i r hr
        have hr' : u'.value ≠ 0 ∧ r = 1 / u'.value := by
          unfold pyDiv at hr
          split at hr
          · cases hr
          · rename_i h0; cases hr; exact ⟨h0, rfl⟩
        split at h
        · cases h
        · rename_i f' l' hf
          cases h
          obtain ⟨U, h1, h2, h3, h4, h5⟩ := ih hf
          refine ⟨u' :: U, .cons hs h1, ?_, ?_, ?_, ?_⟩
          · intro v hv; rcases List.mem_cons.1 hv with rfl | hv
            · exact hc
            · exact h2 v hv
          · rw [h3, List.map_cons, List.prod_cons, hr'.2]; field_simp
          · intro v hv; rcases List.mem_cons.1 hv with rfl | hv
            · exact hr'.1
            · exact h4 v hv
          · rw [h5]; rfl

/-- Total exponent of a class in a unit list. -/
def tot (c : UCls) (l : UList) : ℚ := (l.map fun u => if getUnitClass u.unit = .ok c then u.exp else 0).sum

theorem classTotal_eq {c : UCls} {t : UList} {T : List (UnitV ℝ)} (ho : List.Forall₂ objOf t T)
    (hc : ∀ u ∈ t, '^' ∉ u.unit) : classTotal c T = .ok (tot c t) := by
  have key : ∃ cs, mapPy (fun u : UnitV ℝ => getUnitClass u.unit) T = .ok cs ∧
      ((cs.zip T).map fun p => if p.1 = c then p.2.exp else 0).sum = tot c t := by
    induction ho with
    | nil => exact ⟨[], rfl, rfl⟩
    | @cons x u t T hx ho ih =>
      obtain ⟨cs, h1, h2⟩ := ih fun v hv => hc v (List.mem_cons_of_mem _ hv)
      obtain ⟨-, hg, hu, -⟩ := hx
      have hu := hu (hc x (by simp))
      have hun : u.unit = x.unit := by rw [hu]
      have hue : u.exp = x.exp := by rw [hu]
      refine ⟨u.cls :: cs, by simp only [mapPy, hun, hg, h1], ?_⟩
      simp only [tot, List.zip_cons_cons, List.map_cons, List.sum_cons] at h2 ⊢
      rw [h2, hg, hue]
      congr 1
      simp only [Except.ok.injEq]
  obtain ⟨cs, h1, h2⟩ := key
  unfold classTotal
  rw [h1]
  simp only [h2]

theorem mapPy_ok_map {α β : Type} {f : α → PyM β} {g : α → β} {l : List α} (h : ∀ x ∈ l, f x = .ok (g x)) :
    mapPy f l = .ok (l.map g) := by
  induction l with
  | nil => rfl
  | cons x l ih =>
    simp only [mapPy, h x (by simp), ih fun y hy => h y (List.mem_cons_of_mem _ hy), List.map_cons]

/-- Stages of the analysis of one side of a conversion. -/
structure Stages (top bot : UList) (F : ℝ) (tally : List ℚ) where
  ts : UList
  bs : UList
  f : ℝ
  prefixes : deconstructPrefixes top bot = .ok (ts, bs, f)
  t : UList
  b : UList
  once : deconstructOnce ts bs = .ok (t, b)
  tU : List (UnitV ℝ)
  bU : List (UnitV ℝ)
  tStep : List.Forall₂ Step t tU
  bStep : List.Forall₂ Step b bU
  registered : ∀ u ∈ t ++ b, '^' ∉ u.unit ∧ ∃ c, (u.unit, c) ∈ registry
  factor : F = f * (tU.map (·.value)).prod / (bU.map (·.value)).prod
  bot_ne : ∀ u ∈ bU, u.value ≠ 0
  t2 : UList
  b2 : UList
  full : deconstructUnits (tU.map UnitV.entry) (bU.map UnitV.entry) = .ok (t2, b2)
  classes : ∀ u ∈ t2 ++ b2, '^' ∉ u.unit ∧ ∃ c, (u.unit, c) ∈ registry ∧ getUnitClass u.unit = .ok c
  tally : tally = allClasses.map fun c => tot c t2 - tot c b2

theorem forall₂_mem {α β : Type} {R : α → β → Prop} {l : List α} {r : List β} (h : List.Forall₂ R l r) :
    ∀ x ∈ l, ∃ y ∈ r, R x y := by
  induction h with
  | nil => simp
  | @cons x y l r hx _ ih =>
    intro z hz
    rcases List.mem_cons.1 hz with rfl | hz
    · exact ⟨y, by simp, hx⟩
    · obtain ⟨w, hw, h⟩ := ih z hz; exact ⟨w, by simp [hw], h⟩

theorem step_nocaret {x : BaseUnit} {u : UnitV ℝ} (h : Step x u) : '^' ∉ u.unit := by
  have hstd : ∀ c s, standardOf c = some s → c ≠ .volume → c ≠ .area → '^' ∉ s := by
    intro c s h h1 h2
    cases c <;> simp only [standardOf, Option.some.injEq, reduceCtorEq] at h <;>
      first | (exact absurd rfl h1) | (exact absurd rfl h2) | (subst h; decide)
  cases h with
  | kelvin s e hs => rcases hs with rfl | rfl <;> simp
  | rankine s e hs => rcases hs with rfl | rfl <;> simp
  | std c s e hc hs => exact hstd c s hs (by rintro rfl; revert hc; decide) (by rintro rfl; revert hc; decide)
  | entry c s std a b e hen hs =>
    have hc := (entries_facts _ hen).2.2.1
    exact hstd c std hs (by rintro rfl; simp [linearClasses] at hc) (by rintro rfl; simp [linearClasses] at hc)
  | litre => decide
  | acre => decide

theorem caret_closed : TableClosed (fun s => '^' ∉ s) := by
  unfold TableClosed; decide

theorem stages_of_ok {top bot : UList} {s : List (UnitV ℝ) × List (UnitV ℝ) × ℝ} {F : ℝ} {tally : List ℚ}
    (h1 : convertStart top bot = .ok s) (h2 : convertFinish stdTables s = .ok (F, tally)) :
    Nonempty (Stages top bot F tally) := by
  unfold convertStart at h1
  split at h1
  · cases h1
  · rename_i ts bs f e1
    split at h1
    · cases h1
    · rename_i t b e2
      split at h1
      · cases h1
      · rename_i T B e3
        cases h1
        obtain ⟨oT, oB⟩ := baseToUnit_ok e3
        unfold convertFinish at h2
        split at h2
        · cases h2
        · rename_i f1 lt e4
          split at h2
          · cases h2
          · rename_i f2 lb e5
            obtain ⟨tU, k1, k2, k3, rfl⟩ := factorTop_ok oT e4
            obtain ⟨bU, j1, j2, j3, j4, rfl⟩ := factorBot_ok oB e5
            split at h2
            · cases h2
            · rename_i t2 b2 e6
              split at h2
              · cases h2
              · rename_i T2 B2 e7
                obtain ⟨oT2, oB2⟩ := baseToUnit_ok e7
                have hnc : ∀ u ∈ t2 ++ b2, '^' ∉ u.unit := by
                  have hstep : ∀ (l : UList) (U : List (UnitV ℝ)), List.Forall₂ Step l U →
                      AllSym (fun s => '^' ∉ s) (U.map UnitV.entry) := by
                    intro l U h u hu
                    obtain ⟨v, hv, rfl⟩ := List.mem_map.1 hu
                    obtain ⟨x, -, hx⟩ := forall₂_mem h.flip v hv
                    exact step_nocaret hx
                  obtain ⟨a1, a2⟩ := allSym_deconLoop caret_closed _ (hstep _ _ k1) (hstep _ _ j1) e6
                  intro u hu
                  rcases List.mem_append.1 hu with hu | hu
                  · exact a1 u hu
                  · exact a2 u hu
                have hcls : ∀ u ∈ t2 ++ b2, '^' ∉ u.unit ∧ ∃ c, (u.unit, c) ∈ registry ∧ getUnitClass u.unit = .ok c := by
                  intro u hu
                  refine ⟨hnc u hu, ?_⟩
                  rcases List.mem_append.1 hu with hu | hu
                  · obtain ⟨v, -, hv⟩ := forall₂_mem oT2 u hu; exact ⟨_, hv.1, hv.2.1⟩
                  · obtain ⟨v, -, hv⟩ := forall₂_mem oB2 u hu; exact ⟨_, hv.1, hv.2.1⟩
                have hmap : mapPy (classDiff T2 B2) allClasses = .ok (allClasses.map fun c => tot c t2 - tot c b2) := by
                  apply mapPy_ok_map
                  intro c _
                  simp only [classDiff, classTotal_eq oT2 fun u hu => hnc u (List.mem_append_left _ hu),
                    classTotal_eq oB2 fun u hu => hnc u (List.mem_append_right _ hu)]
                rw [hmap] at h2
                cases h2
                refine ⟨⟨ts, bs, f, e1, t, b, e2, tU, bU, k1, j1, ?_, ?_, j4, t2, b2, e6, hcls, rfl⟩⟩
                · intro u hu
                  rcases List.mem_append.1 hu with hu | hu
                  · obtain ⟨v, -, hv⟩ := forall₂_mem oT u hu; exact ⟨k2 u hu, _, hv.1⟩
                  · obtain ⟨v, -, hv⟩ := forall₂_mem oB u hu; exact ⟨j2 u hu, _, hv.1⟩
                · rw [j3, k3, one_mul]

/-- A conversion in terms of the analysis of its two sides. -/
theorem convertMulti_ok {T : Tables ℝ} {m r : MultiV ℝ} {unit : Sym} (h : convertMulti T m unit = .ok r) :
    ∃ ct cb right left lf rf tally, parseUnits unit = .ok (ct, cb) ∧ convertStart ct cb = .ok right ∧
      convertStart m.top m.bot = .ok left ∧ convertFinish T left = .ok (lf, tally) ∧
      convertFinish T right = .ok (rf, tally) ∧ rf ≠ 0 ∧ mkMulti m.cls (m.value * (lf / rf)) unit = .ok r := by
  unfold convertMulti at h
  split at h
  · cases h
  · rename_i ct cb e1
    split at h
    · cases h
    · rename_i right e2
      split at h
      · cases h
      · rename_i left e3
        split at h
        · cases h
        · rename_i lf lt e4
          split at h
          · cases h
          · rename_i rf rt e5
            split at h
            · cases h
            · rename_i e6
              rw [not_not] at e6
              subst e6
              unfold pyDiv at h
              split at h
              · cases h
              · rename_i q hq
                split at hq
                · cases hq
                · rename_i h0; cases hq; exact ⟨ct, cb, right, left, lf, rf, _, e1, e2, e3, e4, e5, h0, h⟩

theorem convertMulti_eq {T : Tables ℝ} {m : MultiV ℝ} {unit : Sym} {ct cb : UList}
    {right left : List (UnitV ℝ) × List (UnitV ℝ) × ℝ} {lf rf : ℝ} {tally : List ℚ}
    (h1 : parseUnits unit = .ok (ct, cb)) (h2 : convertStart ct cb = .ok right)
    (h3 : convertStart m.top m.bot = .ok left) (h4 : convertFinish T left = .ok (lf, tally))
    (h5 : convertFinish T right = .ok (rf, tally)) (h6 : rf ≠ 0) :
    convertMulti T m unit = mkMulti m.cls (m.value * (lf / rf)) unit := by
  unfold convertMulti
  simp only [h1, h2, h3, h4, h5, ne_eq, not_true, if_false, pyDiv, h6]

end Verif
