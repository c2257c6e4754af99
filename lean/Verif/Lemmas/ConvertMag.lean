import Verif.Lemmas.ConvertSpec

/-! # Magnitude through the conversion pipeline -/

namespace Verif

/-! ## Entries after stripping -/

theorem stripUnit_cases {u : BaseUnit} {p : Sym} {u' : BaseUnit} (h : stripUnit u = .ok (p, u')) :
    u'.exp = u.exp ∧ ((p = [] ∧ u' = u) ∨ ∃ q ∈ siPrefixes, u.unit = q.1 :: u'.unit) := by
  unfold stripUnit at h
  split at h
  · cases h; exact ⟨rfl, .inl ⟨rfl, rfl⟩⟩
  · split at h
    · cases h
    · rename_i p' s hp
      cases h
      obtain ⟨s0, e⟩ := u
      simp only at *
      match s0, hp with
      | [c], hp => cases hp; exact ⟨trivial, .inl ⟨rfl, rfl⟩⟩
      | c :: d :: cs, hp =>
        simp only [getPrefix] at hp
        split at hp
        · cases hp; exact ⟨trivial, .inl ⟨rfl, rfl⟩⟩
        · rename_i hne
          cases hp
          rw [not_or, not_not] at hne
          refine ⟨trivial, .inr ?_⟩
          have : ∀ c ∈ prefixLetters, ∃ q ∈ siPrefixes, q.1 = c := by decide
          obtain ⟨q, hq, rfl⟩ := this c hne.1
          exact ⟨q, hq, rfl⟩

/-- The stages of `deconstruct_unit_prefixes`. -/
theorem deconstructPrefixes_parts {top bot ts bs : UList} {f : ℝ} (h : deconstructPrefixes top bot = .ok (ts, bs, f)) :
    ∃ ps qs g, mapPy stripUnit top = .ok ps ∧ mapPy stripUnit bot = .ok qs ∧ ts = ps.map (·.2) ∧ bs = qs.map (·.2) ∧
      prefixFactorLoop false (1 : ℝ) ps = .ok g ∧ prefixFactorLoop true g qs = .ok f := by
  unfold deconstructPrefixes at h
  split at h
  · cases h
  · rename_i ps e1
    split at h
    · cases h
    · rename_i qs e2
      split at h
      · cases h
      · rename_i g e3
        split at h
        · cases h
        · rename_i f' e4; cases h; exact ⟨ps, qs, g, e1, e2, rfl, rfl, e3, e4⟩

theorem strip_source {l : UList} {ps : List (Sym × BaseUnit)} (h : mapPy stripUnit l = .ok ps) :
    ∀ u' ∈ ps.map (·.2), ∃ u ∈ l, u.exp = u'.exp ∧ (u.unit = u'.unit ∨ ∃ q ∈ siPrefixes, u.unit = q.1 :: u'.unit) := by
  intro u' hu'
  obtain ⟨⟨p, w⟩, hp, rfl⟩ := List.mem_map.1 hu'
  obtain ⟨u, hu, hs⟩ := forall₂_mem (mapPy_forall₂ h).flip _ hp
  obtain ⟨h1, h2⟩ := stripUnit_cases hs
  refine ⟨u, hu, h1.symm, ?_⟩
  rcases h2 with ⟨-, h2⟩ | h2
  · left; rw [h2]
  · exact .inr h2

theorem prefixes_source {top bot ts bs : UList} {f : ℝ} (h : deconstructPrefixes top bot = .ok (ts, bs, f)) :
    ∀ u' ∈ ts ++ bs, ∃ u ∈ top ++ bot, u.exp = u'.exp ∧
      (u.unit = u'.unit ∨ ∃ q ∈ siPrefixes, u.unit = q.1 :: u'.unit) := by
  obtain ⟨ps, qs, g, e1, e2, rfl, rfl, -, -⟩ := deconstructPrefixes_parts h
  intro u' hu'
  rcases List.mem_append.1 hu' with hu' | hu'
  · obtain ⟨u, hu, h⟩ := strip_source e1 u' hu'; exact ⟨u, by simp [hu], h⟩
  · obtain ⟨u, hu, h⟩ := strip_source e2 u' hu'; exact ⟨u, by simp [hu], h⟩

theorem prefixFactorLoop_ne (inv : Bool) (ps : List (Sym × BaseUnit)) {f g : ℝ} (hf : f ≠ 0)
    (h : prefixFactorLoop inv f ps = .ok g) : g ≠ 0 := by
  induction ps generalizing f with
  | nil => cases h; exact hf
  | cons x ps ih =>
    obtain ⟨p, u⟩ := x
    unfold prefixFactorLoop at h
    split at h
    · exact ih hf h
    · split at h
      · cases h
      · rename_i q hq
        have hq0 : 0 < q := by
          unfold prefixFactor at hq
          repeat' split at hq
          all_goals first | (cases hq; norm_num) | (cases hq)
        have hq' : (0 : ℝ) < (if inv then 1 / (q : ℝ) else (q : ℝ)) := by
          split
          · exact_mod_cast one_div_pos.2 hq0
          · exact_mod_cast hq0
        rw [pow_real_pos hq'] at h
        exact ih (mul_ne_zero hf (Real.rpow_pos_of_pos hq' _).ne') h

/-! ## Factors -/

/-- An entry in a temperature unit, possibly with a prefix letter. -/
def IsTemp (s : Sym) : Prop := ∃ T ∈ [c!"K", c!"C", c!"R", c!"F"], s = T ∨ ∃ p ∈ siPrefixes, s = p.1 :: T

theorem rules_plain : ∀ s t b, DeconRule s t b → ∀ u ∈ t ++ b, u.unit ∉ [c!"K", c!"C", c!"R", c!"F"] ∧
    u.unit ≠ c!"psi" ∧ Unprefixed u.unit := by
  intro s t b h
  cases h <;> decide +kernel

/-- Temperature exponents of an analysed side, from those of the source. -/
theorem Stages.temp {top bot : UList} {F : ℝ} {tally : List ℚ} (s : Stages top bot F tally) (Q : ℚ → Prop)
    (h : ∀ u ∈ top ++ bot, IsTemp u.unit → Q u.exp) :
    ∀ u ∈ s.t ++ s.b, u.unit ∈ [c!"K", c!"C", c!"R", c!"F"] → Q u.exp := by
  refine deconstructOnce_all (P := fun u => u.unit ∈ [c!"K", c!"C", c!"R", c!"F"] → Q u.exp) ?_ ?_ s.once
  · intro s t b hr u hu q hT
    exact absurd hT (rules_plain s t b hr u hu).1
  · intro u hu hT
    obtain ⟨v, hv, he, hs⟩ := prefixes_source s.prefixes u hu
    rw [← he]
    refine h v hv ⟨u.unit, hT, ?_⟩
    rcases hs with hs | ⟨q, hq, hs⟩
    · exact .inl hs
    · exact .inr ⟨q, hq, hs⟩

theorem step_ne {x : BaseUnit} {u : UnitV ℝ} (h : Step x u) (hx : x.unit ∈ [c!"K", c!"C", c!"R", c!"F"] → x.exp ≠ 0) :
    u.value ≠ 0 := by
  cases h with
  | kelvin s e hs =>
    have : e ≠ 0 := hx (by rcases hs with rfl | rfl <;> simp)
    simpa using this
  | rankine s e hs =>
    have : e ≠ 0 := hx (by rcases hs with rfl | rfl <;> simp)
    simp [this]
  | std c s e hc hs => simp
  | entry c s std a b e hen hs =>
    have := (entries_facts _ hen).2.2.2.2.2.2.1
    have : (0 : ℝ) < a := by exact_mod_cast this
    exact (Real.rpow_pos_of_pos this _).ne'
  | litre => norm_num
  | acre => norm_num

/-- The factor to standard units is not zero unless a temperature has exponent zero. -/
theorem Stages.factor_ne {top bot : UList} {F : ℝ} {tally : List ℚ} (s : Stages top bot F tally)
    (h : ∀ u ∈ top ++ bot, IsTemp u.unit → u.exp ≠ 0) : F ≠ 0 := by
  have h1 := s.temp (· ≠ 0) h
  have hf : s.f ≠ 0 := by
    obtain ⟨ps, qs, g, -, -, -, -, e3, e4⟩ := deconstructPrefixes_parts s.prefixes
    exact prefixFactorLoop_ne _ _ (prefixFactorLoop_ne _ _ one_ne_zero e3) e4
  rw [s.factor]
  refine div_ne_zero (mul_ne_zero hf ?_) ?_
  · refine List.prod_ne_zero ?_
    intro h0
    obtain ⟨u, hu, h0⟩ := List.mem_map.1 h0
    obtain ⟨x, hx, hs⟩ := forall₂_mem s.tStep.flip u hu
    exact step_ne hs (h1 x (by simp [hx])) h0
  · refine List.prod_ne_zero ?_
    intro h0
    obtain ⟨u, hu, h0⟩ := List.mem_map.1 h0
    exact s.bot_ne u hu h0

/-! ## Size of a side -/

/-- SI sizes as real numbers. -/
noncomputable def siR : Sym → ℝ := fun s => (siSize s : ℝ)

theorem siR_pos (s : Sym) : 0 < siR s := by unfold siR; exact_mod_cast siSize_pos s

theorem siSize_entries : ∀ e ∈ entries, Unprefixed e.2.1 → e.2.1 ≠ c!"psi" → siSize e.2.1 = e.2.2.1 := by decide +kernel

theorem siSize_std : ∀ c ∈ linearClasses ++ [.current, .amount], ∀ s ∈ standardOf c, siSize s = 1 := by decide +kernel

theorem step_size {x : BaseUnit} {u : UnitV ℝ} (h : Step x u)
    (h1 : x.unit ∈ [c!"K", c!"C", c!"R", c!"F"] → x.exp = 1) (h2 : Unprefixed x.unit) (h3 : x.unit ≠ c!"psi") :
    u.value = siR x.unit ^ (x.exp : ℝ) := by
  have hv : ∀ s q, siSize s = q → siR s = (q : ℝ) := fun s q h => by unfold siR; rw [h]
  cases h with
  | kelvin s e hs =>
    have he : e = 1 := h1 (by rcases hs with rfl | rfl <;> simp)
    subst he
    have : siSize s = 1 := by rcases hs with rfl | rfl <;> decide +kernel
    simp [hv _ _ this]
  | rankine s e hs =>
    have he : e = 1 := h1 (by rcases hs with rfl | rfl <;> simp)
    subst he
    have : siSize s = 5 / 9 := by rcases hs with rfl | rfl <;> decide +kernel
    simp [hv _ _ this]
  | std c s e hc hs => simp [hv _ _ (siSize_std c hc s hs)]
  | entry c s std a b e hen hs => simp only; rw [hv _ _ (siSize_entries _ hen h2 h3)]
  | litre =>
    have : siSize c!"L" = 1 / 1000 := by decide +kernel
    simp [hv _ _ this]
  | acre =>
    have : siSize c!"acre" = 4046873 / 1000 := by decide +kernel
    simp [hv _ _ this]

theorem steps_size {l : UList} {U : List (UnitV ℝ)} (h : List.Forall₂ Step l U)
    (hl : ∀ x ∈ l, (x.unit ∈ [c!"K", c!"C", c!"R", c!"F"] → x.exp = 1) ∧ Unprefixed x.unit ∧ x.unit ≠ c!"psi") :
    (U.map (·.value)).prod = lsize siR l := by
  induction h with
  | nil => rfl
  | @cons x u l U hx _ ih =>
    obtain ⟨a, b, c⟩ := hl x (by simp)
    rw [List.map_cons, List.prod_cons, ih fun y hy => hl y (List.mem_cons_of_mem _ hy), step_size hx a b c]
    simp [lsize]

/-! ## psi is deconstructed when it is the only derived unit of its half -/

/-- `psi` does not occur, or is the only entry that gets deconstructed. -/
def PsiOK (l : UList) : Prop := (∀ u ∈ l, u.unit ≠ c!"psi") ∨ (l.countP fun u => decide (u.unit ∈ derivedNames)) ≤ 1

theorem deconPass_nopsi (n : ℕ) (done rem other : UList) (hit : Bool) {a b : UList} {r : Bool}
    (h1 : ∀ u ∈ done, u.unit ≠ c!"psi") (h2 : ∀ u ∈ rem, u.unit ≠ c!"psi")
    (e : deconPass n done rem other hit = .ok (a, b, r)) : ∀ u ∈ a, u.unit ≠ c!"psi" := by
  induction n generalizing done rem other hit with
  | zero =>
    cases rem with
    | nil => simp only [deconPass, Except.ok.injEq, Prod.mk.injEq] at e; obtain ⟨rfl, rfl, -⟩ := e; exact h1
    | cons u rem => simp [deconPass] at e
  | succ n ih =>
    cases rem with
    | nil => simp only [deconPass, Except.ok.injEq, Prod.mk.injEq] at e; obtain ⟨rfl, rfl, -⟩ := e; exact h1
    | cons u rem =>
      rcases deconDef_cases u with ⟨t, b', hr, ed⟩ | ⟨ed, -⟩
      · simp only [deconPass, ed] at e
        have hrest : ∀ v ∈ rem ++ t.map (·.pow u.exp), v.unit ≠ c!"psi" := by
          intro v hv
          rcases List.mem_append.1 hv with hv | hv
          · exact h2 v (List.mem_cons_of_mem _ hv)
          · obtain ⟨x, hx, rfl⟩ := List.mem_map.1 hv
            exact (rules_plain _ _ _ hr x (by simp [hx])).2.1
        refine ih _ _ _ _ ?_ (fun v hv => hrest v (List.mem_of_mem_drop hv)) e
        intro v hv
        rcases List.mem_append.1 hv with hv | hv
        · exact h1 v hv
        · exact hrest v (List.mem_of_mem_take hv)
      · simp only [deconPass, ed] at e
        refine ih _ _ _ _ ?_ (fun v hv => h2 v (List.mem_cons_of_mem _ hv)) e
        intro v hv
        rcases List.mem_append.1 hv with hv | hv
        · exact h1 v hv
        · simp only [List.mem_singleton] at hv; subst hv; exact h2 _ (by simp)

theorem deconPass_psi (n : ℕ) (done rem other : UList) (hit : Bool) {a b : UList} {r : Bool}
    (h1 : ∀ u ∈ done, u.unit ≠ c!"psi") (h2 : PsiOK rem) (e : deconPass n done rem other hit = .ok (a, b, r)) :
    ∀ u ∈ a, u.unit ≠ c!"psi" := by
  rcases h2 with h2 | h2
  · exact deconPass_nopsi n done rem other hit h1 h2 e
  induction n generalizing done rem other hit with
  | zero =>
    cases rem with
    | nil => simp only [deconPass, Except.ok.injEq, Prod.mk.injEq] at e; obtain ⟨rfl, rfl, -⟩ := e; exact h1
    | cons u rem => simp [deconPass] at e
  | succ n ih =>
    cases rem with
    | nil => simp only [deconPass, Except.ok.injEq, Prod.mk.injEq] at e; obtain ⟨rfl, rfl, -⟩ := e; exact h1
    | cons u rem =>
      rcases deconDef_cases u with ⟨t, b', hr, ed⟩ | ⟨ed, hnd⟩
      · simp only [deconPass, ed] at e
        have hd := hr.derived
        rw [List.countP_cons_of_pos (by simpa using hd)] at h2
        have h0 : (rem.countP fun u => decide (u.unit ∈ derivedNames)) = 0 := by omega
        rw [List.countP_eq_zero] at h0
        have hrest : ∀ v ∈ rem ++ t.map (·.pow u.exp), v.unit ≠ c!"psi" := by
          intro v hv
          rcases List.mem_append.1 hv with hv | hv
          · intro hp; have := h0 v hv; rw [hp] at this; exact this (by decide)
          · obtain ⟨x, hx, rfl⟩ := List.mem_map.1 hv
            exact (rules_plain _ _ _ hr x (by simp [hx])).2.1
        refine deconPass_nopsi _ _ _ _ _ ?_ (fun v hv => hrest v (List.mem_of_mem_drop hv)) e
        intro v hv
        rcases List.mem_append.1 hv with hv | hv
        · exact h1 v hv
        · exact hrest v (List.mem_of_mem_take hv)
      · simp only [deconPass, ed] at e
        refine ih _ _ _ _ ?_ e (le_trans ?_ h2)
        · intro v hv
          rcases List.mem_append.1 hv with hv | hv
          · exact h1 v hv
          · simp only [List.mem_singleton] at hv; subst hv
            intro hp; exact hnd _ _ (by rw [hp]; exact .psi)
        · rw [List.countP_cons]; omega

/-- What a pass appends to the other list. -/
theorem deconPass_other (n : ℕ) (done rem other : UList) (hit : Bool) {a b : UList} {r : Bool}
    (e : deconPass n done rem other hit = .ok (a, b, r)) :
    ∃ x, b = other ++ x ∧ ∀ u ∈ x, u.unit ∉ derivedNames := by
  induction n generalizing done rem other hit with
  | zero =>
    cases rem with
    | nil => simp only [deconPass, Except.ok.injEq, Prod.mk.injEq] at e; obtain ⟨rfl, rfl, -⟩ := e
             exact ⟨[], by simp, by simp⟩
    | cons u rem => simp [deconPass] at e
  | succ n ih =>
    cases rem with
    | nil => simp only [deconPass, Except.ok.injEq, Prod.mk.injEq] at e; obtain ⟨rfl, rfl, -⟩ := e
             exact ⟨[], by simp, by simp⟩
    | cons u rem =>
      rcases deconDef_cases u with ⟨t, b', hr, ed⟩ | ⟨ed, hnd⟩
      · simp only [deconPass, ed] at e
        obtain ⟨x, h1, h2⟩ := ih _ _ _ _ e
        refine ⟨b'.map (·.pow u.exp) ++ x, by rw [h1, List.append_assoc], ?_⟩
        intro v hv
        rcases List.mem_append.1 hv with hv | hv
        · obtain ⟨y, hy, rfl⟩ := List.mem_map.1 hv
          have : ∀ s t b, DeconRule s t b → ∀ u ∈ b, u.unit ∉ derivedNames := by
            intro s t b h; cases h <;> decide
          exact this _ _ _ hr y hy
        · exact h2 v hv
      · simp only [deconPass, ed] at e
        exact ih _ _ _ _ e

theorem deconstructOnce_psi {top bot t b : UList} (h1 : PsiOK top) (h2 : PsiOK bot)
    (e : deconstructOnce top bot = .ok (t, b)) : ∀ u ∈ t ++ b, u.unit ≠ c!"psi" := by
  unfold deconstructOnce deconRound at e
  split at e
  · cases e
  · rename_i x1 x2 x3 e0
    cases e
    split at e0
    · cases e0
    · rename_i t1 b1 r1 e1
      split at e0
      · cases e0
      · rename_i b2 t2 r2 e2
        cases e0
        have k1 := deconPass_psi _ _ _ _ _ (by simp) h1 e1
        obtain ⟨x, rfl, hx⟩ := deconPass_other _ _ _ _ _ e1
        have h2' : PsiOK (bot ++ x) := by
          rcases h2 with h2 | h2
          · left; intro u hu
            rcases List.mem_append.1 hu with hu | hu
            · exact h2 u hu
            · intro hp; have := hx u hu; rw [hp] at this; exact this (by decide)
          · right
            have h0 : (x.countP fun u => decide (u.unit ∈ derivedNames)) = 0 := by
              rw [List.countP_eq_zero]; intro u hu; simpa using hx u hu
            rw [List.countP_append, h0]; simpa using h2
        have k2 := deconPass_psi _ _ _ _ _ (by simp) h2' e2
        obtain ⟨y, hy1, hy⟩ := deconPass_other _ _ _ _ _ e2
        intro u hu
        rcases List.mem_append.1 hu with hu | hu
        · rw [hy1] at hu
          rcases List.mem_append.1 hu with hu | hu
          · exact k1 u hu
          · intro hp; have := hy u hu; rw [hp] at this; exact this (by decide)
        · exact k2 u hu

/-! ## The factor of a side is its SI size -/

/-- An entry in a unit that gets deconstructed, possibly with a prefix letter. -/
def IsDerived (s : Sym) : Prop := ∃ T ∈ derivedNames, s = T ∨ ∃ p ∈ siPrefixes, s = p.1 :: T

instance (s : Sym) : Decidable (IsDerived s) := by unfold IsDerived; infer_instance
instance (s : Sym) : Decidable (IsTemp s) := by unfold IsTemp; infer_instance

/-- In one half of a unit: `psi` does not occur, or no second unit that gets deconstructed does. -/
def PsiAlone (l : UList) : Prop := (∀ u ∈ l, u.unit ≠ c!"psi") ∨ (l.countP fun u => decide (IsDerived u.unit)) ≤ 1

instance (l : UList) : Decidable (PsiAlone l) := by unfold PsiAlone; infer_instance

theorem psiOK_strip {l : UList} {ps : List (Sym × BaseUnit)} (hw : WellPrefixedList l) (h : mapPy stripUnit l = .ok ps)
    (hp : PsiAlone l) : PsiOK (ps.map (·.2)) := by
  rcases hp with hp | hp
  · left
    intro u' hu' hpsi
    obtain ⟨u, hu, -, hs | ⟨q, hq, hs⟩⟩ := strip_source h u' hu'
    · exact hp u hu (by rw [hs, hpsi])
    · have := hw u hu
      rw [hs, hpsi] at this
      have hno : ∀ q ∈ siPrefixes, ¬ WellPrefixed (q.1 :: c!"psi") := by decide +kernel
      exact hno q hq this
  · right
    refine le_trans ?_ hp
    replace h := mapPy_forall₂ h
    clear hp hw
    induction h with
    | nil => simp
    | @cons x y l r hx _ ih =>
      obtain ⟨p, u'⟩ := y
      rw [List.map_cons, List.countP_cons, List.countP_cons]
      refine Nat.add_le_add ih ?_
      by_cases hd : u'.unit ∈ derivedNames
      · have : IsDerived x.unit := by
          refine ⟨u'.unit, hd, ?_⟩
          obtain ⟨-, ⟨-, h⟩ | h⟩ := stripUnit_cases hx
          · left; rw [h]
          · exact .inr h
        simp only [this, decide_true, if_true]; split <;> omega
      · simp [hd]

/-- The factor to standard units is the SI size of the source. -/
theorem Stages.size {top bot : UList} {F : ℝ} {tally : List ℚ} (s : Stages top bot F tally)
    (hw1 : WellPrefixedList top) (hw2 : WellPrefixedList bot)
    (ht : ∀ u ∈ top ++ bot, IsTemp u.unit → u.exp = 1) (hp1 : PsiAlone top) (hp2 : PsiAlone bot) :
    F = lsize siR top / lsize siR bot := by
  have h1 := s.temp (· = 1) ht
  have hun : ∀ u ∈ s.t ++ s.b, Unprefixed u.unit := by
    refine deconstructOnce_all (P := fun u => Unprefixed u.unit) (fun x t b h u hu q => (rules_plain x t b h u hu).2.2)
      ?_ s.once
    obtain ⟨a1, a2⟩ := deconstructPrefixes_result hw1 hw2 s.prefixes
    intro u hu
    rcases List.mem_append.1 hu with hu | hu
    · exact a1 u hu
    · exact a2 u hu
  have hpsi : ∀ u ∈ s.t ++ s.b, u.unit ≠ c!"psi" := by
    obtain ⟨ps, qs, g, e1, e2, hts, hbs, -, -⟩ := deconstructPrefixes_parts s.prefixes
    refine deconstructOnce_psi ?_ ?_ s.once
    · rw [hts]; exact psiOK_strip hw1 e1 hp1
    · rw [hbs]; exact psiOK_strip hw2 e2 hp2
  obtain ⟨ts', bs', e1, hnet⟩ := deconstructPrefixes_spec hw1 hw2
  have e2 := s.prefixes
  rw [e1] at e2
  simp only [Except.ok.injEq, Prod.mk.injEq] at e2
  obtain ⟨rfl, rfl, hf⟩ := e2
  have hcoh : Coherent siR := siSize_coherent
  have hnet := hnet siR hcoh
  rw [s.factor, steps_size s.tStep fun x hx => ⟨h1 x (by simp [hx]), hun x (by simp [hx]), hpsi x (by simp [hx])⟩,
    steps_size s.bStep fun x hx => ⟨h1 x (by simp [hx]), hun x (by simp [hx]), hpsi x (by simp [hx])⟩, ← hf,
    lsize_eq siR_pos, lsize_eq siR_pos, lsize_eq siR_pos, lsize_eq siR_pos, mul_div_assoc, ← Real.exp_sub, ← Real.exp_sub]
  show _ * Real.exp (net (lw siR) s.t s.b) = Real.exp (net (lw siR) top bot)
  rw [deconstructOnce_net hcoh.laws s.once, ← hnet, Real.exp_add, Real.exp_log]
  exact div_pos (prefixProd_pos _) (prefixProd_pos _)

end Verif
