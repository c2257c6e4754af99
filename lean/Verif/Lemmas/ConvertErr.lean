import Verif.Lemmas.ConvertMag
import Verif.Spec.Convertible

/-! # The factor of a conversion with temperatures of any exponent -/

namespace Verif

@[simp] theorem tempErrs_nil : tempErrs [] = 1 := rfl
theorem tempErrs_cons (u : BaseUnit) (l : UList) : tempErrs (u :: l) = tempErr u * tempErrs l := by simp [tempErrs]
theorem tempErrs_append (l r : UList) : tempErrs (l ++ r) = tempErrs l * tempErrs r := by simp [tempErrs]

theorem tempErr_congr {u v : BaseUnit} (he : u.exp = v.exp) (h1 : Spelled [c!"K"] u.unit ↔ Spelled [c!"K"] v.unit)
    (h2 : Spelled [c!"R", c!"F"] u.unit ↔ Spelled [c!"R", c!"F"] v.unit) : tempErr u = tempErr v := by
  simp only [tempErr, he, h1, h2]

theorem tempErr_other {u : BaseUnit} (h1 : ¬ Spelled [c!"K"] u.unit) (h2 : ¬ Spelled [c!"R", c!"F"] u.unit) :
    tempErr u = 1 := by simp only [tempErr, h1, h2, if_false]

theorem tempErr_one {u : BaseUnit} (h : u.exp = 1) : tempErr u = 1 := by
  simp only [tempErr, h]; split
  · simp
  · split <;> simp

theorem strip_err {u : BaseUnit} (h : WellPrefixed u.unit) {p : Sym} {v : BaseUnit} (e : stripUnit u = .ok (p, v)) :
    tempErr v = tempErr u := by
  rcases h.cases with h | ⟨q, hq, st, hst, e', hg, hf, hk⟩
  · rw [h.strip] at e; cases e; rfl
  · simp only [stripUnit, hk, if_false, hg] at e; cases e
    have hK : ∀ q ∈ siPrefixes, ∀ st ∈ prefixStems, (Spelled [c!"K"] st ↔ Spelled [c!"K"] (q.1 :: st)) ∧
        (Spelled [c!"R", c!"F"] st ↔ Spelled [c!"R", c!"F"] (q.1 :: st)) := by decide +kernel
    refine tempErr_congr rfl ?_ ?_
    · rw [e']; exact (hK q hq st hst).1
    · rw [e']; exact (hK q hq st hst).2

theorem strip_list_err {l : UList} (hw : WellPrefixedList l) {ps : List (Sym × BaseUnit)} (h : mapPy stripUnit l = .ok ps) :
    tempErrs (ps.map (·.2)) = tempErrs l := by
  replace h := mapPy_forall₂ h
  induction h with
  | nil => rfl
  | @cons x y l r hx _ ih =>
    obtain ⟨p, u'⟩ := y
    rw [List.map_cons, tempErrs_cons, tempErrs_cons, ih fun u hu => hw u (List.mem_cons_of_mem _ hu),
      strip_err (hw x (by simp)) hx]

theorem rules_err : ∀ s t b, DeconRule s t b → (¬ Spelled [c!"K"] s ∧ ¬ Spelled [c!"R", c!"F"] s) ∧
    ∀ u ∈ t ++ b, ¬ Spelled [c!"K"] u.unit ∧ ¬ Spelled [c!"R", c!"F"] u.unit := by
  intro s t b h
  cases h <;> decide +kernel

theorem rule_err {s : Sym} {t b : UList} (h : DeconRule s t b) (q : ℚ) :
    tempErrs (t.map (·.pow q)) = 1 ∧ tempErrs (b.map (·.pow q)) = 1 := by
  have key : ∀ l : UList, (∀ u ∈ l, ¬ Spelled [c!"K"] u.unit ∧ ¬ Spelled [c!"R", c!"F"] u.unit) →
      tempErrs (l.map (·.pow q)) = 1 := by
    intro l hl
    induction l with
    | nil => rfl
    | cons u l ih =>
      rw [List.map_cons, tempErrs_cons, ih fun v hv => hl v (List.mem_cons_of_mem _ hv), mul_one]
      exact tempErr_other (hl u (by simp)).1 (hl u (by simp)).2
  exact ⟨key t fun u hu => (rules_err s t b h).2 u (by simp [hu]), key b fun u hu => (rules_err s t b h).2 u (by simp [hu])⟩

theorem deconPass_err (n : ℕ) (done rem other : UList) (hit : Bool) {a b : UList} {r : Bool}
    (e : deconPass n done rem other hit = .ok (a, b, r)) :
    tempErrs a = tempErrs done * tempErrs rem ∧ tempErrs b = tempErrs other := by
  induction n generalizing done rem other hit with
  | zero =>
    cases rem with
    | nil => simp only [deconPass, Except.ok.injEq, Prod.mk.injEq] at e; obtain ⟨rfl, rfl, -⟩ := e; simp
    | cons u rem => simp [deconPass] at e
  | succ n ih =>
    cases rem with
    | nil => simp only [deconPass, Except.ok.injEq, Prod.mk.injEq] at e; obtain ⟨rfl, rfl, -⟩ := e; simp
    | cons u rem =>
      rcases deconDef_cases u with ⟨t, b', hr, ed⟩ | ⟨ed, -⟩
      · simp only [deconPass, ed] at e
        obtain ⟨k1, k2⟩ := ih _ _ _ _ e
        obtain ⟨h1, h2⟩ := rule_err hr u.exp
        have hu : tempErr u = 1 := tempErr_other (rules_err _ _ _ hr).1.1 (rules_err _ _ _ hr).1.2
        refine ⟨?_, by rw [k2, tempErrs_append, h2, mul_one]⟩
        rw [k1, tempErrs_append, mul_assoc, ← tempErrs_append, List.take_append_drop, tempErrs_append, h1, tempErrs_cons, hu]
        ring
      · simp only [deconPass, ed] at e
        obtain ⟨k1, k2⟩ := ih _ _ _ _ e
        refine ⟨?_, k2⟩
        rw [k1, tempErrs_append, tempErrs_cons, tempErrs_cons, tempErrs_nil]
        ring

theorem deconstructOnce_err {top bot t b : UList} (e : deconstructOnce top bot = .ok (t, b)) :
    tempErrs t = tempErrs top ∧ tempErrs b = tempErrs bot := by
  unfold deconstructOnce deconRound at e
  split at e
  · cases e
  · rename_i x1 x2 x3 e0
    cases e
    split at e0
    · cases e0
    · rename_i t1 b1 r1 e1
      split at e0
      · cases e0
      · rename_i b2 t2 r2 e2
        cases e0
        obtain ⟨k1, k2⟩ := deconPass_err _ _ _ _ _ e1
        obtain ⟨k3, k4⟩ := deconPass_err _ _ _ _ _ e2
        rw [k4, k3, k1, k2]; simp

theorem spelled_entries : ∀ e ∈ entries, ¬ Spelled [c!"K"] e.2.1 ∧ ¬ Spelled [c!"R", c!"F"] e.2.1 := by decide +kernel

theorem spelled_std : ∀ c ∈ linearClasses ++ [.current, .amount], ∀ s ∈ standardOf c,
    ¬ Spelled [c!"K"] s ∧ ¬ Spelled [c!"R", c!"F"] s := by decide +kernel

theorem step_err {x : BaseUnit} {u : UnitV ℝ} (h : Step x u)
    (h1 : x.unit = c!"C" → x.exp = 1) (h2 : Unprefixed x.unit) (h3 : x.unit ≠ c!"psi") :
    u.value = siR x.unit ^ (x.exp : ℝ) * tempErr x := by
  have easy : (x.unit ∈ [c!"K", c!"C", c!"R", c!"F"] → x.exp = 1) → u.value = siR x.unit ^ (x.exp : ℝ) * tempErr x := by
    intro ht
    rw [step_size h ht h2 h3]
    by_cases hx : x.unit ∈ [c!"K", c!"C", c!"R", c!"F"]
    · rw [tempErr_one (ht hx), mul_one]
    · rw [tempErr_other, mul_one]
      · rintro ⟨T, hT, hs⟩
        simp only [List.mem_singleton] at hT
        subst hT
        rcases hs with hs | ⟨p, hp, hs⟩
        · rw [hs] at hx; exact hx (by decide)
        · rw [hs] at h2
          have : ∀ p ∈ siPrefixes, ¬ Unprefixed (p.1 :: c!"K") := by decide +kernel
          exact this p hp h2
      · rintro ⟨T, hT, hs⟩
        have hT' : T ∈ [c!"K", c!"C", c!"R", c!"F"] := by
          have : ∀ T ∈ [c!"R", c!"F"], T ∈ [c!"K", c!"C", c!"R", c!"F"] := by decide
          exact this T hT
        rcases hs with hs | ⟨p, hp, hs⟩
        · rw [hs] at hx; exact hx hT'
        · rw [hs] at h2
          have : ∀ p ∈ siPrefixes, ∀ T ∈ [c!"R", c!"F"], ¬ Unprefixed (p.1 :: T) := by decide +kernel
          exact this p hp T hT h2
  have hv : ∀ s q, siSize s = q → siR s = (q : ℝ) := fun s q h => by unfold siR; rw [h]
  cases h with
  | kelvin s e hs =>
    rcases hs with rfl | rfl
    · have : siSize c!"K" = 1 := by decide +kernel
      have hK : Spelled [c!"K"] c!"K" := by decide +kernel
      simp only [tempErr, hK, if_true, hv _ _ this]
      simp
    · exact easy fun _ => h1 rfl
  | rankine s e hs =>
    have : siSize s = 5 / 9 := by rcases hs with rfl | rfl <;> decide +kernel
    have hK : ¬ Spelled [c!"K"] s := by rcases hs with rfl | rfl <;> decide +kernel
    have hR : Spelled [c!"R", c!"F"] s := by rcases hs with rfl | rfl <;> decide +kernel
    simp only [tempErr, hK, hR, if_true, if_false, hv _ _ this]
    have h9 : (0 : ℝ) < 5 / 9 := by norm_num
    have : ((5 / 9 : ℚ) : ℝ) = 5 / 9 := by norm_num
    rw [this, mul_left_comm, ← Real.rpow_add h9]
    norm_num
    ring
  | std c s e hc hs => exact easy fun h => absurd h (by
      have : ∀ c ∈ linearClasses ++ [.current, .amount], ∀ s ∈ standardOf c, s ∉ [c!"K", c!"C", c!"R", c!"F"] := by
        decide +kernel
      exact this c hc s hs)
  | entry c s std a b e hen hs => exact easy fun h => absurd h (by
      have : ∀ e ∈ entries, e.2.1 ∉ [c!"K", c!"C", c!"R", c!"F"] := by decide +kernel
      exact this _ hen)
  | litre => exact easy fun h => absurd h (by decide)
  | acre => exact easy fun h => absurd h (by decide)

theorem steps_err {l : UList} {U : List (UnitV ℝ)} (h : List.Forall₂ Step l U)
    (hl : ∀ x ∈ l, (x.unit = c!"C" → x.exp = 1) ∧ Unprefixed x.unit ∧ x.unit ≠ c!"psi") :
    (U.map (·.value)).prod = lsize siR l * tempErrs l := by
  induction h with
  | nil => simp [lsize]
  | @cons x u l U hx _ ih =>
    obtain ⟨a, b, c⟩ := hl x (by simp)
    rw [List.map_cons, List.prod_cons, ih fun y hy => hl y (List.mem_cons_of_mem _ hy), step_err hx a b c, tempErrs_cons]
    simp only [lsize, List.map_cons, List.prod_cons]
    ring

/-- The factor to standard units, for temperatures of any exponent. -/
theorem Stages.size_err {top bot : UList} {F : ℝ} {tally : List ℚ} (s : Stages top bot F tally)
    (hw1 : WellPrefixedList top) (hw2 : WellPrefixedList bot)
    (ht : ∀ u ∈ top ++ bot, Spelled [c!"C"] u.unit → u.exp = 1) (hp1 : PsiAlone top) (hp2 : PsiAlone bot) :
    F = lsize siR top / lsize siR bot * (tempErrs top / tempErrs bot) := by
  have h1 : ∀ u ∈ s.t ++ s.b, u.unit = c!"C" → u.exp = 1 := by
    refine deconstructOnce_all (P := fun u => u.unit = c!"C" → u.exp = 1) ?_ ?_ s.once
    · intro s t b hr u hu q hT
      exact absurd (show u.unit ∈ [c!"K", c!"C", c!"R", c!"F"] by
        have : u.unit = c!"C" := hT
        rw [this]; decide) (rules_plain s t b hr u hu).1
    · intro u hu hT
      obtain ⟨v, hv, he, hs⟩ := prefixes_source s.prefixes u hu
      rw [← he]
      refine ht v hv ⟨u.unit, by rw [hT]; decide, ?_⟩
      rcases hs with hs | ⟨q, hq, hs⟩
      · exact .inl hs
      · exact .inr ⟨q, hq, hs⟩
  have hun : ∀ u ∈ s.t ++ s.b, Unprefixed u.unit := by
    refine deconstructOnce_all (P := fun u => Unprefixed u.unit) (fun x t b h u hu q => (rules_plain x t b h u hu).2.2)
      ?_ s.once
    obtain ⟨a1, a2⟩ := deconstructPrefixes_result hw1 hw2 s.prefixes
    intro u hu
    rcases List.mem_append.1 hu with hu | hu
    · exact a1 u hu
    · exact a2 u hu
  obtain ⟨ps, qs, g, p1, p2, hts, hbs, -, -⟩ := deconstructPrefixes_parts s.prefixes
  have hpsi : ∀ u ∈ s.t ++ s.b, u.unit ≠ c!"psi" := by
    refine deconstructOnce_psi ?_ ?_ s.once
    · rw [hts]; exact psiOK_strip hw1 p1 hp1
    · rw [hbs]; exact psiOK_strip hw2 p2 hp2
  obtain ⟨k1, k2⟩ := deconstructOnce_err s.once
  obtain ⟨ts', bs', e1, hnet⟩ := deconstructPrefixes_spec hw1 hw2
  have e2 := s.prefixes
  rw [e1] at e2
  simp only [Except.ok.injEq, Prod.mk.injEq] at e2
  obtain ⟨rfl, rfl, hf⟩ := e2
  have hcoh : Coherent siR := siSize_coherent
  have hnet := hnet siR hcoh
  have hsz : s.f * (lsize siR s.t / lsize siR s.b) = lsize siR top / lsize siR bot := by
    rw [← hf, lsize_eq siR_pos, lsize_eq siR_pos, lsize_eq siR_pos, lsize_eq siR_pos, ← Real.exp_sub, ← Real.exp_sub]
    show _ * Real.exp (net (lw siR) s.t s.b) = Real.exp (net (lw siR) top bot)
    rw [deconstructOnce_net hcoh.laws s.once, ← hnet, Real.exp_add, Real.exp_log]
    exact div_pos (prefixProd_pos _) (prefixProd_pos _)
  rw [s.factor, steps_err s.tStep fun x hx => ⟨h1 x (by simp [hx]), hun x (by simp [hx]), hpsi x (by simp [hx])⟩,
    steps_err s.bStep fun x hx => ⟨h1 x (by simp [hx]), hun x (by simp [hx]), hpsi x (by simp [hx])⟩, k1, k2, ← hsz,
    hts, hbs, strip_list_err hw1 p1, strip_list_err hw2 p2]
  ring

end Verif
