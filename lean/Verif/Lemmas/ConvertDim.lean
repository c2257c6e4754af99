import Verif.Lemmas.ConvertSpec

/-! # Dimension through the conversion pipeline -/

namespace Verif

/-- Dimension of a class. -/
def clsDim : UCls → Dim
  | .unit => 0
  | .length => (1, 0, 0, 0, 0, 0)
  | .mass => (0, 1, 0, 0, 0, 0)
  | .time => (0, 0, 1, 0, 0, 0)
  | .temperature => (0, 0, 0, 1, 0, 0)
  | .current => (0, 0, 0, 0, 1, 0)
  | .amount => (0, 0, 0, 0, 0, 1)
  | .force => (1, 1, -2, 0, 0, 0)
  | .energy => (2, 1, -2, 0, 0, 0)
  | .pressure => (-1, 1, -2, 0, 0, 0)
  | .volume => (3, 0, 0, 0, 0, 0)
  | .area => (2, 0, 0, 0, 0, 0)

theorem dimOf_registry : ∀ p ∈ registry, '^' ∉ p.1 → p.1 ≠ c!"C" → dimOf p.1 = clsDim p.2 := by decide +kernel

theorem dimOf_entries : ∀ e ∈ entries, ∀ std, standardOf e.1 = some std → dimOf e.2.1 = dimOf std := by
  have : ∀ e ∈ entries, ∀ std ∈ standardOf e.1, dimOf e.2.1 = dimOf std := by decide +kernel
  exact this

theorem dimOf_prefix : ∀ c ∈ prefixLetters, ∀ s ∈ registry.map (·.1) ++ derivedNames, '^' ∉ s →
    c :: s ∉ prefixExceptions → c :: s ≠ c!"kg" → dimOf (c :: s) = dimOf s := by decide +kernel

theorem dimOf_laws : DerivedLaws dimOf := by
  have h : ∀ s d, dimOf s = d → dimOf s = d := fun _ _ h => h
  constructor <;>
  · simp only [h c!"Pa" (-1, 1, -2, 0, 0, 0) (by decide +kernel), h c!"kg" (0, 1, 0, 0, 0, 0) (by decide +kernel),
      h c!"m" (1, 0, 0, 0, 0, 0) (by decide +kernel), h c!"s" (0, 0, 1, 0, 0, 0) (by decide +kernel),
      h c!"J" (2, 1, -2, 0, 0, 0) (by decide +kernel), h c!"W" (2, 1, -3, 0, 0, 0) (by decide +kernel),
      h c!"psi" (-1, 1, -2, 0, 0, 0) (by decide +kernel), h c!"lbf" (1, 1, -2, 0, 0, 0) (by decide +kernel),
      h c!"in" (1, 0, 0, 0, 0, 0) (by decide +kernel), h c!"cP" (-1, 1, -1, 0, 0, 0) (by decide +kernel),
      h c!"g" (0, 1, 0, 0, 0, 0) (by decide +kernel), h c!"C" (0, 0, 1, 0, 1, 0) (by decide +kernel),
      h c!"A" (0, 0, 0, 0, 1, 0) (by decide +kernel), h c!"V" (2, 1, -3, 0, -1, 0) (by decide +kernel)]
    decide +kernel

theorem strip_dim {u : BaseUnit} {p : Sym} {u' : BaseUnit} (h : stripUnit u = .ok (p, u'))
    (hk : u'.unit ∈ registry.map (·.1) ++ derivedNames) (hc : '^' ∉ u'.unit) :
    u'.exp • dimOf u'.unit = u.exp • dimOf u.unit := by
  unfold stripUnit at h
  split at h
  · cases h; rfl
  · rename_i hkg
    split at h
    · cases h
    · rename_i p' s hp
      cases h
      obtain ⟨s0, e⟩ := u
      simp only at *
      match s0, hp with
      | [c], hp => cases hp; rfl
      | c :: d :: cs, hp =>
        simp only [getPrefix] at hp
        split at hp
        · cases hp; rfl
        · rename_i hne
          cases hp
          rw [not_or, not_not] at hne
          rw [dimOf_prefix c hne.1 _ hk hc hne.2 hkg]

theorem strip_list_dim {l : UList} {ps : List (Sym × BaseUnit)} (h : mapPy stripUnit l = .ok ps)
    (hk : ∀ u ∈ ps.map (·.2), u.unit ∈ registry.map (·.1) ++ derivedNames ∧ '^' ∉ u.unit) :
    wsum dimOf (ps.map (·.2)) = wsum dimOf l := by
  replace h := mapPy_forall₂ h
  induction h with
  | nil => rfl
  | @cons x y l r hx _ ih =>
    obtain ⟨p, u'⟩ := y
    have h1 := hk u' (by simp)
    rw [List.map_cons, wsum_cons, wsum_cons, ih fun u hu => hk u (by simp only [List.map_cons, List.mem_cons]; exact .inr hu),
      strip_dim hx h1.1 h1.2]

theorem step_dim {x : BaseUnit} {u : UnitV ℝ} (h : Step x u) :
    u.entry.exp • dimOf u.entry.unit = x.exp • dimOf x.unit := by
  cases h with
  | kelvin s e hs => rfl
  | rankine s e hs => rfl
  | std c s e hc hs => rfl
  | entry c s std a b e hen hs => simp only [UnitV.entry]; rw [dimOf_entries _ hen std hs]
  | litre => simp only [UnitV.entry]; decide +kernel
  | acre => simp only [UnitV.entry]; decide +kernel

theorem steps_dim {l : UList} {U : List (UnitV ℝ)} (h : List.Forall₂ Step l U) :
    wsum dimOf (U.map UnitV.entry) = wsum dimOf l := by
  induction h with
  | nil => rfl
  | @cons x u l U hx _ ih => rw [List.map_cons, wsum_cons, wsum_cons, ih, step_dim hx]

/-- Combine per-class totals. -/
def tallyDim (g : UCls → ℚ) : Dim := (allClasses.map fun c => g c • clsDim c).sum

theorem tallyDim_single (c : UCls) (e : ℚ) : tallyDim (fun c' => if c = c' then e else 0) = e • clsDim c := by
  cases c <;> simp [tallyDim, allClasses, clsDim]

theorem tallyDim_add (g h : UCls → ℚ) : tallyDim (fun c => g c + h c) = tallyDim g + tallyDim h := by
  simp only [tallyDim, add_smul, List.sum_map_add]

theorem tallyDim_sub (g h : UCls → ℚ) : tallyDim (fun c => g c - h c) = tallyDim g - tallyDim h := by
  rw [eq_sub_iff_add_eq, ← tallyDim_add]; simp

theorem tot_dim {l : UList} (h : ∀ u ∈ l, u.unit ≠ c!"C" ∧ '^' ∉ u.unit ∧
    ∃ c, (u.unit, c) ∈ registry ∧ getUnitClass u.unit = .ok c) : tallyDim (fun c => tot c l) = wsum dimOf l := by
  induction l with
  | nil => simp [tallyDim, tot]
  | cons u l ih =>
    obtain ⟨h1, h2, c, h3, h4⟩ := h u (by simp)
    rw [wsum_cons, ← ih fun v hv => h v (List.mem_cons_of_mem _ hv), dimOf_registry _ h3 h2 h1, ← tallyDim_single,
      ← tallyDim_add]
    simp only [tot, List.map_cons, List.sum_cons, h4, Except.ok.injEq]

theorem Stages.dim {top bot : UList} {F : ℝ} {tally : List ℚ} (s : Stages top bot F tally) :
    net dimOf top bot = ((allClasses.zip tally).map fun p => p.2 • clsDim p.1).sum := by
  have hzip : ∀ (l : List UCls) (g : UCls → ℚ), ((l.zip (l.map g)).map fun p => p.2 • clsDim p.1) =
      l.map fun c => g c • clsDim c := by
    intro l g
    induction l with
    | nil => rfl
    | cons c l ih => simp [ih]
  -- full deconstruction leaves no derived names
  obtain ⟨t', b', e', h1, h2⟩ := deconstructUnits_spec dimOf_laws (s.tU.map UnitV.entry) (s.bU.map UnitV.entry)
  have := s.full
  rw [e'] at this
  obtain ⟨rfl, rfl⟩ : t' = s.t2 ∧ b' = s.b2 := by cases this; exact ⟨rfl, rfl⟩
  have hnC : ∀ u ∈ s.t2 ++ s.b2, u.unit ≠ c!"C" := by
    intro u hu hC; have := h2 u hu; rw [hC] at this; exact this _ _ .C
  rw [s.tally, hzip]
  show _ = tallyDim _
  rw [tallyDim_sub, tot_dim fun u hu => ⟨hnC u (by simp [hu]), s.classes u (by simp [hu])⟩,
    tot_dim fun u hu => ⟨hnC u (by simp [hu]), s.classes u (by simp [hu])⟩]
  show _ = net dimOf s.t2 s.b2
  rw [h1]
  have e1 : net dimOf (s.tU.map UnitV.entry) (s.bU.map UnitV.entry) = net dimOf s.t s.b := by
    simp only [net, steps_dim s.tStep, steps_dim s.bStep]
  rw [e1, deconstructOnce_net dimOf_laws s.once]
  -- prefixes
  have hk : ∀ u ∈ s.ts ++ s.bs, u.unit ∈ registry.map (·.1) ++ derivedNames ∧ '^' ∉ u.unit := by
    intro u hu
    rcases deconstructOnce_keeps s.once u hu with h | h
    · refine ⟨List.mem_append_right _ h, ?_⟩
      have : ∀ s ∈ derivedNames, '^' ∉ s := by decide
      exact this _ h
    · obtain ⟨h5, c, h6⟩ := s.registered u h
      exact ⟨List.mem_append_left _ (List.mem_map.2 ⟨_, h6, rfl⟩), h5⟩
  have hp := s.prefixes
  unfold deconstructPrefixes at hp
  split at hp
  · cases hp
  · rename_i ps e2
    split at hp
    · cases hp
    · rename_i qs e3
      split at hp
      · cases hp
      · split at hp
        · cases hp
        · obtain ⟨hts, hbs⟩ : ps.map (·.2) = s.ts ∧ qs.map (·.2) = s.bs := by
            simp only [Except.ok.injEq, Prod.mk.injEq] at hp; exact ⟨hp.1, hp.2.1⟩
          simp only [net]
          rw [← hts, ← hbs, strip_list_dim e2, strip_list_dim e3]
          · rw [hbs]; exact fun u hu => hk u (by simp [hu])
          · rw [hts]; exact fun u hu => hk u (by simp [hu])

end Verif
