import Verif.Spec.Quantity
import Verif.Lemmas.Closure

/-! # Rebuilding an object of a unit class with another value -/

namespace Verif

theorem splitOn_ne_nil (c : Char) (s : Sym) : splitOn c s ≠ [] := by
  induction s with
  | nil => simp [splitOn]
  | cons x xs ih =>
    unfold splitOn
    split
    · simp
    · split <;> simp

theorem splitOn_not_mem (c : Char) (s : Sym) : ∀ p ∈ splitOn c s, c ∉ p := by
  induction s with
  | nil => simp [splitOn]
  | cons x xs ih =>
    unfold splitOn
    split
    · intro p hp
      rcases List.mem_cons.1 hp with rfl | hp
      · simp
      · exact ih p hp
    · rename_i hx
      split
      · intro p hp
        rw [List.mem_singleton] at hp; subst hp
        simpa using Ne.symm hx
      · rename_i q qs e
        rw [e] at ih
        intro p hp
        rcases List.mem_cons.1 hp with rfl | hp
        · simp only [List.mem_cons, not_or]; exact ⟨Ne.symm hx, ih q (by simp)⟩
        · exact ih p (List.mem_cons_of_mem _ hp)

/-- A constructed object can be rebuilt with any other value and exponent. -/
theorem UnitV.Constructed.rebuild {K : Type} {u : UnitV K} (h : u.Constructed) (v : K) (e : ℚ) :
    mkUnit u.cls v u.unit e = .ok ⟨u.cls, v, u.unit, e⟩ := by
  obtain ⟨v0, s, e0, h⟩ := h
  obtain ⟨cls, v1, s1, e1⟩ := u
  cases cls <;> simp only [mkUnit] at h ⊢
  case pressure | current | amount | force =>
    split at h
    · rename_i hm; cases h; simp [hm]
    · cases h
  case volume | area =>
    split at h
    · split at h
      · rename_i a b hs
        have := splitOn_not_mem '^' s a (by rw [hs]; simp)
        split at h
        · cases h; simp [this]
        · cases h
      · cases h
    · rename_i hm; cases h; simp [hm]

theorem constructed_plain {K : Type} (v : K) (s : Sym) (e : ℚ) :
    (⟨.unit, v, s, e⟩ : UnitV K).Constructed := ⟨v, s, e, rfl⟩

/-! ## Packing -/

theorem packDiv_mag {ρ : Sym → ℝ} (h : ∀ s, 0 < ρ s) (v : ℝ) (t b : UList) :
    HasMag ρ (packDiv v t b) (mag ρ v t b) := by
  unfold packDiv
  split
  · have : mag ρ v [] [] = v := by simp [mag, lsize]
    rw [this]; exact .num v
  · rename_i u
    have : mag ρ v [u] [] = (⟨.unit, v, u.unit, u.exp⟩ : UnitV ℝ).mag ρ := by
      simp [mag, lsize, UnitV.mag]
    rw [this]; exact .unit _
  · rename_i u
    have : mag ρ v [] [u] = (⟨.unit, v, u.unit, -u.exp⟩ : UnitV ℝ).mag ρ := by
      simp [mag, lsize, UnitV.mag, Real.rpow_neg (h _).le]
    rw [this]; exact .unit _
  · exact .multi _

theorem packMul_mag {ρ : Sym → ℝ} (v : ℝ) (t b : UList) :
    HasMag ρ (packMul v t b) (mag ρ v t b) := by
  unfold packMul
  split
  · have : mag ρ v [] [] = v := by simp [mag, lsize]
    rw [this]; exact .num v
  · rename_i u
    have : mag ρ v [u] [] = (⟨.unit, v, u.unit, u.exp⟩ : UnitV ℝ).mag ρ := by
      simp [mag, lsize, UnitV.mag]
    rw [this]; exact .unit _
  · exact .multi _

theorem packDiv_reduced {v : ℝ} {t b : UList} (h : Reduced t b) : ReducedVal (packDiv v t b) := by
  unfold packDiv
  split
  · trivial
  · exact (h.1 _ (by simp)).ne'
  · exact neg_ne_zero.2 (h.2 _ (by simp))
  · exact h

theorem packMul_reduced {v : ℝ} {t b : UList} (h : Reduced t b) : ReducedVal (packMul v t b) := by
  unfold packMul
  split
  · trivial
  · exact (h.1 _ (by simp)).ne'
  · exact h

/-! ## Magnitudes of concatenations -/

theorem lsize_append (ρ : Sym → ℝ) (l l' : UList) : lsize ρ (l ++ l') = lsize ρ l * lsize ρ l' := by
  simp [lsize]

theorem lsize_single (ρ : Sym → ℝ) (s : Sym) (e : ℚ) : lsize ρ [⟨s, e⟩] = ρ s ^ (e : ℝ) := by
  simp [lsize]

theorem wellPrefixed_append {l l' : UList} (h : WellPrefixedList l) (h' : WellPrefixedList l') :
    WellPrefixedList (l ++ l') := by
  intro u hu; rcases List.mem_append.1 hu with hu | hu
  · exact h u hu
  · exact h' u hu

theorem wellPrefixed_single {s : Sym} {e : ℚ} (h : WellPrefixed s) : WellPrefixedList [⟨s, e⟩] := by
  intro u hu; rw [List.mem_singleton] at hu; subst hu; exact h

theorem HasMag.unique {ρ : Sym → ℝ} {v : Val ℝ} {x y : ℝ} (h : HasMag ρ v x) (h' : HasMag ρ v y) :
    x = y := by
  cases h <;> cases h' <;> rfl

theorem pyDiv_ne {x y : ℝ} (h : y ≠ 0) : pyDiv x y = .ok (x / y) := by simp [pyDiv, h]

end Verif
