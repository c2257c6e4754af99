import Verif.Lemmas.Simplify

/-! # Combining leaves one entry per symbol; loop bounds are immaterial -/

namespace Verif

theorem symExp_eq (s : Sym) (l : UList) : symExp s l = wsum (fun x => if x = s then (1 : ℚ) else 0) l := by
  simp [symExp, wsum]

theorem absorb_occ_self (u : BaseUnit) (l : UList) : occurrences u.unit (absorb u l).2 = 0 := by
  induction l generalizing u with
  | nil => simp [absorb, occurrences]
  | cons v l ih =>
    unfold absorb
    split
    · have := ih ⟨u.unit, u.exp + v.exp⟩
      simp only [occurrences, List.countP_cons] at this ⊢
      simpa using this
    · rename_i h
      have := ih u
      simp only [occurrences, List.countP_cons] at this ⊢
      simp only [Ne.symm h, false_and, decide_false, Bool.false_eq_true, if_false, add_zero]
      exact this

theorem absorb_occ_other (u : BaseUnit) (l : UList) (s : Sym) (h : s ≠ u.unit) :
    occurrences s (absorb u l).2 = occurrences s l := by
  induction l generalizing u with
  | nil => simp [absorb]
  | cons v l ih =>
    unfold absorb
    split
    · rename_i e
      have := ih ⟨u.unit, u.exp + v.exp⟩ h
      have hv : v.unit ≠ s := by rw [← e]; exact h.symm
      simp only [occurrences, List.countP_cons] at this ⊢
      simp only [hv, false_and, decide_false, Bool.false_eq_true, if_false, add_zero]
      exact this
    · have := ih u h
      simp only [occurrences, List.countP_cons] at this ⊢
      rw [this]

theorem occurrences_append (s : Sym) (l l' : UList) :
    occurrences s (l ++ l') = occurrences s l + occurrences s l' := by
  simp [occurrences]

theorem occurrences_cons (s : Sym) (u : BaseUnit) (l : UList) :
    occurrences s (u :: l) = (if u.unit = s ∧ u.exp ≠ 0 then 1 else 0) + occurrences s l := by
  simp only [occurrences, List.countP_cons, decide_eq_true_eq]; omega

theorem absorb_units (u : BaseUnit) (l : UList) : (absorb u l).2.map (·.unit) = l.map (·.unit) := by
  induction l generalizing u with
  | nil => simp [absorb]
  | cons v l ih => unfold absorb; split <;> simp [ih]

theorem combineAt_units (l : UList) (i : ℕ) : (combineAt l i).map (·.unit) = l.map (·.unit) := by
  unfold combineAt
  split
  · rfl
  · rename_i u post e
    have : l = l.take i ++ u :: post := by rw [← e]; exact (List.take_append_drop i l).symm
    conv_rhs => rw [this]
    simp [absorb_units, absorb_unit]

theorem combineAt_occ_self (l : UList) (i : ℕ) (u : BaseUnit) (post : UList) (e : l.drop i = u :: post) :
    occurrences u.unit (combineAt l i) ≤ 1 := by
  unfold combineAt
  rw [e]
  simp only [occurrences_append, occurrences_cons, absorb_occ_self]
  have := absorb_occ_self (absorb u (l.take i)).1 post
  rw [absorb_unit] at this
  rw [this]
  split <;> omega

theorem combineAt_occ_other (l : UList) (i : ℕ) (u : BaseUnit) (post : UList) (e : l.drop i = u :: post)
    (s : Sym) (hs : s ≠ u.unit) : occurrences s (combineAt l i) = occurrences s l := by
  have hl : l = l.take i ++ u :: post := by rw [← e]; exact (List.take_append_drop i l).symm
  unfold combineAt
  rw [e]
  simp only [occurrences_append, occurrences_cons, absorb_occ_other _ _ _ hs]
  rw [absorb_occ_other _ _ _ (by rw [absorb_unit]; exact hs)]
  conv_rhs => rw [hl, occurrences_append, occurrences_cons]
  simp [absorb_unit, Ne.symm hs]

theorem not_derived {s : Sym} (h : ∀ t b, ¬ DeconRule s t b) : s ∉ derivedNames := by
  intro hm
  simp only [derivedNames, List.mem_cons, List.not_mem_nil, or_false] at hm
  rcases hm with rfl | rfl | rfl | rfl | rfl | rfl | rfl
  · exact h _ _ .Pa
  · exact h _ _ .J
  · exact h _ _ .W
  · exact h _ _ .psi
  · exact h _ _ .cP
  · exact h _ _ .C
  · exact h _ _ .V

theorem deconLoop_mono (n k : ℕ) (t b : UList) (r : UList × UList) (h : deconLoop n t b = .ok r) :
    deconLoop (n + k) t b = .ok r := by
  induction n generalizing t b with
  | zero => simp [deconLoop] at h
  | succ n ih =>
    rw [Nat.succ_add]
    unfold deconLoop at h ⊢
    split at h
    · cases h
    · split at h
      · rename_i hh; simp only [hh, if_true]; exact ih _ _ h
      · rename_i hh; simp only [hh]; exact h

theorem simplLoop_mono (n k : ℕ) (t b : UList) (r : UList × UList) (h : simplLoop n t b = .ok r) :
    simplLoop (n + k) t b = .ok r := by
  induction n generalizing t b with
  | zero => simp [simplLoop] at h
  | succ n ih =>
    rw [Nat.succ_add]
    unfold simplLoop at h ⊢
    split at h
    · cases h
    · exact h
    · split at h
      · rename_i hh; simp only [hh, if_true]; exact h
      · rename_i hh
        simp only [hh, if_false]
        simp only at h
        split at h
        · cases h
        · exact ih _ _ h

end Verif
