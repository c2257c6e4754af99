import Verif.Utility.Helpers
import Mathlib.Data.List.Infix

/-!
# C57, C60: helper functions
-/

namespace Verif

/-! ## C60: powerset -/

theorem combinations_perm {α : Type} : ∀ (r : ℕ) (s : List α), (combinations r s).Perm (List.sublistsLen r s)
  | 0, s => by simp [combinations]
  | r + 1, [] => by simp [combinations]
  | r + 1, x :: xs => by
    rw [List.sublistsLen_succ_cons, combinations]
    exact List.perm_append_comm.trans ((combinations_perm (r + 1) xs).append ((combinations_perm r xs).map _))

/-- The result, with the empty selection added, is a rearrangement of all sublists (selections of positions) of the
input. -/
theorem C60_powerset_perm {α : Type} (s : List α) : ([] :: powerset s).Perm (List.sublists s) := by
  have h1 : ([] :: powerset s) = (List.range (s.length + 1)).flatMap (fun r => combinations r s) := by
    rw [List.range_succ_eq_map, List.flatMap_cons]
    simp [powerset, combinations, List.map_eq_flatMap]
  rw [h1]
  have h2 : ((List.range (s.length + 1)).flatMap fun r => combinations r s).Perm
      ((List.range (s.length + 1)).flatMap fun r => List.sublistsLen r s) :=
    List.Perm.flatMap_left _ fun r _ => combinations_perm r s
  exact h2.trans ((List.range_bind_sublistsLen_perm s).trans (List.sublists_perm_sublists' s).symm)

theorem C60_powerset_length {α : Type} (s : List α) : (powerset s).length = 2 ^ s.length - 1 := by
  have := (C60_powerset_perm s).length_eq
  rw [List.length_sublists, List.length_cons] at this
  omega

/-- Exactly the non-empty order preserving selections. -/
theorem C60_powerset_mem {α : Type} (s l : List α) : l ∈ powerset s ↔ l ≠ [] ∧ l.Sublist s := by
  have h := (C60_powerset_perm s).mem_iff (a := l)
  rw [List.mem_sublists, List.mem_cons] at h
  constructor
  · intro hl
    refine ⟨?_, h.mp (Or.inr hl)⟩
    rintro rfl
    simp only [powerset, List.mem_flatMap, List.mem_map, List.mem_range] at hl
    obtain ⟨r, ⟨k, -, rfl⟩, hr⟩ := hl
    have := (combinations_perm (k + 1) s).mem_iff.mp hr
    rw [List.mem_sublistsLen] at this
    simpa using this.2
  · rintro ⟨h1, h2⟩
    exact (h.mpr h2).resolve_left h1

/-- Distinct elements give distinct selections. -/
theorem C60_powerset_nodup {α : Type} (s : List α) (h : s.Nodup) : (powerset s).Nodup := by
  have : ([] :: powerset s).Nodup := (C60_powerset_perm s).nodup_iff.mpr (List.nodup_sublists.mpr h)
  exact (List.nodup_cons.mp this).2

/-- Shorter selections come first. -/
theorem C60_powerset_sorted {α : Type} (s : List α) : (powerset s).Pairwise (fun a b => a.length ≤ b.length) := by
  unfold powerset
  have hl : ∀ r (l : List α), l ∈ combinations r s → l.length = r := fun r l h =>
    (List.mem_sublistsLen.mp ((combinations_perm r s).mem_iff.mp h)).2
  rw [List.pairwise_flatMap]
  constructor
  · intro r _
    exact List.Pairwise.imp_of_mem (fun {a b} ha hb _ => by rw [hl r a ha, hl r b hb])
      (List.pairwise_of_forall (R := fun _ _ => True) (fun _ _ => trivial))
  · rw [List.pairwise_map]
    refine List.Pairwise.imp (fun {a b} hab => ?_) (List.pairwise_lt_range)
    intro x hx y hy
    rw [hl _ x hx, hl _ y hy]
    omega

example : powerset [1, 2, 3] = [[1], [2], [3], [1, 2], [1, 3], [2, 3], [1, 2, 3]] := by decide
example : [1, 3] ∈ powerset [1, 2, 3] := (C60_powerset_mem _ _).mpr ⟨by decide, by decide⟩

/-! ## C57: printing exponents -/

/-- A superscript digit. -/
def IsSup (c : Char) : Prop := c ∈ sups.map Prod.snd

theorem supChar_inj {a b : Char} (ha : ¬ IsSup a) (hb : ¬ IsSup b) (h : supChar a = supChar b) : a = b := by
  have key : ∀ c, (∃ p ∈ sups, p.1 = c ∧ supChar c = p.2) ∨ ((∀ p ∈ sups, p.1 ≠ c) ∧ supChar c = c) := by
    intro c
    unfold supChar
    cases hf : sups.find? (fun p => p.1 = c) with
    | none =>
      right
      rw [List.find?_eq_none] at hf
      exact ⟨fun p hp e => hf p hp (by simp [e]), rfl⟩
    | some p => exact Or.inl ⟨p, List.mem_of_find?_eq_some hf, by simpa using List.find?_some hf, rfl⟩
  have inj : ∀ p ∈ sups, ∀ q ∈ sups, p.2 = q.2 → p.1 = q.1 := by decide
  rcases key a with ⟨p, hp, e1, e2⟩ | ⟨-, e2⟩ <;> rcases key b with ⟨q, hq, f1, f2⟩ | ⟨-, f2⟩
  · rw [← e1, ← f1]; exact inj p hp q hq (by rw [← e2, ← f2, h])
  · exact absurd (List.mem_map.mpr ⟨p, hp, by rw [← e2, h, f2]⟩) hb
  · exact absurd (List.mem_map.mpr ⟨q, hq, by rw [← f2, ← h, e2]⟩) ha
  · rw [← e2, ← f2, h]

/-- to_sup is injective on strings without superscripts, whatever other characters they contain. -/
theorem C57_to_sup_injective : ∀ (s t : Sym), (∀ c ∈ s, ¬ IsSup c) → (∀ c ∈ t, ¬ IsSup c) → toSup s = toSup t → s = t
  | [], [], _, _, _ => rfl
  | [], _ :: _, _, _, h => by simp [toSup] at h
  | _ :: _, [], _, _, h => by simp [toSup] at h
  | a :: s, b :: t, hs, ht, h => by
    simp only [toSup, List.map_cons, List.cons.injEq] at h
    rw [supChar_inj (hs a List.mem_cons_self) (ht b List.mem_cons_self) h.1,
      C57_to_sup_injective s t (fun c hc => hs c (List.mem_cons_of_mem _ hc))
        (fun c hc => ht c (List.mem_cons_of_mem _ hc)) h.2]

theorem digit_not_sup : ∀ d : Fin 10, ¬ IsSup (decChar d) := by
  intro d
  unfold IsSup
  revert d
  decide

theorem digitChar_inj : Function.Injective decChar := by
  intro a b
  revert a b
  decide

/-- Distinct digit strings have distinct superscripts. -/
theorem C57_to_sup_digits (s t : List (Fin 10)) (h : toSup (s.map decChar) = toSup (t.map decChar)) : s = t := by
  refine List.map_injective_iff.mpr digitChar_inj (C57_to_sup_injective _ _ ?_ ?_ h)
  all_goals
    intro c hc
    obtain ⟨d, -, rfl⟩ := List.mem_map.mp hc
    exact digit_not_sup d

example : toSup c!"12" ≠ toSup c!"21" := fun h => absurd (C57_to_sup_injective _ _ (by simp [IsSup, sups]) (by simp [IsSup, sups]) h) (by decide)

/-- A superscript and its digit print alike. -/
theorem C57_to_sup_sup : toSup c!"2" = toSup c!"²" := by decide

theorem contains_iff (s sub : Sym) : contains s sub = true ↔ sub <:+: s := by
  unfold contains
  rw [List.any_eq_true]
  simp only [List.isPrefixOf_iff_prefix, List.mem_tails, List.infix_iff_prefix_suffix]
  constructor
  · rintro ⟨t, h1, h2⟩; exact ⟨t, h2, h1⟩
  · rintro ⟨t, h1, h2⟩; exact ⟨t, h2, h1⟩

theorem infix_no_dot {s : Sym} (h : '.' ∉ s) : ¬ c!".0" <:+: s := fun hi => h (hi.subset (by decide))

theorem infix_dot {B : Sym} (hB : '.' ∉ B) : ∀ A : Sym, '.' ∉ A → (c!".0" <:+: A ++ '.' :: B ↔ B.head? = some '0')
  | [], _ => by
    rw [List.nil_append, List.infix_cons_iff]
    constructor
    · rintro (h | h)
      · obtain ⟨t, ht⟩ := h
        simp only [List.cons_append, List.nil_append, List.cons.injEq, true_and] at ht
        rw [← ht]; rfl
      · exact absurd h (infix_no_dot hB)
    · intro h
      left
      cases B with
      | nil => simp at h
      | cons b B => simp only [List.head?_cons, Option.some.injEq] at h; subst h; exact ⟨B, rfl⟩
  | a :: A, hA => by
    rw [List.cons_append, List.infix_cons_iff, infix_dot hB A (fun h => hA (List.mem_cons_of_mem _ h))]
    constructor
    · rintro (h | h)
      · obtain ⟨t, ht⟩ := h
        simp only [List.cons_append, List.cons.injEq] at ht
        exact absurd (ht.1 ▸ List.mem_cons_self) hA
      · exact h
    · exact Or.inr

theorem digit_not_dot : ∀ d : Fin 10, decChar d ≠ '.' := by decide

theorem digits_not_dot (ds : List (Fin 10)) : '.' ∉ ds.map decChar := by
  intro h
  obtain ⟨d, -, hd⟩ := List.mem_map.mp h
  exact digit_not_dot d hd

/-- ".0" occurs in the printed float exactly when the first fractional digit is 0. -/
theorem contains_point_zero (x : FloatRepr) : contains x.str c!".0" = true ↔ x.frac.head? = some 0 := by
  rw [contains_iff]
  obtain ⟨neg, int, frac, exp⟩ := x
  have hE : '.' ∉ (match exp with
      | none => []
      | some (n, ds) => 'e' :: (if n then '-' else '+') :: ds.map decChar : Sym) := by
    rcases exp with _ | ⟨n, ds⟩
    · simp
    · have := digits_not_dot ds
      cases n <;> simp_all
  have hA : '.' ∉ (if neg then ['-'] else []) ++ int.map decChar := by
    have := digits_not_dot int
    cases neg <;> simp_all
  cases frac with
  | nil =>
    simp only [FloatRepr.str, if_true, List.append_nil, List.head?_nil, reduceCtorEq, iff_false]
    exact infix_no_dot (by rw [List.mem_append]; exact not_or.mpr ⟨hA, hE⟩)
  | cons d frac =>
    simp only [FloatRepr.str, reduceCtorEq, if_false, List.head?_cons, Option.some.injEq]
    rw [List.append_assoc, List.cons_append, infix_dot _ _ hA]
    · simp only [List.map_cons, List.cons_append, List.head?_cons, Option.some.injEq]
      revert d; decide
    · rw [List.mem_append]; exact not_or.mpr ⟨digits_not_dot _, hE⟩

theorem pyTrunc_eq (q : ℚ) : (pyTrunc q : ℚ) = q ↔ ∃ n : ℤ, q = n := by
  constructor
  · intro h; exact ⟨_, h.symm⟩
  · rintro ⟨n, rfl⟩
    unfold pyTrunc
    split <;> simp

/-- Full statement: remove_zero returns a number equal to its argument (refuted below).  It does exactly when the number
is an integer or its first printed fractional digit is not 0. -/
theorem C57_remove_zero_partial (x : FloatRepr) :
    removeZero x = x.val ↔ (∃ n : ℤ, x.val = n) ∨ x.frac.head? ≠ some 0 := by
  unfold removeZero
  by_cases h : x.frac.head? = some 0
  · rw [if_pos ((contains_point_zero x).mpr h), pyTrunc_eq]
    simp [h]
  · rw [if_neg (fun hc => h ((contains_point_zero x).mp hc))]
    simp [h]

/-- `remove_zero(1.05)` is 1. -/
theorem C57_remove_zero_false : ¬ ∀ x : FloatRepr, removeZero x = x.val := by
  intro h
  have := h ⟨false, [1], [0, 5], none⟩
  revert this
  decide +kernel

/-- Two different exponents are printed alike: 2.05 and 2.0. -/
theorem C57_display_false : ¬ ∀ x y : FloatRepr, removeZero x = removeZero y → x.val = y.val := by
  intro h
  have := h ⟨false, [2], [0, 5], none⟩ ⟨false, [2], [0], none⟩ (by decide +kernel)
  revert this
  decide +kernel

/-- 3.0, 0.5 and 1.5e-05 are unchanged. -/
example : removeZero ⟨false, [3], [0], none⟩ = 3 ∧ removeZero ⟨false, [0], [5], none⟩ = 1 / 2 := by
  constructor
  · rw [(C57_remove_zero_partial _).mpr (Or.inl ⟨3, by decide +kernel⟩)]; decide +kernel
  · rw [(C57_remove_zero_partial _).mpr (Or.inr (by decide))]; decide +kernel

end Verif
