import Verif.Reactions.Parentheses
import Verif.Spec.Parentheses
import Mathlib.Tactic

/-!
# C96: the check of the parentheses
-/

namespace Verif

/-! ## The depth reached -/

/-- The number of open parentheses after the text, if it can be read. -/
def scan : ℕ → Sym → Option ℕ
  | n, [] => some n
  | n, c :: cs => if c = '(' then scan (n + 1) cs else if c = ')' then (if n = 0 then none else scan (n - 1) cs) else none

theorem scan_removePairs (s : Sym) : ∀ n, scan n (removePairs s) = scan n s := by
  fun_induction removePairs s with
  | case1 cs ih => intro n; rw [ih]; simp [scan]
  | case2 c cs h ih => intro n; simp only [scan, ih]
  | case3 => intro n; rfl

theorem scan_eatPairs (s : Sym) (n : ℕ) : scan n (eatPairs s) = scan n s := by
  fun_induction eatPairs s with
  | case1 s h ih => rw [ih, scan_removePairs]
  | case2 => rfl

theorem eatPairs_done (s : Sym) : hasPair (eatPairs s) = false := by
  fun_induction eatPairs s with
  | case1 s h ih => exact ih
  | case2 s h => simpa using h

/-- After an opening parenthesis, without a pair, nothing is closed. -/
theorem scan_no_pair (s : Sym) : ∀ n m, hasPair ('(' :: s) = false → scan n ('(' :: s) = some m → n < m := by
  induction s with
  | nil =>
    intro n m _ h
    simp [scan] at h
    omega
  | cons c s ih =>
    intro n m hp h
    by_cases hc : c = ')'
    · subst hc; simp [hasPair] at hp
    · have hp' : hasPair (c :: s) = false := by
        rw [hasPair.eq_2] at hp
        · exact hp
        · intro t _ e; injection e with e; exact hc e
      rw [scan, if_pos rfl] at h
      by_cases ho : c = '('
      · subst ho
        have := ih (n + 1) m hp' h
        omega
      · simp [scan, hc, ho] at h

theorem check_scan (s : Sym) : checkParentheses s = true ↔ scan 0 s = some 0 := by
  rw [← scan_eatPairs, checkParentheses]
  have hd := eatPairs_done s
  generalize eatPairs s = t at hd
  cases t with
  | nil => simp [scan]
  | cons c t =>
    simp only [List.isEmpty_cons, Bool.false_eq_true, false_iff]
    intro h
    by_cases ho : c = '('
    · subst ho
      have := scan_no_pair t 0 0 hd h
      omega
    · simp [scan, ho] at h

theorem scan_iff (s : Sym) : ∀ n m, scan n s = some m ↔
    OnlyParens s ∧ (∀ p, p <+: s → p.count ')' ≤ n + p.count '(') ∧ n + s.count '(' = m + s.count ')' := by
  induction s with
  | nil =>
    intro n m
    simp [scan, OnlyParens]
  | cons c s ih =>
    intro n m
    have only : ∀ d, OnlyParens (d :: s) ↔ (d = '(' ∨ d = ')') ∧ OnlyParens s := fun d => by simp [OnlyParens]
    have pre : ∀ (d : Char) (k : ℕ), (∀ p, p <+: d :: s → p.count ')' ≤ k + p.count '(') ↔
        ∀ p, p <+: s → (d :: p).count ')' ≤ k + (d :: p).count '(' := by
      intro d k
      constructor
      · intro h p hp
        exact h (d :: p) (by simpa using hp)
      · intro h p hp
        cases p with
        | nil => simp
        | cons e p =>
          obtain ⟨rfl, hp'⟩ := List.cons_prefix_cons.1 hp
          exact h p hp'
    rw [only, pre]
    by_cases ho : c = '('
    · subst ho
      rw [scan, if_pos rfl, ih]
      simp only [List.count_cons, beq_self_eq_true, if_true, show (('(' : Char) == ')') = false from by decide,
        Bool.false_eq_true, if_false, true_or, true_and, Nat.add_zero]
      constructor
      · rintro ⟨h1, h2, h3⟩
        exact ⟨h1, fun p hp => by have := h2 p hp; omega, by omega⟩
      · rintro ⟨h1, h2, h3⟩
        exact ⟨h1, fun p hp => by have := h2 p hp; omega, by omega⟩
    · by_cases hc : c = ')'
      · subst hc
        rw [scan, if_neg ho, if_pos rfl]
        simp only [List.count_cons, beq_self_eq_true, if_true, show ((')' : Char) == '(') = false from by decide,
          Bool.false_eq_true, if_false, or_true, true_and, Nat.add_zero]
        by_cases hn : n = 0
        · subst hn
          simp only [if_true, reduceCtorEq, false_iff]
          rintro ⟨-, h, -⟩
          have := h [] (List.nil_prefix)
          simp at this
        · rw [if_neg hn, ih]
          constructor
          · rintro ⟨h1, h2, h3⟩
            exact ⟨h1, fun p hp => by have := h2 p hp; omega, by omega⟩
          · rintro ⟨h1, h2, h3⟩
            exact ⟨h1, fun p hp => by have := h2 p hp; omega, by omega⟩
      · simp [scan, ho, hc]

/-! ## C96 -/

/-- **C96**, what the check does: it accepts exactly the texts that are nothing but matching parentheses. -/
theorem C96_exact (s : Sym) : checkParentheses s = true ↔ OnlyParens s ∧ ParensMatch s := by
  rw [check_scan, scan_iff]
  simp [ParensMatch]

/-- **C96** is false: a text with matching parentheses, and with anything else, is refused. -/
theorem C96_false : ParensMatch c!"Pb(NO3)2" ∧ checkParentheses c!"Pb(NO3)2" = false ∧
    ∀ s : Sym, (∃ c ∈ s, c ≠ '(' ∧ c ≠ ')') → checkParentheses s = false := by
  refine ⟨⟨?_, by decide⟩, ?_, ?_⟩
  · intro p hp
    rw [← List.mem_inits] at hp
    revert p
    decide +kernel
  · rw [← Bool.not_eq_true, C96_exact]
    rintro ⟨h, -⟩
    exact absurd (h 'P' (by decide)) (by decide)
  · rintro s ⟨c, hc, h1, h2⟩
    rw [← Bool.not_eq_true, C96_exact]
    rintro ⟨h, -⟩
    rcases h c hc with h | h
    · exact h1 h
    · exact h2 h

/-- **C96**: had line 135 called the check, every text with an arrow would be refused. -/
theorem C96_every_equation_refused (a b : Sym) : checkParentheses (a ++ c!"->" ++ b) = false :=
  C96_false.2.2 _ ⟨'-', by simp, by decide⟩

theorem parensOf_count (s : Sym) : (parensOf s).count '(' = s.count '(' ∧ (parensOf s).count ')' = s.count ')' := by
  unfold parensOf
  constructor <;> exact List.count_filter (by decide)

/-- **C96**, what does hold: the check of the parentheses alone is right.  Missing: that it can be used on the text of an
equation, which is false (`C96_false`). -/
theorem C96_parens_partial (s : Sym) : checkParentheses (parensOf s) = true ↔ ParensMatch s := by
  rw [C96_exact]
  constructor
  · rintro ⟨-, h1, h2⟩
    refine ⟨fun p hp => ?_, by rw [(parensOf_count s).1, (parensOf_count s).2] at h2; exact h2⟩
    have := h1 (parensOf p) (hp.filter _)
    rwa [(parensOf_count p).1, (parensOf_count p).2] at this
  · rintro ⟨h1, h2⟩
    refine ⟨fun c hc => by simpa [parensOf] using (List.mem_filter.1 hc).2, fun p hp => ?_, by
      rw [(parensOf_count s).1, (parensOf_count s).2]; exact h2⟩
    obtain ⟨q, hq, rfl⟩ : ∃ q, q <+: s ∧ p = parensOf q := by
      obtain ⟨t, ht⟩ := hp
      obtain ⟨u, v, rfl, hu, -⟩ := List.filter_eq_append_iff.1 (show s.filter _ = p ++ t from ht.symm)
      exact ⟨u, List.prefix_append _ _, hu.symm⟩
    rw [(parensOf_count q).1, (parensOf_count q).2]
    exact h1 q hq

example : checkParentheses c!"(())()" = true := by rw [check_scan]; decide
example : checkParentheses c!"())(" = false := by rw [← Bool.not_eq_true, check_scan]; decide
example : ParensMatch c!"H3PO4 + (NH4)2MoO4" := (C96_parens_partial _).1 (by rw [check_scan]; decide)
example : ¬ ParensMatch c!"Ca)OH(2" := fun h => absurd (h.1 c!"Ca)" (by decide)) (by decide)

end Verif
