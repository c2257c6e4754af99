import Verif.Spec.Units
import Mathlib.Tactic.Module
import Mathlib.Tactic.Abel
import Mathlib.Tactic.Linarith
import Mathlib.Tactic.Ring

/-! # Every list operation preserves weighted exponent sums -/

namespace Verif

variable {V : Type*} [AddCommGroup V] [Module ℚ V] (w : Sym → V)

@[simp] theorem wsum_nil : wsum w [] = 0 := rfl
@[simp] theorem wsum_cons (u : BaseUnit) (l : UList) :
    wsum w (u :: l) = u.exp • w u.unit + wsum w l := by simp [wsum]
@[simp] theorem wsum_append (l l' : UList) : wsum w (l ++ l') = wsum w l + wsum w l' := by
  simp [wsum]
theorem wsum_map_pow (e : ℚ) (l : UList) : wsum w (l.map (·.pow e)) = e • wsum w l := by
  induction l with
  | nil => simp
  | cons u l ih =>
    rw [List.map_cons, wsum_cons, ih, wsum_cons, smul_add, smul_smul]; simp [BaseUnit.pow, mul_comm]

theorem wsum_perm {l l' : UList} (h : l.Perm l') : wsum w l = wsum w l' :=
  (h.map _).sum_eq

/-! ## cancel -/

theorem cancelInner_unit (u : BaseUnit) (l : UList) : (cancelInner u l).1.unit = u.unit := by
  induction l generalizing u with
  | nil => rfl
  | cons v l ih => unfold cancelInner; split <;> simp [ih]

theorem cancelInner_net (u : BaseUnit) (l : UList) :
    (cancelInner u l).1.exp • w u.unit - wsum w (cancelInner u l).2 = u.exp • w u.unit - wsum w l := by
  induction l generalizing u with
  | nil => rfl
  | cons v l ih =>
    unfold cancelInner
    split
    · rename_i h
      have := ih ⟨u.unit, u.exp - v.exp⟩
      simp only [wsum_cons] at this ⊢
      rw [zero_smul, zero_add, this, sub_smul, ← h.1]
      abel
    · have := ih u
      simp only [wsum_cons]
      rw [sub_add_eq_sub_sub, sub_right_comm, this]; abel

theorem cancelLoop_net (top bot : UList) :
    net w (cancelLoop top bot).1 (cancelLoop top bot).2 = net w top bot := by
  induction top generalizing bot with
  | nil => rfl
  | cons u top ih =>
    unfold cancelLoop
    have h1 := ih (cancelInner u bot).2
    have h2 := cancelInner_net w u bot
    simp only [net, wsum_cons, cancelInner_unit] at *
    rw [add_sub_assoc, h1, ← add_sub_assoc, add_sub_right_comm, h2]; abel

theorem wsum_filter_split (l : UList) :
    wsum w (l.filter fun u => 0 < u.exp) -
      wsum w ((l.filter fun u => u.exp < 0).map fun u => ⟨u.unit, -u.exp⟩) = wsum w l := by
  induction l with
  | nil => simp
  | cons u l ih =>
    rcases lt_trichotomy u.exp 0 with h | h | h
    · simp only [List.filter_cons, h, not_lt.2 h.le, decide_true, decide_false, if_true,
        Bool.false_eq_true, if_false, List.map_cons, wsum_cons, neg_smul]
      rw [← ih]; abel
    · simp only [List.filter_cons, h, lt_irrefl, decide_false,
        Bool.false_eq_true, if_false, wsum_cons, zero_smul, zero_add]
      exact ih
    · simp only [List.filter_cons, h, not_lt.2 h.le, decide_true, decide_false, if_true,
        Bool.false_eq_true, if_false, wsum_cons]
      rw [← ih]; abel

theorem wsum_filter_ne (l : UList) : wsum w (l.filter fun u => u.exp ≠ 0) = wsum w l := by
  induction l with
  | nil => simp
  | cons u l ih =>
    by_cases h : u.exp = 0
    · simp only [List.filter_cons, h, ne_eq, not_true_eq_false, decide_false, Bool.false_eq_true,
        if_false, wsum_cons, zero_smul, zero_add]; exact ih
    · simp only [List.filter_cons, h, ne_eq, not_false_eq_true, decide_true, if_true, wsum_cons]
      rw [← ih]

theorem cancelUnits_net (top bot : UList) :
    net w (cancelUnits top bot).1 (cancelUnits top bot).2 = net w top bot := by
  rw [← cancelLoop_net w top bot]
  unfold cancelUnits
  simp only [net, wsum_append]
  rw [wsum_filter_ne, sub_add_eq_sub_sub, wsum_filter_split]

/-! ## combine -/

theorem absorb_unit (u : BaseUnit) (l : UList) : (absorb u l).1.unit = u.unit := by
  induction l generalizing u with
  | nil => rfl
  | cons v l ih => unfold absorb; split <;> simp [ih]

theorem absorb_wsum (u : BaseUnit) (l : UList) :
    (absorb u l).1.exp • w u.unit + wsum w (absorb u l).2 = u.exp • w u.unit + wsum w l := by
  induction l generalizing u with
  | nil => rfl
  | cons v l ih =>
    unfold absorb
    split
    · rename_i h
      have := ih ⟨u.unit, u.exp + v.exp⟩
      simp only [wsum_cons] at this ⊢
      rw [zero_smul, zero_add, this, add_smul, ← h]
      abel
    · have := ih u
      simp only [wsum_cons]
      rw [add_left_comm, this]; abel

theorem combineAt_wsum (l : UList) (i : ℕ) : wsum w (combineAt l i) = wsum w l := by
  unfold combineAt
  split
  · rfl
  · rename_i u post h
    have h1 := absorb_wsum w u (l.take i)
    have h2 := absorb_wsum w (absorb u (l.take i)).1 post
    have h3 : wsum w l = wsum w (l.take i) + wsum w (u :: post) := by
      rw [← h, ← wsum_append, List.take_append_drop]
    simp only [wsum_append, wsum_cons, absorb_unit] at *
    rw [h2, h3, ← add_assoc, add_comm (wsum w _) (_ • _), h1]; abel

theorem foldl_combineAt_wsum (is : List ℕ) (l : UList) :
    wsum w (is.foldl combineAt l) = wsum w l := by
  induction is generalizing l with
  | nil => rfl
  | cons i is ih => rw [List.foldl_cons, ih, combineAt_wsum]

theorem combineUnits_wsum (l : UList) : wsum w (combineUnits l) = wsum w l :=
  foldl_combineAt_wsum w _ l

end Verif
