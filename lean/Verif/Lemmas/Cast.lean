import Verif.Units.Real
import Verif.Units.Expr

/-!
# The unit part of a computation does not depend on the field

Evaluating the unit pipeline over ℚ (which the kernel can do) determines it over ℝ.
-/

namespace Verif

theorem pow_cast {q x : ℚ} {e : ℚ} (h : (PyPow.pow q e : PyM ℚ) = .ok x) :
    (PyPow.pow ((q : ℚ) : ℝ) e : PyM ℝ) = .ok (x : ℝ) := by
  simp only [PyPow.pow] at h ⊢
  split at h
  · cases h
  · next hd =>
    simp only [ne_eq, not_not] at hd
    split at h
    · cases h
    · next hz =>
      have hz' : ¬ ((q : ℝ) = 0 ∧ e < 0) := by simpa using hz
      rw [if_neg hz', if_neg (by simp [hd])]
      cases h
      have he : ((e : ℚ) : ℝ) = ((e.num : ℤ) : ℝ) := by
        have : e = (e.num : ℚ) := (Rat.den_eq_one_iff e).1 hd |>.symm
        conv_lhs => rw [this]
        simp
      rw [he, Real.rpow_intCast]
      congr 1
      split
      · next h0 =>
        obtain ⟨n, hn⟩ := Int.eq_ofNat_of_zero_le h0
        rw [hn]; simp
      · next h0 =>
        obtain ⟨n, hn⟩ := Int.eq_ofNat_of_zero_le (show 0 ≤ -e.num by omega)
        have : e.num = -(n : ℤ) := by omega
        rw [this]; simp

theorem prefixFactorLoop_cast (inv : Bool) (l : List (Sym × BaseUnit)) (f x : ℚ)
    (h : prefixFactorLoop (K := ℚ) inv f l = .ok x) :
    prefixFactorLoop (K := ℝ) inv (f : ℝ) l = .ok (x : ℝ) := by
  induction l generalizing f with
  | nil => simp only [prefixFactorLoop] at h ⊢; cases h; rfl
  | cons a l ih =>
    obtain ⟨p, u⟩ := a
    simp only [prefixFactorLoop] at h ⊢
    split at h
    · next hp => rw [if_pos hp]; exact ih f h
    · next hp =>
      rw [if_neg hp]
      split at h
      · cases h
      · next q hq =>
        split at h
        · cases h
        · next y hy =>
          simp only [Rat.cast_id] at hy
          have hc : (if inv then 1 / (q : ℝ) else (q : ℝ)) = ((if inv then 1 / q else q : ℚ) : ℝ) := by
            split <;> simp
          rw [hc, pow_cast hy]
          simpa using ih _ h

theorem deconstructPrefixes_cast {top bot t b : UList} {f : ℚ}
    (h : deconstructPrefixes (K := ℚ) top bot = .ok (t, b, f)) :
    deconstructPrefixes (K := ℝ) top bot = .ok (t, b, (f : ℝ)) := by
  simp only [deconstructPrefixes] at h ⊢
  split at h
  · cases h
  · next ts hts =>
    split at h
    · cases h
    · next bs hbs =>
      split at h
      · cases h
      · next f1 h1 =>
        split at h
        · cases h
        · next f2 h2 =>
          cases h
          rw [show (1 : ℝ) = ((1 : ℚ) : ℝ) by simp, prefixFactorLoop_cast _ _ _ _ h1]
          simp only
          rw [prefixFactorLoop_cast _ _ _ _ h2]

theorem reduceUnits_cast {c1 c2 : Bool} {top bot t b : UList} {f : ℚ}
    (h : reduceUnits (K := ℚ) c1 c2 top bot = .ok (t, b, f)) :
    reduceUnits (K := ℝ) c1 c2 top bot = .ok (t, b, (f : ℝ)) := by
  simp only [reduceUnits] at h ⊢
  split at h
  · cases h
  · next t' b' f' hp =>
    rw [deconstructPrefixes_cast hp]
    simp only
    split at h
    · cases h
    · next t'' b'' hd =>
      split at h
      · cases h
      · next t3 b3 hs =>
        cases h
        rfl

end Verif
