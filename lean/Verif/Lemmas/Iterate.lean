import Mathlib.Topology.Order.MonotoneConvergence
import Mathlib.Topology.Order.Basic
import Mathlib.Topology.Algebra.Ring.Real
import Mathlib.Dynamics.FixedPoints.Topology
import Mathlib.Analysis.SpecificLimits.Basic
import Mathlib.Tactic.Linarith
import Mathlib.Tactic.Positivity
import Mathlib.Tactic.FieldSimp
import Mathlib.Tactic.Ring

/-!
# Iterating a function of a real number

Monotone and contracting iterations.
-/

namespace Verif

open Filter Topology Set

/-- A monotone iteration started at the upper end of an interval whose lower end is fixed decreases to the largest fixed
point of the interval. -/
theorem iterate_down {F : ℝ → ℝ} {a b : ℝ} (hab : a ≤ b) (ha : F a = a) (hb : F b ≤ b) (hm : MonotoneOn F (Icc a b))
    (hc : ContinuousOn F (Icc a b)) :
    ∃ Z ∈ Icc a b, F Z = Z ∧ (∀ w ∈ Icc a b, F w = w → w ≤ Z) ∧ Antitone (fun n => F^[n] b) ∧
      Tendsto (fun n => F^[n] b) atTop (𝓝 Z) := by
  have hI : ∀ n, F^[n] b ∈ Icc a b := by
    intro n
    induction n with
    | zero => exact ⟨hab, le_rfl⟩
    | succ n ih =>
      rw [Function.iterate_succ_apply']
      exact ⟨by simpa [ha] using hm ⟨le_rfl, hab⟩ ih ih.1, (hm ih ⟨hab, le_rfl⟩ ih.2).trans hb⟩
  have hanti : Antitone (fun n => F^[n] b) := by
    apply antitone_nat_of_succ_le
    intro n
    induction n with
    | zero => simpa using hb
    | succ n ih =>
      have := hm (hI (n + 1)) (hI n) ih
      simpa only [Function.iterate_succ_apply'] using this
  have hbdd : BddBelow (range fun n => F^[n] b) := ⟨a, by rintro _ ⟨n, rfl⟩; exact (hI n).1⟩
  have hlim := tendsto_atTop_ciInf hanti hbdd
  set Z := ⨅ n, F^[n] b
  have hZ : Z ∈ Icc a b := isClosed_Icc.mem_of_tendsto hlim (Eventually.of_forall hI)
  have hfix : F Z = Z := by
    have h1 : Tendsto (fun n => F (F^[n] b)) atTop (𝓝 (F Z)) :=
      (hc Z hZ).tendsto.comp (tendsto_nhdsWithin_iff.mpr ⟨hlim, Eventually.of_forall hI⟩)
    have h2 : Tendsto (fun n => F (F^[n] b)) atTop (𝓝 Z) := by
      have := (tendsto_add_atTop_iff_nat 1).mpr hlim
      simpa only [Function.iterate_succ_apply'] using this
    exact tendsto_nhds_unique h1 h2
  refine ⟨Z, hZ, hfix, ?_, hanti, hlim⟩
  intro w hw hwf
  refine ge_of_tendsto' hlim ?_
  intro n
  induction n with
  | zero => exact hw.2
  | succ n ih =>
    rw [Function.iterate_succ_apply']
    exact hwf ▸ hm hw (hI n) ih

/-- A monotone iteration started at the lower end of an interval that it maps into itself increases to the smallest
fixed point of the interval. -/
theorem iterate_up {F : ℝ → ℝ} {a b : ℝ} (hab : a ≤ b) (ha : a ≤ F a) (hb : F b ≤ b) (hm : MonotoneOn F (Icc a b))
    (hc : ContinuousOn F (Icc a b)) :
    ∃ Z ∈ Icc a b, F Z = Z ∧ (∀ w ∈ Icc a b, F w = w → Z ≤ w) ∧ Monotone (fun n => F^[n] a) ∧
      Tendsto (fun n => F^[n] a) atTop (𝓝 Z) := by
  have hI : ∀ n, F^[n] a ∈ Icc a b := by
    intro n
    induction n with
    | zero => exact ⟨le_rfl, hab⟩
    | succ n ih =>
      rw [Function.iterate_succ_apply']
      exact ⟨ha.trans (hm ⟨le_rfl, hab⟩ ih ih.1), (hm ih ⟨hab, le_rfl⟩ ih.2).trans hb⟩
  have hmono : Monotone (fun n => F^[n] a) := by
    apply monotone_nat_of_le_succ
    intro n
    induction n with
    | zero => simpa using ha
    | succ n ih =>
      have := hm (hI n) (hI (n + 1)) ih
      simpa only [Function.iterate_succ_apply'] using this
  have hbdd : BddAbove (range fun n => F^[n] a) := ⟨b, by rintro _ ⟨n, rfl⟩; exact (hI n).2⟩
  have hlim := tendsto_atTop_ciSup hmono hbdd
  set Z := ⨆ n, F^[n] a
  have hZ : Z ∈ Icc a b := isClosed_Icc.mem_of_tendsto hlim (Eventually.of_forall hI)
  have hfix : F Z = Z := by
    have h1 : Tendsto (fun n => F (F^[n] a)) atTop (𝓝 (F Z)) :=
      (hc Z hZ).tendsto.comp (tendsto_nhdsWithin_iff.mpr ⟨hlim, Eventually.of_forall hI⟩)
    have h2 : Tendsto (fun n => F (F^[n] a)) atTop (𝓝 Z) := by
      have := (tendsto_add_atTop_iff_nat 1).mpr hlim
      simpa only [Function.iterate_succ_apply'] using this
    exact tendsto_nhds_unique h1 h2
  refine ⟨Z, hZ, hfix, ?_, hmono, hlim⟩
  intro w hw hwf
  refine le_of_tendsto' hlim ?_
  intro n
  induction n with
  | zero => exact hw.1
  | succ n ih =>
    rw [Function.iterate_succ_apply']
    exact hwf ▸ hm (hI n) hw ih

/-- The distance to a fixed point shrinks geometrically as long as the iteration stays in the set where the function
contracts. -/
theorem iterate_near {F : ℝ → ℝ} {S : Set ℝ} {L Z x : ℝ} (hL : 0 ≤ L) (hS : ∀ y ∈ S, F y ∈ S)
    (hF : ∀ y ∈ S, |F y - Z| ≤ L * |y - Z|) (hx : x ∈ S) (n : ℕ) : F^[n] x ∈ S ∧ |F^[n] x - Z| ≤ L ^ n * |x - Z| := by
  induction n with
  | zero => simpa using hx
  | succ n ih =>
    rw [Function.iterate_succ_apply']
    refine ⟨hS _ ih.1, (hF _ ih.1).trans ?_⟩
    rw [pow_succ']
    have := mul_le_mul_of_nonneg_left ih.2 hL
    linarith

end Verif
