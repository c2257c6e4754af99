import Verif.Spec.Histories
import Mathlib.Analysis.Calculus.Deriv.Inv
import Mathlib.Analysis.Calculus.Deriv.MeanValue
import Mathlib.Analysis.Calculus.Deriv.Pow
import Mathlib.Analysis.SpecialFunctions.ExpDeriv
import Mathlib.Analysis.SpecialFunctions.Sqrt
import Mathlib.Topology.Order.Compact

/-!
# The maximum principle for the diffusion equation, and uniqueness
-/

namespace Verif

open Filter Topology

variable {κ : ℝ} {u v : ℝ → ℝ → ℝ} {x t : ℝ}

theorem DiffusesAt.add (hu : DiffusesAt κ u x t) (hv : DiffusesAt κ v x t) : DiffusesAt κ (fun x t => u x t + v x t) x t := by
  obtain ⟨g, c, h1, h2, h3⟩ := hu
  obtain ⟨g', c', h1', h2', h3'⟩ := hv
  refine ⟨fun y => g y + g' y, c + c', ?_, h2.fun_add h2', (h3.fun_add h3').congr_deriv (by ring)⟩
  filter_upwards [h1, h1'] with y hy hy' using hy.fun_add hy'

theorem DiffusesAt.smul (hu : DiffusesAt κ u x t) (a : ℝ) : DiffusesAt κ (fun x t => a * u x t) x t := by
  obtain ⟨g, c, h1, h2, h3⟩ := hu
  refine ⟨fun y => a * g y, a * c, ?_, h2.const_mul a, (h3.const_mul a).congr_deriv (by ring)⟩
  filter_upwards [h1] with y hy using hy.const_mul a

theorem DiffusesAt.const (κ a x t : ℝ) : DiffusesAt κ (fun _ _ => a) x t :=
  ⟨fun _ => 0, 0, .of_forall fun _ => hasDerivAt_const _ _, hasDerivAt_const _ _, by simpa using hasDerivAt_const t a⟩

/-- At an inner maximum over the places the curvature is not positive. -/
theorem curvature_at_max {f g : ℝ → ℝ} {c x : ℝ} (hf : ∀ᶠ y in 𝓝 x, HasDerivAt f (g y) y) (hg : HasDerivAt g c x)
    (hmax : IsLocalMax f x) : c ≤ 0 := by
  by_contra hc
  push Not at hc
  have h0 : g x = 0 := hmax.hasDerivAt_eq_zero hf.self_of_nhds
  have hpos : ∀ᶠ y in 𝓝[>] x, 0 < g y := by
    have h := (hasDerivAt_iff_tendsto_slope.1 hg).eventually (lt_mem_nhds hc)
    have h' : ∀ᶠ y in 𝓝[>] x, 0 < slope g x y := h.filter_mono (nhdsWithin_mono _ fun y hy => ne_of_gt hy)
    filter_upwards [h', self_mem_nhdsWithin] with y hy hxy
    have hxy' : 0 < y - x := sub_pos.2 hxy
    rw [slope_def_field, h0, sub_zero] at hy
    exact (div_pos_iff_of_pos_right hxy').1 hy
  have hall : ∀ᶠ y in 𝓝[>] x, 0 < g y ∧ HasDerivAt f (g y) y ∧ f y ≤ f x :=
    hpos.and ((hf.filter_mono nhdsWithin_le_nhds).and (hmax.filter_mono nhdsWithin_le_nhds))
  obtain ⟨b, hb, hI⟩ := mem_nhdsGT_iff_exists_Ioo_subset.1 hall
  have hb' : x < b := hb
  obtain ⟨z, hz1, hz2⟩ := exists_between hb'
  have hcont : ContinuousOn f (Set.Icc x z) := fun y hy => by
    rcases eq_or_lt_of_le hy.1 with rfl | h
    · exact hf.self_of_nhds.continuousAt.continuousWithinAt
    · exact (hI ⟨h, hy.2.trans_lt hz2⟩).2.1.continuousAt.continuousWithinAt
  obtain ⟨y, hy, he⟩ := exists_hasDerivAt_eq_slope f g hz1 hcont fun y hy => (hI ⟨hy.1, hy.2.trans hz2⟩).2.1
  have h1 := (hI ⟨hy.1, hy.2.trans hz2⟩).1
  have h2 := (hI ⟨hz1, hz2⟩).2.2
  rw [he] at h1
  have := (div_pos_iff_of_pos_right (sub_pos.2 hz1)).1 h1
  linarith

/-- The weak maximum principle: a solution that is not positive in the beginning and at both ends is never positive. -/
theorem max_principle (hκ : 0 ≤ κ) {f : ℝ → ℝ → ℝ} {a b t₀ t₁ : ℝ}
    (hc : ContinuousOn (fun p : ℝ × ℝ => f p.1 p.2) (Set.Icc a b ×ˢ Set.Icc t₀ t₁))
    (hd : ∀ x ∈ Set.Ioo a b, ∀ t ∈ Set.Ioc t₀ t₁, DiffusesAt κ f x t)
    (h0 : ∀ x ∈ Set.Icc a b, f x t₀ ≤ 0) (ha : ∀ t ∈ Set.Icc t₀ t₁, f a t ≤ 0) (hb : ∀ t ∈ Set.Icc t₀ t₁, f b t ≤ 0) :
    ∀ x ∈ Set.Icc a b, ∀ t ∈ Set.Icc t₀ t₁, f x t ≤ 0 := by
  intro x hx t ht
  by_contra hpos
  push Not at hpos
  have ht0 : t₀ < t := lt_of_le_of_ne ht.1 fun e => by
    have := h0 x hx
    rw [e] at this; linarith
  obtain ⟨ε, hε, hε'⟩ : ∃ ε, 0 < ε ∧ 0 < f x t - ε * (t - t₀) := by
    refine ⟨f x t / (2 * (t - t₀)), by have := sub_pos.2 ht0; positivity, ?_⟩
    have := sub_pos.2 ht0
    field_simp
    linarith
  have hcont : ContinuousOn (fun p : ℝ × ℝ => f p.1 p.2 - ε * (p.2 - t₀)) (Set.Icc a b ×ˢ Set.Icc t₀ t₁) :=
    hc.sub (by fun_prop)
  obtain ⟨⟨y, r⟩, ⟨hy, hr⟩, hmax⟩ := (isCompact_Icc.prod isCompact_Icc).exists_isMaxOn (s := Set.Icc a b ×ˢ Set.Icc t₀ t₁)
    ⟨(x, t), hx, ht⟩ hcont
  simp only at hy hr
  have hbig : 0 < f y r - ε * (r - t₀) := hε'.trans_le (hmax (show (x, t) ∈ Set.Icc a b ×ˢ Set.Icc t₀ t₁ from ⟨hx, ht⟩))
  have hr0 : t₀ < r := lt_of_le_of_ne hr.1 fun e => by
    have := h0 y hy
    rw [e] at this
    rw [e] at hbig; linarith
  have hfpos : 0 < f y r := by have := mul_pos hε (sub_pos.2 hr0); linarith
  have hya : a < y := lt_of_le_of_ne hy.1 fun e => by have := ha r hr; rw [e] at this; linarith
  have hyb : y < b := lt_of_le_of_ne hy.2 fun e => by have := hb r hr; rw [← e] at this; linarith
  obtain ⟨g, c, h1, h2, h3⟩ := hd y ⟨hya, hyb⟩ r ⟨hr0, hr.2⟩
  have hloc : IsLocalMax (fun y => f y r) y := by
    filter_upwards [Icc_mem_nhds hya hyb] with z hz
    have := hmax (show (z, r) ∈ Set.Icc a b ×ˢ Set.Icc t₀ t₁ from ⟨hz, hr⟩)
    simp only [Set.mem_ofPred_eq] at this
    linarith
  have hcurv := curvature_at_max h1 h2 hloc
  have hrate : ε ≤ κ * c := by
    have hs : Tendsto (slope (fun s => f y s) r) (𝓝[<] r) (𝓝 (κ * c)) :=
      (hasDerivAt_iff_tendsto_slope.1 h3).mono_left (nhdsWithin_mono _ fun z hz => ne_of_lt hz)
    refine ge_of_tendsto hs ?_
    filter_upwards [Ioo_mem_nhdsLT hr0] with z hz
    have := hmax (show (y, z) ∈ Set.Icc a b ×ˢ Set.Icc t₀ t₁ from ⟨hy, hz.1.le, hz.2.le.trans hr.2⟩)
    simp only [Set.mem_ofPred_eq] at this
    rw [slope_def_field, le_div_iff_of_neg (sub_neg.2 hz.2)]
    linarith
  nlinarith

theorem start_uniform {w : ℝ → ℝ → ℝ} {J : Set ℝ} (hJ : IsCompact J) {l ε : ℝ} (hε : l < ε)
    (hstart : ∀ y ∈ J, Tendsto (fun p : ℝ × ℝ => w p.1 p.2) (𝓝 y ×ˢ 𝓝[>] 0) (𝓝 l)) :
    ∀ᶠ s in 𝓝[>] (0 : ℝ), ∀ y ∈ J, w y s ≤ ε := by
  refine hJ.induction_on (p := fun S => ∀ᶠ s in 𝓝[>] (0 : ℝ), ∀ y ∈ S, w y s ≤ ε) (by simp) ?_ ?_ ?_
  · intro S T hST hT
    filter_upwards [hT] with s hs y hy using hs y (hST hy)
  · intro S T hS hT
    filter_upwards [hS, hT] with s h1 h2 y hy
    exact hy.elim (h1 y) (h2 y)
  · intro y hy
    obtain ⟨P, hP, Q, hQ, h⟩ := eventually_prod_iff.1 ((hstart y hy).eventually (gt_mem_nhds hε))
    refine ⟨{z | P z}, mem_nhdsWithin_of_mem_nhds hP, ?_⟩
    filter_upwards [hQ] with s hs z hz using (h hz hs).le

/-- A solution stays below a barrier that lies above it at the ends, and above it in the beginning except on a compact set
of inner places. -/
theorem below_barrier (hκ : 0 ≤ κ) {w B : ℝ → ℝ → ℝ} {a b ε τ l : ℝ} {J : Set ℝ} (hl : l ≤ 0) (hJ : IsCompact J) (hε : 0 < ε) (hτ : 0 < τ)
    (hstart : ∀ y ∈ J, Tendsto (fun p : ℝ × ℝ => w p.1 p.2) (𝓝 y ×ˢ 𝓝[>] 0) (𝓝 l))
    (hcw : ContinuousOn (fun p : ℝ × ℝ => w p.1 p.2) (Set.Icc a b ×ˢ Set.Ioi 0))
    (hcB : ContinuousOn (fun p : ℝ × ℝ => B p.1 p.2) (Set.Icc a b ×ˢ Set.Ioi 0))
    (hdw : ∀ x ∈ Set.Ioo a b, ∀ t, 0 < t → DiffusesAt κ w x t) (hdB : ∀ x ∈ Set.Ioo a b, ∀ t, 0 < t → DiffusesAt κ B x t)
    (hJB : ∀ y ∈ Set.Icc a b, y ∉ J → ∀ s, 0 < s → s < τ → w y s ≤ B y s)
    (hB : ∀ y ∈ Set.Icc a b, ∀ s, 0 < s → 0 ≤ B y s)
    (ha : ∀ s, 0 < s → w a s ≤ B a s) (hb : ∀ s, 0 < s → w b s ≤ B b s) :
    ∀ x ∈ Set.Icc a b, ∀ t, 0 < t → w x t ≤ ε + B x t := by
  intro x hx t ht
  obtain ⟨η, hη, hη'⟩ := ((start_uniform hJ (hl.trans_lt hε) hstart).and (Ioo_mem_nhdsGT (lt_min hτ ht))).exists
  have hη0 : 0 < η := hη'.1
  have hητ : η < τ := hη'.2.trans_le (min_le_left _ _)
  have hηt : η < t := hη'.2.trans_le (min_le_right _ _)
  have hsub : Set.Icc a b ×ˢ Set.Icc η t ⊆ Set.Icc a b ×ˢ Set.Ioi 0 :=
    Set.prod_mono le_rfl fun s hs => hη0.trans_le hs.1
  have key := max_principle hκ (f := fun x t => w x t + (-1 * B x t + -ε)) (a := a) (b := b) (t₀ := η) (t₁ := t)
    ((hcw.mono hsub).add (((continuousOn_const.mul (hcB.mono hsub))).add continuousOn_const))
    (fun y hy s hs => (hdw y hy s (hη0.trans hs.1)).add (((hdB y hy s (hη0.trans hs.1)).smul (-1)).add (DiffusesAt.const _ _ _ _)))
    (fun y hy => by
      by_cases hyJ : y ∈ J
      · have := hη y hyJ
        have := hB y hy η hη0
        linarith
      · have := hJB y hy hyJ η hη0 hητ
        linarith)
    (fun s hs => by have := ha s (hη0.trans_le hs.1); linarith)
    (fun s hs => by have := hb s (hη0.trans_le hs.1); linarith)
    x hx t ⟨hηt.le, le_rfl⟩
  linarith

/-! ## Barriers -/

/-- A heat pulse around `p` that has spread for the time `τ` already. -/
noncomputable def puff (κ τ p x t : ℝ) : ℝ :=
  2 * Real.sqrt τ * ((Real.sqrt (t + τ))⁻¹ * Real.exp (-((x - p) ^ 2 / (4 * κ * (t + τ)))))

theorem puff_nonneg (κ τ p x t : ℝ) : 0 ≤ puff κ τ p x t := by unfold puff; positivity

theorem puff_diffuses (hκ : 0 < κ) {τ : ℝ} (hτ : 0 < τ) (p x : ℝ) {t : ℝ} (ht : 0 < t) :
    DiffusesAt κ (fun x t => puff κ τ p x t) x t := by
  have hr : 0 < t + τ := by positivity
  refine DiffusesAt.smul (u := fun x t => (Real.sqrt (t + τ))⁻¹ * Real.exp (-((x - p) ^ 2 / (4 * κ * (t + τ)))))
    ⟨fun y => (Real.sqrt (t + τ))⁻¹ * (Real.exp (-((y - p) ^ 2 / (4 * κ * (t + τ)))) * -((y - p) / (2 * κ * (t + τ)))),
      (Real.sqrt (t + τ))⁻¹ * (Real.exp (-((x - p) ^ 2 / (4 * κ * (t + τ)))) *
        ((x - p) ^ 2 / (2 * κ * (t + τ)) ^ 2 - 1 / (2 * κ * (t + τ)))), ?_, ?_, ?_⟩ _
  · refine .of_forall fun y => ?_
    have h1 : HasDerivAt (fun y : ℝ => -((y - p) ^ 2 / (4 * κ * (t + τ)))) (-((y - p) / (2 * κ * (t + τ)))) y := by
      refine (((((hasDerivAt_id y).sub_const p).fun_pow 2).div_const (4 * κ * (t + τ))).fun_neg).congr_deriv ?_
      simp only [id]
      field_simp
      ring
    exact h1.exp.const_mul _
  · have h1 : HasDerivAt (fun y : ℝ => -((y - p) ^ 2 / (4 * κ * (t + τ)))) (-((x - p) / (2 * κ * (t + τ)))) x := by
      refine (((((hasDerivAt_id x).sub_const p).fun_pow 2).div_const (4 * κ * (t + τ))).fun_neg).congr_deriv ?_
      simp only [id]
      field_simp
      ring
    have h2 : HasDerivAt (fun y : ℝ => -((y - p) / (2 * κ * (t + τ)))) (-(1 / (2 * κ * (t + τ)))) x :=
      (((hasDerivAt_id x).sub_const p).div_const _).fun_neg
    refine ((h1.exp.fun_mul h2).const_mul _).congr_deriv ?_
    generalize Real.exp _ = e
    rw [← div_pow]
    ring
  · have h1 : HasDerivAt (fun s : ℝ => -((x - p) ^ 2 / (4 * κ * (s + τ)))) ((x - p) ^ 2 / (4 * κ * (t + τ) ^ 2)) t := by
      have hin : HasDerivAt (fun s : ℝ => 4 * κ * (s + τ)) (4 * κ) t := by
        simpa using ((hasDerivAt_id t).add_const τ).const_mul (4 * κ)
      refine ((hin.inv (by positivity)).const_mul ((x - p) ^ 2)).fun_neg.congr_deriv ?_
      field_simp
    have h2 : HasDerivAt (fun s : ℝ => (Real.sqrt (s + τ))⁻¹) (-(1 / (2 * (t + τ))) * (Real.sqrt (t + τ))⁻¹) t := by
      have hs : 0 < Real.sqrt (t + τ) := Real.sqrt_pos.2 hr
      refine ((((hasDerivAt_id t).add_const τ).sqrt hr.ne').inv hs.ne').congr_deriv ?_
      simp only [id]
      rw [Real.sq_sqrt hr.le]
      field_simp
    refine (h2.fun_mul h1.exp).congr_deriv ?_
    field_simp
    ring

theorem puff_continuous (hκ : 0 < κ) {τ : ℝ} (hτ : 0 < τ) (p : ℝ) (S : Set ℝ) :
    ContinuousOn (fun q : ℝ × ℝ => puff κ τ p q.1 q.2) (S ×ˢ Set.Ioi 0) := by
  unfold puff
  refine continuousOn_const.mul (ContinuousOn.mul (ContinuousOn.inv₀ (by fun_prop) ?_) ?_)
  · rintro ⟨x, t⟩ ⟨_, ht⟩
    have ht' : 0 < t := ht
    exact (Real.sqrt_pos.2 (by simp only; positivity)).ne'
  · refine Real.continuous_exp.comp_continuousOn (ContinuousOn.neg (ContinuousOn.div (by fun_prop) (by fun_prop) ?_))
    rintro ⟨x, t⟩ ⟨_, ht⟩
    have ht' : 0 < t := ht
    simp only; positivity

theorem puff_near (hκ : 0 < κ) {τ p x t : ℝ} (hτ : 0 < τ) (ht : 0 < t) (htτ : t < τ) (hx : (x - p) ^ 2 ≤ κ * τ) :
    1 ≤ puff κ τ p x t := by
  have h1 : Real.exp (-(1 / 4)) ≤ Real.exp (-((x - p) ^ 2 / (4 * κ * (t + τ)))) := by
    refine Real.exp_le_exp.2 (neg_le_neg ?_)
    rw [div_le_div_iff₀ (by positivity) (by norm_num)]
    nlinarith [mul_pos hκ ht]
  have h2 : (3 : ℝ) / 4 ≤ Real.exp (-(1 / 4)) := by
    have := Real.add_one_le_exp (-(1 / 4 : ℝ)); linarith
  have hs : 0 < Real.sqrt (t + τ) := Real.sqrt_pos.2 (by positivity)
  have h3 : (2 : ℝ) / 3 ≤ Real.sqrt τ * (Real.sqrt (t + τ))⁻¹ := by
    rw [← div_eq_mul_inv, le_div_iff₀ hs]
    have h : (2 / 3 * Real.sqrt (t + τ)) ^ 2 ≤ Real.sqrt τ ^ 2 := by
      rw [mul_pow, Real.sq_sqrt (by positivity), Real.sq_sqrt hτ.le]
      nlinarith
    exact (abs_le_of_sq_le_sq' h (Real.sqrt_nonneg τ)).2
  unfold puff
  calc (1 : ℝ) = 2 * (2 / 3) * (3 / 4) := by norm_num
    _ ≤ 2 * (Real.sqrt τ * (Real.sqrt (t + τ))⁻¹) * Real.exp (-((x - p) ^ 2 / (4 * κ * (t + τ)))) := by
      have := h2.trans h1
      gcongr
    _ = _ := by ring

theorem puff_small (hκ : 0 < κ) {τ p x t : ℝ} (hτ : 0 < τ) (ht : 0 < t) : puff κ τ p x t ≤ 2 * Real.sqrt τ / Real.sqrt t := by
  have h1 : Real.exp (-((x - p) ^ 2 / (4 * κ * (t + τ)))) ≤ 1 := Real.exp_le_one_iff.2 (by
    have : 0 ≤ (x - p) ^ 2 / (4 * κ * (t + τ)) := by positivity
    linarith)
  have hs : 0 < Real.sqrt t := Real.sqrt_pos.2 ht
  have h2 : (Real.sqrt (t + τ))⁻¹ ≤ (Real.sqrt t)⁻¹ := inv_anti₀ hs (Real.sqrt_le_sqrt (by linarith))
  unfold puff
  rw [div_eq_mul_inv (2 * Real.sqrt τ)]
  refine mul_le_mul_of_nonneg_left ?_ (by positivity)
  calc _ ≤ (Real.sqrt t)⁻¹ * 1 := by gcongr
    _ = _ := mul_one _

/-! ## Uniqueness -/

theorem slab_nonpos (hκ : 0 < κ) {w : ℝ → ℝ → ℝ} {a b M l : ℝ} (hl : l ≤ 0) (hM : ∀ x ∈ Set.Icc a b, ∀ t, 0 < t → w x t ≤ M)
    (hc : ContinuousOn (fun p : ℝ × ℝ => w p.1 p.2) (Set.Icc a b ×ˢ Set.Ioi 0))
    (hd : ∀ x ∈ Set.Ioo a b, ∀ t, 0 < t → DiffusesAt κ w x t)
    (ha : ∀ t, 0 < t → w a t ≤ 0) (hb : ∀ t, 0 < t → w b t ≤ 0)
    (hstart : ∀ x ∈ Set.Ioo a b, Tendsto (fun p : ℝ × ℝ => w p.1 p.2) (𝓝 x ×ˢ 𝓝[>] 0) (𝓝 l)) :
    ∀ x ∈ Set.Icc a b, ∀ t, 0 < t → w x t ≤ 0 := by
  intro x hx t ht
  have hM' : ∀ x ∈ Set.Icc a b, ∀ t, 0 < t → w x t ≤ |M| := fun x hx t ht => (hM x hx t ht).trans (le_abs_self _)
  have key : ∀ τ, 0 < τ → w x t ≤ τ + |M| * (2 * Real.sqrt τ / Real.sqrt t + 2 * Real.sqrt τ / Real.sqrt t) := by
    intro τ hτ
    have hρ : 0 < Real.sqrt (κ * τ) := Real.sqrt_pos.2 (by positivity)
    have hsq : Real.sqrt (κ * τ) ^ 2 = κ * τ := Real.sq_sqrt (by positivity)
    have h := below_barrier hκ.le (w := w) (B := fun x t => |M| * (puff κ τ a x t + puff κ τ b x t)) (a := a) (b := b)
      (J := Set.Icc (a + Real.sqrt (κ * τ)) (b - Real.sqrt (κ * τ))) hl isCompact_Icc hτ hτ
      (fun y hy => hstart y ⟨by linarith [hy.1], by linarith [hy.2]⟩) hc
      (continuousOn_const.mul ((puff_continuous hκ hτ a _).add (puff_continuous hκ hτ b _))) hd
      (fun y _ s hs => ((puff_diffuses hκ hτ a y hs).add (puff_diffuses hκ hτ b y hs)).smul |M|)
      (fun y hy hyJ s hs hsτ => ?_)
      (fun y _ s _ => mul_nonneg (abs_nonneg _) (add_nonneg (puff_nonneg ..) (puff_nonneg ..)))
      (fun s hs => (ha s hs).trans (mul_nonneg (abs_nonneg _) (add_nonneg (puff_nonneg ..) (puff_nonneg ..))))
      (fun s hs => (hb s hs).trans (mul_nonneg (abs_nonneg _) (add_nonneg (puff_nonneg ..) (puff_nonneg ..)))) x hx t ht
    · refine h.trans ?_
      gcongr
      · exact puff_small hκ hτ ht
      · exact puff_small hκ hτ ht
    · refine (hM' y hy s hs).trans (le_mul_of_one_le_right (abs_nonneg _) ?_)
      by_cases h1 : a + Real.sqrt (κ * τ) ≤ y
      · have h2 : b - y ≤ Real.sqrt (κ * τ) := by
          by_contra h3
          exact hyJ ⟨h1, by linarith⟩
        have := puff_near hκ (p := b) (x := y) hτ hs hsτ (by nlinarith [hy.2])
        have := puff_nonneg κ τ a y s
        linarith
      · have := puff_near hκ (p := a) (x := y) hτ hs hsτ (by nlinarith [hy.1])
        have := puff_nonneg κ τ b y s
        linarith
  have hlim : Tendsto (fun τ => τ + |M| * (2 * Real.sqrt τ / Real.sqrt t + 2 * Real.sqrt τ / Real.sqrt t)) (𝓝[>] 0) (𝓝 0) := by
    have hcont : Continuous fun τ => τ + |M| * (2 * Real.sqrt τ / Real.sqrt t + 2 * Real.sqrt τ / Real.sqrt t) := by fun_prop
    have h := hcont.tendsto 0
    simp only [Real.sqrt_zero, mul_zero, zero_div, add_zero] at h
    exact h.mono_left nhdsWithin_le_nhds
  refine ge_of_tendsto hlim ?_
  filter_upwards [self_mem_nhdsWithin] with τ hτ using key τ hτ

theorem parabola_diffuses (κ R x t : ℝ) : DiffusesAt κ (fun x t => (x ^ 2 + 2 * κ * t) / R ^ 2) x t := by
  refine ⟨fun y => 2 * y / R ^ 2, 2 / R ^ 2, .of_forall fun y => ?_, ?_, ?_⟩
  · refine ((((hasDerivAt_id y).fun_pow 2).add_const (2 * κ * t)).div_const (R ^ 2)).congr_deriv ?_
    simp
  · refine (((hasDerivAt_id x).const_mul 2).div_const (R ^ 2)).congr_deriv ?_
    simp
  · refine ((((hasDerivAt_id t).const_mul (2 * κ)).const_add (x ^ 2)).div_const (R ^ 2)).congr_deriv ?_
    simp only [mul_one]
    ring

theorem halfSpace_nonpos (hκ : 0 < κ) {w : ℝ → ℝ → ℝ} {M l : ℝ} (hl : l ≤ 0) (hM : ∀ x, 0 ≤ x → ∀ t, 0 < t → w x t ≤ M)
    (hc : ContinuousOn (fun p : ℝ × ℝ => w p.1 p.2) (Set.Ici 0 ×ˢ Set.Ioi 0))
    (hd : ∀ x, 0 < x → ∀ t, 0 < t → DiffusesAt κ w x t) (ha : ∀ t, 0 < t → w 0 t ≤ 0)
    (hstart : ∀ x, 0 < x → Tendsto (fun p : ℝ × ℝ => w p.1 p.2) (𝓝 x ×ˢ 𝓝[>] 0) (𝓝 l)) :
    ∀ x, 0 ≤ x → ∀ t, 0 < t → w x t ≤ 0 := by
  intro x hx t ht
  have hM' : ∀ x, 0 ≤ x → ∀ t, 0 < t → w x t ≤ |M| := fun x hx t ht => (hM x hx t ht).trans (le_abs_self _)
  have key : ∀ R, 0 < R → x ≤ R → w x t ≤ R⁻¹ + |M| * (2 * Real.sqrt R⁻¹ / Real.sqrt t + (x ^ 2 + 2 * κ * t) * R⁻¹ ^ 2) := by
    intro R hR hxR
    have hτ : 0 < R⁻¹ := by positivity
    have hsq : Real.sqrt (κ * R⁻¹) ^ 2 = κ * R⁻¹ := Real.sq_sqrt (by positivity)
    have hρ : 0 < Real.sqrt (κ * R⁻¹) := Real.sqrt_pos.2 (by positivity)
    have hBnn : ∀ y s : ℝ, 0 < s → 0 ≤ |M| * (puff κ R⁻¹ 0 y s + (y ^ 2 + 2 * κ * s) / R ^ 2) := fun y s hs =>
      mul_nonneg (abs_nonneg _) (add_nonneg (puff_nonneg ..) (by positivity))
    have h := below_barrier hκ.le (w := w) (B := fun x t => |M| * (puff κ R⁻¹ 0 x t + (x ^ 2 + 2 * κ * t) / R ^ 2)) (a := 0)
      (b := R) (J := Set.Icc (Real.sqrt (κ * R⁻¹)) R) hl isCompact_Icc hτ hτ
      (fun y hy => hstart y (hρ.trans_le hy.1)) (hc.mono (Set.prod_mono Set.Icc_subset_Ici_self le_rfl))
      (continuousOn_const.mul ((puff_continuous hκ hτ 0 _).add (by fun_prop)))
      (fun y hy s hs => hd y hy.1 s hs)
      (fun y _ s hs => ((puff_diffuses hκ hτ 0 y hs).add (parabola_diffuses κ R y s)).smul |M|)
      (fun y hy hyJ s hs hsτ => ?_) (fun y _ s hs => hBnn y s hs) (fun s hs => (ha s hs).trans (hBnn 0 s hs))
      (fun s hs => ?_) x ⟨hx, hxR⟩ t ht
    · refine h.trans ?_
      rw [div_eq_mul_inv (x ^ 2 + 2 * κ * t), ← inv_pow]
      gcongr
      exact puff_small hκ hτ ht
    · refine (hM' y hy.1 s hs).trans (le_mul_of_one_le_right (abs_nonneg _) ?_)
      have hyρ : y < Real.sqrt (κ * R⁻¹) := by
        by_contra h3
        exact hyJ ⟨not_lt.1 h3, hy.2⟩
      have := puff_near hκ (p := 0) (x := y) hτ hs hsτ (by nlinarith [hy.1])
      have : 0 ≤ (y ^ 2 + 2 * κ * s) / R ^ 2 := by positivity
      linarith
    · refine (hM' R hR.le s hs).trans (le_mul_of_one_le_right (abs_nonneg _) ?_)
      have h1 : 1 ≤ (R ^ 2 + 2 * κ * s) / R ^ 2 := by
        rw [le_div_iff₀ (by positivity)]
        nlinarith [mul_pos hκ hs]
      have := puff_nonneg κ R⁻¹ 0 R s
      linarith
  have hlim : Tendsto (fun R : ℝ => R⁻¹ + |M| * (2 * Real.sqrt R⁻¹ / Real.sqrt t + (x ^ 2 + 2 * κ * t) * R⁻¹ ^ 2)) atTop
      (𝓝 0) := by
    have hcont : Continuous fun r : ℝ => r + |M| * (2 * Real.sqrt r / Real.sqrt t + (x ^ 2 + 2 * κ * t) * r ^ 2) := by fun_prop
    have h := (hcont.tendsto 0).comp tendsto_inv_atTop_zero
    simpa [Function.comp_def] using h
  refine ge_of_tendsto hlim ?_
  filter_upwards [eventually_ge_atTop x, eventually_gt_atTop 0] with R h1 h2 using key R h2 h1

section unique

variable {region wall : Set ℝ} {us u0 : ℝ}

/-- The difference of two histories of the same body. -/
theorem History.diff (hu : History region wall κ us u0 u) (hv : History region wall κ us u0 v) :
    History region wall κ 0 0 (fun x t => u x t + -1 * v x t) where
  bounded := by
    obtain ⟨M, hM⟩ := hu.bounded
    obtain ⟨N, hN⟩ := hv.bounded
    refine ⟨M + N, fun x hx t ht => ?_⟩
    have h1 := hM x hx t ht
    have h2 := hN x hx t ht
    rw [neg_one_mul, ← sub_eq_add_neg]
    exact (abs_sub _ _).trans (add_le_add h1 h2)
  continuous := hu.continuous.add (continuousOn_const.mul hv.continuous)
  diffuses := fun x hx t ht => (hu.diffuses x hx t ht).add ((hv.diffuses x hx t ht).smul (-1))
  surface := fun x hx t ht => by rw [hu.surface x hx t ht, hv.surface x hx t ht]; ring
  start := fun x hx => by
    have := (hu.start x hx).add ((hv.start x hx).const_mul (-1))
    simpa using this

theorem slab_unique (hκ : 0 < κ) {a b : ℝ} (hu : SlabHistory a b κ us u0 u) (hv : SlabHistory a b κ us u0 v) :
    ∀ x ∈ Set.Icc a b, ∀ t, 0 < t → u x t = v x t := by
  have half : ∀ {u v : ℝ → ℝ → ℝ}, SlabHistory a b κ us u0 u → SlabHistory a b κ us u0 v →
      ∀ x ∈ Set.Icc a b, ∀ t, 0 < t → u x t ≤ v x t := by
    intro u v hu hv x hx t ht
    have h := hu.diff hv
    obtain ⟨M, hM⟩ := h.bounded
    have hin : ∀ y ∈ Set.Ioo a b, y ∈ Set.Icc a b \ {a, b} := fun y hy =>
      ⟨⟨hy.1.le, hy.2.le⟩, by rintro (rfl | rfl); exacts [lt_irrefl _ hy.1, lt_irrefl _ hy.2]⟩
    have := slab_nonpos hκ le_rfl (fun x hx t ht => (le_abs_self _).trans (hM x hx t ht)) h.continuous
      (fun y hy => h.diffuses y (hin y hy)) (fun t ht => (h.surface a (by simp) t ht).le)
      (fun t ht => (h.surface b (by simp) t ht).le) (fun y hy => h.start y (hin y hy)) x hx t ht
    linarith
  exact fun x hx t ht => le_antisymm (half hu hv x hx t ht) (half hv hu x hx t ht)

theorem halfSpace_unique (hκ : 0 < κ) (hu : HalfSpaceHistory κ us u0 u) (hv : HalfSpaceHistory κ us u0 v) :
    ∀ x, 0 ≤ x → ∀ t, 0 < t → u x t = v x t := by
  have half : ∀ {u v : ℝ → ℝ → ℝ}, HalfSpaceHistory κ us u0 u → HalfSpaceHistory κ us u0 v →
      ∀ x, 0 ≤ x → ∀ t, 0 < t → u x t ≤ v x t := by
    intro u v hu hv x hx t ht
    have h := hu.diff hv
    obtain ⟨M, hM⟩ := h.bounded
    have hin : ∀ y : ℝ, 0 < y → y ∈ Set.Ici (0 : ℝ) \ {0} := fun y hy => ⟨hy.le, hy.ne'⟩
    have := halfSpace_nonpos hκ le_rfl (fun x hx t ht => (le_abs_self _).trans (hM x hx t ht)) h.continuous
      (fun y hy => h.diffuses y (hin y hy)) (fun t ht => (h.surface 0 rfl t ht).le)
      (fun y hy => h.start y (hin y hy)) x hx t ht
    linarith
  exact fun x hx t ht => le_antisymm (half hu hv x hx t ht) (half hv hu x hx t ht)

end unique

end Verif
