import Verif.Spec.Kinetics
import Verif.Props.Integral
import Mathlib.Analysis.Calculus.MeanValue
import Mathlib.Analysis.Calculus.LocalExtr.Rolle
import Mathlib.Analysis.SpecialFunctions.Log.Deriv

/-!
# Exact measurements of a reaction in the loop of `integral_method`

Exact measurements of a reaction of order `n` are fitted perfectly by the integrated law of order `n` and by no other
(derivatives and Rolle's theorem, equality in the Cauchy-Schwarz inequality).  The data overwritten by the loop stay positive
multiples of powers of the measurements until order 1 is tried.
-/

namespace Verif

/-! ## Integrated rate laws -/

/-- The factor in the derivative of the integrated law. -/
noncomputable def lawFactor (n : ℝ) : ℝ := if n = 1 then 1 else 1 - n

theorem lawFactor_ne (n : ℝ) : lawFactor n ≠ 0 := by
  unfold lawFactor
  split_ifs with h
  · exact one_ne_zero
  · exact sub_ne_zero.2 (Ne.symm h)

theorem hasDerivAt_integrated (n : ℝ) {x : ℝ} (hx : 0 < x) :
    HasDerivAt (integrated n) (lawFactor n * x ^ (-n)) x := by
  by_cases h : n = 1
  · have : integrated n = Real.log := by funext y; simp [integrated, h]
    rw [this, lawFactor, if_pos h, h, Real.rpow_neg_one, one_mul]
    exact Real.hasDerivAt_log hx.ne'
  · have : integrated n = fun y => y ^ (1 - n) := by funext y; simp [integrated, h]
    rw [this, lawFactor, if_neg h]
    refine (Real.hasDerivAt_rpow_const (.inl hx.ne')).congr_deriv ?_
    congr 2; ring

/-- The integrated law is linear in time. -/
theorem integrated_linear {n k : ℝ} {C : ℝ → ℝ} {I : Set ℝ} (hI : I.OrdConnected)
    (h : ∀ t ∈ I, 0 < C t ∧ HasDerivWithinAt C (-(k * C t ^ n)) I t) {s t : ℝ} (hs : s ∈ I) (ht : t ∈ I) :
    integrated n (C t) - integrated n (C s) = -(lawFactor n * k) * (t - s) := by
  have key : ∀ {s t : ℝ}, s ∈ I → t ∈ I → s ≤ t →
      integrated n (C t) + lawFactor n * k * t = integrated n (C s) + lawFactor n * k * s := by
    intro s t hs ht hst
    have hsub : Set.Icc s t ⊆ I := hI.out hs ht
    have hd : ∀ y ∈ Set.Icc s t,
        HasDerivWithinAt (fun y => integrated n (C y) + lawFactor n * k * y) 0 (Set.Icc s t) y := by
      intro y hy
      obtain ⟨h1, h2⟩ := h y (hsub hy)
      have h3 := (hasDerivAt_integrated n h1).comp_hasDerivWithinAt y (h2.mono hsub)
      have h4 := h3.fun_add ((hasDerivWithinAt_id y (Set.Icc s t)).const_mul (lawFactor n * k))
      refine h4.congr_deriv ?_
      rw [Real.rpow_neg h1.le]
      have := (Real.rpow_pos_of_pos h1 n).ne'
      field_simp
      ring
    rcases hst.eq_or_lt with rfl | hlt
    · rfl
    · exact constant_of_derivWithin_zero (fun y hy => (hd y hy).differentiableWithinAt)
        (fun y hy => (hd y (Set.Ico_subset_Icc_self hy)).derivWithin (uniqueDiffOn_Icc hlt y (Set.Ico_subset_Icc_self hy)))
        t ⟨hst, le_rfl⟩
  rcases le_total s t with h1 | h1
  · have := key hs ht h1; linarith
  · have := key ht hs h1; linarith

/-- Two integrated laws of different orders cannot be linearly related at three different concentrations. -/
theorem integrated_independent {m n : ℝ} (hmn : m ≠ n) {a b x y z : ℝ} (hx : 0 < x) (hxy : x < y) (hyz : y < z)
    (h : ∀ w ∈ ({x, y, z} : Set ℝ), integrated m w = a + b * integrated n w) : False := by
  have hpos : ∀ w ∈ Set.Icc x z, 0 < w := fun w hw => hx.trans_le hw.1
  have hd : ∀ w, 0 < w → HasDerivAt (fun w => integrated m w - b * integrated n w)
      (lawFactor m * w ^ (-m) - b * (lawFactor n * w ^ (-n))) w := fun w hw =>
    (hasDerivAt_integrated m hw).fun_sub ((hasDerivAt_integrated n hw).const_mul b)
  have hval : ∀ w ∈ ({x, y, z} : Set ℝ), integrated m w - b * integrated n w = a := fun w hw => by rw [h w hw]; ring
  have rolle : ∀ p q, 0 < p → p < q → integrated m p - b * integrated n p = integrated m q - b * integrated n q →
      ∃ c ∈ Set.Ioo p q, lawFactor m * c ^ (-m) - b * (lawFactor n * c ^ (-n)) = 0 := by
    intro p q hp hpq he
    refine exists_hasDerivAt_eq_zero hpq (fun w hw => ?_) he fun w hw => hd w (hp.trans hw.1)
    exact (hd w (hp.trans_le hw.1)).continuousAt.continuousWithinAt
  obtain ⟨c, hc, hc0⟩ := rolle x y hx hxy (by rw [hval x (by simp), hval y (by simp)])
  obtain ⟨d, hdd, hd0⟩ := rolle y z (hx.trans hxy) hyz (by rw [hval y (by simp), hval z (by simp)])
  have hcp : 0 < c := hx.trans hc.1
  have hdp : 0 < d := (hx.trans hxy).trans hdd.1
  have hcd : c < d := hc.2.trans hdd.1
  have ratio : ∀ w, 0 < w → lawFactor m * w ^ (-m) - b * (lawFactor n * w ^ (-n)) = 0 →
      w ^ (n - m) = b * lawFactor n / lawFactor m := by
    intro w hw h0
    have hn := (Real.rpow_pos_of_pos hw (-n)).ne'
    have hm := lawFactor_ne m
    rw [eq_div_iff hm, show n - m = -m - -n by ring, Real.rpow_sub hw, div_mul_eq_mul_div, div_eq_iff hn]
    linarith
  have he : c ^ (n - m) = d ^ (n - m) := by rw [ratio c hcp hc0, ratio d hdp hd0]
  exact hcd.ne ((Real.rpow_left_injOn (sub_ne_zero.2 (Ne.symm hmn))) hcp.le hdp.le he)

/-! ## Perfect correlation -/

/-- A series that is a nonconstant linear function of the other correlates perfectly. -/
theorem coSum_linear (time : List ℝ) (f : ℝ → ℝ) (α β : ℝ) (h : ∀ t ∈ time, f t = α + β * t) :
    coSum time (time.map f) = β * coSum time time ∧ coSum (time.map f) (time.map f) = β ^ 2 * coSum time time := by
  have hmap : time.map f = time.map fun t => α + β * t := List.map_congr_left h
  rcases eq_or_ne (time.length : ℝ) 0 with h0 | h0
  · have : time = [] := by simpa using h0
    subst this; simp [coSum]
  have hsum : ∀ l : List ℝ, (l.map fun t => α + β * t).sum = l.length * α + β * l.sum := by
    intro l
    induction l with
    | nil => simp
    | cons x l ih => simp only [List.map_cons, List.sum_cons, ih, List.length_cons]; push_cast; ring
  have hmean : mean (time.map f) = α + β * mean time := by
    unfold mean
    rw [hmap, hsum, List.length_map]
    field_simp
  unfold coSum
  rw [hmean, hmap]
  constructor
  · generalize mean time = μ
    have : ∀ l : List ℝ, (List.zipWith (fun x y => (x - μ) * (y - (α + β * μ))) l (l.map fun t => α + β * t)).sum =
        β * (List.zipWith (fun x y => (x - μ) * (y - μ)) l l).sum := by
      intro l
      induction l with
      | nil => simp
      | cons x l ih =>
        simp only [List.map_cons, List.zipWith_cons_cons, List.sum_cons, ih]; ring
    exact this time
  · generalize mean time = μ
    have : ∀ l : List ℝ, (List.zipWith (fun x y => (x - (α + β * μ)) * (y - (α + β * μ))) (l.map fun t => α + β * t)
        (l.map fun t => α + β * t)).sum = β ^ 2 * (List.zipWith (fun x y => (x - μ) * (y - μ)) l l).sum := by
      intro l
      induction l with
      | nil => simp
      | cons x l ih =>
        simp only [List.map_cons, List.zipWith_cons_cons, List.sum_cons, ih]; ring
    exact this time

theorem coSum_self_zero {l : List ℝ} (h : coSum l l = 0) : ∀ x ∈ l, x = mean l := by
  unfold coSum at h
  generalize mean l = μ at h
  have key : ∀ l : List ℝ, 0 ≤ (List.zipWith (fun x y => (x - μ) * (y - μ)) l l).sum ∧
      ((List.zipWith (fun x y => (x - μ) * (y - μ)) l l).sum = 0 → ∀ x ∈ l, x = μ) := by
    intro l
    induction l with
    | nil => simp
    | cons x l ih =>
      simp only [List.zipWith_cons_cons, List.sum_cons]
      have h1 := mul_self_nonneg (x - μ)
      refine ⟨add_nonneg h1 ih.1, fun h y hy => ?_⟩
      have h2 : (x - μ) * (x - μ) = 0 := by linarith [ih.1]
      have h3 := ih.2 (by linarith)
      rcases List.mem_cons.1 hy with rfl | hy
      · exact sub_eq_zero.1 (mul_self_eq_zero.1 h2)
      · exact h3 y hy
  exact (key l).2 h

theorem coSum_pos {time : List ℝ} {s t : ℝ} (hs : s ∈ time) (ht : t ∈ time) (hne : s ≠ t) : 0 < coSum time time := by
  refine lt_of_le_of_ne (coSum_self_nonneg _) fun h => hne ?_
  rw [coSum_self_zero h.symm s hs, coSum_self_zero h.symm t ht]

/-- Perfect correlation with the times means a linear function of time. -/
theorem linear_of_perfect (time : List ℝ) (f : ℝ → ℝ) (hp : coSum time time ≠ 0)
    (h : coSum time (time.map f) ^ 2 = coSum time time * coSum (time.map f) (time.map f)) :
    ∃ α β : ℝ, ∀ t ∈ time, f t = α + β * t := by
  set β := coSum time (time.map f) / coSum time time with hβ
  have expand : ∀ (μ ν ρ : ℝ) (l : List ℝ), ρ = ν - β * μ →
      (List.zipWith (fun x y => (x - ρ) * (y - ρ)) (l.map fun t => f t - β * t) (l.map fun t => f t - β * t)).sum =
      (List.zipWith (fun x y => (x - ν) * (y - ν)) (l.map f) (l.map f)).sum -
        2 * β * (List.zipWith (fun x y => (x - μ) * (y - ν)) l (l.map f)).sum +
        β ^ 2 * (List.zipWith (fun x y => (x - μ) * (y - μ)) l l).sum := by
    intro μ ν ρ l hρ
    induction l with
    | nil => simp
    | cons x l ih =>
      simp only [List.map_cons, List.zipWith_cons_cons, List.sum_cons, ih]
      have : (f x - β * x - ρ) * (f x - β * x - ρ) =
          (f x - ν) * (f x - ν) - 2 * β * ((x - μ) * (f x - ν)) + β ^ 2 * ((x - μ) * (x - μ)) := by rw [hρ]; ring
      linear_combination this
  have hmean : mean (time.map fun t => f t - β * t) = mean (time.map f) - β * mean time := by
    unfold mean
    rw [List.length_map, List.length_map]
    have : ∀ l : List ℝ, (l.map fun t => f t - β * t).sum = (l.map f).sum - β * l.sum := by
      intro l
      induction l with
      | nil => simp
      | cons x l ih => simp only [List.map_cons, List.sum_cons, ih]; ring
    rw [this]; ring
  have h0 : coSum (time.map fun t => f t - β * t) (time.map fun t => f t - β * t) = 0 := by
    have e := expand (mean time) (mean (time.map f)) _ time hmean
    have e' : coSum (time.map fun t => f t - β * t) (time.map fun t => f t - β * t) =
        coSum (time.map f) (time.map f) - 2 * β * coSum time (time.map f) + β ^ 2 * coSum time time := e
    rw [e', hβ]
    field_simp
    linarith
  refine ⟨mean (time.map fun t => f t - β * t), β, fun t ht => ?_⟩
  have := coSum_self_zero h0 _ (List.mem_map_of_mem (f := fun t => f t - β * t) ht)
  linarith

/-- `R2` in terms of deviations. -/
theorem R2_eq (a b : List ℝ) (h : a.length = b.length) :
    R2 a b = if coSum a a * coSum b b = 0 then none else some (coSum a b ^ 2 / (coSum a a * coSum b b)) := by
  have e := rSquared_eq a b h
  unfold rSquared at e
  rw [if_neg (by simpa using h), allFin_map] at e
  simp only at e
  split_ifs at e ⊢ with h0
  · exact (Except.ok.inj e).symm
  · exact (Except.ok.inj e).symm

/-- Exact data of order `n` are fitted perfectly by the law of order `m` exactly if `m = n`. -/
theorem R2_order {n : ℝ} {time data : List ℝ} (h : ReactionOfOrder n time data) (h3 : ThreeTimes time) (m : ℝ) :
    R2 time (data.map (integrated m)) = some 1 ↔ m = n := by
  obtain ⟨k, C, I, hk, hI, htI, hC, rfl⟩ := h
  obtain ⟨t₁, m1, t₂, m2, t₃, m3, h12, h23⟩ := h3
  have hpos := coSum_pos m1 m2 h12.ne
  have hlin : ∀ t ∈ time, integrated n (C t) = (integrated n (C t₁) + lawFactor n * k * t₁) + -(lawFactor n * k) * t :=
    fun t ht => by
      have := integrated_linear hI hC (htI _ m1) (htI t ht)
      linarith
  have hslope : lawFactor n * k ≠ 0 := mul_ne_zero (lawFactor_ne n) hk
  rw [List.map_map, R2_eq _ _ (by simp)]
  constructor
  · intro h1
    by_contra hmn
    split_ifs at h1 with h0
    have hsq : coSum time (time.map (integrated m ∘ C)) ^ 2 =
        coSum time time * coSum (time.map (integrated m ∘ C)) (time.map (integrated m ∘ C)) := by
      have := Option.some.inj h1
      rwa [div_eq_one_iff_eq h0] at this
    obtain ⟨α, β, hab⟩ := linear_of_perfect time (integrated m ∘ C) hpos.ne' hsq
    -- the concentrations are different and `integrated m` is a linear function of `integrated n` at all of them
    set A := integrated n (C t₁) + lawFactor n * k * t₁
    have hrel : ∀ t ∈ time, integrated m (C t) =
        (α + β * (A / (lawFactor n * k))) + -(β / (lawFactor n * k)) * integrated n (C t) := by
      intro t ht
      have h1 := hab t ht
      have h2 := hlin t ht
      simp only [Function.comp] at h1
      rw [h1, h2]
      have hl := lawFactor_ne n
      field_simp
      ring
    have hne : ∀ s ∈ time, ∀ t ∈ time, s ≠ t → C s ≠ C t := by
      intro s hs t ht hst he
      have h1 := hlin s hs
      have h2 := hlin t ht
      rw [he, h2] at h1
      have : lawFactor n * k * (s - t) = 0 := by linarith
      exact (mul_ne_zero hslope (sub_ne_zero.2 hst)) this
    have p1 := (hC _ (htI _ m1)).1
    have p2 := (hC _ (htI _ m2)).1
    have p3 := (hC _ (htI _ m3)).1
    have n12 := hne _ m1 _ m2 h12.ne
    have n23 := hne _ m2 _ m3 h23.ne
    have n13 := hne _ m1 _ m3 (h12.trans h23).ne
    have r1 := hrel _ m1
    have r2 := hrel _ m2
    have r3 := hrel _ m3
    have fin : ∀ {x y z : ℝ}, 0 < x → x < y → y < z → ∀ {a b : ℝ}, integrated m x = a + b * integrated n x →
        integrated m y = a + b * integrated n y → integrated m z = a + b * integrated n z → False := by
      intro x y z hx hxy hyz a b e1 e2 e3
      refine integrated_independent hmn hx hxy hyz (a := a) (b := b) ?_
      rintro w (rfl | rfl | rfl) <;> assumption
    rcases lt_or_gt_of_ne n12 with a | a <;> rcases lt_or_gt_of_ne n23 with b | b <;>
      rcases lt_or_gt_of_ne n13 with c | c
    · exact fin p1 a b r1 r2 r3
    · exact fin p1 a b r1 r2 r3
    · exact fin p1 c b r1 r3 r2
    · exact fin p3 c a r3 r1 r2
    · exact fin p2 a c r2 r1 r3
    · exact fin p2 b c r2 r3 r1
    · exact fin p3 b a r3 r2 r1
    · exact fin p3 b a r3 r2 r1
  · rintro rfl
    obtain ⟨e1, e2⟩ := coSum_linear time (integrated m ∘ C) _ _ hlin
    rw [e1, e2]
    have hne : coSum time time * ((-(lawFactor m * k)) ^ 2 * coSum time time) ≠ 0 := by
      have : (-(lawFactor m * k)) ^ 2 ≠ 0 := by simpa using hslope
      exact mul_ne_zero hpos.ne' (mul_ne_zero this hpos.ne')
    rw [if_neg hne]
    congr 1
    rw [div_eq_one_iff_eq hne]
    ring

/-! ## What the loop really tests -/

theorem R2_affine (a b : List ℝ) (hl : a.length = b.length) (α : ℝ) {β : ℝ} (hβ : β ≠ 0) :
    R2 a (b.map fun x => α + β * x) = R2 a b := by
  have hmean : b ≠ [] → mean (b.map fun x => α + β * x) = α + β * mean b := by
    intro hb
    have h0 : (b.length : ℝ) ≠ 0 := by simpa using hb
    have hsum : ∀ l : List ℝ, (l.map fun t => α + β * t).sum = l.length * α + β * l.sum := by
      intro l
      induction l with
      | nil => simp
      | cons x l ih => simp only [List.map_cons, List.sum_cons, ih, List.length_cons]; push_cast; ring
    unfold mean
    rw [hsum, List.length_map]
    field_simp
  rcases eq_or_ne b [] with rfl | hb
  · rfl
  have e1 : coSum a (b.map fun x => α + β * x) = β * coSum a b := by
    unfold coSum
    rw [hmean hb]
    generalize mean a = μ
    generalize mean b = ν
    clear hl hmean hb
    induction a generalizing b with
    | nil => simp
    | cons x a ih =>
      cases b with
      | nil => simp
      | cons y b => simp only [List.map_cons, List.zipWith_cons_cons, List.sum_cons, ih]; ring
  have e2 : coSum (b.map fun x => α + β * x) (b.map fun x => α + β * x) = β ^ 2 * coSum b b := by
    unfold coSum
    rw [hmean hb]
    generalize mean b = ν
    clear hl hmean hb e1
    induction b with
    | nil => simp
    | cons y b ih => simp only [List.map_cons, List.zipWith_cons_cons, List.sum_cons, ih]; ring
  rw [R2_eq _ _ (by simpa using hl), R2_eq _ _ hl, e1, e2]
  have hb2 : β ^ 2 ≠ 0 := pow_ne_zero 2 hβ
  by_cases h : coSum a a * coSum b b = 0
  · rw [if_pos h, if_pos (by linear_combination β ^ 2 * h)]
  · rw [if_neg h, if_neg (fun h' => h (by
      have : β ^ 2 * (coSum a a * coSum b b) = 0 := by linear_combination h'
      exact (mul_eq_zero.1 this).resolve_left hb2))]
    congr 1
    have h1 := left_ne_zero_of_mul h
    have h2 := right_ne_zero_of_mul h
    field_simp

/-- The data after some orders other than 1: a positive multiple of a power of the measurements. -/
noncomputable def powered (c P : ℝ) (data : List ℝ) : List ℝ := data.map fun x => c * x ^ P

theorem powered_pos {c P : ℝ} {data : List ℝ} (hc : 0 < c) (hd : ∀ x ∈ data, 0 < x) : ∀ y ∈ powered c P data, 0 < y := by
  intro y hy
  obtain ⟨x, hx, rfl⟩ := List.mem_map.1 hy
  exact mul_pos hc (Real.rpow_pos_of_pos (hd x hx) P)

/-- One pass with an order other than 1 multiplies the exponent by `1 - i`. -/
theorem transform_powered {c P i : ℝ} {data : List ℝ} (hc : 0 < c) (hd : ∀ x ∈ data, 0 < x) (hi : 0 ≤ i) (h1 : i ≠ 1) :
    ∃ c' > 0, transform i ((powered c P data).map .fin) = .ok ((powered c' (P * (1 - i)) data).map .fin) := by
  unfold transform
  rw [if_neg h1]
  by_cases h2 : i < 1 ∧ i > 0
  · have hp : 0 < -i + 1 := by linarith [h2.1]
    refine ⟨c ^ (-i + 1) / (-i + 1), div_pos (Real.rpow_pos_of_pos hc _) hp, ?_⟩
    rw [if_pos h2]
    congr 1
    simp only [powered, List.map_map]
    refine List.map_congr_left fun x hx => ?_
    have hx := hd x hx
    have hy : 0 < c * x ^ P := mul_pos hc (Real.rpow_pos_of_pos hx P)
    simp only [Function.comp, NpF.pow, hy.le, true_or, if_true, NpF.divBy]
    rw [Real.mul_rpow hc.le (Real.rpow_pos_of_pos hx P).le, ← Real.rpow_mul hx.le, show P * (1 - i) = P * (-i + 1) by ring]
    congr 1
    ring
  rw [if_neg h2]
  by_cases h3 : i ≥ 1
  · refine ⟨c ^ (1 - i), Real.rpow_pos_of_pos hc _, ?_⟩
    rw [if_pos h3]
    congr 1
    simp only [powered, List.map_map]
    refine List.map_congr_left fun x hx => ?_
    have hx := hd x hx
    have hy : 0 < c * x ^ P := mul_pos hc (Real.rpow_pos_of_pos hx P)
    have hne : (c * x ^ P) ^ (i - 1) ≠ 0 := (Real.rpow_pos_of_pos hy _).ne'
    simp only [Function.comp, NpF.pow, hy.le, true_or, if_true, NpF.inv, hne, if_false]
    rw [Real.rpow_mul hx.le, ← Real.mul_rpow hc.le (Real.rpow_pos_of_pos hx P).le, show (1 - i) = -(i - 1) by ring,
      Real.rpow_neg hy.le, one_div]
  · have h0 : i = 0 := by
      by_contra hne
      exact h2 ⟨not_le.mp h3, lt_of_le_of_ne hi (Ne.symm hne)⟩
    refine ⟨c, hc, ?_⟩
    rw [if_neg h3, h0, sub_zero, mul_one]

theorem R2_powered (time data : List ℝ) (hl : time.length = data.length) {c Q : ℝ} (hc : 0 < c) (hQ : Q ≠ 0) :
    R2 time (powered c Q data) = R2 time (data.map (integrated (1 - Q))) := by
  have e : powered c Q data = (data.map (integrated (1 - Q))).map fun x => 0 + c * x := by
    simp only [powered, List.map_map]
    refine List.map_congr_left fun x _ => ?_
    have : (1 : ℝ) - Q ≠ 1 := fun h => hQ (by linarith)
    simp only [Function.comp, integrated, if_neg this, zero_add, sub_sub_cancel]
  rw [e, R2_affine _ _ (by simpa using hl) _ hc.ne']

/-- One pass of the loop tests the order `1 - P (1 - i)`. -/
theorem pass_tests (time data : List ℝ) (hl : time.length = data.length) (hd : ∀ x ∈ data, 0 < x) {c P i : ℝ} (hc : 0 < c)
    (hP : P ≠ 0) (hi : 0 ≤ i) :
    ∃ d, transform i ((powered c P data).map .fin) = .ok (d.map .fin) ∧ d.length = data.length ∧
      rSquared time (d.map .fin) = .ok (R2 time (data.map (integrated (1 - P * (1 - i))))) ∧
      (i ≠ 1 → ∃ c' > 0, d = powered c' (P * (1 - i)) data) := by
  by_cases h1 : i = 1
  · refine ⟨(powered c P data).map Real.log, ?_, by simp [powered], ?_, fun h => absurd h1 h⟩
    · unfold transform
      rw [if_pos h1, mapM'_log _ (powered_pos hc hd)]
    · rw [rSquared_eq _ _ (by simpa [powered] using hl)]
      have e : (powered c P data).map Real.log = (data.map (integrated (1 - P * (1 - i)))).map fun y => Real.log c + P * y := by
        simp only [powered, List.map_map]
        refine List.map_congr_left fun x hx => ?_
        have hx := hd x hx
        simp only [Function.comp, integrated, h1, sub_self, mul_zero, sub_zero, if_true]
        rw [Real.log_mul hc.ne' (Real.rpow_pos_of_pos hx P).ne', Real.log_rpow hx]
      rw [e, R2_affine _ _ (by simpa using hl) _ hP]
  · obtain ⟨c', hc', ht⟩ := transform_powered (P := P) hc hd hi h1
    refine ⟨powered c' (P * (1 - i)) data, ht, by simp [powered], ?_, fun _ => ⟨c', hc', rfl⟩⟩
    rw [rSquared_eq _ _ (by simpa [powered] using hl),
      R2_powered time data hl hc' (mul_ne_zero hP (sub_ne_zero.2 (Ne.symm h1)))]

/-- Once the fit is perfect nothing that follows changes the result. -/
theorem loop_done_after (time : List ℝ) (o b : ℝ) (hb : 1 ≤ b) : ∀ (is : List ℝ) (data : List NpF), 1 ∉ is →
    time.length = data.length → integralLoop time is data o b = .ok (o, b)
  | [], _, _, _ => rfl
  | i :: is, data, h1, hl => by
    have hi : i ≠ 1 := fun h => h1 (by simp [h])
    have ht : ∃ d, transform i data = .ok d ∧ d.length = data.length := by
      unfold transform
      rw [if_neg hi]
      split_ifs
      · exact ⟨_, rfl, by simp⟩
      · exact ⟨_, rfl, by simp⟩
      · exact ⟨_, rfl, rfl⟩
    obtain ⟨d, ht, hdl⟩ := ht
    have ih := loop_done_after time o b hb is d (fun h => h1 (List.mem_cons_of_mem _ h)) (by rw [hl, hdl])
    have hr : ∃ x, rSquared time d = .ok x := by
      unfold rSquared
      rw [if_neg (by simp [hl, hdl])]
      split
      · exact ⟨_, rfl⟩
      · split_ifs
        · exact ⟨_, rfl⟩
        · exact ⟨_, rfl⟩
    obtain ⟨x, hx⟩ := hr
    unfold integralLoop
    rw [ht]
    simp only
    rw [hx]
    cases x with
    | none => exact ih
    | some r =>
      have := (rSquared_bounds hx).2
      simp only
      rw [if_neg (by linarith)]
      exact ih

theorem loop_done (time : List ℝ) (o b : ℝ) (hb : 1 ≤ b) : ∀ (is data : List ℝ), is.Nodup → (∀ x ∈ data, 0 < x) →
    time.length = data.length → integralLoop time is (data.map .fin) o b = .ok (o, b)
  | [], _, _, _, _ => rfl
  | i :: is, data, hn, hd, hl => by
    have hni := List.nodup_cons.1 hn
    by_cases h1 : i = 1
    · have ht : transform i (data.map .fin) = .ok ((data.map Real.log).map .fin) := by
        unfold transform; rw [if_pos h1, mapM'_log _ hd]
      have ih := loop_done_after time o b hb is ((data.map Real.log).map .fin) (h1 ▸ hni.1) (by simpa using hl)
      have hx := rSquared_eq time (data.map Real.log) (by simpa using hl)
      unfold integralLoop
      rw [ht]
      simp only
      rw [hx]
      cases hR : R2 time (data.map Real.log) with
      | none => exact ih
      | some r =>
        rw [hR] at hx
        have := (rSquared_bounds hx).2
        simp only
        rw [if_neg (by linarith)]
        exact ih
    · have ht : ∃ d : List ℝ, transform i (data.map .fin) = .ok (d.map .fin) ∧ d.length = data.length ∧ ∀ x ∈ d, 0 < x := by
        by_cases h0 : 0 ≤ i
        · have e : powered 1 1 data = data := by simp [powered]
          obtain ⟨c', hc', ht⟩ := transform_powered (P := 1) zero_lt_one hd h0 h1
          rw [e] at ht
          exact ⟨_, ht, by simp [powered], powered_pos hc' hd⟩
        · refine ⟨data, ?_, rfl, hd⟩
          unfold transform
          rw [if_neg h1, if_neg (fun h => h0 h.2.le), if_neg (fun h => h0 (by linarith))]
      obtain ⟨d, ht, hdl, hdp⟩ := ht
      have ih := loop_done time o b hb is d hni.2 hdp (by rw [hl, hdl])
      have hx := rSquared_eq time d (by rw [hl, hdl])
      unfold integralLoop
      rw [ht]
      simp only
      rw [hx]
      cases hR : R2 time d with
      | none => exact ih
      | some r =>
        rw [hR] at hx
        have := (rSquared_bounds hx).2
        simp only
        rw [if_neg (by linarith)]
        exact ih

theorem R2_le_one {a b : List ℝ} (h : a.length = b.length) {r : ℝ} (hr : R2 a b = some r) : r ≤ 1 := by
  have e := rSquared_eq a b h
  rw [hr] at e
  exact (rSquared_bounds e).2

theorem ReactionOfOrder.pos {n : ℝ} {time data : List ℝ} (h : ReactionOfOrder n time data) : ∀ x ∈ data, 0 < x := by
  obtain ⟨k, C, I, hk, hI, htI, hC, rfl⟩ := h
  intro x hx
  obtain ⟨t, ht, rfl⟩ := List.mem_map.1 hx
  exact (hC t (htI t ht)).1

theorem ReactionOfOrder.length {n : ℝ} {time data : List ℝ} (h : ReactionOfOrder n time data) :
    time.length = data.length := by
  obtain ⟨k, C, I, hk, hI, htI, hC, rfl⟩ := h
  simp

/-- The first order of the range whose tested order is the true one is reported. -/
theorem loop_recovers {n : ℝ} {time data : List ℝ} (h : ReactionOfOrder n time data) (h3 : ThreeTimes time) (i : ℝ)
    (post : List ℝ) : ∀ (pre : List ℝ) (c P o b : ℝ), 0 < c → P ≠ 0 → b < 1 → (∀ j ∈ pre, 0 ≤ j) → 0 ≤ i → 1 ∉ pre →
    (i :: post).Nodup → (∀ p j q, pre = p ++ j :: q → 1 - P * (p.map (1 - ·)).prod * (1 - j) ≠ n) →
    1 - P * (pre.map (1 - ·)).prod * (1 - i) = n →
    integralLoop time (pre ++ i :: post) ((powered c P data).map .fin) o b = .ok (i, 1)
  | [], c, P, o, b, hc, hP, hb, _, hi, _, hnd, _, heq => by
    obtain ⟨d, ht, hdl, hr, hd'⟩ := pass_tests time data h.length h.pos hc hP hi
    have e : 1 - P * (1 - i) = n := by simpa using heq
    rw [e, (R2_order h h3 n).2 rfl] at hr
    rw [List.nil_append]
    unfold integralLoop
    rw [ht]
    simp only
    rw [hr]
    simp only
    rw [if_pos hb]
    by_cases h1 : i = 1
    · exact loop_done_after time i 1 le_rfl post _ (h1 ▸ (List.nodup_cons.1 hnd).1) (by simp [hdl, h.length])
    · obtain ⟨c', hc', rfl⟩ := hd' h1
      exact loop_done time i 1 le_rfl post _ (List.nodup_cons.1 hnd).2 (powered_pos hc' h.pos) (by simp [hdl, h.length])
  | j :: pre, c, P, o, b, hc, hP, hb, h0, hi, h1, hnd, hne, heq => by
    have hj : j ≠ 1 := fun e => h1 (by simp [e])
    obtain ⟨d, ht, hdl, hr, hd'⟩ := pass_tests time data h.length h.pos hc hP (h0 j List.mem_cons_self)
    obtain ⟨c', hc', rfl⟩ := hd' hj
    have hP' : P * (1 - j) ≠ 0 := mul_ne_zero hP (sub_ne_zero.2 (Ne.symm hj))
    have ih : ∀ o b, b < 1 → integralLoop time (pre ++ i :: post) ((powered c' (P * (1 - j)) data).map .fin) o b = .ok (i, 1) :=
      fun o b hb => loop_recovers h h3 i post pre c' (P * (1 - j)) o b hc' hP' hb (fun k hk => h0 k (List.mem_cons_of_mem _ hk)) hi
        (fun h => h1 (List.mem_cons_of_mem _ h)) hnd
        (fun p k q e => by
          have := hne (j :: p) k q (by rw [e]; rfl)
          rwa [List.map_cons, List.prod_cons, ← mul_assoc] at this)
        (by rwa [List.map_cons, List.prod_cons, ← mul_assoc] at heq)
    have hnj : 1 - P * (1 - j) ≠ n := by simpa using hne [] j pre rfl
    rw [List.cons_append]
    unfold integralLoop
    rw [ht]
    simp only
    rw [hr]
    cases hR : R2 time (data.map (integrated (1 - P * (1 - j)))) with
    | none => exact ih o b hb
    | some r =>
      have hle := R2_le_one (by simp [h.length]) hR
      have hlt : r < 1 := lt_of_le_of_ne hle fun e => hnj ((R2_order h h3 _).1 (by rw [hR, e]))
      simp only
      split_ifs
      · exact ih j r hlt
      · exact ih o b hb

theorem loop_misses {n : ℝ} {time data : List ℝ} (h : ReactionOfOrder n time data) (h3 : ThreeTimes time) :
    ∀ (is : List ℝ) (c P o b : ℝ), 0 < c → P ≠ 0 → b < 1 → (∀ j ∈ is, 0 ≤ j) → 1 ∉ is.dropLast →
    (∀ p j q, is = p ++ j :: q → 1 - P * (p.map (1 - ·)).prod * (1 - j) ≠ n) →
    ∃ o' r', integralLoop time is ((powered c P data).map .fin) o b = .ok (o', r') ∧ r' < 1
  | [], c, P, o, b, _, _, hb, _, _, _ => ⟨o, b, rfl, hb⟩
  | j :: is, c, P, o, b, hc, hP, hb, h0, h1, hne => by
    obtain ⟨d, ht, hdl, hr, hd'⟩ := pass_tests time data h.length h.pos hc hP (h0 j List.mem_cons_self)
    have ih : ∀ o b, b < 1 → ∃ o' r', integralLoop time is (d.map .fin) o b = .ok (o', r') ∧ r' < 1 := by
      intro o b hb
      cases is with
      | nil => exact ⟨o, b, rfl, hb⟩
      | cons k ks =>
        rw [List.dropLast_cons_of_ne_nil (by simp)] at h1
        have hj : j ≠ 1 := fun e => h1 (by simp [e])
        obtain ⟨c', hc', rfl⟩ := hd' hj
        exact loop_misses h h3 (k :: ks) c' (P * (1 - j)) o b hc' (mul_ne_zero hP (sub_ne_zero.2 (Ne.symm hj))) hb
          (fun k hk => h0 k (List.mem_cons_of_mem _ hk)) (fun h => h1 (List.mem_cons_of_mem _ h))
          (fun p k q e => by
            have := hne (j :: p) k q (by rw [e]; rfl)
            rwa [List.map_cons, List.prod_cons, ← mul_assoc] at this)
    have hnj : 1 - P * (1 - j) ≠ n := by simpa using hne [] j is rfl
    unfold integralLoop
    rw [ht]
    simp only
    rw [hr]
    cases hR : R2 time (data.map (integrated (1 - P * (1 - j)))) with
    | none => exact ih o b hb
    | some r =>
      have hle := R2_le_one (by simp [h.length]) hR
      have hlt : r < 1 := lt_of_le_of_ne hle fun e => hnj ((R2_order h h3 _).1 (by rw [hR, e]))
      simp only
      split_ifs
      · exact ih j r hlt
      · exact ih o b hb

theorem arange_nodup {start stop step : ℝ} {is : List ℝ} (h : arange start stop step = .ok is) : is.Nodup := by
  unfold arange at h
  split_ifs at h with h0
  obtain rfl := Except.ok.inj h
  refine List.Nodup.map (fun a b e => ?_) List.nodup_range
  have : ((a : ℝ) - b) * step = 0 := by linarith
  rcases mul_eq_zero.1 this with h | h
  · exact_mod_cast sub_eq_zero.1 h
  · exact absurd h h0

theorem powered_one (data : List ℝ) : powered 1 1 data = data := by simp [powered]

/-- The result is the starting value or an order of the range. -/
theorem integralLoop_order (time : List ℝ) : ∀ (is : List ℝ) (data : List NpF) (o b : ℝ) (p : ℝ × ℝ),
    integralLoop time is data o b = .ok p → p = (o, b) ∨ p.1 ∈ is
  | [], _, o, b, p, h => by
    simp only [integralLoop, Except.ok.injEq] at h
    exact .inl h.symm
  | i :: is, data, o, b, p, h => by
    unfold integralLoop at h
    split at h
    · cases h
    · split at h
      · cases h
      · split_ifs at h with hgt
        · rcases integralLoop_order time is _ i _ p h with rfl | h'
          · exact .inr List.mem_cons_self
          · exact .inr (List.mem_cons_of_mem _ h')
        · exact (integralLoop_order time is _ o b p h).imp id (List.mem_cons_of_mem _)
      · exact (integralLoop_order time is _ o b p h).imp id (List.mem_cons_of_mem _)

theorem loop_prefix {n : ℝ} {time data : List ℝ} (h : ReactionOfOrder n time data) (h3 : ThreeTimes time) (rest : List ℝ) :
    ∀ (is : List ℝ) (c P o b : ℝ), 0 < c → P ≠ 0 → b < 1 → (∀ j ∈ is, 0 ≤ j) → 1 ∉ is →
    (∀ p j q, is = p ++ j :: q → 1 - P * (p.map (1 - ·)).prod * (1 - j) ≠ n) →
    ∃ d o' b', integralLoop time (is ++ rest) ((powered c P data).map .fin) o b = integralLoop time rest d o' b' ∧ b' < 1
  | [], c, P, o, b, _, _, hb, _, _, _ => ⟨_, o, b, rfl, hb⟩
  | j :: is, c, P, o, b, hc, hP, hb, h0, h1, hne => by
    have hj : j ≠ 1 := fun e => h1 (by simp [e])
    obtain ⟨d, ht, hdl, hr, hd'⟩ := pass_tests time data h.length h.pos hc hP (h0 j List.mem_cons_self)
    obtain ⟨c', hc', rfl⟩ := hd' hj
    have ih := fun o b hb => loop_prefix h h3 rest is c' (P * (1 - j)) o b hc' (mul_ne_zero hP (sub_ne_zero.2 (Ne.symm hj))) hb
      (fun k hk => h0 k (List.mem_cons_of_mem _ hk)) (fun h => h1 (List.mem_cons_of_mem _ h))
      (fun p k q e => by
        have := hne (j :: p) k q (by rw [e]; rfl)
        rwa [List.map_cons, List.prod_cons, ← mul_assoc] at this)
    have hnj : 1 - P * (1 - j) ≠ n := by simpa using hne [] j is rfl
    rw [List.cons_append]
    simp only [integralLoop, ht, hr]
    cases hR : R2 time (data.map (integrated (1 - P * (1 - j)))) with
    | none => exact ih o b hb
    | some r =>
      have hle := R2_le_one (by simp [h.length]) hR
      have hlt : r < 1 := lt_of_le_of_ne hle fun e => hnj ((R2_order h h3 _).1 (by rw [hR, e]))
      simp only
      split_ifs
      · exact ih j r hlt
      · exact ih o b hb

theorem first_split {α : Type} (Q : List α → α → Prop) {l : List α} (h : ∃ p j q, l = p ++ j :: q ∧ Q p j) :
    ∃ p j q, l = p ++ j :: q ∧ Q p j ∧ ∀ p' j' q', p = p' ++ j' :: q' → ¬ Q p' j' := by
  obtain ⟨p, j, q, e, hQ⟩ := h
  induction hk : p.length using Nat.strong_induction_on generalizing p j q with
  | _ k ih =>
    by_cases hmin : ∀ p' j' q', p = p' ++ j' :: q' → ¬ Q p' j'
    · exact ⟨p, j, q, e, hQ, hmin⟩
    · push Not at hmin
      obtain ⟨p', j', q', e', hQ'⟩ := hmin
      exact ih p'.length (by rw [← hk, e']; simp) p' j' (q' ++ j :: q) (by rw [e, e']; simp) hQ' rfl

/-- The result of the loop for any positive data, as long as order 1 is at most the last one. -/
theorem loop_effective {time data : List ℝ} (hl : time.length = data.length) (hd : ∀ x ∈ data, 0 < x) :
    ∀ (is : List ℝ) (c P o b : ℝ), 0 < c → P ≠ 0 → (∀ j ∈ is, 0 ≤ j) → 1 ∉ is.dropLast →
    ∃ o' r', integralLoop time is ((powered c P data).map .fin) o b = .ok (o', r') ∧ b ≤ r' ∧
      (∀ p i q, is = p ++ i :: q → ∀ x,
        R2 time (data.map (integrated (1 - P * (p.map (1 - ·)).prod * (1 - i)))) = some x → x ≤ r') ∧
      ((o' = o ∧ r' = b) ∨ ∃ p q, is = p ++ o' :: q ∧
        R2 time (data.map (integrated (1 - P * (p.map (1 - ·)).prod * (1 - o')))) = some r')
  | [], c, P, o, b, _, _, _, _ => ⟨o, b, rfl, le_rfl, by simp, .inl ⟨rfl, rfl⟩⟩
  | j :: is, c, P, o, b, hc, hP, h0, h1 => by
    obtain ⟨d, ht, hdl, hr, hd'⟩ := pass_tests time data hl hd hc hP (h0 j List.mem_cons_self)
    have ih : ∀ o b, ∃ o' r', integralLoop time is (d.map .fin) o b = .ok (o', r') ∧ b ≤ r' ∧
        (∀ p i q, j :: is = (j :: p) ++ i :: q → ∀ x,
          R2 time (data.map (integrated (1 - P * ((j :: p).map (1 - ·)).prod * (1 - i)))) = some x → x ≤ r') ∧
        ((o' = o ∧ r' = b) ∨ ∃ p q, j :: is = (j :: p) ++ o' :: q ∧
          R2 time (data.map (integrated (1 - P * ((j :: p).map (1 - ·)).prod * (1 - o')))) = some r') := by
      intro o b
      cases is with
      | nil => exact ⟨o, b, rfl, le_rfl, by simp, .inl ⟨rfl, rfl⟩⟩
      | cons k ks =>
        rw [List.dropLast_cons_of_ne_nil (by simp)] at h1
        have hj : j ≠ 1 := fun e => h1 (by simp [e])
        obtain ⟨c', hc', rfl⟩ := hd' hj
        obtain ⟨o', r', e, i1, i2, i3⟩ := loop_effective hl hd (k :: ks) c' (P * (1 - j)) o b hc'
          (mul_ne_zero hP (sub_ne_zero.2 (Ne.symm hj)))
          (fun k hk => h0 k (List.mem_cons_of_mem _ hk)) (fun h => h1 (List.mem_cons_of_mem _ h))
        refine ⟨o', r', e, i1, fun p i q e x hx => ?_, i3.imp id ?_⟩
        · refine i2 p i q (List.cons.inj e).2 x ?_
          rwa [List.map_cons, List.prod_cons, ← mul_assoc] at hx
        · rintro ⟨p, q, e, hx⟩
          exact ⟨p, q, by rw [e]; rfl, by rwa [List.map_cons, List.prod_cons, ← mul_assoc]⟩
    simp only [integralLoop, ht, hr]
    cases hR : R2 time (data.map (integrated (1 - P * (1 - j)))) with
    | none =>
      obtain ⟨o', r', e, i1, i2, i3⟩ := ih o b
      refine ⟨o', r', e, i1, fun p i q e x hx => ?_, i3.imp id fun ⟨p, q, e, h⟩ => ⟨j :: p, q, e, h⟩⟩
      rcases p with _ | ⟨a, p⟩
      · obtain ⟨rfl, -⟩ := List.cons.inj e
        rw [List.map_nil, List.prod_nil, mul_one, hR] at hx
        cases hx
      · obtain ⟨rfl, -⟩ := List.cons.inj e
        exact i2 p i q e x hx
    | some r =>
      simp only
      have first : ∀ {r' : ℝ}, r ≤ r' → (∀ p i q, j :: is = (j :: p) ++ i :: q → ∀ x,
          R2 time (data.map (integrated (1 - P * ((j :: p).map (1 - ·)).prod * (1 - i)))) = some x → x ≤ r') →
          ∀ p i q, j :: is = p ++ i :: q → ∀ x,
          R2 time (data.map (integrated (1 - P * (p.map (1 - ·)).prod * (1 - i)))) = some x → x ≤ r' := by
        intro r' hrr i2 p i q e x hx
        rcases p with _ | ⟨a, p⟩
        · obtain ⟨rfl, -⟩ := List.cons.inj e
          rw [List.map_nil, List.prod_nil, mul_one, hR] at hx
          obtain rfl := Option.some.inj hx
          exact hrr
        · obtain ⟨rfl, -⟩ := List.cons.inj e
          exact i2 p i q e x hx
      split_ifs with hgt
      · obtain ⟨o', r', e, i1, i2, i3⟩ := ih j r
        refine ⟨o', r', e, by linarith, first i1 i2, .inr ?_⟩
        rcases i3 with ⟨rfl, rfl⟩ | ⟨p, q, e, h⟩
        · exact ⟨[], is, rfl, by rw [List.map_nil, List.prod_nil, mul_one, hR]⟩
        · exact ⟨j :: p, q, e, h⟩
      · obtain ⟨o', r', e, i1, i2, i3⟩ := ih o b
        exact ⟨o', r', e, i1, first (by linarith) i2, i3.imp id fun ⟨p, q, e, h⟩ => ⟨j :: p, q, e, h⟩⟩

end Verif
