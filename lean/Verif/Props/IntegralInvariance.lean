import Verif.Props.Integral
import Mathlib.Data.List.Perm.Basic

/-!
# C116: what the result of the integral method depends on

The measurements are pairs of a time and a concentration.  The order in which they are listed, the zero of the clock and the unit of
time do not matter; the unit of concentration does once the range passes order 1.
-/

namespace Verif

/-! ## Correlation under changes of scale and origin -/

theorem sum_map_affine (c d : ℝ) : ∀ a : List ℝ, (a.map fun x => c * x + d).sum = c * a.sum + a.length * d
  | [] => by simp
  | x :: a => by
    simp only [List.map_cons, List.sum_cons, List.length_cons, sum_map_affine c d a]
    push_cast; ring

theorem mean_affine (c d : ℝ) {a : List ℝ} (h : a ≠ []) : mean (a.map fun x => c * x + d) = c * mean a + d := by
  have h0 : (a.length : ℝ) ≠ 0 := by simpa using h
  unfold mean
  rw [sum_map_affine, List.length_map]
  field_simp

theorem coSum_affine_left (c d : ℝ) (a b : List ℝ) : coSum (a.map fun x => c * x + d) b = c * coSum a b := by
  by_cases h : a = []
  · subst h; simp [coSum]
  · unfold coSum
    rw [mean_affine c d h, List.zipWith_map_left]
    generalize mean a = m
    generalize mean b = n
    clear h
    induction a generalizing b with
    | nil => simp
    | cons x a ih =>
      cases b with
      | nil => simp
      | cons y b =>
        simp only [List.zipWith_cons_cons, List.sum_cons, ih]
        ring

theorem coSum_comm (a b : List ℝ) : coSum a b = coSum b a := by
  unfold coSum
  rw [List.zipWith_comm]
  simp only [mul_comm]

theorem coSum_affine_right (c d : ℝ) (a b : List ℝ) : coSum a (b.map fun x => c * x + d) = c * coSum a b := by
  rw [coSum_comm, coSum_affine_left, coSum_comm]

theorem rSquared_time (c d : ℝ) (hc : c ≠ 0) (a : List ℝ) (b : List NpF) : rSquared (a.map fun x => c * x + d) b = rSquared a b := by
  unfold rSquared
  rw [List.length_map]
  split
  · rfl
  · cases allFin b with
    | none => rfl
    | some l =>
      simp only [coSum_affine_left, coSum_affine_right]
      by_cases h : coSum a a * coSum l l = 0
      · have h' : c * (c * coSum a a) * coSum l l = 0 := by linear_combination c ^ 2 * h
        rw [if_pos h, if_pos h']
      · have h' : c * (c * coSum a a) * coSum l l ≠ 0 := by
          rw [show c * (c * coSum a a) * coSum l l = c ^ 2 * (coSum a a * coSum l l) by ring]
          exact mul_ne_zero (pow_ne_zero _ hc) h
        rw [if_neg h, if_neg h']
        have h1 := left_ne_zero_of_mul h
        have h2 := right_ne_zero_of_mul h
        congr 2
        field_simp

theorem rSquared_data (c d : ℝ) (hc : c ≠ 0) (a b : List ℝ) :
    rSquared a ((b.map fun x => c * x + d).map .fin) = rSquared a (b.map .fin) := by
  unfold rSquared
  rw [List.length_map, List.length_map, List.length_map, allFin_map, allFin_map]
  split
  · rfl
  · simp only [coSum_affine_left, coSum_affine_right]
    by_cases h : coSum a a * coSum b b = 0
    · have h' : coSum a a * (c * (c * coSum b b)) = 0 := by linear_combination c ^ 2 * h
      rw [if_pos h, if_pos h']
    · have h' : coSum a a * (c * (c * coSum b b)) ≠ 0 := by
        rw [show coSum a a * (c * (c * coSum b b)) = c ^ 2 * (coSum a a * coSum b b) by ring]
        exact mul_ne_zero (pow_ne_zero _ hc) h
      rw [if_neg h, if_neg h']
      have h1 := left_ne_zero_of_mul h
      have h2 := right_ne_zero_of_mul h
      congr 2
      field_simp

/-! ## The clock -/

theorem loop_time {time time' : List ℝ} (h : ∀ b, rSquared time' b = rSquared time b) :
    ∀ (is : List ℝ) (data : List NpF) (o r : ℝ), integralLoop time' is data o r = integralLoop time is data o r
  | [], _, _, _ => rfl
  | i :: is, data, o, r => by
    simp only [integralLoop, h, loop_time h is]

/-- Neither the unit of time nor the zero of the clock nor its direction changes the result, for any data and range, including the
exceptions. -/
theorem C116_time (time data : List ℝ) (start stop step a b : ℝ) (ha : a ≠ 0) :
    integralMethod (time.map fun t => a * t + b) data start stop step = integralMethod time data start stop step := by
  unfold integralMethod
  simp only [loop_time (rSquared_time a b ha time)]

/-! ## The order of the measurements -/

/-- The transformation of one value. -/
noncomputable def transform1 (i : ℝ) (x : NpF) : PyM NpF :=
  if i = 1 then x.log
  else if i < 1 ∧ i > 0 then .ok ((x.pow (-i + 1)).divBy (-i + 1))
  else if i ≥ 1 then .ok ((x.pow (i - 1)).inv)
  else .ok x

theorem mapM'_pure {α β : Type} (f : α → β) : ∀ l : List α, mapM' (fun x => .ok (f x)) l = .ok (l.map f)
  | [] => rfl
  | x :: l => by simp only [mapM', mapM'_pure f l, List.map_cons]

theorem transform_each (i : ℝ) (data : List NpF) : transform i data = mapM' (transform1 i) data := by
  unfold transform transform1
  split
  · rfl
  · split
    · rw [mapM'_pure]
    · split
      · rw [mapM'_pure]
      · rw [mapM'_pure, List.map_id']

theorem transform1_error {i : ℝ} {x : NpF} {e : Err} (h : transform1 i x = .error e) : e = .valueError := by
  unfold transform1 NpF.log at h
  split at h
  · split at h
    · split at h
      · cases h
      · cases h; rfl
    · cases h
    · cases h
  · split at h
    · cases h
    · split at h <;> cases h

/-- Listing the pairs in another order lists the transformed pairs in that order. -/
theorem mapM'_perm {f : NpF → PyM NpF} (hf : ∀ x e, f x = .error e → e = .valueError) {p q : List (ℝ × NpF)} (h : p.Perm q) :
    (mapM' f (p.map (·.2)) = .error .valueError ∧ mapM' f (q.map (·.2)) = .error .valueError) ∨
    ∃ p' q' : List (ℝ × NpF), p'.Perm q' ∧ p'.map (·.1) = p.map (·.1) ∧ q'.map (·.1) = q.map (·.1) ∧
      mapM' f (p.map (·.2)) = .ok (p'.map (·.2)) ∧ mapM' f (q.map (·.2)) = .ok (q'.map (·.2)) := by
  have key : ∀ l : List (ℝ × NpF), (∃ x ∈ l, f x.2 = .error .valueError) ∧ mapM' f (l.map (·.2)) = .error .valueError ∨
      (∀ x ∈ l, ∃ y, f x.2 = .ok y) ∧ mapM' f (l.map (·.2)) = .ok (l.map fun x => match f x.2 with | .ok y => y | .error _ => .nan) := by
    intro l
    induction l with
    | nil => exact .inr ⟨by simp, rfl⟩
    | cons x l ih =>
      cases hx : f x.2 with
      | error e =>
        have := hf _ _ hx
        subst this
        exact .inl ⟨⟨x, by simp, hx⟩, by simp only [List.map_cons, mapM', hx]⟩
      | ok y =>
        rcases ih with ⟨⟨z, hz, h1⟩, h2⟩ | ⟨h1, h2⟩
        · exact .inl ⟨⟨z, List.mem_cons_of_mem _ hz, h1⟩, by simp only [List.map_cons, mapM', hx, h2]⟩
        · refine .inr ⟨?_, by simp only [List.map_cons, mapM', hx, h2]⟩
          intro z hz
          rcases List.mem_cons.1 hz with rfl | hz
          · exact ⟨y, hx⟩
          · exact h1 z hz
  rcases key p with ⟨⟨x, hx, h1⟩, h2⟩ | ⟨h1, h2⟩ <;> rcases key q with ⟨⟨z, hz, g1⟩, g2⟩ | ⟨g1, g2⟩
  · exact .inl ⟨h2, g2⟩
  · obtain ⟨y, hy⟩ := g1 x (h.mem_iff.1 hx)
    rw [h1] at hy; cases hy
  · obtain ⟨y, hy⟩ := h1 z (h.mem_iff.2 hz)
    rw [g1] at hy; cases hy
  · let g : ℝ × NpF → ℝ × NpF := fun x => (x.1, match f x.2 with | .ok y => y | .error _ => .nan)
    refine .inr ⟨p.map g, q.map g, h.map g, ?_, ?_, ?_, ?_⟩
    · rw [List.map_map]; rfl
    · rw [List.map_map]; rfl
    · rw [h2, List.map_map]; rfl
    · rw [g2, List.map_map]; rfl

theorem mean_perm {a b : List ℝ} (h : a.Perm b) : mean a = mean b := by
  unfold mean; rw [h.sum_eq, h.length_eq]

theorem coSum_pairs (f g : ℝ × ℝ → ℝ) {p q : List (ℝ × ℝ)} (h : p.Perm q) :
    coSum (p.map f) (p.map g) = coSum (q.map f) (q.map g) := by
  unfold coSum
  rw [mean_perm (h.map f), mean_perm (h.map g), List.zipWith_map, List.zipWith_map, List.zipWith_self, List.zipWith_self]
  exact (h.map _).sum_eq

theorem allFin_pairs {p : List (ℝ × NpF)} {l : List ℝ} (h : allFin (p.map (·.2)) = some l) :
    ∃ p' : List (ℝ × ℝ), p = p'.map (fun x => (x.1, NpF.fin x.2)) ∧ p'.map (·.2) = l := by
  induction p generalizing l with
  | nil => simp [allFin] at h; exact ⟨[], rfl, by simp [← h]⟩
  | cons x p ih =>
    obtain ⟨t, v⟩ := x
    cases v with
    | fin v =>
      simp only [List.map_cons, allFin, Option.map_eq_some_iff] at h
      obtain ⟨r, hr, rfl⟩ := h
      obtain ⟨p', h1, h2⟩ := ih hr
      exact ⟨(t, v) :: p', by simp [h1], by simp [h2]⟩
    | inf => simp [allFin] at h
    | nan => simp [allFin] at h

theorem rSquared_perm {p q : List (ℝ × NpF)} (h : p.Perm q) :
    rSquared (p.map (·.1)) (p.map (·.2)) = rSquared (q.map (·.1)) (q.map (·.2)) := by
  have key : ∀ {p q : List (ℝ × NpF)} {l : List ℝ}, p.Perm q → allFin (p.map (·.2)) = some l →
      ∃ p' q' : List (ℝ × ℝ), p'.Perm q' ∧ p = p'.map (fun x => (x.1, NpF.fin x.2)) ∧ q = q'.map (fun x => (x.1, NpF.fin x.2)) := by
    intro p q l h hl
    obtain ⟨p', h1, -⟩ := allFin_pairs hl
    let G : ℝ × NpF → ℝ × ℝ := fun x => (x.1, match x.2 with | .fin y => y | _ => 0)
    refine ⟨p.map G, q.map G, h.map G, ?_, ?_⟩
    · rw [h1, List.map_map, List.map_map]; rfl
    · rw [List.map_map]
      conv_lhs => rw [← List.map_id q]
      refine List.map_congr_left fun x hx => ?_
      have hx' := h.mem_iff.2 hx
      rw [h1] at hx'
      obtain ⟨y, -, rfl⟩ := List.mem_map.1 hx'
      rfl
  have fin : ∀ l : List (ℝ × ℝ), ((l.map fun x => (x.1, NpF.fin x.2)).map (·.1) = l.map (·.1)) ∧
      (l.map fun x => (x.1, NpF.fin x.2)).map (·.2) = (l.map (·.2)).map NpF.fin := by
    intro l
    simp [List.map_map, Function.comp_def]
  unfold rSquared
  rw [if_neg (by simp), if_neg (by simp)]
  cases h1 : allFin (p.map (·.2)) with
  | some l =>
    obtain ⟨p', q', h2, rfl, rfl⟩ := key h h1
    rw [(fin p').2, allFin_map] at h1
    cases h1
    rw [(fin q').2, allFin_map, (fin p').1, (fin q').1]
    simp only [coSum_pairs _ _ h2]
  | none =>
    cases h3 : allFin (q.map (·.2)) with
    | none => rfl
    | some l =>
      obtain ⟨p', q', h2, rfl, rfl⟩ := key h.symm h3
      rw [(fin q').2, allFin_map] at h1
      cases h1

theorem loop_perm : ∀ (is : List ℝ) {p q : List (ℝ × NpF)} (_ : p.Perm q) (o r : ℝ),
    integralLoop (p.map (·.1)) is (p.map (·.2)) o r = integralLoop (q.map (·.1)) is (q.map (·.2)) o r
  | [], _, _, _, _, _ => rfl
  | i :: is, p, q, h, o, r => by
    simp only [integralLoop, transform_each]
    rcases mapM'_perm (fun x e => transform1_error (i := i) (x := x)) h with ⟨h1, h2⟩ | ⟨p', q', h1, h2, h3, h4, h5⟩
    · rw [h1, h2]
    · rw [h4, h5, ← h2, ← h3]
      simp only [rSquared_perm h1, loop_perm is h1]

/-- The order in which the measurements are listed does not matter. -/
theorem C116_order_of_measurements (p q : List (ℝ × ℝ)) (h : p.Perm q) (start stop step : ℝ) :
    integralMethod (p.map (·.1)) (p.map (·.2)) start stop step = integralMethod (q.map (·.1)) (q.map (·.2)) start stop step := by
  unfold integralMethod
  have h' := h.map fun x : ℝ × ℝ => (x.1, NpF.fin x.2)
  have e : ∀ l : List (ℝ × ℝ), l.map (·.1) = (l.map fun x => (x.1, NpF.fin x.2)).map (·.1) ∧
      (l.map (·.2)).map NpF.fin = (l.map fun x => (x.1, NpF.fin x.2)).map (·.2) := by
    intro l
    simp [List.map_map, Function.comp_def]
  cases arange start stop step with
  | error e => rfl
  | ok is =>
    simp only
    rw [(e p).2, (e q).2, (e p).1, (e q).1]
    exact loop_perm is h' 0 0

/-! ## The unit of concentration -/

theorem rSquared_scale {c : ℝ} (hc : c ≠ 0) (a b : List ℝ) :
    rSquared a ((b.map (c * ·)).map .fin) = rSquared a (b.map .fin) := by
  simpa only [add_zero] using rSquared_data c 0 hc a b

theorem transform_scale {i c : ℝ} {data : List ℝ} (h1 : i ≠ 1) (hc : 0 < c) (hd : ∀ x ∈ data, 0 < x) :
    ∃ (d : List ℝ) (c' : ℝ), 0 < c' ∧ (∀ x ∈ d, 0 < x) ∧ transform i (data.map .fin) = .ok (d.map .fin) ∧
      transform i ((data.map (c * ·)).map .fin) = .ok ((d.map (c' * ·)).map .fin) := by
  unfold transform
  rw [if_neg h1, if_neg h1]
  by_cases h2 : i < 1 ∧ i > 0
  · rw [if_pos h2, if_pos h2]
    have hp : 0 < -i + 1 := by linarith [h2.1]
    refine ⟨data.map fun x => x ^ (-i + 1) / (-i + 1), c ^ (-i + 1), by positivity, ?_, ?_, ?_⟩
    · intro y hy
      obtain ⟨x, hx, rfl⟩ := List.mem_map.1 hy
      have := hd x hx
      positivity
    · simp only [List.map_map]
      congr 1
      refine List.map_congr_left fun x hx => ?_
      simp [NpF.pow, (hd x hx).le, NpF.divBy]
    · simp only [List.map_map]
      congr 1
      refine List.map_congr_left fun x hx => ?_
      have h3 := hd x hx
      have h4 : 0 ≤ c * x := by positivity
      simp only [Function.comp_apply, NpF.pow, h4, true_or, if_true, NpF.divBy, Real.mul_rpow hc.le h3.le]
      rw [mul_div_assoc]
  · rw [if_neg h2, if_neg h2]
    by_cases h3 : i ≥ 1
    · rw [if_pos h3, if_pos h3]
      refine ⟨data.map fun x => 1 / x ^ (i - 1), 1 / c ^ (i - 1), by positivity, ?_, ?_, ?_⟩
      · intro y hy
        obtain ⟨x, hx, rfl⟩ := List.mem_map.1 hy
        have := hd x hx
        positivity
      · simp only [List.map_map]
        congr 1
        refine List.map_congr_left fun x hx => ?_
        have h4 := hd x hx
        have h5 : x ^ (i - 1) ≠ 0 := by positivity
        simp [NpF.pow, h4.le, NpF.inv, h5]
      · simp only [List.map_map]
        congr 1
        refine List.map_congr_left fun x hx => ?_
        have h3 := hd x hx
        have h4 : 0 ≤ c * x := by positivity
        have h5 : c ^ (i - 1) * x ^ (i - 1) ≠ 0 := by positivity
        simp only [Function.comp_apply, NpF.pow, h4, true_or, if_true, NpF.inv, Real.mul_rpow hc.le h3.le, h5, if_false]
        congr 1
        field_simp
    · rw [if_neg h3, if_neg h3]
      exact ⟨data, c, hc, hd, rfl, rfl⟩

theorem loop_scale (time : List ℝ) : ∀ (is : List ℝ) (data : List ℝ) (c o r : ℝ), 0 < c → (∀ x ∈ data, 0 < x) →
    1 ∉ is.dropLast →
    integralLoop time is ((data.map (c * ·)).map .fin) o r = integralLoop time is (data.map .fin) o r
  | [], _, _, _, _, _, _, _ => rfl
  | i :: is, data, c, o, r, hc, hd, h1 => by
    by_cases hi : i = 1
    · subst hi
      have : is = [] := by
        cases is with
        | nil => rfl
        | cons j is => simp at h1
      subst this
      have e : ((data.map (c * ·)).map Real.log) = (data.map Real.log).map fun x => 1 * x + Real.log c := by
        simp only [List.map_map]
        refine List.map_congr_left fun x hx => ?_
        simp only [Function.comp_apply]
        rw [Real.log_mul hc.ne' (hd x hx).ne']; ring
      have hd' : ∀ x ∈ data.map (c * ·), 0 < x := by
        intro y hy
        obtain ⟨x, hx, rfl⟩ := List.mem_map.1 hy
        have := hd x hx
        positivity
      simp only [integralLoop, transform, if_true, mapM'_log _ hd, mapM'_log _ hd', e, rSquared_data 1 _ one_ne_zero]
    · obtain ⟨d, c', hc', hd', e1, e2⟩ := transform_scale hi hc hd
      have h1' : 1 ∉ is.dropLast := by
        cases is with
        | nil => simp
        | cons j is => exact fun h => h1 (List.mem_cons_of_mem _ h)
      simp only [integralLoop, e1, e2, rSquared_scale hc'.ne',
        loop_scale time is d c' _ _ hc' hd' h1']

/-- Full statement: the unit of concentration does not matter (refuted below). Proved for positive data and ranges in which
1 is at most the last. -/
theorem C116_concentration_partial (time data is : List ℝ) (start stop step c : ℝ) (hc : 0 < c) (hd : ∀ x ∈ data, 0 < x)
    (his : arange start stop step = .ok is) (h1 : 1 ∉ is.dropLast) :
    integralMethod time (data.map (c * ·)) start stop step = integralMethod time data start stop step := by
  unfold integralMethod
  rw [his]
  exact loop_scale time is data c 0 0 hc hd h1

/-- The range of the documentation is not among them, but a range from 0 to 1 in any steps is. -/
example : arange 0 (3 / 2) (1 / 2) = .ok [0, 1 / 2, 1] ∧ (1 : ℝ) ∉ [(0 : ℝ), 1 / 2, 1].dropLast := by
  refine ⟨?_, by norm_num⟩
  have : ⌈((3 / 2 : ℝ) - 0) / (1 / 2)⌉.toNat = 3 := by norm_num; rfl
  rw [arange, if_neg (by norm_num), this]
  norm_num [List.range_succ]

theorem integral_two (t0 t1 t2 a b c r1 r2 : ℝ) (ha : 0 < a) (hb : 0 < b) (hc : 0 < c)
    (h1 : R2 [t0, t1, t2] [a, b, c] = some r1) (h2 : R2 [t0, t1, t2] [1 / a, 1 / b, 1 / c] = some r2) (h3 : 0 < r1) :
    integralMethod [t0, t1, t2] [Real.exp a, Real.exp b, Real.exp c] 1 3 1 = .ok (if r1 < r2 then (2, r2) else (1, r1)) := by
  have ar : arange 1 3 1 = .ok [1, 2] := by
    have : ⌈((3 : ℝ) - 1) / 1⌉.toNat = 2 := by norm_num; rfl
    rw [arange, if_neg one_ne_zero, this]
    norm_num [List.range_succ]
  have e1 : transform 1 ([Real.exp a, Real.exp b, Real.exp c].map .fin) = .ok ([a, b, c].map .fin) := by
    simp [transform, mapM', NpF.log, Real.exp_pos]
  have e2 : transform 2 ([a, b, c].map .fin) = .ok ([1 / a, 1 / b, 1 / c].map .fin) := by
    have : (2 : ℝ) - 1 = 1 := by norm_num
    simp [transform, NpF.pow, NpF.inv, ha.le, hb.le, hc.le, ha.ne', hb.ne', hc.ne', this]
  have f1 := rSquared_eq [t0, t1, t2] [a, b, c] rfl
  have f2 := rSquared_eq [t0, t1, t2] [1 / a, 1 / b, 1 / c] rfl
  rw [h1] at f1
  rw [h2] at f2
  unfold integralMethod
  rw [ar]
  simp only [integralLoop, e1, e2, f1, f2, gt_iff_lt, h3, if_true]
  split <;> rfl

/-- Three measurements and orders 1 and 2: with the concentrations multiplied by `e` the perfect fit is gone. -/
theorem C116_concentration_false : ¬ ∀ (time data : List ℝ) (start stop step c : ℝ), 0 < c → (∀ x ∈ data, 0 < x) →
    integralMethod time (data.map (c * ·)) start stop step = integralMethod time data start stop step := by
  intro h
  have h1 := h [0, 1, 2] [Real.exp 1, Real.exp (1 / 2), Real.exp (1 / 3)] 1 3 1 (Real.exp 1) (Real.exp_pos 1) (by
    intro x hx
    simp only [List.mem_cons, List.not_mem_nil, or_false] at hx
    rcases hx with rfl | rfl | rfl <;> exact Real.exp_pos _)
  have e : [Real.exp 1, Real.exp (1 / 2), Real.exp (1 / 3)].map (Real.exp 1 * ·) =
      [Real.exp 2, Real.exp (3 / 2), Real.exp (4 / 3)] := by
    simp only [List.map_cons, List.map_nil, ← Real.exp_add]
    norm_num
  rw [e, integral_two 0 1 2 2 (3 / 2) (4 / 3) (12 / 13) (27 / 28) (by norm_num) (by norm_num) (by norm_num)
      (by norm_num [R2, cross, dot]) (by norm_num [R2, cross, dot]) (by norm_num),
    integral_two 0 1 2 1 (1 / 2) (1 / 3) (12 / 13) 1 (by norm_num) (by norm_num) (by norm_num)
      (by norm_num [R2, cross, dot]) (by norm_num [R2, cross, dot]) (by norm_num)] at h1
  norm_num at h1

end Verif
