import Verif.Lemmas.Order
import Mathlib.Analysis.Calculus.Deriv.Inv

/-!
# C88: does the integral method find the order of the reaction?
-/

namespace Verif

/-- The order that is really tested when `i` follows the orders `pre`. -/
noncomputable def effOrder (pre : List ℝ) (i : ℝ) : ℝ := 1 - (pre.map (1 - ·)).prod * (1 - i)

/-- What C56 becomes with the orders that are really tested: for all positive data and all ranges of non-negative orders in
which 1 is at most the last, the result is the best fit among the effective orders. -/
theorem C56_effective_orders (time data is : List ℝ) (start stop step : ℝ) (hl : time.length = data.length)
    (hd : ∀ x ∈ data, 0 < x) (his : arange start stop step = .ok is) (h0 : ∀ i ∈ is, 0 ≤ i) (h1 : 1 ∉ is.dropLast) :
    ∃ o r, integralMethod time data start stop step = .ok (o, r) ∧
      (∀ p i q, is = p ++ i :: q → ∀ x, R2 time (data.map (integrated (effOrder p i))) = some x → x ≤ r) ∧
      ((o = 0 ∧ r = 0) ∨ ∃ p q, is = p ++ o :: q ∧ R2 time (data.map (integrated (effOrder p o))) = some r) := by
  obtain ⟨o, r, e, -, h2, h3⟩ := loop_effective hl hd is 1 1 0 0 zero_lt_one one_ne_zero h0 h1
  rw [powered_one] at e
  simp only [one_mul] at h2 h3
  refine ⟨o, r, ?_, h2, h3⟩
  unfold integralMethod
  rw [his]
  exact e

/-- Exact measurements of a reaction of order `n` at three or more times correlate perfectly with the integrated law of order
`m` if and only if `m = n`: the method can work. -/
theorem C88_law {n : ℝ} {time data : List ℝ} (h : ReactionOfOrder n time data) (h3 : ThreeTimes time) (m : ℝ) :
    R2 time (data.map (integrated m)) = some 1 ↔ m = n := R2_order h h3 m

/-- Full statement: if the range contains the order `n` of the reaction, the result is `(n, 1)` (refuted below).  Proved: the
result is `(i, 1)` for the first `i` of the range whose effective order `1 - ∏ (1 - j)`, the product over `i` and the orders
before it, is `n`.  (No order before `i` may be negative or 1.) -/
theorem C88_recovers_partial {n : ℝ} {time data : List ℝ} (h : ReactionOfOrder n time data) (h3 : ThreeTimes time)
    (start stop step i : ℝ) (pre post : List ℝ) (his : arange start stop step = .ok (pre ++ i :: post))
    (h0 : ∀ j ∈ pre, 0 ≤ j) (hi : 0 ≤ i) (h1 : 1 ∉ pre) (hfirst : ∀ p j q, pre = p ++ j :: q → effOrder p j ≠ n)
    (heff : effOrder pre i = n) : integralMethod time data start stop step = .ok (i, 1) := by
  have hnd := arange_nodup his
  unfold integralMethod
  rw [his]
  simp only
  rw [← powered_one data]
  exact loop_recovers h h3 i post pre 1 1 0 0 zero_lt_one one_ne_zero zero_lt_one h0 hi h1
    (List.nodup_append.1 hnd).2.1 (fun p j q e => by simpa [effOrder] using hfirst p j q e) (by simpa [effOrder] using heff)

/-- If no order of the range has the effective order `n` the reported fit is not perfect. -/
theorem C88_misses {n : ℝ} {time data : List ℝ} (h : ReactionOfOrder n time data) (h3 : ThreeTimes time)
    (start stop step : ℝ) (is : List ℝ) (his : arange start stop step = .ok is) (h0 : ∀ j ∈ is, 0 ≤ j)
    (h1 : 1 ∉ is.dropLast) (hne : ∀ p j q, is = p ++ j :: q → effOrder p j ≠ n) :
    ∃ o r, integralMethod time data start stop step = .ok (o, r) ∧ r < 1 := by
  unfold integralMethod
  rw [his]
  simp only
  rw [← powered_one data]
  exact loop_misses h h3 is 1 1 0 0 zero_lt_one one_ne_zero zero_lt_one h0 h1
    (fun p j q e => by simpa [effOrder] using hne p j q e)

/-- The first order of the range is always recognised. -/
theorem C88_first_tested {n : ℝ} {time data : List ℝ} (h : ReactionOfOrder n time data) (h3 : ThreeTimes time)
    (stop step : ℝ) (rest : List ℝ) (his : arange n stop step = .ok (n :: rest)) (h0 : 0 ≤ n) :
    integralMethod time data n stop step = .ok (n, 1) :=
  C88_recovers_partial h h3 n stop step n [] rest his (by simp) h0 (by simp) (by simp) (by simp [effOrder])

/-- So is the order that follows 0. -/
theorem C88_after_zero {n : ℝ} {time data : List ℝ} (h : ReactionOfOrder n time data) (h3 : ThreeTimes time)
    (stop step : ℝ) (rest : List ℝ) (his : arange 0 stop step = .ok (0 :: n :: rest)) (h0 : 0 < n) :
    integralMethod time data 0 stop step = .ok (n, 1) :=
  C88_recovers_partial h h3 0 stop step n [0] rest his (by simp) h0.le (by simp)
    (fun p j q e => by
      rcases p with _ | ⟨a, p⟩
      · obtain ⟨rfl, -⟩ := List.cons.inj e
        simpa [effOrder] using h0.ne
      · exact absurd (List.cons.inj e).2 (by simp))
    (by simp [effOrder])

/-- First order reactions are recognised whenever 1 is in the range (and the orders before it are not negative). -/
theorem C88_first_order {time data : List ℝ} (h : ReactionOfOrder 1 time data) (h3 : ThreeTimes time)
    (start stop step : ℝ) (pre post : List ℝ) (his : arange start stop step = .ok (pre ++ 1 :: post))
    (h0 : ∀ j ∈ pre, 0 ≤ j) : integralMethod time data start stop step = .ok (1, 1) := by
  have hnd := arange_nodup his
  have h1 : (1 : ℝ) ∉ pre := fun hm => (List.nodup_append.1 hnd).2.2 1 hm 1 (by simp) rfl
  refine C88_recovers_partial h h3 start stop step 1 pre post his h0 zero_le_one h1 (fun p j q e => ?_) (by simp [effOrder])
  have hp : (p.map (1 - ·)).prod ≠ 0 := by
    rw [Ne, List.prod_eq_zero_iff, List.mem_map]
    rintro ⟨x, hx, hx0⟩
    exact h1 (by rw [e, show (1 : ℝ) = x by linarith]; simp [hx])
  have hj : (1 : ℝ) - j ≠ 0 := fun hj => h1 (by rw [e, show (1 : ℝ) = j by linarith]; simp)
  have := mul_ne_zero hp hj
  unfold effOrder
  intro he
  exact this (by linarith)

/-- Exactly when an order other than 1 that is in the range is recognised: the factors `1 - j` of the orders tried before it
multiply to 1 (for orders between 0 and 1 this means that all of them are 0). -/
theorem C88_exact {n : ℝ} {time data : List ℝ} (h : ReactionOfOrder n time data) (h3 : ThreeTimes time)
    (start stop step : ℝ) (pre post : List ℝ) (his : arange start stop step = .ok (pre ++ n :: post))
    (h0 : ∀ j ∈ pre, 0 ≤ j) (hn : 0 ≤ n) (hn1 : n ≠ 1) (h1 : 1 ∉ pre)
    (hfirst : ∀ p j q, pre = p ++ j :: q → effOrder p j ≠ n) :
    integralMethod time data start stop step = .ok (n, 1) ↔ (pre.map (1 - ·)).prod = 1 := by
  constructor
  · intro hres
    by_contra hprod
    have heff : effOrder pre n ≠ n := by
      intro he
      unfold effOrder at he
      have : ((pre.map (1 - ·)).prod - 1) * (1 - n) = 0 := by linarith
      rcases mul_eq_zero.1 this with h | h
      · exact hprod (by linarith)
      · exact hn1 (by linarith)
    have hnd := arange_nodup his
    unfold integralMethod at hres
    rw [his] at hres
    simp only at hres
    rw [← powered_one data, show pre ++ n :: post = (pre ++ [n]) ++ post by simp] at hres
    obtain ⟨d, o, b, e, hb⟩ := loop_prefix h h3 post (pre ++ [n]) 1 1 0 0 zero_lt_one one_ne_zero zero_lt_one
      (fun j hj => by
        rcases List.mem_append.1 hj with hj | hj
        · exact h0 j hj
        · rw [List.mem_singleton.1 hj]; exact hn)
      (fun hm => by
        rcases List.mem_append.1 hm with hm | hm
        · exact h1 hm
        · exact hn1 (List.mem_singleton.1 hm).symm)
      (fun p j q e => by
        rw [one_mul]
        rcases List.eq_nil_or_concat q with rfl | ⟨q, x, rfl⟩
        · have hx := List.append_inj_right' e rfl
          obtain rfl := List.append_inj_left' e rfl
          obtain rfl : n = j := by simpa using hx
          exact heff
        · have e' : pre ++ [n] = (p ++ j :: q) ++ [x] := by rw [e]; simp
          exact hfirst p j q (List.append_inj_left' e' rfl))
    rw [e] at hres
    rcases integralLoop_order time post d o b _ hres with heq | hmem
    · have := congrArg Prod.snd heq
      simp only at this
      linarith
    · exact (List.nodup_cons.1 (List.nodup_append.1 hnd).2.1).1 hmem
  · intro hprod
    exact C88_recovers_partial h h3 start stop step n pre post his h0 hn h1 hfirst (by unfold effOrder; rw [hprod]; ring)

/-- An order other than 1 is never recognised after positive orders below 1. -/
theorem C88_below_one {n : ℝ} {time data : List ℝ} (h : ReactionOfOrder n time data) (h3 : ThreeTimes time)
    (start stop step : ℝ) (pre post : List ℝ) (his : arange start stop step = .ok (pre ++ n :: post))
    (h0 : ∀ j ∈ pre, 0 ≤ j ∧ j < 1) (hn : 0 ≤ n) (hn1 : n ≠ 1) (hj : ∃ j ∈ pre, 0 < j) :
    integralMethod time data start stop step ≠ .ok (n, 1) := by
  have hnd := arange_nodup his
  have h1 : (1 : ℝ) ∉ pre := fun hm => (h0 1 hm).2.false
  by_cases hfirst : ∀ p j q, pre = p ++ j :: q → effOrder p j ≠ n
  · rw [Ne, C88_exact h h3 start stop step pre post his (fun j hj => (h0 j hj).1) hn hn1 h1 hfirst]
    have key : ∀ l : List ℝ, (∀ j ∈ l, 0 ≤ j ∧ j < 1) → 0 < (l.map (1 - ·)).prod ∧ (l.map (1 - ·)).prod ≤ 1 ∧
        ((∃ j ∈ l, 0 < j) → (l.map (1 - ·)).prod < 1) := by
      intro l
      induction l with
      | nil => simp
      | cons x l ih =>
        intro hl
        obtain ⟨i1, i2, i3⟩ := ih fun j hj => hl j (List.mem_cons_of_mem _ hj)
        obtain ⟨x0, x1⟩ := hl x List.mem_cons_self
        simp only [List.map_cons, List.prod_cons]
        refine ⟨mul_pos (by linarith) i1, by nlinarith, ?_⟩
        rintro ⟨j, hj, hj0⟩
        rcases List.mem_cons.1 hj with rfl | hj
        · nlinarith
        · have := i3 ⟨j, hj, hj0⟩
          nlinarith
    exact ((key pre h0).2.2 hj).ne
  · push Not at hfirst
    obtain ⟨p, j, q, e, he, hmin⟩ := first_split (fun p j => effOrder p j = n) hfirst
    have hjpre : j ∈ pre := by rw [e]; simp
    rw [C88_recovers_partial h h3 start stop step j p (q ++ n :: post) (by rw [his, e]; simp)
      (fun k hk => (h0 k (by rw [e]; simp [hk])).1) (h0 j hjpre).1 (fun hm => h1 (by rw [e]; simp [hm])) hmin he]
    intro hres
    have : j = n := congrArg Prod.fst (Except.ok.inj hres)
    exact (List.nodup_append.1 hnd).2.2 j hjpre n (by simp) this

/-! ## Refutations and examples -/

theorem arange_three (a s : ℝ) (hs : 0 < s) : arange a (a + 3 * s) s = .ok [a, a + s, a + 2 * s] := by
  have h : (a + 3 * s - a) / s = ((3 : ℤ) : ℝ) := by field_simp; push_cast; ring
  unfold arange
  rw [if_neg hs.ne', h, Int.ceil_intCast]
  have : (3 : ℤ).toNat = 3 := rfl
  simp [this, List.range_succ]

/-- A reaction of order 5/6: the concentration is `(3 - t)⁶`. -/
theorem reaction_five_sixths : ReactionOfOrder (5 / 6) [0, 1, 2] [729, 64, 1] := by
  refine ⟨6, fun t => (3 - t) ^ 6, Set.Icc 0 2, by norm_num, Set.ordConnected_Icc, by norm_num, fun t ht => ?_, by norm_num⟩
  have hp : 0 < 3 - t := by linarith [ht.2]
  refine ⟨by positivity, ?_⟩
  have h1 : HasDerivAt (fun t : ℝ => (3 - t) ^ 6) (6 * (3 - t) ^ 5 * (-1)) t := by
    simpa using ((hasDerivAt_id t).const_sub 3).fun_pow 6
  refine (h1.congr_deriv ?_).hasDerivWithinAt
  have : ((3 - t) ^ 6) ^ (5 / 6 : ℝ) = (3 - t) ^ 5 := by
    rw [← Real.rpow_natCast, ← Real.rpow_mul hp.le, ← Real.rpow_natCast]; norm_num
  rw [this]; ring

theorem three_times : ThreeTimes [0, 1, 2] := ⟨0, by simp, 1, by simp, 2, by simp, by norm_num, by norm_num⟩

/-- Exact data of a reaction of order 5/6, range 1/2, 2/3, 5/6: the result is order 2/3 with a perfect fit. -/
theorem C88_recovers_false : ¬ ∀ (n : ℝ) (time data is : List ℝ) (start stop step : ℝ), ReactionOfOrder n time data →
    ThreeTimes time → arange start stop step = .ok is → (∀ j ∈ is, 0 ≤ j) → n ∈ is →
    integralMethod time data start stop step = .ok (n, 1) := by
  intro hall
  have e1 : (1 / 2 : ℝ) + 1 / 6 = 2 / 3 := by norm_num
  have e2 : (1 / 2 : ℝ) + 2 * (1 / 6) = 5 / 6 := by norm_num
  have ha : arange (1 / 2) (1 / 2 + 3 * (1 / 6)) (1 / 6) = .ok [1 / 2, 2 / 3, 5 / 6] := by
    rw [arange_three _ _ (by norm_num), e1, e2]
  have h1 := hall (5 / 6) _ _ _ _ _ _ reaction_five_sixths three_times ha (by norm_num) (by simp)
  have h2 := C88_recovers_partial reaction_five_sixths three_times _ _ _ (2 / 3) [1 / 2] [5 / 6] ha (by norm_num) (by norm_num)
    (by norm_num) (fun p j q e => by
      rcases p with _ | ⟨a, p⟩
      · obtain ⟨rfl, -⟩ := List.cons.inj e
        norm_num [effOrder]
      · exact absurd (List.cons.inj e).2 (by simp)) (by norm_num [effOrder])
  rw [h2] at h1
  have := congrArg Prod.fst (Except.ok.inj h1)
  norm_num at this

/-! ### The range of the documentation -/

theorem loop_nan (time : List ℝ) (o b : ℝ) : ∀ (is : List ℝ) (k : ℕ), time.length = k + 1 →
    integralLoop time is (List.replicate (k + 1) .nan) o b = .ok (o, b)
  | [], _, _ => rfl
  | i :: is, k, hl => by
    have hm : ∀ m, mapM' NpF.log (List.replicate m .nan) = .ok (List.replicate m .nan) := by
      intro m
      induction m with
      | zero => rfl
      | succ m ih => simp [List.replicate_succ, mapM', NpF.log, ih]
    have ht : transform i (List.replicate (k + 1) .nan) = .ok (List.replicate (k + 1) .nan) := by
      unfold transform
      split_ifs
      · exact hm _
      · simp [NpF.pow, NpF.divBy]
      · simp [NpF.pow, NpF.inv]
      · rfl
    have hr : rSquared time (List.replicate (k + 1) .nan) = .ok none := by
      unfold rSquared
      rw [if_neg (by simp [hl])]
      simp [List.replicate_succ, allFin]
    simp only [integralLoop, ht, hr]
    exact loop_nan time o b is k hl

theorem arange_doc : ∃ rest, arange 0 4 (1 / 2) = .ok (0 :: (1 / 2) :: 1 :: (3 / 2) :: rest) ∧ 2 ∈ rest := by
  have h : ((4 : ℝ) - 0) / (1 / 2) = ((8 : ℤ) : ℝ) := by norm_num
  have h8 : (8 : ℤ).toNat = 8 := rfl
  refine ⟨[2, 5 / 2, 3, 7 / 2], ?_, by simp⟩
  unfold arange
  rw [if_neg (by norm_num), h, Int.ceil_intCast, h8]
  simp only [List.range_succ, List.range_zero, List.nil_append, List.cons_append, List.map_cons, List.map_nil]
  norm_num

/-- With the range of the documentation, orders 0 to 4 in steps of 1/2, no order above 1 is ever reported for concentrations
below 1/4. -/
theorem C88_small_concentrations (time data : List ℝ) (hl : time.length = data.length) (hne : data ≠ [])
    (hd : ∀ x ∈ data, 0 < x ∧ x < 1 / 4) :
    ∃ o r, integralMethod time data 0 4 (1 / 2) = .ok (o, r) ∧ o ∈ [(0 : ℝ), 1 / 2, 1] := by
  obtain ⟨rest, ha, -⟩ := arange_doc
  have hp : ∀ x ∈ data, 0 < x := fun x hx => (hd x hx).1
  obtain ⟨k, hk⟩ : ∃ k, data.length = k + 1 := Nat.exists_eq_succ_of_ne_zero (by simpa using hne)
  -- the passes
  have t0 : transform 0 (data.map .fin) = .ok (data.map .fin) := by
    unfold transform; rw [if_neg (by norm_num), if_neg (by norm_num), if_neg (by norm_num)]
  have t1 : transform (1 / 2) (data.map .fin) = .ok ((data.map fun x => 2 * x ^ (1 / 2 : ℝ)).map .fin) := by
    unfold transform
    rw [if_neg (by norm_num), if_pos (by norm_num)]
    congr 1
    simp only [List.map_map]
    refine List.map_congr_left fun x hx => ?_
    simp only [Function.comp, NpF.pow, (hp x hx).le, true_or, if_true, NpF.divBy]
    rw [show (-(1 / 2) + 1 : ℝ) = 1 / 2 by norm_num]
    congr 1; ring
  have hq : ∀ y ∈ data.map (fun x => 2 * x ^ (1 / 2 : ℝ)), 0 < y ∧ y < 1 := by
    intro y hy
    obtain ⟨x, hx, rfl⟩ := List.mem_map.1 hy
    obtain ⟨h0, h4⟩ := hd x hx
    refine ⟨by positivity, ?_⟩
    have : x ^ (1 / 2 : ℝ) < (1 / 4 : ℝ) ^ (1 / 2 : ℝ) := Real.rpow_lt_rpow h0.le h4 (by norm_num)
    have e : ((1 / 4 : ℝ)) ^ (1 / 2 : ℝ) = 1 / 2 := by
      rw [← Real.sqrt_eq_rpow, show (1 / 4 : ℝ) = (1 / 2) ^ 2 by norm_num, Real.sqrt_sq (by norm_num)]
    linarith
  set d1 := data.map (fun x => 2 * x ^ (1 / 2 : ℝ))
  have t2 : transform 1 (d1.map .fin) = .ok ((d1.map Real.log).map .fin) := by
    unfold transform; rw [if_pos rfl, mapM'_log _ fun y hy => (hq y hy).1]
  have t3 : transform (3 / 2) ((d1.map Real.log).map .fin) = .ok (List.replicate (k + 1) .nan) := by
    unfold transform
    rw [if_neg (by norm_num), if_neg (by norm_num), if_pos (by norm_num)]
    congr 1
    rw [List.eq_replicate_iff]
    refine ⟨by simp [d1, hk], fun z hz => ?_⟩
    simp only [List.map_map, List.mem_map] at hz
    obtain ⟨y, hy, rfl⟩ := hz
    obtain ⟨y0, y1⟩ := hq y hy
    have hneg := Real.log_neg y0 y1
    have hfrac : ¬ ∃ m : ℤ, (3 / 2 - 1 : ℝ) = m := by
      rintro ⟨m, hm⟩
      have : (2 * m : ℝ) = 1 := by linarith
      have : (2 * m : ℤ) = 1 := by exact_mod_cast this
      omega
    simp only [Function.comp, NpF.pow]
    rw [if_neg (by push Not; exact ⟨hneg, fun m hm => hfrac ⟨m, hm⟩⟩)]
    rfl
  have r0 := rSquared_eq time data hl
  have r1 := rSquared_eq time d1 (by simp [d1, hl])
  have r2 := rSquared_eq time (d1.map Real.log) (by simp [d1, hl])
  have r3 : rSquared time (List.replicate (k + 1) .nan) = .ok none := by
    unfold rSquared
    rw [if_neg (by simp [hl, hk])]
    simp [List.replicate_succ, allFin]
  have s3 : ∀ o b, integralLoop time ((3 / 2) :: rest) ((d1.map Real.log).map .fin) o b = .ok (o, b) := by
    intro o b
    simp only [integralLoop, t3, r3]
    exact loop_nan time o b rest k (by rw [hl, hk])
  have s2 : ∀ o b, ∃ o' r', integralLoop time (1 :: (3 / 2) :: rest) (d1.map .fin) o b = .ok (o', r') ∧ (o' = o ∨ o' = 1) := by
    intro o b
    rw [integralLoop, t2]
    simp only
    rw [r2]
    cases R2 time (d1.map Real.log) with
    | none => exact ⟨o, b, s3 o b, .inl rfl⟩
    | some r =>
      simp only
      split_ifs
      · exact ⟨1, r, s3 1 r, .inr rfl⟩
      · exact ⟨o, b, s3 o b, .inl rfl⟩
  have s1 : ∀ o b, ∃ o' r', integralLoop time ((1 / 2) :: 1 :: (3 / 2) :: rest) (data.map .fin) o b = .ok (o', r') ∧
      (o' = o ∨ o' = 1 / 2 ∨ o' = 1) := by
    intro o b
    rw [integralLoop, t1]
    simp only
    rw [r1]
    cases R2 time d1 with
    | none =>
      obtain ⟨o', r', e, h⟩ := s2 o b
      exact ⟨o', r', e, h.imp id .inr⟩
    | some r =>
      simp only
      split_ifs
      · obtain ⟨o', r', e, h⟩ := s2 (1 / 2) r
        exact ⟨o', r', e, .inr h⟩
      · obtain ⟨o', r', e, h⟩ := s2 o b
        exact ⟨o', r', e, h.imp id .inr⟩
  unfold integralMethod
  rw [ha]
  simp only
  rw [integralLoop, t0]
  simp only
  rw [r0]
  cases R2 time data with
  | none =>
    obtain ⟨o', r', e, h⟩ := s1 0 0
    exact ⟨o', r', e, by simpa using h⟩
  | some r =>
    simp only
    split_ifs
    · obtain ⟨o', r', e, h⟩ := s1 0 r
      exact ⟨o', r', e, by simpa using h⟩
    · obtain ⟨o', r', e, h⟩ := s1 0 0
      exact ⟨o', r', e, by simpa using h⟩

/-- A second order reaction: `1 / (5 + t)`. -/
theorem reaction_second : ReactionOfOrder 2 [0, 1, 2] [1 / 5, 1 / 6, 1 / 7] := by
  refine ⟨1, fun t => 1 / (5 + t), Set.Icc 0 2, by norm_num, Set.ordConnected_Icc, by norm_num, fun t ht => ?_, by norm_num⟩
  have hp : 0 < 5 + t := by linarith [ht.1]
  refine ⟨by positivity, ?_⟩
  have h1 : HasDerivAt (fun t : ℝ => (5 + t)⁻¹) (-1 / (5 + t) ^ 2) t := by
    simpa using ((hasDerivAt_id t).const_add 5).fun_inv hp.ne'
  simp only [one_div]
  refine (h1.congr_deriv ?_).hasDerivWithinAt
  rw [show (2 : ℝ) = ((2 : ℕ) : ℝ) by norm_num, Real.rpow_natCast]
  field_simp

/-- A second order reaction and the range of the documentation: the reported order is not 2. -/
theorem C88_documented_range_false : ¬ ∀ (n : ℝ) (time data is : List ℝ), ReactionOfOrder n time data →
    ThreeTimes time → arange 0 4 (1 / 2) = .ok is → n ∈ is →
    ∃ r, integralMethod time data 0 4 (1 / 2) = .ok (n, r) := by
  intro hall
  obtain ⟨rest, ha, hm⟩ := arange_doc
  obtain ⟨r, hr⟩ := hall 2 _ _ _ reaction_second three_times ha (by simp [hm])
  obtain ⟨o, r', hr', ho⟩ := C88_small_concentrations [0, 1, 2] [1 / 5, 1 / 6, 1 / 7] rfl (by simp) (by norm_num)
  rw [hr] at hr'
  obtain rfl : 2 = o := congrArg Prod.fst (Except.ok.inj hr')
  norm_num at ho

/-- With the range of the documentation orders 0, 1/2 and 1 are recognised. -/
theorem C88_documented_range {n : ℝ} {time data : List ℝ} (h : ReactionOfOrder n time data) (h3 : ThreeTimes time)
    (hn : n = 0 ∨ n = 1 / 2 ∨ n = 1) : integralMethod time data 0 4 (1 / 2) = .ok (n, 1) := by
  obtain ⟨rest, ha, -⟩ := arange_doc
  rcases hn with rfl | rfl | rfl
  · exact C88_first_tested h h3 _ _ _ ha le_rfl
  · exact C88_after_zero h h3 _ _ _ ha (by norm_num)
  · exact C88_first_order h h3 _ _ _ [0, 1 / 2] _ ha (by norm_num)

/-- Non-vacuity: second order alone is recognised. -/
example : integralMethod [0, 1, 2] [1 / 5, 1 / 6, 1 / 7] 2 (2 + 1) 1 = .ok (2, 1) :=
  C88_first_tested reaction_second three_times _ _ _ (arange_one 2) (by norm_num)

end Verif
