import Verif.Props.IntegralInvariance
import Verif.Props.Order

/-!
# C119: measurements that are not positive in the integral method
-/

namespace Verif

/-- The transformation of one value by an order other than 1. -/
noncomputable def transformed (i : ℝ) (x : NpF) : NpF :=
  if i < 1 ∧ i > 0 then (x.pow (-i + 1)).divBy (-i + 1) else if i ≥ 1 then (x.pow (i - 1)).inv else x

theorem transform_ne_one {i : ℝ} (h : i ≠ 1) (data : List NpF) : transform i data = .ok (data.map (transformed i)) := by
  unfold transform transformed
  rw [if_neg h]
  split
  · rfl
  · split
    · rfl
    · simp

theorem transformed_nan (i : ℝ) : transformed i .nan = .nan := by
  unfold transformed
  split
  · rfl
  · split <;> rfl

theorem transformed_low {i : ℝ} (h0 : 0 ≤ i) (h1 : i < 1) {x : ℝ} (hx : 0 ≤ x) : ∃ y, transformed i (.fin x) = .fin y ∧
    0 ≤ y ∧ (0 < x → 0 < y) ∧ (x = 0 → y = 0) := by
  unfold transformed
  rcases h0.eq_or_lt with rfl | h0
  · exact ⟨x, by norm_num, hx, id, id⟩
  · refine ⟨x ^ (-i + 1) / (-i + 1), ?_, ?_, fun h => ?_, ?_⟩
    · rw [if_pos ⟨h1, h0⟩]
      simp [NpF.pow, NpF.divBy, hx]
    · exact div_nonneg (Real.rpow_nonneg hx _) (by linarith)
    · exact div_pos (Real.rpow_pos_of_pos h _) (by linarith)
    · rintro rfl
      rw [Real.zero_rpow (by linarith), zero_div]

theorem transformed_negative {i : ℝ} (h0 : 0 < i) (h1 : i < 1) {x : ℝ} (hx : x < 0) : transformed i (.fin x) = .nan := by
  unfold transformed
  rw [if_pos ⟨h1, h0⟩]
  have : ¬ (0 ≤ x ∨ ∃ n : ℤ, -i + 1 = n) := by
    rintro (h | ⟨n, hn⟩)
    · linarith
    · have a : (0 : ℝ) < n := by linarith
      have b : (n : ℝ) < 1 := by linarith
      have a' : (0 : ℤ) < n := by exact_mod_cast a
      have b' : n < (1 : ℤ) := by exact_mod_cast b
      omega
  simp only [NpF.pow]
  rw [if_neg this]
  rfl

theorem transformed_high_pos {i : ℝ} (h1 : 1 < i) {x : ℝ} (hx : 0 < x) : ∃ y, transformed i (.fin x) = .fin y ∧ 0 < y := by
  unfold transformed
  have hp := Real.rpow_pos_of_pos hx (i - 1)
  rw [if_neg (by rintro ⟨h, -⟩; linarith), if_pos h1.le]
  exact ⟨1 / x ^ (i - 1), by simp [NpF.pow, NpF.inv, hx.le, hp.ne'], by positivity⟩

theorem transformed_high_zero {i : ℝ} (h1 : 1 < i) : transformed i (.fin 0) = .inf := by
  unfold transformed
  rw [if_neg (by rintro ⟨h, -⟩; linarith), if_pos h1.le]
  simp [NpF.pow, NpF.inv, Real.zero_rpow (show i - 1 ≠ 0 by linarith)]

theorem transformed_high_inf {i : ℝ} (h1 : 1 < i) : transformed i .inf = .fin 0 := by
  unfold transformed
  rw [if_neg (by rintro ⟨h, -⟩; linarith), if_pos h1.le]
  rfl

theorem allFin_none : ∀ {l : List NpF}, (∃ x ∈ l, ∀ y, x ≠ .fin y) → allFin l = none
  | [], ⟨_, h, _⟩ => nomatch h
  | .inf :: _, _ => rfl
  | .nan :: _, _ => rfl
  | .fin y :: l, ⟨x, h, hx⟩ => by
    rcases List.mem_cons.1 h with rfl | h
    · exact absurd rfl (hx y)
    · simp [allFin, allFin_none ⟨x, h, hx⟩]

theorem rSquared_none {time : List ℝ} {l : List NpF} (hl : time.length = l.length) (h : ∃ x ∈ l, ∀ y, x ≠ .fin y) :
    rSquared time l = .ok none := by
  unfold rSquared
  rw [if_neg (by simpa using hl), allFin_none h]

theorem rSquared_ok {time : List ℝ} {l : List NpF} (hl : time.length = l.length) : ∃ r, rSquared time l = .ok r := by
  unfold rSquared
  rw [if_neg (by simpa using hl)]
  split
  · exact ⟨_, rfl⟩
  · split <;> exact ⟨_, rfl⟩

theorem mapM'_log_error : ∀ {l : List ℝ}, (∃ x ∈ l, x ≤ 0) → mapM' NpF.log (l.map .fin) = .error .valueError
  | [], ⟨_, h, _⟩ => nomatch h
  | y :: l, ⟨x, h, hx⟩ => by
    by_cases hy : 0 < y
    · have hx' : x ∈ l := by
        rcases List.mem_cons.1 h with rfl | h
        · linarith
        · exact h
      simp [mapM', NpF.log, hy, mapM'_log_error ⟨x, hx', hx⟩]
    · simp [mapM', NpF.log, hy]

theorem mapM'_log_ok : ∀ {l : List NpF}, (∀ x ∈ l, x = .nan ∨ ∃ y, x = .fin y ∧ 0 < y) →
    ∃ l', mapM' NpF.log l = .ok l' ∧ l'.length = l.length ∧ (.nan ∈ l → .nan ∈ l')
  | [], _ => ⟨[], rfl, rfl, id⟩
  | x :: l, h => by
    obtain ⟨l', e, hl, hn⟩ := mapM'_log_ok (l := l) fun y hy => h y (List.mem_cons_of_mem _ hy)
    rcases h x List.mem_cons_self with rfl | ⟨y, rfl, hy⟩
    · exact ⟨.nan :: l', by simp [mapM', NpF.log, e], by simp [hl], by simp⟩
    · exact ⟨.fin (Real.log y) :: l', by simp [mapM', NpF.log, e, hy], by simp [hl], fun h => by
        rcases List.mem_cons.1 h with h | h
        · cases h
        · exact List.mem_cons_of_mem _ (hn h)⟩

/-! ## The orders of a range -/

theorem arange_increasing {start stop step : ℝ} {is : List ℝ} (hs : 0 < step) (h : arange start stop step = .ok is) :
    is.Pairwise (· < ·) ∧ ∀ i ∈ is, start ≤ i := by
  unfold arange at h
  rw [if_neg hs.ne'] at h
  cases h
  constructor
  · rw [List.pairwise_map]
    refine List.pairwise_lt_range.imp fun {a b} hab => ?_
    have : (a : ℝ) < b := by exact_mod_cast hab
    nlinarith
  · intro i hi
    obtain ⟨n, -, rfl⟩ := List.mem_map.1 hi
    have : (0 : ℝ) ≤ n := Nat.cast_nonneg n
    nlinarith

/-- A range that reaches order 1. -/
theorem arange_split {start stop step : ℝ} {is : List ℝ} (hs : 0 < step) (h : arange start stop step = .ok is) (h1 : 1 ∈ is) :
    ∃ ps rest, is = ps ++ 1 :: rest ∧ (∀ i ∈ ps, start ≤ i ∧ i < 1) ∧ ∀ i ∈ rest, 1 < i := by
  obtain ⟨hp, hge⟩ := arange_increasing hs h
  obtain ⟨ps, rest, rfl⟩ := List.append_of_mem h1
  rw [List.pairwise_append] at hp
  refine ⟨ps, rest, rfl, fun i hi => ⟨hge i (List.mem_append_left _ hi), hp.2.2 i hi 1 List.mem_cons_self⟩, fun i hi => ?_⟩
  exact (List.pairwise_cons.1 hp.2.1).1 i hi

/-! ## Refused measurements -/

theorem loop_refused (time : List ℝ) (rest : List ℝ) : ∀ (ps : List ℝ) (data : List ℝ) (o b : ℝ),
    (∀ i ∈ ps, 0 ≤ i ∧ i < 1) → time.length = data.length → (∀ x ∈ data, 0 ≤ x) → (0 : ℝ) ∈ data →
    integralLoop time (ps ++ 1 :: rest) (data.map .fin) o b = .error .valueError
  | [], data, o, b, _, _, _, h0 => by
    have : transform 1 (data.map .fin) = .error .valueError := by
      unfold transform
      rw [if_pos rfl, mapM'_log_error ⟨0, h0, le_rfl⟩]
    simp [integralLoop, this]
  | i :: ps, data, o, b, hps, hl, hd, h0 => by
    have hi := hps i List.mem_cons_self
    choose! f hf using fun x hx => transformed_low hi.1 hi.2 (x := x) hx
    have ht : transform i (data.map .fin) = .ok ((data.map f).map .fin) := by
      rw [transform_ne_one hi.2.ne, List.map_map, List.map_map]
      exact congrArg _ (List.map_congr_left fun x hx => (hf x (hd x hx)).1)
    have ih := fun o b => loop_refused time rest ps (data.map f) o b (fun j hj => hps j (List.mem_cons_of_mem _ hj))
      (by simpa using hl) (fun y hy => by
        obtain ⟨x, hx, rfl⟩ := List.mem_map.1 hy
        exact (hf x (hd x hx)).2.1) (List.mem_map.2 ⟨0, h0, (hf 0 le_rfl).2.2.2 rfl⟩)
    obtain ⟨r, hr⟩ := rSquared_ok (time := time) (l := (data.map f).map .fin) (by simpa using hl)
    simp only [List.cons_append, integralLoop, ht, hr]
    match r with
    | none => exact ih o b
    | some r =>
      simp only
      split
      · exact ih _ _
      · exact ih _ _

/-- A zero among the measurements is refused with ValueError by every range of orders between 0 and above that contains 1. -/
theorem C119_zero_partial (time data is : List ℝ) (start stop step : ℝ) (hl : time.length = data.length)
    (hd : ∀ x ∈ data, 0 ≤ x) (h0 : (0 : ℝ) ∈ data) (hstart : 0 ≤ start) (hs : 0 < step)
    (ha : arange start stop step = .ok is) (h1 : 1 ∈ is) :
    integralMethod time data start stop step = .error .valueError := by
  obtain ⟨ps, rest, rfl, hps, -⟩ := arange_split hs ha h1
  unfold integralMethod
  rw [ha]
  exact loop_refused time rest ps data 0 0 (fun i hi => ⟨hstart.trans (hps i hi).1, (hps i hi).2⟩) hl hd h0

/-- So is a negative measurement by a range that begins with order 1. -/
theorem C119_negative_partial (time data is : List ℝ) (stop step : ℝ) (h0 : ∃ x ∈ data, x ≤ 0)
    (ha : arange 1 stop step = .ok (1 :: is)) : integralMethod time data 1 stop step = .error .valueError := by
  unfold integralMethod
  rw [ha]
  have : transform 1 (data.map .fin) = .error .valueError := by
    unfold transform
    rw [if_pos rfl, mapM'_log_error h0]
  simp [integralLoop, this]

/-! ## Negative measurements that are not refused -/

theorem loop_has_nan (time : List ℝ) : ∀ (is : List ℝ) (data : List NpF) (o b : ℝ), 1 ∉ is → time.length = data.length →
    .nan ∈ data → integralLoop time is data o b = .ok (o, b)
  | [], _, _, _, _, _, _ => rfl
  | i :: is, data, o, b, h1, hl, hn => by
    have hn' : NpF.nan ∈ data.map (transformed i) := List.mem_map.2 ⟨.nan, hn, transformed_nan i⟩
    have hr := rSquared_none (time := time) (l := data.map (transformed i)) (by simpa using hl) ⟨.nan, hn', by simp⟩
    simp only [integralLoop, transform_ne_one (show i ≠ 1 from fun e => h1 (by simp [e])), hr]
    exact loop_has_nan time is _ o b (fun h => h1 (List.mem_cons_of_mem _ h)) (by simpa using hl) hn'

theorem loop_nan_low (time : List ℝ) (rest : List ℝ) (hrest : 1 ∉ rest) : ∀ (ps : List ℝ) (data : List NpF) (o b : ℝ),
    (∀ i ∈ ps, 0 ≤ i ∧ i < 1) → time.length = data.length → (∀ x ∈ data, x = .nan ∨ ∃ y, x = .fin y ∧ 0 < y) →
    .nan ∈ data → integralLoop time (ps ++ 1 :: rest) data o b = .ok (o, b)
  | [], data, o, b, _, hl, hd, hn => by
    obtain ⟨l, e, h1, h2⟩ := mapM'_log_ok hd
    have ht : transform 1 data = .ok l := by
      unfold transform
      rw [if_pos rfl, e]
    have hr := rSquared_none (time := time) (l := l) (by omega) ⟨.nan, h2 hn, by simp⟩
    simp only [List.nil_append, integralLoop, ht, hr]
    exact loop_has_nan time rest l o b hrest (by omega) (h2 hn)
  | i :: ps, data, o, b, hps, hl, hd, hn => by
    have hi := hps i List.mem_cons_self
    have hn' : NpF.nan ∈ data.map (transformed i) := List.mem_map.2 ⟨.nan, hn, transformed_nan i⟩
    have hr := rSquared_none (time := time) (l := data.map (transformed i)) (by simpa using hl) ⟨.nan, hn', by simp⟩
    simp only [List.cons_append, integralLoop, transform_ne_one hi.2.ne, hr]
    refine loop_nan_low time rest hrest ps _ o b (fun j hj => hps j (List.mem_cons_of_mem _ hj)) (by simpa using hl) ?_ hn'
    intro x hx
    obtain ⟨z, hz, rfl⟩ := List.mem_map.1 hx
    rcases hd z hz with rfl | ⟨y, rfl, hy⟩
    · exact .inl (transformed_nan i)
    · obtain ⟨w, e, -, hw, -⟩ := transformed_low hi.1 hi.2 hy.le
      exact .inr ⟨w, e, hw hy⟩

/-- A negative measurement among positive ones and a range that begins between 0 and 1: no exception, and the answer is always
order 0 with r squared 0, whatever the measurements are. -/
theorem C119_negative_hidden (time data is : List ℝ) (start stop step : ℝ) (hl : time.length = data.length)
    (hd : ∀ x ∈ data, x ≠ 0) (h0 : ∃ x ∈ data, x < 0) (hstart : 0 < start) (hstart' : start < 1) (hs : 0 < step)
    (ha : arange start stop step = .ok is) : integralMethod time data start stop step = .ok (0, 0) := by
  unfold integralMethod
  rw [ha]
  cases is with
  | nil => rfl
  | cons i is =>
    obtain ⟨hp, -⟩ := arange_increasing hs ha
    have hi : i = start := by
      unfold arange at ha
      rw [if_neg hs.ne'] at ha
      have e := Except.ok.inj ha
      cases hn : ⌈(stop - start) / step⌉.toNat with
      | zero => simp [hn] at e
      | succ n =>
        rw [hn, List.range_succ_eq_map, List.map_cons] at e
        have := (List.cons.inj e).1
        simpa using this.symm
    subst hi
    obtain ⟨x, hx, hneg⟩ := h0
    have hn : NpF.nan ∈ (data.map NpF.fin).map (transformed i) :=
      List.mem_map.2 ⟨.fin x, List.mem_map.2 ⟨x, hx, rfl⟩, transformed_negative hstart hstart' hneg⟩
    have hr := rSquared_none (time := time) (l := (data.map NpF.fin).map (transformed i)) (by simpa using hl) ⟨.nan, hn, by simp⟩
    simp only [integralLoop, transform_ne_one hstart'.ne, hr]
    by_cases h1 : 1 ∈ is
    · obtain ⟨ps, rest, e, hps, hrest⟩ := arange_split hs ha (List.mem_cons_of_mem _ h1)
      cases ps with
      | nil => exact absurd (List.cons.inj e).1 hstart'.ne
      | cons j ps =>
        rw [(List.cons.inj e).2]
        refine loop_nan_low time rest (fun h => (hrest 1 h).false) ps _ 0 0 (fun k hk => ?_) (by simpa using hl) ?_ hn
        · have := hps k (List.mem_cons_of_mem _ hk)
          exact ⟨hstart.le.trans this.1, this.2⟩
        · intro z hz
          obtain ⟨w, hw, rfl⟩ := List.mem_map.1 hz
          obtain ⟨y, hy, rfl⟩ := List.mem_map.1 hw
          rcases lt_or_gt_of_ne (hd y hy) with h | h
          · exact .inl (transformed_negative hstart hstart' h)
          · obtain ⟨v, e, -, hv, -⟩ := transformed_low hstart.le hstart' h.le
            exact .inr ⟨v, e, hv h⟩
    · exact loop_has_nan time is _ 0 0 h1 (by simpa using hl) hn

/-! ## Zeros that are not refused -/

theorem loop_zero_high (time : List ℝ) : ∀ (is : List ℝ) (data : List ℝ) (o b : ℝ), (∀ i ∈ is, 1 < i) →
    time.length = data.length → (∀ x ∈ data, 0 ≤ x) → (0 : ℝ) ∈ data → ∃ o' b', integralLoop time is (data.map .fin) o b = .ok (o', b') ∧
      (o' = o ∨ ∃ k, is[2 * k + 1]? = some o')
  | [], _, o, b, _, _, _, _ => ⟨o, b, rfl, .inl rfl⟩
  | [i], data, o, b, his, hl, _, h0 => by
    have hi := his i (by simp)
    have hr := rSquared_none (time := time) (l := (data.map NpF.fin).map (transformed i)) (by simpa using hl)
      ⟨.inf, List.mem_map.2 ⟨.fin 0, List.mem_map.2 ⟨0, h0, rfl⟩, transformed_high_zero hi⟩, by simp⟩
    refine ⟨o, b, ?_, .inl rfl⟩
    simp only [integralLoop, transform_ne_one hi.ne', hr]
  | i :: j :: is, data, o, b, his, hl, hd, h0 => by
    have hi := his i (by simp)
    have hj := his j (by simp)
    have hr := rSquared_none (time := time) (l := (data.map NpF.fin).map (transformed i)) (by simpa using hl)
      ⟨.inf, List.mem_map.2 ⟨.fin 0, List.mem_map.2 ⟨0, h0, rfl⟩, transformed_high_zero hi⟩, by simp⟩
    have key : ∀ x, 0 ≤ x → ∃ y, transformed j (transformed i (.fin x)) = .fin y ∧ 0 ≤ y ∧ (x = 0 → y = 0) := by
      intro x hx
      rcases hx.eq_or_lt with rfl | hx
      · exact ⟨0, by rw [transformed_high_zero hi, transformed_high_inf hj], le_rfl, fun _ => rfl⟩
      · obtain ⟨y, e, hy⟩ := transformed_high_pos hi hx
        obtain ⟨z, e', hz⟩ := transformed_high_pos hj hy
        exact ⟨z, by rw [e, e'], hz.le, fun h => absurd h hx.ne'⟩
    choose! f hf using key
    have ht : ((data.map NpF.fin).map (transformed i)).map (transformed j) = (data.map f).map .fin := by
      simp only [List.map_map]
      exact List.map_congr_left fun x hx => (hf x (hd x hx)).1
    have ih := fun o b => loop_zero_high time is (data.map f) o b (fun k hk => his k (by simp [hk])) (by simpa using hl)
      (fun y hy => by
        obtain ⟨x, hx, rfl⟩ := List.mem_map.1 hy
        exact (hf x (hd x hx)).2.1) (List.mem_map.2 ⟨0, h0, (hf 0 le_rfl).2.2 rfl⟩)
    obtain ⟨r, hr'⟩ := rSquared_ok (time := time) (l := (data.map f).map .fin) (by simpa using hl)
    have e : integralLoop time (i :: j :: is) (data.map .fin) o b = (match r with
        | some r => if r > b then integralLoop time is ((data.map f).map .fin) j r
          else integralLoop time is ((data.map f).map .fin) o b
        | none => integralLoop time is ((data.map f).map .fin) o b) := by
      rw [integralLoop, transform_ne_one hi.ne']
      simp only [hr]
      rw [integralLoop, transform_ne_one hj.ne', ht]
      simp only [hr']
      cases r <;> rfl
    rw [e]
    have shift : ∀ {o' : ℝ}, (o' = o ∨ ∃ k, is[2 * k + 1]? = some o') →
        (o' = o ∨ ∃ k, (i :: j :: is)[2 * k + 1]? = some o') := by
      rintro o' (h | ⟨k, h⟩)
      · exact .inl h
      · exact .inr ⟨k + 1, by simpa [Nat.mul_add] using h⟩
    match r with
    | none =>
      obtain ⟨o', b', h1, h2⟩ := ih o b
      exact ⟨o', b', h1, shift h2⟩
    | some r =>
      simp only
      split
      · obtain ⟨o', b', h1, h2⟩ := ih j r
        refine ⟨o', b', h1, .inr ?_⟩
        rcases h2 with rfl | ⟨k, h⟩
        · exact ⟨0, by simp⟩
        · exact ⟨k + 1, by simpa [Nat.mul_add] using h⟩
      · obtain ⟨o', b', h1, h2⟩ := ih o b
        exact ⟨o', b', h1, shift h2⟩

/-- A zero among the measurements and a range of orders above 1: no exception, and only every other order of the range, beginning
with the second, can be the answer (or 0 if nothing fits). -/
theorem C119_zero_skips (time data is : List ℝ) (start stop step : ℝ) (hl : time.length = data.length)
    (hd : ∀ x ∈ data, 0 ≤ x) (h0 : (0 : ℝ) ∈ data) (ha : arange start stop step = .ok is) (his : ∀ i ∈ is, 1 < i) :
    ∃ o r, integralMethod time data start stop step = .ok (o, r) ∧ (o = 0 ∨ ∃ k, is[2 * k + 1]? = some o) := by
  unfold integralMethod
  rw [ha]
  exact loop_zero_high time is data 0 0 his hl hd h0

/-- Two measurements, the second zero, tested with orders 2 and 3: order 3, a perfect fit. -/
theorem C119_third_order : integralMethod [0, 1] [1, 0] 2 (2 + 2) 1 = .ok (3, 1) := by
  unfold integralMethod
  rw [arange_two]
  have e : (2 : ℝ) + 1 = 3 := by norm_num
  have t1 : transformed 2 (.fin 1) = .fin 1 := by
    unfold transformed
    rw [if_neg (by norm_num), if_pos (by norm_num)]
    simp [NpF.pow, NpF.inv]
  have t2 : transformed 3 (.fin 1) = .fin 1 := by
    unfold transformed
    rw [if_neg (by norm_num), if_pos (by norm_num)]
    simp [NpF.pow, NpF.inv]
  have r1 := rSquared_none (time := [0, 1]) (l := [.fin 1, .inf]) rfl ⟨.inf, by simp, by simp⟩
  have r2 : rSquared [0, 1] [.fin 1, .fin 0] = .ok (some 1) := by
    rw [show [NpF.fin 1, NpF.fin 0] = ([1, 0] : List ℝ).map .fin from rfl, rSquared_eq [0, 1] [1, 0] rfl]
    norm_num [R2, cross, dot]
  simp only [e, integralLoop, transform_ne_one (show (2 : ℝ) ≠ 1 by norm_num), transform_ne_one (show (3 : ℝ) ≠ 1 by norm_num),
    List.map_cons, List.map_nil, t1, t2, transformed_high_zero (show (1 : ℝ) < 2 by norm_num),
    transformed_high_inf (show (1 : ℝ) < 3 by norm_num), r1, r2]
  norm_num

/-- Measurements that are not positive are not always refused. -/
theorem C119_refused_false : ¬ ∀ (time data is : List ℝ) (start stop step : ℝ), time.length = data.length →
    (∃ x ∈ data, x ≤ 0) → arange start stop step = .ok is → is ≠ [] → (∀ i ∈ is, 0 < i) →
    integralMethod time data start stop step = .error .valueError := by
  intro h
  have := h [0, 1] [1, 0] [2, 2 + 1] 2 (2 + 2) 1 rfl ⟨0, by simp, le_rfl⟩ (arange_two 2) (by simp)
    (by intro i hi; rcases List.mem_pair.1 hi with rfl | rfl <;> norm_num)
  rw [C119_third_order] at this
  cases this

/-! ## Non-vacuity -/

/-- Orders 1/2, 1 and 3/2: a zero is refused, a negative number is not. -/
example : integralMethod [0, 1, 2] [4, 1, 0] (1 / 2) (1 / 2 + 3 * (1 / 2)) (1 / 2) = .error .valueError ∧
    integralMethod [0, 1, 2] [4, 1, -1] (1 / 2) (1 / 2 + 3 * (1 / 2)) (1 / 2) = .ok (0, 0) :=
  ⟨C119_zero_partial _ _ _ _ _ _ rfl (by norm_num) (by simp) (by norm_num) (by norm_num)
    (arange_three (1 / 2) (1 / 2) (by norm_num)) (by norm_num),
   C119_negative_hidden _ _ _ _ _ _ rfl (by norm_num) ⟨-1, by simp, by norm_num⟩ (by norm_num) (by norm_num) (by norm_num)
    (arange_three (1 / 2) (1 / 2) (by norm_num))⟩

example : integralMethod [0, 1, 2] [4, 1, -1] 1 (1 + 1) 1 = .error .valueError :=
  C119_negative_partial _ _ [] _ _ ⟨-1, by simp, by norm_num⟩ (arange_one 1)

example : ∃ o r, integralMethod [0, 1, 2] [4, 1, 0] 2 (2 + 3 * (1 / 2)) (1 / 2) = .ok (o, r) ∧ (o = 0 ∨ o = 2 + 1 / 2) := by
  obtain ⟨o, r, h, h'⟩ := C119_zero_skips [0, 1, 2] [4, 1, 0] _ 2 _ (1 / 2) rfl (by norm_num) (by simp)
    (arange_three 2 (1 / 2) (by norm_num)) (by norm_num)
  refine ⟨o, r, h, ?_⟩
  rcases h' with h' | ⟨k, h'⟩
  · exact .inl h'
  · right
    match k with
    | 0 => simpa using h'.symm
    | k + 1 => simp [Nat.mul_add] at h'

end Verif
