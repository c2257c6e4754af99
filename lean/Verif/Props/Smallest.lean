import Verif.Props.Balance
import Mathlib.Data.List.GetD

/-!
# C90: balancing gives the smallest integer coefficients
-/

namespace Verif

/-! ## Specification -/

/-- The greatest common divisor of a list. -/
def gcdAll (m : List ℕ) : ℕ := m.foldr Nat.gcd 0

/-- Row `i` of the matrix with the given columns times `x`. -/
def lsRow (cols : List (List ℤ)) (x : List ℚ) (i : ℕ) : ℚ :=
  (List.zipWith (fun (c : List ℤ) v => ((c.getD i 0 : ℤ) : ℚ) * v) cols x).sum

/-- The sum of the squared residuals. -/
def lsError (cols : List (List ℤ)) (b : List ℤ) (x : List ℚ) : ℚ :=
  ((List.range b.length).map fun i => (lsRow cols x i - ((b.getD i 0 : ℤ) : ℚ)) ^ 2).sum

/-- A least squares solution: what `np.linalg.lstsq` is documented to return. -/
def LeastSquares (cols : List (List ℤ)) (b : List ℤ) (x : List ℚ) : Prop :=
  x.length = cols.length ∧ ∀ y : List ℚ, y.length = cols.length → lsError cols b x ≤ lsError cols b y

/-- The answer of the solver for this equation is close to a least squares solution, whatever the order of the rows. -/
def SolvesLeastSquares (solver : List (List ℤ) → List ℤ → List ℚ) (ls rs : List Padded) : Prop :=
  ∀ es : List Sym, (∀ e, e ∈ es ↔ ∃ p ∈ ls, p.formula.Mentions e) →
    let cols := systemColumns es ls rs
    ∃ x, LeastSquares cols.dropLast (cols.getLast?.getD []) x ∧
      List.Forall₂ CloseTo ((solver cols.dropLast (cols.getLast?.getD [])).map fun v => -v) (x.map fun v => -v)

/-- Python's `int / int`: correctly rounded to 53 bits. -/
def RoundedDiv (fdiv : ℤ → ℤ → ℚ) : Prop :=
  FloatDiv fdiv ∧ ∀ a b : ℤ, b ≠ 0 → |fdiv a b - (a : ℚ) / b| ≤ 1 / 2 ^ 53 * |(a : ℚ) / b|

/-- The smallest integer coefficients of an equation, and there are no others up to a factor. -/
structure Smallest (n : List ℕ) (ls rs : List Padded) : Prop where
  length : n.length = ls.length + rs.length
  pos : ∀ c ∈ n, 0 < c
  gcd : gcdAll n = 1
  conserves : Conserves (n.map fun c : ℕ => (c : ℚ)) ls rs
  unique : ∀ w : List ℚ, w.length = ls.length + rs.length → Conserves w ls rs → ∃ k : ℚ, w = n.map fun c : ℕ => k * c

/-! ## Arithmetic -/

theorem gcdAll_dvd {m : List ℕ} {a : ℕ} (h : a ∈ m) : gcdAll m ∣ a := by
  induction m with
  | nil => cases h
  | cons b m ih =>
    simp only [gcdAll, List.foldr_cons]
    rcases List.mem_cons.1 h with rfl | h
    · exact Nat.gcd_dvd_left _ _
    · exact (Nat.gcd_dvd_right _ _).trans (ih h)

theorem dvd_gcdAll {m : List ℕ} {d : ℕ} (h : ∀ a ∈ m, d ∣ a) : d ∣ gcdAll m := by
  induction m with
  | nil => simp [gcdAll]
  | cons b m ih => exact Nat.dvd_gcd (h b (by simp)) (ih fun a ha => h a (by simp [ha]))

theorem gcdAll_pos {m : List ℕ} (hne : m ≠ []) (h : ∀ a ∈ m, 0 < a) : 0 < gcdAll m := by
  rcases m with _ | ⟨a, m⟩
  · exact absurd rfl hne
  · exact Nat.pos_of_dvd_of_pos (gcdAll_dvd (List.mem_cons_self)) (h a (by simp))

/-- The coefficients relative to the last one. -/
def relative (m : List ℕ) (L : ℕ) : List ℚ := m.map fun c : ℕ => (c : ℚ) / L

theorem rat_cross {a L : ℕ} (hL : 0 < L) : (a : ℤ) * ((a : ℚ) / L).den = ((a : ℚ) / L).num * L := by
  have h : ((a : ℚ) / L).num / (((a : ℚ) / L).den : ℚ) = a / L := Rat.num_div_den _
  have h1 : (((a : ℚ) / L).den : ℚ) ≠ 0 := by exact_mod_cast ((a : ℚ) / L).den_nz
  have h2 : (L : ℚ) ≠ 0 := by exact_mod_cast hL.ne'
  rw [div_eq_div_iff h1 h2] at h
  have h : ((((a : ℚ) / L).num * L : ℤ) : ℚ) = ((a : ℤ) * ((a : ℚ) / L).den : ℤ) := by push_cast; exact h
  exact_mod_cast h.symm

/-- The common denominator is the last coefficient. -/
theorem denLcm_relative {m : List ℕ} {L : ℕ} (hL : 0 < L) (hg : gcdAll (m ++ [L]) = 1) : denLcm (relative m L) = L := by
  apply Nat.dvd_antisymm
  · unfold denLcm lcmList relative
    clear hg
    induction m with
    | nil => simp
    | cons a m ih =>
      simp only [List.map_cons, List.foldr_cons]
      refine Nat.lcm_dvd ?_ ih
      have := Rat.den_dvd (a : ℤ) (L : ℤ)
      rw [Rat.divInt_eq_div] at this
      push_cast at this
      exact_mod_cast this
  · have key : ∀ a ∈ m ++ [L], L ∣ a * denLcm (relative m L) := by
      intro a ha
      rcases List.mem_append.1 ha with ha | ha
      · obtain ⟨t, ht⟩ : ((a : ℚ) / L).den ∣ denLcm (relative m L) :=
          dvd_lcmList (List.mem_map.2 ⟨_, List.mem_map.2 ⟨a, ha, rfl⟩, rfl⟩)
        have hc := rat_cross (a := a) hL
        have : (L : ℤ) ∣ (a * denLcm (relative m L) : ℕ) := by
          rw [ht]
          push_cast
          rw [← mul_assoc, hc]
          exact ⟨((a : ℚ) / L).num * t, by ring⟩
        exact_mod_cast this
      · rw [List.mem_singleton.1 ha]
        exact Nat.dvd_mul_right _ _
    have gm : ∀ (l : List ℕ) (D : ℕ), (∀ a ∈ l, L ∣ a * D) → L ∣ gcdAll l * D := by
      intro l D h
      induction l with
      | nil => simp [gcdAll]
      | cons a l ih =>
        simp only [gcdAll, List.foldr_cons]
        rw [← Nat.gcd_mul_right]
        exact Nat.dvd_gcd (h a (by simp)) (ih fun b hb => h b (by simp [hb]))
    have := gm _ _ key
    rwa [hg, one_mul] at this

/-- The common numerator factor is that of the other coefficients. -/
theorem numGcd_relative {m : List ℕ} {L : ℕ} (hL : 0 < L) (hg : gcdAll (m ++ [L]) = 1) :
    numGcd (relative m L) = gcdAll m := by
  have hcop : Nat.Coprime (gcdAll m) L := by
    have : Nat.gcd (gcdAll m) L ∣ gcdAll (m ++ [L]) := by
      apply dvd_gcdAll
      intro a ha
      rcases List.mem_append.1 ha with ha | ha
      · exact (Nat.gcd_dvd_left _ _).trans (gcdAll_dvd ha)
      · rw [List.mem_singleton.1 ha]
        exact Nat.gcd_dvd_right _ _
    rw [hg] at this
    exact Nat.dvd_one.1 this
  apply Nat.dvd_antisymm
  · apply dvd_gcdAll
    intro a ha
    have h1 : (numGcd (relative m L) : ℤ) ∣ ((a : ℚ) / L).num :=
      gcdList_dvd (List.mem_map.2 ⟨_, List.mem_map.2 ⟨a, ha, rfl⟩, rfl⟩)
    have h2 : ((a : ℚ) / L).num ∣ a := by
      have := Rat.num_dvd (a : ℤ) (b := (L : ℤ)) (by exact_mod_cast hL.ne')
      rw [Rat.divInt_eq_div] at this
      push_cast at this
      exact this
    exact_mod_cast h1.trans h2
  · rw [numGcd, dvd_gcdList]
    intro y hy
    obtain ⟨r, hr, rfl⟩ := List.mem_map.1 hy
    obtain ⟨a, ha, rfl⟩ := List.mem_map.1 hr
    have h1 : (gcdAll m : ℤ) ∣ ((a : ℚ) / L).num * L := by
      rw [← rat_cross hL]
      exact Dvd.dvd.mul_right (by exact_mod_cast gcdAll_dvd ha) _
    exact IsCoprime.dvd_of_dvd_mul_right (by rw [Int.isCoprime_iff_gcd_eq_one]; exact_mod_cast hcop) h1

/-- From the relative coefficients the code computes the quotients by the common divisor of all but the last, rounded
down. -/
theorem coefficients_relative {fdiv : ℤ → ℤ → ℚ} (hf : RoundedDiv fdiv) {x : List ℚ} {m : List ℕ} {L : ℕ} (hne : m ≠ [])
    (hL : 0 < L) (hpos : ∀ c ∈ m, 0 < c) (hg : gcdAll (m ++ [L]) = 1) (hb : ∀ c ∈ m ++ [L], c ≤ 1000000)
    (hx : List.Forall₂ CloseTo x (relative m L)) :
    coefficients fdiv x = .ok ((m.map (· / gcdAll m) ++ [L / gcdAll m]).map fun c : ℕ => (c : ℚ)) := by
  set g := gcdAll m with hgdef
  have hg0 : 0 < g := gcdAll_pos hne hpos
  have hgq : (0 : ℚ) < g := by exact_mod_cast hg0
  have hLq : (0 : ℚ) < L := by exact_mod_cast hL
  have hLb : L ≤ 1000000 := hb L (by simp)
  have hgb : g ≤ 1000000 := by
    rcases hm : m with _ | ⟨a, m'⟩
    · exact absurd hm hne
    · have ha : a ∈ m := by rw [hm]; simp
      exact (Nat.le_of_dvd (hpos a ha) (gcdAll_dvd ha)).trans (hb a (by simp [ha]))
  have hden : ∀ r ∈ relative m L, (r.den : ℤ) ≤ maxDen := by
    intro r hr
    obtain ⟨a, -, rfl⟩ := List.mem_map.1 hr
    have := den_div_le (a := a) (b := L) (M := maxDen) (by exact_mod_cast hL) (by simp only [maxDen]; exact_mod_cast hLb)
    push_cast at this
    exact this
  have hmden : (((L : ℚ) / g).den : ℤ) ≤ g := by
    have := den_div_le (a := L) (b := g) (M := g) (by exact_mod_cast hg0) le_rfl
    push_cast at this
    exact this
  have hmul : fractionLcm fdiv (relative m L) = .ok ((L : ℚ) / g) := by
    unfold fractionLcm
    rw [show gcdList ((relative m L).map (·.num)) = g from numGcd_relative hL hg,
      show lcmList ((relative m L).map (·.den)) = L from denLcm_relative hL hg]
    simp only [hg0.ne', if_false]
    rw [limitDen_recovers (q := (L : ℚ) / g) (by norm_num [maxDen])
      (hmden.trans (by simp only [maxDen]; exact_mod_cast hgb))]
    have h1 := hf.2 L g (by exact_mod_cast hg0.ne')
    push_cast at h1
    refine lt_of_le_of_lt h1 ?_
    rw [abs_of_pos (div_pos hLq hgq)]
    have hd0 : (0 : ℚ) < ((L : ℚ) / g).den := by exact_mod_cast ((L : ℚ) / g).den_pos
    have hd1 : (((L : ℚ) / g).den : ℚ) ≤ g := by exact_mod_cast hmden
    have hLq' : (L : ℚ) ≤ 1000000 := by exact_mod_cast hLb
    rw [lt_div_iff₀ (by simp only [maxDen]; push_cast; positivity)]
    simp only [maxDen]
    push_cast
    have h3 : (L : ℚ) / g * ((L : ℚ) / g).den ≤ L := by
      rw [div_mul_eq_mul_div, div_le_iff₀ hgq]
      exact mul_le_mul_of_nonneg_left hd1 hLq.le
    nlinarith
  have hsol : ((relative m L).map (· * ((L : ℚ) / g)) ++ [(L : ℚ) / g]).map pyTrunc =
      (m.map (· / g) ++ [L / g]).map fun c : ℕ => (c : ℤ) := by
    simp only [relative, List.map_append, List.map_map, List.map_cons, List.map_nil]
    congr 1
    · apply List.map_congr_left
      intro a ha
      obtain ⟨t, ht⟩ := gcdAll_dvd ha
      simp only [Function.comp]
      rw [← hgdef] at ht
      have e : (a : ℚ) / L * ((L : ℚ) / g) = ((t : ℤ) : ℚ) := by
        rw [ht]
        push_cast
        field_simp
      rw [e, pyTrunc_int, ht, Nat.mul_div_cancel_left _ hg0]
    · congr 1
      unfold pyTrunc
      rw [if_pos (by positivity)]
      have := Rat.floor_intCast_div_natCast (L : ℤ) g
      push_cast at this ⊢
      exact this
  have hG : gcdList ((m.map (· / g) ++ [L / g]).map fun c : ℕ => (c : ℤ)) = 1 := by
    have h1 : gcdList ((m.map (· / g) ++ [L / g]).map fun c : ℕ => (c : ℤ)) * g ∣ g := by
      conv_rhs => rw [hgdef]
      apply dvd_gcdAll
      intro a ha
      have h2 : (gcdList ((m.map (· / g) ++ [L / g]).map fun c : ℕ => (c : ℤ)) : ℤ) ∣ ((a / g : ℕ) : ℤ) :=
        gcdList_dvd (List.mem_map.2 ⟨a / g, by
          rw [List.mem_append]
          exact Or.inl (List.mem_map.2 ⟨a, ha, rfl⟩), rfl⟩)
      have h3 : gcdList ((m.map (· / g) ++ [L / g]).map fun c : ℕ => (c : ℤ)) ∣ a / g := by exact_mod_cast h2
      have h4 := Nat.mul_dvd_mul_right h3 g
      rwa [Nat.div_mul_cancel (gcdAll_dvd ha)] at h4
    have h2 := Nat.le_of_dvd hg0 h1
    have h3 : gcdList ((m.map (· / g) ++ [L / g]).map fun c : ℕ => (c : ℤ)) ≠ 0 := by
      intro h0
      rw [h0, zero_mul] at h1
      exact hg0.ne' (zero_dvd_iff.1 h1)
    have : gcdList ((m.map (· / g) ++ [L / g]).map fun c : ℕ => (c : ℤ)) ≤ 1 := by
      by_contra h
      push Not at h
      nlinarith
    omega
  unfold coefficients
  simp only [map_limitDen hx hden, hmul, hsol, hG, one_ne_zero, if_false, List.map_map]
  congr 1
  apply List.map_congr_left
  intro c hc
  simp only [Function.comp]
  have hcb : c ≤ 1000000 := by
    rcases List.mem_append.1 hc with hc | hc
    · obtain ⟨a, ha, rfl⟩ := List.mem_map.1 hc
      exact (Nat.div_le_self _ _).trans (hb a (by simp [ha]))
    · rw [List.mem_singleton.1 hc]
      exact (Nat.div_le_self _ _).trans hLb
  have := hf.1 c 1 (by norm_num) (by
    rw [abs_of_nonneg (by positivity)]
    have : (c : ℤ) ≤ 1000000 := by exact_mod_cast hcb
    exact this.trans (by norm_num))
  rw [mul_one] at this
  push_cast at this ⊢
  exact this

/-! ## Least squares -/

theorem lsError_nonneg (cols : List (List ℤ)) (b : List ℤ) (x : List ℚ) : 0 ≤ lsError cols b x := by
  apply List.sum_nonneg
  intro y hy
  obtain ⟨i, -, rfl⟩ := List.mem_map.1 hy
  exact sq_nonneg _

theorem lsError_eq_zero {cols : List (List ℤ)} {b : List ℤ} {x : List ℚ} :
    lsError cols b x = 0 ↔ ∀ i < b.length, lsRow cols x i = ((b.getD i 0 : ℤ) : ℚ) := by
  unfold lsError
  constructor
  · intro h i hi
    have h0 : ∀ y ∈ (List.range b.length).map fun i => (lsRow cols x i - ((b.getD i 0 : ℤ) : ℚ)) ^ 2, 0 ≤ y := by
      intro y hy
      obtain ⟨i, -, rfl⟩ := List.mem_map.1 hy
      exact sq_nonneg _
    have := List.all_zero_of_le_zero_le_of_sum_eq_zero h0 h
      (List.mem_map.2 ⟨i, List.mem_range.2 hi, rfl⟩)
    have := pow_eq_zero_iff (two_ne_zero) |>.1 this
    linarith
  · intro h
    apply List.sum_eq_zero
    intro y hy
    obtain ⟨i, hi, rfl⟩ := List.mem_map.1 hy
    rw [h i (List.mem_range.1 hi)]
    ring

theorem lsRow_columns {es : List Sym} {i : ℕ} (hi : i < es.length) (s : ℤ) (ps : List Padded) (x : List ℚ) :
    lsRow (ps.map fun p => es.map fun e => s * (p.formula.composition e : ℤ)) x i = s * weighted x ps es[i] := by
  induction ps generalizing x with
  | nil => simp [lsRow, weighted]
  | cons p ps ih =>
    cases x with
    | nil => simp [lsRow, weighted]
    | cons v x =>
      have := ih x
      simp only [lsRow, weighted, List.map_cons, List.zipWith_cons_cons, List.sum_cons] at this ⊢
      rw [this, List.getD_eq_getElem _ _ (by simpa using hi), List.getElem_map]
      push_cast
      ring

theorem lsRow_append {a b : List (List ℤ)} {x y : List ℚ} (h : a.length = x.length) (i : ℕ) :
    lsRow (a ++ b) (x ++ y) i = lsRow a x i + lsRow b y i := by
  unfold lsRow
  rw [List.zipWith_append h, List.sum_append]

theorem weighted_neg (x : List ℚ) (ps : List Padded) (e : Sym) : weighted (x.map fun v => -v) ps e = -weighted x ps e := by
  have := weighted_scale x (-1) ps e
  simpa using this

theorem composition_eq_zero {f : Formula} {e : Sym} (h : ¬ f.Mentions e) : f.composition e = 0 := by
  have key : ∀ l : List Atom, (¬ ∃ a ∈ l, a.name = e) → atomsOf e l = 0 := by
    intro l hl
    apply List.sum_eq_zero
    intro y hy
    obtain ⟨a, ha, rfl⟩ := List.mem_map.1 hy
    exact if_neg fun hn => hl ⟨a, ha, hn⟩
  simp only [Formula.Mentions, not_or] at h
  obtain ⟨pre, group, post⟩ := f
  simp only [Formula.composition] at h ⊢
  rw [key _ h.1, key _ h.2.1]
  rcases group with _ | ⟨g, m⟩
  · rfl
  · simp only
    rw [key g fun hg => h.2.2 ⟨_, rfl, hg⟩]
    rfl

theorem weighted_zero {ps : List Padded} {e : Sym} (h : ∀ p ∈ ps, p.formula.composition e = 0) (w : List ℚ) :
    weighted w ps e = 0 := by
  induction ps generalizing w with
  | nil => simp [weighted]
  | cons p ps ih =>
    cases w with
    | nil => simp [weighted]
    | cons v w =>
      have := ih (fun p' hp' => h p' (by simp [hp'])) w
      simp only [weighted, List.zipWith_cons_cons, List.sum_cons] at this ⊢
      rw [this, h p (by simp)]
      simp

/-- A solution without error conserves every element, and conversely. -/
theorem lsError_conserves {es : List Sym} {ls rs : List Padded} {p : Padded}
    (hes : ∀ e, e ∈ es ↔ ∃ p ∈ ls, p.formula.Mentions e)
    (hboth : ∀ e, (∃ p ∈ ls, p.formula.Mentions e) ↔ ∃ p' ∈ rs ++ [p], p'.formula.Mentions e) {x : List ℚ}
    (hx : x.length = ls.length + rs.length) :
    lsError (systemColumns es ls (rs ++ [p])).dropLast ((systemColumns es ls (rs ++ [p])).getLast?.getD []) x = 0 ↔
      Conserves (x.map (fun v => -v) ++ [1]) ls (rs ++ [p]) := by
  have ecols : systemColumns es ls (rs ++ [p]) =
      (ls.map (fun p => es.map fun e => 1 * (p.formula.composition e : ℤ)) ++
        rs.map (fun p => es.map fun e => -1 * (p.formula.composition e : ℤ))) ++
      [es.map fun e => -1 * (p.formula.composition e : ℤ)] := by
    simp [systemColumns]
  rw [ecols, List.dropLast_concat, List.getLast?_concat, Option.getD_some, lsError_eq_zero]
  have htk : (x.map (fun v => -v) ++ [1]).take ls.length = (x.take ls.length).map fun v => -v := by
    rw [List.take_append_of_le_length (by simp; omega), List.map_take]
  have hdr : (x.map (fun v => -v) ++ [1]).drop ls.length = (x.drop ls.length).map (fun v => -v) ++ [1] := by
    rw [List.drop_append_of_le_length (by simp; omega), List.map_drop]
  have row : ∀ e, ∀ i (hi : i < es.length), es[i] = e →
      (lsRow (ls.map (fun p => es.map fun e => 1 * (p.formula.composition e : ℤ)) ++
        rs.map (fun p => es.map fun e => -1 * (p.formula.composition e : ℤ))) x i =
        (((es.map fun e => -1 * (p.formula.composition e : ℤ)).getD i 0 : ℤ) : ℚ) ↔
      weighted ((x.map (fun v => -v) ++ [1]).take ls.length) ls e =
        weighted ((x.map (fun v => -v) ++ [1]).drop ls.length) (rs ++ [p]) e) := by
    intro e i hi he
    rw [htk, hdr, weighted_append (by simp; omega), weighted_neg, weighted_neg]
    conv_lhs => rw [← List.take_append_drop ls.length x]
    rw [lsRow_append (by simp; omega), lsRow_columns hi, lsRow_columns hi,
      List.getD_eq_getElem _ _ (by simpa using hi), List.getElem_map, he]
    simp only [weighted, List.zipWith_cons_cons, List.zipWith_nil_left, List.sum_cons, List.sum_nil, add_zero]
    push_cast
    constructor <;> intro h <;> linarith
  constructor
  · intro h e
    by_cases hm : e ∈ es
    · obtain ⟨i, hi, he⟩ := List.mem_iff_getElem.1 hm
      exact (row e i hi he).1 (h i (by simpa using hi))
    · have hl : ∀ p ∈ ls, p.formula.composition e = 0 := fun p' hp' =>
        composition_eq_zero fun hmen => hm ((hes e).2 ⟨p', hp', hmen⟩)
      have hr : ∀ p' ∈ rs ++ [p], p'.formula.composition e = 0 := fun p' hp' =>
        composition_eq_zero fun hmen => hm ((hes e).2 ((hboth e).2 ⟨p', hp', hmen⟩))
      rw [weighted_zero hl, weighted_zero hr]
  · intro h i hi
    have hi' : i < es.length := by simpa using hi
    exact (row _ i hi' rfl).2 (h _)

/-- **C90**: when an equation has one balance up to a factor, every least squares solution of its system is that balance,
with the last coefficient 1 and the signs changed. -/
theorem C90_least_squares {es : List Sym} {ls rs : List Padded} {p : Padded}
    (hes : ∀ e, e ∈ es ↔ ∃ p ∈ ls, p.formula.Mentions e)
    (hboth : ∀ e, (∃ p ∈ ls, p.formula.Mentions e) ↔ ∃ p' ∈ rs ++ [p], p'.formula.Mentions e)
    {m : List ℕ} {L : ℕ} (hn : Smallest (m ++ [L]) ls (rs ++ [p])) {x : List ℚ} :
    LeastSquares (systemColumns es ls (rs ++ [p])).dropLast ((systemColumns es ls (rs ++ [p])).getLast?.getD []) x ↔
      x.map (fun v => -v) = relative m L := by
  have hL : 0 < L := hn.pos L (by simp)
  have hLq : (L : ℚ) ≠ 0 := by exact_mod_cast hL.ne'
  have hml : m.length = ls.length + rs.length := by
    have := hn.length
    simp at this
    omega
  have hcl : (systemColumns es ls (rs ++ [p])).dropLast.length = ls.length + rs.length := by
    simp [systemColumns]
  have hrel : (m ++ [L]).map (fun c : ℕ => (c : ℚ) * (1 / L)) = relative m L ++ [1] := by
    simp [relative, div_eq_mul_inv, hLq]
  have hcons : Conserves (relative m L ++ [1]) ls (rs ++ [p]) := by
    have := conserves_scale hn.conserves (1 / L)
    rwa [List.map_map, show ((fun v : ℚ => v * (1 / L)) ∘ fun c : ℕ => (c : ℚ)) = fun c : ℕ => (c : ℚ) * (1 / L) from rfl,
      hrel] at this
  have hzero : lsError (systemColumns es ls (rs ++ [p])).dropLast ((systemColumns es ls (rs ++ [p])).getLast?.getD [])
      ((relative m L).map fun v => -v) = 0 := by
    rw [lsError_conserves hes hboth (by simp [relative, hml]), List.map_map]
    simpa using hcons
  constructor
  · rintro ⟨h1, h2⟩
    rw [hcl] at h1
    have h3 := h2 ((relative m L).map fun v => -v) (by simp [relative, hml, hcl])
    rw [hzero] at h3
    have h4 := le_antisymm h3 (lsError_nonneg _ _ _)
    rw [lsError_conserves hes hboth h1] at h4
    obtain ⟨k, hk⟩ := hn.unique _ (by simp [h1]; omega) h4
    rw [List.map_append, List.map_cons, List.map_nil] at hk
    obtain ⟨h5, h6⟩ := List.append_inj hk (by simp [h1, hml])
    have hk1 : k = 1 / L := by
      have : (1 : ℚ) = k * L := by simpa using h6
      field_simp
      linarith
    rw [h5, hk1, relative]
    apply List.map_congr_left
    intro c _
    ring
  · intro h
    have hx : x = (relative m L).map fun v => -v := by
      rw [← h, List.map_map]
      simp
    rw [hx]
    refine ⟨by simp [relative, hml, hcl], fun y _ => ?_⟩
    rw [hzero]
    exact lsError_nonneg _ _ _

/-- The hypotheses about an equation: formulas of the grammar, the same elements on both sides. -/
structure WellFormed (ls rs : List Padded) : Prop where
  left : ls ≠ []
  validLeft : ∀ p ∈ ls, p.Valid
  validRight : ∀ p ∈ rs, p.Valid
  elements : ∀ e, (∃ p ∈ ls, p.formula.Mentions e) ↔ ∃ p ∈ rs, p.formula.Mentions e

/-- **C90**, what `balance_equation` returns, for every equation with one balance: with `m` the smallest coefficients of
all molecules but the last, `L` that of the last and `g` the common divisor of `m`, the coefficients printed are `m / g` and
`L / g` rounded down. -/
theorem C90_result {setOrder : List Sym → List Sym} (hset : ∀ l e, e ∈ setOrder l ↔ e ∈ l)
    {solver : List (List ℤ) → List ℤ → List ℚ} {fdiv : ℤ → ℤ → ℚ} (hf : RoundedDiv fdiv) {ls rs : List Padded} {p : Padded}
    (hw : WellFormed ls (rs ++ [p])) (hs : SolvesLeastSquares solver ls (rs ++ [p])) {m : List ℕ} {L : ℕ}
    (hn : Smallest (m ++ [L]) ls (rs ++ [p])) (hb : ∀ c ∈ m ++ [L], c ≤ 1000000) :
    ∃ b, balanceCore setOrder solver fdiv (equationText ls (rs ++ [p])) = .ok b ∧
      b.reactants = ls.map (·.formula.text) ∧ b.products = (rs ++ [p]).map (·.formula.text) ∧
      b.reactCoeff.length = ls.length ∧
      b.reactCoeff ++ b.productCoeff = (m.map (· / gcdAll m) ++ [L / gcdAll m]).map fun c : ℕ => (c : ℚ) := by
  obtain ⟨es, hes, heval⟩ := balanceCore_eval hset solver fdiv hw.left (rs := rs ++ [p]) (by simp) hw.validLeft hw.validRight
    hw.elements
  obtain ⟨x, hx, hclose⟩ := hs es hes
  rw [C90_least_squares hes hw.elements hn] at hx
  rw [hx] at hclose
  have hlen := hn.length
  have hne : m ≠ [] := by
    rintro rfl
    have := List.length_pos_iff.2 hw.left
    simp at hlen
    omega
  rw [coefficients_relative hf hne (hn.pos L (by simp)) (fun c hc => hn.pos c (by simp [hc])) hn.gcd hb hclose] at heval
  refine ⟨_, heval, rfl, rfl, ?_, List.take_append_drop _ _⟩
  simp at hlen ⊢
  omega

/-- **C90**, exactly when it is right: the smallest coefficients of the molecules other than the last have no common
factor.  Then the smallest coefficients are printed; otherwise what is printed does not conserve the elements. -/
theorem C90_exact {setOrder : List Sym → List Sym} (hset : ∀ l e, e ∈ setOrder l ↔ e ∈ l)
    {solver : List (List ℤ) → List ℤ → List ℚ} {fdiv : ℤ → ℤ → ℚ} (hf : RoundedDiv fdiv) {ls rs : List Padded} {p : Padded}
    (hw : WellFormed ls (rs ++ [p])) (hs : SolvesLeastSquares solver ls (rs ++ [p])) {m : List ℕ} {L : ℕ}
    (hn : Smallest (m ++ [L]) ls (rs ++ [p])) (hb : ∀ c ∈ m ++ [L], c ≤ 1000000) :
    ∃ b, balanceCore setOrder solver fdiv (equationText ls (rs ++ [p])) = .ok b ∧
      (b.reactCoeff ++ b.productCoeff = (m ++ [L]).map (fun c : ℕ => (c : ℚ)) ↔ gcdAll m = 1) ∧
      (Conserves (b.reactCoeff ++ b.productCoeff) ls (rs ++ [p]) ↔ gcdAll m = 1) := by
  obtain ⟨b, hb1, -, -, -, hb2⟩ := C90_result hset hf hw hs hn hb
  have hlen := hn.length
  have hne : m ≠ [] := by
    rintro rfl
    have := List.length_pos_iff.2 hw.left
    simp at hlen
    omega
  have hg0 := gcdAll_pos hne fun c hc => hn.pos c (by simp [hc])
  have one : gcdAll m = 1 → b.reactCoeff ++ b.productCoeff = (m ++ [L]).map fun c : ℕ => (c : ℚ) := by
    intro h
    rw [hb2, h]
    simp
  have key : Conserves (b.reactCoeff ++ b.productCoeff) ls (rs ++ [p]) → gcdAll m = 1 := by
    intro h
    rw [hb2] at h
    obtain ⟨k, hk⟩ := hn.unique _ (by simpa using hlen) h
    rw [List.map_append, List.map_append, List.map_map] at hk
    obtain ⟨h5, h6⟩ := List.append_inj hk (by simp)
    obtain ⟨a, m', hm⟩ : ∃ a m', m = a :: m' := List.exists_cons_of_ne_nil hne
    have ha : a ∈ m := by rw [hm]; simp
    have h7 : ((a / gcdAll m : ℕ) : ℚ) = k * a := by
      have := List.map_inj_left.1 h5 a ha
      simpa using this
    obtain ⟨t, ht⟩ := gcdAll_dvd ha
    have ha0 : (0 : ℚ) < a := by exact_mod_cast hn.pos a (by simp [ha])
    have hgq : (0 : ℚ) < gcdAll m := by exact_mod_cast hg0
    have hk1 : k * gcdAll m = 1 := by
      have e : a / gcdAll m = t := by
        conv_lhs => rw [ht]
        exact Nat.mul_div_cancel_left _ hg0
      rw [e] at h7
      have e2 : (a : ℚ) = gcdAll m * t := by exact_mod_cast ht
      have : (a : ℚ) * (k * gcdAll m) = a * 1 := by
        rw [mul_one]
        calc (a : ℚ) * (k * gcdAll m) = gcdAll m * (k * a) := by ring
          _ = gcdAll m * t := by rw [← h7]
          _ = a := e2.symm
      exact mul_left_cancel₀ ha0.ne' this
    have h8 : ((L / gcdAll m : ℕ) : ℚ) = k * L := by simpa using h6
    have h9 : L / gcdAll m * gcdAll m = L := by
      have : ((L / gcdAll m : ℕ) : ℚ) * gcdAll m = L := by
        rw [h8]
        calc k * (L : ℚ) * gcdAll m = L * (k * gcdAll m) := by ring
          _ = L := by rw [hk1, mul_one]
      exact_mod_cast this
    have h10 : gcdAll m ∣ gcdAll (m ++ [L]) := by
      apply dvd_gcdAll
      intro c hc
      rcases List.mem_append.1 hc with hc | hc
      · exact gcdAll_dvd hc
      · rw [List.mem_singleton.1 hc]
        exact ⟨L / gcdAll m, by rw [mul_comm]; exact h9.symm⟩
    rw [hn.gcd] at h10
    exact Nat.dvd_one.1 h10
  refine ⟨b, hb1, ⟨fun h => key ?_, one⟩, key, fun h => ?_⟩
  · rw [h]
    exact hn.conserves
  · rw [one h]
    exact hn.conserves

/-- **C90**, when it is right.  Missing: equations in which the coefficients of all molecules but the last have a common
factor (`C90_exact`, `C90_order_false`), equations without a balance (`C90_impossible_false`) and with several
(`C90_several_false`). -/
theorem C90_smallest_partial {setOrder : List Sym → List Sym} (hset : ∀ l e, e ∈ setOrder l ↔ e ∈ l)
    {solver : List (List ℤ) → List ℤ → List ℚ} {fdiv : ℤ → ℤ → ℚ} (hf : RoundedDiv fdiv) {ls rs : List Padded} {p : Padded}
    (hw : WellFormed ls (rs ++ [p])) (hs : SolvesLeastSquares solver ls (rs ++ [p])) {m : List ℕ} {L : ℕ}
    (hn : Smallest (m ++ [L]) ls (rs ++ [p])) (hb : ∀ c ∈ m ++ [L], c ≤ 1000000) (hg : gcdAll m = 1) :
    ∃ b, balanceCore setOrder solver fdiv (equationText ls (rs ++ [p])) = .ok b ∧
      b.reactCoeff ++ b.productCoeff = (m ++ [L]).map fun c : ℕ => (c : ℚ) := by
  obtain ⟨b, h1, h2, -⟩ := C90_exact hset hf hw hs hn hb
  exact ⟨b, h1, h2.2 hg⟩

/-! ## The order of the molecules -/

/-- Coefficients paired with their molecules, conserving every element. -/
theorem weighted_pairs (z : List (ℚ × Padded)) (e : Sym) :
    weighted (z.map (·.1)) (z.map (·.2)) e = (z.map fun a => a.1 * (a.2.formula.composition e : ℚ)).sum := by
  induction z with
  | nil => rfl
  | cons a z ih =>
    simp only [weighted, List.map_cons, List.zipWith_cons_cons, List.sum_cons] at ih ⊢
    rw [ih]

/-- Weights for a list give weights for a reordered list, molecule by molecule. -/
theorem reorder_weights {l l' : List (ℕ × Padded)} (h : l.Perm l') {w : List ℚ} (hw : w.length = l'.length) :
    ∃ z : List (ℚ × (ℕ × Padded)), z.map (·.2) = l ∧ z.Perm (w.zip l') := by
  have hf : List.Forall₂ (fun (a : ℕ × Padded) (b : ℚ × (ℕ × Padded)) => b.2 = a) l' (w.zip l') := by
    clear h
    induction l' generalizing w with
    | nil => simp
    | cons a l' ih =>
      cases w with
      | nil => simp at hw
      | cons v w => exact List.Forall₂.cons rfl (ih (by simpa using hw))
  obtain ⟨z, h1, h2⟩ := List.perm_comp_forall₂ h hf
  refine ⟨z, ?_, h2⟩
  clear h2 h hf hw
  induction h1 with
  | nil => rfl
  | cons hh _ ih => rw [List.map_cons, hh, ih]

theorem conserves_pairs (zl zr : List (ℚ × Padded)) :
    Conserves (zl.map (·.1) ++ zr.map (·.1)) (zl.map (·.2)) (zr.map (·.2)) ↔
      ∀ e, (zl.map fun a => a.1 * (a.2.formula.composition e : ℚ)).sum =
        (zr.map fun a => a.1 * (a.2.formula.composition e : ℚ)).sum := by
  unfold Conserves
  rw [List.take_left' (by simp), List.drop_left' (by simp)]
  simp only [weighted_pairs]

theorem gcdAll_perm {m m' : List ℕ} (h : m.Perm m') : gcdAll m = gcdAll m' :=
  Nat.dvd_antisymm (dvd_gcdAll fun _ ha => gcdAll_dvd (h.mem_iff.2 ha)) (dvd_gcdAll fun _ ha => gcdAll_dvd (h.mem_iff.1 ha))

/-- Weights proportional to the coefficients, molecule by molecule. -/
theorem proportional_iff {w : List ℚ} {l : List (ℕ × Padded)} (hw : w.length = l.length) (k : ℚ) :
    w = (l.map (·.1)).map (fun c : ℕ => k * c) ↔ ∀ a ∈ w.zip l, a.1 = k * (a.2.1 : ℚ) := by
  induction l generalizing w with
  | nil => cases w <;> simp_all
  | cons a l ih =>
    cases w with
    | nil => simp at hw
    | cons v w =>
      simp only [List.map_cons, List.cons.injEq, List.zip_cons_cons, List.mem_cons, forall_eq_or_imp]
      rw [ih (by simpa using hw)]

/-- Reordering the molecules reorders the smallest coefficients. -/
theorem Smallest.reorder {l l' r r' : List (ℕ × Padded)} (hl : l.Perm l') (hr : r.Perm r')
    (h : Smallest (l.map (·.1) ++ r.map (·.1)) (l.map (·.2)) (r.map (·.2))) :
    Smallest (l'.map (·.1) ++ r'.map (·.1)) (l'.map (·.2)) (r'.map (·.2)) := by
  have hp : (l.map (·.1) ++ r.map (·.1)).Perm (l'.map (·.1) ++ r'.map (·.1)) := (hl.map _).append (hr.map _)
  have cast_pairs : ∀ l : List (ℕ × Padded), (l.map (·.1)).map (fun c : ℕ => (c : ℚ)) =
      (l.map fun a => ((a.1 : ℚ), a.2)).map (·.1) ∧ l.map (·.2) = (l.map fun a => ((a.1 : ℚ), a.2)).map (·.2) := by
    intro l
    constructor <;> simp
  refine ⟨by simp, fun c hc => h.pos c (hp.mem_iff.2 hc), (gcdAll_perm hp).symm.trans h.gcd, ?_, ?_⟩
  · have h1 := h.conserves
    rw [List.map_append, (cast_pairs l).1, (cast_pairs r).1, (cast_pairs l).2, (cast_pairs r).2, conserves_pairs] at h1
    rw [List.map_append, (cast_pairs l').1, (cast_pairs r').1, (cast_pairs l').2, (cast_pairs r').2, conserves_pairs]
    intro e
    rw [← ((hl.map fun a => ((a.1 : ℚ), a.2)).map fun a => a.1 * (a.2.formula.composition e : ℚ)).sum_eq, h1 e,
      ((hr.map fun a => ((a.1 : ℚ), a.2)).map fun a => a.1 * (a.2.formula.composition e : ℚ)).sum_eq]
  · intro w hw hc
    simp only [List.length_map] at hw
    have hwl : (w.take l'.length).length = l'.length := by simp; omega
    have hwr : (w.drop l'.length).length = r'.length := by simp; omega
    obtain ⟨zl, e1, p1⟩ := reorder_weights hl hwl
    obtain ⟨zr, e2, p2⟩ := reorder_weights hr hwr
    have flat : ∀ z : List (ℚ × (ℕ × Padded)), z.map (·.1) = (z.map fun a => (a.1, a.2.2)).map (·.1) ∧
        (z.map (·.2)).map (·.2) = (z.map fun a => (a.1, a.2.2)).map (·.2) := by
      intro z
      constructor <;> simp
    have zipfst : ∀ (v : List ℚ) (t : List (ℕ × Padded)), v.length = t.length →
        (v.zip t).map (·.1) = v ∧ (v.zip t).map (·.2) = t := by
      intro v t hvt
      exact ⟨List.map_fst_zip hvt.le, List.map_snd_zip hvt.ge⟩
    have hc' : Conserves (zl.map (·.1) ++ zr.map (·.1)) (l.map (·.2)) (r.map (·.2)) := by
      rw [← e1, ← e2, (flat zl).1, (flat zr).1, (flat zl).2, (flat zr).2, conserves_pairs]
      intro e
      have h2 := hc
      rw [← List.take_append_drop l'.length w] at h2
      rw [← (zipfst _ _ hwl).1, ← (zipfst _ _ hwr).1] at h2
      have h3 : Conserves (((w.take l'.length).zip l').map (·.1) ++ ((w.drop l'.length).zip r').map (·.1))
          ((((w.take l'.length).zip l').map (·.2)).map (·.2)) ((((w.drop l'.length).zip r').map (·.2)).map (·.2)) := by
        rw [(zipfst _ _ hwl).2, (zipfst _ _ hwr).2]
        exact h2
      rw [(flat _).1, (flat ((w.drop l'.length).zip r')).1, (flat _).2, (flat ((w.drop l'.length).zip r')).2,
        conserves_pairs] at h3
      rw [((p1.map fun a => (a.1, a.2.2)).map fun a => a.1 * (a.2.formula.composition e : ℚ)).sum_eq, h3 e,
        ((p2.map fun a => (a.1, a.2.2)).map fun a => a.1 * (a.2.formula.composition e : ℚ)).sum_eq]
    have len1 : zl.length = l.length := by rw [← e1]; simp
    have len2 : zr.length = r.length := by rw [← e2]; simp
    obtain ⟨k, hk⟩ := h.unique _ (by simp [len1, len2]) hc'
    rw [List.map_append] at hk
    obtain ⟨k1, k2⟩ := List.append_inj hk (by simp [len1])
    have zipself : ∀ z : List (ℚ × (ℕ × Padded)), (z.map (·.1)).zip (z.map (·.2)) = z := by
      intro z
      induction z with
      | nil => rfl
      | cons a z ih => simp [ih]
    rw [proportional_iff (by simp [len1])] at k1
    rw [proportional_iff (by simp [len2])] at k2
    rw [← e1, zipself] at k1
    rw [← e2, zipself] at k2
    refine ⟨k, ?_⟩
    rw [List.map_append, ← (proportional_iff hwl k).2 fun a ha => k1 a (p1.mem_iff.2 ha),
      ← (proportional_iff hwr k).2 fun a ha => k2 a (p2.mem_iff.2 ha), List.take_append_drop]

theorem WellFormed.reorder {ls ls' rs rs' : List Padded} (hl : ls.Perm ls') (hr : rs.Perm rs') (h : WellFormed ls rs) :
    WellFormed ls' rs' := by
  refine ⟨fun h0 => h.left ?_, fun p hp => h.validLeft p (hl.mem_iff.2 hp), fun p hp => h.validRight p (hr.mem_iff.2 hp),
    fun e => ?_⟩
  · rw [h0] at hl
    exact hl.eq_nil
  · have h1 : (∃ p ∈ ls', p.formula.Mentions e) ↔ ∃ p ∈ ls, p.formula.Mentions e :=
      exists_congr fun p => and_congr_left fun _ => (hl.mem_iff (a := p)).symm
    have h2 : (∃ p ∈ rs', p.formula.Mentions e) ↔ ∃ p ∈ rs, p.formula.Mentions e :=
      exists_congr fun p => and_congr_left fun _ => (hr.mem_iff (a := p)).symm
    rw [h1, h2]
    exact h.elements e

/-- **C90**: reordering the molecules without changing which product is last gives every molecule the same coefficient as
before: there is one number for each molecule, whatever the order. -/
theorem C90_reordered {setOrder : List Sym → List Sym} (hset : ∀ l e, e ∈ setOrder l ↔ e ∈ l)
    {solver : List (List ℤ) → List ℤ → List ℚ} {fdiv : ℤ → ℤ → ℚ} (hf : RoundedDiv fdiv)
    {l l' r r' : List (ℕ × Padded)} (hl : l.Perm l') (hr : r.Perm r') {L : ℕ} {p : Padded}
    (hw : WellFormed (l.map (·.2)) (r.map (·.2) ++ [p]))
    (hs : SolvesLeastSquares solver (l'.map (·.2)) (r'.map (·.2) ++ [p]))
    (hn : Smallest (l.map (·.1) ++ r.map (·.1) ++ [L]) (l.map (·.2)) (r.map (·.2) ++ [p]))
    (hb : ∀ c ∈ l.map (·.1) ++ r.map (·.1) ++ [L], c ≤ 1000000) :
    let g := gcdAll (l.map (·.1) ++ r.map (·.1))
    ∃ b, balanceCore setOrder solver fdiv (equationText (l'.map (·.2)) (r'.map (·.2) ++ [p])) = .ok b ∧
      b.reactCoeff = l'.map (fun a => ((a.1 / g : ℕ) : ℚ)) ∧
      b.productCoeff = r'.map (fun a => ((a.1 / g : ℕ) : ℚ)) ++ [((L / g : ℕ) : ℚ)] := by
  have hr1 : (r ++ [(L, p)]).Perm (r' ++ [(L, p)]) := hr.append_right _
  have hn1 : Smallest (l.map (·.1) ++ (r ++ [(L, p)]).map (·.1)) (l.map (·.2)) ((r ++ [(L, p)]).map (·.2)) := by
    simpa using hn
  have hn2 := hn1.reorder hl hr1
  rw [List.map_append, List.map_append, ← List.append_assoc] at hn2
  have hw2 := hw.reorder (hl.map (·.2)) ((hr.map (·.2)).append_right [p])
  have hp : (l.map (·.1) ++ r.map (·.1)).Perm (l'.map (·.1) ++ r'.map (·.1)) := (hl.map _).append (hr.map _)
  obtain ⟨b, h1, -, -, h2, h3⟩ := C90_result hset hf hw2 hs hn2 fun c hc => hb c ((hp.append_right [L]).mem_iff.2 hc)
  rw [← gcdAll_perm hp] at h3
  refine ⟨b, h1, ?_⟩
  rw [List.map_append, List.map_append, List.map_append, List.append_assoc] at h3
  obtain ⟨h4, h5⟩ := List.append_inj h3 (by simpa using h2)
  refine ⟨?_, ?_⟩
  · rw [h4, List.map_map, List.map_map]
    rfl
  · rw [h5, List.map_map, List.map_map]
    rfl

/-! ## Refutations -/

/-- `H2`, `O2`, `H2O`, `CO`, `CO2` without white space. -/
def fH2 : Padded := ⟨[], ⟨[⟨'H', none, [2]⟩], none, []⟩, []⟩
def fO2 : Padded := ⟨[], ⟨[⟨'O', none, [2]⟩], none, []⟩, []⟩
def fH2O : Padded := ⟨[], ⟨[⟨'H', none, [2]⟩, ⟨'O', none, []⟩], none, []⟩, []⟩

theorem valid_molecules : fH2.Valid ∧ fO2.Valid ∧ fH2O.Valid := by
  refine ⟨?_, ?_, ?_⟩ <;> simp [Padded.Valid, Formula.Valid, Atom.Valid, fH2, fO2, fH2O]

theorem molecules_composition (e : Sym) :
    fH2.formula.composition e = (if c!"H" = e then 2 else 0) ∧ fO2.formula.composition e = (if c!"O" = e then 2 else 0) ∧
      fH2O.formula.composition e = (if c!"H" = e then 2 else 0) + (if c!"O" = e then 1 else 0) := by
  simp [Formula.composition, atomsOf, fH2, fO2, fH2O, Atom.name, Atom.count, decVal]

theorem water_wellFormed : WellFormed [fH2O] [fH2, fO2] := by
  obtain ⟨a, b, c⟩ := valid_molecules
  refine ⟨by simp, by simpa using c, by simpa using ⟨a, b⟩, fun e => ?_⟩
  simp [Formula.Mentions, fH2, fO2, fH2O, Atom.name]

/-- Two molecules of water give two of hydrogen and one of oxygen, and this is the only balance up to a factor. -/
theorem water_smallest : Smallest [2, 2, 1] [fH2O] [fH2, fO2] := by
  have comp := molecules_composition
  refine ⟨rfl, by decide, by decide, fun e => ?_, fun w hw hc => ?_⟩
  · simp only [weighted, List.map_cons, List.map_nil, List.length_cons, List.length_nil, List.take, List.drop,
      List.zipWith_cons_cons, List.zipWith_nil_left, List.sum_cons, List.sum_nil, (comp e).1, (comp e).2.1, (comp e).2.2]
    split_ifs <;> norm_num
  · rcases w with _ | ⟨a, _ | ⟨b, _ | ⟨c, _ | ⟨d, w⟩⟩⟩⟩ <;> simp at hw
    have h1 := hc c!"H"
    have h2 := hc c!"O"
    simp only [weighted, List.length_cons, List.length_nil, List.take, List.drop,
      List.zipWith_cons_cons, List.zipWith_nil_left, List.sum_cons, List.sum_nil, (comp _).1, (comp _).2.1, (comp _).2.2]
      at h1 h2
    norm_num at h1 h2
    refine ⟨c, ?_⟩
    simp
    constructor <;> linarith

/-- **C90** is false: the decomposition of water is printed as `1.0 H2O -> 1.0 H2 + 0.0 O2`, and right when the products
are written in the other order. -/
theorem C90_order_false {setOrder : List Sym → List Sym} (hset : ∀ l e, e ∈ setOrder l ↔ e ∈ l)
    {solver : List (List ℤ) → List ℤ → List ℚ} {fdiv : ℤ → ℤ → ℚ} (hf : RoundedDiv fdiv)
    (h1 : SolvesLeastSquares solver [fH2O] [fH2, fO2]) (h2 : SolvesLeastSquares solver [fH2O] [fO2, fH2]) :
    (∃ b, balanceCore setOrder solver fdiv c!"H2O->H2+O2" = .ok b ∧ b.reactCoeff ++ b.productCoeff = [1, 1, 0]) ∧
    ∃ b, balanceCore setOrder solver fdiv c!"H2O->O2+H2" = .ok b ∧ b.reactCoeff ++ b.productCoeff = [2, 1, 2] := by
  constructor
  · obtain ⟨b, e1, -, -, -, e2⟩ := C90_result hset hf (rs := [fH2]) (p := fO2) water_wellFormed h1 (m := [2, 2]) (L := 1)
      water_smallest (by decide)
    refine ⟨b, ?_, ?_⟩
    · rw [← e1]
      congr 1
    · rw [e2]
      simp [gcdAll]
  · have hn : Smallest [2, 1, 2] [fH2O] [fO2, fH2] :=
      Smallest.reorder (l := [(2, fH2O)]) (l' := [(2, fH2O)]) (r := [(2, fH2), (1, fO2)]) (r' := [(1, fO2), (2, fH2)])
        (List.Perm.refl _) (List.Perm.swap _ _ _) water_smallest
    have hw : WellFormed [fH2O] [fO2, fH2] := water_wellFormed.reorder (List.Perm.refl _) (List.Perm.swap _ _ _)
    obtain ⟨b, e1, e2⟩ := C90_smallest_partial hset hf (rs := [fO2]) (p := fH2) hw h2 (m := [2, 1]) (L := 2) hn (by decide)
      (by decide)
    refine ⟨b, ?_, ?_⟩
    · rw [← e1]
      congr 1
    · rw [e2]
      simp

/-- Exact division and a solver with the exact answers satisfy the hypotheses. -/
theorem exact_div : RoundedDiv fun a b => (a : ℚ) / b := by
  refine ⟨fun a b hb _ => ?_, fun a b _ => by simp⟩
  have : (b : ℚ) ≠ 0 := by exact_mod_cast hb
  push_cast
  field_simp

theorem solves_of_exact {solver : List (List ℤ) → List ℤ → List ℚ} {ls rs : List Padded} {p : Padded} {m : List ℕ} {L : ℕ}
    (hw : WellFormed ls (rs ++ [p])) (hn : Smallest (m ++ [L]) ls (rs ++ [p]))
    (h : ∀ es : List Sym, (∀ e, e ∈ es ↔ ∃ p ∈ ls, p.formula.Mentions e) →
      solver (systemColumns es ls (rs ++ [p])).dropLast ((systemColumns es ls (rs ++ [p])).getLast?.getD []) =
        (relative m L).map fun v => -v) : SolvesLeastSquares solver ls (rs ++ [p]) := by
  intro es hes
  refine ⟨(relative m L).map fun v => -v, (C90_least_squares hes hw.elements hn).2 (by simp), ?_⟩
  rw [h es hes]
  refine List.forall₂_same.2 fun q _ => ?_
  simp only [CloseTo, sub_self, abs_zero]
  have : (0 : ℚ) < q.den := by exact_mod_cast q.den_pos
  simp only [maxDen]
  positivity

example : ∃ b, balanceCore id (fun _ _ => [-2, -2]) (fun a b => (a : ℚ) / b) c!"H2O->H2+O2" = .ok b ∧
    b.reactCoeff ++ b.productCoeff = [1, 1, 0] := by
  obtain ⟨b, e1, -, -, -, e2⟩ := C90_result (setOrder := id) (fun _ _ => Iff.rfl) exact_div (rs := [fH2]) (p := fO2)
    water_wellFormed (solver := fun _ _ => [-2, -2])
    (solves_of_exact (rs := [fH2]) (p := fO2) (m := [2, 2]) (L := 1) water_wellFormed water_smallest
      fun _ _ => by norm_num [relative]) (m := [2, 2]) (L := 1) water_smallest (by decide)
  refine ⟨b, ?_, ?_⟩
  · rw [← e1]
    congr 1
  · rw [e2]
    simp [gcdAll]

/-- **C90**: an equation with the same elements on both sides is never reported as impossible: whatever the solver does,
either coefficients are printed or ZeroDivisionError is raised. -/
theorem C90_never_reported {setOrder : List Sym → List Sym} (hset : ∀ l e, e ∈ setOrder l ↔ e ∈ l)
    (solver : List (List ℤ) → List ℤ → List ℚ) (fdiv : ℤ → ℤ → ℚ) {ls rs : List Padded} (hr : rs ≠ [])
    (hw : WellFormed ls rs) :
    (∃ b, balanceCore setOrder solver fdiv (equationText ls rs) = .ok b) ∨
      balanceCore setOrder solver fdiv (equationText ls rs) = .error .zeroDivision := by
  obtain ⟨es, -, heval⟩ := balanceCore_eval hset solver fdiv hw.left hr hw.validLeft hw.validRight hw.elements
  rw [heval]
  generalize (solver _ _).map _ = y
  unfold coefficients fractionLcm
  by_cases h : gcdList ((y.map (limitDen maxDen)).map (·.num)) = 0
  · simp only [h, if_true]
    exact Or.inr trivial
  · simp only [h, if_false]
    split_ifs
    · exact Or.inr rfl
    · exact Or.inl ⟨_, rfl⟩

/-- **C90** is false for an equation that cannot be balanced: the least squares solution of `CO -> CO2` is -3/2, and
`1.0 CO -> 0.0 CO2` is printed. -/
theorem C90_impossible_false :
    (∀ x, LeastSquares [[1, 1]] [-1, -2] x ↔ x = [-3 / 2]) ∧
    ∀ (solver : List (List ℤ) → List ℤ → List ℚ) (fdiv : ℤ → ℤ → ℚ), RoundedDiv fdiv →
      List.Forall₂ CloseTo ((solver [[1, 1]] [-1, -2]).map fun v => -v) [3 / 2] →
      balanceCore (fun l => l.dedup) solver fdiv c!"CO -> CO2" = .ok ⟨[c!"CO"], [c!"CO2"], [1], [0]⟩ := by
  constructor
  · intro x
    have err : ∀ a : ℚ, lsError [[1, 1]] [-1, -2] [a] = (a + 1) ^ 2 + (a + 2) ^ 2 := by
      intro a
      simp [lsError, lsRow, List.range_succ]
    constructor
    · rintro ⟨h1, h2⟩
      rcases x with _ | ⟨a, _ | ⟨b, x⟩⟩ <;> simp at h1
      have h3 := h2 [-3 / 2] rfl
      rw [err, err] at h3
      have : (a + 3 / 2) ^ 2 ≤ 0 := by nlinarith
      have : a + 3 / 2 = 0 := by
        have := le_antisymm this (sq_nonneg _)
        exact pow_eq_zero_iff two_ne_zero |>.1 this
      rw [show a = -3 / 2 by linarith]
    · rintro rfl
      refine ⟨rfl, fun y hy => ?_⟩
      rcases y with _ | ⟨a, _ | ⟨b, y⟩⟩ <;> simp at hy
      rw [err, err]
      nlinarith [sq_nonneg (a + 3 / 2)]
  · intro solver fdiv hf h
    have hc := coefficients_relative hf (m := [3]) (L := 2) (by simp) (by norm_num) (by simp) (by decide) (by decide)
      (x := (solver [[1, 1]] [-1, -2]).map fun v => -v) (by simpa [relative] using h)
    have e : balanceCore (fun l => l.dedup) solver fdiv c!"CO -> CO2" =
        match coefficients fdiv ((solver [[1, 1]] [-1, -2]).map fun v => -v) with
        | .error e => .error e
        | .ok sol => .ok ⟨[c!"CO"], [c!"CO2"], sol.take 1, sol.drop 1⟩ := rfl
    rw [e, hc]
    simp [gcdAll]

/-- **C90** is false for an equation with several balances: the least squares solution of least length of
`C + O2 -> CO + CO2` has a negative entry, and a negative coefficient is printed. -/
theorem C90_several_false :
    (LeastSquares [[1, 0], [0, 2], [-1, -1]] [-1, -2] [-1 / 3, -2 / 3, 2 / 3] ∧
      ∀ y, LeastSquares [[1, 0], [0, 2], [-1, -1]] [-1, -2] y →
        ([-1 / 3, -2 / 3, 2 / 3].map fun v : ℚ => v ^ 2).sum ≤ (y.map fun v => v ^ 2).sum) ∧
    ∀ solver : List (List ℤ) → List ℤ → List ℚ,
      solver [[1, 0], [0, 2], [-1, -1]] [-1, -2] = [-1 / 3, -2 / 3, 2 / 3] →
      balanceCore (fun l => l.dedup) solver (fun a b => (a : ℚ) / b) c!"C + O2 -> CO + CO2" =
        .ok ⟨[c!"C", c!"O2"], [c!"CO", c!"CO2"], [1, 2], [-2, 3]⟩ := by
  have err : ∀ a b c : ℚ, lsError [[1, 0], [0, 2], [-1, -1]] [-1, -2] [a, b, c] = (a - c + 1) ^ 2 + (2 * b - c + 2) ^ 2 := by
    intro a b c
    simp [lsError, lsRow, List.range_succ]
    ring
  refine ⟨⟨⟨rfl, fun y _ => ?_⟩, fun y hy => ?_⟩, fun solver hs => ?_⟩
  · rw [err]
    norm_num
    exact lsError_nonneg _ _ _
  · obtain ⟨h1, h2⟩ := hy
    rcases y with _ | ⟨a, _ | ⟨b, _ | ⟨c, _ | ⟨d, y⟩⟩⟩⟩ <;> simp at h1
    have h3 := h2 [-1 / 3, -2 / 3, 2 / 3] rfl
    rw [err, err] at h3
    norm_num at h3
    have h4 : a - c + 1 = 0 := by nlinarith [sq_nonneg (a - c + 1), sq_nonneg (2 * b - c + 2)]
    have h5 : 2 * b - c + 2 = 0 := by nlinarith [sq_nonneg (a - c + 1), sq_nonneg (2 * b - c + 2)]
    have ha : a = c - 1 := by linarith
    have hb : b = c / 2 - 1 := by linarith
    subst ha hb
    simp
    nlinarith [sq_nonneg (c - 2 / 3)]
  · have e : balanceCore (fun l => l.dedup) solver (fun a b => (a : ℚ) / b) c!"C + O2 -> CO + CO2" =
        match coefficients (fun a b => (a : ℚ) / b)
          ((solver [[1, 0], [0, 2], [-1, -1]] [-1, -2]).map fun v => -v) with
        | .error e => .error e
        | .ok sol => .ok ⟨[c!"C", c!"O2"], [c!"CO", c!"CO2"], sol.take 2, sol.drop 2⟩ := rfl
    rw [e, hs]
    decide +kernel

end Verif
