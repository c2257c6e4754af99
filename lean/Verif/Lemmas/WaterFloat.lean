import Verif.Spec.WaterFloat
import Verif.Spec.Doubles
import Verif.Lemmas.WaterGrid

/-!
# The water table in double precision, lemmas for C101
-/

namespace Verif

/-! ## The rows are found -/

namespace WaterFloat

variable {r : ℝ → ℝ}

theorem exponent {T : ℝ} (h1 : 275 ≤ T) (h2 : T ≤ 1345) : ∃ e : ℤ, (2 : ℝ) ^ e ≤ T ∧ T < 2 ^ (e + 1) ∧ 0 ≤ e ∧ e ≤ 52 := by
  rcases lt_or_ge T 512 with h | h
  · exact ⟨8, by norm_num; linarith, by norm_num; linarith, by norm_num, by norm_num⟩
  rcases lt_or_ge T 1024 with h' | h'
  · exact ⟨9, by norm_num; linarith, by norm_num; linarith, by norm_num, by norm_num⟩
  · exact ⟨10, by norm_num; linarith, by norm_num; linarith, by norm_num, by norm_num⟩

/-- The difference of a temperature and a smaller integer is computed exactly. -/
theorem sub_exact {T : ℝ} (hT : IsDouble T) (h1 : 275 ≤ T) (h2 : T ≤ 1345) {g : ℤ} (g0 : 0 ≤ g) (gT : (g : ℝ) ≤ T) :
    IsDouble (T - g) := by
  obtain ⟨e, he, he', e0, e52⟩ := exponent h1 h2
  obtain ⟨m, hm⟩ := hT.grid (e := e) (by rwa [abs_of_nonneg (by linarith)])
  obtain ⟨n, hn⟩ := Int.eq_ofNat_of_zero_le (show 0 ≤ 52 - e by omega)
  have hn : 52 - e = n := hn
  have hs : (0 : ℝ) < 2 ^ (e - 52) := by positivity
  have hg : (g : ℝ) = (g * 2 ^ n : ℤ) * 2 ^ (e - 52) := by
    push_cast
    rw [← zpow_natCast, ← hn, mul_assoc, ← zpow_add₀ (by norm_num)]
    simp
  refine ⟨m - g * 2 ^ n, e - 52, ?_, by rw [hm, Int.cast_sub, sub_mul, ← hg]⟩
  have hd : ((m - g * 2 ^ n : ℤ) : ℝ) * 2 ^ (e - 52) = T - g := by rw [hm, Int.cast_sub, sub_mul, ← hg]
  have a : (0 : ℝ) ≤ ((m - g * 2 ^ n : ℤ) : ℝ) := by
    by_contra h
    push Not at h
    have := mul_neg_of_neg_of_pos h hs
    linarith
  have b : ((m - g * 2 ^ n : ℤ) : ℝ) < 2 ^ (53 : ℤ) := by
    have h3 : ((m - g * 2 ^ n : ℤ) : ℝ) * 2 ^ (e - 52) < 2 ^ (53 : ℤ) * 2 ^ (e - 52) := by
      rw [hd, ← zpow_add₀ (by norm_num), show (53 : ℤ) + (e - 52) = e + 1 by ring]
      have : (0 : ℝ) ≤ g := by exact_mod_cast g0
      linarith
    exact lt_of_mul_lt_mul_right h3 hs.le
  have a' : 0 ≤ m - g * 2 ^ n := by exact_mod_cast a
  rw [abs_of_nonneg a']
  exact_mod_cast b

/-- Temperatures that are not on the grid are at least one unit in the last place away from it. -/
theorem gap {T : ℝ} (hT : IsDouble T) {e : ℤ} (he : (2 : ℝ) ^ e ≤ T) (e52 : e ≤ 52) {g : ℤ} :
    (g : ℝ) < T → (2 : ℝ) ^ (e - 52) ≤ T - g := by
  have hT0 : 0 < T := lt_of_lt_of_le (by positivity) he
  obtain ⟨m, hm⟩ := hT.grid (e := e) (by rwa [abs_of_pos hT0])
  obtain ⟨n, hn⟩ := Int.eq_ofNat_of_zero_le (show 0 ≤ 52 - e by omega)
  have hn : 52 - e = n := hn
  have hs : (0 : ℝ) < 2 ^ (e - 52) := by positivity
  have hg : (g : ℝ) = (g * 2 ^ n : ℤ) * 2 ^ (e - 52) := by
    push_cast
    rw [← zpow_natCast, ← hn, mul_assoc, ← zpow_add₀ (by norm_num)]
    simp
  intro h
  rw [hm, hg] at h ⊢
  have h := lt_of_mul_lt_mul_right h hs.le
  have h : ((g * 2 ^ n : ℤ) : ℝ) + 1 ≤ m := by exact_mod_cast h
  nlinarith

theorem gap' {T : ℝ} (hT : IsDouble T) {e : ℤ} (he : (2 : ℝ) ^ e ≤ T) (e52 : e ≤ 52) {g : ℤ} :
    T < (g : ℝ) → (2 : ℝ) ^ (e - 52) ≤ g - T := by
  have hT0 : 0 < T := lt_of_lt_of_le (by positivity) he
  obtain ⟨m, hm⟩ := hT.grid (e := e) (by rwa [abs_of_pos hT0])
  obtain ⟨n, hn⟩ := Int.eq_ofNat_of_zero_le (show 0 ≤ 52 - e by omega)
  have hn : 52 - e = n := hn
  have hs : (0 : ℝ) < 2 ^ (e - 52) := by positivity
  have hg : (g : ℝ) = (g * 2 ^ n : ℤ) * 2 ^ (e - 52) := by
    push_cast
    rw [← zpow_natCast, ← hn, mul_assoc, ← zpow_add₀ (by norm_num)]
    simp
  intro h
  rw [hm, hg] at h ⊢
  have h := lt_of_mul_lt_mul_right h hs.le
  have h : (m : ℝ) + 1 ≤ ((g * 2 ^ n : ℤ) : ℝ) := by exact_mod_cast h
  nlinarith

theorem fixes_int (hr : DoubleRounding r) {n : ℤ} (h : |n| < 2 ^ 53) : r n = n := hr.fixes _ (isDouble_int h)

theorem fixes_sub (hr : DoubleRounding r) {T : ℝ} (hT : IsDouble T) (h1 : 275 ≤ T) (h2 : T ≤ 1345) :
    r (r (T - r 275) / r 10) = r ((T - 275) / 10) := by
  have e1 : r 275 = 275 := by exact_mod_cast fixes_int hr (n := 275) (by norm_num)
  have e2 : r 10 = 10 := by exact_mod_cast fixes_int hr (n := 10) (by norm_num)
  have e3 : r (T - 275) = T - 275 := hr.fixes _ (by exact_mod_cast sub_exact hT h1 h2 (g := 275) (by norm_num) (by exact_mod_cast h1))
  rw [e1, e2, e3]

theorem index_cell (hr : DoubleRounding r) {T : ℝ} (hT : IsDouble T) (h1 : 275 ≤ T) (h2 : T ≤ 1345) {n : ℕ}
    (hl : 275 + 10 * (n : ℝ) < T) (hu : T < 285 + 10 * (n : ℝ)) :
    ⌊r (r (T - r 275) / r 10)⌋ = (n : ℤ) ∧ ⌈r (r (T - r 275) / r 10)⌉ = (n : ℤ) + 1 := by
  rw [fixes_sub hr hT h1 h2]
  obtain ⟨e, he, he', e0, e52⟩ := exponent h1 h2
  have g1 := gap hT he e52 (g := 275 + 10 * n) (by push_cast; exact hl)
  have g2 := gap' hT he e52 (g := 285 + 10 * n) (by push_cast; exact hu)
  push_cast at g1 g2
  have hc := hr.close ((T - 275) / 10)
  rw [abs_of_nonneg (show 0 ≤ (T - 275) / 10 by apply div_nonneg <;> linarith)] at hc
  have hp : (2 : ℝ) ^ (e + 1) = 2 ^ (e - 52) * 2 ^ 53 := by
    rw [← zpow_natCast, ← zpow_add₀ (by norm_num)]; congr 1; push_cast; ring
  have : 2⁻¹ ^ 53 * ((T - 275) / 10) < 2 ^ (e - 52) / 10 := by
    have : (T - 275) < 2 ^ (e - 52) * 2 ^ 53 := by rw [← hp]; linarith
    have h53 : (0 : ℝ) < 2⁻¹ ^ 53 := by positivity
    have := mul_lt_mul_of_pos_left this h53
    rw [mul_comm ((2 : ℝ) ^ (e - 52)), ← mul_assoc, ← mul_pow, inv_mul_cancel₀ two_ne_zero, one_pow, one_mul] at this
    linarith
  rw [abs_le] at hc
  constructor
  · rw [Int.floor_eq_iff]; push_cast; constructor <;> linarith
  · rw [Int.ceil_eq_iff]; push_cast; constructor <;> linarith

theorem index_grid (hr : DoubleRounding r) {n : ℕ} (hn : n < 108) :
    r (r (275 + 10 * (n : ℝ) - r 275) / r 10) = n := by
  have e1 : r 275 = 275 := by exact_mod_cast fixes_int hr (n := 275) (by norm_num)
  have e2 : r 10 = 10 := by exact_mod_cast fixes_int hr (n := 10) (by norm_num)
  have b : ((n : ℤ)) < 108 := by exact_mod_cast hn
  have b0 : (0 : ℤ) ≤ n := by positivity
  have e3 : r (10 * n) = 10 * n := by
    exact_mod_cast fixes_int hr (n := 10 * n) (by rw [abs_of_nonneg (by omega)]; omega)
  have e4 : r n = n := by exact_mod_cast fixes_int hr (n := n) (by rw [abs_of_nonneg b0]; omega)
  rw [e1, e2, add_sub_cancel_left, e3, mul_div_cancel_left₀ _ (by norm_num), e4]

/-! ## The values -/

/-- The rounding errors of one interpolation. -/
theorem interpolation_error (hr : DoubleRounding r) {a b d t : ℝ} (a0 : 0 ≤ a) (b0 : 0 ≤ b) (t0 : 0 ≤ t) (t1 : t ≤ 1)
    (hd : d = 10 * t) : |r (r a + r (d * r (r (r b - r a) / 10))) - (a + t * (b - a))| ≤ 2⁻¹ ^ 50 * max a b := by
  set M := max a b
  have aM : a ≤ M := le_max_left _ _
  have bM : b ≤ M := le_max_right _ _
  have M0 : 0 ≤ M := a0.trans aM
  have hu : ∃ u : ℝ, u = 2⁻¹ ^ 53 ∧ 0 ≤ u ∧ u ≤ 1 / 1000 := ⟨_, rfl, by positivity, by norm_num⟩
  obtain ⟨u, hu, u0, u1⟩ := hu
  have h50 : (2⁻¹ : ℝ) ^ 50 = 8 * u := by rw [hu]; norm_num
  have cl (x : ℝ) {B : ℝ} (hx : |x| ≤ B) : |r x - x| ≤ u * B := by
    have := hr.close x
    rw [← hu] at this
    exact this.trans (mul_le_mul_of_nonneg_left hx u0)
  have uM : 0 ≤ u * M := mul_nonneg u0 M0
  have uuM : u * (u * M) ≤ 1 / 1000 * (u * M) := mul_le_mul_of_nonneg_right u1 uM
  have ea := cl a (B := M) (by rwa [abs_of_nonneg a0])
  have eb := cl b (B := M) (by rwa [abs_of_nonneg b0])
  rw [abs_le] at ea eb
  have hab : |b - a| ≤ M := by rw [abs_le]; constructor <;> linarith
  rw [abs_le] at hab
  have e1 := cl (r b - r a) (B := M + 2 * (u * M)) (by rw [abs_le]; constructor <;> linarith)
  rw [abs_le] at e1
  have f1 : |r (r b - r a) - (b - a)| ≤ 31 / 10 * (u * M) := by rw [abs_le]; constructor <;> linarith
  rw [abs_le] at f1
  have e2 := cl (r (r b - r a) / 10) (B := 11 / 100 * M) (by
    have : u * M ≤ 1 / 1000 * M := mul_le_mul_of_nonneg_right u1 M0
    rw [abs_le]; constructor <;> linarith)
  rw [abs_le] at e2
  have f2 : |r (r (r b - r a) / 10) - (b - a) / 10| ≤ 42 / 100 * (u * M) := by rw [abs_le]; constructor <;> linarith
  generalize hs : r (r (r b - r a) / 10) = s at *
  have d0 : 0 ≤ d := by linarith
  have d1 : d ≤ 10 := by linarith
  have f3 : |d * s - t * (b - a)| ≤ 42 / 10 * (u * M) := by
    have : d * s - t * (b - a) = d * (s - (b - a) / 10) := by rw [hd]; ring
    rw [this, abs_mul, abs_of_nonneg d0]
    calc d * |s - (b - a) / 10| ≤ 10 * (42 / 100 * (u * M)) := mul_le_mul d1 f2 (abs_nonneg _) (by norm_num)
      _ = _ := by ring
  have htb : |t * (b - a)| ≤ M := by
    rw [abs_mul, abs_of_nonneg t0]
    have : |b - a| ≤ M := abs_le.2 hab
    calc t * |b - a| ≤ 1 * M := mul_le_mul t1 this (abs_nonneg _) zero_le_one
      _ = M := one_mul M
  rw [abs_le] at f3 htb
  have small : u * M ≤ 1 / 1000 * M := mul_le_mul_of_nonneg_right u1 M0
  have e3 := cl (d * s) (B := 101 / 100 * M) (by rw [abs_le]; constructor <;> linarith)
  rw [abs_le] at e3
  have hx : |a + t * (b - a)| ≤ M := by rw [abs_le]; constructor <;> nlinarith
  rw [abs_le] at hx
  have e4 := cl (r a + r (d * s)) (B := 101 / 100 * M) (by rw [abs_le]; constructor <;> linarith)
  rw [abs_le] at e4
  rw [h50, abs_le]
  constructor <;> linarith

/-- What the loop needs of a pair of entries: numbers that are not negative under a name other than `Phase`, or phases
under that name. -/
def Pair (k : Sym) : WCell → WCell → Prop
  | .num a, .num b => k ≠ c!"Phase" ∧ 0 ≤ a ∧ 0 ≤ b
  | .str _, .str _ => k = c!"Phase"
  | _, _ => False

def Pairs : List Sym → List WCell → List WCell → Prop
  | [], [], [] => True
  | k :: ks, c :: r1, d :: r2 => Pair k c d ∧ Pairs ks r1 r2
  | _, _, _ => False

/-- The loop over the keys, given its body. -/
theorem row_near {T t : ℝ} {lo up : ℤ}
    (h : ∀ k c d, Pair k c d → ∃ v, interpolateFl r T lo up k c d = .ok v ∧ NearCell t c d v) :
    ∀ ks r1 r2, Pairs ks r1 r2 → ∃ l, interpolateAllFl r T lo up ks r1 r2 = .ok l ∧ NearRow t r1 r2 l
  | [], [], [], _ => ⟨[], rfl, trivial⟩
  | k :: ks, c :: r1, d :: r2, hp => by
    obtain ⟨v, hv, hv'⟩ := h k c d hp.1
    obtain ⟨l, hl, hl'⟩ := row_near h ks r1 r2 hp.2
    exact ⟨v :: l, by simp only [interpolateAllFl, hv, hl], hv', hl'⟩
  | [], _ :: _, _, hp => hp.elim
  | [], [], _ :: _, hp => hp.elim
  | _ :: _, [], _, hp => hp.elim
  | _ :: _, _ :: _, [], hp => hp.elim

/-- On the grid the loop runs with one row twice. -/
theorem row_same {T : ℝ} {lo : ℤ} : ∀ ks row, Pairs ks row row →
    interpolateAllFl r T lo lo ks row row = .ok (row.map (WCell.toFloat r))
  | [], [], _ => rfl
  | k :: ks, c :: row, hp => by
    have : WCell.sameFloat r c c := by cases c <;> rfl
    simp only [interpolateAllFl, interpolateFl, if_pos this, row_same ks row hp.2, List.map]
  | [], _ :: _, hp => hp.elim
  | _ :: _, [], hp => hp.elim

theorem toFloat_near (hr : DoubleRounding r) {k : Sym} {c d : WCell} (h : Pair k c d) :
    NearCell 0 c d (c.toFloat r) ∧ NearCell 1 c d (d.toFloat r) := by
  have key (x M : ℝ) (x0 : 0 ≤ x) (hx : x ≤ M) : |r x - x| ≤ 2⁻¹ ^ 50 * M := by
    refine (hr.close x).trans ?_
    rw [abs_of_nonneg x0]
    exact mul_le_mul (by norm_num) hx x0 (by positivity)
  match c, d, h with
  | .num a, .num b, h =>
    have a0 : (0 : ℝ) ≤ a := by exact_mod_cast h.2.1
    have b0 : (0 : ℝ) ≤ b := by exact_mod_cast h.2.2
    refine ⟨?_, ?_⟩
    · simpa [NearCell, WCell.toFloat] using key a _ a0 (le_max_left (a : ℝ) b)
    · simpa [NearCell, WCell.toFloat] using key b _ b0 (le_max_right (a : ℝ) b)
  | .str a, .str b, h => exact ⟨⟨fun _ => rfl, fun h => absurd rfl h⟩, ⟨fun h => absurd h one_ne_zero, fun _ => rfl⟩⟩

theorem rows_near (hr : DoubleRounding r) : ∀ ks r1 r2, Pairs ks r1 r2 →
    NearRow 0 r1 r2 (r1.map (WCell.toFloat r)) ∧ NearRow 1 r1 r2 (r2.map (WCell.toFloat r))
  | [], [], [], _ => ⟨trivial, trivial⟩
  | _ :: ks, _ :: r1, _ :: r2, hp =>
    ⟨⟨(toFloat_near hr hp.1).1, (rows_near hr ks r1 r2 hp.2).1⟩, ⟨(toFloat_near hr hp.1).2, (rows_near hr ks r1 r2 hp.2).2⟩⟩
  | [], _ :: _, _, hp => hp.elim
  | [], [], _ :: _, hp => hp.elim
  | _ :: _, [], _, hp => hp.elim
  | _ :: _, _ :: _, [], hp => hp.elim

/-- The body of the loop between two rows. -/
theorem cell_near (hr : DoubleRounding r) {T : ℝ} (hT : IsDouble T) (h1 : 275 ≤ T) (h2 : T ≤ 1345) {n : ℕ} (hn : n < 107)
    (hl : 275 + 10 * (n : ℝ) < T) (hu : T < 285 + 10 * (n : ℝ)) {k : Sym} {c d : WCell} (h : Pair k c d) :
    ∃ v, interpolateFl r T (n * 10 + 275) ((n + 1) * 10 + 275) k c d = .ok v ∧
      NearCell ((T - (275 + 10 * n)) / 10) c d v := by
  have t0 : 0 < (T - (275 + 10 * (n : ℝ))) / 10 := by apply div_pos <;> linarith
  have t1 : (T - (275 + 10 * (n : ℝ))) / 10 ≤ 1 := by rw [div_le_one] <;> linarith
  match c, d, h with
  | .str a, .str b, h =>
    refine ⟨.str b, ?_, ⟨fun h => absurd h t0.ne', fun _ => rfl⟩⟩
    unfold interpolateFl
    split_ifs with hs
    · exact congrArg (fun s => Except.ok (WVal.str s)) hs
    · exact absurd h ‹_›
    · rfl
  | .num a, .num b, h =>
    have a0 : (0 : ℝ) ≤ a := by exact_mod_cast h.2.1
    have b0 : (0 : ℝ) ≤ b := by exact_mod_cast h.2.2
    unfold interpolateFl
    split_ifs with hs hp
    · refine ⟨_, rfl, ?_⟩
      have hs : r a = r b := hs
      set M := max (a : ℝ) b
      have aM : (a : ℝ) ≤ M := le_max_left _ _
      have bM : (b : ℝ) ≤ M := le_max_right _ _
      have ha := (hr.close a)
      have hb := (hr.close b)
      rw [abs_of_nonneg a0] at ha
      rw [abs_of_nonneg b0, ← hs] at hb
      have h50 : (2⁻¹ : ℝ) ^ 50 = 8 * 2⁻¹ ^ 53 := by norm_num
      have ha := ha.trans (mul_le_mul_of_nonneg_left aM (by positivity))
      have hb := hb.trans (mul_le_mul_of_nonneg_left bM (by positivity))
      show |r a - _| ≤ 2⁻¹ ^ 50 * M
      rw [h50, mul_assoc]
      rw [abs_le] at ha hb ⊢
      generalize (2⁻¹ : ℝ) ^ 53 * M = B at *
      generalize (T - (275 + 10 * (n : ℝ))) / 10 = t at *
      constructor <;> nlinarith
    · have e10 : r ((((n : ℤ) + 1) * 10 + 275 - ((n : ℤ) * 10 + 275) : ℤ) : ℝ) = 10 := by
        rw [show (((n : ℤ) + 1) * 10 + 275 - ((n : ℤ) * 10 + 275) : ℤ) = 10 by ring]
        exact_mod_cast fixes_int hr (n := 10) (by norm_num)
      have elo : r ((((n : ℤ) * 10 + 275 : ℤ)) : ℝ) = 275 + 10 * n := by
        rw [fixes_int hr (by rw [abs_of_nonneg (by positivity)]; omega)]
        push_cast
        ring
      have ed : r (T - (275 + 10 * (n : ℝ))) = T - (275 + 10 * n) := by
        refine hr.fixes _ ?_
        have := sub_exact hT h1 h2 (g := 275 + 10 * n) (by positivity) (by push_cast; exact hl.le)
        push_cast at this
        exact this
      simp only [e10, elo, ed, pyDiv, show (10 : ℝ) ≠ 0 by norm_num, if_false]
      exact ⟨_, rfl, interpolation_error hr a0 b0 t0.le t1 (by ring)⟩
    · exact absurd h.1 hp

/-- The numbers of the table are not negative. -/
theorem table_pairs : ∀ n ∈ List.range 108, ∃ x ∈ waterTable, x.1 = 275 + 10 * (n : ℚ) ∧ waterShape x.2 = true ∧
    x.2.all (fun c => match c with | .num q => decide (0 < q) | .str _ => true) = true := by
  decide +kernel

theorem pairs_of {r1 r2 : List WCell} (s1 : waterShape r1 = true) (s2 : waterShape r2 = true)
    (p1 : r1.all (fun c => match c with | .num q => decide (0 < q) | .str _ => true) = true)
    (p2 : r2.all (fun c => match c with | .num q => decide (0 < q) | .str _ => true) = true) : Pairs waterKeys r1 r2 := by
  obtain ⟨a, b, c, d, e, f, g, p, x, y, z, rfl⟩ := waterShape_cases s1
  obtain ⟨a', b', c', d', e', f', g', p', x', y', z', rfl⟩ := waterShape_cases s2
  simp only [List.all_cons, List.all_nil, Bool.and_eq_true, decide_eq_true_eq, true_and, and_true] at p1 p2
  obtain ⟨h1, h2, h3, h4, h5, h6, h7, h8, h9, h10⟩ := p1
  obtain ⟨g1, g2, g3, g4, g5, g6, g7, g8, g9, g10⟩ := p2
  exact ⟨⟨by decide, h1.le, g1.le⟩, ⟨by decide, h2.le, g2.le⟩, ⟨by decide, h3.le, g3.le⟩, ⟨by decide, h4.le, g4.le⟩,
    ⟨by decide, h5.le, g5.le⟩, ⟨by decide, h6.le, g6.le⟩, ⟨by decide, h7.le, g7.le⟩, rfl, ⟨by decide, h8.le, g8.le⟩,
    ⟨by decide, h9.le, g9.le⟩, ⟨by decide, h10.le, g10.le⟩, trivial⟩

theorem pairs_grid {n : ℕ} (hn : n < 107) {r1 r2 : List WCell} (h1 : ((275 + 10 * (n : ℚ)), r1) ∈ waterTable)
    (h2 : ((285 + 10 * (n : ℚ)), r2) ∈ waterTable) : Pairs waterKeys r1 r2 := by
  obtain ⟨⟨q, x⟩, hx, rfl, hs, hp⟩ := table_pairs n (List.mem_range.2 (by omega))
  obtain ⟨⟨q', x'⟩, hx', e, hs', hp'⟩ := table_pairs (n + 1) (List.mem_range.2 (by omega))
  have e : q' = 285 + 10 * (n : ℚ) := by rw [show q' = _ from e]; push_cast; ring
  subst e
  obtain rfl := waterTable_unique h1 hx
  obtain rfl := waterTable_unique h2 hx'
  exact pairs_of hs hs' hp hp'

theorem grid_data (hr : DoubleRounding r) {n : ℕ} (hn : n < 108) {row : List WCell}
    (h : ((275 + 10 * (n : ℚ)), row) ∈ waterTable) :
    waterDataFl r (275 + 10 * (n : ℝ)) = .ok (.num (275 + 10 * (n : ℝ)) :: row.map (WCell.toFloat r)) := by
  obtain ⟨⟨q, x⟩, hx, rfl, hs, hp⟩ := table_pairs n (List.mem_range.2 hn)
  obtain rfl := waterTable_unique h hx
  have hn' : (n : ℝ) ≤ 107 := by exact_mod_cast Nat.lt_succ_iff.1 hn
  have h0 : (0 : ℝ) ≤ n := Nat.cast_nonneg n
  have hrow := waterRow_of_mem (k := (n : ℤ) * 10 + 275) h (by push_cast; ring)
  unfold waterDataFl
  rw [if_pos ⟨by linarith, by linarith⟩]
  simp only [index_grid hr hn, Int.floor_natCast, Int.ceil_natCast, getPropertyDataFl, hrow,
    row_same _ _ (pairs_of hs hs hp hp)]

end WaterFloat

variable {r : ℝ → ℝ}

/-- Neighbouring entries differ at most by a factor 1700 (the density at the boiling point). -/
theorem WaterFloat.neighbours : ∀ n ∈ List.range 107, ∀ i ∈ List.range 11, i ≠ 7 →
    0 < gridCell i n ∧ 0 < gridCell i (n + 1) ∧ gridCell i n ≤ 1700 * gridCell i (n + 1) ∧
      gridCell i (n + 1) ≤ 1700 * gridCell i n := by
  decide +kernel

theorem NearRow.get {t : ℝ} : ∀ {r1 r2 : List WCell} {l : List WVal}, NearRow t r1 r2 l → l.length = r1.length ∧
    ∀ (i : ℕ) c d, r1[i]? = some c → r2[i]? = some d → ∃ v, l[i]? = some v ∧ NearCell t c d v
  | [], [], [], _ => ⟨rfl, fun i c d h => by simp at h⟩
  | _ :: r1, _ :: r2, _ :: l, h => by
    obtain ⟨e, ih⟩ := NearRow.get h.2
    refine ⟨by simp [e], fun i c d hc hd => ?_⟩
    match i, hc, hd with
    | 0, hc, hd => cases hc; cases hd; exact ⟨_, rfl, h.1⟩
    | i + 1, hc, hd => exact ih i c d (by simpa using hc) (by simpa using hd)
  | [], _ :: _, _, h => h.elim
  | [], [], _ :: _, h => h.elim
  | _ :: _, [], _, h => h.elim
  | _ :: _, _ :: _, [], h => h.elim

/-! ## Order -/

namespace WaterFloat

theorem all_get {T : ℝ} {lo up : ℤ} : ∀ {ks r1 r2 l}, interpolateAllFl r T lo up ks r1 r2 = .ok l →
    ∀ (i : ℕ) k c d, ks[i]? = some k → r1[i]? = some c → r2[i]? = some d →
      ∃ v, l[i]? = some v ∧ interpolateFl r T lo up k c d = .ok v
  | [], _, _, _, _, i, k, c, d, hk, _, _ => by simp at hk
  | k :: ks, c :: r1, d :: r2, l, h, i, k', c', d', hk, hc, hd => by
    unfold interpolateAllFl at h
    split at h
    · cases h
    · next v hv =>
      split at h
      · cases h
      · next vs hvs =>
        cases h
        match i, hk, hc, hd with
        | 0, hk, hc, hd => cases hk; cases hc; cases hd; exact ⟨v, rfl, hv⟩
        | i + 1, hk, hc, hd => exact all_get hvs i k' c' d' (by simpa using hk) (by simpa using hc) (by simpa using hd)
  | _ :: _, [], _, _, _, _, _, _, _, _, hc, _ => by simp at hc
  | _ :: _, _ :: _, [], _, _, _, _, _, _, _, _, hd => by simp at hd

theorem gridCell_row {i n : ℕ} (hi : i < 11) (h7 : i ≠ 7) (hn : n < 108) :
    ∃ row, ((275 + 10 * (n : ℚ)), row) ∈ waterTable ∧ row[i]? = some (.num (gridCell i n)) := by
  obtain ⟨row, m, s⟩ := waterRow_grid hn
  have e := waterRow_of_mem (k := (n : ℤ) * 10 + 275) m (by push_cast; ring)
  refine ⟨row, m, ?_⟩
  obtain ⟨a, b, c, d, e, f, g, p, x, y, z, rfl⟩ := waterShape_cases s
  simp only [gridCell, e]
  interval_cases i <;> first | exact absurd rfl h7 | rfl

theorem column_grid (hr : DoubleRounding r) {i n : ℕ} (hi : i < 11) (h7 : i ≠ 7) (hn : n < 108) :
    waterColumnFl r i (275 + 10 * (n : ℝ)) = r (gridCell i n) := by
  obtain ⟨row, m, h⟩ := gridCell_row hi h7 hn
  simp [waterColumnFl, grid_data hr hn m, h, WCell.toFloat]

/-- A column strictly between two rows. -/
theorem column_cell (hr : DoubleRounding r) {i n : ℕ} (hi : i < 11) (h7 : i ≠ 7) (hn : n < 107) {T : ℝ} (hT : IsDouble T)
    (hl : 275 + 10 * (n : ℝ) < T) (hu : T < 285 + 10 * (n : ℝ)) :
    waterColumnFl r i T = if r (gridCell i n) = r (gridCell i (n + 1)) then r (gridCell i n) else
      r (r (gridCell i n) +
        r ((T - (275 + 10 * n)) * r (r (r (gridCell i (n + 1)) - r (gridCell i n)) / 10))) := by
  obtain ⟨r1, m1, c1⟩ := gridCell_row hi h7 (show n < 108 by omega)
  obtain ⟨r2, m2, c2⟩ := gridCell_row hi h7 (show n + 1 < 108 by omega)
  rw [show (275 : ℚ) + 10 * ((n + 1 : ℕ) : ℚ) = 285 + 10 * (n : ℚ) by push_cast; ring] at m2
  have hn' : (n : ℝ) ≤ 106 := by exact_mod_cast Nat.lt_succ_iff.1 hn
  have h0 : (0 : ℝ) ≤ n := Nat.cast_nonneg n
  have g1 : (275 : ℝ) ≤ T := by linarith
  have g2 : T ≤ 1345 := by linarith
  obtain ⟨l, hl', -⟩ := row_near (fun k c d h => cell_near hr hT g1 g2 hn hl hu h) _ _ _ (pairs_grid hn m1 m2)
  obtain ⟨a, b⟩ := index_cell hr hT g1 g2 hl hu
  have hr1 := waterRow_of_mem (k := (n : ℤ) * 10 + 275) m1 (by push_cast; ring)
  have hr2 := waterRow_of_mem (k := ((n : ℤ) + 1) * 10 + 275) m2 (by push_cast; ring)
  have hd : waterDataFl r T = .ok (.num T :: l) := by
    unfold waterDataFl
    rw [if_pos ⟨g1, g2⟩]
    simp only [a, b, getPropertyDataFl, hr1, hr2, hl']
  obtain ⟨k, hk, hk'⟩ : ∃ k, waterKeys[i]? = some k ∧ k ≠ c!"Phase" := by
    interval_cases i <;> first
      | exact absurd rfl h7
      | exact ⟨_, rfl, by decide⟩
  obtain ⟨v, hv, hv'⟩ := all_get hl' i k _ _ hk c1 c2
  have e10 : r ((((n : ℤ) + 1) * 10 + 275 - ((n : ℤ) * 10 + 275) : ℤ) : ℝ) = 10 := by
    rw [show (((n : ℤ) + 1) * 10 + 275 - ((n : ℤ) * 10 + 275) : ℤ) = 10 by ring]
    exact_mod_cast fixes_int hr (n := 10) (by norm_num)
  have elo : r ((((n : ℤ) * 10 + 275 : ℤ)) : ℝ) = 275 + 10 * n := by
    rw [fixes_int hr (by rw [abs_of_nonneg (by positivity)]; omega)]
    push_cast
    ring
  have ed : r (T - (275 + 10 * (n : ℝ))) = T - (275 + 10 * n) := by
    refine hr.fixes _ ?_
    have := sub_exact hT g1 g2 (g := 275 + 10 * n) (by positivity) (by push_cast; exact hl.le)
    push_cast at this
    exact this
  unfold interpolateFl at hv'
  simp only [WCell.sameFloat, e10, elo, ed, pyDiv, show (10 : ℝ) ≠ 0 by norm_num, if_false, ne_eq, hk', not_false_iff,
    if_true, WCell.toFloat] at hv'
  split_ifs at hv' ⊢ with hs <;> cases hv' <;> simp [waterColumnFl, hd, hv]

/-- Rounding does not carry the interpolation beyond the rows. -/
theorem stays {r : ℝ → ℝ} (hr : DoubleRounding r) {A B d : ℝ} (hA : IsDouble A) (hB : IsDouble B) (d0 : 0 ≤ d)
    (d1 : d ≤ 10 - 2⁻¹ ^ 44) : min A B ≤ r (A + r (d * r (r (B - A) / 10))) ∧ r (A + r (d * r (r (B - A) / 10))) ≤ max A B := by
  have z : r 0 = 0 := by exact_mod_cast fixes_int hr (n := 0) (by norm_num)
  have cl (x : ℝ) : |r x| ≤ (1 + 2⁻¹ ^ 53) * |x| := by
    have := hr.close x
    have h' := abs_sub_abs_le_abs_sub (r x) x
    linarith
  have bound : |r (d * r (r (B - A) / 10))| ≤ |B - A| := by
    have u1 := cl (B - A)
    have u2 := cl (r (B - A) / 10)
    have u3 := cl (d * r (r (B - A) / 10))
    rw [abs_div, abs_of_pos (show (0 : ℝ) < 10 by norm_num)] at u2
    rw [abs_mul d, abs_of_nonneg d0] at u3
    generalize |r (d * r (r (B - A) / 10))| = p at *
    generalize hq : |r (r (B - A) / 10)| = q at *
    generalize |r (B - A)| = s at *
    have hx := abs_nonneg (B - A)
    generalize |B - A| = x at *
    have q0 : 0 ≤ q := hq ▸ abs_nonneg _
    have v : d * q ≤ (10 - 2⁻¹ ^ 44) * q := mul_le_mul_of_nonneg_right d1 q0
    norm_num at u1 u2 u3 v
    nlinarith
  rw [abs_le] at bound
  rcases le_total A B with h | h
  · rw [min_eq_left h, max_eq_right h]
    rw [abs_of_nonneg (by linarith)] at bound
    have s0 : 0 ≤ r (B - A) := z.symm.le.trans <| hr.mono (by linarith)
    have s1 : 0 ≤ r (r (B - A) / 10) := z.symm.le.trans <| hr.mono (by positivity)
    have s2 : 0 ≤ r (d * r (r (B - A) / 10)) := z.symm.le.trans <| hr.mono (by positivity)
    constructor
    · exact (hr.fixes A hA).symm.le.trans <| hr.mono (by linarith)
    · exact (hr.mono (by linarith)).trans_eq (hr.fixes B hB)
  · rw [min_eq_right h, max_eq_left h]
    rw [abs_of_nonpos (by linarith)] at bound
    have s0 : r (B - A) ≤ 0 := (hr.mono (by linarith)).trans_eq z
    have s1 : r (r (B - A) / 10) ≤ 0 := (hr.mono (by linarith)).trans_eq z
    have s2 : r (d * r (r (B - A) / 10)) ≤ 0 := (hr.mono (mul_nonpos_of_nonneg_of_nonpos d0 s1)).trans_eq z
    constructor
    · exact (hr.fixes B hB).symm.le.trans <| hr.mono (by linarith)
    · exact (hr.mono (by linarith)).trans_eq (hr.fixes A hA)

/-- The distance from the lower row stays clear of 10 K. -/
theorem below_ten {T : ℝ} (hT : IsDouble T) (h1 : 275 ≤ T) {n : ℕ} (hu : T < 285 + 10 * (n : ℝ)) :
    T - (275 + 10 * n) ≤ 10 - 2⁻¹ ^ 44 := by
  have he : (2 : ℝ) ^ (8 : ℤ) ≤ T := by norm_num; linarith
  have := gap' hT he (by norm_num) (g := 285 + 10 * n) (by push_cast; exact hu)
  push_cast at this
  norm_num at this ⊢
  linarith

end WaterFloat

theorem WaterFloat.grid_mono {i : ℕ} (s : ℝ)
    (hs : ∀ n < 107, s * r (gridCell i n) ≤ s * r (gridCell i (n + 1))) {n m : ℕ} (h : n ≤ m) (hm : m < 108) :
    s * r (gridCell i n) ≤ s * r (gridCell i m) := by
  induction m, h using Nat.le_induction with
  | base => exact le_rfl
  | succ m _ ih => exact (ih (by omega)).trans (hs m (by omega))

end Verif
