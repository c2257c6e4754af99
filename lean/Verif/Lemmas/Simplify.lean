import Verif.Spec.Derived
import Verif.Lemmas.Decon
import Mathlib.Tactic.Positivity

/-! # Simplification: termination on every input, preservation, reduced form -/

namespace Verif

/-! ## Absolute exponents under cancelling -/

@[simp] theorem absExp_nil (x : Sym) : absExp x [] = 0 := rfl
@[simp] theorem absExp_cons (x : Sym) (u : BaseUnit) (l : UList) :
    absExp x (u :: l) = (if u.unit = x then |u.exp| else 0) + absExp x l := by simp [absExp]
@[simp] theorem absExp_append (x : Sym) (l l' : UList) :
    absExp x (l ++ l') = absExp x l + absExp x l' := by simp [absExp]

theorem absExp_nonneg (x : Sym) (l : UList) : 0 ≤ absExp x l := by
  induction l with
  | nil => simp
  | cons u l ih => rw [absExp_cons]; split <;> positivity

theorem absExp_map_pow (x : Sym) {n : ℚ} (hn : 0 ≤ n) (l : UList) :
    absExp x (l.map (·.pow n)) = n * absExp x l := by
  induction l with
  | nil => simp
  | cons u l ih =>
    rw [List.map_cons, absExp_cons, absExp_cons, ih]
    simp only [BaseUnit.pow]
    by_cases h : u.unit = x
    · simp only [h, if_true]; rw [abs_mul, abs_of_nonneg hn]; ring
    · simp only [h, if_false]; ring

theorem cancelInner_absExp (x : Sym) (u : BaseUnit) (l : UList) :
    absExp x [(cancelInner u l).1] + absExp x (cancelInner u l).2 ≤ absExp x [u] + absExp x l := by
  induction l generalizing u with
  | nil => rfl
  | cons v l ih =>
    unfold cancelInner
    split
    · rename_i h
      have := ih ⟨u.unit, u.exp - v.exp⟩
      simp only [absExp_cons, absExp_nil, cancelInner_unit, add_zero, abs_zero, ite_self] at *
      have h3 : |u.exp - v.exp| ≤ |u.exp| + |v.exp| := abs_sub u.exp v.exp
      rw [← h.1]
      split_ifs at * <;> linarith
    · have := ih u
      simp only [absExp_cons, absExp_nil, cancelInner_unit, add_zero] at *
      linarith

theorem cancelInner_absExp_drop (x : Sym) (t : ℚ) (ht : 0 ≤ t) (u : BaseUnit) (l : UList)
    (hx : u.unit = x) (hu : 0 < u.exp) (hm : (⟨x, t⟩ : BaseUnit) ∈ l) :
    absExp x [(cancelInner u l).1] + absExp x (cancelInner u l).2 + 2 * min u.exp t
      ≤ absExp x [u] + absExp x l := by
  induction l generalizing u with
  | nil => simp at hm
  | cons v l ih =>
    unfold cancelInner
    by_cases hv : u.unit = v.unit
    · rw [if_pos ⟨hv, hu.ne'⟩]
      have hle := cancelInner_absExp x ⟨u.unit, u.exp - v.exp⟩ l
      simp only [absExp_cons, absExp_nil, cancelInner_unit, add_zero, abs_zero, ite_self, hx,
        if_true, zero_add, ← hv] at *
      rcases List.mem_cons.1 hm with hm | hm
      · have : v.exp = t := by rw [← hm]
        rw [this] at hle ⊢
        have : |u.exp - t| + 2 * min u.exp t ≤ |u.exp| + |t| := by
          rw [abs_of_pos hu, abs_of_nonneg ht]
          rcases le_total u.exp t with h | h
          · rw [min_eq_left h, abs_of_nonpos (by linarith)]; linarith
          · rw [min_eq_right h, abs_of_nonneg (by linarith)]; linarith
        linarith
      · rcases lt_or_ge v.exp u.exp with h | h
        · have := ih ⟨x, u.exp - v.exp⟩ rfl (by simpa using h) hm
          simp only [if_true] at this
          have h1 := abs_of_pos hu
          have h2 : |u.exp - v.exp| = u.exp - v.exp := abs_of_pos (by linarith)
          have h3 : v.exp ≤ |v.exp| := le_abs_self _
          have h4 : min u.exp t ≤ min (u.exp - v.exp) t + |v.exp| := by
            rcases le_total (u.exp - v.exp) t with h | h
            · rw [min_eq_left h]; have := min_le_left u.exp t; linarith
            · rw [min_eq_right h]; have := min_le_right u.exp t
              have := abs_nonneg v.exp; linarith
          rw [h2] at this
          rw [h1]
          rcases le_total 0 v.exp with hv0 | hv0
          · rw [abs_of_nonneg hv0] at *; linarith
          · rw [abs_of_nonpos hv0] at *
            have h5 : min u.exp t ≤ min (u.exp - v.exp) t := min_le_min (by linarith) le_rfl
            linarith
        · have h1 := abs_of_pos hu
          have h2 : |u.exp - v.exp| = v.exp - u.exp := by rw [abs_sub_comm]; exact abs_of_nonneg (by linarith)
          have h3 : |v.exp| = v.exp := abs_of_pos (by linarith)
          have := min_le_left u.exp t
          rw [h1, h3]; rw [h2] at hle; linarith
    · rw [if_neg (by tauto)]
      rcases List.mem_cons.1 hm with hm | hm
      · exact absurd (by rw [hx, ← hm]) hv
      · have := ih u hx hu hm
        simp only [absExp_cons, absExp_nil, cancelInner_unit, add_zero] at *
        linarith

theorem cancelInner_mem_of_ne {x : Sym} {t : ℚ} (u : BaseUnit) (l : UList) (hx : u.unit ≠ x)
    (hm : (⟨x, t⟩ : BaseUnit) ∈ l) : (⟨x, t⟩ : BaseUnit) ∈ (cancelInner u l).2 := by
  induction l generalizing u with
  | nil => simp at hm
  | cons v l ih =>
    unfold cancelInner
    rcases List.mem_cons.1 hm with hm | hm
    · subst hm
      rw [if_neg (by simp [hx])]; simp
    · split <;> simp [ih _ hx hm]
      right; exact ih ⟨u.unit, u.exp - v.exp⟩ hx hm

theorem cancelLoop_absExp (x : Sym) (top bot : UList) :
    absExp x (cancelLoop top bot).1 + absExp x (cancelLoop top bot).2
      ≤ absExp x top + absExp x bot := by
  induction top generalizing bot with
  | nil => simp [cancelLoop]
  | cons u top ih =>
    have h1 := cancelInner_absExp x u bot
    have h2 := ih (cancelInner u bot).2
    simp only [cancelLoop, absExp_cons, absExp_nil, add_zero] at *
    linarith

theorem cancelLoop_absExp_drop (x : Sym) (t : ℚ) (ht : 0 < t) (top bot : UList)
    (hm : (⟨x, t⟩ : BaseUnit) ∈ bot) (hex : ∃ v ∈ top, v.unit = x)
    (hall : ∀ v ∈ top, v.unit = x → t ≤ v.exp) :
    absExp x (cancelLoop top bot).1 + absExp x (cancelLoop top bot).2 + 2 * t
      ≤ absExp x top + absExp x bot := by
  induction top generalizing bot with
  | nil => simp at hex
  | cons u top ih =>
    by_cases hu : u.unit = x
    · have hut := hall u (by simp) hu
      have h1 := cancelInner_absExp_drop x t ht.le u bot hu (by linarith) hm
      have h2 := cancelLoop_absExp x top (cancelInner u bot).2
      rw [min_eq_right hut] at h1
      simp only [cancelLoop, absExp_cons, absExp_nil, add_zero] at *
      linarith
    · have h1 := cancelInner_absExp x u bot
      have h2 := ih (cancelInner u bot).2 (cancelInner_mem_of_ne u bot hu hm)
        (by obtain ⟨v, hv, hvx⟩ := hex
            rcases List.mem_cons.1 hv with rfl | hv
            · exact absurd hvx hu
            · exact ⟨v, hv, hvx⟩)
        (fun v hv => hall v (List.mem_cons_of_mem _ hv))
      simp only [cancelLoop, absExp_cons, absExp_nil, add_zero] at *
      linarith

theorem absExp_filter_split (x : Sym) (l : UList) :
    absExp x (l.filter fun u => 0 < u.exp) +
      absExp x ((l.filter fun u => u.exp < 0).map fun u => ⟨u.unit, -u.exp⟩) = absExp x l := by
  induction l with
  | nil => simp
  | cons u l ih =>
    rcases lt_trichotomy u.exp 0 with h | h | h
    · simp only [List.filter_cons, h, not_lt.2 h.le, decide_true, decide_false, if_true,
        Bool.false_eq_true, if_false, List.map_cons, absExp_cons, abs_neg]
      rw [← ih]; ring
    · simp only [List.filter_cons, h, lt_irrefl, decide_false,
        Bool.false_eq_true, if_false, absExp_cons, abs_zero, ite_self, zero_add]
      exact ih
    · simp only [List.filter_cons, h, not_lt.2 h.le, decide_true, decide_false, if_true,
        Bool.false_eq_true, if_false, absExp_cons]
      rw [← ih]; ring

theorem absExp_filter_ne (x : Sym) (l : UList) :
    absExp x (l.filter fun u => u.exp ≠ 0) = absExp x l := by
  induction l with
  | nil => simp
  | cons u l ih =>
    by_cases h : u.exp = 0
    · simp only [List.filter_cons, h, ne_eq, not_true_eq_false, decide_false, Bool.false_eq_true,
        if_false, absExp_cons, abs_zero, ite_self, zero_add]; exact ih
    · simp only [List.filter_cons, h, ne_eq, not_false_eq_true, decide_true, if_true, absExp_cons]
      rw [← ih]

theorem cancelUnits_absExp_eq (x : Sym) (top bot : UList) :
    absExp x (cancelUnits top bot).1 + absExp x (cancelUnits top bot).2 =
      absExp x (cancelLoop top bot).1 + absExp x (cancelLoop top bot).2 := by
  unfold cancelUnits
  simp only [absExp_append]
  rw [absExp_filter_ne, ← add_assoc, absExp_filter_split]

/-! ## Counting matches -/

theorem lowerMatches_inner (u1 : BaseUnit) (l : UList) (n : ℚ) :
    let r := lowerInner l n u1
    r ≤ n ∧ (∀ u2 ∈ l, u1.unit = u2.unit → r ≤ u2.exp / u1.exp) ∧
      (∀ m, m ≤ n → (∀ u2 ∈ l, u1.unit = u2.unit → m ≤ u2.exp / u1.exp) → m ≤ r) := by
  induction l generalizing n with
  | nil => simp [lowerInner]
  | cons v l ih =>
    intro r
    set n' := (if u1.unit = v.unit then (if v.exp / u1.exp < n then v.exp / u1.exp else n) else n)
      with hn'
    obtain ⟨h1, h2, h3⟩ := ih n'
    have hn1 : n' ≤ n := by rw [hn']; split_ifs <;> linarith
    refine ⟨h1.trans hn1, ?_, ?_⟩
    · intro u2 hu2 he
      rcases List.mem_cons.1 hu2 with rfl | hu2
      · refine h1.trans ?_
        rw [hn', if_pos he]; split_ifs <;> linarith
      · exact h2 u2 hu2 he
    · intro m hm hall
      refine h3 m ?_ (fun u2 hu2 => hall u2 (List.mem_cons_of_mem _ hu2))
      rw [hn']
      split_ifs with c1 c2
      · exact hall v (by simp) c1
      · exact hm
      · exact hm

theorem lowerMatches_spec (base l : UList) (n : ℚ) :
    lowerMatches base l n ≤ n ∧
    (∀ u1 ∈ base, ∀ u2 ∈ l, u1.unit = u2.unit → lowerMatches base l n ≤ u2.exp / u1.exp) ∧
    (∀ m, m ≤ n → (∀ u1 ∈ base, ∀ u2 ∈ l, u1.unit = u2.unit → m ≤ u2.exp / u1.exp) →
      m ≤ lowerMatches base l n) := by
  unfold lowerMatches
  induction base generalizing n with
  | nil => simp
  | cons u base ih =>
    rw [List.foldl_cons]
    obtain ⟨a1, a2, a3⟩ := lowerMatches_inner u l n
    obtain ⟨h1, h2, h3⟩ := ih (lowerInner l n u)
    refine ⟨h1.trans a1, ?_, ?_⟩
    · intro u1 hu1 u2 hu2 he
      rcases List.mem_cons.1 hu1 with rfl | hu1
      · exact h1.trans (a2 u2 hu2 he)
      · exact h2 u1 hu1 u2 hu2 he
    · intro m hm hall
      exact h3 m (a3 m hm (fun u2 hu2 => hall u (by simp) u2 hu2))
        (fun u1 hu1 => hall u1 (List.mem_cons_of_mem _ hu1))

theorem symbolsIn_iff (base l : UList) :
    symbolsIn base l = true ↔ ∀ u ∈ base, ∃ v ∈ l, v.unit = u.unit := by
  simp [symbolsIn]

theorem expsMatch_iff (base l : UList) :
    expsMatch base l = true ↔ ∀ u ∈ base, ∀ v ∈ l, u.unit = v.unit → u.exp ≤ v.exp := by
  simp [expsMatch, imp_iff_not_or]

theorem countMatches_spec {top bot : UList} {d : Sym} {t b : UList} {r : Option ℚ}
    (hp : parseUnits d = .ok (t, b)) (hpos : ∀ u ∈ t ++ b, 0 < u.exp)
    (h : countMatches top bot d = .ok r) :
    (∀ n, r = some n → 1 ≤ n ∧ n ≤ 100 ∧ Fits t top n ∧ Fits b bot n) := by
  intro n hn
  subst hn
  unfold countMatches at h
  rw [hp] at h
  simp only at h
  split_ifs at h with h1 h2 h3
  · simp at h
  · simp at h
  · simp at h
  · simp only [Bool.or_eq_true, Bool.not_eq_true', not_or, Bool.not_eq_false] at h1 h2 h3
    rw [symbolsIn_iff, symbolsIn_iff] at h1
    rw [expsMatch_iff] at h2 h3
    simp only [Except.ok.injEq, Option.some.injEq] at h
    obtain ⟨a1, a2, a3⟩ := lowerMatches_spec t top 100
    obtain ⟨b1, b2, b3⟩ := lowerMatches_spec b bot (lowerMatches t top 100)
    rw [h] at b1 b2 b3
    refine ⟨?_, b1.trans a1, ⟨h1.1, ?_⟩, ⟨h1.2, ?_⟩⟩
    · refine b3 1 (a3 1 (by norm_num) ?_) ?_
      · intro u1 hu1 u2 hu2 he
        have := hpos u1 (by simp [hu1])
        rw [le_div_iff₀ this, one_mul]; exact h2 u1 hu1 u2 hu2 he
      · intro u1 hu1 u2 hu2 he
        have := hpos u1 (by simp [hu1])
        rw [le_div_iff₀ this, one_mul]; exact h3 u1 hu1 u2 hu2 he
    · intro u hu v hv he
      have hp := hpos u (by simp [hu])
      have := b1.trans (a2 u hu v hv he.symm)
      rw [le_div_iff₀ hp] at this; linarith
    · intro u hu v hv he
      have hp := hpos u (by simp [hu])
      have := b2 u hu v hv he.symm
      rw [le_div_iff₀ hp] at this; linarith

theorem DeconRule.pos {s t b} (h : DeconRule s t b) : ∀ u ∈ t ++ b, 0 < u.exp := by
  cases h <;> simp

theorem mem_deconTable {k d : Sym} (h : (k, d) ∈ deconTable) :
    lookupSym k deconTable = some d ∧ ∃ t b, parseUnits d = .ok (t, b) ∧ DeconRule k t b := by
  simp only [deconTable, List.mem_cons, Prod.mk.injEq, List.not_mem_nil, or_false] at h
  rcases h with ⟨rfl, rfl⟩ | ⟨rfl, rfl⟩ | ⟨rfl, rfl⟩ | ⟨rfl, rfl⟩ | ⟨rfl, rfl⟩ | ⟨rfl, rfl⟩ | ⟨rfl, rfl⟩
  · exact ⟨by decide, _, _, parse_Pa, .Pa⟩
  · exact ⟨by decide, _, _, parse_J, .J⟩
  · exact ⟨by decide, _, _, parse_W, .W⟩
  · exact ⟨by decide, _, _, parse_psi, .psi⟩
  · exact ⟨by decide, _, _, parse_cP, .cP⟩
  · exact ⟨by decide, _, _, parse_C, .C⟩
  · exact ⟨by decide, _, _, parse_V, .V⟩

theorem countMatches_ok (top bot : UList) {d : Sym} {t b : UList} (hp : parseUnits d = .ok (t, b)) :
    ∃ r, countMatches top bot d = .ok r := by
  unfold countMatches; rw [hp]; simp only; split_ifs <;> exact ⟨_, rfl⟩

theorem matchLoop_spec (top bot : UList) (tbl : List (Sym × Sym)) (hsub : ∀ x ∈ tbl, x ∈ deconTable) :
    ∃ ms, matchLoop top bot tbl = .ok ms ∧ ∀ m ∈ ms, 1 ≤ m.2 ∧ m.2 ≤ 100 ∧
      ∃ t b, DeconRule m.1 t b ∧ Fits t top m.2 ∧ Fits b bot m.2 := by
  induction tbl with
  | nil => exact ⟨[], rfl, by simp⟩
  | cons kd tbl ih =>
    obtain ⟨k, d⟩ := kd
    obtain ⟨ms, e, hms⟩ := ih (fun x hx => hsub x (List.mem_cons_of_mem _ hx))
    obtain ⟨-, t, b, hp, hr⟩ := mem_deconTable (hsub (k, d) (by simp))
    obtain ⟨r, er⟩ := countMatches_ok top bot hp
    have hspec := countMatches_spec hp hr.pos er
    cases r with
    | none => exact ⟨ms, by simp [matchLoop, er, e], hms⟩
    | some n =>
      refine ⟨(k, n) :: ms, by simp [matchLoop, er, e], ?_⟩
      intro m hm
      rcases List.mem_cons.1 hm with rfl | hm
      · obtain ⟨h1, h2, h3, h4⟩ := hspec n rfl
        exact ⟨h1, h2, t, b, hr, h3, h4⟩
      · exact hms m hm

theorem bestMatch_mem (m : Sym × ℚ) (ms : List (Sym × ℚ)) : bestMatch m ms ∈ m :: ms := by
  induction ms generalizing m with
  | nil => simp [bestMatch]
  | cons x xs ih =>
    unfold bestMatch
    split
    · have := ih x; simp only [List.mem_cons] at *; tauto
    · have := ih m; simp only [List.mem_cons] at *; tauto

/-! ## One replacement -/

theorem cancelUnits_reduced (top bot : UList) :
    (∀ u ∈ (cancelUnits top bot).1, 0 < u.exp) ∧ (∀ u ∈ (cancelUnits top bot).2, u.exp ≠ 0) := by
  unfold cancelUnits
  constructor
  · intro u hu; simp at hu; exact hu.2
  · intro u hu
    simp at hu
    rcases hu with ⟨v, ⟨-, hv⟩, rfl⟩ | ⟨-, hu⟩
    · simpa using hv.ne
    · exact hu

theorem applyMatch_potential {top bot : UList} {k : Sym} {n : ℚ} {t b : UList} (hr : DeconRule k t b)
    (hn : 1 ≤ n) (ht : Fits t top n) :
    let r := cancelUnits (top ++ b.map (·.pow n)) (bot ++ t.map (·.pow n))
    simplPotential (r.1 ++ [⟨k, n⟩]) r.2 + n ≤ simplPotential top bot := by
  intro r
  have hn0 : 0 ≤ n := by linarith
  have hle : ∀ x, absExp x r.1 + absExp x r.2 ≤
      absExp x top + absExp x bot + n * (absExp x b + absExp x t) := fun x => by
    have h := cancelLoop_absExp x (top ++ b.map (·.pow n)) (bot ++ t.map (·.pow n))
    rw [← cancelUnits_absExp_eq] at h
    simp only [absExp_append, absExp_map_pow x hn0] at h
    change absExp x r.1 + absExp x r.2 ≤ _ at h
    linarith
  have hdrop : ∀ x, (⟨x, 1⟩ : BaseUnit) ∈ t → (∀ u ∈ b, u.unit ≠ x) →
      absExp x r.1 + absExp x r.2 + 2 * n ≤
        absExp x top + absExp x bot + n * (absExp x b + absExp x t) := fun x hx hb => by
    have h := cancelLoop_absExp_drop x n (by linarith) (top ++ b.map (·.pow n))
      (bot ++ t.map (·.pow n))
      (by
        rw [List.mem_append]; right
        exact List.mem_map.2 ⟨_, hx, by simp [BaseUnit.pow]⟩)
      (by
        obtain ⟨v, hv, he⟩ := ht.ex _ hx
        exact ⟨v, by simp [hv], he⟩)
      (by
        intro v hv he
        rcases List.mem_append.1 hv with hv | hv
        · have := ht.le _ hx v hv he; simpa using this
        · obtain ⟨u, hu, rfl⟩ := List.mem_map.1 hv
          exact absurd he (hb u hu))
    rw [← cancelUnits_absExp_eq] at h
    simp only [absExp_append, absExp_map_pow x hn0] at h
    change absExp x r.1 + absExp x r.2 + _ ≤ _ at h
    linarith
  have an : |n| = n := abs_of_nonneg hn0
  unfold simplPotential
  cases hr <;>
  · have k1 := hle c!"kg"
    have k2 := hle c!"J"
    have k3 := hle c!"lbf"
    have k4 := hle c!"g"
    have k5 := hle c!"A"
    first
      | have d := hdrop c!"kg" (by decide) (by decide)
        simp [an] at *
        linarith
      | have d := hdrop c!"J" (by decide) (by decide)
        simp [an] at *
        linarith
      | have d := hdrop c!"lbf" (by decide) (by decide)
        simp [an] at *
        linarith
      | have d := hdrop c!"g" (by decide) (by decide)
        simp [an] at *
        linarith
      | have d := hdrop c!"A" (by decide) (by decide)
        simp [an] at *
        linarith

theorem applyMatch_eq {k : Sym} {t b : UList} (hr : DeconRule k t b) (top bot : UList) (n : ℚ) :
    applyMatch top bot k n = .ok
      ((cancelUnits (top ++ b.map (·.pow n)) (bot ++ t.map (·.pow n))).1 ++ [⟨k, n⟩],
        (cancelUnits (top ++ b.map (·.pow n)) (bot ++ t.map (·.pow n))).2) := by
  unfold applyMatch
  cases hr
  · rw [show lookupSym c!"Pa" deconTable = some c!"kg/m*s^2" by decide]; simp only [parse_Pa]
  · rw [show lookupSym c!"J" deconTable = some c!"kg*m^2/s^2" by decide]; simp only [parse_J]
  · rw [show lookupSym c!"W" deconTable = some c!"J/s" by decide]; simp only [parse_W]
  · rw [show lookupSym c!"psi" deconTable = some c!"lbf/in^2" by decide]; simp only [parse_psi]
  · rw [show lookupSym c!"cP" deconTable = some c!"g/m*s" by decide]; simp only [parse_cP]
  · rw [show lookupSym c!"C" deconTable = some c!"A*s" by decide]; simp only [parse_C]
  · rw [show lookupSym c!"V" deconTable = some c!"kg*m^2/s^3*A" by decide]; simp only [parse_V]

theorem applyMatch_net {V : Type*} [AddCommGroup V] [Module ℚ V] {w : Sym → V} (hw : DerivedLaws w)
    {k : Sym} {t b : UList} (hr : DeconRule k t b) (top bot : UList) (n : ℚ) :
    let r := cancelUnits (top ++ b.map (·.pow n)) (bot ++ t.map (·.pow n))
    net w (r.1 ++ [⟨k, n⟩]) r.2 = net w top bot := by
  intro r
  have h := cancelUnits_net w (top ++ b.map (·.pow n)) (bot ++ t.map (·.pow n))
  change net w r.1 r.2 = _ at h
  have h2 := hr.net hw
  simp only [net, wsum_append, wsum_cons, wsum_nil, add_zero, wsum_map_pow] at *
  rw [add_sub_right_comm, h, ← h2, smul_sub]; abel

/-- Reduced form: positive exponents on top, nonzero ones below. -/
def Reduced (top bot : UList) : Prop := (∀ u ∈ top, 0 < u.exp) ∧ (∀ u ∈ bot, u.exp ≠ 0)

theorem simplPotential_nonneg (top bot : UList) : 0 ≤ simplPotential top bot := by
  have h := absExp_nonneg
  unfold simplPotential
  have a1 := h c!"kg" top; have a2 := h c!"kg" bot
  have a3 := h c!"J" top; have a4 := h c!"J" bot
  have a5 := h c!"lbf" top; have a6 := h c!"lbf" bot
  have a7 := h c!"g" top; have a8 := h c!"g" bot
  have a9 := h c!"A" top; have a10 := h c!"A" bot
  linarith

theorem simplLoop_spec {V : Type*} [AddCommGroup V] [Module ℚ V] {w : Sym → V} (hw : DerivedLaws w)
    (f : ℕ) : ∀ top bot : UList, simplPotential top bot < f →
    ∃ t b, simplLoop f top bot = .ok (t, b) ∧ net w t b = net w top bot ∧
      (Reduced top bot → Reduced t b) := by
  induction f with
  | zero =>
    intro top bot h
    have := simplPotential_nonneg top bot
    simp at h; linarith
  | succ f ih =>
    intro top bot hf
    obtain ⟨ms, e, hms⟩ := matchLoop_spec top bot deconTable (fun x h => h)
    cases ms with
    | nil => exact ⟨top, bot, by simp [simplLoop, e], rfl, id⟩
    | cons m ms =>
      by_cases hs : ((m :: ms).map (·.2)).sum = 0
      · exact ⟨top, bot, by simp only [simplLoop, e, hs, if_true], rfl, id⟩
      · obtain ⟨h1, -, t, b, hr, ht, hb⟩ := hms _ (bestMatch_mem m ms)
        have hpot := applyMatch_potential (bot := bot) hr h1 ht
        have hnet := applyMatch_net hw hr top bot (bestMatch m ms).2
        have hred := cancelUnits_reduced (top ++ b.map (·.pow (bestMatch m ms).2))
          (bot ++ t.map (·.pow (bestMatch m ms).2))
        obtain ⟨t', b', e', hn', hr'⟩ := ih _ _ (lt_of_le_of_lt (le_sub_iff_add_le.2 hpot) (by
          push_cast at hf; linarith))
        refine ⟨t', b', ?_, hn'.trans hnet, fun _ => hr' ⟨?_, hred.2⟩⟩
        · simp only [simplLoop, e, hs, if_false, applyMatch_eq hr]
          exact e'
        · intro u hu
          rcases List.mem_append.1 hu with hu | hu
          · exact hred.1 u hu
          · simp at hu; subst hu; linarith

theorem simpl_parse1 : parseUnits c!"kg/s^3*K" = .ok ([⟨c!"kg", 1⟩], [⟨c!"s", 3⟩, ⟨c!"K", 1⟩]) := by
  decide +kernel
theorem simpl_parse2 : parseUnits c!"kg/K*s^3" = .ok ([⟨c!"kg", 1⟩], [⟨c!"K", 1⟩, ⟨c!"s", 3⟩]) := by
  decide +kernel
theorem simpl_parse3 : parseUnits c!"kg/s^3" = .ok ([⟨c!"kg", 1⟩], [⟨c!"s", 3⟩]) := by
  decide +kernel
theorem simpl_parse4 : parseUnits c!"W/m^2*K" = .ok ([⟨c!"W", 1⟩], [⟨c!"m", 2⟩, ⟨c!"K", 1⟩]) := by
  decide +kernel
theorem simpl_parse5 : parseUnits c!"W/m^2" = .ok ([⟨c!"W", 1⟩], [⟨c!"m", 2⟩]) := by
  decide +kernel

theorem commonSimplifications_eq (top bot : UList) : commonSimplifications top bot = .ok (
    if [⟨c!"kg", 1⟩] = top ∧ [⟨c!"s", 3⟩, ⟨c!"K", 1⟩] = bot then
      ([⟨c!"W", 1⟩], [⟨c!"m", 2⟩, ⟨c!"K", 1⟩])
    else if [⟨c!"kg", 1⟩] = top ∧ [⟨c!"K", 1⟩, ⟨c!"s", 3⟩] = bot then
      ([⟨c!"W", 1⟩], [⟨c!"m", 2⟩, ⟨c!"K", 1⟩])
    else if [⟨c!"kg", 1⟩] = top ∧ [⟨c!"s", 3⟩] = bot then ([⟨c!"W", 1⟩], [⟨c!"m", 2⟩])
    else (top, bot)) := by
  unfold commonSimplifications simplTable
  simp only [commonSimplLoop, simpl_parse1, simpl_parse2, simpl_parse3, simpl_parse4, simpl_parse5]
  split_ifs <;> rfl

theorem commonSimplifications_spec {V : Type*} [AddCommGroup V] [Module ℚ V] {w : Sym → V}
    (hw : DerivedLaws w) (top bot : UList) :
    ∃ t b, commonSimplifications top bot = .ok (t, b) ∧ net w t b = net w top bot ∧
      (Reduced top bot → Reduced t b) := by
  rw [commonSimplifications_eq]
  have hW := hw.watt
  have hJ := hw.joule
  split_ifs with h1 h2 h3
  · obtain ⟨rfl, rfl⟩ := h1
    refine ⟨_, _, rfl, ?_, fun _ => ⟨by simp, by simp⟩⟩
    simp only [net, wsum_cons, wsum_nil, hW, hJ]; module
  · obtain ⟨rfl, rfl⟩ := h2
    refine ⟨_, _, rfl, ?_, fun _ => ⟨by simp, by simp⟩⟩
    simp only [net, wsum_cons, wsum_nil, hW, hJ]; module
  · obtain ⟨rfl, rfl⟩ := h3
    refine ⟨_, _, rfl, ?_, fun _ => ⟨by simp, by simp⟩⟩
    simp only [net, wsum_cons, wsum_nil, hW, hJ]; module
  · exact ⟨top, bot, rfl, rfl, id⟩

theorem simplifyUnits_spec {V : Type*} [AddCommGroup V] [Module ℚ V] {w : Sym → V}
    (hw : DerivedLaws w) (top bot : UList) :
    ∃ t b, simplifyUnits top bot = .ok (t, b) ∧ net w t b = net w top bot ∧
      (Reduced top bot → Reduced t b) := by
  have hlt : simplPotential top bot < (((simplPotential top bot).num.toNat + 1 : ℕ) : ℚ) := by
    have h0 := simplPotential_nonneg top bot
    set q := simplPotential top bot
    have hq : q ≤ q.num := by
      conv_lhs => rw [← Rat.num_div_den q]
      apply div_le_self
      · exact_mod_cast Rat.num_nonneg.2 h0
      · exact_mod_cast q.pos
    have : ((q.num.toNat : ℕ) : ℚ) = (q.num : ℚ) := by
      have := Int.toNat_of_nonneg (Rat.num_nonneg.2 h0)
      exact_mod_cast this
    push_cast; linarith
  obtain ⟨t, b, e, h1, h2⟩ := simplLoop_spec hw _ top bot hlt
  obtain ⟨t', b', e', h1', h2'⟩ := commonSimplifications_spec hw t b
  exact ⟨t', b', by simp only [simplifyUnits, e, e'], h1'.trans h1, fun h => h2' (h2 h)⟩

end Verif
